import Verif.Model.PolyText
import Verif.Props.Boundary
import Mathlib.Data.Rat.Encodable

/-!
# The texts of boundaries (C106)
-/

namespace Verif
open PolyText Spec

/-! ## Spec -/

/-- A way of writing numbers that can be read back: the text of a number has none of the characters that structure the text of a polygon. -/
structure Spec.Numerals (write : ℚ → Text) (read : Text → Py ℚ) : Prop where
  read_write : ∀ q, read (write q) = .ok q
  nonempty : ∀ q, write q ≠ []
  clean : ∀ q c, c ∈ write q → c ≠ ' ' ∧ c ≠ ',' ∧ c ≠ '(' ∧ c ≠ ')' ∧ c ≠ 'M' ∧ c ≠ 'P'

/-- A polygon with vertices, or a number of polygons with vertices. -/
def Spec.HasVertices : Boundary.Poly → Prop
  | .polygon ring => ring ≠ []
  | .multi rings => rings ≠ [] ∧ ∀ r ∈ rings, r ≠ []

/-! ## Splitting -/

theorem splitLoop_skip (sep acc w r : Text) : splitLoop sep w.length acc (w ++ r) = splitLoop sep 0 acc r := by
  induction w with
  | nil => rfl
  | cons c w ih => simpa [splitLoop] using ih

theorem splitLoop_pass (sep acc w r : Text) (h : ∀ u v, w = u ++ v → v ≠ [] → ¬ sep <+: v ++ r) :
    splitLoop sep 0 acc (w ++ r) = splitLoop sep 0 (w.reverse ++ acc) r := by
  induction w generalizing acc with
  | nil => rfl
  | cons c w ih =>
    have h0 : ¬ sep <+: c :: (w ++ r) := h [] (c :: w) rfl (by simp)
    have h1 : sep.isPrefixOf (c :: (w ++ r)) = false := by
      cases hb : sep.isPrefixOf (c :: (w ++ r)) with
      | false => rfl
      | true => exact absurd (List.isPrefixOf_iff_prefix.1 hb) h0
    have := ih (c :: acc) (fun u v hw hv => h (c :: u) v (by simp [hw]) hv)
    simp only [List.cons_append, splitLoop, h1, Bool.false_eq_true, if_false]
    rw [this]; simp

theorem splitLoop_hit (s : Char) (sep acc r : Text) :
    splitLoop (s :: sep) 0 acc ((s :: sep) ++ r) = acc.reverse :: splitLoop (s :: sep) 0 [] r := by
  have h1 : (s :: sep).isPrefixOf (s :: (sep ++ r)) = true := List.isPrefixOf_iff_prefix.2 ⟨r, rfl⟩
  have := splitLoop_skip (s :: sep) [] sep r
  simp only [List.cons_append, splitLoop, h1, if_true, List.length_cons, Nat.add_sub_cancel]
  rw [this]

/-- A text in which the first character of the separator does not occur is passed. -/
theorem pass_clean (s : Char) (sep w r : Text) (h : s ∉ w) :
    ∀ u v, w = u ++ v → v ≠ [] → ¬ (s :: sep) <+: v ++ r := by
  rintro u (_ | ⟨c, v⟩) hw hv hp
  · exact hv rfl
  · obtain ⟨t, ht⟩ := hp
    simp only [List.cons_append, List.cons.injEq] at ht
    exact h (by rw [hw, ht.1]; simp)

theorem split_one (s : Char) (sep w : Text) (h : s ∉ w) : split (s :: sep) w = [w] := by
  have := splitLoop_pass (s :: sep) [] w [] (pass_clean s sep w [] h)
  simpa [split, splitLoop] using this

theorem split_cons (s : Char) (sep w r : Text) (h : ∀ u v, w = u ++ v → v ≠ [] → ¬ (s :: sep) <+: v ++ ((s :: sep) ++ r)) :
    split (s :: sep) (w ++ ((s :: sep) ++ r)) = w :: split (s :: sep) r := by
  rw [split, splitLoop_pass _ _ _ _ h, splitLoop_hit]; simp [split]

/-- Splitting undoes joining. -/
theorem split_join (s : Char) (sep : Text) : ∀ l : List Text, l ≠ [] → (∀ w ∈ l, s ∉ w) →
    split (s :: sep) ((s :: sep).intercalate l) = l
  | [], h, _ => absurd rfl h
  | [w], _, h => by simpa [List.intercalate] using split_one s sep w (h w (by simp))
  | w :: v :: l, _, h => by
    have ih := split_join s sep (v :: l) (by simp) (fun x hx => h x (by simp [hx]))
    have e : (s :: sep).intercalate (w :: v :: l) = w ++ ((s :: sep) ++ (s :: sep).intercalate (v :: l)) := by
      simp [List.intercalate]
    rw [e, split_cons _ _ _ _ (pass_clean s sep w _ (h w (by simp))), ih]

theorem mem_join (c : Char) (sep : Text) : ∀ l : List Text, c ∈ sep.intercalate l → c ∈ sep ∨ ∃ w ∈ l, c ∈ w
  | [], h => by simp [List.intercalate] at h
  | [w], h => by right; exact ⟨w, by simp, by simpa [List.intercalate] using h⟩
  | w :: v :: l, h => by
    have e : sep.intercalate (w :: v :: l) = w ++ (sep ++ sep.intercalate (v :: l)) := by
      simp [List.intercalate]
    rw [e, List.mem_append, List.mem_append] at h
    rcases h with h | h | h
    · exact Or.inr ⟨w, by simp, h⟩
    · exact Or.inl h
    · rcases mem_join c sep (v :: l) h with h | ⟨x, hx, h⟩
      · exact Or.inl h
      · exact Or.inr ⟨x, by simp [hx], h⟩

/-! ## Vertices and rings -/

theorem vertexText_mem {write : ℚ → Text} {read : Text → Py ℚ} (hN : Spec.Numerals write read) (v : ℚ × ℚ) (c : Char)
    (h : c ∈ vertexText write v) : c ≠ ',' ∧ c ≠ '(' ∧ c ≠ ')' ∧ c ≠ 'M' ∧ c ≠ 'P' := by
  have h : (c ∈ write v.1 ∨ c ∈ [' ']) ∨ c ∈ write v.2 := by
    have h : c ∈ write v.1 ++ [' '] ++ write v.2 := h
    rw [List.mem_append, List.mem_append] at h; exact h
  rcases h with (h | h) | h
  · exact (hN.clean _ _ h).2
  · rw [List.mem_singleton] at h; subst h; decide
  · exact (hN.clean _ _ h).2

theorem ringText_mem {write : ℚ → Text} {read : Text → Py ℚ} (hN : Spec.Numerals write read) (r : List (ℚ × ℚ)) (c : Char)
    (h : c ∈ ringText write r) : c ≠ '(' ∧ c ≠ ')' ∧ c ≠ 'M' ∧ c ≠ 'P' := by
  rcases mem_join c [',', ' '] _ h with h | ⟨w, hw, h⟩
  · rcases List.mem_cons.1 h with h | h
    · subst h; decide
    · rw [List.mem_singleton] at h; subst h; decide
  · obtain ⟨v, -, rfl⟩ := List.mem_map.1 hw
    exact (vertexText_mem hN v c h).2

theorem split_vertex {write : ℚ → Text} {read : Text → Py ℚ} (hN : Spec.Numerals write read) (v : ℚ × ℚ) :
    split [' '] (vertexText write v) = [write v.1, write v.2] := by
  have e : vertexText write v = write v.1 ++ ([' '] ++ write v.2) := by
    show write v.1 ++ [' '] ++ write v.2 = _; simp
  rw [e, split_cons ' ' [] _ _ (pass_clean ' ' [] _ _ (fun h => (hN.clean _ _ h).1 rfl)),
    split_one ' ' [] _ (fun h => (hN.clean _ _ h).1 rfl)]

theorem numbers_fst {write : ℚ → Text} {read : Text → Py ℚ} (hN : Spec.Numerals write read) : ∀ r : List (ℚ × ℚ),
    numbers read 0 (r.map (vertexText write)) = .ok (r.map Prod.fst)
  | [] => rfl
  | v :: r => by
    have ih := numbers_fst hN r
    have hs := split_vertex hN v
    unfold numbers at ih ⊢
    rw [List.map_cons, List.mapM_cons, ih]
    show (do let b ← (do let w ← at? (split [' '] (vertexText write v)) 0; read w); _) = _
    rw [hs]
    simp [at?, bind, Except.bind, hN.read_write, pure, Except.pure]

theorem numbers_snd {write : ℚ → Text} {read : Text → Py ℚ} (hN : Spec.Numerals write read) : ∀ r : List (ℚ × ℚ),
    numbers read 1 (r.map (vertexText write)) = .ok (r.map Prod.snd)
  | [] => rfl
  | v :: r => by
    have ih := numbers_snd hN r
    have hs := split_vertex hN v
    unfold numbers at ih ⊢
    rw [List.map_cons, List.mapM_cons, ih]
    show (do let b ← (do let w ← at? (split [' '] (vertexText write v)) 1; read w); _) = _
    rw [hs]
    simp [at?, bind, Except.bind, hN.read_write, pure, Except.pure]

theorem lstrip_vertex {write : ℚ → Text} {read : Text → Py ℚ} (hN : Spec.Numerals write read) (v : ℚ × ℚ) :
    lstrip (vertexText write v) = vertexText write v ∧ lstrip (' ' :: vertexText write v) = vertexText write v := by
  have h : lstrip (vertexText write v) = vertexText write v := by
    have hc := hN.clean v.1
    have hn := hN.nonempty v.1
    unfold vertexText lstrip
    cases hw : write v.1 with
    | nil => exact absurd hw hn
    | cons c w =>
      have : c ≠ ' ' := (hc c (by rw [hw]; simp)).1
      simp [this]
  refine ⟨h, ?_⟩
  have : lstrip (' ' :: vertexText write v) = lstrip (vertexText write v) := by simp [lstrip]
  rw [this, h]

theorem split_comma : ∀ (w : Text) (l : List Text), (∀ v ∈ w :: l, ',' ∉ v) →
    split [','] (([',', ' '] : Text).intercalate (w :: l)) = w :: l.map (fun v => ' ' :: v)
  | w, [], h => by simpa [List.intercalate] using split_one ',' [] w (h w (by simp))
  | w, v :: l, h => by
    have ih := split_comma (' ' :: v) l (by
      intro x hx hc
      rcases List.mem_cons.1 hx with rfl | hx
      · exact h v (by simp) (by simpa using hc)
      · exact h x (by simp [hx]) hc)
    have e : ([',', ' '] : Text).intercalate (w :: v :: l) =
        w ++ ([','] ++ ([',', ' '] : Text).intercalate ((' ' :: v) :: l)) := by
      cases l <;> simp [List.intercalate]
    rw [e, split_cons ',' [] _ _ (pass_clean ',' [] w _ (h w (by simp))), ih]
    rfl

/-- Reading a ring in the branch of two polygons. -/
theorem split_ring_multi {write : ℚ → Text} {read : Text → Py ℚ} (hN : Spec.Numerals write read) (r : List (ℚ × ℚ)) (hr : r ≠ []) :
    (split [','] (ringText write r)).map lstrip = r.map (vertexText write) := by
  cases r with
  | nil => exact absurd rfl hr
  | cons v r =>
    have h := split_comma (vertexText write v) (r.map (vertexText write)) (by
      intro x hx hc
      rw [← List.map_cons] at hx
      obtain ⟨u, -, rfl⟩ := List.mem_map.1 hx
      exact (vertexText_mem hN u ',' hc).1 rfl)
    show (split [','] (([',', ' '] : Text).intercalate (vertexText write v :: r.map (vertexText write)))).map lstrip = _
    rw [h]
    simp only [List.map_cons, List.map_map, (lstrip_vertex hN v).1]
    congr 1
    exact List.map_congr_left (fun u _ => (lstrip_vertex hN u).2)

/-- Reading the ring in the branch of one polygon. -/
theorem split_ring {write : ℚ → Text} {read : Text → Py ℚ} (hN : Spec.Numerals write read) (r : List (ℚ × ℚ)) (hr : r ≠ []) :
    split [',', ' '] (ringText write r) = r.map (vertexText write) := by
  refine split_join ',' [' '] _ (by simpa using hr) ?_
  intro w hw hc
  obtain ⟨u, -, rfl⟩ := List.mem_map.1 hw
  exact (vertexText_mem hN u ',' hc).1 rfl

/-- The end of the text of polygons is found, whatever their number. -/
theorem split_end : ∀ l : List Text, (∀ w ∈ l, ')' ∉ w) →
    ∀ acc, splitLoop [')', ')', ')'] 0 acc (([')', ')', ',', ' ', '(', '('] : Text).intercalate l ++ [')', ')', ')']) =
      [(acc.reverse ++ ([')', ')', ',', ' ', '(', '('] : Text).intercalate l), []]
  | [], _, acc => by
    simp [List.intercalate, splitLoop]
  | [w], h, acc => by
    have e : ([')', ')', ',', ' ', '(', '('] : Text).intercalate [w] = w := by simp [List.intercalate]
    rw [e, splitLoop_pass _ _ _ _ (pass_clean ')' [')', ')'] w _ (h w (by simp)))]
    simp [splitLoop]
  | w :: v :: l, h, acc => by
    have ih := split_end (v :: l) (fun x hx => h x (by simp [hx]))
    have e : ([')', ')', ',', ' ', '(', '('] : Text).intercalate (w :: v :: l) =
        w ++ ([')', ')', ',', ' ', '(', '('] ++ ([')', ')', ',', ' ', '(', '('] : Text).intercalate (v :: l)) := by
      simp [List.intercalate]
    rw [e, List.append_assoc, splitLoop_pass _ _ _ _ (pass_clean ')' [')', ')'] w _ (h w (by simp)))]
    generalize ([')', ')', ',', ' ', '(', '('] : Text).intercalate (v :: l) = rest at ih ⊢
    have := ih ([')', ')', ',', ' ', '(', '('].reverse ++ (w.reverse ++ acc))
    simp only [List.cons_append, List.nil_append, splitLoop, List.isPrefixOf] at this ⊢
    simpa using this

theorem split_absent (sep s : Text) (h : ¬ sep <:+: s) : split sep s = [s] := by
  have := splitLoop_pass sep [] s [] (by
    rintro u v rfl - ⟨t, ht⟩
    refine h ⟨u, t, ?_⟩
    rw [List.append_assoc, ht]; simp)
  simpa [split, splitLoop] using this

/-- The middle of a text between an opening and what follows. -/
theorem split_open (s : Char) (sep w : Text) (h : s ∉ w) : split (s :: sep) ((s :: sep) ++ w) = [[], w] := by
  have := split_cons s sep [] w (by
    rintro u v huv hv
    simp only [List.nil_eq, List.append_eq_nil_iff] at huv
    exact absurd huv.2 hv)
  rw [List.nil_append] at this
  rw [this, split_one s sep w h]

/-! ## C106 -/

/-- C106: the text of a polygon, or of any number of polygons, is read as its vertices; nothing else of the text matters. -/
theorem C106_text {write : ℚ → Text} {read : Text → Py ℚ} (hN : Spec.Numerals write read) (p : Boundary.Poly)
    (hp : Spec.HasVertices p) : fromPolyString read (wkt write p) = Boundary.fromPoly p := by
  cases p with
  | polygon r =>
    have hr : r ≠ [] := hp
    have hmem := ringText_mem hN r
    have eM : "MULTIPOLYGON".toList = 'M' :: "ULTIPOLYGON".toList := by decide
    have eP : "POLYGON ((".toList = 'P' :: "OLYGON ((".toList := by decide
    have hM : ¬ "MULTIPOLYGON".toList <:+: wkt write (.polygon r) := by
      intro h
      have h : 'M' ∈ "POLYGON ((".toList ++ ringText write r ++ "))".toList := h.subset (by rw [eM]; exact List.mem_cons_self)
      rw [List.mem_append, List.mem_append] at h
      rcases h with (h | h) | h
      · exact absurd h (by decide)
      · exact (hmem _ h).2.2.1 rfl
      · exact absurd h (by decide)
    have h1 : split "POLYGON ((".toList (wkt write (.polygon r)) = [[], ringText write r ++ "))".toList] := by
      show split "POLYGON ((".toList ("POLYGON ((".toList ++ ringText write r ++ "))".toList) = _
      rw [List.append_assoc, eP]
      refine split_open 'P' _ _ ?_
      intro h
      rcases List.mem_append.1 h with h | h
      · exact (hmem _ h).2.2.2 rfl
      · exact absurd h (by decide)
    have h2 : split "))".toList (ringText write r ++ "))".toList) = [ringText write r, []] := by
      have := split_cons ')' [')'] (ringText write r) [] (pass_clean ')' [')'] _ _ (fun h => (hmem _ h).2.1 rfl))
      simpa [split, splitLoop] using this
    have h3 := split_ring hN r hr
    have h3 : split ", ".toList (ringText write r) = r.map (vertexText write) := h3
    unfold fromPolyString
    rw [if_neg hM, h1]
    simp only [at?, List.getElem?_cons_succ, List.getElem?_cons_zero, bind, Except.bind, h2, h3, numbers_fst hN, numbers_snd hN]
    rfl
  | multi rs =>
    obtain ⟨hne, hr⟩ : rs ≠ [] ∧ ∀ r ∈ rs, r ≠ [] := hp
    have eM : "MULTIPOLYGON (((".toList = 'M' :: "ULTIPOLYGON (((".toList := by decide
    have hclean : ∀ w ∈ rs.map (ringText write), ')' ∉ w := by
      intro w hw h
      obtain ⟨r, -, rfl⟩ := List.mem_map.1 hw
      exact (ringText_mem hN r _ h).2.1 rfl
    have hM : "MULTIPOLYGON".toList <:+: wkt write (.multi rs) :=
      ⟨[], " (((".toList ++ ((")), ((".toList).intercalate (rs.map (ringText write)) ++ ")))".toList), by
        show [] ++ "MULTIPOLYGON".toList ++ _ = "MULTIPOLYGON (((".toList ++ _ ++ _
        have : "MULTIPOLYGON (((".toList = "MULTIPOLYGON".toList ++ " (((".toList := by decide
        rw [this]; simp only [List.nil_append, List.append_assoc]⟩
    have h1 : split "MULTIPOLYGON (((".toList (wkt write (.multi rs)) =
        [[], (")), ((".toList).intercalate (rs.map (ringText write)) ++ ")))".toList] := by
      show split "MULTIPOLYGON (((".toList ("MULTIPOLYGON (((".toList ++ _ ++ _) = _
      rw [List.append_assoc, eM]
      refine split_open 'M' _ _ ?_
      intro h
      rcases List.mem_append.1 h with h | h
      · rcases mem_join _ _ _ h with h | ⟨w, hw, h⟩
        · exact absurd h (by decide)
        · obtain ⟨r, -, rfl⟩ := List.mem_map.1 hw
          exact (ringText_mem hN r _ h).2.2.1 rfl
      · exact absurd h (by decide)
    have h2 : split ")))".toList ((")), ((".toList).intercalate (rs.map (ringText write)) ++ ")))".toList) =
        [(")), ((".toList).intercalate (rs.map (ringText write)), []] := split_end _ hclean []
    have h3 : split ")), ((".toList ((")), ((".toList).intercalate (rs.map (ringText write))) = rs.map (ringText write) :=
      split_join ')' _ _ (by simpa using hne) hclean
    unfold fromPolyString
    rw [if_pos hM, h1]
    simp only [at?, List.getElem?_cons_succ, List.getElem?_cons_zero, bind, Except.bind, h2, h3]
    match rs, hr with
    | [], _ => exact absurd rfl hne
    | [_], _ => rfl
    | [a, b], hr =>
      have ha : (split ",".toList (ringText write a)).map lstrip = a.map (vertexText write) := split_ring_multi hN a (hr a (by simp))
      have hb : (split ",".toList (ringText write b)).map lstrip = b.map (vertexText write) := split_ring_multi hN b (hr b (by simp))
      simp only [List.map_cons, List.map_nil, ha, hb, numbers_fst hN, numbers_snd hN]
      rfl
    | _ :: _ :: _ :: _, _ => rfl

theorem toPolygon_hasVertices (b : Boundary) : Spec.HasVertices b.toPolygon := by
  unfold Boundary.toPolygon
  split_ifs <;> simp [Spec.HasVertices, Boundary.rectRing]

/-- C106: writing a boundary as a text and reading the text gives a box that covers the same points, and the identical box
(without time) unless it crosses with an edge on the antimeridian. -/
theorem C106_round_trip {write : ℚ → Text} {read : Text → Py ℚ} (hN : Spec.Numerals write read) (b : Boundary) (hv : Valid b)
    (hd : ¬ (b.longMin = 180 ∧ b.longMax = -180)) :
    ∃ b', fromPolyString read (toPolyString write b) = .ok b' ∧ Valid b' ∧ b'.time = [] ∧ (∀ x y, Covers b' x y ↔ Covers b x y) ∧
      ((b.longMin < b.longMax ∨ (b.longMin ≠ 180 ∧ b.longMax ≠ -180)) → b' = { b with time := [] }) := by
  obtain ⟨b', h1, -, h⟩ := C06_polygon_round_trip_partial b hv hd
  exact ⟨b', by rw [toPolyString, C106_text hN _ (toPolygon_hasVertices b), h1], h⟩

/-- C106: boxes with the same text cover the same points: the comparison of meshes, which takes the texts of boxes for the boxes, takes no two different regions for one. -/
theorem C106_same_text {write : ℚ → Text} {read : Text → Py ℚ} (hN : Spec.Numerals write read) (b c : Boundary) (hb : Valid b) (hc : Valid c)
    (hbd : ¬ (b.longMin = 180 ∧ b.longMax = -180)) (hcd : ¬ (c.longMin = 180 ∧ c.longMax = -180))
    (h : toPolyString write b = toPolyString write c) (x y : ℚ) : Covers b x y ↔ Covers c x y := by
  obtain ⟨b', hb1, -, -, hb2, -⟩ := C106_round_trip hN b hb hbd
  obtain ⟨c', hc1, -, -, hc2, -⟩ := C106_round_trip hN c hc hcd
  rw [h, hc1] at hb1
  cases hb1
  rw [← hb2, hc2]

/-- C106: a text without an opening "POLYGON ((", with this one blank, is refused with IndexError. -/
theorem C106_refused (read : Text → Py ℚ) (s : Text) (h : ¬ "POLYGON ((".toList <:+: s) : fromPolyString read s = .error .indexError := by
  unfold fromPolyString
  split_ifs with hM
  · have : ¬ "MULTIPOLYGON (((".toList <:+: s := by
      rintro ⟨u, v, huv⟩
      refine h ⟨u ++ "MULTI".toList, "(".toList ++ v, ?_⟩
      have : "MULTIPOLYGON (((".toList = "MULTI".toList ++ "POLYGON ((".toList ++ "(".toList := by decide
      rw [← huv, this]; simp only [List.append_assoc]
    rw [split_absent _ _ this]; rfl
  · rw [split_absent _ _ h]; rfl

/-! ## Cases -/

/-- There is a way of writing numbers as assumed. -/
theorem numerals_exist : ∃ write read, Spec.Numerals write read :=
  ⟨fun q => List.replicate (Encodable.encode q + 1) '1',
    fun w => match Encodable.decode (α := ℚ) (w.length - 1) with | some q => .ok q | none => .error .valueError,
    fun q => by simp, fun q => by simp, fun q c hc => by rw [List.eq_of_mem_replicate hc]; decide⟩

/-- A box that crosses the antimeridian meets the assumptions. -/
example : ∃ write read b', Spec.Numerals write read ∧
    fromPolyString read (toPolyString write ⟨-70, -60, 170, -175, []⟩) = .ok b' ∧ b' = ⟨-70, -60, 170, -175, []⟩ := by
  obtain ⟨write, read, hN⟩ := numerals_exist
  obtain ⟨b', h, -, -, -, he⟩ := C106_round_trip hN ⟨-70, -60, 170, -175, [0, 13]⟩
    (by refine ⟨by norm_num, by norm_num, by norm_num, by norm_num, by norm_num, Or.inr ⟨0, 13, rfl, by norm_num⟩⟩) (by norm_num)
  exact ⟨write, read, b', hN, h, he (Or.inr (by norm_num))⟩

/-- Reading whole numbers, for the cases. -/
def readWhole (w : Text) : Py ℚ :=
  match w with
  | '-' :: d => if d.all Char.isDigit then .ok (-(d.foldl (fun n c => 10 * n + (c.toNat - 48 : ℕ)) 0 : ℕ)) else .error .valueError
  | d => if d.all Char.isDigit then .ok ((d.foldl (fun n c => 10 * n + (c.toNat - 48 : ℕ)) 0 : ℕ)) else .error .valueError

example : fromPolyString readWhole "POLYGON ((10 -60, 10 -55, 20 -55, 20 -60, 10 -60))".toList = .ok ⟨-60, -55, 10, 20, []⟩ := by
  decide +kernel

example : fromPolyString readWhole
    "MULTIPOLYGON (((170 -60, 170 -55, 180 -55, 180 -60, 170 -60)), ((-180 -60, -180 -55, -170 -55, -170 -60, -180 -60)))".toList =
      .ok ⟨-60, -55, 170, -170, []⟩ := by
  decide +kernel

/-- The text from which `to_polygon` makes its polygon, without the blank, is not read. -/
example : fromPolyString readWhole "POLYGON((10 -60, 10 -55, 20 -55, 20 -60, 10 -60))".toList = .error .indexError :=
  C106_refused _ _ (by decide +kernel)

/-- Three polygons are refused. -/
example : fromPolyString readWhole "MULTIPOLYGON (((1 2, 3 4)), ((1 2, 3 4)), ((1 2, 3 4)))".toList = .error .assertionError := by
  decide +kernel

/-- A polygon with a hole is refused where a number is expected. -/
example : fromPolyString readWhole "POLYGON ((0 0, 0 9, 9 9, 0 0), (1 2, 2 3, 1 2))".toList = .error .valueError := by
  decide +kernel

end Verif
