import Verif.Model.Reproject
import Mathlib.Data.Set.Function
import Mathlib.Data.List.Forall2
import Mathlib.Data.List.Nodup

/-!
# C100: reprojection
-/

namespace Verif
open Reproject

namespace Spec
variable {V : Type}

/-- `r'` is the row `r` moved: the transformation of its columns `x` and `y` gives longitude and latitude, all other
columns stay. -/
def Moved (tr : V → V → V × V) (x y : String) (r r' : String → V) : Prop :=
  r' "long" = (tr (r x) (r y)).1 ∧ r' "lat" = (tr (r x) (r y)).2 ∧
    ∀ c, c ≠ x → c ≠ y → c ≠ "lat" → c ≠ "long" → r' c = r c

/-- A position in each dimension. -/
def IsPos (g : NDSet V) (p : List ℕ) : Prop := List.Forall₂ (fun i d => i < d.2.length) p g.dims

/-- At the position `p`, the coordinate or variable `c` is `v`. -/
def At (g : NDSet V) (p : List ℕ) (c : String) (v : V) : Prop :=
  (∃ (k i : ℕ) (l : List V), p[k]? = some i ∧ g.dims[k]? = some (c, l) ∧ l[i]? = some v) ∨ ∃ f, (c, f) ∈ g.vars ∧ f p = v

/-- Nothing is missing at the position `p`. -/
def Complete (nan : V → Bool) (g : NDSet V) (p : List ℕ) : Prop := IsPos g p ∧ ∀ c v, At g p c v → nan v = false

/-- The row `r` is the point at position `p`, moved. -/
def MovedPoint (tr : V → V → V × V) (x y : String) (g : NDSet V) (p : List ℕ) (r : String → V) : Prop :=
  ∃ vx vy, At g p x vx ∧ At g p y vy ∧ r "long" = (tr vx vy).1 ∧ r "lat" = (tr vx vy).2 ∧
    ∀ c v, At g p c v → c ≠ x → c ≠ y → c ≠ "lat" → c ≠ "long" → r c = v

/-- Two grids have the same points with the same values, up to the names of columns. -/
def SamePoints (ren : String → String) (g g' : NDSet V) : Prop :=
  ∃ σ : List ℕ → List ℕ, Set.BijOn σ {p | IsPos g' p} {p | IsPos g p} ∧
    ∀ p, IsPos g' p → ∀ c v, At g' p c v ↔ ∃ c₀, c = ren c₀ ∧ At g (σ p) c₀ v

/-- The names of dimensions and variables differ, as `xarray` ensures. -/
def DistinctNames (g : NDSet V) : Prop := (g.dims.map (·.1) ++ g.vars.map (·.1)).Nodup

end Spec

section Table
variable {V : Type}

/-- What `reprojectDf` gives where it succeeds. -/
theorem reprojectDf_spec (mkTr : Py (V → V → V × V)) (x y : String) (f : Frame V) :
    (∀ f', reprojectDf mkTr x y f = .ok f' → ∃ tr, mkTr = .ok tr ∧ List.Forall₂ (Spec.Moved tr x y) f.rows f'.rows ∧
      ∀ c, c ∈ f'.cols ↔ c = "lat" ∨ c = "long" ∨ (c ∈ f.cols ∧ c ≠ x ∧ c ≠ y)) ∧
    ((∃ f', reprojectDf mkTr x y f = .ok f') ↔
      (∃ tr, mkTr = .ok tr) ∧ x ∈ f.cols ∧ y ∈ f.cols ∧ (x = y → x = "lat" ∨ x = "long")) := by
  have hrows : ∀ (tr : V → V → V × V) (rows : List (String → V)),
      List.Forall₂ (Spec.Moved tr x y) rows
        (List.zipWith (fun r v => Function.update r "long" v)
          (List.zipWith (fun r v => Function.update r "lat" v) rows
            ((rows.map (fun r => tr (r x) (r y))).map (·.2)))
          ((rows.map (fun r => tr (r x) (r y))).map (·.1))) := by
    intro tr rows
    induction rows with
    | nil => exact .nil
    | cons r rows ih =>
      refine .cons ⟨?_, ?_, ?_⟩ ih
      · simp
      · simp [Function.update]
      · intro c _ _ h1 h2
        simp [Function.update, h1, h2]
  cases mkTr with
  | error e => simp [reprojectDf, bind, Except.bind]
  | ok tr =>
    by_cases hx : x ∈ f.cols
    · by_cases hy : y ∈ f.cols
      · by_cases hl : x = "long"
        · by_cases ha : y = "lat"
          · subst hl ha
            simp only [reprojectDf, bind, Except.bind, pure, Except.pure, hx, hy, not_true_eq_false, if_false, ne_eq,
              setCol, if_true]
            refine ⟨?_, by simp⟩
            intro f' h
            cases h
            refine ⟨tr, rfl, hrows tr f.rows, ?_⟩
            intro c
            by_cases h1 : c = "lat" <;> by_cases h2 : c = "long" <;> simp_all
          · subst hl
            simp only [reprojectDf, bind, Except.bind, pure, Except.pure, hx, hy, not_true_eq_false, if_false, ne_eq,
              setCol, if_true, ha, not_false_eq_true, dropCol]
            refine ⟨?_, by simp⟩
            intro f' h
            cases h
            refine ⟨tr, rfl, hrows tr f.rows, ?_⟩
            intro c
            by_cases h1 : c = "lat" <;> by_cases h2 : c = "long" <;> by_cases h3 : c = y <;>
              split_ifs <;> simp_all
        · by_cases ha : y = "lat"
          · subst ha
            simp only [reprojectDf, bind, Except.bind, pure, Except.pure, hx, hy, not_true_eq_false, if_false, ne_eq,
              setCol, if_true, hl, not_false_eq_true, dropCol]
            refine ⟨?_, by simp⟩
            intro f' h
            cases h
            refine ⟨tr, rfl, hrows tr f.rows, ?_⟩
            intro c
            by_cases h1 : c = "lat" <;> by_cases h2 : c = "long" <;> by_cases h3 : c = x <;>
              split_ifs <;> simp_all
          · by_cases hxy : x = y
            · subst hxy
              simp [reprojectDf, bind, Except.bind, hx, dropCol, hl, ha]
            · have hyx : y ∈ f.cols.filter (fun c => c ≠ x) := by
                simp [hy, Ne.symm hxy]
              simp only [reprojectDf, bind, Except.bind, pure, Except.pure, hx, hy, not_true_eq_false, if_false, ne_eq,
                setCol, if_true, hl, ha, not_false_eq_true, dropCol] at hyx ⊢
              rw [if_pos hyx]
              refine ⟨?_, by simp [hxy]⟩
              intro f' h
              cases h
              refine ⟨tr, rfl, hrows tr f.rows, ?_⟩
              intro c
              by_cases h1 : c = "lat" <;> by_cases h2 : c = "long" <;> by_cases h3 : c = x <;> by_cases h4 : c = y <;>
                split_ifs <;> simp_all
      · simp [reprojectDf, bind, Except.bind, hx, hy, throw, throwThe, MonadExceptOf.throw]
    · simp [reprojectDf, bind, Except.bind, hx, throw, throwThe, MonadExceptOf.throw]

end Table

section Grid
variable {V : Type}

theorem coordAt_iff (dims : List (String × List V)) (h : (dims.map (·.1)).Nodup) (c : String) (p : List ℕ) (v : V) :
    coordAt dims c p = some v ↔
      ∃ (k i : ℕ) (l : List V), p[k]? = some i ∧ dims[k]? = some (c, l) ∧ l[i]? = some v := by
  induction dims generalizing p with
  | nil => simp [coordAt]
  | cons d dims ih =>
    obtain ⟨hd, hn⟩ : (∀ b, (d.1, b) ∉ dims) ∧ (dims.map (·.1)).Nodup := by simpa using h
    cases p with
    | nil => simp [coordAt]
    | cons i p =>
      by_cases hc : d.1 = c
      · simp only [coordAt, hc, if_true]
        constructor
        · intro hv
          exact ⟨0, i, d.2, by simp, by simp [← hc], hv⟩
        · rintro ⟨k, j, l, h1, h2, h3⟩
          cases k with
          | zero => simp at h1 h2; subst h1; rw [h2]; exact h3
          | succ k =>
            simp at h2
            exact absurd (List.mem_of_getElem? h2) (hc ▸ hd l)
      · simp only [coordAt, hc, if_false]
        rw [ih hn]
        constructor
        · rintro ⟨k, j, l, h1, h2, h3⟩
          exact ⟨k + 1, j, l, by simpa using h1, by simpa using h2, h3⟩
        · rintro ⟨k, j, l, h1, h2, h3⟩
          cases k with
          | zero => simp at h2; exact absurd (by rw [h2]) hc
          | succ k => exact ⟨k, j, l, by simpa using h1, by simpa using h2, h3⟩

theorem lookup_iff {A : Type} (l : List (String × A)) (h : (l.map (·.1)).Nodup) (c : String) (a : A) :
    l.lookup c = some a ↔ (c, a) ∈ l := by
  induction l with
  | nil => simp
  | cons d l ih =>
    obtain ⟨hd, hn⟩ : (∀ b, (d.1, b) ∉ l) ∧ (l.map (·.1)).Nodup := by simpa using h
    obtain ⟨d1, d2⟩ := d
    by_cases hc : c = d1
    · subst hc
      simp only [List.lookup_cons_self, Option.some.injEq, List.mem_cons, Prod.mk.injEq, true_and]
      constructor
      · intro h; exact .inl h.symm
      · rintro (h | h)
        · exact h.symm
        · exact absurd h (hd a)
    · rw [List.lookup_cons, beq_false_of_ne hc]
      simp only [List.mem_cons, Prod.mk.injEq, hc, false_and, false_or]
      exact ih hn

theorem at_iff (g : NDSet V) (h : Spec.DistinctNames g) (p : List ℕ) (c : String) (v : V) :
    Spec.At g p c v ↔ coordAt g.dims c p = some v ∨ ∃ f, g.vars.lookup c = some f ∧ f p = v := by
  have h1 := List.nodup_append.1 h
  rw [Spec.At, coordAt_iff _ h1.1]
  simp only [lookup_iff _ h1.2.1]

theorem entryAt_of_at (dflt : V) (g : NDSet V) (h : Spec.DistinctNames g) (p : List ℕ) (c : String) (v : V)
    (ha : Spec.At g p c v) : entryAt dflt g p c = v := by
  have h1 := List.nodup_append.1 h
  rcases (at_iff g h p c v).1 ha with ha | ⟨f, ha, hv⟩
  · simp [entryAt, ha]
  · have : coordAt g.dims c p = none := by
      cases hc : coordAt g.dims c p with
      | none => rfl
      | some w =>
        obtain ⟨k, i, l, -, h2, -⟩ := (coordAt_iff _ h1.1 c p w).1 hc
        have h3 := List.mem_of_getElem? h2
        have h4 := (lookup_iff _ h1.2.1 c f).1 ha
        exact absurd rfl (h1.2.2 c (List.mem_map.2 ⟨_, h3, rfl⟩) c (List.mem_map.2 ⟨_, h4, rfl⟩))
    simp [entryAt, this, ha, hv]

theorem at_exists (g : NDSet V) (p : List ℕ) (hp : Spec.IsPos g p) (c : String)
    (hc : c ∈ g.dims.map (·.1) ++ g.vars.map (·.1)) : ∃ v, Spec.At g p c v := by
  rcases List.mem_append.1 hc with hc | hc
  · obtain ⟨d, hd, rfl⟩ := List.mem_map.1 hc
    obtain ⟨k, hk⟩ := List.mem_iff_getElem?.1 hd
    have hlt : k < g.dims.length := (List.getElem?_eq_some_iff.1 hk).1
    have hlp : k < p.length := by rw [List.Forall₂.length_eq hp]; exact hlt
    have hi := List.Forall₂.get hp hlp hlt
    have hdk : g.dims.get ⟨k, hlt⟩ = d := by
      have := (List.getElem?_eq_some_iff.1 hk).2
      simpa using this
    rw [hdk] at hi
    exact ⟨_, .inl ⟨k, p.get ⟨k, hlp⟩, d.2, by simp, hk, List.getElem?_eq_getElem hi⟩⟩
  · obtain ⟨d, hd, rfl⟩ := List.mem_map.1 hc
    exact ⟨_, .inr ⟨d.2, hd, rfl⟩⟩

theorem at_name {g : NDSet V} {p : List ℕ} {c : String} {v : V} (h : Spec.At g p c v) :
    c ∈ g.dims.map (·.1) ++ g.vars.map (·.1) := by
  rcases h with ⟨k, i, l, -, h, -⟩ | ⟨f, h, -⟩
  · exact List.mem_append_left _ (List.mem_map.2 ⟨_, List.mem_of_getElem? h, rfl⟩)
  · exact List.mem_append_right _ (List.mem_map.2 ⟨_, h, rfl⟩)

theorem mem_positions (sizes : List ℕ) (p : List ℕ) : p ∈ positions sizes ↔ List.Forall₂ (· < ·) p sizes := by
  induction sizes generalizing p with
  | nil => simp [positions]
  | cons n l ih =>
    simp only [positions, List.mem_flatMap, List.mem_range, List.mem_map, ih]
    constructor
    · rintro ⟨i, hi, q, hq, rfl⟩
      exact .cons hi hq
    · intro h
      cases h with
      | cons hi hq => exact ⟨_, hi, _, hq, rfl⟩

theorem positions_nodup (sizes : List ℕ) : (positions sizes).Nodup := by
  induction sizes with
  | nil => simp [positions]
  | cons n l ih =>
    rw [positions, List.nodup_flatMap]
    refine ⟨fun i _ => ih.map (fun a b h => by simpa using h), ?_⟩
    refine List.Pairwise.imp ?_ (List.nodup_range (n := n))
    intro i j hij
    simp only [Function.onFun]
    intro q hq hq'
    obtain ⟨a, -, rfl⟩ := List.mem_map.1 hq
    obtain ⟨b, -, h⟩ := List.mem_map.1 hq'
    simp at h
    exact hij h.1.symm

theorem isPos_iff (g : NDSet V) (p : List ℕ) : Spec.IsPos g p ↔ p ∈ positions (g.dims.map (·.2.length)) := by
  rw [mem_positions, Spec.IsPos, List.forall₂_map_right_iff]

/-- What an accurate reprojection of a grid gives. -/
theorem reproject_grid_spec (L : Libs V) (a b x y : String) (g : NDSet V) (hg : Spec.DistinctNames g) (hab : a ≠ b) (d : XData V)
    (h : reproject L a b x y false (.grid g) = .ok d) :
    ∃ f' tr, d = .table f' ∧ L.mkTr a b = .ok tr ∧
      (∀ c, c ∈ f'.cols ↔ c = "lat" ∨ c = "long" ∨ (c ∈ g.dims.map (·.1) ++ g.vars.map (·.1) ∧ c ≠ x ∧ c ≠ y)) ∧
      ∃ ps : List (List ℕ), ps.Nodup ∧ (∀ p, p ∈ ps ↔ Spec.Complete L.nan g p) ∧
        List.Forall₂ (Spec.MovedPoint tr x y g) ps f'.rows := by
  simp only [reproject, hab, if_false, reprojectXr, Bool.false_eq_true, bind, Except.bind, pure, Except.pure] at h
  cases hr : reprojectDf (L.mkTr a b) x y (dropna L.nan (toFrame L.dflt g)) with
  | error e => rw [hr] at h; cases h
  | ok f' =>
    rw [hr] at h
    cases h
    obtain ⟨tr, htr, hrows, hcols⟩ := (reprojectDf_spec _ x y _).1 f' hr
    obtain ⟨-, hx, hy, -⟩ := (reprojectDf_spec (L.mkTr a b) x y (dropna L.nan (toFrame L.dflt g))).2.1 ⟨f', hr⟩
    have hx' : x ∈ g.dims.map (·.1) ++ g.vars.map (·.1) := hx
    have hy' : y ∈ g.dims.map (·.1) ++ g.vars.map (·.1) := hy
    refine ⟨f', tr, rfl, htr, hcols, ?_⟩
    refine ⟨(positions (g.dims.map (·.2.length))).filter (fun p => (g.dims.map (·.1) ++ g.vars.map (·.1)).all
      (fun c => !L.nan (entryAt L.dflt g p c))), (positions_nodup _).filter _, ?_, ?_⟩
    · intro p
      rw [List.mem_filter, ← isPos_iff, Spec.Complete]
      refine and_congr_right fun hp => ?_
      simp only [List.all_eq_true, Bool.not_eq_true']
      constructor
      · intro h c v hv
        have := h c (at_name hv)
        rwa [entryAt_of_at L.dflt g hg p c v hv] at this
      · intro h c hc
        obtain ⟨v, hv⟩ := at_exists g p hp c hc
        rw [entryAt_of_at L.dflt g hg p c v hv]
        exact h c v hv
    · have he : (dropna L.nan (toFrame L.dflt g)).rows =
          ((positions (g.dims.map (·.2.length))).filter (fun p => (g.dims.map (·.1) ++ g.vars.map (·.1)).all
            (fun c => !L.nan (entryAt L.dflt g p c)))).map (entryAt L.dflt g) := by
        simp only [dropna, toFrame, List.filter_map]
        rfl
      rw [he, List.forall₂_map_left_iff] at hrows
      refine List.forall₂_iff_get.2 ⟨hrows.length_eq, ?_⟩
      intro i h1 h2
      have hm := List.Forall₂.get hrows h1 h2
      have hp := (isPos_iff g _).2 (List.mem_of_mem_filter (List.get_mem _ ⟨i, h1⟩))
      obtain ⟨vx, hvx⟩ := at_exists g _ hp x hx'
      obtain ⟨vy, hvy⟩ := at_exists g _ hp y hy'
      obtain ⟨m1, m2, m3⟩ := hm
      rw [entryAt_of_at L.dflt g hg _ x vx hvx, entryAt_of_at L.dflt g hg _ y vy hvy] at m1 m2
      refine ⟨vx, vy, hvx, hvy, m1, m2, ?_⟩
      intro c v hv c1 c2 c3 c4
      rw [m3 c c1 c2 c3 c4]
      exact entryAt_of_at L.dflt g hg _ c v hv

theorem argsort_perm (le : V → V → Bool) (l : List V) : (argsort le l).Perm (List.range l.length) := by
  have h : (argsort le l).Perm (l.zipIdx.map (·.2)) := (List.mergeSort_perm _ _).map _
  rw [List.zipIdx_map_snd] at h
  rwa [List.range_eq_range']

theorem take_argsort (le : V → V → Bool) (l : List V) :
    take l (argsort le l) = (l.zipIdx.mergeSort (fun a b => le a.1 b.1)).map (·.1) := by
  rw [take, argsort, List.filterMap_map]
  have : ∀ m : List (V × ℕ), (∀ q ∈ m, q ∈ l.zipIdx) →
      m.filterMap ((fun i => l[i]?) ∘ fun x => x.2) = m.map (·.1) := by
    intro m hm
    induction m with
    | nil => rfl
    | cons q m ih =>
      have hq := List.mem_zipIdx_iff_getElem?.1 (hm q (by simp))
      rw [List.filterMap_cons_some (b := q.1) (by simpa using hq), List.map_cons, ih (fun r hr => hm r (by simp [hr]))]
  exact this _ (fun q hq => (List.mergeSort_perm _ _).mem_iff.1 hq)

theorem take_sorted (le : V → V → Bool) (htr : ∀ a b c, le a b → le b c → le a c) (hto : ∀ a b, le a b || le b a)
    (l : List V) : (take l (argsort le l)).Pairwise (fun a b => le a b) := by
  rw [take_argsort, List.pairwise_map]
  exact List.pairwise_mergeSort (fun a b c => htr a.1 b.1 c.1) (fun a b => hto a.1 b.1) _

theorem take_get (le : V → V → Bool) (l : List V) (i : ℕ) (hi : i < l.length) :
    (argsort le l).getD i 0 < l.length ∧ (take l (argsort le l))[i]? = l[(argsort le l).getD i 0]? := by
  have hl : (argsort le l).length = l.length := by rw [(argsort_perm le l).length_eq, List.length_range]
  have hmem : ∀ j ∈ argsort le l, j < l.length := fun j hj => List.mem_range.1 ((argsort_perm le l).mem_iff.1 hj)
  have hg : (argsort le l).getD i 0 = (argsort le l)[i]'(hl ▸ hi) := by simp [List.getD, hl, hi]
  refine ⟨hg ▸ hmem _ (List.getElem_mem _), ?_⟩
  rw [hg, take]
  have : ∀ m : List ℕ, (∀ j ∈ m, j < l.length) → ∀ i (h : i < m.length), (m.filterMap (fun i => l[i]?))[i]? = l[m[i]]? := by
    intro m hm
    induction m with
    | nil => intro i h; simp at h
    | cons j m ih =>
      intro i h
      have hj := hm j (by simp)
      rw [List.filterMap_cons_some (List.getElem?_eq_getElem hj)]
      cases i with
      | zero => simp [hj]
      | succ i => simpa using ih (fun r hr => hm r (by simp [hr])) i (by simpa using h)
  exact this _ hmem i (hl ▸ hi)

theorem take_length (le : V → V → Bool) (l : List V) : (take l (argsort le l)).length = l.length := by
  rw [take_argsort, List.length_map, (List.mergeSort_perm _ _).length_eq, List.length_zipIdx]

theorem isPos_get (g : NDSet V) (p : List ℕ) : Spec.IsPos g p ↔ p.length = g.dims.length ∧
    ∀ (k i : ℕ) (d : String × List V), p[k]? = some i → g.dims[k]? = some d → i < d.2.length := by
  rw [Spec.IsPos, List.forall₂_iff_get]
  refine and_congr_right fun hl => ?_
  constructor
  · intro h k i d h1 h2
    obtain ⟨h1', h1⟩ := List.getElem?_eq_some_iff.1 h1
    obtain ⟨h2', h2⟩ := List.getElem?_eq_some_iff.1 h2
    have := h k h1' h2'
    simp only [List.get_eq_getElem, h1, h2] at this
    exact this
  · intro h k h1 h2
    exact h k _ _ (List.getElem?_eq_getElem h1) (List.getElem?_eq_getElem h2)

/-- Sorting along one dimension keeps the points and puts the coordinates in order. -/
theorem sortby_spec (le : V → V → Bool) (c : String) (g g' : NDSet V) (h : sortby le c g = .ok g') :
    Spec.SamePoints id g g' ∧ g'.dims.map (·.1) = g.dims.map (·.1) ∧
      (∃ k l, g.dims[k]? = some (c, l) ∧ g'.dims = g.dims.set k (c, take l (argsort le l))) ∧
      g'.vars.map (·.1) = g.vars.map (·.1) := by
  rw [sortby] at h
  cases hk : g.dims.findIdx? (fun d => d.1 = c) with
  | none => rw [hk] at h; cases h
  | some k =>
    rw [hk] at h
    dsimp only at h
    cases hd : g.dims[k]? with
    | none => rw [hd] at h; cases h
    | some d =>
      rw [hd] at h
      dsimp only at h
      injection h with h
      obtain ⟨hlt, hc, -⟩ := List.findIdx?_eq_some_iff_getElem.1 hk
      obtain ⟨hlt', hdk⟩ := List.getElem?_eq_some_iff.1 hd
      have hdc : d.1 = c := by rw [hdk] at hc; simpa using hc
      obtain ⟨d1, l⟩ := d
      simp only at hdc
      subst hdc
      dsimp only at h
      have hdims : g'.dims = g.dims.set k (d1, take l (argsort le l)) := by rw [← h]
      have hvars : g'.vars = g.vars.map (fun v => (v.1, fun p => v.2 (p.modify k (fun i => (argsort le l).getD i 0)))) := by
        rw [← h]
      have hpos : ∀ p, Spec.IsPos g' p ↔ Spec.IsPos g p := by
        intro p
        rw [isPos_get, isPos_get, hdims, List.length_set]
        refine and_congr_right fun hl => ?_
        constructor
        · intro hh k' i d' h1 h2
          by_cases hkk : k' = k
          · subst hkk
            have := hh k' i (d1, take l (argsort le l)) h1 (by simp [hlt])
            rw [hd] at h2
            cases h2
            simpa [take_length] using this
          · exact hh k' i d' h1 (by rw [List.getElem?_set_ne (Ne.symm hkk)]; exact h2)
        · intro hh k' i d' h1 h2
          by_cases hkk : k' = k
          · subst hkk
            rw [List.getElem?_set_self hlt] at h2
            cases h2
            simpa [take_length] using hh k' i (d1, l) h1 hd
          · rw [List.getElem?_set_ne (Ne.symm hkk)] at h2
            exact hh k' i d' h1 h2
      have hperm := argsort_perm le l
      have hlen : (argsort le l).length = l.length := by rw [hperm.length_eq, List.length_range]
      have hnd : (argsort le l).Nodup := hperm.nodup_iff.2 List.nodup_range
      have hmaps : ∀ p, Spec.IsPos g p → ∀ φ : ℕ → ℕ, (∀ i, i < l.length → φ i < l.length) →
          Spec.IsPos g (p.modify k φ) := by
        intro p hp φ hφ
        rw [isPos_get] at hp ⊢
        refine ⟨by rw [List.length_modify]; exact hp.1, ?_⟩
        intro k' i d' h1 h2
        rw [List.getElem?_modify] at h1
        by_cases hkk : k = k'
        · subst hkk
          rw [hd] at h2
          cases h2
          cases hq : p[k]? with
          | none => rw [hq] at h1; simp at h1
          | some j =>
            rw [hq] at h1
            simp at h1
            rw [← h1]
            exact hφ j (hp.2 k j _ hq hd)
        · simp [hkk] at h1
          exact hp.2 k' i d' h1 h2
      have hinv : ∀ j, j < l.length → (argsort le l).idxOf j < l.length ∧
          (argsort le l).getD ((argsort le l).idxOf j) 0 = j := by
        intro j hj
        have hm : j ∈ argsort le l := hperm.mem_iff.2 (List.mem_range.2 hj)
        have hi : (argsort le l).idxOf j < (argsort le l).length := List.idxOf_lt_length_iff.2 hm
        exact ⟨hlen ▸ hi, by simp [List.getD, hi]⟩
      have hinj : ∀ i j, i < l.length → j < l.length → (argsort le l).getD i 0 = (argsort le l).getD j 0 → i = j := by
        intro i j hi hj hij
        rw [← hlen] at hi hj
        simp only [List.getD, List.getElem?_eq_getElem hi, List.getElem?_eq_getElem hj, Option.getD_some] at hij
        exact (hnd.getElem_inj_iff).1 hij
      refine ⟨⟨fun p => p.modify k (fun i => (argsort le l).getD i 0), ⟨?_, ?_, ?_⟩, ?_⟩, ?_, ⟨k, l, hd, hdims⟩, ?_⟩
      · intro p hp
        exact hmaps p ((hpos p).1 hp) _ (fun i hi => (take_get le l i hi).1)
      · intro p hp q hq hpq
        have hp' := (isPos_get g p).1 ((hpos p).1 hp)
        have hq' := (isPos_get g q).1 ((hpos q).1 hq)
        refine List.ext_getElem? fun k' => ?_
        have he := congrArg (fun z : List ℕ => z[k']?) hpq
        simp only [List.getElem?_modify] at he
        by_cases hkk : k = k'
        · subst hkk
          have e1 : k < p.length := by rw [hp'.1]; exact hlt
          have e2 : k < q.length := by rw [hq'.1]; exact hlt
          simp only [List.getElem?_eq_getElem e1, List.getElem?_eq_getElem e2, if_true, Option.map_some,
            Option.some.injEq, Option.map_eq_map] at he ⊢
          exact hinj _ _ (hp'.2 k _ _ (List.getElem?_eq_getElem e1) hd) (hq'.2 k _ _ (List.getElem?_eq_getElem e2) hd) he
        · simpa [hkk] using he
      · intro q hq
        have hq' := (isPos_get g q).1 hq
        refine ⟨q.modify k (fun j => (argsort le l).idxOf j), (hpos _).2 (hmaps q hq _ (fun j hj => (hinv j hj).1)), ?_⟩
        refine List.ext_getElem? fun k' => ?_
        simp only [List.getElem?_modify]
        by_cases hkk : k = k'
        · subst hkk
          have e2 : k < q.length := by rw [hq'.1]; exact hlt
          have := (hinv _ (hq'.2 k _ _ (List.getElem?_eq_getElem e2) hd)).2
          simp only [List.getElem?_eq_getElem e2, if_true, Option.map_eq_map, Option.map_some, Option.some.injEq]
          exact this
        · simp [hkk]
      · intro p hp c' v
        have hp' := (isPos_get g p).1 ((hpos p).1 hp)
        simp only [id_eq, exists_eq_left']
        rw [Spec.At, Spec.At]
        refine or_congr ?_ ?_
        · constructor
          · rintro ⟨k', i, m, h1, h2, h3⟩
            rw [hdims] at h2
            by_cases hkk : k = k'
            · subst hkk
              rw [List.getElem?_set_self hlt] at h2
              cases h2
              have hi := hp'.2 k i _ h1 hd
              refine ⟨k, (argsort le l).getD i 0, l, by simp [h1], hd, ?_⟩
              rw [← (take_get le l i hi).2]
              exact h3
            · rw [List.getElem?_set_ne hkk] at h2
              exact ⟨k', i, m, by simp [hkk, h1], h2, h3⟩
          · rintro ⟨k', i, m, h1, h2, h3⟩
            by_cases hkk : k = k'
            · subst hkk
              rw [hd] at h2
              cases h2
              have e1 : k < p.length := by rw [hp'.1]; exact hlt
              have hi := hp'.2 k _ _ (List.getElem?_eq_getElem e1) hd
              simp only [List.getElem?_modify, List.getElem?_eq_getElem e1, if_true, Option.map_eq_map, Option.map_some,
                Option.some.injEq] at h1
              refine ⟨k, p[k], take l (argsort le l), List.getElem?_eq_getElem e1, ?_, ?_⟩
              · rw [hdims, List.getElem?_set_self hlt]
              · rw [(take_get le l _ hi).2, h1]
                exact h3
            · simp only [List.getElem?_modify, hkk, if_false, Option.map_eq_map, Option.map_id'] at h1
              exact ⟨k', i, m, h1, by rw [hdims, List.getElem?_set_ne hkk]; exact h2, h3⟩
        · rw [hvars]
          constructor
          · rintro ⟨f, hf, hv⟩
            obtain ⟨v0, hv0, he⟩ := List.mem_map.1 hf
            cases he
            exact ⟨v0.2, hv0, hv⟩
          · rintro ⟨f, hf, hv⟩
            exact ⟨_, List.mem_map.2 ⟨_, hf, rfl⟩, hv⟩
      · rw [hdims, List.map_set]
        refine List.ext_getElem? fun k' => ?_
        by_cases hkk : k = k'
        · subst hkk
          rw [List.getElem?_set_self (by simpa using hlt), List.getElem?_map, hd]
          rfl
        · rw [List.getElem?_set_ne hkk]
      · rw [hvars, List.map_map]
        rfl

theorem renameDims_spec (x y : String) (g g' : NDSet V) (h : renameDims x y g = .ok g') :
    Spec.SamePoints (fun c => if c = y then "lat" else if c = x then "long" else c) g g' ∧ Spec.DistinctNames g' := by
  rw [renameDims] at h
  dsimp only at h
  split_ifs at h with h1 h2
  injection h with h
  have hdims : g'.dims = g.dims.map (fun d => ((if d.1 = y then "lat" else if d.1 = x then "long" else d.1), d.2)) := by
    rw [← h]
  have hvars : g'.vars = g.vars.map (fun d => ((if d.1 = y then "lat" else if d.1 = x then "long" else d.1), d.2)) := by
    rw [← h]
  have hpos : ∀ p, Spec.IsPos g' p ↔ Spec.IsPos g p := by
    intro p
    rw [Spec.IsPos, Spec.IsPos, hdims, List.forall₂_map_right_iff]
  refine ⟨⟨id, ⟨fun p hp => (hpos p).1 hp, Set.injOn_id _, fun p hp => ⟨p, (hpos p).2 hp, rfl⟩⟩, ?_⟩, ?_⟩
  · intro p _ c v
    simp only [id_eq]
    rw [Spec.At, hdims, hvars]
    constructor
    · rintro (⟨k, i, l, a1, a2, a3⟩ | ⟨f, a1, a2⟩)
      · rw [List.getElem?_map] at a2
        cases hd : g.dims[k]? with
        | none => rw [hd] at a2; cases a2
        | some d =>
          rw [hd] at a2
          injection a2 with a2
          injection a2 with b1 b2
          exact ⟨d.1, b1.symm, .inl ⟨k, i, l, a1, by rw [hd, ← b2], a3⟩⟩
      · obtain ⟨d, hd, he⟩ := List.mem_map.1 a1
        injection he with b1 b2
        exact ⟨d.1, b1.symm, .inr ⟨d.2, hd, by rw [b2]; exact a2⟩⟩
    · rintro ⟨c0, rfl, ⟨k, i, l, a1, a2, a3⟩ | ⟨f, a1, a2⟩⟩
      · exact .inl ⟨k, i, l, a1, by rw [List.getElem?_map, a2]; rfl, a3⟩
      · exact .inr ⟨f, List.mem_map.2 ⟨_, a1, rfl⟩, a2⟩
  · rw [Spec.DistinctNames, hdims, hvars, List.map_map, List.map_map]
    rw [List.map_append, List.map_map, List.map_map] at h2
    exact h2

theorem SamePoints.trans {ren ren' : String → String} {g g' g'' : NDSet V} (h : Spec.SamePoints ren g g')
    (h' : Spec.SamePoints ren' g' g'') : Spec.SamePoints (ren' ∘ ren) g g'' := by
  obtain ⟨σ, hσ, hv⟩ := h
  obtain ⟨τ, hτ, hw⟩ := h'
  refine ⟨σ ∘ τ, hσ.comp hτ, ?_⟩
  intro p hp c v
  rw [hw p hp]
  constructor
  · rintro ⟨c0, rfl, h0⟩
    obtain ⟨c1, rfl, h1⟩ := (hv _ (hτ.1 hp) _ _).1 h0
    exact ⟨c1, rfl, h1⟩
  · rintro ⟨c1, rfl, h1⟩
    exact ⟨_, rfl, (hv _ (hτ.1 hp) _ _).2 ⟨c1, rfl, h1⟩⟩

/-- What a fast reprojection of a grid gives. -/
theorem reproject_fast_spec (L : Libs V) (a b x y : String) (g : NDSet V) (hab : a ≠ b) (d : XData V)
    (htr : ∀ a b c, L.le a b → L.le b c → L.le a c) (hto : ∀ a b, L.le a b || L.le b a)
    (h : reproject L a b x y true (.grid g) = .ok d) :
    ∃ w g', d = .grid g' ∧ L.warp a b (g.dims.map (·.2.length)).sum g = .ok w ∧
      Spec.SamePoints (fun c => if c = y then "lat" else if c = x then "long" else c) w g' ∧
      (∃ l, ("lat", l) ∈ g'.dims) ∧ (∃ l, ("long", l) ∈ g'.dims) ∧
      ∀ c l, (c = "lat" ∨ c = "long") → (c, l) ∈ g'.dims → l.Pairwise (fun u v => L.le u v) := by
  simp only [reproject, hab, if_false, reprojectXr, if_true, bind, Except.bind, pure, Except.pure] at h
  cases hw : L.warp a b (g.dims.map (·.2.length)).sum g with
  | error e => rw [hw] at h; cases h
  | ok w =>
    rw [hw] at h
    dsimp only at h
    cases h1 : renameDims x y w with
    | error e => rw [h1] at h; cases h
    | ok g1 =>
      rw [h1] at h
      dsimp only at h
      cases h2 : sortby L.le "lat" g1 with
      | error e => rw [h2] at h; cases h
      | ok g2 =>
        rw [h2] at h
        dsimp only at h
        cases h3 : sortby L.le "long" g2 with
        | error e => rw [h3] at h; cases h
        | ok g3 =>
          rw [h3] at h
          cases h
          obtain ⟨s1, n1⟩ := renameDims_spec x y w g1 h1
          obtain ⟨s2, d2, ⟨k2, l2, e2, f2⟩, v2⟩ := sortby_spec L.le "lat" g1 g2 h2
          obtain ⟨s3, d3, ⟨k3, l3, e3, f3⟩, v3⟩ := sortby_spec L.le "long" g2 g3 h3
          have hnd : (g3.dims.map (·.1)).Nodup := by
            rw [d3, d2]
            exact (List.nodup_append.1 n1).1
          have hk3 : g3.dims[k3]? = some ("long", take l3 (argsort L.le l3)) := by
            rw [f3, List.getElem?_set_self (List.getElem?_eq_some_iff.1 e3).1]
          have hk2' : g2.dims[k2]? = some ("lat", take l2 (argsort L.le l2)) := by
            rw [f2, List.getElem?_set_self (List.getElem?_eq_some_iff.1 e2).1]
          have hne : k3 ≠ k2 := by
            rintro rfl
            rw [hk2'] at e3
            simp at e3
          have hk2 : g3.dims[k2]? = some ("lat", take l2 (argsort L.le l2)) := by
            rw [f3, List.getElem?_set_ne hne]
            exact hk2'
          have huniq : ∀ c l l', (c, l) ∈ g3.dims → (c, l') ∈ g3.dims → l = l' := by
            intro c l l' m1 m2
            have q1 := (lookup_iff g3.dims hnd c l).2 m1
            rw [(lookup_iff g3.dims hnd c l').2 m2] at q1
            injection q1 with q1
            exact q1.symm
          refine ⟨w, g3, rfl, rfl, (SamePoints.trans s1 (SamePoints.trans s2 s3)), ⟨_, List.mem_of_getElem? hk2⟩,
            ⟨_, List.mem_of_getElem? hk3⟩, ?_⟩
          rintro c l (rfl | rfl) hl
          · rw [huniq _ _ _ hl (List.mem_of_getElem? hk2)]
            exact take_sorted L.le htr hto l2
          · rw [huniq _ _ _ hl (List.mem_of_getElem? hk3)]
            exact take_sorted L.le htr hto l3

end Grid

section Main
variable {V : Type}

/-- A table is reprojected exactly if the projections are known, both columns of coordinates are there, and they are two
columns (or both `lat` or both `long`).  Every row then stays, in order, and is moved; the columns of coordinates give way to
`lat` and `long`. -/
theorem C100_table (L : Libs V) (a b x y : String) (fast : Bool) (f : Frame V) (hab : a ≠ b) :
    ((∃ d, reproject L a b x y fast (.table f) = .ok d) ↔
      (∃ tr, L.mkTr a b = .ok tr) ∧ x ∈ f.cols ∧ y ∈ f.cols ∧ (x = y → x = "lat" ∨ x = "long")) ∧
    ∀ d, reproject L a b x y fast (.table f) = .ok d → ∃ f' tr, d = .table f' ∧ L.mkTr a b = .ok tr ∧
      List.Forall₂ (Spec.Moved tr x y) f.rows f'.rows ∧
      ∀ c, c ∈ f'.cols ↔ c = "lat" ∨ c = "long" ∨ (c ∈ f.cols ∧ c ≠ x ∧ c ≠ y) := by
  have hs := reprojectDf_spec (L.mkTr a b) x y f
  simp only [reproject, hab, if_false, bind, Except.bind, pure, Except.pure]
  cases hr : reprojectDf (L.mkTr a b) x y f with
  | error e =>
    rw [hr] at hs
    refine ⟨?_, by simp⟩
    rw [← hs.2]
    simp
  | ok f' =>
    rw [hr] at hs
    refine ⟨?_, ?_⟩
    · rw [← hs.2]
      simp
    · rintro d ⟨⟩
      obtain ⟨tr, h1, h2, h3⟩ := hs.1 f' rfl
      exact ⟨f', tr, rfl, h1, h2, h3⟩

/-- Without interpolation a grid becomes a table.  Its rows are exactly the points of the grid at which nothing is missing,
each once, moved, with the coordinates in other dimensions and the values of all variables. -/
theorem C100_grid (L : Libs V) (a b x y : String) (g : NDSet V) (hg : Spec.DistinctNames g) (hab : a ≠ b) :
    ((∃ d, reproject L a b x y false (.grid g) = .ok d) ↔
      (∃ tr, L.mkTr a b = .ok tr) ∧ x ∈ g.dims.map (·.1) ++ g.vars.map (·.1) ∧
        y ∈ g.dims.map (·.1) ++ g.vars.map (·.1) ∧ (x = y → x = "lat" ∨ x = "long")) ∧
    ∀ d, reproject L a b x y false (.grid g) = .ok d → ∃ f' tr, d = .table f' ∧ L.mkTr a b = .ok tr ∧
      (∀ c, c ∈ f'.cols ↔ c = "lat" ∨ c = "long" ∨ (c ∈ g.dims.map (·.1) ++ g.vars.map (·.1) ∧ c ≠ x ∧ c ≠ y)) ∧
      ∃ ps : List (List ℕ), ps.Nodup ∧ (∀ p, p ∈ ps ↔ Spec.Complete L.nan g p) ∧
        List.Forall₂ (Spec.MovedPoint tr x y g) ps f'.rows := by
  refine ⟨?_, fun d h => reproject_grid_spec L a b x y g hg hab d h⟩
  have hs := (reprojectDf_spec (L.mkTr a b) x y (dropna L.nan (toFrame L.dflt g))).2
  simp only [reproject, hab, if_false, reprojectXr, Bool.false_eq_true, bind, Except.bind, pure, Except.pure]
  cases hr : reprojectDf (L.mkTr a b) x y (dropna L.nan (toFrame L.dflt g)) with
  | error e =>
    rw [hr] at hs
    exact iff_of_false (by simp) (fun h => by simpa using hs.2 h)
  | ok f' =>
    rw [hr] at hs
    exact iff_of_true ⟨_, rfl⟩ (hs.1 ⟨_, rfl⟩)

/-- With interpolation a grid stays a grid: that of the library, which has as many points along each side as the axes of the
imported one have together, with its points and values, its dimensions renamed, and both axes ascending. -/
theorem C100_fast (L : Libs V) (a b x y : String) (g : NDSet V) (hab : a ≠ b) (d : XData V)
    (htr : ∀ a b c, L.le a b → L.le b c → L.le a c) (hto : ∀ a b, L.le a b || L.le b a)
    (h : reproject L a b x y true (.grid g) = .ok d) :
    ∃ w g', d = .grid g' ∧ L.warp a b (g.dims.map (·.2.length)).sum g = .ok w ∧
      Spec.SamePoints (fun c => if c = y then "lat" else if c = x then "long" else c) w g' ∧
      (∃ l, ("lat", l) ∈ g'.dims) ∧ (∃ l, ("long", l) ∈ g'.dims) ∧
      ∀ c l, (c = "lat" ∨ c = "long") → (c, l) ∈ g'.dims → l.Pairwise (fun u v => L.le u v) :=
  reproject_fast_spec L a b x y g hab d htr hto h

/-- With one name for both projections nothing is changed, whatever the columns are called. -/
theorem C100_same (L : Libs V) (a x y : String) (fast : Bool) (agg : AggType) (d : XData V) :
    reproject L a a x y fast d = .ok d ∧ standardise L agg (1, 1) a a x y fast d = .ok d := by
  constructor
  · simp [reproject]
  · cases d <;> simp [standardise, downsampleAny, bind, Except.bind, pure, Except.pure]

/-- The names of columns that a loader uses when none are given hand the latitudes over as first coordinates.  A projection
that leaves points where they are, such as the same one under another name, therefore exchanges latitude and longitude. -/
theorem C100_default (cls : String) (p : Dict String JVal) (hx : Dict.get? p "x_col" = none)
    (hy : Dict.get? p "y_col" = none) :
    ∃ x y : String, Dict.get? (Params.baseDefaults cls p) "x_col" = some (.str x.toList) ∧
      Dict.get? (Params.baseDefaults cls p) "y_col" = some (.str y.toList) ∧
      ∀ (L : Libs V) (a b : String) (fast : Bool) (f : Frame V) (d : XData V) (tr : V → V → V × V), a ≠ b →
        L.mkTr a b = .ok tr → reproject L a b x y fast (.table f) = .ok d → ∃ f', d = .table f' ∧
          List.Forall₂ (fun r r' => (r' "long", r' "lat") = tr (r "lat") (r "long")) f.rows f'.rows ∧
          ((∀ u v, tr u v = (u, v)) →
            List.Forall₂ (fun r r' => r' "long" = r "lat" ∧ r' "lat" = r "long") f.rows f'.rows) := by
  refine ⟨"lat", "long", ?_, ?_, ?_⟩
  · have hd : ∀ (q : Dict String JVal) (k k' : String) (v : JVal), k ≠ k' →
        Dict.get? (Params.dflt q k v) k' = Dict.get? q k' := by
      intro q k k' v hk
      unfold Params.dflt
      split
      · rfl
      · rw [Dict.get?_set, if_neg hk]
    rw [Params.baseDefaults]
    rw [hd _ _ _ _ (by decide), hd _ _ _ _ (by decide)]
    generalize hq : Params.dflt (Params.dflt (Params.dflt (Params.dflt (Params.dflt (Params.dflt (Params.dflt p
      "dataloader_name" (Params.text cls)) "data_name" .null) "downsample_factors" (.arr [.int 1, .int 1]))
      "aggregate_type" (Params.text "MEAN")) "min_dp" (.int 5)) "in_proj" (Params.text "EPSG:4326"))
      "out_proj" (Params.text "EPSG:4326") = q
    have hn : Dict.get? q "x_col" = none := by
      rw [← hq]
      iterate 7 rw [hd _ _ _ _ (by decide)]
      exact hx
    rw [Params.dflt, hn]
    dsimp only
    rw [Dict.get?_set, if_pos rfl]
    rfl
  · have hd : ∀ (q : Dict String JVal) (k k' : String) (v : JVal), k ≠ k' →
        Dict.get? (Params.dflt q k v) k' = Dict.get? q k' := by
      intro q k k' v hk
      unfold Params.dflt
      split
      · rfl
      · rw [Dict.get?_set, if_neg hk]
    rw [Params.baseDefaults]
    rw [hd _ _ _ _ (by decide)]
    generalize hq : Params.dflt (Params.dflt (Params.dflt (Params.dflt (Params.dflt (Params.dflt (Params.dflt (Params.dflt p
      "dataloader_name" (Params.text cls)) "data_name" .null) "downsample_factors" (.arr [.int 1, .int 1]))
      "aggregate_type" (Params.text "MEAN")) "min_dp" (.int 5)) "in_proj" (Params.text "EPSG:4326"))
      "out_proj" (Params.text "EPSG:4326")) "x_col" (Params.text "lat") = q
    have hn : Dict.get? q "y_col" = none := by
      rw [← hq]
      iterate 8 rw [hd _ _ _ _ (by decide)]
      exact hy
    rw [Params.dflt, hn]
    dsimp only
    rw [Dict.get?_set, if_pos rfl]
    rfl
  · intro L a b fast f d tr hab htr h
    obtain ⟨f', tr', hd, htr', hrows, -⟩ := (C100_table L a b "lat" "long" fast f hab).2 d h
    rw [htr] at htr'
    cases htr'
    refine ⟨f', hd, hrows.imp ?_, fun hid => hrows.imp ?_⟩
    · rintro r r' ⟨h1, h2, -⟩
      rw [h1, h2]
    · rintro r r' ⟨h1, h2, -⟩
      rw [h1, h2, hid]
      exact ⟨rfl, rfl⟩

/-- Data is downsampled before it is reprojected.  A grid without the dimensions `lat` and `long`, as in another projection,
cannot be downsampled; with them it is downsampled first; a table never is. -/
theorem C100_downsample (L : Libs V) (agg : AggType) (ds : ℕ × ℕ) (a b x y : String) (fast : Bool) :
    (∀ g : NDSet V, ds ≠ (1, 1) → Downsample.usesFactors agg →
      ("lat" ∉ g.dims.map (·.1) ∨ "long" ∉ g.dims.map (·.1)) →
      standardise L agg ds a b x y fast (.grid g) = .error .valueError) ∧
    (∀ g g' : NDSet V, ds ≠ (1, 1) → Downsample.usesFactors agg → "lat" ∈ g.dims.map (·.1) → "long" ∈ g.dims.map (·.1) →
      L.coarsen g = .ok g' → standardise L agg ds a b x y fast (.grid g) = reproject L a b x y fast (.grid g')) ∧
    ∀ f : Frame V, standardise L agg ds a b x y fast (.table f) = reproject L a b x y fast (.table f) := by
  refine ⟨?_, ?_, ?_⟩
  · intro g h1 h2 h3
    have : ¬ ("lat" ∈ g.dims.map (·.1) ∧ "long" ∈ g.dims.map (·.1)) := by tauto
    simp only [standardise, downsampleAny, h1, h2, this, if_false, if_true, bind, Except.bind]
  · intro g g' h1 h2 h3 h4 h5
    by_cases hab : a = b
    · simp [standardise, downsampleAny, h1, h2, h3, h4, h5, bind, Except.bind, pure, Except.pure, hab, reproject,
        -List.mem_map]
    · simp [standardise, downsampleAny, h1, h2, h3, h4, h5, bind, Except.bind, pure, Except.pure, hab,
        -List.mem_map]
  · intro f
    by_cases hab : a = b
    · simp [standardise, downsampleAny, bind, Except.bind, pure, Except.pure, hab, reproject]
    · simp [standardise, downsampleAny, bind, Except.bind, hab]

end Main

/-! Examples: a projection that scales and shifts. -/

namespace ReprojectEx

def tr (u v : Option ℚ) : Option ℚ × Option ℚ := (u.map (· / 10), v.map (fun q => q / 10 - 60))

/-- Two times two points; `u` is missing at one and `v` at another. -/
def g : NDSet (Option ℚ) where
  dims := [("y", [some 20, some 10]), ("x", [some 1, some 2])]
  vars := [("u", fun p => if p = [0, 1] then none else some p.sum),
    ("v", fun p => if p = [1, 0] then none else some 7)]

def L : Libs (Option ℚ) where
  dflt := none
  nan := Option.isNone
  le := fun a b => match a, b with
    | none, _ => true
    | _, none => false
    | some a, some b => a ≤ b
  mkTr := fun a b => if a = "EPSG:3412" ∧ b = "EPSG:4326" then .ok tr else
    if a = "epsg:4326" then .ok (fun u v => (u, v)) else .error .exception
  warp := fun _ _ _ g => .ok g
  coarsen := .ok

/-- The values of named columns in all rows. -/
def read {V : Type} (cs : List String) : Py (XData V) → Option (List (List V))
  | .ok (.table f) => some (f.rows.map (fun r => cs.map r))
  | _ => none

/-- Two of the four points of the grid remain. -/
example : read ["lat", "long", "u", "v"] (reproject L "EPSG:3412" "EPSG:4326" "x" "y" false (.grid g)) =
    some [[some (-58), some (1/10), some 0, some 7], [some (-59), some (1/5), some 2, some 7]] := by decide +kernel

example : Spec.DistinctNames g := by
  unfold Spec.DistinctNames
  decide +kernel

/-- A known projection under another name: Lat 10, long 20 becomes lat 20, long 10. -/
example : read ["lat", "long", "t"] (reproject L "epsg:4326" "EPSG:4326" "lat" "long" false
      (.table ⟨["lat", "long", "t"], [fun c => if c = "lat" then some 10 else if c = "long" then some 20 else some 3]⟩)) =
    some [[some 20, some 10, some 3]] := by decide +kernel

/-- Interpolation succeeds on the grid; the latitudes are given in descending order. -/
example : (match reproject L "EPSG:3412" "EPSG:4326" "x" "y" true (.grid g) with
    | .ok (.grid g') => g'.dims.map (·.1) = ["lat", "long"]
    | _ => False) := by
  simp [reproject, reprojectXr, L, g, renameDims, sortby, bind, Except.bind, pure, Except.pure, List.findIdx?_cons]

example : (∀ a b c, L.le a b → L.le b c → L.le a c) ∧ ∀ a b, L.le a b || L.le b a := by
  constructor
  · intro a b c
    rcases a with _ | a <;> rcases b with _ | b <;> rcases c with _ | c <;> simp [L]
    exact le_trans
  · intro a b
    rcases a with _ | a <;> rcases b with _ | b <;> simp [L]
    exact le_total a b

/-- The projected grid cannot be downsampled. -/
example : standardise L .mean (2, 2) "EPSG:3412" "EPSG:4326" "x" "y" false (.grid g) = .error .valueError :=
  (C100_downsample L .mean (2, 2) _ _ _ _ _).1 g (by decide) rfl (by decide)

end ReprojectEx
end Verif
