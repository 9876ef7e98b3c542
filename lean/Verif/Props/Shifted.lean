import Verif.Props.OwnData

/-!
# C126: another place, another time

A mesh depends on latitude and longitude only through where the datapoints lie in the region, and on time only through which datapoints
lie in the time range.
-/

namespace Verif
open Spec

/-! ## Specification -/

/-- The box moved north by `dy` and east by `dx`, with the time range `T`. -/
def Spec.shifted (dy dx : ℚ) (T : List ℤ) (q : Boundary) : Boundary := ⟨q.latMin + dy, q.latMax + dy, q.longMin + dx, q.longMax + dx, T⟩

/-- The datapoints `l'` are the datapoints `l`, moved north by `dy` and east by `dx`, in any order and of any times. -/
def Spec.ShiftedRows {V : Type} (dy dx : ℚ) (l l' : List (Row V)) : Prop :=
  (l.map (fun r => (r.lat + dy, r.long + dx, r.val))).Perm (l'.map (fun r => (r.lat, r.long, r.val)))

/-- The source `s'` has the same parameters as `s`, and its datapoints in the region and time range of `b'` are those of `s` in `b`, moved.  `rows` says
which datapoints are in a box.  Vectors are taken by their mean or number, since among vectors of the same length the first is taken, and
split by distances from the mean. -/
inductive Spec.ShiftedSource (rows : ∀ {V : Type}, Dataset V → Boundary → List (Row V)) (dy dx : ℚ) (b b' : Boundary) :
    Source AnyData AnyCond → Source AnyData AnyCond → Prop
  | scalar {s s' : Source (Dataset (Option ℚ)) Cond} : s'.loader = s.loader → s'.conds = s.conds → s'.fill = s.fill →
      s'.subset.isGrid = s.subset.isGrid → ShiftedRows dy dx (rows s.subset b) (rows s'.subset b') → ShiftedSource rows dy dx b b' (.ofScalar s) (.ofScalar s')
  | vector {s s' : Source (Dataset Vec) VectorHom.Conds} {id name agg minDp} :
      s.loader = vectorLoader id name agg (fun b c _ => VectorHom.hom minDp c b s.subset) →
      s'.loader = vectorLoader id name agg (fun b c _ => VectorHom.hom minDp c b s'.subset) → agg = .mean ∨ agg = .count →
      (∀ c ∈ s.conds, ∃ d, c = ⟨none, some d⟩) → s'.conds = s.conds → s'.fill = s.fill → s'.subset.isGrid = s.subset.isGrid →
      ShiftedRows dy dx (rows s.subset b) (rows s'.subset b') → ShiftedSource rows dy dx b b' (.ofVector s) (.ofVector s')

/-! ## Sources that do the same on two boxes -/

section
variable {S C : Type}

/-- Two sources divide two boxes for the same reasons and give them the same values. -/
structure TwinAt (q q' : Boundary) (s s' : Source S C) : Prop where
  id : s'.loader.id = s.loader.id
  name : s'.loader.dataName = s.loader.dataName
  fill : s'.fill = s.fill
  het : (∃ c ∈ s'.conds, ownVerdict s' q' c = .het) ↔ ∃ c ∈ s.conds, ownVerdict s q c = .het
  free : (∀ c ∈ s'.conds, ownVerdict s' q' c = .clr ∨ ownVerdict s' q' c = .het) ↔ ∀ c ∈ s.conds, ownVerdict s q c = .clr ∨ ownVerdict s q c = .het
  value : s'.loader.getValue q' (s'.loader.trim q' s'.subset) = s.loader.getValue q (s.loader.trim q s.subset)

theorem TwinAt.of_alike {q q' : Boundary} {s s' : Source S C} (hid : s'.loader.id = s.loader.id) (h : AlikeAt q q' s s') : TwinAt q q' s s' := by
  refine ⟨hid, h.name, h.fill, ?_, ?_, h.value⟩
  · rw [h.conds]
    exact exists_congr (fun c => and_congr_right (fun hc => by rw [h.hom c hc]))
  · rw [h.conds]
    exact forall₂_congr (fun c hc => by rw [h.hom c hc])

theorem twinAt_wrap {S' C' : Type} {put : S → S'} {get : S' → Option S} {putC : C → C'} {getC : C' → Option C} (hg : ∀ d, get (put d) = some d)
    (hc : ∀ c, getC (putC c) = some c) {q q' : Boundary} {s s' : Source S C} (h : TwinAt q q' s s') :
    TwinAt q q' (s.wrap put get putC getC) (s'.wrap put get putC getC) := by
  have e1 : ∀ (s : Source S C) (q : Boundary) (P : Verdict → Prop),
      (∃ c ∈ (s.wrap put get putC getC).conds, P (ownVerdict (s.wrap put get putC getC) q c)) ↔ ∃ c ∈ s.conds, P (ownVerdict s q c) := by
    intro s q P
    constructor
    · rintro ⟨c, hcm, hv⟩
      obtain ⟨c0, hm, rfl⟩ := List.mem_map.1 hcm
      rw [ownVerdict_wrap hg hc] at hv
      exact ⟨c0, hm, hv⟩
    · rintro ⟨c, hcm, hv⟩
      exact ⟨putC c, List.mem_map_of_mem hcm, by rw [ownVerdict_wrap hg hc]; exact hv⟩
  have e2 : ∀ (s : Source S C) (q : Boundary) (P : Verdict → Prop),
      (∀ c ∈ (s.wrap put get putC getC).conds, P (ownVerdict (s.wrap put get putC getC) q c)) ↔ ∀ c ∈ s.conds, P (ownVerdict s q c) := by
    intro s q P
    constructor
    · intro k c hcm
      have := k (putC c) (List.mem_map_of_mem hcm)
      rwa [ownVerdict_wrap hg hc] at this
    · intro k c hcm
      obtain ⟨c0, hm, rfl⟩ := List.mem_map.1 hcm
      rw [ownVerdict_wrap hg hc]
      exact k c0 hm
  refine ⟨h.id, h.name, h.fill, ?_, ?_, ?_⟩
  · rw [e1 s' q' (· = .het), e1 s q (· = .het)]; exact h.het
  · rw [e2 s' q' (fun v => v = .clr ∨ v = .het), e2 s q (fun v => v = .clr ∨ v = .het)]; exact h.free
  · simp only [Source.wrap, hg]
    exact h.value

theorem twinAt_divides {zs : List (Source S C × Source S C)} {q q' : Boundary} (h : ∀ z ∈ zs, TwinAt q q' z.1 z.2) :
    Divides ownVerdict (zs.map Prod.fst) q ↔ Divides ownVerdict (zs.map Prod.snd) q' := by
  unfold Divides Wants
  simp only [List.mem_map, forall_exists_index, and_imp, forall_apply_eq_imp_iff₂]
  apply and_congr
  · exact forall₂_congr (fun z hz => (h z hz).free.symm)
  · constructor
    · rintro ⟨s, ⟨z, hz, rfl⟩, hs⟩
      exact ⟨z.2, ⟨z, hz, rfl⟩, (h z hz).het.2 hs⟩
    · rintro ⟨s, ⟨z, hz, rfl⟩, hs⟩
      exact ⟨z.1, ⟨z, hz, rfl⟩, (h z hz).het.1 hs⟩

theorem twin_value {In In' : Boundary → Prop} {s s' : Source S C} {value value' : Boundary → String → Option ℚ} (h : ValuedOn In s value)
    (h' : ValuedOn In' s' value') {q q' : Boundary} (hq : In q) (hq' : In' q') (ha : TwinAt q q' s s') {n : String}
    (hn : n ∈ splitName s.loader.dataName) : value q n = value' q' n := by
  obtain ⟨D, h1, h2, -⟩ := h.gives q hq
  obtain ⟨D', h1', h2', -⟩ := h'.gives q' hq'
  rw [ha.value, h1] at h1'
  cases h1'
  have := (h2 n hn).symm.trans (h2' n (by rw [ha.name]; exact hn))
  simpa using this

/-- Two meshes whose boxes correspond to each other, from sources that do the same on corresponding boxes. -/
theorem moved_cells {In In' start start' : Boundary → Prop} {parts : Boundary → List Boundary} {depth : ℕ} {zs : List (Source S C × Source S C)}
    {value value' : Source S C → Boundary → String → Option ℚ} {cells cells' : List AggCell} {φ : Boundary → Boundary}
    (h : BuiltFrom In start parts depth (zs.map Prod.fst) value cells) (h' : BuiltFrom In' start' parts depth (zs.map Prod.snd) value' cells')
    (hfirst : ∀ q, start q → In q) (hparts : ∀ p q, In p → q ∈ parts p → In q)
    (hfirst' : ∀ q, start' q → In' q) (hparts' : ∀ p q, In' p → q ∈ parts p → In' q)
    (huniq' : ∀ q t t', LineageBy parts start' (q :: t) → LineageBy parts start' (q :: t') → t = t')
    (hs : ∀ q, start q → start' (φ q)) (hs' : ∀ q', start' q' → ∃ q, start q ∧ q' = φ q) (hφ : ∀ q, In q → ∀ p', p' ∈ parts (φ q) ↔ ∃ p ∈ parts q, p' = φ p)
    (ha : ∀ q, In q → In' (φ q) → ∀ z ∈ zs, TwinAt q (φ q) z.1 z.2) :
    (∀ q', (∃ c' ∈ cells', c'.bounds = q') ↔ ∃ c ∈ cells, q' = φ c.bounds) ∧
    ∀ c ∈ cells, ∀ c' ∈ cells', c'.bounds = φ c.bounds → ∀ n, c'.data.get? n = c.data.get? n := by
  have hline : ∀ l, LineageBy parts start l → (∀ q ∈ l, In q) ∧ LineageBy parts start' (l.map φ) := by
    intro l hl
    induction hl with
    | root hq => exact ⟨by simpa using hfirst _ hq, .root (hs _ hq)⟩
    | @quarter q p t _ hq ih =>
      have hp := ih.1 p (by simp)
      refine ⟨?_, .quarter ih.2 ((hφ p hp _).2 ⟨_, hq, rfl⟩)⟩
      intro r hr
      rcases List.mem_cons.1 hr with rfl | hr
      · exact hparts _ _ hp hq
      · exact ih.1 r hr
  have hsub : ∀ l : List (Source S C × Source S C), (∀ z ∈ l, z ∈ [] ++ zs) → ∀ z ∈ l, z ∈ zs := by
    intro l hl z hz; simpa using hl z hz
  constructor
  · intro q'
    have hc := h.boxes
    have hc' := h'.boxes
    have e1 := byTurns_map (f := Prod.fst) (parts := parts) (wants := Divides (ownVerdict (S := S) (C := C))) (sd := depth) zs []
      (fun k q => k = 0 ∧ start q)
    have e2 := byTurns_map (f := Prod.snd) (parts := parts) (wants := Divides (ownVerdict (S := S) (C := C))) (sd := depth) zs []
      (fun k q => k = 0 ∧ start' q)
    rw [List.map_nil] at e1 e2
    rw [e1] at hc
    rw [e2] at hc'
    constructor
    · intro hcm
      obtain ⟨k, hk⟩ := (hc' q').1 hcm
      obtain ⟨q, hk', rfl, -⟩ := byTurns_related (R := fun q' q => q' = φ q ∧ In q ∧ In' q') (parts' := parts)
        (wants' := fun l => Divides ownVerdict (l.map Prod.fst)) (fun q' q ⟨r1, r2, r3⟩ p' hp1 => by
          subst r1
          obtain ⟨p, hp2, rfl⟩ := (hφ _ r2 _).1 hp1
          exact ⟨p, hp2, rfl, hparts _ _ r2 hp2, hparts' _ _ r3 hp1⟩) zs [] _ (fun k q => k = 0 ∧ start q)
        (fun l hl q' q ⟨r1, r2, r3⟩ => (twinAt_divides (fun z hz => by subst r1; exact ha q r2 r3 z (hsub l hl z hz))).symm)
        (fun k q' ⟨hk0, hq⟩ => by
          obtain ⟨q, h1, h2⟩ := hs' q' hq
          exact ⟨q, ⟨hk0, h1⟩, h2, hfirst _ h1, hfirst' _ hq⟩) k _ hk
      obtain ⟨c, hcm, e⟩ := (hc q).2 ⟨k, hk'⟩
      exact ⟨c, hcm, by rw [e]⟩
    · rintro ⟨c, hcm, rfl⟩
      obtain ⟨k, hk⟩ := (hc c.bounds).1 ⟨c, hcm, rfl⟩
      obtain ⟨q', hk', rfl, -⟩ := byTurns_related (R := fun q q' => q' = φ q ∧ In q ∧ In' q') (parts' := parts)
        (wants' := fun l => Divides ownVerdict (l.map Prod.snd)) (fun q q' ⟨r1, r2, r3⟩ p hp1 => by
          subst r1
          have hp2 : φ p ∈ parts (φ q) := (hφ _ r2 _).2 ⟨_, hp1, rfl⟩
          exact ⟨φ p, hp2, rfl, hparts _ _ r2 hp1, hparts' _ _ r3 hp2⟩) zs [] _ (fun k q => k = 0 ∧ start' q)
        (fun l hl q q' ⟨r1, r2, r3⟩ => twinAt_divides (fun z hz => by subst r1; exact ha q r2 r3 z (hsub l hl z hz)))
        (fun k q ⟨hk0, hq⟩ => ⟨φ q, ⟨hk0, hs q hq⟩, rfl, hfirst _ hq, hfirst' _ (hs q hq)⟩) k _ hk
      exact (hc' _).2 ⟨k, hk'⟩
  · intro c hc c' hc' e n
    obtain ⟨t, i1, i2, i3⟩ := h.data c hc
    obtain ⟨t', i1', i2', i3'⟩ := h'.data c' hc'
    have hl := (hline _ i2).2
    rw [List.map_cons, ← e] at hl
    obtain rfl := huniq' _ _ _ i2' hl
    refine (DataAlong.related (fun z hz => ?_) ?_ i3 i3' n).symm
    · have := ha c.bounds (i1 _ (by simp)) (by rw [← e]; exact i1' _ (by simp)) z hz
      exact ⟨this.name.symm, this.fill.symm⟩
    · intro z hz n hn
      have key : ∀ l : List Boundary, (∀ q ∈ l, In q) → (∀ q ∈ l.map φ, In' q) →
          List.Forall₂ (fun p p' => value z.1 p n = value' z.2 p' n) l (l.map φ) := by
        intro l
        induction l with
        | nil => intro _ _; exact .nil
        | cons p l ih =>
          intro j1 j2
          have a1 := j1 p (by simp)
          have a2 := j2 (φ p) (by simp)
          exact .cons (twin_value (h.valued _ (List.mem_map_of_mem hz)) (h'.valued _ (List.mem_map_of_mem hz)) a1 a2 (ha p a1 a2 z hz) hn)
            (ih (fun q hq => j1 q (List.mem_cons_of_mem _ hq)) (fun q hq => j2 q (List.mem_cons_of_mem _ hq)))
      rw [e]
      refine key (c.bounds :: t) i1 ?_
      rw [List.map_cons, ← e]
      exact i1'

end

/-! ## Datapoints -/

/-- The datapoints in a box, from those in the region. -/
theorem rows_shifted {V : Type} {dy dx : ℚ} {l l' m m' : List (Row V)} (P P' : ℚ × ℚ × V → Bool) (hl : ShiftedRows dy dx l l')
    (hm : m = l.filter (fun r => P (r.lat, r.long, r.val))) (hm' : m' = l'.filter (fun r => P' (r.lat, r.long, r.val)))
    (hP : ∀ r ∈ l, P (r.lat, r.long, r.val) = P' (r.lat + dy, r.long + dx, r.val)) : (m.map Row.val).Perm (m'.map Row.val) := by
  have h := (hl.filter P').map (fun r => r.2.2)
  rw [List.filter_map, List.map_map, List.filter_map, List.map_map] at h
  subst hm hm'
  refine List.Perm.trans (.of_eq ?_) h
  rw [List.filter_congr (q := P' ∘ fun r => (r.lat + dy, r.long + dx, r.val)) (fun r hr => by
    simp only [Function.comp_apply]; exact hP r hr)]
  rfl

theorem rowsIn_region {V : Type} {b q : Boundary} (hb : ProperBox b) (hc : b.longMin < b.longMax) (hq : Inner b q) (d : Dataset V) :
    rowsIn d q = (rowsIn d b).filter (fun r => decide (q.latMin < r.lat ∧ r.lat ≤ q.latMax ∧ q.longMin < r.long ∧ r.long ≤ q.longMax)) := by
  obtain ⟨i1, i2, i3, i4⟩ := inner_edges hb hc hq
  unfold rowsIn
  rw [List.filter_filter]
  apply List.filter_congr
  intro r _
  have ht : during q r.time = during b r.time := by unfold during; rw [hq.2.2.2]
  rw [ht, Bool.eq_iff_iff]
  simp only [Bool.and_eq_true, decide_eq_true_iff]
  constructor
  · rintro ⟨⟨a1, a2, a3, a4⟩, h⟩
    exact ⟨⟨a1, a2, a3, a4⟩, ⟨by linarith, by linarith, by linarith, by linarith⟩, h⟩
  · rintro ⟨a, -, h⟩
    exact ⟨a, h⟩

theorem rowsIn_shifted {V : Type} {dy dx : ℚ} {b b' q : Boundary} {T : List ℤ} (hb : ProperBox b) (hc : b.longMin < b.longMax) (hq : Inner b q)
    (hb' : ProperBox b') (hc' : b'.longMin < b'.longMax) (hq' : Inner b' (shifted dy dx T q)) {d d' : Dataset V}
    (h : ShiftedRows dy dx (rowsIn d b) (rowsIn d' b')) : ((rowsIn d q).map Row.val).Perm ((rowsIn d' (shifted dy dx T q)).map Row.val) := by
  refine rows_shifted (fun r => decide (q.latMin < r.1 ∧ r.1 ≤ q.latMax ∧ q.longMin < r.2.1 ∧ r.2.1 ≤ q.longMax))
    (fun r => decide ((shifted dy dx T q).latMin < r.1 ∧ r.1 ≤ (shifted dy dx T q).latMax ∧ (shifted dy dx T q).longMin < r.2.1 ∧ r.2.1 ≤ (shifted dy dx T q).longMax))
    h (rowsIn_region hb hc hq d) (rowsIn_region hb' hc' hq' d') ?_
  intro r _
  rw [decide_eq_decide]
  simp only [shifted, add_lt_add_iff_right, add_le_add_iff_right]

theorem shifted_zero_east (dy : ℚ) (T : List ℤ) (q : Boundary) : eastEdge (shifted dy 0 T q) = eastEdge q := by
  simp only [eastEdge, shifted, add_zero]

open Classical in
theorem rowsAround_shifted {V : Type} {dy : ℚ} {b b' q : Boundary} {T : List ℤ} (hb : Around b b) (hq : Around b q) (hb' : Around b' b')
    (hq' : Around b' (shifted dy 0 T q)) {d d' : Dataset V} (hd : GridAround b d) (hd' : GridAround b' d')
    (h : ShiftedRows dy 0 (rowsAround d b) (rowsAround d' b')) :
    ((rowsAround d q).map Row.val).Perm ((rowsAround d' (shifted dy 0 T q)).map Row.val) := by
  refine rows_shifted (fun r => decide (HCovers q r.2.1 r.1)) (fun r => decide (HCovers (shifted dy 0 T q) r.2.1 r.1)) h (rowsAround_within hd hb hq hq.2.2)
    (rowsAround_within hd' hb' hq' hq'.2.2) ?_
  intro r _
  rw [decide_eq_decide]
  unfold HCovers
  rw [shifted_zero_east]
  simp only [shifted, add_lt_add_iff_right, add_le_add_iff_right, add_zero]

/-! ## Sources -/

theorem vector_twin {b b' q q' : Boundary} (hq : Inner b q) (hq' : Inner b' q') {s s' : Source (Dataset Vec) VectorHom.Conds} {id name agg minDp}
    (h : PlainVector b s) (h' : PlainVector b' s') (e : s.loader = vectorLoader id name agg (fun b c _ => VectorHom.hom minDp c b s.subset))
    (e' : s'.loader = vectorLoader id name agg (fun b c _ => VectorHom.hom minDp c b s'.subset))
    (hagg : agg = .mean ∨ agg = .count) (hdec : ∀ c ∈ s.conds, ∃ d, c = ⟨none, some d⟩) (hc : s'.conds = s.conds) (hf : s'.fill = s.fill)
    (hg : s'.subset.isGrid = s.subset.isGrid) (hp : ((rowsIn s.subset q).map Row.val).Perm ((rowsIn s'.subset q').map Row.val)) : TwinAt q q' s s' := by
  have hlen : (rowsIn s.subset q).length = (rowsIn s'.subset q').length := by simpa using hp.length_eq
  have hcomp : (complete ((rowsIn s.subset q).map Row.val)).Perm (complete ((rowsIn s'.subset q').map Row.val)) := hp.filterMap _
  have hnil : complete ((rowsIn s.subset q).map Row.val) = [] ↔ complete ((rowsIn s'.subset q').map Row.val) = [] :=
    ⟨fun h => by rw [h] at hcomp; exact hcomp.symm.eq_nil, fun h => by rw [h] at hcomp; exact hcomp.eq_nil⟩
  have hhet : ∀ c ∈ s.conds, (ownVerdict s' q' c = .het ↔ ownVerdict s q c = .het) ∧
      ((ownVerdict s' q' c = .clr ∨ ownVerdict s' q' c = .het) ↔ (ownVerdict s q c = .clr ∨ ownVerdict s q c = .het)) := by
    intro c hcm
    obtain ⟨d, rfl⟩ := hdec c hcm
    obtain ⟨k1, k2⟩ := vector_verdict h e hq hcm
    obtain ⟨k1', k2'⟩ := vector_verdict h' e' hq' (by rw [hc]; exact hcm)
    constructor
    · rw [k1, k1', hlen]
      simp only [ne_eq, hnil, meanVec_perm hp, share_perm hcomp]
    · rw [← not_iff_not, k2, k2', hlen]
      simp only [ne_eq, hnil, meanVec_perm hp, share_perm hcomp]
  refine ⟨by rw [e, e']; rfl, by rw [e, e']; rfl, hf, ?_, ?_, ?_⟩
  · rw [hc]
    exact exists_congr (fun c => and_congr_right (fun hcm => (hhet c hcm).1))
  · rw [hc]
    exact forall₂_congr (fun c hcm => (hhet c hcm).2)
  · rw [plain_vector_get e h hq, plain_vector_get e' h' hq', hg]
    unfold vectorOf
    rw [vectorXr_perm hagg hp, vectorDf_perm hagg hp]

theorem shifted_twin {dy dx : ℚ} {T : List ℤ} {b b' q : Boundary} (hb : ProperBox b) (hc : b.longMin < b.longMax) (hq : Inner b q)
    (hb' : ProperBox b') (hc' : b'.longMin < b'.longMax) (hq' : Inner b' (shifted dy dx T q)) {s s' : Source AnyData AnyCond} (h : PlainAny b s)
    (h' : PlainAny b' s') (hs : ShiftedSource rowsIn dy dx b b' s s') : TwinAt q (shifted dy dx T q) s s' := by
  cases hs with
  | @scalar s s' e1 e2 e3 hg hd =>
    have h := h.ofScalar
    have h' := h'.ofScalar
    obtain ⟨id, name, agg, minDp, e, -, -⟩ := h.loader
    have e' : s'.loader = scalarLoader id name agg minDp := by rw [e1, e]
    have hp := rowsIn_shifted hb hc hq hb' hc' hq' hd
    unfold Source.ofScalar
    refine twinAt_wrap ?_ ?_ (.of_alike (by rw [e1]) ⟨by rw [e1], e3, e2, ?_, ?_⟩); · intro _; rfl
    · intro _; rfl
    · rw [plain_scalar_get e h hq, plain_scalar_get e' h' hq', hg, C29_order _ agg hp]
    · intro c hcm
      unfold ownVerdict
      rw [(scalar_faithful h e).decides q hq c hcm, (scalar_faithful h' e').decides _ hq' c (by rw [e2]; exact hcm)]
      simp only
      exact (C27_order minDp c hp).symm
  | @vector s s' id name agg minDp e e' hagg hdec hcs hf hg hd =>
    unfold Source.ofVector
    refine twinAt_wrap ?_ ?_ ?_; · intro _; rfl
    · intro _; rfl
    exact vector_twin hq hq' h.ofVector h'.ofVector e e' hagg hdec hcs hf hg (rowsIn_shifted hb hc hq hb' hc' hq' hd)

theorem shifted_twin_around {dy : ℚ} {T : List ℤ} {b b' q : Boundary} (hb : Around b b) (hq : Around b q) (hb' : Around b' b')
    (hq' : Around b' (shifted dy 0 T q)) {s s' : Source AnyData AnyCond} (h : AroundAny b s)
    (h' : AroundAny b' s') (hs : ShiftedSource rowsAround dy 0 b b' s s') : TwinAt q (shifted dy 0 T q) s s' := by
  cases hs with
  | @scalar s s' e1 e2 e3 _ hd =>
    obtain ⟨⟨id, name, agg, minDp, e⟩, hg⟩ := h.scalarGrid
    obtain ⟨-, hg'⟩ := h'.scalarGrid
    have e' : s'.loader = scalarLoader id name agg minDp := by rw [e1, e]
    have hp := rowsAround_shifted hb hq hb' hq' hg hg' hd
    unfold Source.ofScalar
    refine twinAt_wrap ?_ ?_ (.of_alike (by rw [e1]) ⟨by rw [e1], e3, e2, ?_, ?_⟩); · intro _; rfl
    · intro _; rfl
    · rw [around_scalar_get e hg hq, around_scalar_get e' hg' hq', C29_order true agg hp]
    · intro c hcm
      unfold ownVerdict
      rw [(around_scalar_faithful e hg).decides q hq c hcm, (around_scalar_faithful e' hg').decides _ hq' c (by rw [e2]; exact hcm)]
      simp only
      exact (C27_order minDp c hp).symm
  | @vector s s' id name agg minDp e e' hagg _ hcs hf _ hd =>
    obtain ⟨hc0, hg⟩ := h.vectorGrid
    obtain ⟨-, hg'⟩ := h'.vectorGrid
    have hp := rowsAround_shifted hb hq hb' hq' hg hg' hd
    unfold Source.ofVector
    refine twinAt_wrap ?_ ?_ (.of_alike (by rw [e, e']; rfl) ⟨by rw [e, e']; rfl, hf, hcs, ?_, ?_⟩); · intro _; rfl
    · intro _; rfl
    · rw [around_vector_get e hg hq, around_vector_get e' hg' hq', vectorXr_perm hagg hp]
    · intro c hcm
      rw [hc0] at hcm
      cases hcm

theorem shiftedSource_id {rows : ∀ {V : Type}, Dataset V → Boundary → List (Row V)} {dy dx : ℚ} {b b' : Boundary} {s s' : Source AnyData AnyCond}
    (h : ShiftedSource rows dy dx b b' s s') : s'.loader.id = s.loader.id := by
  cases h with
  | scalar e1 => simp only [Source.ofScalar, Source.wrap, e1]
  | vector e e1 => simp only [Source.ofVector, Source.wrap, e, e1, vectorLoader]

theorem quarters_shifted (dy dx : ℚ) (T : List ℤ) (q : Boundary) : quarters (shifted dy dx T q) = (quarters q).map (shifted dy dx T) := by
  simp only [quarters, shifted, List.map_cons, List.map_nil, List.cons.injEq, Boundary.mk.injEq, and_true, true_and]
  refine ⟨⟨by ring, by ring⟩, ⟨by ring, by ring⟩, ⟨by ring, by ring⟩, by ring, by ring⟩

theorem turnQuarters_shifted (dy : ℚ) (T : List ℤ) (q : Boundary) : turnQuarters (shifted dy 0 T q) = (turnQuarters q).map (shifted dy 0 T) := by
  simp only [turnQuarters, shifted_zero_east]
  simp only [shifted, add_zero, List.map_cons, List.map_nil, List.cons.injEq, Boundary.mk.injEq, and_true, true_and]
  refine ⟨by ring, by ring, by ring, by ring⟩

/-! ## C126 -/

/-- **C126**: take a region that does not cross the antimeridian and the region moved north by `dy` and east by `dx`, with any time range, not crossing it
either; for each scalar and vector sources of the same parameters, and such that the datapoints in the second region and time
range are those in the first, moved.  Both meshes are built without raising, the cells of one are those of the other, moved, and they have the same values. -/
theorem C126_shifted {b : Boundary} {dy dx : ℚ} {T : List ℤ} {W H : ℚ} {full full' : List (Source AnyData AnyCond)}
    (hfull : List.Forall₂ (ShiftedSource rowsIn dy dx b (shifted dy dx T b)) full full') (hf : ∀ s ∈ full, PlainAny b s)
    (hf' : ∀ s ∈ full', PlainAny (shifted dy dx T b) s) (hid : (full.map (fun s => s.loader.id)).Nodup) (config config' : MeshConfig)
    (hp : ProperGrid b W H) (hp' : ProperGrid (shifted dy dx T b) W H) (hcr : b.longMin < b.longMax) (hh : b.latMin < b.latMax)
    (hcol : b.longMin = -180 ∧ b.longMax = 180 → W ≤ 180)
    (hacc : MeshBuilder.validateBounds b W H = .ok ()) (hacc' : MeshBuilder.validateBounds (shifted dy dx T b) W H = .ok ()) (depth : ℕ) :
    ∃ m0 m0', MeshBuilder.init b W H (fun q => trimSources q full) depth = .ok m0 ∧
      MeshBuilder.init (shifted dy dx T b) W H (fun q => trimSources q full') depth = .ok m0' ∧ ∃ N em em',
      (∀ fuel, N ≤ fuel → MeshBuilder.buildEnvironmentalMesh (sourceOps AnyData AnyCond) aggregate fuel config m0 = .ok em ∧
        MeshBuilder.buildEnvironmentalMesh (sourceOps AnyData AnyCond) aggregate fuel config' m0' = .ok em') ∧
      (∀ q', (∃ c' ∈ em'.cells, c'.bounds = q') ↔ ∃ c ∈ em.cells, q' = shifted dy dx T c.bounds) ∧
      ∀ c ∈ em.cells, ∀ c' ∈ em'.cells, c'.bounds = shifted dy dx T c.bounds → ∀ n, c'.data.get? n = c.data.get? n := by
  obtain ⟨zs, rfl, rfl, hzs⟩ := forall₂_zip hfull
  have hid' : ((zs.map Prod.snd).map (fun s => s.loader.id)).Nodup := by
    have : (zs.map Prod.snd).map (fun s => s.loader.id) = (zs.map Prod.fst).map (fun s => s.loader.id) := by
      rw [List.map_map, List.map_map]
      exact List.map_congr_left (fun z hz => shiftedSource_id (hzs z hz))
    rw [this]; exact hid
  have hcr' : (shifted dy dx T b).longMin < (shifted dy dx T b).longMax := by simp only [shifted]; linarith
  have hh' : (shifted dy dx T b).latMin < (shifted dy dx T b).latMax := by simp only [shifted]; linarith
  have hcol' : (shifted dy dx T b).longMin = -180 ∧ (shifted dy dx T b).longMax = 180 → W ≤ 180 := by
    rintro ⟨a1, a2⟩
    obtain ⟨-, v1, v2, v3, v4, -⟩ := hp.valid
    simp only [shifted] at a1 a2
    exact hcol ⟨by linarith, by linarith⟩
  obtain ⟨m0, h0, N, em, value, hb, hB⟩ := plain_from hf hid config hp hcr hh hcol hacc depth
  obtain ⟨m0', h0', N', em', value', hb', hB'⟩ := plain_from hf' hid' config' hp' hcr' hh' hcol' hacc' depth
  refine ⟨m0, m0', h0, h0', max N N', em, em', fun fuel hfuel => ⟨hb fuel (by omega), hb' fuel (by omega)⟩, ?_⟩
  have hS := inner_system hp hcr hacc
  have hS' := inner_system hp' hcr' hacc'
  have pb := (inner_self hp hcr hh).1
  have pb' := (inner_self hp' hcr' hh').1
  refine moved_cells hB hB' hS.first (fun p q a1 a2 => (hS.within p q a1 a2).1) hS'.first (fun p q a1 a2 => (hS'.within p q a1 a2).1)
    (fun q t t' => lineage_unique hp.wpos hp.hpos) ?_ ?_ (fun q _ p' => by rw [quarters_shifted, List.mem_map]; simp only [eq_comm])
    (fun q hq hq' z hz => shifted_twin pb hcr hq pb' hcr' hq' (hf _ (List.mem_map_of_mem hz)) (hf' _ (List.mem_map_of_mem hz)) (hzs z hz))
  · rintro q ⟨i, j, rfl, a1, a2⟩
    refine ⟨i, j, ?_, ?_, ?_⟩
    · simp only [shifted, Boundary.mk.injEq]; exact ⟨by ring, by ring, by ring, by ring, trivial⟩
    · simp only [shifted] at a1 ⊢; linarith
    · simp only [shifted] at a2 ⊢; linarith
  · rintro q ⟨i, j, rfl, a1, a2⟩
    refine ⟨⟨b.latMin + j * H, b.latMin + j * H + H, b.longMin + i * W, b.longMin + i * W + W, b.time⟩, ⟨i, j, rfl, ?_, ?_⟩, ?_⟩
    · simp only [shifted] at a1 ⊢; linarith
    · simp only [shifted] at a2 ⊢; linarith
    · simp only [shifted, Boundary.mk.injEq]; exact ⟨by ring, by ring, by ring, by ring, trivial⟩

/-- **C126**, over the antimeridian: the same for regions that may cross it and gridded data, moved north by `dy`, with any time range. -/
theorem C126_around {b : Boundary} {dy : ℚ} {T : List ℤ} {W H : ℚ} {full full' : List (Source AnyData AnyCond)}
    (hfull : List.Forall₂ (ShiftedSource rowsAround dy 0 b (shifted dy 0 T b)) full full') (hf : ∀ s ∈ full, AroundAny b s)
    (hf' : ∀ s ∈ full', AroundAny (shifted dy 0 T b) s) (hid : (full.map (fun s => s.loader.id)).Nodup) (config config' : MeshConfig)
    (hp : ProperGrid b W H) (hp' : ProperGrid (shifted dy 0 T b) W H) (hne : b.longMin ≠ b.longMax) (hh : b.latMin < b.latMax)
    (hcol : b.width = 360 → W ≤ 180)
    (hacc : MeshBuilder.validateBounds b W H = .ok ()) (hacc' : MeshBuilder.validateBounds (shifted dy 0 T b) W H = .ok ()) (depth : ℕ) :
    ∃ m0 m0', MeshBuilder.init b W H (fun q => trimSources q full) depth = .ok m0 ∧
      MeshBuilder.init (shifted dy 0 T b) W H (fun q => trimSources q full') depth = .ok m0' ∧ ∃ N em em',
      (∀ fuel, N ≤ fuel → MeshBuilder.buildEnvironmentalMesh (sourceOps AnyData AnyCond) aggregate fuel config m0 = .ok em ∧
        MeshBuilder.buildEnvironmentalMesh (sourceOps AnyData AnyCond) aggregate fuel config' m0' = .ok em') ∧
      (∀ q', (∃ c' ∈ em'.cells, c'.bounds = q') ↔ ∃ c ∈ em.cells, q' = shifted dy 0 T c.bounds) ∧
      ∀ c ∈ em.cells, ∀ c' ∈ em'.cells, c'.bounds = shifted dy 0 T c.bounds → ∀ n, c'.data.get? n = c.data.get? n := by
  obtain ⟨zs, rfl, rfl, hzs⟩ := forall₂_zip hfull
  have hid' : ((zs.map Prod.snd).map (fun s => s.loader.id)).Nodup := by
    have : (zs.map Prod.snd).map (fun s => s.loader.id) = (zs.map Prod.fst).map (fun s => s.loader.id) := by
      rw [List.map_map, List.map_map]
      exact List.map_congr_left (fun z hz => shiftedSource_id (hzs z hz))
    rw [this]; exact hid
  have hh' : (shifted dy 0 T b).latMin < (shifted dy 0 T b).latMax := by simp only [shifted]; linarith
  have hw : (shifted dy 0 T b).width = b.width := by simp only [Boundary.width, shifted, add_zero]
  have hcol' : (shifted dy 0 T b).width = 360 → W ≤ 180 := by rw [hw]; exact hcol
  obtain ⟨m0, h0, N, em, value, hb, hB⟩ := around_from hf hid config hp hh hcol hacc depth
  obtain ⟨m0', h0', N', em', value', hb', hB'⟩ := around_from hf' hid' config' hp' hh' hcol' hacc' depth
  refine ⟨m0, m0', h0, h0', max N N', em, em', fun fuel hfuel => ⟨hb fuel (by omega), hb' fuel (by omega)⟩, ?_⟩
  have hS := around_system hp hcol hacc
  have hS' := around_system hp' hcol' hacc'
  have hab : Around b b := ⟨⟨hp.valid, hp.nondeg, hh⟩, hne, .refl _⟩
  have hab' : Around (shifted dy 0 T b) (shifted dy 0 T b) := ⟨⟨hp'.valid, hp'.nondeg, hh'⟩, by simpa [shifted] using hne, .refl _⟩
  refine moved_cells hB hB' hS.first (fun p q a1 a2 => (hS.within p q a1 a2).1) hS'.first (fun p q a1 a2 => (hS'.within p q a1 a2).1)
    (fun q t t' => around_unique (unwraps_of hp') hp'.wpos hp'.hpos (cell_small hp' hcol' hacc')) ?_ ?_ (fun q _ p' => by rw [turnQuarters_shifted, List.mem_map]; simp only [eq_comm])
    (fun q hq hq' z hz => shifted_twin_around hab hq hab' hq' (hf _ (List.mem_map_of_mem hz)) (hf' _ (List.mem_map_of_mem hz)) (hzs z hz))
  · rintro q ⟨i, j, rfl, a1, a2⟩
    refine ⟨i, j, ?_, ?_, ?_⟩
    · simp only [shifted, Boundary.mk.injEq, add_zero]; exact ⟨by ring, by ring, trivial, trivial, trivial⟩
    · simp only [shifted]; linarith
    · rw [shifted_zero_east]; simp only [shifted]; linarith
  · rintro q ⟨i, j, rfl, a1, a2⟩
    rw [shifted_zero_east] at a2
    refine ⟨⟨b.latMin + j * H, b.latMin + j * H + H, turnBack (b.longMin + i * W), turnBack (b.longMin + i * W + W), b.time⟩, ⟨i, j, rfl, ?_, ?_⟩, ?_⟩
    · simp only [shifted] at a1; linarith
    · simp only [shifted, add_zero] at a2; exact a2
    · simp only [shifted, Boundary.mk.injEq, add_zero]; exact ⟨by ring, by ring, trivial, trivial, trivial⟩

/-- The datapoints of `exUpdated` five degrees further north and a hundred further east, between times 10 and 20, besides others later or outside. -/
def exMoved : List (Source AnyData AnyCond) :=
  [.ofScalar ⟨scalarLoader 1 "a" .mean 1, [⟨3, 0, 1, false⟩], .parent,
    .table ⟨true, [⟨-52, 103, 25, some 8⟩, ⟨-47, 112, 12, some 7⟩, ⟨-60, 101, 15, some 1⟩, ⟨-54, 101, 20, some 5⟩]⟩⟩,
   .ofVector (vectorSource 2 "u,v" .mean 1 [{ dmag := some ⟨1, 0, 1, false⟩ }] .parent
    (.table ⟨true, [⟨-46, 113, 10, (some 4, none)⟩, ⟨-47, 112, 5, (some 6, some 6)⟩, ⟨-47, 112, 11, (some 1, some 2)⟩]⟩))]

theorem exMoved_plain : ∀ s ∈ exMoved, PlainAny (shifted 5 100 [10, 20] exRegion) s := by
  intro s hs
  simp only [exMoved, List.mem_cons, List.not_mem_nil, or_false] at hs
  rcases hs with rfl | rfl
  · exact .scalar ⟨⟨_, _, _, _, rfl, by decide, by simp⟩, Or.inl rfl, trivial, _, rfl⟩
  · refine .vector ⟨⟨_, _, _, _, "u", "v", rfl, by decide +kernel, by decide, by simp, le_rfl⟩, rfl, trivial, ⟨_, rfl⟩, ?_⟩
    intro c hc
    simp only [vectorSource, List.mem_singleton] at hc
    subst hc
    simp [vectorSource]

/-- The hypotheses of C126 hold. -/
example : ∃ m0 m0', MeshBuilder.init exRegion 10 5 (fun q => trimSources q (exUpdated [⟨-59, 1, 0, some 5⟩, ⟨-52, 12, 0, some 7⟩])) 1 = .ok m0 ∧
    MeshBuilder.init (shifted 5 100 [10, 20] exRegion) 10 5 (fun q => trimSources q exMoved) 1 = .ok m0' ∧ ∃ N em em',
    (∀ fuel, N ≤ fuel → MeshBuilder.buildEnvironmentalMesh (sourceOps AnyData AnyCond) aggregate fuel exConfig m0 = .ok em ∧
      MeshBuilder.buildEnvironmentalMesh (sourceOps AnyData AnyCond) aggregate fuel exConfig m0' = .ok em') ∧
    (∀ q', (∃ c' ∈ em'.cells, c'.bounds = q') ↔ ∃ c ∈ em.cells, q' = shifted 5 100 [10, 20] c.bounds) ∧
    ∀ c ∈ em.cells, ∀ c' ∈ em'.cells, c'.bounds = shifted 5 100 [10, 20] c.bounds → ∀ n, c'.data.get? n = c.data.get? n := by
  refine C126_shifted (full := exUpdated _) (full' := exMoved) (.cons (.scalar rfl rfl rfl rfl ?_) (.cons (.vector rfl rfl (Or.inl rfl) ?_ rfl rfl rfl ?_) .nil)) (exUpdated_plain _ _) exMoved_plain
    (exUpdated_ids _) exConfig exConfig exRegion_proper ?_ (by norm_num [exRegion]) (by norm_num [exRegion]) (by norm_num [exRegion]) (by decide +kernel)
    (by decide +kernel) 1
  · unfold ShiftedRows; decide +kernel
  · intro c hc
    simp only [vectorSource, List.mem_singleton] at hc
    exact ⟨_, hc⟩
  · unfold ShiftedRows; decide +kernel
  · refine ⟨by norm_num [Valid, shifted, exRegion]; exact Or.inr ⟨10, 20, ⟨rfl, rfl⟩, by norm_num⟩, by norm_num [shifted, exRegion], by norm_num, by norm_num, ?_⟩
    intro h
    have : (shifted 5 100 [10, 20] exRegion).width = 20 := by decide +kernel
    rw [this] at h; norm_num at h

/-- Gridded data of which those at time 7 are the data of C113 thirty degrees further south. -/
def exMovedGrid : Grid (Option ℚ) :=
  ⟨exGrid.lats.map (· - 30), exGrid.longs, some [3, 7], fun y x t => if t = 7 then exGrid.val (y + 30) x 0 else none⟩

def exMovedAround : List (Source AnyData AnyCond) :=
  [.ofScalar ⟨scalarLoader 0 "a" .mean 1, [⟨0, 0, 1, false⟩], .parent, .grid exMovedGrid⟩,
   .ofVector (vectorSource 1 "u,v" .mean 1 [] .parent (.grid ⟨[-25, -20], [-175, 180], none, fun y x _ => (some (y + 30), some x)⟩))]

theorem exMovedAround_all : ∀ s ∈ exMovedAround, AroundAny (shifted (-30) 0 [5, 9] exAroundRegion) s := by
  intro s hs
  simp only [exMovedAround, List.mem_cons, List.not_mem_nil, or_false] at hs
  rcases hs with rfl | rfl
  · have hs : (Dataset.grid exMovedGrid).Sorted := by unfold Dataset.Sorted; constructor <;> decide +kernel
    exact .scalar rfl (by decide) (by simp) (Or.inl rfl) ⟨⟨_, rfl, by decide +kernel⟩, hs, _, trim_eq hs (by intro _; exact ⟨_, rfl⟩)⟩
  · have hs : (Dataset.grid (⟨[-25, -20], [-175, 180], none, fun y x _ => (some (y + 30), some x)⟩ : Grid Vec)).Sorted := by
      unfold Dataset.Sorted; constructor <;> decide +kernel
    exact .vector (x := "u") (y := "v") rfl (by decide +kernel) (by decide) (by simp) rfl rfl
      ⟨⟨_, rfl, by decide +kernel⟩, hs, _, trim_eq hs (by intro h; cases h)⟩

/-- The hypotheses of C126 hold across the antimeridian. -/
example : ∃ m0 m0', MeshBuilder.init exAroundRegion 10 10 (fun q => trimSources q exAround) 1 = .ok m0 ∧
    MeshBuilder.init (shifted (-30) 0 [5, 9] exAroundRegion) 10 10 (fun q => trimSources q exMovedAround) 1 = .ok m0' ∧ ∃ N em em',
    (∀ fuel, N ≤ fuel → MeshBuilder.buildEnvironmentalMesh (sourceOps AnyData AnyCond) aggregate fuel exConfig m0 = .ok em ∧
      MeshBuilder.buildEnvironmentalMesh (sourceOps AnyData AnyCond) aggregate fuel exConfig m0' = .ok em') ∧
    (∀ q', (∃ c' ∈ em'.cells, c'.bounds = q') ↔ ∃ c ∈ em.cells, q' = shifted (-30) 0 [5, 9] c.bounds) ∧
    ∀ c ∈ em.cells, ∀ c' ∈ em'.cells, c'.bounds = shifted (-30) 0 [5, 9] c.bounds → ∀ n, c'.data.get? n = c.data.get? n := by
  have hw : exAroundRegion.width ≠ 360 := by decide +kernel
  refine C126_around (full := exAround) (full' := exMovedAround) (.cons (.scalar rfl rfl rfl rfl ?_) (.cons (.vector rfl rfl (Or.inl rfl) ?_ rfl rfl rfl ?_) .nil)) exAround_all.1 exMovedAround_all
    exAround_all.2.1 exConfig exConfig exAroundRegion_proper ?_ (by norm_num [exAroundRegion]) (by norm_num [exAroundRegion]) (fun h => absurd h hw)
    (by decide +kernel) (by decide +kernel) 1
  · unfold ShiftedRows; decide +kernel
  · intro c hc
    simp [vectorSource] at hc
  · unfold ShiftedRows; decide +kernel
  · refine ⟨by norm_num [Valid, shifted, exAroundRegion]; exact Or.inr ⟨5, 9, ⟨rfl, rfl⟩, by norm_num⟩, by norm_num [shifted, exAroundRegion], by norm_num, by norm_num, ?_⟩
    intro h
    have : (shifted (-30) 0 [5, 9] exAroundRegion).width = 20 := by decide +kernel
    rw [this] at h; norm_num at h

end Verif
