import Verif.Props.RoundedData
import Verif.Props.Shifted
import Verif.Props.VectorTotals

/-!
# C129: small changes of the data change a mesh little

If the values of datapoints rise by at most `hi` and fall by at most `-lo`, without crossing thresholds, then so do the values of the cells.
-/

namespace Verif
open Spec

/-! ## Specification -/

/-- Both values are missing, or none, and then the second is above the first by at least `lo` and at most `hi`. -/
def Spec.Drifted (lo hi : ℚ) (a a' : Option ℚ) : Prop :=
  (a = none ∧ a' = none) ∨ ∃ x y, a = some x ∧ a' = some y ∧ x + lo ≤ y ∧ y ≤ x + hi

/-- Two values are on the same side of each threshold. -/
def Spec.SameSides (conds : List Cond) (a a' : Option ℚ) : Prop :=
  ∀ c ∈ conds, ∀ x y, a = some x → a' = some y → (c.threshold < x ↔ c.threshold < y)

/-- The same datapoint, with another value. -/
def Spec.DriftedRow (lo hi : ℚ) (conds : List Cond) (r r' : Row (Option ℚ)) : Prop :=
  r'.lat = r.lat ∧ r'.long = r.long ∧ r'.time = r.time ∧ Drifted lo hi r.val r'.val ∧ SameSides conds r.val r'.val

/-- The same datapoints, with other values. -/
def Spec.DriftedData (lo hi : ℚ) (conds : List Cond) (d d' : Dataset (Option ℚ)) : Prop :=
  d'.isGrid = d.isGrid ∧ d'.hasTime = d.hasTime ∧ List.Forall₂ (DriftedRow lo hi conds) d.rows d'.rows

/-- The same datapoint, with another vector. -/
def Spec.DriftedVectorRow (lo hi : ℚ) (r r' : Row Vec) : Prop :=
  r'.lat = r.lat ∧ r'.long = r.long ∧ r'.time = r.time ∧ Drifted lo hi r.val.1 r'.val.1 ∧ Drifted lo hi r.val.2 r'.val.2

/-- The same datapoints, with other vectors. -/
def Spec.DriftedVectors (lo hi : ℚ) (d d' : Dataset Vec) : Prop :=
  d'.isGrid = d.isGrid ∧ d'.hasTime = d.hasTime ∧ List.Forall₂ (DriftedVectorRow lo hi) d.rows d'.rows

/-- A scalar source of which the values have changed, a vector source without conditions, of which the mean or the number is taken, of which the components have changed, or any source
that has not. -/
inductive Spec.DriftedSource (lo hi : ℚ) : Source AnyData AnyCond → Source AnyData AnyCond → Prop
  | same (s : Source AnyData AnyCond) : DriftedSource lo hi s s
  | scalar {s s' : Source (Dataset (Option ℚ)) Cond} {id name agg minDp} : s.loader = scalarLoader id name agg minDp →
      agg ∈ [AggType.min, .max, .mean, .median, .count] → s'.loader = s.loader → s'.conds = s.conds → s'.fill = s.fill →
      DriftedData lo hi s.conds s.subset s'.subset → DriftedSource lo hi (.ofScalar s) (.ofScalar s')
  | vector {s s' : Source (Dataset Vec) VectorHom.Conds} {id name agg hom hom' x y} : s.loader = vectorLoader id name agg hom → splitName name = [x, y] →
      agg ∈ [AggType.mean, .count] → s'.loader = vectorLoader id name agg hom' → s.conds = [] → s'.conds = [] → s'.fill = s.fill →
      DriftedVectors lo hi s.subset s'.subset → DriftedSource lo hi (.ofVector s) (.ofVector s')

/-! ## Statistics -/

section Numbers
variable {lo hi : ℚ}

/-- Sorting keeps lists in order. -/
theorem insert_le {a b : ℚ} (hab : a ≤ b) {s t : List ℚ} (h : List.Forall₂ (· ≤ ·) s t) : s.Pairwise (· ≤ ·) → t.Pairwise (· ≤ ·) →
    List.Forall₂ (· ≤ ·) (s.orderedInsert (· ≤ ·) a) (t.orderedInsert (· ≤ ·) b) := by
  induction h generalizing a b with
  | nil => intro _ _; exact .cons hab .nil
  | @cons x y s t hxy hst ih =>
    intro hs ht
    have hs' := List.pairwise_cons.1 hs
    have ht' := List.pairwise_cons.1 ht
    have first : ∀ {z : ℚ} {l : List ℚ}, (∀ w ∈ l, z ≤ w) → l.orderedInsert (· ≤ ·) z = z :: l := by
      intro z l hl
      cases l with
      | nil => rfl
      | cons w l => rw [List.orderedInsert, if_pos (hl w (by simp))]
    simp only [List.orderedInsert]
    by_cases h1 : a ≤ x
    · rw [if_pos h1]
      by_cases h2 : b ≤ y
      · rw [if_pos h2]; exact .cons hab (.cons hxy hst)
      · rw [if_neg h2]
        rw [not_le] at h2
        refine .cons (h1.trans hxy) ?_
        rw [← first hs'.1]
        exact ih (hxy.trans h2.le) hs'.2 ht'.2
    · rw [if_neg h1]
      rw [not_le] at h1
      by_cases h2 : b ≤ y
      · rw [if_pos h2]
        refine .cons (h1.le.trans hab) ?_
        rw [← first ht'.1]
        exact ih (hab.trans h2) hs'.2 ht'.2
      · rw [if_neg h2]; exact .cons hxy (ih hab hs'.2 ht'.2)

theorem sort_le {l l' : List ℚ} (h : List.Forall₂ (· ≤ ·) l l') :
    List.Forall₂ (· ≤ ·) (l.insertionSort (· ≤ ·)) (l'.insertionSort (· ≤ ·)) := by
  induction h with
  | nil => exact .nil
  | cons hab _ ih =>
    simp only [List.insertionSort_cons]
    exact insert_le hab ih (List.pairwise_insertionSort _ _) (List.pairwise_insertionSort _ _)

theorem sort_add (c : ℚ) (l : List ℚ) : (l.map (· + c)).insertionSort (· ≤ ·) = (l.insertionSort (· ≤ ·)).map (· + c) := by
  induction l with
  | nil => rfl
  | cons a l ih =>
    simp only [List.map_cons, List.insertionSort_cons, ih]
    generalize l.insertionSort (· ≤ ·) = s
    induction s with
    | nil => rfl
    | cons x s ih =>
      simp only [List.map_cons, List.orderedInsert, add_le_add_iff_right]
      split_ifs
      · rfl
      · simp only [List.map_cons, ih]

theorem sort_drift {l l' : List ℚ} (h : List.Forall₂ (fun x y => x + lo ≤ y ∧ y ≤ x + hi) l l') :
    List.Forall₂ (fun x y => x + lo ≤ y ∧ y ≤ x + hi) (l.insertionSort (· ≤ ·)) (l'.insertionSort (· ≤ ·)) := by
  have h1 : List.Forall₂ (· ≤ ·) (l.map (· + lo)) l' := by
    rw [List.forall₂_map_left_iff]; exact h.imp (fun _ _ k => k.1)
  have h2 : List.Forall₂ (· ≤ ·) l' (l.map (· + hi)) := by
    rw [List.forall₂_map_right_iff]
    exact h.flip.imp (fun _ _ k => k.2)
  have k1 := sort_le h1
  have k2 := sort_le h2
  rw [sort_add, List.forall₂_map_left_iff] at k1
  rw [sort_add, List.forall₂_map_right_iff] at k2
  rw [List.forall₂_iff_get] at k1 k2 ⊢
  exact ⟨k1.1, fun i i1 i2 => ⟨k1.2 i i1 i2, k2.2 i i2 i1⟩⟩

theorem drifted_matches (h1 : lo ≤ 0) (h2 : 0 ≤ hi) : Matches (Drifted lo hi) := by
  constructor
  · intro a
    cases a with
    | none => exact Or.inl ⟨rfl, rfl⟩
    | some x => exact Or.inr ⟨x, x, rfl, rfl, by linarith, by linarith⟩
  · rintro a a' (⟨rfl, rfl⟩ | ⟨x, y, rfl, rfl, -⟩) <;> simp

theorem drift_left {l l' : List ℚ} (h : List.Forall₂ (fun x y => x + lo ≤ y ∧ y ≤ x + hi) l l') {x : ℚ} (hx : x ∈ l) : ∃ y ∈ l', x + lo ≤ y ∧ y ≤ x + hi := by
  induction h with
  | nil => cases hx
  | cons h _ ih =>
    rcases List.mem_cons.1 hx with rfl | hx
    · exact ⟨_, by simp, h⟩
    · obtain ⟨y, hy, k⟩ := ih hx
      exact ⟨y, List.mem_cons_of_mem _ hy, k⟩

theorem drift_right {l l' : List ℚ} (h : List.Forall₂ (fun x y => x + lo ≤ y ∧ y ≤ x + hi) l l') {y : ℚ} (hy : y ∈ l') : ∃ x ∈ l, x + lo ≤ y ∧ y ≤ x + hi := by
  induction h with
  | nil => cases hy
  | cons h _ ih =>
    rcases List.mem_cons.1 hy with rfl | hy
    · exact ⟨_, by simp, h⟩
    · obtain ⟨x, hx, k⟩ := ih hy
      exact ⟨x, List.mem_cons_of_mem _ hx, k⟩

theorem min_drift {l l' : List ℚ} (h : List.Forall₂ (fun x y => x + lo ≤ y ∧ y ≤ x + hi) l l') : Drifted lo hi (listMin l) (listMin l') := by
  rcases e : listMin l with _ | x
  · have := (listMin_spec l).1.1 e
    subst this
    cases h
    exact Or.inl ⟨rfl, rfl⟩
  · rcases e' : listMin l' with _ | y
    · have := (listMin_spec l').1.1 e'
      subst this
      cases h
      cases e
    · obtain ⟨m1, m2⟩ := ((listMin_spec l).2 x).1 e
      obtain ⟨n1, n2⟩ := ((listMin_spec l').2 y).1 e'
      obtain ⟨y0, a1, a2, a3⟩ := drift_left h m1
      obtain ⟨x0, b1, b2, b3⟩ := drift_right h n1
      exact Or.inr ⟨x, y, rfl, rfl, by linarith [m2 x0 b1], by linarith [n2 y0 a1]⟩

theorem max_drift {l l' : List ℚ} (h : List.Forall₂ (fun x y => x + lo ≤ y ∧ y ≤ x + hi) l l') : Drifted lo hi (listMax l) (listMax l') := by
  rcases e : listMax l with _ | x
  · have := (listMax_spec l).1.1 e
    subst this
    cases h
    exact Or.inl ⟨rfl, rfl⟩
  · rcases e' : listMax l' with _ | y
    · have := (listMax_spec l').1.1 e'
      subst this
      cases h
      cases e
    · obtain ⟨m1, m2⟩ := ((listMax_spec l).2 x).1 e
      obtain ⟨n1, n2⟩ := ((listMax_spec l').2 y).1 e'
      obtain ⟨y0, a1, a2, a3⟩ := drift_left h m1
      obtain ⟨x0, b1, b2, b3⟩ := drift_right h n1
      exact Or.inr ⟨x, y, rfl, rfl, by linarith [n2 y0 a1], by linarith [m2 x0 b1]⟩

theorem sum_drift {l l' : List ℚ} (h : List.Forall₂ (fun x y => x + lo ≤ y ∧ y ≤ x + hi) l l') :
    l.sum + l.length * lo ≤ l'.sum ∧ l'.sum ≤ l.sum + l.length * hi := by
  induction h with
  | nil => simp
  | cons h _ ih =>
    simp only [List.sum_cons, List.length_cons]
    push_cast
    constructor <;> linarith [h.1, h.2, ih.1, ih.2]

theorem mean_drift {l l' : List ℚ} (h : List.Forall₂ (fun x y => x + lo ≤ y ∧ y ≤ x + hi) l l') : Drifted lo hi (listMean l) (listMean l') := by
  rcases e : listMean l with _ | x
  · have := (listMean_spec l).1.1 e
    subst this
    cases h
    exact Or.inl ⟨rfl, rfl⟩
  · rcases e' : listMean l' with _ | y
    · have := (listMean_spec l').1.1 e'
      subst this
      cases h
      cases e
    · obtain ⟨m1, m2⟩ := ((listMean_spec l).2 x).1 e
      obtain ⟨n1, n2⟩ := ((listMean_spec l').2 y).1 e'
      obtain ⟨k1, k2⟩ := sum_drift h
      have hl := h.length_eq
      have hpos : (0 : ℚ) < l.length := by exact_mod_cast List.length_pos_iff.2 m1
      rw [← hl] at n2
      rw [← m2, ← n2] at k1 k2
      refine Or.inr ⟨x, y, rfl, rfl, ?_, ?_⟩
      · have : (x + lo) * l.length ≤ y * l.length := by linarith
        exact le_of_mul_le_mul_right this hpos
      · have : y * l.length ≤ (x + hi) * l.length := by linarith
        exact le_of_mul_le_mul_right this hpos

theorem get_drift {l l' : List ℚ} (h : List.Forall₂ (fun x y => x + lo ≤ y ∧ y ≤ x + hi) l l') (i : ℕ) : Drifted lo hi l[i]? l'[i]? := by
  induction h generalizing i with
  | nil => exact Or.inl ⟨by simp, by simp⟩
  | @cons x y _ _ h _ ih =>
    cases i with
    | zero => exact Or.inr ⟨x, y, by simp, by simp, h⟩
    | succ i => simpa using ih i

theorem median_drift {l l' : List ℚ} (h : List.Forall₂ (fun x y => x + lo ≤ y ∧ y ≤ x + hi) l l') : Drifted lo hi (listMedian l) (listMedian l') := by
  have hs := sort_drift h
  have hl := h.length_eq
  unfold listMedian
  simp only [← hl]
  split_ifs
  · exact get_drift hs _
  · have k1 := get_drift hs (l.length / 2 - 1)
    have k2 := get_drift hs (l.length / 2)
    rcases k1 with ⟨e1, e2⟩ | ⟨x, y, e1, e2, h1, h2⟩
    · rw [e1, e2]; exact Or.inl ⟨rfl, rfl⟩
    · rcases k2 with ⟨e3, e4⟩ | ⟨x', y', e3, e4, h3, h4⟩
      · rw [e1, e2, e3, e4]; exact Or.inl ⟨rfl, rfl⟩
      · rw [e1, e2, e3, e4]
        exact Or.inr ⟨_, _, rfl, rfl, by linarith, by linarith⟩

theorem present_drift {v v' : List (Option ℚ)} (h : List.Forall₂ (Drifted lo hi) v v') :
    List.Forall₂ (fun x y => x + lo ≤ y ∧ y ≤ x + hi) (presentValues v) (presentValues v') := by
  unfold presentValues
  induction h with
  | nil => exact .nil
  | cons h _ ih =>
    rcases h with ⟨rfl, rfl⟩ | ⟨x, y, rfl, rfl, k⟩
    · simpa using ih
    · simpa using ⟨k, ih⟩

theorem value_drift (h1 : lo ≤ 0) (h2 : 0 ≤ hi) (grid : Bool) {agg : AggType} (hagg : agg ∈ [AggType.min, .max, .mean, .median, .count])
    {v v' : List (Option ℚ)} (h : List.Forall₂ (Drifted lo hi) v v') :
    ∃ a a', valueOf grid agg v = .ok a ∧ valueOf grid agg v' = .ok a' ∧ Drifted lo hi a a' := by
  have hp := present_drift h
  have refl := (drifted_matches h1 h2).refl
  rw [valueOf_eq, valueOf_eq, ← h.length_eq, ← hp.length_eq]
  by_cases hc : agg = .count
  · rw [if_pos hc, if_pos hc]
    exact ⟨_, _, rfl, rfl, refl _⟩
  · rw [if_neg hc, if_neg hc]
    by_cases hn : presentValues v = []
    · have hn' : presentValues v' = [] := by rw [hn] at hp; exact List.forall₂_nil_left_iff.1 hp
      rw [if_pos hn, if_pos hn']
      exact ⟨_, _, rfl, rfl, refl _⟩
    · have hn' : presentValues v' ≠ [] := by intro e; rw [e] at hp; exact hn (List.forall₂_nil_right_iff.1 hp)
      rw [if_neg hn, if_neg hn']
      simp only [List.mem_cons, List.not_mem_nil, or_false] at hagg
      rcases hagg with rfl | rfl | rfl | rfl | rfl
      · exact ⟨_, _, rfl, rfl, min_drift hp⟩
      · exact ⟨_, _, rfl, rfl, max_drift hp⟩
      · exact ⟨_, _, rfl, rfl, mean_drift hp⟩
      · exact ⟨_, _, rfl, rfl, median_drift hp⟩
      · exact absurd rfl hc

theorem hom_drift {conds : List Cond} {v v' : List (Option ℚ)} (h : List.Forall₂ (fun a a' => Drifted lo hi a a' ∧ SameSides conds a a') v v') (minDp : ℕ)
    {c : Cond} (hc : c ∈ conds) : homCondition minDp c v' = homCondition minDp c v := by
  have e1 : numNonNan v' = numNonNan v := by
    unfold numNonNan
    induction h with
    | nil => rfl
    | cons h _ ih =>
      rw [List.countP_cons, List.countP_cons, ih]
      rcases h.1 with ⟨rfl, rfl⟩ | ⟨x, y, rfl, rfl, -⟩ <;> rfl
  have e2 : numOver c.threshold v' = numOver c.threshold v := by
    unfold numOver
    clear e1
    induction h with
    | nil => rfl
    | cons h _ ih =>
      rw [List.countP_cons, List.countP_cons, ih]
      obtain ⟨h1, h2⟩ := h
      rcases h1 with ⟨rfl, rfl⟩ | ⟨x, y, rfl, rfl, -⟩
      · rfl
      · have := h2 c hc x y rfl rfl
        simp only [gt_iff_lt, this]
  unfold homCondition
  rw [e1, e2, h.length_eq]

theorem meanOf_drift {l l' : List ℚ} (h : List.Forall₂ (fun x y => x + lo ≤ y ∧ y ≤ x + hi) l l') {r r' : Option ℚ} (hr : IsMeanOf l r) (hr' : IsMeanOf l' r') :
    Drifted lo hi r r' := by
  have e : ∀ {l : List ℚ} {r : Option ℚ}, IsMeanOf l r → listMean l = r := by
    rintro l r (⟨rfl, rfl⟩ | ⟨x, rfl, h⟩)
    · rfl
    · exact ((listMean_spec l).2 x).2 h
  rw [← e hr, ← e hr']
  exact mean_drift h

theorem component_drift {α : Type} {π : α → Option ℚ} {v v' : List α} (h : List.Forall₂ (fun a a' => Drifted lo hi (π a) (π a')) v v') :
    List.Forall₂ (fun x y => x + lo ≤ y ∧ y ≤ x + hi) (v.filterMap π) (v'.filterMap π) := by
  have := present_drift (v := v.map π) (v' := v'.map π) (by rw [List.forall₂_map_left_iff, List.forall₂_map_right_iff]; exact h)
  unfold presentValues at this
  rw [List.filterMap_map, List.filterMap_map] at this
  exact this

theorem complete_drift {l l' : List Vec} (h : List.Forall₂ (fun a a' : Vec => Drifted lo hi a.1 a'.1 ∧ Drifted lo hi a.2 a'.2) l l') :
    complete l' = [] ↔ complete l = [] := by
  unfold complete
  induction h with
  | nil => rfl
  | @cons a a' _ _ h _ ih =>
    obtain ⟨a1, a2⟩ := a
    obtain ⟨b1, b2⟩ := a'
    obtain ⟨h1, h2⟩ := h
    rcases h1 with ⟨h, h'⟩ | ⟨x, y, h, h', -⟩ <;> rcases h2 with ⟨k, k'⟩ | ⟨z, w, k, k', -⟩ <;> simp only at h h' k k' <;> subst h h' k k' <;>
      first | (simp; done) | simpa [List.filterMap_cons] using ih

theorem vector_drift (h1 : lo ≤ 0) (h2 : 0 ≤ hi) {grid : Bool} {agg : AggType} (hagg : agg ∈ [AggType.mean, .count]) {l l' : List Vec}
    (h : List.Forall₂ (fun a a' : Vec => Drifted lo hi a.1 a'.1 ∧ Drifted lo hi a.2 a'.2) l l') {v v' : Vec} (hv : VectorStatistic grid agg l v)
    (hv' : VectorStatistic grid agg l' v') : Drifted lo hi v.1 v'.1 ∧ Drifted lo hi v.2 v'.2 := by
  have hc := complete_drift h
  have refl := (drifted_matches h1 h2).refl
  simp only [List.mem_cons, List.not_mem_nil, or_false] at hagg
  rcases hagg with rfl | rfl
  · unfold VectorStatistic at hv hv'
    simp only [hc] at hv hv'
    split at hv
    · rename_i hg
      rw [if_pos hg] at hv'
      subst hv hv'
      exact ⟨refl _, refl _⟩
    · rename_i hg
      rw [if_neg hg] at hv'
      exact ⟨meanOf_drift (component_drift (h.imp (fun _ _ k => k.1))) hv.1 hv'.1, meanOf_drift (component_drift (h.imp (fun _ _ k => k.2))) hv.2 hv'.2⟩
  · unfold VectorStatistic at hv hv'
    simp only at hv hv'
    have : v' = v := by
      rw [hv, hv', ← h.length_eq]
      cases grid with
      | true => simp only [hc, if_true]
      | false =>
        have : l' = [] ↔ l = [] := by rw [← List.length_eq_zero_iff, ← List.length_eq_zero_iff, h.length_eq]
        simp only [this, Bool.false_eq_true, if_false]
    rw [this]
    exact ⟨refl _, refl _⟩

end Numbers

/-! ## Datapoints and sources -/

section Sources
variable {S C : Type} {lo hi : ℚ}

theorem forall₂_filter {α : Type} {R : α → α → Prop} {p p' : α → Bool} {l l' : List α} (h : List.Forall₂ R l l') (hp : ∀ a b, R a b → p a = p' b) :
    List.Forall₂ R (l.filter p) (l'.filter p') := by
  induction h with
  | nil => exact .nil
  | @cons a b _ _ h _ ih =>
    rw [List.filter_cons, List.filter_cons, ← hp a b h]
    split
    · exact .cons h ih
    · exact ih

theorem drifted_vals {conds : List Cond} {l l' : List (Row (Option ℚ))} (h : List.Forall₂ (DriftedRow lo hi conds) l l') :
    List.Forall₂ (fun a a' => Drifted lo hi a a' ∧ SameSides conds a a') (l.map Row.val) (l'.map Row.val) := by
  rw [List.forall₂_map_left_iff, List.forall₂_map_right_iff]
  exact h.imp (fun _ _ k => k.2.2.2)

theorem drifted_rowsIn {conds : List Cond} {d d' : Dataset (Option ℚ)} (h : DriftedData lo hi conds d d') (q : Boundary) :
    List.Forall₂ (DriftedRow lo hi conds) (rowsIn d q) (rowsIn d' q) := by
  refine forall₂_filter h.2.2 (fun r r' k => ?_)
  rw [h.2.1, k.1, k.2.1, k.2.2.1]

theorem drifted_rowsAround {conds : List Cond} {d d' : Dataset (Option ℚ)} (h : DriftedData lo hi conds d d') (q : Boundary) :
    List.Forall₂ (DriftedRow lo hi conds) (rowsAround d q) (rowsAround d' q) := by
  refine forall₂_filter h.2.2 (fun r r' k => ?_)
  rw [h.2.1, k.1, k.2.1, k.2.2.1]

theorem nearAt_wrap {S' C' : Type} {R : Option ℚ → Option ℚ → Prop} {put : S → S'} {get : S' → Option S} {putC : C → C'} {getC : C' → Option C}
    (hg : ∀ d, get (put d) = some d) (hc : ∀ c, getC (putC c) = some c) {q : Boundary} {s s' : Source S C} (h : NearAt R q s s') :
    NearAt R q (s.wrap put get putC getC) (s'.wrap put get putC getC) := by
  have e1 : ∀ (s : Source S C) (q : Boundary) (P : Verdict → Prop),
      (∃ c ∈ (s.wrap put get putC getC).conds, P (ownVerdict (s.wrap put get putC getC) q c)) ↔ ∃ c ∈ s.conds, P (ownVerdict s q c) := by
    intro s q P
    constructor
    · rintro ⟨c, hcm, hv⟩
      obtain ⟨c0, hm, rfl⟩ := List.mem_map.1 hcm
      rw [ownVerdict_wrap hg hc] at hv
      exact ⟨c0, hm, hv⟩
    · rintro ⟨c, hcm, hv⟩
      exact ⟨putC c, List.mem_map_of_mem hcm, by rw [ownVerdict_wrap hg hc]; exact hv⟩
  have e2 : ∀ (s : Source S C) (q : Boundary) (P : Verdict → Prop),
      (∀ c ∈ (s.wrap put get putC getC).conds, P (ownVerdict (s.wrap put get putC getC) q c)) ↔ ∀ c ∈ s.conds, P (ownVerdict s q c) := by
    intro s q P
    constructor
    · intro k c hcm
      have := k (putC c) (List.mem_map_of_mem hcm)
      rwa [ownVerdict_wrap hg hc] at this
    · intro k c hcm
      obtain ⟨c0, hm, rfl⟩ := List.mem_map.1 hcm
      rw [ownVerdict_wrap hg hc]
      exact k c0 hm
  refine ⟨h.id, h.name, h.fill, ?_, ?_, ?_⟩
  · rw [e1 s' q (· = .het), e1 s q (· = .het)]; exact h.het
  · rw [e2 s' q (fun v => v = .clr ∨ v = .het), e2 s q (fun v => v = .clr ∨ v = .het)]; exact h.free
  · simp only [Source.wrap, hg]
    exact h.value

theorem nearAt_same {R : Option ℚ → Option ℚ → Prop} (hR : Matches R) {In : Boundary → Prop} {s : Source S C} {value : Boundary → String → Option ℚ}
    (h : ValuedOn In s value) {q : Boundary} (hq : In q) : NearAt R q s s := by
  refine ⟨rfl, rfl, rfl, Iff.rfl, Iff.rfl, ?_⟩
  intro D D' h1 h2 n hn
  rw [h1] at h2
  cases h2
  obtain ⟨D1, k1, k2, -⟩ := h.gives q hq
  rw [h1] at k1
  cases k1
  exact Or.inr ⟨_, _, k2 n hn, k2 n hn, hR.refl _⟩

theorem scalar_drift (h1 : lo ≤ 0) (h2 : 0 ≤ hi) {grid : Bool} {q : Boundary} {s s' : Source (Dataset (Option ℚ)) Cond} {id name agg minDp}
    (e : s.loader = scalarLoader id name agg minDp) (hagg : agg ∈ [AggType.min, .max, .mean, .median, .count]) (hn : ',' ∉ name.toList)
    (e1 : s'.loader = s.loader) (e2 : s'.conds = s.conds) (e3 : s'.fill = s.fill) {v v' : List (Option ℚ)}
    (hv : List.Forall₂ (fun a a' => Drifted lo hi a a' ∧ SameSides s.conds a a') v v')
    (g : s.loader.getValue q (s.loader.trim q s.subset) = (valueOf grid agg v >>= fun v => pure [(name, Val.num v)]))
    (g' : s'.loader.getValue q (s'.loader.trim q s'.subset) = (valueOf grid agg v' >>= fun v => pure [(name, Val.num v)]))
    (k : ∀ c ∈ s.conds, ownVerdict s q c = homCondition minDp c v) (k' : ∀ c ∈ s.conds, ownVerdict s' q c = homCondition minDp c v') :
    NearAt (Drifted lo hi) q s s' := by
  refine ⟨by rw [e1], by rw [e1], e3, ?_, ?_, ?_⟩
  · rw [e2]
    exact exists_congr (fun c => and_congr_right (fun hc => by rw [k c hc, k' c hc, hom_drift hv minDp hc]))
  · rw [e2]
    exact forall₂_congr (fun c hc => by rw [k c hc, k' c hc, hom_drift hv minDp hc])
  · intro D D' i1 i2 n hm
    obtain ⟨a, a', j1, j2, j3⟩ := value_drift h1 h2 grid hagg (hv.imp (fun _ _ k => k.1))
    rw [g, j1] at i1
    rw [g', j2] at i2
    cases i1; cases i2
    have hname : s.loader.dataName = name := by rw [e]; rfl
    rw [hname, splitName_single hn, List.mem_singleton] at hm
    subst hm
    exact Or.inr ⟨a, a', by simp [Dict.get?], by simp [Dict.get?], j3⟩

theorem drifted_id {s s' : Source AnyData AnyCond} (h : DriftedSource lo hi s s') : s'.loader.id = s.loader.id := by
  cases h with
  | same => rfl
  | scalar _ _ e1 => simp only [Source.ofScalar, Source.wrap, e1]
  | vector e _ _ e1 =>
    simp only [Source.ofVector, Source.wrap, e, e1]
    rfl

theorem drifted_vectors {l l' : List (Row Vec)} (h : List.Forall₂ (DriftedVectorRow lo hi) l l') :
    List.Forall₂ (fun a a' : Vec => Drifted lo hi a.1 a'.1 ∧ Drifted lo hi a.2 a'.2) (l.map Row.val) (l'.map Row.val) := by
  rw [List.forall₂_map_left_iff, List.forall₂_map_right_iff]
  exact h.imp (fun _ _ k => k.2.2.2)

theorem drifted_vectorsIn {d d' : Dataset Vec} (h : DriftedVectors lo hi d d') (q : Boundary) :
    List.Forall₂ (DriftedVectorRow lo hi) (rowsIn d q) (rowsIn d' q) := by
  refine forall₂_filter h.2.2 (fun r r' k => ?_)
  rw [h.2.1, k.1, k.2.1, k.2.2.1]

theorem drifted_vectorsAround {d d' : Dataset Vec} (h : DriftedVectors lo hi d d') (q : Boundary) :
    List.Forall₂ (DriftedVectorRow lo hi) (rowsAround d q) (rowsAround d' q) := by
  refine forall₂_filter h.2.2 (fun r r' k => ?_)
  rw [h.2.1, k.1, k.2.1, k.2.2.1]

/-- Vector sources without conditions whose values for a box are near to each other. -/
theorem vector_nearAt {R : Option ℚ → Option ℚ → Prop} {In : Boundary → Prop} {q : Boundary} (hq : In q) {s s' : Source (Dataset Vec) VectorHom.Conds} {name x y}
    (hname : s.loader.dataName = name) (hn : splitName name = [x, y]) (e0 : s'.loader.id = s.loader.id) (e1 : s'.loader.dataName = s.loader.dataName) (c1 : s.conds = []) (c2 : s'.conds = []) (e3 : s'.fill = s.fill)
    {value value' : Boundary → String → Option ℚ} (hv : ValuedOn In (.ofVector s) value) (hv' : ValuedOn In (.ofVector s') value')
    (h : R (value q x) (value' q x) ∧ R (value q y) (value' q y)) : NearAt R q (.ofVector s) (.ofVector s') := by
  have d1 : (Source.ofVector s).conds = [] := by
    show s.conds.map _ = []
    rw [c1]; rfl
  have d2 : (Source.ofVector s').conds = [] := by
    show s'.conds.map _ = []
    rw [c2]; rfl
  have n1 : splitName (Source.ofVector s).loader.dataName = [x, y] := by
    show splitName s.loader.dataName = _
    rw [hname, hn]
  have n2 : splitName (Source.ofVector s').loader.dataName = [x, y] := by
    show splitName s'.loader.dataName = _
    rw [e1, hname, hn]
  refine ⟨e0, e1, e3, by simp [d1, d2], by simp [d1, d2], ?_⟩
  intro D D' i1 i2 n hm
  obtain ⟨D1, k1, k2, -⟩ := hv.gives q hq
  obtain ⟨D2, j1, j2, -⟩ := hv'.gives q hq
  rw [i1] at k1
  rw [i2] at j1
  cases k1; cases j1
  refine Or.inr ⟨_, _, k2 n hm, j2 n (by rw [n2, ← n1]; exact hm), ?_⟩
  rw [n1] at hm
  simp only [List.mem_cons, List.not_mem_nil, or_false] at hm
  rcases hm with rfl | rfl
  · exact h.1
  · exact h.2

theorem drifted_plain (h1 : lo ≤ 0) (h2 : 0 ≤ hi) {b q : Boundary} (hq : Inner b q) {s s' : Source AnyData AnyCond} (h : PlainAny b s) (h' : PlainAny b s')
    {value : Boundary → String → Option ℚ} (hv : ValuedOn (Inner b) s value) (hs : DriftedSource lo hi s s') : NearAt (Drifted lo hi) q s s' := by
  cases hs with
  | same => exact nearAt_same (drifted_matches h1 h2) hv hq
  | @scalar s s' id name agg minDp e hagg e1 e2 e3 hd =>
    have h := h.ofScalar
    have h' := h'.ofScalar
    have e' : s'.loader = scalarLoader id name agg minDp := by rw [e1, e]
    have hn : ',' ∉ name.toList := by
      obtain ⟨id', name', agg', minDp', e0, hn, -⟩ := h.loader
      have : s.loader.dataName = name' := by rw [e0]; rfl
      have : s.loader.dataName = name := by rw [e]; rfl
      simp_all
    unfold Source.ofScalar
    refine nearAt_wrap ?_ ?_ (scalar_drift h1 h2 (grid := s.subset.isGrid) e hagg hn e1 e2 e3 (drifted_vals (drifted_rowsIn hd q)) (plain_scalar_get e h hq) ?_ ?_ ?_)
    · intro _; rfl
    · intro _; rfl
    · rw [plain_scalar_get e' h' hq, hd.1]
    · intro c hc
      unfold ownVerdict
      rw [(scalar_faithful h e).decides q hq c hc]
    · intro c hc
      unfold ownVerdict
      rw [(scalar_faithful h' e').decides q hq c (by rw [e2]; exact hc)]
  | @vector s s' id name agg hom hom' x y e hn hagg e' c1 c2 e3 hd =>
    have hagg' : agg ∈ [AggType.min, .max, .mean, .count] := by
      simp only [List.mem_cons, List.not_mem_nil, or_false] at hagg ⊢
      tauto
    obtain ⟨w, w1, w2⟩ := any_valued h
    obtain ⟨w', w1', w2'⟩ := any_valued h'
    have g := gives_vector (w2 q hq) e hn hagg'
    have g' := gives_vector (w2' q hq) e' hn hagg'
    rw [hd.1] at g'
    exact vector_nearAt hq (by rw [e]; rfl) hn (by rw [e, e']; rfl) (by rw [e, e']; rfl) c1 c2 e3 w1 w1' (vector_drift h1 h2 hagg (drifted_vectors (drifted_vectorsIn hd q)) g g')

theorem drifted_around (h1 : lo ≤ 0) (h2 : 0 ≤ hi) {b q : Boundary} (hq : Around b q) {s s' : Source AnyData AnyCond} (h : AroundAny b s) (h' : AroundAny b s')
    {value : Boundary → String → Option ℚ} (hv : ValuedOn (Around b) s value) (hs : DriftedSource lo hi s s') : NearAt (Drifted lo hi) q s s' := by
  cases hs with
  | same => exact nearAt_same (drifted_matches h1 h2) hv hq
  | @scalar s s' id name agg minDp e hagg e1 e2 e3 hd =>
    obtain ⟨-, hg⟩ := h.scalarGrid
    obtain ⟨-, hg'⟩ := h'.scalarGrid
    have e' : s'.loader = scalarLoader id name agg minDp := by rw [e1, e]
    have hn : ',' ∉ name.toList := by
      obtain ⟨⟨id', name', agg', minDp', e0, hn⟩, -⟩ := h.scalarComma
      have : s.loader.dataName = name' := by rw [e0]; rfl
      have : s.loader.dataName = name := by rw [e]; rfl
      simp_all
    unfold Source.ofScalar
    refine nearAt_wrap ?_ ?_ (scalar_drift h1 h2 (grid := true) e hagg hn e1 e2 e3 (drifted_vals (drifted_rowsAround hd q)) (around_scalar_get e hg hq)
      (around_scalar_get e' hg' hq) ?_ ?_)
    · intro _; rfl
    · intro _; rfl
    · intro c hc
      unfold ownVerdict
      rw [(around_scalar_faithful e hg).decides q hq c hc]
    · intro c hc
      unfold ownVerdict
      rw [(around_scalar_faithful e' hg').decides q hq c (by rw [e2]; exact hc)]
  | @vector s s' id name agg hom hom' x y e hn hagg e' c1 c2 e3 hd =>
    have hagg' : agg ∈ [AggType.min, .max, .mean, .count] := by
      simp only [List.mem_cons, List.not_mem_nil, or_false] at hagg ⊢
      tauto
    obtain ⟨w, w1, w2⟩ := around_valued h
    obtain ⟨w', w1', w2'⟩ := around_valued h'
    exact vector_nearAt hq (by rw [e]; rfl) hn (by rw [e, e']; rfl) (by rw [e, e']; rfl) c1 c2 e3 w1 w1'
      (vector_drift h1 h2 hagg (drifted_vectors (drifted_vectorsAround hd q)) (gives_around_vector (w2 q hq) e hn hagg') (gives_around_vector (w2' q hq) e' hn hagg'))

end Sources

/-! ## C129 -/

/-- **C129**: in a region that does not cross the antimeridian, let the values of scalar sources rise by at most `hi` and fall by at most `-lo`, without crossing
a threshold, and so the components of vector sources without conditions, of which the mean or the number is taken; other sources stay as they are.  Both meshes are built without raising, they have the same cells, a value is missing in both or in none, and it
rises by at most `hi` and falls by at most `-lo`. -/
theorem C129_drift {lo hi : ℚ} (h1 : lo ≤ 0) (h2 : 0 ≤ hi) {b : Boundary} {W H : ℚ} {full full' : List (Source AnyData AnyCond)}
    (hfull : List.Forall₂ (DriftedSource lo hi) full full') (hf : ∀ s ∈ full, PlainAny b s) (hf' : ∀ s ∈ full', PlainAny b s)
    (hid : (full.map (fun s => s.loader.id)).Nodup) (config config' : MeshConfig) (hp : ProperGrid b W H) (hcr : b.longMin < b.longMax)
    (hh : b.latMin < b.latMax) (hcol : b.longMin = -180 ∧ b.longMax = 180 → W ≤ 180) (hacc : MeshBuilder.validateBounds b W H = .ok ()) (depth : ℕ) :
    ∃ m0 m0', MeshBuilder.init b W H (fun q => trimSources q full) depth = .ok m0 ∧
      MeshBuilder.init b W H (fun q => trimSources q full') depth = .ok m0' ∧ ∃ N em em',
      (∀ fuel, N ≤ fuel → MeshBuilder.buildEnvironmentalMesh (sourceOps AnyData AnyCond) aggregate fuel config m0 = .ok em ∧
        MeshBuilder.buildEnvironmentalMesh (sourceOps AnyData AnyCond) aggregate fuel config' m0' = .ok em') ∧
      (∀ q, (∃ c ∈ em'.cells, c.bounds = q) ↔ ∃ c ∈ em.cells, c.bounds = q) ∧
      ∀ c ∈ em.cells, ∀ c' ∈ em'.cells, c'.bounds = c.bounds → ∀ n, EntryNear (Drifted lo hi) (c.data.get? n) (c'.data.get? n) := by
  obtain ⟨zs, rfl, rfl, hzs⟩ := forall₂_zip hfull
  have hid' : ((zs.map Prod.snd).map (fun s => s.loader.id)).Nodup := by
    have : (zs.map Prod.snd).map (fun s => s.loader.id) = (zs.map Prod.fst).map (fun s => s.loader.id) := by
      rw [List.map_map, List.map_map]
      exact List.map_congr_left (fun z hz => drifted_id (hzs z hz))
    rw [this]; exact hid
  obtain ⟨m0, h0, N, em, value, hb, hB⟩ := plain_from hf hid config hp hcr hh hcol hacc depth
  obtain ⟨m0', h0', N', em', value', hb', hB'⟩ := plain_from hf' hid' config' hp hcr hh hcol hacc depth
  refine ⟨m0, m0', h0, h0', max N N', em, em', fun fuel hfuel => ⟨hb fuel (by omega), hb' fuel (by omega)⟩, ?_⟩
  have hS := inner_system hp hcr hacc
  exact near_cells (drifted_matches h1 h2) hB hB' hS.first (fun p q a1 a2 => (hS.within p q a1 a2).1) (fun q t t' => lineage_unique hp.wpos hp.hpos)
    (fun q hq z hz => drifted_plain h1 h2 hq (hf _ (List.mem_map_of_mem hz)) (hf' _ (List.mem_map_of_mem hz)) (hB.valued _ (List.mem_map_of_mem hz)) (hzs z hz))

/-- **C129**, over the antimeridian: the same for regions that may cross it and gridded data. -/
theorem C129_around {lo hi : ℚ} (h1 : lo ≤ 0) (h2 : 0 ≤ hi) {b : Boundary} {W H : ℚ} {full full' : List (Source AnyData AnyCond)}
    (hfull : List.Forall₂ (DriftedSource lo hi) full full') (hf : ∀ s ∈ full, AroundAny b s) (hf' : ∀ s ∈ full', AroundAny b s)
    (hid : (full.map (fun s => s.loader.id)).Nodup) (config config' : MeshConfig) (hp : ProperGrid b W H)
    (hh : b.latMin < b.latMax) (hcol : b.width = 360 → W ≤ 180) (hacc : MeshBuilder.validateBounds b W H = .ok ()) (depth : ℕ) :
    ∃ m0 m0', MeshBuilder.init b W H (fun q => trimSources q full) depth = .ok m0 ∧
      MeshBuilder.init b W H (fun q => trimSources q full') depth = .ok m0' ∧ ∃ N em em',
      (∀ fuel, N ≤ fuel → MeshBuilder.buildEnvironmentalMesh (sourceOps AnyData AnyCond) aggregate fuel config m0 = .ok em ∧
        MeshBuilder.buildEnvironmentalMesh (sourceOps AnyData AnyCond) aggregate fuel config' m0' = .ok em') ∧
      (∀ q, (∃ c ∈ em'.cells, c.bounds = q) ↔ ∃ c ∈ em.cells, c.bounds = q) ∧
      ∀ c ∈ em.cells, ∀ c' ∈ em'.cells, c'.bounds = c.bounds → ∀ n, EntryNear (Drifted lo hi) (c.data.get? n) (c'.data.get? n) := by
  obtain ⟨zs, rfl, rfl, hzs⟩ := forall₂_zip hfull
  have hid' : ((zs.map Prod.snd).map (fun s => s.loader.id)).Nodup := by
    have : (zs.map Prod.snd).map (fun s => s.loader.id) = (zs.map Prod.fst).map (fun s => s.loader.id) := by
      rw [List.map_map, List.map_map]
      exact List.map_congr_left (fun z hz => drifted_id (hzs z hz))
    rw [this]; exact hid
  obtain ⟨m0, h0, N, em, value, hb, hB⟩ := around_from hf hid config hp hh hcol hacc depth
  obtain ⟨m0', h0', N', em', value', hb', hB'⟩ := around_from hf' hid' config' hp hh hcol hacc depth
  refine ⟨m0, m0', h0, h0', max N N', em, em', fun fuel hfuel => ⟨hb fuel (by omega), hb' fuel (by omega)⟩, ?_⟩
  have hS := around_system hp hcol hacc
  exact near_cells (drifted_matches h1 h2) hB hB' hS.first (fun p q a1 a2 => (hS.within p q a1 a2).1)
    (fun q t t' => around_unique (unwraps_of hp) hp.wpos hp.hpos (cell_small hp hcol hacc))
    (fun q hq z hz => drifted_around h1 h2 hq (hf _ (List.mem_map_of_mem hz)) (hf' _ (List.mem_map_of_mem hz)) (hB.valued _ (List.mem_map_of_mem hz)) (hzs z hz))

/-! ## Examples -/

/-- A check of `Spec.DriftedRow`. -/
def driftedCheck (lo hi : ℚ) (conds : List Cond) (r r' : Row (Option ℚ)) : Bool :=
  decide (r'.lat = r.lat ∧ r'.long = r.long ∧ r'.time = r.time) && (match r.val, r'.val with
    | none, none => true
    | some x, some y => decide (x + lo ≤ y ∧ y ≤ x + hi) && conds.all (fun c => decide (c.threshold < x) == decide (c.threshold < y))
    | _, _ => false)

theorem driftedRow_of {lo hi : ℚ} {conds : List Cond} {r r' : Row (Option ℚ)} (h : driftedCheck lo hi conds r r' = true) : DriftedRow lo hi conds r r' := by
  unfold driftedCheck at h
  rw [Bool.and_eq_true, decide_eq_true_iff] at h
  obtain ⟨⟨h1, h2, h3⟩, h4⟩ := h
  refine ⟨h1, h2, h3, ?_⟩
  cases e : r.val with
  | none =>
    cases e' : r'.val with
    | none => exact ⟨Or.inl ⟨rfl, rfl⟩, fun _ _ _ _ e => by cases e⟩
    | some y => rw [e, e'] at h4; cases h4
  | some x =>
    cases e' : r'.val with
    | none => rw [e, e'] at h4; cases h4
    | some y =>
      rw [e, e'] at h4
      simp only [Bool.and_eq_true, decide_eq_true_iff, List.all_eq_true, beq_iff_eq, decide_eq_decide] at h4
      refine ⟨Or.inr ⟨x, y, rfl, rfl, h4.1⟩, ?_⟩
      rintro c hc x' y' rfl' rfl''
      cases rfl'; cases rfl''
      exact h4.2 c hc

theorem driftedRows_of {lo hi : ℚ} {conds : List Cond} {l l' : List (Row (Option ℚ))} (hl : l.length = l'.length)
    (h : ∀ z ∈ l.zip l', driftedCheck lo hi conds z.1 z.2 = true) : List.Forall₂ (DriftedRow lo hi conds) l l' := by
  rw [List.forall₂_iff_zip]
  exact ⟨hl, fun {a b} hz => driftedRow_of (h (a, b) hz)⟩

/-- The hypotheses of C129 hold: one value falls by a fifth, the other rises by a third, and both stay above the threshold, 3. -/
example : ∃ m0 m0', MeshBuilder.init exRegion 10 5 (fun q => trimSources q (exUpdated [⟨-59, 1, 0, some 5⟩, ⟨-52, 12, 0, some 7⟩])) 1 = .ok m0 ∧
    MeshBuilder.init exRegion 10 5 (fun q => trimSources q (exUpdated [⟨-59, 1, 0, some (24 / 5)⟩, ⟨-52, 12, 0, some (22 / 3)⟩])) 1 = .ok m0' ∧ ∃ N em em',
    (∀ fuel, N ≤ fuel → MeshBuilder.buildEnvironmentalMesh (sourceOps AnyData AnyCond) aggregate fuel exConfig m0 = .ok em ∧
      MeshBuilder.buildEnvironmentalMesh (sourceOps AnyData AnyCond) aggregate fuel exConfig m0' = .ok em') ∧
    (∀ q, (∃ c ∈ em'.cells, c.bounds = q) ↔ ∃ c ∈ em.cells, c.bounds = q) ∧
    ∀ c ∈ em.cells, ∀ c' ∈ em'.cells, c'.bounds = c.bounds → ∀ n, EntryNear (Drifted (-1 / 5) (1 / 3)) (c.data.get? n) (c'.data.get? n) := by
  refine C129_drift (lo := -1 / 5) (hi := 1 / 3) (full := exUpdated [⟨-59, 1, 0, some 5⟩, ⟨-52, 12, 0, some 7⟩])
    (full' := exUpdated [⟨-59, 1, 0, some (24 / 5)⟩, ⟨-52, 12, 0, some (22 / 3)⟩]) (by norm_num) (by norm_num)
    (.cons (.scalar rfl (by decide) rfl rfl rfl ⟨rfl, rfl, driftedRows_of rfl (by decide +kernel)⟩) (.cons (.same _) .nil)) (exUpdated_plain _ _) (exUpdated_plain _ _)
    (exUpdated_ids _) exConfig exConfig exRegion_proper (by norm_num [exRegion]) (by norm_num [exRegion]) (by norm_num [exRegion]) (by decide +kernel) 1

/-- The data of C113 raised a little, more so further north. -/
def exRaised : List (Source AnyData AnyCond) :=
  [.ofScalar ⟨scalarLoader 0 "a" .mean 1, [⟨0, 0, 1, false⟩], .parent, .grid ⟨exGrid.lats, exGrid.longs, none, fun y x _ => some (y + x + y / 100)⟩⟩,
   .ofVector (vectorSource 1 "u,v" .mean 1 [] .parent (.grid ⟨[5, 10], [-175, 180], none, fun y x _ => (some y, some x)⟩))]

theorem exRaised_all : ∀ s ∈ exRaised, AroundAny exAroundRegion s := by
  intro s hs
  simp only [exRaised, List.mem_cons, List.not_mem_nil, or_false] at hs
  rcases hs with rfl | rfl
  · have hs : (Dataset.grid (⟨exGrid.lats, exGrid.longs, none, fun y x _ => some (y + x + y / 100)⟩ : Grid (Option ℚ))).Sorted := by
      unfold Dataset.Sorted; constructor <;> decide +kernel
    exact .scalar rfl (by decide) (by simp) (Or.inl rfl) ⟨⟨_, rfl, exGrid_longs⟩, hs, _, trim_eq hs (by intro h; cases h)⟩
  · exact exAround_all.1 _ (by simp [exAround])

/-- The hypotheses of C129 hold across the antimeridian. -/
example : ∃ m0 m0', MeshBuilder.init exAroundRegion 10 10 (fun q => trimSources q exAround) 1 = .ok m0 ∧
    MeshBuilder.init exAroundRegion 10 10 (fun q => trimSources q exRaised) 1 = .ok m0' ∧ ∃ N em em',
    (∀ fuel, N ≤ fuel → MeshBuilder.buildEnvironmentalMesh (sourceOps AnyData AnyCond) aggregate fuel exConfig m0 = .ok em ∧
      MeshBuilder.buildEnvironmentalMesh (sourceOps AnyData AnyCond) aggregate fuel exConfig m0' = .ok em') ∧
    (∀ q, (∃ c ∈ em'.cells, c.bounds = q) ↔ ∃ c ∈ em.cells, c.bounds = q) ∧
    ∀ c ∈ em.cells, ∀ c' ∈ em'.cells, c'.bounds = c.bounds → ∀ n, EntryNear (Drifted 0 (3 / 20)) (c.data.get? n) (c'.data.get? n) := by
  have hw : exAroundRegion.width ≠ 360 := by decide +kernel
  exact C129_around (full := exAround) (full' := exRaised) le_rfl (by norm_num)
    (.cons (.scalar rfl (by decide) rfl rfl rfl ⟨rfl, rfl, driftedRows_of (by decide +kernel) (by decide +kernel)⟩) (.cons (.same _) .nil)) exAround_all.1 exRaised_all
    exAround_all.2.1 exConfig exConfig exAroundRegion_proper (by norm_num [exAroundRegion]) (fun h => absurd h hw) (by decide +kernel) 1

/-- The boxes and values of `"a"` of the mesh of two datapoints with the values 5 and `x`, of which cells are to be divided that have values both
above 3 and not. -/
def exNearThreshold (x : ℚ) : Py (List (Boundary × Option Val)) := do
  let m ← MeshBuilder.init ⟨0, 10, 0, 10, []⟩ 10 10 (fun q => trimSources q [.ofScalar ⟨scalarLoader 1 "a" .mean 1, [⟨3, 0, 1, false⟩], .parent,
    .table ⟨false, [⟨2, 3, 0, some 5⟩, ⟨8, 9, 0, some x⟩]⟩⟩]) 1
  let em ← MeshBuilder.buildEnvironmentalMesh (sourceOps AnyData AnyCond) aggregate 10 exConfig m
  return em.cells.map (fun c => (c.bounds, c.data.get? "a"))

/-- Thresholds must not be crossed: if one value rises from 3 by a thousandth, a cell is no longer divided. -/
theorem C129_threshold_false :
    exNearThreshold (3 + 1 / 1000) = .ok [(⟨0, 10, 0, 10, []⟩, some (.num (some (4 + 1 / 2000))))] ∧
    exNearThreshold 3 = .ok [(⟨5, 10, 0, 5, []⟩, some (.num (some 4))), (⟨5, 10, 5, 10, []⟩, some (.num (some 3))),
      (⟨0, 5, 0, 5, []⟩, some (.num (some 5))), (⟨0, 5, 5, 10, []⟩, some (.num (some 4)))] := by
  decide +kernel

/-! ## Examples of vectors -/

/-- A check of `Spec.DriftedVectorRow`. -/
def driftedVectorCheck (lo hi : ℚ) (r r' : Row Vec) : Bool :=
  driftedCheck lo hi [] ⟨r.lat, r.long, r.time, r.val.1⟩ ⟨r'.lat, r'.long, r'.time, r'.val.1⟩ &&
    driftedCheck lo hi [] ⟨r.lat, r.long, r.time, r.val.2⟩ ⟨r'.lat, r'.long, r'.time, r'.val.2⟩

theorem driftedVectors_of {lo hi : ℚ} {l l' : List (Row Vec)} (hl : l.length = l'.length) (h : ∀ z ∈ l.zip l', driftedVectorCheck lo hi z.1 z.2 = true) :
    List.Forall₂ (DriftedVectorRow lo hi) l l' := by
  rw [List.forall₂_iff_zip]
  refine ⟨hl, fun {a b} hz => ?_⟩
  have := h (a, b) hz
  unfold driftedVectorCheck at this
  rw [Bool.and_eq_true] at this
  have h1 := driftedRow_of this.1
  have h2 := driftedRow_of this.2
  exact ⟨h1.1, h1.2.1, h1.2.2.1, h1.2.2.2.1, h2.2.2.2.1⟩

/-- Vectors on both sides of the antimeridian, changed by up to a tenth; the scalars as before. -/
def exTurnedFlow : List (Source AnyData AnyCond) :=
  [.ofScalar ⟨scalarLoader 0 "a" .mean 1, [⟨0, 0, 1, false⟩], .parent, .grid exGrid⟩,
   .ofVector (vectorSource 1 "u,v" .mean 1 [] .parent (.grid ⟨[5, 10], [-175, 180], none, fun y x _ => (some (y + 1 / 10), some (x - y / 100))⟩))]

theorem exTurnedFlow_all : ∀ s ∈ exTurnedFlow, AroundAny exAroundRegion s := by
  intro s hs
  simp only [exTurnedFlow, List.mem_cons, List.not_mem_nil, or_false] at hs
  rcases hs with rfl | rfl
  · exact exAround_all.1 _ (by simp [exAround])
  · have hs : (Dataset.grid (⟨[5, 10], [-175, 180], none, fun y x _ => (some (y + 1 / 10), some (x - y / 100))⟩ : Grid Vec)).Sorted := by
      unfold Dataset.Sorted; constructor <;> decide +kernel
    exact .vector (x := "u") (y := "v") rfl (by decide +kernel) (by decide) (by simp) rfl rfl ⟨⟨_, rfl, by decide +kernel⟩, hs, _, trim_eq hs (by intro h; cases h)⟩

/-- The hypotheses of C129 hold for changed vectors across the antimeridian. -/
example : ∃ m0 m0', MeshBuilder.init exAroundRegion 10 10 (fun q => trimSources q exAround) 1 = .ok m0 ∧
    MeshBuilder.init exAroundRegion 10 10 (fun q => trimSources q exTurnedFlow) 1 = .ok m0' ∧ ∃ N em em',
    (∀ fuel, N ≤ fuel → MeshBuilder.buildEnvironmentalMesh (sourceOps AnyData AnyCond) aggregate fuel exConfig m0 = .ok em ∧
      MeshBuilder.buildEnvironmentalMesh (sourceOps AnyData AnyCond) aggregate fuel exConfig m0' = .ok em') ∧
    (∀ q, (∃ c ∈ em'.cells, c.bounds = q) ↔ ∃ c ∈ em.cells, c.bounds = q) ∧
    ∀ c ∈ em.cells, ∀ c' ∈ em'.cells, c'.bounds = c.bounds → ∀ n, EntryNear (Drifted (-1 / 10) (1 / 10)) (c.data.get? n) (c'.data.get? n) := by
  have hw : exAroundRegion.width ≠ 360 := by decide +kernel
  exact C129_around (full := exAround) (full' := exTurnedFlow) (by norm_num) (by norm_num)
    (.cons (.same _) (.cons (.vector (x := "u") (y := "v") rfl (by decide +kernel) (by decide) rfl rfl rfl rfl
      ⟨rfl, rfl, driftedVectors_of (by decide +kernel) (by decide +kernel)⟩) .nil)) exAround_all.1 exTurnedFlow_all
    exAround_all.2.1 exConfig exConfig exAroundRegion_proper (by norm_num [exAroundRegion]) (fun h => absurd h hw) (by decide +kernel) 1

/-- Two vectors, the first of which is changed. -/
def exShortest (x : ℚ) (agg : AggType) : List (Source AnyData AnyCond) :=
  [.ofVector (vectorSource 1 "u,v" agg 1 [] .parent (.table ⟨false, [⟨-59, 1, 0, (some x, some 0)⟩, ⟨-58, 2, 0, (some 0, some 3)⟩, ⟨-52, 12, 0, (none, some 3)⟩]⟩))]

theorem exShortest_plain (x : ℚ) : ∀ s ∈ exShortest x .mean, PlainAny exRegion s := by
  intro s hs
  simp only [exShortest, List.mem_singleton] at hs
  subst hs
  exact .vector ⟨⟨_, _, _, _, "u", "v", rfl, by decide +kernel, by decide, by simp, le_rfl⟩, rfl, trivial, ⟨_, rfl⟩, by simp [vectorSource]⟩

/-- The hypotheses of C129 hold for changed vectors. -/
example : ∃ m0 m0', MeshBuilder.init exRegion 10 5 (fun q => trimSources q (exShortest (3 - 1 / 1000) .mean)) 1 = .ok m0 ∧
    MeshBuilder.init exRegion 10 5 (fun q => trimSources q (exShortest (3 + 1 / 1000) .mean)) 1 = .ok m0' ∧ ∃ N em em',
    (∀ fuel, N ≤ fuel → MeshBuilder.buildEnvironmentalMesh (sourceOps AnyData AnyCond) aggregate fuel exConfig m0 = .ok em ∧
      MeshBuilder.buildEnvironmentalMesh (sourceOps AnyData AnyCond) aggregate fuel exConfig m0' = .ok em') ∧
    (∀ q, (∃ c ∈ em'.cells, c.bounds = q) ↔ ∃ c ∈ em.cells, c.bounds = q) ∧
    ∀ c ∈ em.cells, ∀ c' ∈ em'.cells, c'.bounds = c.bounds → ∀ n, EntryNear (Drifted 0 (1 / 500)) (c.data.get? n) (c'.data.get? n) :=
  C129_drift (full := exShortest (3 - 1 / 1000) .mean) (full' := exShortest (3 + 1 / 1000) .mean) le_rfl (by norm_num)
    (.cons (.vector (x := "u") (y := "v") rfl (by decide +kernel) (by decide) rfl rfl rfl rfl ⟨rfl, rfl, driftedVectors_of rfl (by decide +kernel)⟩) .nil)
    (exShortest_plain _) (exShortest_plain _) (by decide) exConfig exConfig exRegion_proper (by norm_num [exRegion]) (by norm_num [exRegion]) (by norm_num [exRegion])
    (by decide +kernel) 1

/-- Not so for the shortest vector: if a component rises by two thousandths, another vector is the shortest, and both components of the cell change by almost 3. -/
theorem C129_shortest_false : ∀ x ∈ [(3 - 1 / 1000 : ℚ), 3 + 1 / 1000], ((do
    let m ← MeshBuilder.init exRegion 10 5 (fun q => trimSources q (exShortest x .min)) 0
    let em ← MeshBuilder.buildEnvironmentalMesh (sourceOps AnyData AnyCond) aggregate 10 exConfig m
    return (em.cells.take 1).map (fun c => (c.data.get? "u", c.data.get? "v")) : Py (List (Option Val × Option Val)))) =
    if x < 3 then .ok [(some (.num (some (3 - 1 / 1000))), some (.num (some 0)))] else .ok [(some (.num (some 0)), some (.num (some 3)))] := by
  decide +kernel

end Verif
