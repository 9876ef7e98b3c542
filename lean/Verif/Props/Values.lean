import Verif.Props.Homogeneity
import Mathlib.Algebra.Order.BigOperators.Group.List

/-!
# C29, C30: aggregated values of scalar data
-/

namespace Verif
open Spec

/-! ## Lists of numbers -/

theorem foldl_min_spec : ∀ (l : List ℚ) (a : ℚ), (l.foldl min a = a ∨ l.foldl min a ∈ l) ∧ l.foldl min a ≤ a ∧ ∀ x ∈ l, l.foldl min a ≤ x := by
  intro l
  induction l with
  | nil => intro a; simp
  | cons y l ih =>
    intro a
    obtain ⟨h1, h2, h3⟩ := ih (min a y)
    simp only [List.foldl_cons, List.mem_cons]
    refine ⟨?_, h2.trans (min_le_left _ _), ?_⟩
    · rcases h1 with h | h
      · rcases min_choice a y with e | e
        · left; rw [h, e]
        · right; left; rw [h, e]
      · right; right; exact h
    · rintro x (rfl | hx)
      · exact h2.trans (min_le_right _ _)
      · exact h3 x hx

theorem foldl_max_spec : ∀ (l : List ℚ) (a : ℚ), (l.foldl max a = a ∨ l.foldl max a ∈ l) ∧ a ≤ l.foldl max a ∧ ∀ x ∈ l, x ≤ l.foldl max a := by
  intro l
  induction l with
  | nil => intro a; simp
  | cons y l ih =>
    intro a
    obtain ⟨h1, h2, h3⟩ := ih (max a y)
    simp only [List.foldl_cons, List.mem_cons]
    refine ⟨?_, (le_max_left _ _).trans h2, ?_⟩
    · rcases h1 with h | h
      · rcases max_choice a y with e | e
        · left; rw [h, e]
        · right; left; rw [h, e]
      · right; right; exact h
    · rintro x (rfl | hx)
      · exact (le_max_right _ _).trans h2
      · exact h3 x hx

/-- `v` is the least element of `l`. -/
def Spec.IsMinOf (l : List ℚ) (v : ℚ) : Prop := v ∈ l ∧ ∀ x ∈ l, v ≤ x

/-- `v` is the greatest element of `l`. -/
def Spec.IsMaxOf (l : List ℚ) (v : ℚ) : Prop := v ∈ l ∧ ∀ x ∈ l, x ≤ v

/-- `v` is a median of `l`: at least half of the values are not above and at least half not below. -/
def Spec.IsMedian (l : List ℚ) (v : ℚ) : Prop :=
  l.length ≤ 2 * (l.filter (fun x => x ≤ v)).length ∧ l.length ≤ 2 * (l.filter (fun x => v ≤ x)).length

/-- `v` is the middle of the medians among the values: the mean of the least and the greatest of them. -/
def Spec.IsMiddle (l : List ℚ) (v : ℚ) : Prop :=
  ∃ lo ∈ l, ∃ hi ∈ l, IsMedian l lo ∧ IsMedian l hi ∧ (∀ x, IsMedian l x → lo ≤ x ∧ x ≤ hi) ∧ v * 2 = lo + hi

/-- `v` is the mean squared deviation from the mean `a`, with divisor `n`. -/
def Spec.IsMeanSquare (l : List ℚ) (n v : ℚ) : Prop := ∃ a, a * l.length = l.sum ∧ v * n = (l.map (fun x => (x - a) ^ 2)).sum

theorem listMin_spec (l : List ℚ) : (listMin l = none ↔ l = []) ∧ ∀ v, listMin l = some v ↔ IsMinOf l v := by
  cases l with
  | nil => simp [listMin, IsMinOf]
  | cons a l =>
    obtain ⟨h1, h2, h3⟩ := foldl_min_spec l a
    refine ⟨by simp [listMin], fun v => ?_⟩
    have hm : IsMinOf (a :: l) (l.foldl min a) := by
      refine ⟨?_, ?_⟩
      · rcases h1 with h | h
        · rw [h]; exact List.mem_cons_self ..
        · exact List.mem_cons_of_mem _ h
      · intro x hx
        rcases List.mem_cons.1 hx with rfl | hx
        · exact h2
        · exact h3 x hx
    simp only [listMin, Option.some.injEq]
    constructor
    · rintro rfl; exact hm
    · intro hv; exact le_antisymm (hm.2 v hv.1) (hv.2 _ hm.1)

theorem listMax_spec (l : List ℚ) : (listMax l = none ↔ l = []) ∧ ∀ v, listMax l = some v ↔ IsMaxOf l v := by
  cases l with
  | nil => simp [listMax, IsMaxOf]
  | cons a l =>
    obtain ⟨h1, h2, h3⟩ := foldl_max_spec l a
    refine ⟨by simp [listMax], fun v => ?_⟩
    have hm : IsMaxOf (a :: l) (l.foldl max a) := by
      refine ⟨?_, ?_⟩
      · rcases h1 with h | h
        · rw [h]; exact List.mem_cons_self ..
        · exact List.mem_cons_of_mem _ h
      · intro x hx
        rcases List.mem_cons.1 hx with rfl | hx
        · exact h2
        · exact h3 x hx
    simp only [listMax, Option.some.injEq]
    constructor
    · rintro rfl; exact hm
    · intro hv; exact le_antisymm (hv.2 _ hm.1) (hm.2 v hv.1)

theorem length_pos_of_ne_nil {l : List ℚ} (h : l ≠ []) : (0 : ℚ) < l.length := by
  exact_mod_cast List.length_pos_iff.2 h

theorem listMean_spec (l : List ℚ) : (listMean l = none ↔ l = []) ∧ ∀ v, listMean l = some v ↔ l ≠ [] ∧ v * l.length = l.sum := by
  unfold listMean
  by_cases h : l = []
  · simp [h]
  · have hp := length_pos_of_ne_nil h
    simp only [h, if_false, reduceCtorEq, Option.some.injEq, ne_eq, not_false_eq_true, true_and, iff_self]
    intro v
    rw [div_eq_iff hp.ne', eq_comm]

theorem sum_bounds (l : List ℚ) (lo hi : ℚ) (h : ∀ x ∈ l, lo ≤ x ∧ x ≤ hi) : lo * l.length ≤ l.sum ∧ l.sum ≤ hi * l.length := by
  induction l with
  | nil => simp
  | cons a l ih =>
    obtain ⟨h1, h2⟩ := ih (fun x hx => h x (List.mem_cons_of_mem _ hx))
    obtain ⟨h3, h4⟩ := h a (List.mem_cons_self ..)
    simp only [List.sum_cons, List.length_cons, Nat.cast_add, Nat.cast_one]
    constructor <;> nlinarith

/-- Sorted lists have a half below and a half above each position. -/
theorem sorted_counts {s : List ℚ} (hs : s.Pairwise (· ≤ ·)) {k : ℕ} {v : ℚ} (hk : s[k]? = some v) :
    k + 1 ≤ (s.filter (fun x => x ≤ v)).length ∧ s.length - k ≤ (s.filter (fun x => v ≤ x)).length := by
  obtain ⟨hlt, he⟩ := List.getElem?_eq_some_iff.1 hk
  have hmono : ∀ i j (hi : i < s.length) (hj : j < s.length), i ≤ j → s[i] ≤ s[j] := by
    intro i j hi hj hij
    rcases Nat.lt_or_ge i j with h | h
    · exact List.pairwise_iff_getElem.1 hs i j hi hj h
    · have : i = j := by omega
      subst this; exact le_refl _
  constructor
  · have h1 : (s.take (k + 1)).filter (fun x => x ≤ v) = s.take (k + 1) := by
      rw [List.filter_eq_self]
      intro x hx
      obtain ⟨i, hi, hx⟩ := List.mem_take_iff_getElem.1 hx
      rw [← hx, ← he]
      simp only [decide_eq_true_eq]
      exact hmono i k _ _ (by omega)
    have h2 : ((s.take (k + 1)).filter (fun x => x ≤ v)).length ≤ (s.filter (fun x => x ≤ v)).length :=
      ((List.take_sublist _ _).filter _).length_le
    rw [h1, List.length_take] at h2
    omega
  · have h1 : (s.drop k).filter (fun x => v ≤ x) = s.drop k := by
      rw [List.filter_eq_self]
      intro x hx
      obtain ⟨i, hi, hx⟩ := List.mem_drop_iff_getElem.1 hx
      rw [← hx, ← he]
      simp only [decide_eq_true_eq]
      exact hmono k _ _ _ (by omega)
    have h2 : ((s.drop k).filter (fun x => v ≤ x)).length ≤ (s.filter (fun x => v ≤ x)).length :=
      ((List.drop_sublist _ _).filter _).length_le
    rw [h1, List.length_drop] at h2
    omega

theorem length_filter_mono (l : List ℚ) (p q : ℚ → Bool) (h : ∀ x, p x = true → q x = true) :
    (l.filter p).length ≤ (l.filter q).length := by
  rw [← List.countP_eq_length_filter, ← List.countP_eq_length_filter]
  exact List.countP_mono_left (fun x _ => h x)

theorem listMedian_spec (l : List ℚ) : (listMedian l = none ↔ l = []) ∧ ∀ v, listMedian l = some v → IsMedian l v := by
  have hperm : (l.insertionSort (· ≤ ·)).Perm l := List.perm_insertionSort _ l
  have hsort : (l.insertionSort (· ≤ ·)).Pairwise (· ≤ ·) := List.pairwise_insertionSort (· ≤ ·) l
  have hlen := hperm.length_eq
  have hcount : ∀ p : ℚ → Bool, (l.filter p).length = ((l.insertionSort (· ≤ ·)).filter p).length := by
    intro p
    exact ((hperm.filter p).length_eq).symm
  unfold listMedian
  simp only
  by_cases hodd : l.length % 2 = 1
  · rw [if_pos hodd]
    have hlt : l.length / 2 < (l.insertionSort (· ≤ ·)).length := by rw [hlen]; omega
    refine ⟨?_, ?_⟩
    · rw [List.getElem?_eq_getElem hlt]
      simp only [reduceCtorEq, false_iff]
      rintro rfl
      simp at hodd
    · intro v hv
      obtain ⟨h1, h2⟩ := sorted_counts hsort hv
      unfold IsMedian
      rw [hcount, hcount]
      omega
  · rw [if_neg hodd]
    by_cases hnil : l = []
    · subst hnil; simp
    · have hpos := List.length_pos_iff.2 hnil
      have hlt : l.length / 2 < (l.insertionSort (· ≤ ·)).length := by rw [hlen]; omega
      have hlt' : l.length / 2 - 1 < (l.insertionSort (· ≤ ·)).length := by rw [hlen]; omega
      have e1 := List.getElem?_eq_getElem hlt
      have e2 := List.getElem?_eq_getElem hlt'
      rw [e1, e2]
      simp only [reduceCtorEq, false_iff, Option.some.injEq]
      refine ⟨hnil, ?_⟩
      rintro v rfl
      obtain ⟨-, a2⟩ := sorted_counts hsort e1
      obtain ⟨b1, -⟩ := sorted_counts hsort e2
      set a := (l.insertionSort (· ≤ ·))[l.length / 2]
      set b := (l.insertionSort (· ≤ ·))[l.length / 2 - 1]
      have hba : b ≤ a := List.pairwise_iff_getElem.1 hsort _ _ hlt' hlt (by omega)
      have m1 := length_filter_mono (l.insertionSort (· ≤ ·)) (fun x => decide (x ≤ b)) (fun x => decide (x ≤ (b + a) / 2)) (by
        intro x hx; simp only [decide_eq_true_eq] at hx ⊢; linarith)
      have m2 := length_filter_mono (l.insertionSort (· ≤ ·)) (fun x => decide (a ≤ x)) (fun x => decide ((b + a) / 2 ≤ x)) (by
        intro x hx; simp only [decide_eq_true_eq] at hx ⊢; linarith)
      unfold IsMedian
      rw [hcount, hcount]
      omega

theorem sorted_counts_le {s : List ℚ} (hs : s.Pairwise (· ≤ ·)) {k : ℕ} {a x : ℚ} (hk : s[k]? = some a) :
    (x < a → (s.filter (fun y => decide (y ≤ x))).length ≤ k) ∧ (a < x → (s.filter (fun y => decide (x ≤ y))).length + k + 1 ≤ s.length) := by
  obtain ⟨hlt, rfl⟩ := List.getElem?_eq_some_iff.1 hk
  have hp := List.pairwise_iff_getElem.1 hs
  constructor
  · intro hx
    have e : s.filter (fun y => decide (y ≤ x)) = (s.take k).filter (fun y => decide (y ≤ x)) := by
      conv_lhs => rw [← List.take_append_drop k s]
      rw [List.filter_append]
      have : (s.drop k).filter (fun y => decide (y ≤ x)) = [] := by
        rw [List.filter_eq_nil_iff]
        intro y hy
        obtain ⟨i, hi, rfl⟩ := List.mem_iff_getElem.1 hy
        rw [List.getElem_drop]
        simp only [decide_eq_true_eq, not_le]
        refine lt_of_lt_of_le hx ?_
        rcases Nat.eq_zero_or_pos i with h0 | h0
        · subst h0; simp
        · exact hp _ _ _ _ (by omega)
      rw [this, List.append_nil]
    rw [e]
    refine (List.length_filter_le _ _).trans ?_
    rw [List.length_take]
    omega
  · intro hx
    have e : s.filter (fun y => decide (x ≤ y)) = (s.drop (k + 1)).filter (fun y => decide (x ≤ y)) := by
      conv_lhs => rw [← List.take_append_drop (k + 1) s]
      rw [List.filter_append]
      have : (s.take (k + 1)).filter (fun y => decide (x ≤ y)) = [] := by
        rw [List.filter_eq_nil_iff]
        intro y hy
        obtain ⟨i, hi, rfl⟩ := List.mem_iff_getElem.1 hy
        rw [List.length_take] at hi
        rw [List.getElem_take]
        simp only [decide_eq_true_eq, not_le]
        refine lt_of_le_of_lt ?_ hx
        rcases Nat.lt_or_ge i k with h0 | h0
        · exact hp _ _ _ _ h0
        · have : i = k := by omega
          subst this; simp
      rw [this, List.nil_append]
    rw [e]
    have := List.length_filter_le (fun y => decide (x ≤ y)) (s.drop (k + 1))
    rw [List.length_drop] at this
    omega

theorem IsMiddle.unique {l : List ℚ} {v w : ℚ} (hv : IsMiddle l v) (hw : IsMiddle l w) : v = w := by
  obtain ⟨lo, -, hi, -, h1, h2, h3, h4⟩ := hv
  obtain ⟨lo', -, hi', -, h1', h2', h3', h4'⟩ := hw
  have := (h3 _ h1').1
  have := (h3' _ h1).1
  have := (h3 _ h2').2
  have := (h3' _ h2).2
  linarith

theorem listMedian_middle (l : List ℚ) (v : ℚ) : listMedian l = some v ↔ IsMiddle l v := by
  have key : ∀ v, listMedian l = some v → IsMiddle l v := by
    intro v hv
    have hsort := List.pairwise_insertionSort (· ≤ ·) l
    have hperm := List.perm_insertionSort (· ≤ ·) l
    have hlen := hperm.length_eq
    have hcount : ∀ p : ℚ → Bool, (l.filter p).length = ((l.insertionSort (· ≤ ·)).filter p).length := by
      intro p
      exact ((hperm.filter p).length_eq).symm
    have hbelow : ∀ {k : ℕ} {a : ℚ}, (l.insertionSort (· ≤ ·))[k]? = some a → 2 * k < l.length → ∀ x, IsMedian l x → a ≤ x := by
      intro k a ha hk x hx
      by_contra hc
      have := (sorted_counts_le hsort ha).1 (not_le.1 hc)
      have h1 := hx.1
      rw [hcount] at h1
      omega
    have habove : ∀ {k : ℕ} {a : ℚ}, (l.insertionSort (· ≤ ·))[k]? = some a → l.length ≤ 2 * k + 1 → ∀ x, IsMedian l x → x ≤ a := by
      intro k a ha hk x hx
      by_contra hc
      have := (sorted_counts_le hsort ha).2 (not_le.1 hc)
      have h1 := hx.2
      rw [hcount] at h1
      omega
    have hmed : ∀ {k : ℕ} {a : ℚ}, (l.insertionSort (· ≤ ·))[k]? = some a → l.length ≤ 2 * (k + 1) → 2 * k ≤ l.length → a ∈ l ∧ IsMedian l a := by
      intro k a ha h1 h2
      refine ⟨hperm.mem_iff.1 (List.mem_of_getElem? ha), ?_⟩
      obtain ⟨c1, c2⟩ := sorted_counts hsort ha
      unfold IsMedian
      rw [hcount, hcount]
      omega
    unfold listMedian at hv
    simp only at hv
    by_cases hodd : l.length % 2 = 1
    · rw [if_pos hodd] at hv
      obtain ⟨h1, h2⟩ := hmed hv (by omega) (by omega)
      exact ⟨v, h1, v, h1, h2, h2, fun x hx => ⟨hbelow hv (by omega) x hx, habove hv (by omega) x hx⟩, by ring⟩
    · rw [if_neg hodd] at hv
      split at hv
      · rename_i a b ha hb
        simp only [Option.some.injEq] at hv
        have hpos : 0 < l.length := by
          have := (List.getElem?_eq_some_iff.1 hb).1
          omega
        obtain ⟨h1, h2⟩ := hmed ha (by omega) (by omega)
        obtain ⟨h3, h4⟩ := hmed hb (by omega) (by omega)
        exact ⟨a, h1, b, h3, h2, h4, fun x hx => ⟨hbelow ha (by omega) x hx, habove hb (by omega) x hx⟩, by rw [← hv]; ring⟩
      · cases hv
  refine ⟨key v, fun h => ?_⟩
  cases hm : listMedian l with
  | none =>
    rw [(listMedian_spec l).1.1 hm] at h
    obtain ⟨lo, h, -⟩ := h
    cases h
  | some w => rw [IsMiddle.unique (key w hm) h]

/-- A median lies between the least and the greatest value. -/
theorem isMedian_bounds {l : List ℚ} (hl : l ≠ []) {v lo hi : ℚ} (hv : IsMedian l v) (hlo : IsMinOf l lo) (hhi : IsMaxOf l hi) :
    lo ≤ v ∧ v ≤ hi := by
  have hpos := List.length_pos_iff.2 hl
  constructor
  · by_contra hc
    push Not at hc
    have : l.filter (fun x => x ≤ v) = [] := by
      rw [List.filter_eq_nil_iff]
      intro x hx
      simp only [decide_eq_true_eq, not_le]
      exact lt_of_lt_of_le hc (hlo.2 x hx)
    have h := hv.1
    rw [this] at h
    simp at h
    exact hl h
  · by_contra hc
    push Not at hc
    have : l.filter (fun x => v ≤ x) = [] := by
      rw [List.filter_eq_nil_iff]
      intro x hx
      simp only [decide_eq_true_eq, not_le]
      exact lt_of_le_of_lt (hhi.2 x hx) hc
    have h := hv.2
    rw [this] at h
    simp at h
    exact hl h

theorem sqDev_nonneg (l : List ℚ) : 0 ≤ sqDev l := by
  unfold sqDev
  apply List.sum_nonneg
  intro x hx
  obtain ⟨y, -, rfl⟩ := List.mem_map.1 hx
  positivity

theorem listVarPop_spec (l : List ℚ) : (listVarPop l = none ↔ l = []) ∧
    ∀ v, listVarPop l = some v → 0 ≤ v ∧ IsMeanSquare l l.length v := by
  unfold listVarPop
  by_cases h : l = []
  · simp [h]
  · have hp := length_pos_of_ne_nil h
    simp only [h, if_false, reduceCtorEq, Option.some.injEq, iff_self, true_and]
    rintro v rfl
    refine ⟨div_nonneg (sqDev_nonneg l) hp.le, l.sum / l.length, ?_, ?_⟩
    · rw [div_mul_cancel₀ _ hp.ne']
    · rw [div_mul_cancel₀ _ hp.ne']; rfl

theorem listVarSample_spec (l : List ℚ) : (listVarSample l = none ↔ l.length < 2) ∧
    ∀ v, listVarSample l = some v → 0 ≤ v ∧ IsMeanSquare l (l.length - 1) v := by
  unfold listVarSample
  by_cases h : l.length < 2
  · simp [h]
  · have h2 : (2 : ℚ) ≤ l.length := by exact_mod_cast (by omega : 2 ≤ l.length)
    have hp : (0 : ℚ) < (l.length : ℚ) - 1 := by linarith
    simp only [h, if_false, reduceCtorEq, Option.some.injEq, iff_self, true_and]
    rintro v rfl
    refine ⟨div_nonneg (sqDev_nonneg l) hp.le, l.sum / l.length, ?_, ?_⟩
    · rw [div_mul_cancel₀ _ (by linarith)]
    · rw [div_mul_cancel₀ _ hp.ne']; rfl

/-! ## Reading off the model -/

theorem present_filter (vals : List (Option ℚ)) : present (vals.filter Option.isSome) = presentValues vals := by
  unfold present presentValues
  induction vals with
  | nil => rfl
  | cons a l ih => cases a <;> simpa using ih

theorem length_filter_isSome (vals : List (Option ℚ)) : (vals.filter Option.isSome).length = (presentValues vals).length := by
  rw [← numNonNan_eq]
  unfold numNonNan
  rw [List.countP_eq_length_filter]

theorem allNone_iff (vals : List (Option ℚ)) : vals.all Option.isNone = true ↔ presentValues vals = [] := by
  unfold presentValues
  induction vals with
  | nil => simp
  | cons a l ih => cases a <;> simp

theorem presentValues_perm {vals vals' : List (Option ℚ)} (h : vals.Perm vals') : (presentValues vals).Perm (presentValues vals') :=
  h.filterMap id

/-- The reduction used for a type. -/
def reducer (grid : Bool) : AggType → Option (List ℚ → Option ℚ)
  | .min => some listMin
  | .max => some listMax
  | .mean => some listMean
  | .median => some listMedian
  | .std => some (if grid then listVarPop else listVarSample)
  | .rmse => if grid then some listVarPop else none
  | _ => none

/-- `get_value` of either kind of data. -/
def valueOf (grid : Bool) (agg : AggType) (vals : List (Option ℚ)) : Py (Option ℚ) :=
  if grid then valueXr agg true vals else valueDf agg true vals

theorem reduce_true (f : List ℚ → Option ℚ) (vals : List (Option ℚ)) : reduce true f vals = f (present vals) := by
  unfold reduce; simp

/-- `get_value` in one formula. -/
theorem valueOf_eq (grid : Bool) (agg : AggType) (vals : List (Option ℚ)) :
    valueOf grid agg vals = if agg = .count then .ok (some (if grid then (vals.length : ℚ) else (presentValues vals).length))
      else if presentValues vals = [] then .ok none
      else match reducer grid agg with
        | some f => .ok (f (presentValues vals))
        | none => .error .valueError := by
  have hp : present vals = presentValues vals := rfl
  cases grid
  · simp only [valueOf, Bool.false_eq_true, if_false]
    unfold valueDf
    simp only [if_true]
    by_cases hc : agg = .count
    · rw [if_pos hc, if_pos hc, length_filter_isSome]
    · rw [if_neg hc, if_neg hc]
      by_cases hn : presentValues vals = []
      · rw [if_pos hn, if_pos (by rw [length_filter_isSome, hn]; rfl)]
      · have hl : ¬ (vals.filter Option.isSome).length = 0 := by
          rw [length_filter_isSome]; simpa using hn
        have ha : ¬ (vals.filter Option.isSome).all Option.isNone = true := by
          rw [allNone_iff]
          show ¬ present (vals.filter Option.isSome) = []
          rw [present_filter]; exact hn
        rw [if_neg hl, if_neg ha, if_neg hn]
        cases agg <;> simp [reducer, reduce_true, present_filter]
  · simp only [valueOf, if_true]
    unfold valueXr
    by_cases hc : agg = .count
    · rw [if_pos hc, if_pos hc]
    · rw [if_neg hc, if_neg hc]
      by_cases hn : presentValues vals = []
      · rw [if_pos hn]
        split
        · rfl
        · rw [if_pos ((allNone_iff vals).2 hn)]
      · have hl : ¬ vals.length = 0 := by
          intro h
          rw [List.length_eq_zero_iff] at h
          subst h
          exact hn rfl
        rw [if_neg hl, if_neg (by rw [allNone_iff]; exact hn), if_neg hn]
        cases agg <;> simp [reducer, reduce_true, hp]

/-! ## C29 -/

/-- **C29**: MIN, MAX, MEAN and MEDIAN of tables and grids are NaN exactly when there is no present value;
MIN and MAX are attained and bound all present values; MEAN and MEDIAN are what they are called and lie
between MIN and MAX. -/
theorem C29_values (grid : Bool) (vals : List (Option ℚ)) :
    (∀ agg ∈ [AggType.min, .max, .mean, .median], ∃ r, valueOf grid agg vals = .ok r ∧ (r = none ↔ presentValues vals = [])) ∧
    (∀ v, valueOf grid .min vals = .ok (some v) ↔ IsMinOf (presentValues vals) v) ∧
    (∀ v, valueOf grid .max vals = .ok (some v) ↔ IsMaxOf (presentValues vals) v) ∧
    (∀ v, valueOf grid .mean vals = .ok (some v) ↔ presentValues vals ≠ [] ∧ v * (presentValues vals).length = (presentValues vals).sum) ∧
    (∀ v, valueOf grid .median vals = .ok (some v) ↔ IsMiddle (presentValues vals) v) ∧
    (∀ lo hi v, valueOf grid .min vals = .ok (some lo) → valueOf grid .max vals = .ok (some hi) →
      valueOf grid .mean vals = .ok (some v) ∨ valueOf grid .median vals = .ok (some v) → lo ≤ v ∧ v ≤ hi) := by
  set xs := presentValues vals with hxs
  have key : ∀ (agg : AggType) (f : List ℚ → Option ℚ), agg ≠ .count → reducer grid agg = some f → (f xs = none ↔ xs = []) →
      valueOf grid agg vals = .ok (f xs) := by
    intro agg f hc hf hn
    rw [valueOf_eq, if_neg hc, hf]
    split
    · rename_i h; rw [hn.2 h]
    · rfl
  have kmin := key .min _ (by simp) rfl (listMin_spec xs).1
  have kmax := key .max _ (by simp) rfl (listMax_spec xs).1
  have kmean := key .mean _ (by simp) rfl (listMean_spec xs).1
  have kmed := key .median _ (by simp) rfl (listMedian_spec xs).1
  refine ⟨?_, ?_, ?_, ?_, ?_, ?_⟩
  · intro agg hagg
    simp only [List.mem_cons, List.not_mem_nil, or_false] at hagg
    rcases hagg with rfl | rfl | rfl | rfl
    · exact ⟨_, kmin, (listMin_spec xs).1⟩
    · exact ⟨_, kmax, (listMax_spec xs).1⟩
    · exact ⟨_, kmean, (listMean_spec xs).1⟩
    · exact ⟨_, kmed, (listMedian_spec xs).1⟩
  · intro v; rw [kmin, Except.ok.injEq]; exact (listMin_spec xs).2 v
  · intro v; rw [kmax, Except.ok.injEq]; exact (listMax_spec xs).2 v
  · intro v; rw [kmean, Except.ok.injEq]; exact (listMean_spec xs).2 v
  · intro v; rw [kmed, Except.ok.injEq]; exact listMedian_middle xs v
  · intro lo hi v h1 h2 h3
    rw [kmin, Except.ok.injEq] at h1
    rw [kmax, Except.ok.injEq] at h2
    rw [kmean, kmed, Except.ok.injEq, Except.ok.injEq] at h3
    have h1 := ((listMin_spec xs).2 lo).1 h1
    have h2 := ((listMax_spec xs).2 hi).1 h2
    rcases h3 with h3 | h3
    · obtain ⟨hne, hs⟩ := ((listMean_spec xs).2 v).1 h3
      have hp := length_pos_of_ne_nil hne
      obtain ⟨b1, b2⟩ := sum_bounds xs lo hi (fun x hx => ⟨h1.2 x hx, h2.2 x hx⟩)
      rw [← hs] at b1 b2
      exact ⟨le_of_mul_le_mul_right b1 hp, le_of_mul_le_mul_right b2 hp⟩
    · have hne : xs ≠ [] := List.ne_nil_of_mem h1.1
      exact isMedian_bounds hne ((listMedian_spec xs).2 v h3) h1 h2

/-- **C29**: COUNT never is NaN.  Tables count the present values, grids all values, present or not. -/
theorem C29_count (vals : List (Option ℚ)) :
    valueOf false .count vals = .ok (some (presentValues vals).length) ∧ valueOf true .count vals = .ok (some vals.length) := by
  constructor <;> rw [valueOf_eq] <;> simp

/-- **C29**: STD (and RMSE of grids), represented by their squares, are non-negative mean squared
deviations.  Grids: NaN exactly if there is no present value; tables: NaN exactly if there are fewer than
two. -/
theorem C29_std_partial (vals : List (Option ℚ)) :
    (∃ r, valueOf true .std vals = .ok r ∧ valueOf true .rmse vals = .ok r ∧ (r = none ↔ presentValues vals = []) ∧
      ∀ v, r = some v → 0 ≤ v ∧ IsMeanSquare (presentValues vals) (presentValues vals).length v) ∧
    (∃ r, valueOf false .std vals = .ok r ∧ (r = none ↔ (presentValues vals).length < 2) ∧
      ∀ v, r = some v → 0 ≤ v ∧ IsMeanSquare (presentValues vals) ((presentValues vals).length - 1) v) := by
  constructor
  · refine ⟨listVarPop (presentValues vals), ?_, ?_, listVarPop_spec _⟩
    · rw [valueOf_eq]
      simp only [reduceCtorEq, if_false, reducer, if_true]
      split
      · rename_i h; rw [h]; rfl
      · rfl
    · rw [valueOf_eq]
      simp only [reduceCtorEq, if_false, reducer, if_true]
      split
      · rename_i h; rw [h]; rfl
      · rfl
  · refine ⟨listVarSample (presentValues vals), ?_, listVarSample_spec _⟩
    rw [valueOf_eq]
    simp only [reduceCtorEq, if_false, reducer, Bool.false_eq_true]
    split
    · rename_i h; rw [h]; rfl
    · rfl

/-- **C29** fails for STD of tables: a single datapoint gives NaN. -/
theorem C29_std_false : ∃ vals, presentValues vals ≠ [] ∧ valueOf false .std vals = .ok none := by
  refine ⟨[some 1], by decide +kernel, by decide +kernel⟩

/-- **C29**: an unknown type (for tables also RMSE) raises exactly if there are present values. -/
theorem C29_unknown (grid : Bool) (vals : List (Option ℚ)) (s : String) :
    (presentValues vals = [] → valueOf grid (.unknown s) vals = .ok none ∧ valueOf false .rmse vals = .ok none) ∧
    (presentValues vals ≠ [] → valueOf grid (.unknown s) vals = .error .valueError ∧ valueOf false .rmse vals = .error .valueError) := by
  constructor
  · intro h; constructor <;> rw [valueOf_eq] <;> simp [h]
  · intro h; constructor <;> rw [valueOf_eq] <;> simp [h, reducer]

theorem listMedian_perm {l l' : List ℚ} (h : l.Perm l') : listMedian l = listMedian l' := by
  have e : l.insertionSort (· ≤ ·) = l'.insertionSort (· ≤ ·) := by
    apply List.Perm.eq_of_pairwise (le := (· ≤ ·))
    · intro a b _ _ h1 h2; exact le_antisymm h1 h2
    · exact List.pairwise_insertionSort (· ≤ ·) l
    · exact List.pairwise_insertionSort (· ≤ ·) l'
    · exact (List.perm_insertionSort _ l).trans (h.trans (List.perm_insertionSort _ l').symm)
  unfold listMedian
  rw [e, h.length_eq]

theorem sqDev_perm {l l' : List ℚ} (h : l.Perm l') : sqDev l = sqDev l' := by
  unfold sqDev
  rw [h.sum_eq, h.length_eq]
  exact (h.map _).sum_eq

theorem nil_perm_iff {l l' : List ℚ} (h : l.Perm l') : l = [] ↔ l' = [] := by
  constructor
  · rintro rfl; exact h.symm.eq_nil
  · rintro rfl; exact h.eq_nil

/-- **C29**: no aggregated value depends on the order of the datapoints. -/
theorem C29_order (grid : Bool) (agg : AggType) {vals vals' : List (Option ℚ)} (h : vals.Perm vals') :
    valueOf grid agg vals = valueOf grid agg vals' := by
  have hp := presentValues_perm h
  rw [valueOf_eq, valueOf_eq, h.length_eq, hp.length_eq]
  have hn := nil_perm_iff hp
  simp only [hn]
  have red : ∀ f, reducer grid agg = some f → f (presentValues vals) = f (presentValues vals') := by
    have hmin : listMin (presentValues vals) = listMin (presentValues vals') := by
      rcases e : listMin (presentValues vals') with _ | v
      · exact (listMin_spec _).1.2 (hn.2 ((listMin_spec _).1.1 e))
      · refine ((listMin_spec _).2 v).2 ?_
        have := ((listMin_spec _).2 v).1 e
        exact ⟨hp.mem_iff.2 this.1, fun x hx => this.2 x (hp.mem_iff.1 hx)⟩
    have hmax : listMax (presentValues vals) = listMax (presentValues vals') := by
      rcases e : listMax (presentValues vals') with _ | v
      · exact (listMax_spec _).1.2 (hn.2 ((listMax_spec _).1.1 e))
      · refine ((listMax_spec _).2 v).2 ?_
        have := ((listMax_spec _).2 v).1 e
        exact ⟨hp.mem_iff.2 this.1, fun x hx => this.2 x (hp.mem_iff.1 hx)⟩
    have hmean : listMean (presentValues vals) = listMean (presentValues vals') := by
      unfold listMean; simp only [hn, hp.sum_eq, hp.length_eq]
    have hpop : listVarPop (presentValues vals) = listVarPop (presentValues vals') := by
      unfold listVarPop; simp only [hn, sqDev_perm hp, hp.length_eq]
    have hsam : listVarSample (presentValues vals) = listVarSample (presentValues vals') := by
      unfold listVarSample; simp only [sqDev_perm hp, hp.length_eq]
    have hmed := listMedian_perm hp
    intro f hf
    cases agg <;> cases grid <;> simp [reducer] at hf <;> subst hf <;> assumption
  rcases hr : reducer grid agg with _ | f
  · rfl
  · simp only [red f hr]

example : valueOf false .median [some 3, none, some 1, some 10, some 4] = .ok (some (7 / 2)) ∧
    valueOf true .mean [some 3, none, some 1, some 10, some 4] = .ok (some (9 / 2)) ∧
    valueOf false .count [some 3, none] = .ok (some 1) ∧ valueOf true .count [some 3, none] = .ok (some 2) ∧
    valueOf true .min [none, none] = .ok none ∧ valueOf true (.unknown "SUM") [some 1] = .error .valueError := by
  refine ⟨?_, ?_, ?_, ?_, ?_, ?_⟩ <;> decide +kernel

end Verif
