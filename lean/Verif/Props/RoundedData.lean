import Verif.Model.RoundedData
import Verif.Proof.Near
import Verif.Props.Units
import Verif.Props.Rounding

/-!
# C127: rounding in the aggregated values stays small
-/

namespace Verif
open Spec

/-! ## Specification -/

/-- The rounding is off by at most the share `u` of a number. -/
def Spec.Precise (r : ℚ → ℚ) (u : ℚ) : Prop := ∀ q, |r q - q| ≤ u * |q|

/-- `a` comes from adding up the list in some order and with some brackets, each sum rounded. -/
inductive Spec.Summed (r : ℚ → ℚ) : List ℚ → ℚ → Prop
  | one (x : ℚ) : Summed r [x] x
  | add {l m : List ℚ} {a b : ℚ} : Summed r l a → Summed r m b → Summed r (l ++ m) (r (a + b))
  | perm {l m : List ℚ} {a : ℚ} : Summed r l a → l.Perm m → Summed r m a

/-- A way of adding up lists. -/
def Spec.Sums (r : ℚ → ℚ) (sum : List ℚ → ℚ) : Prop := ∀ l, l ≠ [] → Summed r l (sum l)

/-- Both values are missing, or none, and then they differ by at most `eps`. -/
def Spec.Near (eps : ℚ) (a a' : Option ℚ) : Prop :=
  (a = none ∧ a' = none) ∨ ∃ x y, a = some x ∧ a' = some y ∧ |y - x| ≤ eps

/-- The data has at most `N` datapoints, each of at most the size `M`. -/
def Spec.SmallData (N : ℕ) (M : ℚ) (d : Dataset (Option ℚ)) : Prop :=
  d.rows.length ≤ N ∧ ∀ p ∈ d.rows, ∀ x, p.val = some x → |x| ≤ M

/-- The bounds of the conditions are fractions between 0 and 1 with the denominator `D`. -/
def Spec.Fractions (D : ℕ) (conds : List Cond) : Prop :=
  ∀ c ∈ conds, ∃ k l : ℕ, k ≤ D ∧ l ≤ D ∧ c.lower = (k : ℚ) / D ∧ c.upper = (l : ℚ) / D

/-- The same scalar source, calculated exactly and with rounding. -/
structure Spec.RoundedSource (r : ℚ → ℚ) (sum : List ℚ → ℚ) (s s' : Source (Dataset (Option ℚ)) Cond) : Prop where
  loader : ∃ id name agg minDp, s.loader = scalarLoader id name agg minDp ∧ s'.loader = Fl.scalarLoader r sum id name agg minDp ∧
    ',' ∉ name.toList ∧ agg ∈ [AggType.min, .max, .mean, .median, .count]
  conds : s'.conds = s.conds.map (Fl.condRead r)
  fill : s'.fill = s.fill
  subset : s'.subset = s.subset

/-! ## Sums, means and medians -/

section Numbers
variable {r : ℚ → ℚ} {u : ℚ}

theorem Spec.Precise.nonneg (h : Precise r u) : 0 ≤ u := by
  have := h 1
  rw [abs_one, mul_one] at this
  exact (abs_nonneg _).trans this

theorem one_le_pow_u (hu : 0 ≤ u) (n : ℕ) : 1 ≤ (1 + u) ^ n := one_le_pow₀ (by linarith)

theorem Spec.Summed.ne_nil {l : List ℚ} {a : ℚ} (h : Summed r l a) : l ≠ [] := by
  induction h with
  | one => simp
  | add _ _ ih _ => simp [ih]
  | perm _ hp ih => intro e; rw [e] at hp; exact ih (List.Perm.eq_nil hp)

theorem sum_abs (l : List ℚ) : |l.sum| ≤ (l.map abs).sum := by
  induction l with
  | nil => simp
  | cons x l ih => simp only [List.sum_cons, List.map_cons]; exact (abs_add_le _ _).trans (by linarith)

theorem sum_abs_nonneg (l : List ℚ) : 0 ≤ (l.map abs).sum := (abs_nonneg _).trans (sum_abs l)

/-- The error of adding. -/
theorem summed_error (h : Precise r u) {l : List ℚ} {a : ℚ} (hs : Summed r l a) :
    |a - l.sum| ≤ ((1 + u) ^ (l.length - 1) - 1) * (l.map abs).sum := by
  have hu := h.nonneg
  induction hs with
  | one x => simp
  | @add l m a b h1 h2 ih1 ih2 =>
    have n1 : 1 ≤ l.length := List.length_pos_iff.2 h1.ne_nil
    have n2 : 1 ≤ m.length := List.length_pos_iff.2 h2.ne_nil
    have A1 := sum_abs_nonneg l
    have A2 := sum_abs_nonneg m
    have hr := h (a + b)
    have S1 := sum_abs l
    have S2 := sum_abs m
    have ha : |a| ≤ (1 + u) ^ (l.length - 1) * (l.map abs).sum := by
      have : |a| ≤ |a - l.sum| + |l.sum| := by
        have := abs_add_le (a - l.sum) l.sum
        rwa [sub_add_cancel] at this
      linarith
    have hb : |b| ≤ (1 + u) ^ (m.length - 1) * (m.map abs).sum := by
      have : |b| ≤ |b - m.sum| + |m.sum| := by
        have := abs_add_le (b - m.sum) m.sum
        rwa [sub_add_cancel] at this
      linarith
    have p1 : (1 + u) ^ (l.length - 1) * (1 + u) ≤ (1 + u) ^ ((l ++ m).length - 1) := by
      rw [← pow_succ]
      exact pow_le_pow_right₀ (by linarith) (by rw [List.length_append]; omega)
    have p2 : (1 + u) ^ (m.length - 1) * (1 + u) ≤ (1 + u) ^ ((l ++ m).length - 1) := by
      rw [← pow_succ]
      exact pow_le_pow_right₀ (by linarith) (by rw [List.length_append]; omega)
    have e : |r (a + b) - (l ++ m).sum| ≤ |r (a + b) - (a + b)| + (|a - l.sum| + |b - m.sum|) := by
      rw [List.sum_append]
      have e1 : r (a + b) - (l.sum + m.sum) = (r (a + b) - (a + b)) + ((a - l.sum) + (b - m.sum)) := by ring
      rw [e1]
      exact (abs_add_le _ _).trans (by linarith [abs_add_le (a - l.sum) (b - m.sum)])
    have hab : u * |a + b| ≤ u * (|a| + |b|) := mul_le_mul_of_nonneg_left (abs_add_le a b) hu
    have hua := mul_le_mul_of_nonneg_left ha hu
    have hub := mul_le_mul_of_nonneg_left hb hu
    have q1 := mul_le_mul_of_nonneg_right p1 A1
    have q2 := mul_le_mul_of_nonneg_right p2 A2
    rw [List.sum_append] at e ⊢
    rw [List.map_append, List.sum_append]
    generalize (1 + u) ^ ((l ++ m).length - 1) = P at *
    generalize (1 + u) ^ (l.length - 1) = P1 at *
    generalize (1 + u) ^ (m.length - 1) = P2 at *
    generalize (l.map abs).sum = B1 at *
    generalize (m.map abs).sum = B2 at *
    linarith
  | @perm l m a _ hp ih =>
    rw [← hp.sum_eq, ← (hp.map abs).sum_eq, ← hp.length_eq]
    exact ih

theorem sum_abs_le {M : ℚ} (l : List ℚ) (h : ∀ x ∈ l, |x| ≤ M) : (l.map abs).sum ≤ l.length * M := by
  induction l with
  | nil => simp
  | cons x l ih =>
    have h1 := h x (by simp)
    have h2 := ih (fun y hy => h y (by simp [hy]))
    simp only [List.map_cons, List.sum_cons, List.length_cons]
    push_cast
    linarith

/-- The error of the mean. -/
theorem mean_error (h : Precise r u) {sum : List ℚ → ℚ} (hs : Sums r sum) {M : ℚ} {l : List ℚ} (hl : ∀ x ∈ l, |x| ≤ M) {N : ℕ} (hN : l.length ≤ N) :
    Near (((1 + u) ^ N - 1) * M) (listMean l) (Fl.listMean r sum l) := by
  have hu := h.nonneg
  unfold listMean Fl.listMean
  by_cases hn : l = []
  · left; simp [hn]
  · right
    refine ⟨_, _, if_neg hn, if_neg hn, ?_⟩
    have n1 : 1 ≤ l.length := List.length_pos_iff.2 hn
    have hpos : (0 : ℚ) < l.length := by exact_mod_cast n1
    have M0 : 0 ≤ M := by
      obtain ⟨x, hx⟩ := List.exists_mem_of_ne_nil l hn
      exact (abs_nonneg _).trans (hl x hx)
    have e1 := summed_error h (hs l hn)
    have e2 := h (sum l / l.length)
    have S := sum_abs l
    have SM := sum_abs_le l hl
    have A0 := sum_abs_nonneg l
    generalize sum l = a at e1 e2 ⊢
    have ha : |a| ≤ (1 + u) ^ (l.length - 1) * (l.map abs).sum := by
      have : |a| ≤ |a - l.sum| + |l.sum| := by
        have := abs_add_le (a - l.sum) l.sum
        rwa [sub_add_cancel] at this
      linarith
    have p : (1 + u) ^ l.length = (1 + u) ^ (l.length - 1) * (1 + u) := by
      rw [← pow_succ]; congr 1; omega
    have t : |r (a / l.length) - l.sum / l.length| ≤ |r (a / l.length) - a / l.length| + |a / l.length - l.sum / l.length| := by
      have := abs_add_le (r (a / l.length) - a / l.length) (a / l.length - l.sum / l.length)
      rwa [sub_add_sub_cancel] at this
    have t2 : |a / l.length - l.sum / l.length| = |a - l.sum| / l.length := by
      rw [← sub_div, abs_div, abs_of_pos hpos]
    rw [abs_div, abs_of_pos hpos] at e2
    rw [t2] at t
    refine t.trans ?_
    have k1 : u * (|a| / l.length) + |a - l.sum| / l.length ≤ ((1 + u) ^ l.length - 1) * (l.map abs).sum / l.length := by
      rw [← mul_div_assoc, ← add_div]
      apply div_le_div_of_nonneg_right _ hpos.le
      rw [p]
      have := mul_le_mul_of_nonneg_left ha hu
      nlinarith
    have k2 : ((1 + u) ^ l.length - 1) * (l.map abs).sum / l.length ≤ ((1 + u) ^ l.length - 1) * M := by
      rw [div_le_iff₀ hpos, mul_assoc]
      apply mul_le_mul_of_nonneg_left _ (by linarith [one_le_pow_u hu l.length])
      linarith [mul_comm M (l.length : ℚ)]
    have k3 : ((1 + u) ^ l.length - 1) * M ≤ ((1 + u) ^ N - 1) * M := by
      apply mul_le_mul_of_nonneg_right _ M0
      have : (1 + u) ^ l.length ≤ (1 + u) ^ N := pow_le_pow_right₀ (by linarith) hN
      linarith
    linarith

/-- The error of the median. -/
theorem median_error (h : Precise r u) {M : ℚ} {l : List ℚ} (hl : ∀ x ∈ l, |x| ≤ M) {N : ℕ} (hN : l.length ≤ N) (hM : 0 ≤ M) :
    Near (((1 + u) ^ N - 1) * M) (listMedian l) (Fl.listMedian r l) := by
  have hu := h.nonneg
  have hB : 0 ≤ ((1 + u) ^ N - 1) * M := mul_nonneg (by linarith [one_le_pow_u hu N]) hM
  have refl : ∀ a : Option ℚ, Near (((1 + u) ^ N - 1) * M) a a := by
    intro a
    cases a with
    | none => exact Or.inl ⟨rfl, rfl⟩
    | some x => exact Or.inr ⟨x, x, rfl, rfl, by simpa using hB⟩
  unfold listMedian Fl.listMedian
  simp only
  split_ifs with hodd
  · exact refl _
  · cases ha : (l.insertionSort (· ≤ ·))[l.length / 2 - 1]? with
    | none => exact Or.inl ⟨rfl, rfl⟩
    | some a =>
      cases hb : (l.insertionSort (· ≤ ·))[l.length / 2]? with
      | none => exact Or.inl ⟨rfl, rfl⟩
      | some b =>
        have mem : ∀ x ∈ l.insertionSort (· ≤ ·), |x| ≤ M := fun x hx => hl x ((List.perm_insertionSort _ l).mem_iff.1 hx)
        have h1 := mem a (List.mem_of_getElem? ha)
        have h2 := mem b (List.mem_of_getElem? hb)
        have hne : l ≠ [] := by
          rintro rfl
          simp at ha
        have n2 : 2 ≤ N := by
          have : 1 ≤ l.length := List.length_pos_iff.2 hne
          omega
        refine Or.inr ⟨_, _, rfl, rfl, ?_⟩
        have e1 := h (a + b)
        have e2 := h (r (a + b) / 2)
        have hab : |a + b| ≤ 2 * M := (abs_add_le a b).trans (by linarith)
        have hrab : |r (a + b)| ≤ (1 + u) * |a + b| := by
          have := abs_add_le (r (a + b) - (a + b)) (a + b)
          rw [sub_add_cancel] at this
          linarith
        have t : |r (r (a + b) / 2) - (a + b) / 2| ≤ |r (r (a + b) / 2) - r (a + b) / 2| + |r (a + b) / 2 - (a + b) / 2| := by
          have := abs_add_le (r (r (a + b) / 2) - r (a + b) / 2) (r (a + b) / 2 - (a + b) / 2)
          rwa [sub_add_sub_cancel] at this
        have t2 : |r (a + b) / 2 - (a + b) / 2| = |r (a + b) - (a + b)| / 2 := by
          rw [← sub_div, abs_div, abs_of_pos (by norm_num : (0 : ℚ) < 2)]
        rw [abs_div, abs_of_pos (by norm_num : (0 : ℚ) < 2)] at e2
        rw [t2] at t
        have k1 := mul_le_mul_of_nonneg_left hrab hu
        have k2 : |r (r (a + b) / 2) - (a + b) / 2| ≤ ((1 + u) ^ 2 - 1) * (|a + b| / 2) := by nlinarith
        refine k2.trans ?_
        have k3 : (1 + u) ^ 2 ≤ (1 + u) ^ N := pow_le_pow_right₀ (by linarith) n2
        calc ((1 + u) ^ 2 - 1) * (|a + b| / 2) ≤ ((1 + u) ^ 2 - 1) * M :=
              mul_le_mul_of_nonneg_left (by linarith) (by linarith [one_le_pow_u hu 2])
          _ ≤ _ := mul_le_mul_of_nonneg_right (by linarith) hM

theorem near_matches {eps : ℚ} (h : 0 ≤ eps) : Matches (Near eps) := by
  constructor
  · intro a
    cases a with
    | none => exact Or.inl ⟨rfl, rfl⟩
    | some x => exact Or.inr ⟨x, x, rfl, rfl, by simpa using h⟩
  · rintro a a' (⟨rfl, rfl⟩ | ⟨x, y, rfl, rfl, -⟩) <;> simp

/-- `get_value` in floating point, of either kind of data. -/
def Fl.valueOf (r : ℚ → ℚ) (sum : List ℚ → ℚ) (grid : Bool) (agg : AggType) (vals : List (Option ℚ)) : Py (Option ℚ) :=
  if grid then Fl.valueXr r sum agg vals else Fl.valueDf r sum agg vals

/-- The reduction used for a type. -/
def Fl.reducer (r : ℚ → ℚ) (sum : List ℚ → ℚ) : AggType → Option (List ℚ → Option ℚ)
  | .min => some Verif.listMin
  | .max => some Verif.listMax
  | .mean => some (Fl.listMean r sum)
  | .median => some (Fl.listMedian r)
  | _ => none

theorem fl_valueOf_eq (sum : List ℚ → ℚ) (grid : Bool) (agg : AggType) (vals : List (Option ℚ)) :
    Fl.valueOf r sum grid agg vals = if agg = .count then .ok (some (if grid then (vals.length : ℚ) else (presentValues vals).length))
      else if presentValues vals = [] then .ok none
      else match Fl.reducer r sum agg with
        | some f => .ok (f (presentValues vals))
        | none => .error .valueError := by
  have hp : present vals = presentValues vals := rfl
  cases grid
  · simp only [Fl.valueOf, Bool.false_eq_true, if_false]
    unfold Fl.valueDf
    simp only
    by_cases hc : agg = .count
    · rw [if_pos hc, if_pos hc, length_filter_isSome]
    · rw [if_neg hc, if_neg hc]
      by_cases hn : presentValues vals = []
      · rw [if_pos hn, if_pos (by rw [length_filter_isSome, hn]; rfl)]
      · have hl : ¬ (vals.filter Option.isSome).length = 0 := by
          rw [length_filter_isSome]; simpa using hn
        rw [if_neg hl, if_neg hn]
        cases agg <;> simp [Fl.reducer, present_filter]
  · simp only [Fl.valueOf, if_true]
    unfold Fl.valueXr
    by_cases hc : agg = .count
    · rw [if_pos hc, if_pos hc]
    · rw [if_neg hc, if_neg hc]
      by_cases hn : presentValues vals = []
      · rw [if_pos hn]
        split
        · rfl
        · rw [if_pos ((allNone_iff vals).2 hn)]
      · have hl : ¬ vals.length = 0 := by
          intro h
          rw [List.length_eq_zero_iff] at h
          subst h
          exact hn rfl
        rw [if_neg hl, if_neg (by rw [allNone_iff]; exact hn), if_neg hn]
        cases agg <;> simp [Fl.reducer, hp]

/-- The error of a value. -/
theorem valueOf_error (h : Precise r u) {sum : List ℚ → ℚ} (hs : Sums r sum) (grid : Bool) {agg : AggType}
    (hagg : agg ∈ [AggType.min, .max, .mean, .median, .count]) {M : ℚ} (hM : 0 ≤ M) {vals : List (Option ℚ)} (hl : ∀ x, some x ∈ vals → |x| ≤ M)
    {N : ℕ} (hN : vals.length ≤ N) :
    ∃ v v', valueOf grid agg vals = .ok v ∧ Fl.valueOf r sum grid agg vals = .ok v' ∧ Near (((1 + u) ^ N - 1) * M) v v' := by
  have hu := h.nonneg
  have hB : 0 ≤ ((1 + u) ^ N - 1) * M := mul_nonneg (by linarith [one_le_pow_u hu N]) hM
  have refl := (near_matches hB).refl
  rw [valueOf_eq, fl_valueOf_eq]
  by_cases hc : agg = .count
  · rw [if_pos hc, if_pos hc]
    exact ⟨_, _, rfl, rfl, refl _⟩
  · rw [if_neg hc, if_neg hc]
    by_cases hn : presentValues vals = []
    · rw [if_pos hn, if_pos hn]
      exact ⟨_, _, rfl, rfl, refl _⟩
    · rw [if_neg hn, if_neg hn]
      have hl' : ∀ x ∈ presentValues vals, |x| ≤ M := by
        intro x hx
        unfold presentValues at hx
        obtain ⟨y, hy, e⟩ := List.mem_filterMap.1 hx
        exact hl x (by simpa [← e] using hy)
      have hN' : (presentValues vals).length ≤ N := (List.length_filterMap_le _ _).trans hN
      simp only [List.mem_cons, List.not_mem_nil, or_false] at hagg
      rcases hagg with rfl | rfl | rfl | rfl | rfl
      · exact ⟨_, _, rfl, rfl, refl _⟩
      · exact ⟨_, _, rfl, rfl, refl _⟩
      · exact ⟨_, _, rfl, rfl, mean_error h hs hl' hN'⟩
      · exact ⟨_, _, rfl, rfl, median_error h hl' hN' hM⟩
      · exact absurd rfl hc

/-- Different fractions stay in order. -/
theorem fraction_lt (h : Precise r u) {x y : ℚ} {m D : ℕ} (hm : 0 < m) (hD : 0 < D) (hx : |x| ≤ 1) (hy : |y| ≤ 1)
    (hsmall : 2 * ((m : ℚ) * D) * u < 1) {a b : ℤ} (ha : x * (m * D) = a) (hb : y * (m * D) = b) (hlt : x < y) : r x < r y := by
  have hmD : (0 : ℚ) < (m : ℚ) * D := by positivity
  have hu := h.nonneg
  have h1 : a + 1 ≤ b := by
    have : (a : ℚ) < b := by rw [← ha, ← hb]; exact mul_lt_mul_of_pos_right hlt hmD
    exact_mod_cast this
  have h2 : (a : ℚ) + 1 ≤ b := by exact_mod_cast h1
  rw [← ha, ← hb] at h2
  have e1 := abs_le.1 ((h x).trans (mul_le_mul_of_nonneg_left hx hu))
  have e2 := abs_le.1 ((h y).trans (mul_le_mul_of_nonneg_left hy hu))
  have : 2 * u < y - x := by
    by_contra hc
    push Not at hc
    have := mul_le_mul_of_nonneg_right hc hmD.le
    nlinarith
  linarith [e1.2, e2.1]

theorem fraction_le (h : Precise r u) {k m l D : ℕ} (hm : 0 < m) (hD : 0 < D) (hk : k ≤ m) (hl : l ≤ D) (hsmall : 2 * ((m : ℚ) * D) * u < 1) :
    (r ((k : ℚ) / m) ≤ r ((l : ℚ) / D) ↔ (k : ℚ) / m ≤ (l : ℚ) / D) ∧ (r ((l : ℚ) / D) ≤ r ((k : ℚ) / m) ↔ (l : ℚ) / D ≤ (k : ℚ) / m) := by
  have hm' : (0 : ℚ) < m := by exact_mod_cast hm
  have hD' : (0 : ℚ) < D := by exact_mod_cast hD
  have hx : |(k : ℚ) / m| ≤ 1 := by
    rw [abs_of_nonneg (by positivity), div_le_one hm']; exact_mod_cast hk
  have hy : |(l : ℚ) / D| ≤ 1 := by
    rw [abs_of_nonneg (by positivity), div_le_one hD']; exact_mod_cast hl
  have ha : (k : ℚ) / m * (m * D) = ((k * D : ℕ) : ℤ) := by push_cast; field_simp
  have hb : (l : ℚ) / D * (m * D) = ((l * m : ℕ) : ℤ) := by push_cast; field_simp
  have l1 := fraction_lt h hm hD hx hy hsmall ha hb
  have l2 := fraction_lt h hm hD hy hx hsmall hb ha
  rcases lt_trichotomy ((k : ℚ) / m) ((l : ℚ) / D) with hlt | heq | hgt
  · have := l1 hlt
    exact ⟨⟨fun _ => hlt.le, fun _ => this.le⟩, ⟨fun hc => absurd hc (not_le.2 this), fun hc => absurd hc (not_le.2 hlt)⟩⟩
  · rw [heq]; exact ⟨⟨fun _ => le_rfl, fun _ => le_rfl⟩, ⟨fun _ => le_rfl, fun _ => le_rfl⟩⟩
  · have := l2 hgt
    exact ⟨⟨fun hc => absurd hc (not_le.2 this), fun hc => absurd hc (not_le.2 hgt)⟩, ⟨fun _ => hgt.le, fun _ => this.le⟩⟩

theorem numOver_le (t : ℚ) (vals : List (Option ℚ)) : numOver t vals ≤ numNonNan vals := by
  unfold numOver numNonNan
  apply List.countP_mono_left
  intro x _ hx
  cases x <;> simp_all

/-- The decisions are not affected by rounding. -/
theorem hom_rounded (h : Precise r u) {N D : ℕ} (hN0 : 0 < N) (hD : 0 < D) (hsmall : 2 * ((N : ℚ) * D) * u < 1) {c : Cond} {k l : ℕ} (hk : k ≤ D)
    (hl : l ≤ D) (ek : c.lower = (k : ℚ) / D) (el : c.upper = (l : ℚ) / D) (minDp : ℕ) {vals : List (Option ℚ)} (hN : vals.length ≤ N) :
    Fl.homCondition r minDp (Fl.condRead r c) vals = homCondition minDp c vals := by
  have hu := h.nonneg
  have key : ∀ a m : ℕ, 0 < m → a ≤ m → m ≤ N →
      (r ((a : ℚ) / m) ≤ r c.lower ↔ (a : ℚ) / m ≤ c.lower) ∧ (r ((a : ℚ) / m) ≥ r c.upper ↔ (a : ℚ) / m ≥ c.upper) := by
    intro a m hm ha hmN
    have hs : 2 * ((m : ℚ) * D) * u < 1 := by
      have hmN' : (m : ℚ) ≤ N := by exact_mod_cast hmN
      have : (m : ℚ) * D ≤ N * D := mul_le_mul_of_nonneg_right hmN' (by positivity)
      have := mul_le_mul_of_nonneg_right (mul_le_mul_of_nonneg_left this (by norm_num : (0 : ℚ) ≤ 2)) hu
      linarith
    rw [ek, el]
    exact ⟨(fraction_le h hm hD ha hk hs).1, (fraction_le h hm hD ha hl hs).2⟩
  have r0 : r 0 = 0 := by
    have := h 0
    rw [abs_zero, mul_zero] at this
    have := abs_nonpos_iff.1 this
    linarith
  unfold Fl.homCondition homCondition
  by_cases hdp : vals.length < minDp
  · rw [if_pos hdp, if_pos hdp]
  · rw [if_neg hdp, if_neg hdp]
    simp only [Fl.condRead]
    by_cases hn : numNonNan vals > 0
    · simp only [if_pos hn]
      obtain ⟨k1, k2⟩ := key _ _ hn (numOver_le c.threshold vals) ((List.countP_le_length).trans hN)
      simp only [k1, k2]
      split_ifs <;> simp_all
    · simp only [if_neg hn]
      obtain ⟨k1, k2⟩ := key 0 1 (by norm_num) (by norm_num) hN0
      simp only [Nat.cast_zero, zero_div, r0] at k1 k2
      simp only [k1, k2]
      split_ifs <;> simp_all

end Numbers
/-! ## Sources -/

section Sources
variable {r : ℚ → ℚ} {u : ℚ} {sum : List ℚ → ℚ}

theorem Spec.SmallData.sub {N : ℕ} {M : ℚ} {d d' : Dataset (Option ℚ)} (h : SmallData N M d) (hs : d'.rows.Sublist d.rows) : SmallData N M d' :=
  ⟨hs.length_le.trans h.1, fun p hp => h.2 p (hs.subset hp)⟩

theorem fl_scalarValue_eq {q : Boundary} {d' : Dataset (Option ℚ)} (agg : AggType) (htt : d'.trim q = .ok d') :
    Fl.scalarValue r sum agg q d' = Fl.valueOf r sum d'.isGrid agg d'.vals := by
  unfold Fl.scalarValue
  rw [htt]
  cases d' <;> rfl

theorem exact_scalarValue_eq {q : Boundary} {d' : Dataset (Option ℚ)} (agg : AggType) (htt : d'.trim q = .ok d') :
    scalarValue agg q d' = valueOf d'.isGrid agg d'.vals := by
  unfold scalarValue
  rw [htt]
  cases d' <;> rfl

/-- What is needed of the boxes: the data of the source can be cut to each of them, once and for all. -/
def Cuts (In : Boundary → Prop) (d : Dataset (Option ℚ)) : Prop :=
  ∀ q, In q → ∃ d', d.trim q = .ok d' ∧ d'.trim q = .ok d' ∧ d'.rows.Sublist d.rows

theorem rounded_get {In : Boundary → Prop} {s s' : Source (Dataset (Option ℚ)) Cond} (hr : RoundedSource r sum s s') (h : Precise r u) (hs : Sums r sum)
    {N : ℕ} {M : ℚ} (hM : 0 ≤ M) (hd : SmallData N M s.subset) (hc : Cuts In s.subset) {q : Boundary} (hq : In q) :
    ∃ name v v', s.loader.dataName = name ∧ ',' ∉ name.toList ∧ s.loader.getValue q (s.loader.trim q s.subset) = .ok [(name, .num v)] ∧
      s'.loader.getValue q (s'.loader.trim q s'.subset) = .ok [(name, .num v')] ∧ Near (((1 + u) ^ N - 1) * M) v v' := by
  obtain ⟨id, name, agg, minDp, e, e', hn, hagg⟩ := hr.loader
  obtain ⟨d', h1, h2, h3⟩ := hc q hq
  have hd' := hd.sub h3
  obtain ⟨v, v', k1, k2, k3⟩ := valueOf_error h hs d'.isGrid hagg hM (vals := d'.vals)
    (by
      intro x hx
      obtain ⟨p, hp, ep⟩ := List.mem_map.1 hx
      exact hd'.2 p hp x ep) (N := N) (by unfold Dataset.vals; rw [List.length_map]; exact hd'.1)
  refine ⟨name, v, v', by rw [e]; rfl, hn, ?_, ?_, k3⟩
  · rw [e, scalarLoader_trims id name agg minDp q _ _ h1]
    show (scalarValue agg q d' >>= fun v => pure [(name, Val.num v)]) = _
    rw [exact_scalarValue_eq agg h2, k1]; rfl
  · have ht : s'.loader.trim q s'.subset = d' := by
      rw [e', hr.subset]
      show (match s.subset.trim q with | .ok d' => d' | .error _ => s.subset) = _
      rw [h1]
    rw [ht, e']
    show (Fl.scalarValue r sum agg q d' >>= fun v => pure [(name, Val.num v)]) = _
    rw [fl_scalarValue_eq agg h2, k2]; rfl

theorem rounded_faithful {In : Boundary → Prop} {s s' : Source (Dataset (Option ℚ)) Cond} (hr : RoundedSource r sum s s')
    {verdict : Boundary → Cond → Verdict} (hf : FaithfulOn In s verdict) : FaithfulOn In s' (ownVerdict s') := by
  obtain ⟨id, name, agg, minDp, e, e', hn, hagg⟩ := hr.loader
  have ht : s'.loader.trim = s.loader.trim := by rw [e, e']; rfl
  constructor
  · rw [ht, hr.subset]; exact hf.trims
  · intro q hq c hc
    unfold ownVerdict
    rw [e']
    rfl

theorem rounded_valued {In : Boundary → Prop} {s s' : Source (Dataset (Option ℚ)) Cond} (hr : RoundedSource r sum s s') (h : Precise r u)
    (hs : Sums r sum) {N : ℕ} {M : ℚ} (hM : 0 ≤ M) (hd : SmallData N M s.subset) (hc : Cuts In s.subset)
    (hfill : s.fill = .parent ∨ ∃ x, s.fill = .const (.num x)) : ∃ value, ValuedOn In s' value := by
  obtain ⟨id, name, agg, minDp, e, e', hn, hagg⟩ := hr.loader
  have hname : s'.loader.dataName = name := by rw [e']; rfl
  have key : ∀ q, ∃ v, In q → s'.loader.getValue q (s'.loader.trim q s'.subset) = .ok [(name, .num v)] := by
    intro q
    by_cases hq : In q
    · obtain ⟨name', -, v', e1, -, -, e2, -⟩ := rounded_get hr h hs hM hd hc hq
      have : name' = name := by rw [← e1, e]; rfl
      subst this
      exact ⟨v', fun _ => e2⟩
    · exact ⟨none, fun h => absurd h hq⟩
  choose v hv using key
  refine ⟨fun q _ => v q, ⟨?_, ?_, ?_, ?_⟩⟩
  · rw [hname, splitName_single hn]; simp
  · intro q d D hD
    rw [e'] at hD
    change (Fl.scalarValue r sum agg q d >>= fun v => pure [(name, Val.num v)]) = _ at hD
    cases hx : Fl.scalarValue r sum agg q d with
    | error _ => rw [hx] at hD; cases hD
    | ok x => rw [hx] at hD; cases hD; simp
  · intro q hq
    refine ⟨_, hv q hq, ?_, ?_⟩
    · rw [hname, splitName_single hn]; simp [Dict.get?]
    · rw [hname, splitName_single hn]
      intro n hne
      rw [List.mem_singleton] at hne
      simp [Dict.get?, Ne.symm hne]
  · rw [hr.fill]
    rcases hfill with h | h
    · exact Or.inl h
    · exact Or.inr ⟨by rw [hname]; exact hn, h⟩

theorem rounded_near {In : Boundary → Prop} {s s' : Source (Dataset (Option ℚ)) Cond} (hr : RoundedSource r sum s s') (h : Precise r u) (hs : Sums r sum)
    {N D : ℕ} (hN0 : 0 < N) (hD : 0 < D) (hsmall : 2 * ((N : ℚ) * D) * u < 1) {M : ℚ} (hM : 0 ≤ M) (hd : SmallData N M s.subset)
    (hfr : Fractions D s.conds) (hc : Cuts In s.subset) {q : Boundary} (hq : In q) : NearAt (Near (((1 + u) ^ N - 1) * M)) q s s' := by
  obtain ⟨id, name, agg, minDp, e, e', hn, hagg⟩ := hr.loader
  have hverdict : ∀ c ∈ s.conds, ownVerdict s' q (Fl.condRead r c) = ownVerdict s q c := by
    intro c hcm
    obtain ⟨d', h1, h2, h3⟩ := hc q hq
    obtain ⟨k, l, hk, hl, ek, el⟩ := hfr c hcm
    unfold ownVerdict
    rw [e, e', hr.subset, scalarLoader_trims id name agg minDp q _ _ h1]
    show Fl.homCondition r minDp (Fl.condRead r c) (Dataset.vals (match s.subset.trim q with | .ok d' => d' | .error _ => s.subset)) =
      homCondition minDp c d'.vals
    rw [h1]
    exact hom_rounded h hN0 hD hsmall hk hl ek el minDp (by unfold Dataset.vals; rw [List.length_map]; exact (hd.sub h3).1)
  refine ⟨by rw [e, e']; rfl, by rw [e, e']; rfl, hr.fill, ?_, ?_, ?_⟩
  · rw [hr.conds]
    constructor
    · rintro ⟨c, hcm, hv⟩
      obtain ⟨c0, hm, rfl⟩ := List.mem_map.1 hcm
      exact ⟨c0, hm, by rw [← hverdict c0 hm]; exact hv⟩
    · rintro ⟨c, hcm, hv⟩
      exact ⟨_, List.mem_map_of_mem hcm, by rw [hverdict c hcm]; exact hv⟩
  · rw [hr.conds]
    constructor
    · intro k c hcm
      have := k _ (List.mem_map_of_mem hcm)
      rwa [hverdict c hcm] at this
    · intro k c hcm
      obtain ⟨c0, hm, rfl⟩ := List.mem_map.1 hcm
      rw [hverdict c0 hm]
      exact k c0 hm
  · intro D1 D2 g1 g2 n hnm
    obtain ⟨name', v, v', i1, i2, i3, i4, i5⟩ := rounded_get hr h hs hM hd hc hq
    rw [i3] at g1
    rw [i4] at g2
    cases g1; cases g2
    rw [i1, splitName_single i2, List.mem_singleton] at hnm
    subst hnm
    exact Or.inr ⟨v, v', by simp [Dict.get?], by simp [Dict.get?], i5⟩

/-- The boxes of a region that does not cross the antimeridian. -/
theorem plain_cuts {b : Boundary} {s : Source (Dataset (Option ℚ)) Cond} (h : PlainScalar b s) : Cuts (Inner b) s.subset := by
  intro q hq
  obtain ⟨d0, h0⟩ := h.time
  obtain ⟨d', e1, e2⟩ := rowsIn_trim h.sorted hq.2.1 hq.2.2.2 h0
  have hr : TrimsRight s.subset q := ⟨hq.1, by cases s.subset with | table t => exact hq.2.1 | grid g => exact Or.inl hq.2.1⟩
  refine ⟨d', e1, (C25_composes_partial _ h.sorted hr hr (.refl q) e1).2, ?_⟩
  rw [e2]
  exact List.filter_sublist

/-- The boxes of a region that may cross the antimeridian. -/
theorem around_cuts {b : Boundary} {d : Dataset (Option ℚ)} (h : GridAround b d) : Cuts (Around b) d := by
  intro q hq
  obtain ⟨d', e1, e2⟩ := h.rows hq
  refine ⟨d', e1, (C25_composes_partial _ h.2.1 (h.right hq) (h.right hq) (.refl q) e1).2, ?_⟩
  rw [e2]
  exact List.filter_sublist

end Sources

/-! ## C127 -/

theorem rounded_pairs {r : ℚ → ℚ} {sum : List ℚ → ℚ} {full full' : List (Source (Dataset (Option ℚ)) Cond)}
    (h : List.Forall₂ (RoundedSource r sum) full full') :
    ∃ zs : List (Source (Dataset (Option ℚ)) Cond × Source (Dataset (Option ℚ)) Cond), full = zs.map Prod.fst ∧ full' = zs.map Prod.snd ∧
      ∀ z ∈ zs, RoundedSource r sum z.1 z.2 := by
  induction h with
  | nil => exact ⟨[], rfl, rfl, by simp⟩
  | @cons a b l l' h1 _ ih =>
    obtain ⟨zs, rfl, rfl, hz⟩ := ih
    refine ⟨(a, b) :: zs, rfl, rfl, ?_⟩
    intro z hm
    rcases List.mem_cons.1 hm with rfl | hm
    · exact h1
    · exact hz z hm

theorem rounded_build {r : ℚ → ℚ} {u : ℚ} (hr : Precise r u) {sum : List ℚ → ℚ} (hs : Sums r sum) {b : Boundary} {W H : ℚ}
    {In start : Boundary → Prop} {parts : Boundary → List Boundary} {full full' : List (Source (Dataset (Option ℚ)) Cond)}
    (hfull : List.Forall₂ (RoundedSource r sum) full full') (hS : BoxSystem b W H In start parts) (hin : ∀ q, In q → ProperBox q)
    (huniq : ∀ q t t', LineageBy parts start (q :: t) → LineageBy parts start (q :: t') → t = t')
    (hf : ∀ s ∈ full, FaithfulOn In s (ownVerdict s)) (hv : ∀ s ∈ full, ∃ value, ValuedOn In s value)
    (hfill : ∀ s ∈ full, s.fill = .parent ∨ ∃ x, s.fill = .const (.num x)) (hcuts : ∀ s ∈ full, Cuts In s.subset)
    (hid : (full.map (fun s => s.loader.id)).Nodup) {N D : ℕ} (hN : 0 < N) (hD : 0 < D) (hsmall : 2 * ((N : ℚ) * D) * u < 1) {M : ℚ} (hM : 0 ≤ M)
    (hdata : ∀ s ∈ full, SmallData N M s.subset) (hfr : ∀ s ∈ full, Fractions D s.conds)
    (config : MeshConfig) (hp : ProperGrid b W H) (hh : b.latMin < b.latMax)
    (hcol : b.width = 360 → W ≤ 180) (hacc : MeshBuilder.validateBounds b W H = .ok ()) (depth : ℕ) :
    ∃ m0 m0', MeshBuilder.init b W H (fun q => trimSources q full) depth = .ok m0 ∧
      MeshBuilder.init b W H (fun q => trimSources q full') depth = .ok m0' ∧ ∃ F em em',
      (∀ fuel, F ≤ fuel → MeshBuilder.buildEnvironmentalMesh (sourceOps (Dataset (Option ℚ)) Cond) aggregate fuel config m0 = .ok em ∧
        MeshBuilder.buildEnvironmentalMesh (sourceOps (Dataset (Option ℚ)) Cond) aggregate fuel config m0' = .ok em') ∧
      (∀ q, (∃ c ∈ em'.cells, c.bounds = q) ↔ ∃ c ∈ em.cells, c.bounds = q) ∧
      ∀ c ∈ em.cells, ∀ c' ∈ em'.cells, c'.bounds = c.bounds → ∀ n, EntryNear (Near (((1 + u) ^ N - 1) * M)) (c.data.get? n) (c'.data.get? n) := by
  have hu := hr.nonneg
  have hB : 0 ≤ ((1 + u) ^ N - 1) * M := mul_nonneg (by linarith [one_le_pow_u hu N]) hM
  obtain ⟨zs, rfl, rfl, hz⟩ := rounded_pairs hfull
  have hm : ∀ z ∈ zs, z.1 ∈ zs.map Prod.fst := fun z hz => List.mem_map_of_mem hz
  have hid' : ((zs.map Prod.snd).map (fun s => s.loader.id)).Nodup := by
    rw [List.map_map] at hid ⊢
    have : zs.map ((fun s : Source (Dataset (Option ℚ)) Cond => s.loader.id) ∘ Prod.snd) =
        zs.map ((fun s : Source (Dataset (Option ℚ)) Cond => s.loader.id) ∘ Prod.fst) := by
      apply List.map_congr_left
      intro z hzm
      obtain ⟨id, name, agg, minDp, e, e', -⟩ := (hz z hzm).loader
      simp only [Function.comp_apply]
      rw [e, e']; rfl
    rw [this]
    exact hid
  obtain ⟨m0, h0, F, em, value, hb, hBf⟩ := built_from hf hv hid config hS hin hp hh hcol hacc depth
  obtain ⟨m0', h0', F', em', value', hb', hBf'⟩ := built_from (full := zs.map Prod.snd)
    (by
      intro s hsm
      obtain ⟨z, hzm, rfl⟩ := List.mem_map.1 hsm
      exact rounded_faithful (hz z hzm) (hf _ (hm z hzm)))
    (by
      intro s hsm
      obtain ⟨z, hzm, rfl⟩ := List.mem_map.1 hsm
      exact rounded_valued (hz z hzm) hr hs hM (hdata _ (hm z hzm)) (hcuts _ (hm z hzm)) (hfill _ (hm z hzm)))
    hid' config hS hin hp hh hcol hacc depth
  obtain ⟨k1, k2⟩ := near_cells (near_matches hB) hBf hBf' hS.first (fun p q h1 h2 => (hS.within p q h1 h2).1) huniq
    (fun q hq z hzm => rounded_near (hz z hzm) hr hs hN hD hsmall hM (hdata _ (hm z hzm)) (hfr _ (hm z hzm)) (hcuts _ (hm z hzm)) hq)
  exact ⟨m0, m0', h0, h0', max F F', em, em', fun fuel hfuel => ⟨hb fuel (by omega), hb' fuel (by omega)⟩, k1, k2⟩

/-- **C127**: take scalar sources over a region that does not cross the antimeridian, and calculate with rounding: sums in any order, means,
medians, shares of values over thresholds, and the bounds these are compared with.  With at most `N` datapoints of at most the size `M` in a
source, and bounds that are fractions of a denominator that is not too large, the cells are those of exact calculation, a value is missing
where it is there, and differs from it by at most `((1 + u) ^ N - 1) * M`. -/
theorem C127_values {r : ℚ → ℚ} {u : ℚ} (hr : Precise r u) {sum : List ℚ → ℚ} (hs : Sums r sum) {b : Boundary} {W H : ℚ}
    {full full' : List (Source (Dataset (Option ℚ)) Cond)} (hfull : List.Forall₂ (RoundedSource r sum) full full')
    (hf : ∀ s ∈ full, PlainScalar b s) (hid : (full.map (fun s => s.loader.id)).Nodup) {N D : ℕ} (hN : 0 < N) (hD : 0 < D)
    (hsmall : 2 * ((N : ℚ) * D) * u < 1) {M : ℚ} (hM : 0 ≤ M) (hdata : ∀ s ∈ full, SmallData N M s.subset) (hfr : ∀ s ∈ full, Fractions D s.conds)
    (config : MeshConfig) (hp : ProperGrid b W H) (hcr : b.longMin < b.longMax) (hh : b.latMin < b.latMax)
    (hcol : b.longMin = -180 ∧ b.longMax = 180 → W ≤ 180) (hacc : MeshBuilder.validateBounds b W H = .ok ()) (depth : ℕ) :
    ∃ m0 m0', MeshBuilder.init b W H (fun q => trimSources q full) depth = .ok m0 ∧
      MeshBuilder.init b W H (fun q => trimSources q full') depth = .ok m0' ∧ ∃ F em em',
      (∀ fuel, F ≤ fuel → MeshBuilder.buildEnvironmentalMesh (sourceOps (Dataset (Option ℚ)) Cond) aggregate fuel config m0 = .ok em ∧
        MeshBuilder.buildEnvironmentalMesh (sourceOps (Dataset (Option ℚ)) Cond) aggregate fuel config m0' = .ok em') ∧
      (∀ q, (∃ c ∈ em'.cells, c.bounds = q) ↔ ∃ c ∈ em.cells, c.bounds = q) ∧
      ∀ c ∈ em.cells, ∀ c' ∈ em'.cells, c'.bounds = c.bounds → ∀ n, EntryNear (Near (((1 + u) ^ N - 1) * M)) (c.data.get? n) (c'.data.get? n) := by
  have hcol' : b.width = 360 → W ≤ 180 := by
    intro h
    rw [width_of_lt hcr] at h
    obtain ⟨-, v1, v2, v3, v4, -⟩ := hp.valid
    exact hcol ⟨by linarith, by linarith⟩
  refine rounded_build hr hs hfull (inner_system hp hcr hacc) (fun q hq => hq.1) (fun q t t' => lineage_unique hp.wpos hp.hpos)
    (fun s hsm => ?_) (fun s hsm => ?_) (fun s hsm => (hf s hsm).fill) (fun s hsm => plain_cuts (hf s hsm)) hid hN hD hsmall hM hdata hfr
    config hp hh hcol' hacc depth
  · obtain ⟨id, name, agg, minDp, e, -, -⟩ := (hf s hsm).loader
    exact Faithful.own (scalar_faithful (hf s hsm) e)
  · obtain ⟨v, h1, -⟩ := scalar_valued (hf s hsm)
    exact ⟨v, h1⟩

/-- **C127** for regions that may cross the antimeridian, with gridded data. -/
theorem C127_around {r : ℚ → ℚ} {u : ℚ} (hr : Precise r u) {sum : List ℚ → ℚ} (hs : Sums r sum) {b : Boundary} {W H : ℚ}
    {full full' : List (Source (Dataset (Option ℚ)) Cond)} (hfull : List.Forall₂ (RoundedSource r sum) full full')
    (hf : ∀ s ∈ full, GridAround b s.subset ∧ (s.fill = .parent ∨ ∃ x, s.fill = .const (.num x)))
    (hid : (full.map (fun s => s.loader.id)).Nodup) {N D : ℕ} (hN : 0 < N) (hD : 0 < D)
    (hsmall : 2 * ((N : ℚ) * D) * u < 1) {M : ℚ} (hM : 0 ≤ M) (hdata : ∀ s ∈ full, SmallData N M s.subset) (hfr : ∀ s ∈ full, Fractions D s.conds)
    (config : MeshConfig) (hp : ProperGrid b W H) (hh : b.latMin < b.latMax)
    (hcol : b.width = 360 → W ≤ 180) (hacc : MeshBuilder.validateBounds b W H = .ok ()) (depth : ℕ) :
    ∃ m0 m0', MeshBuilder.init b W H (fun q => trimSources q full) depth = .ok m0 ∧
      MeshBuilder.init b W H (fun q => trimSources q full') depth = .ok m0' ∧ ∃ F em em',
      (∀ fuel, F ≤ fuel → MeshBuilder.buildEnvironmentalMesh (sourceOps (Dataset (Option ℚ)) Cond) aggregate fuel config m0 = .ok em ∧
        MeshBuilder.buildEnvironmentalMesh (sourceOps (Dataset (Option ℚ)) Cond) aggregate fuel config m0' = .ok em') ∧
      (∀ q, (∃ c ∈ em'.cells, c.bounds = q) ↔ ∃ c ∈ em.cells, c.bounds = q) ∧
      ∀ c ∈ em.cells, ∀ c' ∈ em'.cells, c'.bounds = c.bounds → ∀ n, EntryNear (Near (((1 + u) ^ N - 1) * M)) (c.data.get? n) (c'.data.get? n) := by
  have hload : ∀ s ∈ full, ∃ id name agg minDp, s.loader = scalarLoader id name agg minDp ∧ ',' ∉ name.toList ∧
      agg ∈ [AggType.min, .max, .mean, .median, .count] := by
    obtain ⟨zs, rfl, -, hz⟩ := rounded_pairs hfull
    intro s hsm
    obtain ⟨z, hzm, rfl⟩ := List.mem_map.1 hsm
    obtain ⟨id, name, agg, minDp, e, -, hn, hagg⟩ := (hz z hzm).loader
    exact ⟨id, name, agg, minDp, e, hn, hagg⟩
  refine rounded_build hr hs hfull (around_system hp hcol hacc) (fun q hq => hq.1)
    (fun q t t' => around_unique (unwraps_of hp) hp.wpos hp.hpos (cell_small hp hcol hacc))
    (fun s hsm => ?_) (fun s hsm => ?_) (fun s hsm => (hf s hsm).2) (fun s hsm => around_cuts (hf s hsm).1) hid hN hD hsmall hM hdata hfr
    config hp hh hcol hacc depth
  · obtain ⟨id, name, agg, minDp, e, -, -⟩ := hload s hsm
    exact Faithful.own (around_scalar_faithful e (hf s hsm).1)
  · obtain ⟨id, name, agg, minDp, e, hn, hagg⟩ := hload s hsm
    obtain ⟨v, h1, -⟩ := around_scalar_valued e hn (by simp only [List.mem_cons, List.not_mem_nil, or_false] at hagg ⊢; tauto) (hf s hsm).2 (hf s hsm).1
    exact ⟨v, h1⟩

/-! ## Double precision -/

theorem pow_bound {u : ℚ} (hu : 0 ≤ u) : ∀ n : ℕ, 2 * n * u ≤ 1 → (1 + u) ^ n ≤ 1 + 2 * n * u
  | 0, _ => by simp
  | n + 1, h => by
    push_cast at h ⊢
    have hn : 2 * (n : ℚ) * u ≤ 1 := by linarith
    have ih := pow_bound hu n hn
    rw [pow_succ]
    have h1 : (1 + u) ^ n * (1 + u) ≤ (1 + 2 * n * u) * (1 + u) := mul_le_mul_of_nonneg_right ih (by linarith)
    have h2 : 2 * (n : ℚ) * u * u ≤ 1 * u := mul_le_mul_of_nonneg_right hn hu
    linarith

/-- **C127 (double precision).**  Rounding to double precision is off by at most the share `2 ^ -53` of a number; adding from the left is a
way of adding. -/
theorem C127_round64 : Precise Fl.round64 (1 / 2 ^ 53) ∧ Sums Fl.round64 (Fl.sumLeft Fl.round64) := by
  constructor
  · intro q
    by_cases h0 : q = 0
    · subst h0
      have : Fl.round64 0 = 0 := by decide +kernel
      rw [this]; simp
    obtain ⟨e, h1, h2⟩ := exists_mem_Ico_zpow (abs_pos.2 h0) (by norm_num : (1 : ℚ) < 2)
    have hp : (0 : ℚ) < 2 ^ (e - 52) := by positivity
    have e53 : (2 : ℚ) ^ (e + 1) = 2 ^ 53 * 2 ^ (e - 52) := by
      rw [← zpow_natCast, ← zpow_add₀ (by norm_num)]; congr 1; push_cast; ring
    have h3 := abs_sub_round (q / 2 ^ (e - 52))
    have hq : |q / 2 ^ (e - 52)| ≤ 2 ^ 53 := by
      rw [abs_div, abs_of_pos hp, div_le_iff₀ hp, ← e53]; exact h2.le
    have hq' := abs_le.1 hq
    generalize hR : round (q / 2 ^ (e - 52)) = R at h3
    have hm : |R| ≤ 2 ^ 53 := by
      have h1' := abs_le.1 h3
      rw [abs_le]
      constructor
      · have : (((-2 ^ 53 - 1 : ℤ)) : ℚ) < R := by push_cast; linarith [h1'.2]
        have := Int.cast_lt.1 this
        omega
      · have : (R : ℚ) < ((2 ^ 53 + 1 : ℤ) : ℚ) := by push_cast; linarith [h1'.1]
        have := Int.cast_lt.1 this
        omega
    refine (round64_nearest q R (e - 52) hm).trans ?_
    have e1 : (R : ℚ) * 2 ^ (e - 52) - q = -(q / 2 ^ (e - 52) - R) * 2 ^ (e - 52) := by
      field_simp
      ring
    rw [e1, abs_mul, abs_neg, abs_of_pos hp]
    have e2 : (2 : ℚ) ^ e = 2 ^ 52 * 2 ^ (e - 52) := by
      rw [← zpow_natCast, ← zpow_add₀ (by norm_num)]; congr 1; push_cast; ring
    calc |q / 2 ^ (e - 52) - R| * 2 ^ (e - 52) ≤ 1 / 2 * 2 ^ (e - 52) := mul_le_mul_of_nonneg_right h3 hp.le
      _ = 1 / 2 ^ 53 * 2 ^ e := by rw [e2]; ring
      _ ≤ _ := mul_le_mul_of_nonneg_left h1 (by norm_num)
  · intro l hl
    cases l with
    | nil => exact absurd rfl hl
    | cons x xs =>
      have key : ∀ (ys done : List ℚ) (a : ℚ), Summed Fl.round64 done a →
          Summed Fl.round64 (done ++ ys) (ys.foldl (fun a y => Fl.round64 (a + y)) a) := by
        intro ys
        induction ys with
        | nil => intro done a h; simpa using h
        | cons y ys ih =>
          intro done a h
          have := ih (done ++ [y]) _ (h.add (.one y))
          simpa using this
      exact key xs [x] x (.one x)

/-- **C127 (whole build in double precision).**  Region and cell sizes are multiples of `2 ^ -n` with `n` and the depth of splitting together
at most 43; the sources have at most `2 ^ 20` datapoints of at most the size `M`, and conditions with bounds of at most nine decimals.  The mesh
built in double precision, its cells and values calculated with rounding, has the cells of exact calculation, and values that are missing where
those of exact calculation are, and differ from them by at most `2 ^ -32 * M`. -/
theorem C127_double {sum : List ℚ → ℚ} (hs : Sums Fl.round64 sum) {n : ℕ} {b : Boundary} (hb : DyadicBox n b) {W H : ℚ}
    {full full' : List (Source (Dataset (Option ℚ)) Cond)} (hfull : List.Forall₂ (RoundedSource Fl.round64 sum) full full')
    (hf : ∀ s ∈ full, PlainScalar b s) (hid : (full.map (fun s => s.loader.id)).Nodup) {M : ℚ} (hM : 0 ≤ M)
    (hdata : ∀ s ∈ full, SmallData (2 ^ 20) M s.subset) (hfr : ∀ s ∈ full, Fractions (10 ^ 9) s.conds)
    (config : MeshConfig) (hp : ProperGrid b W H) (hcr : b.longMin < b.longMax) (hh : b.latMin < b.latMax)
    (hcol : b.longMin = -180 ∧ b.longMax = 180 → W ≤ 180) (hacc : MeshBuilder.validateBounds b W H = .ok ())
    (hW : Dyadic n W) (hH : Dyadic n H) (hW1 : W ≤ 1024) (hH1 : H ≤ 1024) (hcells : b.width * b.height ≤ 2 ^ 52 * (W * H))
    (depth : ℕ) (hn : n + depth ≤ 43) :
    ∃ F em em', (∀ fuel, F ≤ fuel →
        (do let m ← MeshBuilder.init b W H (fun q => trimSources q full) depth
            MeshBuilder.buildEnvironmentalMesh (sourceOps (Dataset (Option ℚ)) Cond) aggregate fuel config m) = .ok em ∧
        (do let m ← Fl.init Fl.round64 b W H (fun q => trimSources q full') depth
            Fl.buildEnvironmentalMesh Fl.round64 (sourceOps (Dataset (Option ℚ)) Cond) aggregate fuel config m) = .ok em') ∧
      (∀ q, (∃ c ∈ em'.cells, c.bounds = q) ↔ ∃ c ∈ em.cells, c.bounds = q) ∧
      ∀ c ∈ em.cells, ∀ c' ∈ em'.cells, c'.bounds = c.bounds → ∀ n, EntryNear (Near (1 / 2 ^ 32 * M)) (c.data.get? n) (c'.data.get? n) := by
  obtain ⟨m0, m0', h0, h0', F, em, em', h1, h2, h3⟩ := C127_values C127_round64.1 hs hfull hf hid (N := 2 ^ 20) (D := 10 ^ 9) (by norm_num)
    (by norm_num) (by norm_num) hM hdata hfr config hp hcr hh hcol hacc depth
  refine ⟨F, em, em', fun fuel hfuel => ⟨?_, ?_⟩, h2, fun c hc c' hc' e k => ?_⟩
  · simp only [h0, bind, Except.bind]
    exact (h1 fuel hfuel).1
  · rw [C101_build C101_round64.2.2.2 hb hp hW hH hW1 hH1 hcells _ depth hn]
    simp only [h0', bind, Except.bind]
    exact (h1 fuel hfuel).2
  · have hpow := pow_bound (u := 1 / 2 ^ 53) (by norm_num) (2 ^ 20) (by norm_num)
    rcases h3 c hc c' hc' e k with hx | ⟨v, v', e1, e2, hnear⟩
    · exact Or.inl hx
    · refine Or.inr ⟨v, v', e1, e2, ?_⟩
      rcases hnear with hx | ⟨x, y, f1, f2, f3⟩
      · exact Or.inl hx
      · refine Or.inr ⟨x, y, f1, f2, f3.trans (mul_le_mul_of_nonneg_right ?_ hM)⟩
        refine le_trans (sub_le_sub_right hpow 1) ?_
        norm_num


/-- **C127 (a mean above all values).**  In double precision the mean of three times 0.1, added from the left, is larger than each of them:
0.10000000000000002. -/
theorem C127_mean_false : ∃ x y, Fl.listMean Fl.round64 (Fl.sumLeft Fl.round64) [x, x, x] = some y ∧ IsDouble x ∧ x < y ∧
    listMean [x, x, x] = some x := by
  refine ⟨3602879701896397 / 36028797018963968, 7205759403792795 / 72057594037927936, by decide +kernel,
    ⟨3602879701896397, -55, by norm_num, by norm_num, by norm_num, ?_⟩, by norm_num, by decide +kernel⟩
  norm_num [zpow_neg]

/-! ## Examples -/

/-- Three datapoints, of which two are in one cell. -/
def exTenths : Dataset (Option ℚ) :=
  .table ⟨false, [⟨-59, 1, 0, some (1 / 10)⟩, ⟨-58, 1, 0, some (3 / 10)⟩, ⟨-52, 12, 0, some (7 / 10)⟩, ⟨-52, 13, 0, none⟩]⟩

/-- A source with the mean of them, calculated exactly. -/
def exExact : List (Source (Dataset (Option ℚ)) Cond) :=
  [⟨scalarLoader 0 "a" .mean 1, [⟨1 / 5, 1 / 10, 9 / 10, false⟩], .parent, exTenths⟩,
   ⟨scalarLoader 1 "b" .median 1, [], .const (.num (some 0)), exTenths⟩]

/-- The same with rounding to double precision. -/
def exDouble : List (Source (Dataset (Option ℚ)) Cond) :=
  [⟨Fl.scalarLoader Fl.round64 (Fl.sumLeft Fl.round64) 0 "a" .mean 1, [⟨1 / 5, Fl.round64 (1 / 10), Fl.round64 (9 / 10), false⟩], .parent, exTenths⟩,
   ⟨Fl.scalarLoader Fl.round64 (Fl.sumLeft Fl.round64) 1 "b" .median 1, [], .const (.num (some 0)), exTenths⟩]

theorem exDouble_rounded : List.Forall₂ (RoundedSource Fl.round64 (Fl.sumLeft Fl.round64)) exExact exDouble :=
  .cons ⟨⟨_, _, _, _, rfl, rfl, by decide, by simp⟩, rfl, rfl, rfl⟩ (.cons ⟨⟨_, _, _, _, rfl, rfl, by decide, by simp⟩, rfl, rfl, rfl⟩ .nil)

theorem exTenths_small : SmallData (2 ^ 20) 1 exTenths := by
  refine ⟨by simp [exTenths, Dataset.rows], ?_⟩
  intro p hp x hx
  simp only [exTenths, Dataset.rows, List.mem_cons, List.not_mem_nil, or_false] at hp
  rcases hp with rfl | rfl | rfl | rfl <;> simp only [Option.some.injEq, reduceCtorEq] at hx <;> subst hx <;> norm_num [abs_of_pos]

/-- The hypotheses of C127 hold for them; the calculation in double precision is not exact. -/
example : (∃ F em em', (∀ fuel, F ≤ fuel →
        (do let m ← MeshBuilder.init exRegion 10 5 (fun q => trimSources q exExact) 3
            MeshBuilder.buildEnvironmentalMesh (sourceOps (Dataset (Option ℚ)) Cond) aggregate fuel exConfig m) = .ok em ∧
        (do let m ← Fl.init Fl.round64 exRegion 10 5 (fun q => trimSources q exDouble) 3
            Fl.buildEnvironmentalMesh Fl.round64 (sourceOps (Dataset (Option ℚ)) Cond) aggregate fuel exConfig m) = .ok em') ∧
      (∀ q, (∃ c ∈ em'.cells, c.bounds = q) ↔ ∃ c ∈ em.cells, c.bounds = q) ∧
      ∀ c ∈ em.cells, ∀ c' ∈ em'.cells, c'.bounds = c.bounds → ∀ n, EntryNear (Near (1 / 2 ^ 32 * 1)) (c.data.get? n) (c'.data.get? n)) ∧
    Fl.listMean Fl.round64 (Fl.sumLeft Fl.round64) [1 / 10, 3 / 10] ≠ listMean [1 / 10, 3 / 10] := by
  constructor
  · refine C127_double C127_round64.2 (n := 0) ⟨⟨-60, ?_⟩, ⟨-50, ?_⟩, ⟨0, ?_⟩, ⟨20, ?_⟩, ?_, ?_, ?_⟩ exDouble_rounded ?_ (by decide) (by norm_num) ?_ ?_
      exConfig exRegion_proper (by norm_num [exRegion]) (by norm_num [exRegion]) (by norm_num [exRegion]) (by decide +kernel)
      ⟨10, by norm_num⟩ ⟨5, by norm_num⟩ (by norm_num) (by norm_num) (by norm_num [Boundary.width, Boundary.height, exRegion]) 3 (by norm_num)
    any_goals norm_num [exRegion]
    · intro s hs
      simp only [exExact, List.mem_cons, List.not_mem_nil, or_false] at hs
      rcases hs with rfl | rfl
      · exact ⟨⟨_, _, _, _, rfl, by decide, by simp⟩, Or.inl rfl, trivial, _, rfl⟩
      · exact ⟨⟨_, _, _, _, rfl, by decide, by simp⟩, Or.inr ⟨_, rfl⟩, trivial, _, rfl⟩
    · intro s hs
      simp only [exExact, List.mem_cons, List.not_mem_nil, or_false] at hs
      rcases hs with rfl | rfl <;> exact exTenths_small
    · intro s hs c hc
      simp only [exExact, List.mem_cons, List.not_mem_nil, or_false] at hs
      rcases hs with rfl | rfl
      · simp only [List.mem_cons, List.not_mem_nil, or_false] at hc
        subst hc
        exact ⟨10 ^ 8, 9 * 10 ^ 8, by norm_num, by norm_num, by norm_num, by norm_num⟩
      · cases hc
  · decide +kernel

/-- The hypotheses of `C127_around` hold over the antimeridian, with the grid of the examples. -/
example : ∃ m0 m0', MeshBuilder.init exAroundRegion 10 10
      (fun q => trimSources q [⟨scalarLoader 0 "a" .mean 1, [⟨0, 1 / 4, 3 / 4, false⟩], .parent, .grid exGrid⟩]) 1 = .ok m0 ∧
    MeshBuilder.init exAroundRegion 10 10 (fun q => trimSources q [⟨Fl.scalarLoader Fl.round64 (Fl.sumLeft Fl.round64) 0 "a" .mean 1,
      [⟨0, Fl.round64 (1 / 4), Fl.round64 (3 / 4), false⟩], .parent, .grid exGrid⟩]) 1 = .ok m0' ∧ ∃ F em em',
    (∀ fuel, F ≤ fuel → MeshBuilder.buildEnvironmentalMesh (sourceOps (Dataset (Option ℚ)) Cond) aggregate fuel exConfig m0 = .ok em ∧
      MeshBuilder.buildEnvironmentalMesh (sourceOps (Dataset (Option ℚ)) Cond) aggregate fuel exConfig m0' = .ok em') ∧
    (∀ q, (∃ c ∈ em'.cells, c.bounds = q) ↔ ∃ c ∈ em.cells, c.bounds = q) ∧
    ∀ c ∈ em.cells, ∀ c' ∈ em'.cells, c'.bounds = c.bounds → ∀ n,
      EntryNear (Near (((1 + 1 / 2 ^ 53) ^ 18 - 1) * 195)) (c.data.get? n) (c'.data.get? n) := by
  have hw : exAroundRegion.width ≠ 360 := by decide +kernel
  refine C127_around C127_round64.1 C127_round64.2 (N := 18) (D := 4) (M := 195) ?_ ?_
    (by simp) (by norm_num) (by norm_num) (by norm_num) (by norm_num) ?_ ?_ exConfig exAroundRegion_proper
    (by norm_num [exAroundRegion]) (fun h => absurd h hw) (by decide +kernel) 1
  · exact .cons ⟨⟨0, "a", .mean, 1, rfl, rfl, by decide, by simp⟩, rfl, rfl, rfl⟩ .nil
  · intro s hs
    rw [List.mem_singleton] at hs
    subst hs
    exact ⟨⟨⟨_, rfl, exGrid_longs⟩, exGrid_sorted, _, trim_eq exGrid_sorted (by intro h; cases h)⟩, Or.inl rfl⟩
  · intro s hs
    rw [List.mem_singleton] at hs
    subst hs
    have h : ∀ p ∈ (Dataset.grid exGrid).rows, ∃ x, p.val = some x ∧ |x| ≤ 195 := by
      have hb : ∀ p ∈ (Dataset.grid exGrid).rows, p.val = some (p.lat + p.long) ∧ |p.lat + p.long| ≤ 195 := by decide +kernel
      exact fun p hp => ⟨_, hb p hp⟩
    refine ⟨by decide +kernel, fun p hp x hx => ?_⟩
    obtain ⟨y, e, hy⟩ := h p hp
    rw [e, Option.some.injEq] at hx
    rw [← hx]; exact hy
  · intro s hs c hc
    rw [List.mem_singleton] at hs
    subst hs
    simp only [List.mem_cons, List.not_mem_nil, or_false] at hc
    subst hc
    exact ⟨1, 3, by norm_num, by norm_num, by norm_num, by norm_num⟩

end Verif
