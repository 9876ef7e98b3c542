import Verif.Model.Numeric
import Mathlib.Tactic.Linarith
import Mathlib.Tactic.FieldSimp
import Mathlib.Tactic.Positivity
import Mathlib.Tactic.LinearCombination
import Mathlib.Algebra.Order.Field.Power
import Mathlib.Algebra.Order.Round

/-!
# C55, C56: rounding to significant figures and readable durations
-/

namespace Verif
open Utils

/-! ## Rounding to integers -/

theorem roundEven_near (q : ℚ) : |(roundEven q : ℚ) - q| ≤ 1 / 2 := by
  have h0 := Int.floor_le q
  have h1 := Int.lt_floor_add_one q
  unfold roundEven
  split_ifs <;> push_cast <;> rw [abs_le] <;> constructor <;> linarith

theorem roundEven_int (n : ℤ) : roundEven (n : ℚ) = n := by
  unfold roundEven; simp

theorem roundEven_mono {p q : ℚ} (h : p ≤ q) : roundEven p ≤ roundEven q := by
  have hf : ⌊p⌋ ≤ ⌊q⌋ := Int.floor_le_floor h
  have key : ∀ r : ℚ, ⌊r⌋ ≤ roundEven r ∧ roundEven r ≤ ⌊r⌋ + 1 := by
    intro r; unfold roundEven; split_ifs <;> omega
  rcases hf.lt_or_eq with hlt | heq
  · have := (key p).2; have := (key q).1; omega
  · unfold roundEven
    rw [heq]
    have h' : p - ⌊q⌋ ≤ q - ⌊q⌋ := by linarith
    split_ifs <;> first | omega | (exfalso; linarith)

theorem roundEven_neg (q : ℚ) : roundEven (-q) = -roundEven q := by
  by_cases hi : q = ⌊q⌋
  · rw [hi]
    have : (-(⌊q⌋ : ℚ)) = ((-⌊q⌋ : ℤ) : ℚ) := by push_cast; rfl
    rw [this, roundEven_int, roundEven_int]
  · have h0 : (⌊q⌋ : ℚ) < q := lt_of_le_of_ne (Int.floor_le q) (Ne.symm hi)
    have h1 := Int.lt_floor_add_one q
    have hf : ⌊-q⌋ = -⌊q⌋ - 1 := by
      rw [Int.floor_eq_iff]; push_cast; constructor <;> linarith
    unfold roundEven
    rw [hf]
    push_cast
    split_ifs <;> first | omega | (exfalso; linarith)

/-- Integer bounds survive rounding. -/
theorem roundEven_bounds {q : ℚ} {a b : ℤ} (h1 : (a : ℚ) ≤ q) (h2 : q ≤ b) : a ≤ roundEven q ∧ roundEven q ≤ b := by
  constructor
  · have := roundEven_mono h1; rwa [roundEven_int] at this
  · have := roundEven_mono h2; rwa [roundEven_int] at this

/-! ## Significant figures -/

/-- `e` is the exponent of the leading digit of `x`. -/
def Spec.Leading (x : ℚ) (e : ℤ) : Prop := (10 : ℚ) ^ e ≤ |x| ∧ |x| < 10 ^ (e + 1)

theorem leading_log {x : ℚ} (hx : x ≠ 0) : Spec.Leading x (log10Floor x) := by
  unfold log10Floor
  rw [if_neg hx]
  have h1 := Int.zpow_log_le_self (b := 10) (r := |x|) (by norm_num) (abs_pos.2 hx)
  have h2 := Int.lt_zpow_succ_log_self (b := 10) (by norm_num) |x|
  exact ⟨by exact_mod_cast h1, by exact_mod_cast h2⟩

theorem leading_unique {x : ℚ} {e e' : ℤ} (h : Spec.Leading x e) (h' : Spec.Leading x e') : e = e' := by
  have a : (10 : ℚ) ^ e < 10 ^ (e' + 1) := lt_of_le_of_lt h.1 h'.2
  have b : (10 : ℚ) ^ e' < 10 ^ (e + 1) := lt_of_le_of_lt h'.1 h.2
  rw [zpow_lt_zpow_iff_right₀ (by norm_num)] at a b
  omega

theorem leading_eq {x : ℚ} {e : ℤ} (h : Spec.Leading x e) : log10Floor x = e := by
  have hx : x ≠ 0 := by
    rintro rfl
    have := h.1
    rw [abs_zero] at this
    have : (0 : ℚ) < 10 ^ e := by positivity
    linarith
  exact leading_unique (leading_log hx) h

theorem roundSigfig_neg (n : ℕ) (x : ℚ) : roundSigfig n (-x) = -roundSigfig n x := by
  have : log10Floor (-x) = log10Floor x := by unfold log10Floor; simp
  unfold roundSigfig around
  rw [this, neg_mul, roundEven_neg]
  push_cast
  ring

theorem roundSigfig_zero (n : ℕ) : roundSigfig n 0 = 0 := by
  unfold roundSigfig around
  rw [zero_mul]
  have : roundEven 0 = 0 := by simpa using roundEven_int 0
  rw [this]; simp

/-- The result for a positive number with leading exponent `e` is an integer number of units
`10 ^ (e + 1 - n)`, between the powers of ten around it. -/
theorem roundSigfig_pos {n : ℕ} (hn : 1 ≤ n) {x : ℚ} (hx : 0 < x) {e : ℤ} (he : Spec.Leading x e) :
    ∃ k : ℤ, roundSigfig n x = k * (10 : ℚ) ^ (e + 1 - n) ∧ (10 : ℤ) ^ (n - 1) ≤ k ∧ k ≤ 10 ^ n ∧
      |(k : ℚ) - x * 10 ^ (n - e - 1 : ℤ)| ≤ 1 / 2 ∧ k = roundEven (x * 10 ^ (n - e - 1 : ℤ)) := by
  have hlog := leading_eq he
  obtain ⟨h1, h2⟩ := he
  rw [abs_of_pos hx] at h1 h2
  have hp : (0 : ℚ) < 10 ^ (n - e - 1 : ℤ) := by positivity
  have b1 : (10 : ℚ) ^ e * 10 ^ (n - e - 1 : ℤ) = ((10 ^ (n - 1) : ℤ) : ℚ) := by
    rw [← zpow_add₀ (by norm_num)]
    have : e + ((n : ℤ) - e - 1) = ((n - 1 : ℕ) : ℤ) := by push_cast [hn]; ring
    rw [this, zpow_natCast]; push_cast; rfl
  have b2 : (10 : ℚ) ^ (e + 1) * 10 ^ (n - e - 1 : ℤ) = ((10 ^ n : ℤ) : ℚ) := by
    rw [← zpow_add₀ (by norm_num)]
    have : e + 1 + ((n : ℤ) - e - 1) = ((n : ℕ) : ℤ) := by ring
    rw [this, zpow_natCast]; push_cast; rfl
  have c1 := mul_le_mul_of_nonneg_right h1 hp.le
  have c2 := mul_le_mul_of_nonneg_right h2.le hp.le
  rw [b1] at c1; rw [b2] at c2
  obtain ⟨d1, d2⟩ := roundEven_bounds c1 c2
  refine ⟨roundEven (x * 10 ^ (n - e - 1 : ℤ)), ?_, d1, d2, roundEven_near _, rfl⟩
  unfold roundSigfig around
  rw [hlog, div_eq_mul_inv, ← zpow_neg]
  congr 2
  ring

/-- C55, accuracy: rounding to `n` significant figures changes a number by at most half a unit of its
`n`-th figure, that is by a part of at most `10 ^ (1 - n) / 2`. -/
theorem C55_accuracy (n : ℕ) (hn : 1 ≤ n) (x : ℚ) : |roundSigfig n x - x| ≤ |x| * (10 : ℚ) ^ (1 - n : ℤ) / 2 ∧
    ∀ e, Spec.Leading x e → |roundSigfig n x - x| ≤ (10 : ℚ) ^ (e + 1 - n) / 2 := by
  have pos : ∀ x : ℚ, 0 < x → ∀ e, Spec.Leading x e → |roundSigfig n x - x| ≤ (10 : ℚ) ^ (e + 1 - n) / 2 := by
    intro x hx e he
    obtain ⟨k, hk, -, -, hnear, -⟩ := roundSigfig_pos hn hx he
    have hp : (0 : ℚ) < 10 ^ (e + 1 - n : ℤ) := by positivity
    have e1 : x = x * 10 ^ (n - e - 1 : ℤ) * 10 ^ (e + 1 - n : ℤ) := by
      rw [mul_assoc, ← zpow_add₀ (by norm_num)]
      have : (n : ℤ) - e - 1 + (e + 1 - n) = 0 := by ring
      rw [this]; simp
    have : roundSigfig n x - x = (k - x * 10 ^ (n - e - 1 : ℤ)) * 10 ^ (e + 1 - n : ℤ) := by
      rw [hk]; linear_combination -e1
    rw [this, abs_mul, abs_of_pos hp]
    nlinarith
  have all : ∀ x : ℚ, ∀ e, Spec.Leading x e → |roundSigfig n x - x| ≤ (10 : ℚ) ^ (e + 1 - n) / 2 := by
    intro x e he
    rcases lt_trichotomy x 0 with h | h | h
    · have := pos (-x) (by linarith) e (by simpa [Spec.Leading] using he)
      rw [roundSigfig_neg] at this
      rw [← abs_neg]
      have e2 : -(roundSigfig n x - x) = -roundSigfig n x - -x := by ring
      rw [e2]; exact this
    · subst h
      have := he.1
      rw [abs_zero] at this
      have : (0 : ℚ) < 10 ^ e := by positivity
      linarith
    · exact pos x h e he
  refine ⟨?_, all x⟩
  by_cases hx : x = 0
  · subst hx; rw [roundSigfig_zero]; simp
  · have hl := leading_log hx
    refine le_trans (all x _ hl) ?_
    have hp : (0 : ℚ) < 10 ^ (1 - n : ℤ) := by positivity
    have : (10 : ℚ) ^ (log10Floor x + 1 - n) = 10 ^ (log10Floor x) * 10 ^ (1 - n : ℤ) := by
      rw [← zpow_add₀ (by norm_num)]; congr 1; ring
    rw [this]
    have := mul_le_mul_of_nonneg_right hl.1 hp.le
    linarith

/-- C55, sign: rounding commutes with the sign and keeps zero. -/
theorem C55_sign (n : ℕ) (x : ℚ) : roundSigfig n (-x) = -roundSigfig n x ∧ roundSigfig n 0 = 0 :=
  ⟨roundSigfig_neg n x, roundSigfig_zero n⟩

theorem roundSigfig_idem_pos (n : ℕ) (hn : 1 ≤ n) (x : ℚ) (hx : 0 < x) : roundSigfig n (roundSigfig n x) = roundSigfig n x := by
  have hl := leading_log hx.ne'
  generalize log10Floor x = e at hl
  obtain ⟨k, hk, k1, k2, -, -⟩ := roundSigfig_pos hn hx hl
  have fixed : ∀ (k e : ℤ), (10 : ℤ) ^ (n - 1) ≤ k → k < 10 ^ n → roundSigfig n (k * (10 : ℚ) ^ (e + 1 - n)) = k * (10 : ℚ) ^ (e + 1 - n) := by
    intro k e k1 k2
    have k1' : ((10 : ℚ) ^ (n - 1)) ≤ k := by exact_mod_cast k1
    have k2' : (k : ℚ) < (10 : ℚ) ^ n := by exact_mod_cast k2
    have hp : (0 : ℚ) < 10 ^ (e + 1 - n : ℤ) := by positivity
    have hk0 : (0 : ℚ) < k := lt_of_lt_of_le (by positivity) k1'
    have hlead : Spec.Leading (k * (10 : ℚ) ^ (e + 1 - n)) e := by
      unfold Spec.Leading
      rw [abs_of_pos (mul_pos hk0 hp)]
      constructor
      · have : (10 : ℚ) ^ e = 10 ^ (n - 1) * 10 ^ (e + 1 - n : ℤ) := by
          rw [← zpow_natCast, ← zpow_add₀ (by norm_num)]
          congr 1; push_cast [hn]; ring
        rw [this]; exact mul_le_mul_of_nonneg_right k1' hp.le
      · have : (10 : ℚ) ^ (e + 1) = 10 ^ n * 10 ^ (e + 1 - n : ℤ) := by
          rw [← zpow_natCast, ← zpow_add₀ (by norm_num)]
          congr 1; ring
        rw [this]; exact mul_lt_mul_of_pos_right k2' hp
    obtain ⟨j, hj, -, -, -, hje⟩ := roundSigfig_pos hn (mul_pos hk0 hp) hlead
    have : (k : ℚ) * 10 ^ (e + 1 - n : ℤ) * 10 ^ (n - e - 1 : ℤ) = k := by
      rw [mul_assoc, ← zpow_add₀ (by norm_num)]
      have : e + 1 - (n : ℤ) + (n - e - 1) = 0 := by ring
      rw [this]; simp
    rw [this, roundEven_int] at hje
    rw [hj, hje]
  rw [hk]
  rcases lt_or_eq_of_le k2 with k2 | k2
  · exact fixed k e k1 k2
  · have e1 : (k : ℚ) * (10 : ℚ) ^ (e + 1 - n) = ((10 ^ (n - 1) : ℤ) : ℚ) * (10 : ℚ) ^ (e + 1 + 1 - n) := by
      rw [k2]
      push_cast
      rw [← zpow_natCast, ← zpow_natCast, ← zpow_add₀ (by norm_num), ← zpow_add₀ (by norm_num)]
      congr 1; push_cast [hn]; ring
    rw [e1]
    apply fixed _ _ le_rfl
    exact pow_lt_pow_right₀ (by norm_num) (by omega)

/-- C55, idempotence: a rounded number is rounded already. -/
theorem C55_idempotent (n : ℕ) (hn : 1 ≤ n) (x : ℚ) : roundSigfig n (roundSigfig n x) = roundSigfig n x := by
  rcases lt_trichotomy x 0 with h | h | h
  · have := roundSigfig_idem_pos n hn (-x) (by linarith)
    rw [roundSigfig_neg, roundSigfig_neg] at this
    linarith
  · subst h; rw [roundSigfig_zero, roundSigfig_zero]
  · exact roundSigfig_idem_pos n hn x h

theorem roundSigfig_pos_bounds {n : ℕ} (hn : 1 ≤ n) {x : ℚ} (hx : 0 < x) {e : ℤ} (he : Spec.Leading x e) :
    (10 : ℚ) ^ e ≤ roundSigfig n x ∧ roundSigfig n x ≤ 10 ^ (e + 1) := by
  obtain ⟨k, hk, k1, k2, -, -⟩ := roundSigfig_pos hn hx he
  have hp : (0 : ℚ) < 10 ^ (e + 1 - n : ℤ) := by positivity
  have k1' : ((10 : ℚ) ^ (n - 1)) ≤ k := by exact_mod_cast k1
  have k2' : (k : ℚ) ≤ (10 : ℚ) ^ n := by exact_mod_cast k2
  rw [hk]
  constructor
  · have : (10 : ℚ) ^ e = 10 ^ (n - 1) * 10 ^ (e + 1 - n : ℤ) := by
      rw [← zpow_natCast, ← zpow_add₀ (by norm_num)]
      congr 1; push_cast [hn]; ring
    rw [this]; exact mul_le_mul_of_nonneg_right k1' hp.le
  · have : (10 : ℚ) ^ (e + 1) = 10 ^ n * 10 ^ (e + 1 - n : ℤ) := by
      rw [← zpow_natCast, ← zpow_add₀ (by norm_num)]
      congr 1; ring
    rw [this]; exact mul_le_mul_of_nonneg_right k2' hp.le

theorem roundSigfig_mono_pos (n : ℕ) (hn : 1 ≤ n) {x y : ℚ} (hx : 0 < x) (h : x ≤ y) : roundSigfig n x ≤ roundSigfig n y := by
  have hy : 0 < y := lt_of_lt_of_le hx h
  have lx := leading_log hx.ne'
  have ly := leading_log hy.ne'
  generalize log10Floor x = e at lx
  generalize log10Floor y = f at ly
  have hef : e ≤ f := by
    have : (10 : ℚ) ^ e < 10 ^ (f + 1) := by
      have a := lx.1; have b := ly.2
      rw [abs_of_pos hx] at a; rw [abs_of_pos hy] at b
      linarith
    rw [zpow_lt_zpow_iff_right₀ (by norm_num)] at this
    omega
  rcases hef.lt_or_eq with hlt | rfl
  · refine le_trans (roundSigfig_pos_bounds hn hx lx).2 (le_trans ?_ (roundSigfig_pos_bounds hn hy ly).1)
    exact zpow_le_zpow_right₀ (by norm_num) (by omega)
  · obtain ⟨k, hk, -, -, -, hke⟩ := roundSigfig_pos hn hx lx
    obtain ⟨j, hj, -, -, -, hje⟩ := roundSigfig_pos hn hy ly
    rw [hk, hj]
    have hkj : k ≤ j := by
      rw [hke, hje]
      exact roundEven_mono (mul_le_mul_of_nonneg_right h (by positivity))
    have : (k : ℚ) ≤ j := by exact_mod_cast hkj
    exact mul_le_mul_of_nonneg_right this (by positivity)

theorem roundSigfig_nonneg (n : ℕ) (hn : 1 ≤ n) {x : ℚ} (hx : 0 < x) : 0 < roundSigfig n x :=
  lt_of_lt_of_le (by positivity) (roundSigfig_pos_bounds hn hx (leading_log hx.ne')).1

/-- C55, monotonicity: rounding keeps the order. -/
theorem C55_monotone (n : ℕ) (hn : 1 ≤ n) (x y : ℚ) (h : x ≤ y) : roundSigfig n x ≤ roundSigfig n y := by
  rcases lt_trichotomy x 0 with hx | hx | hx
  · have nx := roundSigfig_nonneg n hn (x := -x) (by linarith)
    rw [roundSigfig_neg] at nx
    rcases lt_trichotomy y 0 with hy | hy | hy
    · have := roundSigfig_mono_pos n hn (x := -y) (y := -x) (by linarith) (by linarith)
      rw [roundSigfig_neg, roundSigfig_neg] at this
      linarith
    · subst hy; rw [roundSigfig_zero]; linarith
    · have := roundSigfig_nonneg n hn hy
      linarith
  · subst hx
    rw [roundSigfig_zero]
    rcases h.lt_or_eq with hy | hy
    · exact (roundSigfig_nonneg n hn hy).le
    · rw [← hy, roundSigfig_zero]
  · exact roundSigfig_mono_pos n hn hx h

/-- Equal after rounding does not follow from closeness: two numbers as close as desired may round
differently. -/
theorem C55_close_false : ∀ ε : ℚ, 0 < ε → ∃ x y : ℚ, |x - y| < ε ∧ roundSigfig 4 x ≠ roundSigfig 4 y := by
  intro ε hε
  obtain ⟨δ, hδ, hδε, hδ1⟩ : ∃ δ : ℚ, 0 < δ ∧ δ < ε ∧ δ < 1 / 10000 := by
    refine ⟨min ε (1 / 10000) / 2, ?_, ?_, ?_⟩
    · have : 0 < min ε (1 / 10000) := lt_min hε (by norm_num)
      linarith
    · have := min_le_left ε (1 / 10000); have : 0 < min ε (1 / 10000) := lt_min hε (by norm_num)
      linarith
    · have := min_le_right ε (1 / 10000); have : 0 < min ε (1 / 10000) := lt_min hε (by norm_num)
      linarith
  have lead : ∀ x : ℚ, 1 ≤ x → x < 10 → roundSigfig 4 x = roundEven (x * 1000) / 1000 := by
    intro x h1 h2
    have : Spec.Leading x 0 := by
      constructor
      · rw [abs_of_pos (by linarith)]; simpa using h1
      · rw [abs_of_pos (by linarith)]; simpa using h2
    unfold roundSigfig around
    rw [leading_eq this]
    norm_num
  refine ⟨10005 / 10000, 10005 / 10000 + δ, ?_, ?_⟩
  · have : (10005 / 10000 : ℚ) - (10005 / 10000 + δ) = -δ := by ring
    rw [this, abs_neg, abs_of_pos hδ]; exact hδε
  · rw [lead _ (by norm_num) (by norm_num), lead _ (by linarith) (by linarith)]
    have a : roundEven (10005 / 10000 * 1000) = 1000 := by decide +kernel
    have b : roundEven ((10005 / 10000 + δ) * 1000) = 1001 := by
      have hf : ⌊(10005 / 10000 + δ) * 1000⌋ = 1000 := by
        rw [Int.floor_eq_iff]; push_cast; constructor <;> linarith
      unfold roundEven
      rw [hf, if_neg (by push_cast; linarith), if_pos (by push_cast; linarith)]
      rfl
    rw [a, b]
    norm_num

example : roundSigfig 4 (123456 / 1000) = 1235 / 10 ∧ roundSigfig 2 (-9996 / 10000) = -1 ∧ roundSigfig 4 (12345 / 10) = 1234 ∧
    roundSigfig 3 (1 / 300) = 333 / 100000 := by decide +kernel

/-! ## Readable durations -/

/-- Minutes named by a list of numbers with units. -/
def Spec.minutesOf (l : List (ℚ × String)) : ℚ :=
  (l.map (fun p => p.1 * (if p.2 = "days" then 1440 else if p.2 = "hours" then 60 else 1))).sum

/-- C56 (partial): the text of a non-negative duration names it to within half a minute (in hours: to
within 0.005 hours), with less than 24 full hours and at most 60 minutes.  Missing: less than 60 minutes
(and less than 24 decimal hours), which is false. -/
theorem C56_duration_partial (x : ℚ) (hx : 0 ≤ x) :
    |Spec.minutesOf (convertDecimalDays x true) - 1440 * x| ≤ 1 / 2 ∧
    |Spec.minutesOf (convertDecimalDays x false) - 1440 * x| ≤ 3 / 10 ∧
    (∀ p ∈ convertDecimalDays x true, 0 ≤ p.1 ∧ (p.2 = "hours" → p.1 ≤ 23) ∧ (p.2 = "minutes" → p.1 ≤ 60)) ∧
    (∀ p ∈ convertDecimalDays x false, 0 ≤ p.1 ∧ (p.2 = "hours" → p.1 ≤ 24)) := by
  have hI : ∀ y : ℚ, 0 ≤ y → integral y = ⌊y⌋ := by intro y hy; unfold integral pyInt; rw [if_pos hy]
  have f1 := Int.floor_le x
  have f2 := Int.lt_floor_add_one x
  have hh0 : 0 ≤ (x - ⌊x⌋) * 24 := by linarith
  have g1 := Int.floor_le ((x - ⌊x⌋) * 24)
  have g2 := Int.lt_floor_add_one ((x - ⌊x⌋) * 24)
  have hD0 : 0 ≤ ⌊x⌋ := Int.floor_nonneg.2 hx
  have hH0 : 0 ≤ ⌊(x - ⌊x⌋) * 24⌋ := Int.floor_nonneg.2 hh0
  have hH23 : ⌊(x - ⌊x⌋) * 24⌋ ≤ 23 := by
    have : ⌊(x - ⌊x⌋) * 24⌋ < 24 := by rw [Int.floor_lt]; push_cast; linarith
    omega
  have hm := roundEven_near (((x - ⌊x⌋) * 24 - ⌊(x - ⌊x⌋) * 24⌋) * 60)
  have hmb := roundEven_bounds (q := ((x - ⌊x⌋) * 24 - ⌊(x - ⌊x⌋) * 24⌋) * 60) (a := 0) (b := 60) (by push_cast; linarith) (by push_cast; linarith)
  have ha : |around ((x - ⌊x⌋) * 24) 2 - (x - ⌊x⌋) * 24| ≤ 1 / 200 := by
    have := roundEven_near ((x - ⌊x⌋) * 24 * 10 ^ (2 : ℤ))
    unfold around
    rw [abs_le] at this ⊢
    have e : (10 : ℚ) ^ (2 : ℤ) = 100 := by norm_num
    rw [e] at *
    constructor
    · rw [le_sub_iff_add_le, le_div_iff₀ (by norm_num)]; linarith
    · rw [sub_le_iff_le_add, div_le_iff₀ (by norm_num)]; linarith
  have hab : 0 ≤ around ((x - ⌊x⌋) * 24) 2 ∧ around ((x - ⌊x⌋) * 24) 2 ≤ 24 := by
    have e : (10 : ℚ) ^ (2 : ℤ) = 100 := by norm_num
    have := roundEven_bounds (q := (x - ⌊x⌋) * 24 * 10 ^ (2 : ℤ)) (a := 0) (b := 2400) (by rw [e]; push_cast; linarith) (by rw [e]; push_cast; linarith)
    obtain ⟨t1, t2⟩ := this
    have t1' : (0 : ℚ) ≤ roundEven ((x - ⌊x⌋) * 24 * 10 ^ (2 : ℤ)) := by exact_mod_cast t1
    have t2' : (roundEven ((x - ⌊x⌋) * 24 * 10 ^ (2 : ℤ)) : ℚ) ≤ 2400 := by exact_mod_cast t2
    unfold around
    rw [e] at *
    exact ⟨by positivity, by rw [div_le_iff₀ (by norm_num)]; linarith⟩
  have hD0' : (0 : ℚ) ≤ ⌊x⌋ := by exact_mod_cast hD0
  have hH0' : (0 : ℚ) ≤ ⌊(x - ⌊x⌋) * 24⌋ := by exact_mod_cast hH0
  have hH23' : (⌊(x - ⌊x⌋) * 24⌋ : ℚ) ≤ 23 := by exact_mod_cast hH23
  have hm0' : (0 : ℚ) ≤ roundEven (((x - ⌊x⌋) * 24 - ⌊(x - ⌊x⌋) * 24⌋) * 60) := by exact_mod_cast hmb.1
  have hm60' : (roundEven (((x - ⌊x⌋) * 24 - ⌊(x - ⌊x⌋) * 24⌋) * 60) : ℚ) ≤ 60 := by exact_mod_cast hmb.2
  unfold convertDecimalDays
  simp only [hI x hx, hI _ hh0, if_true, Bool.false_eq_true, if_false]
  generalize ⌊(x - ⌊x⌋) * 24⌋ = H at *
  generalize roundEven (((x - ⌊x⌋) * 24 - H) * 60) = M at *
  generalize around ((x - ⌊x⌋) * 24) 2 = A at *
  generalize ⌊x⌋ = D at *
  have hs : ("hours" = "days") = False := by simp
  have hs2 : ("minutes" = "days") = False := by simp
  have hs3 : ("minutes" = "hours") = False := by simp
  refine ⟨?_, ?_, ?_, ?_⟩
  · rw [abs_le] at hm ⊢
    by_cases hD : D = 0 <;> by_cases hH : H = 0 <;>
      simp [hD, hH, Spec.minutesOf] at * <;> constructor <;> linarith
  · rw [abs_le] at ha ⊢
    by_cases hD : D = 0 <;> simp [hD, Spec.minutesOf] at * <;> constructor <;> linarith
  · by_cases hD : D = 0 <;> by_cases hH : H = 0 <;> simp [hD, hH] at * <;> simp [*]
  · by_cases hD : D = 0 <;> simp [hD] at * <;> simp [*]

/-- 60 minutes occur, and 24.0 hours. -/
theorem C56_sixty_false : convertDecimalDays (1 + 14398 / 14400) true = [(1, "days"), (23, "hours"), (60, "minutes")] ∧
    convertDecimalDays (9999 / 10000) false = [(24, "hours")] := by decide +kernel

example : convertDecimalDays (3 / 2 + 1 / 48) true = [(1, "days"), (12, "hours"), (30, "minutes")] := by decide +kernel

end Verif
