import Verif.Model.Calendar
import Mathlib.Tactic.Linarith
import Mathlib.Tactic.FieldSimp
import Mathlib.Tactic.IntervalCases

/-!
# The calendar; C50: fractions of months
-/

namespace Verif
open PyDate

/-- The day after a date, by the rules of the calendar. -/
def Spec.nextDay (a : PyDate) : PyDate :=
  if a.d < daysInMonth a.y a.m then ⟨a.y, a.m, a.d + 1⟩
  else if a.m < 12 then ⟨a.y, a.m + 1, 1⟩ else ⟨a.y + 1, 1, 1⟩

theorem daysBeforeYear_succ (y : ℕ) (h : 1 ≤ y) : daysBeforeYear (y + 1) = daysBeforeYear y + 365 + (if isLeap y then 1 else 0) := by
  obtain ⟨k, rfl⟩ : ∃ k, y = k + 1 := ⟨y - 1, by omega⟩
  unfold daysBeforeYear isLeap
  simp only [Nat.add_sub_cancel]
  by_cases h4 : (k + 1) % 4 = 0 <;> by_cases h100 : (k + 1) % 100 = 0 <;> by_cases h400 : (k + 1) % 400 = 0 <;>
    simp [h4, h100, h400] <;> omega

theorem daysBeforeMonth_year (y : ℕ) : daysBeforeMonth y 12 + daysInMonth y 12 = 365 + (if isLeap y then 1 else 0) := by
  simp only [daysBeforeMonth, daysInMonth]
  cases isLeap y <;> simp

/-- Day numbers count days: the day after has the next number. -/
theorem ordinal_nextDay (a : PyDate) (h : a.Exists) : (Spec.nextDay a).ordinal = a.ordinal + 1 := by
  obtain ⟨y, m, d⟩ := a
  obtain ⟨h1, -, h3, h4, h5, h6⟩ := h
  simp only at *
  unfold Spec.nextDay
  simp only
  split
  · simp only [ordinal]; push_cast; ring
  · have hd : d = daysInMonth y m := by omega
    split
    · obtain ⟨k, rfl⟩ : ∃ k, m = k + 1 := ⟨m - 1, by omega⟩
      simp only [ordinal, daysBeforeMonth]
      push_cast
      rw [hd]
      ring
    · have hm : m = 12 := by omega
      subst hm
      have e1 := daysBeforeYear_succ y h1
      have e2 := daysBeforeMonth_year y
      have e3 : daysBeforeMonth (y + 1) 1 = 0 := rfl
      simp only [ordinal]
      rw [hd, e1, e3]
      generalize daysBeforeMonth y 12 = p at *
      generalize daysInMonth y 12 = q at *
      generalize (if isLeap y then 1 else 0) = r at *
      push_cast
      omega

/-- C50, range: an ordered range of dates within the month has a fraction in (0, 1]. -/
theorem C50_range (y m : ℕ) (hm : 1 ≤ m ∧ m ≤ 12) (a b : PyDate) (ha : a.Exists ∧ a.y = y ∧ a.m = m) (hb : b.Exists ∧ b.y = y ∧ b.m = m)
    (hab : a.d ≤ b.d) : ∃ q, Utils.fracOfMonth y m (some a) (some b) = .ok q ∧ 0 < q ∧ q ≤ 1 ∧
      q = ((b.d - a.d + 1 : ℕ) : ℚ) / daysInMonth y m := by
  obtain ⟨ya, ma, da⟩ := a
  obtain ⟨yb, mb, db⟩ := b
  obtain ⟨⟨-, -, -, -, a5, a6⟩, rfl, rfl⟩ := ha
  obtain ⟨⟨-, -, -, -, b5, b6⟩, hy, hm'⟩ := hb
  simp only at *
  subst hy hm'
  have hpos : (0 : ℚ) < daysInMonth yb mb := by exact_mod_cast (by omega : 0 < daysInMonth yb mb)
  have e : ((((⟨yb, mb, db⟩ : PyDate).ordinal - (⟨yb, mb, da⟩ : PyDate).ordinal + 1 : ℤ)) : ℚ) = ((db - da + 1 : ℕ) : ℚ) := by
    have : ((⟨yb, mb, db⟩ : PyDate).ordinal - (⟨yb, mb, da⟩ : PyDate).ordinal + 1 : ℤ) = ((db - da + 1 : ℕ) : ℤ) := by
      simp only [ordinal]; push_cast [Nat.cast_sub hab]; ring
    rw [this]; simp
  refine ⟨_, ?_, ?_, ?_, rfl⟩
  · unfold Utils.fracOfMonth
    rw [if_neg (by omega)]
    simp only [Option.getD_some, ne_eq, not_true_eq_false, if_false, e]
  · apply div_pos _ hpos
    exact_mod_cast Nat.succ_pos _
  · rw [div_le_one hpos]
    exact_mod_cast (by omega : db - da + 1 ≤ daysInMonth yb mb)

/-- C50, whole month: the defaults give the fraction 1. -/
theorem C50_whole (y m : ℕ) (hm : 1 ≤ m ∧ m ≤ 12) : Utils.fracOfMonth y m none none = .ok 1 := by
  have hdim : 1 ≤ daysInMonth y m := by unfold daysInMonth; split_ifs <;> omega
  have hpos : (daysInMonth y m : ℚ) ≠ 0 := by
    have : (0 : ℚ) < daysInMonth y m := by exact_mod_cast hdim
    exact this.ne'
  unfold Utils.fracOfMonth
  rw [if_neg (by omega)]
  simp only [Option.getD_none, ne_eq, not_true_eq_false, if_false, Except.ok.injEq]
  have : ((⟨y, m, daysInMonth y m⟩ : PyDate).ordinal - (⟨y, m, 1⟩ : PyDate).ordinal + 1 : ℤ) = daysInMonth y m := by
    simp only [ordinal]; push_cast; ring
  rw [this]
  push_cast
  exact div_self hpos

/-- C50, additivity: the fractions of two ranges of which the second starts on the day after the end of
the first add up to the fraction of both together. -/
theorem C50_additive (y m : ℕ) (hm : 1 ≤ m ∧ m ≤ 12) (a b c : PyDate) (ha : a.Exists ∧ a.y = y ∧ a.m = m) (hb : b.Exists ∧ b.y = y ∧ b.m = m)
    (hc : c.Exists ∧ c.y = y ∧ c.m = m) (hab : a.d ≤ b.d) (hbc : b.d < c.d) :
    ∃ p q r, Utils.fracOfMonth y m (some a) (some b) = .ok p ∧ Utils.fracOfMonth y m (some (Spec.nextDay b)) (some c) = .ok q ∧
      Utils.fracOfMonth y m (some a) (some c) = .ok r ∧ p + q = r := by
  have hnext : (Spec.nextDay b).Exists ∧ (Spec.nextDay b).y = y ∧ (Spec.nextDay b).m = m ∧ (Spec.nextDay b).d = b.d + 1 := by
    obtain ⟨⟨h1, h2, h3, h4, h5, h6⟩, e1, e2⟩ := hb
    obtain ⟨⟨-, -, -, -, -, c6⟩, f1, f2⟩ := hc
    have : b.d < daysInMonth b.y b.m := by rw [e1, e2, ← f1, ← f2]; omega
    unfold Spec.nextDay
    rw [if_pos this]
    exact ⟨⟨h1, h2, h3, h4, by simp, this⟩, e1, e2, rfl⟩
  obtain ⟨p, hp, -, -, ep⟩ := C50_range y m hm a b ha hb hab
  obtain ⟨q, hq, -, -, eq⟩ := C50_range y m hm (Spec.nextDay b) c ⟨hnext.1, hnext.2.1, hnext.2.2.1⟩ hc (by rw [hnext.2.2.2]; omega)
  obtain ⟨r, hr, -, -, er⟩ := C50_range y m hm a c ha hc (by omega)
  refine ⟨p, q, r, hp, hq, hr, ?_⟩
  rw [ep, eq, er, hnext.2.2.2, ← add_div]
  congr 1
  have : b.d - a.d + 1 + (c.d - (b.d + 1) + 1) = c.d - a.d + 1 := by omega
  exact_mod_cast this

/-- The months are compared, the years are not: a range of more than a year passes the checks. -/
theorem C50_year_unchecked : ∃ a b : PyDate, a.Exists ∧ b.Exists ∧ Utils.fracOfMonth 2020 1 (some a) (some b) = .ok (397 / 31) :=
  ⟨⟨2020, 1, 1⟩, ⟨2021, 1, 31⟩, by decide, by decide, by decide +kernel⟩

example : Utils.fracOfMonth 2024 2 (some ⟨2024, 2, 1⟩) (some ⟨2024, 2, 14⟩) = .ok (14 / 29) ∧
    (⟨2024, 2, 1⟩ : PyDate).Exists ∧ (⟨2024, 2, 14⟩ : PyDate).Exists ∧ (⟨2024, 2, 29⟩ : PyDate).Exists ∧
    Spec.nextDay ⟨2024, 2, 29⟩ = ⟨2024, 3, 1⟩ := by decide +kernel

example : (⟨1970, 1, 1⟩ : PyDate).ordinal = 719163 ∧ (⟨9999, 12, 31⟩ : PyDate).ordinal = 3652059 ∧ (⟨1, 1, 1⟩ : PyDate).ordinal = 1 := by
  decide +kernel

/-- C50, day by day: the days between two dates are exactly those from the first one on and before the
second one, each once and in order. -/
theorem C50_days (start stop : ℤ) :
    (∀ d, d ∈ Utils.dateRange start stop ↔ start ≤ d ∧ d < stop) ∧ (Utils.dateRange start stop).Pairwise (· < ·) := by
  constructor
  · intro d
    simp only [Utils.dateRange, List.mem_map, List.mem_range]
    constructor
    · rintro ⟨n, hn, rfl⟩; omega
    · rintro ⟨h1, h2⟩; exact ⟨(d - start).toNat, by omega, by omega⟩
  · unfold Utils.dateRange
    rw [List.pairwise_map]
    refine List.Pairwise.imp ?_ (List.pairwise_lt_range (n := (stop - start).toNat))
    intro a b h
    omega

example : Utils.dateRange 5 8 = [5, 6, 7] ∧ Utils.dateRange 8 5 = [] := by decide

end Verif
