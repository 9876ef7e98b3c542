import Verif.Model.Utils
import Mathlib.Tactic.Ring
import Mathlib.Algebra.Order.Ring.Abs

/-!
# C01, C02: longitude normalisation and distance
-/

namespace Verif

/-- Two longitudes name the same meridian. -/
def SameMeridian (a b : ℚ) : Prop := ∃ n : ℤ, a = b + 360 * n

/-- C01. -/
theorem C01_longitude_domain (x : ℚ) :
    (-180 ≤ longitudeDomain x ∧ longitudeDomain x ≤ 180) ∧
    SameMeridian (longitudeDomain x) x ∧
    (-180 ≤ x → x ≤ 180 → longitudeDomain x = x) ∧
    longitudeDomain (longitudeDomain x) = longitudeDomain x := by
  have fix : ∀ y : ℚ, -180 ≤ y → y ≤ 180 → longitudeDomain y = y := by
    intro y h1 h2
    unfold longitudeDomain
    split
    · rfl
    · rename_i h
      have h3 : y < 180 := lt_of_le_of_ne h2 (fun e => h (Or.inr e))
      rw [pyMod_of_range (by linarith) (by linarith)]; ring
  have rng : -180 ≤ longitudeDomain x ∧ longitudeDomain x ≤ 180 := by
    unfold longitudeDomain
    split
    · rename_i h; rcases h with h | h <;> subst h <;> norm_num
    · have h1 := pyMod_nonneg (a := x + 180) (b := 360) (by norm_num)
      have h2 := pyMod_lt (a := x + 180) (b := 360) (by norm_num)
      constructor <;> linarith
  refine ⟨rng, ?_, fix x, fix _ rng.1 rng.2⟩
  unfold longitudeDomain
  split
  · exact ⟨0, by simp⟩
  · refine ⟨-⌊(x + 180) / 360⌋, ?_⟩
    unfold pyMod; push_cast; ring

example : longitudeDomain 540 = -180 ∧ longitudeDomain (-185) = 175 ∧ longitudeDomain 180 = 180 := by
  decide +kernel

/-- C01, list form: element by element, same length. -/
theorem C01_longitude_domain_list (xs : List ℚ) :
    (longitudeDomainList xs).length = xs.length ∧
    ∀ (i : ℕ) x, xs[i]? = some x →
      ∃ y, (longitudeDomainList xs)[i]? = some y ∧ -180 ≤ y ∧ y ≤ 180 ∧ SameMeridian y x ∧
        (-180 ≤ x → x ≤ 180 → y = x) := by
  constructor
  · simp [longitudeDomainList]
  · intro i x h
    have := C01_longitude_domain x
    refine ⟨longitudeDomain x, ?_, this.1.1, this.1.2, this.2.1, this.2.2.1⟩
    simp [longitudeDomainList, h]

example : longitudeDomainList [190, 5] = [-170, 5] := by decide +kernel

/-- The angle between two longitudes, specified without reference to the code: the number in
`[0,180]` by which the meridians differ. -/
def IsAngle (a b d : ℚ) : Prop :=
  0 ≤ d ∧ d ≤ 180 ∧ (SameMeridian (a + d) b ∨ SameMeridian (a - d) b)

theorem longitudeDistance_isAngle (a b : ℚ) : IsAngle a b (longitudeDistance a b) := by
  obtain ⟨⟨ha1, ha2⟩, ⟨na, hna⟩, -, -⟩ := C01_longitude_domain a
  obtain ⟨⟨hb1, hb2⟩, ⟨nb, hnb⟩, -, -⟩ := C01_longitude_domain b
  set x := longitudeDomain a with hx
  set y := longitudeDomain b with hy
  have key : ∀ z : ℚ, 0 ≤ z → z ≤ 360 → ((z = y - x) ∨ (z = x - y)) →
      IsAngle a b (if pyMod z 360 > 180 then 360 - pyMod z 360 else pyMod z 360) := by
    intro z h0 h1 hz
    by_cases h360 : z = 360
    · have : pyMod z 360 = 0 := by
        rw [pyMod_eq_zero_iff (by norm_num)]; exact ⟨1, by rw [h360]; norm_num⟩
      rw [this]; norm_num
      refine ⟨le_refl _, by norm_num, Or.inl ?_⟩
      rcases hz with hz | hz
      · exact ⟨nb - na - 1, by push_cast; linarith⟩
      · exact ⟨nb - na + 1, by push_cast; linarith⟩
    · have hlt : z < 360 := lt_of_le_of_ne h1 h360
      rw [pyMod_of_range h0 hlt]
      split
      · rename_i h
        refine ⟨by linarith, by linarith, ?_⟩
        rcases hz with hz | hz
        · exact Or.inr ⟨nb - na - 1, by push_cast; linarith⟩
        · exact Or.inl ⟨nb - na + 1, by push_cast; linarith⟩
      · rename_i h
        refine ⟨h0, by linarith, ?_⟩
        rcases hz with hz | hz
        · exact Or.inl ⟨nb - na, by push_cast; linarith⟩
        · exact Or.inr ⟨nb - na, by push_cast; linarith⟩
  unfold longitudeDistance
  rw [← hx, ← hy]
  apply key
  · exact abs_nonneg _
  · rw [abs_le]; constructor <;> linarith
  · rcases abs_choice (y - x) with h | h
    · left; exact h
    · right; rw [h]; ring

theorem IsAngle.le {a b d : ℚ} (h : IsAngle a b d) (n : ℤ) : d ≤ |b - a + 360 * n| := by
  obtain ⟨h0, h1, h2⟩ := h
  have aux : ∀ (k : ℤ) (s : ℚ), |s| = d → d ≤ |s + 360 * k| := by
    intro k s hs
    rcases lt_trichotomy k 0 with hk | hk | hk
    · have : (k : ℚ) ≤ -1 := by exact_mod_cast (by omega : k ≤ -1)
      have hs1 : s ≤ d := hs ▸ le_abs_self s
      have := neg_le_abs (s + 360 * (k : ℚ))
      linarith
    · subst hk; simp [hs]
    · have : (1 : ℚ) ≤ k := by exact_mod_cast (by omega : 1 ≤ k)
      have hs1 : -s ≤ d := hs ▸ neg_le_abs s
      have := le_abs_self (s + 360 * (k : ℚ))
      linarith
  rcases h2 with ⟨m, hm⟩ | ⟨m, hm⟩
  · have e : b - a + 360 * (n : ℚ) = d + 360 * ((n - m : ℤ) : ℚ) := by push_cast; linarith
    rw [e]; exact aux _ _ (abs_of_nonneg h0)
  · have e : b - a + 360 * (n : ℚ) = -d + 360 * ((n - m : ℤ) : ℚ) := by push_cast; linarith
    rw [e]; exact aux _ _ (by rw [abs_neg, abs_of_nonneg h0])

theorem IsAngle.attained {a b d : ℚ} (h : IsAngle a b d) : ∃ n : ℤ, d = |b - a + 360 * n| := by
  obtain ⟨h0, h1, h2⟩ := h
  rcases h2 with ⟨m, hm⟩ | ⟨m, hm⟩
  · exact ⟨m, by rw [show b - a + 360 * (m : ℚ) = d by linarith, abs_of_nonneg h0]⟩
  · exact ⟨m, by rw [show b - a + 360 * (m : ℚ) = -d by linarith, abs_neg, abs_of_nonneg h0]⟩

theorem IsAngle.unique {a b d d' : ℚ} (h : IsAngle a b d) (h' : IsAngle a b d') : d = d' := by
  obtain ⟨n, hn⟩ := h.attained
  obtain ⟨n', hn'⟩ := h'.attained
  have h1 := h.le n'
  have h2 := h'.le n
  linarith

/-- C02: the code computes the angle between the meridians (which is unique), and this is a metric
on meridians. -/
theorem C02_longitude_distance (a b c : ℚ) :
    (∀ d, longitudeDistance a b = d ↔ IsAngle a b d) ∧
    longitudeDistance a b = longitudeDistance b a ∧
    (0 ≤ longitudeDistance a b ∧ longitudeDistance a b ≤ 180) ∧
    (longitudeDistance a b = 0 ↔ SameMeridian a b) ∧
    (∀ n m : ℤ, longitudeDistance (a + 360 * n) (b + 360 * m) = longitudeDistance a b) ∧
    longitudeDistance a c ≤ longitudeDistance a b + longitudeDistance b c := by
  have A := longitudeDistance_isAngle
  refine ⟨?_, ?_, ⟨(A a b).1, (A a b).2.1⟩, ?_, ?_, ?_⟩
  · intro d
    constructor
    · rintro rfl; exact A a b
    · intro h; exact (A a b).unique h
  · apply (A a b).unique
    obtain ⟨h0, h1, h2⟩ := A b a
    refine ⟨h0, h1, ?_⟩
    rcases h2 with ⟨m, hm⟩ | ⟨m, hm⟩
    · exact Or.inr ⟨-m, by push_cast; linarith⟩
    · exact Or.inl ⟨-m, by push_cast; linarith⟩
  · constructor
    · intro h
      obtain ⟨h0, h1, h2⟩ := A a b
      rw [h] at h2
      rcases h2 with ⟨m, hm⟩ | ⟨m, hm⟩
      · exact ⟨m, by linarith⟩
      · exact ⟨m, by linarith⟩
    · rintro ⟨m, hm⟩
      apply (A a b).unique
      exact ⟨le_refl _, by norm_num, Or.inl ⟨m, by linarith⟩⟩
  · intro n m
    apply (A _ _).unique
    obtain ⟨h0, h1, h2⟩ := A a b
    refine ⟨h0, h1, ?_⟩
    rcases h2 with ⟨k, hk⟩ | ⟨k, hk⟩
    · exact Or.inl ⟨k + n - m, by push_cast; linarith⟩
    · exact Or.inr ⟨k + n - m, by push_cast; linarith⟩
  · obtain ⟨n, hn⟩ := (A a b).attained
    obtain ⟨m, hm⟩ := (A b c).attained
    have h := (A a c).le (n + m)
    have e : c - a + 360 * ((n + m : ℤ) : ℚ) = (b - a + 360 * n) + (c - b + 360 * m) := by
      push_cast; ring
    rw [e] at h
    have := abs_add_le (b - a + 360 * (n : ℚ)) (c - b + 360 * m)
    linarith

example : longitudeDistance 170 (-170) = 20 ∧ longitudeDistance (-180) 180 = 0 ∧
    longitudeDistance 0 540 = 180 := by decide +kernel

end Verif
