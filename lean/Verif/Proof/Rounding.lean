import Verif.Model.Rounding
import Verif.Proof.Grid
import Mathlib.Tactic.Linarith
import Mathlib.Tactic.Ring
import Mathlib.Tactic.FieldSimp

/-!
# Rounding: dyadic numbers are calculated exactly
-/

namespace Verif

namespace Spec

/-- A number of double precision: at most 53 binary digits, exponent within range. -/
def IsDouble (q : ℚ) : Prop := ∃ m e : ℤ, |m| ≤ 2 ^ 53 ∧ -1074 ≤ e ∧ e ≤ 971 ∧ q = m * 2 ^ e

/-- `q` is a multiple of `2 ^ -n`. -/
def Dyadic (n : ℕ) (q : ℚ) : Prop := ∃ m : ℤ, q * 2 ^ n = m

/-- A rounding that leaves numbers of double precision as they are. -/
def Faithful (r : ℚ → ℚ) : Prop := ∀ q, IsDouble q → r q = q

/-- A box with dyadic edges, within the map. -/
structure DyadicBox (n : ℕ) (b : Boundary) : Prop where
  latMin : Dyadic n b.latMin
  latMax : Dyadic n b.latMax
  longMin : Dyadic n b.longMin
  longMax : Dyadic n b.longMax
  lat : -180 ≤ b.latMin ∧ b.latMin ≤ b.latMax ∧ b.latMax ≤ 180
  west : -180 ≤ b.longMin ∧ b.longMin ≤ 180
  east : -180 ≤ b.longMax ∧ b.longMax ≤ 180

end Spec

open Spec

theorem Dyadic.add {n : ℕ} {a b : ℚ} (ha : Dyadic n a) (hb : Dyadic n b) : Dyadic n (a + b) := by
  obtain ⟨x, hx⟩ := ha; obtain ⟨y, hy⟩ := hb
  exact ⟨x + y, by rw [add_mul, hx, hy]; push_cast; ring⟩

theorem Dyadic.sub {n : ℕ} {a b : ℚ} (ha : Dyadic n a) (hb : Dyadic n b) : Dyadic n (a - b) := by
  obtain ⟨x, hx⟩ := ha; obtain ⟨y, hy⟩ := hb
  exact ⟨x - y, by rw [sub_mul, hx, hy]; push_cast; ring⟩

theorem Dyadic.int (n : ℕ) (z : ℤ) : Dyadic n (z : ℚ) := ⟨z * 2 ^ n, by push_cast; ring⟩

theorem Dyadic.nat (n k : ℕ) : Dyadic n (k : ℚ) := ⟨k * 2 ^ n, by push_cast; ring⟩

theorem Dyadic.ofNat (n k : ℕ) [k.AtLeastTwo] : Dyadic n (OfNat.ofNat k : ℚ) := Dyadic.nat n k

theorem Dyadic.mul_int {n : ℕ} {a : ℚ} (z : ℤ) (ha : Dyadic n a) : Dyadic n (a * z) := by
  obtain ⟨x, hx⟩ := ha
  exact ⟨x * z, by push_cast; rw [← hx]; ring⟩

theorem Dyadic.nat_mul {n : ℕ} {a : ℚ} (k : ℕ) (ha : Dyadic n a) : Dyadic n (k * a) := by
  obtain ⟨x, hx⟩ := ha
  exact ⟨k * x, by push_cast; rw [← hx]; ring⟩

theorem Dyadic.half {n : ℕ} {a : ℚ} (ha : Dyadic n a) : Dyadic (n + 1) (a / 2) := by
  obtain ⟨x, hx⟩ := ha
  exact ⟨x, by rw [pow_succ, ← hx]; ring⟩

theorem Dyadic.mono {n k : ℕ} {a : ℚ} (h : n ≤ k) (ha : Dyadic n a) : Dyadic k a := by
  obtain ⟨x, hx⟩ := ha
  obtain ⟨j, rfl⟩ := Nat.exists_eq_add_of_le h
  exact ⟨x * 2 ^ j, by rw [pow_add, ← mul_assoc, hx]; push_cast; ring⟩

theorem Dyadic.double {n : ℕ} {q : ℚ} (h : Dyadic n q) (hn : n ≤ 43) (h1 : -1024 ≤ q) (h2 : q ≤ 1024) : IsDouble q := by
  obtain ⟨m, hm⟩ := h
  have hp : (0 : ℚ) < 2 ^ n := by positivity
  have hle : (2 : ℚ) ^ n ≤ 2 ^ 43 := pow_le_pow_right₀ (by norm_num) hn
  refine ⟨m, -n, ?_, by omega, by omega, ?_⟩
  · have : |(m : ℚ)| ≤ 2 ^ 53 := by
      rw [← hm, abs_le]
      constructor
      · nlinarith
      · nlinarith
    exact_mod_cast this
  · rw [← hm, zpow_neg, zpow_natCast]
    field_simp

theorem IsDouble.int {z : ℤ} (h : |z| ≤ 2 ^ 53) : IsDouble (z : ℚ) := ⟨z, 0, h, by norm_num, by norm_num, by simp⟩

theorem IsDouble.nat {k : ℕ} (h : k ≤ 2 ^ 53) : IsDouble (k : ℚ) :=
  IsDouble.int (z := k) (by rw [abs_of_nonneg (by omega)]; exact_mod_cast h)

theorem DyadicBox.mono {n k : ℕ} {b : Boundary} (h : n ≤ k) (hb : DyadicBox n b) : DyadicBox k b :=
  ⟨Dyadic.mono h hb.latMin, Dyadic.mono h hb.latMax, Dyadic.mono h hb.longMin, Dyadic.mono h hb.longMax,
    hb.lat, hb.west, hb.east⟩

section Exact
variable {r : ℚ → ℚ} {n : ℕ}

/-- For positive divisors and remainders that are kept by the rounding, the floating point remainder is the exact one. -/
theorem fmod_eq {a b : ℚ} (hb : 0 < b) (h : r (pyMod a b) = pyMod a b) : Fl.fmod r a b = pyMod a b := by
  have hmod : ∀ q : ℚ, pyMod a b = a - b * (⌊a / b⌋ : ℤ) := fun _ => rfl
  unfold Fl.fmod
  by_cases h0 : 0 ≤ a / b
  · have hi : pyInt (a / b) = ⌊a / b⌋ := by simp [pyInt, h0]
    have hnn : 0 ≤ pyMod a b := pyMod_nonneg hb
    dsimp only
    rw [hi, ← hmod 0]
    rw [if_neg]
    rintro ⟨-, h2⟩
    apply h2
    simp only [eq_iff_iff]
    exact iff_of_false (not_lt.2 hnn) (not_lt.2 hb.le)
  · have hi : pyInt (a / b) = ⌈a / b⌉ := by simp [pyInt, h0]
    dsimp only
    rw [hi]
    by_cases hint : (⌊a / b⌋ : ℚ) = a / b
    · have hc : ⌈a / b⌉ = ⌊a / b⌋ := by
        rw [← hint, Int.ceil_intCast, Int.floor_intCast]
      have hz : a - b * (⌊a / b⌋ : ℤ) = 0 := by rw [hint]; field_simp; ring
      rw [hc, hz]
      simp [pyMod, hz]
    · have hc : ⌈a / b⌉ = ⌊a / b⌋ + 1 := by
        apply le_antisymm (Int.ceil_le_floor_add_one _)
        exact Int.add_one_le_of_lt (Int.lt_ceil.2 (lt_of_le_of_ne (Int.floor_le _) hint))
      have e1 : a - b * ((⌈a / b⌉ : ℤ) : ℚ) = pyMod a b - b := by
        rw [hc, pyMod]; push_cast; ring
      have hlt : pyMod a b < b := pyMod_lt hb
      rw [e1, if_pos]
      · rw [sub_add_cancel, h]
      · refine ⟨by linarith, ?_⟩
        simp only [ne_eq, eq_iff_iff]
        intro hh
        exact absurd (hh.1 (by linarith)) (not_lt.2 hb.le)

theorem pyMod_dyadic {a b : ℚ} (ha : Dyadic n a) (hb : Dyadic n b) : Dyadic n (pyMod a b) :=
  Dyadic.sub ha (Dyadic.mul_int _ hb)

theorem fmod_exact (hr : Faithful r) (hn : n ≤ 43) {a b : ℚ} (ha : Dyadic n a) (hb : Dyadic n b) (hb0 : 0 < b)
    (hb1 : b ≤ 1024) : Fl.fmod r a b = pyMod a b := by
  apply fmod_eq hb0
  have h0 := pyMod_nonneg (a := a) hb0
  have h1 := pyMod_lt (a := a) hb0
  exact hr _ (Dyadic.double (pyMod_dyadic ha hb) hn (by linarith) (by linarith))

theorem domain_dyadic {x : ℚ} (hx : Dyadic n x) : Dyadic n (longitudeDomain x) := by
  unfold longitudeDomain
  split_ifs
  · exact hx
  · exact Dyadic.sub (pyMod_dyadic (Dyadic.add hx (Dyadic.ofNat n 180)) (Dyadic.ofNat n 360)) (Dyadic.ofNat n 180)

theorem domain_range (x : ℚ) : -180 ≤ longitudeDomain x ∧ longitudeDomain x ≤ 180 := by
  unfold longitudeDomain
  split_ifs with h
  · rcases h with h | h <;> rw [h] <;> norm_num
  · have h0 := pyMod_nonneg (a := x + 180) (b := 360) (by norm_num)
    have h1 := pyMod_lt (a := x + 180) (b := 360) (by norm_num)
    constructor <;> linarith

theorem domain_exact (hr : Faithful r) (hn : n ≤ 43) {x : ℚ} (hx : Dyadic n x) (h1 : -840 ≤ x) (h2 : x ≤ 840) :
    Fl.domain r x = longitudeDomain x := by
  unfold Fl.domain
  have e1 : r (x + 180) = x + 180 :=
    hr _ (Dyadic.double (Dyadic.add hx (Dyadic.ofNat n 180)) hn (by linarith) (by linarith))
  rw [e1, fmod_exact hr hn (Dyadic.add hx (Dyadic.ofNat n 180)) (Dyadic.ofNat n 360) (by norm_num) (by norm_num)]
  by_cases hc : x = -180 ∨ x = 180
  · simp [longitudeDomain, hc]
  · have hd := domain_dyadic (n := n) hx
    have hrg := domain_range x
    simp only [longitudeDomain, hc, if_false] at hd hrg ⊢
    exact hr _ (Dyadic.double hd hn (by linarith) (by linarith))

theorem height_dyadic {b : Boundary} (hb : DyadicBox n b) : Dyadic n b.height := Dyadic.sub hb.latMax hb.latMin

theorem width_dyadic {b : Boundary} (hb : DyadicBox n b) : Dyadic n b.width := by
  unfold Boundary.width
  split_ifs
  · exact Dyadic.sub hb.longMax hb.longMin
  · exact Dyadic.add (Dyadic.sub (Dyadic.ofNat n 180) hb.longMin) (Dyadic.add hb.longMax (Dyadic.ofNat n 180))

theorem height_range {b : Boundary} (hb : DyadicBox n b) : 0 ≤ b.height ∧ b.height ≤ 360 := by
  have := hb.lat
  unfold Boundary.height
  constructor <;> linarith

theorem width_range {b : Boundary} (hb : DyadicBox n b) : 0 ≤ b.width ∧ b.width ≤ 360 := by
  have h1 := hb.west
  have h2 := hb.east
  unfold Boundary.width
  split_ifs with h
  · constructor <;> linarith
  · constructor <;> linarith

theorem height_exact (hr : Faithful r) (hn : n ≤ 43) {b : Boundary} (hb : DyadicBox n b) : Fl.height r b = b.height := by
  have := height_range hb
  change r b.height = b.height
  exact hr _ (Dyadic.double (height_dyadic hb) hn (by linarith) (by linarith))

theorem width_exact (hr : Faithful r) (hn : n ≤ 43) {b : Boundary} (hb : DyadicBox n b) : Fl.width r b = b.width := by
  have h0 := width_range hb
  have hd := width_dyadic hb
  have h1 := hb.west
  have h2 := hb.east
  unfold Fl.width
  unfold Boundary.width at h0 hd ⊢
  split_ifs with h
  · rw [if_pos h] at h0 hd
    exact hr _ (Dyadic.double hd hn (by linarith) (by linarith))
  · rw [if_neg h] at h0 hd
    rw [hr (180 - b.longMin) (Dyadic.double (Dyadic.sub (Dyadic.ofNat n 180) hb.longMin) hn (by linarith) (by linarith)),
      hr (b.longMax + 180) (Dyadic.double (Dyadic.add hb.longMax (Dyadic.ofNat n 180)) hn (by linarith) (by linarith))]
    exact hr _ (Dyadic.double hd hn (by linarith) (by linarith))

theorem east_exact (hr : Faithful r) (hn : n ≤ 43) {b : Boundary} (hb : DyadicBox n b) :
    r (b.longMin + Fl.width r b) = b.longMin + b.width := by
  have h0 := width_range hb
  have h1 := hb.west
  rw [width_exact hr hn hb]
  exact hr _ (Dyadic.double (Dyadic.add hb.longMin (width_dyadic hb)) hn (by linarith) (by linarith))

theorem north_exact (hr : Faithful r) (hn : n ≤ 43) {b : Boundary} (hb : DyadicBox n b) :
    r (b.latMin + Fl.height r b) = b.latMin + b.height := by
  have h0 := height_range hb
  have h1 := hb.lat
  rw [height_exact hr hn hb]
  exact hr _ (Dyadic.double (Dyadic.add hb.latMin (height_dyadic hb)) hn (by linarith) (by linarith))

/-- Which side two cells touch on is found exactly. -/
theorem case_exact (hr : Faithful r) (hn : n ≤ 43) (glob : Bool) {a b : Boundary} (ha : DyadicBox n a)
    (hb : DyadicBox n b) : Fl.case r glob a b = Graph.neighbourCase glob a b := by
  unfold Fl.case Graph.neighbourCase Fl.caseGlobal Fl.caseBounds Graph.globalNeighbourCase Graph.neighbourCaseBounds
  simp only [east_exact hr hn ha, east_exact hr hn hb, north_exact hr hn ha, north_exact hr hn hb]

/-- The quarters of a cell are found exactly. -/
theorem createSplitted_exact (hr : Faithful r) (hn : n + 1 ≤ 43) {b : Boundary} (hb : DyadicBox n b) (i : ℕ) :
    Fl.createSplitted r b i = CellBox.createSplitted b i := by
  have hn' : n ≤ 43 := by omega
  have hw := width_range hb
  have hh := height_range hb
  have h1 := hb.west
  have h2 := hb.lat
  have dw := Dyadic.half (width_dyadic hb)
  have dh := Dyadic.half (height_dyadic hb)
  have dl : Dyadic (n + 1) b.longMin := Dyadic.mono (by omega) hb.longMin
  have dt : Dyadic (n + 1) b.latMin := Dyadic.mono (by omega) hb.latMin
  have e1 : r (Fl.width r b / 2) = b.width / 2 := by
    rw [width_exact hr hn' hb]
    exact hr _ (Dyadic.double dw hn (by linarith) (by linarith))
  have e2 : r (Fl.height r b / 2) = b.height / 2 := by
    rw [height_exact hr hn' hb]
    exact hr _ (Dyadic.double dh hn (by linarith) (by linarith))
  have e3 : r (b.longMin + b.width / 2) = b.longMin + b.width / 2 :=
    hr _ (Dyadic.double (Dyadic.add dl dw) hn (by linarith) (by linarith))
  have e4 : r (b.latMin + b.height / 2) = b.latMin + b.height / 2 :=
    hr _ (Dyadic.double (Dyadic.add dt dh) hn (by linarith) (by linarith))
  have e5 : Fl.domain r (b.longMin + b.width / 2) = longitudeDomain (b.longMin + b.width / 2) :=
    domain_exact hr hn (Dyadic.add dl dw) (by linarith) (by linarith)
  have e6 : Fl.domain r (b.longMin + b.width) = longitudeDomain (b.longMin + b.width) :=
    domain_exact hr hn' (Dyadic.add hb.longMin (width_dyadic hb)) (by linarith) (by linarith)
  unfold Fl.createSplitted CellBox.createSplitted
  simp only [e1, e2, e3, e4, east_exact hr hn' hb, north_exact hr hn' hb, e5, e6]

theorem mk?_dyadic {x y u v : ℚ} {t : List ℤ} {b : Boundary} (h : Boundary.mk? [x, y] [u, v] t = .ok b)
    (hx : Dyadic n x) (hy : Dyadic n y) (hu : Dyadic n u) (hv : Dyadic n v) (hx1 : -180 ≤ x) (hy1 : y ≤ 180)
    (hu1 : -180 ≤ u ∧ u ≤ 180) (hv1 : -180 ≤ v ∧ v ≤ 180) : DyadicBox n b := by
  have hb : x ≤ y ∧ b = ⟨x, y, u, v, t⟩ := by
    unfold Boundary.mk? at h
    split at h
    · cases h
    · simp only [bind, Except.bind, pure, Except.pure] at h
      split at h
      · cases h
      · rename_i hval
        injection h with h
        refine ⟨?_, h.symm⟩
        by_contra hxy
        simp [Boundary.validateBounds, not_le.1 hxy] at hval
  obtain ⟨hxy, rfl⟩ := hb
  exact ⟨hx, hy, hu, hv, ⟨hx1, hxy, hy1⟩, hu1, hv1⟩

/-- The quarters of a dyadic cell are dyadic, one digit finer. -/
theorem createSplitted_dyadic {b : Boundary} (hb : DyadicBox n b) {i : ℕ} {l : List (Boundary × ℕ)}
    (h : CellBox.createSplitted b i = .ok l) : ∀ p ∈ l, DyadicBox (n + 1) p.1 := by
  have hh := height_range hb
  have h1 := hb.west
  have h2 := hb.lat
  have htop : b.latMin + b.height = b.latMax := by unfold Boundary.height; ring
  have dw := Dyadic.half (width_dyadic hb)
  have dh := Dyadic.half (height_dyadic hb)
  have dl : Dyadic (n + 1) b.longMin := Dyadic.mono (by omega) hb.longMin
  have dt : Dyadic (n + 1) b.latMin := Dyadic.mono (by omega) hb.latMin
  have dm := Dyadic.add dt dh
  have dtop : Dyadic (n + 1) (b.latMin + b.height) := by rw [htop]; exact Dyadic.mono (by omega) hb.latMax
  have dx := domain_dyadic (Dyadic.add dl dw)
  have dx' := domain_dyadic (Dyadic.add dl (Dyadic.mono (by omega : n ≤ n + 1) (width_dyadic hb)))
  have rx := domain_range (b.longMin + b.width / 2)
  have rx' := domain_range (b.longMin + b.width)
  unfold CellBox.createSplitted at h
  simp only [bind, Except.bind, pure, Except.pure] at h
  split at h
  · cases h
  rename_i nw hnw
  split at h
  · cases h
  rename_i ne hne
  split at h
  · cases h
  rename_i sw hsw
  split at h
  · cases h
  rename_i se hse
  injection h with h
  subst h
  intro p hp
  simp only [List.mem_cons, List.not_mem_nil, or_false] at hp
  rcases hp with rfl | rfl | rfl | rfl
  · exact mk?_dyadic hnw dm dtop dl dx (by linarith) (by linarith) h1 rx
  · exact mk?_dyadic hne dm dtop dx dx' (by linarith) (by linarith) rx rx'
  · exact mk?_dyadic hsw dt dm dl dx (by linarith) (by linarith) h1 rx
  · exact mk?_dyadic hse dt dm dx dx' (by linarith) (by linarith) rx rx'

end Exact

/-! ## Rounding to double precision -/

theorem pow2_eq (e : ℤ) : Fl.pow2 e = (2 : ℚ) ^ e := by
  cases e with
  | ofNat n => simp [Fl.pow2]
  | negSucc n => simp [Fl.pow2, zpow_negSucc, Rat.mkRat_eq_div]

theorem expo_spec {a : ℚ} (ha : 0 < a) : (2 : ℚ) ^ Fl.expo a ≤ a ∧ a < 2 ^ (Fl.expo a + 1) := by
  have hnum : a.num.natAbs ≠ 0 := by
    have := Rat.num_pos.2 ha
    omega
  have h1 := Nat.log2_self_le hnum
  have h2 := Nat.lt_log2_self (n := a.num.natAbs)
  have h3 := Nat.log2_self_le a.den_ne_zero
  have h4 := Nat.lt_log2_self (n := a.den)
  set p := Nat.log2 a.num.natAbs with hp
  set q := Nat.log2 a.den with hq
  have ea : a * a.den = a.num.natAbs := by
    have hz : (a.num.natAbs : ℚ) = (a.num : ℚ) := by
      rw [← Int.cast_natCast, Int.natAbs_of_nonneg (Rat.num_pos.2 ha).le]
    rw [hz]
    exact Rat.mul_den_eq_num a
  have hd : (0 : ℚ) < a.den := by exact_mod_cast a.den_pos
  have g1 : (2 : ℚ) ^ p ≤ a * a.den := by rw [ea]; exact_mod_cast h1
  have g2 : a * a.den < (2 : ℚ) ^ (p + 1) := by rw [ea]; exact_mod_cast h2
  have g3 : (2 : ℚ) ^ q ≤ a.den := by exact_mod_cast h3
  have g4 : (a.den : ℚ) < 2 ^ (q + 1) := by exact_mod_cast h4
  have hpq : (2 : ℚ) ^ ((p : ℤ) - q) * 2 ^ q = 2 ^ p := by
    rw [← zpow_natCast, ← zpow_natCast, ← zpow_add₀ (by norm_num)]
    congr 1; ring
  have hpow : (0 : ℚ) < 2 ^ ((p : ℤ) - q) := zpow_pos (by norm_num) _
  have hq0 : (0 : ℚ) < 2 ^ q := by positivity
  have up : a < 2 ^ ((p : ℤ) - q + 1) := by
    rw [zpow_add₀ (by norm_num), zpow_one]
    rw [pow_succ, ← hpq] at g2
    have : a * 2 ^ q < (2 ^ ((p : ℤ) - q) * 2) * 2 ^ q := by nlinarith
    exact lt_of_mul_lt_mul_right this hq0.le
  have low : 2 ^ ((p : ℤ) - q - 1) ≤ a := by
    rw [zpow_sub₀ (by norm_num), zpow_one]
    rw [← hpq] at g1
    rw [pow_succ] at g4
    have : (2 ^ ((p : ℤ) - q) / 2) * (2 ^ q * 2) ≤ a * (2 ^ q * 2) := by nlinarith
    exact le_of_mul_le_mul_right this (by positivity)
  unfold Fl.expo
  simp only [← hp, ← hq, pow2_eq]
  split_ifs with h
  · exact ⟨low, by simpa using h⟩
  · exact ⟨not_lt.1 h, up⟩

theorem roundEven_nearest (x : ℚ) (z : ℤ) : |(Fl.roundEven x : ℚ) - x| ≤ |(z : ℚ) - x| := by
  have h1 := Int.floor_le x
  have h2 := Int.lt_floor_add_one x
  have hz : (z : ℚ) ≤ ⌊x⌋ ∨ (⌊x⌋ : ℚ) + 1 ≤ z := by
    rcases le_or_gt z ⌊x⌋ with h | h
    · left; exact_mod_cast h
    · right; exact_mod_cast h
  have low : x - ⌊x⌋ ≤ 1 / 2 → |((⌊x⌋ : ℤ) : ℚ) - x| ≤ |(z : ℚ) - x| := by
    intro h
    rw [abs_sub_comm, abs_of_nonneg (by linarith : 0 ≤ x - ⌊x⌋)]
    rcases hz with hz | hz
    · rw [abs_sub_comm, abs_of_nonneg (by linarith)]; linarith
    · rw [abs_of_nonneg (by linarith)]; linarith
  have high : 1 / 2 ≤ x - ⌊x⌋ → |((⌊x⌋ + 1 : ℤ) : ℚ) - x| ≤ |(z : ℚ) - x| := by
    intro h
    push_cast
    rw [abs_of_nonneg (by linarith : 0 ≤ (⌊x⌋ : ℚ) + 1 - x)]
    rcases hz with hz | hz
    · rw [abs_sub_comm, abs_of_nonneg (by linarith)]; linarith
    · rw [abs_of_nonneg (by linarith)]; linarith
  unfold Fl.roundEven
  dsimp only
  split_ifs with a b c
  · exact low a.le
  · exact high b.le
  · exact low (not_lt.1 b)
  · exact high (not_lt.1 a)

/-- `round64` finds a nearest number of 53 binary digits. -/
theorem round64_nearest (q : ℚ) (m f : ℤ) (hm : |m| ≤ 2 ^ 53) : |Fl.round64 q - q| ≤ |(m : ℚ) * 2 ^ f - q| := by
  unfold Fl.round64
  split_ifs with h0
  · subst h0; rw [sub_zero, abs_zero]; exact abs_nonneg _
  obtain ⟨e1, -⟩ := expo_spec (abs_pos.2 h0)
  set e := Fl.expo |q| with he
  dsimp only
  rw [pow2_eq]
  have hu : (0 : ℚ) < 2 ^ (e - 52) := zpow_pos (by norm_num) _
  have scale : ∀ z : ℤ, |(Fl.roundEven (q / 2 ^ (e - 52)) : ℚ) * 2 ^ (e - 52) - q| ≤ |(z : ℚ) * 2 ^ (e - 52) - q| := by
    intro z
    have key : ∀ y : ℚ, |y * 2 ^ (e - 52) - q| = |y - q / 2 ^ (e - 52)| * 2 ^ (e - 52) := by
      intro y
      rw [← abs_of_pos hu, ← abs_mul, abs_of_pos hu, sub_mul, div_mul_cancel₀ _ hu.ne']
    rw [key, key]
    exact mul_le_mul_of_nonneg_right (roundEven_nearest _ _) hu.le
  rcases le_or_gt (e - 52) f with hf | hf
  · obtain ⟨k, hk⟩ := Int.eq_ofNat_of_zero_le (sub_nonneg.2 hf)
    have : (m : ℚ) * 2 ^ f = ((m * 2 ^ k : ℤ) : ℚ) * 2 ^ (e - 52) := by
      have hfk : f = (k : ℤ) + (e - 52) := by omega
      rw [hfk, zpow_add₀ (by norm_num), zpow_natCast]
      push_cast; ring
    rw [this]
    exact scale _
  · have hd : |(m : ℚ) * 2 ^ f| ≤ 2 ^ e := by
      rw [abs_mul, abs_of_pos (zpow_pos (by norm_num) f : (0 : ℚ) < 2 ^ f)]
      have hm' : |(m : ℚ)| ≤ 2 ^ 53 := by exact_mod_cast hm
      have hf' : (2 : ℚ) ^ f ≤ 2 ^ (e - 53) := zpow_le_zpow_right₀ (by norm_num) (by omega)
      calc |(m : ℚ)| * 2 ^ f ≤ 2 ^ 53 * 2 ^ (e - 53) :=
            mul_le_mul hm' hf' (zpow_pos (by norm_num) f).le (by norm_num)
        _ = 2 ^ e := by
            rw [← zpow_natCast, ← zpow_add₀ (by norm_num)]
            congr 1
            push_cast; ring
    have h52 : ((2 ^ 52 : ℤ) : ℚ) * 2 ^ (e - 52) = 2 ^ e := by
      rw [Int.cast_pow, Int.cast_ofNat, ← zpow_natCast, ← zpow_add₀ (by norm_num)]
      congr 1
      push_cast; ring
    have tri : |q| - |(m : ℚ) * 2 ^ f| ≤ |(m : ℚ) * 2 ^ f - q| := by
      rw [abs_sub_comm ((m : ℚ) * 2 ^ f) q]; exact abs_sub_abs_le_abs_sub _ _
    rcases le_or_gt 0 q with hq | hq
    · refine (scale (2 ^ 52)).trans (le_trans ?_ tri)
      rw [h52, abs_sub_comm]
      rw [abs_of_nonneg hq] at e1 ⊢
      rw [abs_of_nonneg (by linarith)]
      linarith
    · refine (scale (-2 ^ 52)).trans (le_trans ?_ tri)
      have : ((-2 ^ 52 : ℤ) : ℚ) * 2 ^ (e - 52) = - 2 ^ e := by
        rw [← h52]; push_cast; ring
      rw [this]
      rw [abs_of_neg hq] at e1 ⊢
      rw [abs_of_nonneg (by linarith)]
      linarith

/-- The result of `round64` has 53 binary digits. -/
theorem round64_digits (q : ℚ) : ∃ m e : ℤ, |m| ≤ 2 ^ 53 ∧ Fl.round64 q = m * 2 ^ e := by
  unfold Fl.round64
  split_ifs with h0
  · exact ⟨0, 0, by norm_num, by simp⟩
  obtain ⟨-, e2⟩ := expo_spec (abs_pos.2 h0)
  dsimp only
  rw [pow2_eq]
  set e := Fl.expo |q| with he
  refine ⟨_, _, ?_, rfl⟩
  have hu : (0 : ℚ) < 2 ^ (e - 52) := zpow_pos (by norm_num) _
  have hx : |q / 2 ^ (e - 52)| < 2 ^ 53 := by
    rw [abs_div, abs_of_pos hu, div_lt_iff₀ hu]
    refine lt_of_lt_of_eq e2 ?_
    rw [← zpow_natCast, ← zpow_add₀ (by norm_num)]
    congr 1
    push_cast; ring
  obtain ⟨hx1, hx2⟩ := abs_lt.1 hx
  have lo : -(2 : ℤ) ^ 53 ≤ ⌊q / 2 ^ (e - 52)⌋ := by
    rw [Int.le_floor]; push_cast; exact hx1.le
  have hi : ⌊q / 2 ^ (e - 52)⌋ < (2 : ℤ) ^ 53 := by
    rw [Int.floor_lt]; push_cast; exact hx2
  unfold Fl.roundEven
  dsimp only
  rw [abs_le]
  split_ifs <;> constructor <;> omega

theorem roundEven_tie {x : ℚ} (h : |(Fl.roundEven x : ℚ) - x| = 1 / 2) : 2 ∣ Fl.roundEven x := by
  have h1 := Int.floor_le x
  have h2 := Int.lt_floor_add_one x
  unfold Fl.roundEven at h ⊢
  dsimp only at h ⊢
  split_ifs at h ⊢ with a b c
  · rw [abs_sub_comm, abs_of_nonneg (by linarith)] at h; linarith
  · push_cast at h; rw [abs_of_nonneg (by linarith)] at h; linarith
  · omega
  · omega

/-- Of two numbers that are equally near, `round64` takes the one with an even last digit. -/
theorem round64_ties (q : ℚ) (e : ℤ) (h1 : 2 ^ e ≤ |q|) (h2 : |q| < 2 ^ (e + 1)) (h : |Fl.round64 q - q| = 2 ^ (e - 53)) :
    ∃ m : ℤ, 2 ∣ m ∧ Fl.round64 q = m * 2 ^ (e - 52) := by
  have hpos : 0 < |q| := lt_of_lt_of_le (zpow_pos (by norm_num) e) h1
  obtain ⟨e1, e2⟩ := expo_spec hpos
  have he : Fl.expo |q| = e := by
    have a := (zpow_lt_zpow_iff_right₀ (by norm_num : (1 : ℚ) < 2)).1 (lt_of_le_of_lt e1 h2)
    have b := (zpow_lt_zpow_iff_right₀ (by norm_num : (1 : ℚ) < 2)).1 (lt_of_le_of_lt h1 e2)
    omega
  unfold Fl.round64 at h ⊢
  have hq : q ≠ 0 := abs_pos.1 hpos
  simp only [hq, if_false, he, pow2_eq] at h ⊢
  have hu : (0 : ℚ) < 2 ^ (e - 52) := zpow_pos (by norm_num) _
  refine ⟨_, roundEven_tie ?_, rfl⟩
  have key : |(Fl.roundEven (q / 2 ^ (e - 52)) : ℚ) * 2 ^ (e - 52) - q| =
      |(Fl.roundEven (q / 2 ^ (e - 52)) : ℚ) - q / 2 ^ (e - 52)| * 2 ^ (e - 52) := by
    rw [← abs_of_pos hu, ← abs_mul, abs_of_pos hu, sub_mul, div_mul_cancel₀ _ hu.ne']
  rw [key] at h
  have h53 : (2 : ℚ) ^ (e - 53) = 1 / 2 * 2 ^ (e - 52) := by
    have : e - 53 = (-1) + (e - 52) := by ring
    rw [this, zpow_add₀ (by norm_num)]
    norm_num
  rw [h53] at h
  exact mul_right_cancel₀ hu.ne' h

theorem round64_faithful : Faithful Fl.round64 := by
  rintro q ⟨m, e, hm, -, -, hq⟩
  have := round64_nearest q m e hm
  rw [← hq, sub_self, abs_zero] at this
  exact sub_eq_zero.1 (abs_nonpos_iff.1 this)

end Verif
