import Verif.Proof.Grid
import Verif.Proof.GraphOps
import Verif.Proof.Geometry

/-!
# The initial neighbour graph is exact
-/

namespace Verif
open Spec

theorem idx_inj {nx r c r' c' : ℕ} (hc : c < nx) (hc' : c' < nx) : r * nx + c = r' * nx + c' ↔ r = r' ∧ c = c' := by
  constructor
  · intro h
    have h1 : (r * nx + c) / nx = r := by
      rw [Nat.mul_comm, Nat.mul_add_div (by omega), Nat.div_eq_of_lt hc]; simp
    have h2 : (r' * nx + c') / nx = r' := by
      rw [Nat.mul_comm, Nat.mul_add_div (by omega), Nat.div_eq_of_lt hc']; simp
    have h3 : (r * nx + c) % nx = c := by rw [Nat.mul_comm, Nat.mul_add_mod, Nat.mod_eq_of_lt hc]
    have h4 : (r' * nx + c') % nx = c' := by rw [Nat.mul_comm, Nat.mul_add_mod, Nat.mod_eq_of_lt hc']
    rw [h] at h1 h3
    exact ⟨h1.symm.trans h2, h3.symm.trans h4⟩
  · rintro ⟨rfl, rfl⟩; rfl

theorem idx_lt {nx ny r c : ℕ} (hc : c < nx) : r * nx + c < ny * nx ↔ r < ny := by
  constructor
  · intro h
    by_contra hr
    push Not at hr
    have := Nat.mul_le_mul_right nx hr
    omega
  · intro hr
    calc r * nx + c < r * nx + nx := by omega
      _ = (r + 1) * nx := by ring
      _ ≤ ny * nx := Nat.mul_le_mul_right nx hr

theorem pyMod_natCast (i n : ℕ) (hn : 0 < n) : pyMod (i : ℚ) n = ((i % n : ℕ) : ℚ) := by
  have hn' : (n : ℚ) ≠ 0 := by exact_mod_cast hn.ne'
  have e : (i : ℚ) = ((i % n : ℕ) : ℚ) + n * ((i / n : ℕ) : ℤ) := by
    have := Nat.mod_add_div i n
    have h2 : (i : ℚ) = ((i % n + n * (i / n) : ℕ) : ℚ) := by rw [this]
    rw [h2]; push_cast; rfl
  conv_lhs => rw [e]
  rw [pyMod_add_int_mul hn']
  apply pyMod_of_range
  · positivity
  · exact_mod_cast Nat.mod_lt i hn

theorem pyInt_natCast (x : ℚ) (n : ℕ) (h : x = n) : (pyInt x).toNat = n := by
  rw [h]; unfold pyInt; simp

/-- `initialise_map` on a grid of `ny` rows and `nx` columns, at row `r`, column `c`. -/
theorem initialiseMap_eq (nx ny r c : ℕ) (hc : c < nx) :
    Graph.initialiseMap (r * nx + c) (nx : ℚ) (ny * nx) = fun d => match d with
      | .east => if c + 1 < nx then [r * nx + (c + 1)] else []
      | .northEast => if c + 1 < nx ∧ r + 1 < ny then [(r + 1) * nx + (c + 1)] else []
      | .southEast => if c + 1 < nx ∧ 0 < r then [(r - 1) * nx + (c + 1)] else []
      | .west => if 0 < c then [r * nx + (c - 1)] else []
      | .northWest => if 0 < c ∧ r + 1 < ny then [(r + 1) * nx + (c - 1)] else []
      | .southWest => if 0 < c ∧ 0 < r then [(r - 1) * nx + (c - 1)] else []
      | .north => if r + 1 < ny then [(r + 1) * nx + c] else []
      | .south => if 0 < r then [(r - 1) * nx + c] else [] := by
  have hnx : 0 < nx := by omega
  have hE : pyMod (((r * nx + c : ℕ) : ℚ) + 1) nx ≠ 0 ↔ c + 1 < nx := by
    have : (((r * nx + c : ℕ) : ℚ) + 1) = ((r * nx + c + 1 : ℕ) : ℚ) := by push_cast; ring
    rw [this, pyMod_natCast _ _ hnx]
    rw [Nat.add_assoc, Nat.mul_comm, Nat.mul_add_mod]
    rcases Nat.lt_or_ge (c + 1) nx with h | h
    · rw [Nat.mod_eq_of_lt h]; simp only [h, iff_true]; exact_mod_cast Nat.succ_ne_zero c
    · have : c + 1 = nx := by omega
      simp [this]
  have hW : pyMod ((r * nx + c : ℕ) : ℚ) nx ≠ 0 ↔ 0 < c := by
    rw [pyMod_natCast _ _ hnx, Nat.mul_comm, Nat.mul_add_mod, Nat.mod_eq_of_lt hc]
    constructor
    · intro h; exact Nat.pos_of_ne_zero (by exact_mod_cast h)
    · intro h; exact_mod_cast h.ne'
  have hN : ((r * nx + c : ℕ) : ℚ) + nx < ((ny * nx : ℕ) : ℚ) ↔ r + 1 < ny := by
    have : ((r * nx + c : ℕ) : ℚ) + nx = (((r + 1) * nx + c : ℕ) : ℚ) := by push_cast; ring
    rw [this, Nat.cast_lt, idx_lt hc]
  have hS : ((r * nx + c : ℕ) : ℚ) - nx ≥ 0 ↔ 0 < r := by
    rw [ge_iff_le, sub_nonneg, Nat.cast_le]
    constructor
    · intro h
      by_contra hr
      have : r = 0 := by omega
      subst this; simp at h; omega
    · intro h
      have : nx * 1 ≤ nx * r := Nat.mul_le_mul_left nx h
      have : nx * r = r * nx := Nat.mul_comm _ _
      omega
  have v1 : (pyInt ((((r * nx + c : ℕ) : ℚ) + nx) + 1)).toNat = (r + 1) * nx + (c + 1) :=
    pyInt_natCast _ _ (by push_cast; ring)
  have v2 : 0 < c → (pyInt ((((r * nx + c : ℕ) : ℚ) + nx) - 1)).toNat = (r + 1) * nx + (c - 1) := by
    intro h
    refine pyInt_natCast _ _ ?_
    rw [Nat.cast_add _ (c - 1), Nat.cast_sub h]; push_cast; ring
  have v3 : (pyInt (((r * nx + c : ℕ) : ℚ) + nx)).toNat = (r + 1) * nx + c :=
    pyInt_natCast _ _ (by push_cast; ring)
  have v4 : 0 < r → (pyInt ((((r * nx + c : ℕ) : ℚ) - nx) + 1)).toNat = (r - 1) * nx + (c + 1) := by
    intro h
    refine pyInt_natCast _ _ ?_
    push_cast [Nat.cast_sub h]; ring
  have v5 : 0 < r → 0 < c → (pyInt ((((r * nx + c : ℕ) : ℚ) - nx) - 1)).toNat = (r - 1) * nx + (c - 1) := by
    intro h h'
    refine pyInt_natCast _ _ ?_
    push_cast [Nat.cast_sub h, Nat.cast_sub h']; ring
  have v6 : 0 < r → (pyInt (((r * nx + c : ℕ) : ℚ) - nx)).toNat = (r - 1) * nx + c := by
    intro h
    refine pyInt_natCast _ _ ?_
    push_cast [Nat.cast_sub h]; ring
  have w1 : 0 < c → r * nx + c - 1 = r * nx + (c - 1) := by omega
  unfold Graph.initialiseMap
  simp only [hE, hW, hN, hS, v1, v3]
  funext d
  generalize ((r * nx + c : ℕ) : ℚ) = q at *
  by_cases a1 : c + 1 < nx <;> by_cases a2 : 0 < c <;> by_cases a3 : r + 1 < ny <;> by_cases a4 : 0 < r <;>
    cases d <;> simp [a1, a2, a3, a4, v2, v4, v5, v6, w1, NMap.append, Nat.add_assoc]

theorem look_initialise (n : ℕ) (gw : ℚ) (j : ℕ) :
    (Graph.initialise n gw).look j = if j < n then some (Graph.initialiseMap j gw n) else none := by
  unfold Graph.initialise Graph.look
  simp only
  have : ∀ t, Dict.get? ((List.range t).foldl (fun d i => Dict.set d i (Graph.initialiseMap i gw n)) []) j =
      if j < t then some (Graph.initialiseMap j gw n) else none := by
    intro t
    induction t with
    | zero => simp
    | succ t ih =>
      rw [List.range_succ, List.foldl_append]
      simp only [List.foldl_cons, List.foldl_nil, Dict.get?_set, ih]
      by_cases h : t = j
      · subst h; simp
      · by_cases h2 : j < t
        · have : j < t + 1 := by omega
          simp [h, h2, this]
        · have : ¬ j < t + 1 := by omega
          simp [h, h2, this]
  exact this n

/-- The rectangle at row `r` and column `c` of a grid. -/
def gridRect (x0 y0 W H : ℚ) (r c : ℕ) : Rect := ⟨x0 + c * W, x0 + c * W + W, y0 + r * H, y0 + r * H + H⟩

/-- One-dimensional touching in a row of equal intervals. -/
theorem slot_rel {x0 W : ℚ} (hW : 0 < W) (c c' : ℕ) (s : Side) :
    sideRel s (x0 + c * W) (x0 + c * W + W) (x0 + c' * W) (x0 + c' * W + W) ↔
      match s with
      | .hi => c' = c + 1
      | .lo => c = c' + 1
      | .mid => c' = c := by
  have mul_inj : ∀ a b : ℕ, (a : ℚ) * W = b * W ↔ a = b := by
    intro a b
    rw [mul_left_inj' hW.ne', Nat.cast_inj]
  have mul_lt : ∀ a b : ℕ, (a : ℚ) * W < b * W ↔ a < b := by
    intro a b
    rw [mul_lt_mul_iff_left₀ hW, Nat.cast_lt]
  cases s with
  | hi =>
    simp only [sideRel]
    rw [← mul_inj]; push_cast
    constructor <;> intro h <;> linarith
  | lo =>
    simp only [sideRel]
    rw [← mul_inj]; push_cast
    constructor <;> intro h <;> linarith
  | mid =>
    simp only [sideRel]
    constructor
    · rintro ⟨h1, h2⟩
      have a1 : c' < c + 1 := by rw [← mul_lt]; push_cast; linarith
      have a2 : c < c' + 1 := by rw [← mul_lt]; push_cast; linarith
      omega
    · rintro rfl
      constructor <;> linarith

end Verif
