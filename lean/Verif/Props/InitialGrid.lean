import Verif.Proof.Grid
import Verif.Model.ConfigValidator

/-!
# C08, C09: the initial grid and the cell size checks
-/

namespace Verif
open Spec

/-- What both checks of the cell sizes amount to. -/
theorem validators_accept_iff (b : Boundary) (W H : ℚ) :
    (MeshBuilder.validateBounds b W H = .ok () ∧
      ConfigValidator.assertValidCellsize b.latMin b.latMax H = .ok () ∧
      ConfigValidator.assertValidCellsize b.longMin b.longMax W = .ok ()) ↔
    W ≠ 0 ∧ H ≠ 0 ∧ (∃ n : ℤ, pyMod (b.longMax - b.longMin) 360 = W * n) ∧ (∃ n : ℤ, b.latMax - b.latMin = H * n) ∧
      (∃ n : ℤ, pyMod (b.latMax - b.latMin) 360 = H * n) := by
  have div1 : ∀ x s : ℚ, s ≠ 0 → (pyMod (x / s) 1 = 0 ↔ ∃ n : ℤ, x = s * n) := by
    intro x s hs
    rw [pyMod_eq_zero_iff one_ne_zero]
    constructor
    · rintro ⟨n, h⟩; exact ⟨n, by field_simp at h; linarith⟩
    · rintro ⟨n, h⟩; exact ⟨n, by rw [h]; field_simp⟩
  unfold MeshBuilder.validateBounds ConfigValidator.assertValidCellsize
  by_cases hW : W = 0
  · simp [hW]
  · by_cases hH : H = 0
    · subst hH; simp
    · simp only [hW, hH, if_false, ne_eq, not_false_eq_true, true_and]
      rw [← pyMod_eq_zero_iff hW, ← pyMod_eq_zero_iff hH, ← div1 _ _ hH]
      have e : pyMod (pyMod (b.longMax - b.longMin) 360 / W) 1 = 0 ↔ pyMod (pyMod (b.longMax - b.longMin) 360) W = 0 := by
        rw [div1 _ _ hW, pyMod_eq_zero_iff hW]
      simp only [e]
      by_cases h1 : pyMod (pyMod (b.longMax - b.longMin) 360) W = 0 <;>
        by_cases h2 : pyMod (b.latMax - b.latMin) H = 0 <;> simp [h1, h2]

/-- C09 with the two guards it needs: the region is not a full circle and the sizes are positive.
Then acceptance means that the region is a whole number of cells wide and high. -/
theorem C09_cell_sizes_partial (b : Boundary) (hv : Valid b) (hd : ¬ (b.longMin = 180 ∧ b.longMax = -180))
    (W H : ℚ) (hW : 0 < W) (hH : 0 < H) (hfull : b.width < 360)
    (hacc : MeshBuilder.validateBounds b W H = .ok ()) :
    ∃ nx ny : ℕ, 0 < nx ∧ b.width = nx * W ∧ b.height = ny * H := by
  have hpos := (C04_geometry_partial b hv hd).1
  obtain ⟨h1, h2, h3, h4, h5, -⟩ := hv
  have hx : pyMod (pyMod (b.longMax - b.longMin) 360) W = 0 ∧ pyMod (b.latMax - b.latMin) H = 0 := by
    unfold MeshBuilder.validateBounds at hacc
    rw [if_neg hW.ne', if_neg hH.ne'] at hacc
    by_cases a1 : pyMod (pyMod (b.longMax - b.longMin) 360) W = 0
    · by_cases a2 : pyMod (b.latMax - b.latMin) H = 0
      · exact ⟨a1, a2⟩
      · simp [a1, a2] at hacc
    · simp [a1] at hacc
  have hm : pyMod (b.longMax - b.longMin) 360 = b.width := by
    have hw := Boundary.width_eq b
    unfold eastEdge at hw
    by_cases hlt : b.longMin < b.longMax
    · rw [if_pos hlt] at hw
      rw [pyMod_of_range (by linarith) (by linarith)]; linarith
    · rw [if_neg hlt] at hw
      have := pyMod_add_int_mul (a := b.longMax - b.longMin) (b := 360) (by norm_num) 1
      rw [← this, pyMod_of_range (by push_cast; linarith) (by push_cast; linarith)]
      push_cast; linarith
  rw [hm, pyMod_eq_zero_iff hW.ne', pyMod_eq_zero_iff hH.ne'] at hx
  obtain ⟨⟨n, hn⟩, ⟨m, hm⟩⟩ := hx
  have hn0 : 0 < n := by
    by_contra hneg
    push Not at hneg
    have : (n : ℚ) ≤ 0 := by exact_mod_cast hneg
    have : W * n ≤ 0 := mul_nonpos_of_nonneg_of_nonpos hW.le this
    linarith [hpos.1]
  have hm0 : 0 ≤ m := by
    by_contra hneg
    push Not at hneg
    have : (m : ℚ) < 0 := by exact_mod_cast hneg
    have : H * m < 0 := mul_neg_of_pos_of_neg hH this
    linarith
  refine ⟨n.toNat, m.toNat, by omega, ?_, ?_⟩
  · have : ((n.toNat : ℕ) : ℚ) = (n : ℚ) := by
      have : ((n.toNat : ℕ) : ℤ) = n := Int.toNat_of_nonneg hn0.le
      exact_mod_cast this
    rw [this, hn]; ring
  · have : ((m.toNat : ℕ) : ℚ) = (m : ℚ) := by
      have : ((m.toNat : ℕ) : ℤ) = m := Int.toNat_of_nonneg hm0
      exact_mod_cast this
    rw [this]; unfold Boundary.height; linarith

example : Valid ⟨-60, -50, 160, -170, []⟩ ∧ MeshBuilder.validateBounds ⟨-60, -50, 160, -170, []⟩ 5 (5/2) = .ok () ∧
    (⟨-60, -50, 160, -170, []⟩ : Boundary).width = (6 : ℕ) * 5 := by
  refine ⟨by norm_num [Valid], by decide +kernel, by decide +kernel⟩

/-- C09 fails for a full circle: both checks accept every non-zero cell width, whether it divides
the 360 degrees or not. -/
theorem C09_full_circle_unchecked (b : Boundary) (hfull : b.longMax - b.longMin = 360 ∨ b.longMax = b.longMin)
    (W H : ℚ) (hW : W ≠ 0) (hH : H ≠ 0) (hy : ∃ n : ℤ, b.latMax - b.latMin = H * n)
    (hy' : 0 ≤ b.latMax - b.latMin) (hy'' : b.latMax - b.latMin < 360) :
    MeshBuilder.validateBounds b W H = .ok () ∧
      ConfigValidator.assertValidCellsize b.latMin b.latMax H = .ok () ∧
      ConfigValidator.assertValidCellsize b.longMin b.longMax W = .ok () := by
  rw [validators_accept_iff]
  refine ⟨hW, hH, ⟨0, ?_⟩, hy, ?_⟩
  · rcases hfull with h | h
    · rw [h]; norm_num [pyMod]
    · rw [h]; norm_num [pyMod]
  · rw [pyMod_of_range hy' hy'']; exact hy

example : (10 : ℚ) - 0 = 2 * (5 : ℤ) ∧ MeshBuilder.validateBounds ⟨0, 10, -180, 180, []⟩ (11/3) 2 = .ok () := by
  decide +kernel

/-- C09 fails for a full circle: 360 degrees with cells of 7 degrees are accepted. -/
theorem C09_false : ∃ b W H, Valid b ∧ 0 < W ∧ 0 < H ∧ MeshBuilder.validateBounds b W H = .ok () ∧
    ConfigValidator.assertValidCellsize b.latMin b.latMax H = .ok () ∧
    ConfigValidator.assertValidCellsize b.longMin b.longMax W = .ok () ∧ ¬ ∃ n : ℕ, b.width = n * W := by
  refine ⟨⟨-60, -50, -180, 180, []⟩, 7, 5, by norm_num [Valid], by norm_num, by norm_num, by decide +kernel,
    by decide +kernel, by decide +kernel, ?_⟩
  rintro ⟨n, hn⟩
  have : (⟨-60, -50, -180, 180, []⟩ : Boundary).width = 360 := by decide +kernel
  rw [this] at hn
  have : (360 : ℕ) = n * 7 := by exact_mod_cast hn
  omega

/-- C09 fails for negative sizes, which both checks accept as well. -/
theorem C09_negative_size_accepted : ∃ b W H, Valid b ∧ W < 0 ∧ H < 0 ∧ MeshBuilder.validateBounds b W H = .ok () ∧
    ConfigValidator.assertValidCellsize b.latMin b.latMax H = .ok () ∧
    ConfigValidator.assertValidCellsize b.longMin b.longMax W = .ok () ∧ MeshBuilder.initializeCells b W H = .ok [] := by
  refine ⟨⟨-60, -50, 0, 20, []⟩, -5, -5, by norm_num [Valid], by norm_num, by norm_num, by decide +kernel,
    by decide +kernel, by decide +kernel, by decide +kernel⟩

/-- The cells of the grid tile the region (as half-open boxes on the globe). -/
theorem grid_tiles (b : Boundary) {W H : ℚ} (hW : 0 < W) (hH : 0 < H) (nx ny : ℕ) (hnx : 0 < nx)
    (hx : eastEdge b - b.longMin = nx * W) (hx1 : (nx : ℚ) * W ≤ 360) (hy : b.latMax - b.latMin = ny * H) :
    Tiles ((List.range (ny * nx)).map (gridCell b W H nx)) b := by
  have hW1 : W ≤ 360 := by
    have h1 : (1 : ℚ) ≤ nx := by exact_mod_cast hnx
    have : 1 * W ≤ nx * W := mul_le_mul_of_nonneg_right h1 hW.le
    linarith
  constructor
  · intro x y
    have hb : HCovers b x y ↔ (∃ n : ℤ, 0 < x + 360 * n - b.longMin ∧ x + 360 * n - b.longMin ≤ nx * W) ∧
        0 < y - b.latMin ∧ y - b.latMin ≤ ny * H := by
      unfold HCovers
      rw [← hx, ← hy]
      constructor
      · rintro ⟨⟨n, h1, h2⟩, h3, h4⟩
        exact ⟨⟨n, by linarith, by linarith⟩, by linarith, by linarith⟩
      · rintro ⟨⟨n, h1, h2⟩, h3, h4⟩
        exact ⟨⟨n, by linarith, by linarith⟩, by linarith, by linarith⟩
    rw [hb]
    constructor
    · rintro ⟨⟨n, hn⟩, hyy⟩
      obtain ⟨c, hc, h1, h2⟩ := (exists_slot hW nx).1 hn
      obtain ⟨r, hr, h3, h4⟩ := (exists_slot hH ny).1 hyy
      refine ⟨gridCell b W H nx (r * nx + c), List.mem_map.2 ⟨r * nx + c, ?_, rfl⟩, ?_⟩
      · rw [List.mem_range]
        calc r * nx + c < r * nx + nx := by omega
          _ = (r + 1) * nx := by ring
          _ ≤ ny * nx := Nat.mul_le_mul_right nx hr
      · rw [hcovers_gridCell b hW hW1]
        have e1 : (r * nx + c) % nx = c := by rw [Nat.mul_comm, Nat.mul_add_mod, Nat.mod_eq_of_lt hc]
        have e2 : (r * nx + c) / nx = r := by
          rw [Nat.mul_comm, Nat.mul_add_div hnx, Nat.div_eq_of_lt hc]; simp
        rw [e1, e2]
        exact ⟨⟨n, h1, h2⟩, h3, h4⟩
    · rintro ⟨c, hc, h⟩
      obtain ⟨i, hi, rfl⟩ := List.mem_map.1 hc
      rw [List.mem_range] at hi
      rw [hcovers_gridCell b hW hW1] at h
      obtain ⟨⟨n, hn⟩, hyy⟩ := h
      refine ⟨⟨n, (exists_slot hW nx).2 ⟨i % nx, Nat.mod_lt _ hnx, hn⟩⟩, (exists_slot hH ny).2 ⟨i / nx, ?_, hyy⟩⟩
      rw [Nat.div_lt_iff_lt_mul hnx]; exact hi
  · rw [List.pairwise_map]
    apply List.Pairwise.imp_of_mem _ (List.pairwise_lt_range)
    intro i j hi hj hij x y
    rw [hcovers_gridCell b hW hW1, hcovers_gridCell b hW hW1]
    rintro ⟨⟨⟨n, a1, a2⟩, a3, a4⟩, ⟨⟨n', b1, b2⟩, b3, b4⟩⟩
    have er := slot_unique hH a3 a4 b3 b4
    -- the same turn is used
    have bnd : ∀ c : ℕ, c < nx → ∀ t : ℚ, c * W < t → t ≤ c * W + W → 0 < t ∧ t ≤ 360 := by
      intro c hc t t1 t2
      have := (exists_slot hW nx).2 ⟨c, hc, t1, t2⟩
      exact ⟨this.1, by linarith [this.2]⟩
    have p1 := bnd _ (Nat.mod_lt i hnx) _ a1 a2
    have p2 := bnd _ (Nat.mod_lt j hnx) _ b1 b2
    have l1 : (n : ℚ) < n' + 1 := by linarith
    have l2 : (n' : ℚ) < n + 1 := by linarith
    have l1' : n < n' + 1 := by exact_mod_cast l1
    have l2' : n' < n + 1 := by exact_mod_cast l2
    have en : n = n' := by omega
    subst en
    have ec := slot_unique hW a1 a2 b1 b2
    have := Nat.div_add_mod i nx
    have := Nat.div_add_mod j nx
    rw [er, ec] at *
    omega

/-- C08 for every region that really is a whole number of cells wide and high (guaranteed by the
checks unless the region is a full circle, see C09): the grid has `nx * ny` cells; cell `i` is the
one in row `i / nx` from the south and column `i % nx` from the west, has the configured size and the
region's time range, and the cells tile the region. -/
theorem C08_initial_grid_partial (b : Boundary) (hv : Valid b) (hd : ¬ (b.longMin = 180 ∧ b.longMax = -180))
    (W H : ℚ) (hW : 0 < W) (hH : 0 < H) (nx ny : ℕ) (hnx : b.width = nx * W) (hny : b.height = ny * H) :
    ∃ cells, MeshBuilder.initializeCells b W H = .ok cells ∧ cells.length = ny * nx ∧ Tiles cells b ∧
      ∀ r c : ℕ, r < ny → c < nx → ∃ q, cells[r * nx + c]? = some q ∧ Valid q ∧ q.time = b.time ∧
        q.width = W ∧ q.height = H ∧ q.latMin = b.latMin + r * H ∧ q.latMax = b.latMin + (r + 1) * H ∧
        SameMeridian q.longMin (b.longMin + c * W) ∧ SameMeridian q.longMax (b.longMin + (c + 1) * W) := by
  have hpos := (C04_geometry_partial b hv hd).1
  have hw := Boundary.width_eq b
  have hx : eastEdge b - b.longMin = nx * W := by linarith
  have hx1 : (nx : ℚ) * W ≤ 360 := by linarith [hpos.2]
  have hnx0 : 0 < nx := by
    rcases Nat.eq_zero_or_pos nx with h | h
    · subst h; simp at hnx; linarith [hpos.1]
    · exact h
  have hW1 : W ≤ 360 := by
    have h1 : (1 : ℚ) ≤ nx := by exact_mod_cast hnx0
    have : 1 * W ≤ nx * W := mul_le_mul_of_nonneg_right h1 hW.le
    linarith
  have hy : b.latMax - b.latMin = ny * H := hny
  refine ⟨_, initializeCells_eq b hv hW hH hW1 nx ny hx hy, by simp, grid_tiles b hW hH nx ny hnx0 hx hx1 hy, ?_⟩
  intro r c hr hc
  have hi : r * nx + c < ny * nx := by
    calc r * nx + c < r * nx + nx := by omega
      _ = (r + 1) * nx := by ring
      _ ≤ ny * nx := Nat.mul_le_mul_right nx hr
  have e1 : (r * nx + c) % nx = c := by rw [Nat.mul_comm, Nat.mul_add_mod, Nat.mod_eq_of_lt hc]
  have e2 : (r * nx + c) / nx = r := by
    rw [Nat.mul_comm, Nat.mul_add_div hnx0, Nat.div_eq_of_lt hc]; simp
  refine ⟨gridCell b W H nx (r * nx + c), ?_, ?_, rfl, ?_, ?_, ?_, ?_, ?_, ?_⟩
  · simp [hi]
  · obtain ⟨⟨h0, h1⟩, -⟩ := C01_longitude_domain (b.longMin + (((r * nx + c) % nx : ℕ) : ℚ) * W)
    refine ⟨by simp only [gridCell]; linarith, h0, h1, ?_, ?_, hv.2.2.2.2.2⟩
    · simp only [gridCell]; split <;> linarith
    · simp only [gridCell]; split <;> linarith
  · rw [Boundary.width_eq, eastEdge_gridCell b hW hW1]; ring
  · simp only [Boundary.height, gridCell]; ring
  · simp only [gridCell, e2]
  · simp only [gridCell, e2]; ring
  · obtain ⟨-, ⟨k, hk⟩, -⟩ := C01_longitude_domain (b.longMin + c * W)
    simp only [gridCell, e1]; exact ⟨k, hk⟩
  · obtain ⟨-, ⟨k, hk⟩, -⟩ := C01_longitude_domain (b.longMin + c * W)
    simp only [gridCell, e1]
    split
    · exact ⟨k, by rw [hk]; ring⟩
    · exact ⟨k - 1, by rw [hk]; push_cast; ring⟩

/-- A region across the antimeridian, three columns by two rows. -/
example : MeshBuilder.initializeCells ⟨-60, -50, 170, -160, [1, 2]⟩ 10 5 = .ok
    [⟨-60, -55, 170, 180, [1, 2]⟩, ⟨-60, -55, 180, -170, [1, 2]⟩, ⟨-60, -55, -170, -160, [1, 2]⟩,
     ⟨-55, -50, 170, 180, [1, 2]⟩, ⟨-55, -50, 180, -170, [1, 2]⟩, ⟨-55, -50, -170, -160, [1, 2]⟩] := by
  decide +kernel

/-- C08 fails for an accepted global region whose width is no multiple of the cell width: the last
cell of a row overlaps the first one beyond the antimeridian. -/
theorem C08_false : ∃ b W H cells, Valid b ∧ 0 < W ∧ 0 < H ∧ MeshBuilder.validateBounds b W H = .ok () ∧
    MeshBuilder.initializeCells b W H = .ok cells ∧
    ∃ c c', c ∈ cells ∧ c' ∈ cells ∧ c ≠ c' ∧ ∃ x y, HCovers c x y ∧ HCovers c' x y := by
  refine ⟨⟨0, 10, -180, 180, []⟩, 200, 10, [⟨0, 10, -180, 20, []⟩, ⟨0, 10, 20, -140, []⟩], by norm_num [Valid],
    by norm_num, by norm_num, by decide +kernel, by decide +kernel,
    ⟨0, 10, -180, 20, []⟩, ⟨0, 10, 20, -140, []⟩, by simp, by simp, by decide +kernel, -150, 5, ?_, ?_⟩
  · refine ⟨⟨0, ?_, ?_⟩, by norm_num, by norm_num⟩ <;> norm_num [eastEdge]
  · refine ⟨⟨1, ?_, ?_⟩, by norm_num, by norm_num⟩ <;> norm_num [eastEdge]

end Verif
