import Verif.Proof.MeshInv

/-!
# The freshly built mesh satisfies the invariants
-/

namespace Verif
open Spec

variable {D : Type}

/-- Taking apart a successful construction. -/
theorem init_inv {b : Boundary} {W H : ℚ} {initData : Boundary → D} {depth : ℕ} {m : MeshState D}
    (h : MeshBuilder.init b W H initData depth = .ok m) :
    ∃ boxes g glob, MeshBuilder.validateBounds b W H = .ok () ∧ MeshBuilder.initializeCells b W H = .ok boxes ∧
      MeshBuilder.checkGlobalMesh b boxes.length (pyInt (b.width / W)) (Graph.initialise boxes.length (b.width / W)) = .ok (g, glob) ∧
      m = { bounds := b, cells := boxes.mapIdx (fun i cb => some { bounds := cb, id := i, data := initData cb }),
            graph := { g with isGlobal := glob }, maxDepth := depth } := by
  unfold MeshBuilder.init at h
  simp only [bind, Except.bind, pure, Except.pure] at h
  split at h
  · cases h
  · rename_i u hu
    split at h
    · cases h
    · rename_i boxes hb
      split at h
      · cases h
      · rename_i r hr
        obtain ⟨g, glob⟩ := r
        cases h
        exact ⟨boxes, g, glob, hu, hb, hr, rfl⟩

theorem live_init {boxes : List Boundary} {b : Boundary} {initData : Boundary → D} {g : Graph} {depth i : ℕ} {c : CellBox D} :
    Live { bounds := b, cells := boxes.mapIdx (fun i cb => some { bounds := cb, id := i, data := initData cb }),
            graph := g, maxDepth := depth } i c ↔
      ∃ cb, boxes[i]? = some cb ∧ c = { bounds := cb, id := i, data := initData cb } := by
  unfold Live
  simp only [List.getElem?_mapIdx]
  rcases h : boxes[i]? with _ | cb
  · simp
  · simp [eq_comm]

/-- The cell invariant holds initially. -/
theorem CellsOK.init {b : Boundary} (hv : Valid b) (hd : ¬ (b.longMin = 180 ∧ b.longMax = -180)) {W H : ℚ} (hW : 0 < W)
    (hH : 0 < H) {nx ny : ℕ} (hnx : b.width = nx * W) (hny : b.height = ny * H) {initData : Boundary → D} {depth : ℕ}
    {m : MeshState D} (h : MeshBuilder.init b W H initData depth = .ok m) :
    CellsOK b W H m ∧ m.cells.length = ny * nx ∧ ∀ i c, Live m i c → c.depth = 0 ∧ c.anc = [] ∧ c.data = initData c.bounds := by
  obtain ⟨boxes, g, glob, -, hb, -, rfl⟩ := init_inv h
  obtain ⟨cells, hc, hlen, hT, hcell⟩ := C08_initial_grid_partial b hv hd W H hW hH nx ny hnx hny
  rw [hb] at hc
  cases hc
  have hpos := (C04_geometry_partial b hv hd).1
  have hnx0 : 0 < nx := by
    rcases Nat.eq_zero_or_pos nx with h | h
    · subst h; simp at hnx; linarith [hpos.1]
    · exact h
  have all : ∀ (i : ℕ) (q : Boundary), boxes[i]? = some q → Valid q ∧ q.time = b.time ∧ q.width = W ∧ q.height = H := by
    intro i q hi
    obtain ⟨r, c, hc, rfl⟩ := idx_exists hnx0 i
    have hi' := (List.getElem?_eq_some_iff.1 hi).1
    rw [hlen, idx_lt hc] at hi'
    obtain ⟨q', hq', h1, h2, h3, h4, -⟩ := hcell r c hi' hc
    rw [hi] at hq'; cases hq'
    exact ⟨h1, h2, h3, h4⟩
  obtain ⟨hT1, hT2⟩ := hT
  refine ⟨?_, by simp [hlen], ?_⟩
  · constructor
    · rfl
    · rintro i c hl
      obtain ⟨cb, -, rfl⟩ := live_init.1 hl
      rfl
    · rintro i c hl
      obtain ⟨cb, hi, rfl⟩ := live_init.1 hl
      obtain ⟨h1, h2, h3, h4⟩ := all i cb hi
      refine ⟨h1, ?_⟩
      rintro ⟨q1, q2⟩
      have : cb.width = 0 := by unfold Boundary.width; rw [q1, q2]; norm_num
      linarith
    · rintro i c hl
      obtain ⟨cb, hi, rfl⟩ := live_init.1 hl
      exact (all i cb hi).2.1
    · rintro i c hl
      obtain ⟨cb, hi, rfl⟩ := live_init.1 hl
      obtain ⟨h1, h2, h3, h4⟩ := all i cb hi
      simp [h3, h4]
    · intro x y
      rw [hT1 x y]
      constructor
      · rintro ⟨cb, hm, hc⟩
        obtain ⟨i, hi⟩ := List.mem_iff_getElem?.1 hm
        exact ⟨i, _, live_init.2 ⟨cb, hi, rfl⟩, hc⟩
      · rintro ⟨i, c, hl, hc⟩
        obtain ⟨cb, hi, rfl⟩ := live_init.1 hl
        exact ⟨cb, List.mem_iff_getElem?.2 ⟨i, hi⟩, hc⟩
    · intro i j c c' x y hi hj hc hc'
      obtain ⟨cb, hi', rfl⟩ := live_init.1 hi
      obtain ⟨cb', hj', rfl⟩ := live_init.1 hj
      obtain ⟨hi1, hi2⟩ := List.getElem?_eq_some_iff.1 hi'
      obtain ⟨hj1, hj2⟩ := List.getElem?_eq_some_iff.1 hj'
      rw [List.pairwise_iff_getElem] at hT2
      rcases lt_trichotomy i j with hlt | heq | hgt
      · exact (hT2 i j hi1 hj1 hlt x y (by rw [hi2, hj2]; exact ⟨hc, hc'⟩)).elim
      · exact heq
      · exact (hT2 j i hj1 hi1 hgt x y (by rw [hi2, hj2]; exact ⟨hc', hc⟩)).elim
    · unfold totalArea
      simp only
      have : (boxes.mapIdx (fun i cb => some ({ bounds := cb, id := i, data := initData cb } : CellBox D))).map
          cellArea =
          List.replicate boxes.length (W * H) := by
        apply List.ext_getElem
        · simp
        · intro i h1 h2
          simp only [List.getElem_map, List.getElem_mapIdx, List.getElem_replicate, cellArea]
          have h1' : i < boxes.length := by simpa using h1
          obtain ⟨-, -, h3, h4⟩ := all i boxes[i] (List.getElem?_eq_getElem h1')
          rw [h3, h4]
      rw [this, List.sum_replicate, hlen, hnx, hny]
      simp only [nsmul_eq_mul]
      push_cast; ring
  · rintro i c hl
    obtain ⟨cb, hi, rfl⟩ := live_init.1 hl
    exact ⟨rfl, rfl, rfl⟩

/-- The cell invariant holds for every reachable mesh. -/
theorem CellsOK.splits {b : Boundary} {W H : ℚ} {ops : DataOps D} {m m' : MeshState D} (h : CellsOK b W H m)
    (hs : Splits ops m m') : CellsOK b W H m' := by
  induction hs with
  | refl => exact h
  | step k _ he ih => exact ih.split he

theorem validateBounds_ok {b : Boundary} {W H : ℚ} (hW : 0 < W)
    (hH : 0 < H) {nx ny : ℕ} (hnx : b.width = nx * W) (hny : b.height = ny * H) (hw : 0 < b.width) (hw' : b.width ≤ 360) :
    MeshBuilder.validateBounds b W H = .ok () := by
  have h1 : pyMod (b.latMax - b.latMin) H = 0 := by
    rw [pyMod_eq_zero_iff hH.ne']
    exact ⟨ny, by unfold Boundary.height at hny; rw [hny]; push_cast; ring⟩
  have h2 : pyMod (pyMod (b.longMax - b.longMin) 360) W = 0 := by
    have e : ∃ n : ℤ, b.longMax - b.longMin = b.width + 360 * n := by
      rw [Boundary.width_eq]; unfold eastEdge
      split
      · exact ⟨0, by simp⟩
      · exact ⟨-1, by push_cast; ring⟩
    obtain ⟨n, hn⟩ := e
    rw [hn, pyMod_add_int_mul (by norm_num)]
    rcases eq_or_lt_of_le hw' with h | h
    · have : pyMod b.width 360 = 0 := by rw [h]; norm_num [pyMod]
      rw [this, pyMod_eq_zero_iff hW.ne']; exact ⟨0, by simp⟩
    · rw [pyMod_of_range hw.le h, pyMod_eq_zero_iff hW.ne']
      exact ⟨nx, by rw [hnx]; push_cast; ring⟩
  unfold MeshBuilder.validateBounds
  simp [hW.ne', hH.ne', h1, h2]

/-- In a region that does not cross the antimeridian the rectangle of a grid cell is a slot of the grid. -/
theorem rectOf_gridCell {b : Boundary} (hv : Valid b) {W H : ℚ} (hW : 0 < W) {nx r c : ℕ}
    (hx : b.longMin + nx * W ≤ 180) (hc : c < nx) :
    rectOf (gridCell b W H nx (r * nx + c)) = gridRect b.longMin b.latMin W H r c := by
  have e1 : (r * nx + c) % nx = c := by rw [Nat.mul_comm, Nat.mul_add_mod, Nat.mod_eq_of_lt hc]
  have e2 : (r * nx + c) / nx = r := by
    rw [Nat.mul_comm, Nat.mul_add_div (by omega), Nat.div_eq_of_lt hc]; simp
  have hc' : (c : ℚ) + 1 ≤ nx := by exact_mod_cast hc
  have hm : ((c : ℚ) + 1) * W ≤ nx * W := mul_le_mul_of_nonneg_right hc' hW.le
  have hc0 : 0 ≤ (c : ℚ) * W := by positivity
  have hl : longitudeDomain (b.longMin + (c : ℚ) * W) = b.longMin + (c : ℚ) * W := by
    apply (C01_longitude_domain _).2.2.1
    · linarith [hv.2.1]
    · linarith
  unfold rectOf gridCell gridRect
  simp only [e1, e2, hl]
  rw [if_pos (by linarith)]

/-- Initial state of a mesh over a region that does not cross the antimeridian: construction succeeds
and the graph is exact; it is flagged global exactly for -180:180. -/
theorem init_exact {b : Boundary} (hv : Valid b) (hcr : b.longMin < b.longMax) {W H : ℚ} (hW : 0 < W)
    (hH : 0 < H) {nx ny : ℕ} (hnx : b.width = nx * W) (hny : b.height = ny * H)
    (hglob : b.longMin = -180 ∧ b.longMax = 180 → 2 ≤ nx) (initData : Boundary → D) (depth : ℕ) :
    ∃ m, MeshBuilder.init b W H initData depth = .ok m ∧ m.maxDepth = depth ∧
      m.graph.isGlobal = decide (b.longMin = -180 ∧ b.longMax = 180) ∧
      GraphExact (decide (b.longMin = -180 ∧ b.longMax = 180)) m := by
  have hd : ¬ (b.longMin = 180 ∧ b.longMax = -180) := by rintro ⟨h1, h2⟩; linarith
  have hpos := (C04_geometry_partial b hv hd).1
  have hw := width_of_lt hcr
  have hwe := Boundary.width_eq b
  have hnx0 : 0 < nx := by
    rcases Nat.eq_zero_or_pos nx with h | h
    · subst h; simp at hnx; linarith [hpos.1]
    · exact h
  have hW1 : W ≤ 360 := by
    have h1 : (1 : ℚ) ≤ nx := by exact_mod_cast hnx0
    have : 1 * W ≤ nx * W := mul_le_mul_of_nonneg_right h1 hW.le
    linarith
  have hE : b.longMin + nx * W ≤ 180 := by rw [← hnx, hw]; linarith [hv.2.2.2.2.1]
  have hgw : b.width / W = nx := by rw [hnx]; field_simp
  have hcells := initializeCells_eq b hv hW hH hW1 nx ny (by linarith) hny
  have hval := validateBounds_ok hW hH hnx hny hpos.1 hpos.2
  have hlr : ∀ (g : Graph), liveRect (D := D) { bounds := b, cells := ((List.range (ny * nx)).map (gridCell b W H nx)).mapIdx (fun i cb => some { bounds := cb, id := i, data := initData cb }), graph := g, maxDepth := depth }
      = gridCells b.longMin b.latMin W H nx ny := by
    intro g
    funext i
    obtain ⟨r, c, hc, rfl⟩ := idx_exists hnx0 i
    rw [gridCells_idx hc]
    unfold liveRect
    simp only [List.getElem?_mapIdx, List.getElem?_map]
    by_cases hr : r < ny
    · have hi := (idx_lt (ny := ny) (r := r) hc).2 hr
      simp only [List.getElem?_range hi, Option.map_some, hr, if_true]
      rw [rectOf_gridCell hv hW hE hc]
    · have hi : ny * nx ≤ r * nx + c := by
        have := (idx_lt (ny := ny) (r := r) hc).not.2 hr
        omega
      simp [hi, hr]
  by_cases hgl : b.longMin = -180 ∧ b.longMax = 180
  · have hw360 : (nx : ℚ) * W = 360 := by rw [← hnx, hw, hgl.1, hgl.2]; norm_num
    obtain ⟨g', e, hex⟩ := initial_exact_global (y0 := b.latMin) (ny := ny) hW hH (hglob hgl) hw360
    have hcg : MeshBuilder.checkGlobalMesh b (ny * nx) (pyInt (b.width / W)) (Graph.initialise (ny * nx) (b.width / W)) = .ok (g', true) := by
      unfold MeshBuilder.checkGlobalMesh
      rw [if_pos (by rw [hgl.1, hgl.2]; norm_num), hgw]
      have hp : pyInt (nx : ℚ) = (nx : ℤ) := by
        unfold pyInt
        rw [if_pos (by positivity)]
        exact Int.floor_natCast nx
      simp only [hp]
      have h1 : ¬ ((nx : ℤ) = 0) := by omega
      have h2 : ¬ ((nx : ℤ) < 0) := by omega
      simp only [h1, h2, if_false, Int.toNat_natCast]
      rw [sliceFrom_eq nx ny 0 hnx0, sliceFrom_eq nx ny (nx - 1) (by omega)]
      simp only [List.length_map, List.length_range, bind, Except.bind]
      rw [e]; rfl
    refine ⟨{ bounds := b, cells := ((List.range (ny * nx)).map (gridCell b W H nx)).mapIdx (fun i cb => some { bounds := cb, id := i, data := initData cb }), graph := { g' with isGlobal := true }, maxDepth := depth }, ?_, ?_, ?_, ?_⟩
    · unfold MeshBuilder.init
      simp only [bind, Except.bind, hval, hcells, List.length_map, List.length_range, hcg]
      rfl
    · rfl
    · simp [hgl]
    · unfold GraphExact
      rw [hlr]
      simp only [hgl, and_self, decide_true]
      exact hex
  · have hcg : MeshBuilder.checkGlobalMesh b (ny * nx) (pyInt (b.width / W)) (Graph.initialise (ny * nx) (b.width / W)) =
        .ok (Graph.initialise (ny * nx) (b.width / W), false) := by
      unfold MeshBuilder.checkGlobalMesh
      rw [if_neg]
      rintro ⟨h1, h2⟩
      rcases abs_cases b.longMin with ⟨h3, _⟩ | ⟨h3, _⟩
      · linarith
      · exact hgl ⟨by linarith, by linarith⟩
    refine ⟨{ bounds := b, cells := ((List.range (ny * nx)).map (gridCell b W H nx)).mapIdx (fun i cb => some { bounds := cb, id := i, data := initData cb }), graph := { Graph.initialise (ny * nx) (b.width / W) with isGlobal := false }, maxDepth := depth }, ?_, ?_, ?_, ?_⟩
    · unfold MeshBuilder.init
      simp only [bind, Except.bind, hval, hcells, List.length_map, List.length_range, hcg]
      rfl
    · rfl
    · simp [hgl]
    · unfold GraphExact
      rw [hlr]
      simp only [hgl, decide_false]
      have := initial_exact (y0 := b.latMin) (ny := ny) hW hH hnx0 hv.2.1 hE
      rw [hgw]
      exact this

end Verif
