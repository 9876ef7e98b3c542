import Verif.Proof.MeshSplit
import Mathlib.Data.List.Nodup

/-!
# C10, C11, C15-C17, C19, C20, C23: the mesh under construction and splitting
-/

namespace Verif
open Spec

variable {D : Type}

/-- A region and cell size that give a proper grid: a valid region of positive width, positive cell
sizes and, if the region is the full circle (where the code does not check it, see C09), a cell width
that divides it. -/
structure ProperGrid (b : Boundary) (W H : ℚ) : Prop where
  valid : Valid b
  nondeg : ¬ (b.longMin = 180 ∧ b.longMax = -180)
  wpos : 0 < W
  hpos : 0 < H
  divides : b.width = 360 → ∃ n : ℕ, b.width = n * W

theorem ProperGrid.fits {b : Boundary} {W H : ℚ} (hp : ProperGrid b W H) (hacc : MeshBuilder.validateBounds b W H = .ok ()) :
    ∃ nx ny : ℕ, 0 < nx ∧ b.width = nx * W ∧ b.height = ny * H := by
  obtain ⟨hv, hd, hW, hH, hdiv⟩ := hp
  have hpos := (C04_geometry_partial b hv hd).1
  rcases lt_or_eq_of_le hpos.2 with h | h
  · exact C09_cell_sizes_partial b hv hd W H hW hH h hacc
  · obtain ⟨nx, hnx⟩ := hdiv h
    have hnx0 : 0 < nx := by
      rcases Nat.eq_zero_or_pos nx with h | h
      · subst h; simp at hnx; linarith [hpos.1]
      · exact h
    unfold MeshBuilder.validateBounds at hacc
    have hm : pyMod (b.latMax - b.latMin) H = 0 := by
      split at hacc
      · cases hacc
      · split at hacc
        · cases hacc
        · split at hacc
          · cases hacc
          · split at hacc
            · cases hacc
            · rename_i h; simpa using h
    obtain ⟨m, hm⟩ := (pyMod_eq_zero_iff hH.ne').1 hm
    have hm0 : 0 ≤ m := by
      by_contra hneg
      push Not at hneg
      have : (m : ℚ) < 0 := by exact_mod_cast hneg
      have : H * m < 0 := mul_neg_of_pos_of_neg hH this
      linarith [hv.1]
    refine ⟨nx, m.toNat, hnx0, hnx, ?_⟩
    have : ((m.toNat : ℕ) : ℚ) = (m : ℚ) := by
      have : ((m.toNat : ℕ) : ℤ) = m := Int.toNat_of_nonneg hm0
      exact_mod_cast this
    rw [this]; unfold Boundary.height; linarith

theorem reach_cells {ops : DataOps D} {b : Boundary} {W H : ℚ} {initData : Boundary → D} {depth : ℕ} {m : MeshState D}
    (hp : ProperGrid b W H) (h : Reach ops b W H initData depth m) : CellsOK b W H m := by
  obtain ⟨m0, h0, hs⟩ := h
  obtain ⟨_, _, _, hval, _⟩ := init_inv h0
  obtain ⟨nx, ny, -, hnx, hny⟩ := hp.fits hval
  exact (CellsOK.init hp.valid hp.nondeg hp.wpos hp.hpos hnx hny h0).1.splits hs

theorem Spec.Splits.trans {ops : DataOps D} {m m' m'' : MeshState D} (h : Splits ops m m') (h' : Splits ops m' m'') :
    Splits ops m m'' := by
  induction h' with
  | refl => exact h
  | step k _ he ih => exact .step k ih he

/-- Is the region the whole band -180:180? -/
def globalRegion (b : Boundary) : Bool := decide (b.longMin = -180 ∧ b.longMax = 180)

theorem reach_graph {ops : DataOps D} {b : Boundary} {W H : ℚ} {initData : Boundary → D} {depth : ℕ} {m : MeshState D}
    (hp : ProperGrid b W H) (hcr : b.longMin < b.longMax) (hcol : globalRegion b = true → W ≤ 180)
    (h : Reach ops b W H initData depth m) : CellsOK b W H m ∧ GraphOK (globalRegion b) m := by
  obtain ⟨m0, h0, hs⟩ := h
  obtain ⟨_, _, _, hval, _⟩ := init_inv h0
  obtain ⟨nx, ny, -, hnx, hny⟩ := hp.fits hval
  have hc0 := (CellsOK.init hp.valid hp.nondeg hp.wpos hp.hpos hnx hny h0).1
  have h2 : b.longMin = -180 ∧ b.longMax = 180 → 2 ≤ nx := by
    intro hg
    have hW := hcol (by simpa [globalRegion] using hg)
    have hw : b.width = 360 := by rw [width_of_lt hcr, hg.1, hg.2]; norm_num
    by_contra hlt
    have : (nx : ℚ) ≤ 1 := by exact_mod_cast (by omega : nx ≤ 1)
    have : (nx : ℚ) * W ≤ 1 * W := mul_le_mul_of_nonneg_right this hp.wpos.le
    linarith
  obtain ⟨m1, e1, -, hg1, hg2⟩ := init_exact hp.valid hcr hp.wpos hp.hpos hnx hny h2 initData depth
  rw [h0] at e1
  cases e1
  exact GraphOK.splits hc0 ⟨hg1, hg2⟩ hs

/-! ## A concrete mesh used in the examples: a 2 by 2 grid, one cell split, then one of its quarters -/

/-- Data sources that play no role. -/
def unitOps : DataOps Unit := { trim := fun _ _ => (), nConds := fun _ => [], shouldSplit := fun _ _ _ => .ok false }

/-- The region of the examples. -/
def exRegion : Boundary := ⟨-60, -50, 0, 20, []⟩

theorem exRegion_proper : ProperGrid exRegion 10 5 := by
  refine ⟨by norm_num [Valid, exRegion], by norm_num [exRegion], by norm_num, by norm_num, ?_⟩
  intro h
  have : exRegion.width = 20 := by decide +kernel
  rw [this] at h; norm_num at h

/-- The whole band of the examples. -/
def exBand : Boundary := ⟨-60, -50, -180, 180, []⟩

theorem exBand_proper : ProperGrid exBand 90 5 := by
  refine ⟨by norm_num [Valid, exBand], by norm_num [exBand], by norm_num, by norm_num, ?_⟩
  intro _
  refine ⟨4, ?_⟩
  have : exBand.width = 360 := by decide +kernel
  rw [this]; norm_num

/-- A neighbour list of a mesh (empty when the computation raised). -/
def listOf (r : Py (MeshState Unit)) (i : ℕ) (d : Dir) : Option (List ℕ) :=
  match r with
  | .ok m => (nbrs m i).map (fun f => f d)
  | .error _ => none

/-- Run a list of splits. -/
def runSplits (r : Py (MeshState Unit)) (l : List ℕ) : Py (MeshState Unit) := do
  let m ← r
  l.foldlM (fun m k => MeshBuilder.splitAndReplace unitOps m k) m

theorem runSplits_reach {b : Boundary} {W H : ℚ} (l : List ℕ) {m : MeshState Unit}
    (h : runSplits (MeshBuilder.init b W H (fun _ => ()) 3) l = .ok m) : Reach unitOps b W H (fun _ => ()) 3 m := by
  unfold runSplits at h
  simp only [bind, Except.bind] at h
  split at h
  · cases h
  · rename_i m0 h0
    refine ⟨m0, h0, ?_⟩
    have gen : ∀ (l : List ℕ) (s : MeshState Unit), Splits unitOps m0 s →
        l.foldlM (fun m k => MeshBuilder.splitAndReplace unitOps m k) s = .ok m → Splits unitOps m0 m := by
      intro l
      induction l with
      | nil => intro s hs h; cases h; exact hs
      | cons k l ih =>
        intro s hs h
        simp only [List.foldlM_cons, bind, Except.bind] at h
        split at h
        · cases h
        · rename_i s' hs'
          exact ih s' (.step k hs hs') h
    exact gen l m0 (.refl m0) h

/-- The mesh of the examples is reachable, and is not trivial: seven live cells at depth up to 2. -/
def exMesh : Py (MeshState Unit) := runSplits (MeshBuilder.init exRegion 10 5 (fun _ => ()) 3) [0, 7]

example : (exMesh.map (fun m => (List.range 13).map (liveRect m)) : Py (List (Option Rect))) =
    .ok [none, some ⟨10, 20, -60, -55⟩, some ⟨0, 10, -55, -50⟩, some ⟨10, 20, -55, -50⟩,
      some ⟨0, 5, -115/2, -55⟩, some ⟨5, 10, -115/2, -55⟩, some ⟨0, 5, -60, -115/2⟩, none,
      some ⟨5, 15/2, -235/4, -115/2⟩, some ⟨15/2, 10, -235/4, -115/2⟩,
      some ⟨5, 15/2, -60, -235/4⟩, some ⟨15/2, 10, -60, -235/4⟩, none] := by decide +kernel

theorem exMesh_ok : ∃ m, exMesh = .ok m ∧ Reach unitOps exRegion 10 5 (fun _ => ()) 3 m := by
  have : (match exMesh with | .ok _ => true | .error _ => false) = true := by decide +kernel
  rcases h : exMesh with e | m
  · rw [h] at this; cases this
  · exact ⟨m, rfl, runSplits_reach [0, 7] h⟩

/-- A global mesh with a cell at the antimeridian split twice. -/
def exGlobe : Py (MeshState Unit) := runSplits (MeshBuilder.init exBand 90 5 (fun _ => ()) 3) [3, 9]

theorem exGlobe_ok : ∃ m, exGlobe = .ok m ∧ Reach unitOps exBand 90 5 (fun _ => ()) 3 m := by
  have : (match exGlobe with | .ok _ => true | .error _ => false) = true := by decide +kernel
  rcases h : exGlobe with e | m
  · rw [h] at this; cases this
  · exact ⟨m, rfl, runSplits_reach [3, 9] h⟩

/-! ## C10, C11 -/

/-- C10: whenever construction accepts a region that neither crosses the antimeridian nor is the
whole band, the mesh is not flagged global and its neighbour graph is exactly geometric touching of
its cells, for all cells and directions. -/
theorem C10_initial_graph (b : Boundary) (W H : ℚ) (hv : Valid b) (hcr : b.longMin < b.longMax)
    (hng : ¬ (b.longMin = -180 ∧ b.longMax = 180)) (hW : 0 < W) (hH : 0 < H) (initData : Boundary → D) (depth : ℕ)
    (m : MeshState D) (h : MeshBuilder.init b W H initData depth = .ok m) :
    m.graph.isGlobal = false ∧ GraphExact false m := by
  have hp : ProperGrid b W H := by
    refine ⟨hv, by rintro ⟨h1, h2⟩; linarith, hW, hH, ?_⟩
    intro h
    rw [width_of_lt hcr] at h
    exact (hng ⟨by linarith [hv.2.1, hv.2.2.2.2.1], by linarith [hv.2.1, hv.2.2.2.2.1]⟩).elim
  have hg : globalRegion b = false := by simp only [globalRegion, hng, decide_false]
  have := (reach_graph (ops := ⟨fun _ d => d, fun _ => [], fun _ _ _ => .ok false⟩) hp hcr (by simp [hg])
    ⟨m, h, .refl m⟩).2
  rw [hg] at this
  exact this

/-- Beside C10: the construction also succeeds, for every grid of whole cells. -/
theorem C10_construction_succeeds (b : Boundary) (W H : ℚ) (hv : Valid b) (hcr : b.longMin < b.longMax)
    (hng : ¬ (b.longMin = -180 ∧ b.longMax = 180)) (hW : 0 < W) (hH : 0 < H) (nx ny : ℕ)
    (hnx : b.width = nx * W) (hny : b.height = ny * H) (initData : Boundary → D) (depth : ℕ) :
    ∃ m, MeshBuilder.init b W H initData depth = .ok m ∧ m.cells.length = ny * nx := by
  obtain ⟨m, h, -⟩ := init_exact hv hcr hW hH hnx hny (fun h => (hng h).elim) initData depth
  exact ⟨m, h, (CellsOK.init hv (by rintro ⟨h1, h2⟩; linarith) hW hH hnx hny h).2.1⟩

example : listOf (MeshBuilder.init exRegion 10 5 (fun _ => ()) 3) 0 .northEast = some [3] ∧
    listOf (MeshBuilder.init exRegion 10 5 (fun _ => ()) 3) 0 .north = some [2] ∧
    listOf (MeshBuilder.init exRegion 10 5 (fun _ => ()) 3) 0 .west = some [] ∧
    exRegion.longMin < exRegion.longMax ∧ ¬ (exRegion.longMin = -180 ∧ exRegion.longMax = 180) := by decide +kernel

/-- C11: for the whole band with two or more columns construction succeeds, the mesh is flagged
global, and the graph is exactly adjacency on the cylinder. -/
theorem C11_global_graph (b : Boundary) (W H : ℚ) (hv : Valid b) (hglob : b.longMin = -180 ∧ b.longMax = 180)
    (hW : 0 < W) (hH : 0 < H) (nx ny : ℕ) (hnx : (360 : ℚ) = nx * W) (hcol : 2 ≤ nx) (hny : b.height = ny * H)
    (initData : Boundary → D) (depth : ℕ) :
    ∃ m, MeshBuilder.init b W H initData depth = .ok m ∧ m.cells.length = ny * nx ∧ m.graph.isGlobal = true ∧ GraphExact true m := by
  have hcr : b.longMin < b.longMax := by rw [hglob.1, hglob.2]; norm_num
  have hw : b.width = nx * W := by rw [width_of_lt hcr, hglob.1, hglob.2, ← hnx]; norm_num
  obtain ⟨m, h, -, h1, h2⟩ := init_exact hv hcr hW hH hw hny (fun _ => hcol) initData depth
  refine ⟨m, h, (CellsOK.init hv (by rintro ⟨h1, h2⟩; linarith) hW hH hw hny h).2.1, ?_, ?_⟩
  · simpa [hglob] using h1
  · simpa [hglob] using h2

example : listOf (MeshBuilder.init exBand 90 5 (fun _ => ()) 3) 0 .west = some [3] ∧
    listOf (MeshBuilder.init exBand 90 5 (fun _ => ()) 3) 3 .northEast = some [4] ∧
    (360 : ℚ) = (4 : ℕ) * 90 ∧ exBand.height = (2 : ℕ) * 5 := by decide +kernel

/-- C11, the flag (partial): whatever region is accepted, the mesh is flagged global exactly when the eastern
edge is 180 and the western edge is -180 (or 180: the full circle starting at the antimeridian).  Missing: that
no other region than -180:180 is flagged, which is false for that circle. -/
theorem C11_flag_partial (b : Boundary) (W H : ℚ) (initData : Boundary → D) (depth : ℕ) (m : MeshState D)
    (h : MeshBuilder.init b W H initData depth = .ok m) :
    m.graph.isGlobal = true ↔ b.longMax = 180 ∧ (b.longMin = -180 ∨ b.longMin = 180) := by
  obtain ⟨boxes, g, glob, -, -, hc, rfl⟩ := init_inv h
  have key : (b.longMax = |b.longMin| ∧ |b.longMin| = 180) ↔ b.longMax = 180 ∧ (b.longMin = -180 ∨ b.longMin = 180) := by
    rcases abs_cases b.longMin with ⟨h1, h2⟩ | ⟨h1, h2⟩ <;> rw [h1] <;> constructor
    · rintro ⟨h3, h4⟩; exact ⟨by linarith, Or.inr h4⟩
    · rintro ⟨h3, h4 | h4⟩ <;> exact ⟨by linarith, by linarith⟩
    · rintro ⟨h3, h4⟩; exact ⟨by linarith, Or.inl (by linarith)⟩
    · rintro ⟨h3, h4 | h4⟩ <;> exact ⟨by linarith, by linarith⟩
  rw [← key]
  unfold MeshBuilder.checkGlobalMesh at hc
  simp only [bind, Except.bind, pure, Except.pure] at hc
  split at hc
  · rename_i hyes
    simp only [hyes, and_self, iff_true]
    split at hc
    · cases hc
    · split at hc
      · cases hc; rfl
      · split at hc
        · cases hc
        · cases hc; rfl
  · rename_i hno
    cases hc
    simp [hno]

example : (MeshBuilder.init exBand 90 5 (fun _ => ()) 3).map (fun m => m.graph.isGlobal) = .ok true ∧
    (MeshBuilder.init exRegion 10 5 (fun _ => ()) 3).map (fun m => m.graph.isGlobal) = .ok false := by decide +kernel

/-- C11 is false for the flag: the region 180:180 is accepted and flagged as well. -/
theorem C11_other_region_false : ∃ b : Boundary, Valid b ∧ b.longMin ≠ -180 ∧
    (MeshBuilder.init b 90 5 (fun _ => ()) 3).map (fun m => m.graph.isGlobal) = .ok true :=
  ⟨⟨0, 10, 180, 180, []⟩, by refine ⟨?_, ?_⟩ <;> simp, by norm_num, by decide +kernel⟩

/-! ## C15 -/

/-- C15: after any sequence of splits every point of the region is in exactly one live half-open
cell, no live cell sticks out, and the areas of the live cells add up to the area of the region.
Regions crossing the antimeridian are included. -/
theorem C15_tiling_partial (ops : DataOps D) (b : Boundary) (W H : ℚ) (hp : ProperGrid b W H) (initData : Boundary → D) (depth : ℕ)
    (m : MeshState D) (h : Reach ops b W H initData depth m) :
    MeshTiles m b ∧ totalArea m = b.width * b.height ∧
      ∀ i j c c' x y, Live m i c → Live m j c' → HCovers c.bounds x y → HCovers c'.bounds x y → i = j := by
  have hc := reach_cells hp h
  refine ⟨⟨?_, ?_⟩, hc.area, hc.disj⟩
  · intro x y hxy
    obtain ⟨i, c, hl, hcov⟩ := (hc.cover x y).1 hxy
    refine ⟨i, ⟨c, hl, hcov⟩, ?_⟩
    rintro j ⟨c', hl', hcov'⟩
    exact hc.disj j i c' c x y hl' hl hcov' hcov
  · intro i c x y hl hcov
    exact (hc.cover x y).2 ⟨i, c, hl, hcov⟩

example : ∃ m, exMesh = .ok m ∧ ProperGrid exRegion 10 5 ∧ Reach unitOps exRegion 10 5 (fun _ => ()) 3 m := by
  obtain ⟨m, h1, h2⟩ := exMesh_ok
  exact ⟨m, h1, exRegion_proper, h2⟩

/-! ## C16, C17 -/

/-- C16: in a regional mesh that does not cross the antimeridian, after any sequence of splits, the
graph is exactly geometric touching, and splitting any live cell never raises. -/
theorem C16_regional_graph (ops : DataOps D) (b : Boundary) (W H : ℚ) (hp : ProperGrid b W H) (hcr : b.longMin < b.longMax)
    (hng : ¬ (b.longMin = -180 ∧ b.longMax = 180)) (initData : Boundary → D) (depth : ℕ)
    (m : MeshState D) (h : Reach ops b W H initData depth m) :
    GraphExact false m ∧ ∀ k c, Live m k c → ∃ m', MeshBuilder.splitAndReplace ops m k = .ok m' := by
  have hg : globalRegion b = false := by simp only [globalRegion, hng, decide_false]
  obtain ⟨h1, h2⟩ := reach_graph hp hcr (by simp [hg]) h
  refine ⟨by rw [hg] at h2; exact h2.2, ?_⟩
  intro k c hk
  obtain ⟨m', e, -⟩ := GraphOK.split ops h1 h2 hk
  exact ⟨m', e⟩

example : listOf exMesh 1 .west = some [5, 9, 11] ∧ listOf exMesh 5 .south = some [8, 9] ∧
    listOf exMesh 8 .northWest = some [4] ∧ listOf exMesh 11 .east = some [1] ∧
    ¬ (exRegion.longMin = -180 ∧ exRegion.longMax = 180) := by decide +kernel

/-- C17: the same on the cylinder for the whole band with at least two columns. -/
theorem C17_global_graph (ops : DataOps D) (b : Boundary) (W H : ℚ) (hp : ProperGrid b W H)
    (hglob : b.longMin = -180 ∧ b.longMax = 180) (hcol : W ≤ 180) (initData : Boundary → D) (depth : ℕ)
    (m : MeshState D) (h : Reach ops b W H initData depth m) :
    GraphExact true m ∧ ∀ k c, Live m k c → ∃ m', MeshBuilder.splitAndReplace ops m k = .ok m' := by
  have hg : globalRegion b = true := by simp [globalRegion, hglob]
  have hcr : b.longMin < b.longMax := by rw [hglob.1, hglob.2]; norm_num
  obtain ⟨h1, h2⟩ := reach_graph hp hcr (fun _ => hcol) h
  refine ⟨by rw [hg] at h2; exact h2.2, ?_⟩
  intro k c hk
  obtain ⟨m', e, -⟩ := GraphOK.split ops h1 h2 hk
  exact ⟨m', e⟩

example : listOf exGlobe 0 .west = some [11, 13, 15] ∧ listOf exGlobe 13 .northEast = some [4] ∧
    exBand.longMin = -180 ∧ exBand.longMax = 180 := by decide +kernel

/-! ## C19 -/

/-- C19: well-formedness of the graph of every reachable mesh (regional or global). -/
theorem C19_well_formed_partial (ops : DataOps D) (b : Boundary) (W H : ℚ) (hp : ProperGrid b W H) (hcr : b.longMin < b.longMax)
    (hcol : b.longMin = -180 ∧ b.longMax = 180 → W ≤ 180) (initData : Boundary → D) (depth : ℕ)
    (m : MeshState D) (h : Reach ops b W H initData depth m) :
    (∀ i, (nbrs m i).isSome ↔ ∃ c, Live m i c) ∧
    (∀ i f d, nbrs m i = some f → (f d).Nodup ∧ i ∉ f d ∧ ∀ j ∈ f d, ∃ c, Live m j c) ∧
    (∀ i j f f' d, nbrs m i = some f → nbrs m j = some f' → (j ∈ f d ↔ i ∈ f' d.opp)) := by
  have ⟨_, hG⟩ := reach_graph hp hcr (by intro h; exact hcol (by simpa [globalRegion] using h)) h
  have hE := hG.2
  have live_iff : ∀ i, (liveRect m i).isSome ↔ ∃ c, Live m i c := by
    intro i
    constructor
    · intro hi
      obtain ⟨r, hr⟩ := Option.isSome_iff_exists.1 hi
      obtain ⟨c, hc, -⟩ := liveRect_some hr
      exact ⟨c, hc⟩
    · rintro ⟨c, hc⟩
      rw [liveRect_of_live hc]; rfl
  have getR : ∀ i f, nbrs m i = some f → ∃ a, liveRect m i = some a := by
    intro i f hf
    have := (hE.keys i).1 (by rw [hf]; rfl)
    exact Option.isSome_iff_exists.1 this
  refine ⟨fun i => (hE.keys i).trans (live_iff i), ?_, ?_⟩
  · intro i f d hf
    obtain ⟨a, ha⟩ := getR i f hf
    refine ⟨hE.nodup i f d hf, ?_, ?_⟩
    · intro hi
      obtain ⟨b', hb', hadj⟩ := (hE.mem i f d i a hf ha).1 hi
      rw [ha] at hb'; cases hb'
      exact not_adj_self (hE.ok i a ha) d hadj
    · intro j hj
      obtain ⟨b', hb', -⟩ := (hE.mem i f d j a hf ha).1 hj
      exact (live_iff j).1 (by rw [hb']; rfl)
  · intro i j f f' d hf hf'
    obtain ⟨a, ha⟩ := getR i f hf
    obtain ⟨a', ha'⟩ := getR j f' hf'
    rw [hE.mem i f d j a hf ha, hE.mem j f' d.opp i a' hf' ha', ha, ha']
    simp only [Option.some.injEq, exists_eq_left']
    exact (adj_opp _ d a a').symm

example : ∃ m, exGlobe = .ok m ∧ ProperGrid exBand 90 5 ∧ exBand.longMin < exBand.longMax ∧
    Reach unitOps exBand 90 5 (fun _ => ()) 3 m := by
  obtain ⟨m, h1, h2⟩ := exGlobe_ok
  exact ⟨m, h1, exBand_proper, by norm_num [exBand], h2⟩

/-! ## C20 -/

/-- C20, one split of any mesh: the cell `k` disappears, exactly four cells with the next four ids appear,
and all other entries of the list stay as they are. -/
theorem C20_split_step (ops : DataOps D) (m m' : MeshState D) (k : ℕ) (hs : MeshBuilder.splitAndReplace ops m k = .ok m') :
    m'.cells.length = m.cells.length + 4 ∧ m'.cells[k]? = some none ∧
    (∀ i, i < m.cells.length → i ≠ k → m'.cells[i]? = m.cells[i]?) ∧
    (∀ t, t < 4 → ∃ c, Live m' (m.cells.length + t) c ∧ c.id = m.cells.length + t) := by
  obtain ⟨c, new, g, hk, hsp, -, rfl⟩ := splitAndReplace_inv hs
  obtain ⟨nw, ne, sw, se, rfl, i1, i2, i3, i4, -⟩ := split_shape hsp
  have hlt := live_lt hk
  simp only [List.map_cons, List.map_nil]
  have L := live_after hk nw ne sw se g
  refine ⟨by simp, ?_, ?_, ?_⟩
  · rw [List.getElem?_set_self (by simp; omega)]
  · intro i hi hik
    rw [List.getElem?_set_ne (fun e => hik e.symm), List.getElem?_append_left hi]
  · intro t ht
    rcases t with _ | _ | _ | _ | t
    · exact ⟨nw, (L _ _).2 (by simp), i1⟩
    · exact ⟨ne, (L _ _).2 (by simp), i2⟩
    · exact ⟨sw, (L _ _).2 (by simp), i3⟩
    · exact ⟨se, (L _ _).2 (by simp), i4⟩
    · omega

/-- C20, in every reachable mesh (any region, any cell size) ids are positions; hence they are unique. -/
theorem C20_ids (ops : DataOps D) (b : Boundary) (W H : ℚ) (initData : Boundary → D) (depth : ℕ)
    (m : MeshState D) (h : Reach ops b W H initData depth m) :
    (∀ i c, Live m i c → c.id = i) ∧ (∀ i j c c', Live m i c → Live m j c' → c.id = c'.id → i = j) := by
  have hids : ∀ i c, Live m i c → c.id = i := by
    obtain ⟨m0, h0, hs⟩ := h
    induction hs with
    | refl =>
      obtain ⟨boxes, g, glob, -, -, -, rfl⟩ := init_inv h0
      intro i c hl
      obtain ⟨cb, -, rfl⟩ := live_init.1 hl
      rfl
    | @step m1 m2 k hs1 he ih =>
      obtain ⟨s1, s2, s3, s4⟩ := C20_split_step ops m1 m2 k he
      intro i c hl
      have hlt := live_lt hl
      by_cases h1 : i < m1.cells.length
      · by_cases hik : i = k
        · subst hik; unfold Live at hl; rw [s2] at hl; cases hl
        · apply ih i c; unfold Live at hl ⊢; rw [← s3 i h1 hik]; exact hl
      · obtain ⟨q, hq, hid⟩ := s4 (i - m1.cells.length) (by omega)
        have e : m1.cells.length + (i - m1.cells.length) = i := by omega
        rw [e] at hq hid
        unfold Live at hl hq
        rw [hq] at hl
        simp only [Option.some.injEq] at hl
        rw [← hl]; exact hid
  refine ⟨hids, ?_⟩
  intro i j c c' hi hj e
  rw [hids i c hi, hids j c' hj] at e
  exact e

/-- C20, over time: once replaced, an id stays empty for ever, and a cell that is live later and had
its id before is the very same cell. -/
theorem C20_never_reused (ops : DataOps D) (m m' : MeshState D) (hs : Splits ops m m') :
    m.cells.length ≤ m'.cells.length ∧ (∀ i : ℕ, m.cells[i]? = some none → m'.cells[i]? = some none) ∧
    (∀ i c, i < m.cells.length → Live m' i c → Live m i c) := by
  induction hs with
  | refl => exact ⟨le_rfl, fun _ h => h, fun _ _ _ h => h⟩
  | @step m1 m2 k hs1 he ih =>
    obtain ⟨i1, i2, i3⟩ := ih
    obtain ⟨s1, s2, s3, -⟩ := C20_split_step ops m1 m2 k he
    refine ⟨by omega, ?_, ?_⟩
    · intro i hi
      have := i2 i hi
      by_cases hk : i = k
      · rw [hk]; exact s2
      · rw [s3 i (List.getElem?_eq_some_iff.1 this).1 hk]; exact this
    · intro i c hi hl
      apply i3 i c hi
      by_cases hk : i = k
      · subst hk
        unfold Live at hl
        rw [s2] at hl; cases hl
      · unfold Live at hl ⊢
        rw [← s3 i (by omega) hk]; exact hl

example : (exMesh.map (fun m => m.cells.map (fun o => o.map (fun c => c.id)))) =
    .ok [none, some 1, some 2, some 3, some 4, some 5, some 6, none, some 8, some 9, some 10, some 11] := by decide +kernel

/-! ## C23 -/

/-- C23: two histories (even with different data) that end with the same set of live rectangles have
the same graph up to renaming of ids. -/
theorem C23_history_independent_partial {D' : Type} (ops : DataOps D) (ops' : DataOps D') (b : Boundary) (W H : ℚ)
    (hp : ProperGrid b W H) (hcr : b.longMin < b.longMax)
    (hcol : b.longMin = -180 ∧ b.longMax = 180 → W ≤ 180) (initData : Boundary → D) (initData' : Boundary → D') (depth depth' : ℕ)
    (m : MeshState D) (m' : MeshState D') (h : Reach ops b W H initData depth m) (h' : Reach ops' b W H initData' depth' m')
    (hsame : ∀ r, (∃ i, liveRect m i = some r) ↔ (∃ i, liveRect m' i = some r)) :
    ∃ σ : ℕ → ℕ, (∀ i r, liveRect m i = some r → liveRect m' (σ i) = some r) ∧
      (∀ i j, (liveRect m i).isSome → (liveRect m j).isSome → σ i = σ j → i = j) ∧
      (∀ j r, liveRect m' j = some r → ∃ i, liveRect m i = some r ∧ σ i = j) ∧
      (∀ i f f' d, nbrs m i = some f → nbrs m' (σ i) = some f' → (f' d).Perm ((f d).map σ)) := by
  have hcol' : globalRegion b = true → W ≤ 180 := by intro h; exact hcol (by simpa [globalRegion] using h)
  have hE := (reach_graph hp hcr hcol' h).2.2
  have hE' := (reach_graph hp hcr hcol' h').2.2
  have uniq : ∀ {D : Type} (n : MeshState D), GraphExact (globalRegion b) n → ∀ i j r, liveRect n i = some r → liveRect n j = some r → i = j := by
    intro D n hn i j r hi hj
    by_contra hne
    have := hn.disjoint i j r r hne hi hj
    have hpos := (hn.ok i r hi).1
    exact this ⟨hpos.1, hpos.1, hpos.2, hpos.2⟩
  have ex : ∀ i, ∃ j, ∀ r, liveRect m i = some r → liveRect m' j = some r := by
    intro i
    rcases hi : liveRect m i with _ | r
    · exact ⟨0, by simp⟩
    · obtain ⟨j, hj⟩ := (hsame r).1 ⟨i, hi⟩
      exact ⟨j, by intro r' hr'; cases hr'; exact hj⟩
  choose σ hσ using ex
  have inj : ∀ i j, (liveRect m i).isSome → (liveRect m j).isSome → σ i = σ j → i = j := by
    intro i j hi hj e
    obtain ⟨r, hr⟩ := Option.isSome_iff_exists.1 hi
    obtain ⟨r', hr'⟩ := Option.isSome_iff_exists.1 hj
    have h1 := hσ i r hr
    have h2 := hσ j r' hr'
    rw [← e, h1] at h2
    cases h2
    exact uniq m hE i j r hr hr'
  have surj : ∀ j r, liveRect m' j = some r → ∃ i, liveRect m i = some r ∧ σ i = j := by
    intro j r hj
    obtain ⟨i, hi⟩ := (hsame r).2 ⟨j, hj⟩
    exact ⟨i, hi, uniq m' hE' _ _ r (hσ i r hi) hj⟩
  refine ⟨σ, hσ, inj, surj, ?_⟩
  intro i f f' d hf hf'
  obtain ⟨a, ha⟩ := Option.isSome_iff_exists.1 ((hE.keys i).1 (by rw [hf]; rfl))
  have ha' := hσ i a ha
  have livemem : ∀ j ∈ f d, (liveRect m j).isSome := by
    intro j hj
    obtain ⟨r, hr, -⟩ := (hE.mem i f d j a hf ha).1 hj
    rw [hr]; rfl
  have nd : ((f d).map σ).Nodup := by
    apply List.Nodup.map_on _ (hE.nodup i f d hf)
    intro x hx y hy e
    exact inj x y (livemem x hx) (livemem y hy) e
  rw [List.perm_ext_iff_of_nodup (hE'.nodup _ f' d hf') nd]
  intro j
  rw [hE'.mem _ f' d j a hf' ha', List.mem_map]
  constructor
  · rintro ⟨r, hr, hadj⟩
    obtain ⟨p, hp1, hp2⟩ := surj j r hr
    exact ⟨p, (hE.mem i f d p a hf ha).2 ⟨r, hp1, hadj⟩, hp2⟩
  · rintro ⟨p, hp1, rfl⟩
    obtain ⟨r, hr, hadj⟩ := (hE.mem i f d p a hf ha).1 hp1
    exact ⟨r, hσ p r hr, hadj⟩

/-- Splitting cells 0 and 3 in either order: the same rectangles under other ids. -/
example : (runSplits (MeshBuilder.init exRegion 10 5 (fun _ => ()) 3) [0, 3]).map (fun m => liveRect m 4) =
    (runSplits (MeshBuilder.init exRegion 10 5 (fun _ => ()) 3) [3, 0]).map (fun m => liveRect m 8) ∧
    listOf (runSplits (MeshBuilder.init exRegion 10 5 (fun _ => ()) 3) [0, 3]) 5 .northEast = some [10] ∧
    listOf (runSplits (MeshBuilder.init exRegion 10 5 (fun _ => ()) 3) [3, 0]) 9 .northEast = some [6] := by decide +kernel

end Verif
