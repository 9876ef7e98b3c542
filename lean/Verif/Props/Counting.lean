import Verif.Props.SplitToDepth
import Verif.Props.BuildValues
import Verif.Props.Mesh
import Verif.Proof.EnvBuild
import Verif.Props.EnvJson

/-!
# How many cells a mesh has (C130)

Every split of a cell replaces it by four cells of the next depth. So the number of cells follows from the number of splits,
the cells of a mesh and their depths obey an equation, and the depth allowed bounds the number of cells.
-/

namespace Verif.Spec
open Verif

variable {D : Type}

/-- The number of positions that hold a cell. -/
def liveCount (m : MeshState D) : ℕ := (m.cells.filterMap id).length

/-- The number of positions whose cell was replaced. -/
def holeCount (m : MeshState D) : ℕ := m.cells.countP (fun o => o.isNone)

/-- The share of an initial cell that a cell makes up. -/
def cellShare : Option (CellBox D) → ℚ
  | some c => 1 / 4 ^ c.depth
  | none => 0

/-- The shares of all cells together. -/
def totalShare (m : MeshState D) : ℚ := (m.cells.map cellShare).sum

/-- `n` splits lead from one mesh to another. -/
inductive SplitTimes (ops : DataOps D) : ℕ → MeshState D → MeshState D → Prop
  | none (m : MeshState D) : SplitTimes ops 0 m m
  | more {n : ℕ} {m m' m'' : MeshState D} (k : ℕ) : SplitTimes ops n m m' → MeshBuilder.splitAndReplace ops m' k = .ok m'' →
    SplitTimes ops (n + 1) m m''

end Verif.Spec

namespace Verif
open Spec

variable {D : Type}

/-- The states of C10 are those after some number of splits. -/
theorem splits_iff_times {ops : DataOps D} {m m' : MeshState D} : Splits ops m m' ↔ ∃ n, SplitTimes ops n m m' := by
  constructor
  · intro h
    induction h with
    | refl => exact ⟨0, .none _⟩
    | step k _ he ih =>
      obtain ⟨n, hn⟩ := ih
      exact ⟨n + 1, .more k hn he⟩
  · rintro ⟨n, h⟩
    induction h with
    | none => exact .refl _
    | more k _ he ih => exact .step k ih he

theorem length_cells_holes (l : List (Option (CellBox D))) :
    l.length = (l.filterMap id).length + l.countP (fun o => o.isNone) := by
  induction l with
  | nil => rfl
  | cons o l ih => cases o <;> simp [ih] <;> omega

theorem count_set_none {α : Type} (l : List (Option α)) (k : ℕ) (c : α) (h : l[k]? = some (some c)) :
    (l.set k none).countP (fun o => o.isNone) = l.countP (fun o => o.isNone) + 1 := by
  induction l generalizing k with
  | nil => simp at h
  | cons o l ih =>
    cases k with
    | zero =>
      simp only [List.getElem?_cons_zero, Option.some.injEq] at h
      subst h
      simp
    | succ k =>
      simp only [List.getElem?_cons_succ] at h
      cases o <;> simp [ih k h]

/-- One split, whatever the mesh. -/
theorem split_counts {ops : DataOps D} {m m' : MeshState D} {k : ℕ} (h : MeshBuilder.splitAndReplace ops m k = .ok m') :
    m'.cells.length = m.cells.length + 4 ∧ holeCount m' = holeCount m + 1 ∧ totalShare m' = totalShare m := by
  obtain ⟨c, new, g, hk, hsp, -, rfl⟩ := splitAndReplace_inv h
  obtain ⟨nw, ne, sw, se, rfl, -, -, -, -, hq⟩ := split_shape hsp
  have hlt := live_lt hk
  have hk' : (m.cells ++ [some nw, some ne, some sw, some se])[k]? = some (some c) := by
    rw [List.getElem?_append_left hlt]; exact hk
  have d1 := (hq nw (by simp)).1
  have d2 := (hq ne (by simp)).1
  have d3 := (hq sw (by simp)).1
  have d4 := (hq se (by simp)).1
  simp only [List.map_cons, List.map_nil]
  refine ⟨by simp, ?_, ?_⟩
  · show ((m.cells ++ [some nw, some ne, some sw, some se]).set k none).countP _ = _
    rw [count_set_none _ k c hk', List.countP_append]
    simp [holeCount]
  · show (((m.cells ++ [some nw, some ne, some sw, some se]).set k none).map cellShare).sum = _
    rw [sum_set_none _ rfl _ k c hk', List.map_append, List.sum_append]
    simp only [List.map_cons, List.map_nil, List.sum_cons, List.sum_nil, cellShare, d1, d2, d3, d4, totalShare]
    rw [pow_succ]
    field_simp
    ring

/-- With no cell deeper than `sd`, the shares bound the number of cells. -/
theorem count_le_share (sd : ℕ) (l : List (Option (CellBox D))) (h : ∀ c, some c ∈ l → c.depth ≤ sd) :
    ((l.filterMap id).length : ℚ) ≤ (l.map cellShare).sum * 4 ^ sd := by
  induction l with
  | nil => simp
  | cons o l ih =>
    have hl := ih fun c hc => h c (List.mem_cons_of_mem _ hc)
    cases o with
    | none => simpa [cellShare] using hl
    | some c =>
      have hd := h c (by simp)
      have h1 : (1 : ℚ) ≤ 1 / 4 ^ c.depth * 4 ^ sd := by
        rw [one_div, inv_mul_eq_div, le_div_iff₀ (by positivity), one_mul]
        exact pow_le_pow_right₀ (by norm_num) hd
      rw [show (some c :: l).filterMap id = c :: l.filterMap id from rfl]
      simp only [List.length_cons, List.map_cons, List.sum_cons, cellShare]
      push_cast
      rw [add_mul]
      linarith

/-- The counts of a freshly built mesh. -/
theorem init_counts {b : Boundary} {W H : ℚ} {initData : Boundary → D} {depth : ℕ} {m : MeshState D}
    (h : MeshBuilder.init b W H initData depth = .ok m) : holeCount m = 0 ∧ totalShare m = m.cells.length := by
  obtain ⟨boxes, g, glob, -, -, -, rfl⟩ := init_inv h
  have key : ∀ (l : List (Option (CellBox D))), (∀ o ∈ l, ∃ c, o = some c ∧ c.depth = 0) →
      l.countP (fun o => o.isNone) = 0 ∧ (l.map cellShare).sum = l.length := by
    intro l
    induction l with
    | nil => intro _; simp
    | cons o l ih =>
      intro h
      obtain ⟨c, rfl, hc⟩ := h o (by simp)
      obtain ⟨i1, i2⟩ := ih fun o ho => h o (List.mem_cons_of_mem _ ho)
      refine ⟨by simp [i1], ?_⟩
      simp only [List.map_cons, List.sum_cons, i2, cellShare, hc, List.length_cons]
      push_cast
      ring
  apply key
  intro o ho
  obtain ⟨i, hi⟩ := List.mem_iff_getElem?.1 ho
  simp only [List.getElem?_mapIdx, Option.map_eq_some_iff] at hi
  obtain ⟨cb, -, rfl⟩ := hi
  exact ⟨_, rfl, rfl⟩

/-- C130, any region, any cell size, any data, any sequence of splits: after `n` splits there are `3 n` cells more than at the
start, `n` positions are empty, ids up to the number of initial cells plus `4 n` were given out, and the shares of the cells,
`4 ^ -depth` each, add up to the number of initial cells. -/
theorem C130_counts (ops : DataOps D) (b : Boundary) (W H : ℚ) (initData : Boundary → D) (depth n : ℕ) (m0 m : MeshState D)
    (h0 : MeshBuilder.init b W H initData depth = .ok m0) (h : SplitTimes ops n m0 m) :
    liveCount m = liveCount m0 + 3 * n ∧ holeCount m = n ∧ m.cells.length = liveCount m0 + 4 * n ∧
      totalShare m = liveCount m0 := by
  obtain ⟨z1, z2⟩ := init_counts h0
  have e0 := length_cells_holes m0.cells
  have hc0 : m0.cells.length = liveCount m0 := by
    unfold holeCount at z1; unfold liveCount; omega
  have : holeCount m = n ∧ m.cells.length = liveCount m0 + 4 * n ∧ totalShare m = liveCount m0 := by
    clear e0
    induction h with
    | none => exact ⟨z1, by omega, by rw [z2, hc0]⟩
    | more k _ he ih =>
      obtain ⟨s1, s2, s3⟩ := split_counts he
      obtain ⟨i1, i2, i3⟩ := ih h0 z1 z2 hc0
      exact ⟨by omega, by omega, by rw [s3, i3]⟩
  obtain ⟨h1, h2, h3⟩ := this
  have e := length_cells_holes m.cells
  refine ⟨?_, h1, h2, h3⟩
  unfold holeCount at h1
  unfold liveCount at *
  omega

/-- C130, the number of initial cells: as many as fit. -/
theorem C130_initial (b : Boundary) (W H : ℚ) (initData : Boundary → D) (depth : ℕ) (hp : ProperGrid b W H) (m0 : MeshState D)
    (h0 : MeshBuilder.init b W H initData depth = .ok m0) : (liveCount m0 : ℚ) = (b.width / W) * (b.height / H) := by
  obtain ⟨z1, -⟩ := init_counts h0
  have e0 := length_cells_holes m0.cells
  have hc0 : liveCount m0 = m0.cells.length := by
    unfold holeCount at z1; unfold liveCount; omega
  obtain ⟨boxes, g, glob, hv, hb, -, rfl⟩ := init_inv h0
  obtain ⟨nx, ny, -, hx, hy⟩ := hp.fits hv
  obtain ⟨cells, hcells, hlen, -⟩ := C08_initial_grid_partial b hp.valid hp.nondeg W H hp.wpos hp.hpos nx ny hx hy
  rw [hb] at hcells
  cases hcells
  have hW := hp.wpos.ne'
  have hH := hp.hpos.ne'
  rw [hc0]
  simp only [List.length_mapIdx, hlen, hx, hy]
  push_cast
  field_simp

/-- C130, what `build_environmental_mesh` returns: no more than `4 ^ depth` cells for each initial cell, no fewer than the
initial cells, and the difference to the initial cells is a multiple of three; so the number of splits is bounded, too. -/
theorem C130_built (ops : DataOps D) (agg : CellBox D → Py (Dict String Val)) (config : MeshConfig) (b : Boundary) (W H : ℚ)
    (initData : Boundary → D) (depth fuel : ℕ) (m0 : MeshState D) (em : EnvMesh)
    (h0 : MeshBuilder.init b W H initData depth = .ok m0)
    (h : MeshBuilder.buildEnvironmentalMesh ops agg fuel config m0 = .ok em) :
    ∃ n m, SplitTimes ops n m0 m ∧ em.cells.length = liveCount m0 + 3 * n ∧ em.cells.length ≤ liveCount m0 * 4 ^ depth ∧
      3 * n ≤ liveCount m0 * (4 ^ depth - 1) ∧ ∀ c ∈ em.cells, c.id < liveCount m0 + 4 * n := by
  have hmd : m0.maxDepth = depth := by
    obtain ⟨boxes, g, glob, -, -, -, rfl⟩ := init_inv h0
    rfl
  unfold MeshBuilder.buildEnvironmentalMesh at h
  simp only [bind, Except.bind] at h
  split at h
  · cases h
  · rename_i m hm
    rw [hmd] at hm
    have hd := C21_depth_bound ops b W H initData depth depth fuel m0 m h0 hm
    have hr := splitToDepth_reach h0 hm
    obtain ⟨m0', h0', hs⟩ := hr
    rw [h0] at h0'
    cases h0'
    obtain ⟨n, hn⟩ := splits_iff_times.1 hs
    obtain ⟨c1, c2, c3, c4⟩ := C130_counts ops b W H initData depth n m0 m h0 hn
    obtain ⟨hf, -⟩ := toEnvMesh_spec h
    have hlen : em.cells.length = liveCount m := hf.length_eq.symm
    have hle : liveCount m ≤ liveCount m0 * 4 ^ depth := by
      have := count_le_share depth m.cells (by
        intro c hc
        obtain ⟨i, hi⟩ := List.mem_iff_getElem?.1 hc
        exact hd i c hi)
      change (liveCount m : ℚ) ≤ totalShare m * 4 ^ depth at this
      rw [c4] at this
      exact_mod_cast this
    refine ⟨n, m, hn, by rw [hlen, c1], by rw [hlen]; exact hle, ?_, ?_⟩
    · rw [Nat.mul_sub, Nat.mul_one]
      omega
    · intro a ha
      have hids : em.cells.map (·.id) = (m.cells.filterMap id).map (·.id) := (forall₂_map_eq hf (fun a b h => h.2.2.symm)).symm
      have : a.id ∈ (m.cells.filterMap id).map (·.id) := hids ▸ List.mem_map_of_mem ha
      obtain ⟨c, hc, hca⟩ := List.mem_map.1 this
      obtain ⟨o, ho, hoc⟩ := List.mem_filterMap.1 hc
      obtain ⟨i, hi⟩ := List.mem_iff_getElem?.1 ho
      simp only [id_eq] at hoc
      subst hoc
      have hid := (C20_ids ops b W H initData depth m ⟨m0, h0, hs⟩).1 i c hi
      have := live_lt (m := m) (i := i) (c := c) hi
      rw [← hca, hid]
      omega

/-- Data that always ask for a split. -/
def exGreedy : DataOps Unit := { trim := fun _ _ => (), nConds := fun _ => [1], shouldSplit := fun _ _ _ => .ok true }

/-- C130, neither bound can be improved: the upper one is reached when every cell is to be split, the lower one when none is. -/
theorem C130_bounds_reached : ∃ m0, MeshBuilder.init exRegion 10 5 (fun _ => ()) 2 = .ok m0 ∧ liveCount m0 = 4 ∧
    (∃ em, MeshBuilder.buildEnvironmentalMesh exGreedy (fun _ => .ok []) 100 exConfig m0 = .ok em ∧ em.cells.length = 4 * 4 ^ 2) ∧
    ∃ em, MeshBuilder.buildEnvironmentalMesh unitOps (fun _ => .ok []) 100 exConfig m0 = .ok em ∧ em.cells.length = 4 := by
  have lift : ∀ {α : Type} {x : Py α} {f : α → ℕ} {n : ℕ}, x.map f = .ok n → ∃ a, x = .ok a ∧ f a = n := by
    intro α x f n h
    rcases x with e | a
    · cases h
    · exact ⟨a, rfl, by simpa [Except.map] using h⟩
  obtain ⟨m0, h0, hc⟩ := lift (show (MeshBuilder.init exRegion 10 5 (fun _ => ()) 2).map liveCount = .ok 4 by decide +kernel)
  have h1 : ((MeshBuilder.init exRegion 10 5 (fun _ => ()) 2) >>= fun m0 =>
      MeshBuilder.buildEnvironmentalMesh exGreedy (fun _ => .ok []) 100 exConfig m0).map (fun em => em.cells.length) = .ok 64 := by
    decide +kernel
  have h2 : ((MeshBuilder.init exRegion 10 5 (fun _ => ()) 2) >>= fun m0 =>
      MeshBuilder.buildEnvironmentalMesh unitOps (fun _ => .ok []) 100 exConfig m0).map (fun em => em.cells.length) = .ok 4 := by
    decide +kernel
  rw [h0] at h1 h2
  exact ⟨m0, h0, hc, lift h1, lift h2⟩

/-- The hypotheses of C130 hold: a region of four cells, of which every cell is split twice. -/
example : ProperGrid exRegion 10 5 ∧ ∃ m0, MeshBuilder.init exRegion 10 5 (fun _ => ()) 2 = .ok m0 ∧ liveCount m0 = 4 ∧
    ∃ em, MeshBuilder.buildEnvironmentalMesh exGreedy (fun _ => .ok []) 100 exConfig m0 = .ok em ∧ em.cells.length = liveCount m0 + 3 * 20 := by
  obtain ⟨m0, h0, hc, ⟨em, h1, h2⟩, -⟩ := C130_bounds_reached
  exact ⟨exRegion_proper, m0, h0, hc, em, h1, by rw [h2, hc]; norm_num⟩

end Verif
