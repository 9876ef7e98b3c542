import Verif.Props.Mesh

/-!
# C18: regions that cross the antimeridian
-/

namespace Verif
open Spec

namespace Spec

/-- The unrolled rectangle of a boundary, also when it crosses the antimeridian. -/
def arcOf (b : Boundary) : Rect := ⟨b.longMin, eastEdge b, b.latMin, b.latMax⟩

/-- Adjacency of two boundaries on the cylinder: seen after some number of whole turns they touch. -/
def CylAdj (d : Dir) (a b : Boundary) : Prop := ∃ n : ℤ, Touches d (arcOf a) ((arcOf b).shift (360 * n))

end Spec

variable {D : Type}

theorem touches_shift_both (d : Dir) (a b : Rect) (s t : ℚ) : Touches d (a.shift s) (b.shift t) ↔ Touches d a (b.shift (t - s)) := by
  unfold Touches Rect.shift
  cases d <;> simp only [hSide, vSide, sideRel] <;> constructor <;> intro ⟨h1, h2⟩ <;> refine ⟨?_, h2⟩ <;>
    first
    | linarith
    | exact ⟨by linarith [h1.1], by linarith [h1.2]⟩

/-- Whole turns do not matter within less than a full circle. -/
theorem touches_turn {x0 y0 W H : ℚ} (hW : 0 < W) {nx : ℕ} (hw : (nx : ℚ) * W < 360) (d : Dir) (r c r' c' : ℕ) (hc : c < nx)
    (hc' : c' < nx) (n : ℤ) (h : Touches d (gridRect x0 y0 W H r c) ((gridRect x0 y0 W H r' c').shift (360 * n))) : n = 0 := by
  have c0 : 0 ≤ (c : ℚ) * W := by positivity
  have c0' : 0 ≤ (c' : ℚ) * W := by positivity
  have c1 : ((c : ℚ) + 1) * W ≤ nx * W := mul_le_mul_of_nonneg_right (by exact_mod_cast hc) hW.le
  have c1' : ((c' : ℚ) + 1) * W ≤ nx * W := mul_le_mul_of_nonneg_right (by exact_mod_cast hc') hW.le
  have key : -1 < (n : ℚ) ∧ (n : ℚ) < 1 := by
    have h1 := h.1
    cases d <;> simp only [hSide, sideRel, gridRect, Rect.shift] at h1 <;>
      (constructor <;> linarith)
  have l1 : -1 < n := by exact_mod_cast key.1
  have l2 : n < 1 := by exact_mod_cast key.2
  omega

/-- C18, freshly built part: in every region narrower than a full circle, crossing the antimeridian or
not, the initial graph is exactly adjacency on the cylinder, each neighbour listed once.
Missing for the full claim: it does not survive splits, see `C18_false`. -/
theorem C18_initial_partial (b : Boundary) (W H : ℚ) (hp : ProperGrid b W H) (hw : b.width < 360) (initData : Boundary → D)
    (depth : ℕ) (m : MeshState D) (h : MeshBuilder.init b W H initData depth = .ok m) :
    ∀ i c, Live m i c → ∃ f, nbrs m i = some f ∧ ∀ d, (f d).Nodup ∧
      ∀ j, j ∈ f d ↔ ∃ c', Live m j c' ∧ CylAdj d c.bounds c'.bounds := by
  obtain ⟨boxes, g, glob, hval, hb, hcg, rfl⟩ := init_inv h
  obtain ⟨nx, ny, hnx0, hnx, hny⟩ := hp.fits hval
  have hpos := (C04_geometry_partial b hp.valid hp.nondeg).1
  have hW := hp.wpos
  have hH := hp.hpos
  have hW1 : W ≤ 360 := by
    have h1 : (1 : ℚ) ≤ nx := by exact_mod_cast hnx0
    have : 1 * W ≤ nx * W := mul_le_mul_of_nonneg_right h1 hW.le
    linarith
  have hwe := Boundary.width_eq b
  have hcells := initializeCells_eq b hp.valid hW hH hW1 nx ny (by linarith) hny
  rw [hcells] at hb
  cases hb
  have hgw : b.width / W = nx := by rw [hnx]; field_simp
  -- not flagged global: the graph is the initial one
  have hg : g = Graph.initialise (ny * nx) (nx : ℚ) := by
    unfold MeshBuilder.checkGlobalMesh at hcg
    rw [if_neg] at hcg
    · rw [← hgw]
      simp only [List.length_map, List.length_range, Except.ok.injEq, Prod.mk.injEq] at hcg
      exact hcg.1.symm
    · rintro ⟨h1, h2⟩
      unfold Boundary.width at hw
      rw [h2] at h1
      rcases abs_cases b.longMin with ⟨h3, _⟩ | ⟨h3, _⟩
      · split at hw <;> linarith
      · split at hw <;> linarith
  -- live cells
  have live : ∀ i c, Live { bounds := b, cells := ((List.range (ny * nx)).map (gridCell b W H nx)).mapIdx (fun i cb => some { bounds := cb, id := i, data := initData cb }), graph := { g with isGlobal := glob }, maxDepth := depth } i c ↔
      i < ny * nx ∧ c = { bounds := gridCell b W H nx i, id := i, data := initData (gridCell b W H nx i) } := by
    intro i c
    rw [live_init]
    simp only [List.getElem?_map]
    by_cases hi : i < ny * nx
    · rw [List.getElem?_range hi]
      simp [hi]
    · rw [List.getElem?_eq_none (by simpa using hi)]
      simp [hi]
  -- unrolled rectangles
  have arc : ∀ r c, c < nx → ∃ k : ℤ, arcOf (gridCell b W H nx (r * nx + c)) = (gridRect b.longMin b.latMin W H r c).shift (360 * k) := by
    intro r c hc
    have e1 : (r * nx + c) % nx = c := by rw [Nat.mul_comm, Nat.mul_add_mod, Nat.mod_eq_of_lt hc]
    have e2 : (r * nx + c) / nx = r := by
      rw [Nat.mul_comm, Nat.mul_add_div (by omega), Nat.div_eq_of_lt hc]; simp
    obtain ⟨-, ⟨k, hk⟩, -⟩ := C01_longitude_domain (b.longMin + c * W)
    refine ⟨k, ?_⟩
    unfold arcOf
    rw [eastEdge_gridCell b hW hW1]
    simp only [gridCell, gridRect, Rect.shift, e1, e2, hk, Rect.mk.injEq, true_and, and_true]
    ring
  intro i c hl
  obtain ⟨hi, rfl⟩ := (live i c).1 hl
  obtain ⟨r, cc, hc, rfl⟩ := idx_exists hnx0 i
  have hr := (idx_lt hc).1 hi
  refine ⟨Graph.initialiseMap (r * nx + cc) (nx : ℚ) (ny * nx), ?_, ?_⟩
  · show g.look (r * nx + cc) = _
    rw [hg, look_initialise, if_pos hi]
  · intro d
    refine ⟨nodup_initialiseMap hc d, ?_⟩
    intro j
    obtain ⟨r', cc', hc', rfl⟩ := idx_exists hnx0 j
    rw [mem_initialiseMap hc hc' hr]
    obtain ⟨k, hk⟩ := arc r cc hc
    obtain ⟨k', hk'⟩ := arc r' cc' hc'
    constructor
    · rintro ⟨hr', hrel⟩
      refine ⟨_, (live _ _).2 ⟨(idx_lt hc').2 hr', rfl⟩, k - k', ?_⟩
      have := (touches_gridRect (x0 := b.longMin) (y0 := b.latMin) hW hH d r cc r' cc').2 hrel
      rw [hk, hk']
      have e : ((gridRect b.longMin b.latMin W H r' cc').shift (360 * (k' : ℚ))).shift (360 * ((k - k' : ℤ) : ℚ)) =
          (gridRect b.longMin b.latMin W H r' cc').shift (360 * (k : ℚ)) := by
        simp only [Rect.shift, Rect.mk.injEq, and_true]
        push_cast
        constructor <;> ring
      rw [e, touches_shift_both, sub_self, Rect.shift_zero]
      exact this
    · rintro ⟨c', hl', n, hn⟩
      obtain ⟨hj, rfl⟩ := (live _ _).1 hl'
      have hr' := (idx_lt hc').1 hj
      refine ⟨hr', ?_⟩
      simp only [hk, hk'] at hn
      have e : ((gridRect b.longMin b.latMin W H r' cc').shift (360 * (k' : ℚ))).shift (360 * (n : ℚ)) =
          (gridRect b.longMin b.latMin W H r' cc').shift (360 * ((k' + n : ℤ) : ℚ)) := by
        simp only [Rect.shift, Rect.mk.injEq, and_true]
        push_cast
        constructor <;> ring
      rw [e, touches_shift_both] at hn
      have e2 : 360 * ((k' + n : ℤ) : ℚ) - 360 * (k : ℚ) = 360 * ((k' + n - k : ℤ) : ℚ) := by push_cast; ring
      rw [e2] at hn
      have hz := touches_turn hW (by rw [← hnx]; exact hw) d r cc r' cc' hc hc' _ hn
      rw [hz] at hn
      simp only [Int.cast_zero, mul_zero, Rect.shift_zero] at hn
      exact (touches_gridRect hW hH d r cc r' cc').1 hn

/-- A region over the antimeridian: three columns, two rows. -/
def exCross : Boundary := ⟨-60, -50, 170, -160, []⟩

theorem exCross_proper : ProperGrid exCross 10 5 := by
  refine ⟨by norm_num [Valid, exCross], by norm_num [exCross], by norm_num, by norm_num, ?_⟩
  intro h
  have : exCross.width = 30 := by decide +kernel
  rw [this] at h; norm_num at h

example : exCross.width < 360 ∧ listOf (MeshBuilder.init exCross 10 5 (fun _ => ()) 3) 1 .east = some [2] ∧
    listOf (MeshBuilder.init exCross 10 5 (fun _ => ()) 3) 1 .northEast = some [5] := by decide +kernel

/-- C18 is false: in the region 170:-160, splitting the cell -170:-160 leaves the cell 180:-170 without
any eastern neighbour, although it touches two of the new cells, and the new cell does not list it
either. -/
theorem C18_false : ∃ m c c' f f', Reach unitOps exCross 10 5 (fun _ => ()) 3 m ∧ Live m 1 c ∧ Live m 6 c' ∧
    CylAdj .east c.bounds c'.bounds ∧ nbrs m 1 = some f ∧ nbrs m 6 = some f' ∧ f .east = [] ∧ f' .west = [] := by
  have hok : (match runSplits (MeshBuilder.init exCross 10 5 (fun _ => ()) 3) [2] with | .ok _ => true | .error _ => false) = true := by
    decide +kernel
  rcases h : runSplits (MeshBuilder.init exCross 10 5 (fun _ => ()) 3) [2] with e | m
  · rw [h] at hok; cases hok
  have hr := runSplits_reach [2] h
  have b1 : ((runSplits (MeshBuilder.init exCross 10 5 (fun _ => ()) 3) [2]).map
      (fun m => (m.cells[1]?.join.map (fun c => c.bounds), m.cells[6]?.join.map (fun c => c.bounds))) : Py (Option Boundary × Option Boundary)) =
      .ok (some ⟨-60, -55, 180, -170, []⟩, some ⟨-115/2, -55, -170, -165, []⟩) := by decide +kernel
  have n1 : listOf (runSplits (MeshBuilder.init exCross 10 5 (fun _ => ()) 3) [2]) 1 .east = some [] := by decide +kernel
  have n6 : listOf (runSplits (MeshBuilder.init exCross 10 5 (fun _ => ()) 3) [2]) 6 .west = some [] := by decide +kernel
  rw [h] at b1 n1 n6
  simp only [Except.map, Except.ok.injEq, Prod.mk.injEq] at b1
  simp only [listOf] at n1 n6
  obtain ⟨h1, h6⟩ := b1
  obtain ⟨f, hf, hf'⟩ := Option.map_eq_some_iff.1 n1
  obtain ⟨f6, hf6, hf6'⟩ := Option.map_eq_some_iff.1 n6
  obtain ⟨c, hc, hcb⟩ := Option.map_eq_some_iff.1 h1
  obtain ⟨c6, hc6, hcb6⟩ := Option.map_eq_some_iff.1 h6
  refine ⟨m, c, c6, f, f6, hr, Option.join_eq_some_iff.1 hc, Option.join_eq_some_iff.1 hc6, ?_, hf, hf6, hf', hf6'⟩
  rw [hcb, hcb6]
  refine ⟨1, ?_⟩
  constructor
  · show eastEdge ⟨-60, -55, 180, -170, []⟩ = (-170 : ℚ) + 360 * ((1 : ℤ) : ℚ)
    norm_num [eastEdge]
  · constructor
    · show (-115/2 : ℚ) < -55; norm_num
    · show (-60 : ℚ) < -55; norm_num

end Verif
