import Verif.Proof.InitialGraph

/-!
# The initial neighbour graph is exact (regional and global meshes)
-/

namespace Verif
open Spec

/-- Relation of row (column) numbers for touching on a side. -/
def numRel : Side → ℕ → ℕ → Prop
  | .hi, c, c' => c' = c + 1
  | .lo, c, c' => c = c' + 1
  | .mid, c, c' => c' = c

theorem touches_gridRect {x0 y0 W H : ℚ} (hW : 0 < W) (hH : 0 < H) (d : Dir) (r c r' c' : ℕ) :
    Touches d (gridRect x0 y0 W H r c) (gridRect x0 y0 W H r' c') ↔ numRel (hSide d) c c' ∧ numRel (vSide d) r r' := by
  unfold Touches gridRect
  simp only
  rw [slot_rel hW, slot_rel hH]
  cases d <;> simp [hSide, vSide, numRel]

/-- Membership in the lists of `initialise_map`. -/
theorem mem_initialiseMap {nx ny r c r' c' : ℕ} (hc : c < nx) (hc' : c' < nx) (hr : r < ny) (d : Dir) :
    r' * nx + c' ∈ Graph.initialiseMap (r * nx + c) (nx : ℚ) (ny * nx) d ↔
      r' < ny ∧ numRel (hSide d) c c' ∧ numRel (vSide d) r r' := by
  have one : ∀ (p : Prop) [Decidable p] (R C : ℕ), (p → C < nx) →
      (r' * nx + c' ∈ (if p then [R * nx + C] else []) ↔ p ∧ r' = R ∧ c' = C) := by
    intro p _ R C hC
    by_cases h : p
    · simp only [h, if_true, List.mem_singleton, true_and]; exact idx_inj hc' (hC h)
    · simp [h]
  rw [initialiseMap_eq nx ny r c hc]
  cases d <;> simp only [hSide, vSide, numRel] <;> rw [one _ _ _ (by omega)] <;> omega

theorem nodup_initialiseMap {nx ny r c : ℕ} (hc : c < nx) (d : Dir) :
    (Graph.initialiseMap (r * nx + c) (nx : ℚ) (ny * nx) d).Nodup := by
  rw [initialiseMap_eq nx ny r c hc]
  cases d <;> simp only <;> split <;> simp

/-- The cells of the initial grid. -/
def gridCells (x0 y0 W H : ℚ) (nx ny : ℕ) : ℕ → Option Rect := fun i =>
  if i < ny * nx then some (gridRect x0 y0 W H (i / nx) (i % nx)) else none

theorem gridCells_idx {x0 y0 W H : ℚ} {nx ny r c : ℕ} (hc : c < nx) :
    gridCells x0 y0 W H nx ny (r * nx + c) = if r < ny then some (gridRect x0 y0 W H r c) else none := by
  unfold gridCells
  have h1 : (r * nx + c) / nx = r := by
    rw [Nat.mul_comm, Nat.mul_add_div (by omega), Nat.div_eq_of_lt hc]; simp
  have h3 : (r * nx + c) % nx = c := by rw [Nat.mul_comm, Nat.mul_add_mod, Nat.mod_eq_of_lt hc]
  rw [h1, h3]
  simp only [idx_lt hc]

theorem idx_exists {nx : ℕ} (hnx : 0 < nx) (i : ℕ) : ∃ r c, c < nx ∧ i = r * nx + c :=
  ⟨i / nx, i % nx, Nat.mod_lt i hnx, by rw [Nat.mul_comm]; exact (Nat.div_add_mod i nx).symm⟩

theorem gridRect_ok {g : Bool} {x0 y0 W H : ℚ} (hW : 0 < W) (hH : 0 < H) {nx : ℕ} (h0 : -180 ≤ x0)
    (h1 : x0 + nx * W ≤ 180) (hg : g = true → 2 ≤ nx) (r c : ℕ) (hc : c < nx) : CellOK g (gridRect x0 y0 W H r c) := by
  have hc' : (c : ℚ) + 1 ≤ nx := by exact_mod_cast hc
  have hm : ((c : ℚ) + 1) * W ≤ nx * W := mul_le_mul_of_nonneg_right hc' hW.le
  have hc0 : 0 ≤ (c : ℚ) * W := by positivity
  refine ⟨⟨by simp only [gridRect]; linarith, by simp only [gridRect]; linarith⟩, by simp only [gridRect]; linarith,
    by simp only [gridRect]; linarith, ?_⟩
  intro hgl
  have h2 : (2 : ℚ) ≤ nx := by exact_mod_cast hg hgl
  have : 2 * W ≤ nx * W := mul_le_mul_of_nonneg_right h2 hW.le
  simp only [gridRect]; linarith

theorem gridRect_disjoint {x0 y0 W H : ℚ} (hW : 0 < W) (hH : 0 < H) {r c r' c' : ℕ}
    (h : (gridRect x0 y0 W H r c).Overlap (gridRect x0 y0 W H r' c')) : r' = r ∧ c' = c := by
  obtain ⟨h1, h2, h3, h4⟩ := h
  exact ⟨(slot_rel hH r r' .mid).1 ⟨h3, h4⟩, (slot_rel hW c c' .mid).1 ⟨h1, h2⟩⟩

/-- Exactness of a graph on the grid from a description of its lists. -/
theorem exact_of_lists {g : Bool} {x0 y0 W H : ℚ} (hW : 0 < W) (hH : 0 < H) {nx ny : ℕ} (hnx : 0 < nx) (h0 : -180 ≤ x0)
    (h1 : x0 + nx * W ≤ 180) (hg : g = true → 2 ≤ nx) (nbrs : ℕ → Option NMap)
    (lists : ℕ → ℕ → NMap)
    (hlook : ∀ r c, c < nx → nbrs (r * nx + c) = if r < ny then some (lists r c) else none)
    (hnd : ∀ r c d, r < ny → c < nx → (lists r c d).Nodup)
    (hmem : ∀ r c r' c' d, r < ny → c < nx → c' < nx → (r' * nx + c' ∈ lists r c d ↔
      r' < ny ∧ Adj g d (gridRect x0 y0 W H r c) (gridRect x0 y0 W H r' c'))) :
    Exact g (gridCells x0 y0 W H nx ny) nbrs := by
  constructor
  · intro i
    obtain ⟨r, c, hc, rfl⟩ := idx_exists hnx i
    rw [hlook r c hc, gridCells_idx hc]
    split <;> simp
  · intro i R hi
    obtain ⟨r, c, hc, rfl⟩ := idx_exists hnx i
    rw [gridCells_idx hc] at hi
    split at hi
    · cases hi; exact gridRect_ok hW hH h0 h1 hg r c hc
    · cases hi
  · intro i j a b hij ha hb
    obtain ⟨r, c, hc, rfl⟩ := idx_exists hnx i
    obtain ⟨r', c', hc', rfl⟩ := idx_exists hnx j
    rw [gridCells_idx hc] at ha
    rw [gridCells_idx hc'] at hb
    split at ha <;> split at hb <;> cases ha <;> cases hb
    intro h
    obtain ⟨h1, h2⟩ := gridRect_disjoint hW hH h
    exact hij (by rw [h1, h2])
  · intro i m d hm
    obtain ⟨r, c, hc, rfl⟩ := idx_exists hnx i
    rw [hlook r c hc] at hm
    split at hm
    · rename_i hr; cases hm; exact hnd r c d hr hc
    · cases hm
  · intro i m d j a hm ha
    obtain ⟨r, c, hc, rfl⟩ := idx_exists hnx i
    obtain ⟨r', c', hc', rfl⟩ := idx_exists hnx j
    rw [hlook r c hc] at hm
    rw [gridCells_idx hc] at ha
    by_cases hr : r < ny
    · simp only [hr, if_true, Option.some.injEq] at hm ha
      subst hm ha
      rw [hmem r c r' c' d hr hc hc', gridCells_idx hc']
      by_cases hr' : r' < ny <;> simp [hr']
    · simp [hr] at hm

/-- C10, graph level. -/
theorem initial_exact {x0 y0 W H : ℚ} (hW : 0 < W) (hH : 0 < H) {nx ny : ℕ} (hnx : 0 < nx) (h0 : -180 ≤ x0)
    (h1 : x0 + nx * W ≤ 180) :
    Exact false (gridCells x0 y0 W H nx ny) (Graph.initialise (ny * nx) (nx : ℚ)).look := by
  refine exact_of_lists hW hH hnx h0 h1 (by simp) _ (fun r c => Graph.initialiseMap (r * nx + c) (nx : ℚ) (ny * nx)) ?_ ?_ ?_
  · intro r c hc
    rw [look_initialise]; simp only [idx_lt hc]
  · intro r c d hr hc; exact nodup_initialiseMap hc d
  · intro r c r' c' d hr hc hc'
    rw [mem_initialiseMap hc hc' hr, adj_false_iff, touches_gridRect hW hH]

/-- The edges added across the antimeridian at row `r`, column `c`. -/
def seam (nx ny r c : ℕ) : NMap
  | .west => if c = 0 then [r * nx + (nx - 1)] else []
  | .northWest => if c = 0 ∧ r + 1 < ny then [(r + 1) * nx + (nx - 1)] else []
  | .southWest => if c = 0 ∧ 0 < r then [(r - 1) * nx + (nx - 1)] else []
  | .east => if c = nx - 1 then [r * nx + 0] else []
  | .northEast => if c = nx - 1 ∧ r + 1 < ny then [(r + 1) * nx + 0] else []
  | .southEast => if c = nx - 1 ∧ 0 < r then [(r - 1) * nx + 0] else []
  | .north => []
  | .south => []

theorem mem_seam {nx ny r c r' c' : ℕ} (hc' : c' < nx) (hr : r < ny) (d : Dir) :
    r' * nx + c' ∈ seam nx ny r c d ↔ r' < ny ∧ numRel (vSide d) r r' ∧
      ((hSide d = .hi ∧ c = nx - 1 ∧ c' = 0) ∨ (hSide d = .lo ∧ c = 0 ∧ c' = nx - 1)) := by
  have one : ∀ (p : Prop) [Decidable p] (R C : ℕ), (p → C < nx) →
      (r' * nx + c' ∈ (if p then [R * nx + C] else []) ↔ p ∧ r' = R ∧ c' = C) := by
    intro p _ R C hC
    by_cases h : p
    · simp only [h, if_true, List.mem_singleton, true_and]; exact idx_inj hc' (hC h)
    · simp [h]
  cases d <;> simp only [seam, hSide, vSide, numRel, reduceCtorEq, false_and, true_and, or_false, false_or, and_false,
    List.not_mem_nil] <;> rw [one _ _ _ (by omega)] <;> omega

theorem filter_range_eq (n s : ℕ) (p : ℕ → Bool) (hs : s < n) (hp : ∀ i < n, p i = true ↔ i = s) :
    (List.range n).filter p = [s] := by
  induction n with
  | zero => omega
  | succ n ih =>
    rw [List.range_succ, List.filter_append]
    by_cases h : s = n
    · subst h
      have h1 : (List.range s).filter p = [] := by
        rw [List.filter_eq_nil_iff]
        intro a ha
        have ha' := List.mem_range.1 ha
        rw [hp a (by omega)]; omega
      have h2 : p s = true := (hp s (by omega)).2 rfl
      simp [h1, h2]
    · rw [ih (by omega) (fun i hi => hp i (by omega))]
      have : ¬ p n = true := by rw [hp n (by omega)]; omega
      simp [this]

theorem sliceFrom_eq (nx ny s : ℕ) (hs : s < nx) :
    MeshBuilder.sliceFrom (ny * nx) s nx = (List.range ny).map (fun r => r * nx + s) := by
  unfold MeshBuilder.sliceFrom
  induction ny with
  | zero => simp
  | succ n ih =>
    rw [Nat.succ_mul, List.range_add, List.filter_append, ih, List.range_succ, List.map_append]
    congr 1
    rw [List.filter_map]
    rw [filter_range_eq nx s _ hs]
    · simp
    · intro c hc
      simp only [Function.comp, decide_eq_true_eq]
      constructor
      · rintro ⟨h1, h2⟩
        obtain ⟨q, hq⟩ := Nat.dvd_of_mod_eq_zero h2
        -- n * nx + c - s = nx * q
        have h3 : n * nx + c = q * nx + s := by
          have : nx * q = q * nx := Nat.mul_comm _ _
          omega
        exact ((idx_inj hc hs).1 h3).2
      · rintro rfl
        refine ⟨by omega, ?_⟩
        have : n * nx + c - c = n * nx := by omega
        rw [this, Nat.mul_mod_left]

theorem addNeighbour_look {g : Graph} {i : ℕ} {m : NMap} (h : g.look i = some m) (d : Dir) (x : ℕ) :
    ∃ g', g.addNeighbour i d x = .ok g' ∧ g'.isGlobal = g.isGlobal ∧ g'.look i = some (m.append d x) ∧
      ∀ j, j ≠ i → g'.look j = g.look j := by
  obtain ⟨g', h1, h2, h3⟩ := Graph.addNeighbour_ok h d x
  exact ⟨g', h1, h2, by rw [h3]; simp, fun j hj => by rw [h3, if_neg hj]⟩

/-- One iteration of the loop of `check_global_mesh`. -/
theorem globalStep_ok (nx ny t : ℕ) (hnx : 2 ≤ nx) (ht : t < ny) (g : Graph) (mlo mhi : NMap)
    (hlo : g.look (t * nx + 0) = some mlo) (hhi : g.look (t * nx + (nx - 1)) = some mhi) :
    ∃ g', MeshBuilder.globalStep ((List.range ny).map (fun r => r * nx + 0)) ((List.range ny).map (fun r => r * nx + (nx - 1))) g t = .ok g' ∧
      g'.isGlobal = g.isGlobal ∧ g'.look (t * nx + 0) = some (fun d => mlo d ++ seam nx ny t 0 d) ∧
      g'.look (t * nx + (nx - 1)) = some (fun d => mhi d ++ seam nx ny t (nx - 1) d) ∧
      ∀ j, j ≠ t * nx + 0 → j ≠ t * nx + (nx - 1) → g'.look j = g.look j := by
  have hne : t * nx + 0 ≠ t * nx + (nx - 1) := by omega
  have getlo : ∀ r, r < ny → ((List.range ny).map (fun r => r * nx + 0))[r]? = some (r * nx + 0) := by
    intro r hr; simp [hr]
  have gethi : ∀ r, r < ny → ((List.range ny).map (fun r => r * nx + (nx - 1)))[r]? = some (r * nx + (nx - 1)) := by
    intro r hr; simp [hr]
  have hlen : ((List.range ny).map (fun r => r * nx + 0)).length = ny := by simp
  obtain ⟨g1, e1, i1, l1, o1⟩ := addNeighbour_look hlo .west (t * nx + (nx - 1))
  have hhi1 : g1.look (t * nx + (nx - 1)) = some mhi := by rw [o1 _ hne.symm, hhi]
  obtain ⟨g2, e2, i2, l2, o2⟩ := addNeighbour_look hhi1 .east (t * nx + 0)
  have hlo2 : g2.look (t * nx + 0) = some _ := (o2 _ hne).trans l1
  have nz : ¬ nx - 1 = 0 := by omega
  have nz' : ¬ 0 = nx - 1 := by omega
  unfold MeshBuilder.globalStep
  simp only [getlo t ht, gethi t ht, bind, Except.bind, e1, e2, hlen]
  by_cases hN : t + 1 < ny
  · obtain ⟨g3, e3, i3, l3, o3⟩ := addNeighbour_look hlo2 .northWest ((t + 1) * nx + (nx - 1))
    have hhi3 : g3.look (t * nx + (nx - 1)) = some _ := (o3 _ hne.symm).trans l2
    obtain ⟨g4, e4, i4, l4, o4⟩ := addNeighbour_look hhi3 .northEast ((t + 1) * nx + 0)
    have hlo4 : g4.look (t * nx + 0) = some _ := (o4 _ hne).trans l3
    simp only [hN, if_true, getlo (t + 1) hN, gethi (t + 1) hN, e3, e4]
    by_cases hS : 0 < t
    · obtain ⟨g5, e5, i5, l5, o5⟩ := addNeighbour_look hlo4 .southWest ((t - 1) * nx + (nx - 1))
      have hhi5 : g5.look (t * nx + (nx - 1)) = some _ := (o5 _ hne.symm).trans l4
      obtain ⟨g6, e6, i6, l6, o6⟩ := addNeighbour_look hhi5 .southEast ((t - 1) * nx + 0)
      have hlo6 : g6.look (t * nx + 0) = some _ := (o6 _ hne).trans l5
      simp only [hS, if_true, getlo (t - 1) (by omega), gethi (t - 1) (by omega), e5, e6]
      refine ⟨g6, rfl, by rw [i6, i5, i4, i3, i2, i1], ?_, ?_, ?_⟩
      · rw [hlo6]; congr 1; funext d; cases d <;> simp [seam, NMap.append, hN, hS, nz']
      · rw [l6]; congr 1; funext d; cases d <;> simp [seam, NMap.append, hN, hS, nz]
      · intro j h1 h2; rw [o6 j h2, o5 j h1, o4 j h2, o3 j h1, o2 j h2, o1 j h1]
    · simp only [hS, if_false]
      refine ⟨g4, rfl, by rw [i4, i3, i2, i1], ?_, ?_, ?_⟩
      · rw [hlo4]; congr 1; funext d; cases d <;> simp [seam, NMap.append, hN, hS, nz']
      · rw [l4]; congr 1; funext d; cases d <;> simp [seam, NMap.append, hN, hS, nz]
      · intro j h1 h2; rw [o4 j h2, o3 j h1, o2 j h2, o1 j h1]
  · simp only [hN, if_false, pure, Except.pure]
    by_cases hS : 0 < t
    · obtain ⟨g5, e5, i5, l5, o5⟩ := addNeighbour_look hlo2 .southWest ((t - 1) * nx + (nx - 1))
      have hhi5 : g5.look (t * nx + (nx - 1)) = some _ := (o5 _ hne.symm).trans l2
      obtain ⟨g6, e6, i6, l6, o6⟩ := addNeighbour_look hhi5 .southEast ((t - 1) * nx + 0)
      have hlo6 : g6.look (t * nx + 0) = some _ := (o6 _ hne).trans l5
      simp only [hS, if_true, getlo (t - 1) (by omega), gethi (t - 1) (by omega), e5, e6]
      refine ⟨g6, rfl, by rw [i6, i5, i2, i1], ?_, ?_, ?_⟩
      · rw [hlo6]; congr 1; funext d; cases d <;> simp [seam, NMap.append, hN, hS, nz']
      · rw [l6]; congr 1; funext d; cases d <;> simp [seam, NMap.append, hN, hS, nz]
      · intro j h1 h2; rw [o6 j h2, o5 j h1, o2 j h2, o1 j h1]
    · simp only [hS, if_false]
      refine ⟨g2, rfl, by rw [i2, i1], ?_, ?_, ?_⟩
      · rw [hlo2]; congr 1; funext d; cases d <;> simp [seam, NMap.append, hN, hS, nz']
      · rw [l2]; congr 1; funext d; cases d <;> simp [seam, NMap.append, hN, hS, nz]
      · intro j h1 h2; rw [o2 j h2, o1 j h1]

theorem seam_inner {nx ny r c : ℕ} (h0 : c ≠ 0) (h1 : c ≠ nx - 1) (d : Dir) : seam nx ny r c d = [] := by
  cases d <;> simp [seam, h0, h1]

/-- The whole loop of `check_global_mesh`. -/
theorem globalLoop_ok (nx ny : ℕ) (hnx : 2 ≤ nx) (g : Graph) (lists : ℕ → ℕ → NMap)
    (hg : ∀ r c, c < nx → g.look (r * nx + c) = if r < ny then some (lists r c) else none) (t : ℕ) (ht : t ≤ ny) :
    ∃ g', (List.range t).foldlM (MeshBuilder.globalStep ((List.range ny).map (fun r => r * nx + 0))
        ((List.range ny).map (fun r => r * nx + (nx - 1)))) g = .ok g' ∧ g'.isGlobal = g.isGlobal ∧
      ∀ r c, c < nx → g'.look (r * nx + c) =
        if r < ny then some (fun d => lists r c d ++ (if r < t then seam nx ny r c d else [])) else none := by
  induction t with
  | zero => exact ⟨g, rfl, rfl, by simpa using hg⟩
  | succ t ih =>
    obtain ⟨g1, e1, i1, l1⟩ := ih (by omega)
    have hlo := l1 t 0 (by omega)
    have hhi := l1 t (nx - 1) (by omega)
    have htn : t < ny := by omega
    simp only [htn, if_true, Nat.lt_irrefl, if_false, List.append_nil] at hlo hhi
    obtain ⟨g2, e2, i2, a2, b2, c2⟩ := globalStep_ok nx ny t hnx htn g1 _ _ hlo hhi
    refine ⟨g2, ?_, i2.trans i1, ?_⟩
    · rw [List.range_succ, List.foldlM_append, e1]
      show Except.bind (Except.ok g1) _ = _
      simp only [Except.bind, List.foldlM_cons, List.foldlM_nil, bind, pure, Except.pure]
      rw [e2]
    · intro r c hc
      by_cases hr : r = t
      · subst hr
        by_cases h0 : c = 0
        · subst h0; rw [a2]; simp [htn]
        · by_cases h1 : c = nx - 1
          · subst h1; rw [b2]; simp [htn]
          · rw [c2 _ (by omega) (by omega), l1 r c hc]
            simp [htn, seam_inner h0 h1]
      · have n1 : r * nx + c ≠ t * nx + 0 := fun h => hr ((idx_inj hc (by omega)).1 h).1
        have n2 : r * nx + c ≠ t * nx + (nx - 1) := fun h => hr ((idx_inj hc (by omega)).1 h).1
        rw [c2 _ n1 n2, l1 r c hc]
        have : (r < t + 1) ↔ (r < t) := by omega
        simp only [this]

/-- Adjacency on the cylinder within a grid that spans the whole circle. -/
theorem adj_true_gridRect {y0 W H : ℚ} (hW : 0 < W) (hH : 0 < H) {nx : ℕ} (hw : (nx : ℚ) * W = 360) (d : Dir)
    (r c r' c' : ℕ) (hc : c < nx) (hc' : c' < nx) :
    Adj true d (gridRect (-180) y0 W H r c) (gridRect (-180) y0 W H r' c') ↔
      (numRel (hSide d) c c' ∧ numRel (vSide d) r r') ∨
      (numRel (vSide d) r r' ∧ ((hSide d = .hi ∧ c = nx - 1 ∧ c' = 0) ∨ (hSide d = .lo ∧ c = 0 ∧ c' = nx - 1))) := by
  rw [adj_true_iff, touches_gridRect hW hH]
  have c0 : 0 ≤ (c : ℚ) * W := by positivity
  have c0' : 0 ≤ (c' : ℚ) * W := by positivity
  have c1 : ((c : ℚ) + 1) * W ≤ nx * W := mul_le_mul_of_nonneg_right (by exact_mod_cast hc) hW.le
  have c1' : ((c' : ℚ) + 1) * W ≤ nx * W := mul_le_mul_of_nonneg_right (by exact_mod_cast hc') hW.le
  have v : ∀ t, sideRel (vSide d) (gridRect (-180) y0 W H r c).s (gridRect (-180) y0 W H r c).n
      ((gridRect (-180) y0 W H r' c').shift t).s ((gridRect (-180) y0 W H r' c').shift t).n ↔ numRel (vSide d) r r' := by
    intro t
    simp only [gridRect, Rect.shift]
    rw [slot_rel hH]
    cases d <;> simp [vSide, numRel]
  have mul_inj : ∀ a b : ℕ, (a : ℚ) * W = b * W ↔ a = b := by
    intro a b
    rw [mul_left_inj' hW.ne', Nat.cast_inj]
  have hp : sideRel (hSide d) (gridRect (-180) y0 W H r c).w (gridRect (-180) y0 W H r c).e
      ((gridRect (-180) y0 W H r' c').shift 360).w ((gridRect (-180) y0 W H r' c').shift 360).e ↔
      hSide d = .hi ∧ c = nx - 1 ∧ c' = 0 := by
    have key : (-180 + (c : ℚ) * W + W = -180 + c' * W + 360) ↔ c = nx - 1 ∧ c' = 0 := by
      constructor
      · intro h
        have k1 : ((c + 1 : ℕ) : ℚ) * W = nx * W := by push_cast; linarith
        have k2 : ((c' : ℕ) : ℚ) * W = (0 : ℕ) * W := by push_cast; push_cast at k1; linarith
        rw [mul_inj] at k1 k2
        exact ⟨by omega, k2⟩
      · rintro ⟨h1, h2⟩
        have k1 : ((c + 1 : ℕ) : ℚ) * W = nx * W := by rw [mul_inj]; omega
        push_cast at k1
        rw [h2]; push_cast; linarith
    cases d <;> simp only [hSide, sideRel, gridRect, Rect.shift, reduceCtorEq, false_and, iff_false, true_and] <;>
      first
      | exact key
      | (intro h; linarith)
  have hm : sideRel (hSide d) (gridRect (-180) y0 W H r c).w (gridRect (-180) y0 W H r c).e
      ((gridRect (-180) y0 W H r' c').shift (-360)).w ((gridRect (-180) y0 W H r' c').shift (-360)).e ↔
      hSide d = .lo ∧ c = 0 ∧ c' = nx - 1 := by
    have key : (-180 + (c' : ℚ) * W + W + -360 = -180 + c * W) ↔ c = 0 ∧ c' = nx - 1 := by
      constructor
      · intro h
        have k1 : ((c' + 1 : ℕ) : ℚ) * W = nx * W := by push_cast; linarith
        have k2 : ((c : ℕ) : ℚ) * W = (0 : ℕ) * W := by push_cast; push_cast at k1; linarith
        rw [mul_inj] at k1 k2
        exact ⟨k2, by omega⟩
      · rintro ⟨h1, h2⟩
        have k1 : ((c' + 1 : ℕ) : ℚ) * W = nx * W := by rw [mul_inj]; omega
        push_cast at k1
        rw [h1]; push_cast; linarith
    cases d <;> simp only [hSide, sideRel, gridRect, Rect.shift, reduceCtorEq, false_and, iff_false, true_and] <;>
      first
      | exact key
      | (intro h; linarith)
  unfold Touches
  rw [v, v, hp, hm]
  tauto

/-- C11, graph level. -/
theorem initial_exact_global {y0 W H : ℚ} (hW : 0 < W) (hH : 0 < H) {nx ny : ℕ} (hnx : 2 ≤ nx) (hw : (nx : ℚ) * W = 360) :
    ∃ g', (List.range ny).foldlM (MeshBuilder.globalStep ((List.range ny).map (fun r => r * nx + 0))
        ((List.range ny).map (fun r => r * nx + (nx - 1)))) (Graph.initialise (ny * nx) (nx : ℚ)) = .ok g' ∧
      Exact true (gridCells (-180) y0 W H nx ny) g'.look := by
  obtain ⟨g', e, -, l⟩ := globalLoop_ok nx ny hnx (Graph.initialise (ny * nx) (nx : ℚ))
    (fun r c => Graph.initialiseMap (r * nx + c) (nx : ℚ) (ny * nx))
    (fun r c hc => by rw [look_initialise]; simp only [idx_lt hc]) ny le_rfl
  refine ⟨g', e, ?_⟩
  refine exact_of_lists hW hH (by omega) (by norm_num) (by linarith) (fun _ => hnx) _
    (fun r c d => Graph.initialiseMap (r * nx + c) (nx : ℚ) (ny * nx) d ++ seam nx ny r c d) ?_ ?_ ?_
  · intro r c hc
    rw [l r c hc]
    by_cases hr : r < ny <;> simp [hr]
  · intro r c d hr hc
    rw [initialiseMap_eq nx ny r c hc]
    cases d <;> simp only [seam] <;> grind
  · intro r c r' c' d hr hc hc'
    rw [List.mem_append, mem_initialiseMap hc hc' hr, mem_seam hc' hr, adj_true_gridRect hW hH hw d r c r' c' hc hc']
    tauto

end Verif
