import Verif.Props.EnvJson

/-!
# Property C37: splitting cells of a loaded mesh
-/

namespace Verif
open Spec

/-- C37, one split: it never raises on a consistent loaded mesh; the split cell is replaced by its
four quarters under ids that no cell had before, all other cells are untouched and in order, and the
new mesh is consistent again. -/
theorem C37_split (m : EnvMesh) (h : EnvOK m) (hl : Loaded m) (c : AggCell) (hc : c ∈ m.cells) :
    ∃ (m' : EnvMesh) (f : Spec.Quad → AggCell), m.splitAndReplace c.id = .ok m' ∧ EnvOK m' ∧ Loaded m' ∧
      (∀ x, x ∈ m'.cells ↔ (x ∈ m.cells ∧ x ≠ c) ∨ ∃ q, x = f q) ∧
      (∃ rest, m'.cells = m.cells.filter (fun x => x ≠ c) ++ rest ∧ rest.length = 4) ∧
      (∀ q, rectOf (f q).bounds = (rectOf c.bounds).quarter q ∧ (f q).bounds.time = c.bounds.time ∧ SameData (f q) c) ∧
      (∀ q, ∀ x ∈ m.cells, (f q).id ≠ x.id) ∧ (∀ q q', (f q).id = (f q').id → q = q') := by
  obtain ⟨m', f, h1, h2, h3, -, -, -, h5, h6, h7⟩ := envSplit_ok m h hl c hc
  refine ⟨m', f, h1, h2, h3, ?_, ⟨_, h5, rfl⟩, fun q => ⟨(h7 q).2.1, (h7 q).2.2.2.1, (h7 q).2.2.2.2.2.2⟩, ?_, ?_⟩
  · intro x
    rw [h5, List.mem_append, List.mem_filter]
    simp only [ne_eq, decide_eq_true_eq, List.mem_cons, List.not_mem_nil, or_false]
    constructor
    · rintro (h | h | h | h | h)
      · exact Or.inl h
      all_goals exact Or.inr ⟨_, h⟩
    · rintro (h | ⟨q, rfl⟩)
      · exact Or.inl h
      · right; cases q <;> simp
  · intro q x hx e
    have := le_maxId hx
    rw [(h7 q).1] at e
    cases q <;> simp only [envChild] at e <;> omega
  · intro q q' e
    rw [(h7 q).1, (h7 q').1] at e
    exact envChild_inj _ e

theorem missing_raises (m : EnvMesh) (k : ℕ) (h : ∀ c ∈ m.cells, c.id ≠ k) : m.splitAndReplace k = .error .attributeError := by
  have : EnvMesh.getCellbox m.cells k = none := by
    unfold EnvMesh.getCellbox
    rw [List.find?_eq_none]
    intro c hc; simpa using h c hc
  unfold EnvMesh.splitAndReplace EnvMesh.simSplit
  simp only [this, bind, Except.bind]

theorem covers_quarter {b b' : Boundary} {q : Spec.Quad} (hp : (rectOf b).Pos) (h : rectOf b' = (rectOf b).quarter q) (x y : ℚ)
    (hc : Covers b' x y) : Covers b x y := by
  obtain ⟨h1, h2⟩ := hp
  simp only [rectOf] at h1 h2
  obtain ⟨⟨n, hn1, hn2⟩, h3, h4⟩ := hc
  have hE : eastEdge b = b.longMax := by simp [eastEdge, h1]
  have hlt : b'.longMin < b'.longMax := by
    cases q <;> simp only [rectOf, Rect.quarter, Rect.mk.injEq] at h <;> obtain ⟨e1, e2, e3, e4⟩ := h <;> rw [e1, e2] <;> linarith
  have hE' : eastEdge b' = b'.longMax := by simp [eastEdge, hlt]
  rw [hE'] at hn2
  unfold Covers
  rw [hE]
  cases q <;> simp only [rectOf, Rect.quarter, Rect.mk.injEq] at h <;> obtain ⟨e1, e2, e3, e4⟩ := h <;>
    rw [e1] at hn1 <;> rw [e2] at hn2 <;> rw [e3] at h3 <;> rw [e4] at h4 <;>
    exact ⟨⟨n, by linarith, by linarith⟩, by linarith, by linarith⟩

/-- C37: for any sequence of splits of a consistent loaded mesh the ids stay unique, the neighbour
graph stays exactly geometric adjacency, the region stays tiled; every cell lies within an original
cell, whose data it has; and splitting any present cell never raises. -/
theorem C37_sequences (m : EnvMesh) (h : EnvOK m) (hl : Loaded m) (b : Boundary) (ht : EnvTiles m b) (m' : EnvMesh) (hs : EnvSplits m m') :
    EnvOK m' ∧ Loaded m' ∧ EnvTiles m' b ∧ (∀ c ∈ m'.cells, ∃ m'', m'.splitAndReplace c.id = .ok m'') ∧
    ∀ c' ∈ m'.cells, ∃ c ∈ m.cells, (∀ x y, Covers c'.bounds x y → Covers c.bounds x y) ∧ c'.bounds.time = c.bounds.time ∧ SameData c' c := by
  induction hs with
  | refl =>
    refine ⟨h, hl, ht, ?_, fun c hc => ⟨c, hc, fun x y h => h, rfl, fun key _ => rfl⟩⟩
    intro c hc
    obtain ⟨m', -, h1, -⟩ := envSplit_ok m h hl c hc
    exact ⟨m', h1⟩
  | step k _ he ih =>
    rename_i mm mm' _
    obtain ⟨hok, hld, htl, -, hin⟩ := ih
    by_cases hk : ∃ c ∈ mm.cells, c.id = k
    · obtain ⟨c, hc, rfl⟩ := hk
      obtain ⟨m1, f, h1, h2, h3, -, -, -, h5, h6, h7⟩ := envSplit_ok mm hok hld c hc
      rw [h1] at he
      injection he with he
      subst he
      refine ⟨h2, h3, ?_, ?_, ?_⟩
      · obtain ⟨pre, suf, e1, e2⟩ := filter_ne_split (nodup_of_ids hok.ids) hc
        unfold EnvTiles
        rw [h5, e2]
        rw [List.map_append, List.map_append]
        refine Spec.Tiles.replace htl ?_ h6
        rw [e1, List.map_append, List.map_cons]
      · intro x hx
        obtain ⟨m', -, h1, -⟩ := envSplit_ok m1 h2 h3 x hx
        exact ⟨m', h1⟩
      · intro x hx
        rw [h5, List.mem_append, List.mem_filter] at hx
        rcases hx with ⟨hx, -⟩ | hx
        · exact hin x hx
        · obtain ⟨c0, hc0, g1, g2, g3⟩ := hin c hc
          have hx' : ∃ q, x = f q := by
            simp only [List.mem_cons, List.not_mem_nil, or_false] at hx
            rcases hx with h | h | h | h <;> exact ⟨_, h⟩
          obtain ⟨q, rfl⟩ := hx'
          obtain ⟨k1, k2, k3, k4, k5, k6, k7⟩ := h7 q
          refine ⟨c0, hc0, fun x y hxy => g1 x y (covers_quarter (EnvOK.pos hok hc).1 k2 x y hxy), by rw [k4, g2], ?_⟩
          intro key hkey
          rw [k7 key hkey, g3 key hkey]
    · rw [missing_raises mm k (fun c hc e => hk ⟨c, hc, e⟩)] at he
      cases he

/-- Splitting an id that the mesh does not have raises, as does splitting a cell of a mesh that comes
from the mesh builder without having been saved and loaded: its graph has integer keys. -/
theorem C37_raises (m : EnvMesh) (k : ℕ) :
    ((∀ c ∈ m.cells, c.id ≠ k) → m.splitAndReplace k = .error .attributeError) ∧
    (¬ Loaded m → ∃ e, m.splitAndReplace k = .error e) := by
  refine ⟨missing_raises m k, ?_⟩
  intro hl
  unfold EnvMesh.splitAndReplace
  rcases hs : EnvMesh.simSplit m.cells k with e | new
  · exact ⟨e, rfl⟩
  · refine ⟨.keyError, ?_⟩
    have : m.strNodes = false ∨ m.strDirs = false := by
      unfold Loaded at hl
      cases h1 : m.strNodes <;> cases h2 : m.strDirs <;> simp_all
    simp only [bind, Except.bind, if_pos this]

/-- The hypotheses hold for the saved and loaded example mesh. -/
example : ∃ m, exLoaded = .ok m ∧ EnvOK m ∧ Loaded m ∧ EnvTiles m exRegion :=
  let ⟨m, h1, h2, h3, h4, _⟩ := exLoaded_ok
  ⟨m, h1, h2, h3, h4⟩

/-- Two splits of the loaded example. -/
def exSplitTwice : Py EnvMesh := do
  let m ← exLoaded
  let m ← m.splitAndReplace 1
  m.splitAndReplace 5

example : (exSplitTwice.map (fun m => (m.cells.map (·.id), (m.graph.nodes.get? 13).map (fun f => (f .west, f .south)))) :
      Py (List ℕ × Option (List ℕ × List ℕ))) =
    .ok ([2, 3, 4, 6, 8, 9, 10, 11, 12, 13, 14, 15, 16, 17, 18, 19], some ([19, 18], [12])) := by decide +kernel

/-- The band mesh of the examples, saved and loaded. -/
def exLoadedGlobe : Py EnvMesh := do
  let m ← exGlobe
  let em ← MeshBuilder.toEnvMesh exAgg exConfig m
  EnvMesh.fromJson em.toJson

/-- The same after splitting cell 0. -/
def exLoadedGlobeSplit : Py EnvMesh := do
  let m ← exLoadedGlobe
  m.splitAndReplace 0

/-- **Splitting a loaded global mesh loses the adjacency over the antimeridian.** Cells 0 (western end
of the band, -180 to -90) and 13 (at the eastern end) are listed as neighbours in the loaded mesh;
after cell 0 has been split nothing is listed to the east of cell 13 any more, although the new cell 17
touches it on the cylinder. -/
theorem C37_global_false :
    (exLoadedGlobe.map (fun m => ((m.graph.nodes.get? 13).map (fun f => f .east), envRect m 13)) : Py (Option (List ℕ) × Option Rect)) =
      .ok (some [0], some ⟨315/2, 180, -225/4, -55⟩) ∧
    (exLoadedGlobeSplit.map (fun m => ((m.graph.nodes.get? 13).map (fun f => f .east), envRect m 13, envRect m 17)) :
          Py (Option (List ℕ) × Option Rect × Option Rect)) =
      .ok (some [], some ⟨315/2, 180, -225/4, -55⟩, some ⟨-180, -135, -115/2, -55⟩) ∧
    Adj true .east ⟨315/2, 180, -225/4, -55⟩ ⟨-180, -135, -115/2, -55⟩ := by
  refine ⟨by decide +kernel, by decide +kernel, 360, by simp [turns], ?_⟩
  norm_num [Touches, sideRel, hSide, vSide, Rect.shift]

end Verif
