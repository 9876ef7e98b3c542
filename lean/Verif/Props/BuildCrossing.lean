import Verif.Props.Build
import Verif.Props.CrossingGraph

/-!
# C52: building an environmental mesh over the antimeridian
-/

namespace Verif
open Spec

variable {D : Type}

/-- Construction succeeds for every accepted grid over a region that is not flagged global. -/
theorem init_unflagged {b : Boundary} {W H : ℚ} (hp : ProperGrid b W H) (hflag : ¬ (b.longMax = 180 ∧ (b.longMin = -180 ∨ b.longMin = 180)))
    (hacc : MeshBuilder.validateBounds b W H = .ok ()) (initData : Boundary → D) (depth : ℕ) :
    ∃ m0, MeshBuilder.init b W H initData depth = .ok m0 := by
  obtain ⟨nx, ny, hnx0, hnx, hny⟩ := hp.fits hacc
  have hpos := (C04_geometry_partial b hp.valid hp.nondeg).1
  have hW := hp.wpos
  have hW1 : W ≤ 360 := by
    have h1 : (1 : ℚ) ≤ nx := by exact_mod_cast hnx0
    have : 1 * W ≤ nx * W := mul_le_mul_of_nonneg_right h1 hW.le
    linarith [hpos.2]
  have hwe := Boundary.width_eq b
  have hcells := initializeCells_eq b hp.valid hW hp.hpos hW1 nx ny (by linarith) hny
  have hcg : ∀ n gw g, MeshBuilder.checkGlobalMesh b n gw g = .ok (g, false) := by
    intro n gw g
    unfold MeshBuilder.checkGlobalMesh
    rw [if_neg]
    rintro ⟨h1, h2⟩
    apply hflag
    refine ⟨by linarith, ?_⟩
    rcases abs_cases b.longMin with ⟨h3, _⟩ | ⟨h3, _⟩
    · exact Or.inr (by linarith)
    · exact Or.inl (by linarith)
  unfold MeshBuilder.init
  rw [hacc, hcells]
  simp only [bind, Except.bind, hcg, pure, Except.pure]
  exact ⟨_, rfl⟩

/-- Construction succeeds for every accepted region that crosses the antimeridian. -/
theorem init_crossing {D : Type} {b : Boundary} {W H : ℚ} (hp : ProperGrid b W H) (hcr : b.longMax ≤ b.longMin) (hcol : b.width = 360 → W ≤ 180)
    (hacc : MeshBuilder.validateBounds b W H = .ok ()) (initData : Boundary → D) (depth : ℕ) :
    ∃ m0, MeshBuilder.init b W H initData depth = .ok m0 := by
  by_cases hstart : b.longMin = 180 ∧ b.longMax = 180
  · have hw : b.width = 360 := by
      rw [Boundary.width_eq b]; unfold eastEdge
      rw [hstart.1, hstart.2, if_neg (lt_irrefl _)]; norm_num
    obtain ⟨m0, -, h0, -⟩ := RingOK.init hp hstart (hcol hw) hacc initData depth
    exact ⟨m0, h0⟩
  · refine init_unflagged hp ?_ hacc initData depth
    rintro ⟨h1, h2 | h2⟩
    · linarith
    · exact hstart ⟨h2, h1⟩

/-- C52 over the antimeridian: construction over an accepted region that crosses the antimeridian succeeds, and building
the environmental mesh from it ends, within a bound on the number of loop steps, either with a mesh whose cells tile the
region, have unique ids and bounded depth and whose graph is well-formed, lists only true neighbours and all those in the same part of the region, or with an
exception that was raised by a source itself.  Missing: that every neighbour is listed, which is false (`C18_false`). -/
theorem C52_crossing_partial (ops : DataOps D) (agg : CellBox D → Py (Dict String Val)) (config : MeshConfig) (b : Boundary) (W H : ℚ)
    (hp : ProperGrid b W H) (hcr : b.longMax ≤ b.longMin) (hh : b.latMin < b.latMax) (hcol : b.width = 360 → W ≤ 180)
    (hacc : MeshBuilder.validateBounds b W H = .ok ()) (initData : Boundary → D) (depth : ℕ) :
    ∃ m0, MeshBuilder.init b W H initData depth = .ok m0 ∧ ∃ N, ∀ fuel, N ≤ fuel →
      (∃ em m, MeshBuilder.buildEnvironmentalMesh ops agg fuel config m0 = .ok em ∧ em.config = config ∧ em.bounds = b ∧ EnvTiles em b ∧
        (em.cells.map (·.id)).Nodup ∧ (∀ c ∈ em.cells, ∃ k ≤ depth, c.bounds.width = W / 2 ^ k ∧ c.bounds.height = H / 2 ^ k) ∧
        (∀ i, (em.graph.nodes.get? i).isSome ↔ ∃ c ∈ em.cells, c.id = i) ∧
        (∀ c ∈ em.cells, ∀ f d j, em.graph.nodes.get? c.id = some f → j ∈ f d → (f d).count j = 1 ∧ j ≠ c.id ∧
          ∃ c' ∈ em.cells, c'.id = j ∧ CylAdj d c.bounds c'.bounds ∧ ∃ f', em.graph.nodes.get? j = some f' ∧ c.id ∈ f' d.opp) ∧
        (b.width < 360 → ∀ c ∈ em.cells, ∀ c' ∈ em.cells, SamePart b W c.bounds.longMin c'.bounds.longMin → ∀ d, CylAdj d c.bounds c'.bounds →
          ∃ f, em.graph.nodes.get? c.id = some f ∧ c'.id ∈ f d) ∧
        Reach ops b W H initData depth m ∧ ∀ c ∈ em.cells, ∃ c0, Live m c.id c0 ∧ c.bounds = c0.bounds ∧ agg c0 = .ok c.data) ∨
      (∃ e, MeshBuilder.buildEnvironmentalMesh ops agg fuel config m0 = .error e ∧ (DecisionRaises ops e ∨ ∃ c, agg c = .error e)) := by
  obtain ⟨m0, h0⟩ := init_crossing hp hcr hcol hacc initData depth
  have hmax : m0.maxDepth = depth := by
    obtain ⟨boxes, g, glob, -, -, -, rfl⟩ := init_inv h0; rfl
  obtain ⟨-, N, m, -, hrun, hsp, -, -⟩ := C22_terminates_partial (calm ops) (calm_decides ops) b W H hp hh hcol initData depth depth m0 h0
  have hreach : Reach ops b W H initData depth m := ⟨m0, h0, splits_calm hsp⟩
  refine ⟨m0, h0, N, fun fuel hf => ?_⟩
  unfold MeshBuilder.buildEnvironmentalMesh
  rw [hmax]
  rcases depth_calm ops depth fuel m0 with h | ⟨e, he, h⟩
  · rw [hrun fuel hf] at h
    rw [h]
    simp only [bind, Except.bind]
    cases hem : MeshBuilder.toEnvMesh agg config m with
    | ok em =>
      left
      have hc := reach_cells hp hreach
      obtain ⟨hids, -, ht, -, hA, hB⟩ := toEnvMesh_ok hc hem
      obtain ⟨-, hbd, hgr, hcf, -⟩ := toEnvMesh_spec hem
      obtain ⟨g1, g2, g3⟩ := C19_crossing_partial ops b W H hp hcol initData depth m hreach
      obtain ⟨g4, -⟩ := C18_listed_partial ops b W H hp hcr hcol initData depth m hreach
      refine ⟨em, m, rfl, hcf, hbd.trans hc.bounds, ht, hids, ?_, ?_, ?_, ?_, hreach, hA⟩
      · intro c hcm
        obtain ⟨c0, hl, e, -⟩ := hA c hcm
        obtain ⟨s1, s2, s3⟩ := C21_sizes_partial ops b W H hp initData depth depth fuel m0 m h0 h _ c0 hl
        exact ⟨c0.depth, s1, by rw [e]; exact s2, by rw [e]; exact s3⟩
      · intro i
        rw [hgr]
        refine (g1 i).trans ⟨?_, ?_⟩
        · rintro ⟨c, hl⟩
          obtain ⟨a, ha, hi, -⟩ := hB i c hl
          exact ⟨a, ha, hi⟩
        · rintro ⟨a, ha, rfl⟩
          obtain ⟨c, hl, -⟩ := hA a ha
          exact ⟨c, hl⟩
      · intro c hcm f d j hf' hj
        rw [hgr] at hf' ⊢
        obtain ⟨c0, hl, hb0, -⟩ := hA c hcm
        obtain ⟨n1, n2, -⟩ := g2 c.id f d hf'
        obtain ⟨c0', hl', hadj⟩ := g4 c.id c0 f d j hl hf' hj
        obtain ⟨a', ha', hi', hb', -⟩ := hB j c0' hl'
        refine ⟨List.count_eq_one_of_mem n1 hj, fun h => n2 (h ▸ hj), a', ha', hi', by rw [hb0, hb']; exact hadj, ?_⟩
        obtain ⟨f', hf''⟩ := Option.isSome_iff_exists.1 ((g1 j).2 ⟨c0', hl'⟩)
        exact ⟨f', hf'', (g3 c.id j f f' d hf' hf'').1 hj⟩
      · intro hw c hcm c' hcm' hpart d hadj
        obtain ⟨c0, hl, hb0, -⟩ := hA c hcm
        obtain ⟨c0', hl', hb0', -⟩ := hA c' hcm'
        rw [hb0, hb0'] at hpart hadj
        obtain ⟨f, hf'⟩ := Option.isSome_iff_exists.1 ((g1 c.id).2 ⟨c0, hl⟩)
        rw [hgr]
        exact ⟨f, hf', (C18_parts_partial ops b W H hp hcr hw initData depth m hreach c.id c'.id c0 c0' f d hl hl' hf' hpart).2 hadj⟩
    | error e =>
      right
      refine ⟨e, rfl, Or.inr ?_⟩
      obtain ⟨i, c, -, h'⟩ := toEnvMesh_error hem
      exact ⟨c, h'⟩
  · right
    rw [h]
    exact ⟨e, rfl, Or.inl he⟩

/-- The hypotheses of `C52_crossing_partial` hold for a region from 170 to -160. -/
example : ProperGrid exCross 10 5 ∧ exCross.longMax ≤ exCross.longMin ∧ exCross.latMin < exCross.latMax ∧ (exCross.width = 360 → (10 : ℚ) ≤ 180) ∧
    MeshBuilder.validateBounds exCross 10 5 = .ok () :=
  ⟨exCross_proper, by decide +kernel, by decide +kernel, by norm_num, by decide +kernel⟩

/-- A build over the antimeridian that splits the cell starting there. -/
def exBuiltCross : Py EnvMesh := do
  let m ← MeshBuilder.init exCross 10 5 (fun _ => ()) 1
  MeshBuilder.buildEnvironmentalMesh { exOps with shouldSplit := fun _ b _ => .ok (b.longMin == 180) } exAgg 100 exConfig m

example : (exBuiltCross.map (fun m => m.cells.map (fun c => (c.id, c.bounds.longMin, c.bounds.longMax)))).toOption =
    some [(0, 170, 180), (2, -170, -160), (3, 170, 180), (5, -170, -160), (6, 180, -175), (7, -175, -170), (8, 180, -175), (9, -175, -170),
      (10, 180, -175), (11, -175, -170), (12, 180, -175), (13, -175, -170)] := by decide +kernel

end Verif
