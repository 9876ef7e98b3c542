import Verif.Props.EnvMerge
import Verif.Props.SplitToDepth

/-!
# C52: building an environmental mesh from end to end
-/

namespace Verif
open Spec

variable {D : Type}

/-- The same sources with a decision that does not raise. -/
def calm (ops : DataOps D) : DataOps D :=
  { ops with shouldSplit := fun n b d => match ops.shouldSplit n b d with | .ok r => .ok r | .error _ => .ok false }

theorem calm_decides (ops : DataOps D) : Decides (calm ops) := by
  intro n b d
  unfold calm
  simp only
  cases ops.shouldSplit n b d with
  | ok r => exact ⟨r, rfl⟩
  | error e => exact ⟨false, rfl⟩

theorem calm_split (ops : DataOps D) (m : MeshState D) (k : ℕ) :
    MeshBuilder.splitAndReplace (calm ops) m k = MeshBuilder.splitAndReplace ops m k := rfl

/-- The decision on some cell raises `e`. -/
def Spec.DecisionRaises (ops : DataOps D) (e : Err) : Prop := ∃ n b d, ops.shouldSplit n b d = .error e

theorem pass_calm (ops : DataOps D) (sd index fuel : ℕ) : ∀ (i : ℕ) (m : MeshState D),
    MeshBuilder.splitPass ops sd index fuel i m = MeshBuilder.splitPass (calm ops) sd index fuel i m ∨
      ∃ e, DecisionRaises ops e ∧ MeshBuilder.splitPass ops sd index fuel i m = .error e := by
  induction fuel with
  | zero => intro i m; exact Or.inl rfl
  | succ fuel ih =>
    intro i m
    unfold MeshBuilder.splitPass
    rcases hc : m.cells[i]? with _ | _ | c
    · exact Or.inl rfl
    · exact ih (i + 1) m
    · simp only
      cases hs : ops.shouldSplit (index + 1) c.bounds c.data with
      | error e => exact Or.inr ⟨e, ⟨_, _, _, hs⟩, rfl⟩
      | ok r =>
        have hs' : (calm ops).shouldSplit (index + 1) c.bounds c.data = .ok r := by
          unfold calm; simp only [hs]
        simp only [hs', bind, Except.bind, calm_split]
        split
        · cases MeshBuilder.splitAndReplace ops m i with
          | error e => exact Or.inl rfl
          | ok m' => exact ih (i + 1) m'
        · exact ih (i + 1) m

theorem sources_calm (ops : DataOps D) (sd fuel : ℕ) (conds : List ℕ) : ∀ (index : ℕ) (m : MeshState D),
    MeshBuilder.splitSources ops sd fuel conds index m = MeshBuilder.splitSources (calm ops) sd fuel conds index m ∨
      ∃ e, DecisionRaises ops e ∧ MeshBuilder.splitSources ops sd fuel conds index m = .error e := by
  induction conds with
  | nil => intro index m; exact Or.inl rfl
  | cons n rest ih =>
    intro index m
    unfold MeshBuilder.splitSources
    by_cases hn : n > 0
    · simp only [if_pos hn]
      rcases pass_calm ops sd index fuel 0 m with h | ⟨e, he, h⟩
      · rw [h]
        cases MeshBuilder.splitPass (calm ops) sd index fuel 0 m with
        | error e => exact Or.inl rfl
        | ok m' => exact ih (index + 1) m'
      · rw [h]; exact Or.inr ⟨e, he, rfl⟩
    · simp only [if_neg hn]
      exact ih (index + 1) m

theorem depth_calm (ops : DataOps D) (sd fuel : ℕ) (m : MeshState D) :
    MeshBuilder.splitToDepth ops fuel sd m = MeshBuilder.splitToDepth (calm ops) fuel sd m ∨
      ∃ e, DecisionRaises ops e ∧ MeshBuilder.splitToDepth ops fuel sd m = .error e := by
  unfold MeshBuilder.splitToDepth
  cases cellAt m.cells 0 with
  | error e => exact Or.inl rfl
  | ok c0 => exact sources_calm ops sd fuel (ops.nConds c0.data) 0 m

/-- A mesh built over `b` with cells of `W` by `H` and at most `depth` levels of splitting. -/
structure Spec.BuiltOK (b : Boundary) (W H : ℚ) (depth : ℕ) (em : EnvMesh) : Prop where
  bounds : em.bounds = b
  tiles : EnvTiles em b
  ids : (em.cells.map (·.id)).Nodup
  graph : Exact (globalRegion b) (envRect em) (fun i => em.graph.nodes.get? i)
  flag : em.graph.isGlobal = globalRegion b
  size : ∀ c ∈ em.cells, ∃ k ≤ depth, c.bounds.width = W / 2 ^ k ∧ c.bounds.height = H / 2 ^ k

/-- Splits do not depend on the decision function. -/
theorem splits_calm {ops : DataOps D} {m m' : MeshState D} (h : Splits (calm ops) m m') : Splits ops m m' := by
  induction h with
  | refl => exact .refl _
  | step k _ he ih => exact .step k ih (by rw [← calm_split]; exact he)

/-- An exception while aggregating comes from the aggregation of a live cell. -/
theorem toEnvMesh_error {agg : CellBox D → Py (Dict String Val)} {config : MeshConfig} {m : MeshState D} {e : Err}
    (h : MeshBuilder.toEnvMesh agg config m = .error e) : ∃ i c, Live m i c ∧ agg c = .error e := by
  have key : ∀ l : List (CellBox D), l.mapM (fun c => do
        let data ← agg c
        return ({ bounds := c.bounds, data := data, id := c.id } : AggCell)) = (.error e : Py (List AggCell)) → ∃ c ∈ l, agg c = .error e := by
    intro l
    induction l with
    | nil => intro h; simp [List.mapM_nil, pure, Except.pure] at h
    | cons c l ih =>
      intro h
      rw [List.mapM_cons] at h
      cases hc : agg c with
      | error e' =>
        rw [hc] at h
        simp only [bind, Except.bind, Except.error.injEq] at h
        subst h
        exact ⟨c, by simp, hc⟩
      | ok d =>
        simp only [hc, bind, Except.bind, pure, Except.pure] at h
        split at h
        · rename_i e' he
          simp only [Except.error.injEq] at h
          subst h
          obtain ⟨c', hc', h'⟩ := ih he
          exact ⟨c', by simp [hc'], h'⟩
        · cases h
  unfold MeshBuilder.toEnvMesh at h
  simp only [bind, Except.bind, pure, Except.pure] at h
  split at h
  · rename_i e' he
    simp only [Except.error.injEq] at h
    subst h
    obtain ⟨c, hc, h'⟩ := key _ he
    obtain ⟨i, hi⟩ := mem_live.1 hc
    exact ⟨i, c, hi, h'⟩
  · cases h

/-- C52 (proper grids): construction over an accepted region that does not cross the antimeridian
succeeds, and building the environmental mesh from it — for every behaviour of the data sources —
ends, within a bound on the number of loop steps, either with a mesh whose cells tile the region, have
unique ids, exact neighbour graph and bounded depth, or with an exception that was raised by a source
itself, while deciding on a cell or while aggregating one. -/
theorem C52_build_partial (ops : DataOps D) (agg : CellBox D → Py (Dict String Val)) (config : MeshConfig) (b : Boundary) (W H : ℚ)
    (hp : ProperGrid b W H) (hcr : b.longMin < b.longMax) (hh : b.latMin < b.latMax) (hcol : b.longMin = -180 ∧ b.longMax = 180 → W ≤ 180)
    (hacc : MeshBuilder.validateBounds b W H = .ok ()) (initData : Boundary → D) (depth : ℕ) :
    ∃ m0, MeshBuilder.init b W H initData depth = .ok m0 ∧ ∃ N, ∀ fuel, N ≤ fuel →
      (∃ em m, MeshBuilder.buildEnvironmentalMesh ops agg fuel config m0 = .ok em ∧ BuiltOK b W H depth em ∧ em.config = config ∧
        Reach ops b W H initData depth m ∧
        ∀ c ∈ em.cells, ∃ c0, Live m c.id c0 ∧ c.bounds = c0.bounds ∧ agg c0 = .ok c.data) ∨
      (∃ e, MeshBuilder.buildEnvironmentalMesh ops agg fuel config m0 = .error e ∧ (DecisionRaises ops e ∨ ∃ c, agg c = .error e)) := by
  obtain ⟨nx, ny, hnx0, hnx, hny⟩ := hp.fits hacc
  obtain ⟨m0, h0, -⟩ := init_exact hp.valid hcr hp.wpos hp.hpos hnx hny (by
    intro hg
    have hw := width_of_lt hcr
    rw [hnx, hg.1, hg.2] at hw
    have hW := hcol hg
    by_contra hlt
    have : (nx : ℚ) ≤ 1 := by exact_mod_cast (by omega : nx ≤ 1)
    have := mul_le_mul_of_nonneg_right this hp.wpos.le
    linarith) initData depth
  have hmax : m0.maxDepth = depth := by
    obtain ⟨boxes, g, glob, -, -, -, rfl⟩ := init_inv h0; rfl
  have hcol' : b.width = 360 → W ≤ 180 := by
    intro h
    rw [width_of_lt hcr] at h
    obtain ⟨-, v1, v2, v3, v4, -⟩ := hp.valid
    exact hcol ⟨by linarith, by linarith⟩
  obtain ⟨-, N, m, -, hrun, hsp, -, -⟩ := C22_terminates_partial (calm ops) (calm_decides ops) b W H hp hh hcol' initData depth depth m0 h0
  have hreach : Reach ops b W H initData depth m := ⟨m0, h0, splits_calm hsp⟩
  refine ⟨m0, h0, N, fun fuel hf => ?_⟩
  unfold MeshBuilder.buildEnvironmentalMesh
  rw [hmax]
  rcases depth_calm ops depth fuel m0 with h | ⟨e, he, h⟩
  · rw [hrun fuel hf] at h
    rw [h]
    simp only [bind, Except.bind]
    cases hem : MeshBuilder.toEnvMesh agg config m with
    | ok em =>
      left
      obtain ⟨hc, hge⟩ := reach_graph hp hcr (by intro h; exact hcol (by simpa [globalRegion] using h)) hreach
      obtain ⟨hids, hval, ht, hr, hA, hB⟩ := toEnvMesh_ok hc hem
      obtain ⟨-, hbd, hgr, hcf, -⟩ := toEnvMesh_spec hem
      refine ⟨em, m, rfl, ⟨hbd.trans hc.bounds, ht, hids, ?_, ?_, ?_⟩, hcf, hreach, hA⟩
      · have e1 : envRect em = liveRect m := funext hr
        rw [e1, hgr]
        exact hge.2
      · rw [hgr]; exact hge.1
      · intro c hcm
        obtain ⟨c0, hl, e, -⟩ := hA c hcm
        obtain ⟨s1, s2, s3⟩ := C21_sizes_partial ops b W H hp initData depth depth fuel m0 m h0 h _ c0 hl
        exact ⟨c0.depth, s1, by rw [e]; exact s2, by rw [e]; exact s3⟩
    | error e =>
      right
      refine ⟨e, rfl, Or.inr ?_⟩
      obtain ⟨i, c, -, h'⟩ := toEnvMesh_error hem
      exact ⟨c, h'⟩
  · right
    rw [h]
    exact ⟨e, rfl, Or.inl he⟩

/-- The hypotheses of C52 hold for the example region, the build of it does not raise, and cells at
different depths come out. -/
example : ProperGrid exRegion 10 5 ∧ exRegion.longMin < exRegion.longMax ∧ exRegion.latMin < exRegion.latMax ∧
    MeshBuilder.validateBounds exRegion 10 5 = .ok () := ⟨exRegion_proper, by decide +kernel, by decide +kernel, by decide +kernel⟩

/-- A build. -/
def exBuilt : Py EnvMesh := do
  let m ← MeshBuilder.init exRegion 10 5 (fun _ => ()) 1
  MeshBuilder.buildEnvironmentalMesh exOps exAgg 100 exConfig m

example : (exBuilt.map (fun m => m.cells.map (fun c => (c.id, c.bounds.width))) : Py (List (ℕ × ℚ))) =
    .ok [(1, 10), (3, 10), (4, 5), (5, 5), (6, 5), (7, 5), (8, 5), (9, 5), (10, 5), (11, 5)] := by decide +kernel

end Verif
