import Verif.Props.Aggregate
import Verif.Props.SplitTree

/-!
# C108: the values of a built mesh, from end to end
-/

namespace Verif
open Spec

/-! ## Specification -/

/-- `r` is the statistic named by the aggregation type over the values, NaN where it is not defined.  Standard deviations are
given by their squares. -/
def Spec.Statistic (grid : Bool) (agg : AggType) (vals : List (Option ℚ)) (r : Option ℚ) : Prop :=
  match agg with
  | .min => ∀ v, r = some v ↔ IsMinOf (presentValues vals) v
  | .max => ∀ v, r = some v ↔ IsMaxOf (presentValues vals) v
  | .mean => ∀ v, r = some v ↔ presentValues vals ≠ [] ∧ v * (presentValues vals).length = (presentValues vals).sum
  | .median => ∀ v, r = some v ↔ IsMiddle (presentValues vals) v
  | .std => (r = none ↔ (presentValues vals).length < if grid then 1 else 2) ∧
      ∀ v, r = some v → 0 ≤ v ∧ IsMeanSquare (presentValues vals) ((presentValues vals).length - if grid then 0 else 1) v
  | .count => r = some (if grid then vals.length else (presentValues vals).length)
  | _ => False

/-- The boxes from a cell up to the box of the grid in which it lies: each is one of the parts of the next. -/
inductive Spec.LineageBy (parts : Boundary → List Boundary) (start : Boundary → Prop) : List Boundary → Prop
  | root {q : Boundary} : start q → LineageBy parts start [q]
  | quarter {q p : Boundary} {t : List Boundary} : LineageBy parts start (p :: t) → q ∈ parts p → LineageBy parts start (q :: p :: t)

/-- Each box is a quarter of the next. -/
abbrev Spec.Lineage (start : Boundary → Prop) : List Boundary → Prop := LineageBy quarters start

/-- The value of a source in a box with the given ancestors: the statistic of its datapoints in the box; if that is missing, the
constant to fill with, or else the statistic of the nearest ancestor that has one. -/
def Spec.SourceGives (s : Source (Dataset (Option ℚ)) Cond) (q : Boundary) (anc : List Boundary) (v : Option ℚ) : Prop :=
  ∃ id name agg minDp, s.loader = scalarLoader id name agg minDp ∧
    ∃ own, Statistic s.subset.isGrid agg ((rowsIn s.subset q).map Row.val) own ∧
      match s.fill with
      | .const (.num x) => IsFirst [own, x] v
      | .const _ => False
      | .parent => ∃ vals, List.Forall₂ (fun a w => Statistic s.subset.isGrid agg ((rowsIn s.subset a).map Row.val) w) anc vals ∧
          IsFirst (own :: vals) v

/-- The sources are scalar, with known aggregation types, names without commas, and filled from parents or by a number. -/
def Spec.PlainSources (b : Boundary) (full : List (Source (Dataset (Option ℚ)) Cond)) : Prop :=
  (full.map (fun s => s.loader.id)).Nodup ∧
  ∀ s ∈ full, (∃ id name agg minDp, s.loader = scalarLoader id name agg minDp ∧ ',' ∉ name.toList ∧
      agg ∈ [AggType.min, .max, .mean, .median, .std, .count]) ∧
    (s.fill = .parent ∨ ∃ x, s.fill = .const (.num x)) ∧ s.subset.Sorted ∧ ∃ d', s.subset.trim b = .ok d'

theorem plain_scalar {b : Boundary} {full : List (Source (Dataset (Option ℚ)) Cond)} (h : PlainSources b full) : ScalarSources b full := by
  intro s hs
  obtain ⟨⟨id, name, agg, minDp, e, -⟩, -, h3⟩ := h.2 s hs
  exact ⟨⟨id, name, agg, minDp, e⟩, h3⟩

theorem valueOf_statistic (grid : Bool) {agg : AggType} (hagg : agg ∈ [AggType.min, .max, .mean, .median, .std, .count])
    (vals : List (Option ℚ)) : ∃ r, valueOf grid agg vals = .ok r ∧ Statistic grid agg vals r := by
  obtain ⟨k1, kmin, kmax, kmean, kmed, -⟩ := C29_values grid vals
  simp only [List.mem_cons, List.not_mem_nil, or_false] at hagg
  rcases hagg with rfl | rfl | rfl | rfl | rfl | rfl
  · obtain ⟨r, hr, -⟩ := k1 .min (by simp)
    exact ⟨r, hr, fun v => by rw [← kmin v, hr, Except.ok.injEq]⟩
  · obtain ⟨r, hr, -⟩ := k1 .max (by simp)
    exact ⟨r, hr, fun v => by rw [← kmax v, hr, Except.ok.injEq]⟩
  · obtain ⟨r, hr, -⟩ := k1 .mean (by simp)
    exact ⟨r, hr, fun v => by rw [← kmean v, hr, Except.ok.injEq]⟩
  · obtain ⟨r, hr, -⟩ := k1 .median (by simp)
    exact ⟨r, hr, fun v => by rw [← kmed v, hr, Except.ok.injEq]⟩
  · obtain ⟨⟨r, h1, -, h2, h3⟩, ⟨r', h1', h2', h3'⟩⟩ := C29_std_partial vals
    cases grid
    · exact ⟨r', h1', h2', fun v hv => by simpa using h3' v hv⟩
    · refine ⟨r, h1, ?_, fun v hv => by simpa using h3 v hv⟩
      rw [h2]
      simp
  · cases grid
    · exact ⟨_, (C29_count vals).1, by simp [Statistic]⟩
    · exact ⟨_, (C29_count vals).2, by simp [Statistic]⟩

/-- The value of a source on a box, from its full data and from the kept subset. -/
theorem scalar_statistic {b q : Boundary} {agg : AggType} (hagg : agg ∈ [AggType.min, .max, .mean, .median, .std, .count])
    {d : Dataset (Option ℚ)} (hs : d.Sorted) {d0 : Dataset (Option ℚ)} (h : d.trim b = .ok d0) (hq : ProperBox q)
    (hcr : q.longMin < q.longMax) (ht : q.time = b.time) :
    ∃ d' v, d.trim q = .ok d' ∧ scalarValue agg q d' = .ok v ∧ Statistic d.isGrid agg ((rowsIn d q).map Row.val) v := by
  obtain ⟨d', e1, e2⟩ := rowsIn_trim hs hcr ht h
  obtain ⟨v, hv, hst⟩ := valueOf_statistic d.isGrid hagg ((rowsIn d q).map Row.val)
  refine ⟨d', v, e1, ?_, hst⟩
  have hr : TrimsRight d q := ⟨hq, by cases d with | table t => exact hcr | grid g => exact Or.inl hcr⟩
  rw [scalarValue_trim agg hs hr e1, scalarValue_eq agg hs (by rw [timeLimits_congr ht]; exact trim_time h), ← hv]
  congr 2
  unfold pointsIn
  rw [e1]
  exact e2

/-- The value of a source in a cell whose data and ancestors are what they should be. -/
theorem source_gives {b : Boundary} {full : List (Source (Dataset (Option ℚ)) Cond)} (hf : PlainSources b full) {q : Boundary}
    {anc : List (Boundary × List (Source (Dataset (Option ℚ)) Cond))} (hq : GoodBox b full (q, trimSources q full))
    (hanc : ∀ a ∈ anc, GoodBox b full a) {s : Source (Dataset (Option ℚ)) Cond} (hs : s ∈ full) :
    ∃ v, sourceValue q anc { s with subset := s.loader.trim q s.subset } = .ok [(s.loader.dataName, .num v)] ∧
      SourceGives s q (anc.map Prod.fst) v := by
  obtain ⟨⟨id, name, agg, minDp, e, hn, hagg⟩, hfill, hsort, d0, hd0⟩ := hf.2 s hs
  obtain ⟨k1, k2, k3, -⟩ := hq
  simp only at k1 k2 k3
  have hsc : IsScalar s.loader (scalarValue agg) := by rw [e]; exact scalarLoader_isScalar id hn agg minDp
  have htr : ∀ q d', s.subset.trim q = .ok d' → s.loader.trim q s.subset = d' := by
    intro q d' h
    rw [e]
    show (match s.subset.trim q with | .ok d' => d' | .error _ => s.subset) = d'
    rw [h]
  obtain ⟨d', own, t1, t2, t3⟩ := scalar_statistic hagg hsort hd0 k1 k2 k3.2
  rw [htr q d' t1]
  have hC := C31_fill (src := { s with subset := d' }) (val := scalarValue agg) hsc (b := q) (anc := anc) (v := own) t2
  rcases hfill with hfill | ⟨x, hfill⟩
  · have hall : ∃ vals, List.Forall₂ (ValueAt s.loader (scalarValue agg)) anc vals ∧
        List.Forall₂ (fun a w => Statistic s.subset.isGrid agg ((rowsIn s.subset a).map Row.val) w) (anc.map Prod.fst) vals := by
      clear hC
      induction anc with
      | nil => exact ⟨[], .nil, .nil⟩
      | cons a anc ih =>
        obtain ⟨vals, i1, i2⟩ := ih (fun a ha => hanc a (by simp [ha]))
        obtain ⟨g1, g2, g3, g4⟩ := hanc a (by simp)
        obtain ⟨d'', w, u1, u2, u3⟩ := scalar_statistic hagg hsort hd0 g1 g2 g3.2
        refine ⟨w :: vals, .cons ?_ i1, .cons u3 i2⟩
        obtain ⟨ab, ad⟩ := a
        simp only at g4 u1 u2 ⊢
        subst g4
        exact valueAt_trimSources hf.1 hs (by rw [htr ab d'' u1]; exact u2)
    obtain ⟨vals, v1, v2⟩ := hall
    obtain ⟨r, r1, r2⟩ := hC.1 hfill vals v1
    exact ⟨r, r2, id, name, agg, minDp, e, own, t3, by rw [hfill]; exact ⟨vals, v2, r1⟩⟩
  · have := hC.2.1 _ hfill
    cases own with
    | some y => exact ⟨some y, this, id, name, agg, minDp, e, some y, t3, by rw [hfill]; exact .head⟩
    | none =>
      refine ⟨x, this, id, name, agg, minDp, e, none, t3, ?_⟩
      rw [hfill]
      refine .skip ?_
      cases x with
      | some y => exact .head
      | none => exact Or.inr ⟨by simp, rfl⟩

theorem chains_lineage {b : Boundary} {W H : ℚ} {full : List (Source (Dataset (Option ℚ)) Cond)} (hf : ScalarSources b full)
    (hp : ProperGrid b W H) (hcr : b.longMin < b.longMax) {roots : List Boundary} (hroots : ∀ q, q ∈ roots ↔ GridBox b W H q) {sd : ℕ}
    (asks : Boundary → List (Source (Dataset (Option ℚ)) Cond) → Prop) (t : List (Boundary × List (Source (Dataset (Option ℚ)) Cond)))
    (h : Chains (sourceOps (Dataset (Option ℚ)) Cond) asks sd roots (fun q => trimSources q full) t) :
    Lineage (GridBox b W H) (t.map Prod.fst) := by
  induction h with
  | root hq => exact .root ((hroots _).1 hq)
  | @part p q d t hch hlt ha hq ih =>
    obtain ⟨k1, k2, -, -⟩ := chains_good hf hp hcr hroots asks _ hch _ (by simp : (p, d) ∈ (p, d) :: t)
    exact .quarter ih ((partOf_iff k1.1 k2).1 hq)

/-- The mesh after splitting was reached by splits. -/
theorem splitToDepth_reach {D : Type} {ops : DataOps D} {b : Boundary} {W H : ℚ} {initData : Boundary → D} {depth sd fuel : ℕ} {m0 m : MeshState D}
    (h0 : MeshBuilder.init b W H initData depth = .ok m0) (h : MeshBuilder.splitToDepth ops fuel sd m0 = .ok m) :
    Reach ops b W H initData depth m := by
  unfold MeshBuilder.splitToDepth at h
  simp only [bind, Except.bind] at h
  split at h
  · cases h
  · refine splitSources_induct (P := Reach ops b W H initData depth) _ 0 ?_ m0 m ⟨m0, h0, .refl m0⟩ h
    rintro p - m k c m1 ⟨m0', h0', hs⟩ - - - he
    exact ⟨m0', h0', .step k hs he⟩

/-- **C108**: for plain scalar sources over a region that does not cross the antimeridian, building the environmental mesh never
raises; the mesh is well formed; and each cell has under each name the first present value of the sources of that name, in their
order, where the value of a source is the statistic of its own datapoints in the box of the cell, filled with its constant or
from the boxes above; under other names it has nothing. -/
theorem C108_values {b : Boundary} {W H : ℚ} {full : List (Source (Dataset (Option ℚ)) Cond)} (hf : PlainSources b full)
    (config : MeshConfig) (hp : ProperGrid b W H) (hcr : b.longMin < b.longMax) (hh : b.latMin < b.latMax)
    (hcol : b.longMin = -180 ∧ b.longMax = 180 → W ≤ 180) (hacc : MeshBuilder.validateBounds b W H = .ok ()) (depth : ℕ) :
    ∃ m0, MeshBuilder.init b W H (fun q => trimSources q full) depth = .ok m0 ∧ ∃ N em, BuiltOK b W H depth em ∧ em.config = config ∧
      (∀ fuel, N ≤ fuel → MeshBuilder.buildEnvironmentalMesh (sourceOps (Dataset (Option ℚ)) Cond) aggregate fuel config m0 = .ok em) ∧
      ∀ c ∈ em.cells, ∃ anc, Lineage (GridBox b W H) (c.bounds :: anc) ∧ ∃ w : Source (Dataset (Option ℚ)) Cond → Option ℚ,
        (∀ s ∈ full, SourceGives s c.bounds anc (w s)) ∧ ∀ n,
        ((∀ s ∈ full, s.loader.dataName ≠ n) → c.data.get? n = none) ∧
        ((∃ s ∈ full, s.loader.dataName = n) → ∃ v, c.data.get? n = some (.num v) ∧
          IsFirst ((full.filter (fun s => s.loader.dataName = n)).map w) v) := by
  have hs := plain_scalar hf
  obtain ⟨m0, h0, N, m, hrun⟩ := scalar_runs hs hp hcr hh hcol hacc depth depth
  obtain ⟨m0', h0', N', hC⟩ := C52_build_partial (sourceOps (Dataset (Option ℚ)) Cond) aggregate config b W H hp hcr hh hcol hacc
    (fun q => trimSources q full) depth
  have e0 : m0' = m0 := by rw [h0] at h0'; simpa using h0'.symm
  subst e0
  have hmax : m0'.maxDepth = depth := by
    obtain ⟨boxes, g, glob, -, -, -, rfl⟩ := init_inv h0; rfl
  obtain ⟨roots, g, glob, -, hr, -, -⟩ := init_inv h0
  have hroots := fun q => roots_iff hp hcr hacc hr q
  obtain ⟨c0, hc0, hT⟩ := tracked_splitToDepth h0 hr (hrun N le_rfl)
  -- what aggregating a live cell yields
  have hagg : ∀ i c, Live m i c → ∃ agg, aggregate c = .ok agg ∧ ∃ w : Source (Dataset (Option ℚ)) Cond → Option ℚ,
      Lineage (GridBox b W H) (c.bounds :: c.anc.map Prod.fst) ∧
      (∀ s ∈ full, SourceGives s c.bounds (c.anc.map Prod.fst) (w s)) ∧ ∀ n,
        ((∀ s ∈ full, s.loader.dataName ≠ n) → agg.get? n = none) ∧
        ((∃ s ∈ full, s.loader.dataName = n) → ∃ v, agg.get? n = some (.num v) ∧
          IsFirst ((full.filter (fun s => s.loader.dataName = n)).map w) v) := by
    intro i c hl
    obtain ⟨-, -, hch⟩ := hT.sound i c hl
    have hlin := chains_lineage hs hp hcr hroots _ _ hch
    have hgood := chains_good hs hp hcr hroots _ _ hch
    have hq := hgood (c.bounds, c.data) (by simp [CellBox.chain])
    have hd : c.data = trimSources c.bounds full := hq.2.2.2
    rw [hd] at hq
    have hval := fun s (hs : s ∈ full) => source_gives hf hq (anc := c.anc) (fun a ha => hgood a (by simp [CellBox.chain, ha])) hs
    have hval' : ∀ s' ∈ c.data, ∃ v, sourceValue c.bounds c.anc s' = .ok [(s'.loader.dataName, .num v)] := by
      intro s' hs'
      rw [hd] at hs'
      obtain ⟨s, hs, rfl⟩ := List.mem_map.1 hs'
      obtain ⟨v, hv, -⟩ := hval s hs
      exact ⟨v, hv⟩
    classical
    let w' : Source (Dataset (Option ℚ)) Cond → Option ℚ := fun s' => if h : s' ∈ c.data then (hval' s' h).choose else none
    have hw' : ∀ s' ∈ c.data, sourceValue c.bounds c.anc s' = .ok [(s'.loader.dataName, .num (w' s'))] := by
      intro s' hs'
      simp only [w', dif_pos hs']
      exact (hval' s' hs').choose_spec
    obtain ⟨agg, ha, hn⟩ := C32_first_present_partial hw'
    refine ⟨agg, ha, fun s => w' { s with subset := s.loader.trim c.bounds s.subset }, hlin, ?_, ?_⟩
    · intro s hs
      obtain ⟨v, hv, hg⟩ := hval s hs
      have := hw' { s with subset := s.loader.trim c.bounds s.subset } (by rw [hd]; exact List.mem_map.2 ⟨s, hs, rfl⟩)
      rw [hv] at this
      simp only [Except.ok.injEq, List.cons.injEq, Prod.mk.injEq, Val.num.injEq, and_true, true_and] at this
      rw [this] at hg
      exact hg
    · intro n
      obtain ⟨n1, n2⟩ := hn n
      constructor
      · intro h
        apply n1
        intro s' hs'
        rw [hd] at hs'
        obtain ⟨s, hs, rfl⟩ := List.mem_map.1 hs'
        exact h s hs
      · rintro ⟨s, hs, e⟩
        obtain ⟨v, v1, v2⟩ := n2 ⟨{ s with subset := s.loader.trim c.bounds s.subset }, by rw [hd]; exact List.mem_map.2 ⟨s, hs, rfl⟩, e⟩
        refine ⟨v, v1, ?_⟩
        rw [hd] at v2
        unfold trimSources at v2
        rw [List.filter_map, List.map_map] at v2
        exact v2
  obtain ⟨em, hem⟩ := toEnvMesh_total (agg := aggregate) config (m := m) (fun i c hl => by
    obtain ⟨d, hd, -⟩ := hagg i c hl
    exact ⟨d, hd⟩)
  have hbuild : ∀ fuel, N ≤ fuel →
      MeshBuilder.buildEnvironmentalMesh (sourceOps (Dataset (Option ℚ)) Cond) aggregate fuel config m0' = .ok em := by
    intro fuel hfu
    unfold MeshBuilder.buildEnvironmentalMesh
    rw [hmax, hrun fuel hfu]
    exact hem
  have hwell : BuiltOK b W H depth em ∧ em.config = config := by
    rcases hC (max N N') (by omega) with ⟨em', m', h1, h2, h3, -⟩ | ⟨e, h1, -⟩
    · rw [hbuild _ (by omega)] at h1
      cases h1
      exact ⟨h2, h3⟩
    · rw [hbuild _ (by omega)] at h1
      cases h1
  refine ⟨m0', h0, N, em, hwell.1, hwell.2, hbuild, ?_⟩
  intro c hc
  have hreach : CellsOK b W H m := by
    refine (reach_graph hp hcr (by intro h; exact hcol (by simpa [globalRegion] using h)) (ops := sourceOps (Dataset (Option ℚ)) Cond)
      (initData := fun q => trimSources q full) (depth := depth) (splitToDepth_reach h0 (hrun N le_rfl))).1
  obtain ⟨-, -, -, -, hA, -⟩ := toEnvMesh_ok hreach hem
  obtain ⟨c0, hl, e, ha⟩ := hA c hc
  obtain ⟨agg, ha', w, l1, l2, l3⟩ := hagg _ c0 hl
  rw [ha] at ha'
  cases ha'
  rw [e]
  exact ⟨_, l1, w, l2, l3⟩

/-- **C108**, which cells: without locks the cells of the built mesh are exactly those of C107. -/
theorem C108_cells {b : Boundary} {W H : ℚ} {full : List (Source (Dataset (Option ℚ)) Cond)} (hf : PlainSources b full)
    (hlock : ∀ s ∈ full, ∀ c ∈ s.conds, c.splitLock = false) (config : MeshConfig) (hp : ProperGrid b W H) (hcr : b.longMin < b.longMax)
    (hh : b.latMin < b.latMax) (hcol : b.longMin = -180 ∧ b.longMax = 180 → W ≤ 180) (hacc : MeshBuilder.validateBounds b W H = .ok ())
    (depth : ℕ) :
    ∃ m0, MeshBuilder.init b W H (fun q => trimSources q full) depth = .ok m0 ∧ ∃ N em,
      (∀ fuel, N ≤ fuel → MeshBuilder.buildEnvironmentalMesh (sourceOps (Dataset (Option ℚ)) Cond) aggregate fuel config m0 = .ok em) ∧
      ∀ q, (∃ c ∈ em.cells, c.bounds = q) ↔ ∃ k, Refined (Inhomogeneous full) (GridBox b W H) depth k q ∧ (k = depth ∨ ¬ Inhomogeneous full q) := by
  obtain ⟨m0, h0, N, m, hrun, hm⟩ := C107_cells (plain_scalar hf) hlock hp hcr hh hcol hacc depth depth
  obtain ⟨m0', h0', N', em, -, -, hbuild, -⟩ := C108_values hf config hp hcr hh hcol hacc depth
  have e0 : m0' = m0 := by rw [h0] at h0'; simpa using h0'.symm
  subst e0
  refine ⟨m0', h0, N', em, hbuild, fun q => ?_⟩
  have hmax : m0'.maxDepth = depth := by
    obtain ⟨boxes, g, glob, -, -, -, rfl⟩ := init_inv h0; rfl
  have hem : MeshBuilder.toEnvMesh aggregate config m = .ok em := by
    have := hbuild (max N N') (by omega)
    unfold MeshBuilder.buildEnvironmentalMesh at this
    rw [hmax, hrun _ (by omega)] at this
    exact this
  have hc := (reach_graph hp hcr (by intro h; exact hcol (by simpa [globalRegion] using h)) (splitToDepth_reach h0 (hrun N le_rfl))).1
  obtain ⟨-, -, -, -, hA, hB⟩ := toEnvMesh_ok hc hem
  constructor
  · rintro ⟨c, hcm, rfl⟩
    obtain ⟨c0, hl, e, -⟩ := hA c hcm
    exact ⟨_, (hm _ _).1 ⟨_, c0, hl, e.symm, rfl⟩⟩
  · rintro ⟨k, hk⟩
    obtain ⟨i, c0, hl, e, -⟩ := (hm _ _).2 hk
    obtain ⟨a, ha, -, h2, -⟩ := hB i c0 hl
    exact ⟨a, ha, by rw [h2, e]⟩

/-- Two sources of the same name, one filled from parents and one by a constant. -/
def exPlain : List (Source (Dataset (Option ℚ)) Cond) :=
  [⟨scalarLoader 0 "a" .mean 1, [⟨3, 0, 1, false⟩], .parent,
    .table ⟨false, [⟨-59, 1, 0, some 5⟩, ⟨-58, 1, 0, some 1⟩, ⟨-57, 4, 0, some 9⟩]⟩⟩,
   ⟨scalarLoader 1 "a" .median 1, [], .const (.num (some 7)), .table ⟨false, [⟨-52, 12, 0, some 2⟩, ⟨-51, 13, 0, some 3⟩]⟩⟩]

/-- The hypotheses of C108 hold for them; built, the cells with own data, those filled from a parent, from the other source and
by the constant differ. -/
example : PlainSources exRegion exPlain ∧ (∀ s ∈ exPlain, ∀ c ∈ s.conds, c.splitLock = false) ∧
    ((MeshBuilder.init exRegion 10 5 (fun q => trimSources q exPlain) 1 >>= fun m =>
      MeshBuilder.buildEnvironmentalMesh (sourceOps (Dataset (Option ℚ)) Cond) aggregate 100 exConfig m).map
      (fun em => em.cells.map (fun c => (c.bounds.latMin, c.bounds.longMin, c.data))) : Py (List (ℚ × ℚ × Dict String Val))) =
    .ok [(-60, 10, [("a", .num (some 7))]), (-55, 0, [("a", .num (some 7))]), (-55, 10, [("a", .num (some (5 / 2)))]),
      (-115 / 2, 0, [("a", .num (some 9))]), (-115 / 2, 5, [("a", .num (some 5))]), (-60, 0, [("a", .num (some 3))]),
      (-60, 5, [("a", .num (some 5))])] := by
  refine ⟨⟨by decide +kernel, ?_⟩, ?_, by decide +kernel⟩
  · intro s hs
    simp only [exPlain, List.mem_cons, List.not_mem_nil, or_false] at hs
    rcases hs with rfl | rfl
    · exact ⟨⟨0, "a", .mean, 1, rfl, by decide, by simp⟩, Or.inl rfl, trivial, _, rfl⟩
    · exact ⟨⟨1, "a", .median, 1, rfl, by decide, by simp⟩, Or.inr ⟨_, rfl⟩, trivial, _, rfl⟩
  · intro s hs c hc
    simp only [exPlain, List.mem_cons, List.not_mem_nil, or_false] at hs
    rcases hs with rfl | rfl
    · simp only [List.mem_singleton] at hc
      subst hc
      rfl
    · cases hc

end Verif
