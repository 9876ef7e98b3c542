import Verif.Props.Thresholds
import Verif.Props.Reading

/-!
# C139: a mesh of smooth data is near to them
-/

namespace Verif
open Spec

/-! ## Specification -/

/-- In the region `b` the function `f` of latitude and longitude changes by at most `ky` per degree of latitude and `kx` per degree of longitude. -/
def Spec.Smooth (b : Boundary) (f : ℚ → ℚ → ℚ) (ky kx : ℚ) : Prop :=
  ∀ y x y' x', (rectOf b).Mem x y → (rectOf b).Mem x' y' → |f y x - f y' x'| ≤ ky * |y - y'| + kx * |x - x'|

/-- The datapoints of the region `b` that have a value have that of `f` at their place, up to `e`. -/
def Spec.Samples (b : Boundary) (d : Dataset (Option ℚ)) (f : ℚ → ℚ → ℚ) (e : ℚ) : Prop :=
  ∀ r ∈ rowsIn d b, ∀ v, r.val = some v → |v - f r.lat r.long| ≤ e

/-- The box has a datapoint with a value. -/
def Spec.HasValue (d : Dataset (Option ℚ)) (q : Boundary) : Prop := ∃ r ∈ rowsIn d q, r.val ≠ none

/-- In all of the box `c` the value `z` is as near to `f` as the size of the box `p` allows. -/
def Spec.NearIn (f : ℚ → ℚ → ℚ) (ky kx e : ℚ) (c p : Boundary) (z : ℚ) : Prop :=
  ∀ y x, (rectOf c).Mem x y → |z - f y x| ≤ e + ky * (p.latMax - p.latMin) + kx * (p.longMax - p.longMin)

/-! ## Nested boxes -/

/-- `q` lies in `p`, at the same time. -/
def Nested (q p : Boundary) : Prop := p.latMin ≤ q.latMin ∧ q.latMax ≤ p.latMax ∧ p.longMin ≤ q.longMin ∧ q.longMax ≤ p.longMax ∧ q.time = p.time

theorem Nested.trans {p q r : Boundary} (h : Nested p q) (h' : Nested q r) : Nested p r :=
  ⟨h'.1.trans h.1, h.2.1.trans h'.2.1, h'.2.2.1.trans h.2.2.1, h.2.2.2.1.trans h'.2.2.2.1, h.2.2.2.2.trans h'.2.2.2.2⟩

theorem Nested.refl (p : Boundary) : Nested p p := ⟨le_rfl, le_rfl, le_rfl, le_rfl, rfl⟩

theorem nested_rows {V : Type} {q p : Boundary} (h : Nested q p) {d : Dataset V} {r : Row V} (hr : r ∈ rowsIn d q) : r ∈ rowsIn d p := by
  obtain ⟨h1, h2, h3, h4, h5⟩ := h
  unfold rowsIn at hr ⊢
  rw [List.mem_filter, Bool.and_eq_true, decide_eq_true_iff] at hr ⊢
  obtain ⟨g0, ⟨g1, g2, g3, g4⟩, g5⟩ := hr
  refine ⟨g0, ⟨by linarith, by linarith, by linarith, by linarith⟩, ?_⟩
  simp only [during, h5] at g5 ⊢
  exact g5

theorem nested_mem {q p : Boundary} (h : Nested q p) {x y : ℚ} (hm : (rectOf q).Mem x y) : (rectOf p).Mem x y := by
  obtain ⟨h1, h2, h3, h4, -⟩ := h
  obtain ⟨g1, g2, g3, g4⟩ := hm
  simp only [rectOf] at g1 g2 g3 g4
  exact ⟨by simp only [rectOf]; linarith, by simp only [rectOf]; linarith, by simp only [rectOf]; linarith, by simp only [rectOf]; linarith⟩

theorem rows_mem {V : Type} {d : Dataset V} {q : Boundary} {r : Row V} (hr : r ∈ rowsIn d q) : (rectOf q).Mem r.long r.lat := by
  unfold rowsIn at hr
  rw [List.mem_filter, Bool.and_eq_true, decide_eq_true_iff] at hr
  obtain ⟨-, ⟨g1, g2, g3, g4⟩, -⟩ := hr
  exact ⟨g3.le, g4, g1.le, g2⟩

/-- The boxes of a line lie in each other, and in the region. -/
theorem lineage_nested {b : Boundary} {W H : ℚ} (hp : ProperGrid b W H) {l : List Boundary} (h : Lineage (GridBox b W H) l) :
    l.Pairwise Nested ∧ (∀ q ∈ l, Nested q b) ∧ ∀ q ∈ l, q.longMin ≤ q.longMax ∧ q.latMin ≤ q.latMax := by
  have hW := hp.wpos
  have hH := hp.hpos
  induction h with
  | root hq =>
    obtain ⟨i, j, rfl, h1, h2⟩ := hq
    have hi : (0 : ℚ) ≤ i * W := by positivity
    have hj : (0 : ℚ) ≤ j * H := by positivity
    refine ⟨by simp, ?_, ?_⟩
    · intro q hq
      rw [List.mem_singleton] at hq
      subst hq
      exact ⟨by simp only; linarith, h1, by simp only; linarith, h2, rfl⟩
    · intro q hq
      rw [List.mem_singleton] at hq
      subst hq
      exact ⟨by simp only; linarith, by simp only; linarith⟩
  | @quarter q p t _ hq ih =>
    obtain ⟨i1, i2, i3⟩ := ih
    obtain ⟨p1, p2⟩ := i3 p (by simp)
    have hn : Nested q p ∧ q.longMin ≤ q.longMax ∧ q.latMin ≤ q.latMax := by
      unfold quarters at hq
      simp only [List.mem_cons, List.not_mem_nil, or_false] at hq
      rcases hq with rfl | rfl | rfl | rfl <;> refine ⟨⟨?_, ?_, ?_, ?_, rfl⟩, ?_, ?_⟩ <;> simp only <;> linarith
    refine ⟨List.pairwise_cons.2 ⟨?_, i1⟩, ?_, ?_⟩
    · intro r hr
      rcases List.mem_cons.1 hr with rfl | hr
      · exact hn.1
      · exact hn.1.trans ((List.pairwise_cons.1 i1).1 r hr)
    · intro r hr
      rcases List.mem_cons.1 hr with rfl | hr
      · exact hn.1.trans (i2 p (by simp))
      · exact i2 r hr
    · intro r hr
      rcases List.mem_cons.1 hr with rfl | hr
      · exact hn.2
      · exact i3 r hr

/-! ## Values -/

theorem near_between {u w z a e : ℚ} (hu : |u - a| ≤ e) (hw : |w - a| ≤ e) (h1 : u ≤ z) (h2 : z ≤ w) : |z - a| ≤ e := by
  rw [abs_le] at hu hw ⊢
  exact ⟨by linarith, by linarith⟩

/-- The statistic of a box that lies in `p` is near to the function in all boxes in `p`. -/
theorem statistic_near {b q p c : Boundary} {d : Dataset (Option ℚ)} {f : ℚ → ℚ → ℚ} {ky kx e z : ℚ} {grid : Bool} {agg : AggType}
    (hs : Smooth b f ky kx) (hky : 0 ≤ ky) (hkx : 0 ≤ kx) (hd : Samples b d f e) (hagg : agg ∈ [AggType.min, .max, .mean, .median])
    (hst : Statistic grid agg ((rowsIn d q).map Row.val) (some z)) (hqp : Nested q p) (hcp : Nested c p) (hpb : Nested p b) : NearIn f ky kx e c p z := by
  intro y x hm
  obtain ⟨u, hu, w, hw, l1, l2⟩ := (statistic_within hagg hst).2 z rfl
  have key : ∀ v ∈ presentValues ((rowsIn d q).map Row.val), |v - f y x| ≤ e + ky * (p.latMax - p.latMin) + kx * (p.longMax - p.longMin) := by
    intro v hv
    obtain ⟨r, hr, hv⟩ := present_mem.1 hv
    have hrp := nested_rows hqp hr
    have m1 := rows_mem hrp
    have m2 := nested_mem hcp hm
    have a1 := hd r (nested_rows hpb hrp) v hv
    have a2 := hs r.lat r.long y x (nested_mem hpb m1) (nested_mem hpb m2)
    obtain ⟨g1, g2, g3, g4⟩ := m1
    obtain ⟨k1, k2, k3, k4⟩ := m2
    simp only [rectOf] at g1 g2 g3 g4 k1 k2 k3 k4
    have b1 : |r.lat - y| ≤ p.latMax - p.latMin := abs_le.2 ⟨by linarith, by linarith⟩
    have b2 : |r.long - x| ≤ p.longMax - p.longMin := abs_le.2 ⟨by linarith, by linarith⟩
    have c1 := mul_le_mul_of_nonneg_left b1 hky
    have c2 := mul_le_mul_of_nonneg_left b2 hkx
    have := abs_sub_le v (f r.lat r.long) (f y x)
    linarith
  exact near_between (key u hu) (key w hw) l1 l2

/-! ## C139 -/

/-- **C139**: in a region that does not cross the antimeridian, let a mesh be built from scalar, vector and look-up table sources, and let the datapoints of one of
the scalar sources, which has a name of its own, be samples of a function that changes by at most `ky` per degree of latitude and `kx` per degree of longitude, up to `e`.
Then a cell with data of its own has a value that is, at all points of the cell, near to the function up to `e`, `ky` times the height and `kx` times the width of the cell.  If
cells are filled from the boxes they were split from, the same holds with the size of every such box that has data. -/
theorem C139_near {b : Boundary} {W H : ℚ} {full : List (Source AnyData AnyCond)} (hf : ∀ s ∈ full, PlainAny b s)
    (hid : (full.map (fun s => s.loader.id)).Nodup)
    (config : MeshConfig) (hp : ProperGrid b W H) (hcr : b.longMin < b.longMax) (hh : b.latMin < b.latMax)
    (hcol : b.longMin = -180 ∧ b.longMax = 180 → W ≤ 180) (hacc : MeshBuilder.validateBounds b W H = .ok ()) (depth : ℕ) :
    ∃ m0, MeshBuilder.init b W H (fun q => trimSources q full) depth = .ok m0 ∧ ∃ N em, BuiltOK b W H depth em ∧
      (∀ fuel, N ≤ fuel → MeshBuilder.buildEnvironmentalMesh (sourceOps AnyData AnyCond) aggregate fuel config m0 = .ok em) ∧
      ∀ s id name agg minDp, Source.ofScalar s ∈ full → s.loader = scalarLoader id name agg minDp →
        agg ∈ [AggType.min, .max, .mean, .median] → (∀ t ∈ full, name ∈ splitName t.loader.dataName → t = .ofScalar s) →
        ∀ f ky kx e, Smooth b f ky kx → 0 ≤ ky → 0 ≤ kx → Samples b s.subset f e →
        ∀ c ∈ em.cells, ∃ anc, Lineage (GridBox b W H) (c.bounds :: anc) ∧ ∃ v, c.data.get? name = some (.num v) ∧
          (HasValue s.subset c.bounds → ∃ z, v = some z ∧ NearIn f ky kx e c.bounds c.bounds z) ∧
          (s.fill = .parent → ∀ p ∈ c.bounds :: anc, HasValue s.subset p → ∃ z, v = some z ∧ NearIn f ky kx e c.bounds p z) := by
  obtain ⟨value, hvalue, m0, h0, N, em, h1, -, h2, h3⟩ := C110_values hf hid config hp hcr hh hcol hacc depth
  refine ⟨m0, h0, N, em, h1, h2, fun s id name agg minDp hs e hagg hu f ky kx ε hsm hky hkx hd c hc => ?_⟩
  have hplain := (hf _ hs).ofScalar
  have hname : (Source.ofScalar s).loader.dataName = name := by
    show s.loader.dataName = name
    rw [e]; rfl
  have hcomma : ',' ∉ name.toList := by
    obtain ⟨_, name', _, _, e', hn, -⟩ := hplain.loader
    have : name = name' := by rw [e] at e'; exact congrArg Loader.dataName e'
    rwa [this]
  have hmem : name ∈ splitName (Source.ofScalar s).loader.dataName := by rw [hname, splitName_single hcomma]; simp
  obtain ⟨anc, a1, a0, w, a2, a3⟩ := h3 c hc
  obtain ⟨v, hv, hm⟩ := (a3 name).2 ⟨_, hs, hmem⟩
  have hw := merged_only hid hs hmem hu (by rw [hname]; exact hcomma) hm
  have hst : ∀ q ∈ c.bounds :: anc, Statistic s.subset.isGrid agg ((rowsIn s.subset q).map Row.val) (value (.ofScalar s) q name) := fun q hq =>
    gives_scalar (hvalue _ hs q (a1 q hq)) e (by
      simp only [List.mem_cons, List.not_mem_nil, or_false] at hagg ⊢
      tauto)
  obtain ⟨n1, n2, -⟩ := lineage_nested hp a0
  have hsome : ∀ q ∈ c.bounds :: anc, HasValue s.subset q → ∃ z, value (.ofScalar s) q name = some z := by
    rintro q hq ⟨r, hr, hrv⟩
    obtain ⟨u, hu⟩ := Option.ne_none_iff_exists'.1 hrv
    exact Option.ne_none_iff_exists'.1 ((statistic_within hagg (hst q hq)).1 (List.ne_nil_of_mem (present_mem.2 ⟨r, hr, hu⟩)))
  have hfil := a2 _ hs name hmem
  refine ⟨anc, a0, v, hv, fun hown => ?_, fun hpar p hp' hown => ?_⟩
  · obtain ⟨z, hz⟩ := hsome _ List.mem_cons_self hown
    refine ⟨z, by rw [hw]; exact filled_own hfil hz, ?_⟩
    have := hst _ List.mem_cons_self
    rw [hz] at this
    exact statistic_near hsm hky hkx hd hagg this (Nested.refl _) (Nested.refl _) (n2 _ List.mem_cons_self)
  · obtain ⟨z0, hz0⟩ := hsome p hp' hown
    have hcp : Nested c.bounds p := by
      rcases List.mem_cons.1 hp' with rfl | h
      · exact Nested.refl _
      · exact (List.pairwise_cons.1 n1).1 p h
    have hfill : (Source.ofScalar s).fill = .parent := hpar
    unfold Filled at hfil
    rw [hfill] at hfil
    have hfil' : IsFirst ((c.bounds :: anc).map (fun q => value (.ofScalar s) q name)) (w (.ofScalar s) name) := hfil
    rcases hfil' with ⟨pre, z, post, e1, e2, e3⟩ | ⟨e1, -⟩
    · obtain ⟨l1, l2, q1, q2, q3⟩ := List.map_eq_append_iff.1 e1
      obtain ⟨q, l3, rfl, q4, q5⟩ := List.map_eq_cons_iff.1 q3
      have hq : q ∈ c.bounds :: anc := by rw [q1]; simp
      have hqp : Nested q p := by
        rw [q1] at hp' n1
        rcases List.mem_append.1 hp' with h | h
        · have := e2 (value (.ofScalar s) p name) (by rw [← q2]; exact List.mem_map.2 ⟨p, h, rfl⟩)
          rw [hz0] at this
          cases this
        · rcases List.mem_cons.1 h with rfl | h
          · exact Nested.refl _
          · exact (List.pairwise_cons.1 (List.pairwise_append.1 n1).2.1).1 p h
      have := hst q hq
      rw [q4] at this
      exact ⟨z, by rw [hw, e3], statistic_near hsm hky hkx hd hagg this hqp hcp (n2 p hp')⟩
    · have := e1 _ (List.mem_map.2 ⟨p, hp', rfl⟩)
      rw [hz0] at this
      cases this

/-- A line begins with a box of the grid. -/
theorem lineage_start {start : Boundary → Prop} {l : List Boundary} (h : Lineage start l) : ∃ p ∈ l, start p := by
  induction h with
  | root hq => exact ⟨_, by simp, hq⟩
  | quarter _ _ ih =>
    obtain ⟨p, h1, h2⟩ := ih
    exact ⟨p, List.mem_cons_of_mem _ h1, h2⟩

/-- **C139**, what is read: if cells are filled from the boxes they were split from and every box of the initial grid has data, then whatever is read from the mesh at any point is near to
the function at that point, up to `e`, `ky` times the height and `kx` times the width of the boxes of the grid. -/
theorem C139_read {b : Boundary} {W H : ℚ} {full : List (Source AnyData AnyCond)} (hf : ∀ s ∈ full, PlainAny b s)
    (hid : (full.map (fun s => s.loader.id)).Nodup)
    (config : MeshConfig) (hp : ProperGrid b W H) (hcr : b.longMin < b.longMax) (hh : b.latMin < b.latMax)
    (hcol : b.longMin = -180 ∧ b.longMax = 180 → W ≤ 180) (hacc : MeshBuilder.validateBounds b W H = .ok ()) (depth : ℕ) :
    ∃ m0, MeshBuilder.init b W H (fun q => trimSources q full) depth = .ok m0 ∧ ∃ N em,
      (∀ fuel, N ≤ fuel → MeshBuilder.buildEnvironmentalMesh (sourceOps AnyData AnyCond) aggregate fuel config m0 = .ok em) ∧
      ∀ s id name agg minDp, Source.ofScalar s ∈ full → s.loader = scalarLoader id name agg minDp →
        agg ∈ [AggType.min, .max, .mean, .median] → (∀ t ∈ full, name ∈ splitName t.loader.dataName → t = .ofScalar s) →
        s.fill = .parent → (∀ q, GridBox b W H q → HasValue s.subset q) →
        ∀ f ky kx e, Smooth b f ky kx → 0 ≤ ky → 0 ≤ kx → Samples b s.subset f e →
        ∀ y x, -180 ≤ x ∧ x ≤ 180 → ∀ v, ReadAt em y x name v → ∃ z, v = some (.num (some z)) ∧ |z - f y x| ≤ e + ky * H + kx * W := by
  obtain ⟨m0, h0, N, em, h1, h2, h3⟩ := C139_near hf hid config hp hcr hh hcol hacc depth
  refine ⟨m0, h0, N, em, h2, fun s id name agg minDp hs e hagg hu hfill hgrid f ky kx ε hsm hky hkx hd y x hx v hr => ?_⟩
  have hcell := h3 s id name agg minDp hs e hagg hu f ky kx ε hsm hky hkx hd
  have hin : ∀ c ∈ em.cells, Inner b c.bounds := by
    intro c hc
    obtain ⟨anc, a1, -⟩ := hcell c hc
    exact lineage_inner hp hcr a1 _ List.mem_cons_self
  rw [readAt_iff h1.ids h1.tiles (fun c hc => (hin c hc).1.1) (fun c hc => (hin c hc).2.1) hx] at hr
  obtain ⟨c, hc, hi, hv⟩ := hr
  obtain ⟨anc, a1, w, a2, -, a3⟩ := hcell c hc
  obtain ⟨p, p1, p2⟩ := lineage_start a1
  obtain ⟨z, rfl, hz⟩ := a3 hfill p p1 (hgrid p p2)
  refine ⟨z, by rw [← hv, a2], ?_⟩
  have := hz y x ⟨hi.1.le, hi.2.1.le, hi.2.2.1.le, hi.2.2.2.le⟩
  obtain ⟨i, j, rfl, -, -⟩ := p2
  simp only [add_sub_cancel_left] at this
  exact this

/-! ## Examples -/

/-- Datapoints with the values of longitude plus twice the latitude. -/
def exSlopeData : Dataset (Option ℚ) :=
  .table ⟨false, [⟨-59, 1, 0, some (-117)⟩, ⟨-58, 4, 0, some (-112)⟩, ⟨-57, 12, 0, some (-102)⟩, ⟨-51, 3, 0, some (-99)⟩, ⟨-54, 8, 0, none⟩, ⟨-52, 19, 0, some (-85)⟩]⟩

/-- Their means; cells with values on both sides of -113 are split. -/
def exSlope : List (Source AnyData AnyCond) := [.ofScalar ⟨scalarLoader 0 "a" .mean 1, [⟨-113, 0, 1, false⟩], .parent, exSlopeData⟩]

theorem exSlope_plain : ∀ s ∈ exSlope, PlainAny exRegion s := by
  intro s hs
  simp only [exSlope, List.mem_cons, List.not_mem_nil, or_false] at hs
  subst hs
  exact .scalar ⟨⟨_, _, _, _, rfl, by decide, by simp⟩, Or.inl rfl, trivial, _, rfl⟩

theorem exSlope_smooth : Smooth exRegion (fun y x => x + 2 * y) 2 1 := by
  intro y x y' x' _ _
  have e : x + 2 * y - (x' + 2 * y') = 2 * (y - y') + (x - x') := by ring
  simp only [e, one_mul]
  calc |2 * (y - y') + (x - x')| ≤ |2 * (y - y')| + |x - x'| := abs_add_le _ _
    _ = 2 * |y - y'| + |x - x'| := by rw [abs_mul, abs_of_pos (by norm_num : (0 : ℚ) < 2)]

theorem exSlope_samples : Samples exRegion exSlopeData (fun y x => x + 2 * y) 0 := by
  have : rowsIn exSlopeData exRegion = [⟨-59, 1, 0, some (-117)⟩, ⟨-58, 4, 0, some (-112)⟩, ⟨-57, 12, 0, some (-102)⟩, ⟨-51, 3, 0, some (-99)⟩, ⟨-54, 8, 0, none⟩,
    ⟨-52, 19, 0, some (-85)⟩] := by decide +kernel
  intro r hr v hv
  rw [this] at hr
  simp only [List.mem_cons, List.not_mem_nil, or_false] at hr
  rcases hr with rfl | rfl | rfl | rfl | rfl | rfl <;> simp only [Option.some.injEq, reduceCtorEq] at hv <;> subst hv <;> norm_num

theorem exSlope_has : ∀ q, GridBox exRegion 10 5 q → HasValue exSlopeData q := by
  rintro q ⟨i, j, rfl, h1, h2⟩
  norm_num [exRegion] at h1 h2
  have hi : i < 2 := by
    have : (i : ℚ) < 2 := by linarith
    exact_mod_cast this
  have hj : j < 2 := by
    have : (j : ℚ) < 2 := by linarith
    exact_mod_cast this
  have key : ∀ i < 2, ∀ j < 2, (rowsIn exSlopeData ⟨exRegion.latMin + (j : ℕ) * 5, exRegion.latMin + j * 5 + 5, exRegion.longMin + (i : ℕ) * 10, exRegion.longMin + i * 10 + 10,
      exRegion.time⟩).any (fun r => r.val.isSome) = true := by decide +kernel
  obtain ⟨r, hr, hv⟩ := List.any_eq_true.1 (key i hi j hj)
  exact ⟨r, hr, by intro h; rw [h] at hv; cases hv⟩

/-- The hypotheses of C139 hold: whatever is read at any point is at most 20 away from the longitude plus twice the latitude. -/
example : ∃ m0, MeshBuilder.init exRegion 10 5 (fun q => trimSources q exSlope) 3 = .ok m0 ∧ ∃ N em,
    (∀ fuel, N ≤ fuel → MeshBuilder.buildEnvironmentalMesh (sourceOps AnyData AnyCond) aggregate fuel exConfig m0 = .ok em) ∧
    ∀ y x, -180 ≤ x ∧ x ≤ 180 → ∀ v, ReadAt em y x "a" v → ∃ z, v = some (.num (some z)) ∧ |z - (x + 2 * y)| ≤ 20 := by
  obtain ⟨m0, h0, N, em, h1, h2⟩ := C139_read (W := 10) (H := 5) exSlope_plain (by decide) exConfig exRegion_proper
    (by norm_num [exRegion]) (by norm_num [exRegion]) (by norm_num [exRegion]) (by decide +kernel) 3
  refine ⟨m0, h0, N, em, h1, fun y x hx v hr => ?_⟩
  obtain ⟨z, hz, hn⟩ := h2 ⟨scalarLoader 0 "a" .mean 1, [⟨-113, 0, 1, false⟩], .parent, exSlopeData⟩ 0 "a" .mean 1 (by simp [exSlope]) rfl (by simp) (by
      intro t ht _
      simpa [exSlope] using ht) rfl exSlope_has _ 2 1 0 exSlope_smooth (by norm_num) (by norm_num) exSlope_samples y x hx v hr
  exact ⟨z, hz, hn.trans (by norm_num)⟩

/-- The mesh of the example has small cells with data of their own, and others that are filled. -/
example : (do
    let m ← MeshBuilder.init exRegion 10 5 (fun q => trimSources q exSlope) 3
    let em ← MeshBuilder.buildEnvironmentalMesh (sourceOps AnyData AnyCond) aggregate 20 exConfig m
    return em.cells.map (fun c => (c.bounds.longMin, c.bounds.latMin, c.data.get? "a")) : Py (List (ℚ × ℚ × Option Val))) =
    .ok [(10, -60, some (.num (some (-102)))), (0, -55, some (.num (some (-99)))), (10, -55, some (.num (some (-85)))),
      (0, -115 / 2, some (.num (some (-229 / 2)))), (5, -115 / 2, some (.num (some (-229 / 2)))), (5, -60, some (.num (some (-229 / 2)))),
      (0, -235 / 4, some (.num (some (-229 / 2)))), (5 / 2, -235 / 4, some (.num (some (-112)))), (0, -60, some (.num (some (-117)))),
      (5 / 2, -60, some (.num (some (-229 / 2))))] := by decide +kernel

/-- Not so if empty cells are filled with a number: with 0 in place of what the boxes above say, a cell has a value that is more than 20 away from the function at every point of it. -/
theorem C139_constant_false : ((do
    let m ← MeshBuilder.init exRegion 10 5 (fun q => trimSources q [.ofScalar ⟨scalarLoader 0 "a" .mean 1, [⟨-113, 0, 1, false⟩], .const (.num (some 0)), exSlopeData⟩]) 3
    let em ← MeshBuilder.buildEnvironmentalMesh (sourceOps AnyData AnyCond) aggregate 20 exConfig m
    return (em.cells.filter (fun c => c.bounds.longMin = 5 ∧ c.bounds.latMin = -60)).map (fun c => (rectOf c.bounds, c.data.get? "a")) : Py (List (Rect × Option Val))) =
    .ok [(⟨5, 10, -60, -115 / 2⟩, some (.num (some 0)))]) ∧
    ∀ y x, Rect.Mem ⟨5, 10, -60, -115 / 2⟩ x y → 20 < |0 - (x + 2 * y)| := by
  refine ⟨by decide +kernel, fun y x ⟨h1, h2, h3, h4⟩ => ?_⟩
  rw [lt_abs]
  left
  simp only at h1 h2 h3 h4
  linarith

end Verif
