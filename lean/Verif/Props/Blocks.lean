import Verif.Proof.Locality

/-!
# What a mesh depends on

A mesh over a block of cells is a part of that over the whole region (C115); a larger depth only refines what was at the limit (C116);
what the order of the sources and additional sources change (C117).
-/

namespace Verif
open Spec

/-! ## Specification -/

/-- Two sources of the same kind and parameters that have the same data after trimming to `b`. -/
inductive Spec.SameIn (b : Boundary) : Source AnyData AnyCond → Source AnyData AnyCond → Prop
  | scalar {s s' : Source (Dataset (Option ℚ)) Cond} {d} : s'.loader = s.loader → s'.conds = s.conds → s'.fill = s.fill →
      s.subset.trim b = .ok d → s'.subset.trim b = .ok d → SameIn b (.ofScalar s) (.ofScalar s')
  | vector {s s' : Source (Dataset Vec) VectorHom.Conds} {id name agg minDp d} :
      s.loader = vectorLoader id name agg (fun b c _ => VectorHom.hom minDp c b s.subset) →
      s'.loader = vectorLoader id name agg (fun b c _ => VectorHom.hom minDp c b s'.subset) → s'.conds = s.conds → s'.fill = s.fill →
      s.subset.trim b = .ok d → s'.subset.trim b = .ok d → SameIn b (.ofVector s) (.ofVector s')
  | lut {s s' : Source LutTable Lut.Conds} : s'.loader = s.loader → s'.conds = s.conds → s'.fill = s.fill →
      s'.subset.timed = s.subset.timed → lutIn s'.subset b = lutIn s.subset b → SameIn b (.ofLut s) (.ofLut s')

/-! ## Sources with the same data in a block -/

theorem inner_self {b : Boundary} {W H : ℚ} (hp : ProperGrid b W H) (hcr : b.longMin < b.longMax) (hh : b.latMin < b.latMax) : Inner b b :=
  ⟨⟨hp.valid, hp.nondeg, hh⟩, hcr, .refl _⟩

theorem wrap_alike {S C S' C' : Type} {put : S → S'} {get : S' → Option S} {putC : C → C'} {getC : C' → Option C} (hg : ∀ d, get (put d) = some d)
    (hc : ∀ c, getC (putC c) = some c) {In : Boundary → Prop} {s s' : Source S C} (h : AlikeOn In s s') :
    AlikeOn In (s.wrap put get putC getC) (s'.wrap put get putC getC) := by
  refine ⟨h.id, h.name, h.fill, ?_, ?_, ?_, ?_, ?_⟩
  · show s'.conds.map putC = s.conds.map putC
    rw [h.conds]
  · funext q d
    show (match get d with | some d => put (s'.loader.trim q d) | none => d) = (match get d with | some d => put (s.loader.trim q d) | none => d)
    rw [h.trim]
  · funext q d
    show (match get d with | some d => s'.loader.getValue q d | none => .error .typeError) =
      (match get d with | some d => s.loader.getValue q d | none => .error .typeError)
    rw [h.value]
  · intro q hq
    show (s.wrap put get putC getC).loader.trim q (put s'.subset) = (s.wrap put get putC getC).loader.trim q (put s.subset)
    rw [wrapped_trim hg, wrapped_trim hg, h.data q hq]
  · intro q hq c hm
    obtain ⟨c, hcm, rfl⟩ := List.mem_map.1 hm
    show (match get ((s.wrap put get putC getC).loader.trim q (put s.subset)), getC (putC c) with
      | some d, some c => s'.loader.homCond q c d | _, _ => .error .typeError) =
      (match get ((s.wrap put get putC getC).loader.trim q (put s.subset)), getC (putC c) with
      | some d, some c => s.loader.homCond q c d | _, _ => .error .typeError)
    rw [wrapped_trim hg, hg, hc]
    exact h.hom q hq c hcm

/-- Trimming to a box in the block goes through the trimmed data. -/
theorem trim_through {V : Type} {d d0 : Dataset V} (hs : d.Sorted) {b q : Boundary} (hb : ProperBox b) (hc : b.longMin < b.longMax)
    (h : d.trim b = .ok d0) (hq : Inner b q) : d0.trim q = d.trim q := by
  have right : ∀ q : Boundary, ProperBox q → q.longMin < q.longMax → TrimsRight d q := by
    intro q h1 h2
    refine ⟨h1, ?_⟩
    cases d with
    | table t => exact h2
    | grid g => exact Or.inl h2
  exact (C25_composes_partial d hs (right b hb hc) (right q hq.1 hq.2.1) hq.2.2 h).1

theorem Spec.PlainAny.ofScalar {b : Boundary} {s : Source (Dataset (Option ℚ)) Cond} (h : PlainAny b (.ofScalar s)) : PlainScalar b s := by
  generalize hS : Source.ofScalar s = S at h
  cases h with
  | scalar h => rw [ofScalar_inj hS]; exact h
  | vector => exact absurd (congrArg Source.subset hS) (by intro h; cases h)
  | lut => exact absurd (congrArg Source.subset hS) (by intro h; cases h)

theorem Spec.PlainAny.ofVector {b : Boundary} {s : Source (Dataset Vec) VectorHom.Conds} (h : PlainAny b (.ofVector s)) : PlainVector b s := by
  generalize hS : Source.ofVector s = S at h
  cases h with
  | vector h => rw [ofVector_inj hS]; exact h
  | scalar => exact absurd (congrArg Source.subset hS) (by intro h; cases h)
  | lut => exact absurd (congrArg Source.subset hS) (by intro h; cases h)

theorem Spec.PlainAny.ofLut {b : Boundary} {s : Source LutTable Lut.Conds} (h : PlainAny b (.ofLut s)) : PlainLut b s := by
  generalize hS : Source.ofLut s = S at h
  cases h with
  | lut h => rw [ofLut_inj hS]; exact h
  | scalar => exact absurd (congrArg Source.subset hS) (by intro h; cases h)
  | vector => exact absurd (congrArg Source.subset hS) (by intro h; cases h)

theorem lut_through {t : LutTable} {b q : Boundary} (hb : ProperBox b) (hc : b.longMin < b.longMax) (hq : Inner b q) :
    lutIn ⟨t.timed, lutIn t b⟩ q = lutIn t q := by
  unfold lutIn
  have ht : rangeOf ⟨t.timed, lutRows (boxPoints b) (rangeOf t b) t.rows⟩ q = rangeOf t q := rfl
  have ht' : rangeOf t b = rangeOf t q := by unfold rangeOf; rw [hq.2.2.2]
  rw [ht, ht']
  exact lutRows_twice _ _ _ _ (within_points hb hc hq)

theorem sameIn_alike {b b' : Boundary} {s s' : Source AnyData AnyCond} (h : PlainAny b s) (h' : PlainAny b' s') (hb : Inner b b')
    (hs : SameIn b' s s') : AlikeOn (Inner b') s s' := by
  cases hs with
  | @scalar s s' d e1 e2 e3 e4 e5 =>
    have h := h.ofScalar
    have h' := h'.ofScalar
    obtain ⟨id, name, agg, minDp, e, -, -⟩ := h.loader
    unfold Source.ofScalar
    refine wrap_alike ?_ ?_ ?_; · intro _; rfl
    · intro _; rfl
    refine ⟨by rw [e1], by rw [e1], e3, e2, by rw [e1], by rw [e1], ?_, fun _ _ _ _ => by rw [e1]⟩
    intro q hq
    have k1 := trim_through h.sorted hb.1 hb.2.1 e4 hq
    have k2 := trim_through h'.sorted hb.1 hb.2.1 e5 hq
    obtain ⟨d1, k3, -⟩ := rowsIn_trim h'.sorted hq.2.1 hq.2.2.2 e5
    rw [e, scalarLoader_trims id name agg minDp q _ _ k3, scalarLoader_trims id name agg minDp q _ d1 (by rw [← k1, k2, k3])]
  | @vector s s' id name agg minDp d e1 e2 e3 e4 e5 e6 =>
    have h := h.ofVector
    have h' := h'.ofVector
    have key : ∀ q, Inner b' q → s'.subset.trim q = s.subset.trim q := by
      intro q hq
      rw [← trim_through h.sorted hb.1 hb.2.1 e5 hq, ← trim_through h'.sorted hb.1 hb.2.1 e6 hq]
    unfold Source.ofVector
    refine wrap_alike ?_ ?_ ?_; · intro _; rfl
    · intro _; rfl
    refine ⟨by rw [e1, e2]; rfl, by rw [e1, e2]; rfl, e4, e3, by rw [e1, e2]; rfl, by rw [e1, e2]; rfl, ?_, ?_⟩
    · intro q hq
      obtain ⟨d1, k3, -⟩ := rowsIn_trim h'.sorted hq.2.1 hq.2.2.2 e6
      rw [e1, vectorLoader_trims id name agg _ q _ _ k3, vectorLoader_trims id name agg _ q _ d1 (by rw [← key q hq, k3])]
    · intro q hq c _
      rw [e1, e2]
      show VectorHom.hom minDp c q s'.subset = VectorHom.hom minDp c q s.subset
      unfold VectorHom.hom
      rw [key q hq]
  | @lut s s' e1 e2 e3 e4 e5 =>
    have h := h.ofLut
    have h' := h'.ofLut
    obtain ⟨coverage, id, name, agg, e, -, -⟩ := h.loader
    unfold Source.ofLut
    refine wrap_alike ?_ ?_ ?_; · intro _; rfl
    · intro _; rfl
    refine ⟨by rw [e1], by rw [e1], e3, e2, by rw [e1], by rw [e1], ?_, fun _ _ _ _ => by rw [e1]⟩
    intro q hq
    rw [e]
    show (match s'.subset.trim q with | .ok t' => t' | .error _ => s'.subset) = (match s.subset.trim q with | .ok t' => t' | .error _ => s.subset)
    rw [lut_trim_box h'.time hq, lut_trim_box h.time (hq.trans hb)]
    simp only
    rw [e4, ← lut_through hb.1 hb.2.1 hq, ← lut_through (t := s.subset) hb.1 hb.2.1 hq, e4, e5]

/-- The values that the sources have. -/
theorem plain_values {b : Boundary} {full : List (Source AnyData AnyCond)} (hf : ∀ s ∈ full, PlainAny b s) :
    ∃ value : Source AnyData AnyCond → Boundary → String → Option ℚ, ∀ s ∈ full, Valued b s (value s) := by
  have hex : ∀ s : Source AnyData AnyCond, ∃ value : Boundary → String → Option ℚ, s ∈ full → Valued b s value := by
    intro s
    by_cases hs : s ∈ full
    · obtain ⟨v, hv⟩ := any_valued (hf s hs)
      exact ⟨v, fun _ => hv.1⟩
    · exact ⟨fun _ _ => none, fun h => absurd h hs⟩
  choose value hvalue using hex
  exact ⟨value, hvalue⟩

/-! ## C115 -/

/-- **C115**: take two regions of which one is a block of whole cells of the other, and for both of them sources of the three kinds, locks
and curls included, that have the same data in the block.  Both meshes are built without raising; the cells over the block are exactly those of
the larger mesh that lie in the block, with the same values.  So neither the extent of a region nor data outside of a cell matters to it. -/
theorem C115_block {b b' : Boundary} {W H : ℚ} {full full' : List (Source AnyData AnyCond)} (hf : ∀ s ∈ full, PlainAny b s)
    (hf' : ∀ s ∈ full', PlainAny b' s) (hs : List.Forall₂ (SameIn b') full full') (hid : (full.map (fun s => s.loader.id)).Nodup)
    (config config' : MeshConfig) (hp : ProperGrid b W H) (hcr : b.longMin < b.longMax) (hh : b.latMin < b.latMax)
    (hcol : b.longMin = -180 ∧ b.longMax = 180 → W ≤ 180) (hacc : MeshBuilder.validateBounds b W H = .ok ()) (hb : Block b W H b') (depth : ℕ) :
    ∃ m0 m0', MeshBuilder.init b W H (fun q => trimSources q full) depth = .ok m0 ∧
      MeshBuilder.init b' W H (fun q => trimSources q full') depth = .ok m0' ∧ ∃ N em em',
      (∀ fuel, N ≤ fuel → MeshBuilder.buildEnvironmentalMesh (sourceOps AnyData AnyCond) aggregate fuel config m0 = .ok em ∧
        MeshBuilder.buildEnvironmentalMesh (sourceOps AnyData AnyCond) aggregate fuel config' m0' = .ok em') ∧
      (∀ q, (∃ c ∈ em'.cells, c.bounds = q) ↔ (∃ c ∈ em.cells, c.bounds = q) ∧ Enclosed q b') ∧
      ∀ c ∈ em.cells, ∀ c' ∈ em'.cells, c.bounds = c'.bounds → ∀ n, c.data.get? n = c'.data.get? n := by
  obtain ⟨value, hv⟩ := plain_values hf
  obtain ⟨hlen, hzip⟩ := List.forall₂_iff_zip.1 hs
  have e1 : (full.zip full').map Prod.fst = full := List.map_fst_zip (by omega)
  have e2 : (full.zip full').map Prod.snd = full' := List.map_snd_zip (by omega)
  have m1 : ∀ z ∈ full.zip full', z.1 ∈ full ∧ z.2 ∈ full' := fun z hz => List.of_mem_zip hz
  have := block_built (zs := full.zip full') (b' := b') (fun z hz => any_faithful (hf z.1 (m1 z hz).1)) (fun z hz => hv z.1 (m1 z hz).1)
    (fun z hz => sameIn_alike (hf z.1 (m1 z hz).1) (hf' z.2 (m1 z hz).2) (block_inner hp hcr hb) (hzip hz))
    (by
      have : (full.zip full').map (fun z => z.1.loader.id) = full.map (fun s => s.loader.id) := by
        conv_rhs => rw [← e1, List.map_map]
        rfl
      rw [this]; exact hid)
    config config' hp hcr hh hcol hacc hb depth
  rw [e1, e2] at this
  exact this

/-- The sources of C110 without what lies outside of the south-west cell, and with a point just outside of it added. -/
noncomputable def exMixedBlock : List (Source AnyData AnyCond) :=
  [.ofLut ⟨lutLoader (fun _ _ => 1) 0 "u" .mean, [⟨some true, some false⟩], .const (.num (some 0)),
    ⟨false, [⟨none, rectGeom 2 4 (-59) (-57), some 8⟩]⟩⟩,
   .ofScalar ⟨scalarLoader 1 "a" .mean 1, [⟨3, 0, 1, false⟩], .parent,
    .table ⟨false, [⟨-59, 1, 0, some 5⟩, ⟨-58, 1, 0, some 1⟩, ⟨-54, 1, 0, some 100⟩]⟩⟩,
   .ofVector (vectorSource 2 "u,v" .mean 1 [{ dmag := some ⟨1, 0, 1, false⟩ }] .parent (.table ⟨false, []⟩))]

theorem exMixedBlock_plain : ∀ s ∈ exMixedBlock, PlainAny ⟨-60, -55, 0, 10, []⟩ s := by
  intro s hs
  simp only [exMixedBlock, List.mem_cons, List.not_mem_nil, or_false] at hs
  rcases hs with rfl | rfl | rfl
  · refine .lut ⟨⟨_, _, _, _, rfl, by decide, fun _ => ⟨?_, fun _ _ _ => one_ne_zero⟩⟩, Or.inr ⟨_, rfl⟩, ?_, by simp, ?_⟩
    · intro r hr; rw [List.mem_singleton] at hr; subst hr; simp
    · intro r hr x y h; rw [List.mem_singleton] at hr; subst hr; exact h.1
    · intro c hc; rw [List.mem_singleton] at hc; exact ⟨_, _, hc⟩
  · exact .scalar ⟨⟨_, _, _, _, rfl, by decide, by simp⟩, Or.inl rfl, trivial, _, rfl⟩
  · refine .vector ⟨⟨_, _, _, _, "u", "v", rfl, by decide +kernel, by decide, by simp, le_rfl⟩, rfl, trivial, ⟨_, rfl⟩, ?_⟩
    intro c hc
    simp only [vectorSource, List.mem_singleton] at hc
    subst hc
    simp [vectorSource]

theorem exMixedBlock_same : List.Forall₂ (SameIn ⟨-60, -55, 0, 10, []⟩) exMixed exMixedBlock := by
  refine .cons (.lut rfl rfl rfl rfl rfl) (.cons (.scalar (d := .table ⟨false, [⟨-59, 1, 0, some 5⟩, ⟨-58, 1, 0, some 1⟩]⟩) rfl rfl rfl ?_ ?_)
    (.cons (.vector (d := .table ⟨false, []⟩) rfl rfl rfl rfl ?_ ?_) .nil)) <;>
  norm_num [vectorSource, Dataset.trim, Table.trim, Table.mask, bind, Except.bind, pure, Except.pure]

/-- The hypotheses of C115 hold: the cell in the south-west of the region is a block, and its mesh is the part of that of the region. -/
example : ∃ m0 m0', MeshBuilder.init exRegion 10 5 (fun q => trimSources q exMixed) 1 = .ok m0 ∧
    MeshBuilder.init ⟨-60, -55, 0, 10, []⟩ 10 5 (fun q => trimSources q exMixedBlock) 1 = .ok m0' ∧ ∃ N em em',
    (∀ fuel, N ≤ fuel → MeshBuilder.buildEnvironmentalMesh (sourceOps AnyData AnyCond) aggregate fuel exConfig m0 = .ok em ∧
      MeshBuilder.buildEnvironmentalMesh (sourceOps AnyData AnyCond) aggregate fuel exConfig m0' = .ok em') ∧
    (∀ q, (∃ c ∈ em'.cells, c.bounds = q) ↔ (∃ c ∈ em.cells, c.bounds = q) ∧ Enclosed q ⟨-60, -55, 0, 10, []⟩) ∧
    ∀ c ∈ em.cells, ∀ c' ∈ em'.cells, c.bounds = c'.bounds → ∀ n, c.data.get? n = c'.data.get? n :=
  C115_block exMixed_plain.1 exMixedBlock_plain exMixedBlock_same exMixed_plain.2.1 exConfig exConfig exRegion_proper (by norm_num [exRegion])
    (by norm_num [exRegion]) (by norm_num [exRegion]) (by decide +kernel)
    ⟨0, 0, 1, 1, by norm_num, by norm_num, by norm_num [exRegion], by norm_num [exRegion], by norm_num [exRegion]⟩ 1

/-! ## C116 -/

/-- **C116**: a larger depth only refines what was at the limit.  From the same sources, locks and curls included, the cells larger than those
at the smaller depth are the same; every cell of the deeper mesh lies in one of the other, and every cell of the other has one in it; of
the deeper mesh those that are not smaller than the limit are cells of the other; and common cells have the same values. -/
theorem C116_depth {b : Boundary} {W H : ℚ} {full : List (Source AnyData AnyCond)} (hf : ∀ s ∈ full, PlainAny b s)
    (hid : (full.map (fun s => s.loader.id)).Nodup)
    (config config' : MeshConfig) (hp : ProperGrid b W H) (hcr : b.longMin < b.longMax) (hh : b.latMin < b.latMax)
    (hcol : b.longMin = -180 ∧ b.longMax = 180 → W ≤ 180) (hacc : MeshBuilder.validateBounds b W H = .ok ()) {d d' : ℕ} (hd : d ≤ d') :
    ∃ m0 m0', MeshBuilder.init b W H (fun q => trimSources q full) d = .ok m0 ∧
      MeshBuilder.init b W H (fun q => trimSources q full) d' = .ok m0' ∧ ∃ N em em',
      (∀ fuel, N ≤ fuel → MeshBuilder.buildEnvironmentalMesh (sourceOps AnyData AnyCond) aggregate fuel config m0 = .ok em ∧
        MeshBuilder.buildEnvironmentalMesh (sourceOps AnyData AnyCond) aggregate fuel config' m0' = .ok em') ∧
      (∀ q, W / 2 ^ d < q.longMax - q.longMin → ((∃ c ∈ em.cells, c.bounds = q) ↔ ∃ c ∈ em'.cells, c.bounds = q)) ∧
      (∀ c' ∈ em'.cells, ∃ c ∈ em.cells, Enclosed c'.bounds c.bounds) ∧
      (∀ c ∈ em.cells, ∃ c' ∈ em'.cells, Enclosed c'.bounds c.bounds) ∧
      (∀ c' ∈ em'.cells, W / 2 ^ d ≤ c'.bounds.longMax - c'.bounds.longMin → ∃ c ∈ em.cells, c.bounds = c'.bounds) ∧
      ∀ c ∈ em.cells, ∀ c' ∈ em'.cells, c.bounds = c'.bounds → ∀ n, c.data.get? n = c'.data.get? n := by
  obtain ⟨value, hv⟩ := plain_values hf
  exact depth_built (fun s hs => any_faithful (hf s hs)) hv hid config config' hp hcr hh hcol hacc hd

/-- The hypotheses of C116 hold for the sources of C110, at the depths 1 and 2. -/
example : ∃ m0 m0', MeshBuilder.init exRegion 10 5 (fun q => trimSources q exMixed) 1 = .ok m0 ∧
    MeshBuilder.init exRegion 10 5 (fun q => trimSources q exMixed) 2 = .ok m0' ∧ ∃ N em em',
    (∀ fuel, N ≤ fuel → MeshBuilder.buildEnvironmentalMesh (sourceOps AnyData AnyCond) aggregate fuel exConfig m0 = .ok em ∧
      MeshBuilder.buildEnvironmentalMesh (sourceOps AnyData AnyCond) aggregate fuel exConfig m0' = .ok em') ∧
    ∀ c' ∈ em'.cells, ∃ c ∈ em.cells, Enclosed c'.bounds c.bounds := by
  obtain ⟨m0, m0', h0, h0', N, em, em', hb, -, h, -⟩ := C116_depth exMixed_plain.1 exMixed_plain.2.1 exConfig exConfig exRegion_proper
    (by norm_num [exRegion]) (by norm_num [exRegion]) (by norm_num [exRegion]) (by decide +kernel) (show 1 ≤ 2 by omega)
  exact ⟨m0, m0', h0, h0', N, em, em', hb, h⟩

/-! ## C117 -/

/-- The cells without locks, with their data. -/
theorem unlocked_built {b : Boundary} {W H : ℚ} {full : List (Source AnyData AnyCond)} {value : Source AnyData AnyCond → Boundary → String → Option ℚ}
    (hf : ∀ s ∈ full, PlainAny b s) (hv : ∀ s ∈ full, Valued b s (value s)) (hid : (full.map (fun s => s.loader.id)).Nodup)
    (hlock : ∀ s ∈ full, Unlocked s)
    (config : MeshConfig) (hp : ProperGrid b W H) (hcr : b.longMin < b.longMax) (hh : b.latMin < b.latMax)
    (hcol : b.longMin = -180 ∧ b.longMax = 180 → W ≤ 180) (hacc : MeshBuilder.validateBounds b W H = .ok ()) (depth : ℕ) :
    ∃ m0, MeshBuilder.init b W H (fun q => trimSources q full) depth = .ok m0 ∧ ∃ N em,
      (∀ fuel, N ≤ fuel → MeshBuilder.buildEnvironmentalMesh (sourceOps AnyData AnyCond) aggregate fuel config m0 = .ok em) ∧
      (∀ q, (∃ c ∈ em.cells, c.bounds = q) ↔
        ∃ k, Refined (fun q => ∃ s ∈ full, Uneven q s) (GridBox b W H) depth k q ∧ (k = depth ∨ ¬ ∃ s ∈ full, Uneven q s)) ∧
      ∀ c ∈ em.cells, DataOf value full (GridBox b W H) c := by
  obtain ⟨m0, h0, N, em, hb, -, h4⟩ := plain_built (fun s hs => any_faithful (hf s hs)) hv hid config hp hcr hh hcol hacc depth
  obtain ⟨m0', h0', N', em', hb', hc⟩ := C110_cells hf hid hlock config hp hcr hh hcol hacc depth
  have e0 : m0' = m0 := by rw [h0] at h0'; simpa using h0'.symm
  subst e0
  have e1 : em' = em := by
    have h1 := hb (max N N') (by omega)
    rw [hb' (max N N') (by omega)] at h1
    simpa using h1
  subst e1
  exact ⟨m0', h0, N, em', hb, hc, h4⟩

/-- **C117**, the order: without locks the order of the sources makes no difference to the cells, and none to the values under names that
only one source has. -/
theorem C117_order {b : Boundary} {W H : ℚ} {full full' : List (Source AnyData AnyCond)} (hperm : full.Perm full') (hf : ∀ s ∈ full, PlainAny b s)
    (hid : (full.map (fun s => s.loader.id)).Nodup) (hlock : ∀ s ∈ full, Unlocked s)
    (config config' : MeshConfig) (hp : ProperGrid b W H) (hcr : b.longMin < b.longMax) (hh : b.latMin < b.latMax)
    (hcol : b.longMin = -180 ∧ b.longMax = 180 → W ≤ 180) (hacc : MeshBuilder.validateBounds b W H = .ok ()) (depth : ℕ) :
    ∃ m0 m0', MeshBuilder.init b W H (fun q => trimSources q full) depth = .ok m0 ∧
      MeshBuilder.init b W H (fun q => trimSources q full') depth = .ok m0' ∧ ∃ N em em',
      (∀ fuel, N ≤ fuel → MeshBuilder.buildEnvironmentalMesh (sourceOps AnyData AnyCond) aggregate fuel config m0 = .ok em ∧
        MeshBuilder.buildEnvironmentalMesh (sourceOps AnyData AnyCond) aggregate fuel config' m0' = .ok em') ∧
      (∀ q, (∃ c ∈ em.cells, c.bounds = q) ↔ ∃ c ∈ em'.cells, c.bounds = q) ∧
      ∀ c ∈ em.cells, ∀ c' ∈ em'.cells, c.bounds = c'.bounds → ∀ n,
        (∀ s ∈ full, ∀ t ∈ full, n ∈ splitName s.loader.dataName → n ∈ splitName t.loader.dataName → s.loader.id = t.loader.id) →
        c.data.get? n = c'.data.get? n := by
  obtain ⟨value, hv⟩ := plain_values hf
  have hm : ∀ s, s ∈ full' ↔ s ∈ full := fun s => hperm.symm.mem_iff
  obtain ⟨m0, h0, N, em, hb, hc, hd⟩ := unlocked_built hf hv hid hlock config hp hcr hh hcol hacc depth
  obtain ⟨m0', h0', N', em', hb', hc', hd'⟩ := unlocked_built (full := full') (fun s hs => hf s ((hm s).1 hs)) (fun s hs => hv s ((hm s).1 hs))
    ((hperm.map _).nodup_iff.1 hid) (fun s hs => hlock s ((hm s).1 hs)) config' hp hcr hh hcol hacc depth
  refine ⟨m0, m0', h0, h0', max N N', em, em', fun fuel hfuel => ⟨hb fuel (by omega), hb' fuel (by omega)⟩, ?_, ?_⟩
  · intro q
    rw [hc, hc']
    simp only [hm]
  · intro c hcm c' hcm' e n hn
    refine (hd c hcm).others hp.wpos hp.hpos (hd' c' hcm') e ?_
    have hp2 := hperm.filter (fun s => decide (n ∈ splitName s.loader.dataName))
    have hnd : full.Nodup := List.Nodup.of_map _ hid
    generalize hg : full.filter (fun s => decide (n ∈ splitName s.loader.dataName)) = l at hp2
    have hl : l.Nodup := by rw [← hg]; exact hnd.filter _
    have hall : ∀ s ∈ l, ∀ t ∈ l, s = t := by
      intro s hs t ht
      rw [← hg, List.mem_filter, decide_eq_true_iff] at hs ht
      exact List.inj_on_of_nodup_map hid hs.1 ht.1 (hn s hs.1 t ht.1 hs.2 ht.2)
    cases l with
    | nil => exact (List.nil_perm.1 hp2).symm
    | cons x l =>
      cases l with
      | nil => exact (List.singleton_perm.1 hp2)
      | cons y l =>
        have := hall x (by simp) y (by simp)
        rw [this] at hl
        simp at hl

/-- **C117**, more sources: adding sources without locks only refines the cells.  Every cell with them lies in one without them, and
common cells have the same values under the names that the additional ones do not have. -/
theorem C117_more {b : Boundary} {W H : ℚ} {full extra : List (Source AnyData AnyCond)} (hf : ∀ s ∈ full ++ extra, PlainAny b s)
    (hid : ((full ++ extra).map (fun s => s.loader.id)).Nodup) (hlock : ∀ s ∈ full ++ extra, Unlocked s)
    (config config' : MeshConfig) (hp : ProperGrid b W H) (hcr : b.longMin < b.longMax) (hh : b.latMin < b.latMax)
    (hcol : b.longMin = -180 ∧ b.longMax = 180 → W ≤ 180) (hacc : MeshBuilder.validateBounds b W H = .ok ()) (depth : ℕ) :
    ∃ m0 m0', MeshBuilder.init b W H (fun q => trimSources q full) depth = .ok m0 ∧
      MeshBuilder.init b W H (fun q => trimSources q (full ++ extra)) depth = .ok m0' ∧ ∃ N em em',
      (∀ fuel, N ≤ fuel → MeshBuilder.buildEnvironmentalMesh (sourceOps AnyData AnyCond) aggregate fuel config m0 = .ok em ∧
        MeshBuilder.buildEnvironmentalMesh (sourceOps AnyData AnyCond) aggregate fuel config' m0' = .ok em') ∧
      (∀ c' ∈ em'.cells, ∃ c ∈ em.cells, Enclosed c'.bounds c.bounds) ∧
      ∀ c ∈ em.cells, ∀ c' ∈ em'.cells, c.bounds = c'.bounds → ∀ n, (∀ s ∈ extra, n ∉ splitName s.loader.dataName) →
        c.data.get? n = c'.data.get? n := by
  obtain ⟨value, hv⟩ := plain_values hf
  have hm : ∀ s, s ∈ full → s ∈ full ++ extra := fun s hs => List.mem_append_left _ hs
  obtain ⟨m0, h0, N, em, hb, hc, hd⟩ := unlocked_built (full := full) (fun s hs => hf s (hm s hs)) (fun s hs => hv s (hm s hs))
    (by rw [List.map_append] at hid; exact hid.of_append_left) (fun s hs => hlock s (hm s hs)) config hp hcr hh hcol hacc depth
  obtain ⟨m0', h0', N', em', hb', hc', hd'⟩ := unlocked_built hf hv hid hlock config' hp hcr hh hcol hacc depth
  refine ⟨m0, m0', h0, h0', max N N', em, em', fun fuel hfuel => ⟨hb fuel (by omega), hb' fuel (by omega)⟩, ?_, ?_⟩
  · intro c' hcm
    obtain ⟨k, hr, hleaf⟩ := (hc' _).1 ⟨c', hcm, rfl⟩
    have key : ∀ {k q}, Refined (fun q => ∃ s ∈ full ++ extra, Uneven q s) (GridBox b W H) depth k q →
        Inner b q ∧ (Refined (fun q => ∃ s ∈ full, Uneven q s) (GridBox b W H) depth k q ∨ ∃ c ∈ em.cells, Enclosed q c.bounds) := by
      intro k q hr
      induction hr with
      | start hq => exact ⟨gridBox_proper hp hcr hq, Or.inl (.start hq)⟩
      | @quarter k q q' _ hk _ hq ih =>
        obtain ⟨hi, ih⟩ := ih
        have hqi := inner_quarter hi hq
        have henc : Enclosed q' q := inner_edges hi.1 hi.2.1 hqi
        refine ⟨hqi.trans hi, ?_⟩
        rcases ih with ih | ⟨c, h1, h2⟩
        · by_cases hw : ∃ s ∈ full, Uneven q s
          · exact Or.inl (.quarter ih hk hw hq)
          · obtain ⟨c, h1, h2⟩ := (hc q).2 ⟨k, ih, Or.inr hw⟩
            exact Or.inr ⟨c, h1, by rw [h2]; exact henc⟩
        · exact Or.inr ⟨c, h1, henc.trans h2⟩
    rcases (key hr).2 with h | h
    · obtain ⟨c, h1, h2⟩ := (hc _).2 ⟨k, h, hleaf.imp id (fun hn hx => hn (by
        obtain ⟨s, hs, hu⟩ := hx
        exact ⟨s, hm s hs, hu⟩))⟩
      exact ⟨c, h1, by rw [h2]; exact .refl _⟩
    · exact h
  · intro c hcm c' hcm' e n hn
    refine (hd c hcm).others hp.wpos hp.hpos (hd' c' hcm') e ?_
    rw [List.filter_append]
    have : extra.filter (fun s => decide (n ∈ splitName s.loader.dataName)) = [] := by
      rw [List.filter_eq_nil_iff]
      intro s hs
      simpa using hn s hs
    rw [this, List.append_nil]

/-- The hypotheses of C117 hold: the sources of C110 in reverse, where only the scalar one has the name `a`. -/
example : ∃ m0 m0', MeshBuilder.init exRegion 10 5 (fun q => trimSources q exMixed) 1 = .ok m0 ∧
    MeshBuilder.init exRegion 10 5 (fun q => trimSources q exMixed.reverse) 1 = .ok m0' ∧ ∃ N em em',
    (∀ fuel, N ≤ fuel → MeshBuilder.buildEnvironmentalMesh (sourceOps AnyData AnyCond) aggregate fuel exConfig m0 = .ok em ∧
      MeshBuilder.buildEnvironmentalMesh (sourceOps AnyData AnyCond) aggregate fuel exConfig m0' = .ok em') ∧
    (∀ q, (∃ c ∈ em.cells, c.bounds = q) ↔ ∃ c ∈ em'.cells, c.bounds = q) ∧
    ∀ c ∈ em.cells, ∀ c' ∈ em'.cells, c.bounds = c'.bounds → c.data.get? "a" = c'.data.get? "a" := by
  obtain ⟨m0, m0', h0, h0', N, em, em', hb, h1, h2⟩ := C117_order (List.reverse_perm exMixed).symm exMixed_plain.1 exMixed_plain.2.1
    exMixed_plain.2.2 exConfig exConfig exRegion_proper
    (by norm_num [exRegion]) (by norm_num [exRegion]) (by norm_num [exRegion]) (by decide +kernel) 1
  refine ⟨m0, m0', h0, h0', N, em, em', hb, h1, fun c hc c' hc' e => h2 c hc c' hc' e "a" ?_⟩
  have hk : splitName "u" = ["u"] ∧ splitName "a" = ["a"] ∧ splitName "u,v" = ["u", "v"] := by decide +kernel
  have : ∀ s ∈ exMixed, "a" ∈ splitName s.loader.dataName → s.loader.id = 1 := by
    intro s hs h
    simp only [exMixed, List.mem_cons, List.not_mem_nil, or_false] at hs
    rcases hs with rfl | rfl | rfl
    · exact absurd (show "a" ∈ splitName "u" from h) (by rw [hk.1]; decide)
    · rfl
    · exact absurd (show "a" ∈ splitName "u,v" from h) (by rw [hk.2.2]; decide)
  intro s hs t ht h h'
  rw [this s hs h, this t ht h']

/-- The hypotheses of C117 hold: the vector source of C110 added to the others, which leaves `a` as it is. -/
example : ∃ m0 m0', MeshBuilder.init exRegion 10 5 (fun q => trimSources q (exMixed.take 2)) 1 = .ok m0 ∧
    MeshBuilder.init exRegion 10 5 (fun q => trimSources q (exMixed.take 2 ++ exMixed.drop 2)) 1 = .ok m0' ∧ ∃ N em em',
    (∀ fuel, N ≤ fuel → MeshBuilder.buildEnvironmentalMesh (sourceOps AnyData AnyCond) aggregate fuel exConfig m0 = .ok em ∧
      MeshBuilder.buildEnvironmentalMesh (sourceOps AnyData AnyCond) aggregate fuel exConfig m0' = .ok em') ∧
    (∀ c' ∈ em'.cells, ∃ c ∈ em.cells, Enclosed c'.bounds c.bounds) ∧
    ∀ c ∈ em.cells, ∀ c' ∈ em'.cells, c.bounds = c'.bounds → c.data.get? "a" = c'.data.get? "a" := by
  have e : exMixed.take 2 ++ exMixed.drop 2 = exMixed := List.take_append_drop 2 exMixed
  obtain ⟨m0, m0', h0, h0', N, em, em', hb, h1, h2⟩ := C117_more (full := exMixed.take 2) (extra := exMixed.drop 2) (by rw [e]; exact exMixed_plain.1)
    (by rw [e]; exact exMixed_plain.2.1) (by rw [e]; exact exMixed_plain.2.2) exConfig exConfig exRegion_proper
    (by norm_num [exRegion]) (by norm_num [exRegion]) (by norm_num [exRegion]) (by decide +kernel) 1
  refine ⟨m0, m0', h0, h0', N, em, em', hb, h1, fun c hc c' hc' e => h2 c hc c' hc' e "a" ?_⟩
  intro s hs
  have hs : s ∈ [_] := hs
  rw [List.mem_singleton] at hs
  subst hs
  have hk : splitName "u,v" = ["u", "v"] := by decide +kernel
  show "a" ∉ splitName "u,v"
  rw [hk]; decide

end Verif
