import Verif.Props.Units

/-!
# C120, C121: looser conditions and more sources only refine a mesh

C121 is C117 for regions that may cross the antimeridian.
-/

namespace Verif
open Spec

/-! ## Specification -/

/-- The source `s'` is `s` with looser conditions: each of its conditions has one with the same threshold, a lower bound that is not greater and
an upper bound that is not less.  There may be others, and the least number of datapoints may be less. -/
inductive Spec.Looser : Source AnyData AnyCond → Source AnyData AnyCond → Prop
  | scalar {s s' : Source (Dataset (Option ℚ)) Cond} {id name agg minDp minDp'} : s.loader = scalarLoader id name agg minDp →
      s'.loader = scalarLoader id name agg minDp' → minDp' ≤ minDp → s'.subset = s.subset → s'.fill = s.fill →
      (∀ c ∈ s.conds, ∃ c' ∈ s'.conds, c'.threshold = c.threshold ∧ c'.lower ≤ c.lower ∧ c.upper ≤ c'.upper) → Looser (.ofScalar s) (.ofScalar s')
  | vector {s s' : Source (Dataset Vec) VectorHom.Conds} {id name agg minDp minDp'} :
      s.loader = vectorLoader id name agg (fun b c _ => VectorHom.hom minDp c b s.subset) →
      s'.loader = vectorLoader id name agg (fun b c _ => VectorHom.hom minDp' c b s'.subset) → minDp' ≤ minDp → s'.subset = s.subset → s'.fill = s.fill →
      (∀ c, ⟨none, some c⟩ ∈ s.conds → ∃ c', ⟨none, some c'⟩ ∈ s'.conds ∧ c'.threshold = c.threshold ∧ c'.lower ≤ c.lower ∧ c.upper ≤ c'.upper) →
      Looser (.ofVector s) (.ofVector s')
  | lut {s s' : Source LutTable Lut.Conds} : s'.loader = s.loader → s'.subset = s.subset → s'.fill = s.fill →
      (∀ l, ⟨some true, l⟩ ∈ s.conds → ∃ l', ⟨some true, l'⟩ ∈ s'.conds) → Looser (.ofLut s) (.ofLut s')

/-! ## Meshes without locks -/

variable {S C : Type}

/-- What is known of the meshes over a region from sources without locks. -/
structure RefinedFrom (In start : Boundary → Prop) (parts : Boundary → List Boundary) (depth : ℕ) (full : List (Source S C))
    (value : Source S C → Boundary → String → Option ℚ) (wants : Boundary → Prop) (cells : List AggCell) : Prop where
  valued : ∀ s ∈ full, ValuedOn In s (value s)
  boxes : ∀ q, (∃ c ∈ cells, c.bounds = q) ↔ ∃ k, RefinedBy parts wants start depth k q ∧ (k = depth ∨ ¬ wants q)
  data : ∀ c ∈ cells, ∃ anc, (∀ q ∈ c.bounds :: anc, In q) ∧ LineageBy parts start (c.bounds :: anc) ∧ DataAlong value full c anc

/-- Splitting more refines the cells. -/
theorem finer_cells {In start : Boundary → Prop} {parts : Boundary → List Boundary} {depth : ℕ} {full full' : List (Source S C)}
    {value value' : Source S C → Boundary → String → Option ℚ} {wants wants' : Boundary → Prop} {cells cells' : List AggCell}
    (h : RefinedFrom In start parts depth full value wants cells) (h' : RefinedFrom In start parts depth full' value' wants' cells')
    (hfirst : ∀ q, start q → In q) (hparts : ∀ p q, In p → q ∈ parts p → In q ∧ Within q p) (hw : ∀ q, In q → wants q → wants' q) :
    ∀ c' ∈ cells', ∃ c ∈ cells, Within c'.bounds c.bounds := by
  intro c' hcm
  obtain ⟨k, hr, hleaf⟩ := (h'.boxes _).1 ⟨c', hcm, rfl⟩
  have key : ∀ {k q}, RefinedBy parts wants' start depth k q →
      In q ∧ (RefinedBy parts wants start depth k q ∨ ∃ c ∈ cells, Within q c.bounds) := by
    intro k q hr
    induction hr with
    | start hq => exact ⟨hfirst _ hq, Or.inl (.start hq)⟩
    | @quarter k q q' _ hk _ hq ih =>
      obtain ⟨hi, ih⟩ := ih
      obtain ⟨hi', henc⟩ := hparts _ _ hi hq
      refine ⟨hi', ?_⟩
      rcases ih with ih | ⟨c, h1, h2⟩
      · by_cases hx : wants q
        · exact Or.inl (.quarter ih hk hx hq)
        · obtain ⟨c, h1, h2⟩ := (h.boxes q).2 ⟨k, ih, Or.inr hx⟩
          exact Or.inr ⟨c, h1, by rw [h2]; exact henc⟩
      · exact Or.inr ⟨c, h1, henc.trans h2⟩
  obtain ⟨hi, hk⟩ := key hr
  rcases hk with hk | hk
  · obtain ⟨c, h1, h2⟩ := (h.boxes _).2 ⟨k, hk, hleaf.imp id (fun hn hx => hn (hw _ hi hx))⟩
    exact ⟨c, h1, by rw [h2]; exact .refl _⟩
  · exact hk

theorem plain_refined {b : Boundary} {W H : ℚ} {full : List (Source AnyData AnyCond)} (hf : ∀ s ∈ full, PlainAny b s)
    (hid : (full.map (fun s => s.loader.id)).Nodup) (hlock : ∀ s ∈ full, Unlocked s) (config : MeshConfig) (hp : ProperGrid b W H)
    (hcr : b.longMin < b.longMax) (hh : b.latMin < b.latMax) (hcol : b.longMin = -180 ∧ b.longMax = 180 → W ≤ 180)
    (hacc : MeshBuilder.validateBounds b W H = .ok ()) (depth : ℕ) :
    ∃ m0, MeshBuilder.init b W H (fun q => trimSources q full) depth = .ok m0 ∧ ∃ N em value,
      (∀ fuel, N ≤ fuel → MeshBuilder.buildEnvironmentalMesh (sourceOps AnyData AnyCond) aggregate fuel config m0 = .ok em) ∧
      RefinedFrom (Inner b) (GridBox b W H) quarters depth full value (fun q => ∃ s ∈ full, Uneven q s) em.cells := by
  obtain ⟨m0, h0, N, em, value, hb, hB⟩ := plain_from hf hid config hp hcr hh hcol hacc depth
  obtain ⟨m0', h0', N', em', hb', hc⟩ := C110_cells hf hid hlock config hp hcr hh hcol hacc depth
  have e0 : m0' = m0 := by rw [h0] at h0'; simpa using h0'.symm
  subst e0
  have e1 : em' = em := by
    have h1 := hb (max N N') (by omega)
    rw [hb' (max N N') (by omega)] at h1
    simpa using h1
  subst e1
  exact ⟨m0', h0, N, em', value, hb, hB.valued, hc, hB.data⟩

theorem around_refined {b : Boundary} {W H : ℚ} {full : List (Source AnyData AnyCond)} (hf : ∀ s ∈ full, AroundAny b s)
    (hid : (full.map (fun s => s.loader.id)).Nodup) (hlock : ∀ s ∈ full, Unlocked s) (config : MeshConfig) (hp : ProperGrid b W H)
    (hh : b.latMin < b.latMax) (hcol : b.width = 360 → W ≤ 180)
    (hacc : MeshBuilder.validateBounds b W H = .ok ()) (depth : ℕ) :
    ∃ m0, MeshBuilder.init b W H (fun q => trimSources q full) depth = .ok m0 ∧ ∃ N em value,
      (∀ fuel, N ≤ fuel → MeshBuilder.buildEnvironmentalMesh (sourceOps AnyData AnyCond) aggregate fuel config m0 = .ok em) ∧
      RefinedFrom (Around b) (TurnGridBox b W H) turnQuarters depth full value (fun q => ∃ s ∈ full, UnevenAround q s) em.cells := by
  obtain ⟨m0, h0, N, em, value, hb, hB⟩ := around_from hf hid config hp hh hcol hacc depth
  obtain ⟨m0', h0', N', em', hb', hc⟩ := C113_cells hf hid hlock config hp hh hcol hacc depth
  have e0 : m0' = m0 := by rw [h0] at h0'; simpa using h0'.symm
  subst e0
  have e1 : em' = em := by
    have h1 := hb (max N N') (by omega)
    rw [hb' (max N N') (by omega)] at h1
    simpa using h1
  subst e1
  exact ⟨m0', h0, N, em', value, hb, hB.valued, hc, hB.data⟩

/-! ## Looser conditions -/

theorem hom_het (minDp : ℕ) (c : Cond) (vals : List (Option ℚ)) : homCondition minDp c vals = .het ↔
    minDp ≤ vals.length ∧ c.lower < fractionOver c.threshold vals ∧ fractionOver c.threshold vals < c.upper := by
  obtain ⟨d1, d2, -⟩ := C27_decision minDp c vals
  rcases Nat.lt_or_ge vals.length minDp with h | h
  · rw [d1 h]
    exact ⟨fun h => (by cases h), fun h' => absurd h'.1 (by omega)⟩
  · obtain ⟨-, -, k1, k2, k3⟩ := d2 h
    rcases le_or_gt (fractionOver c.threshold vals) c.lower with h1 | h1
    · rw [k1 h1]
      exact ⟨fun h => (by cases h), fun h' => absurd h'.2.1 (not_lt.2 h1)⟩
    · rcases le_or_gt c.upper (fractionOver c.threshold vals) with h2 | h2
      · rw [k2 h1 h2]
        refine ⟨fun h => ?_, fun h' => absurd h'.2.2 (not_lt.2 h2)⟩
        split at h <;> cases h
      · rw [k3 h1 h2]
        exact ⟨fun _ => ⟨h, h1, h2⟩, fun _ => rfl⟩

theorem looser_uneven {b q : Boundary} {s s' : Source AnyData AnyCond} (hs : PlainAny b s) (hl : Unlocked s) (hq : Inner b q) (h : Looser s s')
    (hu : Uneven q s) : Uneven q s' := by
  cases h with
  | @scalar s s' id name agg minDp minDp' e e' hdp hsub _ hc =>
    have hw : ∀ c, ownVerdict (Source.ofScalar s) q (.scalar c) = ownVerdict s q c := ownVerdict_wrap (fun _ => rfl) (fun _ => rfl) s q
    obtain ⟨c', hcm', hv⟩ := (any_verdict hs hl hq).1.2 hu
    obtain ⟨c, hcm, rfl⟩ := List.mem_map.1 hcm'
    rw [hw, (scalar_verdict hs.ofScalar e hq hcm).1, ← hsub] at hv
    obtain ⟨c', hm, k1, k2, k3⟩ := hc c hcm
    obtain ⟨v1, v2, v3⟩ := hv
    rw [← k1] at v2 v3
    exact .scalar e' hm (hdp.trans v1) (k2.trans_lt v2) (v3.trans_le k3)
  | @vector s s' id name agg minDp minDp' e e' hdp hsub _ hc =>
    have hw : ∀ c, ownVerdict (Source.ofVector s) q (.vector c) = ownVerdict s q c := ownVerdict_wrap (fun _ => rfl) (fun _ => rfl) s q
    obtain ⟨c', hcm', hv⟩ := (any_verdict hs hl hq).1.2 hu
    obtain ⟨c, hcm, rfl⟩ := List.mem_map.1 hcm'
    obtain ⟨d, rfl⟩ := hl.decided.distances c hcm
    rw [hw, (vector_verdict hs.ofVector e hq hcm).1, ← hsub] at hv
    obtain ⟨c', hm, k1, k2, k3⟩ := hc d hcm
    obtain ⟨v1, v2, a, v3, v4, v5⟩ := hv
    rw [← k1] at v4 v5
    exact .vector e' hm (hdp.trans v1) v2 v3 (k2.trans_lt v4) (v5.trans_le k3)
  | @lut s s' e1 hsub _ hc =>
    generalize hS : Source.ofLut s = S at hu
    cases hu with
    | vector => exact absurd (congrArg Source.subset hS) (by intro h; cases h)
    | scalar => exact absurd (congrArg Source.subset hS) (by intro h; cases h)
    | @lut t l hcm h =>
      obtain rfl := ofLut_inj hS
      obtain ⟨l', hm⟩ := hc l hcm
      exact .lut hm (by rw [hsub]; exact h)

theorem looser_around {b q : Boundary} {s s' : Source AnyData AnyCond} (hs : AroundAny b s) (hl : Unlocked s) (hq : Around b q) (h : Looser s s')
    (hu : UnevenAround q s) : UnevenAround q s' := by
  cases h with
  | @scalar s s' id name agg minDp minDp' e e' hdp hsub _ hc =>
    have hw : ∀ c, ownVerdict (Source.ofScalar s) q (.scalar c) = ownVerdict s q c := ownVerdict_wrap (fun _ => rfl) (fun _ => rfl) s q
    obtain ⟨c', hcm', hv⟩ := (around_verdict hs hl hq).1.2 hu
    obtain ⟨c, hcm, rfl⟩ := List.mem_map.1 hcm'
    have ho : ownVerdict s q c = homCondition minDp c ((rowsAround s.subset q).map Row.val) := by
      unfold ownVerdict
      rw [(around_scalar_faithful e hs.scalarGrid.2).decides q hq c hcm]
    rw [hw, ho, hom_het, List.length_map, ← hsub] at hv
    obtain ⟨c', hm, k1, k2, k3⟩ := hc c hcm
    obtain ⟨v1, v2, v3⟩ := hv
    rw [← k1] at v2 v3
    exact .scalar e' hm (hdp.trans v1) (k2.trans_lt v2) (v3.trans_le k3)
  | @vector s s' =>
    generalize hS : Source.ofVector s = S at hu
    cases hu with
    | scalar => exact absurd (congrArg Source.subset hS) (by intro h; cases h)
  | @lut s s' =>
    generalize hS : Source.ofLut s = S at hu
    cases hu with
    | scalar => exact absurd (congrArg Source.subset hS) (by intro h; cases h)

theorem looser_gets {s s' : Source AnyData AnyCond} (h : Looser s s') : s'.loader.id = s.loader.id ∧ s.loader.dataName = s'.loader.dataName ∧
    s.fill = s'.fill ∧ ∀ q, s'.loader.getValue q (s'.loader.trim q s'.subset) = s.loader.getValue q (s.loader.trim q s.subset) := by
  cases h with
  | scalar e e' _ hsub hf _ =>
    simp only [Source.ofScalar, Source.wrap, e, e', scalarLoader, hsub, hf]
    exact ⟨trivial, trivial, trivial, fun _ => trivial⟩
  | vector e e' _ hsub hf _ =>
    simp only [Source.ofVector, Source.wrap, e, e', vectorLoader, hsub, hf]
    exact ⟨trivial, trivial, trivial, fun _ => trivial⟩
  | lut e' hsub hf _ =>
    simp only [Source.ofLut, Source.wrap, e', hsub, hf]
    exact ⟨trivial, trivial, trivial, fun _ => trivial⟩

theorem gets_value {In : Boundary → Prop} {s s' : Source S C} {value value' : Boundary → String → Option ℚ} (h : ValuedOn In s value)
    (h' : ValuedOn In s' value') {q : Boundary} (hq : In q) (hn : s.loader.dataName = s'.loader.dataName)
    (hv : s'.loader.getValue q (s'.loader.trim q s'.subset) = s.loader.getValue q (s.loader.trim q s.subset)) {n : String}
    (hm : n ∈ splitName s.loader.dataName) : value q n = value' q n := by
  obtain ⟨D, h1, h2, -⟩ := h.gives q hq
  obtain ⟨D', h1', h2', -⟩ := h'.gives q hq
  rw [hv, h1] at h1'
  cases h1'
  have := (h2 n hm).symm.trans (h2' n (by rw [← hn]; exact hm))
  simpa using this

theorem looser_data {In start : Boundary → Prop} {parts : Boundary → List Boundary} {depth : ℕ} {zs : List (Source AnyData AnyCond × Source AnyData AnyCond)}
    {value value' : Source AnyData AnyCond → Boundary → String → Option ℚ} {wants wants' : Boundary → Prop} {cells cells' : List AggCell}
    (h : RefinedFrom In start parts depth (zs.map Prod.fst) value wants cells)
    (h' : RefinedFrom In start parts depth (zs.map Prod.snd) value' wants' cells') (hz : ∀ z ∈ zs, Looser z.1 z.2)
    (huniq : ∀ q t t', LineageBy parts start (q :: t) → LineageBy parts start (q :: t') → t = t') :
    ∀ c ∈ cells, ∀ c' ∈ cells', c'.bounds = c.bounds → ∀ n, c'.data.get? n = c.data.get? n := by
  intro c hc c' hc' e n
  obtain ⟨t, i1, i2, i3⟩ := h.data c hc
  obtain ⟨t', i1', i2', i3'⟩ := h'.data c' hc'
  rw [e] at i1' i2'
  obtain rfl := huniq _ _ _ i2 i2'
  refine (DataAlong.related (fun z hzm => ⟨(looser_gets (hz z hzm)).2.1, (looser_gets (hz z hzm)).2.2.1⟩) ?_ i3 i3' n).symm
  intro z hzm n hn
  rw [e, List.forall₂_same]
  intro p hp
  obtain ⟨-, g1, -, g2⟩ := looser_gets (hz z hzm)
  exact gets_value (h.valued _ (List.mem_map_of_mem hzm)) (h'.valued _ (List.mem_map_of_mem hzm)) (i1 p hp) g1 (g2 p) hn

theorem looser_pairs {full full' : List (Source AnyData AnyCond)} (h : List.Forall₂ Looser full full') :
    ∃ zs : List (Source AnyData AnyCond × Source AnyData AnyCond), zs.map Prod.fst = full ∧ zs.map Prod.snd = full' ∧ ∀ z ∈ zs, Looser z.1 z.2 :=
  ⟨full.zip full', List.map_fst_zip h.length_eq.le, List.map_snd_zip h.length_eq.ge, fun _ hz => (List.forall₂_iff_zip.1 h).2 hz⟩

theorem looser_ids {zs : List (Source AnyData AnyCond × Source AnyData AnyCond)} (h : ∀ z ∈ zs, Looser z.1 z.2)
    (hid : ((zs.map Prod.fst).map (fun s => s.loader.id)).Nodup) : ((zs.map Prod.snd).map (fun s => s.loader.id)).Nodup := by
  have : (zs.map Prod.snd).map (fun s => s.loader.id) = (zs.map Prod.fst).map (fun s => s.loader.id) := by
    rw [List.map_map, List.map_map]
    exact List.map_congr_left (fun z hz => (looser_gets (h z hz)).1)
  rw [this]; exact hid

/-- **C120**, regions that do not cross the antimeridian: looser conditions (without locks) only refine the cells.  Every cell with them lies in one
without them, and common cells have the same values. -/
theorem C120_looser {b : Boundary} {W H : ℚ} {full full' : List (Source AnyData AnyCond)} (hfull : List.Forall₂ Looser full full')
    (hf : ∀ s ∈ full, PlainAny b s) (hf' : ∀ s ∈ full', PlainAny b s) (hid : (full.map (fun s => s.loader.id)).Nodup)
    (hlock : ∀ s ∈ full, Unlocked s) (hlock' : ∀ s ∈ full', Unlocked s) (config config' : MeshConfig) (hp : ProperGrid b W H)
    (hcr : b.longMin < b.longMax) (hh : b.latMin < b.latMax) (hcol : b.longMin = -180 ∧ b.longMax = 180 → W ≤ 180)
    (hacc : MeshBuilder.validateBounds b W H = .ok ()) (depth : ℕ) :
    ∃ m0 m0', MeshBuilder.init b W H (fun q => trimSources q full) depth = .ok m0 ∧
      MeshBuilder.init b W H (fun q => trimSources q full') depth = .ok m0' ∧ ∃ N em em',
      (∀ fuel, N ≤ fuel → MeshBuilder.buildEnvironmentalMesh (sourceOps AnyData AnyCond) aggregate fuel config m0 = .ok em ∧
        MeshBuilder.buildEnvironmentalMesh (sourceOps AnyData AnyCond) aggregate fuel config' m0' = .ok em') ∧
      (∀ c' ∈ em'.cells, ∃ c ∈ em.cells, Within c'.bounds c.bounds) ∧
      ∀ c ∈ em.cells, ∀ c' ∈ em'.cells, c'.bounds = c.bounds → ∀ n, c'.data.get? n = c.data.get? n := by
  obtain ⟨zs, rfl, rfl, hz⟩ := looser_pairs hfull
  obtain ⟨m0, h0, N, em, value, hb, hB⟩ := plain_refined hf hid hlock config hp hcr hh hcol hacc depth
  obtain ⟨m0', h0', N', em', value', hb', hB'⟩ := plain_refined hf' (looser_ids hz hid) hlock' config' hp hcr hh hcol hacc depth
  have hS := inner_system hp hcr hacc
  refine ⟨m0, m0', h0, h0', max N N', em, em', fun fuel hfuel => ⟨hb fuel (by omega), hb' fuel (by omega)⟩,
    finer_cells hB hB' hS.first (fun p q h1 h2 => hS.within p q h1 h2) ?_, looser_data hB hB' hz (fun q t t' => lineage_unique hp.wpos hp.hpos)⟩
  rintro q hq ⟨s, hs, hu⟩
  obtain ⟨z, hzm, rfl⟩ := List.mem_map.1 hs
  exact ⟨z.2, List.mem_map_of_mem hzm, looser_uneven (hf _ hs) (hlock _ hs) hq (hz z hzm) hu⟩

/-- **C120**, gridded data, where the region may cross the antimeridian. -/
theorem C120_around {b : Boundary} {W H : ℚ} {full full' : List (Source AnyData AnyCond)} (hfull : List.Forall₂ Looser full full')
    (hf : ∀ s ∈ full, AroundAny b s) (hf' : ∀ s ∈ full', AroundAny b s) (hid : (full.map (fun s => s.loader.id)).Nodup)
    (hlock : ∀ s ∈ full, Unlocked s) (hlock' : ∀ s ∈ full', Unlocked s) (config config' : MeshConfig) (hp : ProperGrid b W H)
    (hh : b.latMin < b.latMax) (hcol : b.width = 360 → W ≤ 180)
    (hacc : MeshBuilder.validateBounds b W H = .ok ()) (depth : ℕ) :
    ∃ m0 m0', MeshBuilder.init b W H (fun q => trimSources q full) depth = .ok m0 ∧
      MeshBuilder.init b W H (fun q => trimSources q full') depth = .ok m0' ∧ ∃ N em em',
      (∀ fuel, N ≤ fuel → MeshBuilder.buildEnvironmentalMesh (sourceOps AnyData AnyCond) aggregate fuel config m0 = .ok em ∧
        MeshBuilder.buildEnvironmentalMesh (sourceOps AnyData AnyCond) aggregate fuel config' m0' = .ok em') ∧
      (∀ c' ∈ em'.cells, ∃ c ∈ em.cells, Within c'.bounds c.bounds) ∧
      ∀ c ∈ em.cells, ∀ c' ∈ em'.cells, c'.bounds = c.bounds → ∀ n, c'.data.get? n = c.data.get? n := by
  obtain ⟨zs, rfl, rfl, hz⟩ := looser_pairs hfull
  obtain ⟨m0, h0, N, em, value, hb, hB⟩ := around_refined hf hid hlock config hp hh hcol hacc depth
  obtain ⟨m0', h0', N', em', value', hb', hB'⟩ := around_refined hf' (looser_ids hz hid) hlock' config' hp hh hcol hacc depth
  have hS := around_system hp hcol hacc
  refine ⟨m0, m0', h0, h0', max N N', em, em', fun fuel hfuel => ⟨hb fuel (by omega), hb' fuel (by omega)⟩,
    finer_cells hB hB' hS.first (fun p q h1 h2 => hS.within p q h1 h2) ?_, looser_data hB hB' hz
      (fun q t t' => around_unique (unwraps_of hp) hp.wpos hp.hpos (cell_small hp hcol hacc))⟩
  rintro q hq ⟨s, hs, hu⟩
  obtain ⟨z, hzm, rfl⟩ := List.mem_map.1 hs
  exact ⟨z.2, List.mem_map_of_mem hzm, looser_around (hf _ hs) (hlock _ hs) hq (hz z hzm) hu⟩

/-! ## Other lists of sources over the antimeridian -/

/-- Sources with the name `n` in the same order give the same values, whatever else there is. -/
theorem others_data {In start : Boundary → Prop} {parts : Boundary → List Boundary} {depth : ℕ} {full full' : List (Source S C)}
    {value value' : Source S C → Boundary → String → Option ℚ} {wants wants' : Boundary → Prop} {cells cells' : List AggCell}
    (h : RefinedFrom In start parts depth full value wants cells) (h' : RefinedFrom In start parts depth full' value' wants' cells')
    (huniq : ∀ q t t', LineageBy parts start (q :: t) → LineageBy parts start (q :: t') → t = t') {c c' : AggCell} (hc : c ∈ cells) (hc' : c' ∈ cells')
    (e : c'.bounds = c.bounds) {n : String} (hn : full.filter (fun s => decide (n ∈ splitName s.loader.dataName)) =
      full'.filter (fun s => decide (n ∈ splitName s.loader.dataName))) : c'.data.get? n = c.data.get? n := by
  obtain ⟨t, i1, i2, w, h2, h3⟩ := h.data c hc
  obtain ⟨t', i1', i2', w', h2', h3'⟩ := h'.data c' hc'
  rw [e] at i1' i2' h2'
  obtain rfl := huniq _ _ _ i2 i2'
  have hmem : ∀ s, (s ∈ full ∧ n ∈ splitName s.loader.dataName) ↔ (s ∈ full' ∧ n ∈ splitName s.loader.dataName) := by
    intro s
    have : s ∈ full.filter (fun s => decide (n ∈ splitName s.loader.dataName)) ↔ s ∈ full'.filter (fun s => decide (n ∈ splitName s.loader.dataName)) := by
      rw [hn]
    simpa [List.mem_filter] using this
  by_cases hx : ∃ s ∈ full, n ∈ splitName s.loader.dataName
  · obtain ⟨s, hs, hsn⟩ := hx
    obtain ⟨v, k1, k2⟩ := (h3 n).2 ⟨s, hs, hsn⟩
    obtain ⟨v', k1', k2'⟩ := (h3' n).2 ⟨s, ((hmem s).1 ⟨hs, hsn⟩).1, hsn⟩
    rw [k1, k1']
    rw [hn] at k2
    have : v' = v := by
      refine Merged.unique (fun _ _ => Iff.rfl) ?_ k2' k2
      intro s ht
      rw [List.mem_filter, decide_eq_true_iff] at ht
      have hs := ((hmem s).2 ht).1
      refine (filled_related ?_ (h2 s hs n ht.2) (h2' s ht.1 n ht.2)).symm
      rw [List.forall₂_same]
      intro p hp
      exact valued_unique (h.valued s hs) (h'.valued s ht.1) (i1 p hp) ht.2
    rw [this]
  · have hx' : ¬ ∃ s ∈ full', n ∈ splitName s.loader.dataName := by
      rintro ⟨s, hs⟩
      exact hx ⟨s, (hmem s).2 hs⟩
    push Not at hx hx'
    rw [(h3 n).1 hx, (h3' n).1 hx']

/-- **C121**, the order: over the antimeridian, the order of gridded sources without locks makes no difference to the cells, and none to the values under
names that only one source has. -/
theorem C121_order {b : Boundary} {W H : ℚ} {full full' : List (Source AnyData AnyCond)} (hperm : full.Perm full') (hf : ∀ s ∈ full, AroundAny b s)
    (hid : (full.map (fun s => s.loader.id)).Nodup) (hlock : ∀ s ∈ full, Unlocked s) (config config' : MeshConfig) (hp : ProperGrid b W H)
    (hh : b.latMin < b.latMax) (hcol : b.width = 360 → W ≤ 180)
    (hacc : MeshBuilder.validateBounds b W H = .ok ()) (depth : ℕ) :
    ∃ m0 m0', MeshBuilder.init b W H (fun q => trimSources q full) depth = .ok m0 ∧
      MeshBuilder.init b W H (fun q => trimSources q full') depth = .ok m0' ∧ ∃ N em em',
      (∀ fuel, N ≤ fuel → MeshBuilder.buildEnvironmentalMesh (sourceOps AnyData AnyCond) aggregate fuel config m0 = .ok em ∧
        MeshBuilder.buildEnvironmentalMesh (sourceOps AnyData AnyCond) aggregate fuel config' m0' = .ok em') ∧
      (∀ q, (∃ c ∈ em'.cells, c.bounds = q) ↔ ∃ c ∈ em.cells, c.bounds = q) ∧
      ∀ c ∈ em.cells, ∀ c' ∈ em'.cells, c'.bounds = c.bounds → ∀ n,
        (∀ s ∈ full, ∀ t ∈ full, n ∈ splitName s.loader.dataName → n ∈ splitName t.loader.dataName → s.loader.id = t.loader.id) →
        c'.data.get? n = c.data.get? n := by
  have hm : ∀ s, s ∈ full' ↔ s ∈ full := fun s => hperm.symm.mem_iff
  obtain ⟨m0, h0, N, em, value, hb, hB⟩ := around_refined hf hid hlock config hp hh hcol hacc depth
  obtain ⟨m0', h0', N', em', value', hb', hB'⟩ := around_refined (full := full') (fun s hs => hf s ((hm s).1 hs)) ((hperm.map _).nodup_iff.1 hid)
    (fun s hs => hlock s ((hm s).1 hs)) config' hp hh hcol hacc depth
  refine ⟨m0, m0', h0, h0', max N N', em, em', fun fuel hfuel => ⟨hb fuel (by omega), hb' fuel (by omega)⟩, ?_, ?_⟩
  · intro q
    rw [hB.boxes, hB'.boxes]
    simp only [hm]
  · intro c hcm c' hcm' e n hn
    refine others_data hB hB' (fun q t t' => around_unique (unwraps_of hp) hp.wpos hp.hpos (cell_small hp hcol hacc)) hcm hcm' e ?_
    have hp2 := hperm.filter (fun s => decide (n ∈ splitName s.loader.dataName))
    have hnd : full.Nodup := List.Nodup.of_map _ hid
    generalize hg : full.filter (fun s => decide (n ∈ splitName s.loader.dataName)) = l at hp2
    have hl : l.Nodup := by rw [← hg]; exact hnd.filter _
    have hall : ∀ s ∈ l, ∀ t ∈ l, s = t := by
      intro s hs t ht
      rw [← hg, List.mem_filter, decide_eq_true_iff] at hs ht
      exact List.inj_on_of_nodup_map hid hs.1 ht.1 (hn s hs.1 t ht.1 hs.2 ht.2)
    cases l with
    | nil => exact (List.nil_perm.1 hp2).symm
    | cons x l =>
      cases l with
      | nil => exact (List.singleton_perm.1 hp2)
      | cons y l =>
        have := hall x (by simp) y (by simp)
        rw [this] at hl
        simp at hl

/-- **C121**, more sources: over the antimeridian, adding gridded sources without locks only refines the cells.  Every cell with them lies in one
without them, and common cells have the same values under the names that the additional ones do not have. -/
theorem C121_more {b : Boundary} {W H : ℚ} {full extra : List (Source AnyData AnyCond)} (hf : ∀ s ∈ full ++ extra, AroundAny b s)
    (hid : ((full ++ extra).map (fun s => s.loader.id)).Nodup) (hlock : ∀ s ∈ full ++ extra, Unlocked s) (config config' : MeshConfig)
    (hp : ProperGrid b W H) (hh : b.latMin < b.latMax) (hcol : b.width = 360 → W ≤ 180)
    (hacc : MeshBuilder.validateBounds b W H = .ok ()) (depth : ℕ) :
    ∃ m0 m0', MeshBuilder.init b W H (fun q => trimSources q full) depth = .ok m0 ∧
      MeshBuilder.init b W H (fun q => trimSources q (full ++ extra)) depth = .ok m0' ∧ ∃ N em em',
      (∀ fuel, N ≤ fuel → MeshBuilder.buildEnvironmentalMesh (sourceOps AnyData AnyCond) aggregate fuel config m0 = .ok em ∧
        MeshBuilder.buildEnvironmentalMesh (sourceOps AnyData AnyCond) aggregate fuel config' m0' = .ok em') ∧
      (∀ c' ∈ em'.cells, ∃ c ∈ em.cells, Within c'.bounds c.bounds) ∧
      ∀ c ∈ em.cells, ∀ c' ∈ em'.cells, c'.bounds = c.bounds → ∀ n, (∀ s ∈ extra, n ∉ splitName s.loader.dataName) →
        c'.data.get? n = c.data.get? n := by
  have hm : ∀ s, s ∈ full → s ∈ full ++ extra := fun s hs => List.mem_append_left _ hs
  obtain ⟨m0, h0, N, em, value, hb, hB⟩ := around_refined (full := full) (fun s hs => hf s (hm s hs))
    (by rw [List.map_append] at hid; exact hid.of_append_left) (fun s hs => hlock s (hm s hs)) config hp hh hcol hacc depth
  obtain ⟨m0', h0', N', em', value', hb', hB'⟩ := around_refined hf hid hlock config' hp hh hcol hacc depth
  have hS := around_system hp hcol hacc
  refine ⟨m0, m0', h0, h0', max N N', em, em', fun fuel hfuel => ⟨hb fuel (by omega), hb' fuel (by omega)⟩,
    finer_cells hB hB' hS.first (fun p q h1 h2 => hS.within p q h1 h2) (fun q _ ⟨s, hs, hu⟩ => ⟨s, hm s hs, hu⟩), ?_⟩
  intro c hcm c' hcm' e n hn
  refine others_data hB hB' (fun q t t' => around_unique (unwraps_of hp) hp.wpos hp.hpos (cell_small hp hcol hacc)) hcm hcm' e ?_
  rw [List.filter_append]
  have : extra.filter (fun s => decide (n ∈ splitName s.loader.dataName)) = [] := by
    rw [List.filter_eq_nil_iff]
    intro s hs
    simpa using hn s hs
  rw [this, List.append_nil]

/-! ## Examples -/

/-- The sources of C110 with stricter conditions: more datapoints required, shares further from 0 and 1, and the look-up table never splits. -/
noncomputable def exStrict : List (Source AnyData AnyCond) :=
  [.ofLut ⟨lutLoader (fun _ _ => 1) 0 "u" .mean, [], .const (.num (some 0)), ⟨false, [⟨none, rectGeom 2 4 (-59) (-57), some 8⟩]⟩⟩,
   .ofScalar ⟨scalarLoader 1 "a" .mean 3, [⟨3, 1 / 4, 1, false⟩], .parent, .table ⟨false, [⟨-59, 1, 0, some 5⟩, ⟨-58, 1, 0, some 1⟩]⟩⟩,
   .ofVector (vectorSource 2 "u,v" .mean 2 [{ dmag := some ⟨1, 1 / 4, 3 / 4, false⟩ }] .parent
    (.table ⟨false, [⟨-52, 12, 0, (some 1, some 2)⟩, ⟨-51, 13, 0, (some 4, none)⟩]⟩))]

/-- The hypotheses of C120 hold: from the stricter conditions to those of C110. -/
example : ∃ m0 m0', MeshBuilder.init exRegion 10 5 (fun q => trimSources q exStrict) 1 = .ok m0 ∧
    MeshBuilder.init exRegion 10 5 (fun q => trimSources q exMixed) 1 = .ok m0' ∧ ∃ N em em',
    (∀ fuel, N ≤ fuel → MeshBuilder.buildEnvironmentalMesh (sourceOps AnyData AnyCond) aggregate fuel exConfig m0 = .ok em ∧
      MeshBuilder.buildEnvironmentalMesh (sourceOps AnyData AnyCond) aggregate fuel exConfig m0' = .ok em') ∧
    (∀ c' ∈ em'.cells, ∃ c ∈ em.cells, Within c'.bounds c.bounds) ∧
    ∀ c ∈ em.cells, ∀ c' ∈ em'.cells, c'.bounds = c.bounds → ∀ n, c'.data.get? n = c.data.get? n := by
  refine C120_looser ?_ ?_ exMixed_plain.1 (by decide) ?_ exMixed_plain.2.2 exConfig exConfig exRegion_proper
    (by norm_num [exRegion]) (by norm_num [exRegion]) (by norm_num [exRegion]) (by decide +kernel) 1
  · refine .cons (.lut rfl rfl rfl (by simp)) (.cons (.scalar rfl rfl (by decide) rfl rfl ?_) (.cons (.vector rfl rfl (by decide) rfl rfl ?_) .nil))
    · intro c hc
      rw [List.mem_singleton] at hc
      subst hc
      exact ⟨_, List.mem_singleton.2 rfl, rfl, by norm_num, le_rfl⟩
    · intro c hc
      simp only [vectorSource, List.mem_singleton, VectorHom.Conds.mk.injEq, Option.some.injEq, true_and] at hc
      subst hc
      exact ⟨_, List.mem_singleton.2 rfl, rfl, by norm_num, by norm_num⟩
  · intro s hs
    simp only [exStrict, List.mem_cons, List.not_mem_nil, or_false] at hs
    rcases hs with rfl | rfl | rfl
    · refine .lut ⟨⟨_, _, _, _, rfl, by decide, fun _ => ⟨?_, fun _ _ _ => one_ne_zero⟩⟩, Or.inr ⟨_, rfl⟩, ?_, by simp, by simp⟩
      · intro r hr; rw [List.mem_singleton] at hr; subst hr; simp
      · intro r hr x y h; rw [List.mem_singleton] at hr; subst hr; exact h.1
    · exact .scalar ⟨⟨_, _, _, _, rfl, by decide, by simp⟩, Or.inl rfl, trivial, _, rfl⟩
    · refine .vector ⟨⟨_, _, _, _, "u", "v", rfl, by decide +kernel, by decide, by simp, by decide⟩, rfl, trivial, ⟨_, rfl⟩, ?_⟩
      intro c hc
      simp only [vectorSource, List.mem_singleton] at hc
      subst hc
      simp [vectorSource]
  · intro s hs
    simp only [exStrict, List.mem_cons, List.not_mem_nil, or_false] at hs
    rcases hs with rfl | rfl | rfl
    · exact .lut (by simp)
    · exact .scalar (by intro c hc; rw [List.mem_singleton] at hc; subst hc; rfl)
    · exact .vector (by intro c hc; simp only [vectorSource, List.mem_singleton] at hc; subst hc; exact ⟨_, rfl, rfl⟩)

/-- The sources of C113, where five datapoints are needed for a decision. -/
def exAroundStrict : List (Source AnyData AnyCond) :=
  [.ofScalar ⟨scalarLoader 0 "a" .mean 5, [⟨0, 0, 3 / 4, false⟩], .parent, .grid exGrid⟩,
   .ofVector (vectorSource 1 "u,v" .mean 1 [] .parent (.grid ⟨[5, 10], [-175, 180], none, fun y x _ => (some y, some x)⟩))]

/-- The hypotheses of C120 hold over the antimeridian: from them to those of C113. -/
example : ∃ m0 m0', MeshBuilder.init exAroundRegion 10 10 (fun q => trimSources q exAroundStrict) 1 = .ok m0 ∧
    MeshBuilder.init exAroundRegion 10 10 (fun q => trimSources q exAround) 1 = .ok m0' ∧ ∃ N em em',
    (∀ fuel, N ≤ fuel → MeshBuilder.buildEnvironmentalMesh (sourceOps AnyData AnyCond) aggregate fuel exConfig m0 = .ok em ∧
      MeshBuilder.buildEnvironmentalMesh (sourceOps AnyData AnyCond) aggregate fuel exConfig m0' = .ok em') ∧
    (∀ c' ∈ em'.cells, ∃ c ∈ em.cells, Within c'.bounds c.bounds) ∧
    ∀ c ∈ em.cells, ∀ c' ∈ em'.cells, c'.bounds = c.bounds → ∀ n, c'.data.get? n = c.data.get? n := by
  have hw : exAroundRegion.width ≠ 360 := by decide +kernel
  refine C120_around ?_ ?_ exAround_all.1 (by decide) ?_ exAround_all.2.2 exConfig exConfig exAroundRegion_proper
    (by norm_num [exAroundRegion]) (fun h => absurd h hw) (by decide +kernel) 1
  · refine .cons (.scalar rfl rfl (by decide) rfl rfl ?_) (.cons (.vector rfl rfl le_rfl rfl rfl ?_) .nil)
    · intro c hc
      rw [List.mem_singleton] at hc
      subst hc
      exact ⟨_, List.mem_singleton.2 rfl, rfl, le_rfl, by norm_num⟩
    · intro c hc
      simp [vectorSource] at hc
  · intro s hs
    simp only [exAroundStrict, List.mem_cons, List.not_mem_nil, or_false] at hs
    rcases hs with rfl | rfl
    · exact .scalar rfl (by decide) (by simp) (Or.inl rfl) ⟨⟨_, rfl, exGrid_longs⟩, exGrid_sorted, _,
        trim_eq exGrid_sorted (by intro h; cases h)⟩
    · exact exAround_all.1 _ (by simp [exAround])
  · intro s hs
    simp only [exAroundStrict, List.mem_cons, List.not_mem_nil, or_false] at hs
    rcases hs with rfl | rfl
    · exact .scalar (by intro c hc; rw [List.mem_singleton] at hc; subst hc; rfl)
    · exact .vector (by intro c hc; simp [vectorSource] at hc)

/-- The hypotheses of C121 hold: the sources of C113 in reverse, where only one has the name `a`. -/
example : ∃ m0 m0', MeshBuilder.init exAroundRegion 10 10 (fun q => trimSources q exAround) 1 = .ok m0 ∧
    MeshBuilder.init exAroundRegion 10 10 (fun q => trimSources q exAround.reverse) 1 = .ok m0' ∧ ∃ N em em',
    (∀ fuel, N ≤ fuel → MeshBuilder.buildEnvironmentalMesh (sourceOps AnyData AnyCond) aggregate fuel exConfig m0 = .ok em ∧
      MeshBuilder.buildEnvironmentalMesh (sourceOps AnyData AnyCond) aggregate fuel exConfig m0' = .ok em') ∧
    (∀ q, (∃ c ∈ em'.cells, c.bounds = q) ↔ ∃ c ∈ em.cells, c.bounds = q) ∧
    ∀ c ∈ em.cells, ∀ c' ∈ em'.cells, c'.bounds = c.bounds → c'.data.get? "a" = c.data.get? "a" := by
  have hw : exAroundRegion.width ≠ 360 := by decide +kernel
  obtain ⟨m0, m0', h0, h0', N, em, em', hb, h1, h2⟩ := C121_order (List.reverse_perm exAround).symm exAround_all.1 exAround_all.2.1
    exAround_all.2.2 exConfig exConfig exAroundRegion_proper
    (by norm_num [exAroundRegion]) (fun h => absurd h hw) (by decide +kernel) 1
  refine ⟨m0, m0', h0, h0', N, em, em', hb, h1, fun c hc c' hc' e => h2 c hc c' hc' e "a" ?_⟩
  have hk : splitName "u,v" = ["u", "v"] := by decide +kernel
  have : ∀ s ∈ exAround, "a" ∈ splitName s.loader.dataName → s.loader.id = 0 := by
    intro s hs h
    simp only [exAround, List.mem_cons, List.not_mem_nil, or_false] at hs
    rcases hs with rfl | rfl
    · rfl
    · exact absurd (show "a" ∈ splitName "u,v" from h) (by rw [hk]; decide)
  intro s hs t ht h h'
  rw [this s hs h, this t ht h']

/-- The hypotheses of C121 hold: the scalar source of C113 with the vector one added, which leaves `a` as it is. -/
example : ∃ m0 m0', MeshBuilder.init exAroundRegion 10 10 (fun q => trimSources q (exAround.take 1)) 1 = .ok m0 ∧
    MeshBuilder.init exAroundRegion 10 10 (fun q => trimSources q (exAround.take 1 ++ exAround.drop 1)) 1 = .ok m0' ∧ ∃ N em em',
    (∀ fuel, N ≤ fuel → MeshBuilder.buildEnvironmentalMesh (sourceOps AnyData AnyCond) aggregate fuel exConfig m0 = .ok em ∧
      MeshBuilder.buildEnvironmentalMesh (sourceOps AnyData AnyCond) aggregate fuel exConfig m0' = .ok em') ∧
    (∀ c' ∈ em'.cells, ∃ c ∈ em.cells, Within c'.bounds c.bounds) ∧
    ∀ c ∈ em.cells, ∀ c' ∈ em'.cells, c'.bounds = c.bounds → c'.data.get? "a" = c.data.get? "a" := by
  have hw : exAroundRegion.width ≠ 360 := by decide +kernel
  have e : exAround.take 1 ++ exAround.drop 1 = exAround := List.take_append_drop 1 exAround
  obtain ⟨m0, m0', h0, h0', N, em, em', hb, h1, h2⟩ := C121_more (full := exAround.take 1) (extra := exAround.drop 1) (by rw [e]; exact exAround_all.1)
    (by rw [e]; exact exAround_all.2.1) (by rw [e]; exact exAround_all.2.2) exConfig exConfig exAroundRegion_proper
    (by norm_num [exAroundRegion]) (fun h => absurd h hw) (by decide +kernel) 1
  refine ⟨m0, m0', h0, h0', N, em, em', hb, h1, fun c hc c' hc' e => h2 c hc c' hc' e "a" ?_⟩
  intro s hs
  have hs : s ∈ [_] := hs
  rw [List.mem_singleton] at hs
  subst hs
  have hk : splitName "u,v" = ["u", "v"] := by decide +kernel
  show "a" ∉ splitName "u,v"
  rw [hk]; decide

end Verif
