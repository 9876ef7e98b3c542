import Verif.Model.RoundedVector
import Verif.Props.RoundedData
import Verif.Props.Drift

/-!
# C127 for scalar and vector sources together

The components of mean vectors are calculated with rounding too; those of conditions are not, so that vector sources have none here.
-/

namespace Verif
open Spec

/-! ## Specification -/

/-- The data has at most `N` datapoints, each component of at most the size `M`. -/
def Spec.SmallVectors (N : ℕ) (M : ℚ) (d : Dataset Vec) : Prop :=
  d.rows.length ≤ N ∧ ∀ p ∈ d.rows, (∀ x, p.val.1 = some x → |x| ≤ M) ∧ ∀ y, p.val.2 = some y → |y| ≤ M

/-- The same vector source without conditions, of which the mean or the number is taken, calculated exactly and with rounding. -/
structure Spec.RoundedVector (r : ℚ → ℚ) (sum : List ℚ → ℚ) (s s' : Source (Dataset Vec) VectorHom.Conds) : Prop where
  loader : ∃ id name agg hom hom' x y, s.loader = vectorLoader id name agg hom ∧ s'.loader = Fl.vectorLoader r sum id name agg hom' ∧
    splitName name = [x, y] ∧ x ≠ y ∧ agg ∈ [AggType.mean, .count]
  conds : s.conds = []
  conds' : s'.conds = []
  fill : s'.fill = s.fill
  subset : s'.subset = s.subset

/-- The same scalar or vector source with at most `N` datapoints of at most the size `M` and bounds that are fractions of `D`, calculated
exactly and with rounding. -/
inductive Spec.RoundedAny (r : ℚ → ℚ) (sum : List ℚ → ℚ) (N D : ℕ) (M : ℚ) : Source AnyData AnyCond → Source AnyData AnyCond → Prop
  | scalar {s s' : Source (Dataset (Option ℚ)) Cond} : RoundedSource r sum s s' → SmallData N M s.subset → Fractions D s.conds →
      RoundedAny r sum N D M (.ofScalar s) (.ofScalar s')
  | vector {s s' : Source (Dataset Vec) VectorHom.Conds} : RoundedVector r sum s s' → SmallVectors N M s.subset →
      RoundedAny r sum N D M (.ofVector s) (.ofVector s')

/-! ## Vector sources -/

section Vectors
variable {r : ℚ → ℚ} {u : ℚ} {sum : List ℚ → ℚ}

/-- The error of a vector. -/
theorem vectorValue_error (h : Precise r u) (hs : Sums r sum) {agg : AggType} (hagg : agg ∈ [AggType.mean, .count]) {M : ℚ} (hM : 0 ≤ M)
    {N : ℕ} {d : Dataset Vec} (hd : SmallVectors N M d) :
    ∃ v v', vectorValue agg d = .ok v ∧ Fl.vectorValue r sum agg d = .ok v' ∧ Near (((1 + u) ^ N - 1) * M) v.1 v'.1 ∧
      Near (((1 + u) ^ N - 1) * M) v.2 v'.2 := by
  have hu := h.nonneg
  have hB : 0 ≤ ((1 + u) ^ N - 1) * M := mul_nonneg (by linarith [one_le_pow_u hu N]) hM
  have refl := (near_matches hB).refl
  have hx : Near (((1 + u) ^ N - 1) * M) (listMean (xsOf (d.rows.map Row.val))) (Fl.listMean r sum (xsOf (d.rows.map Row.val))) := by
    refine mean_error h hs (fun x hx => ?_) ((List.length_filterMap_le _ _).trans (by rw [List.length_map]; exact hd.1))
    obtain ⟨v, hv, e⟩ := List.mem_filterMap.1 hx
    obtain ⟨p, hp, rfl⟩ := List.mem_map.1 hv
    exact (hd.2 p hp).1 x e
  have hy : Near (((1 + u) ^ N - 1) * M) (listMean (ysOf (d.rows.map Row.val))) (Fl.listMean r sum (ysOf (d.rows.map Row.val))) := by
    refine mean_error h hs (fun x hx => ?_) ((List.length_filterMap_le _ _).trans (by rw [List.length_map]; exact hd.1))
    obtain ⟨v, hv, e⟩ := List.mem_filterMap.1 hx
    obtain ⟨p, hp, rfl⟩ := List.mem_map.1 hv
    exact (hd.2 p hp).2 x e
  simp only [List.mem_cons, List.not_mem_nil, or_false] at hagg
  cases d with
  | table t =>
    simp only [vectorValue, Fl.vectorValue, vectorValueDf, Fl.vectorValueDf]
    split_ifs
    · exact ⟨_, _, rfl, rfl, refl _, refl _⟩
    · rcases hagg with rfl | rfl
      · exact ⟨_, _, rfl, rfl, hx, hy⟩
      · exact ⟨_, _, rfl, rfl, refl _, refl _⟩
  | grid g =>
    simp only [vectorValue, Fl.vectorValue, vectorValueXr, Fl.vectorValueXr]
    split_ifs
    · exact ⟨_, _, rfl, rfl, refl _, refl _⟩
    · exact ⟨_, _, rfl, rfl, refl _, refl _⟩
    · rcases hagg with rfl | rfl
      · exact ⟨_, _, rfl, rfl, hx, hy⟩
      · exact ⟨_, _, rfl, rfl, refl _, refl _⟩

/-- What is needed of the boxes: the data of the source can be cut to each of them. -/
def VectorCuts (In : Boundary → Prop) (d : Dataset Vec) : Prop := ∀ q, In q → ∃ d', d.trim q = .ok d' ∧ d'.rows.Sublist d.rows

theorem rounded_vector_get {In : Boundary → Prop} {s s' : Source (Dataset Vec) VectorHom.Conds} (hr : RoundedVector r sum s s') (h : Precise r u)
    (hs : Sums r sum) {N : ℕ} {M : ℚ} (hM : 0 ≤ M) (hd : SmallVectors N M s.subset) (hc : VectorCuts In s.subset) {x y : String}
    (hn : splitName s.loader.dataName = [x, y]) {q : Boundary} (hq : In q) :
    ∃ v v' : Vec, s.loader.getValue q (s.loader.trim q s.subset) = .ok [(x, .num v.1), (y, .num v.2)] ∧
      s'.loader.getValue q (s'.loader.trim q s'.subset) = .ok [(x, .num v'.1), (y, .num v'.2)] ∧
      Near (((1 + u) ^ N - 1) * M) v.1 v'.1 ∧ Near (((1 + u) ^ N - 1) * M) v.2 v'.2 := by
  obtain ⟨id, name, agg, hom, hom', x', y', e, e', hn', hxy, hagg⟩ := hr.loader
  obtain ⟨d', h1, h2⟩ := hc q hq
  obtain ⟨v, v', k1, k2, k3, k4⟩ := vectorValue_error h hs hagg hM (d := d') (N := N)
    ⟨h2.length_le.trans hd.1, fun p hp => hd.2 p (h2.subset hp)⟩
  have hname : s.loader.dataName = name := by rw [e]; rfl
  rw [hname, hn'] at hn
  cases hn
  refine ⟨v, v', ?_, ?_, k3, k4⟩
  · rw [e, vectorLoader_trims id name agg hom q _ _ h1]
    show (vectorValue agg d' >>= fun v => _) = _
    rw [k1]
    simp only [bind, Except.bind, hn']
    rfl
  · have ht : s'.loader.trim q s'.subset = d' := by
      rw [e', hr.subset]
      show (match s.subset.trim q with | .ok d' => d' | .error _ => s.subset) = _
      rw [h1]
    rw [ht, e']
    show (Fl.vectorValue r sum agg d' >>= fun v => _) = _
    rw [k2]
    simp only [bind, Except.bind, hn']
    rfl

theorem rounded_vector_valued {In : Boundary → Prop} {s s' : Source (Dataset Vec) VectorHom.Conds} (hr : RoundedVector r sum s s') (h : Precise r u)
    (hs : Sums r sum) {N : ℕ} {M : ℚ} (hM : 0 ≤ M) (hd : SmallVectors N M s.subset) (hc : VectorCuts In s.subset) (hfill : s.fill = .parent) :
    ∃ value, ValuedOn In s' value := by
  obtain ⟨id, name, agg, hom, hom', x, y, e, e', hn, hxy, hagg⟩ := hr.loader
  have hname : s'.loader.dataName = name := by rw [e']; rfl
  have hname0 : splitName s.loader.dataName = [x, y] := by rw [e]; exact hn
  have key : ∀ q, ∃ v : Vec, In q → s'.loader.getValue q (s'.loader.trim q s'.subset) = .ok [(x, .num v.1), (y, .num v.2)] := by
    intro q
    by_cases hq : In q
    · obtain ⟨-, v', -, k, -⟩ := rounded_vector_get hr h hs hM hd hc hname0 hq
      exact ⟨v', fun _ => k⟩
    · exact ⟨(none, none), fun h => absurd h hq⟩
  choose v hv using key
  refine ⟨fun q n => if n = x then (v q).1 else (v q).2, ⟨?_, ?_, ?_, Or.inl (by rw [hr.fill, hfill])⟩⟩
  · rw [hname, hn]; simp [hxy]
  · intro q d D hD
    rw [e'] at hD
    change (Fl.vectorValue r sum agg d >>= fun v => _) = _ at hD
    cases hx : Fl.vectorValue r sum agg d with
    | error _ => rw [hx] at hD; cases hD
    | ok z =>
      rw [hx] at hD
      simp only [bind, Except.bind, hn] at hD
      cases hD
      simp [hxy]
  · intro q hq
    refine ⟨_, hv q hq, ?_, ?_⟩
    · rw [hname, hn]
      intro n hm
      simp only [List.mem_cons, List.not_mem_nil, or_false] at hm
      rcases hm with rfl | rfl
      · simp [Dict.get?]
      · simp [Dict.get?, hxy, Ne.symm hxy]
    · rw [hname, hn]
      intro n hm
      simp only [List.mem_cons, List.not_mem_nil, or_false, not_or] at hm
      simp [Dict.get?, Ne.symm hm.1, Ne.symm hm.2]

theorem rounded_vector_faithful {In : Boundary → Prop} {s s' : Source (Dataset Vec) VectorHom.Conds} (hr : RoundedVector r sum s s')
    {verdict : Boundary → VectorHom.Conds → Verdict} (hf : FaithfulOn In s verdict) : FaithfulOn In s' (ownVerdict s') := by
  obtain ⟨id, name, agg, hom, hom', x, y, e, e', -⟩ := hr.loader
  have ht : s'.loader.trim = s.loader.trim := by rw [e, e']; rfl
  constructor
  · rw [ht, hr.subset]; exact hf.trims
  · intro q hq c hc
    rw [hr.conds'] at hc
    cases hc

theorem rounded_vector_near {In : Boundary → Prop} {s s' : Source (Dataset Vec) VectorHom.Conds} (hr : RoundedVector r sum s s') (h : Precise r u)
    (hs : Sums r sum) {N : ℕ} {M : ℚ} (hM : 0 ≤ M) (hd : SmallVectors N M s.subset) (hc : VectorCuts In s.subset) {q : Boundary} (hq : In q) :
    NearAt (Near (((1 + u) ^ N - 1) * M)) q s s' := by
  obtain ⟨id, name, agg, hom, hom', x, y, e, e', hn, hxy, hagg⟩ := hr.loader
  have hname0 : splitName s.loader.dataName = [x, y] := by rw [e]; exact hn
  refine ⟨by rw [e, e']; rfl, by rw [e, e']; rfl, hr.fill, by simp [hr.conds, hr.conds'], by simp [hr.conds, hr.conds'], ?_⟩
  intro D1 D2 g1 g2 n hm
  obtain ⟨v, v', k1, k2, k3, k4⟩ := rounded_vector_get hr h hs hM hd hc hname0 hq
  rw [k1] at g1
  rw [k2] at g2
  cases g1; cases g2
  rw [hname0] at hm
  simp only [List.mem_cons, List.not_mem_nil, or_false] at hm
  rcases hm with rfl | rfl
  · exact Or.inr ⟨v.1, v'.1, by simp [Dict.get?], by simp [Dict.get?], k3⟩
  · exact Or.inr ⟨v.2, v'.2, by simp [Dict.get?, hxy], by simp [Dict.get?, hxy], k4⟩

end Vectors

/-! ## C127 -/

/-- Two lists of sources that behave alike and give values near to each other build meshes that are near to each other. -/
theorem near_build {S C : Type} {R : Option ℚ → Option ℚ → Prop} (hR : Matches R) {b : Boundary} {W H : ℚ} {In start : Boundary → Prop}
    {parts : Boundary → List Boundary} {zs : List (Source S C × Source S C)} (hS : BoxSystem b W H In start parts) (hin : ∀ q, In q → ProperBox q)
    (huniq : ∀ q t t', LineageBy parts start (q :: t) → LineageBy parts start (q :: t') → t = t')
    (hf : ∀ z ∈ zs, FaithfulOn In z.1 (ownVerdict z.1)) (hv : ∀ z ∈ zs, ∃ value, ValuedOn In z.1 value)
    (hf' : ∀ z ∈ zs, FaithfulOn In z.2 (ownVerdict z.2)) (hv' : ∀ z ∈ zs, ∃ value, ValuedOn In z.2 value)
    (hnear : ∀ q, In q → ∀ z ∈ zs, NearAt R q z.1 z.2) (hids : ∀ z ∈ zs, z.2.loader.id = z.1.loader.id)
    (hid : ((zs.map Prod.fst).map (fun s => s.loader.id)).Nodup) (config : MeshConfig) (hp : ProperGrid b W H) (hh : b.latMin < b.latMax)
    (hcol : b.width = 360 → W ≤ 180) (hacc : MeshBuilder.validateBounds b W H = .ok ()) (depth : ℕ) :
    ∃ m0 m0', MeshBuilder.init b W H (fun q => trimSources q (zs.map Prod.fst)) depth = .ok m0 ∧
      MeshBuilder.init b W H (fun q => trimSources q (zs.map Prod.snd)) depth = .ok m0' ∧ ∃ F em em',
      (∀ fuel, F ≤ fuel → MeshBuilder.buildEnvironmentalMesh (sourceOps S C) aggregate fuel config m0 = .ok em ∧
        MeshBuilder.buildEnvironmentalMesh (sourceOps S C) aggregate fuel config m0' = .ok em') ∧
      (∀ q, (∃ c ∈ em'.cells, c.bounds = q) ↔ ∃ c ∈ em.cells, c.bounds = q) ∧
      ∀ c ∈ em.cells, ∀ c' ∈ em'.cells, c'.bounds = c.bounds → ∀ n, EntryNear R (c.data.get? n) (c'.data.get? n) := by
  have hid' : ((zs.map Prod.snd).map (fun s => s.loader.id)).Nodup := by
    have : (zs.map Prod.snd).map (fun s => s.loader.id) = (zs.map Prod.fst).map (fun s => s.loader.id) := by
      rw [List.map_map, List.map_map]
      exact List.map_congr_left (fun z hz => hids z hz)
    rw [this]; exact hid
  have lift : ∀ {P : Source S C → Prop} {π : Source S C × Source S C → Source S C}, (∀ z ∈ zs, P (π z)) → ∀ s ∈ zs.map π, P s := by
    intro P π h s hs
    obtain ⟨z, hz, rfl⟩ := List.mem_map.1 hs
    exact h z hz
  obtain ⟨m0, h0, F, em, value, hb, hBf⟩ := built_from (full := zs.map Prod.fst) (lift hf) (lift hv) hid config hS hin hp hh hcol hacc depth
  obtain ⟨m0', h0', F', em', value', hb', hBf'⟩ := built_from (full := zs.map Prod.snd) (lift hf') (lift hv') hid' config hS hin hp hh hcol hacc depth
  obtain ⟨k1, k2⟩ := near_cells hR hBf hBf' hS.first (fun p q h1 h2 => (hS.within p q h1 h2).1) huniq hnear
  exact ⟨m0, m0', h0, h0', max F F', em, em', fun fuel hfuel => ⟨hb fuel (by omega), hb' fuel (by omega)⟩, k1, k2⟩

/-- What is needed of a pair of sources. -/
theorem rounded_any {r : ℚ → ℚ} {u : ℚ} (hr : Precise r u) {sum : List ℚ → ℚ} (hs : Sums r sum) {N D : ℕ} (hN : 0 < N) (hD : 0 < D)
    (hsmall : 2 * ((N : ℚ) * D) * u < 1) {M : ℚ} (hM : 0 ≤ M) {In : Boundary → Prop} {s s' : Source AnyData AnyCond}
    (h : RoundedAny r sum N D M s s') (hscalar : ∀ t, s = .ofScalar t → (∃ v, FaithfulOn In t v) ∧ Cuts In t.subset ∧ (t.fill = .parent ∨ ∃ x, t.fill = .const (.num x)))
    (hvector : ∀ t, s = .ofVector t → (∃ v, FaithfulOn In t v) ∧ VectorCuts In t.subset ∧ t.fill = .parent) :
    FaithfulOn In s' (ownVerdict s') ∧ (∃ value, ValuedOn In s' value) ∧ (∀ q, In q → NearAt (Near (((1 + u) ^ N - 1) * M)) q s s') ∧
      s'.loader.id = s.loader.id := by
  cases h with
  | @scalar s s' h1 h2 h3 =>
    obtain ⟨⟨v, k1⟩, k2, k3⟩ := hscalar s rfl
    refine ⟨Faithful.own (wrap_faithful (by intro _; rfl) (by intro _; rfl) (rounded_faithful h1 k1)), ?_, fun q hq => ?_, ?_⟩
    · obtain ⟨w, hw⟩ := rounded_valued h1 hr hs hM h2 k2 k3
      exact ⟨w, wrap_valued (by intro _; rfl) hw⟩
    · exact nearAt_wrap (by intro _; rfl) (by intro _; rfl) (rounded_near h1 hr hs hN hD hsmall hM h2 h3 k2 hq)
    · obtain ⟨id, name, agg, minDp, e, e', -⟩ := h1.loader
      show s'.loader.id = s.loader.id
      rw [e, e']; rfl
  | @vector s s' h1 h2 =>
    obtain ⟨⟨v, k1⟩, k2, k3⟩ := hvector s rfl
    refine ⟨Faithful.own (wrap_faithful (by intro _; rfl) (by intro _; rfl) (rounded_vector_faithful h1 k1)), ?_, fun q hq => ?_, ?_⟩
    · obtain ⟨w, hw⟩ := rounded_vector_valued h1 hr hs hM h2 k2 k3
      exact ⟨w, wrap_valued (by intro _; rfl) hw⟩
    · exact nearAt_wrap (by intro _; rfl) (by intro _; rfl) (rounded_vector_near h1 hr hs hM h2 k2 hq)
    · obtain ⟨id, name, agg, hom, hom', x, y, e, e', -⟩ := h1.loader
      show s'.loader.id = s.loader.id
      rw [e, e']; rfl

theorem plain_vector_cuts {b : Boundary} {s : Source (Dataset Vec) VectorHom.Conds} (h : PlainVector b s) : VectorCuts (Inner b) s.subset := by
  intro q hq
  obtain ⟨d0, h0⟩ := h.time
  obtain ⟨d', e1, e2⟩ := rowsIn_trim h.sorted hq.2.1 hq.2.2.2 h0
  exact ⟨d', e1, by rw [e2]; exact List.filter_sublist⟩

theorem around_vector_cuts {b : Boundary} {d : Dataset Vec} (h : GridAround b d) : VectorCuts (Around b) d := by
  intro q hq
  obtain ⟨d', e1, e2⟩ := h.rows hq
  exact ⟨d', e1, by rw [e2]; exact List.filter_sublist⟩

theorem Spec.AroundAny.scalarFilled {b : Boundary} {s : Source (Dataset (Option ℚ)) Cond} (h : AroundAny b (.ofScalar s)) :
    s.fill = .parent ∨ ∃ x, s.fill = .const (.num x) := by
  generalize hS : Source.ofScalar s = S at h
  cases h with
  | scalar _ _ _ h _ => rw [ofScalar_inj hS]; exact h
  | vector => exact absurd (congrArg Source.subset hS) (by intro h; cases h)

theorem Spec.AroundAny.vectorFaithful {b : Boundary} {s : Source (Dataset Vec) VectorHom.Conds} (h : AroundAny b (.ofVector s)) :
    ∃ v, FaithfulOn (Around b) s v := by
  generalize hS : Source.ofVector s = S at h
  cases h with
  | scalar => exact absurd (congrArg Source.subset hS) (by intro h; cases h)
  | @vector s' _ _ _ _ _ _ e _ _ _ _ hc h =>
    rw [ofVector_inj hS]
    refine ⟨fun _ _ => .clr, ?_, ?_⟩
    · intro p q hp hq hw
      exact h.trims (by rw [e]; exact vectorLoader_trims _ _ _ _) hp hq hw
    · intro q _ c hcm
      rw [hc] at hcm
      cases hcm

/-- **C127** for scalar and vector sources together: calculate with rounding, sums in any order, means of vectors by components.  With at most
`N` datapoints of at most the size `M` in a source, and bounds of the conditions of scalar sources that are fractions of a denominator that is
not too large, the cells are those of exact calculation, a value is missing where it is there, and differs from it by at most
`((1 + u) ^ N - 1) * M`. -/
theorem C127_mixed {r : ℚ → ℚ} {u : ℚ} (hr : Precise r u) {sum : List ℚ → ℚ} (hs : Sums r sum) {b : Boundary} {W H : ℚ} {N D : ℕ} {M : ℚ}
    {full full' : List (Source AnyData AnyCond)} (hfull : List.Forall₂ (RoundedAny r sum N D M) full full')
    (hf : ∀ s ∈ full, PlainAny b s) (hid : (full.map (fun s => s.loader.id)).Nodup) (hN : 0 < N) (hD : 0 < D)
    (hsmall : 2 * ((N : ℚ) * D) * u < 1) (hM : 0 ≤ M)
    (config : MeshConfig) (hp : ProperGrid b W H) (hcr : b.longMin < b.longMax) (hh : b.latMin < b.latMax)
    (hcol : b.longMin = -180 ∧ b.longMax = 180 → W ≤ 180) (hacc : MeshBuilder.validateBounds b W H = .ok ()) (depth : ℕ) :
    ∃ m0 m0', MeshBuilder.init b W H (fun q => trimSources q full) depth = .ok m0 ∧
      MeshBuilder.init b W H (fun q => trimSources q full') depth = .ok m0' ∧ ∃ F em em',
      (∀ fuel, F ≤ fuel → MeshBuilder.buildEnvironmentalMesh (sourceOps AnyData AnyCond) aggregate fuel config m0 = .ok em ∧
        MeshBuilder.buildEnvironmentalMesh (sourceOps AnyData AnyCond) aggregate fuel config m0' = .ok em') ∧
      (∀ q, (∃ c ∈ em'.cells, c.bounds = q) ↔ ∃ c ∈ em.cells, c.bounds = q) ∧
      ∀ c ∈ em.cells, ∀ c' ∈ em'.cells, c'.bounds = c.bounds → ∀ n, EntryNear (Near (((1 + u) ^ N - 1) * M)) (c.data.get? n) (c'.data.get? n) := by
  have hcol' : b.width = 360 → W ≤ 180 := by
    intro h
    rw [width_of_lt hcr] at h
    obtain ⟨-, v1, v2, v3, v4, -⟩ := hp.valid
    exact hcol ⟨by linarith, by linarith⟩
  have hB : 0 ≤ ((1 + u) ^ N - 1) * M := mul_nonneg (by linarith [one_le_pow_u hr.nonneg N]) hM
  obtain ⟨zs, rfl, rfl, hz⟩ := forall₂_zip hfull
  have hm : ∀ z ∈ zs, PlainAny b z.1 := fun z hz => hf _ (List.mem_map_of_mem hz)
  have key : ∀ z ∈ zs, FaithfulOn (Inner b) z.2 (ownVerdict z.2) ∧ (∃ value, ValuedOn (Inner b) z.2 value) ∧
      (∀ q, Inner b q → NearAt (Near (((1 + u) ^ N - 1) * M)) q z.1 z.2) ∧ z.2.loader.id = z.1.loader.id := by
    intro z hzm
    refine rounded_any hr hs hN hD hsmall hM (hz z hzm) ?_ ?_
    · intro t e
      have ht : PlainScalar b t := Spec.PlainAny.ofScalar (e ▸ hm z hzm)
      obtain ⟨id, name, agg, minDp, el, -, -⟩ := ht.loader
      exact ⟨⟨_, scalar_faithful ht el⟩, plain_cuts ht, ht.fill⟩
    · intro t e
      have ht : PlainVector b t := Spec.PlainAny.ofVector (e ▸ hm z hzm)
      exact ⟨⟨_, vector_faithful ht⟩, plain_vector_cuts ht, ht.fill⟩
  refine near_build (near_matches hB) (inner_system hp hcr hacc) (fun q hq => hq.1) (fun q t t' => lineage_unique hp.wpos hp.hpos)
    (fun z hzm => any_faithful (hm z hzm)) (fun z hzm => ?_) (fun z hzm => (key z hzm).1) (fun z hzm => (key z hzm).2.1)
    (fun q hq z hzm => (key z hzm).2.2.1 q hq) (fun z hzm => (key z hzm).2.2.2) hid config hp hh hcol' hacc depth
  obtain ⟨v, h1, -⟩ := any_valued (hm z hzm)
  exact ⟨v, h1⟩

/-- **C127** for scalar and vector sources together over regions that may cross the antimeridian, with gridded data. -/
theorem C127_mixed_around {r : ℚ → ℚ} {u : ℚ} (hr : Precise r u) {sum : List ℚ → ℚ} (hs : Sums r sum) {b : Boundary} {W H : ℚ} {N D : ℕ} {M : ℚ}
    {full full' : List (Source AnyData AnyCond)} (hfull : List.Forall₂ (RoundedAny r sum N D M) full full')
    (hf : ∀ s ∈ full, AroundAny b s) (hid : (full.map (fun s => s.loader.id)).Nodup) (hN : 0 < N) (hD : 0 < D)
    (hsmall : 2 * ((N : ℚ) * D) * u < 1) (hM : 0 ≤ M) (config : MeshConfig) (hp : ProperGrid b W H) (hh : b.latMin < b.latMax)
    (hcol : b.width = 360 → W ≤ 180) (hacc : MeshBuilder.validateBounds b W H = .ok ()) (depth : ℕ) :
    ∃ m0 m0', MeshBuilder.init b W H (fun q => trimSources q full) depth = .ok m0 ∧
      MeshBuilder.init b W H (fun q => trimSources q full') depth = .ok m0' ∧ ∃ F em em',
      (∀ fuel, F ≤ fuel → MeshBuilder.buildEnvironmentalMesh (sourceOps AnyData AnyCond) aggregate fuel config m0 = .ok em ∧
        MeshBuilder.buildEnvironmentalMesh (sourceOps AnyData AnyCond) aggregate fuel config m0' = .ok em') ∧
      (∀ q, (∃ c ∈ em'.cells, c.bounds = q) ↔ ∃ c ∈ em.cells, c.bounds = q) ∧
      ∀ c ∈ em.cells, ∀ c' ∈ em'.cells, c'.bounds = c.bounds → ∀ n, EntryNear (Near (((1 + u) ^ N - 1) * M)) (c.data.get? n) (c'.data.get? n) := by
  have hB : 0 ≤ ((1 + u) ^ N - 1) * M := mul_nonneg (by linarith [one_le_pow_u hr.nonneg N]) hM
  obtain ⟨zs, rfl, rfl, hz⟩ := forall₂_zip hfull
  have hm : ∀ z ∈ zs, AroundAny b z.1 := fun z hz => hf _ (List.mem_map_of_mem hz)
  have key : ∀ z ∈ zs, FaithfulOn (Around b) z.2 (ownVerdict z.2) ∧ (∃ value, ValuedOn (Around b) z.2 value) ∧
      (∀ q, Around b q → NearAt (Near (((1 + u) ^ N - 1) * M)) q z.1 z.2) ∧ z.2.loader.id = z.1.loader.id := by
    intro z hzm
    refine rounded_any hr hs hN hD hsmall hM (hz z hzm) ?_ ?_
    · intro t e
      have ht : AroundAny b (.ofScalar t) := e ▸ hm z hzm
      obtain ⟨⟨id, name, agg, minDp, el⟩, hg⟩ := ht.scalarGrid
      exact ⟨⟨_, around_scalar_faithful el hg⟩, around_cuts hg, ht.scalarFilled⟩
    · intro t e
      have ht : AroundAny b (.ofVector t) := e ▸ hm z hzm
      exact ⟨ht.vectorFaithful, around_vector_cuts ht.vectorGrid.2, ht.vectorFill⟩
  refine near_build (near_matches hB) (around_system hp hcol hacc) (fun q hq => hq.1)
    (fun q t t' => around_unique (unwraps_of hp) hp.wpos hp.hpos (cell_small hp hcol hacc))
    (fun z hzm => around_faithful (hm z hzm)) (fun z hzm => ?_) (fun z hzm => (key z hzm).1) (fun z hzm => (key z hzm).2.1)
    (fun q hq z hzm => (key z hzm).2.2.1 q hq) (fun z hzm => (key z hzm).2.2.2) hid config hp hh hcol hacc depth
  obtain ⟨v, h1, -⟩ := around_valued (hm z hzm)
  exact ⟨v, h1⟩

/-- **C127 (whole build in double precision, scalar and vector sources).**  Region and cell sizes are multiples of `2 ^ -n` with `n` and the
depth of splitting together at most 43; the sources have at most `2 ^ 20` datapoints of at most the size `M`, and conditions with bounds of at
most nine decimals.  The mesh built in double precision has the cells of exact calculation, and values that are missing where those of exact
calculation are, and differ from them by at most `2 ^ -32 * M`. -/
theorem C127_mixed_double {sum : List ℚ → ℚ} (hs : Sums Fl.round64 sum) {n : ℕ} {b : Boundary} (hb : DyadicBox n b) {W H : ℚ} {M : ℚ}
    {full full' : List (Source AnyData AnyCond)} (hfull : List.Forall₂ (RoundedAny Fl.round64 sum (2 ^ 20) (10 ^ 9) M) full full')
    (hf : ∀ s ∈ full, PlainAny b s) (hid : (full.map (fun s => s.loader.id)).Nodup) (hM : 0 ≤ M)
    (config : MeshConfig) (hp : ProperGrid b W H) (hcr : b.longMin < b.longMax) (hh : b.latMin < b.latMax)
    (hcol : b.longMin = -180 ∧ b.longMax = 180 → W ≤ 180) (hacc : MeshBuilder.validateBounds b W H = .ok ())
    (hW : Dyadic n W) (hH : Dyadic n H) (hW1 : W ≤ 1024) (hH1 : H ≤ 1024) (hcells : b.width * b.height ≤ 2 ^ 52 * (W * H))
    (depth : ℕ) (hn : n + depth ≤ 43) :
    ∃ F em em', (∀ fuel, F ≤ fuel →
        (do let m ← MeshBuilder.init b W H (fun q => trimSources q full) depth
            MeshBuilder.buildEnvironmentalMesh (sourceOps AnyData AnyCond) aggregate fuel config m) = .ok em ∧
        (do let m ← Fl.init Fl.round64 b W H (fun q => trimSources q full') depth
            Fl.buildEnvironmentalMesh Fl.round64 (sourceOps AnyData AnyCond) aggregate fuel config m) = .ok em') ∧
      (∀ q, (∃ c ∈ em'.cells, c.bounds = q) ↔ ∃ c ∈ em.cells, c.bounds = q) ∧
      ∀ c ∈ em.cells, ∀ c' ∈ em'.cells, c'.bounds = c.bounds → ∀ n, EntryNear (Near (1 / 2 ^ 32 * M)) (c.data.get? n) (c'.data.get? n) := by
  obtain ⟨m0, m0', h0, h0', F, em, em', h1, h2, h3⟩ := C127_mixed C127_round64.1 hs hfull hf hid (by norm_num)
    (by norm_num) (by norm_num) hM config hp hcr hh hcol hacc depth
  refine ⟨F, em, em', fun fuel hfuel => ⟨?_, ?_⟩, h2, fun c hc c' hc' e k => ?_⟩
  · simp only [h0, bind, Except.bind]
    exact (h1 fuel hfuel).1
  · rw [C101_build C101_round64.2.2.2 hb hp hW hH hW1 hH1 hcells _ depth hn]
    simp only [h0', bind, Except.bind]
    exact (h1 fuel hfuel).2
  · have hpow := pow_bound (u := 1 / 2 ^ 53) (by norm_num) (2 ^ 20) (by norm_num)
    rcases h3 c hc c' hc' e k with hx | ⟨v, v', e1, e2, hnear⟩
    · exact Or.inl hx
    · refine Or.inr ⟨v, v', e1, e2, ?_⟩
      rcases hnear with hx | ⟨x, y, f1, f2, f3⟩
      · exact Or.inl hx
      · refine Or.inr ⟨x, y, f1, f2, f3.trans (mul_le_mul_of_nonneg_right ?_ hM)⟩
        refine le_trans (sub_le_sub_right hpow 1) ?_
        norm_num

/-! ## Examples -/

/-- Three datapoints, of which two are in one cell; one lacks a component. -/
def exBreeze : Dataset Vec :=
  .table ⟨false, [⟨-59, 1, 0, (some (1 / 10), some 1)⟩, ⟨-58, 1, 0, (some (3 / 10), none)⟩, ⟨-52, 12, 0, (some (7 / 10), some (-1))⟩]⟩

/-- The mean of values and the mean of vectors, calculated exactly. -/
def exBreezeExact : List (Source AnyData AnyCond) :=
  [.ofScalar ⟨scalarLoader 0 "a" .mean 1, [⟨1 / 5, 1 / 10, 9 / 10, false⟩], .parent, exTenths⟩,
   .ofVector (vectorSource 1 "u,v" .mean 1 [] .parent exBreeze)]

/-- The same with rounding to double precision. -/
def exBreezeDouble : List (Source AnyData AnyCond) :=
  [.ofScalar ⟨Fl.scalarLoader Fl.round64 (Fl.sumLeft Fl.round64) 0 "a" .mean 1, [⟨1 / 5, Fl.round64 (1 / 10), Fl.round64 (9 / 10), false⟩], .parent, exTenths⟩,
   .ofVector ⟨Fl.vectorLoader Fl.round64 (Fl.sumLeft Fl.round64) 1 "u,v" .mean (fun _ _ _ => .ok .clr), [], .parent, exBreeze⟩]

theorem exBreeze_rounded : List.Forall₂ (RoundedAny Fl.round64 (Fl.sumLeft Fl.round64) (2 ^ 20) (10 ^ 9) 1) exBreezeExact exBreezeDouble := by
  refine .cons (.scalar ⟨⟨_, _, _, _, rfl, rfl, by decide, by simp⟩, rfl, rfl, rfl⟩ exTenths_small ?_) (.cons (.vector ?_ ?_) .nil)
  · intro c hc
    simp only [List.mem_cons, List.not_mem_nil, or_false] at hc
    subst hc
    exact ⟨10 ^ 8, 9 * 10 ^ 8, by norm_num, by norm_num, by norm_num, by norm_num⟩
  · exact ⟨⟨1, "u,v", .mean, _, _, "u", "v", rfl, rfl, by decide +kernel, by decide, by simp⟩, rfl, rfl, rfl, rfl⟩
  · refine ⟨by simp [vectorSource, exBreeze, Dataset.rows], ?_⟩
    intro p hp
    simp only [vectorSource, exBreeze, Dataset.rows, List.mem_cons, List.not_mem_nil, or_false] at hp
    rcases hp with rfl | rfl | rfl <;> constructor <;> intro x hx <;> simp only [Option.some.injEq, reduceCtorEq] at hx <;> subst hx <;>
      norm_num [abs_of_pos]

theorem exBreeze_plain : ∀ s ∈ exBreezeExact, PlainAny exRegion s := by
  intro s hs
  simp only [exBreezeExact, List.mem_cons, List.not_mem_nil, or_false] at hs
  rcases hs with rfl | rfl
  · exact .scalar ⟨⟨_, _, _, _, rfl, by decide, by simp⟩, Or.inl rfl, trivial, _, rfl⟩
  · exact .vector ⟨⟨1, "u,v", .mean, 1, "u", "v", rfl, by decide +kernel, by decide, by simp, le_refl _⟩, rfl, trivial, ⟨_, rfl⟩, by intro c hc; cases hc⟩

/-- The hypotheses of `C127_mixed_double` hold for them, so the values differ by at most `2 ^ -32`; the calculation in double precision is
not exact. -/
example : (∃ F em em', (∀ fuel, F ≤ fuel →
        (do let m ← MeshBuilder.init exRegion 10 5 (fun q => trimSources q exBreezeExact) 3
            MeshBuilder.buildEnvironmentalMesh (sourceOps AnyData AnyCond) aggregate fuel exConfig m) = .ok em ∧
        (do let m ← Fl.init Fl.round64 exRegion 10 5 (fun q => trimSources q exBreezeDouble) 3
            Fl.buildEnvironmentalMesh Fl.round64 (sourceOps AnyData AnyCond) aggregate fuel exConfig m) = .ok em') ∧
      (∀ q, (∃ c ∈ em'.cells, c.bounds = q) ↔ ∃ c ∈ em.cells, c.bounds = q) ∧
      ∀ c ∈ em.cells, ∀ c' ∈ em'.cells, c'.bounds = c.bounds → ∀ n, EntryNear (Near (1 / 2 ^ 32 * 1)) (c.data.get? n) (c'.data.get? n)) ∧
    Fl.vectorValue Fl.round64 (Fl.sumLeft Fl.round64) .mean exBreeze ≠ vectorValue .mean exBreeze := by
  constructor
  · refine C127_mixed_double C127_round64.2 (n := 0) ⟨⟨-60, ?_⟩, ⟨-50, ?_⟩, ⟨0, ?_⟩, ⟨20, ?_⟩, ?_, ?_, ?_⟩ exBreeze_rounded exBreeze_plain
      (by decide) (by norm_num) exConfig exRegion_proper (by norm_num [exRegion]) (by norm_num [exRegion]) (by norm_num [exRegion]) (by decide +kernel)
      ⟨10, by norm_num⟩ ⟨5, by norm_num⟩ (by norm_num) (by norm_num) (by norm_num [Boundary.width, Boundary.height, exRegion]) 3 (by norm_num)
    all_goals norm_num [exRegion]
  · decide +kernel

/-- The hypotheses of `C127_mixed_around` hold over the antimeridian. -/
example : ∃ full full', List.Forall₂ (RoundedAny Fl.round64 (Fl.sumLeft Fl.round64) 18 4 195) full full' ∧ (∀ s ∈ full, AroundAny exAroundRegion s) ∧
    (full.map (fun s => s.loader.id)).Nodup ∧ full.length = 2 ∧ ProperGrid exAroundRegion 10 10 ∧ exAroundRegion.latMin < exAroundRegion.latMax ∧
    exAroundRegion.width ≠ 360 ∧ MeshBuilder.validateBounds exAroundRegion 10 10 = .ok () := by
  refine ⟨[.ofScalar ⟨scalarLoader 0 "a" .mean 1, [⟨0, 1 / 4, 3 / 4, false⟩], .parent, .grid exGrid⟩,
      .ofVector (vectorSource 1 "u,v" .mean 1 [] .parent (.grid ⟨[5, 10], [-175, 180], none, fun y x _ => (some (y / 10), some x)⟩))],
    [.ofScalar ⟨Fl.scalarLoader Fl.round64 (Fl.sumLeft Fl.round64) 0 "a" .mean 1, [⟨0, Fl.round64 (1 / 4), Fl.round64 (3 / 4), false⟩], .parent, .grid exGrid⟩,
      .ofVector ⟨Fl.vectorLoader Fl.round64 (Fl.sumLeft Fl.round64) 1 "u,v" .mean (fun _ _ _ => .ok .clr), [], .parent,
        .grid ⟨[5, 10], [-175, 180], none, fun y x _ => (some (y / 10), some x)⟩⟩], ?_, ?_, by decide, rfl, exAroundRegion_proper,
    by norm_num [exAroundRegion], by decide +kernel, by decide +kernel⟩
  · refine .cons (.scalar ⟨⟨_, _, _, _, rfl, rfl, by decide, by simp⟩, rfl, rfl, rfl⟩ ?_ ?_) (.cons (.vector ?_ ?_) .nil)
    · have hb : ∀ p ∈ (Dataset.grid exGrid).rows, p.val = some (p.lat + p.long) ∧ |p.lat + p.long| ≤ 195 := by decide +kernel
      refine ⟨by decide +kernel, fun p hp x hx => ?_⟩
      obtain ⟨e, hy⟩ := hb p hp
      rw [e, Option.some.injEq] at hx
      rw [← hx]; exact hy
    · intro c hc
      simp only [List.mem_cons, List.not_mem_nil, or_false] at hc
      subst hc
      exact ⟨1, 3, by norm_num, by norm_num, by norm_num, by norm_num⟩
    · exact ⟨⟨1, "u,v", .mean, _, _, "u", "v", rfl, rfl, by decide +kernel, by decide, by simp⟩, rfl, rfl, rfl, rfl⟩
    · have hb : ∀ p ∈ (Dataset.grid ⟨[5, 10], [-175, 180], none, fun y x _ => ((some (y / 10), some x) : Vec)⟩).rows,
          p.val = (some (p.lat / 10), some p.long) ∧ |p.lat / 10| ≤ 195 ∧ |p.long| ≤ 195 := by decide +kernel
      refine ⟨by decide +kernel, fun p hp => ?_⟩
      obtain ⟨e, h1, h2⟩ := hb p hp
      rw [e]
      constructor
      · intro x hx; cases hx; exact h1
      · intro x hx; cases hx; exact h2
  · intro s hs
    simp only [List.mem_cons, List.not_mem_nil, or_false] at hs
    rcases hs with rfl | rfl
    · exact .scalar rfl (by decide) (by simp) (Or.inl rfl) ⟨⟨_, rfl, exGrid_longs⟩, exGrid_sorted, _, trim_eq exGrid_sorted (by intro h; cases h)⟩
    · have hsort : (Dataset.grid ⟨[5, 10], [-175, 180], none, fun y x _ => ((some (y / 10), some x) : Vec)⟩).Sorted := by
        refine ⟨?_, ?_⟩ <;> norm_num
      exact .vector rfl (x := "u") (y := "v") (by decide +kernel) (by decide) (by simp) rfl rfl
        ⟨⟨_, rfl, by norm_num⟩, hsort, _, trim_eq hsort (by intro h; cases h)⟩

end Verif
