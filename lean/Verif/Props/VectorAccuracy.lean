import Verif.Props.Accuracy

/-!
# C140: a mesh of smooth vector data is near to them
-/

namespace Verif
open Spec

/-! ## Specification -/

/-- The components of the vectors of the region `b` are those of `(f, g)` at their place, up to `e`; missing components do not matter. -/
def Spec.VectorSamples (b : Boundary) (d : Dataset Vec) (f g : ℚ → ℚ → ℚ) (e : ℚ) : Prop :=
  ∀ r ∈ rowsIn d b, (∀ v, r.val.1 = some v → |v - f r.lat r.long| ≤ e) ∧ ∀ v, r.val.2 = some v → |v - g r.lat r.long| ≤ e

/-- The box has a complete vector. -/
def Spec.HasVector (d : Dataset Vec) (q : Boundary) : Prop := ∃ r ∈ rowsIn d q, r.val.1 ≠ none ∧ r.val.2 ≠ none

/-! ## Values -/

/-- Values between values of a box, filled from above, are near to the function of which these are samples. -/
theorem filled_near_line {V : Type} {b : Boundary} {d : Dataset V} {π : V → Option ℚ} {f : ℚ → ℚ → ℚ} {ky kx e : ℚ} (hs : Smooth b f ky kx) (hky : 0 ≤ ky)
    (hkx : 0 ≤ kx) (hd : ∀ r ∈ rowsIn d b, ∀ v, π r.val = some v → |v - f r.lat r.long| ≤ e) {value : Boundary → Option ℚ} {c : Boundary} {anc : List Boundary}
    (n1 : (c :: anc).Pairwise Nested) (n2 : ∀ q ∈ c :: anc, Nested q b)
    (hval : ∀ q ∈ c :: anc, ∀ z, value q = some z → ∃ u ∈ (rowsIn d q).filterMap (fun r => π r.val), ∃ w ∈ (rowsIn d q).filterMap (fun r => π r.val), u ≤ z ∧ z ≤ w)
    {v : Option ℚ} (hfil : IsFirst ((c :: anc).map value) v) {p : Boundary} (hp : p ∈ c :: anc) (hz : value p ≠ none) :
    ∃ z, v = some z ∧ NearIn f ky kx e c p z := by
  have hcp : Nested c p := by
    rcases List.mem_cons.1 hp with rfl | h
    · exact Nested.refl _
    · exact (List.pairwise_cons.1 n1).1 p h
  rcases hfil with ⟨pre, z, post, e1, e2, e3⟩ | ⟨e1, -⟩
  · obtain ⟨l1, l2, q1, q2, q3⟩ := List.map_eq_append_iff.1 e1
    obtain ⟨q, l3, rfl, q4, q5⟩ := List.map_eq_cons_iff.1 q3
    have hq : q ∈ c :: anc := by rw [q1]; simp
    have hqp : Nested q p := by
      rw [q1] at hp n1
      rcases List.mem_append.1 hp with h | h
      · exact absurd (e2 (value p) (by rw [← q2]; exact List.mem_map.2 ⟨p, h, rfl⟩)) hz
      · rcases List.mem_cons.1 h with rfl | h
        · exact Nested.refl _
        · exact (List.pairwise_cons.1 (List.pairwise_append.1 n1).2.1).1 p h
    refine ⟨z, e3, ?_⟩
    intro y x hm
    obtain ⟨u, hu, w, hw, k1, k2⟩ := hval q hq z q4
    have hpb := n2 p hp
    have key : ∀ v ∈ (rowsIn d q).filterMap (fun r => π r.val), |v - f y x| ≤ e + ky * (p.latMax - p.latMin) + kx * (p.longMax - p.longMin) := by
      intro v hv
      obtain ⟨r, hr, hv⟩ := List.mem_filterMap.1 hv
      have hrp := nested_rows hqp hr
      have m1 := rows_mem hrp
      have m2 := nested_mem hcp hm
      have a1 := hd r (nested_rows hpb hrp) v hv
      have a2 := hs r.lat r.long y x (nested_mem hpb m1) (nested_mem hpb m2)
      obtain ⟨g1, g2, g3, g4⟩ := m1
      obtain ⟨k1, k2, k3, k4⟩ := m2
      simp only [rectOf] at g1 g2 g3 g4 k1 k2 k3 k4
      have b1 : |r.lat - y| ≤ p.latMax - p.latMin := abs_le.2 ⟨by linarith, by linarith⟩
      have b2 : |r.long - x| ≤ p.longMax - p.longMin := abs_le.2 ⟨by linarith, by linarith⟩
      have c1 := mul_le_mul_of_nonneg_left b1 hky
      have c2 := mul_le_mul_of_nonneg_left b2 hkx
      have := abs_sub_le v (f r.lat r.long) (f y x)
      linarith
    exact near_between (key u hu) (key w hw) k1 k2
  · exact absurd (e1 _ (List.mem_map.2 ⟨p, hp, rfl⟩)) hz

theorem mean_within {l : List ℚ} {r : Option ℚ} (h : IsMeanOf l r) : (l ≠ [] → r ≠ none) ∧ ∀ z, r = some z → ∃ u ∈ l, ∃ w ∈ l, u ≤ z ∧ z ≤ w := by
  rcases h with ⟨h1, rfl⟩ | ⟨x, rfl, h1, h2⟩
  · exact ⟨fun h => absurd h1 h, by simp⟩
  · refine ⟨fun _ => by simp, fun z hz => ?_⟩
    cases hz
    exact mean_between h1 h2

/-- Each component of a mean, shortest or longest vector lies between components of the vectors; it is there if there is a complete vector. -/
theorem vector_within {grid : Bool} {agg : AggType} (hagg : agg ∈ [AggType.min, .max, .mean]) {l : List Vec} {v : Vec} (h : VectorStatistic grid agg l v) :
    (complete l ≠ [] → v.1 ≠ none ∧ v.2 ≠ none) ∧
    (∀ z, v.1 = some z → ∃ u ∈ l.filterMap Prod.fst, ∃ w ∈ l.filterMap Prod.fst, u ≤ z ∧ z ≤ w) ∧
    ∀ z, v.2 = some z → ∃ u ∈ l.filterMap Prod.snd, ∃ w ∈ l.filterMap Prod.snd, u ≤ z ∧ z ≤ w := by
  have hc : ∀ p ∈ complete l, p.1 ∈ l.filterMap Prod.fst ∧ p.2 ∈ l.filterMap Prod.snd := by
    intro p hp
    rw [mem_complete] at hp
    exact ⟨List.mem_filterMap.2 ⟨_, hp, rfl⟩, List.mem_filterMap.2 ⟨_, hp, rfl⟩⟩
  have hex : ∀ p ∈ complete l, v = (some p.1, some p.2) → (complete l ≠ [] → v.1 ≠ none ∧ v.2 ≠ none) ∧
    (∀ z, v.1 = some z → ∃ u ∈ l.filterMap Prod.fst, ∃ w ∈ l.filterMap Prod.fst, u ≤ z ∧ z ≤ w) ∧
    ∀ z, v.2 = some z → ∃ u ∈ l.filterMap Prod.snd, ∃ w ∈ l.filterMap Prod.snd, u ≤ z ∧ z ≤ w := by
    rintro p hp rfl
    obtain ⟨c1, c2⟩ := hc p hp
    refine ⟨fun _ => by simp, ?_, ?_⟩ <;> intro z hz <;> cases hz
    · exact ⟨_, c1, _, c1, le_rfl, le_rfl⟩
    · exact ⟨_, c2, _, c2, le_rfl, le_rfl⟩
  simp only [List.mem_cons, List.not_mem_nil, or_false] at hagg
  rcases hagg with rfl | rfl | rfl
  · rcases h with ⟨h1, rfl⟩ | ⟨p, h1, h2, -⟩
    · exact ⟨fun h => absurd h1 h, by simp, by simp⟩
    · exact hex p h1 h2
  · rcases h with ⟨h1, rfl⟩ | ⟨p, h1, h2, -⟩
    · exact ⟨fun h => absurd h1 h, by simp, by simp⟩
    · exact hex p h1 h2
  · unfold VectorStatistic at h
    simp only at h
    split at h
    · rename_i h1
      subst h
      exact ⟨fun h => absurd h1.2 h, by simp, by simp⟩
    · obtain ⟨h1, h2⟩ := h
      obtain ⟨a1, a2⟩ := mean_within h1
      obtain ⟨b1, b2⟩ := mean_within h2
      refine ⟨fun hne => ?_, a2, b2⟩
      obtain ⟨p, hp⟩ := List.exists_mem_of_ne_nil _ hne
      exact ⟨a1 (List.ne_nil_of_mem (hc p hp).1), b1 (List.ne_nil_of_mem (hc p hp).2)⟩

/-! ## C140 -/

/-- **C140**: in a region that does not cross the antimeridian, let a mesh be built from scalar, vector and look-up table sources, and let the vectors of one of the vector sources, which
has names of its own, be samples of two functions that change by at most `ky` per degree of latitude and `kx` per degree of longitude, up to `e`.  For every cell and every box it was
split from, or the cell itself, that has a complete vector, both components of the cell are there and are, at all points of the cell, near to the functions up to `e`, `ky` times the
height and `kx` times the width of the box. -/
theorem C140_near {b : Boundary} {W H : ℚ} {full : List (Source AnyData AnyCond)} (hf : ∀ s ∈ full, PlainAny b s)
    (hid : (full.map (fun s => s.loader.id)).Nodup)
    (config : MeshConfig) (hp : ProperGrid b W H) (hcr : b.longMin < b.longMax) (hh : b.latMin < b.latMax)
    (hcol : b.longMin = -180 ∧ b.longMax = 180 → W ≤ 180) (hacc : MeshBuilder.validateBounds b W H = .ok ()) (depth : ℕ) :
    ∃ m0, MeshBuilder.init b W H (fun q => trimSources q full) depth = .ok m0 ∧ ∃ N em, BuiltOK b W H depth em ∧
      (∀ fuel, N ≤ fuel → MeshBuilder.buildEnvironmentalMesh (sourceOps AnyData AnyCond) aggregate fuel config m0 = .ok em) ∧
      ∀ s id name agg hom x y, Source.ofVector s ∈ full → s.loader = vectorLoader id name agg hom → splitName name = [x, y] →
        agg ∈ [AggType.min, .max, .mean] →
        (∀ t ∈ full, x ∈ splitName t.loader.dataName ∨ y ∈ splitName t.loader.dataName → t = .ofVector s) →
        ∀ f g ky kx e, Smooth b f ky kx → Smooth b g ky kx → 0 ≤ ky → 0 ≤ kx → VectorSamples b s.subset f g e →
        ∀ c ∈ em.cells, ∃ anc, Lineage (GridBox b W H) (c.bounds :: anc) ∧ ∃ v v', c.data.get? x = some (.num v) ∧ c.data.get? y = some (.num v') ∧
          ∀ p ∈ c.bounds :: anc, HasVector s.subset p →
            (∃ z, v = some z ∧ NearIn f ky kx e c.bounds p z) ∧ ∃ z, v' = some z ∧ NearIn g ky kx e c.bounds p z := by
  obtain ⟨value, hvalue, m0, h0, N, em, h1, -, h2, h3⟩ := C110_values hf hid config hp hcr hh hcol hacc depth
  refine ⟨m0, h0, N, em, h1, h2, fun s id name agg hom x y hs e hn hagg hu f g ky kx ε hsm hsm' hky hkx hd c hc => ?_⟩
  have hfill : (Source.ofVector s).fill = .parent := (hf _ hs).ofVector.fill
  have hname : (Source.ofVector s).loader.dataName = name := by
    show s.loader.dataName = name
    rw [e]; rfl
  have hmx : x ∈ splitName (Source.ofVector s).loader.dataName := by rw [hname, hn]; simp
  have hmy : y ∈ splitName (Source.ofVector s).loader.dataName := by rw [hname, hn]; simp
  obtain ⟨anc, a1, a0, w, a2, a3⟩ := h3 c hc
  obtain ⟨v, hv, hm⟩ := (a3 x).2 ⟨_, hs, hmx⟩
  obtain ⟨v', hv', hm'⟩ := (a3 y).2 ⟨_, hs, hmy⟩
  have e1 := merged_single hid hs hmx (fun t ht h => hu t ht (Or.inl h)) hm
  have e2 := merged_single hid hs hmy (fun t ht h => hu t ht (Or.inr h)) hm'
  have f1 : IsFirst ((c.bounds :: anc).map (fun q => value (.ofVector s) q x)) v := by
    have := a2 _ hs x hmx
    rw [hfill, ← e1] at this
    exact this
  have f2 : IsFirst ((c.bounds :: anc).map (fun q => value (.ofVector s) q y)) v' := by
    have := a2 _ hs y hmy
    rw [hfill, ← e2] at this
    exact this
  obtain ⟨n1, n2, -⟩ := lineage_nested hp a0
  have hst : ∀ q ∈ c.bounds :: anc, _ := fun q hq => vector_within hagg (gives_vector (hvalue _ hs q (a1 q hq)) e hn (by
      simp only [List.mem_cons, List.not_mem_nil, or_false] at hagg ⊢
      tauto))
  refine ⟨anc, a0, v, v', hv, hv', fun p hp' ⟨r, hr, hr1, hr2⟩ => ?_⟩
  have hsome := (hst p hp').1 (by
    obtain ⟨u, hu⟩ := Option.ne_none_iff_exists'.1 hr1
    obtain ⟨u', hu'⟩ := Option.ne_none_iff_exists'.1 hr2
    refine List.ne_nil_of_mem (mem_complete (p := (u, u')) |>.2 (List.mem_map.2 ⟨r, hr, ?_⟩))
    rw [← hu, ← hu'])
  constructor
  · refine filled_near_line (π := Prod.fst) hsm hky hkx (fun r hr => (hd r hr).1) n1 n2 (fun q hq z hz => ?_) f1 hp' hsome.1
    have := (hst q hq).2.1 z hz
    rwa [List.filterMap_map] at this
  · refine filled_near_line (π := Prod.snd) hsm' hky hkx (fun r hr => (hd r hr).2) n1 n2 (fun q hq z hz => ?_) f2 hp' hsome.2
    have := (hst q hq).2.2 z hz
    rwa [List.filterMap_map] at this

/-- **C140**, what is read: if every box of the initial grid has a complete vector, then both components of whatever is read from the mesh at any point are near to the functions at that
point, up to `e`, `ky` times the height and `kx` times the width of the boxes of the grid. -/
theorem C140_read {b : Boundary} {W H : ℚ} {full : List (Source AnyData AnyCond)} (hf : ∀ s ∈ full, PlainAny b s)
    (hid : (full.map (fun s => s.loader.id)).Nodup)
    (config : MeshConfig) (hp : ProperGrid b W H) (hcr : b.longMin < b.longMax) (hh : b.latMin < b.latMax)
    (hcol : b.longMin = -180 ∧ b.longMax = 180 → W ≤ 180) (hacc : MeshBuilder.validateBounds b W H = .ok ()) (depth : ℕ) :
    ∃ m0, MeshBuilder.init b W H (fun q => trimSources q full) depth = .ok m0 ∧ ∃ N em,
      (∀ fuel, N ≤ fuel → MeshBuilder.buildEnvironmentalMesh (sourceOps AnyData AnyCond) aggregate fuel config m0 = .ok em) ∧
      ∀ s id name agg hom n n', Source.ofVector s ∈ full → s.loader = vectorLoader id name agg hom → splitName name = [n, n'] →
        agg ∈ [AggType.min, .max, .mean] →
        (∀ t ∈ full, n ∈ splitName t.loader.dataName ∨ n' ∈ splitName t.loader.dataName → t = .ofVector s) →
        (∀ q, GridBox b W H q → HasVector s.subset q) →
        ∀ f g ky kx e, Smooth b f ky kx → Smooth b g ky kx → 0 ≤ ky → 0 ≤ kx → VectorSamples b s.subset f g e →
        ∀ y x, -180 ≤ x ∧ x ≤ 180 → (∀ v, ReadAt em y x n v → ∃ z, v = some (.num (some z)) ∧ |z - f y x| ≤ e + ky * H + kx * W) ∧
          ∀ v, ReadAt em y x n' v → ∃ z, v = some (.num (some z)) ∧ |z - g y x| ≤ e + ky * H + kx * W := by
  obtain ⟨m0, h0, N, em, h1, h2, h3⟩ := C140_near hf hid config hp hcr hh hcol hacc depth
  refine ⟨m0, h0, N, em, h2, fun s id name agg hom n n' hs e hn hagg hu hgrid f g ky kx ε hsm hsm' hky hkx hd y x hx => ?_⟩
  have hcell := h3 s id name agg hom n n' hs e hn hagg hu f g ky kx ε hsm hsm' hky hkx hd
  have hin : ∀ c ∈ em.cells, Inner b c.bounds := by
    intro c hc
    obtain ⟨anc, a1, -⟩ := hcell c hc
    exact lineage_inner hp hcr a1 _ List.mem_cons_self
  constructor <;> intro v hr <;>
    rw [readAt_iff h1.ids h1.tiles (fun c hc => (hin c hc).1.1) (fun c hc => (hin c hc).2.1) hx] at hr <;> obtain ⟨c, hc, hi, hv⟩ := hr <;>
    obtain ⟨anc, a1, w, w', a2, a2', a3⟩ := hcell c hc <;> obtain ⟨p, p1, p2⟩ := lineage_start a1 <;>
    obtain ⟨⟨z, rfl, hz⟩, z', rfl, hz'⟩ := a3 p p1 (hgrid p p2) <;> obtain ⟨i, j, rfl, -, -⟩ := p2
  · refine ⟨z, by rw [← hv, a2], ?_⟩
    simpa using hz y x ⟨hi.1.le, hi.2.1.le, hi.2.2.1.le, hi.2.2.2.le⟩
  · refine ⟨z', by rw [← hv, a2'], ?_⟩
    simpa using hz' y x ⟨hi.1.le, hi.2.1.le, hi.2.2.1.le, hi.2.2.2.le⟩

/-! ## Examples -/

/-- Vectors of which the first component is longitude plus twice the latitude, and the second the latitude. -/
def exFlowData : Dataset Vec :=
  .table ⟨false, [⟨-59, 1, 0, (some (-117), some (-59))⟩, ⟨-58, 4, 0, (some (-112), none)⟩, ⟨-57, 12, 0, (some (-102), some (-57))⟩, ⟨-51, 3, 0, (some (-99), some (-51))⟩,
    ⟨-52, 19, 0, (some (-85), some (-52))⟩]⟩

/-- The mean vectors, and values that make a cell be divided. -/
def exFlow : List (Source AnyData AnyCond) :=
  [.ofVector (vectorSource 0 "u,v" .mean 1 [] .parent exFlowData), .ofScalar ⟨scalarLoader 1 "a" .mean 1, [⟨-113, 0, 1, false⟩], .parent, exSlopeData⟩]

theorem exFlow_plain : ∀ s ∈ exFlow, PlainAny exRegion s := by
  intro s hs
  simp only [exFlow, List.mem_cons, List.not_mem_nil, or_false] at hs
  rcases hs with rfl | rfl
  · exact .vector ⟨⟨_, _, _, _, "u", "v", rfl, by decide +kernel, by decide, by simp, le_rfl⟩, rfl, trivial, ⟨_, rfl⟩, by simp [vectorSource]⟩
  · exact .scalar ⟨⟨_, _, _, _, rfl, by decide, by simp⟩, Or.inl rfl, trivial, _, rfl⟩

theorem exFlow_samples : VectorSamples exRegion exFlowData (fun y x => x + 2 * y) (fun y _ => y) 0 := by
  have : rowsIn exFlowData exRegion = [⟨-59, 1, 0, (some (-117), some (-59))⟩, ⟨-58, 4, 0, (some (-112), none)⟩, ⟨-57, 12, 0, (some (-102), some (-57))⟩,
    ⟨-51, 3, 0, (some (-99), some (-51))⟩, ⟨-52, 19, 0, (some (-85), some (-52))⟩] := by decide +kernel
  intro r hr
  rw [this] at hr
  simp only [List.mem_cons, List.not_mem_nil, or_false] at hr
  rcases hr with rfl | rfl | rfl | rfl | rfl <;> constructor <;> intro v hv <;> simp only [Option.some.injEq, reduceCtorEq] at hv <;> subst hv <;> norm_num

theorem exFlow_has : ∀ q, GridBox exRegion 10 5 q → HasVector exFlowData q := by
  rintro q ⟨i, j, rfl, h1, h2⟩
  norm_num [exRegion] at h1 h2
  have hi : i < 2 := by
    have : (i : ℚ) < 2 := by linarith
    exact_mod_cast this
  have hj : j < 2 := by
    have : (j : ℚ) < 2 := by linarith
    exact_mod_cast this
  have key : ∀ i < 2, ∀ j < 2, (rowsIn exFlowData ⟨exRegion.latMin + (j : ℕ) * 5, exRegion.latMin + j * 5 + 5, exRegion.longMin + (i : ℕ) * 10, exRegion.longMin + i * 10 + 10,
      exRegion.time⟩).any (fun r => r.val.1.isSome && r.val.2.isSome) = true := by decide +kernel
  obtain ⟨r, hr, hv⟩ := List.any_eq_true.1 (key i hi j hj)
  rw [Bool.and_eq_true] at hv
  exact ⟨r, hr, Option.isSome_iff_ne_none.1 hv.1, Option.isSome_iff_ne_none.1 hv.2⟩

/-- The hypotheses of C140 hold: whatever is read at any point is at most 20 away from the two functions. -/
example : ∃ m0, MeshBuilder.init exRegion 10 5 (fun q => trimSources q exFlow) 3 = .ok m0 ∧ ∃ N em,
    (∀ fuel, N ≤ fuel → MeshBuilder.buildEnvironmentalMesh (sourceOps AnyData AnyCond) aggregate fuel exConfig m0 = .ok em) ∧
    ∀ y x, -180 ≤ x ∧ x ≤ 180 → (∀ v, ReadAt em y x "u" v → ∃ z, v = some (.num (some z)) ∧ |z - (x + 2 * y)| ≤ 20) ∧
      ∀ v, ReadAt em y x "v" v → ∃ z, v = some (.num (some z)) ∧ |z - y| ≤ 20 := by
  obtain ⟨m0, h0, N, em, h1, h2⟩ := C140_read (W := 10) (H := 5) exFlow_plain (by decide) exConfig exRegion_proper
    (by norm_num [exRegion]) (by norm_num [exRegion]) (by norm_num [exRegion]) (by decide +kernel) 3
  refine ⟨m0, h0, N, em, h1, fun y x hx => ?_⟩
  obtain ⟨k1, k2⟩ := h2 (vectorSource 0 "u,v" .mean 1 [] .parent exFlowData) 0 "u,v" .mean _ "u" "v" (by simp [exFlow]) rfl (by decide +kernel) (by simp) (by
      intro t ht hn
      simp only [exFlow, List.mem_cons, List.not_mem_nil, or_false] at ht
      rcases ht with rfl | rfl <;> first | rfl | exact absurd hn (by decide +kernel)) exFlow_has _ _ 2 1 0 exSlope_smooth (by
      intro y x y' x' _ _
      have := abs_nonneg (y - y')
      have := abs_nonneg (x - x')
      simp only
      linarith) (by norm_num) (by norm_num) exFlow_samples y x hx
  constructor
  · intro v hv
    obtain ⟨z, hz, hn⟩ := k1 v hv
    exact ⟨z, hz, hn.trans (by norm_num)⟩
  · intro v hv
    obtain ⟨z, hz, hn⟩ := k2 v hv
    exact ⟨z, hz, hn.trans (by norm_num)⟩

end Verif
