import Verif.Props.VectorAccuracy
import Verif.Props.OwnData
import Mathlib.Algebra.Order.Round

/-!
# C141: a mesh of smooth data over the antimeridian is near to them
-/

namespace Verif
open Spec

/-! ## Specification -/

/-- At the latitudes of the region `b` the function `f` of latitude and longitude, the same for longitudes 360 degrees apart, changes by at most `ky` per degree of latitude and `kx` per
degree of longitude. -/
structure Spec.SmoothAround (b : Boundary) (f : ℚ → ℚ → ℚ) (ky kx : ℚ) : Prop where
  turn : ∀ y x, f y (x + 360) = f y x
  change : ∀ y x y' x', b.latMin ≤ y → y ≤ b.latMax → b.latMin ≤ y' → y' ≤ b.latMax → |f y x - f y' x'| ≤ ky * |y - y'| + kx * |x - x'|

/-- In all of the box `c` on the circle (without its southern and western edges) the value `z` is as near to `f` as the size of the box `p` allows. -/
def Spec.NearAround (f : ℚ → ℚ → ℚ) (ky kx e : ℚ) (c p : Boundary) (z : ℚ) : Prop :=
  ∀ y x, HCovers c x y → |z - f y x| ≤ e + ky * (p.latMax - p.latMin) + kx * (eastEdge p - p.longMin)

/-- The scalars of the region are those of `f` at their place, up to `e`; missing ones do not matter. -/
def Spec.SamplesAround (b : Boundary) (d : Dataset (Option ℚ)) (f : ℚ → ℚ → ℚ) (e : ℚ) : Prop :=
  ∀ r ∈ rowsAround d b, ∀ v, r.val = some v → |v - f r.lat r.long| ≤ e

/-- The same for the components of vectors. -/
def Spec.VectorSamplesAround (b : Boundary) (d : Dataset Vec) (f g : ℚ → ℚ → ℚ) (e : ℚ) : Prop :=
  ∀ r ∈ rowsAround d b, (∀ v, r.val.1 = some v → |v - f r.lat r.long| ≤ e) ∧ ∀ v, r.val.2 = some v → |v - g r.lat r.long| ≤ e

/-- The box has a value. -/
def Spec.HasValueAround (d : Dataset (Option ℚ)) (q : Boundary) : Prop := ∃ r ∈ rowsAround d q, r.val ≠ none

/-- The box has a complete vector. -/
def Spec.HasVectorAround (d : Dataset Vec) (q : Boundary) : Prop := ∃ r ∈ rowsAround d q, r.val.1 ≠ none ∧ r.val.2 ≠ none

/-! ## Values -/

theorem Spec.SmoothAround.turns {b : Boundary} {f : ℚ → ℚ → ℚ} {ky kx : ℚ} (h : SmoothAround b f ky kx) (y x : ℚ) (n : ℤ) : f y (x + 360 * n) = f y x := by
  induction n using Int.induction_on with
  | zero => simp
  | succ n ih =>
    have := h.turn y (x + 360 * (n : ℤ))
    rw [ih] at this
    rw [← this]
    congr 1
    push_cast
    ring
  | pred n ih =>
    have := h.turn y (x + 360 * ((-(n : ℤ) - 1 : ℤ) : ℚ))
    rw [← this, ← ih]
    congr 1
    push_cast
    ring

/-- The boxes of a line lie in each other. -/
theorem turn_lineage_within {b : Boundary} (hw : ∀ p q, Around b p → q ∈ turnQuarters p → Around b q ∧ Within q p) {start : Boundary → Prop} {l : List Boundary}
    (h : LineageBy turnQuarters start l) (ha : ∀ q ∈ l, Around b q) : l.Pairwise Within := by
  induction h with
  | root _ => simp
  | @quarter q p t _ hq ih =>
    have i1 := ih (fun r hr => ha r (List.mem_cons_of_mem _ hr))
    have hn := (hw p q (ha p (by simp)) hq).2
    refine List.pairwise_cons.2 ⟨?_, i1⟩
    intro r hr
    rcases List.mem_cons.1 hr with rfl | hr
    · exact hn
    · exact hn.trans ((List.pairwise_cons.1 i1).1 r hr)

/-- Two points of a box on the circle. -/
theorem near_box {b p : Boundary} (hpb : Within p b) {f : ℚ → ℚ → ℚ} {ky kx : ℚ} (hs : SmoothAround b f ky kx) (hky : 0 ≤ ky) (hkx : 0 ≤ kx) {x y x' y' : ℚ}
    (h : HCovers p x y) (h' : HCovers p x' y') : |f y x - f y' x'| ≤ ky * (p.latMax - p.latMin) + kx * (eastEdge p - p.longMin) := by
  obtain ⟨-, k1, k2⟩ := hpb.1 _ _ h
  obtain ⟨-, k3, k4⟩ := hpb.1 _ _ h'
  obtain ⟨⟨n, n1, n2⟩, n3, n4⟩ := h
  obtain ⟨⟨m, m1, m2⟩, m3, m4⟩ := h'
  have := hs.change y (x + 360 * n) y' (x' + 360 * m) k1.le k2 k3.le k4
  rw [hs.turns, hs.turns] at this
  have b1 : |y - y'| ≤ p.latMax - p.latMin := abs_le.2 ⟨by linarith, by linarith⟩
  have b2 : |x + 360 * n - (x' + 360 * m)| ≤ eastEdge p - p.longMin := abs_le.2 ⟨by linarith, by linarith⟩
  have c1 := mul_le_mul_of_nonneg_left b1 hky
  have c2 := mul_le_mul_of_nonneg_left b2 hkx
  linarith

theorem filled_near_around {V : Type} {b : Boundary} (hb : Valid b) {d : Dataset V} {π : V → Option ℚ} {f : ℚ → ℚ → ℚ} {ky kx e : ℚ} (hs : SmoothAround b f ky kx) (hky : 0 ≤ ky)
    (hkx : 0 ≤ kx) (hdom : ∀ r ∈ d.rows, -180 < r.long ∧ r.long ≤ 180) (hd : ∀ r ∈ rowsAround d b, ∀ v, π r.val = some v → |v - f r.lat r.long| ≤ e)
    {value : Boundary → Option ℚ} {c : Boundary} {anc : List Boundary} (n1 : (c :: anc).Pairwise Within) (n2 : ∀ q ∈ c :: anc, Around b q)
    (hval : ∀ q ∈ c :: anc, ∀ z, value q = some z →
      ∃ u ∈ (rowsAround d q).filterMap (fun r => π r.val), ∃ w ∈ (rowsAround d q).filterMap (fun r => π r.val), u ≤ z ∧ z ≤ w)
    {v : Option ℚ} (hfil : IsFirst ((c :: anc).map value) v) {p : Boundary} (hp : p ∈ c :: anc) (hz : value p ≠ none) :
    ∃ z, v = some z ∧ NearAround f ky kx e c p z := by
  have hcp : Within c p := by
    rcases List.mem_cons.1 hp with rfl | h
    · exact .refl _
    · exact (List.pairwise_cons.1 n1).1 p h
  rcases hfil with ⟨pre, z, post, e1, e2, e3⟩ | ⟨e1, -⟩
  · obtain ⟨l1, l2, q1, q2, q3⟩ := List.map_eq_append_iff.1 e1
    obtain ⟨q, l3, rfl, q4, q5⟩ := List.map_eq_cons_iff.1 q3
    have hq : q ∈ c :: anc := by rw [q1]; simp
    have hqp : Within q p := by
      rw [q1] at hp n1
      rcases List.mem_append.1 hp with h | h
      · exact absurd (e2 (value p) (by rw [← q2]; exact List.mem_map.2 ⟨p, h, rfl⟩)) hz
      · rcases List.mem_cons.1 h with rfl | h
        · exact .refl _
        · exact (List.pairwise_cons.1 (List.pairwise_append.1 n1).2.1).1 p h
    refine ⟨z, e3, ?_⟩
    intro y x hm
    obtain ⟨u, hu, w, hw, k1, k2⟩ := hval q hq z q4
    have hpb := (n2 p hp).2.2
    have key : ∀ v ∈ (rowsAround d q).filterMap (fun r => π r.val), |v - f y x| ≤ e + ky * (p.latMax - p.latMin) + kx * (eastEdge p - p.longMin) := by
      intro v hv
      obtain ⟨r, hr, hv⟩ := List.mem_filterMap.1 hv
      obtain ⟨m1, m2⟩ := List.mem_filter.1 hr
      obtain ⟨g1, g2⟩ := (aroundBox_iff d (n2 q hq).1.1 (n2 q hq).2.2.2 r (hdom r m1)).1 m2
      have hrb : r ∈ rowsAround d b := List.mem_filter.2 ⟨m1, (aroundBox_iff d hb rfl r (hdom r m1)).2 ⟨(n2 q hq).2.2.1 _ _ g1, g2⟩⟩
      have a1 := hd r hrb v hv
      have a2 := near_box hpb hs hky hkx (hqp.1 _ _ g1) (hcp.1 _ _ hm)
      have := abs_sub_le v (f r.lat r.long) (f y x)
      linarith
    exact near_between (key u hu) (key w hw) k1 k2
  · exact absurd (e1 _ (List.mem_map.2 ⟨p, hp, rfl⟩)) hz

/-! ## C141 -/

/-- **C141**: over an accepted region that crosses the antimeridian, let a mesh be built from scalar and vector sources with gridded data, and let the data of one of the scalar sources,
which has a name of its own, be samples of a function on the circle of longitudes that changes by at most `ky` per degree of latitude and `kx` per degree of longitude, up to `e`.  A cell
with data of its own has a value that is, at all points of the cell on either side of the antimeridian, near to the function up to `e`, `ky` times the height and `kx` times the width of
the cell.  If cells are filled from the boxes they were split from, the same holds with the size of every such box that has data. -/
theorem C141_near {b : Boundary} {W H : ℚ} {full : List (Source AnyData AnyCond)} (hf : ∀ s ∈ full, AroundAny b s)
    (hid : (full.map (fun s => s.loader.id)).Nodup)
    (config : MeshConfig) (hp : ProperGrid b W H) (hcr : b.longMax ≤ b.longMin) (hh : b.latMin < b.latMax)
    (hcol : b.width = 360 → W ≤ 180) (hacc : MeshBuilder.validateBounds b W H = .ok ()) (depth : ℕ) :
    ∃ m0, MeshBuilder.init b W H (fun q => trimSources q full) depth = .ok m0 ∧ ∃ N em, EnvTiles em b ∧
      (∀ fuel, N ≤ fuel → MeshBuilder.buildEnvironmentalMesh (sourceOps AnyData AnyCond) aggregate fuel config m0 = .ok em) ∧
      ∀ s id name agg minDp, Source.ofScalar s ∈ full → s.loader = scalarLoader id name agg minDp →
        agg ∈ [AggType.min, .max, .mean, .median] → (∀ t ∈ full, name ∈ splitName t.loader.dataName → t = .ofScalar s) →
        ∀ f ky kx e, SmoothAround b f ky kx → 0 ≤ ky → 0 ≤ kx → SamplesAround b s.subset f e →
        ∀ c ∈ em.cells, ∃ anc, LineageBy turnQuarters (TurnGridBox b W H) (c.bounds :: anc) ∧ ∃ v, c.data.get? name = some (.num v) ∧
          (HasValueAround s.subset c.bounds → ∃ z, v = some z ∧ NearAround f ky kx e c.bounds c.bounds z) ∧
          (s.fill = .parent → ∀ p ∈ c.bounds :: anc, HasValueAround s.subset p → ∃ z, v = some z ∧ NearAround f ky kx e c.bounds p z) := by
  obtain ⟨value, hvalue, m0, h0, N, em, h1, -, h2, h3⟩ := C113_values hf hid config hp hcr hh hcol hacc depth
  refine ⟨m0, h0, N, em, h1, h2, fun s i name agg minDp hs e hagg hu f ky kx ε hsm hky hkx hd c hc => ?_⟩
  have hdom := (hf _ hs).scalarComma.2.longs
  have hname : (Source.ofScalar s).loader.dataName = name := by
    show s.loader.dataName = name
    rw [e]; rfl
  have hcomma : ',' ∉ name.toList := by
    obtain ⟨⟨_, name', _, _, e', hn⟩, -⟩ := (hf _ hs).scalarComma
    have : name = name' := by rw [e] at e'; exact congrArg Loader.dataName e'
    rwa [this]
  have hmem : name ∈ splitName (Source.ofScalar s).loader.dataName := by rw [hname, splitName_single hcomma]; simp
  obtain ⟨anc, a1, a0, w, a2, a3⟩ := h3 c hc
  obtain ⟨v, hv, hm⟩ := (a3 name).2 ⟨_, hs, hmem⟩
  have hw := merged_only hid hs hmem hu (by rw [hname]; exact hcomma) hm
  have hst : ∀ q ∈ c.bounds :: anc, _ := fun q hq => statistic_within hagg (gives_around_scalar (hvalue _ hs q (a1 q hq)) e (by
      simp only [List.mem_cons, List.not_mem_nil, or_false] at hagg ⊢
      tauto))
  have hsome : ∀ q ∈ c.bounds :: anc, HasValueAround s.subset q → value (.ofScalar s) q name ≠ none := by
    rintro q hq ⟨r, hr, hrv⟩
    obtain ⟨u, hu⟩ := Option.ne_none_iff_exists'.1 hrv
    exact (hst q hq).1 (List.ne_nil_of_mem (List.mem_filterMap.2 ⟨_, List.mem_map_of_mem hr, hu⟩))
  have hval : ∀ q ∈ c.bounds :: anc, ∀ z, value (.ofScalar s) q name = some z →
      ∃ u ∈ (rowsAround s.subset q).filterMap (fun r => id r.val), ∃ w ∈ (rowsAround s.subset q).filterMap (fun r => id r.val), u ≤ z ∧ z ≤ w := by
    intro q hq z hz
    have := (hst q hq).2 z hz
    unfold presentValues at this
    rwa [List.filterMap_map] at this
  have n1 := turn_lineage_within (around_system hp hcol hacc).within a0 a1
  have hfil := a2 _ hs name hmem
  rw [← hw] at hfil
  refine ⟨anc, a0, v, hv, fun hown => ?_, fun hpar p hp' hown => ?_⟩
  · obtain ⟨z, hz⟩ := Option.ne_none_iff_exists'.1 (hsome _ List.mem_cons_self hown)
    have hvz : v = some z := filled_own hfil hz
    exact filled_near_around (π := id) (anc := []) (value := fun q => value (.ofScalar s) q name) hp.valid hsm hky hkx hdom (fun r hr v hv => hd r hr v hv) (by simp) (fun q hq => a1 q (by simp_all))
      (fun q hq => hval q (by simp_all)) (v := v) (Or.inl ⟨[], z, [], by simp [hz], by simp, hvz⟩) (List.mem_cons_self) (by simp [hz])
  · have hfill : (Source.ofScalar s).fill = .parent := hpar
    unfold Filled at hfil
    rw [hfill] at hfil
    exact filled_near_around (π := id) hp.valid hsm hky hkx hdom (fun r hr v hv => hd r hr v hv) n1 a1 hval hfil hp' (hsome p hp' hown)

/-- **C141**, vectors: the same for both components of a vector source with names of its own, with every box that has a complete vector. -/
theorem C141_vectors {b : Boundary} {W H : ℚ} {full : List (Source AnyData AnyCond)} (hf : ∀ s ∈ full, AroundAny b s)
    (hid : (full.map (fun s => s.loader.id)).Nodup)
    (config : MeshConfig) (hp : ProperGrid b W H) (hcr : b.longMax ≤ b.longMin) (hh : b.latMin < b.latMax)
    (hcol : b.width = 360 → W ≤ 180) (hacc : MeshBuilder.validateBounds b W H = .ok ()) (depth : ℕ) :
    ∃ m0, MeshBuilder.init b W H (fun q => trimSources q full) depth = .ok m0 ∧ ∃ N em, EnvTiles em b ∧
      (∀ fuel, N ≤ fuel → MeshBuilder.buildEnvironmentalMesh (sourceOps AnyData AnyCond) aggregate fuel config m0 = .ok em) ∧
      ∀ s id name agg hom x y, Source.ofVector s ∈ full → s.loader = vectorLoader id name agg hom → splitName name = [x, y] →
        agg ∈ [AggType.min, .max, .mean] →
        (∀ t ∈ full, x ∈ splitName t.loader.dataName ∨ y ∈ splitName t.loader.dataName → t = .ofVector s) →
        ∀ f g ky kx e, SmoothAround b f ky kx → SmoothAround b g ky kx → 0 ≤ ky → 0 ≤ kx → VectorSamplesAround b s.subset f g e →
        ∀ c ∈ em.cells, ∃ anc, LineageBy turnQuarters (TurnGridBox b W H) (c.bounds :: anc) ∧ ∃ v v', c.data.get? x = some (.num v) ∧
          c.data.get? y = some (.num v') ∧ ∀ p ∈ c.bounds :: anc, HasVectorAround s.subset p →
            (∃ z, v = some z ∧ NearAround f ky kx e c.bounds p z) ∧ ∃ z, v' = some z ∧ NearAround g ky kx e c.bounds p z := by
  obtain ⟨value, hvalue, m0, h0, N, em, h1, -, h2, h3⟩ := C113_values hf hid config hp hcr hh hcol hacc depth
  refine ⟨m0, h0, N, em, h1, h2, fun s id name agg hom x y hs e hn hagg hu f g ky kx ε hsm hsm' hky hkx hd c hc => ?_⟩
  have hdom := (hf _ hs).vectorGrid.2.longs
  have hfill : (Source.ofVector s).fill = .parent := (hf _ hs).vectorFill
  have hname : (Source.ofVector s).loader.dataName = name := by
    show s.loader.dataName = name
    rw [e]; rfl
  have hmx : x ∈ splitName (Source.ofVector s).loader.dataName := by rw [hname, hn]; simp
  have hmy : y ∈ splitName (Source.ofVector s).loader.dataName := by rw [hname, hn]; simp
  obtain ⟨anc, a1, a0, w, a2, a3⟩ := h3 c hc
  obtain ⟨v, hv, hm⟩ := (a3 x).2 ⟨_, hs, hmx⟩
  obtain ⟨v', hv', hm'⟩ := (a3 y).2 ⟨_, hs, hmy⟩
  have e1 := merged_single hid hs hmx (fun t ht h => hu t ht (Or.inl h)) hm
  have e2 := merged_single hid hs hmy (fun t ht h => hu t ht (Or.inr h)) hm'
  have f1 : IsFirst ((c.bounds :: anc).map (fun q => value (.ofVector s) q x)) v := by
    have := a2 _ hs x hmx
    rw [hfill, ← e1] at this
    exact this
  have f2 : IsFirst ((c.bounds :: anc).map (fun q => value (.ofVector s) q y)) v' := by
    have := a2 _ hs y hmy
    rw [hfill, ← e2] at this
    exact this
  have n1 := turn_lineage_within (around_system hp hcol hacc).within a0 a1
  have hst : ∀ q ∈ c.bounds :: anc, _ := fun q hq => vector_within hagg (gives_around_vector (hvalue _ hs q (a1 q hq)) e hn (by
      simp only [List.mem_cons, List.not_mem_nil, or_false] at hagg ⊢
      tauto))
  refine ⟨anc, a0, v, v', hv, hv', fun p hp' ⟨r, hr, hr1, hr2⟩ => ?_⟩
  have hsome := (hst p hp').1 (by
    obtain ⟨u, hu⟩ := Option.ne_none_iff_exists'.1 hr1
    obtain ⟨u', hu'⟩ := Option.ne_none_iff_exists'.1 hr2
    refine List.ne_nil_of_mem (mem_complete (p := (u, u')) |>.2 (List.mem_map.2 ⟨r, hr, ?_⟩))
    rw [← hu, ← hu'])
  constructor
  · refine filled_near_around (π := Prod.fst) hp.valid hsm hky hkx hdom (fun r hr => (hd r hr).1) n1 a1 (fun q hq z hz => ?_) f1 hp' hsome.1
    have := (hst q hq).2.1 z hz
    rwa [List.filterMap_map] at this
  · refine filled_near_around (π := Prod.snd) hp.valid hsm' hky hkx hdom (fun r hr => (hd r hr).2) n1 a1 (fun q hq z hz => ?_) f2 hp' hsome.2
    have := (hst q hq).2.2 z hz
    rwa [List.filterMap_map] at this

/-- A line of boxes on the circle begins with a box of the grid, and all are boxes of the region. -/
theorem turn_lineage_start {b : Boundary} {W H : ℚ} (hp : ProperGrid b W H) (hcol : b.width = 360 → W ≤ 180) (hacc : MeshBuilder.validateBounds b W H = .ok ())
    {l : List Boundary} (h : LineageBy turnQuarters (TurnGridBox b W H) l) : (∃ p ∈ l, TurnGridBox b W H p) ∧ ∀ q ∈ l, Around b q := by
  have hS := around_system hp hcol hacc
  induction h with
  | root hq => exact ⟨⟨_, by simp, hq⟩, fun q hm => by rw [List.mem_singleton] at hm; subst hm; exact hS.first _ hq⟩
  | @quarter q p t _ hq ih =>
    obtain ⟨⟨r, r1, r2⟩, ih⟩ := ih
    refine ⟨⟨r, List.mem_cons_of_mem _ r1, r2⟩, fun z hz => ?_⟩
    rcases List.mem_cons.1 hz with rfl | hz
    · exact (hS.within _ _ (ih p (by simp)) hq).1
    · exact ih z hz

/-- The size of a box of the grid. -/
theorem turnGridBox_size {b : Boundary} {W H : ℚ} (hW : 0 < W) (hs : W < 360) {q : Boundary} (h : TurnGridBox b W H q) :
    q.latMax - q.latMin = H ∧ eastEdge q - q.longMin = W := by
  obtain ⟨i, j, rfl, -, -⟩ := h
  refine ⟨by simp, ?_⟩
  simp only [eastEdge, turnBack]
  split_ifs <;> linarith

/-- What is read off the antimeridian is what the cell around the point has. -/
theorem readAt_around {m : EnvMesh} {b : Boundary} (hids : (m.cells.map (·.id)).Nodup) (ht : EnvTiles m b) (hv : ∀ c ∈ m.cells, Valid c.bounds) {x y : ℚ}
    (hx : -180 < x ∧ x < 180) {key : String} {v : Option Val} (h : ReadAt m y x key v) : ∃ c ∈ m.cells, HCovers c.bounds x y ∧ c.data.get? key = v := by
  obtain ⟨i, c, h1, h2, h3⟩ := h
  obtain ⟨c', hm, rfl, hs⟩ := ((C35_query_partial m b ht hv x y ⟨hx.1.le, hx.2.le⟩ (Or.inr hx)).1 i).1 h1
  have e : c.id = c'.id := by simpa using List.find?_some h2
  have := List.inj_on_of_nodup_map hids (List.mem_of_find?_eq_some h2) hm e
  subst this
  exact ⟨c, hm, hs.hcovers, h3⟩

/-- The cells of a mesh built over the antimeridian have different numbers. -/
theorem around_ids {b : Boundary} {W H : ℚ} {full : List (Source AnyData AnyCond)} {config : MeshConfig} (hp : ProperGrid b W H) (hcr : b.longMax ≤ b.longMin)
    (hh : b.latMin < b.latMax) (hcol : b.width = 360 → W ≤ 180) (hacc : MeshBuilder.validateBounds b W H = .ok ()) {depth N : ℕ}
    {m0 : MeshState (List (Source AnyData AnyCond))} {em : EnvMesh} (h0 : MeshBuilder.init b W H (fun q => trimSources q full) depth = .ok m0)
    (h : ∀ fuel, N ≤ fuel → MeshBuilder.buildEnvironmentalMesh (sourceOps AnyData AnyCond) aggregate fuel config m0 = .ok em) : (em.cells.map (·.id)).Nodup := by
  obtain ⟨m0', h0', N', hC⟩ := C52_crossing_partial (sourceOps AnyData AnyCond) aggregate config b W H hp hcr hh hcol hacc (fun q => trimSources q full) depth
  have e0 : m0' = m0 := by rw [h0] at h0'; simpa using h0'.symm
  subst e0
  rcases hC (max N N') (by omega) with ⟨em', m', h1, -, -, -, h5, -⟩ | ⟨e, h1, -⟩
  · rw [h _ (by omega)] at h1
    cases h1
    exact h5
  · rw [h _ (by omega)] at h1
    cases h1

/-- **C141**, what is read: if cells are filled from the boxes they were split from and every box of the initial grid has data, then whatever is read from the mesh at any point that is
not on the antimeridian itself is near to the function at that point, up to `e`, `ky` times the height and `kx` times the width of the boxes of the grid. -/
theorem C141_read {b : Boundary} {W H : ℚ} {full : List (Source AnyData AnyCond)} (hf : ∀ s ∈ full, AroundAny b s)
    (hid : (full.map (fun s => s.loader.id)).Nodup)
    (config : MeshConfig) (hp : ProperGrid b W H) (hcr : b.longMax ≤ b.longMin) (hh : b.latMin < b.latMax)
    (hcol : b.width = 360 → W ≤ 180) (hacc : MeshBuilder.validateBounds b W H = .ok ()) (depth : ℕ) :
    ∃ m0, MeshBuilder.init b W H (fun q => trimSources q full) depth = .ok m0 ∧ ∃ N em,
      (∀ fuel, N ≤ fuel → MeshBuilder.buildEnvironmentalMesh (sourceOps AnyData AnyCond) aggregate fuel config m0 = .ok em) ∧
      ∀ s id name agg minDp, Source.ofScalar s ∈ full → s.loader = scalarLoader id name agg minDp →
        agg ∈ [AggType.min, .max, .mean, .median] → (∀ t ∈ full, name ∈ splitName t.loader.dataName → t = .ofScalar s) →
        s.fill = .parent → (∀ q, TurnGridBox b W H q → HasValueAround s.subset q) →
        ∀ f ky kx e, SmoothAround b f ky kx → 0 ≤ ky → 0 ≤ kx → SamplesAround b s.subset f e →
        ∀ y x, -180 < x ∧ x < 180 → ∀ v, ReadAt em y x name v → ∃ z, v = some (.num (some z)) ∧ |z - f y x| ≤ e + ky * H + kx * W := by
  obtain ⟨m0, h0, N, em, h1, h2, h3⟩ := C141_near hf hid config hp hcr hh hcol hacc depth
  refine ⟨m0, h0, N, em, h2, fun s id name agg minDp hs e hagg hu hfill hgrid f ky kx ε hsm hky hkx hd y x hx v hr => ?_⟩
  have hcell := h3 s id name agg minDp hs e hagg hu f ky kx ε hsm hky hkx hd
  obtain ⟨c, hc, hi, hv⟩ := readAt_around (around_ids hp hcr hh hcol hacc h0 h2) h1 (fun c hc => by
    obtain ⟨anc, a1, -⟩ := hcell c hc
    exact ((turn_lineage_start hp hcol hacc a1).2 _ List.mem_cons_self).1.1) hx hr
  obtain ⟨anc, a1, w, a2, -, a3⟩ := hcell c hc
  obtain ⟨p, p1, p2⟩ := (turn_lineage_start hp hcol hacc a1).1
  obtain ⟨z, rfl, hz⟩ := a3 hfill p p1 (hgrid p p2)
  have := hz y x hi
  obtain ⟨g1, g2⟩ := turnGridBox_size hp.wpos (cell_small hp hcol hacc) p2
  rw [g1, g2] at this
  exact ⟨z, by rw [← hv, a2], this⟩

/-- **C141**, what is read of vectors: the same for both components, if every box of the initial grid has a complete vector. -/
theorem C141_read_vectors {b : Boundary} {W H : ℚ} {full : List (Source AnyData AnyCond)} (hf : ∀ s ∈ full, AroundAny b s)
    (hid : (full.map (fun s => s.loader.id)).Nodup)
    (config : MeshConfig) (hp : ProperGrid b W H) (hcr : b.longMax ≤ b.longMin) (hh : b.latMin < b.latMax)
    (hcol : b.width = 360 → W ≤ 180) (hacc : MeshBuilder.validateBounds b W H = .ok ()) (depth : ℕ) :
    ∃ m0, MeshBuilder.init b W H (fun q => trimSources q full) depth = .ok m0 ∧ ∃ N em,
      (∀ fuel, N ≤ fuel → MeshBuilder.buildEnvironmentalMesh (sourceOps AnyData AnyCond) aggregate fuel config m0 = .ok em) ∧
      ∀ s id name agg hom n n', Source.ofVector s ∈ full → s.loader = vectorLoader id name agg hom → splitName name = [n, n'] →
        agg ∈ [AggType.min, .max, .mean] →
        (∀ t ∈ full, n ∈ splitName t.loader.dataName ∨ n' ∈ splitName t.loader.dataName → t = .ofVector s) →
        (∀ q, TurnGridBox b W H q → HasVectorAround s.subset q) →
        ∀ f g ky kx e, SmoothAround b f ky kx → SmoothAround b g ky kx → 0 ≤ ky → 0 ≤ kx → VectorSamplesAround b s.subset f g e →
        ∀ y x, -180 < x ∧ x < 180 → (∀ v, ReadAt em y x n v → ∃ z, v = some (.num (some z)) ∧ |z - f y x| ≤ e + ky * H + kx * W) ∧
          ∀ v, ReadAt em y x n' v → ∃ z, v = some (.num (some z)) ∧ |z - g y x| ≤ e + ky * H + kx * W := by
  obtain ⟨m0, h0, N, em, h1, h2, h3⟩ := C141_vectors hf hid config hp hcr hh hcol hacc depth
  refine ⟨m0, h0, N, em, h2, fun s id name agg hom n n' hs e hn hagg hu hgrid f g ky kx ε hsm hsm' hky hkx hd y x hx => ?_⟩
  have hcell := h3 s id name agg hom n n' hs e hn hagg hu f g ky kx ε hsm hsm' hky hkx hd
  have hat : ∀ key v, ReadAt em y x key v → _ := fun key v hr => readAt_around (around_ids hp hcr hh hcol hacc h0 h2) h1 (fun c hc => by
    obtain ⟨anc, a1, -⟩ := hcell c hc
    exact ((turn_lineage_start hp hcol hacc a1).2 _ List.mem_cons_self).1.1) hx hr
  constructor <;> intro v hr <;> obtain ⟨c, hc, hi, hv⟩ := hat _ v hr <;> obtain ⟨anc, a1, w, w', a2, a2', a3⟩ := hcell c hc <;>
    obtain ⟨p, p1, p2⟩ := (turn_lineage_start hp hcol hacc a1).1 <;> obtain ⟨⟨z, rfl, hz⟩, z', rfl, hz'⟩ := a3 p p1 (hgrid p p2) <;>
    obtain ⟨g1, g2⟩ := turnGridBox_size hp.wpos (cell_small hp hcol hacc) p2
  · have := hz y x hi
    rw [g1, g2] at this
    exact ⟨z, by rw [← hv, a2], this⟩
  · have := hz' y x hi
    rw [g1, g2] at this
    exact ⟨z', by rw [← hv, a2'], this⟩

/-! ## Examples -/

/-- The latitude plus the distance from the meridian of Greenwich, in degrees. -/
def exTent (y x : ℚ) : ℚ := y + 360 * |x / 360 - round (x / 360)|

theorem exTent_smooth (b : Boundary) : SmoothAround b exTent 1 1 := by
  refine ⟨?_, ?_⟩
  · intro y x
    have : (x + 360) / 360 = x / 360 + 1 := by ring
    unfold exTent
    rw [this, round_add_one]
    push_cast
    congr 3
    ring
  · intro y x y' x' _ _ _ _
    have key : ∀ u w : ℚ, |u - round u| - |w - round w| ≤ |u - w| := by
      intro u w
      have h1 := round_le u (round w)
      have h2 := abs_sub_le u w (round w)
      linarith
    have k1 := key (x / 360) (x' / 360)
    have k2 := key (x' / 360) (x / 360)
    have e1 : 360 * |x / 360 - x' / 360| = |x - x'| := by
      rw [← sub_div, abs_div, abs_of_pos (by norm_num : (0 : ℚ) < 360)]
      field_simp
    rw [abs_sub_comm (x' / 360) (x / 360)] at k2
    have h3 := le_abs_self (y - y')
    have h4 := neg_abs_le (y - y')
    unfold exTent
    rw [abs_le]
    constructor <;> linarith

/-- Gridded data with its values on both sides of the antimeridian; one of the points has none. -/
def exTentGrid : Grid (Option ℚ) := ⟨[5, 10, 15], [-175, -170, 0, 170, 175, 180], none, fun y x _ => if y = 15 ∧ x = 180 then none else some (y + |x|)⟩

/-- Their means; cells with values on both sides of 187 are split. -/
def exTentSource : Source (Dataset (Option ℚ)) Cond := ⟨scalarLoader 0 "a" .mean 1, [⟨187, 0, 1, false⟩], .parent, .grid exTentGrid⟩

def exTentSources : List (Source AnyData AnyCond) := [.ofScalar exTentSource]

theorem exTentSources_all : ∀ s ∈ exTentSources, AroundAny exAroundRegion s := by
  intro s hs
  simp only [exTentSources, List.mem_cons, List.not_mem_nil, or_false] at hs
  subst hs
  have hs : (Dataset.grid exTentGrid).Sorted := by unfold Dataset.Sorted; constructor <;> decide +kernel
  exact .scalar rfl (by decide) (by simp) (Or.inl rfl) ⟨⟨_, rfl, by decide +kernel⟩, hs, _, trim_eq hs (by intro h; cases h)⟩

theorem exTent_samples : SamplesAround exAroundRegion (.grid exTentGrid) exTent 0 := by
  have : ∀ r ∈ rowsAround (.grid exTentGrid) exAroundRegion, r.val.all (fun v => decide (|v - exTent r.lat r.long| ≤ 0)) = true := by decide +kernel
  intro r hr v hv
  have := this r hr
  rw [hv] at this
  exact of_decide_eq_true this

theorem exTent_has : HasValueAround (.grid exTentGrid) ⟨0, 10, 175, -175, []⟩ := by
  have : (rowsAround (.grid exTentGrid) ⟨0, 10, 175, -175, []⟩).any (fun r => r.val.isSome) = true := by decide +kernel
  obtain ⟨r, hr, hv⟩ := List.any_eq_true.1 this
  exact ⟨r, hr, by intro h; rw [h] at hv; cases hv⟩

/-- The hypotheses of C141 hold: every cell of the mesh that was split from the box across the antimeridian, or is that box, is near to the function up to 20. -/
example : ∃ m0, MeshBuilder.init exAroundRegion 10 10 (fun q => trimSources q exTentSources) 2 = .ok m0 ∧ ∃ N em,
    (∀ fuel, N ≤ fuel → MeshBuilder.buildEnvironmentalMesh (sourceOps AnyData AnyCond) aggregate fuel exConfig m0 = .ok em) ∧
    ∀ c ∈ em.cells, ∃ anc, LineageBy turnQuarters (TurnGridBox exAroundRegion 10 10) (c.bounds :: anc) ∧
      (⟨0, 10, 175, -175, []⟩ ∈ c.bounds :: anc → ∃ z, c.data.get? "a" = some (.num (some z)) ∧ ∀ y x, HCovers c.bounds x y → |z - exTent y x| ≤ 20) := by
  have hw : exAroundRegion.width ≠ 360 := by decide +kernel
  obtain ⟨m0, h0, N, em, -, h1, h2⟩ := C141_near (W := 10) (H := 10) exTentSources_all (by decide) exConfig exAroundRegion_proper
    (by norm_num [exAroundRegion]) (by norm_num [exAroundRegion]) (fun h => absurd h hw) (by decide +kernel) 2
  refine ⟨m0, h0, N, em, h1, fun c hc => ?_⟩
  obtain ⟨anc, a0, v, hv, -, a1⟩ := h2 exTentSource 0 "a" .mean 1 (by simp [exTentSources]) rfl (by simp) (by
      intro t ht _
      simpa [exTentSources] using ht) exTent 1 1 0 (exTent_smooth _) (by norm_num) (by norm_num) exTent_samples c hc
  refine ⟨anc, a0, fun hm => ?_⟩
  obtain ⟨z, rfl, hz⟩ := a1 rfl _ hm exTent_has
  refine ⟨z, hv, fun y x h => (hz y x h).trans ?_⟩
  norm_num [eastEdge]

/-- The values of the mesh: the box across the antimeridian is split along it. -/
example : (do
    let m ← MeshBuilder.init exAroundRegion 10 10 (fun q => trimSources q exTentSources) 2
    let em ← MeshBuilder.buildEnvironmentalMesh (sourceOps AnyData AnyCond) aggregate 20 exConfig m
    return em.cells.map (fun c => (c.bounds.longMin, c.bounds.latMin, c.data.get? "a")) : Py (List (ℚ × ℚ × Option Val))) =
    .ok [(-175, 0, some (.num (some (355 / 2)))), (175, 10, some (.num (some 190))), (-175, 10, some (.num (some 185))), (175, 5, some (.num (some 190))), (180, 5, some (.num (some 185))), (175, 0, some (.num (some 185))), (180, 0, some (.num (some 180)))] := by decide +kernel

/-- Vectors of the same values, with the components exchanged in sign; one of them is incomplete. -/
def exTentFlow : Source (Dataset Vec) VectorHom.Conds := vectorSource 1 "u,v" .mean 1 [] .parent
  (.grid ⟨[5, 10, 15], [-175, -170, 180], none, fun y x _ => (some (y + |x|), if y = 10 ∧ x = 180 then none else some (-(y + |x|)))⟩)

theorem exTentFlow_all : ∀ s ∈ [Source.ofVector exTentFlow], AroundAny exAroundRegion s := by
  intro s hs
  rw [List.mem_singleton] at hs
  subst hs
  have hs : exTentFlow.subset.Sorted := by unfold Dataset.Sorted; constructor <;> decide +kernel
  exact .vector (x := "u") (y := "v") rfl (by decide +kernel) (by decide) (by simp) rfl rfl ⟨⟨_, rfl, by decide +kernel⟩, hs, _, trim_eq hs (by intro h; cases h)⟩

theorem exTent_neg (b : Boundary) : SmoothAround b (fun y x => -exTent y x) 1 1 := by
  obtain ⟨h1, h2⟩ := exTent_smooth b
  refine ⟨fun y x => by rw [h1], fun y x y' x' a1 a2 a3 a4 => ?_⟩
  rw [neg_sub_neg, abs_sub_comm]
  exact h2 y x y' x' a1 a2 a3 a4

theorem exTentFlow_samples : VectorSamplesAround exAroundRegion exTentFlow.subset exTent (fun y x => -exTent y x) 0 := by
  have : ∀ r ∈ rowsAround exTentFlow.subset exAroundRegion, r.val.1.all (fun v => decide (|v - exTent r.lat r.long| ≤ 0)) = true ∧
    r.val.2.all (fun v => decide (|v - -exTent r.lat r.long| ≤ 0)) = true := by decide +kernel
  intro r hr
  obtain ⟨h1, h2⟩ := this r hr
  constructor
  · intro v hv
    rw [hv] at h1
    exact of_decide_eq_true h1
  · intro v hv
    rw [hv] at h2
    exact of_decide_eq_true h2

/-- The hypotheses of C141 hold for vectors: both components in the box across the antimeridian, which is a cell here, are near to the functions up to 20. -/
example : ∃ m0, MeshBuilder.init exAroundRegion 10 10 (fun q => trimSources q [Source.ofVector exTentFlow]) 2 = .ok m0 ∧ ∃ N em,
    (∀ fuel, N ≤ fuel → MeshBuilder.buildEnvironmentalMesh (sourceOps AnyData AnyCond) aggregate fuel exConfig m0 = .ok em) ∧
    ∀ c ∈ em.cells, c.bounds = ⟨0, 10, 175, -175, []⟩ → ∃ z z', c.data.get? "u" = some (.num (some z)) ∧ c.data.get? "v" = some (.num (some z')) ∧
      ∀ y x, HCovers c.bounds x y → |z - exTent y x| ≤ 20 ∧ |z' - -exTent y x| ≤ 20 := by
  have hw : exAroundRegion.width ≠ 360 := by decide +kernel
  obtain ⟨m0, h0, N, em, -, h1, h2⟩ := C141_vectors (W := 10) (H := 10) exTentFlow_all (by decide) exConfig exAroundRegion_proper
    (by norm_num [exAroundRegion]) (by norm_num [exAroundRegion]) (fun h => absurd h hw) (by decide +kernel) 2
  refine ⟨m0, h0, N, em, h1, fun c hc hb => ?_⟩
  obtain ⟨anc, a0, v, v', hv, hv', a1⟩ := h2 exTentFlow 1 "u,v" .mean _ "u" "v" (by simp) rfl (by decide +kernel) (by simp) (by
      intro t ht _
      simpa using ht) exTent _ 1 1 0 (exTent_smooth _) (exTent_neg _) (by norm_num) (by norm_num) exTentFlow_samples c hc
  have hown : HasVectorAround exTentFlow.subset c.bounds := by
    rw [hb]
    have : (rowsAround exTentFlow.subset ⟨0, 10, 175, -175, []⟩).any (fun r => r.val.1.isSome && r.val.2.isSome) = true := by decide +kernel
    obtain ⟨r, hr, hv⟩ := List.any_eq_true.1 this
    rw [Bool.and_eq_true] at hv
    exact ⟨r, hr, Option.isSome_iff_ne_none.1 hv.1, Option.isSome_iff_ne_none.1 hv.2⟩
  obtain ⟨⟨z, rfl, hz⟩, z', rfl, hz'⟩ := a1 _ List.mem_cons_self hown
  rw [hb] at hz hz' ⊢
  refine ⟨z, z', hv, hv', fun y x h => ⟨(hz y x h).trans ?_, (hz' y x h).trans ?_⟩⟩ <;> norm_num [eastEdge]

/-- That box is a cell of that mesh. -/
example : (do
    let m ← MeshBuilder.init exAroundRegion 10 10 (fun q => trimSources q [Source.ofVector exTentFlow]) 2
    let em ← MeshBuilder.buildEnvironmentalMesh (sourceOps AnyData AnyCond) aggregate 20 exConfig m
    return em.cells.any (fun c => decide (c.bounds = ⟨0, 10, 175, -175, []⟩)) : Py Bool) = .ok true := by decide +kernel

/-- The boxes of the grid of the region. -/
theorem exAround_boxes {P : Boundary → Prop} (h : ∀ i < 2, ∀ j < 2, P ⟨exAroundRegion.latMin + (j : ℕ) * 10, exAroundRegion.latMin + j * 10 + 10,
    turnBack (exAroundRegion.longMin + (i : ℕ) * 10), turnBack (exAroundRegion.longMin + i * 10 + 10), exAroundRegion.time⟩) :
    ∀ q, TurnGridBox exAroundRegion 10 10 q → P q := by
  rintro q ⟨i, j, rfl, h1, h2⟩
  norm_num [exAroundRegion, eastEdge] at h1 h2
  have hi : i < 2 := by
    have : (i : ℚ) < 2 := by linarith
    exact_mod_cast this
  have hj : j < 2 := by
    have : (j : ℚ) < 2 := by linarith
    exact_mod_cast this
  exact h i hi j hj

theorem exTent_has_all : ∀ q, TurnGridBox exAroundRegion 10 10 q → HasValueAround (.grid exTentGrid) q := by
  refine exAround_boxes (fun i hi j hj => ?_)
  have key : ∀ i < 2, ∀ j < 2, (rowsAround (.grid exTentGrid) ⟨exAroundRegion.latMin + (j : ℕ) * 10, exAroundRegion.latMin + j * 10 + 10,
    turnBack (exAroundRegion.longMin + (i : ℕ) * 10), turnBack (exAroundRegion.longMin + i * 10 + 10), exAroundRegion.time⟩).any (fun r => r.val.isSome) = true := by
    decide +kernel
  obtain ⟨r, hr, hv⟩ := List.any_eq_true.1 (key i hi j hj)
  exact ⟨r, hr, Option.isSome_iff_ne_none.1 hv⟩

theorem exTentFlow_has_all : ∀ q, TurnGridBox exAroundRegion 10 10 q → HasVectorAround exTentFlow.subset q := by
  refine exAround_boxes (fun i hi j hj => ?_)
  have key : ∀ i < 2, ∀ j < 2, (rowsAround exTentFlow.subset ⟨exAroundRegion.latMin + (j : ℕ) * 10, exAroundRegion.latMin + j * 10 + 10,
    turnBack (exAroundRegion.longMin + (i : ℕ) * 10), turnBack (exAroundRegion.longMin + i * 10 + 10), exAroundRegion.time⟩).any
      (fun r => r.val.1.isSome && r.val.2.isSome) = true := by decide +kernel
  obtain ⟨r, hr, hv⟩ := List.any_eq_true.1 (key i hi j hj)
  rw [Bool.and_eq_true] at hv
  exact ⟨r, hr, Option.isSome_iff_ne_none.1 hv.1, Option.isSome_iff_ne_none.1 hv.2⟩

/-- The hypotheses for what is read hold, and something is read on both sides of the antimeridian. -/
example : ∃ m0, MeshBuilder.init exAroundRegion 10 10 (fun q => trimSources q exTentSources) 2 = .ok m0 ∧ ∃ N em,
    (∀ fuel, N ≤ fuel → MeshBuilder.buildEnvironmentalMesh (sourceOps AnyData AnyCond) aggregate fuel exConfig m0 = .ok em) ∧
    ∀ y x, -180 < x ∧ x < 180 → ∀ v, ReadAt em y x "a" v → ∃ z, v = some (.num (some z)) ∧ |z - exTent y x| ≤ 20 := by
  have hw : exAroundRegion.width ≠ 360 := by decide +kernel
  obtain ⟨m0, h0, N, em, h1, h2⟩ := C141_read (W := 10) (H := 10) exTentSources_all (by decide) exConfig exAroundRegion_proper
    (by norm_num [exAroundRegion]) (by norm_num [exAroundRegion]) (fun h => absurd h hw) (by decide +kernel) 2
  refine ⟨m0, h0, N, em, h1, fun y x hx v hr => ?_⟩
  obtain ⟨z, hz, hn⟩ := h2 exTentSource 0 "a" .mean 1 (by simp [exTentSources]) rfl (by simp) (by
      intro t ht _
      simpa [exTentSources] using ht) rfl exTent_has_all exTent 1 1 0 (exTent_smooth _) (by norm_num) (by norm_num) exTent_samples y x hx v hr
  exact ⟨z, hz, hn.trans (by norm_num)⟩

example : ((do
    let m ← MeshBuilder.init exAroundRegion 10 10 (fun q => trimSources q exTentSources) 2
    let em ← MeshBuilder.buildEnvironmentalMesh (sourceOps AnyData AnyCond) aggregate 20 exConfig m
    let i ← em.queryIndex (7, 179)
    let j ← em.queryIndex (7, -179)
    return ((EnvMesh.getCellbox em.cells i).bind (fun c => c.data.get? "a"), (EnvMesh.getCellbox em.cells j).bind (fun c => c.data.get? "a")) :
      Py (Option Val × Option Val))) = .ok (some (.num (some 190)), some (.num (some 185))) := by decide +kernel

/-- The same for vectors. -/
example : ∃ m0, MeshBuilder.init exAroundRegion 10 10 (fun q => trimSources q [Source.ofVector exTentFlow]) 2 = .ok m0 ∧ ∃ N em,
    (∀ fuel, N ≤ fuel → MeshBuilder.buildEnvironmentalMesh (sourceOps AnyData AnyCond) aggregate fuel exConfig m0 = .ok em) ∧
    ∀ y x, -180 < x ∧ x < 180 → ∀ v, ReadAt em y x "v" v → ∃ z, v = some (.num (some z)) ∧ |z - -exTent y x| ≤ 20 := by
  have hw : exAroundRegion.width ≠ 360 := by decide +kernel
  obtain ⟨m0, h0, N, em, h1, h2⟩ := C141_read_vectors (W := 10) (H := 10) exTentFlow_all (by decide) exConfig exAroundRegion_proper
    (by norm_num [exAroundRegion]) (by norm_num [exAroundRegion]) (fun h => absurd h hw) (by decide +kernel) 2
  refine ⟨m0, h0, N, em, h1, fun y x hx v hr => ?_⟩
  obtain ⟨z, hz, hn⟩ := (h2 exTentFlow 1 "u,v" .mean _ "u" "v" (by simp) rfl (by decide +kernel) (by simp) (by
      intro t ht _
      simpa using ht) exTentFlow_has_all exTent _ 1 1 0 (exTent_smooth _) (exTent_neg _) (by norm_num) (by norm_num) exTentFlow_samples y x hx).2 v hr
  exact ⟨z, hz, hn.trans (by norm_num)⟩

end Verif
