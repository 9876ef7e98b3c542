import Verif.Model.Validation
import Verif.Props.Boundary
import Verif.Props.EnvQuery
import Mathlib.Data.List.Pairwise
import Mathlib.Tactic.Linarith

/-!
# C45, C46, C57, C58: validation and comparison of meshes
-/

namespace Verif
open Spec Validation

/-! ## C45 -/

/-- C45, samples: with as many ranges as dimensions, every coordinate of every sample lies in its range,
and depends on the coordinate in the unit cube by a strictly increasing map from the ends to the ends;
with another number of ranges the sampler raises. -/
theorem C45_samples (d : ℕ) (ranges : List (ℚ × ℚ)) (unit : List (List ℚ)) (hr : ∀ r ∈ ranges, r.1 < r.2)
    (hu : ∀ s ∈ unit, s.length = d ∧ ∀ u ∈ s, 0 ≤ u ∧ u < 1) :
    (ranges.length ≠ d → generateSamples d ranges unit = .error .valueError) ∧
    (ranges.length = d → ∃ out, generateSamples d ranges unit = .ok out ∧ out.length = unit.length ∧
      ∀ (k : ℕ) (s : List ℚ), unit[k]? = some s → ∃ o : List ℚ, out[k]? = some o ∧ o.length = d ∧
        ∀ (i : ℕ) (r : ℚ × ℚ) (u : ℚ), ranges[i]? = some r → s[i]? = some u → ∃ x, o[i]? = some x ∧ r.1 ≤ x ∧ x < r.2 ∧ (x - r.1) / (r.2 - r.1) = u) ∧
    (∀ r ∈ ranges, mapCoord r 0 = r.1 ∧ mapCoord r 1 = r.2 ∧ ∀ u v, u < v → mapCoord r u < mapCoord r v) := by
  refine ⟨fun h => by unfold generateSamples; rw [if_pos h], fun h => ?_, fun r hr' => ?_⟩
  · refine ⟨_, by unfold generateSamples; rw [if_neg (by simpa using h)], by simp, ?_⟩
    intro k s hs
    refine ⟨List.zipWith mapCoord ranges s, by simp [hs], ?_, ?_⟩
    · rw [List.length_zipWith, (hu s (List.mem_of_getElem? hs)).1, h, min_self]
    · intro i r u hi hj
      refine ⟨mapCoord r u, by rw [List.getElem?_zipWith, hi, hj], ?_⟩
      have h1 := hr r (List.mem_of_getElem? hi)
      obtain ⟨u0, u1⟩ := (hu s (List.mem_of_getElem? hs)).2 u (List.mem_of_getElem? hj)
      have hpos : 0 < r.2 - r.1 := by linarith
      unfold mapCoord
      refine ⟨by nlinarith, by nlinarith, ?_⟩
      rw [add_sub_cancel_left, mul_div_assoc, div_self hpos.ne', mul_one]
  · have h1 := hr r hr'
    unfold mapCoord
    refine ⟨by ring, by ring, fun u v huv => ?_⟩
    have hpos : 0 < r.2 - r.1 := by linarith
    nlinarith

/-- C45, clamping (partial): in a mesh that does not cross the antimeridian, the box around a sample of the
mesh can be built, starts at the sample, and covers only points of the mesh.  Missing: meshes that cross. -/
theorem C45_clamped_partial (b : Boundary) (hv : Valid b) (hc : b.longMin < b.longMax) (len : ℚ) (hlen : 0 ≤ len) (lat long : ℚ)
    (h1 : b.latMin ≤ lat ∧ lat ≤ b.latMax) (h2 : b.longMin ≤ long ∧ long ≤ b.longMax) :
    ∃ r, sampleBox b len lat long = .ok r ∧ r.latMin = lat ∧ r.longMin = long ∧ r.time = b.time ∧
      r.latMax = min (lat + len) b.latMax ∧ r.longMax = min (long + len) b.longMax ∧
      (∀ x y, r.longMin ≤ x → x ≤ r.longMax → r.latMin ≤ y → y ≤ r.latMax → Covers b x y) := by
  obtain ⟨v1, v2, v3, v4, v5, v6⟩ := hv
  have e1 : (if lat + len > b.latMax then b.latMax else lat + len) = min (lat + len) b.latMax := by
    split_ifs with h
    · rw [min_eq_right h.le]
    · rw [min_eq_left (by linarith)]
  have e2 : (if long + len > b.longMax then b.longMax else long + len) = min (long + len) b.longMax := by
    split_ifs with h
    · rw [min_eq_right h.le]
    · rw [min_eq_left (by linarith)]
  refine ⟨⟨lat, min (lat + len) b.latMax, long, min (long + len) b.longMax, b.time⟩, ?_, rfl, rfl, rfl, rfl, rfl, ?_⟩
  · unfold sampleBox rangeEnd
    simp only [e1, e2]
    refine (C03_construction_table _ _ _ _).2 ⟨_, _, [], _, _, [], rfl, rfl, ?_, by linarith, ?_, v6, rfl⟩
    · exact le_min (by linarith) h1.2
    · exact le_trans (min_le_right _ _) v5
  · intro x y x1 x2 y1 y2
    simp only at *
    have := min_le_right (long + len) b.longMax
    have := min_le_right (lat + len) b.latMax
    refine ⟨⟨0, ?_, ?_⟩, ?_, ?_⟩
    · simp; linarith
    · simp [eastEdge, hc]; linarith
    · linarith
    · linarith

/-- For a mesh that crosses the antimeridian the claim is false: a sample of the unit square is mapped to a
point outside of the mesh. -/
theorem C45_crossing_false : ∃ b : Boundary, Valid b ∧ ∃ lat long : ℚ,
    generateSamples 2 [(b.latMin, b.latMax), (b.longMin, b.longMax)] [[1 / 2, 1 / 2]] = .ok [[lat, long]] ∧ ¬ Covers b long lat := by
  refine ⟨⟨0, 10, 170, -170, []⟩, by norm_num [Valid], 5, 0, by decide +kernel, ?_⟩
  rintro ⟨⟨n, h1, h2⟩, -⟩
  norm_num [eastEdge] at h1 h2
  have a : (0 : ℚ) < n := by linarith
  have b : (n : ℚ) < 1 := by linarith
  have a' : 0 < n := by exact_mod_cast a
  have b' : n < 1 := by exact_mod_cast b
  omega

example : generateSamples 2 [(-60, -50), (10, 30)] [[0, 0], [1 / 4, 1 / 2], [3 / 4, 9 / 10]] = .ok [[-60, 10], [-115 / 2, 20], [-105 / 2, 28]] ∧
    sampleBox ⟨-60, -50, 10, 30, [1, 2]⟩ (1 / 10) (-501 / 10) (2999 / 100) = .ok ⟨-501 / 10, -50, 2999 / 100, 30, [1, 2]⟩ := by decide +kernel

/-! ## C46 -/

/-- The geometry of some cell. -/
def Spec.HasGeometry (l : List AggCell) (p : Boundary.Poly) : Prop := ∃ c ∈ l, c.bounds.toPolygon = p

/-- What the comparison of boundaries reports: the cells of the second mesh whose geometry is not in the
first one. -/
theorem C46_reports (m1 m2 : List AggCell) (h1 : m1 ≠ []) (h2 : m2 ≠ []) :
    ∃ rows : Rows, compareBoundaries m1 m2 = .ok rows ∧ (∀ p, (∃ d, (p, d) ∈ rows) ↔ Spec.HasGeometry m2 p ∧ ¬ Spec.HasGeometry m1 p) := by
  have e : compareBoundaries m1 m2 = .ok ((m2.map (fun c => (c.bounds.toPolygon, c.data))).filter
      (fun row => row.1 ∉ (m1.map (fun c => (c.bounds.toPolygon, c.data))).map Prod.fst)) := by
    unfold compareBoundaries frame; simp only [if_neg h1, if_neg h2, bind, Except.bind, pure, Except.pure]
  refine ⟨_, e, ?_⟩
  intro p
  simp only [List.mem_filter, List.mem_map, Prod.mk.injEq, List.map_map, Function.comp_def, decide_eq_true_eq, Spec.HasGeometry]
  constructor
  · rintro ⟨d, ⟨c, hc, e1, -⟩, hn⟩
    exact ⟨⟨c, hc, e1⟩, hn⟩
  · rintro ⟨⟨c, hc, e1⟩, hn⟩
    exact ⟨c.data, ⟨c, hc, e1, rfl⟩, hn⟩

theorem compare_nil_iff (m1 m2 : List AggCell) (h1 : m1 ≠ []) (h2 : m2 ≠ []) :
    compareBoundaries m1 m2 = .ok [] ↔ ∀ p, Spec.HasGeometry m2 p → Spec.HasGeometry m1 p := by
  obtain ⟨rows, hr, hp⟩ := C46_reports m1 m2 h1 h2
  rw [hr]
  constructor
  · intro h p hp2
    injection h with h
    subst h
    by_contra hc
    obtain ⟨d, hd⟩ := (hp p).2 ⟨hp2, hc⟩
    cases hd
  · intro h
    congr 1
    rw [List.eq_nil_iff_forall_not_mem]
    rintro ⟨p, d⟩ hd
    obtain ⟨a, b⟩ := (hp p).1 ⟨d, hd⟩
    exact b (h p a)

/-- C46, both ways: two meshes have the same set of geometries exactly when neither comparison reports
anything. -/
theorem C46_both_ways (m1 m2 : List AggCell) (h1 : m1 ≠ []) (h2 : m2 ≠ []) :
    (compareBoundaries m1 m2 = .ok [] ∧ compareBoundaries m2 m1 = .ok []) ↔ ∀ p, Spec.HasGeometry m1 p ↔ Spec.HasGeometry m2 p := by
  rw [compare_nil_iff m1 m2 h1 h2, compare_nil_iff m2 m1 h2 h1]
  exact ⟨fun h p => ⟨h.2 p, h.1 p⟩, fun h => ⟨fun p => (h p).2, fun p => (h p).1⟩⟩

/-- A box of the form that boxes have after loading: it does not cross the antimeridian with an edge on it. -/
def Spec.PlainBox (b : Boundary) : Prop := Valid b ∧ (b.longMin < b.longMax ∨ (b.longMin ≠ 180 ∧ b.longMax ≠ -180)) ∧ b.latMin < b.latMax

theorem toPolygon_inj {b b' : Boundary} (h : Spec.PlainBox b) (h' : Spec.PlainBox b') (e : b.toPolygon = b'.toPolygon) (x y : ℚ) :
    HCovers b x y ↔ HCovers b' x y := by
  have g : ∀ {b : Boundary}, Spec.PlainBox b → Boundary.loadBounds b.toPolygon = .ok { b with time := [] } := by
    rintro b ⟨hv, hp, -⟩
    have hd : ¬ (b.longMin = 180 ∧ b.longMax = -180) := by
      rintro ⟨p, q⟩
      rcases hp with hp | hp
      · rw [p, q] at hp; norm_num at hp
      · exact hp.1 p
    obtain ⟨r, -, hr, -, -, -, hre⟩ := C06_polygon_round_trip_partial b hv hd
    rw [hr, hre hp]
  have h1 := g h
  rw [e, g h'] at h1
  injection h1 with h1
  obtain ⟨a1, a2, a3, a4, a5⟩ := b
  obtain ⟨b1, b2, b3, b4, b5⟩ := b'
  simp only [Boundary.mk.injEq, and_true] at h1
  obtain ⟨rfl, rfl, rfl, rfl⟩ := h1
  exact Iff.rfl

theorem hcovers_corner {b : Boundary} (h : Spec.PlainBox b) : ∃ x y, HCovers b x y := by
  obtain ⟨⟨v1, v2, v3, v4, v5, -⟩, hp, hl⟩ := h
  refine ⟨eastEdge b, b.latMax, ⟨0, ?_, by simp⟩, hl, le_rfl⟩
  unfold eastEdge
  split_ifs with hlt
  · simpa using hlt
  · rcases hp with hp | ⟨p, q⟩
    · exact absurd hp hlt
    · have : b.longMin < 180 := lt_of_le_of_ne v3 p
      simp; linarith

/-- C46 (partial): for two meshes of the same region, one comparison is enough: it reports no difference
exactly when both have the same set of geometries.  Missing: meshes of different regions, for which the
comparison is one-sided. -/
theorem C46_same_region_partial (m1 m2 : EnvMesh) (b : Boundary) (h1 : m1.cells ≠ []) (h2 : m2.cells ≠ [])
    (t1 : EnvTiles m1 b) (t2 : EnvTiles m2 b) (p1 : ∀ c ∈ m1.cells, Spec.PlainBox c.bounds) (p2 : ∀ c ∈ m2.cells, Spec.PlainBox c.bounds) :
    compareBoundaries m1.cells m2.cells = .ok [] ↔ ∀ p, Spec.HasGeometry m1.cells p ↔ Spec.HasGeometry m2.cells p := by
  rw [compare_nil_iff _ _ h1 h2]
  refine ⟨fun h p => ⟨?_, h p⟩, fun h p => (h p).2⟩
  rintro ⟨c, hc, rfl⟩
  obtain ⟨x, y, hxy⟩ := hcovers_corner (p1 c hc)
  have hb : HCovers b x y := (t1.1 x y).2 ⟨c.bounds, List.mem_map_of_mem hc, hxy⟩
  obtain ⟨c2b, hc2b, hxy2⟩ := (t2.1 x y).1 hb
  obtain ⟨c2, hc2, rfl⟩ := List.mem_map.1 hc2b
  obtain ⟨c1, hc1, e⟩ := h _ ⟨c2, hc2, rfl⟩
  have hxy1 := (toPolygon_inj (p1 c1 hc1) (p2 c2 hc2) e x y).2 hxy2
  have hpw := t1.2
  rw [List.pairwise_map] at hpw
  have : c = c1 := by
    by_contra hne
    have hs : Std.Symm (fun a b : AggCell => ∀ x y, ¬ (HCovers a.bounds x y ∧ HCovers b.bounds x y)) := ⟨fun a b h x y ⟨p, q⟩ => h x y ⟨q, p⟩⟩
    exact hpw.forall hc hc1 hne x y ⟨hxy, hxy1⟩
  subst this
  exact ⟨c2, hc2, e.symm⟩

/-- The comparison is one-sided: a mesh compared with a part of it shows no difference. -/
theorem C46_false : ∃ m1 m2 : List AggCell, compareBoundaries m1 m2 = .ok [] ∧ ∃ p, Spec.HasGeometry m1 p ∧ ¬ Spec.HasGeometry m2 p := by
  refine ⟨[⟨⟨0, 5, 0, 5, []⟩, [], 0⟩, ⟨⟨0, 5, 5, 10, []⟩, [], 1⟩], [⟨⟨0, 5, 0, 5, []⟩, [], 0⟩], by decide +kernel,
    Boundary.toPolygon ⟨0, 5, 5, 10, []⟩, ⟨⟨⟨0, 5, 5, 10, []⟩, [], 1⟩, by simp, rfl⟩, ?_⟩
  rintro ⟨c, hc, e⟩
  simp only [List.mem_cons, List.not_mem_nil, or_false] at hc
  subst hc
  revert e
  decide +kernel

example : Spec.PlainBox ⟨0, 5, 170, -170, []⟩ ∧ Spec.PlainBox ⟨0, 5, 5, 10, []⟩ := by norm_num [Spec.PlainBox, Valid]

example : (compareBoundaries [⟨⟨0, 5, 0, 5, []⟩, [], 0⟩] [⟨⟨0, 5, 0, 5, []⟩, [], 0⟩, ⟨⟨0, 5, 5, 10, []⟩, [], 1⟩] : Py Rows) =
    .ok [(Boundary.toPolygon ⟨0, 5, 5, 10, []⟩, [])] := by decide +kernel

/-! ## C57: comparison of neighbour graphs -/

theorem sameNeighbours_iff (a b : NMap) : sameNeighbours a b = true ↔ ∀ d, (a d).Perm (b d) := by
  have key : ∀ l l' : List ℕ, l.insertionSort (· ≤ ·) = l'.insertionSort (· ≤ ·) ↔ l.Perm l' := by
    intro l l'
    constructor
    · intro h
      exact (List.perm_insertionSort _ l).symm.trans (h ▸ List.perm_insertionSort _ l')
    · intro h
      exact List.Perm.eq_of_pairwise (le := fun a b : ℕ => a ≤ b) (fun a b _ _ => Nat.le_antisymm) (List.pairwise_insertionSort _ l)
        (List.pairwise_insertionSort _ l') ((List.perm_insertionSort _ l).trans (h.trans (List.perm_insertionSort _ l').symm))
  unfold sameNeighbours
  rw [List.all_eq_true]
  simp only [decide_eq_true_eq, key]
  exact ⟨fun h d => h d (Dir.mem_all d), fun h d _ => h d⟩

/-- C57: the comparison of the neighbour graphs reports exactly the cells of nodes that both graphs have,
with different neighbours in some direction; the order of the neighbours does not matter. -/
theorem C57_graph_comparison (m1 m2 : EnvMesh) (c : AggCell) (hnd : (m2.graph.nodes.map Prod.fst).Nodup) :
    c ∈ compareGraphs m1 m2 ↔ c ∈ m2.cells ∧ ∃ a b, m1.graph.nodes.get? c.id = some a ∧ m2.graph.nodes.get? c.id = some b ∧
      ∃ d, ¬ (a d).Perm (b d) := by
  have mem_get : ∀ (g : Dict ℕ NMap), (g.map Prod.fst).Nodup → ∀ i b, (i, b) ∈ g ↔ g.get? i = some b := by
    intro g
    induction g with
    | nil => intro _ i b; simp
    | cons p r ih =>
      intro hn i b
      obtain ⟨k, v⟩ := p
      simp only [List.map_cons, List.nodup_cons] at hn
      simp only [List.mem_cons, Prod.mk.injEq, Dict.get?]
      by_cases h : k = i
      · subst h
        simp only [true_and, if_true, Option.some.injEq]
        constructor
        · rintro (h | h)
          · exact h.symm
          · exact absurd (List.mem_map_of_mem (f := Prod.fst) h) hn.1
        · intro h; exact Or.inl h.symm
      · simp only [h, if_false, ← ih hn.2 i b]
        constructor
        · rintro (⟨h', -⟩ | h')
          · exact absurd h'.symm h
          · exact h'
        · exact Or.inr
  simp only [compareGraphs, mismatchedNodes, List.mem_flatMap, List.mem_filter, List.mem_map, decide_eq_true_eq]
  constructor
  · rintro ⟨i, ⟨⟨k, b⟩, ⟨hb, hm⟩, rfl⟩, hc, hid⟩
    refine ⟨hc, ?_⟩
    simp only at hid hm
    rcases ha : m1.graph.nodes.get? k with _ | a
    · rw [ha] at hm; simp at hm
    · rw [ha] at hm
      simp only [Bool.not_eq_true'] at hm
      refine ⟨a, b, hid ▸ ha, hid ▸ (mem_get _ hnd _ _).1 hb, ?_⟩
      by_contra hcon
      push Not at hcon
      rw [(sameNeighbours_iff a b).2 hcon] at hm
      cases hm
  · rintro ⟨hc, a, b, ha, hb, d, hd⟩
    refine ⟨c.id, ⟨(c.id, b), ⟨(mem_get _ hnd _ _).2 hb, ?_⟩, rfl⟩, hc, rfl⟩
    simp only [ha, Bool.not_eq_true']
    by_contra hcon
    simp only [Bool.not_eq_false] at hcon
    exact hd ((sameNeighbours_iff a b).1 hcon d)

/-- Nodes missing on either side are never reported: graphs without common nodes show no difference. -/
theorem C57_missing_nodes (m1 m2 : EnvMesh) (h : ∀ i, m1.graph.nodes.get? i = none ∨ m2.graph.nodes.get? i = none)
    (hnd : (m2.graph.nodes.map Prod.fst).Nodup) : compareGraphs m1 m2 = [] := by
  rw [List.eq_nil_iff_forall_not_mem]
  intro c hc
  obtain ⟨-, a, b, ha, hb, -⟩ := (C57_graph_comparison m1 m2 c hnd).1 hc
  rcases h c.id with h | h
  · rw [h] at ha; cases ha
  · rw [h] at hb; cases hb

example : ((compareGraphs
    { boxesMesh [⟨0, 5, 0, 5, []⟩, ⟨0, 5, 5, 10, []⟩] with graph := ⟨[(0, fun d => if d = .east then [1, 2] else []), (1, fun _ => [])], false⟩ }
    { boxesMesh [⟨0, 5, 0, 5, []⟩, ⟨0, 5, 5, 10, []⟩] with
      graph := ⟨[(0, fun d => if d = .east then [2, 1] else []), (1, fun d => if d = .west then [0] else [])], false⟩ }).map (·.id)) = [1] := by
  decide +kernel

/-! ## C58: validation against all source data -/

/-- How often the point number `k` is compared: in as many cells as contain it, edges included. -/
theorem comparedPoints_count (m : EnvMesh) (p : ℚ × ℚ) :
    (comparedPoints m [p]).length = (m.cells.filter (fun c => c.bounds.latMin ≤ p.1 && p.1 ≤ c.bounds.latMax && (c.bounds.longMin ≤ p.2 && p.2 ≤ c.bounds.longMax))).length := by
  unfold comparedPoints
  induction m.cells with
  | nil => rfl
  | cons c l ih =>
    rw [List.flatMap_cons, List.length_append, ih, List.filter_cons]
    have : (sliceData c.bounds [p]).length = if (c.bounds.latMin ≤ p.1 && p.1 ≤ c.bounds.latMax && (c.bounds.longMin ≤ p.2 && p.2 ≤ c.bounds.longMax)) = true then 1 else 0 := by
      unfold sliceData
      rw [List.filter_filter]
      by_cases h1 : (decide (c.bounds.latMin ≤ p.1) && decide (p.1 ≤ c.bounds.latMax)) = true <;>
        by_cases h2 : (decide (c.bounds.longMin ≤ p.2) && decide (p.2 ≤ c.bounds.longMax)) = true <;> simp [h1, h2]
    rw [this]
    split_ifs <;> simp [Nat.add_comm]

/-- C58 (partial): in a mesh that tiles its region without crossing the antimeridian, every data point of
the region is compared with the mesh, and exactly once if it is on no edge of a cell.  Missing: points on
edges, which are compared several times, and cells that cross the antimeridian, which are never used. -/
theorem C58_all_points_partial (m : EnvMesh) (b : Boundary) (ht : EnvTiles m b) (hb : b.longMin < b.longMax) (hv : Valid b)
    (hc : ∀ c ∈ m.cells, c.bounds.longMin < c.bounds.longMax ∧ Valid c.bounds) (pts : List (ℚ × ℚ)) (p : ℚ × ℚ) (hp : p ∈ pts)
    (h1 : b.latMin < p.1 ∧ p.1 ≤ b.latMax) (h2 : b.longMin < p.2 ∧ p.2 ≤ b.longMax) :
    p ∈ comparedPoints m pts ∧
    ((∀ c ∈ m.cells, p.2 ≠ c.bounds.longMin ∧ p.2 ≠ c.bounds.longMax ∧ p.1 ≠ c.bounds.latMin ∧ p.1 ≠ c.bounds.latMax) →
      (comparedPoints m [p]).length = 1) := by
  have plane : ∀ c : Boundary, c.longMin < c.longMax → Valid c → (HCovers c p.2 p.1 ↔ c.longMin < p.2 ∧ p.2 ≤ c.longMax ∧ c.latMin < p.1 ∧ p.1 ≤ c.latMax) := by
    rintro c h ⟨-, c1, c2, c3, c4, -⟩
    obtain ⟨-, b1, b2, b3, b4, -⟩ := hv
    unfold HCovers eastEdge
    rw [if_pos h]
    constructor
    · rintro ⟨⟨n, g1, g2⟩, g3, g4⟩
      have a : (-1 : ℚ) < n := by linarith
      have b : (n : ℚ) < 1 := by linarith
      have a' : -1 < n := by exact_mod_cast a
      have b' : n < 1 := by exact_mod_cast b
      have : n = 0 := by omega
      subst this
      simp at g1 g2
      exact ⟨g1, g2, g3, g4⟩
    · rintro ⟨g1, g2, g3, g4⟩
      exact ⟨⟨0, by simpa using g1, by simpa using g2⟩, g3, g4⟩
  obtain ⟨cb, hcb, hcov⟩ := (ht.1 p.2 p.1).1 ((plane b hb hv).2 ⟨h2.1, h2.2, h1.1, h1.2⟩)
  obtain ⟨c, hcm, rfl⟩ := List.mem_map.1 hcb
  have hcp := (plane _ (hc c hcm).1 (hc c hcm).2).1 hcov
  constructor
  · unfold comparedPoints
    rw [List.mem_flatMap]
    refine ⟨c, hcm, ?_⟩
    unfold sliceData
    simp only [List.mem_filter, Bool.and_eq_true, decide_eq_true_eq]
    exact ⟨⟨hp, hcp.2.2.1.le, hcp.2.2.2⟩, hcp.1.le, hcp.2.1⟩
  · intro hne
    rw [comparedPoints_count]
    have hpw := ht.2
    rw [List.pairwise_map] at hpw
    have hone : m.cells.Pairwise (fun a a' =>
        ¬ ((fun c : AggCell => c.bounds.latMin ≤ p.1 && p.1 ≤ c.bounds.latMax && (c.bounds.longMin ≤ p.2 && p.2 ≤ c.bounds.longMax) : AggCell → Bool) a = true ∧
          (fun c : AggCell => c.bounds.latMin ≤ p.1 && p.1 ≤ c.bounds.latMax && (c.bounds.longMin ≤ p.2 && p.2 ≤ c.bounds.longMax) : AggCell → Bool) a' = true)) := by
      refine List.Pairwise.imp_of_mem ?_ hpw
      rintro a a' ha ha' hh ⟨g, g'⟩
      simp only [Bool.and_eq_true, decide_eq_true_eq] at g g'
      have n1 := hne a ha
      have n2 := hne a' ha'
      refine hh p.2 p.1 ⟨(plane _ (hc a ha).1 (hc a ha).2).2 ⟨?_, g.2.2, ?_, g.1.2⟩, (plane _ (hc a' ha').1 (hc a' ha').2).2 ⟨?_, g'.2.2, ?_, g'.1.2⟩⟩
      · exact lt_of_le_of_ne g.2.1 (Ne.symm n1.1)
      · exact lt_of_le_of_ne g.1.1 (Ne.symm n1.2.2.1)
      · exact lt_of_le_of_ne g'.2.1 (Ne.symm n2.1)
      · exact lt_of_le_of_ne g'.1.1 (Ne.symm n2.2.2.1)
    rcases filter_le_one _ m.cells hone with h | ⟨a, -, -, h⟩
    · have := List.filter_eq_nil_iff.1 h c hcm
      simp only [Bool.and_eq_true, decide_eq_true_eq] at this
      exact absurd ⟨⟨hcp.2.2.1.le, hcp.2.2.2⟩, hcp.1.le, hcp.2.1⟩ this
    · rw [h]; rfl

/-- A point on the common corner of four cells is counted four times, and the data in a cell that crosses
the antimeridian is never compared. -/
theorem C58_false : (comparedPoints (boxesMesh [⟨0, 5, 0, 5, []⟩, ⟨0, 5, 5, 10, []⟩, ⟨5, 10, 0, 5, []⟩, ⟨5, 10, 5, 10, []⟩]) [(5, 5)]).length = 4 ∧
    ∀ pts, comparedPoints (boxesMesh [⟨0, 5, 170, -170, []⟩]) pts = [] := by
  refine ⟨by decide +kernel, fun pts => ?_⟩
  simp only [comparedPoints, boxesMesh, List.zipIdx, List.map_cons, List.map_nil, List.flatMap_cons, List.flatMap_nil, List.append_nil, sliceData]
  rw [List.filter_eq_nil_iff]
  intro p _
  simp only [Bool.and_eq_true, decide_eq_true_eq]
  intro h
  linarith [h.1, h.2]

example : (comparedPoints (boxesMesh [⟨0, 5, 0, 5, []⟩, ⟨0, 5, 5, 10, []⟩]) [(1, 1), (2, 7), (3, 5), (7, 7)]) = [(1, 1), (3, 5), (2, 7), (3, 5)] := by
  decide +kernel

end Verif
