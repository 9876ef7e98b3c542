import Mathlib.Tactic.IntervalCases
import Verif.Proof.EnvMesh

/-!
# C35: point queries on an aggregated mesh
-/

namespace Verif
open Spec

/-- The point with longitude `x` and latitude `y` is strictly inside the box. -/
def Spec.StrictIn (b : Boundary) (x y : ℚ) : Prop :=
  (∃ n : ℤ, b.longMin < x + 360 * n ∧ x + 360 * n < eastEdge b) ∧ b.latMin < y ∧ y < b.latMax

theorem Spec.StrictIn.hcovers {b : Boundary} {x y : ℚ} (h : StrictIn b x y) : HCovers b x y := by
  obtain ⟨⟨n, h1, h2⟩, h3, h4⟩ := h
  exact ⟨⟨n, h1, h2.le⟩, h3, h4.le⟩

theorem ringContains_rect {x0 y0 x1 y1 : ℚ} (hx : x0 ≤ x1) (hy : y0 ≤ y1) (x y : ℚ) :
    AggCell.ringContains (Boundary.rectRing x0 y0 x1 y1) x y = true ↔ x0 < x ∧ x < x1 ∧ y0 < y ∧ y < y1 := by
  simp [AggCell.ringContains, AggCell.ringBounds, Boundary.rectRing, Boundary.pyMin, Boundary.pyMax, bind, Except.bind,
    pure, Except.pure, hx, hy, and_assoc]

theorem turn_bounds {x : ℚ} {n : ℤ} (hx : -180 ≤ x ∧ x ≤ 180) (h1 : -180 < x + 360 * n) (h2 : x + 360 * n < 540) :
    n = 0 ∨ n = 1 := by
  have a : (-1 : ℚ) < n := by linarith [hx.2]
  have b : (n : ℚ) < 2 := by linarith [hx.1]
  have a' : -1 < n := by exact_mod_cast a
  have b' : n < 2 := by exact_mod_cast b
  omega

/-- What `contains_point` decides. -/
theorem containsPoint_iff (c : AggCell) (hv : Valid c.bounds)
    (x y : ℚ) (hx : -180 ≤ x ∧ x ≤ 180) (hx' : c.bounds.longMin < c.bounds.longMax ∨ (-180 < x ∧ x < 180)) :
    c.containsPoint y x = true ↔ StrictIn c.bounds x y := by
  obtain ⟨v1, v2, v3, v4, v5, -⟩ := hv
  unfold AggCell.containsPoint StrictIn
  generalize c.bounds = b at *
  unfold Boundary.toPolygon eastEdge
  by_cases h : b.longMin < b.longMax
  · simp only [h, if_true, AggCell.polyContains, ringContains_rect h.le v1]
    constructor
    · rintro ⟨a1, a2, a3, a4⟩
      exact ⟨⟨0, by simpa using a1, by simpa using a2⟩, a3, a4⟩
    · rintro ⟨⟨n, a1, a2⟩, a3, a4⟩
      rcases turn_bounds hx (n := n) (by linarith) (by linarith) with rfl | rfl
      · simp at a1 a2; exact ⟨a1, a2, a3, a4⟩
      · simp at a1 a2; linarith [hx.1]
  · have hx2 : -180 < x ∧ x < 180 := by rcases hx' with h' | h'; exact absurd h' h; exact h'
    simp only [h, if_false]
    have key : ∀ P : Prop, (P ↔ (b.longMin < x ∨ x < b.longMax) ∧ b.latMin < y ∧ y < b.latMax) →
        (P ↔ (∃ n : ℤ, b.longMin < x + 360 * n ∧ x + 360 * n < b.longMax + 360) ∧ b.latMin < y ∧ y < b.latMax) := by
      intro P hP
      rw [hP]
      apply and_congr_left
      intro _
      constructor
      · rintro (a | a)
        · exact ⟨0, by simpa using a, by norm_num; linarith [hx2.2]⟩
        · exact ⟨1, by norm_num; linarith [hx2.1], by norm_num; linarith⟩
      · rintro ⟨n, a1, a2⟩
        rcases turn_bounds hx (n := n) (by linarith) (by linarith) with rfl | rfl
        · left; simpa using a1
        · right; norm_num at a2; linarith
    apply key
    by_cases h1 : b.longMin = 180
    · simp only [h1, if_true, AggCell.polyContains, ringContains_rect v4 v1]
      constructor
      · rintro ⟨a1, a2, a3, a4⟩; exact ⟨Or.inr a2, a3, a4⟩
      · rintro ⟨a1 | a1, a3, a4⟩
        · linarith [hx2.2]
        · exact ⟨hx2.1, a1, a3, a4⟩
    · by_cases h2 : b.longMax = -180
      · simp only [h1, h2, if_true, if_false, AggCell.polyContains, ringContains_rect v3 v1]
        constructor
        · rintro ⟨a1, a2, a3, a4⟩; exact ⟨Or.inl a1, a3, a4⟩
        · rintro ⟨a1 | a1, a3, a4⟩
          · exact ⟨a1, hx2.2, a3, a4⟩
          · linarith [hx2.1]
      · simp only [h1, h2, if_false, AggCell.polyContains, List.any_cons, List.any_nil, Bool.or_false, Bool.or_eq_true,
          ringContains_rect v3 v1, ringContains_rect v4 v1]
        constructor
        · rintro (⟨a1, a2, a3, a4⟩ | ⟨a1, a2, a3, a4⟩)
          · exact ⟨Or.inl a1, a3, a4⟩
          · exact ⟨Or.inr a2, a3, a4⟩
        · rintro ⟨a1 | a1, a3, a4⟩
          · exact Or.inl ⟨a1, hx2.2, a3, a4⟩
          · exact Or.inr ⟨hx2.1, a1, a3, a4⟩

/-- At most one element of a list of pairwise incompatible elements satisfies the test. -/
theorem filter_le_one {α : Type} (p : α → Bool) : ∀ (l : List α), l.Pairwise (fun a b => ¬ (p a = true ∧ p b = true)) →
    l.filter p = [] ∨ ∃ a ∈ l, p a = true ∧ l.filter p = [a]
  | [], _ => Or.inl rfl
  | a :: l, h => by
    obtain ⟨h1, h2⟩ := List.pairwise_cons.1 h
    by_cases ha : p a = true
    · right
      refine ⟨a, by simp, ha, ?_⟩
      rw [List.filter_cons_of_pos ha]
      congr 1
      rw [List.filter_eq_nil_iff]
      intro b hb hpb
      exact h1 b hb ⟨ha, hpb⟩
    · rw [List.filter_cons_of_neg ha]
      rcases filter_le_one p l h2 with h | ⟨b, hb, hp, he⟩
      · exact Or.inl h
      · exact Or.inr ⟨b, by simp [hb], hp, he⟩

/-- **C35 (partial).** On any mesh whose cells tile some region (regional, global, or crossing the
antimeridian), a point query at a longitude other than ±180 (in a mesh without crossing cells: at any
longitude of the domain) answers with the unique cell that has the point strictly inside, and raises
exactly when there is no such cell: when the point is outside of the mesh or on an edge.  Missing:
points exactly on the antimeridian inside a crossing cell, for which the statement is false (below). -/
theorem C35_query_partial (m : EnvMesh) (b : Boundary) (ht : EnvTiles m b)
    (hv : ∀ c ∈ m.cells, Valid c.bounds) (x y : ℚ)
    (hx : -180 ≤ x ∧ x ≤ 180) (hx' : (∀ c ∈ m.cells, c.bounds.longMin < c.bounds.longMax) ∨ (-180 < x ∧ x < 180)) :
    (∀ i, m.queryIndex (y, x) = .ok i ↔ ∃ c ∈ m.cells, c.id = i ∧ StrictIn c.bounds x y) ∧
    (m.queryIndex (y, x) = .error .exception ↔ ¬ ∃ c ∈ m.cells, StrictIn c.bounds x y) ∧
    (m.queryInside (y, x) = true ↔ ∃ c ∈ m.cells, StrictIn c.bounds x y) ∧
    (∀ c ∈ m.cells, ∀ c' ∈ m.cells, StrictIn c.bounds x y → StrictIn c'.bounds x y → c = c') := by
  have hc : ∀ c ∈ m.cells, (c.containsPoint y x = true ↔ StrictIn c.bounds x y) := fun c hc =>
    containsPoint_iff c (hv c hc) x y hx (hx'.imp (fun h => h c hc) id)
  have hpw : m.cells.Pairwise (fun a b => ¬ (a.containsPoint y x = true ∧ b.containsPoint y x = true)) := by
    have h2 := ht.2
    rw [List.pairwise_map] at h2
    refine List.Pairwise.imp_of_mem ?_ h2
    rintro a b ha hb hab ⟨h3, h4⟩
    exact hab x y ⟨((hc a ha).1 h3).hcovers, ((hc b hb).1 h4).hcovers⟩
  have hin : m.queryInside (y, x) = true ↔ ∃ c ∈ m.cells, StrictIn c.bounds x y := by
    unfold EnvMesh.queryInside
    rw [List.any_eq_true]
    exact ⟨fun ⟨c, h1, h2⟩ => ⟨c, h1, (hc c h1).1 h2⟩, fun ⟨c, h1, h2⟩ => ⟨c, h1, (hc c h1).2 h2⟩⟩
  rcases filter_le_one _ _ hpw with h0 | ⟨a, ha, hpa, h1⟩
  · have hno : ¬ ∃ c ∈ m.cells, StrictIn c.bounds x y := by
      rintro ⟨c, h1, h2⟩
      exact (List.filter_eq_nil_iff.1 h0) c h1 ((hc c h1).2 h2)
    have hq : m.queryIndex (y, x) = .error .exception := by unfold EnvMesh.queryIndex; simp only [h0]
    refine ⟨?_, ?_, hin, ?_⟩
    · intro i; rw [hq]
      constructor
      · intro h; cases h
      · rintro ⟨c, h1, -, h2⟩; exact absurd ⟨c, h1, h2⟩ hno
    · rw [hq]; exact ⟨fun _ => hno, fun _ => rfl⟩
    · intro c h1 _ _ h2; exact absurd ⟨c, h1, h2⟩ hno
  · have hq : m.queryIndex (y, x) = .ok a.id := by unfold EnvMesh.queryIndex; simp only [h1]
    have huniq : ∀ c ∈ m.cells, StrictIn c.bounds x y → c = a := by
      intro c h2 h3
      have : c ∈ m.cells.filter (fun c => c.containsPoint y x) := by
        rw [List.mem_filter]; exact ⟨h2, (hc c h2).2 h3⟩
      rw [h1] at this; simpa using this
    have hsa := (hc a ha).1 hpa
    refine ⟨?_, ?_, hin, ?_⟩
    · intro i; rw [hq]
      constructor
      · intro h; cases h; exact ⟨a, ha, rfl, hsa⟩
      · rintro ⟨c, h2, rfl, h3⟩; rw [huniq c h2 h3]
    · rw [hq]
      constructor
      · intro h; cases h
      · intro h; exact absurd ⟨a, ha, hsa⟩ h
    · intro c h2 c' h3 h4 h5
      rw [huniq c h2 h4, huniq c' h3 h5]

/-- A small mesh without data and with an empty graph, for the examples. -/
def boxesMesh (l : List Boundary) : EnvMesh :=
  { bounds := ⟨0, 10, 170, -170, []⟩, cells := l.zipIdx.map (fun p => { bounds := p.1, data := [], id := p.2 }),
    graph := ⟨[], false⟩, strNodes := true, strDirs := true,
    config := { region := ⟨0, 10, 170, -170, []⟩, cellWidth := 20, cellHeight := 5, splitDepth := some 2 } }

/-- **C35 is false on the antimeridian.** A mesh of two cells crossing the antimeridian: the point
(2, 180) is strictly inside the first one, yet the query answers "not within the mesh". -/
theorem C35_antimeridian_false :
    let m := boxesMesh [⟨0, 5, 170, -170, []⟩, ⟨5, 10, 170, -170, []⟩]
    EnvTiles m ⟨0, 10, 170, -170, []⟩ ∧ (∃ c ∈ m.cells, StrictIn c.bounds 180 2) ∧
      m.queryIndex (2, 180) = .error .exception ∧ m.queryInside (2, 180) = false := by
  refine ⟨⟨?_, ?_⟩, ?_, by decide +kernel, by decide +kernel⟩
  · intro x y
    simp only [boxesMesh, List.zipIdx, List.map_cons, List.map_nil, List.mem_cons, List.not_mem_nil, or_false,
      exists_eq_or_imp, exists_eq_left, HCovers, eastEdge]
    norm_num
    constructor
    · rintro ⟨h1, h2, h3⟩
      by_cases h : y ≤ 5
      · exact Or.inl ⟨h1, h2, h⟩
      · exact Or.inr ⟨h1, lt_of_not_ge h, h3⟩
    · rintro (⟨h1, h2, h3⟩ | ⟨h1, h2, h3⟩)
      · exact ⟨h1, h2, by linarith⟩
      · exact ⟨h1, by linarith, h3⟩
  · simp only [boxesMesh, List.zipIdx, List.map_cons, List.map_nil, HCovers, List.pairwise_cons, List.mem_cons,
      List.not_mem_nil, or_false, forall_eq, List.Pairwise.nil, and_true, false_implies, implies_true]
    intro x y h
    linarith [h.1.2.2, h.2.2.1]
  · refine ⟨⟨⟨0, 5, 170, -170, []⟩, [], 0⟩, by simp [boxesMesh], ⟨⟨0, ?_, ?_⟩, ?_, ?_⟩⟩ <;> norm_num [eastEdge]

/-- The hypotheses of `C35_query_partial` hold for that mesh away from the antimeridian, and the
query finds the crossing cell. -/
example : (boxesMesh [⟨0, 5, 170, -170, []⟩, ⟨5, 10, 170, -170, []⟩]).queryIndex (7, -175) = .ok 1 ∧
    (boxesMesh [⟨0, 5, 170, -170, []⟩, ⟨5, 10, 170, -170, []⟩]).queryIndex (7, 175) = .ok 1 ∧
    (boxesMesh [⟨0, 5, 170, -170, []⟩, ⟨5, 10, 170, -170, []⟩]).queryIndex (5, 175) = .error .exception ∧
    (boxesMesh [⟨0, 5, 170, -170, []⟩, ⟨5, 10, 170, -170, []⟩]).queryIndex (7, 160) = .error .exception ∧
    (∀ c ∈ (boxesMesh [⟨0, 5, 170, -170, []⟩, ⟨5, 10, 170, -170, []⟩]).cells, Valid c.bounds) ∧
    EnvTiles (boxesMesh [⟨0, 5, 170, -170, []⟩, ⟨5, 10, 170, -170, []⟩]) ⟨0, 10, 170, -170, []⟩ :=
  ⟨by decide +kernel, by decide +kernel, by decide +kernel, by decide +kernel,
    by simp [boxesMesh]; norm_num [Valid], C35_antimeridian_false.1⟩

end Verif
