import Verif.Proof.Geometry

/-!
# C12, C13: the pairwise neighbour case is geometric touching
-/

namespace Verif
open Spec

/-- Both closed rectangles contain the point. -/
def Common (a b : Rect) (x y : ℚ) : Prop := a.Mem x y ∧ b.Mem x y

/-- Touching described by points: for an edge direction the common points lie on that edge of `a`
and there are two different ones; for a corner direction the corner of `a` is the only common
point. -/
def PointTouch (d : Dir) (a b : Rect) : Prop :=
  match d with
  | .northEast => ∀ x y, Common a b x y ↔ (x = a.e ∧ y = a.n)
  | .southEast => ∀ x y, Common a b x y ↔ (x = a.e ∧ y = a.s)
  | .northWest => ∀ x y, Common a b x y ↔ (x = a.w ∧ y = a.n)
  | .southWest => ∀ x y, Common a b x y ↔ (x = a.w ∧ y = a.s)
  | .east => (∀ x y, Common a b x y → x = a.e) ∧ ∃ y1 y2, y1 < y2 ∧ Common a b a.e y1 ∧ Common a b a.e y2
  | .west => (∀ x y, Common a b x y → x = a.w) ∧ ∃ y1 y2, y1 < y2 ∧ Common a b a.w y1 ∧ Common a b a.w y2
  | .north => (∀ x y, Common a b x y → y = a.n) ∧ ∃ x1 x2, x1 < x2 ∧ Common a b x1 a.n ∧ Common a b x2 a.n
  | .south => (∀ x y, Common a b x y → y = a.s) ∧ ∃ x1 x2, x1 < x2 ∧ Common a b x1 a.s ∧ Common a b x2 a.s

theorem common_iff (a b : Rect) (x y : ℚ) :
    Common a b x y ↔ (max a.w b.w ≤ x ∧ x ≤ min a.e b.e) ∧ (max a.s b.s ≤ y ∧ y ≤ min a.n b.n) := by
  simp only [Common, Rect.Mem, max_le_iff, le_min_iff]; tauto

theorem touches_iff_pointTouch (d : Dir) (a b : Rect) (ha : a.Pos) (hb : b.Pos) :
    Touches d a b ↔ PointTouch d a b := by
  obtain ⟨a1, a2⟩ := ha
  obtain ⟨b1, b2⟩ := hb
  have corner : ∀ X Y : ℚ, (∀ x y, Common a b x y ↔ (x = X ∧ y = Y)) ↔
      (max a.w b.w = X ∧ min a.e b.e = X) ∧ (max a.s b.s = Y ∧ min a.n b.n = Y) := by
    intro X Y
    constructor
    · intro h
      have h0 := (common_iff _ _ _ _).1 ((h X Y).2 ⟨rfl, rfl⟩)
      have hx1 := ((h (max a.w b.w) Y).1 ((common_iff _ _ _ _).2 ⟨⟨le_refl _, by linarith [h0.1.1, h0.1.2]⟩, h0.2⟩)).1
      have hx2 := ((h (min a.e b.e) Y).1 ((common_iff _ _ _ _).2 ⟨⟨by linarith [h0.1.1, h0.1.2], le_refl _⟩, h0.2⟩)).1
      have hy1 := ((h X (max a.s b.s)).1 ((common_iff _ _ _ _).2 ⟨h0.1, ⟨le_refl _, by linarith [h0.2.1, h0.2.2]⟩⟩)).2
      have hy2 := ((h X (min a.n b.n)).1 ((common_iff _ _ _ _).2 ⟨h0.1, ⟨by linarith [h0.2.1, h0.2.2], le_refl _⟩⟩)).2
      exact ⟨⟨hx1, hx2⟩, hy1, hy2⟩
    · rintro ⟨⟨h1, h2⟩, h3, h4⟩ x y
      rw [common_iff, h1, h2, h3, h4]
      constructor
      · rintro ⟨⟨g1, g2⟩, g3, g4⟩; exact ⟨by linarith, by linarith⟩
      · rintro ⟨rfl, rfl⟩; simp
  have vert : ∀ X : ℚ, ((∀ x y, Common a b x y → x = X) ∧ ∃ y1 y2, y1 < y2 ∧ Common a b X y1 ∧ Common a b X y2) ↔
      (max a.w b.w = X ∧ min a.e b.e = X) ∧ max a.s b.s < min a.n b.n := by
    intro X
    constructor
    · rintro ⟨h, y1, y2, hy, h1, h2⟩
      have h1' := (common_iff _ _ _ _).1 h1
      have h2' := (common_iff _ _ _ _).1 h2
      have e1 := h (max a.w b.w) y1 ((common_iff _ _ _ _).2 ⟨⟨le_refl _, by linarith [h1'.1.1, h1'.1.2]⟩, h1'.2⟩)
      have e2 := h (min a.e b.e) y1 ((common_iff _ _ _ _).2 ⟨⟨by linarith [h1'.1.1, h1'.1.2], le_refl _⟩, h1'.2⟩)
      exact ⟨⟨e1, e2⟩, by linarith [h1'.2.1, h2'.2.2]⟩
    · rintro ⟨⟨h1, h2⟩, h3⟩
      refine ⟨?_, max a.s b.s, min a.n b.n, h3, ?_, ?_⟩
      · intro x y hc
        have := (common_iff _ _ _ _).1 hc
        linarith [this.1.1, this.1.2]
      · rw [common_iff]; exact ⟨⟨h1.le, h2.ge⟩, le_refl _, h3.le⟩
      · rw [common_iff]; exact ⟨⟨h1.le, h2.ge⟩, h3.le, le_refl _⟩
  have horz : ∀ Y : ℚ, ((∀ x y, Common a b x y → y = Y) ∧ ∃ x1 x2, x1 < x2 ∧ Common a b x1 Y ∧ Common a b x2 Y) ↔
      (max a.s b.s = Y ∧ min a.n b.n = Y) ∧ max a.w b.w < min a.e b.e := by
    intro Y
    constructor
    · rintro ⟨h, y1, y2, hy, h1, h2⟩
      have h1' := (common_iff _ _ _ _).1 h1
      have h2' := (common_iff _ _ _ _).1 h2
      have e1 := h y1 (max a.s b.s) ((common_iff _ _ _ _).2 ⟨h1'.1, ⟨le_refl _, by linarith [h1'.2.1, h1'.2.2]⟩⟩)
      have e2 := h y1 (min a.n b.n) ((common_iff _ _ _ _).2 ⟨h1'.1, ⟨by linarith [h1'.2.1, h1'.2.2], le_refl _⟩⟩)
      exact ⟨⟨e1, e2⟩, by linarith [h1'.1.1, h2'.1.2]⟩
    · rintro ⟨⟨h1, h2⟩, h3⟩
      refine ⟨?_, max a.w b.w, min a.e b.e, h3, ?_, ?_⟩
      · intro x y hc
        have := (common_iff _ _ _ _).1 hc
        linarith [this.2.1, this.2.2]
      · rw [common_iff]; exact ⟨⟨le_refl _, h3.le⟩, h1.le, h2.ge⟩
      · rw [common_iff]; exact ⟨⟨h3.le, le_refl _⟩, h1.le, h2.ge⟩
  cases d <;> simp only [PointTouch, corner, vert, horz, Touches, sideRel, hSide, vSide, max_def, min_def] <;> grind

/-- C12: the pairwise case of two cells of positive size returns direction `d` exactly when the
second rectangle touches the first one in that direction (described by common points). -/
theorem C12_case_is_touching (a b : Boundary) (ha : (rectOf a).Pos) (hb : (rectOf b).Pos) (d : Dir) :
    (Graph.neighbourCase false a b = some d ↔ PointTouch d (rectOf a) (rectOf b)) ∧
    (Graph.neighbourCaseBounds a b = some d ↔ PointTouch d (rectOf a) (rectOf b)) := by
  have h := neighbourCaseBounds_iff a b ha hb d
  rw [touches_iff_pointTouch d _ _ ha hb] at h
  exact ⟨by simpa [Graph.neighbourCase] using h, h⟩

/-- C12: for interior-disjoint cells, 'not neighbours' is returned exactly when the closed
rectangles have no common point, and otherwise exactly one direction is geometrically right. -/
theorem C12_case_none_iff (a b : Boundary) (ha : (rectOf a).Pos) (hb : (rectOf b).Pos)
    (hdis : ¬ ∃ x y, (rectOf a).IMem x y ∧ (rectOf b).IMem x y) :
    (Graph.neighbourCase false a b = none ↔ ¬ ∃ x y, Common (rectOf a) (rectOf b) x y) ∧
    ((∃ x y, Common (rectOf a) (rectOf b) x y) → ∃! d, PointTouch d (rectOf a) (rectOf b)) := by
  have hno : ¬ (rectOf a).Overlap (rectOf b) := by
    rintro ⟨h1, h2, h3, h4⟩
    apply hdis
    obtain ⟨p1, p2⟩ := ha
    obtain ⟨q1, q2⟩ := hb
    have hx : max (rectOf a).w (rectOf b).w < min (rectOf a).e (rectOf b).e := by
      simp only [max_lt_iff, lt_min_iff]; exact ⟨⟨p1, h1⟩, h2, q1⟩
    have hy : max (rectOf a).s (rectOf b).s < min (rectOf a).n (rectOf b).n := by
      simp only [max_lt_iff, lt_min_iff]; exact ⟨⟨p2, h3⟩, h4, q2⟩
    obtain ⟨x, x1, x2⟩ := exists_between hx
    obtain ⟨y, y1, y2⟩ := exists_between hy
    simp only [max_lt_iff, lt_min_iff] at x1 x2 y1 y2
    exact ⟨x, y, ⟨x1.1, x2.1, y1.1, y2.1⟩, x1.2, x2.2, y1.2, y2.2⟩
  have key : (∃ x y, Common (rectOf a) (rectOf b) x y) ↔ ∃ d, Touches d (rectOf a) (rectOf b) := by
    obtain ⟨p1, p2⟩ := ha
    obtain ⟨q1, q2⟩ := hb
    constructor
    · rintro ⟨x, y, hc⟩
      have hc := (common_iff _ _ _ _).1 hc
      simp only [max_le_iff, le_min_iff] at hc
      obtain ⟨⟨⟨c1, c2⟩, c3, c4⟩, ⟨c5, c6⟩, c7, c8⟩ := hc
      simp only [Rect.Overlap] at hno
      by_cases hx1 : (rectOf a).e = (rectOf b).w
      · by_cases hy1 : (rectOf a).n = (rectOf b).s
        · exact ⟨.northEast, hx1, hy1⟩
        · by_cases hy2 : (rectOf b).n = (rectOf a).s
          · exact ⟨.southEast, hx1, hy2⟩
          · exact ⟨.east, hx1, lt_of_le_of_ne (by linarith) (fun e => hy1 e.symm),
              lt_of_le_of_ne (by linarith) (fun e => hy2 e.symm)⟩
      · by_cases hx2 : (rectOf b).e = (rectOf a).w
        · by_cases hy1 : (rectOf a).n = (rectOf b).s
          · exact ⟨.northWest, hx2, hy1⟩
          · by_cases hy2 : (rectOf b).n = (rectOf a).s
            · exact ⟨.southWest, hx2, hy2⟩
            · exact ⟨.west, hx2, lt_of_le_of_ne (by linarith) (fun e => hy1 e.symm),
                lt_of_le_of_ne (by linarith) (fun e => hy2 e.symm)⟩
        · have g1 : (rectOf b).w < (rectOf a).e := lt_of_le_of_ne (by linarith) (fun e => hx1 e.symm)
          have g2 : (rectOf a).w < (rectOf b).e := lt_of_le_of_ne (by linarith) (fun e => hx2 e.symm)
          by_cases hy1 : (rectOf a).n = (rectOf b).s
          · exact ⟨.north, ⟨g1, g2⟩, hy1⟩
          · by_cases hy2 : (rectOf b).n = (rectOf a).s
            · exact ⟨.south, ⟨g1, g2⟩, hy2⟩
            · exact absurd ⟨g1, g2, lt_of_le_of_ne (by linarith) (fun e => hy1 e.symm),
                lt_of_le_of_ne (by linarith) (fun e => hy2 e.symm)⟩ hno
    · rintro ⟨d, hd⟩
      refine ⟨max (rectOf a).w (rectOf b).w, max (rectOf a).s (rectOf b).s, (common_iff _ _ _ _).2 ?_⟩
      revert hd
      cases d <;> simp only [Touches, sideRel, hSide, vSide, le_refl, true_and, max_le_iff, le_min_iff] <;> grind
  constructor
  · rw [key]
    constructor
    · rintro h ⟨d, hd⟩
      have := (neighbourCaseBounds_iff a b ha hb d).2 hd
      simp [Graph.neighbourCase] at h
      rw [h] at this; cases this
    · intro h
      cases hc : Graph.neighbourCase false a b with
      | none => rfl
      | some d =>
        simp [Graph.neighbourCase] at hc
        exact absurd ⟨d, (neighbourCaseBounds_iff a b ha hb d).1 hc⟩ h
  · intro h
    obtain ⟨d, hd⟩ := key.1 h
    refine ⟨d, (touches_iff_pointTouch _ _ _ ha hb).1 hd, ?_⟩
    intro d' hd'
    have h1 := (neighbourCaseBounds_iff a b ha hb d).2 hd
    have h2 := (neighbourCaseBounds_iff a b ha hb d').2 ((touches_iff_pointTouch _ _ _ ha hb).2 hd')
    rw [h1] at h2
    exact (Option.some.inj h2).symm

theorem option_map_opp {x y : Option Dir} (h : ∀ d, x = some d.opp ↔ y = some d) : x = y.map Dir.opp := by
  cases y with
  | some d => rw [(h d).2 rfl]; rfl
  | none =>
    cases x with
    | none => rfl
    | some e => have := (h e.opp).1 (by simp); cases this

/-- C12: swapping the arguments returns the opposite direction. -/
theorem C12_case_antisymmetric (a b : Boundary) (ha : (rectOf a).Pos) (hb : (rectOf b).Pos) :
    Graph.neighbourCase false b a = (Graph.neighbourCase false a b).map Dir.opp := by
  apply option_map_opp
  intro d
  simp only [Graph.neighbourCase, Bool.false_eq_true, false_and, if_false]
  rw [neighbourCaseBounds_iff b a hb ha, neighbourCaseBounds_iff a b ha hb, touches_opp]

example : Graph.neighbourCase false ⟨0, 10, 0, 10, []⟩ ⟨5, 8, 10, 12, []⟩ = some .east ∧
    Graph.neighbourCase false ⟨0, 10, 0, 10, []⟩ ⟨10, 12, -4, 0, []⟩ = some .northWest ∧
    Graph.neighbourCase false ⟨0, 10, 0, 10, []⟩ ⟨11, 12, 0, 10, []⟩ = none := by decide +kernel

/-- A cell of a global mesh (no width limit). -/
def GlobalCell (b : Boundary) : Prop := (rectOf b).Pos ∧ -180 ≤ b.longMin ∧ b.longMax ≤ 180

/-- C13: in a global mesh the pairwise case is adjacency on the cylinder, for all cells whose widths
add up to less than a full turn; it is antisymmetric and at most one direction is adjacent. -/
theorem C13_global_case (a b : Boundary) (ha : GlobalCell a) (hb : GlobalCell b)
    (hw : (a.longMax - a.longMin) + (b.longMax - b.longMin) < 360) :
    (∀ d, Graph.neighbourCase true a b = some d ↔
      ∃ n : ℤ, Touches d (rectOf a) ((rectOf b).shift (360 * n))) ∧
    Graph.neighbourCase true b a = (Graph.neighbourCase true a b).map Dir.opp := by
  obtain ⟨pa, a0, a1⟩ := ha
  obtain ⟨pb, b0, b1⟩ := hb
  have iff1 : ∀ d, Graph.neighbourCase true a b = some d ↔ Adj true d (rectOf a) (rectOf b) := by
    intro d
    unfold Graph.neighbourCase
    by_cases hg : Graph.onGlobalBound a b
    · simp only [hg, and_self, if_true]
      exact globalNeighbourCase_iff a b pa pb a0 a1 b0 b1 hw hg d
    · simp only [hg, and_false, if_false]
      rw [neighbourCaseBounds_iff a b pa pb, adj_true_of_not_onGlobalBound a b pa pb a0 a1 b0 b1 hg]
  have iff2 : ∀ d, Graph.neighbourCase true b a = some d ↔ Adj true d (rectOf b) (rectOf a) := by
    intro d
    unfold Graph.neighbourCase
    by_cases hg : Graph.onGlobalBound b a
    · simp only [hg, and_self, if_true]
      exact globalNeighbourCase_iff b a pb pa b0 b1 a0 a1 (by linarith) hg d
    · simp only [hg, and_false, if_false]
      rw [neighbourCaseBounds_iff b a pb pa, adj_true_of_not_onGlobalBound b a pb pa b0 b1 a0 a1 hg]
  constructor
  · intro d
    rw [iff1 d, adj_true_iff]
    constructor
    · rintro (h | h | h)
      · exact ⟨0, by simpa using h⟩
      · exact ⟨1, by simpa using h⟩
      · exact ⟨-1, by simpa using h⟩
    · rintro ⟨n, h⟩
      obtain ⟨p1, -⟩ := pa
      obtain ⟨q1, -⟩ := pb
      simp only [rectOf] at p1 q1
      have hx : a.longMin ≤ b.longMax + 360 * (n : ℚ) ∧ b.longMin + 360 * (n : ℚ) ≤ a.longMax := by
        obtain ⟨h1, -⟩ := h
        cases d <;> simp only [sideRel, hSide, Rect.shift, rectOf] at h1 <;> constructor <;> linarith
      have n1 : (n : ℚ) < 2 := by linarith
      have n2 : (-2 : ℚ) < n := by linarith
      have n1' : n < 2 := by exact_mod_cast n1
      have n2' : -2 < n := by exact_mod_cast n2
      have : n = 0 ∨ n = 1 ∨ n = -1 := by omega
      rcases this with rfl | rfl | rfl
      · left; simpa using h
      · right; left; simpa using h
      · right; right; simpa using h
  · apply option_map_opp
    intro d
    rw [iff2, iff1, adj_opp]

example : GlobalCell ⟨0, 10, -180, -90, []⟩ ∧ GlobalCell ⟨5, 20, 90, 180, []⟩ ∧
    Graph.neighbourCase true ⟨0, 10, -180, -90, []⟩ ⟨5, 20, 90, 180, []⟩ = some .west := by
  refine ⟨?_, ?_, by decide +kernel⟩ <;> norm_num [GlobalCell, Rect.Pos, rectOf]

/-- C13: the width guard is needed: with two cells of half a turn each, both see the other one in
the east. -/
theorem C13_guard_needed : ∃ a b, GlobalCell a ∧ GlobalCell b ∧
    (a.longMax - a.longMin) + (b.longMax - b.longMin) = 360 ∧
    Graph.neighbourCase true a b = some .east ∧ Graph.neighbourCase true b a = some .east := by
  refine ⟨⟨0, 10, -180, 0, []⟩, ⟨0, 10, 0, 180, []⟩, ?_, ?_, by norm_num, by decide +kernel, by decide +kernel⟩ <;>
    norm_num [GlobalCell, Rect.Pos, rectOf]

end Verif
