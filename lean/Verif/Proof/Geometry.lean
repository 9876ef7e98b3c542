import Verif.Spec.Geometry
import Mathlib.Tactic.Ring

/-!
# Geometry lemmas about touching rectangles
-/

namespace Verif
open Spec

theorem width_of_lt {b : Boundary} (h : b.longMin < b.longMax) : b.width = b.longMax - b.longMin := by
  unfold Boundary.width; rw [if_pos h]

@[simp] theorem Rect.shift_zero (r : Rect) : r.shift 0 = r := by
  simp [Rect.shift]

theorem adj_false_iff (d : Dir) (a b : Rect) : Adj false d a b ↔ Touches d a b := by
  simp [Adj, turns]

theorem adj_true_iff (d : Dir) (a b : Rect) :
    Adj true d a b ↔ Touches d a b ∨ Touches d a (b.shift 360) ∨ Touches d a (b.shift (-360)) := by
  simp [Adj, turns]

/-- The planar case computes touching. -/
theorem neighbourCaseBounds_iff (a b : Boundary) (ha : (rectOf a).Pos) (hb : (rectOf b).Pos) (d : Dir) :
    Graph.neighbourCaseBounds a b = some d ↔ Touches d (rectOf a) (rectOf b) := by
  obtain ⟨ha1, ha2⟩ := ha
  obtain ⟨hb1, hb2⟩ := hb
  simp only [rectOf] at ha1 ha2 hb1 hb2
  have r1 : a.longMin + (a.longMax - a.longMin) = a.longMax := by ring
  have r2 : a.latMin + (a.latMax - a.latMin) = a.latMax := by ring
  have r3 : b.longMin + (b.longMax - b.longMin) = b.longMax := by ring
  have r4 : b.latMin + (b.latMax - b.latMin) = b.latMax := by ring
  unfold Graph.neighbourCaseBounds
  simp only [width_of_lt ha1, width_of_lt hb1, Boundary.height, r1, r2, r3, r4]
  cases d <;> simp only [Touches, sideRel, hSide, vSide, rectOf] <;> grind

theorem globalNeighbourCase_iff (a b : Boundary) (ha : (rectOf a).Pos) (hb : (rectOf b).Pos)
    (ha0 : -180 ≤ a.longMin) (ha1 : a.longMax ≤ 180) (hb0 : -180 ≤ b.longMin) (hb1 : b.longMax ≤ 180)
    (hw : (a.longMax - a.longMin) + (b.longMax - b.longMin) < 360)
    (hg : Graph.onGlobalBound a b) (d : Dir) :
    Graph.globalNeighbourCase a b = some d ↔ Adj true d (rectOf a) (rectOf b) := by
  obtain ⟨pa1, pa2⟩ := ha
  obtain ⟨pb1, pb2⟩ := hb
  simp only [rectOf] at pa1 pa2 pb1 pb2
  have r1 : a.longMin + (a.longMax - a.longMin) = a.longMax := by ring
  have r2 : a.latMin + (a.latMax - a.latMin) = a.latMax := by ring
  have r3 : b.longMin + (b.longMax - b.longMin) = b.longMax := by ring
  have r4 : b.latMin + (b.latMax - b.latMin) = b.latMax := by ring
  unfold Graph.globalNeighbourCase
  unfold Graph.onGlobalBound at hg
  simp only [width_of_lt pa1, width_of_lt pb1, Boundary.height, r1, r2, r3, r4, adj_true_iff]
  clear r1 r2 r3 r4
  rcases hg with ⟨g1, g2⟩ | ⟨g1, g2⟩
  · have e1 : |a.longMin| = 180 := by rw [g1]; norm_num
    rw [e1]
    rcases abs_cases b.longMin with ⟨e2, e2'⟩ | ⟨e2, e2'⟩ <;> rw [e2] <;> clear e2 <;>
    cases d <;> simp only [Touches, sideRel, hSide, vSide, rectOf, Rect.shift] <;> grind (splits := 20)
  · have e1 : |b.longMin| = 180 := by rw [g1]; norm_num
    rw [e1]
    rcases abs_cases a.longMin with ⟨e2, e2'⟩ | ⟨e2, e2'⟩ <;> rw [e2] <;> clear e2 <;>
    cases d <;> simp only [Touches, sideRel, hSide, vSide, rectOf, Rect.shift] <;> grind (splits := 20)

/-- Away from the seam, the cylinder adds nothing to the plane. -/
theorem adj_true_of_not_onGlobalBound (a b : Boundary) (ha : (rectOf a).Pos) (hb : (rectOf b).Pos)
    (ha0 : -180 ≤ a.longMin) (ha1 : a.longMax ≤ 180) (hb0 : -180 ≤ b.longMin) (hb1 : b.longMax ≤ 180)
    (hg : ¬ Graph.onGlobalBound a b) (d : Dir) :
    Adj true d (rectOf a) (rectOf b) ↔ Touches d (rectOf a) (rectOf b) := by
  obtain ⟨pa1, pa2⟩ := ha
  obtain ⟨pb1, pb2⟩ := hb
  simp only [rectOf] at pa1 pa2 pb1 pb2
  unfold Graph.onGlobalBound at hg
  rw [adj_true_iff]
  cases d <;> simp only [Touches, sideRel, hSide, vSide, rectOf, Rect.shift] <;> grind

theorem neighbourCase_iff (isGlobal : Bool) (a b : Boundary)
    (ha : CellOK isGlobal (rectOf a)) (hb : CellOK isGlobal (rectOf b))
    (hw : isGlobal = true → (a.longMax - a.longMin) + (b.longMax - b.longMin) < 360) (d : Dir) :
    Graph.neighbourCase isGlobal a b = some d ↔ Adj isGlobal d (rectOf a) (rectOf b) := by
  unfold Graph.neighbourCase
  cases isGlobal with
  | false => simp [neighbourCaseBounds_iff a b ha.1 hb.1, adj_false_iff]
  | true =>
    by_cases hg : Graph.onGlobalBound a b
    · simp only [hg, and_self, if_true]
      exact globalNeighbourCase_iff a b ha.1 hb.1 ha.2.1 ha.2.2.1 hb.2.1 hb.2.2.1 (hw rfl) hg d
    · simp only [hg, and_false, if_false]
      rw [neighbourCaseBounds_iff a b ha.1 hb.1,
        adj_true_of_not_onGlobalBound a b ha.1 hb.1 ha.2.1 ha.2.2.1 hb.2.1 hb.2.2.1 hg]

theorem touches_opp (d : Dir) (a b : Rect) : Touches d.opp b a ↔ Touches d a b := by
  cases d <;> simp only [Dir.opp, Touches, sideRel, hSide, vSide] <;> grind

theorem touches_shift (d : Dir) (a b : Rect) (t : ℚ) : Touches d (a.shift t) b ↔ Touches d a (b.shift (-t)) := by
  cases d <;> simp only [Touches, sideRel, hSide, vSide, Rect.shift] <;> grind

theorem adj_opp (g : Bool) (d : Dir) (a b : Rect) : Adj g d.opp b a ↔ Adj g d a b := by
  cases g
  · rw [adj_false_iff, adj_false_iff, touches_opp]
  · rw [adj_true_iff, adj_true_iff, touches_opp]
    have h1 : Touches d.opp b (a.shift 360) ↔ Touches d a (b.shift (-360)) := by
      rw [← touches_shift, touches_opp]
    have h2 : Touches d.opp b (a.shift (-360)) ↔ Touches d a (b.shift 360) := by
      have e : (360 : ℚ) = -(-360) := by norm_num
      rw [e, ← touches_shift, touches_opp, ← e]
    rw [h1, h2]; tauto

end Verif
