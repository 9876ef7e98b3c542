import Verif.Proof.Geometry

/-!
# How the neighbours of the quarters of a cell relate to the neighbours of the cell
-/

namespace Verif
open Spec

namespace Quad
open Spec.Quad

/-- The east-west edge of the parent on which the quarter lies. -/
def hDir : Spec.Quad → Dir
  | .nw | .sw => .west
  | .ne | .se => .east

/-- The north-south edge of the parent on which the quarter lies. -/
def vDir : Spec.Quad → Dir
  | .nw | .ne => .north
  | .sw | .se => .south

/-- The corner of the parent on which the quarter lies. -/
def corner : Spec.Quad → Dir
  | .nw => .northWest | .ne => .northEast | .sw => .southWest | .se => .southEast

/-- Direction of a quarter from another quarter of the same cell. -/
def inner : Spec.Quad → Spec.Quad → Option Dir
  | .nw, .nw => none | .nw, .ne => some .east | .nw, .sw => some .south | .nw, .se => some .southEast
  | .ne, .nw => some .west | .ne, .ne => none | .ne, .sw => some .southWest | .ne, .se => some .south
  | .sw, .nw => some .north | .sw, .ne => some .northEast | .sw, .sw => none | .sw, .se => some .east
  | .se, .nw => some .northWest | .se, .ne => some .north | .se, .sw => some .west | .se, .se => none

/-- Where the neighbours of a quarter in direction `e` are found: on which side of the parent, or
inside the parent (`none`). -/
def outer : Spec.Quad → Dir → Option Dir
  | .nw, .northWest => some .northWest
  | .nw, .north | .nw, .northEast => some .north
  | .nw, .west | .nw, .southWest => some .west
  | .ne, .northEast => some .northEast
  | .ne, .north | .ne, .northWest => some .north
  | .ne, .east | .ne, .southEast => some .east
  | .sw, .southWest => some .southWest
  | .sw, .south | .sw, .southEast => some .south
  | .sw, .west | .sw, .northWest => some .west
  | .se, .southEast => some .southEast
  | .se, .south | .se, .southWest => some .south
  | .se, .east | .se, .northEast => some .east
  | _, _ => none

end Quad

theorem quarter_shift (K : Rect) (q : Spec.Quad) (t : ℚ) : (K.quarter q).shift t = (K.shift t).quarter q := by
  cases q <;> simp only [Rect.quarter, Rect.shift, Rect.mk.injEq, and_true, true_and] <;> ring

theorem shift_pos {K : Rect} (h : K.Pos) (t : ℚ) : (K.shift t).Pos := by
  obtain ⟨h1, h2⟩ := h
  exact ⟨by simp only [Rect.shift]; linarith, h2⟩

theorem overlap_comm {a b : Rect} : a.Overlap b ↔ b.Overlap a := by
  simp only [Rect.Overlap]; tauto

theorem no_overlap_shift {g : Bool} {a b : Rect} (ha : CellOK g a) (hb : CellOK g b) (h : ¬ a.Overlap b)
    {t : ℚ} (ht : t ∈ turns g) : ¬ a.Overlap (b.shift t) := by
  obtain ⟨-, a0, a1, -⟩ := ha
  obtain ⟨-, b0, b1, -⟩ := hb
  cases g with
  | false =>
    simp only [turns, Bool.false_eq_true, if_false, List.mem_singleton] at ht
    subst ht; simpa using h
  | true =>
    simp only [turns, if_true, List.mem_cons, List.not_mem_nil, or_false] at ht
    rcases ht with rfl | rfl | rfl
    · simpa using h
    · rintro ⟨h1, h2, -⟩; simp only [Rect.shift] at h1 h2; linarith
    · rintro ⟨h1, h2, -⟩; simp only [Rect.shift] at h1 h2; linarith

theorem neg_mem_turns {g : Bool} {t : ℚ} (ht : t ∈ turns g) : -t ∈ turns g := by
  cases g with
  | false => simp_all [turns]
  | true => simp [turns] at *; rcases ht with rfl | rfl | rfl <;> norm_num

theorem quarter_pos {K : Rect} (h : K.Pos) (q : Spec.Quad) : (K.quarter q).Pos := by
  obtain ⟨h1, h2⟩ := h
  cases q <;> constructor <;> simp only [Rect.quarter] <;> linarith

theorem quarter_ok {g : Bool} {K : Rect} (h : CellOK g K) (q : Spec.Quad) : CellOK g (K.quarter q) := by
  obtain ⟨hp, h1, h2, h3⟩ := h
  refine ⟨quarter_pos hp q, ?_, ?_, ?_⟩
  · obtain ⟨p1, p2⟩ := hp
    cases q <;> simp only [Rect.quarter] <;> linarith
  · obtain ⟨p1, p2⟩ := hp
    cases q <;> simp only [Rect.quarter] <;> linarith
  · intro hg
    have := h3 hg
    obtain ⟨p1, p2⟩ := hp
    cases q <;> simp only [Rect.quarter] <;> linarith

theorem quarter_width {g : Bool} {K : Rect} (h : CellOK g K) (q : Spec.Quad) (hg : g = true) :
    (K.quarter q).e - (K.quarter q).w ≤ 90 := by
  obtain ⟨hp, h1, h2, h3⟩ := h
  have := h3 hg
  cases q <;> simp only [Rect.quarter] <;> linarith

/-- G2, planar. -/
theorem touches_quarter (e : Dir) (r K : Rect) (q : Spec.Quad) (hr : r.Pos) (hK : K.Pos) (hno : ¬ r.Overlap K)
    (h : Touches e r (K.quarter q)) :
    Touches (Quad.hDir q).opp r K ∨ Touches (Quad.vDir q).opp r K ∨ (e = (Quad.corner q).opp ∧ Touches e r K) := by
  obtain ⟨r1, r2⟩ := hr
  obtain ⟨k1, k2⟩ := hK
  simp only [Rect.Overlap] at hno
  revert h
  cases q <;> cases e <;>
    simp only [Touches, sideRel, hSide, vSide, Rect.quarter, Quad.hDir, Quad.vDir, Quad.corner, Dir.opp,
      reduceCtorEq, false_and, or_false, true_and] <;> grind

/-- G2: a cell adjacent to a quarter was adjacent to the parent on one of the quarter's sides. -/
theorem adj_quarter {g : Bool} {e : Dir} {r K : Rect} {q : Spec.Quad} (hr : CellOK g r) (hK : CellOK g K)
    (hno : ¬ r.Overlap K) (h : Adj g e r (K.quarter q)) :
    Adj g (Quad.hDir q).opp r K ∨ Adj g (Quad.vDir q).opp r K ∨ (e = (Quad.corner q).opp ∧ Adj g e r K) := by
  obtain ⟨t, ht, h⟩ := h
  rw [quarter_shift] at h
  rcases touches_quarter e r (K.shift t) q hr.1 (shift_pos hK.1 t) (no_overlap_shift hr hK hno ht) h with h | h | h
  · exact Or.inl ⟨t, ht, h⟩
  · exact Or.inr (Or.inl ⟨t, ht, h⟩)
  · exact Or.inr (Or.inr ⟨h.1, t, ht, h.2⟩)

/-- G1: a cell cannot be both on an east-west and on a north-south edge. -/
theorem adj_h_v {g : Bool} {r K : Rect} {q : Spec.Quad} (hr : r.Pos) (hK : K.Pos)
    (h1 : Adj g (Quad.hDir q).opp r K) (h2 : Adj g (Quad.vDir q).opp r K) : False := by
  obtain ⟨t, -, -, h1⟩ := h1
  obtain ⟨t', -, -, h2⟩ := h2
  obtain ⟨r1, r2⟩ := hr
  obtain ⟨k1, k2⟩ := hK
  cases q <;> simp only [Quad.hDir, Quad.vDir, Dir.opp, vSide, sideRel, Rect.shift] at h1 h2 <;> linarith

/-- G3: of a cell that touches `r` at a corner, exactly the quarter on that corner touches `r`
there. -/
theorem adj_corner_quarter {g : Bool} {r K : Rect} {q0 : Spec.Quad} (hr : CellOK g r) (hK : CellOK g K)
    (h : Adj g (Quad.corner q0).opp r K) (q : Spec.Quad) :
    Adj g (Quad.corner q0).opp r (K.quarter q) ↔ q = q0 := by
  obtain ⟨hKp, K0, K1, K2⟩ := hK
  obtain ⟨k1, k2⟩ := hKp
  constructor
  · rintro ⟨t', ht', h'⟩
    obtain ⟨t, ht, h⟩ := h
    cases g with
    | false =>
      simp only [turns, Bool.false_eq_true, if_false, List.mem_singleton] at ht ht'
      subst ht ht'
      revert h h'
      cases q0 <;> cases q <;>
        simp only [Quad.corner, Dir.opp, Touches, sideRel, hSide, vSide, Rect.shift, Rect.quarter, reduceCtorEq] <;> grind
    | true =>
      have K3 := K2 rfl
      simp only [turns, if_true, List.mem_cons, List.not_mem_nil, or_false] at ht ht'
      revert h h'
      cases q0 <;> cases q <;>
        simp only [Quad.corner, Dir.opp, Touches, sideRel, hSide, vSide, Rect.shift, Rect.quarter, reduceCtorEq] <;> grind
  · rintro rfl
    obtain ⟨t, ht, h⟩ := h
    refine ⟨t, ht, ?_⟩
    revert h
    cases q <;> simp only [Quad.corner, Dir.opp, Touches, sideRel, hSide, vSide, Rect.shift, Rect.quarter] <;> exact id

/-- G4: two interior-disjoint cells cannot touch `K` at the same corner. -/
theorem corner_unique {g : Bool} {K r r' : Rect} (q : Spec.Quad) (hr : CellOK g r) (hr' : CellOK g r')
    (h : Adj g (Quad.corner q) K r) (h' : Adj g (Quad.corner q) K r') : r.Overlap r' := by
  obtain ⟨⟨r1, r2⟩, r3, r4, -⟩ := hr
  obtain ⟨⟨r1', r2'⟩, r3', r4', -⟩ := hr'
  obtain ⟨t, ht, h⟩ := h
  obtain ⟨t', ht', h'⟩ := h'
  simp only [Rect.Overlap]
  cases g with
  | false =>
    simp only [turns, Bool.false_eq_true, if_false, List.mem_singleton] at ht ht'
    subst ht ht'
    revert h h'
    cases q <;> simp only [Quad.corner, Touches, sideRel, hSide, vSide, Rect.shift] <;> grind
  | true =>
    simp only [turns, if_true, List.mem_cons, List.not_mem_nil, or_false] at ht ht'
    revert h h'
    cases q <;> simp only [Quad.corner, Touches, sideRel, hSide, vSide, Rect.shift] <;> grind

/-- H1: adjacency among the quarters. -/
theorem adj_quarters {g : Bool} {K : Rect} (hK : CellOK g K) (q q' : Spec.Quad) (e : Dir) :
    Adj g e (K.quarter q) (K.quarter q') ↔ Quad.inner q q' = some e := by
  obtain ⟨⟨k1, k2⟩, K0, K1, K2⟩ := hK
  have h0 : Touches e (K.quarter q) (K.quarter q') ↔ Quad.inner q q' = some e := by
    cases q <;> cases q' <;> cases e <;>
      simp only [Quad.inner, Touches, sideRel, hSide, vSide, Rect.quarter, Option.some.injEq, reduceCtorEq] <;> grind
  rw [← h0]
  cases g with
  | false => rw [adj_false_iff]
  | true =>
    have K3 := K2 rfl
    rw [adj_true_iff]
    constructor
    · have far : ∀ t : ℚ, (t = 360 ∨ t = -360) → ¬ Touches e (K.quarter q) ((K.quarter q').shift t) := by
        intro t ht h
        obtain ⟨h, -⟩ := h
        revert h
        cases q <;> cases q' <;> cases e <;>
          simp only [sideRel, hSide, Rect.shift, Rect.quarter] <;> grind
      rintro (h | h | h)
      · exact h
      · exact absurd h (far _ (Or.inl rfl))
      · exact absurd h (far _ (Or.inr rfl))
    · exact Or.inl

/-- H2, planar. -/
theorem touches_of_quarter (e : Dir) (K r : Rect) (q : Spec.Quad) (hr : r.Pos) (hK : K.Pos) (hno : ¬ K.Overlap r)
    (h : Touches e (K.quarter q) r) : ∃ d, Quad.outer q e = some d ∧ Touches d K r := by
  obtain ⟨r1, r2⟩ := hr
  obtain ⟨k1, k2⟩ := hK
  simp only [Rect.Overlap] at hno
  revert h
  cases q <;> cases e <;>
    simp only [Touches, sideRel, hSide, vSide, Rect.quarter, Quad.outer, Option.some.injEq, exists_eq_left', reduceCtorEq,
      false_and, exists_false] <;> grind

/-- H2: the neighbours of a quarter in direction `e` are neighbours of the parent in direction
`outer q e`; there are none if `e` points into the parent. -/
theorem adj_of_quarter {g : Bool} {e : Dir} {K r : Rect} {q : Spec.Quad} (hr : CellOK g r) (hK : CellOK g K)
    (hno : ¬ K.Overlap r) (h : Adj g e (K.quarter q) r) : ∃ d, Quad.outer q e = some d ∧ Adj g d K r := by
  obtain ⟨t, ht, h⟩ := h
  obtain ⟨d, hd, h⟩ := touches_of_quarter e K (r.shift t) q (shift_pos hr.1 t) hK.1 (no_overlap_shift hK hr hno ht) h
  exact ⟨d, hd, t, ht, h⟩

/-- H2a: at the outer corner nothing changes. -/
theorem adj_outer_corner {g : Bool} {K r : Rect} (q : Spec.Quad) :
    Adj g (Quad.corner q) (K.quarter q) r ↔ Adj g (Quad.corner q) K r := by
  unfold Adj
  cases q <;> simp only [Quad.corner, Touches, sideRel, hSide, vSide, Rect.quarter]

theorem quarter_overlap {K r : Rect} {q : Spec.Quad} (hK : K.Pos) (h : (K.quarter q).Overlap r) : K.Overlap r := by
  obtain ⟨k1, k2⟩ := hK
  revert h
  cases q <;> simp only [Rect.Overlap, Rect.quarter] <;> grind

theorem quarters_disjoint {K : Rect} (hK : K.Pos) {q q' : Spec.Quad} (hq : q ≠ q') :
    ¬ (K.quarter q).Overlap (K.quarter q') := by
  obtain ⟨k1, k2⟩ := hK
  revert hq
  cases q <;> cases q' <;> simp only [Rect.Overlap, Rect.quarter, ne_eq, reduceCtorEq, not_false_eq_true,
    not_true_eq_false, forall_const, false_implies] <;> grind

end Verif
