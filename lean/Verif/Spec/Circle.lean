import Verif.Model.Boundary

/-!
# Specification: the part of the globe that a boundary describes

Longitudes are points of the circle: `x` and `x + 360 n` are the same meridian.
A boundary whose first longitude is not smaller than its second one runs over the antimeridian.
-/

namespace Verif.Spec

/-- Eastern edge, unrolled so that it lies east of the western edge. -/
def eastEdge (b : Boundary) : ℚ := if b.longMin < b.longMax then b.longMax else b.longMax + 360

/-- The closed box contains the point with longitude `x` and latitude `y`. -/
def Covers (b : Boundary) (x y : ℚ) : Prop :=
  (∃ n : ℤ, b.longMin ≤ x + 360 * n ∧ x + 360 * n ≤ eastEdge b) ∧ b.latMin ≤ y ∧ y ≤ b.latMax

/-- The half-open box (southern and western edge excluded) contains the point. -/
def HCovers (b : Boundary) (x y : ℚ) : Prop :=
  (∃ n : ℤ, b.longMin < x + 360 * n ∧ x + 360 * n ≤ eastEdge b) ∧ b.latMin < y ∧ y ≤ b.latMax

/-- A boundary as documented: ordered latitudes, longitudes within -180:180, no or two ordered
dates. -/
def Valid (b : Boundary) : Prop :=
  b.latMin ≤ b.latMax ∧ -180 ≤ b.longMin ∧ b.longMin ≤ 180 ∧ -180 ≤ b.longMax ∧ b.longMax ≤ 180 ∧
  (b.time = [] ∨ ∃ t0 t1, b.time = [t0, t1] ∧ t0 ≤ t1)

/-- The boxes `l` tile the box `b`: every point of `b` is in exactly one of them, and they contain
no other points. -/
def Tiles (l : List Boundary) (b : Boundary) : Prop :=
  (∀ x y, HCovers b x y ↔ ∃ c ∈ l, HCovers c x y) ∧
  l.Pairwise (fun c c' => ∀ x y, ¬ (HCovers c x y ∧ HCovers c' x y))

end Verif.Spec
