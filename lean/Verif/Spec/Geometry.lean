import Verif.Model.NeighbourGraph

/-!
# Specification: rectangles, touching, adjacency on the plane and on the cylinder

Independent of the code: nothing here mentions how the neighbour graph is computed.
The only names taken from the API are the eight directions.
-/

namespace Verif.Spec

/-- Position of one interval relative to another on a line. -/
inductive Side where
  | lo | mid | hi
  deriving DecidableEq, Repr

/-- The east-west part of a compass direction. -/
def hSide : Dir → Side
  | .northEast | .east | .southEast => .hi
  | .northWest | .west | .southWest => .lo
  | .north | .south => .mid

/-- The north-south part of a compass direction. -/
def vSide : Dir → Side
  | .northEast | .north | .northWest => .hi
  | .southEast | .south | .southWest => .lo
  | .east | .west => .mid

/-- `[b0,b1]` lies on the given side of `[a0,a1]`: it starts where `a` ends (`hi`), it ends where
`a` starts (`lo`), or both share a piece of positive length (`mid`). -/
def sideRel : Side → ℚ → ℚ → ℚ → ℚ → Prop
  | .hi, _, a1, b0, _ => a1 = b0
  | .lo, a0, _, _, b1 => b1 = a0
  | .mid, a0, a1, b0, b1 => b0 < a1 ∧ a0 < b1

/-- An axis-parallel rectangle in the longitude-latitude plane. -/
@[ext] structure Rect where
  w : ℚ
  e : ℚ
  s : ℚ
  n : ℚ
  deriving DecidableEq, Repr

namespace Rect

/-- Positive size. -/
def Pos (r : Rect) : Prop := r.w < r.e ∧ r.s < r.n

/-- Translate in longitude. -/
def shift (r : Rect) (t : ℚ) : Rect := { r with w := r.w + t, e := r.e + t }

/-- Closed membership. -/
def Mem (r : Rect) (x y : ℚ) : Prop := r.w ≤ x ∧ x ≤ r.e ∧ r.s ≤ y ∧ y ≤ r.n

/-- Half-open membership: lower edges excluded, upper edges included. -/
def HMem (r : Rect) (x y : ℚ) : Prop := r.w < x ∧ x ≤ r.e ∧ r.s < y ∧ y ≤ r.n

/-- Interior membership. -/
def IMem (r : Rect) (x y : ℚ) : Prop := r.w < x ∧ x < r.e ∧ r.s < y ∧ y < r.n

/-- Interiors meet. -/
def Overlap (a b : Rect) : Prop := b.w < a.e ∧ a.w < b.e ∧ b.s < a.n ∧ a.s < b.n

/-- Area. -/
def area (r : Rect) : ℚ := (r.e - r.w) * (r.n - r.s)

end Rect

/-- `b` touches `a` in direction `d` (plane). -/
def Touches (d : Dir) (a b : Rect) : Prop :=
  sideRel (hSide d) a.w a.e b.w b.e ∧ sideRel (vSide d) a.s a.n b.s b.n

/-- Whole turns by which a cell of a (non-)global mesh may be seen. -/
def turns (isGlobal : Bool) : List ℚ := if isGlobal then [0, 360, -360] else [0]

/-- `b` is adjacent to `a` in direction `d`: on the plane, or on the cylinder when global. -/
def Adj (isGlobal : Bool) (d : Dir) (a b : Rect) : Prop :=
  ∃ t ∈ turns isGlobal, Touches d a (b.shift t)

/-- The rectangle of a boundary that does not cross the antimeridian. -/
def rectOf (b : Boundary) : Rect := ⟨b.longMin, b.longMax, b.latMin, b.latMax⟩

/-- A rectangle can be a cell of a regional (or global) mesh: positive size, within the longitude
domain; in a global mesh at most half a turn wide. -/
def CellOK (isGlobal : Bool) (r : Rect) : Prop :=
  r.Pos ∧ -180 ≤ r.w ∧ r.e ≤ 180 ∧ (isGlobal = true → r.e - r.w ≤ 180)

/-- **Exactness of a neighbour graph** for a mesh whose live cells are given by `cell` and whose
neighbour lists are given by `nbrs`: the graph has a node for exactly the live cells, cells are
admissible and pairwise interior-disjoint, and cell `j` is listed for `i` under `d` exactly once if
it is adjacent in that direction, and not at all otherwise. -/
structure Exact (isGlobal : Bool) (cell : ℕ → Option Rect) (nbrs : ℕ → Option NMap) : Prop where
  keys : ∀ i, (nbrs i).isSome ↔ (cell i).isSome
  ok : ∀ i r, cell i = some r → CellOK isGlobal r
  disjoint : ∀ i j a b, i ≠ j → cell i = some a → cell j = some b → ¬ a.Overlap b
  nodup : ∀ i m d, nbrs i = some m → (m d).Nodup
  mem : ∀ i m d j a, nbrs i = some m → cell i = some a →
    (j ∈ m d ↔ ∃ b, cell j = some b ∧ Adj isGlobal d a b)

end Verif.Spec

namespace Verif.Spec

/-- The four quarters of a rectangle. -/
inductive Quad where
  | nw | ne | sw | se
  deriving DecidableEq, Repr

/-- The quarter `q` of the rectangle `r`. -/
def Rect.quarter (r : Rect) : Quad → Rect
  | .nw => ⟨r.w, (r.w + r.e) / 2, (r.s + r.n) / 2, r.n⟩
  | .ne => ⟨(r.w + r.e) / 2, r.e, (r.s + r.n) / 2, r.n⟩
  | .sw => ⟨r.w, (r.w + r.e) / 2, r.s, (r.s + r.n) / 2⟩
  | .se => ⟨(r.w + r.e) / 2, r.e, r.s, (r.s + r.n) / 2⟩

/-- The live cells after cell `k` with rectangle `K` has been replaced by its quarters under the
ids `ch`. -/
def replaced (cell : ℕ → Option Rect) (k : ℕ) (K : Rect) (ch : Quad → ℕ) : ℕ → Option Rect := fun i =>
  if i = k then none
  else if i = ch .nw then some (K.quarter .nw)
  else if i = ch .ne then some (K.quarter .ne)
  else if i = ch .sw then some (K.quarter .sw)
  else if i = ch .se then some (K.quarter .se)
  else cell i

end Verif.Spec
