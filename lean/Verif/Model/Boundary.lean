import Verif.Model.Utils

/-!
# Model of `meshiphi/mesh_generation/boundary.py`

The time range is held as a list of day ordinals (after `parse_datetime`, which is modelled
at string level in `Verif/Model/TimeStr.lean`).
-/

namespace Verif

/-- Models the attributes of `/repo/meshiphi/mesh_generation/boundary.py` 7-22, 120-123.
Simplification: only the first two entries of `lat_range` / `long_range` are kept (the getters
never read more); `time` is `[]` or the two parsed dates as day ordinals. -/
structure Boundary where
  latMin : ℚ
  latMax : ℚ
  longMin : ℚ
  longMax : ℚ
  time : List ℤ := []
  deriving DecidableEq, Repr

namespace Boundary

/-- Models `boundary.py` 182-202, `validate_bounds` (`()` = no exception). -/
def validateBounds (latRange longRange : List ℚ) (timeRange : List ℤ) : Py Unit :=
  match latRange, longRange with
  | lat0 :: lat1 :: _, long0 :: long1 :: _ =>
    if lat0 > lat1 then .error .valueError
    else if long0 < -180 ∨ long1 > 180 then .error .valueError
    else match timeRange with
      | [] => .ok ()
      | [t0, t1] => if t0 > t1 then .error .valueError else .ok ()
      | _ => .error .valueError
  | _, _ => .error .valueError

/-- Models `boundary.py` 104-123, `Boundary.__init__`.  `timeRange` holds already parsed dates;
reading `time_range[1]` of a one-element list (line 117) raises `IndexError`. -/
def mk? (latRange longRange : List ℚ) (timeRange : List ℤ := []) : Py Boundary :=
  match timeRange with
  | [_] => .error .indexError
  | _ => do
    validateBounds latRange longRange timeRange
    match latRange, longRange with
    | lat0 :: lat1 :: _, long0 :: long1 :: _ => return ⟨lat0, lat1, long0, long1, timeRange⟩
    | _, _ => .error .valueError

/-- Models `boundary.py` 228-237, `get_height`. -/
def height (b : Boundary) : ℚ := b.latMax - b.latMin

/-- Models `boundary.py` 238-251, `get_width`. -/
def width (b : Boundary) : ℚ :=
  if b.longMax > b.longMin then b.longMax - b.longMin
  else (180 - b.longMin) + (b.longMax + 180)

/-- Models `boundary.py` 204-217, `getcx`. -/
def cx (b : Boundary) : ℚ :=
  let c := b.longMin + b.width / 2
  if c > 180 then c - 360 else c

/-- Models `boundary.py` 219-227, `getcy`. -/
def cy (b : Boundary) : ℚ := b.latMin + b.height / 2

/-- Models `boundary.py` 257-265, `getdcx`. -/
def dcx (b : Boundary) : ℚ := b.width / 2

/-- Models `boundary.py` 266-274, `getdcy`. -/
def dcy (b : Boundary) : ℚ := b.height / 2

/-- Models `boundary.py` 306-318, `get_bounds`: the closed ring of (long, lat) corners. -/
def ring (b : Boundary) : List (ℚ × ℚ) :=
  [(b.longMin, b.latMin), (b.longMin, b.latMax), (b.longMax, b.latMax),
   (b.longMax, b.latMin), (b.longMin, b.latMin)]

/-- Models `boundary.py` 407-427, `Boundary.split`: order SW, NW, SE, NE. -/
def split (b : Boundary) : Py (List Boundary) := do
  let latMid := b.latMin + b.height / 2
  let longMid := b.longMin + b.width / 2
  let sw ← mk? [b.latMin, latMid] [b.longMin, longMid] b.time
  let nw ← mk? [latMid, b.latMax] [b.longMin, longMid] b.time
  let se ← mk? [b.latMin, latMid] [longMid, b.longMax] b.time
  let ne ← mk? [latMid, b.latMax] [longMid, b.longMax] b.time
  return [sw, nw, se, ne]

/-- Models `boundary.py` 440-478, `__eq__`.  `hasattr(self, 'start_time')` and
`hasattr(self, 'end_time')` (lines 460-461) are never true, because no code sets these attributes,
so only the four spatial checks are made. -/
def pyEq (a b : Boundary) : Bool :=
  a.latMin = b.latMin && a.latMax = b.latMax && a.longMin = b.longMin && a.longMax = b.longMax

/-- Models `boundary.py` 340-393, `to_polygon`: one ring (a Polygon), or two rings
(a MultiPolygon).  Vertices are (long, lat). -/
inductive Poly where
  | polygon (ring : List (ℚ × ℚ))
  | multi (rings : List (List (ℚ × ℚ)))
  deriving DecidableEq, Repr

/-- The ring written by each `wkt.loads(f'POLYGON((...))')` in `boundary.py` 353-391. -/
def rectRing (x0 y0 x1 y1 : ℚ) : List (ℚ × ℚ) := [(x0, y0), (x0, y1), (x1, y1), (x1, y0), (x0, y0)]

/-- Models `boundary.py` 340-393, `to_polygon`. -/
def toPolygon (b : Boundary) : Poly :=
  if b.longMin < b.longMax then .polygon (rectRing b.longMin b.latMin b.longMax b.latMax)
  else if b.longMin = 180 then .polygon (rectRing (-180) b.latMin b.longMax b.latMax)
  else if b.longMax = -180 then .polygon (rectRing b.longMin b.latMin 180 b.latMax)
  else .multi [rectRing b.longMin b.latMin 180 b.latMax, rectRing (-180) b.latMin b.longMax b.latMax]

end Boundary
end Verif

namespace Verif.Boundary

/-- `min(l)`; Python raises `ValueError` on an empty list.  See `/repo/meshiphi/mesh_generation/boundary.py` 82, 84, 92, 94. -/
def pyMin : List ℚ → Py ℚ
  | [] => .error .valueError
  | x :: xs => .ok (xs.foldl min x)

/-- `max(l)`; Python raises `ValueError` on an empty list.  See `/repo/meshiphi/mesh_generation/boundary.py` 83, 85, 93, 95. -/
def pyMax : List ℚ → Py ℚ
  | [] => .error .valueError
  | x :: xs => .ok (xs.foldl max x)

/-- Models `boundary.py` 51-102, `from_poly_string`, on the parsed vertex lists: the text level
(WKT syntax, `float(...)`) is left out.  No time range is restored. -/
def fromPoly : Poly → Py Boundary
  | .polygon ring => do
    let latMin ← pyMin (ring.map Prod.snd)
    let latMax ← pyMax (ring.map Prod.snd)
    let longMin ← pyMin (ring.map Prod.fst)
    let longMax ← pyMax (ring.map Prod.fst)
    mk? [latMin, latMax] [longMin, longMax]
  | .multi [pos, neg] =>
    if pos.map Prod.snd ≠ neg.map Prod.snd then .error .assertionError
    else do
      let latMin ← pyMin (pos.map Prod.snd)
      let latMax ← pyMax (pos.map Prod.snd)
      let longMin ← pyMin (pos.map Prod.fst)
      let longMax ← pyMax (neg.map Prod.fst)
      mk? [latMin, latMax] [longMin, longMax]
  | .multi _ => .error .assertionError

/-- Models `/repo/meshiphi/mesh_generation/aggregated_cellbox.py` 25-51, `load_bounds`, on vertex
lists (`shape.bounds` are the extreme coordinates). -/
def loadBounds : Poly → Py Boundary
  | .polygon ring => do
    let latMin ← pyMin (ring.map Prod.snd)
    let latMax ← pyMax (ring.map Prod.snd)
    let longMin ← pyMin (ring.map Prod.fst)
    let longMax ← pyMax (ring.map Prod.fst)
    mk? [latMin, latMax] [longMin, longMax]
  | .multi [a, b] => do
    let latMin ← pyMin (a.map Prod.snd)
    let latMax ← pyMax (a.map Prod.snd)
    let longMin ← pyMin (a.map Prod.fst)
    let longMax ← pyMax (b.map Prod.fst)
    mk? [latMin, latMax] [longMin, longMax]
  | .multi _ => .error .assertionError

end Verif.Boundary
