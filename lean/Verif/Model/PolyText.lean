import Verif.Model.Boundary

/-!
# Model of the texts of boundaries

`/repo/meshiphi/mesh_generation/boundary.py` 51-102 (`from_poly_string`) and 395-405 (`to_poly_string`) on the level of
characters; `Model/Boundary` has the same functions on lists of vertices.

How numbers are written (shapely) and read (`float`) are parameters `write` and `read`.
-/

namespace Verif.PolyText

/-- Used for `/repo/meshiphi/mesh_generation/boundary.py` 51-102. -/
abbrev Text := List Char

/-- The loop of `str.split(sep)`: the characters still to be skipped, the part read so far (reversed), the rest.
See `/repo/meshiphi/mesh_generation/boundary.py` 57-60, 66, 73-76, 88-90. -/
def splitLoop (sep : Text) : ℕ → Text → Text → List Text
  | _, acc, [] => [acc.reverse]
  | k + 1, acc, _ :: r => splitLoop sep k acc r
  | 0, acc, c :: r =>
    if sep.isPrefixOf (c :: r) then acc.reverse :: splitLoop sep (sep.length - 1) [] r
    else splitLoop sep 0 (c :: acc) r

/-- `s.split(sep)`, from the left and without overlap (`/repo/meshiphi/mesh_generation/boundary.py` 57-60, 66, 73-76, 88-90). -/
def split (sep s : Text) : List Text := splitLoop sep 0 [] s

/-- An element of a list.  See `/repo/meshiphi/mesh_generation/boundary.py` 57-58, 73-76, 88-90. -/
def at? (l : List Text) (i : ℕ) : Py Text :=
  match l[i]? with
  | some w => .ok w
  | none => .error .indexError

/-- `s.lstrip()` for blanks (`boundary.py` 69-70). -/
def lstrip (s : Text) : Text := s.dropWhile (· = ' ')

/-- `float(coord.split(" ")[i])` for all coordinates (`boundary.py` 73-76, 89-90). -/
def numbers (read : Text → Py ℚ) (i : ℕ) (coords : List Text) : Py (List ℚ) :=
  coords.mapM (fun c => do
    let w ← at? (split " ".toList c) i
    read w)

/-- Models `boundary.py` 51-102, `from_poly_string`. -/
def fromPolyString (read : Text → Py ℚ) (s : Text) : Py Boundary :=
  if "MULTIPOLYGON".toList <:+: s then do
    let s ← at? (split "MULTIPOLYGON (((".toList s) 1
    let s ← at? (split ")))".toList s) 0
    match split ")), ((".toList s with
    | [p, n] => do
      let pos := (split ",".toList p).map lstrip
      let neg := (split ",".toList n).map lstrip
      let posX ← numbers read 0 pos
      let posY ← numbers read 1 pos
      let negX ← numbers read 0 neg
      let negY ← numbers read 1 neg
      if posY ≠ negY then .error .assertionError
      else do
        let latMin ← Boundary.pyMin posY
        let latMax ← Boundary.pyMax posY
        let longMin ← Boundary.pyMin posX
        let longMax ← Boundary.pyMax negX
        Boundary.mk? [latMin, latMax] [longMin, longMax]
    | _ => .error .assertionError
  else do
    let s ← at? (split "POLYGON ((".toList s) 1
    let s ← at? (split "))".toList s) 0
    let coords := split ", ".toList s
    let x ← numbers read 0 coords
    let y ← numbers read 1 coords
    let latMin ← Boundary.pyMin y
    let latMax ← Boundary.pyMax y
    let longMin ← Boundary.pyMin x
    let longMax ← Boundary.pyMax x
    Boundary.mk? [latMin, latMax] [longMin, longMax]

/-- The text of a vertex in shapely's `wkt` (`boundary.py` 405). -/
def vertexText (write : ℚ → Text) (v : ℚ × ℚ) : Text := write v.1 ++ " ".toList ++ write v.2

/-- The text of a ring without its brackets.  See `/repo/meshiphi/mesh_generation/boundary.py` 405. -/
def ringText (write : ℚ → Text) (ring : List (ℚ × ℚ)) : Text := (", ".toList).intercalate (ring.map (vertexText write))

/-- `polygon.wkt` (`boundary.py` 405), for polygons without holes. -/
def wkt (write : ℚ → Text) : Boundary.Poly → Text
  | .polygon ring => "POLYGON ((".toList ++ ringText write ring ++ "))".toList
  | .multi rings => "MULTIPOLYGON (((".toList ++ (")), ((".toList).intercalate (rings.map (ringText write)) ++ ")))".toList

/-- Models `boundary.py` 395-405, `to_poly_string`. -/
def toPolyString (write : ℚ → Text) (b : Boundary) : Text := wkt write b.toPolygon

end Verif.PolyText
