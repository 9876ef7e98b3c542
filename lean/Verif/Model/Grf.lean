import Verif.Model.Shape
import Mathlib.Analysis.SpecialFunctions.Trigonometric.Basic
import Mathlib.Analysis.SpecialFunctions.Pow.Real

/-!
# Model of the Gaussian random fields

`/repo/meshiphi/utils.py` 176-236, `/repo/meshiphi/dataloaders/scalar/scalar_grf.py` and
`/repo/meshiphi/dataloaders/vector/vector_grf.py`.

The random numbers and the inverse Fourier transform are not modelled: the field that comes out of
`np.fft.ifft2(...).real` is an argument `raw`, a list of `size * size` numbers row by row.
-/

namespace Verif.Grf

/-! ## Momentum indices -/

/-- `np.mgrid[:n, :n] - int((n + 1)/2)` (`utils.py` 193), the array with indices `(c, i, j)`. -/
def centred (n c i j : ℕ) : ℤ := (if c = 0 then (i : ℤ) else j) - ((n + 1) / 2 : ℕ)

/-- The index that `fftshift` reads at position `j` of an axis of length `n`: a roll by `n // 2`.  See `/repo/meshiphi/utils.py` 195. -/
def shifted (n j : ℕ) : ℕ := (j + (n - n / 2)) % n

/-- Models `utils.py` 177-196, `fftind`.  `fftshift` without axes rolls all three axes, so also the first
one, of length 2. -/
def fftind (n c i j : ℕ) : ℤ := centred n (shifted 2 c) (shifted n i) (shifted n j)

/-- Models `utils.py` 218-222: the amplitude `1/|k|^(alpha/2)`. -/
noncomputable def amplitude (n : ℕ) (alpha : ℝ) (i j : ℕ) : ℝ :=
  if i = 0 ∧ j = 0 then 0
  else ((fftind n 0 i j : ℝ) ^ 2 + (fftind n 1 i j : ℝ) ^ 2 + 1 / 10 ^ 10) ^ (-alpha / 4)

/-! ## Scaling of fields; NaN is `none` -/

/-- `x - np.min(x)` followed by `x/(np.max(x) - np.min(x))` (`utils.py` 233-234, `scalar_grf.py` 97-98):
`ValueError` for an empty array, NaN everywhere for a constant one or one with a NaN. -/
def normalise (l : List (Option ℚ)) : Py (List (Option ℚ)) :=
  if l = [] then .error .valueError
  else if none ∈ l then .ok (l.map (fun _ => none))
  else match listMin (present l) with
    | none => .error .valueError
    | some m =>
      let l := (present l).map (fun x => x - m)
      match listMin l, listMax l with
      | some a, some b => .ok (l.map (fun x => if b - a = 0 then none else some (x / (b - a))))
      | _, _ => .error .valueError

/-- Models `scalar_grf.py` 81-90, `grf_to_binary`, on one entry: the two assignments one after the other,
then the comparison with `True`. -/
def toBinary (t : ℚ) (x : Option ℚ) : Bool :=
  let x := x.map (fun x => if x ≥ t then 1 else x)
  let x := x.map (fun x => if x < t then 0 else x)
  x == some 1

/-- Models `scalar_grf.py` 94-95 on one entry. -/
def clip (t : ℚ × ℚ) (x : Option ℚ) : Option ℚ :=
  let x := x.map (fun x => if x < t.1 then t.1 else x)
  x.map (fun x => if x ≥ t.2 then t.2 else x)

/-- Models `scalar_grf.py` 92-102, `grf_to_scalar`. -/
def toScalar (t : ℚ × ℚ) (lo hi : ℚ) (l : List (Option ℚ)) : Py (List (Option ℚ)) := do
  let l ← normalise (l.map (clip t))
  return l.map (fun x => x.map (fun x => x * (hi - lo) + lo))

/-! ## The scalar loader -/

/-- The parameters as written in the config (`none`: not given).  `threshold` is a number for binary fields
and a pair for the others.  See `/repo/meshiphi/dataloaders/scalar/scalar_grf.py` 10-62. -/
structure Params where
  binary : Option Bool := none
  size : Option ℕ := none
  min : Option ℚ := none
  max : Option ℚ := none
  threshold : Option ℚ := none
  thresholds : Option (ℚ × ℚ) := none
  multiplier : Option ℚ := none
  offset : Option ℚ := none
  deriving DecidableEq, Repr

/-- Models `scalar_grf.py` 10-62, `add_default_params` (names, seed and `alpha` left out): `KeyError`
without `binary` (line 35). -/
def addDefaults (p : Params) : Py Params :=
  match p.binary with
  | none => .error .keyError
  | some true => .ok { p with
      size := some (p.size.getD 512), min := some (p.min.getD 0), max := some (p.max.getD 1),
      threshold := some (p.threshold.getD (1 / 2)) }
  | some false => .ok { p with
      size := some (p.size.getD 512), min := some (p.min.getD (-10)), max := some (p.max.getD 10),
      thresholds := some (p.thresholds.getD (0, 1)), multiplier := some (p.multiplier.getD 1),
      offset := some (p.offset.getD 0) }

/-- A datum of a scalar field.  See `/repo/meshiphi/dataloaders/scalar/scalar_grf.py` 104-138. -/
inductive Datum where
  | bool (x : Bool)
  | num (x : Option ℚ)
  deriving DecidableEq, Repr

/-- The field of `scalar_grf.py` 104-116, as a list row by row; `raw` is the result of `ifft2`. -/
def scalarField (p : Params) (raw : List ℚ) : Py (List Datum) := do
  let grf ← normalise (raw.map some)
  let binary ← Shape.attr p.binary
  if binary = true then do
    let t ← Shape.attr p.threshold
    return grf.map (fun x => .bool (toBinary t x))
  else do
    let t ← Shape.attr p.thresholds
    let lo ← Shape.attr p.min
    let hi ← Shape.attr p.max
    let l ← toScalar t lo hi grf
    let k ← Shape.attr p.multiplier
    let o ← Shape.attr p.offset
    return l.map (fun x => .num (x.map (fun x => k * x + o)))

/-- `grf[i,j]` of an array of width `n` given as a list row by row.  See `/repo/meshiphi/dataloaders/scalar/scalar_grf.py` 126-136. -/
def entry {V : Type} [Inhabited V] (n : ℕ) (l : List V) (i j : ℕ) : V := l.getD (i * n + j) default

/-- Used for `/repo/meshiphi/dataloaders/scalar/scalar_grf.py` 126-136. -/
instance : Inhabited Datum := ⟨.num none⟩

/-- Models `scalar_grf.py` 65-139, `import_data`, on the completed parameters. -/
def importScalar (p : Params) (raw : List ℚ) (b : Boundary) : Py (List (Row Datum)) := do
  let n ← Shape.attr p.size
  let field ← scalarField p raw
  Shape.toXarray (Shape.rows n n (Shape.linspace b.latMin b.latMax n) (Shape.linspace b.longMin b.longMax n) (entry n field))

/-- The scalar loader from the config to the dataset: `add_default_params`, then `import_data`
(`/repo/meshiphi/dataloaders/scalar/abstract_scalar.py` 45-60 calls them in this order). -/
def loadScalar (p : Params) (raw : List ℚ) (b : Boundary) : Py (List (Row Datum)) := do
  let p ← addDefaults p
  importScalar p raw b

/-! ## The vector loader -/

/-- Models `vector_grf.py` 66-73, `grf_to_vector`, on one pair of entries; the direction is in radians. -/
noncomputable def toVector (lo hi : ℝ) (magnitude direction : ℝ) : ℝ × ℝ :=
  let m := magnitude * (hi - lo) + lo
  (Real.sin direction * m, Real.cos direction * m)

/-- `np.radians(360*directions)` (`vector_grf.py` 81). -/
noncomputable def direction (d : ℚ) : ℝ := 360 * (d : ℝ) * Real.pi / 180

/-- One vector of `vector_grf.py` 78-83 from the two normalised entries; NaN if one of them is. -/
noncomputable def vectorEntry (lo hi : ℚ) : Option ℚ → Option ℚ → Option (ℝ × ℝ)
  | some m, some d => some (toVector lo hi m (direction d))
  | _, _ => none

/-- Models `vector_grf.py` 30-31, 43-46 and 50-107: the defaults of `size`, `min` and `max`, then
`import_data`. -/
noncomputable def loadVector (size : Option ℕ) (min max : Option ℚ) (rawMag rawDir : List ℚ) (b : Boundary) :
    Py (List (Row (Option (ℝ × ℝ)))) := do
  let n := size.getD 512
  let lo := min.getD 0
  let hi := max.getD 10
  let magnitudes ← normalise (rawMag.map some)
  let directions ← normalise (rawDir.map some)
  Shape.toXarray (Shape.rows n n (Shape.linspace b.latMin b.latMax n) (Shape.linspace b.longMin b.longMax n)
    (fun i j => vectorEntry lo hi (entry n magnitudes i j) (entry n directions i j)))

end Verif.Grf
