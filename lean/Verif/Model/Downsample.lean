import Verif.Model.Data

/-!
# Model of downsampling

`/repo/meshiphi/dataloaders/scalar/abstract_scalar.py` 723-812, `downsample`, and the identical code in
`/repo/meshiphi/dataloaders/vector/abstract_vector.py` 723-812 (there applied to both components).

A grid without time is an array of values over two coordinate axes.
-/

namespace Verif.Downsample

/-- An `xr.Dataset` with one variable: `ny` latitudes, `nx` longitudes and the values.
See `/repo/meshiphi/dataloaders/scalar/abstract_scalar.py` 739-783. -/
structure Arr where
  ny : ℕ
  nx : ℕ
  lat : ℕ → ℚ
  long : ℕ → ℚ
  val : ℕ → ℕ → Option ℚ

/-- The positions of block `I` of an axis with `n` elements cut into windows of `k`.  With
`boundary='pad'` the last window is filled up with NaN, which the reductions skip: it is shorter here.
See `/repo/meshiphi/dataloaders/scalar/abstract_scalar.py` 761-778. -/
def block (k n I : ℕ) : List ℕ := ((List.range k).map (fun t => I * k + t)).filter (fun i => i < n)

/-- Number of windows of `k` that cover `n` elements.  See `/repo/meshiphi/dataloaders/scalar/abstract_scalar.py` 761-778. -/
def windows (k n : ℕ) : ℕ := (n + k - 1) / k

/-- The coordinate of a block: the mean of its coordinates (`coord_func='mean'` of `xarray`).
See `/repo/meshiphi/dataloaders/scalar/abstract_scalar.py` 761-778. -/
def blockCoord (k n : ℕ) (c : ℕ → ℚ) (I : ℕ) : ℚ := ((block k n I).map c).sum / (block k n I).length

/-- `data.coarsen(lat=k, boundary='pad').f()`, `f` skipping NaN.
See `/repo/meshiphi/dataloaders/scalar/abstract_scalar.py` 761, 765, 769, 773, 777. -/
def coarsenLat (f : List ℚ → Option ℚ) (k : ℕ) (a : Arr) : Arr where
  ny := windows k a.ny
  nx := a.nx
  lat := blockCoord k a.ny a.lat
  long := a.long
  val := fun I j => f (present ((block k a.ny I).map (fun i => a.val i j)))

/-- `data.coarsen(long=k, boundary='pad').f()`, `f` skipping NaN.
See `/repo/meshiphi/dataloaders/scalar/abstract_scalar.py` 762, 766, 770, 774, 778. -/
def coarsenLong (f : List ℚ → Option ℚ) (k : ℕ) (a : Arr) : Arr where
  ny := a.ny
  nx := windows k a.nx
  lat := a.lat
  long := blockCoord k a.nx a.long
  val := fun i J => f (present ((block k a.nx J).map (fun j => a.val i j)))

/-- `data.thin(lat=k)`: every `k`-th element, starting with the first.  See `/repo/meshiphi/dataloaders/scalar/abstract_scalar.py` 781. -/
def thinLat (k : ℕ) (a : Arr) : Arr where
  ny := windows k a.ny
  nx := a.nx
  lat := fun I => a.lat (I * k)
  long := a.long
  val := fun I j => a.val (I * k) j

/-- `data.thin(long=k)`.  See `/repo/meshiphi/dataloaders/scalar/abstract_scalar.py` 782. -/
def thinLong (k : ℕ) (a : Arr) : Arr where
  ny := a.ny
  nx := windows k a.nx
  lat := a.lat
  long := fun J => a.long (J * k)
  val := fun i J => a.val i (J * k)

/-- Models `abstract_scalar.py` 739-783, `downsample_xr`; `ds` = (longitude factor, latitude factor).
`std` is the standard deviation, a parameter because it is irrational.  Other aggregation types change
nothing. -/
def downsampleXr (std : List ℚ → Option ℚ) (agg : AggType) (ds : ℕ × ℕ) (a : Arr) : Arr :=
  match agg with
  | .min => coarsenLong listMin ds.1 (coarsenLat listMin ds.2 a)
  | .max => coarsenLong listMax ds.1 (coarsenLat listMax ds.2 a)
  | .mean => coarsenLong listMean ds.1 (coarsenLat listMean ds.2 a)
  | .median => coarsenLong listMedian ds.1 (coarsenLat listMedian ds.2 a)
  | .std => coarsenLong std ds.1 (coarsenLat std ds.2 a)
  | .count => thinLong ds.1 (thinLat ds.2 a)
  | _ => a

/-- The aggregation types with a branch in `abstract_scalar.py` 758-782. -/
def usesFactors : AggType → Bool
  | .min | .max | .mean | .median | .std | .count => true
  | _ => false

/-- Models `abstract_scalar.py` 797-812: nothing happens for the factors `(1, 1)`.  (A table is returned
unchanged, 785-795.)  A factor of zero raises in `xarray`, when it is used. -/
def downsample (std : List ℚ → Option ℚ) (agg : AggType) (ds : ℕ × ℕ) (a : Arr) : Py Arr :=
  if ds = (1, 1) then .ok a
  else if (ds.1 = 0 ∨ ds.2 = 0) ∧ usesFactors agg then .error .valueError
  else .ok (downsampleXr std agg ds a)

end Verif.Downsample
