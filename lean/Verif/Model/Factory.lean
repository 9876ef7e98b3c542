import Verif.Py

/-!
# Model of `meshiphi/dataloaders/factory.py`

The constructors of the data loaders are not modelled: the result is the class that would be called and the
parameters it would be given.  Names are ASCII.
-/

namespace Verif.Factory

/-- The values of parameters (`/repo/meshiphi/dataloaders/factory.py` 48-141): those the factory looks at
or sets, and any other. -/
inductive PVal where
  | str (s : String)
  | strs (l : List String)
  | num (q : ℚ)
  | other (n : ℕ)
  deriving DecidableEq

/-- `name.lower()` (`factory.py` 73). -/
def lower (s : String) : String := String.ofList (s.toList.map Char.toLower)

/-- `dataloader_requirements` (`factory.py` 81-127): the class and the required parameters. -/
def table : List (String × String × List String) :=
  [("scalar_csv", "ScalarCSVDataLoader", ["files"]),
   ("scalar_grf", "ScalarGRFDataLoader", ["binary"]),
   ("binary_grf", "ScalarGRFDataLoader", ["binary"]),
   ("amsr", "AMSRDataLoader", ["files", "hemisphere"]),
   ("bsose_sic", "BSOSESeaIceDataLoader", ["files"]),
   ("bsose_depth", "BSOSEDepthDataLoader", ["files"]),
   ("baltic_sic", "BalticSeaIceDataLoader", ["files"]),
   ("gebco", "GEBCODataLoader", ["files"]),
   ("icenet", "IceNetDataLoader", ["files"]),
   ("modis", "MODISDataLoader", ["files"]),
   ("visual_iced", "VisualIcedDataLoader", ["files"]),
   ("era5_sig_wave_height", "ERA5SigWaveHeightDataLoader", ["files"]),
   ("era5_max_wave_height", "ERA5MaxWaveHeightDataLoader", ["files"]),
   ("era5_wave_dir", "ERA5MeanWaveDirDataLoader", ["files"]),
   ("era5_wave_period", "ERA5WavePeriodDataLoader", ["files"]),
   ("era5_wind_mag", "ERA5WindMagDataLoader", ["files"]),
   ("era5_wind_dir", "ERA5WindDirDataLoader", ["files"]),
   ("ecmwf_sig_wave_height", "ECMWFSigWaveHeightDataLoader", ["files"]),
   ("circle", "ShapeDataLoader", []),
   ("rectangle", "ShapeDataLoader", []),
   ("gradient", "ShapeDataLoader", []),
   ("checkerboard", "ShapeDataLoader", []),
   ("vector_csv", "VectorCSVDataLoader", ["files"]),
   ("vector_grf", "VectorGRFDataLoader", []),
   ("baltic_currents", "BalticCurrentDataLoader", ["files"]),
   ("era5_wind", "ERA5WindDataLoader", ["files"]),
   ("era5_wave_direction", "ERA5WaveDirectionLoader", ["files"]),
   ("northsea_currents", "NorthSeaCurrentDataLoader", ["files"]),
   ("duacs_currents", "DuacsCurrentDataLoader", ["files"]),
   ("oras5_currents", "ORAS5CurrentDataLoader", ["files"]),
   ("sose", "SOSEDataLoader", ["files"]),
   ("vector_circle", "VectorShapeDataLoader", []),
   ("vector_gradient", "VectorShapeDataLoader", []),
   ("vector_rectangle", "VectorShapeDataLoader", []),
   ("thickness", "ThicknessDataLoader", []),
   ("density", "DensityDataLoader", []),
   ("scotland_ncmpa", "ScotlandNCMPA", ["files"]),
   ("lut_csv", "LutCSV", ["files"]),
   ("lut_geojson", "LutGeoJSON", ["files", "value"]),
   ("lut_shapefile", "LutShapefile", ["files", "value"])]

/-- `translate_file_input` (`factory.py` 144-160).  `fileList v` is `[v]` for the value of `file`,
`listing v` is `sorted(glob(os.path.join(v, '') + '*'))` for the value of `folder`. -/
def translate (fileList listing : PVal → PVal) (params : Dict String PVal) : Dict String PVal :=
  match params.get? "file" with
  | some v => (params.set "files" (fileList v)).del "file"
  | none =>
    match params.get? "folder" with
    | some v => (params.set "files" (listing v)).del "folder"
    | none => params

/-- `get_dataloader` (`factory.py` 48-141): the class called and the parameters given to it. -/
def getDataloader (fileList listing : PVal → PVal) (name : String) (params : Dict String PVal) (minDp : PVal) :
    Py (String × Dict String PVal) :=
  let name := lower name
  let params := translate fileList listing params
  let params := params.set "dataloader_name" (.str name)
  let params := params.set "min_dp" minDp
  match Dict.get? table name with
  | none => .error .valueError
  | some (cls, required) =>
    if required.all (fun k => (params.get? k).isSome) then .ok (cls, params) else .error .assertionError

end Verif.Factory
