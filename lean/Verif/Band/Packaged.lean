import Verif.Band.Resolve

/-! # The packaged filters and bands of observatories

`_default_svo_bandpass_specs`, `build_observatory_band_map` and `assert_filter_ids_have_curves` of
`src/adam_core/photometry/bandpasses`. -/

namespace Verif.Band

open Verif

/-- The filter ids of `_default_svo_bandpass_specs`. vendor.py:42-105. Other columns of the specifications are left out. -/
def packagedFilters : List Str :=
  ["V", "Bessell_U", "Bessell_B", "Bessell_R", "Bessell_I",
   "LSST_u", "LSST_g", "LSST_r", "LSST_i", "LSST_z", "LSST_y",
   "SDSS_u", "SDSS_g", "SDSS_r", "SDSS_i", "SDSS_z",
   "PS1_g", "PS1_r", "PS1_i", "PS1_z", "PS1_y", "PS1_w",
   "ZTF_g", "ZTF_r", "ZTF_i",
   "DECam_u", "DECam_g", "DECam_r", "DECam_i", "DECam_z", "DECam_Y", "DECam_VR",
   "Mosaic3_z", "BASS_g", "BASS_r",
   "SkyMapper_u", "SkyMapper_v", "SkyMapper_g", "SkyMapper_r", "SkyMapper_i", "SkyMapper_z",
   "ATLAS_c", "ATLAS_o"].map String.toList

/-- The list `mappings` of `build_observatory_band_map`: code, band, filter. vendor.py:226-290. -/
def bandMappings : List (Str × Str × Str) :=
  (["u", "g", "r", "i", "z"].map fun b => ("W84".toList, b.toList, "DECam_".toList ++ b.toList)) ++
  [("W84".toList, "Y".toList, "DECam_Y".toList), ("W84".toList, "y".toList, "DECam_Y".toList),
   ("W84".toList, "VR".toList, "DECam_VR".toList), ("W84".toList, "vr".toList, "DECam_VR".toList),
   ("695".toList, "z".toList, "Mosaic3_z".toList)] ++
  (["g", "r", "i"].map fun b => ("I41".toList, b.toList, "ZTF_".toList ++ b.toList)) ++
  [("Q55".toList, "u".toList, "SkyMapper_u".toList), ("Q55".toList, "v".toList, "SkyMapper_v".toList),
   ("Q55".toList, "g".toList, "SkyMapper_g".toList), ("Q55".toList, "r".toList, "SkyMapper_r".toList),
   ("Q55".toList, "i".toList, "SkyMapper_i".toList), ("Q55".toList, "z".toList, "SkyMapper_z".toList)] ++
  (["u", "g", "r", "i", "z", "y"].map fun b => ("X05".toList, b.toList, "LSST_".toList ++ b.toList)) ++
  [("X05".toList, "Y".toList, "LSST_y".toList)] ++
  (["T08", "T05", "M22", "W68"].flatMap fun c =>
    [(c.toList, "c".toList, "ATLAS_c".toList), (c.toList, "o".toList, "ATLAS_o".toList),
     (c.toList, "Ac".toList, "ATLAS_c".toList), (c.toList, "Ao".toList, "ATLAS_o".toList)]) ++
  [("V00".toList, "g".toList, "BASS_g".toList), ("V00".toList, "r".toList, "BASS_r".toList)] ++
  (["F51", "F52"].flatMap fun c => [(c.toList, "w".toList, "PS1_w".toList), (c.toList, "Pw".toList, "PS1_w".toList)])

/-- The packaged tables: all specified filters have a curve (a build without one of them fails), and keys are `code|band`.
vendor.py:157-219, 290-303. -/
def packaged : Tables := ⟨packagedFilters, bandMappings.map fun m => (m.1 ++ '|' :: m.2.1, m.2.2)⟩

/-- `assert_filter_ids_have_curves`. api.py:409-426. A null entry is not in the table. -/
def assertCurves (t : Tables) (ids : List (Option Str)) : Except PyErr Unit :=
  if ids.any fun i => match i with
    | none => true
    | some f => decide (f ∉ t.curves)
  then .error .valueError else .ok ()

end Verif.Band
