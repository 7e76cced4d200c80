import Verif.Conf.Props
import Mathlib.Data.Rat.Floor

/-!
# The declared parameters and the shipped files (model)

The descriptors of `CharacterisationFile`, `ConfigurationFile` and `ConstantsFile`
(`/repo/dedop/conf/characterization.py`, `configuration.py`, `constants.py`) on the values a JSON file can hold,
and the shipped templates (`/repo/dedop/ui/data`).  Floats are rationals; reading a number out of a text
(`float("1.5")`) is a parameter.
-/
namespace Dedop.Conf

/-- Values: those of JSON, an angle `math.radians(q)`, and members of the enumerations (by class and value;
`dedop/conf/enums.py`). -/
inductive Val where
  | bool (b : Bool)
  | int (n : Int)
  | num (q : ℚ)
  | str (s : String)
  | list (l : List ℚ)
  | radians (q : ℚ)
  | member (cls value : String)
  deriving DecidableEq, Repr

/-- `float(text)` and `int(text)`; `none` is `ValueError`.  Python semantics, used by the casts in
`auxiliary_parameter.py:54-55`. -/
structure Texts where
  float : String → Option ℚ
  int : String → Option Int

/-- `float(v)` (`auxiliary_parameter.py:55`); an angle is a float. -/
def castFloat (T : Texts) : Val → Except PyErr Val
  | .bool b => .ok (.num (if b then 1 else 0))
  | .int n => .ok (.num n)
  | .num q => .ok (.num q)
  | .radians q => .ok (.radians q)
  | .str s => match T.float s with | some q => .ok (.num q) | none => .error .valueError
  | .list _ => .error .typeError
  | .member _ _ => .error .typeError

/-- `int(v)` (`auxiliary_parameter.py:55`): a number is truncated towards zero. -/
def castInt (T : Texts) : Val → Except PyErr Val
  | .bool b => .ok (.int (if b then 1 else 0))
  | .int n => .ok (.int n)
  | .num q => .ok (.int (if 0 ≤ q then ⌊q⌋ else ⌈q⌉))
  | .str s => match T.int s with | some n => .ok (.int n) | none => .error .valueError
  | .radians _ => .error .typeError
  | .list _ => .error .typeError
  | .member _ _ => .error .typeError

/-- `bool(v)` (`auxiliary_parameter.py:55`): anything but zero and the empty is true. -/
def castBool : Val → Except PyErr Val
  | .bool b => .ok (.bool b)
  | .int n => .ok (.bool (decide (n ≠ 0)))
  | .num q => .ok (.bool (decide (q ≠ 0)))
  | .radians q => .ok (.bool (decide (q ≠ 0)))
  | .str s => .ok (.bool (decide (s ≠ "")))
  | .list l => .ok (.bool (decide (l ≠ [])))
  | .member _ _ => .ok (.bool true)

/-- `math.radians(v)`, which takes numbers only (`configuration.py:33-36`, `characterization.py:84-93`). -/
def castRadians : Val → Except PyErr Val
  | .bool b => .ok (.radians (if b then 1 else 0))
  | .int n => .ok (.radians n)
  | .num q => .ok (.radians q)
  | _ => .error .typeError

/-- `SomeEnum(v)`: the member with that value, or a member itself (`enums.py:4-33`). -/
def castEnum (cls : String) (values : List String) : Val → Except PyErr Val
  | .str s => if s ∈ values then .ok (.member cls s) else .error .valueError
  | .member c v => if c = cls ∧ v ∈ values then .ok (.member c v) else .error .valueError
  | _ => .error .valueError

/-- `np.reshape(np.asarray(v, dtype=float64), (n,))` (`auxiliary_parameter.py:113-116`); a single number is an array of
one number. -/
def castArray (n : Nat) : Val → Except PyErr Val
  | .list l => if l.length = n then .ok (.list l) else .error .valueError
  | .num q => if n = 1 then .ok (.list [q]) else .error .valueError
  | .int k => if n = 1 then .ok (.list [(k : ℚ)]) else .error .valueError
  | .bool b => if n = 1 then .ok (.list [if b then 1 else 0]) else .error .valueError
  | _ => .error .valueError

/-- `isinstance(v, float)` (`auxiliary_parameter.py:57`). -/
def isFloat : Val → Bool
  | .num _ => true
  | .radians _ => true
  | _ => false

/-- `isinstance(v, int)` (`auxiliary_parameter.py:57`): booleans are integers in Python. -/
def isInt : Val → Bool
  | .int _ => true
  | .bool _ => true
  | _ => false

/-- `isinstance(v, bool)` (`auxiliary_parameter.py:57`). -/
def isBool : Val → Bool
  | .bool _ => true
  | _ => false

/-- `isinstance(v, SomeEnum)` (`auxiliary_parameter.py:57`). -/
def isEnum (cls : String) : Val → Bool
  | .member c _ => c == cls
  | _ => false

/-- The kinds of descriptors that are declared (`auxiliary_parameter.py:16-35, 76-97`): no type, `param_type=float`,
`int`, `bool`, an enumeration, `cast_type=radians`, an array of `n` numbers. -/
inductive Kind where
  | any
  | float
  | int
  | bool
  | enum (cls : String) (values : List String)
  | radians
  | array (n : Nat)
  deriving DecidableEq, Repr

/-- The cast of a kind (`auxiliary_parameter.py:25-30`, `113-116`). -/
def Kind.cast (T : Texts) : Kind → Option (Val → Except PyErr Val)
  | .any => none
  | .float => some (castFloat T)
  | .int => some (castInt T)
  | .bool => some castBool
  | .enum cls values => some (castEnum cls values)
  | .radians => some castRadians
  | .array n => some (castArray n)

/-- The type test of a kind (`auxiliary_parameter.py:57`). -/
def Kind.type : Kind → Option (Val → Bool)
  | .any => none
  | .float => some isFloat
  | .int => some isInt
  | .bool => some isBool
  | .enum cls _ => some (isEnum cls)
  | .radians => none
  | .array _ => none

/-- Whether the kind is an array (`auxiliary_parameter.py:76`). -/
def Kind.isArray : Kind → Bool
  | .array _ => true
  | _ => false

/-- A declaration: the attribute, the name in the file, the kind, whether it is optional, the default. -/
structure Decl where
  attr : String
  name : String
  kind : Kind
  optional : Bool := false
  default : Option Val := none
  deriving DecidableEq, Repr

/-- The descriptor of a declaration (`auxiliary_parameter.py:16-35, 76-97`); a default makes it optional. -/
def Decl.param (T : Texts) (d : Decl) : Param Val where
  name := d.name
  cast := d.kind.cast T
  type := d.kind.type
  optional := d.optional || d.default.isSome
  default := d.default
  array := d.kind.isArray

/-- The values of `AzimuthProcessingMethod`, `AzimuthWindowingMethod` and `OutputFormat` (`enums.py:4-33`). -/
def methodKind : Kind := .enum "AzimuthProcessingMethod" ["approx", "exact"]
/-- `AzimuthWindowingMethod` (`enums.py:4-8`). -/
def windowKind : Kind := .enum "AzimuthWindowingMethod" ["none", "boxcar", "hanning", "hamming"]
/-- `OutputFormat` (`enums.py:27-33`). -/
def formatKind : Kind := .enum "OutputFormat" ["sentinel-3", "extended"]

/-- The parameters of `CharacterisationFile` (`characterization.py:15-106`). -/
def declCHD : List Decl := [
  { attr := "mean_sat_alt", name := "mean_sat_alt_chd", kind := .float },
  { attr := "n_samples_sar", name := "N_samples_sar_chd", kind := .int },
  { attr := "n_ku_pulses_burst", name := "N_ku_pulses_burst_chd", kind := .int },
  { attr := "freq_ku", name := "freq_ku_chd", kind := .float },
  { attr := "pulse_length", name := "pulse_length_chd", kind := .float },
  { attr := "bw_ku", name := "bw_ku_chd", kind := .float },
  { attr := "power_tx_ant_ku", name := "power_tx_ant_ku_chd", kind := .float },
  { attr := "antenna_gain_ku", name := "antenna_gain_ku_chd", kind := .float },
  { attr := "uso_freq_nom", name := "uso_freq_nom_chd", kind := .float },
  { attr := "alt_freq_multiplier", name := "alt_freq_multiplier_chd", kind := .float },
  { attr := "prf_sar", name := "prf_sar_chd", kind := .float },
  { attr := "brf_sar", name := "brf_sar_chd", kind := .float },
  { attr := "antenna_weights", name := "antenna_weights_chd", kind := .array 250 },
  { attr := "antenna_angles", name := "antenna_angles_chd", kind := .array 250 },
  { attr := "antenna_angles_spacing", name := "antenna_angles_spacing_chd", kind := .float },
  { attr := "look_angle_mask_min", name := "look_angle_mask_min_chd", kind := .radians, optional := true },
  { attr := "look_angle_mask_max", name := "look_angle_mask_max_chd", kind := .radians, optional := true },
  { attr := "ptr_width", name := "ptr_width_chd", kind := .float },
  { attr := "fft_step_freq_ku", name := "fft_step_freq_ku_chd", kind := .float },
  { attr := "ratio_trc_ku", name := "ratio_trc_ku_chd", kind := .float }]

/-- The parameters of `ConfigurationFile` (`configuration.py:17-92`). -/
def declCNF : List Decl := [
  { attr := "flag_cal2_correction", name := "flag_cal2_correction_cnf", kind := .any },
  { attr := "flag_uso_correction", name := "flag_uso_correction_cnf", kind := .any },
  { attr := "flag_cal2_table_index", name := "flag_cal2_table_index_cnf", kind := .int },
  { attr := "flag_cal1_corrections", name := "flag_cal1_corrections_cnf", kind := .any },
  { attr := "flag_cal1_intraburst_corrections", name := "flag_cal1_intraburst_corrections_cnf", kind := .any },
  { attr := "flag_surface_focusing", name := "flag_surface_focusing_cnf", kind := .bool },
  { attr := "surface_focusing_lat", name := "surface_focusing_lat_cnf", kind := .radians },
  { attr := "surface_focusing_lon", name := "surface_focusing_lon_cnf", kind := .radians },
  { attr := "surface_focusing_alt", name := "surface_focusing_alt_cnf", kind := .any },
  { attr := "flag_azimuth_processing_method", name := "flag_azimuth_processing_method_cnf", kind := methodKind },
  { attr := "flag_postphase_azimuth_processing", name := "flag_postphase_azimuth_processing_cnf", kind := .any },
  { attr := "flag_azimuth_windowing_method", name := "flag_azimuth_windowing_method_cnf", kind := windowKind },
  { attr := "azimuth_window_width", name := "azimuth_window_width_cnf", kind := .any },
  { attr := "flag_doppler_range_correction", name := "flag_doppler_range_correction_cnf", kind := .any },
  { attr := "flag_slant_range_correction", name := "flag_slant_range_correction_cnf", kind := .any },
  { attr := "flag_window_delay_alignment_method", name := "flag_window_delay_alignment_method_cnf", kind := .any },
  { attr := "flag_stack_masking", name := "flag_stack_masking_cnf", kind := .bool },
  { attr := "flag_avoid_zeros_in_multilooking", name := "flag_avoid_zeros_in_multilooking_cnf", kind := .any },
  { attr := "flag_surface_weighting", name := "flag_surface_weighting_cnf", kind := .any },
  { attr := "flag_antenna_weighting", name := "flag_antenna_weighting_cnf", kind := .float },
  { attr := "zp_fact_range", name := "zp_fact_range_cnf", kind := .any },
  { attr := "n_looks_stack", name := "N_looks_stack_cnf", kind := .any },
  { attr := "min_lat", name := "min_lat_cnf", kind := .any, optional := true },
  { attr := "max_lat", name := "max_lat_cnf", kind := .any, optional := true },
  { attr := "min_lon", name := "min_lon_cnf", kind := .any, optional := true },
  { attr := "max_lon", name := "max_lon_cnf", kind := .any, optional := true },
  { attr := "output_format", name := "output_format_flag_cnf", kind := formatKind,
    default := some (.member "OutputFormat" "extended") }]

/-- The parameters of `ConstantsFile` (`constants.py:11-38`). -/
def declCST : List Decl := [
  { attr := "c", name := "c_cst", kind := .float },
  { attr := "pi", name := "pi_cst", kind := .float },
  { attr := "semi_major_axis", name := "semi_major_axis_cst", kind := .float },
  { attr := "semi_minor_axis", name := "semi_minor_axis_cst", kind := .float },
  { attr := "earth_radius", name := "earth_radius_cst", kind := .float },
  { attr := "flat_coeff", name := "flat_coeff_cst", kind := .float },
  { attr := "sec_in_day", name := "sec_in_day_cst", kind := .float }]

/-- `_fileversion` of `CharacterisationFile` (`characterization.py:13`). -/
def versionCHD : Int := 1
/-- `_fileversion` of `ConfigurationFile` (`configuration.py:12`). -/
def versionCNF : Int := 3
/-- `_fileversion` of `ConstantsFile` (`constants.py:9`). -/
def versionCST : Int := 0

/-- The shipped file `dedop/ui/data/config/CHD.json` (all 98 lines; units and descriptions are left out). -/
def shippedCHD : Json Val where
  metainf := some (some 1)
  entries := [
    ("mean_sat_alt_chd", some (some (.num 814500))),
    ("N_samples_sar_chd", some (some (.int 128))),
    ("N_ku_pulses_burst_chd", some (some (.int 64))),
    ("freq_ku_chd", some (some (.num 13575000000))),
    ("pulse_length_chd", some (some (.num (7 / 156250)))),
    ("bw_ku_chd", some (some (.num 320000000))),
    ("power_tx_ant_ku_chd", some (some (.num (8451 / 1000)))),
    ("antenna_gain_ku_chd", some (some (.num (419 / 10)))),
    ("uso_freq_nom_chd", some (some (.num 10000000))),
    ("alt_freq_multiplier_chd", some (some (.int 32))),
    ("prf_sar_chd", some (some (.num (17825311 / 1000)))),
    ("brf_sar_chd", some (some (.num (7853069 / 100000)))),
    ("ptr_width_chd", some (some (.int 19821))),
    ("fft_step_freq_ku_chd", some (some (.num (2232143 / 100)))),
    ("ratio_trc_ku_chd", some (some (.num (-4933 / 50))))]

/-- The shipped file `dedop/ui/data/config/CNF.json` (all 152 lines; units and descriptions are left out). -/
def shippedCNF : Json Val where
  metainf := some (some 3)
  entries := [
    ("flag_cal2_correction_cnf", some (some (.bool true))),
    ("flag_uso_correction_cnf", some (some (.bool true))),
    ("flag_cal2_table_index_cnf", some (some (.int 2))),
    ("flag_cal1_corrections_cnf", some (some (.bool true))),
    ("flag_cal1_intraburst_corrections_cnf", some (some (.bool true))),
    ("flag_surface_focusing_cnf", some (some (.bool false))),
    ("surface_focusing_lat_cnf", some (some (.num 0))),
    ("surface_focusing_lon_cnf", some (some (.num 0))),
    ("surface_focusing_alt_cnf", some (some (.num 0))),
    ("flag_azimuth_processing_method_cnf", some (some (.str "approx"))),
    ("flag_postphase_azimuth_processing_cnf", some (some (.bool false))),
    ("flag_azimuth_windowing_method_cnf", some (some (.str "none"))),
    ("azimuth_window_width_cnf", some (some (.int 64))),
    ("flag_doppler_range_correction_cnf", some (some (.bool true))),
    ("flag_slant_range_correction_cnf", some (some (.bool true))),
    ("flag_window_delay_alignment_method_cnf", some (some (.int 0))),
    ("flag_stack_masking_cnf", some (some (.bool true))),
    ("flag_avoid_zeros_in_multilooking_cnf", some (some (.bool true))),
    ("flag_surface_weighting_cnf", some (some (.bool true))),
    ("flag_antenna_weighting_cnf", some (some (.bool false))),
    ("zp_fact_range_cnf", some (some (.int 2))),
    ("N_looks_stack_cnf", some (some (.int 240))),
    ("output_format_flag_cnf", some (some (.str "extended")))]

/-- The shipped file `dedop/ui/data/config/CST.json` (all 48 lines; units and descriptions are left out). -/
def shippedCST : Json Val where
  metainf := some (some 0)
  entries := [
    ("semi_major_axis_cst", some (some (.num 6378137))),
    ("semi_minor_axis_cst", some (some (.num (31783761571 / 5000)))),
    ("flat_coeff_cst", some (some (.num (83820266795771 / 25000000000000000)))),
    ("earth_radius_cst", some (some (.num 6378137))),
    ("pi_cst", some (some (.num (3141592653589793 / 1000000000000000)))),
    ("c_cst", some (some (.num 299792458))),
    ("sec_in_day_cst", some (some (.int 86400)))]

/-- The shipped file `dedop/ui/data/cryosat_config/CHD.json` (all 84 lines; units and descriptions are left out). -/
def cryosatCHD : Json Val where
  metainf := some (some 0)
  entries := [
    ("N_ku_pulses_burst_chd", some (some (.int 64))),
    ("N_samples_sar_chd", some (some (.int 128))),
    ("alt_freq_multiplier_chd", some (some (.int 32))),
    ("antenna_gain_ku_chd", some (some (.num (213 / 5)))),
    ("brf_sar_chd", some (some (.num (8551521850207267 / 100000000000000)))),
    ("bw_ku_chd", some (some (.int 320000000))),
    ("freq_ku_chd", some (some (.int 13575000000))),
    ("mean_sat_alt_chd", some (some (.int 717000))),
    ("power_tx_ant_ku_chd", some (some (.num (130103 / 10000)))),
    ("prf_sar_chd", some (some (.num (909090909090909 / 50000000000)))),
    ("pulse_length_chd", some (some (.num (7 / 156250)))),
    ("uso_freq_nom_chd", some (some (.int 10000000))),
    ("ptr_width_chd", some (some (.int 19821))),
    ("fft_step_freq_ku_chd", some (some (.num (2232143 / 100)))),
    ("ratio_trc_ku_chd", some (some (.num (-4933 / 50))))]

/-- The shipped file `dedop/ui/data/cryosat_config/CNF.json` (all 152 lines; units and descriptions are left out). -/
def cryosatCNF : Json Val where
  metainf := some (some 3)
  entries := [
    ("flag_cal2_correction_cnf", some (some (.bool true))),
    ("flag_uso_correction_cnf", some (some (.bool true))),
    ("flag_cal2_table_index_cnf", some (some (.int 2))),
    ("flag_cal1_corrections_cnf", some (some (.bool true))),
    ("flag_cal1_intraburst_corrections_cnf", some (some (.bool true))),
    ("flag_surface_focusing_cnf", some (some (.bool false))),
    ("surface_focusing_lat_cnf", some (some (.num 0))),
    ("surface_focusing_lon_cnf", some (some (.num 0))),
    ("surface_focusing_alt_cnf", some (some (.num 0))),
    ("flag_azimuth_processing_method_cnf", some (some (.str "approx"))),
    ("flag_postphase_azimuth_processing_cnf", some (some (.bool false))),
    ("flag_azimuth_windowing_method_cnf", some (some (.str "none"))),
    ("azimuth_window_width_cnf", some (some (.int 64))),
    ("flag_doppler_range_correction_cnf", some (some (.bool true))),
    ("flag_slant_range_correction_cnf", some (some (.bool true))),
    ("flag_window_delay_alignment_method_cnf", some (some (.int 0))),
    ("flag_stack_masking_cnf", some (some (.bool true))),
    ("flag_avoid_zeros_in_multilooking_cnf", some (some (.bool true))),
    ("flag_surface_weighting_cnf", some (some (.bool true))),
    ("flag_antenna_weighting_cnf", some (some (.bool false))),
    ("zp_fact_range_cnf", some (some (.int 2))),
    ("N_looks_stack_cnf", some (some (.int 240))),
    ("output_format_flag_cnf", some (some (.str "extended")))]

/-- The shipped file `dedop/ui/data/cryosat_config/CST.json` (all 48 lines; units and descriptions are left out). -/
def cryosatCST : Json Val where
  metainf := some (some 0)
  entries := [
    ("semi_major_axis_cst", some (some (.num 6378137))),
    ("semi_minor_axis_cst", some (some (.num (31783761571 / 5000)))),
    ("flat_coeff_cst", some (some (.num (83820266795771 / 25000000000000000)))),
    ("earth_radius_cst", some (some (.num 6378137))),
    ("pi_cst", some (some (.num (3141592653589793 / 1000000000000000)))),
    ("c_cst", some (some (.num 299792458))),
    ("sec_in_day_cst", some (some (.int 86400)))]

end Dedop.Conf
