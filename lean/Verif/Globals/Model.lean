import Verif.Globals.Iso
import Verif.Reader.Dataset
import Verif.Notebook.Model

/-!
# Global attributes of the products (model)

Models the end of `L1BProcessor._process` (`/repo/dedop/proc/sar/processor.py:278-349`), `L1AGlobals`,
`L1ADataset.first_time`, `last_time` and `read_globals` (`/repo/dedop/data/input/l1a/l1a_dataset.py`),
and `write_globals`, `write_global` (`/repo/dedop/data/output/netcdf_writer.py:377-387`).
-/
namespace Dedop.Globals

/-- A text. -/
abbrev Name := List Char

/-- The value of an attribute of a NetCDF file: a text or anything else (a number or an array).
As given by `ncattrs` and `getncattr` (`l1a_dataset.py:38-76`, `netcdf_reader.py:80-84`, `netcdf_writer.py:377-387`). -/
inductive Attr where
  | text (s : Name)
  | other (n : ℚ)
  deriving DecidableEq

/-- The global attributes of a file, by name (`netcdf_writer.py:377-387`). -/
abbrev Attrs := Dict String Attr

/-- `AttributeError`.  As raised for `None.replace` in `l1a_dataset.py:78-82`. -/
def attributeError : PyErr := .other "AttributeError"

/-- The names in `L1AGlobals.__slots__` (`l1a_dataset.py:16-36`). -/
def slots : List String :=
  ["mission_name", "altimeter_sensor_name", "gnss_sensor_name", "doris_sensor_name", "references",
   "acq_station_name", "xref_altimeter_level0", "xref_navatt_level0", "xref_altimeter_orbit",
   "xref_doris_uso", "xref_altimeter_ltm_lrm_cal1", "xref_altimeter_ltm_sar_cal1",
   "xref_altimeter_ltm_ku_cal2", "xref_altimeter_ltm_c_cal2", "xref_altimeter_characterisation",
   "xref_time_correlation", "xref_platform", "history", "product_name"]

/-- `read_globals` and `L1AGlobals.__init__` (`l1a_dataset.py:38-76`, `276-277`): the attributes of the
file, as keyword arguments (an attribute named `self` clashes with the first argument).  `attrs.get`
gives `None` for a missing one; nothing but the slots is kept. -/
def readGlobals (file : Attrs) : Except PyErr (String → Option Attr) :=
  if (file.get? "self").isSome then .error .typeError
  else .ok (fun n => if n ∈ slots then file.get? n else none)

/-- `self.product_name.replace('_A__', new)` (`l1a_dataset.py:78-82`): only a text has `replace`. -/
def productName (v : Option Attr) (new : Name) : Except PyErr Name :=
  match v with
  | some (.text s) => .ok (Notebook.replace ['_', 'A', '_', '_'] new s)
  | _ => .error attributeError

/-- `get_l1b_product_name` (`l1a_dataset.py:78-79`). -/
def l1bProductName (g : String → Option Attr) : Except PyErr Name :=
  productName (g "product_name") ['_', '_', '_', '_']

/-- `get_l1bs_product_name` (`l1a_dataset.py:81-82`). -/
def l1bsProductName (g : String → Option Attr) : Except PyErr Name :=
  productName (g "product_name") ['_', 'B', 'S', '_']

/-- An output file: its attributes, and whether it was closed.  `netcdf_writer.py:335-339, 377-387`. -/
structure Out where
  attrs : Attrs
  closed : Bool
  deriving DecidableEq

/-- `write_global` (`netcdf_writer.py:384-387`). -/
def writeGlobal (o : Out) (kv : String × Option Attr) : Out :=
  { o with attrs := o.attrs.set kv.1 (kv.2.getD (.text "Not available".toList)) }

/-- `write_globals` (`netcdf_writer.py:377-382`). -/
def writeGlobals (o : Out) (kvs : List (String × Option Attr)) : Out := kvs.foldl writeGlobal o

/-- Everything the attributes depend on besides the input: constants, versions, times.  `processor.py:280-346`. -/
structure Ctx where
  semiMajor : ℚ
  flattening : ℚ
  netcdf : Name
  version : Name
  created : Name
  first : Except PyErr Name
  last : Except PyErr Name

/-- The keyword arguments of both calls before the product name (`processor.py:284-304`, `316-337`). -/
def heading (title : String) (platform : Bool) (g : String → Option Attr) (c : Ctx) :
    List (String × Option Attr) :=
  [("title", some (.text title.toList))] ++
  (["mission_name", "altimeter_sensor_name", "gnss_sensor_name", "doris_sensor_name", "references",
    "acq_station_name", "xref_altimeter_level0", "xref_navatt_level0", "xref_altimeter_orbit",
    "xref_doris_uso", "xref_altimeter_ltm_lrm_cal1", "xref_altimeter_ltm_sar_cal1",
    "xref_altimeter_ltm_ku_cal2", "xref_altimeter_ltm_c_cal2", "xref_altimeter_characterisation"] ++
   (if platform then ["xref_platform"] else []) ++ ["xref_time_correlation"]).map (fun n => (n, g n)) ++
  [("semi_major_ellipsoid_axis", some (.other c.semiMajor)),
   ("ellipsoid_flattening", some (.other c.flattening)),
   ("netcdf_version", some (.text c.netcdf))]

/-- The keyword arguments from the product name on (`processor.py:305-312`, `338-345`). -/
def ending (product first last : Name) (g : String → Option Attr) (c : Ctx) :
    List (String × Option Attr) :=
  [("product_name", some (.text product)), ("institution", some (.text "isardSAT".toList)),
   ("source", some (.text ("DeDop ".toList ++ c.version))), ("history", g "history"),
   ("contact", some (.text "http://www.dedop.org/".toList)),
   ("creation_time", some (.text c.created)), ("first_meas_time", some (.text first)),
   ("last_meas_time", some (.text last))]

/-- The end of `_process` (`processor.py:278-349`): the outcome and both files.  The arguments of a call
are evaluated before the call. -/
def finish (file : Attrs) (c : Ctx) (l1b : Out) (l1bs : Option Out) :
    Except PyErr Unit × Out × Option Out :=
  match readGlobals file with
  | .error e => (.error e, l1b, l1bs)
  | .ok g =>
    match c.first with
    | .error e => (.error e, l1b, l1bs)
    | .ok first =>
      match c.last with
      | .error e => (.error e, l1b, l1bs)
      | .ok last =>
        match l1bProductName g with
        | .error e => (.error e, l1b, l1bs)
        | .ok p =>
          let l1b := writeGlobals l1b (heading "DeDop SRAL Level 1 Measurement" false g c ++
            ending p first last g c)
          let l1b := { l1b with closed := true }
          match l1bs with
          | none => (.ok (), l1b, none)
          | some o =>
            match l1bsProductName g with
            | .error e => (.error e, l1b, some o)
            | .ok p =>
              let o := writeGlobals o (heading "DeDop SRAL Level 1BS Measurement" true g c ++
                ending p first last g c)
              (.ok (), l1b, some { o with closed := true })

/-! ## The times -/

variable {K : Type} [DecidableEq K]

/-- `first_time` (`l1a_dataset.py:153-154`); `r` is the state of the reader. -/
def firstTime (f : Reader.File K ℚ) (chunk : Nat) (time : K) (d : Reader.Dataset) (r : Reader.Reader K ℚ) :
    Except PyErr ℚ × Reader.Reader K ℚ :=
  Reader.getValue f chunk r time d.start

/-- `last_time` (`l1a_dataset.py:156-157`). -/
def lastTime (f : Reader.File K ℚ) (chunk : Nat) (time : K) (d : Reader.Dataset) (r : Reader.Reader K ℚ) :
    Except PyErr ℚ × Reader.Reader K ℚ :=
  Reader.getValue f chunk r time ((d.final : Int) - 1)

/-- `ftime` and `ltime` (`processor.py:281-282`). -/
def measTimes (f : Reader.File K ℚ) (chunk : Nat) (time : K) (d : Reader.Dataset)
    (r : Reader.Reader K ℚ) : Except PyErr Name × Except PyErr Name :=
  let (a, r) := firstTime f chunk time d r
  let (b, _) := lastTime f chunk time d r
  (match a with | .ok t => isoFormat t | .error e => .error e,
   match b with | .ok t => isoFormat t | .error e => .error e)

end Dedop.Globals
