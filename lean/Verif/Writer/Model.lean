import Mathlib.Algebra.Order.Field.Basic
import Mathlib.Algebra.Order.Floor.Ring
import Mathlib.Data.Rat.Floor
/-!
# Writing the output files

Models `dedop/data/output/netcdf_writer.py` (the record writer) and the values computed by the `write_record` methods of
`dedop/data/output/l1b_writer.py` and `l1bs_writer.py`: UTC time, scaled waveforms, scaled I/Q samples and packed angles.
-/
namespace Dedop.Writer

/-! ## The record writer -/

/-- A value passed to `write_record` (netcdf_writer.py 345-375): `None`, a number, a 1-D array or an `n × m` array.
A matrix entry is read only inside the `n × m` shape. -/
inductive Value (V : Type) where
  | missing
  | scalar (v : V)
  | vector (l : List V)
  | matrix (n m : Nat) (f : Nat → Nat → V)

/-- A netCDF variable (netcdf_writer.py 287-331): its number of dimensions, the sizes of the dimensions after the record
dimension (0 when absent) and its cells, indexed by record, row and column.  `none` is the fill value.  A 1-D variable uses
cell `(0, 0)` of a record, a 2-D variable row 0. -/
structure Var (V : Type) where
  ndims : Nat
  dim1 : Nat
  dim2 : Nat
  cells : Nat → Nat → Nat → Option V

/-- The exceptions of `write_record`: `getattr` fails outside the `try` (netcdf_writer.py 342, 352), everything else becomes
a `WriteError` naming variable and index (368-374). -/
inductive Err where
  | attribute (name : String)
  | write (name : String) (index : Nat)
  deriving DecidableEq, Repr

/-- The variables of the open file by name (netcdf_writer.py 256-270: `setattr(self, var.name, var)`). -/
abbrev Store (V : Type) := String → Option (Var V)

/-- The state of a writer: the variables and `output_index` (netcdf_writer.py 101-105). -/
structure Writer (V : Type) where
  store : Store V
  index : Nat

/-- `var[idx, :n, :m] = f`.  `netcdf_writer.py:360-361`. -/
def setCells {V : Type} (c : Nat → Nat → Nat → Option V) (idx n m : Nat) (f : Nat → Nat → V) :
    Nat → Nat → Nat → Option V :=
  fun k i j => if k = idx ∧ i < n ∧ j < m then some (f i j) else c k i j

/-- One assignment of `write_record` (netcdf_writer.py 355-374): nothing for `None`, otherwise a slice assignment chosen by
the number of dimensions of the variable.  Arrays larger than the variable's dimensions and values of another rank make
netCDF4 (or `len`, `.shape`) raise; its broadcasting of one-element arrays is not modelled. -/
def writeVar {V : Type} (name : String) (idx : Nat) (x : Value V) (var : Var V) : Except Err (Var V) :=
  match x with
  | .missing => .ok var
  | x =>
    if var.ndims = 3 then
      match x with
      | .matrix n m f =>
        if n ≤ var.dim1 ∧ m ≤ var.dim2 then .ok { var with cells := setCells var.cells idx n m f }
        else .error (.write name idx)
      | _ => .error (.write name idx)
    else if var.ndims = 2 then
      match x with
      | .vector l =>
        if l.length ≤ var.dim1 then
          .ok { var with cells := fun k i j => if k = idx ∧ i = 0 ∧ j < l.length then l[j]? else var.cells k i j }
        else .error (.write name idx)
      | _ => .error (.write name idx)
    else if var.ndims = 1 then
      match x with
      | .scalar v => .ok { var with cells := setCells var.cells idx 1 1 fun _ _ => v }
      | _ => .error (.write name idx)
    else .error (.write name idx)

/-- The loop of `write_record` over the keyword arguments (netcdf_writer.py 351-374).  The store is returned also when an
exception ends the loop: earlier assignments have been made. -/
def writeValues {V : Type} (idx : Nat) : List (String × Value V) → Store V → Store V × Option Err
  | [], s => (s, none)
  | (n, x) :: rest, s =>
    match s n with
    | none => (s, some (.attribute n))
    | some var =>
      match writeVar n idx x var with
      | .error e => (s, some e)
      | .ok var' => writeValues idx rest (fun k => if k = n then some var' else s k)

/-- `write_record` (netcdf_writer.py 345-376): the index advances only after all values have been written. -/
def writeRecord {V : Type} (w : Writer V) (rec : List (String × Value V)) : Writer V × Option Err :=
  match writeValues w.index rec w.store with
  | (s, none) => (⟨s, w.index + 1⟩, none)
  | (s, some e) => (⟨s, w.index⟩, some e)

/-- A caller that goes on after an exception: all records in order, with the outcome of each call.
Not a function of the code: any sequence of calls of `netcdf_writer.py:345-377`. -/
def writeAll {V : Type} : Writer V → List (List (String × Value V)) → Writer V × List (Option Err)
  | w, [] => (w, [])
  | w, r :: rs =>
    let q := writeRecord w r
    let p := writeAll q.1 rs
    (p.1, q.2 :: p.2)

/-- The fixed dimensions: the looks of a stack and the zero-padded samples of an echo (l1b_writer.py 107-115, 953-961,
l1bs_writer.py 91-97). -/
inductive Dim where
  | looks
  | samples
  deriving DecidableEq, Repr

/-- The definitions of a writer class: variable names with the dimensions after the record dimension
(`define_variable`, netcdf_writer.py 147-169). -/
abbrev Schema := List (String × List Dim)

/-- `open` (netcdf_writer.py 215-223, 256-270): all variables exist and hold fill values, the index is 0.  A name defined
twice keeps its first position and its last definition in the `OrderedDict`; the shipped names are distinct. -/
def openWriter {V : Type} (size : Dim → Nat) (schema : Schema) : Writer V where
  store n := (schema.lookup n).map fun ds =>
    { ndims := ds.length + 1
      dim1 := (ds[0]?.map size).getD 0
      dim2 := (ds[1]?.map size).getD 0
      cells := fun _ _ _ => none }
  index := 0

/-- The shape of a written value.  `netcdf_writer.py:353-369`. -/
inductive Shape where
  | missing
  | scalar
  | vector (d : Dim)
  | matrix (d e : Dim)
  deriving DecidableEq, Repr

/-! ## UTC time -/

/-- The time fields of a surface (surface_locations.py 41-45, 321-326): its TAI time, and TAI time, UTC day, UTC seconds and day
length of the record before it. -/
structure Times (K : Type) where
  timeSurf : K
  prevTai : K
  prevDays : ℤ
  prevSecs : K
  dayLength : K

/-- The UTC day and seconds written for a surface (l1b_writer.py 845-853, 1568-1576, l1bs_writer.py 634-642; the three
copies are identical). -/
def utc {K : Type} [Field K] [LinearOrder K] (t : Times K) : ℤ × K :=
  let secs := t.prevSecs + (t.timeSurf - t.prevTai)
  if secs > t.dayLength then (t.prevDays + 1, secs - t.dayLength) else (t.prevDays, secs)

/-- A burst record as far as time is concerned: TAI time, UTC day and UTC seconds (l1a_dataset.py 176-181). -/
structure Burst (K : Type) where
  tai : K
  days : ℤ
  secs : K

/-- `leap_secs_since_2000` (l1a_processing_data.py 791-793). -/
def Burst.leap {K : Type} [Field K] (secInDay : K) (b : Burst K) : K := b.tai - (b.days * secInDay + b.secs)

/-- `store_first_location` (surface_locations.py 83-122) sets `time_surf` and leaves the four other time fields as the
previous surface left them. -/
def firstTimes {K : Type} (old : Times K) (curr : Burst K) : Times K :=
  { old with timeSurf := curr.tai }

/-- The time fields set by `find_new_location` (surface_locations.py 269-270, 321-326), with `alpha` the position of the
surface between the last two records. -/
def newTimes {K : Type} [Field K] (secInDay alpha : K) (prev curr : Burst K) : Times K where
  timeSurf := prev.tai + alpha * (curr.tai - prev.tai)
  prevTai := prev.tai
  prevDays := prev.days
  prevSecs := prev.secs
  dayLength := secInDay + (curr.leap secInDay - prev.leap secInDay)

/-- The time fields of a new algorithm object (surface_locations.py 12-45). -/
def noTimes {K : Type} [Field K] : Times K := ⟨0, 0, 0, 0, 0⟩

/-! ## Scaling -/

section
variable {K : Type} [Field K] [LinearOrder K]

/-- `array.max()`; numpy raises for an empty array.  Used in `l1b_writer.py:857`, `l1bs_writer.py:647`. -/
def npMax : List K → Option K
  | [] => none
  | x :: l => some (l.foldl max x)

/-- `x / y` of numpy: NaN or infinity (`none`) when the divisor is 0. -/
def npDiv (x y : K) : Option K := if y = 0 then none else some (x / y)

/-- The waveform and scale factor stored by the extended L1B writer (l1b_writer.py 857, 926-927). -/
def scaleWaveform (w : List K) : Option (List (Option K) × K) :=
  match npMax w with
  | none => none
  | some m => some (w.map fun x => npDiv x m, m)

/-- The I/Q samples and scale factor stored by the L1B-S writer (l1bs_writer.py 645-649, 696-698), the stack flattened. -/
def scaleIQ (iq : List (K × K)) : Option (List (Option K × Option K) × K) :=
  match npMax (iq.map fun z => |z.1|), npMax (iq.map fun z => |z.2|) with
  | some a, some b =>
    let d := max a b / 127
    some (iq.map fun z => (npDiv z.1 d, npDiv z.2 d), d)
  | _, _ => none

/-- How netCDF4 stores `x` in an integer variable with attributes `scale_factor` and `add_offset`: the rounded quotient if
it fits the type, otherwise an arbitrary value (`none`).  `rnd` is the rounding function (`numpy.around`). -/
def pack (rnd : K → ℤ) (scale offset : K) (lo hi : ℤ) (x : K) : Option ℤ :=
  let c := rnd ((x - offset) / scale)
  if lo ≤ c ∧ c ≤ hi then some c else none

/-- What a reader of the file gets back from a stored code.
The NetCDF library's `scale_factor` and `add_offset`, set in `netcdf_writer.py:300-333`. -/
def unpack (scale offset : K) (c : ℤ) : K := c * scale + offset

end

/-- How netCDF4 stores `x` in an integer variable without packing attributes: the C cast truncates towards zero. -/
def castInt {K : Type} [Field K] [LinearOrder K] [FloorRing K] (lo hi : ℤ) (x : K) : Option ℤ :=
  let c := if 0 ≤ x then ⌊x⌋ else ⌈x⌉
  if lo ≤ c ∧ c ≤ hi then some c else none

/-! ## Packed angles and units -/

/-- An angle variable of the output files: 16-bit codes (-32768 to 32767, 32767 being the fill value) with the given
`scale_factor` and `add_offset`. -/
structure AngleVar where
  scale : ℚ
  offset : ℚ
  deriving DecidableEq

/-- `beam_ang` and `start_/stop_beam_ang_stack` of the extended L1B and of the L1B-S file (l1b_writer.py 680-692, 797-816,
l1bs_writer.py 499-510, 606-625). -/
def beamAngVar : AngleVar := ⟨1 / 1000000, 157 / 100⟩

/-- `look_ang` of the extended L1B file (l1b_writer.py 693-705). -/
def lookAngVar : AngleVar := ⟨1 / 1000000, 157 / 100⟩

/-- `start_/stop_look_angle_stack` of the extended L1B and of the L1B-S file (l1b_writer.py 777-796, l1bs_writer.py 575-594). -/
def startLookVar : AngleVar := ⟨1 / 1000000, 0⟩

/-- `beam_ang` of the Sentinel-3 L1B file (l1b_writer.py 1525-1537). -/
def s3BeamAngVar : AngleVar := ⟨1 / 1000000, 0⟩

/-- `{roll,pitch,yaw}_sat_pointing` of the extended L1B and of the L1B-S file, declared in degrees (l1b_writer.py 739-774,
l1bs_writer.py 260-295). -/
def pointingVar : AngleVar := ⟨1 / 10000, 0⟩

/-- Storing an angle in one of these variables.  Assignment in `netcdf_writer.py:364-366`. -/
def AngleVar.store (v : AngleVar) (rnd : ℚ → ℤ) (x : ℚ) : Option ℤ := pack rnd v.scale v.offset (-32768) 32767 x

/-- The angle a reader gets back.  The NetCDF library, for the variables of `netcdf_writer.py:300-333`. -/
def AngleVar.load (v : AngleVar) (c : ℤ) : ℚ := unpack v.scale v.offset c

/-- The value written to the pointing variables of the extended L1B file: `degrees(roll_sat)` (l1b_writer.py 887-889);
`roll_sat` comes in radians from the input (l1a_dataset.py 193-195).  `pi` is the value of `math.pi`. -/
def extPointing {K : Type} [Field K] (pi roll : K) : K := roll * 180 / pi

/-- The value written to the pointing variables of the L1B-S file: `roll_sat` (l1bs_writer.py 670-672). -/
def l1bsPointing {K : Type} (roll : K) : K := roll

end Dedop.Writer
