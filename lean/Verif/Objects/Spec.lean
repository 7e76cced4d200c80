import Verif.Objects.Tables
import Verif.Basic.Tactics
/-!
# Attributes hold what was last stored in them (C110) and reading changes nothing (C111)

An attribute of a surface or of a burst is a named place: reading it gives the value last stored in it, by attribute, by item
or when the object was made, whatever else the program did in between.
-/
namespace Dedop.Objects
variable {V : Type}

/-! ## Specification -/

/-- What a user is told about a class: attributes that cannot be assigned, attributes that cannot be deleted, and attributes
that stand for several others. -/
structure Doc where
  readOnly : List String
  lasting : List String
  vectors : Dict String (List String)

/-- The value which assigning `v` to the vector `n` gives to the attribute `a`, if it gives one: `v` has one value for each of
the attributes which `n` stands for, and `a` is one of these. -/
def Doc.part (d : Doc) (p : Vals V) (a n : String) (v : V) : Option V :=
  match d.vectors.get? n, p.unpack v with
  | some names, some l => if l.length = names.length then l[names.idxOf a]? else none
  | _, _ => none

/-- The value last stored in the attribute `a`, `none` if there is none; `first` is the value at the beginning. -/
def Doc.stored (d : Doc) (p : Vals V) (a : String) : Option V → List (Op V) → Option V
  | first, [] => first
  | first, .set n v :: t =>
    d.stored p a (if n = a then (if a ∈ d.readOnly then first else some v) else (d.part p a n v).or first) t
  | first, .setItem k v :: t => d.stored p a (if k = a then some v else first) t
  | first, .del n :: t => d.stored p a (if n = a ∧ a ∉ d.lasting then none else first) t
  | first, .delItem k :: t => d.stored p a (if k = a then none else first) t
  | first, .get _ :: t => d.stored p a first t
  | first, .getItem _ :: t => d.stored p a first t

/-- What reading the attribute `a` gives for a stored value: a missing value is an exception, except that a surface is not the
focussing target unless said otherwise. -/
def reading (p : Vals V) (a : String) : Option V → Except PyErr V
  | some v => .ok v
  | none => if a = "target_focused" then .ok p.no else .error (.keyError a)

/-- What a user is told about `SurfaceData`. -/
def surfaceDoc : Doc where
  readOnly := ["prev_tai", "prev_utc_days", "prev_utc_secs", "curr_day_length"]
  lasting := ["prev_tai", "prev_utc_days", "prev_utc_secs", "curr_day_length", "n_beams_start_stop", "start_look_angle",
    "stop_look_angle", "start_doppler_angle", "stop_doppler_angle", "start_pointing_angle", "stop_pointing_angle",
    "stack_mask_vector_start_stop", "start_beam_angle", "stop_beam_angle", "start_burst_index", "stop_burst_index",
    "beam_angles_start_stop", "look_angles_start_stop"]
  vectors := [("ecef_surf", ["x_surf", "y_surf", "z_surf"]), ("lla_surf", ["lat_surf", "lon_surf", "alt_surf"]),
    ("ecef_sat", ["x_sat", "y_sat", "z_sat"]), ("lla_sat", ["lat_sat", "lon_sat", "alt_sat"]),
    ("vel_sat", ["x_vel_sat", "y_vel_sat", "z_vel_sat"]), ("orientation_sat", ["roll_sat", "pitch_sat", "yaw_sat"])]

/-- The attributes of a surface that are not places: the number of the surface and two derived values. -/
def surfaceDerived : List String := ["surface_counter", "closest_burst", "gps_time_surf"]

/-- The values read from the instrument, which a program cannot assign. -/
def instrument : List String := ["isp_coarse_time", "isp_fine_time", "sral_fine_time", "flag_time_status", "nav_bul_status",
  "nav_bul_source", "source_seq_count", "oper_instr", "SAR_mode", "cl_gain", "acq_stat", "dem_eeprom", "loss_track",
  "h0_nav_dem", "h0_applied", "cor2_nav_dem", "cor2_applied", "dh0", "agccode_ku", "range_ku", "int_path_cor_ku", "agc_ku",
  "sig0_cal_ku", "uso_cor", "surf_type", "roll_sral_mispointing", "pitch_sral_mispointing", "yaw_sral_mispointing", "cog_cor"]

/-- What a user is told about `L1AProcessingData`. -/
def burstDoc : Doc where
  readOnly := instrument
  lasting := instrument
  vectors := [("geodetic_sat", ["lat_sar_sat", "lon_sar_sat", "alt_sar_sat"]),
    ("orientation_sar", ["roll_sar", "pitch_sar", "yaw_sar"]), ("sar_surf", ["x_sar_surf", "y_sar_surf", "z_sar_surf"]),
    ("pos_sar_sat", ["x_sar_sat", "y_sar_sat", "z_sar_sat"])]

/-- The attributes of a burst that are not places in its dictionary. -/
def burstDerived : List String := ["x_vel_sat_sar", "y_vel_sat_sar", "z_vel_sat_sar", "vel_sat_sar", "vel_sat_sar_norm",
  "seq_count_sar", "counter", "burst_processed", "leap_secs_since_2000", "h", "cai", "fai"]

/-- The class of surfaces; `extra` are the names which every Python class has. -/
def surfaceClass (extra : String → Bool) : Cls := ⟨surfaceAttrs, fun k => decide (k ∈ surfaceMethods) || extra k⟩

/-- The class of bursts; `extra` are the names which every Python class has. -/
def burstClass (extra : String → Bool) : Cls := ⟨burstAttrs, fun k => decide (k ∈ burstMethods) || extra k⟩

/-! ## The tables of attributes fit together -/

/-- The getter reads the entry with the given name. -/
def cellOf (g : Getter) (name : String) : Bool := g = .cell name || g = .cellOrFalse name

/-- The checks on one property: getter, setter and deleter use the entry with the name of the property; a property that stands
for others stands for such entries. -/
def okAttr (attrs : List Attr) (a : Attr) : Bool :=
  (match a.getter with
    | .cell k => k = a.name
    | .cellOrFalse k => k = a.name && a.name = "target_focused"
    | .view ns => ns.all fun n => match findAttr attrs n with | some b => b.getter = .cell n | none => false
    | .derived ns => ns.all fun n => match findAttr attrs n with | some b => b.getter = .cell n | none => false
    | _ => true) &&
  (match a.setter with
    | some (.cell k) => k = a.name && cellOf a.getter a.name
    | some (.view ns) => ns.Nodup && a.getter = .view ns &&
        ns.all fun n => match findAttr attrs n with | some b => b.setter = some (.cell n) | none => false
    | some _ => !cellOf a.getter a.name
    | none => true) &&
  (match a.deleter with | some k => k = a.name && cellOf a.getter a.name | none => true)

/-- All properties of a class pass the checks. -/
def okTable (attrs : List Attr) : Bool := attrs.all (okAttr attrs)

/-- The description agrees with the properties of the class. -/
def Agrees (attrs : List Attr) (d : Doc) (derived : List String) : Bool :=
  (attrs.all fun a =>
    match findAttr attrs a.name with
    | none => false
    | some b =>
      if a.name ∈ derived then !cellOf b.getter a.name && (match b.setter with | some (.view _) => false | _ => true) &&
        (d.vectors.get? a.name).isNone
      else match d.vectors.get? a.name with
        | some ns => b.setter = some (.view ns)
        | none => b.getter = (if a.name = "target_focused" then .cellOrFalse a.name else .cell a.name) &&
          b.setter = (if a.name ∈ d.readOnly then none else some (.cell a.name)) &&
          b.deleter = (if a.name ∈ d.lasting then none else some a.name)) &&
  d.vectors.all fun e => decide (e.1 ∈ attrs.map (·.name))

theorem surface_ok : okTable surfaceAttrs = true ∧ Agrees surfaceAttrs surfaceDoc surfaceDerived = true := by decide +kernel
theorem burst_ok : okTable burstAttrs = true ∧ Agrees burstAttrs burstDoc burstDerived = true := by decide +kernel

end Dedop.Objects
