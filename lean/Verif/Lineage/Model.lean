import Verif.Reader.Props

/-!
# Where the values of a product come from

Model of the construction of a burst from a record of the input (`/repo/dedop/data/input/l1a/l1a_dataset.py:162-239`)
and of the values given to the three writers (`/repo/dedop/data/output/l1b_writer.py:863-934, 1580-1638`,
`/repo/dedop/data/output/l1bs_writer.py:651-703`).

Names of variables are written without the suffixes `_l1a_echo_sar_ku`, `_l1b_echo_sar_ku` and
`_l1bs_echo_sar_ku`.  The tables below were transcribed from the text of the calls.  Values are of any type; what
is computed from them (radians, waveform, window delay, a row of the CAL2 table) is a parameter.
-/

namespace Dedop.Lineage

open Dedop

variable {V : Type}

/-- The operations on values.  For `l1a_dataset.py:162-239`. -/
structure Ops (V : Type) where
  /-- `radians` -/
  rad : V → V
  /-- constants and values of the characterisation and configuration files -/
  const : String → V
  /-- lines 164-168: the waveform from the gain, I and Q -/
  wave : V → V → V → V
  /-- lines 169-171, 199: the window delay from pitch, centre of gravity correction and range -/
  delay : V → V → V → V
  /-- line 228: a row of a table -/
  row : V → V
  /-- subtraction -/
  sub : V → V → V

/-- An expression in the call of `L1AProcessingData`. -/
inductive Src
  | raw (v : String)
  | rad (v : String)
  | row (v : String)
  | const (c : String)
  | wave
  | delay

/-- The keyword arguments of the call (`l1a_dataset.py:173-235`), in order. -/
def packetSpec : List (String × Src) :=
  [("isp_pid", .const "PacketPid.echo_sar"),
   ("time_sar_ku", .raw "time"),
   ("isp_coarse_time", .raw "isp_coarse_time"),
   ("isp_fine_time", .raw "isp_fine_time"),
   ("sral_fine_time", .raw "sral_fine_time"),
   ("days", .raw "UTC_day"),
   ("seconds", .raw "UTC_sec"),
   ("inst_id_sar_isp", .const "0"),
   ("pri_sar_pre_dat", .const "self.chd.pri_sar"),
   ("ambiguity_order_sar", .const "0"),
   ("burst_sar_ku", .raw "burst_count_prod"),
   ("lat_sar_sat", .rad "lat"),
   ("lon_sar_sat", .rad "lon"),
   ("alt_sar_sat", .raw "alt"),
   ("alt_rate_sat_sar", .raw "orb_alt_rate"),
   ("x_vel_sat_sar", .raw "x_vel"),
   ("y_vel_sat_sar", .raw "y_vel"),
   ("z_vel_sat_sar", .raw "z_vel"),
   ("roll_sar", .rad "roll_sral_mispointing"),
   ("pitch_sar", .rad "pitch_sral_mispointing"),
   ("yaw_sar", .rad "yaw_sral_mispointing"),
   ("roll_sral_mispointing", .raw "roll_sral_mispointing"),
   ("pitch_sral_mispointing", .raw "pitch_sral_mispointing"),
   ("yaw_sral_mispointing", .raw "yaw_sral_mispointing"),
   ("cog_cor", .raw "cog_cor"),
   ("h0_sar", .raw "h0_applied"),
   ("t0_sar", .const "self.chd.t0_nom"),
   ("uso_cor", .raw "uso_cor"),
   ("cor2_sar", .raw "cor2_applied"),
   ("win_delay_sar_ku", .delay),
   ("x_sar_sat", .raw "x_pos"),
   ("y_sar_sat", .raw "y_pos"),
   ("z_sar_sat", .raw "z_pos"),
   ("waveform_cor_sar", .wave),
   ("beams_focused", .const "None"),
   ("flag_time_status", .raw "flag_time_status"),
   ("nav_bul_status", .raw "nav_bul_status"),
   ("nav_bul_source", .raw "nav_bul_source"),
   ("source_seq_count", .raw "seq_count"),
   ("oper_instr", .raw "oper_instr"),
   ("SAR_mode", .raw "SAR_mode"),
   ("cl_gain", .raw "cl_gain"),
   ("acq_stat", .raw "acq_stat"),
   ("dem_eeprom", .raw "dem_eeprom"),
   ("loss_track", .raw "loss_track"),
   ("h0_nav_dem", .raw "h0_nav_dem"),
   ("h0_applied", .raw "h0_applied"),
   ("cor2_nav_dem", .raw "cor2_nav_dem"),
   ("cor2_applied", .raw "cor2_applied"),
   ("dh0", .raw "dh0"),
   ("agccode_ku", .raw "agccode_ku"),
   ("range_ku", .raw "range_ku"),
   ("int_path_cor_ku", .raw "int_path_cor_ku"),
   ("agc_ku", .raw "agc_ku"),
   ("sig0_cal_ku", .raw "sig0_cal_ku"),
   ("surf_type", .raw "surf_type"),
   ("cal1_power", .raw "burst_power_cor_ku"),
   ("cal1_phase", .raw "burst_phase_cor_ku"),
   ("cal2_array", .row "gprw_meas_ku")]

/-- Reading with exceptions: the reader caches chunks, also when an exception is raised.
As in `netcdf_reader.py:40-84`. -/
abbrev M (V A : Type) := Reader.Reader String V → Except PyErr A × Reader.Reader String V

/-- No reading; for the sequence of expressions in `l1a_dataset.py:162-239`. -/
def M.pure {A : Type} (a : A) : M V A := fun r => (.ok a, r)

/-- Reading one after the other; an exception ends the sequence (`l1a_dataset.py:162-239`). -/
def M.bind {A B : Type} (m : M V A) (g : A → M V B) : M V B := fun r =>
  match m r with
  | (.ok a, r') => g a r'
  | (.error e, r') => (.error e, r')

/-- `self.get_value(variable, index)` (`l1a_dataset.py:265-266`). -/
def get (f : Reader.File String V) (chunk : Nat) (index : Int) (v : String) : M V V :=
  fun r => Reader.getValue f chunk r v index

/-- The value of one argument; `w` and `d` are the variables `waveform` and `range * 2 / c`. -/
def eval (o : Ops V) (f : Reader.File String V) (chunk : Nat) (index : Int) (w d : V) : Src → M V V
  | .raw v => get f chunk index v
  | .rad v => (get f chunk index v).bind fun x => M.pure (o.rad x)
  | .row v => (get f chunk index v).bind fun x => M.pure (o.row x)
  | .const c => M.pure (o.const c)
  | .wave => M.pure w
  | .delay => M.pure d

/-- The arguments, evaluated from left to right.  `l1a_dataset.py:173-235`. -/
def evalAll (o : Ops V) (f : Reader.File String V) (chunk : Nat) (index : Int) (w d : V) :
    List (String × Src) → M V (List (String × V))
  | [] => M.pure []
  | (k, s) :: rest => (eval o f chunk index w d s).bind fun x =>
      (evalAll o f chunk index w d rest).bind fun l => M.pure ((k, x) :: l)

/-- `L1ADataset.__getitem__` (`l1a_dataset.py:162-239`), up to the two calls at its end, which set the entries
for the positions and the Doppler angle only. -/
def getitem (o : Ops V) (f : Reader.File String V) (chunk : Nat) (index : Int) : M V (List (String × V)) :=
  (get f chunk index "agc_ku").bind fun agc =>
  (get f chunk index "i_meas_ku").bind fun i =>
  (get f chunk index "q_meas_ku").bind fun q =>
  (get f chunk index "pitch_sat_pointing").bind fun pitch =>
  (get f chunk index "cog_cor").bind fun cog =>
  (get f chunk index "range_ku").bind fun range =>
  evalAll o f chunk index (o.wave agc i q) (o.delay pitch cog range) packetSpec

/-- The entries of a burst that are set after its construction: by `compute_location_sar_surf` and
`compute_doppler_angle` (`l1a_processing_data.py:856-877, 900-927`), the calibration (`cal1_algorithm.py:18`,
`cal2_algorithm.py:15`) and the processor (`processor.py:382-383, 416`, `l1a_processing_data.py:879-898`). -/
def working : List String :=
  ["x_sar_sat", "y_sar_sat", "z_sar_sat", "x_sar_surf", "y_sar_surf", "z_sar_surf", "doppler_angle_sar_sat",
   "waveform_cor_sar", "beam_angles_list", "surfaces_seen_list", "beam_angles_trend", "beams_focused"]

/-- A burst later: some entries were set again (`sets`, in order).  `l1a_processing_data.py:845-848` for each. -/
def later (burst : Dict String V) (sets : List (String × V)) : Dict String V :=
  sets.foldl (fun d p => d.set p.1 p.2) burst

/-- An expression in the call of `write_record`: an attribute of the closest burst, the difference of two of them,
`None`, or anything else, computed from the surface.  `l1b_writer.py:863-934, 1580-1638`, `l1bs_writer.py:651-703`. -/
inductive Out
  | burst (key : String)
  | diff (a b : String)
  | none
  | surf (expr : String)

/-- `L1BWriterExtended.write_record` (`l1b_writer.py:863-934`). -/
def extended : List (String × Out) :=
  [("time", .surf "time_surf"),
   ("UTC_day", .surf "utc_days"),
   ("UTC_sec", .surf "utc_secs"),
   ("GPS_time", .surf "gps_time_surf"),
   ("isp_coarse_time", .burst "isp_coarse_time"),
   ("isp_fine_time", .burst "isp_fine_time"),
   ("sral_fine_time", .burst "sral_fine_time"),
   ("lat", .surf "degrees(lat_surf)"),
   ("lon", .surf "degrees(lon_surf)"),
   ("alt", .surf "alt_sat"),
   ("orb_alt_rate", .surf "alt_rate_sat"),
   ("flag_time_status", .burst "flag_time_status"),
   ("flag_man_pres", .none),
   ("flag_man_thrust", .none),
   ("flag_man_plane", .none),
   ("flag_gnss_status", .none),
   ("x_pos", .surf "x_sat"),
   ("y_pos", .surf "y_sat"),
   ("z_pos", .surf "z_sat"),
   ("x_vel", .surf "x_vel_sat"),
   ("y_vel", .surf "y_vel_sat"),
   ("z_vel", .surf "z_vel_sat"),
   ("roll_sat_pointing", .surf "degrees(roll_sat)"),
   ("pitch_sat_pointing", .surf "degrees(pitch_sat)"),
   ("yaw_sat_pointing", .surf "degrees(yaw_sat)"),
   ("nav_bul_status", .burst "nav_bul_status"),
   ("nav_bul_source", .burst "nav_bul_source"),
   ("nav_bul_coarse_time", .none),
   ("nav_bul_fine_time", .none),
   ("seq_count", .burst "source_seq_count"),
   ("oper_instr", .burst "oper_instr"),
   ("SAR_mode", .burst "SAR_mode"),
   ("cl_gain", .burst "cl_gain"),
   ("acq_stat", .burst "acq_stat"),
   ("dem_eeprom", .burst "dem_eeprom"),
   ("weighting", .none),
   ("loss_track", .burst "loss_track"),
   ("h0_nav_dem", .burst "h0_nav_dem"),
   ("h0_applied", .burst "h0_applied"),
   ("cor2_nav_dem", .burst "cor2_nav_dem"),
   ("cor2_applied", .burst "cor2_applied"),
   ("dh0", .burst "dh0"),
   ("agccode_ku", .burst "agccode_ku"),
   ("surf_type", .burst "surf_type"),
   ("range_ku", .surf "win_delay_surf * self.cst.c / 2."),
   ("uso_cor", .burst "uso_cor"),
   ("int_path_cor_ku", .burst "int_path_cor_ku"),
   ("range_rate", .none),
   ("agc_ku", .burst "agc_ku"),
   ("scale_factor_ku", .surf "sigma0_scaling_factor"),
   ("agc_cor_ku", .diff "agc_ku" "agccode_ku"),
   ("sig0_cal_ku", .burst "sig0_cal_ku"),
   ("nb_stack", .surf "n_beams_start_stop"),
   ("max_stack", .surf "stack_max"),
   ("stdev_stack", .surf "stack_std"),
   ("skew_stack", .surf "stack_skewness"),
   ("kurt_stack", .surf "stack_kurtosis"),
   ("beam_ang", .surf "beam_angles_surf"),
   ("look_ang", .surf "look_angles_surf"),
   ("beam_form", .none),
   ("i2q2_meas_ku", .surf "waveform_multilooked/scale_factor"),
   ("i2q2_scale_factor", .surf "scale_factor"),
   ("start_look_angle_stack", .surf "start_look_angle"),
   ("stop_look_angle_stack", .surf "stop_look_angle"),
   ("start_beam_ang_stack", .surf "start_beam_angle"),
   ("stop_beam_ang_stack", .surf "stop_beam_angle"),
   ("stack_mask_vector", .surf "stack_mask_vector_start_stop"),
   ("stack_scale_factor_ku", .surf "sigma0_scaling_factor_beam")]

/-- `L1BWriter.write_record` (`l1b_writer.py:1580-1638`). -/
def sentinel3 : List (String × Out) :=
  [("time", .surf "time_surf"),
   ("UTC_day", .surf "utc_days"),
   ("UTC_sec", .surf "utc_secs"),
   ("GPS_time", .surf "gps_time_surf"),
   ("isp_coarse_time", .burst "isp_coarse_time"),
   ("isp_fine_time", .burst "isp_fine_time"),
   ("sral_fine_time", .burst "sral_fine_time"),
   ("lat", .surf "degrees(lat_surf)"),
   ("lon", .surf "degrees(lon_surf)"),
   ("alt", .surf "alt_sat"),
   ("orb_alt_rate", .surf "alt_rate_sat"),
   ("flag_time_status", .burst "flag_time_status"),
   ("flag_man_pres", .none),
   ("flag_man_thrust", .none),
   ("flag_man_plane", .none),
   ("flag_gnss_status", .none),
   ("x_pos", .surf "x_sat"),
   ("y_pos", .surf "y_sat"),
   ("z_pos", .surf "z_sat"),
   ("x_vel", .surf "x_vel_sat"),
   ("y_vel", .surf "y_vel_sat"),
   ("z_vel", .surf "z_vel_sat"),
   ("nav_bul_status", .burst "nav_bul_status"),
   ("nav_bul_source", .burst "nav_bul_source"),
   ("nav_bul_coarse_time", .none),
   ("nav_bul_fine_time", .none),
   ("seq_count", .burst "source_seq_count"),
   ("oper_instr", .burst "oper_instr"),
   ("SAR_mode", .burst "SAR_mode"),
   ("cl_gain", .burst "cl_gain"),
   ("acq_stat", .burst "acq_stat"),
   ("dem_eeprom", .burst "dem_eeprom"),
   ("weighting", .none),
   ("loss_track", .burst "loss_track"),
   ("h0_nav_dem", .burst "h0_nav_dem"),
   ("h0_applied", .burst "h0_applied"),
   ("cor2_nav_dem", .burst "cor2_nav_dem"),
   ("cor2_applied", .burst "cor2_applied"),
   ("dh0", .burst "dh0"),
   ("agccode_ku", .burst "agccode_ku"),
   ("surf_type", .burst "surf_type"),
   ("range_ku", .surf "win_delay_surf * self.cst.c / 2."),
   ("uso_cor", .burst "uso_cor"),
   ("int_path_cor_ku", .burst "int_path_cor_ku"),
   ("range_rate", .none),
   ("agc_ku", .burst "agc_ku"),
   ("scale_factor_ku", .surf "sigma0_scaling_factor"),
   ("agc_cor_ku", .diff "agc_ku" "agccode_ku"),
   ("sig0_cal_ku", .burst "sig0_cal_ku"),
   ("nb_stack", .surf "data_stack_size"),
   ("max_stack", .surf "stack_max"),
   ("stdev_stack", .surf "stack_std"),
   ("skew_stack", .surf "stack_skewness"),
   ("kurt_stack", .surf "stack_kurtosis"),
   ("beam_ang", .surf "-look_angles_surf"),
   ("beam_form", .none),
   ("i2q2_meas_ku", .surf "waveform_multilooked")]

/-- `L1BSWriter.write_record` (`l1bs_writer.py:651-703`). -/
def l1bs : List (String × Out) :=
  [("time", .surf "time_surf"),
   ("UTC_day", .surf "utc_days"),
   ("UTC_sec", .surf "utc_secs"),
   ("lat", .surf "degrees(lat_surf)"),
   ("lon", .surf "degrees(lon_surf)"),
   ("surf_type", .surf "surface_type.value"),
   ("records_count", .surf "surface_counter"),
   ("alt", .surf "alt_sat"),
   ("orb_alt_rate", .surf "alt_rate_sat"),
   ("x_pos", .surf "x_sat"),
   ("y_pos", .surf "y_sat"),
   ("z_pos", .surf "z_sat"),
   ("x_vel", .surf "x_vel_sat"),
   ("y_vel", .surf "y_vel_sat"),
   ("z_vel", .surf "z_vel_sat"),
   ("meas_x_pos", .surf "x_surf"),
   ("meas_y_pos", .surf "y_surf"),
   ("meas_z_pos", .surf "z_surf"),
   ("roll_sat_pointing", .surf "roll_sat"),
   ("pitch_sat_pointing", .surf "pitch_sat"),
   ("yaw_sat_pointing", .surf "yaw_sat"),
   ("roll_sral_mispointing", .burst "roll_sral_mispointing"),
   ("pitch_sral_mispointing", .burst "pitch_sral_mispointing"),
   ("yaw_sral_mispointing", .burst "yaw_sral_mispointing"),
   ("range_ku", .surf "win_delay_surf * self.cst.c / 2."),
   ("int_path_cor_ku", .burst "int_path_cor_ku"),
   ("uso_cor", .burst "uso_cor"),
   ("cog_cor", .burst "cog_cor"),
   ("agccode_ku", .burst "agccode_ku"),
   ("agc_ku", .burst "agc_ku"),
   ("scale_factor_ku", .surf "sigma0_scaling_factor"),
   ("sig0_cal_ku", .burst "sig0_cal_ku"),
   ("snr_ku", .none),
   ("i2q2_meas_ku", .surf "waveform_multilooked*scale_factor"),
   ("nb_stack", .surf "data_stack_size"),
   ("max_stack", .surf "stack_max"),
   ("max_loc_stack", .none),
   ("stdev_stack", .surf "stack_std"),
   ("skew_stack", .surf "stack_skewness"),
   ("kurt_stack", .surf "stack_kurtosis"),
   ("beam_ang", .surf "beam_angles_start_stop"),
   ("beam_form", .none),
   ("burst_start_ind", .surf "start_burst_index"),
   ("burst_stop_ind", .surf "stop_burst_index"),
   ("iq_scale_factor", .surf "dynamic_scale"),
   ("i_echoes_ku", .surf "stack_i/dynamic_scale"),
   ("q_echoes_ku", .surf "stack_q/dynamic_scale"),
   ("start_look_angle_stack", .surf "start_look_angle"),
   ("stop_look_angle_stack", .surf "stop_look_angle"),
   ("start_beam_ang_stack", .surf "start_beam_angle"),
   ("stop_beam_ang_stack", .surf "stop_beam_angle")]

/-- `self[key]` of a burst (`l1a_processing_data.py:850-851`). -/
def item (burst : Dict String V) (key : String) : Except PyErr V :=
  match burst.get? key with
  | some x => .ok x
  | none => .error (.keyError key)

/-- The value of one argument.
`l1b_writer.py:863-934`; an attribute that is missing raises (`l1a_processing_data.py:850-851`). -/
def Out.eval (o : Ops V) (burst : Dict String V) (surf : String → V) : Out → Except PyErr (Option V)
  | .burst k => match item burst k with | .ok x => .ok (some x) | .error e => .error e
  | .diff a b =>
    match item burst a with
    | .error e => .error e
    | .ok x =>
      match item burst b with
      | .error e => .error e
      | .ok y => .ok (some (o.sub x y))
  | .none => .ok Option.none
  | .surf e => .ok (some (surf e))

/-- The record given to the base class: the names with their values.
`l1b_writer.py:863-934, 1580-1638`, `l1bs_writer.py:651-703`. -/
def record (o : Ops V) (burst : Dict String V) (surf : String → V) :
    List (String × Out) → Except PyErr (List (String × Option V))
  | [] => .ok []
  | (n, e) :: rest =>
    match e.eval o burst surf with
    | .error err => .error err
    | .ok x =>
      match record o burst surf rest with
      | .error err => .error err
      | .ok l => .ok ((n, x) :: l)

/-- The values of a new surface (`surface_data.py:1063-1093`): the type is `surface_null`, then come the values
given. `sets` are these and all later assignments, in order. -/
def surfaceData (null : V) (sets : List (String × V)) : Dict String V :=
  sets.foldl (fun d p => d.set p.1 p.2) [("surface_type", null)]

end Dedop.Lineage
