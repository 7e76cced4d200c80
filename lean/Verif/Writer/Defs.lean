import Verif.Writer.Define
/-!
# The definitions of the variables of the three output files

Generated by tools/defs.py from the text of the writer classes.  Floating-point literals are the decimal numbers written in
the code.
-/
namespace Dedop.Writer

/-- The dimensions defined by `L1BWriterExtended.__init__` (dedop/data/output/l1b_writer.py 106-114). -/
def extendedDims (samples looks : Nat) : List (String × Option Nat) :=
  [("time_l1b_echo_sar_ku", none), ("echo_sample_ind", some samples), ("max_multi_stack_ind", some looks)]

/-- The variables defined by `L1BWriterExtended.__init__` (dedop/data/output/l1b_writer.py 116-838). -/
def extendedDefs : List VarDef := [
  ⟨"time_l1b_echo_sar_ku", .f64, ["time_l1b_echo_sar_ku"],
    [("long_name", .str "UTC: l1b_echo_Sar_ku mode"),
     ("calendar", .str "gregorian"),
     ("units", .str "seconds since 2000-01-01 00:00:00.0")]⟩,
  ⟨"UTC_day_l1b_echo_sar_ku", .i16, ["time_l1b_echo_sar_ku"],
    [("long_name", .str "day UTC: l1b_echo_sar_ku mode"),
     ("units", .str "days since 2000-01-01 00:00:00.0"),
     ("fill_value", .num (32767))]⟩,
  ⟨"UTC_sec_l1b_echo_sar_ku", .f64, ["time_l1b_echo_sar_ku"],
    [("long_name", .str "seconds in the day UTC: l1b_echo_sar_ku mode"),
     ("units", .str "seconds in the day"),
     ("fill_value", .num (18446744073709551616))]⟩,
  ⟨"GPS_time_l1b_echo_sar_ku", .f64, ["time_l1b_echo_sar_ku"],
    [("long_name", .str "GPS time: l1b_echo_sar_ku mode"),
     ("calendar", .str "gregorian"),
     ("units", .str "seconds since 1980-01-06 00:00:00.0"),
     ("fill_value", .num (18446744073709551616))]⟩,
  ⟨"isp_coarse_time_l1b_echo_sar_ku", .u32, ["time_l1b_echo_sar_ku"],
    [("long_name", .str "ISP coarse time: l1b_echo_sar_ku mode"),
     ("units", .str "second"),
     ("fill_value", .num (4294967295))]⟩,
  ⟨"isp_fine_time_l1b_echo_sar_ku", .i32, ["time_l1b_echo_sar_ku"],
    [("long_name", .str "ISP fine time: l1b_echo_sar_ku mode"),
     ("units", .str "2^-24 second"),
     ("fill_value", .num (2147483647))]⟩,
  ⟨"sral_fine_time_l1b_echo_sar_ku", .u32, ["time_l1b_echo_sar_ku"],
    [("long_name", .str "ISP SRAL fine datation: l1b_echo_sar_ku mode"),
     ("units", .str "137.5*10^-9 second"),
     ("fill_value", .num (4294967295))]⟩,
  ⟨"lat_l1b_echo_sar_ku", .i32, ["time_l1b_echo_sar_ku"],
    [("long_name", .str "latitude: l1b_echo_sar_ku mode"),
     ("standard_name", .str "latitude"),
     ("scale_factor", .num (1 / 1000000)),
     ("add_offset", .num (0)),
     ("units", .str "degrees_north"),
     ("fill_value", .num (2147483647))]⟩,
  ⟨"lon_l1b_echo_sar_ku", .i32, ["time_l1b_echo_sar_ku"],
    [("long_name", .str "longitude: l1b_echo_sar_ku mode"),
     ("standard_name", .str "longitude"),
     ("scale_factor", .num (1 / 1000000)),
     ("add_offset", .num (0)),
     ("units", .str "degrees_east"),
     ("fill_value", .num (2147483647))]⟩,
  ⟨"alt_l1b_echo_sar_ku", .i32, ["time_l1b_echo_sar_ku"],
    [("long_name", .str "altitude of satellite: l1b_echo_sar_ku mode"),
     ("scale_factor", .num (1 / 10000)),
     ("add_offset", .num (700000)),
     ("units", .str "m"),
     ("fill_value", .num (2147483647))]⟩,
  ⟨"orb_alt_rate_l1b_echo_sar_ku", .i16, ["time_l1b_echo_sar_ku"],
    [("long_name", .str "orbital altitude rate: l1b_echo_sar_ku mode"),
     ("scale_factor", .num (1 / 100)),
     ("add_offset", .num (0)),
     ("units", .str "m/s"),
     ("fill_value", .num (32767))]⟩,
  ⟨"flag_time_status_l1b_echo_sar_ku", .i8, ["time_l1b_echo_sar_ku"],
    [("long_name", .str "time status flag: l1b_echo_sar_ku mode"),
     ("flag_values", .ints [0, 1]),
     ("comment", .str "flag indicating if the time is synchronized or not with GPS time"),
     ("flag_meanings", .strs ["synchronization", "no_synchronization"])]⟩,
  ⟨"time_time_corr_val_l1b_echo_sar_ku", .i8, ["time_l1b_echo_sar_ku"],
    [("long_name", .str "time correlation validity flag: l1b_echo_sar_ku mode"),
     ("flag_values", .ints [0, 1, 2]),
     ("comment", .str "flag indicating if the time correlation information is valid provided by OBSE, valid provided by Ground Segment or invalid"),
     ("flag_meanings", .strs ["valid_obsw", "valid_ground_segment", "invalid"])]⟩,
  ⟨"flag_man_pres_l1b_echo_sar_ku", .i8, ["time_l1b_echo_sar_ku"],
    [("long_name", .str "manoeuvre presence flag: l1b_echo_sar_ku mode"),
     ("flag_values", .ints [0, 1]),
     ("flag_meanings", .strs ["no_manoeuvre", "ongoing_manoeuvre"])]⟩,
  ⟨"flag_man_thrust_l1b_echo_sar_ku", .i8, ["time_l1b_echo_sar_ku"],
    [("long_name", .str "manoeuvre thrust flag: l1b_echo_sar_ku mode"),
     ("flag_values", .ints [0, 1]),
     ("flag_meanings", .strs ["no_thrust", "ongoing_thrust"])]⟩,
  ⟨"flag_man_plane_l1b_echo_sar_ku", .i8, ["time_l1b_echo_sar_ku"],
    [("long_name", .str "manoeuvre plane flag: l1b_echo_sar_ku mode"),
     ("flag_values", .ints [0, 1]),
     ("flag_meanings", .strs ["in_plane", "out_of_plane"])]⟩,
  ⟨"flag_gnss_status_l1b_echo_sar_ku", .i8, ["time_l1b_echo_sar_ku"],
    [("long_name", .str "validty flag for the navigation message from the gnss receiver: l1b_echo_sar_ku mode"),
     ("comment", .str "indicating if the navigation message from the GNSS receiver is valid or not valid/available"),
     ("flag_values", .ints [0, 1]),
     ("flag_meanings", .strs ["valid", "invalid_unavailable"])]⟩,
  ⟨"x_pos_l1b_echo_sar_ku", .f64, ["time_l1b_echo_sar_ku"],
    [("long_name", .str "satellite altitude - x component: l1b_echo_sar_ku mode"),
     ("units", .str "m"),
     ("fill_value", .num (18446744073709551616))]⟩,
  ⟨"y_pos_l1b_echo_sar_ku", .f64, ["time_l1b_echo_sar_ku"],
    [("long_name", .str "satellite altitude - y component: l1b_echo_sar_ku mode"),
     ("units", .str "m"),
     ("fill_value", .num (18446744073709551616))]⟩,
  ⟨"z_pos_l1b_echo_sar_ku", .f64, ["time_l1b_echo_sar_ku"],
    [("long_name", .str "satellite altitude - z component: l1b_echo_sar_ku mode"),
     ("units", .str "m"),
     ("fill_value", .num (18446744073709551616))]⟩,
  ⟨"x_vel_l1b_echo_sar_ku", .f64, ["time_l1b_echo_sar_ku"],
    [("long_name", .str "satellite velocity - x component: l1b_echo_sar_ku mode"),
     ("units", .str "m/s"),
     ("fill_value", .num (18446744073709551616))]⟩,
  ⟨"y_vel_l1b_echo_sar_ku", .f64, ["time_l1b_echo_sar_ku"],
    [("long_name", .str "satellite velocity - y component: l1b_echo_sar_ku mode"),
     ("units", .str "m/s"),
     ("fill_value", .num (18446744073709551616))]⟩,
  ⟨"z_vel_l1b_echo_sar_ku", .f64, ["time_l1b_echo_sar_ku"],
    [("long_name", .str "satellite velocity - z component: l1b_echo_sar_ku mode"),
     ("units", .str "m/s"),
     ("fill_value", .num (18446744073709551616))]⟩,
  ⟨"nav_bul_status_l1b_echo_sar_ku", .i8, ["time_l1b_echo_sar_ku"],
    [("long_name", .str "navigation bulletin status: l1b_echo_sar_ku mode"),
     ("flag_values", .ints [0, 1]),
     ("comment", .str "value the closest in time to the reference measurement"),
     ("flag_meanings", .strs ["ok", "ko"]),
     ("fill_value", .num (127))]⟩,
  ⟨"nav_bul_source_l1b_echo_sar_ku", .i8, ["time_l1b_echo_sar_ku"],
    [("long_name", .str "navigation bulletin source identifier: l1b_echo_sar_ku mode"),
     ("flag_values", .ints [0, 1]),
     ("comment", .str "value the closest in time to the reference measurement"),
     ("flag_meanings", .strs ["gps", "doris"]),
     ("fill_value", .num (127))]⟩,
  ⟨"nav_bul_coarse_time_l1b_echo_sar_ku", .u32, ["time_l1b_echo_sar_ku"],
    [("long_name", .str "navigation bulletin coarse time: l1b_echo_sar_ku mode"),
     ("units", .str "second"),
     ("comment", .str "value the closest in time to the reference measurement"),
     ("fill_value", .num (4294967295))]⟩,
  ⟨"nav_bul_fine_time_l1b_echo_sar_ku", .u32, ["time_l1b_echo_sar_ku"],
    [("long_name", .str "navigation bulletin fine time: l1b_echo_sar_ku mode"),
     ("units", .str "2^-24 second"),
     ("comment", .str "value the closest in time to the reference measurement"),
     ("fill_value", .num (4294967295))]⟩,
  ⟨"seq_count_l1b_echo_sar_ku", .u16, ["time_l1b_echo_sar_ku"],
    [("long_name", .str "sequence count: l1b_echo_sar_ku mode"),
     ("comment", .str "value the closest in time to the reference measurement"),
     ("fill_value", .num (65535))]⟩,
  ⟨"isp_time_status_echo_sar_ku", .i8, ["time_l1b_echo_sar_ku"],
    [("long_name", .str "ISP time status: l1b_echo_sar_ku mode"),
     ("flag_values", .ints [0, 1]),
     ("comment", .str "value the closest in time to the reference measurement"),
     ("flag_meanings", .strs ["SRAL_OBT_extrapolated", "SRAL_OBT_updated_wth_SMU_OBT"]),
     ("fill_value", .num (127))]⟩,
  ⟨"oper_instr_l1b_echo_sar_ku", .i8, ["time_l1b_echo_sar_ku"],
    [("long_name", .str "operating instrument: l1b_echo_sar_ku mode"),
     ("flag_values", .ints [0, 1]),
     ("comment", .str "Instrument A stands for SRAL Nominal and instrument B stands for SRAL Redundant"),
     ("flag_meanings", .strs ["A", "B"]),
     ("fill_value", .num (127))]⟩,
  ⟨"SAR_mode_l1b_echo_sar_ku", .i8, ["time_l1b_echo_sar_ku"],
    [("long_name", .str "SAR mode identifier: l1b_echo_sar_ku mode"),
     ("flag_values", .ints [0, 1, 2]),
     ("comment", .str "the values closest in time to the reference measurement"),
     ("flag_meanings", .strs ["closed_loop", "open_loop", "open_loop_fixed_gain"]),
     ("fill_value", .num (127))]⟩,
  ⟨"cl_gain_l1b_echo_sar_ku", .i8, ["time_l1b_echo_sar_ku"],
    [("long_name", .str "tracking_configuration - closed loop gain: l1b_echo_sar_ku mode"),
     ("flag_values", .ints [0, 1]),
     ("comment", .str "the value closest in time to the reference measurement"),
     ("flag_meanings", .strs ["Nominal_value", "Nominal_value_with_back-off"]),
     ("fill_value", .num (127))]⟩,
  ⟨"acq_stat_l1b_echo_sar_ku", .i8, ["time_l1b_echo_sar_ku"],
    [("long_name", .str "tracking configuration - acquisition status: l1b_echo_sar_ku mode"),
     ("flag_values", .ints [0, 1]),
     ("comment", .str "value the closest in time to the reference measurement"),
     ("flag_meanings", .strs ["no_aquisition", "acquisition"]),
     ("fill_value", .num (127))]⟩,
  ⟨"dem_eeprom_l1b_echo_sar_ku", .i8, ["time_l1b_echo_sar_ku"],
    [("long_name", .str "tracking configuration - DEM EEPROM read access: l1b_echo_sar_ku mode"),
     ("flag_values", .ints [0, 1]),
     ("comment", .str "value the closest in time to the reference measurement"),
     ("flag_meanings", .strs ["enabled", "disabled"]),
     ("fill_value", .num (127))]⟩,
  ⟨"weighting_l1b_echo_sar_ku", .i8, ["time_l1b_echo_sar_ku"],
    [("long_name", .str "altimeter configuration - weighting function: l1b_echo_sar_ku mode"),
     ("flag_values", .ints [0, 1]),
     ("comment", .str "value the closest in time to the reference measurement"),
     ("flag_meanings", .strs ["enabled", "disabled"]),
     ("fill_value", .num (127))]⟩,
  ⟨"loss_track_l1b_echo_sar_ku", .i8, ["time_l1b_echo_sar_ku"],
    [("long_name", .str "loss of track criterion: l1b_echo_sar_ku mode"),
     ("flag_values", .ints [0, 1]),
     ("comment", .str "value the closest in time to the reference measurement"),
     ("flag_meanings", .strs ["normal", "loss_of_track"]),
     ("fill_value", .num (127))]⟩,
  ⟨"h0_nav_dem_l1b_echo_sar_ku", .u32, ["time_l1b_echo_sar_ku"],
    [("long_name", .str "altitude command H0 computed with nav DEM: l1b_echo_sar_ku mode"),
     ("units", .str "3.125/64*10^-9 s"),
     ("comments", .str "value closest in time to the reference measurement"),
     ("fill_value", .num (4294967295))]⟩,
  ⟨"h0_applied_l1b_echo_sar_ku", .u32, ["time_l1b_echo_sar_ku"],
    [("long_name", .str "applied altitude command H0: l1b_echo_sar_ku mode"),
     ("units", .str "3.125/64*10^-9 s"),
     ("comments", .str "value closest in time to the reference measurement"),
     ("fill_value", .num (4294967295))]⟩,
  ⟨"cor2_nav_dem_l1b_echo_sar_ku", .i16, ["time_l1b_echo_sar_ku"],
    [("long_name", .str "altitude command COR2 computed with nav DEM: l1b_echo_sar_ku mode"),
     ("units", .str "3.125/1024*10^-9 s"),
     ("comments", .str "value closest in time to the reference measurement"),
     ("fill_value", .num (32767))]⟩,
  ⟨"cor2_applied_l1b_echo_sar_ku", .i16, ["time_l1b_echo_sar_ku"],
    [("long_name", .str "applied altitude command COR2: l1b_echo_sar_ku mode"),
     ("units", .str "3.125/1024*10^-9 s"),
     ("comments", .str "value closest in time to the reference measurement"),
     ("fill_value", .num (32767))]⟩,
  ⟨"dh0_l1b_echo_sar_ku", .i32, ["time_l1b_echo_sar_ku"],
    [("long_name", .str "distance error computed on the echo of the cycle (N-2) in open loop mode (current cycle): l1b_echo_sar_ku mode"),
     ("units", .str "3.125/64*10^-9 s"),
     ("comments", .str "value closest in time to the reference measurement"),
     ("fill_value", .num (2147483647))]⟩,
  ⟨"agccode_ku_l1b_echo_sar_ku", .i16, ["time_l1b_echo_sar_ku"],
    [("long_name", .str "AGCCODE for ku band: l1b_echo_sar_ku mode"),
     ("units", .str "dB"),
     ("comments", .str "value closest in time to the reference measurement"),
     ("fill_value", .num (127))]⟩,
  ⟨"surf_type_l1b_echo_sar_ku", .i8, ["time_l1b_echo_sar_ku"],
    [("long_name", .str "altimeter surface type: l1b_echo_sar_ku mode"),
     ("flag_values", .ints [0, 1, 2, 3]),
     ("comments", .str "value closest in time to the reference measurement"),
     ("flag_meanings", .strs ["open_ocean_or_semi-enclosed_seas", "enclosed_seas_or_lakes", "continental_ice", "land"])]⟩,
  ⟨"range_ku_l1b_echo_sar_ku", .i32, ["time_l1b_echo_sar_ku"],
    [("long_name", .str "corrected range for ku band: l1b_echo_sar_ku mode"),
     ("scale_factor", .num (1 / 10000)),
     ("add_offset", .num (700000)),
     ("units", .str "m"),
     ("comment", .str "reference range corrected for USO frequency drift and internal path correction"),
     ("fill_value", .num (2147483647))]⟩,
  ⟨"uso_cor_l1b_echo_sar_ku", .i32, ["time_l1b_echo_sar_ku"],
    [("long_name", .str "USO frequency drift correction: l1b_echo_sar_ku mode"),
     ("scale_factor", .num (1 / 10000)),
     ("add_offset", .num (0)),
     ("units", .str "m"),
     ("comment", .str "value the closest in time to the reference measurement"),
     ("fill_value", .num (2147483647))]⟩,
  ⟨"int_path_cor_ku_l1b_echo_sar_ku", .i32, ["time_l1b_echo_sar_ku"],
    [("long_name", .str "internal path correction for ku band: l1b_echo_sar_ku mode"),
     ("scale_factor", .num (1 / 10000)),
     ("add_offset", .num (0)),
     ("units", .str "m"),
     ("comment", .str "value the closest in time to the reference measurement"),
     ("fill_value", .num (2147483647))]⟩,
  ⟨"range_rate_l1b_echo_sar_ku", .i32, ["time_l1b_echo_sar_ku"],
    [("long_name", .str "range rate: l1b_echo_sar_ku mode"),
     ("scale_factor", .num (1 / 1000)),
     ("add_offset", .num (0)),
     ("units", .str "m/s"),
     ("comment", .str "value the closest in time to the reference measurement"),
     ("fill_value", .num (2147483647))]⟩,
  ⟨"agc_ku_l1b_echo_sar_ku", .i32, ["time_l1b_echo_sar_ku"],
    [("long_name", .str "corrected AGC for ku band: l1b_echo_sar_ku mode"),
     ("scale_factor", .num (1 / 100)),
     ("add_offset", .num (0)),
     ("units", .str "dB"),
     ("comment", .str "AGC corrected for instrumental errors - value the closest in time to thereference measurement"),
     ("fill_value", .num (2147483647))]⟩,
  ⟨"scale_factor_ku_l1b_echo_sar_ku", .i32, ["time_l1b_echo_sar_ku"],
    [("long_name", .str "scaling factor for sigma0 evaluation for ku band: l1b_echo_sar_ku mode"),
     ("scale_factor", .num (1 / 100)),
     ("add_offset", .num (0)),
     ("units", .str "dB"),
     ("comment", .str "scaling factor corrected for AGC instrumental errors and internal calibration"),
     ("fill_value", .num (2147483647))]⟩,
  ⟨"agc_cor_ku_l1b_echo_sar_ku", .i32, ["time_l1b_echo_sar_ku"],
    [("long_name", .str "correction for instrument errors on AGC for ku band: l1b_echo_sar_ku mode"),
     ("scale_factor", .num (1 / 100)),
     ("add_offset", .num (0)),
     ("units", .str "dB"),
     ("comment", .str "value the closest in time to the reference measurement"),
     ("fill_value", .num (2147483647))]⟩,
  ⟨"sig0_cal_ku_l1b_echo_sar_ku", .i32, ["time_l1b_echo_sar_ku"],
    [("long_name", .str "internal calibration correction on Sigma0 for ku band: l1b_echo_sar_ku mode"),
     ("scale_factor", .num (1 / 100)),
     ("add_offset", .num (0)),
     ("units", .str "dB"),
     ("fill_value", .num (2147483647))]⟩,
  ⟨"nb_stack_l1b_echo_sar_ku", .u16, ["time_l1b_echo_sar_ku"],
    [("long_name", .str "number of waveforms summed in stack: l1b_echo_sar_ku mode"),
     ("units", .str "count"),
     ("fill_value", .num (65535))]⟩,
  ⟨"max_stack_l1b_echo_sar_ku", .u32, ["time_l1b_echo_sar_ku"],
    [("long_name", .str "maximum power of stack: l1b_echo_sar_ku mode"),
     ("scale_factor", .num (1 / 100)),
     ("add_offset", .num (0)),
     ("units", .str "FFT power unit"),
     ("fill_value", .num (4294967295))]⟩,
  ⟨"stdev_stack_l1b_echo_sar_ku", .u32, ["time_l1b_echo_sar_ku"],
    [("long_name", .str "standard deviation of stack: l1b_echo_sar_ku mode"),
     ("scale_factor", .num (1 / 1000000)),
     ("add_offset", .num (0)),
     ("units", .str "rad"),
     ("fill_value", .num (4294967295))]⟩,
  ⟨"skew_stack_l1b_echo_sar_ku", .i32, ["time_l1b_echo_sar_ku"],
    [("long_name", .str "skewness of stack: l1b_echo_sar_ku mode"),
     ("scale_factor", .num (1 / 1000000)),
     ("add_offset", .num (0)),
     ("units", .str "count"),
     ("fill_value", .num (2147483647))]⟩,
  ⟨"kurt_stack_l1b_echo_sar_ku", .i32, ["time_l1b_echo_sar_ku"],
    [("long_name", .str "kurtosis of stack: l1b_echo_sar_ku mode"),
     ("scale_factor", .num (1 / 1000000)),
     ("add_offset", .num (0)),
     ("units", .str "count"),
     ("fill_value", .num (2147483647))]⟩,
  ⟨"beam_ang_l1b_echo_sar_ku", .i16, ["time_l1b_echo_sar_ku", "max_multi_stack_ind"],
    [("long_name", .str "doppler beam angles in stack: l1b_echo_sar_ku mode"),
     ("comment", .str "the useful values of the table are the first n_useful values where n_useful isthe number of waveforms summed in the stack"),
     ("scale_factor", .num (1 / 1000000)),
     ("add_offset", .num (157 / 100)),
     ("units", .str "rad"),
     ("fill_value", .num (32767))]⟩,
  ⟨"look_ang_l1b_echo_sar_ku", .i16, ["time_l1b_echo_sar_ku", "max_multi_stack_ind"],
    [("long_name", .str "doppler look angles in stack: l1b_echo_sar_ku mode"),
     ("comment", .str "the useful values of the table are the first n_useful values where n_useful isthe number of waveforms summed in the stack"),
     ("scale_factor", .num (1 / 1000000)),
     ("add_offset", .num (157 / 100)),
     ("units", .str "rad"),
     ("fill_value", .num (32767))]⟩,
  ⟨"beam_form_l1b_echo_sar_ku", .u16, ["time_l1b_echo_sar_ku"],
    [("long_name", .str "flag on beam formation quality in stack: l1b_echo_sar_ku mode"),
     ("scale_factor", .num (1 / 100)),
     ("add_offset", .num (0)),
     ("units", .str "percent"),
     ("fill_value", .num (65535))]⟩,
  ⟨"i2q2_meas_ku_l1b_echo_sar_ku", .u32, ["time_l1b_echo_sar_ku", "echo_sample_ind"],
    [("long_name", .str "I2+Q2 measurement for ku band: l1b_echo_sar_ku mode"),
     ("comment", .str "the echo is corrected for Doppler range effect, phase/power burst calibration and GPRW effect. The echo is scaled using the i2q2_scale_factor_l1b_echo_sar_ku value"),
     ("units", .str "count"),
     ("scale_factor", .num (1 / 4294967294)),
     ("add_offset", .num (0)),
     ("fill_value", .num (4294967295))]⟩,
  ⟨"i2q2_scale_factor_l1b_echo_sar_ku", .f64, ["time_l1b_echo_sar_ku"],
    [("long_name", .str "I2+Q2 dynamic scale factor: l1b_echo_sar_ku mode"),
     ("comment", .str "Scale factor for the i2q2_meas_ku_l1b_echo_sar_ku waveform. The waveform should be multiplied by this value after reading."),
     ("units", .str "count")]⟩,
  ⟨"roll_sat_pointing_l1b_echo_sar_ku", .i16, ["time_l1b_echo_sar_ku"],
    [("long_name", .str "satellite pointing angle - roll: l1b_echo_sar_ku mode"),
     ("scale_factor", .num (1 / 10000)),
     ("add_offset", .num (0)),
     ("units", .str "degrees"),
     ("fill_value", .num (32767)),
     ("comment", .str "value for the closest in time from the burst time tag, given in the nadir pointing reference frame.")]⟩,
  ⟨"pitch_sat_pointing_l1b_echo_sar_ku", .i16, ["time_l1b_echo_sar_ku"],
    [("long_name", .str "satellite pointing angle - pitch: l1b_echo_sar_ku mode"),
     ("scale_factor", .num (1 / 10000)),
     ("add_offset", .num (0)),
     ("units", .str "degrees"),
     ("fill_value", .num (32767)),
     ("comment", .str "value for the closest in time from the burst time tag, given in the nadir pointing reference frame.")]⟩,
  ⟨"yaw_sat_pointing_l1b_echo_sar_ku", .i16, ["time_l1b_echo_sar_ku"],
    [("long_name", .str "satellite pointing angle - yaw: l1b_echo_sar_ku mode"),
     ("scale_factor", .num (1 / 10000)),
     ("add_offset", .num (0)),
     ("units", .str "degrees"),
     ("fill_value", .num (32767)),
     ("comment", .str "value for the closest in time from the burst time tag, given in the nadir pointing reference frame.")]⟩,
  ⟨"start_look_angle_stack_l1b_echo_sar_ku", .i16, ["time_l1b_echo_sar_ku"],
    [("long_name", .str "start look angle in stack: l1b_echo_sar_ku mode"),
     ("scale_factor", .num (1 / 1000000)),
     ("add_offset", .num (0)),
     ("units", .str "rad"),
     ("fill_value", .num (32767))]⟩,
  ⟨"stop_look_angle_stack_l1b_echo_sar_ku", .i16, ["time_l1b_echo_sar_ku"],
    [("long_name", .str "stop look angle in stack: l1b_echo_sar_ku mode"),
     ("scale_factor", .num (1 / 1000000)),
     ("add_offset", .num (0)),
     ("units", .str "rad"),
     ("fill_value", .num (32767))]⟩,
  ⟨"start_beam_ang_stack_l1b_echo_sar_ku", .i16, ["time_l1b_echo_sar_ku"],
    [("long_name", .str "start doppler beam angle in stack: l1b_echo_sar_ku mode"),
     ("units", .str "rad"),
     ("fill_value", .num (32767)),
     ("scale_factor", .num (1 / 1000000)),
     ("add_offset", .num (157 / 100))]⟩,
  ⟨"stop_beam_ang_stack_l1b_echo_sar_ku", .i16, ["time_l1b_echo_sar_ku"],
    [("long_name", .str "stop doppler beam angle in stack: l1b_echo_sar_ku mode"),
     ("units", .str "rad"),
     ("fill_value", .num (32767)),
     ("scale_factor", .num (1 / 1000000)),
     ("add_offset", .num (157 / 100))]⟩,
  ⟨"stack_mask_vector_l1b_echo_sar_ku", .i16, ["time_l1b_echo_sar_ku", "max_multi_stack_ind"],
    [("long_name", .str "stack mask vector: l1b_echo_sar_ku mode"),
     ("units", .str "count"),
     ("fill_value", .num (32767))]⟩,
  ⟨"stack_scale_factor_ku_l1b_echo_sar_ku", .i32, ["time_l1b_echo_sar_ku", "max_multi_stack_ind"],
    [("long_name", .str "per-beam values for scaling factor for sigma0 evaluation for ku band: l1b_echo_sar_ku mode"),
     ("scale_factor", .num (1 / 100)),
     ("add_offset", .num (0)),
     ("units", .str "dB"),
     ("comment", .str "scaling factor corrected for AGC instrumental errors and internal calibration (per-beam)"),
     ("fill_value", .num (2147483647))]⟩]

/-- The expressions whose values `L1BWriterExtended.write_record` passes on (dedop/data/output/l1b_writer.py 840-934). -/
def extendedSources : List (String × Src) := [
  ("time_l1b_echo_sar_ku", (.surf "time_surf")),
  ("UTC_day_l1b_echo_sar_ku", (.loc "utc_days")),
  ("UTC_sec_l1b_echo_sar_ku", (.loc "utc_secs")),
  ("GPS_time_l1b_echo_sar_ku", (.surf "gps_time_surf")),
  ("isp_coarse_time_l1b_echo_sar_ku", (.burst "isp_coarse_time")),
  ("isp_fine_time_l1b_echo_sar_ku", (.burst "isp_fine_time")),
  ("sral_fine_time_l1b_echo_sar_ku", (.burst "sral_fine_time")),
  ("lat_l1b_echo_sar_ku", (.degrees (.surf "lat_surf"))),
  ("lon_l1b_echo_sar_ku", (.degrees (.surf "lon_surf"))),
  ("alt_l1b_echo_sar_ku", (.surf "alt_sat")),
  ("orb_alt_rate_l1b_echo_sar_ku", (.surf "alt_rate_sat")),
  ("flag_time_status_l1b_echo_sar_ku", (.burst "flag_time_status")),
  ("flag_man_pres_l1b_echo_sar_ku", .missing),
  ("flag_man_thrust_l1b_echo_sar_ku", .missing),
  ("flag_man_plane_l1b_echo_sar_ku", .missing),
  ("flag_gnss_status_l1b_echo_sar_ku", .missing),
  ("x_pos_l1b_echo_sar_ku", (.surf "x_sat")),
  ("y_pos_l1b_echo_sar_ku", (.surf "y_sat")),
  ("z_pos_l1b_echo_sar_ku", (.surf "z_sat")),
  ("x_vel_l1b_echo_sar_ku", (.surf "x_vel_sat")),
  ("y_vel_l1b_echo_sar_ku", (.surf "y_vel_sat")),
  ("z_vel_l1b_echo_sar_ku", (.surf "z_vel_sat")),
  ("roll_sat_pointing_l1b_echo_sar_ku", (.degrees (.surf "roll_sat"))),
  ("pitch_sat_pointing_l1b_echo_sar_ku", (.degrees (.surf "pitch_sat"))),
  ("yaw_sat_pointing_l1b_echo_sar_ku", (.degrees (.surf "yaw_sat"))),
  ("nav_bul_status_l1b_echo_sar_ku", (.burst "nav_bul_status")),
  ("nav_bul_source_l1b_echo_sar_ku", (.burst "nav_bul_source")),
  ("nav_bul_coarse_time_l1b_echo_sar_ku", .missing),
  ("nav_bul_fine_time_l1b_echo_sar_ku", .missing),
  ("seq_count_l1b_echo_sar_ku", (.burst "source_seq_count")),
  ("oper_instr_l1b_echo_sar_ku", (.burst "oper_instr")),
  ("SAR_mode_l1b_echo_sar_ku", (.burst "SAR_mode")),
  ("cl_gain_l1b_echo_sar_ku", (.burst "cl_gain")),
  ("acq_stat_l1b_echo_sar_ku", (.burst "acq_stat")),
  ("dem_eeprom_l1b_echo_sar_ku", (.burst "dem_eeprom")),
  ("weighting_l1b_echo_sar_ku", .missing),
  ("loss_track_l1b_echo_sar_ku", (.burst "loss_track")),
  ("h0_nav_dem_l1b_echo_sar_ku", (.burst "h0_nav_dem")),
  ("h0_applied_l1b_echo_sar_ku", (.burst "h0_applied")),
  ("cor2_nav_dem_l1b_echo_sar_ku", (.burst "cor2_nav_dem")),
  ("cor2_applied_l1b_echo_sar_ku", (.burst "cor2_applied")),
  ("dh0_l1b_echo_sar_ku", (.burst "dh0")),
  ("agccode_ku_l1b_echo_sar_ku", (.burst "agccode_ku")),
  ("surf_type_l1b_echo_sar_ku", (.burst "surf_type")),
  ("range_ku_l1b_echo_sar_ku", (.div (.mul (.surf "win_delay_surf") (.cst "c")) (.const (2)))),
  ("uso_cor_l1b_echo_sar_ku", (.burst "uso_cor")),
  ("int_path_cor_ku_l1b_echo_sar_ku", (.burst "int_path_cor_ku")),
  ("range_rate_l1b_echo_sar_ku", .missing),
  ("agc_ku_l1b_echo_sar_ku", (.burst "agc_ku")),
  ("scale_factor_ku_l1b_echo_sar_ku", (.surf "sigma0_scaling_factor")),
  ("agc_cor_ku_l1b_echo_sar_ku", (.sub (.burst "agc_ku") (.burst "agccode_ku"))),
  ("sig0_cal_ku_l1b_echo_sar_ku", (.burst "sig0_cal_ku")),
  ("nb_stack_l1b_echo_sar_ku", (.surf "n_beams_start_stop")),
  ("max_stack_l1b_echo_sar_ku", (.surf "stack_max")),
  ("stdev_stack_l1b_echo_sar_ku", (.surf "stack_std")),
  ("skew_stack_l1b_echo_sar_ku", (.surf "stack_skewness")),
  ("kurt_stack_l1b_echo_sar_ku", (.surf "stack_kurtosis")),
  ("beam_ang_l1b_echo_sar_ku", (.surf "beam_angles_surf")),
  ("look_ang_l1b_echo_sar_ku", (.surf "look_angles_surf")),
  ("beam_form_l1b_echo_sar_ku", .missing),
  ("i2q2_meas_ku_l1b_echo_sar_ku", (.div (.surf "waveform_multilooked") (.loc "scale_factor"))),
  ("i2q2_scale_factor_l1b_echo_sar_ku", (.loc "scale_factor")),
  ("start_look_angle_stack_l1b_echo_sar_ku", (.surf "start_look_angle")),
  ("stop_look_angle_stack_l1b_echo_sar_ku", (.surf "stop_look_angle")),
  ("start_beam_ang_stack_l1b_echo_sar_ku", (.surf "start_beam_angle")),
  ("stop_beam_ang_stack_l1b_echo_sar_ku", (.surf "stop_beam_angle")),
  ("stack_mask_vector_l1b_echo_sar_ku", (.surf "stack_mask_vector_start_stop")),
  ("stack_scale_factor_ku_l1b_echo_sar_ku", (.surf "sigma0_scaling_factor_beam"))]

/-- The dimensions defined by `L1BWriter.__init__` (dedop/data/output/l1b_writer.py 951-959). -/
def s3Dims (samples looks : Nat) : List (String × Option Nat) :=
  [("time_l1b_echo_sar_ku", none), ("echo_sample_ind", some samples), ("max_multi_stack_ind", some looks)]

/-- The variables defined by `L1BWriter.__init__` (dedop/data/output/l1b_writer.py 961-1560). -/
def s3Defs : List VarDef := [
  ⟨"time_l1b_echo_sar_ku", .f64, ["time_l1b_echo_sar_ku"],
    [("long_name", .str "UTC: l1b_echo_Sar_ku mode"),
     ("calendar", .str "gregorian"),
     ("units", .str "seconds since 2000-01-01 00:00:00.0")]⟩,
  ⟨"UTC_day_l1b_echo_sar_ku", .i16, ["time_l1b_echo_sar_ku"],
    [("long_name", .str "day UTC: l1b_echo_sar_ku mode"),
     ("units", .str "days since 2000-01-01 00:00:00.0"),
     ("fill_value", .num (32767))]⟩,
  ⟨"UTC_sec_l1b_echo_sar_ku", .f64, ["time_l1b_echo_sar_ku"],
    [("long_name", .str "seconds in the day UTC: l1b_echo_sar_ku mode"),
     ("units", .str "seconds in the day"),
     ("fill_value", .num (18446744073709551616))]⟩,
  ⟨"GPS_time_l1b_echo_sar_ku", .f64, ["time_l1b_echo_sar_ku"],
    [("long_name", .str "GPS time: l1b_echo_sar_ku mode"),
     ("calendar", .str "gregorian"),
     ("units", .str "seconds since 1980-01-06 00:00:00.0"),
     ("fill_value", .num (18446744073709551616))]⟩,
  ⟨"isp_coarse_time_l1b_echo_sar_ku", .u32, ["time_l1b_echo_sar_ku"],
    [("long_name", .str "ISP coarse time: l1b_echo_sar_ku mode"),
     ("units", .str "second"),
     ("fill_value", .num (4294967295))]⟩,
  ⟨"isp_fine_time_l1b_echo_sar_ku", .i32, ["time_l1b_echo_sar_ku"],
    [("long_name", .str "ISP fine time: l1b_echo_sar_ku mode"),
     ("units", .str "2^-24 second"),
     ("fill_value", .num (2147483647))]⟩,
  ⟨"sral_fine_time_l1b_echo_sar_ku", .u32, ["time_l1b_echo_sar_ku"],
    [("long_name", .str "ISP SRAL fine datation: l1b_echo_sar_ku mode"),
     ("units", .str "137.5*10^-9 second"),
     ("fill_value", .num (4294967295))]⟩,
  ⟨"lat_l1b_echo_sar_ku", .i32, ["time_l1b_echo_sar_ku"],
    [("long_name", .str "latitude: l1b_echo_sar_ku mode"),
     ("standard_name", .str "latitude"),
     ("scale_factor", .num (1 / 1000000)),
     ("add_offset", .num (0)),
     ("units", .str "degrees_north"),
     ("fill_value", .num (2147483647))]⟩,
  ⟨"lon_l1b_echo_sar_ku", .i32, ["time_l1b_echo_sar_ku"],
    [("long_name", .str "longitude: l1b_echo_sar_ku mode"),
     ("standard_name", .str "longitude"),
     ("scale_factor", .num (1 / 1000000)),
     ("add_offset", .num (0)),
     ("units", .str "degrees_east"),
     ("fill_value", .num (2147483647))]⟩,
  ⟨"alt_l1b_echo_sar_ku", .i32, ["time_l1b_echo_sar_ku"],
    [("long_name", .str "altitude of satellite: l1b_echo_sar_ku mode"),
     ("scale_factor", .num (1 / 10000)),
     ("add_offset", .num (700000)),
     ("units", .str "m"),
     ("fill_value", .num (2147483647))]⟩,
  ⟨"orb_alt_rate_l1b_echo_sar_ku", .i16, ["time_l1b_echo_sar_ku"],
    [("long_name", .str "orbital altitude rate: l1b_echo_sar_ku mode"),
     ("scale_factor", .num (1 / 100)),
     ("add_offset", .num (0)),
     ("units", .str "m/s"),
     ("fill_value", .num (32767))]⟩,
  ⟨"flag_time_status_l1b_echo_sar_ku", .i8, ["time_l1b_echo_sar_ku"],
    [("long_name", .str "time status flag: l1b_echo_sar_ku mode"),
     ("flag_values", .ints [0, 1]),
     ("comment", .str "flag indicating if the time is synchronized or not with GPS time"),
     ("flag_meanings", .strs ["synchronization", "no_synchronization"])]⟩,
  ⟨"time_time_corr_val_l1b_echo_sar_ku", .i8, ["time_l1b_echo_sar_ku"],
    [("long_name", .str "time correlation validity flag: l1b_echo_sar_ku mode"),
     ("flag_values", .ints [0, 1, 2]),
     ("comment", .str "flag indicating if the time correlation information is valid provided by OBSE, valid provided by Ground Segment or invalid"),
     ("flag_meanings", .strs ["valid_obsw", "valid_ground_segment", "invalid"])]⟩,
  ⟨"flag_man_pres_l1b_echo_sar_ku", .i8, ["time_l1b_echo_sar_ku"],
    [("long_name", .str "manoeuvre presence flag: l1b_echo_sar_ku mode"),
     ("flag_values", .ints [0, 1]),
     ("flag_meanings", .strs ["no_manoeuvre", "ongoing_manoeuvre"])]⟩,
  ⟨"flag_man_thrust_l1b_echo_sar_ku", .i8, ["time_l1b_echo_sar_ku"],
    [("long_name", .str "manoeuvre thrust flag: l1b_echo_sar_ku mode"),
     ("flag_values", .ints [0, 1]),
     ("flag_meanings", .strs ["no_thrust", "ongoing_thrust"])]⟩,
  ⟨"flag_man_plane_l1b_echo_sar_ku", .i8, ["time_l1b_echo_sar_ku"],
    [("long_name", .str "manoeuvre plane flag: l1b_echo_sar_ku mode"),
     ("flag_values", .ints [0, 1]),
     ("flag_meanings", .strs ["in_plane", "out_of_plane"])]⟩,
  ⟨"flag_gnss_status_l1b_echo_sar_ku", .i8, ["time_l1b_echo_sar_ku"],
    [("long_name", .str "validty flag for the navigation message from the gnss receiver: l1b_echo_sar_ku mode"),
     ("comment", .str "indicating if the navigation message from the GNSS receiver is valid or not valid/available"),
     ("flag_values", .ints [0, 1]),
     ("flag_meanings", .strs ["valid", "invalid_unavailable"])]⟩,
  ⟨"x_pos_l1b_echo_sar_ku", .f64, ["time_l1b_echo_sar_ku"],
    [("long_name", .str "satellite altitude - x component: l1b_echo_sar_ku mode"),
     ("units", .str "m"),
     ("fill_value", .num (18446744073709551616))]⟩,
  ⟨"y_pos_l1b_echo_sar_ku", .f64, ["time_l1b_echo_sar_ku"],
    [("long_name", .str "satellite altitude - y component: l1b_echo_sar_ku mode"),
     ("units", .str "m"),
     ("fill_value", .num (18446744073709551616))]⟩,
  ⟨"z_pos_l1b_echo_sar_ku", .f64, ["time_l1b_echo_sar_ku"],
    [("long_name", .str "satellite altitude - z component: l1b_echo_sar_ku mode"),
     ("units", .str "m"),
     ("fill_value", .num (18446744073709551616))]⟩,
  ⟨"x_vel_l1b_echo_sar_ku", .f64, ["time_l1b_echo_sar_ku"],
    [("long_name", .str "satellite velocity - x component: l1b_echo_sar_ku mode"),
     ("units", .str "m/s"),
     ("fill_value", .num (18446744073709551616))]⟩,
  ⟨"y_vel_l1b_echo_sar_ku", .f64, ["time_l1b_echo_sar_ku"],
    [("long_name", .str "satellite velocity - y component: l1b_echo_sar_ku mode"),
     ("units", .str "m/s"),
     ("fill_value", .num (18446744073709551616))]⟩,
  ⟨"z_vel_l1b_echo_sar_ku", .f64, ["time_l1b_echo_sar_ku"],
    [("long_name", .str "satellite velocity - z component: l1b_echo_sar_ku mode"),
     ("units", .str "m/s"),
     ("fill_value", .num (18446744073709551616))]⟩,
  ⟨"nav_bul_status_l1b_echo_sar_ku", .i8, ["time_l1b_echo_sar_ku"],
    [("long_name", .str "navigation bulletin status: l1b_echo_sar_ku mode"),
     ("flag_values", .ints [0, 1]),
     ("comment", .str "value the closest in time to the reference measurement"),
     ("flag_meanings", .strs ["ok", "ko"]),
     ("fill_value", .num (127))]⟩,
  ⟨"nav_bul_source_l1b_echo_sar_ku", .i8, ["time_l1b_echo_sar_ku"],
    [("long_name", .str "navigation bulletin source identifier: l1b_echo_sar_ku mode"),
     ("flag_values", .ints [0, 1]),
     ("comment", .str "value the closest in time to the reference measurement"),
     ("flag_meanings", .strs ["gps", "doris"]),
     ("fill_value", .num (127))]⟩,
  ⟨"nav_bul_coarse_time_l1b_echo_sar_ku", .u32, ["time_l1b_echo_sar_ku"],
    [("long_name", .str "navigation bulletin coarse time: l1b_echo_sar_ku mode"),
     ("units", .str "second"),
     ("comment", .str "value the closest in time to the reference measurement"),
     ("fill_value", .num (4294967295))]⟩,
  ⟨"nav_bul_fine_time_l1b_echo_sar_ku", .u32, ["time_l1b_echo_sar_ku"],
    [("long_name", .str "navigation bulletin fine time: l1b_echo_sar_ku mode"),
     ("units", .str "2^-24 second"),
     ("comment", .str "value the closest in time to the reference measurement"),
     ("fill_value", .num (4294967295))]⟩,
  ⟨"seq_count_l1b_echo_sar_ku", .u16, ["time_l1b_echo_sar_ku"],
    [("long_name", .str "sequence count: l1b_echo_sar_ku mode"),
     ("comment", .str "value the closest in time to the reference measurement"),
     ("fill_value", .num (65535))]⟩,
  ⟨"isp_time_status_echo_sar_ku", .i8, ["time_l1b_echo_sar_ku"],
    [("long_name", .str "ISP time status: l1b_echo_sar_ku mode"),
     ("flag_values", .ints [0, 1]),
     ("comment", .str "value the closest in time to the reference measurement"),
     ("flag_meanings", .strs ["SRAL_OBT_extrapolated", "SRAL_OBT_updated_wth_SMU_OBT"]),
     ("fill_value", .num (127))]⟩,
  ⟨"oper_instr_l1b_echo_sar_ku", .i8, ["time_l1b_echo_sar_ku"],
    [("long_name", .str "operating instrument: l1b_echo_sar_ku mode"),
     ("flag_values", .ints [0, 1]),
     ("comment", .str "Instrument A stands for SRAL Nominal and instrument B stands for SRAL Redundant"),
     ("flag_meanings", .strs ["A", "B"]),
     ("fill_value", .num (127))]⟩,
  ⟨"SAR_mode_l1b_echo_sar_ku", .i8, ["time_l1b_echo_sar_ku"],
    [("long_name", .str "SAR mode identifier: l1b_echo_sar_ku mode"),
     ("flag_values", .ints [0, 1, 2]),
     ("comment", .str "the values closest in time to the reference measurement"),
     ("flag_meanings", .strs ["closed_loop", "open_loop", "open_loop_fixed_gain"]),
     ("fill_value", .num (127))]⟩,
  ⟨"cl_gain_l1b_echo_sar_ku", .i8, ["time_l1b_echo_sar_ku"],
    [("long_name", .str "tracking_configuration - closed loop gain: l1b_echo_sar_ku mode"),
     ("flag_values", .ints [0, 1]),
     ("comment", .str "the value closest in time to the reference measurement"),
     ("flag_meanings", .strs ["Nominal_value", "Nominal_value_with_back-off"]),
     ("fill_value", .num (127))]⟩,
  ⟨"acq_stat_l1b_echo_sar_ku", .i8, ["time_l1b_echo_sar_ku"],
    [("long_name", .str "tracking configuration - acquisition status: l1b_echo_sar_ku mode"),
     ("flag_values", .ints [0, 1]),
     ("comment", .str "value the closest in time to the reference measurement"),
     ("flag_meanings", .strs ["no_aquisition", "acquisition"]),
     ("fill_value", .num (127))]⟩,
  ⟨"dem_eeprom_l1b_echo_sar_ku", .i8, ["time_l1b_echo_sar_ku"],
    [("long_name", .str "tracking configuration - DEM EEPROM read access: l1b_echo_sar_ku mode"),
     ("flag_values", .ints [0, 1]),
     ("comment", .str "value the closest in time to the reference measurement"),
     ("flag_meanings", .strs ["enabled", "disabled"]),
     ("fill_value", .num (127))]⟩,
  ⟨"weighting_l1b_echo_sar_ku", .i8, ["time_l1b_echo_sar_ku"],
    [("long_name", .str "altimeter configuration - weighting function: l1b_echo_sar_ku mode"),
     ("flag_values", .ints [0, 1]),
     ("comment", .str "value the closest in time to the reference measurement"),
     ("flag_meanings", .strs ["enabled", "disabled"]),
     ("fill_value", .num (127))]⟩,
  ⟨"loss_track_l1b_echo_sar_ku", .i8, ["time_l1b_echo_sar_ku"],
    [("long_name", .str "loss of track criterion: l1b_echo_sar_ku mode"),
     ("flag_values", .ints [0, 1]),
     ("comment", .str "value the closest in time to the reference measurement"),
     ("flag_meanings", .strs ["normal", "loss_of_track"]),
     ("fill_value", .num (127))]⟩,
  ⟨"h0_nav_dem_l1b_echo_sar_ku", .u32, ["time_l1b_echo_sar_ku"],
    [("long_name", .str "altitude command H0 computed with nav DEM: l1b_echo_sar_ku mode"),
     ("units", .str "3.125/64*10^-9 s"),
     ("comments", .str "value closest in time to the reference measurement"),
     ("fill_value", .num (4294967295))]⟩,
  ⟨"h0_applied_l1b_echo_sar_ku", .u32, ["time_l1b_echo_sar_ku"],
    [("long_name", .str "applied altitude command H0: l1b_echo_sar_ku mode"),
     ("units", .str "3.125/64*10^-9 s"),
     ("comments", .str "value closest in time to the reference measurement"),
     ("fill_value", .num (4294967295))]⟩,
  ⟨"cor2_nav_dem_l1b_echo_sar_ku", .i16, ["time_l1b_echo_sar_ku"],
    [("long_name", .str "altitude command COR2 computed with nav DEM: l1b_echo_sar_ku mode"),
     ("units", .str "3.125/1024*10^-9 s"),
     ("comments", .str "value closest in time to the reference measurement"),
     ("fill_value", .num (32767))]⟩,
  ⟨"cor2_applied_l1b_echo_sar_ku", .i16, ["time_l1b_echo_sar_ku"],
    [("long_name", .str "applied altitude command COR2: l1b_echo_sar_ku mode"),
     ("units", .str "3.125/1024*10^-9 s"),
     ("comments", .str "value closest in time to the reference measurement"),
     ("fill_value", .num (32767))]⟩,
  ⟨"dh0_l1b_echo_sar_ku", .i32, ["time_l1b_echo_sar_ku"],
    [("long_name", .str "distance error computed on the echo of the cycle (N-2) in open loop mode (current cycle): l1b_echo_sar_ku mode"),
     ("units", .str "3.125/64*10^-9 s"),
     ("comments", .str "value closest in time to the reference measurement"),
     ("fill_value", .num (2147483647))]⟩,
  ⟨"agccode_ku_l1b_echo_sar_ku", .i16, ["time_l1b_echo_sar_ku"],
    [("long_name", .str "AGCCODE for ku band: l1b_echo_sar_ku mode"),
     ("units", .str "dB"),
     ("comments", .str "value closest in time to the reference measurement"),
     ("fill_value", .num (127))]⟩,
  ⟨"surf_type_l1b_echo_sar_ku", .i8, ["time_l1b_echo_sar_ku"],
    [("long_name", .str "altimeter surface type: l1b_echo_sar_ku mode"),
     ("flag_values", .ints [0, 1, 2, 3]),
     ("comments", .str "value closest in time to the reference measurement"),
     ("flag_meanings", .strs ["open_ocean_or_semi-enclosed_seas", "enclosed_seas_or_lakes", "continental_ice", "land"])]⟩,
  ⟨"range_ku_l1b_echo_sar_ku", .i32, ["time_l1b_echo_sar_ku"],
    [("long_name", .str "corrected range for ku band: l1b_echo_sar_ku mode"),
     ("scale_factor", .num (1 / 10000)),
     ("add_offset", .num (700000)),
     ("units", .str "m"),
     ("comment", .str "reference range corrected for USO frequency drift and internal path correction"),
     ("fill_value", .num (2147483647))]⟩,
  ⟨"uso_cor_l1b_echo_sar_ku", .i32, ["time_l1b_echo_sar_ku"],
    [("long_name", .str "USO frequency drift correction: l1b_echo_sar_ku mode"),
     ("scale_factor", .num (1 / 10000)),
     ("add_offset", .num (0)),
     ("units", .str "m"),
     ("comment", .str "value the closest in time to the reference measurement"),
     ("fill_value", .num (2147483647))]⟩,
  ⟨"int_path_cor_ku_l1b_echo_sar_ku", .i32, ["time_l1b_echo_sar_ku"],
    [("long_name", .str "internal path correction for ku band: l1b_echo_sar_ku mode"),
     ("scale_factor", .num (1 / 10000)),
     ("add_offset", .num (0)),
     ("units", .str "m"),
     ("comment", .str "value the closest in time to the reference measurement"),
     ("fill_value", .num (2147483647))]⟩,
  ⟨"range_rate_l1b_echo_sar_ku", .i32, ["time_l1b_echo_sar_ku"],
    [("long_name", .str "range rate: l1b_echo_sar_ku mode"),
     ("scale_factor", .num (1 / 1000)),
     ("add_offset", .num (0)),
     ("units", .str "m/s"),
     ("comment", .str "value the closest in time to the reference measurement"),
     ("fill_value", .num (2147483647))]⟩,
  ⟨"agc_ku_l1b_echo_sar_ku", .i32, ["time_l1b_echo_sar_ku"],
    [("long_name", .str "corrected AGC for ku band: l1b_echo_sar_ku mode"),
     ("scale_factor", .num (1 / 100)),
     ("add_offset", .num (0)),
     ("units", .str "dB"),
     ("comment", .str "AGC corrected for instrumental errors - value the closest in time to thereference measurement"),
     ("fill_value", .num (2147483647))]⟩,
  ⟨"scale_factor_ku_l1b_echo_sar_ku", .i32, ["time_l1b_echo_sar_ku"],
    [("long_name", .str "scaling factor for sigma0 evaluation for ku band: l1b_echo_sar_ku mode"),
     ("scale_factor", .num (1 / 100)),
     ("add_offset", .num (0)),
     ("units", .str "dB"),
     ("comment", .str "scaling factor corrected for AGC instrumental errors and internal calibration"),
     ("fill_value", .num (2147483647))]⟩,
  ⟨"agc_cor_ku_l1b_echo_sar_ku", .i32, ["time_l1b_echo_sar_ku"],
    [("long_name", .str "correction for instrument errors on AGC for ku band: l1b_echo_sar_ku mode"),
     ("scale_factor", .num (1 / 100)),
     ("add_offset", .num (0)),
     ("units", .str "dB"),
     ("comment", .str "value the closest in time to the reference measurement"),
     ("fill_value", .num (2147483647))]⟩,
  ⟨"sig0_cal_ku_l1b_echo_sar_ku", .i32, ["time_l1b_echo_sar_ku"],
    [("long_name", .str "internal calibration correction on Sigma0 for ku band: l1b_echo_sar_ku mode"),
     ("scale_factor", .num (1 / 100)),
     ("add_offset", .num (0)),
     ("units", .str "dB"),
     ("fill_value", .num (2147483647))]⟩,
  ⟨"nb_stack_l1b_echo_sar_ku", .u16, ["time_l1b_echo_sar_ku"],
    [("long_name", .str "number of waveforms summed in stack: l1b_echo_sar_ku mode"),
     ("units", .str "count"),
     ("fill_value", .num (65535))]⟩,
  ⟨"max_stack_l1b_echo_sar_ku", .u32, ["time_l1b_echo_sar_ku"],
    [("long_name", .str "maximum power of stack: l1b_echo_sar_ku mode"),
     ("scale_factor", .num (1 / 100)),
     ("add_offset", .num (0)),
     ("units", .str "FFT power unit"),
     ("fill_value", .num (4294967295))]⟩,
  ⟨"stdev_stack_l1b_echo_sar_ku", .u32, ["time_l1b_echo_sar_ku"],
    [("long_name", .str "standard deviation of stack: l1b_echo_sar_ku mode"),
     ("scale_factor", .num (1 / 1000000)),
     ("add_offset", .num (0)),
     ("units", .str "rad"),
     ("fill_value", .num (4294967295))]⟩,
  ⟨"skew_stack_l1b_echo_sar_ku", .i32, ["time_l1b_echo_sar_ku"],
    [("long_name", .str "skewness of stack: l1b_echo_sar_ku mode"),
     ("scale_factor", .num (1 / 1000000)),
     ("add_offset", .num (0)),
     ("units", .str "count"),
     ("fill_value", .num (2147483647))]⟩,
  ⟨"kurt_stack_l1b_echo_sar_ku", .i32, ["time_l1b_echo_sar_ku"],
    [("long_name", .str "kurtosis of stack: l1b_echo_sar_ku mode"),
     ("scale_factor", .num (1 / 1000000)),
     ("add_offset", .num (0)),
     ("units", .str "count"),
     ("fill_value", .num (2147483647))]⟩,
  ⟨"beam_ang_l1b_echo_sar_ku", .i16, ["time_l1b_echo_sar_ku", "max_multi_stack_ind"],
    [("long_name", .str "doppler beam angles in stack: l1b_echo_sar_ku mode"),
     ("comment", .str "the useful values of the table are the first n_useful values where n_useful isthe number of waveforms summed in the stack"),
     ("scale_factor", .num (1 / 1000000)),
     ("add_offset", .num (0)),
     ("units", .str "rad"),
     ("fill_value", .num (32767))]⟩,
  ⟨"beam_form_l1b_echo_sar_ku", .u16, ["time_l1b_echo_sar_ku"],
    [("long_name", .str "flag on beam formation quality in stack: l1b_echo_sar_ku mode"),
     ("scale_factor", .num (1 / 100)),
     ("add_offset", .num (0)),
     ("units", .str "percent"),
     ("fill_value", .num (65535))]⟩,
  ⟨"i2q2_meas_ku_l1b_echo_sar_ku", .u32, ["time_l1b_echo_sar_ku", "echo_sample_ind"],
    [("long_name", .str "I2+Q2 measurement for ku band: l1b_echo_sar_ku mode"),
     ("comment", .str "the echo is corrected for Doppler range effect, phase/power burst calibrationand GPRW effect. The echo is scaled using the correlated AGC (agc_ku_l1b_echo_sar_ku)"),
     ("scale_factor", .num (1 / 1000)),
     ("add_offset", .num (0)),
     ("units", .str "count"),
     ("fill_value", .num (4294967295))]⟩]

/-- The expressions whose values `L1BWriter.write_record` passes on (dedop/data/output/l1b_writer.py 1562-1640). -/
def s3Sources : List (String × Src) := [
  ("time_l1b_echo_sar_ku", (.surf "time_surf")),
  ("UTC_day_l1b_echo_sar_ku", (.loc "utc_days")),
  ("UTC_sec_l1b_echo_sar_ku", (.loc "utc_secs")),
  ("GPS_time_l1b_echo_sar_ku", (.surf "gps_time_surf")),
  ("isp_coarse_time_l1b_echo_sar_ku", (.burst "isp_coarse_time")),
  ("isp_fine_time_l1b_echo_sar_ku", (.burst "isp_fine_time")),
  ("sral_fine_time_l1b_echo_sar_ku", (.burst "sral_fine_time")),
  ("lat_l1b_echo_sar_ku", (.degrees (.surf "lat_surf"))),
  ("lon_l1b_echo_sar_ku", (.degrees (.surf "lon_surf"))),
  ("alt_l1b_echo_sar_ku", (.surf "alt_sat")),
  ("orb_alt_rate_l1b_echo_sar_ku", (.surf "alt_rate_sat")),
  ("flag_time_status_l1b_echo_sar_ku", (.burst "flag_time_status")),
  ("flag_man_pres_l1b_echo_sar_ku", .missing),
  ("flag_man_thrust_l1b_echo_sar_ku", .missing),
  ("flag_man_plane_l1b_echo_sar_ku", .missing),
  ("flag_gnss_status_l1b_echo_sar_ku", .missing),
  ("x_pos_l1b_echo_sar_ku", (.surf "x_sat")),
  ("y_pos_l1b_echo_sar_ku", (.surf "y_sat")),
  ("z_pos_l1b_echo_sar_ku", (.surf "z_sat")),
  ("x_vel_l1b_echo_sar_ku", (.surf "x_vel_sat")),
  ("y_vel_l1b_echo_sar_ku", (.surf "y_vel_sat")),
  ("z_vel_l1b_echo_sar_ku", (.surf "z_vel_sat")),
  ("nav_bul_status_l1b_echo_sar_ku", (.burst "nav_bul_status")),
  ("nav_bul_source_l1b_echo_sar_ku", (.burst "nav_bul_source")),
  ("nav_bul_coarse_time_l1b_echo_sar_ku", .missing),
  ("nav_bul_fine_time_l1b_echo_sar_ku", .missing),
  ("seq_count_l1b_echo_sar_ku", (.burst "source_seq_count")),
  ("oper_instr_l1b_echo_sar_ku", (.burst "oper_instr")),
  ("SAR_mode_l1b_echo_sar_ku", (.burst "SAR_mode")),
  ("cl_gain_l1b_echo_sar_ku", (.burst "cl_gain")),
  ("acq_stat_l1b_echo_sar_ku", (.burst "acq_stat")),
  ("dem_eeprom_l1b_echo_sar_ku", (.burst "dem_eeprom")),
  ("weighting_l1b_echo_sar_ku", .missing),
  ("loss_track_l1b_echo_sar_ku", (.burst "loss_track")),
  ("h0_nav_dem_l1b_echo_sar_ku", (.burst "h0_nav_dem")),
  ("h0_applied_l1b_echo_sar_ku", (.burst "h0_applied")),
  ("cor2_nav_dem_l1b_echo_sar_ku", (.burst "cor2_nav_dem")),
  ("cor2_applied_l1b_echo_sar_ku", (.burst "cor2_applied")),
  ("dh0_l1b_echo_sar_ku", (.burst "dh0")),
  ("agccode_ku_l1b_echo_sar_ku", (.burst "agccode_ku")),
  ("surf_type_l1b_echo_sar_ku", (.burst "surf_type")),
  ("range_ku_l1b_echo_sar_ku", (.div (.mul (.surf "win_delay_surf") (.cst "c")) (.const (2)))),
  ("uso_cor_l1b_echo_sar_ku", (.burst "uso_cor")),
  ("int_path_cor_ku_l1b_echo_sar_ku", (.burst "int_path_cor_ku")),
  ("range_rate_l1b_echo_sar_ku", .missing),
  ("agc_ku_l1b_echo_sar_ku", (.burst "agc_ku")),
  ("scale_factor_ku_l1b_echo_sar_ku", (.surf "sigma0_scaling_factor")),
  ("agc_cor_ku_l1b_echo_sar_ku", (.sub (.burst "agc_ku") (.burst "agccode_ku"))),
  ("sig0_cal_ku_l1b_echo_sar_ku", (.burst "sig0_cal_ku")),
  ("nb_stack_l1b_echo_sar_ku", (.surf "data_stack_size")),
  ("max_stack_l1b_echo_sar_ku", (.surf "stack_max")),
  ("stdev_stack_l1b_echo_sar_ku", (.surf "stack_std")),
  ("skew_stack_l1b_echo_sar_ku", (.surf "stack_skewness")),
  ("kurt_stack_l1b_echo_sar_ku", (.surf "stack_kurtosis")),
  ("beam_ang_l1b_echo_sar_ku", (.neg (.surf "look_angles_surf"))),
  ("beam_form_l1b_echo_sar_ku", .missing),
  ("i2q2_meas_ku_l1b_echo_sar_ku", (.surf "waveform_multilooked"))]

/-- The dimensions defined by `L1BSWriter.__init__` (dedop/data/output/l1bs_writer.py 88-96). -/
def l1bsDims (samples looks : Nat) : List (String × Option Nat) :=
  [("time_l1bs_echo_sar_ku", none), ("echo_sample_ind", some samples), ("max_multi_stack_ind", some looks)]

/-- The variables defined by `L1BSWriter.__init__` (dedop/data/output/l1bs_writer.py 98-625). -/
def l1bsDefs : List VarDef := [
  ⟨"time_l1bs_echo_sar_ku", .f64, ["time_l1bs_echo_sar_ku"],
    [("long_name", .str "UTC: l1bs_echo_Sar_ku mode"),
     ("calendar", .str "gregorian"),
     ("units", .str "seconds since 2000-01-01 00:00:00.0")]⟩,
  ⟨"UTC_day_l1bs_echo_sar_ku", .i16, ["time_l1bs_echo_sar_ku"],
    [("long_name", .str "day UTC: l1bs_echo_sar_ku mode"),
     ("units", .str "days since 2000-01-01 00:00:00.0"),
     ("fill_value", .num (32767))]⟩,
  ⟨"UTC_sec_l1bs_echo_sar_ku", .f64, ["time_l1bs_echo_sar_ku"],
    [("long_name", .str "seconds in the day UTC: l1bs_echo_sar_ku mode"),
     ("units", .str "seconds in the day"),
     ("fill_value", .num (18446744073709600000))]⟩,
  ⟨"lat_l1bs_echo_sar_ku", .i32, ["time_l1bs_echo_sar_ku"],
    [("long_name", .str "latitude: l1bs_echo_sar_ku mode"),
     ("units", .str "degrees_north"),
     ("scale_factor", .num (1 / 1000000)),
     ("add_offset", .num (0)),
     ("fill_value", .num (2147483647))]⟩,
  ⟨"lon_l1bs_echo_sar_ku", .i32, ["time_l1bs_echo_sar_ku"],
    [("long_name", .str "longitude: l1bs_echo_sar_ku mode"),
     ("units", .str "degrees_east"),
     ("scale_factor", .num (1 / 1000000)),
     ("add_offset", .num (0)),
     ("fill_value", .num (2147483647))]⟩,
  ⟨"surf_type_l1bs_echo_sar_ku", .i8, ["time_l1bs_echo_sar_ku"],
    [("long_name", .str "altimeter surface type: l1bs_echo_sar_ku mode"),
     ("flag_values", .ints [0, 1, 2, 3]),
     ("flag_meanings", .strs ["open_ocean_or_semi-enclosed_seas", "enclosed_seas_or_lakes", "continental_ice", "land"]),
     ("fill_value", .num (127)),
     ("comment", .str "value closest in time to the reference measurement")]⟩,
  ⟨"records_count_l1bs_echo_sar_ku", .i32, ["time_l1bs_echo_sar_ku"],
    [("long_name", .str "l1b record counters within the product: l1bs_echo_sar_ku mode"),
     ("units", .str "count"),
     ("fill_value", .num (2147483647))]⟩,
  ⟨"alt_l1bs_echo_sar_ku", .i32, ["time_l1bs_echo_sar_ku"],
    [("long_name", .str "altitude of satellite: l1bs_echo_sar_ku mode"),
     ("units", .str "m"),
     ("scale_factor", .num (1 / 10000)),
     ("add_offset", .num (700000)),
     ("fill_value", .num (2147483647))]⟩,
  ⟨"orb_alt_rate_l1bs_echo_sar_ku", .i16, ["time_l1bs_echo_sar_ku"],
    [("long_name", .str "orbital altitude rate: l1bs_echo_sar_ku mode"),
     ("scale_factor", .num (1 / 100)),
     ("add_offset", .num (0)),
     ("units", .str "m/s"),
     ("fill_value", .num (32767))]⟩,
  ⟨"x_pos_l1bs_echo_sar_ku", .f64, ["time_l1bs_echo_sar_ku"],
    [("long_name", .str "satellite altitude - x component: l1bs_echo_sar_ku mode"),
     ("units", .str "m"),
     ("fill_value", .num (18446744073709551616))]⟩,
  ⟨"y_pos_l1bs_echo_sar_ku", .f64, ["time_l1bs_echo_sar_ku"],
    [("long_name", .str "satellite altitude - y component: l1bs_echo_sar_ku mode"),
     ("units", .str "m"),
     ("fill_value", .num (18446744073709551616))]⟩,
  ⟨"z_pos_l1bs_echo_sar_ku", .f64, ["time_l1bs_echo_sar_ku"],
    [("long_name", .str "satellite altitude - z component: l1bs_echo_sar_ku mode"),
     ("units", .str "m"),
     ("fill_value", .num (18446744073709551616))]⟩,
  ⟨"x_vel_l1bs_echo_sar_ku", .f64, ["time_l1bs_echo_sar_ku"],
    [("long_name", .str "satellite velocity - x component: l1bs_echo_sar_ku mode"),
     ("units", .str "m/s"),
     ("fill_value", .num (18446744073709551616))]⟩,
  ⟨"y_vel_l1bs_echo_sar_ku", .f64, ["time_l1bs_echo_sar_ku"],
    [("long_name", .str "satellite velocity - y component: l1bs_echo_sar_ku mode"),
     ("units", .str "m/s"),
     ("fill_value", .num (18446744073709551616))]⟩,
  ⟨"z_vel_l1bs_echo_sar_ku", .f64, ["time_l1bs_echo_sar_ku"],
    [("long_name", .str "satellite velocity - z component: l1bs_echo_sar_ku mode"),
     ("units", .str "m/s"),
     ("fill_value", .num (18446744073709551616))]⟩,
  ⟨"meas_x_pos_l1bs_echo_sar_ku", .f64, ["time_l1bs_echo_sar_ku"],
    [("long_name", .str "measurement altitude - x component: l1bs_echo_sar_ku mode"),
     ("units", .str "m"),
     ("fill_value", .num (18446744073709551616))]⟩,
  ⟨"meas_y_pos_l1bs_echo_sar_ku", .f64, ["time_l1bs_echo_sar_ku"],
    [("long_name", .str "measurement altitude - y component: l1bs_echo_sar_ku mode"),
     ("units", .str "m"),
     ("fill_value", .num (18446744073709551616))]⟩,
  ⟨"meas_z_pos_l1bs_echo_sar_ku", .f64, ["time_l1bs_echo_sar_ku"],
    [("long_name", .str "measurement altitude - z component: l1bs_echo_sar_ku mode"),
     ("units", .str "m"),
     ("fill_value", .num (18446744073709551616))]⟩,
  ⟨"roll_sat_pointing_l1bs_echo_sar_ku", .i16, ["time_l1bs_echo_sar_ku"],
    [("long_name", .str "satellite pointing angle - roll: l1bs_echo_sar_ku mode"),
     ("scale_factor", .num (1 / 10000)),
     ("add_offset", .num (0)),
     ("units", .str "degrees"),
     ("fill_value", .num (32767)),
     ("comment", .str "value for the closest in time from the burst time tag, given in the nadir pointing reference frame.")]⟩,
  ⟨"pitch_sat_pointing_l1bs_echo_sar_ku", .i16, ["time_l1bs_echo_sar_ku"],
    [("long_name", .str "satellite pointing angle - pitch: l1bs_echo_sar_ku mode"),
     ("scale_factor", .num (1 / 10000)),
     ("add_offset", .num (0)),
     ("units", .str "degrees"),
     ("fill_value", .num (32767)),
     ("comment", .str "value for the closest in time from the burst time tag, given in the nadir pointing reference frame.")]⟩,
  ⟨"yaw_sat_pointing_l1bs_echo_sar_ku", .i16, ["time_l1bs_echo_sar_ku"],
    [("long_name", .str "satellite pointing angle - yaw: l1bs_echo_sar_ku mode"),
     ("scale_factor", .num (1 / 10000)),
     ("add_offset", .num (0)),
     ("units", .str "degrees"),
     ("fill_value", .num (32767)),
     ("comment", .str "value for the closest in time from the burst time tag, given in the nadir pointing reference frame.")]⟩,
  ⟨"roll_sral_mispointing_l1bs_echo_sar_ku", .i16, ["time_l1bs_echo_sar_ku"],
    [("long_name", .str "SRAL mispointing angle - roll: l1bs_echo_sar_ku mode"),
     ("scale_factor", .num (1 / 10000)),
     ("add_offset", .num (0)),
     ("units", .str "degrees"),
     ("fill_value", .num (32767)),
     ("comment", .str "value for the closest in time from the burst time tag, given in the nadir pointing reference frame.")]⟩,
  ⟨"pitch_sral_mispointing_l1bs_echo_sar_ku", .i16, ["time_l1bs_echo_sar_ku"],
    [("long_name", .str "SRAL mispointing angle - pitch: l1bs_echo_sar_ku mode"),
     ("scale_factor", .num (1 / 10000)),
     ("add_offset", .num (0)),
     ("units", .str "degrees"),
     ("fill_value", .num (32767)),
     ("comment", .str "value for the closest in time from the burst time tag, given in the nadir pointing reference frame.")]⟩,
  ⟨"yaw_sral_mispointing_l1bs_echo_sar_ku", .i16, ["time_l1bs_echo_sar_ku"],
    [("long_name", .str "SRAL mispointing angle - yaw: l1bs_echo_sar_ku mode"),
     ("scale_factor", .num (1 / 10000)),
     ("add_offset", .num (0)),
     ("units", .str "degrees"),
     ("fill_value", .num (32767)),
     ("comment", .str "value for the closest in time from the burst time tag, given in the nadir pointing reference frame.")]⟩,
  ⟨"range_ku_l1bs_echo_sar_ku", .i32, ["time_l1bs_echo_sar_ku"],
    [("long_name", .str "corrected range for ku band: l1bs_echo_sar_ku mode"),
     ("scale_factor", .num (1 / 10000)),
     ("add_offset", .num (700000)),
     ("units", .str "m"),
     ("comment", .str "Distance between the altimeter reference point and the surface height associated to a range gate used as a reference inside the tracking window (reference tracking point), corrected for USO frequency drift and internalpath correction"),
     ("fill_value", .num (2147483647))]⟩,
  ⟨"int_path_cor_ku_l1bs_echo_sar_ku", .i32, ["time_l1bs_echo_sar_ku"],
    [("long_name", .str "internal path correction for ku band: l1bs_echo_sar_ku mode"),
     ("scale_factor", .num (1 / 10000)),
     ("add_offset", .num (0)),
     ("units", .str "m"),
     ("comment", .str "Value the closest in time from the burst time lag"),
     ("fill_value", .num (2147483647))]⟩,
  ⟨"uso_cor_l1bs_echo_sar_ku", .i32, ["time_l1bs_echo_sar_ku"],
    [("long_name", .str "USO frequency drift correction: l1bs_echo_sar_ku mode"),
     ("scale_factor", .num (1 / 10000)),
     ("add_offset", .num (0)),
     ("units", .str "m"),
     ("fill_value", .num (2147483647)),
     ("comment", .str "value the closest in time from the burst time tag")]⟩,
  ⟨"cog_cor_l1bs_echo_sar_ku", .i16, ["time_l1bs_echo_sar_ku"],
    [("long_name", .str "distance antenna-CoG correction: l1bs_echo_sar_ku mode"),
     ("scale_factor", .num (1 / 10000)),
     ("add_offset", .num (0)),
     ("units", .str "m"),
     ("comment", .str "Distance in the z-component between the centre of mass of the satellite and the altimeter antenna reference point"),
     ("fill_value", .num (32767))]⟩,
  ⟨"agccode_ku_l1bs_echo_sar_ku", .i8, ["time_l1bs_echo_sar_ku"],
    [("long_name", .str "AGCCODE for ku band: l1bs_echo_sar_ku mode"),
     ("units", .str "dB"),
     ("fill_value", .num (127))]⟩,
  ⟨"agc_ku_l1bs_echo_sar_ku", .i32, ["time_l1bs_echo_sar_ku"],
    [("long_name", .str "corrected AGC for ku band: l1bs_echo_sar_ku mode"),
     ("scale_factor", .num (1 / 100)),
     ("add_offset", .num (0)),
     ("units", .str "dB"),
     ("comment", .str "AGC corrected for instrumental errors - value the closest in time to the reference measurement"),
     ("fill_value", .num (2147483647))]⟩,
  ⟨"scale_factor_ku_l1bs_echo_sar_ku", .i32, ["time_l1bs_echo_sar_ku"],
    [("long_name", .str "scaling factor for sigma0 evaluation for ku band: l1bs_echo_sar_ku mode"),
     ("scale_factor", .num (1 / 100)),
     ("add_offset", .num (0)),
     ("units", .str "dB"),
     ("comment", .str "scaling factor corrected for AGC instrumental errors and internal calibration"),
     ("fill_value", .num (2147483647))]⟩,
  ⟨"sig0_cal_ku_l1bs_echo_sar_ku", .i32, ["time_l1bs_echo_sar_ku"],
    [("long_name", .str "internal calibration correction on Sigma0 for ku band: l1bs_echo_sar_ku mode"),
     ("scale_factor", .num (1 / 100)),
     ("add_offset", .num (0)),
     ("units", .str "dB"),
     ("fill_value", .num (2147483647))]⟩,
  ⟨"snr_ku_l1bs_echo_sar_ku", .i32, ["time_l1bs_echo_sar_ku"],
    [("long_name", .str "snr estimation for ku band: l1bs_echo_sar_ku mode"),
     ("scale_factor", .num (1 / 100)),
     ("add_offset", .num (0)),
     ("units", .str "dB"),
     ("fill_value", .num (2147483647))]⟩,
  ⟨"i2q2_meas_ku_l1bs_echo_sar_ku", .u32, ["time_l1bs_echo_sar_ku", "echo_sample_ind"],
    [("long_name", .str "I2+Q2 measurement for ku band: l1bs_echo_sar_ku mode"),
     ("comment", .str "the echo is corrected for Doppler range effect, phase/power burst calibration and GPRW effect. The echo is scaled using the correctied AGC (agc_ku_l1b_echo_sar_ku)"),
     ("scale_factor", .num (1 / 1000)),
     ("add_offset", .num (0)),
     ("units", .str "count"),
     ("fill_value", .num (4294967295))]⟩,
  ⟨"nb_stack_l1bs_echo_sar_ku", .u16, ["time_l1bs_echo_sar_ku"],
    [("long_name", .str "number of waveforms summed in stack: l1bs_echo_sar_ku mode"),
     ("units", .str "count"),
     ("fill_value", .num (65535))]⟩,
  ⟨"max_stack_l1bs_echo_sar_ku", .u32, ["time_l1bs_echo_sar_ku"],
    [("long_name", .str "maximum power of stack: l1bs_echo_sar_ku mode"),
     ("scale_factor", .num (1 / 10000)),
     ("add_offset", .num (0)),
     ("units", .str "FFT power unit"),
     ("fill_value", .num (4294967295))]⟩,
  ⟨"max_loc_stack_l1bs_echo_sar_ku", .u16, ["time_l1bs_echo_sar_ku"],
    [("long_name", .str "location of the maximum power of stack: l1bs_echo_sar_ku mode"),
     ("units", .str "count"),
     ("fill_value", .num (65535))]⟩,
  ⟨"stdev_stack_l1bs_echo_sar_ku", .u32, ["time_l1bs_echo_sar_ku"],
    [("long_name", .str "standard deviation of stack: l1bs_echo_sar_ku mode"),
     ("scale_factor", .num (1 / 1000000)),
     ("add_offset", .num (0)),
     ("units", .str "rad"),
     ("fill_value", .num (4294967295))]⟩,
  ⟨"skew_stack_l1bs_echo_sar_ku", .i32, ["time_l1bs_echo_sar_ku"],
    [("long_name", .str "skewness of stack: l1bs_echo_sar_ku mode"),
     ("scale_factor", .num (1 / 1000000)),
     ("add_offset", .num (0)),
     ("units", .str "count"),
     ("fill_value", .num (2147483647))]⟩,
  ⟨"kurt_stack_l1bs_echo_sar_ku", .i32, ["time_l1bs_echo_sar_ku"],
    [("long_name", .str "kurtosis of stack: l1bs_echo_sar_ku mode"),
     ("scale_factor", .num (1 / 1000000)),
     ("add_offset", .num (0)),
     ("units", .str "count"),
     ("fill_value", .num (2147483647))]⟩,
  ⟨"beam_ang_l1bs_echo_sar_ku", .i16, ["time_l1bs_echo_sar_ku", "max_multi_stack_ind"],
    [("long_name", .str "doppler beam angles in stack: l1bs_echo_sar_ku mode"),
     ("comment", .str "the useful values of the table are the first nb_stack_l1bs_echo_sar_ku values"),
     ("scale_factor", .num (1 / 1000000)),
     ("add_offset", .num (157 / 100)),
     ("units", .str "rad"),
     ("fill_value", .num (32767))]⟩,
  ⟨"beam_form_l1bs_echo_sar_ku", .u8, ["time_l1bs_echo_sar_ku"],
    [("long_name", .str "flag on beam formation quality in stack: l1bs_echo_sar_ku mode"),
     ("scale_factor", .num (1 / 100)),
     ("add_offset", .num (0)),
     ("units", .str "percent"),
     ("fill_value", .num (65535))]⟩,
  ⟨"burst_start_ind_l1bs_echo_sar_ku", .i32, ["time_l1bs_echo_sar_ku"],
    [("long_name", .str "burst start index for stack building: l1bs_echo_sar_ku mode"),
     ("units", .str "count"),
     ("fill_value", .num (2147483647))]⟩,
  ⟨"burst_stop_ind_l1bs_echo_sar_ku", .i32, ["time_l1bs_echo_sar_ku"],
    [("long_name", .str "burst stop index for stack building: l1bs_echo_sar_ku mode"),
     ("units", .str "count"),
     ("fill_value", .num (2147483647))]⟩,
  ⟨"iq_scale_factor_l1bs_echo_sar_ku", .f64, ["time_l1bs_echo_sar_ku"],
    [("long_name", .str "dynamic scale factor for I/Q waveforms i_echoes_ku_l1bs_echo_sar_ku andq_echos_ku_l1bs_echo_sar_ku"),
     ("comment", .str "dynamic scale factor for I/Q waveforms i_echoes_ku_l1bs_echo_sar_ku andq_echos_ku_l1bs_echo_sar_ku"),
     ("fill_value", .num (18446744073709551616))]⟩,
  ⟨"i_echoes_ku_l1bs_echo_sar_ku", .i8, ["time_l1bs_echo_sar_ku", "max_multi_stack_ind", "echo_sample_ind"],
    [("long_name", .str "fully calibrated ky band echoes, i measurements aligned within the stack: l1bs_echo_sar_ku mode"),
     ("units", .str "count"),
     ("fill_value", .num ((-128))),
     ("comment", .str "Fully calibrate ku band echoes, I values (300*128 samples) in the frequency domain, and aligned within the stack. The useful echoes of the table are the first nb_stack_l1bs_echo_sar_ku echos.")]⟩,
  ⟨"q_echoes_ku_l1bs_echo_sar_ku", .i8, ["time_l1bs_echo_sar_ku", "max_multi_stack_ind", "echo_sample_ind"],
    [("long_name", .str "fully calibrated ky band echoes, q measurements aligned within the stack: l1bs_echo_sar_ku mode"),
     ("units", .str "count"),
     ("fill_value", .num ((-128))),
     ("comment", .str "Fully calibrate ku band echoes, Q values (300*128 samples) in the frequency domain, and aligned within the stack. The useful echoes of the table are the first nb_stack_l1bs_echo_sar_ku echos.")]⟩,
  ⟨"start_look_angle_stack_l1bs_echo_sar_ku", .i16, ["time_l1bs_echo_sar_ku"],
    [("long_name", .str "start look angle in stack: l1bs_echo_sar_ku mode"),
     ("scale_factor", .num (1 / 1000000)),
     ("add_offset", .num (0)),
     ("units", .str "rad"),
     ("fill_value", .num (32767))]⟩,
  ⟨"stop_look_angle_stack_l1bs_echo_sar_ku", .i16, ["time_l1bs_echo_sar_ku"],
    [("long_name", .str "stop look angle in stack: l1bs_echo_sar_ku mode"),
     ("scale_factor", .num (1 / 1000000)),
     ("add_offset", .num (0)),
     ("units", .str "rad"),
     ("fill_value", .num (32767))]⟩,
  ⟨"power_var_stack_l1bs_echo_sar_ku", .i16, ["time_l1bs_echo_sar_ku", "max_multi_stack_ind"],
    [("long_name", .str "power variations within the stack: l1bs_echo_sar_ku mode"),
     ("comment", .str "The useful values of the table are the first nb_stack_l1bs_echo_sar_ku values, one value of power for each individual echo"),
     ("units", .str "FFT power unit"),
     ("fill_value", .num (32767))]⟩,
  ⟨"start_beam_ang_stack_l1bs_echo_sar_ku", .i16, ["time_l1bs_echo_sar_ku"],
    [("long_name", .str "start doppler beam angle in stack: l1bs_echo_sar_ku mode"),
     ("units", .str "rad"),
     ("fill_value", .num (32767)),
     ("scale_factor", .num (1 / 1000000)),
     ("add_offset", .num (157 / 100))]⟩,
  ⟨"stop_beam_ang_stack_l1bs_echo_sar_ku", .i16, ["time_l1bs_echo_sar_ku"],
    [("long_name", .str "stop doppler beam angle in stack: l1bs_echo_sar_ku mode"),
     ("units", .str "rad"),
     ("fill_value", .num (32767)),
     ("scale_factor", .num (1 / 1000000)),
     ("add_offset", .num (157 / 100))]⟩]

/-- The expressions whose values `L1BSWriter.write_record` passes on (dedop/data/output/l1bs_writer.py 627-703). -/
def l1bsSources : List (String × Src) := [
  ("time_l1bs_echo_sar_ku", (.surf "time_surf")),
  ("UTC_day_l1bs_echo_sar_ku", (.loc "utc_days")),
  ("UTC_sec_l1bs_echo_sar_ku", (.loc "utc_secs")),
  ("lat_l1bs_echo_sar_ku", (.degrees (.surf "lat_surf"))),
  ("lon_l1bs_echo_sar_ku", (.degrees (.surf "lon_surf"))),
  ("surf_type_l1bs_echo_sar_ku", (.surf "surface_type.value")),
  ("records_count_l1bs_echo_sar_ku", (.surf "surface_counter")),
  ("alt_l1bs_echo_sar_ku", (.surf "alt_sat")),
  ("orb_alt_rate_l1bs_echo_sar_ku", (.surf "alt_rate_sat")),
  ("x_pos_l1bs_echo_sar_ku", (.surf "x_sat")),
  ("y_pos_l1bs_echo_sar_ku", (.surf "y_sat")),
  ("z_pos_l1bs_echo_sar_ku", (.surf "z_sat")),
  ("x_vel_l1bs_echo_sar_ku", (.surf "x_vel_sat")),
  ("y_vel_l1bs_echo_sar_ku", (.surf "y_vel_sat")),
  ("z_vel_l1bs_echo_sar_ku", (.surf "z_vel_sat")),
  ("meas_x_pos_l1bs_echo_sar_ku", (.surf "x_surf")),
  ("meas_y_pos_l1bs_echo_sar_ku", (.surf "y_surf")),
  ("meas_z_pos_l1bs_echo_sar_ku", (.surf "z_surf")),
  ("roll_sat_pointing_l1bs_echo_sar_ku", (.surf "roll_sat")),
  ("pitch_sat_pointing_l1bs_echo_sar_ku", (.surf "pitch_sat")),
  ("yaw_sat_pointing_l1bs_echo_sar_ku", (.surf "yaw_sat")),
  ("roll_sral_mispointing_l1bs_echo_sar_ku", (.burst "roll_sral_mispointing")),
  ("pitch_sral_mispointing_l1bs_echo_sar_ku", (.burst "pitch_sral_mispointing")),
  ("yaw_sral_mispointing_l1bs_echo_sar_ku", (.burst "yaw_sral_mispointing")),
  ("range_ku_l1bs_echo_sar_ku", (.div (.mul (.surf "win_delay_surf") (.cst "c")) (.const (2)))),
  ("int_path_cor_ku_l1bs_echo_sar_ku", (.burst "int_path_cor_ku")),
  ("uso_cor_l1bs_echo_sar_ku", (.burst "uso_cor")),
  ("cog_cor_l1bs_echo_sar_ku", (.burst "cog_cor")),
  ("agccode_ku_l1bs_echo_sar_ku", (.burst "agccode_ku")),
  ("agc_ku_l1bs_echo_sar_ku", (.burst "agc_ku")),
  ("scale_factor_ku_l1bs_echo_sar_ku", (.surf "sigma0_scaling_factor")),
  ("sig0_cal_ku_l1bs_echo_sar_ku", (.burst "sig0_cal_ku")),
  ("snr_ku_l1bs_echo_sar_ku", .missing),
  ("i2q2_meas_ku_l1bs_echo_sar_ku", (.mul (.surf "waveform_multilooked") (.loc "scale_factor"))),
  ("nb_stack_l1bs_echo_sar_ku", (.surf "data_stack_size")),
  ("max_stack_l1bs_echo_sar_ku", (.surf "stack_max")),
  ("max_loc_stack_l1bs_echo_sar_ku", .missing),
  ("stdev_stack_l1bs_echo_sar_ku", (.surf "stack_std")),
  ("skew_stack_l1bs_echo_sar_ku", (.surf "stack_skewness")),
  ("kurt_stack_l1bs_echo_sar_ku", (.surf "stack_kurtosis")),
  ("beam_ang_l1bs_echo_sar_ku", (.surf "beam_angles_start_stop")),
  ("beam_form_l1bs_echo_sar_ku", .missing),
  ("burst_start_ind_l1bs_echo_sar_ku", (.surf "start_burst_index")),
  ("burst_stop_ind_l1bs_echo_sar_ku", (.surf "stop_burst_index")),
  ("iq_scale_factor_l1bs_echo_sar_ku", (.loc "dynamic_scale")),
  ("i_echoes_ku_l1bs_echo_sar_ku", (.div (.loc "stack_i") (.loc "dynamic_scale"))),
  ("q_echoes_ku_l1bs_echo_sar_ku", (.div (.loc "stack_q") (.loc "dynamic_scale"))),
  ("start_look_angle_stack_l1bs_echo_sar_ku", (.surf "start_look_angle")),
  ("stop_look_angle_stack_l1bs_echo_sar_ku", (.surf "stop_look_angle")),
  ("start_beam_ang_stack_l1bs_echo_sar_ku", (.surf "start_beam_angle")),
  ("stop_beam_ang_stack_l1bs_echo_sar_ku", (.surf "stop_beam_angle"))]

end Dedop.Writer
