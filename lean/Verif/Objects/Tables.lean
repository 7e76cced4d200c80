import Verif.Objects.Model
/-!
# The attributes of surfaces and bursts

Generated by tools/attrs.py from the source of the two classes.
-/
namespace Dedop.Objects

/-- The attributes declared by `SurfaceData` (dedop/model/surface_data.py 23-1061), in the order of their definitions:
name, getter, setter, deleter.  Those which do not just read one entry: target_focused 55, surface_counter 69, ecef_surf 151, lla_surf 207, ecef_sat 264, lla_sat 320, vel_sat 377, orientation_sat 449, closest_burst 849, gps_time_surf 932. -/
def surfaceAttrs : List Attr := [
    ⟨"sigma0_scaling_factor_beam", .cell "sigma0_scaling_factor_beam", some (.cell "sigma0_scaling_factor_beam"), some "sigma0_scaling_factor_beam"⟩,
    ⟨"focus_target_distance", .cell "focus_target_distance", some (.cell "focus_target_distance"), some "focus_target_distance"⟩,
    ⟨"target_focused", .cellOrFalse "target_focused", some (.cell "target_focused"), some "target_focused"⟩,
    ⟨"surface_counter", .field "_surface_counter", none, none⟩,
    ⟨"time_surf", .cell "time_surf", some (.cell "time_surf"), some "time_surf"⟩,
    ⟨"win_delay_surf", .cell "win_delay_surf", some (.cell "win_delay_surf"), some "win_delay_surf"⟩,
    ⟨"x_surf", .cell "x_surf", some (.cell "x_surf"), some "x_surf"⟩,
    ⟨"y_surf", .cell "y_surf", some (.cell "y_surf"), some "y_surf"⟩,
    ⟨"z_surf", .cell "z_surf", some (.cell "z_surf"), some "z_surf"⟩,
    ⟨"ecef_surf", .view ["x_surf", "y_surf", "z_surf"], some (.view ["x_surf", "y_surf", "z_surf"]), none⟩,
    ⟨"lat_surf", .cell "lat_surf", some (.cell "lat_surf"), some "lat_surf"⟩,
    ⟨"lon_surf", .cell "lon_surf", some (.cell "lon_surf"), some "lon_surf"⟩,
    ⟨"alt_surf", .cell "alt_surf", some (.cell "alt_surf"), some "alt_surf"⟩,
    ⟨"lla_surf", .view ["lat_surf", "lon_surf", "alt_surf"], some (.view ["lat_surf", "lon_surf", "alt_surf"]), none⟩,
    ⟨"x_sat", .cell "x_sat", some (.cell "x_sat"), some "x_sat"⟩,
    ⟨"y_sat", .cell "y_sat", some (.cell "y_sat"), some "y_sat"⟩,
    ⟨"z_sat", .cell "z_sat", some (.cell "z_sat"), some "z_sat"⟩,
    ⟨"ecef_sat", .view ["x_sat", "y_sat", "z_sat"], some (.view ["x_sat", "y_sat", "z_sat"]), none⟩,
    ⟨"lat_sat", .cell "lat_sat", some (.cell "lat_sat"), some "lat_sat"⟩,
    ⟨"lon_sat", .cell "lon_sat", some (.cell "lon_sat"), some "lon_sat"⟩,
    ⟨"alt_sat", .cell "alt_sat", some (.cell "alt_sat"), some "alt_sat"⟩,
    ⟨"lla_sat", .view ["lat_sat", "lon_sat", "alt_sat"], some (.view ["lat_sat", "lon_sat", "alt_sat"]), none⟩,
    ⟨"x_vel_sat", .cell "x_vel_sat", some (.cell "x_vel_sat"), some "x_vel_sat"⟩,
    ⟨"y_vel_sat", .cell "y_vel_sat", some (.cell "y_vel_sat"), some "y_vel_sat"⟩,
    ⟨"z_vel_sat", .cell "z_vel_sat", some (.cell "z_vel_sat"), some "z_vel_sat"⟩,
    ⟨"vel_sat", .view ["x_vel_sat", "y_vel_sat", "z_vel_sat"], some (.view ["x_vel_sat", "y_vel_sat", "z_vel_sat"]), none⟩,
    ⟨"alt_rate_sat", .cell "alt_rate_sat", some (.cell "alt_rate_sat"), some "alt_rate_sat"⟩,
    ⟨"roll_sat", .cell "roll_sat", some (.cell "roll_sat"), some "roll_sat"⟩,
    ⟨"pitch_sat", .cell "pitch_sat", some (.cell "pitch_sat"), some "pitch_sat"⟩,
    ⟨"yaw_sat", .cell "yaw_sat", some (.cell "yaw_sat"), some "yaw_sat"⟩,
    ⟨"orientation_sat", .view ["roll_sat", "pitch_sat", "yaw_sat"], some (.view ["roll_sat", "pitch_sat", "yaw_sat"]), none⟩,
    ⟨"angular_azimuth_beam_resolution", .cell "angular_azimuth_beam_resolution", some (.cell "angular_azimuth_beam_resolution"), some "angular_azimuth_beam_resolution"⟩,
    ⟨"surface_type", .cell "surface_type", some (.cell "surface_type"), some "surface_type"⟩,
    ⟨"stack_all_beams_indices", .cell "stack_all_beams_indices", some (.cell "stack_all_beams_indices"), some "stack_all_beams_indices"⟩,
    ⟨"stack_all_beams_indices_abs", .cell "stack_all_beams_indices_abs", some (.cell "stack_all_beams_indices_abs"), some "stack_all_beams_indices_abs"⟩,
    ⟨"stack_all_bursts", .cell "stack_all_bursts", some (.cell "stack_all_bursts"), some "stack_all_bursts"⟩,
    ⟨"data_stack_size", .cell "data_stack_size", some (.cell "data_stack_size"), some "data_stack_size"⟩,
    ⟨"stack_bursts", .cell "stack_bursts", some (.cell "stack_bursts"), some "stack_bursts"⟩,
    ⟨"beam_angles_surf", .cell "beam_angles_surf", some (.cell "beam_angles_surf"), some "beam_angles_surf"⟩,
    ⟨"surf_sat_vector", .cell "surf_sat_vector", some (.cell "surf_sat_vector"), some "surf_sat_vector"⟩,
    ⟨"t0_surf", .cell "t0_surf", some (.cell "t0_surf"), some "t0_surf"⟩,
    ⟨"beams_surf", .cell "beams_surf", some (.cell "beams_surf"), some "beams_surf"⟩,
    ⟨"beams_geo_corr", .cell "beams_geo_corr", some (.cell "beams_geo_corr"), some "beams_geo_corr"⟩,
    ⟨"doppler_corrections", .cell "doppler_corrections", some (.cell "doppler_corrections"), some "doppler_corrections"⟩,
    ⟨"slant_range_corrections", .cell "slant_range_corrections", some (.cell "slant_range_corrections"), some "slant_range_corrections"⟩,
    ⟨"win_delay_corrections", .cell "win_delay_corrections", some (.cell "win_delay_corrections"), some "win_delay_corrections"⟩,
    ⟨"beams_range_compr", .cell "beams_range_compr", some (.cell "beams_range_compr"), some "beams_range_compr"⟩,
    ⟨"beams_range_compr_iq", .cell "beams_range_compr_iq", some (.cell "beams_range_compr_iq"), some "beams_range_compr_iq"⟩,
    ⟨"beams_masked", .cell "beams_masked", some (.cell "beams_masked"), some "beams_masked"⟩,
    ⟨"look_angles_surf", .cell "look_angles_surf", some (.cell "look_angles_surf"), some "look_angles_surf"⟩,
    ⟨"pointing_angles_surf", .cell "pointing_angles_surf", some (.cell "pointing_angles_surf"), some "pointing_angles_surf"⟩,
    ⟨"stack_mask_vector", .cell "stack_mask_vector", some (.cell "stack_mask_vector"), some "stack_mask_vector"⟩,
    ⟨"stack_mask", .cell "stack_mask", some (.cell "stack_mask"), some "stack_mask"⟩,
    ⟨"doppler_angles_surf", .cell "doppler_angles_surf", some (.cell "doppler_angles_surf"), some "doppler_angles_surf"⟩,
    ⟨"stack_mask", .cell "stack_mask", some (.cell "stack_mask"), some "stack_mask"⟩,
    ⟨"range_sat_surf", .cell "range_sat_surf", some (.cell "range_sat_surf"), some "range_sat_surf"⟩,
    ⟨"closest_burst_index", .cell "closest_burst_index", some (.cell "closest_burst_index"), some "closest_burst_index"⟩,
    ⟨"closest_burst", .derived ["stack_bursts", "closest_burst_index"], none, none⟩,
    ⟨"sigma0_scaling_factor", .cell "sigma0_scaling_factor", some (.cell "sigma0_scaling_factor"), some "sigma0_scaling_factor"⟩,
    ⟨"stack_std", .cell "stack_std", some (.cell "stack_std"), some "stack_std"⟩,
    ⟨"stack_max", .cell "stack_max", some (.cell "stack_max"), some "stack_max"⟩,
    ⟨"stack_skewness", .cell "stack_skewness", some (.cell "stack_skewness"), some "stack_skewness"⟩,
    ⟨"stack_kurtosis", .cell "stack_kurtosis", some (.cell "stack_kurtosis"), some "stack_kurtosis"⟩,
    ⟨"waveform_multilooked", .cell "waveform_multilooked", some (.cell "waveform_multilooked"), some "waveform_multilooked"⟩,
    ⟨"gps_time_surf", .derived ["time_surf"], none, none⟩,
    ⟨"prev_tai", .cell "prev_tai", none, none⟩,
    ⟨"prev_utc_days", .cell "prev_utc_days", none, none⟩,
    ⟨"prev_utc_secs", .cell "prev_utc_secs", none, none⟩,
    ⟨"curr_day_length", .cell "curr_day_length", none, none⟩,
    ⟨"n_beams_start_stop", .cell "n_beams_start_stop", some (.cell "n_beams_start_stop"), none⟩,
    ⟨"start_look_angle", .cell "start_look_angle", some (.cell "start_look_angle"), none⟩,
    ⟨"stop_look_angle", .cell "stop_look_angle", some (.cell "stop_look_angle"), none⟩,
    ⟨"start_doppler_angle", .cell "start_doppler_angle", some (.cell "start_doppler_angle"), none⟩,
    ⟨"stop_doppler_angle", .cell "stop_doppler_angle", some (.cell "stop_doppler_angle"), none⟩,
    ⟨"start_pointing_angle", .cell "start_pointing_angle", some (.cell "start_pointing_angle"), none⟩,
    ⟨"stop_pointing_angle", .cell "stop_pointing_angle", some (.cell "stop_pointing_angle"), none⟩,
    ⟨"stack_mask_vector_start_stop", .cell "stack_mask_vector_start_stop", some (.cell "stack_mask_vector_start_stop"), none⟩,
    ⟨"start_beam_angle", .cell "start_beam_angle", some (.cell "start_beam_angle"), none⟩,
    ⟨"stop_beam_angle", .cell "stop_beam_angle", some (.cell "stop_beam_angle"), none⟩,
    ⟨"start_burst_index", .cell "start_burst_index", some (.cell "start_burst_index"), none⟩,
    ⟨"stop_burst_index", .cell "stop_burst_index", some (.cell "stop_burst_index"), none⟩,
    ⟨"beam_angles_start_stop", .cell "beam_angles_start_stop", some (.cell "beam_angles_start_stop"), none⟩,
    ⟨"look_angles_start_stop", .cell "look_angles_start_stop", some (.cell "look_angles_start_stop"), none⟩]

/-- The methods defined by `SurfaceData` (dedop/model/surface_data.py). -/
def surfaceMethods : List String := ["__init__", "set_values", "__setitem__", "__getitem__", "__delitem__", "compute_angular_azimuth_beam_resolution", "compute_surf_sat_vector", "add_stack_beam_index", "add_stack_burst"]

/-- The attributes declared by `L1AProcessingData` (dedop/model/l1a_processing_data.py 30-820), in the order of their definitions:
name, getter, setter, deleter.  Those which do not just read one entry: geodetic_sat 212, x_vel_sat_sar 242, y_vel_sat_sar 253, z_vel_sat_sar 264, vel_sat_sar 275, orientation_sar 333, sar_surf 456, pos_sar_sat 520, seq_count_sar 535, burst_processed 617, counter 626, leap_secs_since_2000 792, h 796, cai 806, fai 810, vel_sat_sar_norm 815. -/
def burstAttrs : List Attr := [
    ⟨"isp_pid", .cell "isp_pid", some (.cell "isp_pid"), some "isp_pid"⟩,
    ⟨"time_sar_ku", .cell "time_sar_ku", some (.cell "time_sar_ku"), some "time_sar_ku"⟩,
    ⟨"days", .cell "days", some (.cell "days"), some "days"⟩,
    ⟨"seconds", .cell "seconds", some (.cell "seconds"), some "seconds"⟩,
    ⟨"seq_count_sar_ku_fbr", .cell "seq_count_sar_ku_fbr", some (.cell "seq_count_sar_ku_fbr"), some "seq_count_sar_ku_fbr"⟩,
    ⟨"inst_id_sar_isp", .cell "inst_id_sar_isp", some (.cell "inst_id_sar_isp"), some "inst_id_sar_isp"⟩,
    ⟨"pri_sar_pre_dat", .cell "pri_sar_pre_dat", some (.cell "pri_sar_pre_dat"), some "pri_sar_pre_dat"⟩,
    ⟨"ambiguity_order_sar", .cell "ambiguity_order_sar", some (.cell "ambiguity_order_sar"), some "ambiguity_order_sar"⟩,
    ⟨"burst_sar_ku", .cell "burst_sar_ku", some (.cell "burst_sar_ku"), some "burst_sar_ku"⟩,
    ⟨"lat_sar_sat", .cell "lat_sar_sat", some (.cell "lat_sar_sat"), some "lat_sar_sat"⟩,
    ⟨"lon_sar_sat", .cell "lon_sar_sat", some (.cell "lon_sar_sat"), some "lon_sar_sat"⟩,
    ⟨"alt_sar_sat", .cell "alt_sar_sat", some (.cell "alt_sar_sat"), some "alt_sar_sat"⟩,
    ⟨"geodetic_sat", .view ["lat_sar_sat", "lon_sar_sat", "alt_sar_sat"], some (.view ["lat_sar_sat", "lon_sar_sat", "alt_sar_sat"]), none⟩,
    ⟨"alt_rate_sat_sar", .cell "alt_rate_sat_sar", some (.cell "alt_rate_sat_sar"), some "alt_rate_sat_sar"⟩,
    ⟨"x_vel_sat_sar", .vel 0, some (.vel 0), none⟩,
    ⟨"y_vel_sat_sar", .vel 1, some (.vel 1), none⟩,
    ⟨"z_vel_sat_sar", .vel 2, some (.vel 2), none⟩,
    ⟨"vel_sat_sar", .velAll, some (.velAll), none⟩,
    ⟨"roll_sar", .cell "roll_sar", some (.cell "roll_sar"), some "roll_sar"⟩,
    ⟨"pitch_sar", .cell "pitch_sar", some (.cell "pitch_sar"), some "pitch_sar"⟩,
    ⟨"yaw_sar", .cell "yaw_sar", some (.cell "yaw_sar"), some "yaw_sar"⟩,
    ⟨"orientation_sar", .view ["roll_sar", "pitch_sar", "yaw_sar"], some (.view ["roll_sar", "pitch_sar", "yaw_sar"]), none⟩,
    ⟨"h0_sar", .cell "h0_sar", some (.cell "h0_sar"), some "h0_sar"⟩,
    ⟨"t0_sar", .cell "t0_sar", some (.cell "t0_sar"), some "t0_sar"⟩,
    ⟨"cor2_sar", .cell "cor2_sar", some (.cell "cor2_sar"), some "cor2_sar"⟩,
    ⟨"win_delay_sar_ku", .cell "win_delay_sar_ku", some (.cell "win_delay_sar_ku"), some "win_delay_sar_ku"⟩,
    ⟨"x_sar_surf", .cell "x_sar_surf", some (.cell "x_sar_surf"), some "x_sar_surf"⟩,
    ⟨"y_sar_surf", .cell "y_sar_surf", some (.cell "y_sar_surf"), some "y_sar_surf"⟩,
    ⟨"z_sar_surf", .cell "z_sar_surf", some (.cell "z_sar_surf"), some "z_sar_surf"⟩,
    ⟨"sar_surf", .view ["x_sar_surf", "y_sar_surf", "z_sar_surf"], some (.view ["x_sar_surf", "y_sar_surf", "z_sar_surf"]), none⟩,
    ⟨"x_sar_sat", .cell "x_sar_sat", some (.cell "x_sar_sat"), some "x_sar_sat"⟩,
    ⟨"y_sar_sat", .cell "y_sar_sat", some (.cell "y_sar_sat"), some "y_sar_sat"⟩,
    ⟨"z_sar_sat", .cell "z_sar_sat", some (.cell "z_sar_sat"), some "z_sar_sat"⟩,
    ⟨"pos_sar_sat", .view ["x_sar_sat", "y_sar_sat", "z_sar_sat"], some (.view ["x_sar_sat", "y_sar_sat", "z_sar_sat"]), none⟩,
    ⟨"seq_count_sar", .field "_seq_count_sar", none, none⟩,
    ⟨"beam_angles_list", .cell "beam_angles_list", some (.cell "beam_angles_list"), some "beam_angles_list"⟩,
    ⟨"beam_angles_trend", .cell "beam_angles_trend", some (.cell "beam_angles_trend"), some "beam_angles_trend"⟩,
    ⟨"waveform_cor_sar", .cell "waveform_cor_sar", some (.cell "waveform_cor_sar"), some "waveform_cor_sar"⟩,
    ⟨"doppler_angle_sar_sat", .cell "doppler_angle_sar_sat", some (.cell "doppler_angle_sar_sat"), some "doppler_angle_sar_sat"⟩,
    ⟨"beams_focused", .cell "beams_focused", some (.cell "beams_focused"), some "beams_focused"⟩,
    ⟨"burst_processed", .field "_burst_processed", some (.field "_burst_processed"), none⟩,
    ⟨"counter", .field "_counter", none, none⟩,
    ⟨"isp_coarse_time", .cell "isp_coarse_time", none, none⟩,
    ⟨"isp_fine_time", .cell "isp_fine_time", none, none⟩,
    ⟨"sral_fine_time", .cell "sral_fine_time", none, none⟩,
    ⟨"flag_time_status", .cell "flag_time_status", none, none⟩,
    ⟨"nav_bul_status", .cell "nav_bul_status", none, none⟩,
    ⟨"nav_bul_source", .cell "nav_bul_source", none, none⟩,
    ⟨"source_seq_count", .cell "source_seq_count", none, none⟩,
    ⟨"oper_instr", .cell "oper_instr", none, none⟩,
    ⟨"SAR_mode", .cell "SAR_mode", none, none⟩,
    ⟨"cl_gain", .cell "cl_gain", none, none⟩,
    ⟨"acq_stat", .cell "acq_stat", none, none⟩,
    ⟨"dem_eeprom", .cell "dem_eeprom", none, none⟩,
    ⟨"loss_track", .cell "loss_track", none, none⟩,
    ⟨"h0_nav_dem", .cell "h0_nav_dem", none, none⟩,
    ⟨"h0_applied", .cell "h0_applied", none, none⟩,
    ⟨"cor2_nav_dem", .cell "cor2_nav_dem", none, none⟩,
    ⟨"cor2_applied", .cell "cor2_applied", none, none⟩,
    ⟨"dh0", .cell "dh0", none, none⟩,
    ⟨"agccode_ku", .cell "agccode_ku", none, none⟩,
    ⟨"range_ku", .cell "range_ku", none, none⟩,
    ⟨"int_path_cor_ku", .cell "int_path_cor_ku", none, none⟩,
    ⟨"agc_ku", .cell "agc_ku", none, none⟩,
    ⟨"sig0_cal_ku", .cell "sig0_cal_ku", none, none⟩,
    ⟨"uso_cor", .cell "uso_cor", none, none⟩,
    ⟨"surf_type", .cell "surf_type", none, none⟩,
    ⟨"roll_sral_mispointing", .cell "roll_sral_mispointing", none, none⟩,
    ⟨"pitch_sral_mispointing", .cell "pitch_sral_mispointing", none, none⟩,
    ⟨"yaw_sral_mispointing", .cell "yaw_sral_mispointing", none, none⟩,
    ⟨"cog_cor", .cell "cog_cor", none, none⟩,
    ⟨"cal1_power", .cell "cal1_power", some (.cell "cal1_power"), some "cal1_power"⟩,
    ⟨"cal1_phase", .cell "cal1_phase", some (.cell "cal1_phase"), some "cal1_phase"⟩,
    ⟨"cal2_array", .cell "cal2_array", some (.cell "cal2_array"), some "cal2_array"⟩,
    ⟨"leap_secs_since_2000", .derived ["time_sar_ku", "days", "seconds"], none, none⟩,
    ⟨"h", .undeclared, none, none⟩,
    ⟨"cai", .undeclared, none, none⟩,
    ⟨"fai", .undeclared, none, none⟩,
    ⟨"vel_sat_sar_norm", .norm, none, none⟩]

/-- The methods defined by `L1AProcessingData` (dedop/model/l1a_processing_data.py). -/
def burstMethods : List String := ["__init__", "__setitem__", "__getitem__", "__delitem__", "compute_location_sar_surf", "calculate_beam_angles_trend", "compute_doppler_angle"]

end Dedop.Objects
