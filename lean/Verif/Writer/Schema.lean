import Verif.Writer.Model
/-!
# The variables of the three output files

Generated by tools/schema.py from the text of the writer classes.  The shapes of the written values are those of the
arrays the algorithms allocate: `n_looks_stack` beams (stack_gathering.py 74-105, multilooking.py 240-252), the number of
beams of the stack for the per-beam sigma0 (sigma_zero_scaling.py 18-21), zero-padded samples (multilooking.py 235-237) and
the range-compressed stack.
-/
namespace Dedop.Writer

/-- The variables defined by `L1BWriterExtended.__init__` (dedop/data/output/l1b_writer.py 94-839): name and
dimensions after the record dimension. -/
def extendedSchema : Schema := [
    ("time_l1b_echo_sar_ku", []),
    ("UTC_day_l1b_echo_sar_ku", []),
    ("UTC_sec_l1b_echo_sar_ku", []),
    ("GPS_time_l1b_echo_sar_ku", []),
    ("isp_coarse_time_l1b_echo_sar_ku", []),
    ("isp_fine_time_l1b_echo_sar_ku", []),
    ("sral_fine_time_l1b_echo_sar_ku", []),
    ("lat_l1b_echo_sar_ku", []),
    ("lon_l1b_echo_sar_ku", []),
    ("alt_l1b_echo_sar_ku", []),
    ("orb_alt_rate_l1b_echo_sar_ku", []),
    ("flag_time_status_l1b_echo_sar_ku", []),
    ("time_time_corr_val_l1b_echo_sar_ku", []),
    ("flag_man_pres_l1b_echo_sar_ku", []),
    ("flag_man_thrust_l1b_echo_sar_ku", []),
    ("flag_man_plane_l1b_echo_sar_ku", []),
    ("flag_gnss_status_l1b_echo_sar_ku", []),
    ("x_pos_l1b_echo_sar_ku", []),
    ("y_pos_l1b_echo_sar_ku", []),
    ("z_pos_l1b_echo_sar_ku", []),
    ("x_vel_l1b_echo_sar_ku", []),
    ("y_vel_l1b_echo_sar_ku", []),
    ("z_vel_l1b_echo_sar_ku", []),
    ("nav_bul_status_l1b_echo_sar_ku", []),
    ("nav_bul_source_l1b_echo_sar_ku", []),
    ("nav_bul_coarse_time_l1b_echo_sar_ku", []),
    ("nav_bul_fine_time_l1b_echo_sar_ku", []),
    ("seq_count_l1b_echo_sar_ku", []),
    ("isp_time_status_echo_sar_ku", []),
    ("oper_instr_l1b_echo_sar_ku", []),
    ("SAR_mode_l1b_echo_sar_ku", []),
    ("cl_gain_l1b_echo_sar_ku", []),
    ("acq_stat_l1b_echo_sar_ku", []),
    ("dem_eeprom_l1b_echo_sar_ku", []),
    ("weighting_l1b_echo_sar_ku", []),
    ("loss_track_l1b_echo_sar_ku", []),
    ("h0_nav_dem_l1b_echo_sar_ku", []),
    ("h0_applied_l1b_echo_sar_ku", []),
    ("cor2_nav_dem_l1b_echo_sar_ku", []),
    ("cor2_applied_l1b_echo_sar_ku", []),
    ("dh0_l1b_echo_sar_ku", []),
    ("agccode_ku_l1b_echo_sar_ku", []),
    ("surf_type_l1b_echo_sar_ku", []),
    ("range_ku_l1b_echo_sar_ku", []),
    ("uso_cor_l1b_echo_sar_ku", []),
    ("int_path_cor_ku_l1b_echo_sar_ku", []),
    ("range_rate_l1b_echo_sar_ku", []),
    ("agc_ku_l1b_echo_sar_ku", []),
    ("scale_factor_ku_l1b_echo_sar_ku", []),
    ("agc_cor_ku_l1b_echo_sar_ku", []),
    ("sig0_cal_ku_l1b_echo_sar_ku", []),
    ("nb_stack_l1b_echo_sar_ku", []),
    ("max_stack_l1b_echo_sar_ku", []),
    ("stdev_stack_l1b_echo_sar_ku", []),
    ("skew_stack_l1b_echo_sar_ku", []),
    ("kurt_stack_l1b_echo_sar_ku", []),
    ("beam_ang_l1b_echo_sar_ku", [.looks]),
    ("look_ang_l1b_echo_sar_ku", [.looks]),
    ("beam_form_l1b_echo_sar_ku", []),
    ("i2q2_meas_ku_l1b_echo_sar_ku", [.samples]),
    ("i2q2_scale_factor_l1b_echo_sar_ku", []),
    ("roll_sat_pointing_l1b_echo_sar_ku", []),
    ("pitch_sat_pointing_l1b_echo_sar_ku", []),
    ("yaw_sat_pointing_l1b_echo_sar_ku", []),
    ("start_look_angle_stack_l1b_echo_sar_ku", []),
    ("stop_look_angle_stack_l1b_echo_sar_ku", []),
    ("start_beam_ang_stack_l1b_echo_sar_ku", []),
    ("stop_beam_ang_stack_l1b_echo_sar_ku", []),
    ("stack_mask_vector_l1b_echo_sar_ku", [.looks]),
    ("stack_scale_factor_ku_l1b_echo_sar_ku", [.looks])]

/-- The values `L1BWriterExtended.write_record` passes on (dedop/data/output/l1b_writer.py 840-934): name and shape. -/
def extendedRecord : List (String × Shape) := [
    ("time_l1b_echo_sar_ku", .scalar),
    ("UTC_day_l1b_echo_sar_ku", .scalar),
    ("UTC_sec_l1b_echo_sar_ku", .scalar),
    ("GPS_time_l1b_echo_sar_ku", .scalar),
    ("isp_coarse_time_l1b_echo_sar_ku", .scalar),
    ("isp_fine_time_l1b_echo_sar_ku", .scalar),
    ("sral_fine_time_l1b_echo_sar_ku", .scalar),
    ("lat_l1b_echo_sar_ku", .scalar),
    ("lon_l1b_echo_sar_ku", .scalar),
    ("alt_l1b_echo_sar_ku", .scalar),
    ("orb_alt_rate_l1b_echo_sar_ku", .scalar),
    ("flag_time_status_l1b_echo_sar_ku", .scalar),
    ("flag_man_pres_l1b_echo_sar_ku", .missing),
    ("flag_man_thrust_l1b_echo_sar_ku", .missing),
    ("flag_man_plane_l1b_echo_sar_ku", .missing),
    ("flag_gnss_status_l1b_echo_sar_ku", .missing),
    ("x_pos_l1b_echo_sar_ku", .scalar),
    ("y_pos_l1b_echo_sar_ku", .scalar),
    ("z_pos_l1b_echo_sar_ku", .scalar),
    ("x_vel_l1b_echo_sar_ku", .scalar),
    ("y_vel_l1b_echo_sar_ku", .scalar),
    ("z_vel_l1b_echo_sar_ku", .scalar),
    ("roll_sat_pointing_l1b_echo_sar_ku", .scalar),
    ("pitch_sat_pointing_l1b_echo_sar_ku", .scalar),
    ("yaw_sat_pointing_l1b_echo_sar_ku", .scalar),
    ("nav_bul_status_l1b_echo_sar_ku", .scalar),
    ("nav_bul_source_l1b_echo_sar_ku", .scalar),
    ("nav_bul_coarse_time_l1b_echo_sar_ku", .missing),
    ("nav_bul_fine_time_l1b_echo_sar_ku", .missing),
    ("seq_count_l1b_echo_sar_ku", .scalar),
    ("oper_instr_l1b_echo_sar_ku", .scalar),
    ("SAR_mode_l1b_echo_sar_ku", .scalar),
    ("cl_gain_l1b_echo_sar_ku", .scalar),
    ("acq_stat_l1b_echo_sar_ku", .scalar),
    ("dem_eeprom_l1b_echo_sar_ku", .scalar),
    ("weighting_l1b_echo_sar_ku", .missing),
    ("loss_track_l1b_echo_sar_ku", .scalar),
    ("h0_nav_dem_l1b_echo_sar_ku", .scalar),
    ("h0_applied_l1b_echo_sar_ku", .scalar),
    ("cor2_nav_dem_l1b_echo_sar_ku", .scalar),
    ("cor2_applied_l1b_echo_sar_ku", .scalar),
    ("dh0_l1b_echo_sar_ku", .scalar),
    ("agccode_ku_l1b_echo_sar_ku", .scalar),
    ("surf_type_l1b_echo_sar_ku", .scalar),
    ("range_ku_l1b_echo_sar_ku", .scalar),
    ("uso_cor_l1b_echo_sar_ku", .scalar),
    ("int_path_cor_ku_l1b_echo_sar_ku", .scalar),
    ("range_rate_l1b_echo_sar_ku", .missing),
    ("agc_ku_l1b_echo_sar_ku", .scalar),
    ("scale_factor_ku_l1b_echo_sar_ku", .scalar),
    ("agc_cor_ku_l1b_echo_sar_ku", .scalar),
    ("sig0_cal_ku_l1b_echo_sar_ku", .scalar),
    ("nb_stack_l1b_echo_sar_ku", .scalar),
    ("max_stack_l1b_echo_sar_ku", .scalar),
    ("stdev_stack_l1b_echo_sar_ku", .scalar),
    ("skew_stack_l1b_echo_sar_ku", .scalar),
    ("kurt_stack_l1b_echo_sar_ku", .scalar),
    ("beam_ang_l1b_echo_sar_ku", .vector .looks),
    ("look_ang_l1b_echo_sar_ku", .vector .looks),
    ("beam_form_l1b_echo_sar_ku", .missing),
    ("i2q2_meas_ku_l1b_echo_sar_ku", .vector .samples),
    ("i2q2_scale_factor_l1b_echo_sar_ku", .scalar),
    ("start_look_angle_stack_l1b_echo_sar_ku", .scalar),
    ("stop_look_angle_stack_l1b_echo_sar_ku", .scalar),
    ("start_beam_ang_stack_l1b_echo_sar_ku", .scalar),
    ("stop_beam_ang_stack_l1b_echo_sar_ku", .scalar),
    ("stack_mask_vector_l1b_echo_sar_ku", .vector .looks),
    ("stack_scale_factor_ku_l1b_echo_sar_ku", .vector .looks)]

/-- The variables defined by `L1BWriter.__init__` (dedop/data/output/l1b_writer.py 940-1561): name and
dimensions after the record dimension. -/
def s3Schema : Schema := [
    ("time_l1b_echo_sar_ku", []),
    ("UTC_day_l1b_echo_sar_ku", []),
    ("UTC_sec_l1b_echo_sar_ku", []),
    ("GPS_time_l1b_echo_sar_ku", []),
    ("isp_coarse_time_l1b_echo_sar_ku", []),
    ("isp_fine_time_l1b_echo_sar_ku", []),
    ("sral_fine_time_l1b_echo_sar_ku", []),
    ("lat_l1b_echo_sar_ku", []),
    ("lon_l1b_echo_sar_ku", []),
    ("alt_l1b_echo_sar_ku", []),
    ("orb_alt_rate_l1b_echo_sar_ku", []),
    ("flag_time_status_l1b_echo_sar_ku", []),
    ("time_time_corr_val_l1b_echo_sar_ku", []),
    ("flag_man_pres_l1b_echo_sar_ku", []),
    ("flag_man_thrust_l1b_echo_sar_ku", []),
    ("flag_man_plane_l1b_echo_sar_ku", []),
    ("flag_gnss_status_l1b_echo_sar_ku", []),
    ("x_pos_l1b_echo_sar_ku", []),
    ("y_pos_l1b_echo_sar_ku", []),
    ("z_pos_l1b_echo_sar_ku", []),
    ("x_vel_l1b_echo_sar_ku", []),
    ("y_vel_l1b_echo_sar_ku", []),
    ("z_vel_l1b_echo_sar_ku", []),
    ("nav_bul_status_l1b_echo_sar_ku", []),
    ("nav_bul_source_l1b_echo_sar_ku", []),
    ("nav_bul_coarse_time_l1b_echo_sar_ku", []),
    ("nav_bul_fine_time_l1b_echo_sar_ku", []),
    ("seq_count_l1b_echo_sar_ku", []),
    ("isp_time_status_echo_sar_ku", []),
    ("oper_instr_l1b_echo_sar_ku", []),
    ("SAR_mode_l1b_echo_sar_ku", []),
    ("cl_gain_l1b_echo_sar_ku", []),
    ("acq_stat_l1b_echo_sar_ku", []),
    ("dem_eeprom_l1b_echo_sar_ku", []),
    ("weighting_l1b_echo_sar_ku", []),
    ("loss_track_l1b_echo_sar_ku", []),
    ("h0_nav_dem_l1b_echo_sar_ku", []),
    ("h0_applied_l1b_echo_sar_ku", []),
    ("cor2_nav_dem_l1b_echo_sar_ku", []),
    ("cor2_applied_l1b_echo_sar_ku", []),
    ("dh0_l1b_echo_sar_ku", []),
    ("agccode_ku_l1b_echo_sar_ku", []),
    ("surf_type_l1b_echo_sar_ku", []),
    ("range_ku_l1b_echo_sar_ku", []),
    ("uso_cor_l1b_echo_sar_ku", []),
    ("int_path_cor_ku_l1b_echo_sar_ku", []),
    ("range_rate_l1b_echo_sar_ku", []),
    ("agc_ku_l1b_echo_sar_ku", []),
    ("scale_factor_ku_l1b_echo_sar_ku", []),
    ("agc_cor_ku_l1b_echo_sar_ku", []),
    ("sig0_cal_ku_l1b_echo_sar_ku", []),
    ("nb_stack_l1b_echo_sar_ku", []),
    ("max_stack_l1b_echo_sar_ku", []),
    ("stdev_stack_l1b_echo_sar_ku", []),
    ("skew_stack_l1b_echo_sar_ku", []),
    ("kurt_stack_l1b_echo_sar_ku", []),
    ("beam_ang_l1b_echo_sar_ku", [.looks]),
    ("beam_form_l1b_echo_sar_ku", []),
    ("i2q2_meas_ku_l1b_echo_sar_ku", [.samples])]

/-- The values `L1BWriter.write_record` passes on (dedop/data/output/l1b_writer.py 1562-1640): name and shape. -/
def s3Record : List (String × Shape) := [
    ("time_l1b_echo_sar_ku", .scalar),
    ("UTC_day_l1b_echo_sar_ku", .scalar),
    ("UTC_sec_l1b_echo_sar_ku", .scalar),
    ("GPS_time_l1b_echo_sar_ku", .scalar),
    ("isp_coarse_time_l1b_echo_sar_ku", .scalar),
    ("isp_fine_time_l1b_echo_sar_ku", .scalar),
    ("sral_fine_time_l1b_echo_sar_ku", .scalar),
    ("lat_l1b_echo_sar_ku", .scalar),
    ("lon_l1b_echo_sar_ku", .scalar),
    ("alt_l1b_echo_sar_ku", .scalar),
    ("orb_alt_rate_l1b_echo_sar_ku", .scalar),
    ("flag_time_status_l1b_echo_sar_ku", .scalar),
    ("flag_man_pres_l1b_echo_sar_ku", .missing),
    ("flag_man_thrust_l1b_echo_sar_ku", .missing),
    ("flag_man_plane_l1b_echo_sar_ku", .missing),
    ("flag_gnss_status_l1b_echo_sar_ku", .missing),
    ("x_pos_l1b_echo_sar_ku", .scalar),
    ("y_pos_l1b_echo_sar_ku", .scalar),
    ("z_pos_l1b_echo_sar_ku", .scalar),
    ("x_vel_l1b_echo_sar_ku", .scalar),
    ("y_vel_l1b_echo_sar_ku", .scalar),
    ("z_vel_l1b_echo_sar_ku", .scalar),
    ("nav_bul_status_l1b_echo_sar_ku", .scalar),
    ("nav_bul_source_l1b_echo_sar_ku", .scalar),
    ("nav_bul_coarse_time_l1b_echo_sar_ku", .missing),
    ("nav_bul_fine_time_l1b_echo_sar_ku", .missing),
    ("seq_count_l1b_echo_sar_ku", .scalar),
    ("oper_instr_l1b_echo_sar_ku", .scalar),
    ("SAR_mode_l1b_echo_sar_ku", .scalar),
    ("cl_gain_l1b_echo_sar_ku", .scalar),
    ("acq_stat_l1b_echo_sar_ku", .scalar),
    ("dem_eeprom_l1b_echo_sar_ku", .scalar),
    ("weighting_l1b_echo_sar_ku", .missing),
    ("loss_track_l1b_echo_sar_ku", .scalar),
    ("h0_nav_dem_l1b_echo_sar_ku", .scalar),
    ("h0_applied_l1b_echo_sar_ku", .scalar),
    ("cor2_nav_dem_l1b_echo_sar_ku", .scalar),
    ("cor2_applied_l1b_echo_sar_ku", .scalar),
    ("dh0_l1b_echo_sar_ku", .scalar),
    ("agccode_ku_l1b_echo_sar_ku", .scalar),
    ("surf_type_l1b_echo_sar_ku", .scalar),
    ("range_ku_l1b_echo_sar_ku", .scalar),
    ("uso_cor_l1b_echo_sar_ku", .scalar),
    ("int_path_cor_ku_l1b_echo_sar_ku", .scalar),
    ("range_rate_l1b_echo_sar_ku", .missing),
    ("agc_ku_l1b_echo_sar_ku", .scalar),
    ("scale_factor_ku_l1b_echo_sar_ku", .scalar),
    ("agc_cor_ku_l1b_echo_sar_ku", .scalar),
    ("sig0_cal_ku_l1b_echo_sar_ku", .scalar),
    ("nb_stack_l1b_echo_sar_ku", .scalar),
    ("max_stack_l1b_echo_sar_ku", .scalar),
    ("stdev_stack_l1b_echo_sar_ku", .scalar),
    ("skew_stack_l1b_echo_sar_ku", .scalar),
    ("kurt_stack_l1b_echo_sar_ku", .scalar),
    ("beam_ang_l1b_echo_sar_ku", .vector .looks),
    ("beam_form_l1b_echo_sar_ku", .missing),
    ("i2q2_meas_ku_l1b_echo_sar_ku", .vector .samples)]

/-- The variables defined by `L1BSWriter.__init__` (dedop/data/output/l1bs_writer.py 76-626): name and
dimensions after the record dimension. -/
def l1bsSchema : Schema := [
    ("time_l1bs_echo_sar_ku", []),
    ("UTC_day_l1bs_echo_sar_ku", []),
    ("UTC_sec_l1bs_echo_sar_ku", []),
    ("lat_l1bs_echo_sar_ku", []),
    ("lon_l1bs_echo_sar_ku", []),
    ("surf_type_l1bs_echo_sar_ku", []),
    ("records_count_l1bs_echo_sar_ku", []),
    ("alt_l1bs_echo_sar_ku", []),
    ("orb_alt_rate_l1bs_echo_sar_ku", []),
    ("x_pos_l1bs_echo_sar_ku", []),
    ("y_pos_l1bs_echo_sar_ku", []),
    ("z_pos_l1bs_echo_sar_ku", []),
    ("x_vel_l1bs_echo_sar_ku", []),
    ("y_vel_l1bs_echo_sar_ku", []),
    ("z_vel_l1bs_echo_sar_ku", []),
    ("meas_x_pos_l1bs_echo_sar_ku", []),
    ("meas_y_pos_l1bs_echo_sar_ku", []),
    ("meas_z_pos_l1bs_echo_sar_ku", []),
    ("roll_sat_pointing_l1bs_echo_sar_ku", []),
    ("pitch_sat_pointing_l1bs_echo_sar_ku", []),
    ("yaw_sat_pointing_l1bs_echo_sar_ku", []),
    ("roll_sral_mispointing_l1bs_echo_sar_ku", []),
    ("pitch_sral_mispointing_l1bs_echo_sar_ku", []),
    ("yaw_sral_mispointing_l1bs_echo_sar_ku", []),
    ("range_ku_l1bs_echo_sar_ku", []),
    ("int_path_cor_ku_l1bs_echo_sar_ku", []),
    ("uso_cor_l1bs_echo_sar_ku", []),
    ("cog_cor_l1bs_echo_sar_ku", []),
    ("agccode_ku_l1bs_echo_sar_ku", []),
    ("agc_ku_l1bs_echo_sar_ku", []),
    ("scale_factor_ku_l1bs_echo_sar_ku", []),
    ("sig0_cal_ku_l1bs_echo_sar_ku", []),
    ("snr_ku_l1bs_echo_sar_ku", []),
    ("i2q2_meas_ku_l1bs_echo_sar_ku", [.samples]),
    ("nb_stack_l1bs_echo_sar_ku", []),
    ("max_stack_l1bs_echo_sar_ku", []),
    ("max_loc_stack_l1bs_echo_sar_ku", []),
    ("stdev_stack_l1bs_echo_sar_ku", []),
    ("skew_stack_l1bs_echo_sar_ku", []),
    ("kurt_stack_l1bs_echo_sar_ku", []),
    ("beam_ang_l1bs_echo_sar_ku", [.looks]),
    ("beam_form_l1bs_echo_sar_ku", []),
    ("burst_start_ind_l1bs_echo_sar_ku", []),
    ("burst_stop_ind_l1bs_echo_sar_ku", []),
    ("iq_scale_factor_l1bs_echo_sar_ku", []),
    ("i_echoes_ku_l1bs_echo_sar_ku", [.looks, .samples]),
    ("q_echoes_ku_l1bs_echo_sar_ku", [.looks, .samples]),
    ("start_look_angle_stack_l1bs_echo_sar_ku", []),
    ("stop_look_angle_stack_l1bs_echo_sar_ku", []),
    ("power_var_stack_l1bs_echo_sar_ku", [.looks]),
    ("start_beam_ang_stack_l1bs_echo_sar_ku", []),
    ("stop_beam_ang_stack_l1bs_echo_sar_ku", [])]

/-- The values `L1BSWriter.write_record` passes on (dedop/data/output/l1bs_writer.py 627-703): name and shape. -/
def l1bsRecord : List (String × Shape) := [
    ("time_l1bs_echo_sar_ku", .scalar),
    ("UTC_day_l1bs_echo_sar_ku", .scalar),
    ("UTC_sec_l1bs_echo_sar_ku", .scalar),
    ("lat_l1bs_echo_sar_ku", .scalar),
    ("lon_l1bs_echo_sar_ku", .scalar),
    ("surf_type_l1bs_echo_sar_ku", .scalar),
    ("records_count_l1bs_echo_sar_ku", .scalar),
    ("alt_l1bs_echo_sar_ku", .scalar),
    ("orb_alt_rate_l1bs_echo_sar_ku", .scalar),
    ("x_pos_l1bs_echo_sar_ku", .scalar),
    ("y_pos_l1bs_echo_sar_ku", .scalar),
    ("z_pos_l1bs_echo_sar_ku", .scalar),
    ("x_vel_l1bs_echo_sar_ku", .scalar),
    ("y_vel_l1bs_echo_sar_ku", .scalar),
    ("z_vel_l1bs_echo_sar_ku", .scalar),
    ("meas_x_pos_l1bs_echo_sar_ku", .scalar),
    ("meas_y_pos_l1bs_echo_sar_ku", .scalar),
    ("meas_z_pos_l1bs_echo_sar_ku", .scalar),
    ("roll_sat_pointing_l1bs_echo_sar_ku", .scalar),
    ("pitch_sat_pointing_l1bs_echo_sar_ku", .scalar),
    ("yaw_sat_pointing_l1bs_echo_sar_ku", .scalar),
    ("roll_sral_mispointing_l1bs_echo_sar_ku", .scalar),
    ("pitch_sral_mispointing_l1bs_echo_sar_ku", .scalar),
    ("yaw_sral_mispointing_l1bs_echo_sar_ku", .scalar),
    ("range_ku_l1bs_echo_sar_ku", .scalar),
    ("int_path_cor_ku_l1bs_echo_sar_ku", .scalar),
    ("uso_cor_l1bs_echo_sar_ku", .scalar),
    ("cog_cor_l1bs_echo_sar_ku", .scalar),
    ("agccode_ku_l1bs_echo_sar_ku", .scalar),
    ("agc_ku_l1bs_echo_sar_ku", .scalar),
    ("scale_factor_ku_l1bs_echo_sar_ku", .scalar),
    ("sig0_cal_ku_l1bs_echo_sar_ku", .scalar),
    ("snr_ku_l1bs_echo_sar_ku", .missing),
    ("i2q2_meas_ku_l1bs_echo_sar_ku", .vector .samples),
    ("nb_stack_l1bs_echo_sar_ku", .scalar),
    ("max_stack_l1bs_echo_sar_ku", .scalar),
    ("max_loc_stack_l1bs_echo_sar_ku", .missing),
    ("stdev_stack_l1bs_echo_sar_ku", .scalar),
    ("skew_stack_l1bs_echo_sar_ku", .scalar),
    ("kurt_stack_l1bs_echo_sar_ku", .scalar),
    ("beam_ang_l1bs_echo_sar_ku", .vector .looks),
    ("beam_form_l1bs_echo_sar_ku", .missing),
    ("burst_start_ind_l1bs_echo_sar_ku", .scalar),
    ("burst_stop_ind_l1bs_echo_sar_ku", .scalar),
    ("iq_scale_factor_l1bs_echo_sar_ku", .scalar),
    ("i_echoes_ku_l1bs_echo_sar_ku", .matrix .looks .samples),
    ("q_echoes_ku_l1bs_echo_sar_ku", .matrix .looks .samples),
    ("start_look_angle_stack_l1bs_echo_sar_ku", .scalar),
    ("stop_look_angle_stack_l1bs_echo_sar_ku", .scalar),
    ("start_beam_ang_stack_l1bs_echo_sar_ku", .scalar),
    ("stop_beam_ang_stack_l1bs_echo_sar_ku", .scalar)]

end Dedop.Writer
