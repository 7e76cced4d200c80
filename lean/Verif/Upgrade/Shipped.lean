import Verif.Upgrade.Model

/-!
# Shipped configuration templates

Transcribed from `/repo/dedop/ui/data/config/*.json` and `/repo/dedop/ui/data/cryosat_config/*.json`:
the metadata block and the `value` of every parameter (as JSON text; `description` and `units` are
dropped because no modelled code reads them).
-/
namespace Dedop.Upgrade.Shipped
open Dedop.Upgrade

/-- `/repo/dedop/ui/data/config/CHD.json` -/
def defaultCHD : Config String where
  metainf := some { version := some 1, changelog := some [{ version := 0, parameters := [] }, { version := 1, parameters := [("ratio_trc_ku_chd", "+"), ("fft_step_freq_ku_chd", "+"), ("ptr_width_chd", "+")] }] }
  params := [
    ("mean_sat_alt_chd", "814500.0"),
    ("N_samples_sar_chd", "128"),
    ("N_ku_pulses_burst_chd", "64"),
    ("freq_ku_chd", "13575000000.0"),
    ("pulse_length_chd", "4.48e-05"),
    ("bw_ku_chd", "320000000.0"),
    ("power_tx_ant_ku_chd", "8.451"),
    ("antenna_gain_ku_chd", "41.9"),
    ("uso_freq_nom_chd", "10000000.0"),
    ("alt_freq_multiplier_chd", "32"),
    ("prf_sar_chd", "17825.311"),
    ("brf_sar_chd", "78.53069"),
    ("ptr_width_chd", "19821"),
    ("fft_step_freq_ku_chd", "22321.43"),
    ("ratio_trc_ku_chd", "-98.66")]

/-- `/repo/dedop/ui/data/config/CNF.json` -/
def defaultCNF : Config String where
  metainf := some { version := some 3, changelog := some [{ version := 0, parameters := [] }, { version := 1, parameters := [("flag_azimuth_processing_method_cnf", "*")] }, { version := 2, parameters := [("flag_cal2_table_index_cnf", "+")] }, { version := 3, parameters := [("output_format_flag_cnf", "+"), ("flag_remove_doppler_ambiguities_cnf", "-"), ("ambiguity_mask_margin_cnf", "-"), ("elevation_reference_value_cnf", "-")] }] }
  params := [
    ("flag_cal2_correction_cnf", "true"),
    ("flag_uso_correction_cnf", "true"),
    ("flag_cal2_table_index_cnf", "2"),
    ("flag_cal1_corrections_cnf", "true"),
    ("flag_cal1_intraburst_corrections_cnf", "true"),
    ("flag_surface_focusing_cnf", "false"),
    ("surface_focusing_lat_cnf", "0.0"),
    ("surface_focusing_lon_cnf", "0.0"),
    ("surface_focusing_alt_cnf", "0.0"),
    ("flag_azimuth_processing_method_cnf", "\"approx\""),
    ("flag_postphase_azimuth_processing_cnf", "false"),
    ("flag_azimuth_windowing_method_cnf", "\"none\""),
    ("azimuth_window_width_cnf", "64"),
    ("flag_doppler_range_correction_cnf", "true"),
    ("flag_slant_range_correction_cnf", "true"),
    ("flag_window_delay_alignment_method_cnf", "0"),
    ("flag_stack_masking_cnf", "true"),
    ("flag_avoid_zeros_in_multilooking_cnf", "true"),
    ("flag_surface_weighting_cnf", "true"),
    ("flag_antenna_weighting_cnf", "false"),
    ("zp_fact_range_cnf", "2"),
    ("N_looks_stack_cnf", "240"),
    ("output_format_flag_cnf", "\"extended\"")]

/-- `/repo/dedop/ui/data/config/CST.json` -/
def defaultCST : Config String where
  metainf := some { version := some 0, changelog := some [{ version := 0, parameters := [] }] }
  params := [
    ("semi_major_axis_cst", "6378137.0"),
    ("semi_minor_axis_cst", "6356752.3142"),
    ("flat_coeff_cst", "0.00335281067183084"),
    ("earth_radius_cst", "6378137.0"),
    ("pi_cst", "3.141592653589793"),
    ("c_cst", "299792458.0"),
    ("sec_in_day_cst", "86400")]

/-- `/repo/dedop/ui/data/cryosat_config/CHD.json` -/
def cryosatCHD : Config String where
  metainf := some { version := some 0, changelog := some [{ version := 0, parameters := [] }] }
  params := [
    ("N_ku_pulses_burst_chd", "64"),
    ("N_samples_sar_chd", "128"),
    ("alt_freq_multiplier_chd", "32"),
    ("antenna_gain_ku_chd", "42.6"),
    ("brf_sar_chd", "85.51521850207267"),
    ("bw_ku_chd", "320000000"),
    ("freq_ku_chd", "13575000000"),
    ("mean_sat_alt_chd", "717000"),
    ("power_tx_ant_ku_chd", "13.0103"),
    ("prf_sar_chd", "18181.81818181818"),
    ("pulse_length_chd", "4.48e-05"),
    ("uso_freq_nom_chd", "10000000"),
    ("ptr_width_chd", "19821"),
    ("fft_step_freq_ku_chd", "22321.43"),
    ("ratio_trc_ku_chd", "-98.66")]

/-- `/repo/dedop/ui/data/cryosat_config/CNF.json` -/
def cryosatCNF : Config String where
  metainf := some { version := some 3, changelog := some [{ version := 0, parameters := [] }, { version := 1, parameters := [("flag_azimuth_processing_method_cnf", "*")] }, { version := 2, parameters := [("flag_cal2_table_index_cnf", "+")] }, { version := 3, parameters := [("output_format_flag_cnf", "+"), ("flag_remove_doppler_ambiguities_cnf", "-"), ("ambiguity_mask_margin_cnf", "-"), ("elevation_reference_value_cnf", "-")] }] }
  params := [
    ("flag_cal2_correction_cnf", "true"),
    ("flag_uso_correction_cnf", "true"),
    ("flag_cal2_table_index_cnf", "2"),
    ("flag_cal1_corrections_cnf", "true"),
    ("flag_cal1_intraburst_corrections_cnf", "true"),
    ("flag_surface_focusing_cnf", "false"),
    ("surface_focusing_lat_cnf", "0.0"),
    ("surface_focusing_lon_cnf", "0.0"),
    ("surface_focusing_alt_cnf", "0.0"),
    ("flag_azimuth_processing_method_cnf", "\"approx\""),
    ("flag_postphase_azimuth_processing_cnf", "false"),
    ("flag_azimuth_windowing_method_cnf", "\"none\""),
    ("azimuth_window_width_cnf", "64"),
    ("flag_doppler_range_correction_cnf", "true"),
    ("flag_slant_range_correction_cnf", "true"),
    ("flag_window_delay_alignment_method_cnf", "0"),
    ("flag_stack_masking_cnf", "true"),
    ("flag_avoid_zeros_in_multilooking_cnf", "true"),
    ("flag_surface_weighting_cnf", "true"),
    ("flag_antenna_weighting_cnf", "false"),
    ("zp_fact_range_cnf", "2"),
    ("N_looks_stack_cnf", "240"),
    ("output_format_flag_cnf", "\"extended\"")]

/-- `/repo/dedop/ui/data/cryosat_config/CST.json` -/
def cryosatCST : Config String where
  metainf := some { version := some 0, changelog := some [{ version := 0, parameters := [] }] }
  params := [
    ("semi_major_axis_cst", "6378137.0"),
    ("semi_minor_axis_cst", "6356752.3142"),
    ("flat_coeff_cst", "0.00335281067183084"),
    ("earth_radius_cst", "6378137.0"),
    ("pi_cst", "3.141592653589793"),
    ("c_cst", "299792458.0"),
    ("sec_in_day_cst", "86400")]

end Dedop.Upgrade.Shipped
