#!/usr/bin/env python3
"""Writes MANIFEST.json from the table below."""
import json, os
C = []
def c(prop, status, theorems, note=""):
    C.append(dict(property=prop, status=status, theorems=theorems, note=note))

U = "Dedop.Upgrade."
c("C01", "proved", [U + "upgrade_gives_changelog_value"])
c("C02", "proved", [U + t for t in ("upgrade_fails_iff_default_broken", "upgrade_noop_if_current",
   "upgrade_reaches_max_version", "upgrade_idempotent", "upgradeConfig_reports_written_version",
   "shipped_default_wellFormed", "upgrade_to_shipped_never_fails")])
c("C03", "proved", [U + "upgrade_path_independent"])

M = "Dedop.Monitor."
c("C19", "proved", [M + t for t in ("child_work_is_scaled", "child_work_is_conserved", "console_receives_announced_work",
   "one_child_receives_its_share", "child_progress_errors", "child_done_signalled_on_any_outcome")],
   "Work amounts are rationals instead of floats.")
c("C20", "proved", [M + "cancel_seen_everywhere_forever", M + "not_cancelled_without_request"])
c("C21", "proved", [M + t for t in ("percentage_is_nearest", "line_printed_iff_changed", "percentages_monotone_bounded",
   "bar_has_constant_width", "bar_monotone", "bar_overflows_beyond_total")], "Rational work amounts.")
c("C22", "proved", [M + "Signal." + t for t in ("handler_restored_and_done_balanced", "done_exactly_once",
   "rejected_label_changes_nothing", "ctrlC_cancels_innermost", "handler_not_restored_when_reentered_violated")],
   "Holds for properly nested use; reusing one console inside itself leaves its handler installed (negation proved).")

N = "Dedop.Names."
c("C04", "proved", [N + t for t in ("unique_name_found", "unique_config_name_found", "suffixed_names_distinct")])
c("C05", "proved", [N + t for t in ("launch_never_overwrites", "launches_create_distinct_files")])
c("C06", "partial", [N + t for t in ("listing_exact_and_sorted", "listing_once_each_partial", "listing_multiplicity",
   "listing_duplicates_violated")], "Files matched by several patterns of a list are listed several times: the once-each part is false (negation proved), proved for at most one matching pattern.")
c("C07", "proved", [N + t for t in ("limited_title", "limited_title_rejects")])
c("C08", "partial", [N + t for t in ("l1b_and_l1bs_never_collide", "same_output_iff", "distinct_stems_distinct_outputs_partial",
   "distinct_inputs_collide_violated")], "False when one stem is the other with a leading L1A (negation proved); exact criterion proved.")

W = "Dedop.Workspace."
c("C09", "partial", [W + t for t in ("current_round_trip_partial", "current_config_round_trip_partial", "current_stays",
   "current_round_trip_violated")], "Names with a line break come back truncated (negation proved); proved for all other names.")
c("C10", "partial", [W + t for t in ("cli_current_workspace_exists_partial", "cli_current_workspace_exists_violated", "empty_is_tidied")],
   "Proved for all command sequences with plain names; false for the workspace name '.current' (negation proved).")
c("C61", "partial", [W + "cli_current_config_exists_partial", W + "cli_current_config_exists_violated"],
   "All command sequences with plain names (not empty, no separators or line breaks, not '.current'). With a line break in a name it is false: only the first line is read back (negation proved).")
c("C59", "partial", [W + "web_current_exists_partial", W + "web_current_exists_violated"],
   "Renaming or deleting the current one through the Web API leaves a dangling name (negation proved); proved for the remaining calls.")
c("C11", "partial", [W + t for t in ("other_workspaces_untouched", "other_configs_untouched", "create_exact", "delete_exact",
   "copy_exact", "rename_exact_partial", "rename_onto_existing_violated", "config_operations_exact")],
   "Frame and exact effect proved; renaming onto an existing workspace moves it inside (negation proved), so rename is exact for free names only.")
c("C12", "proved", [W + t for t in ("failing_operation_changes_nothing", "missing_or_taken_names_fail",
   "create_config_missing_or_taken_changes_nothing")])
c("C13", "partial", [W + "delete_confined_partial", W + "delete_empty_name_violated"],
   "Deleting the empty name deletes every workspace (negation proved); all other names confined.")
c("C14", "partial", [W + t for t in ("rewrite_replaces_content", "rewrite_missing_file", "rewrite_crash_content_partial",
   "rewrite_not_atomic_violated")], "On return the content is exact; the content at each crash point is characterised; atomicity is false (negation proved).")
c("C15", "proved", [W + t for t in ("save_interrupted", "upgrade_interrupted", "upgrade_rerun_completes")],
   "Crash points between files; inside one file see C14.")
c("C16", "proved", [W + t for t in ("add_inputs_exact", "add_inputs_succeeds", "remove_inputs_exact")])
c("C17", "partial", [W + "outputs_removed_partial", W + "outputs_remain_violated"],
   "Broken symbolic links are skipped and remain (negation proved).")
c("C18", "partial", [W + "create_config_complete", U + "fresh_default_config_up_to_date",
   U + "fresh_cryosat_config_up_to_date_violated", U + "fresh_cryosat_upgrade_keeps_values"],
   "Complete for all templates; up to date for the default templates, false for the CryoSat-2 template (CHD version 0).")

c("C23", "proved", ["Dedop.Conf." + t for t in ("parameter_value", "other_version_rejected", "right_version_accepted",
   "unknown_parameters_warned")])
R = "Dedop.Reader."
c("C24", "partial", [R + t for t in ("read_is_transparent", "read_beyond_end_partial", "read_beyond_end_violated")],
   "All reads inside the file are exact; a read beyond the end can return a stale buffered record (negation proved).")
c("C25", "partial", [R + t for t in ("next_agrees_with_iteration", "no_region_delivers_all", "region_delivers_inside_partial",
   "last_record_in_region_lost_violated", "in_range_agrees")],
   "With a region the last record inside it is not delivered (negation proved); what is delivered is characterised exactly.")

B = "Dedop.Beams."
c("C26", "proved", [B + "seen_is_run", B + "seen_at_most_pulses"], "Visibility test on exact numbers.")
c("C27", "proved", [B + "trend_spec"])
c("C28", "proved", [B + t for t in ("burst_recorded_once", "absIndex_range", "stack_lengths_agree")])
S = "Dedop.Stack."
c("C29", "partial", [S + t for t in ("gather_contiguous", "gather_selects_smallest_partial", "closest_look_left_out_violated", "gather_zero_looks_fails")],
   "Contiguity, size, order for all stacks; that the smallest look is inside needs |look| to fall then rise (negation proved otherwise).")
c("C30", "partial", [S + "gather_selects_smallest_partial", S + "closest_look_left_out_violated"],
   "Proved where |look| falls and then rises along the stack; false in general (negation proved).")
c("C31", "proved", [S + "gather_contiguous", S + "closest_stale_when_empty"],
   "For non-empty stacks; an empty stack keeps the previous index.")
c("C32", "partial", [S + t for t in ("vector_counts_valid_partial", "vector_full_row", "vector_ambiguous_violated",
   "vector_determines_other_rows", "vector_zero_iff")], "The full row has the same entry as the row lacking one sample (negation proved).")
c("C33", "proved", [S + t for t in ("masked_iff_rejected", "outside_bounds_zero", "masking_disabled")])
L = "Dedop.Multilook."
c("C34", "partial", [L + "multilooked_is_mean", L + "no_contributing_beam_violated"],
   "Mean and bounds proved where some beam contributes; otherwise the sample is 0/0 = NaN (negation proved). Exact numbers.")
c("C35", "proved", [L + "start_stop_spec", L + "burst_indices_of_whole_stack"],
   "The start/stop burst indices are those of the whole stack, masked or not.")
c("C36", "partial", [L + t for t in ("weight_at_table_angle_violated", "weight_between_violated", "weight_outside_partial", "constant_weights_partial")],
   "The interpolation is wrong inside the table (negations proved); right outside it and for constant tables.")
c("C65", "proved", [L + "fit_window_spec"])
A = "Dedop.Azimuth."
c("C37", "partial", [A + t for t in ("window_support", "window_values", "window_symmetric", "hamming_hanning_swapped_violated",
   "wide_boxcar_violated", "wide_hamming_fails", "width_one_nan")],
   "Support, values and symmetry proved for widths up to the burst; names swapped, wide windows wrong or failing (negations proved).")
c("C38", "proved", [A + "approximate_row", A + "approximate_empty_list_fails"], "For non-empty lists; the empty list raises.")
c("C39", "partial", [A + t for t in ("nadir_has_smallest_look_index", "nadir_closest_partial", "nadir_not_closest_violated", "nadir_odd_violated")],
   "Proved for even numbers of pulses and regular tracks; false otherwise (negations proved).")
c("C62", "proved", [A + "exact_row", A + "approximate_energy"], "Over the complex numbers.")
c("C63", "proved", [A + "methods_agree_at_nadir"], "Over the complex numbers.")
G = "Dedop.Signal."
c("C60", "proved", [G + t for t in ("compression_preserves_energy", "compression_shift", "padding_interpolates")], "Over the complex numbers.")
c("C64", "proved", [G + t for t in ("corrections_preserve_modulus", "integer_shift_moves", "accepted_samples_not_wrapped",
   "aligned_burst_not_shifted", "shift_independent_of_reference",
   "slant_range_is_distance", "doppler_shift_spec")], "Over the complex numbers; whole-sample shifts.")
P = "Dedop.Process."
c("C40", "proved", [P + t for t in ("process_terminates", "process_fuel", "iterations_bounded")],
   "At most 3 * records + surfaces + 2 iterations, for every state of the processor's queues.")
c("C41", "proved", [P + t for t in ("written_in_order", "both_files", "both_files_failed")],
   "For processors whose earlier calls left no surface; what stale surfaces do is C49.")
c("C42", "proved", [P + t for t in ("enough_looks", "all_written_or_dropped")])
c("C43", "proved", [P + t for t in ("working_surface_exists", "only_exceptions")])
c("C44", "partial", [P + t for t in ("calibrated_once_partial", "used_after_calibration", "calibrated_once_violated")],
   "The record after a gap is calibrated twice (negation proved); all others once, and before use.")
c("C45", "proved", [P + "beams_once"])
c("C46", "partial", [P + t for t in ("surfaces_before_gap", "stack_after_creation", "surfaces_after_gap_partial", "surfaces_after_gap_violated")],
   "First half proved; second half false when unused bursts stay in the queue (negation proved), proved otherwise.")
c("C47", "proved", [P + t for t in ("cancellation_prompt", "cancellation_closes", "cancelled_finishes")])
c("C48", "partial", [P + t for t in ("completes_partial", "completes_violated")],
   "A gap followed by fewer than 80 surfaces makes the run fail with the outputs open (negation proved).")
c("C49", "partial", [P + t for t in ("history_partial", "history_violated", "history_cancelled_violated")],
   "Left-over surfaces and unprocessed bursts enter the next file (negations proved); processed bursts have no effect.")
c("C50", "proved", [P + "progress_counts"])
E = "Dedop.Geo."
c("C51", "partial", [E + t for t in ("altitude_zero_on_ellipsoid", "altitude_along_normal", "degrees", "longitude_round_trip",
   "ellipsoid_round_trip", "sphere_round_trip", "equator_round_trip", "north_pole_round_trip", "south_pole_array",
   "south_pole_violated", "near_pole_altitude", "versions_agree_partial", "bowring_not_exact")],
   "Over the reals. The scalar version returns a wrong altitude at the south pole, where it differs from the array version (negation proved).")
c("C52", "partial", [E + t for t in ("normalize_partial", "normalize_mono", "normalize_diverges_violated")],
   "Proved with exact arithmetic; with 53-bit rounding the loop never ends on -2^57 (negation proved).")
c("C53", "partial", [E + t for t in ("angle_between_partial", "angle_between_rounded_partial", "angle_between_violated", "angle_between_zero")],
   "Proved for exact arithmetic and for cosines rounded above 1; a cosine rounded below -1 gives NaN (negation proved).")
N = "Dedop.Writer."
c("C54", "partial", [N + t for t in ("records_land_partial", "values_land", "failed_call", "records_land_violated")],
   "Proved for histories without exception, and for the given values in all histories; after an exception rejected values show in place of fill values (negation proved).")
c("C55", "partial", [N + t for t in ("utc_instant_partial", "utc_at_record", "utc_at_previous_record", "utc_midnight_violated",
   "first_surface_violated", "surface_after_gap_partial", "surface_after_gap_violated")],
   "The first surface of a file, midnight, and gaps longer than a day are dated wrongly (negations proved).")
c("C56", "partial", [N + t for t in ("waveform_scaling_partial", "waveform_packed_partial", "zero_waveform_violated",
   "iq_scaling_partial", "zero_iq_violated", "s3_waveform_violated")],
   "Fails for waveforms and stacks of zeros and for strong echoes in the Sentinel-3 file (negations proved).")
c("C66", "partial", [N + t for t in ("angle_stored_partial", "look_angle_violated", "look_table_violated", "beam_angle_padding_violated")],
   "The look-angle table has the offset of the beam angles, and padding is not representable (negations proved).")
c("C67", "partial", [N + t for t in ("pointing_degrees_partial", "pointing_degrees_violated")],
   "True of the extended L1B file, false of the L1B-S file (negation proved).")
c("C68", "proved", [N + t for t in ("writers_accept", "never_written")], "The lists of names are extracted from the source text by tools/schema.py.")
c("C69", "partial", [N + t for t in ("cut_tables", "tables_aligned_partial", "tables_aligned_violated", "useful_entries_violated")],
   "False when the first beam of a stack is masked (negation proved).")

R = "Dedop.Run."
c("C57", "partial", [R + t for t in ("selection_partial", "selection_inputs", "run_executes_plan", "run_stops_at_failure", "run_refused",
   "outdated_config_violated", "current_config_violated")],
   "The inputs processed and the outcome are proved for all states; outdated configurations are not refused, and without a current workspace the current configuration of the default workspace is ignored (negations proved).")
U = "Dedop.Surface."
c("C58", "partial", [U + t for t in ("new_surface_iff", "first_surface", "new_surface_interpolated", "on_segment_iff", "on_segment_partial",
   "after_first_surface_partial", "surfaces_advance_partial", "off_segment_violated", "focus_moves_one", "focus_closest_approach")],
   "Over the reals. On the segment whenever the bursts are closer together than the surfaces; otherwise the location is extrapolated (negation proved).")
c("C70", "partial", [U + t for t in ("longitude_ranges", "longitude_convention_violated")],
   "The ranges are proved; they differ between the first surface and the others (negation proved).")
c("C71", "partial", [U + t for t in ("focus_never_again", "focus_per_product_violated")],
   "False: focusing happens once in the life of a processor (proved for all histories; witness for the negation).")
c("C72", "partial", [U + t for t in ("focus_between_partial", "focus_between_violated")],
   "True from the third surface on, on a straight track; false when the target is behind the start (negation proved).")
c("C73", "proved", [U + "window_delay_consistent"], "Over the reals, for c different from 0.")

F = "Dedop.Figures."
c("C74", "partial", [F + t for t in ("pdf_kept", "dir_kept", "dir_all_kept_partial", "plot_files_differ",
   "plots_all_kept_partial", "close_idempotent", "pdf_replaced",
   "figure_overwritten_violated", "pages_lost_violated")],
   "Holds between opening and closing a PDF file and for different plots of one product in a directory; the plots of the two products of a comparator replace each other, and so does a PDF file after a close (negations proved).")
c("C75", "partial", [F + t for t in ("limits_3d", "limits_waveform_partial", "limits_im_partial", "limit_zero_violated",
   "limit_zero_demo_violated", "im_line_upper_violated", "im_notebook_lower_violated")],
   "False for a limit of 0, for the upper limit of im_line and for the lower limit of im in a notebook (negations proved).")
c("C76", "partial", [F + t for t in ("im_line_cuts_partial", "image_shows_waveform_violated", "image_variable_violated")],
   "The cuts are right; the image always shows the waveform (negation proved).")
c("C77", "partial", [F + t for t in ("waveform_hist_all", "delta_hist_all", "waveforms_hist_violated")],
   "False for the histogram of two products (negation proved).")
c("C78", "partial", [F + t for t in ("compare_shape", "compare_zero_iff", "inspected_iff", "difference_hidden_violated")],
   "The comparator is right about the arrays; the arrays are scaled with the sigma0 factor (negation proved). The resolution of the file is not included.")
c("C79", "partial", [F + t for t in ("format_dir", "format_no_extension", "format_pdf", "format_pdf_refused", "format_guess_violated")],
   "False for mixed case and for directories with a dot in their name (negation proved).")

K = "Dedop.Calib."
c("C80", "partial", [K + t for t in ("doppler_eq", "doppler_angle_partial", "nadir_look_partial", "nadir_look_violated", "doppler_vertical")],
   "Holds for a descending satellite; the angle is never positive, so that for a climbing one the look angle of the point below is wrong by twice the inclination (negation proved for all such vectors).")
c("C81", "proved", [K + t for t in ("calibration_off", "cal1_power", "cal1_aligns", "cal2_spectrum", "cal2_unique", "cal2_flat", "cal2_restores",
   "calibrations_commute", "calibration_switches")], "Over real and complex numbers.")
c("C82", "proved", [K + t for t in ("sigma0_radar_equation", "sigma0_mean", "sigma0_decreases", "sigma0_refused")],
   "Over real numbers; stacks of at most n_looks_stack looks.")
c("C83", "partial", [K + t for t in ("agc_independent_partial", "agc_twice_violated")],
   "Holds with CAL1; without CAL1 the setting is counted twice (negation proved for all echoes).")
c("C84", "partial", [K + t for t in ("cog_partial", "cog_degrees_violated", "cog_size_violated")],
   "Holds for pitch 0; otherwise the cosine of the number of degrees is taken (negation proved for all pitches up to 3 degrees).")

K = "Dedop.Notebook."
c("C85", "partial", [K + t for t in ("inspect_product", "compare_products_partial", "compare_first", "compare_path_name_violated", "compare_name_path_violated", "compare_omitted_violated")],
   "Holds for inspect, and for compare with two names or two paths (or an absolute second path). Negations proved: a path with a name, a name with a relative path, and the omitted second file, which always ends in a TypeError.")
c("C86", "partial", [K + t for t in ("inspect_notebook_partial", "inspect_quote_violated", "compare_notebook_partial", "compare_quote_violated", "text_calls_partial", "text_calls_violated")],
   "Proved for the shipped templates and all paths without quotes; for every path with a quote the negation is proved (quotes are escaped for Python but not for JSON, or end the JSON string).")
c("C87", "partial", [K + t for t in ("shell_direct_partial", "shell_direct_quote_violated", "shell_direct_brace_violated", "shell_window_partial", "shell_window_violated")],
   "Proved for paths without special characters; negations proved for double quotes, for braces when no terminal program is found (the command is then formatted as a template) and for apostrophes with a terminal program. konsole, the command file of macOS and Windows are not covered.")

K = "Dedop.Report."
c("C88", "partial", [K + t for t in ("remove_effect", "remove_cases", "remove_reports_partial", "remove_reports_violated", "add_reports_partial", "add_reports_violated", "add_nothing", "clean_reports_partial", "clean_declined", "clean_reports_violated", "clean_refuses_violated")],
   "The effect of input remove is proved in full. The number is proved when no input matches two patterns, no two added files share a base name and all outputs are products; in all other cases the negation is proved.")
K = "Dedop.Web."
c("C89", "partial", [K + t for t in ("web_list_partial", "web_list_file_violated", "web_current_mark_violated", "web_list_missing_violated", "web_current_partial", "web_current_dir_violated")],
   "The list is right for a directory without stray files, and the current workspace for the default directory. Negations proved: a stray file is listed, the current one is never marked, no list before the first workspace, the wrong directory for another base directory.")
c("C92", "partial", [K + t for t in ("coordinates_partial", "coordinates_violated", "coordinates_missing")],
   "Proved for tracks along which both coordinates are monotone; the negation is proved for every track that leaves the range of its ends: the first and last values are sent.")
K = "Dedop.Util."
c("C90", "partial", [K + t for t in ("parameters_nearest", "algorithm_values", "declaration_local", "declaration_inherited", "shipped_names_known", "unreadable_silent_violated", "reportsUnreadable_false")],
   "Which declaration counts and which value is taken are proved for all hierarchies of single inheritance. The last clause is false: a value that is missing or of the wrong type is replaced by the default, or None, without a report.")
c("C91", "proved", [K + t for t in ("settings_answers", "nothing_asked", "settings_warnings", "settings_path")],
   "All sequences of questions and changes. A settings file is modelled by the assignments it makes; expansion of ~ is a parameter.")
K = "Dedop.Report."
c("C93", "proved", [K + "status_size"],
   "For every tree; the size of a file is the length of its content, directories count nothing.")

K = "Dedop.Globals."
c("C94", "partial", [K + t for t in ("attributes_copied_partial", "finish_violated", "platform_violated", "product_name_level", "product_names_differ_iff", "product_names_same_violated")],
   "Proved for inputs with a product name. Negations: without one the run fails at its end with open, undescribed products; the L1B product lacks xref_platform; the names of both products are equal unless the name of the input contains _A__.")
c("C95", "partial", [K + t for t in ("iso_reads_back", "iso_denotes", "iso_order", "iso_defined", "times_partial", "region_times_violated", "region_times_reversed_violated", "region_first_record_violated")],
   "Format proved for all times (rationals) up to the year 9999, and the records without a region. With a region the last time is that of the record before: negations proved, including a reversed interval and a failure when only the first record is inside.")

c("C96", "partial", ["Dedop.Util.Fetch." + t for t in ("run_tame", "fetch_partial", "restored_iff", "fetch_closed_violated", "fetch_closed_before")],
   "Proved for every block that leaves the two fetched streams open; the streams are restored if and only if that is the case (a closed stream makes the restoring code raise first: negation proved).")
K = "Dedop.Lineage."
c("C97", "partial", [K + t for t in ("telemetry_copied_partial", "surface_type_violated", "weighting_violated", "getitem_exact")],
   "Proved for 24 variables of both L1B formats and 9 of L1BS, all files and histories. Negations: surf_type of L1BS is the constant of the null type; weighting is never given a value.")
c("C98", "partial", [K + t for t in ("roll_pointing_violated", "pointing_not_read", "pointing_is_mispointing")],
   "Negation proved: roll_sat_pointing (and yaw) of the input are never read; the angles come from the mispointing of the instrument.")
c("C99", "partial", ["Dedop.Process." + t for t in ("record_counter_partial", "record_counter_no_drops", "record_counter_violated", "done_in_order")],
   "The counter is the position plus the number of surfaces dropped before it, so it is right exactly for products without dropped surfaces before the record; negation proved.")

D = "Dedop.Dummy."
c("C100", "partial", [D + t for t in ("dummy_work_and_files", "dummy_two_files", "dummy_cancelled", "dummy_errors", "dummy_exception_violated", "run_dummy_not_reported")],
   "Work, products and stopping proved. The error case is false: the exception class is not defined in the module, so that a NameError passes through the run command (negation proved). Time spent is not modelled.")
F = "Dedop.Conf."
c("C101", "partial", [F + t for t in ("shipped_provides_partial", "antenna_pattern_violated", "cryosat_rejected_violated", "cryosat_others")],
   "All declared parameters of the default files except the antenna pattern, which no shipped file has (negation proved); the CryoSat-2 characterisation file is rejected (negation proved). Tables transcribed from the JSON files; numbers as rationals.")
c("C102", "partial", [F + t for t in ("value_same_iff", "value_violated", "fraction_violated", "wrong_values_rejected", "value_read_as", "null_read")],
   "value_read_as: what is read instead of a value of another type, option by option type. The exceptions are characterised exactly; negations proved: the text false is read as true, 2.5 as 2.")
c("C103", "partial", [F + t for t in ("options_without_effect", "option_effect_violated", "options_are_read_partial", "used_or_unused")] + ["Dedop.Chain.setting_changes_waveform"],
   "Negation proved: five switches have no effect in any program that reads what the processing reads. setting_changes_waveform: nine options (azimuth method, window and width, both corrections, masking, zeros, padding, looks) and the look angle bounds change the waveform of some surface. The two calibration switches: C81. For the remaining options it is proved that different values can be told apart by what is read, not that the products differ.")
c("C104", "proved", [F + "Derived." + t for t in ("derived_values", "derived_stable", "derived_available")],
   "Over exact numbers.")

RP = "Dedop.Report."
c("C105", "partial", [RP + t for t in ("command_reported_iff", "current_commands_reported_partial", "command_reported_violated", "cfgCommand_effect")],
   "The exceptions are characterised exactly for every state; commands on the current workspace are always reported after any session. Negation proved: copying a configuration in a new workspace is a TypeError, a missing workspace an internal WorkspaceError.")
c("C106", "proved", [RP + t for t in ("list_workspaces_shows", "list_configs_shows", "list_inputs_shows", "list_outputs_shows", "status_shows")],
   "On the file system model of Workspace (regular files and directories). For configurations, outputs and status the selected workspace exists; otherwise see C105.")

CH = "Dedop.Chain."
c("C107", "proved", [CH + t for t in ("point_peaks_in_centre", "point_peak_exact", "demo_surface")],
   "Over real and complex numbers. The echo model is part of the statement (PointEcho): linear range within the burst, deramped samples, no migration in the window. With the approximate azimuth method the beam has to point to the surface exactly (Steered). Antenna weighting off; Gaussian fit left out except for the number of its beams.")
c("C108", "proved", [CH + t for t in ("record_own_stack", "own_bursts_matter")],
   "For the steps from the calibrated pulses to the waveform; numbers exact, antenna weighting off, Gaussian fit left out except for the number of its beams. The state an algorithm keeps is read off the code: only closest_burst_index can survive a call.")

c("C109", "proved", [CH + t for t in ("approximate_loss_bounded", "approximate_loses")],
   "Over real and complex numbers, under the echo model of C107. The steering error of a look is read off the burst (miss); that every look of a track is within half a beam is a hypothesis, not proved of the surface locations. approximate_loses: the loss occurs.")

OB = "Dedop.Objects."
c("C110", "partial", [OB + t for t in ("surface_attribute_holds_last_partial", "burst_attribute_holds_last_partial", "burst_velocity_holds_last", "surface_vector_reads", "burst_vector_reads", "norm_of_first_reading", "new_surface_fails_iff", "burst_items_violated", "burst_dictionary_velocity_lost", "surface_items_violated", "norm_violated", "short_vectors", "unknown_names", "never_readable")],
   "Proved for every attribute that is a place of its own, for the vectors and for the velocity of a burst. The second sentence is false: a velocity component stored as an item or given in a dictionary is accepted and lost (burst_items_violated, burst_dictionary_velocity_lost), a position stored as an item of a surface too (surface_items_violated). The norm of the velocity is that of the first reading (norm_of_first_reading, norm_violated). h, cai and fai can never be read (never_readable).")
c("C111", "partial", [OB + t for t in ("reading_changes_nothing_partial", "surface_readings_unseen", "reading_changes_nothing_violated")],
   "Proved for all readings except of target_focused, which stores False, and of the norm of the velocity, which is computed once: with these it is false (reading_changes_nothing_violated).")

MS = "Dedop.Multilook.Stats."
c("C112", "partial", [MS + t for t in ("gauss_moments", "characterise_look", "standard_deviation_violated", "scale_invariant", "maximum_violated", "second_half_unused", "power_violated", "moments_related", "skewness_kurtosis_partial", "skewness_violated", "fitted_beams", "failed_fit_violated")],
   "The centre is that of the fitted curve and skewness and kurtosis, when they are numbers, satisfy the relation of moments. The rest is false for every fitting method: the maximum does not depend on the scale of the powers (maximum_violated), only the first half of the samples counts (power_violated), the standard deviation is c/2 instead of |c|/sqrt 2 (standard_deviation_violated), a single beam has no skewness (skewness_violated), after a failed fit all values come from parameters 1 (failed_fit_violated).")

WR = "Dedop.Writer."
c("C113", "partial", [WR + t for t in ("open_creates", "open_creates_with", "schemas_agree", "l1b_products_open", "l1bs_product_open_partial", "l1bs_product_open_violated", "names_free", "bare_file_name_violated", "open_twice_fails")],
   "Holds for every list of well-formed declarations and for both L1B products. The L1BS product declares a fill value that does not fit its type (l1bs_product_open_violated), and an output path without a directory cannot be opened (bare_file_name_violated).")
c("C114", "partial", [WR + t for t in ("packed_reads_back", "integer_reads_back", "declarations", "physical_values_read_back", "values_read_back_partial", "agccode_violated", "negative_deviation_violated")],
   "Holds for the physical ranges of the listed variables except two: the gain code 127 is read as missing (agccode_violated) and a negative standard deviation wraps around (negative_deviation_violated).")
c("C115", "partial", [WR + t for t in ("shared_complete", "shared_values_partial", "surface_type_violated", "waveform_violated", "shared_pointing_violated", "looks_violated")],
   "Holds for all shared variables but surface type, waveform, pointing angles, number of looks and beam angles. The L1BS file says open ocean for every record (surface_type_violated), has the waveform in another unit without a scale factor (waveform_violated), the pointing angles in another unit (shared_pointing_violated) and another number of looks (looks_violated).")

WS = "Dedop.Workspace."
c("C116", "proved", [WS + t for t in ("during_begins", "during_ends", "killed_during", "interrupted_confined", "interrupted_creation_keeps", "interrupted_rename_keeps", "interrupted_removal_keeps")],
   "Killed between two calls of the operating system; rename, mkdir and unlink happen at once.")
c("C117", "partial", [WS + t for t in ("interrupted_current_partial", "interrupted_current_violated", "command_begins", "command_ends")],
   "Holds for add, copy and current, and for remove and rename of other workspaces. Removing or renaming the current workspace first removes the directory and then writes the marker: in every state with a current workspace there is a point where it names a missing one (interrupted_current_violated).")
c("C118", "partial", [WS + t for t in ("repeat_remove", "repeat_add", "repeat_current", "repeat_remove_violated", "repeat_config_add_violated", "repeat_copy_violated", "repeat_config_remove", "repeat_config_current", "repeat_config_remove_violated")],
   "Holds for workspace add and current, config current, and for remove of either as long as the directory is there. A removal of the current workspace or configuration killed after it cannot be completed (repeat_remove_violated, repeat_config_remove_violated), an incomplete configuration makes config add fail (repeat_config_add_violated), an incomplete copy is listed as a workspace and stays (repeat_copy_violated).")

IN = "Dedop.Inputs."
c("C119", "partial", [IN + t for t in ("fnmatch_exact", "fnmatch_ending", "fnmatch_plain", "fnmatch_class", "glob_exact", "star_nc_exact", "named_inputs_added_partial", "missing_input_ignored_violated", "bracket_input_violated", "double_star_fails_violated")],
   "fnmatch and glob of the Python library are modelled. The expansion is exact, and plain names of readable files with distinct base names are added. A missing file beside others is ignored silently (missing_input_ignored_violated), a file with brackets in its name is taken for a pattern (bracket_input_violated), a path that ends in ** always fails (double_star_fails_violated).")
c("C120", "partial", [IN + t for t in ("missing_name_fails_partial", "input_add_creates_violated", "input_list_missing_violated")],
   "Holds for the commands on workspaces and configurations. input add creates the workspace (input_add_creates_violated), input list reports no inputs (input_list_missing_violated).")

RC = "Dedop.Workspace."
c("C121", "partial", [RC + t for t in ("run_whole", "confined", "concurrent_apart", "follow_both", "concurrent_create_violated", "concurrent_current_violated", "concurrent_copy_violated")],
   "Each call is a program of single accesses to the files which alone does what the call does (run_whole); its accesses stay within the workspaces it names (confined). Calls that name different workspaces can be interleaved in any way (concurrent_apart). Two calls that create the same configuration (concurrent_create_violated), a deletion beside making the same workspace current (concurrent_current_violated) and two copies to the same name (concurrent_copy_violated) have outcomes that no order of whole calls has.")
c("C122", "partial", [RC + t for t in ("save_alone", "save_alone_rewritten", "concurrent_save_partial", "concurrent_save_violated", "concurrent_save_pieces_violated")],
   "Holds for texts of the same length which are written at once. For any two texts of different lengths an order leaves neither of them (concurrent_save_violated), and so do texts written in pieces (concurrent_save_pieces_violated).")
c("C123", "partial", [RC + t for t in ("interrupted_save_partial", "interrupted_save_violated", "interrupted_save_pieces_violated")],
   "Holds if the text is written at once and is not shorter than the old one. Otherwise the interruption may leave a mixture (interrupted_save_violated, interrupted_save_pieces_violated).")

c("C124", "proved", ["Dedop.Chain.waveform_scales"],
   "For the whole chain from the echoes of the stack to the record: the same error or the same record with the waveform times the square of the common modulus.")
c("C125", "proved", ["Dedop.Chain." + t for t in ("waveform_between", "bound_attained", "dft_le", "compress_le", "azimuth_le")],
   "The bound is attained by an example (bound_attained).")
c("C126", "partial", ["Dedop.Surface." + t for t in ("meridian_step_partial", "meridian_track_partial", "meridian_angles", "meridian_record", "meridian_violated", "lla_rot")] + ["Dedop.Whole.meridian_products_partial", "Dedop.Whole.meridian_skips_violated"],
   "Holds for tracks whose surfaces and satellite positions stay away from the axis of the Earth. Near the axis the test whether a position is at the pole bounds each coordinate, a square which does not turn with the meridian: the same place is given different latitudes (meridian_violated). Records at latitude 0 and longitude 0 are skipped, whichever the meridian (meridian_skips_violated). meridian_products_partial is the statement for a whole run and both products.")
c("C127", "partial", ["Dedop.Surface." + t for t in ("mirror_step_partial", "mirror_track_partial", "mirror_angles", "mirror_record", "mirror_violated", "lla_mir")] + ["Dedop.Whole.mirror_products_partial"],
   "Holds for tracks whose surfaces and satellite positions stay outside the square about the axis in which the altitude is computed in another way. There a position above the south pole gets the altitude z - b with z negative (mirror_violated). mirror_products_partial is the statement for a whole run and both products.")

c("C128", "proved", ["Dedop.Process." + t for t in ("causal", "damaged", "damaged_product", "interrupted", "demo_unseen")],
   "The algorithms are parameters of the loop; that they do not look at records not yet read is the hypothesis Unseen, which holds because they are given the bursts of the working buffers only.")

c("C129", "proved", ["Dedop.Workspace." + t for t in ("add_inputs_repeat", "remove_inputs_repeat", "remove_outputs_repeat", "input_add_repeat", "add_inputs_ends", "remove_inputs_ends", "remove_outputs_ends")],
   "For every point between two calls of the operating system and every place up to which a file has been written.")
c("C130", "partial", ["Dedop.Workspace." + t for t in ("interrupted_add_partial", "interrupted_add_violated", "interrupted_remove_keeps")],
   "At most one file is incomplete, and nothing outside the inputs directory is touched. Files are copied to their final name, so that a beginning of the file replaces what was there and is listed like any other input (interrupted_add_violated).")
c("C131", "partial", ["Dedop.Workspace." + t for t in ("interrupted_config_partial", "interrupted_config_violated", "config_command_begins", "config_command_ends")],
   "Holds for add, copy and current, and for remove and rename of a configuration that is not the current one. The marker of the current configuration is replaced after the directory has been removed or renamed: killed in between, it names a configuration that does not exist.")

c("C132", "partial", ["Dedop.Run." + t for t in ("products_differ_partial", "products_kept_partial", "only_products_written", "inputs_not_replaced", "selected_once", "same_name_violated", "shared_directory_violated", "input_replaced_violated")],
   "Holds for inputs with different base names and a directory for every configuration. False for inputs with the same base name, for several configurations with underscores that write into one directory given with -o, and for a directory given with -o that holds inputs; negations proved.")
c("C133", "partial", ["Dedop.Main." + t for t in ("main_uses", "setting_home", "programs_agree_partial", "programs_agree_violated")],
   "What a call uses is proved for every sequence of calls; settings are those at the first call. The web service ignores the setting workspaces_dir, so that the programs agree only without it.")
c("C134", "partial", ["Dedop.Main." + t for t in ("location_partial", "location_violated", "location_interrupted_violated")],
   "Holds if the service is always started from the same environment and the first start is not interrupted. An existing file is never changed: it keeps the first environment, and remains empty after a first start that was killed.")
c("C135", "partial", ["Dedop.Json." + t for t in ("restored_spec", "roundtrip_partial", "roundtrip_violated", "open_violated", "open_refuses", "new_directory", "restored_empty")],
   "The dictionary is written with other keys than those that are read: only the workspace without a name in the default directory is restored.")

c("C136", "partial", ["Dedop.Geo.Iterative." + t for t in ("iterative_axis", "iterative_centre", "iterative_longitude", "iterative_mirror", "iterative_turn", "iterative_stationary", "iterative_equator", "iterative_sphere", "iterative_converges_wrongly", "iterative_violated")],
   "Exact on the axis, above the equator, on a sphere and wherever the iteration is stationary; the longitude is always right. For every flattened ellipsoid there is a point at which the first step looks converged: with the delivered constants the result is more than 5 km off.")
c("C137", "partial", ["Dedop.JsonText." + t for t in ("text_restores", "text_ascii", "saved_is_read_partial", "saved_part_missing_violated", "interrupted_third_violated")],
   "Holds for requests with all three parts. A part that is left out is replaced by null and the configuration cannot be read any more; an interrupted save can leave a readable third configuration. Numbers are their texts.")

c("C138", "partial", ["Dedop.Surface.Epoch." + t for t in ("epoch_track", "epoch_run", "epoch_utc", "epoch_utc_violated")] + ["Dedop.Process.Epoch.epoch_process"],
   "Holds for everything but the UTC time of the surfaces before the first interpolated one: it is computed from zeros, so that its day does not follow the clock.")
c("C139", "proved", ["Dedop.Process.Optional." + t for t in ("option_process", "option_product")],
   "For algorithms and an L1B writer which do not look at the L1B-S file. Writing the global attributes and closing count as one step that may fail in both runs.")

c("C140", "proved", ["Dedop.UpgradeText." + t for t in ("upgrade_refines", "upgrade_again", "upgrade_same", "upgradeFile_spec", "upgrade_files_again")] + ["Dedop.JsonText." + t for t in ("loads_valid", "same_text")],
   "Assumed of Python's numbers: the text repr gives for a number is read as itself. The version of the reference is not NaN, and its changelog does not name __metainf__. An upgrade of a file that is up to date keeps its values, not its layout.")

c("C141", "proved", ["Dedop.Whole.whole_terminates", "Dedop.Whole.products_agree"],
   "The algorithms are those modelled in Surface, Calib, Beams, Azimuth and Chain, over the real numbers. A NaN in a surface location is an outcome of its own, after which the model says nothing.")
c("C142", "proved", ["Dedop.Whole.record_sources"], "np.argsort is any function that sorts. The number of a burst is its index in the file.")
c("C143", "proved", ["Dedop.Whole.waveforms_bounded"], "Over the real numbers, antenna weighting off. The bound is reached (demo_run with demo_energy).")

c("C144", "proved", ["Dedop.Whole.echoes_only_power", "Dedop.Whole.memory_irrelevant"],
   "Whole processor with the algorithms of the code over the real numbers, antenna weighting on or off. Rounding and overflow of floating point numbers are not modelled.")
c("C145", "proved", ["Dedop.Whole.products_scale"], "As C144.")

c("C146", "proved", ["Dedop.Whole.own_echoes"], "As C144.")

c("C147", "proved", ["Dedop.Whole.looks_aimed"], "As C144. With focusing the moved surface may already have looks, which keep their old direction; the statement excepts it.")
c("C148", "proved", ["Dedop.Whole.target_in_centre"], "As C144. Exact azimuth method, calibrations, focusing and antenna weighting off, at least two looks per stack.")

c("C149", "proved", ["Dedop.Chain.weighting_changes_power", "Dedop.Chain.weighting_off", "Dedop.Chain.uniform_weighting", "Dedop.Chain.pattern_needed", "Dedop.Whole.weighting_products", "Dedop.Whole.no_pattern_products"], "For one surface as C107 and for the products of whole files. The angles of the pattern are evenly spaced with positive spacing; exact numbers.")
c("C150", "partial", ["Dedop.Chain.weighted_power_partial", "Dedop.Chain.weighted_power_violated", "Dedop.Whole.weighted_waveforms_bounded_partial"], "Violated (negation proved): inside the pattern the interpolation mixes angles and weights, and weights between 3/4 and 1 give a negative power for a point target. Proved for looks outside the angles of the pattern and for equal weights.")

c("C151", "partial", ["Dedop.Process.every_record_partial", "Dedop.Process.first_invalid", "Dedop.Process.every_record_violated", "Dedop.Whole.zero_first_record"], "Violated (negation proved): a record which is not valid, or outside the region, takes one surface from the queue; the run ends normally as soon as the queue is empty, though records are left: after the first record if that is not valid (then both products are empty, for every file), or after 79 such records. Proved if the first record is valid and at most 78 are not.")

c("C152", "proved", ["Dedop.Lineage.burst_of_record"], "Names of variables without their common suffix; the conversions (radians, waveform, window delay, row of the CAL2 table) are parameters. Attitude angles are those of the mispointing (C98).")

c("C153", "proved", ["Dedop.Whole.outside_irrelevant","Dedop.Whole.region_only","Dedop.Whole.region_is_cut"], "Whole-file model with exact numbers. Failures of writing are those of a disk, not of the content: they depend on the number of the record only (`World.Steady`). Records left out between two used ones still count as None in both files. The last record in the region is lost in both (C25, violated).")

c("C154", "partial", ["Dedop.Whole.distortion_removed_partial", "Dedop.Whole.distortion_removed_violated"], "Equality of the records without a burst after a gap, and of everything but the powers for all others. Violated for records with the first burst after a gap, which is calibrated twice: a file of three bursts whose second record has four times the power. Whole-file model with exact numbers; samples beyond the window are counted round; failures of writing depend on the number of the record only.")
c("C155", "proved", ["Dedop.Whole.surface_below"], "The pitch in the centre-of-gravity correction is taken as the program does, in radians (C84).")
c("C156", "proved", ["Dedop.Whole.gaps_by_time","Dedop.Whole.calibrations_by_time"], "Records entered into the queue of bursts; one found after a gap and never taken up, because the run ended, is covered by the first half.")

c("C157", "proved", ["Dedop.Whole.looks_in_band","Dedop.Whole.looks_unambiguous"], "Exact real numbers; surface focusing off; positive light speed, frequency and pulse interval.")

c("C158", "proved", ["Dedop.Whole.product_shows_results","Dedop.Whole.waveforms_shown","Dedop.Whole.target_read","Dedop.Whole.nan_waveform_unreadable"], "Heights and ranges from 500 to 900 km, scalings to 1000 dB, other numbers below 1e18. Exact real numbers are written; rounding is that of the packing. Attributes of a surface other than those of the results, per-beam tables and telemetry of the bursts are arbitrary. The maximum of an empty waveform, which raises, is not modelled.")

c("C159", "partial", ["Dedop.Whole.record_times_rise", "Dedop.Surface.surface_times_violated"], "Exact real arithmetic. For files that are not dense the negation is proved at the surfaces from which the records are made: three bursts with rising times give surfaces whose times do not rise.")

c("C160", "proved", ["Dedop.Whole.nothing_left", "Dedop.Whole.products_as_before"], "The index of the closest burst is the only attribute of the stages after beam angles that may survive a call in the model; the surface-location algorithm keeps its state on purpose and the buffers are set anew for each surface.")

c("C161", "partial", ["Dedop.Args.every_word_used", "Dedop.Args.options_then_names", "Dedop.Args.names_then_options", "Dedop.Args.split_names_refused", "Dedop.Args.dash_word_refused", "Dedop.Args.commands_declared", "Dedop.Args.parse_ends", "Dedop.Args.repeated_inputs_violated"], "argparse of Python 3.11 is modelled and was compared with the library on random lines. The parser above the commands (cate.util.cli) is not part of the code. Violated where a list option is given twice: the first list is dropped without a word.")

c("C162", "proved", ["Dedop.Monitor.rounded_never_falls", "Dedop.Monitor.rounded_near_exact", "Dedop.Monitor.rounded_ends_at_100", "Dedop.Monitor.rounded_last_shown", "Dedop.Monitor.float_last_shown", "Dedop.Monitor.exact_feed"], "The machine's numbers are rationals rounded to 53 binary digits without bounds of the exponent: neither overflow nor the loss of digits below the smallest normal number is modelled.")

c("C163", "partial", ["Dedop.Args.typed_lines_current_partial", "Dedop.Args.typed_lines_current_violated", "Dedop.Args.names_unambiguous", "Dedop.Args.order_free", "Dedop.Args.usual_line", "Dedop.Args.workspace_lines", "Dedop.Args.config_lines", "Dedop.Args.confirmed_iff"], "Composition of C161 with C10 and C61. Violated for names such as .current, which no command refuses. Not covered: lines of config edit and upgrade, input add and remove, output clean, run and commands that start programs; the parser above the commands.")

c("C164", "proved", ["Dedop.Multilook.rounded_average", "Dedop.Multilook.float_average", "Dedop.Multilook.rounded_average_mono", "Dedop.Multilook.rounded_average_scales", "Dedop.Multilook.unrounded"], "As for C162, the exponent is unbounded: overflow and numbers below the smallest normal number are not modelled. The statement that a sample is zero exactly if all powers are is about 53 binary digits and up to a million beams.")

c("C165", "proved", ["Dedop.Whole.records_on_track", "Dedop.Whole.records_between", "Dedop.Whole.record_times_within"], "Numbers are exact. With adaptation to a target the ground position of one surface is moved (C71, C72), which is why that is excepted.")

c("C166", "proved", ["Dedop.Args.names_alike", "Dedop.Args.values_alike", "Dedop.Args.switches_joined", "Dedop.Args.commands_tidy"], "argparse of Python 3.11 is modelled (see C161). The hypotheses on the parser are shown for all commands in commands_tidy.")
c("C167", "proved", ["Dedop.Writer.packed_rounded", "Dedop.Writer.values_rounded", "Dedop.Writer.waveform_rounded", "Dedop.Writer.iq_rounded", "Dedop.Writer.double_binary", "Dedop.Writer.offsets_small"], "The order of the operations in the NetCDF library is modelled from its documentation. Overflow and numbers near 0 (denormals) are not modelled; waveforms and samples are normal numbers.")

c("C168", "proved", ["Dedop.Args.run_line_meaning", "Dedop.Args.named_files_processed", "Dedop.Args.named_files_products", "Dedop.Args.bare_file_refused"], "argparse of Python 3.11 is modelled (see C161); the values are plain words, other spellings are covered by C166.")
c("C169", "proved", ["Dedop.Whole.stack_shown", "Dedop.Whole.stacks_of_run"], "Arithmetic is that of the reals; C167 gives the bytes with rounding. For an all-zero stack see C56.")

c("C170", "proved", ["Dedop.Whole.looks_steered", "Dedop.Whole.stack_from_echoes"], "Arithmetic is that of the reals. Bursts after a gap are calibrated twice (C44) and are left out.")
c("C171", "proved", ["Dedop.Whole.looks_linear", "Dedop.Whole.stacks_superpose", "Dedop.Whole.waveforms_parallelogram"], "Arithmetic is that of the reals. The writing of records may fail depending on their number only.")

c("C172", "proved", ["Dedop.Whole.delay_moves_looks", "Dedop.Whole.delay_moves_waveform"], "Arithmetic is that of the reals. CAL2 divides by the measured gain of the receiver at each position, so an echo moves unchanged only without it.")

c("C173", "proved", ["Dedop.Whole.failure_reasons", "Dedop.Whole.slow_record_fatal"], "Failures of the argument of `np.arccos` (NaN, outcome `nan`) are not errors of the program and are treated apart. It is not shown whether stacks can begin out of order in the geometry of a real orbit.")
c("C174", "partial", ["Dedop.Whole.run_completes_partial", "Dedop.Whole.slow_record_violated"], "Violated: the check of the records when they are read looks at the position only; `acos` raises ValueError for a velocity which is too small and the run ends, in the example with empty products. Holds: without such records a run with the exact method ends normally or for one of the three named reasons.")

c("C175", "partial", ["Dedop.Info.summary_tells", "Dedop.Info.no_outputs_told", "Dedop.Info.no_outputs_told_violated", "Dedop.Info.no_inputs_told_violated"], "The lists, marks and inputs can be told from the text. Violated: with a current configuration that has never been run nothing is said about outputs, and with an empty directory of inputs nothing about inputs.")
c("C176", "partial", ["Dedop.Info.save_partial", "Dedop.Info.save_violated"], "Violated for every object: `save` reads `self.base_dir`, which no workspace object has, outside of the `try`; AttributeError. The rest of the method does what is claimed if the attribute existed.")

c("C177", "partial", ["Dedop.Workspace.saves_per_file_partial", "Dedop.Workspace.reads_per_file_partial", "Dedop.Workspace.run_start_partial", "Dedop.Workspace.save_call_alone", "Dedop.Workspace.saves_mixed_violated", "Dedop.Workspace.reads_mixed_violated"], "Holds file by file, each file being written in one step (what may happen inside is C122, C123); a run has the old constants or all three new files. Violated: for every choice of one of the two texts for each of the three files there is a schedule that ends with it, and likewise for what a client reads.")

c("C178", "partial", ["Dedop.Workspace.cli_keeps_workspace", "Dedop.Workspace.cli_keeps_config", "Dedop.Workspace.web_keeps_workspace_partial", "Dedop.Workspace.web_delete_resets_violated", "Dedop.Workspace.web_delete_config_resets_violated"], "Holds on the command line for names that are given. Violated through the web service: deleting any workspace or configuration makes `default` the current one, if it exists, whatever was current.")


C.sort(key=lambda d: int(d["property"][1:]))
root = os.path.join(os.path.dirname(os.path.abspath(__file__)), "..")
json.dump({"claims": C}, open(os.path.join(root, "MANIFEST.json"), "w"), indent=1)
