{
 "claims": [
  {
   "property": "C01",
   "status": "proved",
   "theorems": [
    "Dedop.Upgrade.upgrade_gives_changelog_value"
   ],
   "note": ""
  },
  {
   "property": "C02",
   "status": "proved",
   "theorems": [
    "Dedop.Upgrade.upgrade_fails_iff_default_broken",
    "Dedop.Upgrade.upgrade_noop_if_current",
    "Dedop.Upgrade.upgrade_reaches_max_version",
    "Dedop.Upgrade.upgrade_idempotent",
    "Dedop.Upgrade.upgradeConfig_reports_written_version",
    "Dedop.Upgrade.shipped_default_wellFormed",
    "Dedop.Upgrade.upgrade_to_shipped_never_fails"
   ],
   "note": ""
  },
  {
   "property": "C03",
   "status": "proved",
   "theorems": [
    "Dedop.Upgrade.upgrade_path_independent"
   ],
   "note": ""
  },
  {
   "property": "C04",
   "status": "proved",
   "theorems": [
    "Dedop.Names.unique_name_found",
    "Dedop.Names.unique_config_name_found",
    "Dedop.Names.suffixed_names_distinct"
   ],
   "note": ""
  },
  {
   "property": "C05",
   "status": "proved",
   "theorems": [
    "Dedop.Names.launch_never_overwrites",
    "Dedop.Names.launches_create_distinct_files"
   ],
   "note": ""
  },
  {
   "property": "C06",
   "status": "partial",
   "theorems": [
    "Dedop.Names.listing_exact_and_sorted",
    "Dedop.Names.listing_once_each_partial",
    "Dedop.Names.listing_multiplicity",
    "Dedop.Names.listing_duplicates_violated"
   ],
   "note": "Files matched by several patterns of a list are listed several times: the once-each part is false (negation proved), proved for at most one matching pattern."
  },
  {
   "property": "C07",
   "status": "proved",
   "theorems": [
    "Dedop.Names.limited_title",
    "Dedop.Names.limited_title_rejects"
   ],
   "note": ""
  },
  {
   "property": "C08",
   "status": "partial",
   "theorems": [
    "Dedop.Names.l1b_and_l1bs_never_collide",
    "Dedop.Names.same_output_iff",
    "Dedop.Names.distinct_stems_distinct_outputs_partial",
    "Dedop.Names.distinct_inputs_collide_violated"
   ],
   "note": "False when one stem is the other with a leading L1A (negation proved); exact criterion proved."
  },
  {
   "property": "C09",
   "status": "partial",
   "theorems": [
    "Dedop.Workspace.current_round_trip_partial",
    "Dedop.Workspace.current_config_round_trip_partial",
    "Dedop.Workspace.current_stays",
    "Dedop.Workspace.current_round_trip_violated"
   ],
   "note": "Names with a line break come back truncated (negation proved); proved for all other names."
  },
  {
   "property": "C10",
   "status": "partial",
   "theorems": [
    "Dedop.Workspace.cli_current_workspace_exists_partial",
    "Dedop.Workspace.cli_current_workspace_exists_violated",
    "Dedop.Workspace.empty_is_tidied"
   ],
   "note": "Proved for all command sequences with plain names; false for the workspace name '.current' (negation proved)."
  },
  {
   "property": "C11",
   "status": "partial",
   "theorems": [
    "Dedop.Workspace.other_workspaces_untouched",
    "Dedop.Workspace.other_configs_untouched",
    "Dedop.Workspace.create_exact",
    "Dedop.Workspace.delete_exact",
    "Dedop.Workspace.copy_exact",
    "Dedop.Workspace.rename_exact_partial",
    "Dedop.Workspace.rename_onto_existing_violated",
    "Dedop.Workspace.config_operations_exact"
   ],
   "note": "Frame and exact effect proved; renaming onto an existing workspace moves it inside (negation proved), so rename is exact for free names only."
  },
  {
   "property": "C12",
   "status": "proved",
   "theorems": [
    "Dedop.Workspace.failing_operation_changes_nothing",
    "Dedop.Workspace.missing_or_taken_names_fail",
    "Dedop.Workspace.create_config_missing_or_taken_changes_nothing"
   ],
   "note": ""
  },
  {
   "property": "C13",
   "status": "partial",
   "theorems": [
    "Dedop.Workspace.delete_confined_partial",
    "Dedop.Workspace.delete_empty_name_violated"
   ],
   "note": "Deleting the empty name deletes every workspace (negation proved); all other names confined."
  },
  {
   "property": "C14",
   "status": "partial",
   "theorems": [
    "Dedop.Workspace.rewrite_replaces_content",
    "Dedop.Workspace.rewrite_missing_file",
    "Dedop.Workspace.rewrite_crash_content_partial",
    "Dedop.Workspace.rewrite_not_atomic_violated"
   ],
   "note": "On return the content is exact; the content at each crash point is characterised; atomicity is false (negation proved)."
  },
  {
   "property": "C15",
   "status": "proved",
   "theorems": [
    "Dedop.Workspace.save_interrupted",
    "Dedop.Workspace.upgrade_interrupted",
    "Dedop.Workspace.upgrade_rerun_completes"
   ],
   "note": "Crash points between files; inside one file see C14."
  },
  {
   "property": "C16",
   "status": "proved",
   "theorems": [
    "Dedop.Workspace.add_inputs_exact",
    "Dedop.Workspace.add_inputs_succeeds",
    "Dedop.Workspace.remove_inputs_exact"
   ],
   "note": ""
  },
  {
   "property": "C17",
   "status": "partial",
   "theorems": [
    "Dedop.Workspace.outputs_removed_partial",
    "Dedop.Workspace.outputs_remain_violated"
   ],
   "note": "Broken symbolic links are skipped and remain (negation proved)."
  },
  {
   "property": "C18",
   "status": "partial",
   "theorems": [
    "Dedop.Workspace.create_config_complete",
    "Dedop.Upgrade.fresh_default_config_up_to_date",
    "Dedop.Upgrade.fresh_cryosat_config_up_to_date_violated",
    "Dedop.Upgrade.fresh_cryosat_upgrade_keeps_values"
   ],
   "note": "Complete for all templates; up to date for the default templates, false for the CryoSat-2 template (CHD version 0)."
  },
  {
   "property": "C19",
   "status": "proved",
   "theorems": [
    "Dedop.Monitor.child_work_is_scaled",
    "Dedop.Monitor.child_work_is_conserved",
    "Dedop.Monitor.console_receives_announced_work",
    "Dedop.Monitor.one_child_receives_its_share",
    "Dedop.Monitor.child_progress_errors",
    "Dedop.Monitor.child_done_signalled_on_any_outcome"
   ],
   "note": "Work amounts are rationals instead of floats."
  },
  {
   "property": "C20",
   "status": "proved",
   "theorems": [
    "Dedop.Monitor.cancel_seen_everywhere_forever",
    "Dedop.Monitor.not_cancelled_without_request"
   ],
   "note": ""
  },
  {
   "property": "C21",
   "status": "proved",
   "theorems": [
    "Dedop.Monitor.percentage_is_nearest",
    "Dedop.Monitor.line_printed_iff_changed",
    "Dedop.Monitor.percentages_monotone_bounded",
    "Dedop.Monitor.bar_has_constant_width",
    "Dedop.Monitor.bar_monotone",
    "Dedop.Monitor.bar_overflows_beyond_total"
   ],
   "note": "Rational work amounts."
  },
  {
   "property": "C22",
   "status": "proved",
   "theorems": [
    "Dedop.Monitor.Signal.handler_restored_and_done_balanced",
    "Dedop.Monitor.Signal.done_exactly_once",
    "Dedop.Monitor.Signal.rejected_label_changes_nothing",
    "Dedop.Monitor.Signal.ctrlC_cancels_innermost",
    "Dedop.Monitor.Signal.handler_not_restored_when_reentered_violated"
   ],
   "note": "Holds for properly nested use; reusing one console inside itself leaves its handler installed (negation proved)."
  },
  {
   "property": "C23",
   "status": "proved",
   "theorems": [
    "Dedop.Conf.parameter_value",
    "Dedop.Conf.other_version_rejected",
    "Dedop.Conf.right_version_accepted",
    "Dedop.Conf.unknown_parameters_warned"
   ],
   "note": ""
  },
  {
   "property": "C24",
   "status": "partial",
   "theorems": [
    "Dedop.Reader.read_is_transparent",
    "Dedop.Reader.read_beyond_end_partial",
    "Dedop.Reader.read_beyond_end_violated"
   ],
   "note": "All reads inside the file are exact; a read beyond the end can return a stale buffered record (negation proved)."
  },
  {
   "property": "C25",
   "status": "partial",
   "theorems": [
    "Dedop.Reader.next_agrees_with_iteration",
    "Dedop.Reader.no_region_delivers_all",
    "Dedop.Reader.region_delivers_inside_partial",
    "Dedop.Reader.last_record_in_region_lost_violated",
    "Dedop.Reader.in_range_agrees"
   ],
   "note": "With a region the last record inside it is not delivered (negation proved); what is delivered is characterised exactly."
  },
  {
   "property": "C26",
   "status": "proved",
   "theorems": [
    "Dedop.Beams.seen_is_run",
    "Dedop.Beams.seen_at_most_pulses"
   ],
   "note": "Visibility test on exact numbers."
  },
  {
   "property": "C27",
   "status": "proved",
   "theorems": [
    "Dedop.Beams.trend_spec"
   ],
   "note": ""
  },
  {
   "property": "C28",
   "status": "proved",
   "theorems": [
    "Dedop.Beams.burst_recorded_once",
    "Dedop.Beams.absIndex_range",
    "Dedop.Beams.stack_lengths_agree"
   ],
   "note": ""
  },
  {
   "property": "C29",
   "status": "partial",
   "theorems": [
    "Dedop.Stack.gather_contiguous",
    "Dedop.Stack.gather_selects_smallest_partial",
    "Dedop.Stack.closest_look_left_out_violated",
    "Dedop.Stack.gather_zero_looks_fails"
   ],
   "note": "Contiguity, size, order for all stacks; that the smallest look is inside needs |look| to fall then rise (negation proved otherwise)."
  },
  {
   "property": "C30",
   "status": "partial",
   "theorems": [
    "Dedop.Stack.gather_selects_smallest_partial",
    "Dedop.Stack.closest_look_left_out_violated"
   ],
   "note": "Proved where |look| falls and then rises along the stack; false in general (negation proved)."
  },
  {
   "property": "C31",
   "status": "proved",
   "theorems": [
    "Dedop.Stack.gather_contiguous",
    "Dedop.Stack.closest_stale_when_empty"
   ],
   "note": "For non-empty stacks; an empty stack keeps the previous index."
  },
  {
   "property": "C32",
   "status": "partial",
   "theorems": [
    "Dedop.Stack.vector_counts_valid_partial",
    "Dedop.Stack.vector_full_row",
    "Dedop.Stack.vector_ambiguous_violated",
    "Dedop.Stack.vector_determines_other_rows",
    "Dedop.Stack.vector_zero_iff"
   ],
   "note": "The full row has the same entry as the row lacking one sample (negation proved)."
  },
  {
   "property": "C33",
   "status": "proved",
   "theorems": [
    "Dedop.Stack.masked_iff_rejected",
    "Dedop.Stack.outside_bounds_zero",
    "Dedop.Stack.masking_disabled"
   ],
   "note": ""
  },
  {
   "property": "C34",
   "status": "partial",
   "theorems": [
    "Dedop.Multilook.multilooked_is_mean",
    "Dedop.Multilook.no_contributing_beam_violated"
   ],
   "note": "Mean and bounds proved where some beam contributes; otherwise the sample is 0/0 = NaN (negation proved). Exact numbers."
  },
  {
   "property": "C35",
   "status": "proved",
   "theorems": [
    "Dedop.Multilook.start_stop_spec",
    "Dedop.Multilook.burst_indices_of_whole_stack"
   ],
   "note": "The start/stop burst indices are those of the whole stack, masked or not."
  },
  {
   "property": "C36",
   "status": "partial",
   "theorems": [
    "Dedop.Multilook.weight_at_table_angle_violated",
    "Dedop.Multilook.weight_between_violated",
    "Dedop.Multilook.weight_outside_partial",
    "Dedop.Multilook.constant_weights_partial"
   ],
   "note": "The interpolation is wrong inside the table (negations proved); right outside it and for constant tables."
  },
  {
   "property": "C37",
   "status": "partial",
   "theorems": [
    "Dedop.Azimuth.window_support",
    "Dedop.Azimuth.window_values",
    "Dedop.Azimuth.window_symmetric",
    "Dedop.Azimuth.hamming_hanning_swapped_violated",
    "Dedop.Azimuth.wide_boxcar_violated",
    "Dedop.Azimuth.wide_hamming_fails",
    "Dedop.Azimuth.width_one_nan"
   ],
   "note": "Support, values and symmetry proved for widths up to the burst; names swapped, wide windows wrong or failing (negations proved)."
  },
  {
   "property": "C38",
   "status": "proved",
   "theorems": [
    "Dedop.Azimuth.approximate_row",
    "Dedop.Azimuth.approximate_empty_list_fails"
   ],
   "note": "For non-empty lists; the empty list raises."
  },
  {
   "property": "C39",
   "status": "partial",
   "theorems": [
    "Dedop.Azimuth.nadir_has_smallest_look_index",
    "Dedop.Azimuth.nadir_closest_partial",
    "Dedop.Azimuth.nadir_not_closest_violated",
    "Dedop.Azimuth.nadir_odd_violated"
   ],
   "note": "Proved for even numbers of pulses and regular tracks; false otherwise (negations proved)."
  },
  {
   "property": "C40",
   "status": "proved",
   "theorems": [
    "Dedop.Process.process_terminates",
    "Dedop.Process.process_fuel",
    "Dedop.Process.iterations_bounded"
   ],
   "note": "At most 3 * records + surfaces + 2 iterations, for every state of the processor's queues."
  },
  {
   "property": "C41",
   "status": "proved",
   "theorems": [
    "Dedop.Process.written_in_order",
    "Dedop.Process.both_files",
    "Dedop.Process.both_files_failed"
   ],
   "note": "For processors whose earlier calls left no surface; what stale surfaces do is C49."
  },
  {
   "property": "C42",
   "status": "proved",
   "theorems": [
    "Dedop.Process.enough_looks",
    "Dedop.Process.all_written_or_dropped"
   ],
   "note": ""
  },
  {
   "property": "C43",
   "status": "proved",
   "theorems": [
    "Dedop.Process.working_surface_exists",
    "Dedop.Process.only_exceptions"
   ],
   "note": ""
  },
  {
   "property": "C44",
   "status": "partial",
   "theorems": [
    "Dedop.Process.calibrated_once_partial",
    "Dedop.Process.used_after_calibration",
    "Dedop.Process.calibrated_once_violated"
   ],
   "note": "The record after a gap is calibrated twice (negation proved); all others once, and before use."
  },
  {
   "property": "C45",
   "status": "proved",
   "theorems": [
    "Dedop.Process.beams_once"
   ],
   "note": ""
  },
  {
   "property": "C46",
   "status": "partial",
   "theorems": [
    "Dedop.Process.surfaces_before_gap",
    "Dedop.Process.stack_after_creation",
    "Dedop.Process.surfaces_after_gap_partial",
    "Dedop.Process.surfaces_after_gap_violated"
   ],
   "note": "First half proved; second half false when unused bursts stay in the queue (negation proved), proved otherwise."
  },
  {
   "property": "C47",
   "status": "proved",
   "theorems": [
    "Dedop.Process.cancellation_prompt",
    "Dedop.Process.cancellation_closes",
    "Dedop.Process.cancelled_finishes"
   ],
   "note": ""
  },
  {
   "property": "C48",
   "status": "partial",
   "theorems": [
    "Dedop.Process.completes_partial",
    "Dedop.Process.completes_violated"
   ],
   "note": "A gap followed by fewer than 80 surfaces makes the run fail with the outputs open (negation proved)."
  },
  {
   "property": "C49",
   "status": "partial",
   "theorems": [
    "Dedop.Process.history_partial",
    "Dedop.Process.history_violated",
    "Dedop.Process.history_cancelled_violated"
   ],
   "note": "Left-over surfaces and unprocessed bursts enter the next file (negations proved); processed bursts have no effect."
  },
  {
   "property": "C50",
   "status": "proved",
   "theorems": [
    "Dedop.Process.progress_counts"
   ],
   "note": ""
  },
  {
   "property": "C51",
   "status": "partial",
   "theorems": [
    "Dedop.Geo.altitude_zero_on_ellipsoid",
    "Dedop.Geo.altitude_along_normal",
    "Dedop.Geo.degrees",
    "Dedop.Geo.longitude_round_trip",
    "Dedop.Geo.ellipsoid_round_trip",
    "Dedop.Geo.sphere_round_trip",
    "Dedop.Geo.equator_round_trip",
    "Dedop.Geo.north_pole_round_trip",
    "Dedop.Geo.south_pole_array",
    "Dedop.Geo.south_pole_violated",
    "Dedop.Geo.near_pole_altitude",
    "Dedop.Geo.versions_agree_partial",
    "Dedop.Geo.bowring_not_exact"
   ],
   "note": "Over the reals. The scalar version returns a wrong altitude at the south pole, where it differs from the array version (negation proved)."
  },
  {
   "property": "C52",
   "status": "partial",
   "theorems": [
    "Dedop.Geo.normalize_partial",
    "Dedop.Geo.normalize_mono",
    "Dedop.Geo.normalize_diverges_violated"
   ],
   "note": "Proved with exact arithmetic; with 53-bit rounding the loop never ends on -2^57 (negation proved)."
  },
  {
   "property": "C53",
   "status": "partial",
   "theorems": [
    "Dedop.Geo.angle_between_partial",
    "Dedop.Geo.angle_between_rounded_partial",
    "Dedop.Geo.angle_between_violated",
    "Dedop.Geo.angle_between_zero"
   ],
   "note": "Proved for exact arithmetic and for cosines rounded above 1; a cosine rounded below -1 gives NaN (negation proved)."
  },
  {
   "property": "C54",
   "status": "partial",
   "theorems": [
    "Dedop.Writer.records_land_partial",
    "Dedop.Writer.values_land",
    "Dedop.Writer.failed_call",
    "Dedop.Writer.records_land_violated"
   ],
   "note": "Proved for histories without exception, and for the given values in all histories; after an exception rejected values show in place of fill values (negation proved)."
  },
  {
   "property": "C55",
   "status": "partial",
   "theorems": [
    "Dedop.Writer.utc_instant_partial",
    "Dedop.Writer.utc_at_record",
    "Dedop.Writer.utc_at_previous_record",
    "Dedop.Writer.utc_midnight_violated",
    "Dedop.Writer.first_surface_violated",
    "Dedop.Writer.surface_after_gap_partial",
    "Dedop.Writer.surface_after_gap_violated"
   ],
   "note": "The first surface of a file, midnight, and gaps longer than a day are dated wrongly (negations proved)."
  },
  {
   "property": "C56",
   "status": "partial",
   "theorems": [
    "Dedop.Writer.waveform_scaling_partial",
    "Dedop.Writer.waveform_packed_partial",
    "Dedop.Writer.zero_waveform_violated",
    "Dedop.Writer.iq_scaling_partial",
    "Dedop.Writer.zero_iq_violated",
    "Dedop.Writer.s3_waveform_violated"
   ],
   "note": "Fails for waveforms and stacks of zeros and for strong echoes in the Sentinel-3 file (negations proved)."
  },
  {
   "property": "C57",
   "status": "partial",
   "theorems": [
    "Dedop.Run.selection_partial",
    "Dedop.Run.selection_inputs",
    "Dedop.Run.run_executes_plan",
    "Dedop.Run.run_stops_at_failure",
    "Dedop.Run.run_refused",
    "Dedop.Run.outdated_config_violated",
    "Dedop.Run.current_config_violated"
   ],
   "note": "The inputs processed and the outcome are proved for all states; outdated configurations are not refused, and without a current workspace the current configuration of the default workspace is ignored (negations proved)."
  },
  {
   "property": "C58",
   "status": "partial",
   "theorems": [
    "Dedop.Surface.new_surface_iff",
    "Dedop.Surface.first_surface",
    "Dedop.Surface.new_surface_interpolated",
    "Dedop.Surface.on_segment_iff",
    "Dedop.Surface.on_segment_partial",
    "Dedop.Surface.after_first_surface_partial",
    "Dedop.Surface.surfaces_advance_partial",
    "Dedop.Surface.off_segment_violated",
    "Dedop.Surface.focus_moves_one",
    "Dedop.Surface.focus_closest_approach"
   ],
   "note": "Over the reals. On the segment whenever the bursts are closer together than the surfaces; otherwise the location is extrapolated (negation proved)."
  },
  {
   "property": "C59",
   "status": "partial",
   "theorems": [
    "Dedop.Workspace.web_current_exists_partial",
    "Dedop.Workspace.web_current_exists_violated"
   ],
   "note": "Renaming or deleting the current one through the Web API leaves a dangling name (negation proved); proved for the remaining calls."
  },
  {
   "property": "C60",
   "status": "proved",
   "theorems": [
    "Dedop.Signal.compression_preserves_energy",
    "Dedop.Signal.compression_shift",
    "Dedop.Signal.padding_interpolates"
   ],
   "note": "Over the complex numbers."
  },
  {
   "property": "C61",
   "status": "partial",
   "theorems": [
    "Dedop.Workspace.cli_current_config_exists_partial",
    "Dedop.Workspace.cli_current_config_exists_violated"
   ],
   "note": "All command sequences with plain names (not empty, no separators or line breaks, not '.current'). With a line break in a name it is false: only the first line is read back (negation proved)."
  },
  {
   "property": "C62",
   "status": "proved",
   "theorems": [
    "Dedop.Azimuth.exact_row",
    "Dedop.Azimuth.approximate_energy"
   ],
   "note": "Over the complex numbers."
  },
  {
   "property": "C63",
   "status": "proved",
   "theorems": [
    "Dedop.Azimuth.methods_agree_at_nadir"
   ],
   "note": "Over the complex numbers."
  },
  {
   "property": "C64",
   "status": "proved",
   "theorems": [
    "Dedop.Signal.corrections_preserve_modulus",
    "Dedop.Signal.integer_shift_moves",
    "Dedop.Signal.accepted_samples_not_wrapped",
    "Dedop.Signal.aligned_burst_not_shifted",
    "Dedop.Signal.shift_independent_of_reference",
    "Dedop.Signal.slant_range_is_distance",
    "Dedop.Signal.doppler_shift_spec"
   ],
   "note": "Over the complex numbers; whole-sample shifts."
  },
  {
   "property": "C65",
   "status": "proved",
   "theorems": [
    "Dedop.Multilook.fit_window_spec"
   ],
   "note": ""
  },
  {
   "property": "C66",
   "status": "partial",
   "theorems": [
    "Dedop.Writer.angle_stored_partial",
    "Dedop.Writer.look_angle_violated",
    "Dedop.Writer.look_table_violated",
    "Dedop.Writer.beam_angle_padding_violated"
   ],
   "note": "The look-angle table has the offset of the beam angles, and padding is not representable (negations proved)."
  },
  {
   "property": "C67",
   "status": "partial",
   "theorems": [
    "Dedop.Writer.pointing_degrees_partial",
    "Dedop.Writer.pointing_degrees_violated"
   ],
   "note": "True of the extended L1B file, false of the L1B-S file (negation proved)."
  },
  {
   "property": "C68",
   "status": "proved",
   "theorems": [
    "Dedop.Writer.writers_accept",
    "Dedop.Writer.never_written"
   ],
   "note": "The lists of names are extracted from the source text by tools/schema.py."
  },
  {
   "property": "C69",
   "status": "partial",
   "theorems": [
    "Dedop.Writer.cut_tables",
    "Dedop.Writer.tables_aligned_partial",
    "Dedop.Writer.tables_aligned_violated",
    "Dedop.Writer.useful_entries_violated"
   ],
   "note": "False when the first beam of a stack is masked (negation proved)."
  },
  {
   "property": "C70",
   "status": "partial",
   "theorems": [
    "Dedop.Surface.longitude_ranges",
    "Dedop.Surface.longitude_convention_violated"
   ],
   "note": "The ranges are proved; they differ between the first surface and the others (negation proved)."
  },
  {
   "property": "C71",
   "status": "partial",
   "theorems": [
    "Dedop.Surface.focus_never_again",
    "Dedop.Surface.focus_per_product_violated"
   ],
   "note": "False: focusing happens once in the life of a processor (proved for all histories; witness for the negation)."
  },
  {
   "property": "C72",
   "status": "partial",
   "theorems": [
    "Dedop.Surface.focus_between_partial",
    "Dedop.Surface.focus_between_violated"
   ],
   "note": "True from the third surface on, on a straight track; false when the target is behind the start (negation proved)."
  },
  {
   "property": "C73",
   "status": "proved",
   "theorems": [
    "Dedop.Surface.window_delay_consistent"
   ],
   "note": "Over the reals, for c different from 0."
  },
  {
   "property": "C74",
   "status": "partial",
   "theorems": [
    "Dedop.Figures.pdf_kept",
    "Dedop.Figures.dir_kept",
    "Dedop.Figures.dir_all_kept_partial",
    "Dedop.Figures.plot_files_differ",
    "Dedop.Figures.plots_all_kept_partial",
    "Dedop.Figures.close_idempotent",
    "Dedop.Figures.pdf_replaced",
    "Dedop.Figures.figure_overwritten_violated",
    "Dedop.Figures.pages_lost_violated"
   ],
   "note": "Holds between opening and closing a PDF file and for different plots of one product in a directory; the plots of the two products of a comparator replace each other, and so does a PDF file after a close (negations proved)."
  },
  {
   "property": "C75",
   "status": "partial",
   "theorems": [
    "Dedop.Figures.limits_3d",
    "Dedop.Figures.limits_waveform_partial",
    "Dedop.Figures.limits_im_partial",
    "Dedop.Figures.limit_zero_violated",
    "Dedop.Figures.limit_zero_demo_violated",
    "Dedop.Figures.im_line_upper_violated",
    "Dedop.Figures.im_notebook_lower_violated"
   ],
   "note": "False for a limit of 0, for the upper limit of im_line and for the lower limit of im in a notebook (negations proved)."
  },
  {
   "property": "C76",
   "status": "partial",
   "theorems": [
    "Dedop.Figures.im_line_cuts_partial",
    "Dedop.Figures.image_shows_waveform_violated",
    "Dedop.Figures.image_variable_violated"
   ],
   "note": "The cuts are right; the image always shows the waveform (negation proved)."
  },
  {
   "property": "C77",
   "status": "partial",
   "theorems": [
    "Dedop.Figures.waveform_hist_all",
    "Dedop.Figures.delta_hist_all",
    "Dedop.Figures.waveforms_hist_violated"
   ],
   "note": "False for the histogram of two products (negation proved)."
  },
  {
   "property": "C78",
   "status": "partial",
   "theorems": [
    "Dedop.Figures.compare_shape",
    "Dedop.Figures.compare_zero_iff",
    "Dedop.Figures.inspected_iff",
    "Dedop.Figures.difference_hidden_violated"
   ],
   "note": "The comparator is right about the arrays; the arrays are scaled with the sigma0 factor (negation proved). The resolution of the file is not included."
  },
  {
   "property": "C79",
   "status": "partial",
   "theorems": [
    "Dedop.Figures.format_dir",
    "Dedop.Figures.format_no_extension",
    "Dedop.Figures.format_pdf",
    "Dedop.Figures.format_pdf_refused",
    "Dedop.Figures.format_guess_violated"
   ],
   "note": "False for mixed case and for directories with a dot in their name (negation proved)."
  },
  {
   "property": "C80",
   "status": "partial",
   "theorems": [
    "Dedop.Calib.doppler_eq",
    "Dedop.Calib.doppler_angle_partial",
    "Dedop.Calib.nadir_look_partial",
    "Dedop.Calib.nadir_look_violated",
    "Dedop.Calib.doppler_vertical"
   ],
   "note": "Holds for a descending satellite; the angle is never positive, so that for a climbing one the look angle of the point below is wrong by twice the inclination (negation proved for all such vectors)."
  },
  {
   "property": "C81",
   "status": "proved",
   "theorems": [
    "Dedop.Calib.calibration_off",
    "Dedop.Calib.cal1_power",
    "Dedop.Calib.cal1_aligns",
    "Dedop.Calib.cal2_spectrum",
    "Dedop.Calib.cal2_unique",
    "Dedop.Calib.cal2_flat",
    "Dedop.Calib.cal2_restores",
    "Dedop.Calib.calibrations_commute",
    "Dedop.Calib.calibration_switches"
   ],
   "note": "Over real and complex numbers."
  },
  {
   "property": "C82",
   "status": "proved",
   "theorems": [
    "Dedop.Calib.sigma0_radar_equation",
    "Dedop.Calib.sigma0_mean",
    "Dedop.Calib.sigma0_decreases",
    "Dedop.Calib.sigma0_refused"
   ],
   "note": "Over real numbers; stacks of at most n_looks_stack looks."
  },
  {
   "property": "C83",
   "status": "partial",
   "theorems": [
    "Dedop.Calib.agc_independent_partial",
    "Dedop.Calib.agc_twice_violated"
   ],
   "note": "Holds with CAL1; without CAL1 the setting is counted twice (negation proved for all echoes)."
  },
  {
   "property": "C84",
   "status": "partial",
   "theorems": [
    "Dedop.Calib.cog_partial",
    "Dedop.Calib.cog_degrees_violated",
    "Dedop.Calib.cog_size_violated"
   ],
   "note": "Holds for pitch 0; otherwise the cosine of the number of degrees is taken (negation proved for all pitches up to 3 degrees)."
  },
  {
   "property": "C85",
   "status": "partial",
   "theorems": [
    "Dedop.Notebook.inspect_product",
    "Dedop.Notebook.compare_products_partial",
    "Dedop.Notebook.compare_first",
    "Dedop.Notebook.compare_path_name_violated",
    "Dedop.Notebook.compare_name_path_violated",
    "Dedop.Notebook.compare_omitted_violated"
   ],
   "note": "Holds for inspect, and for compare with two names or two paths (or an absolute second path). Negations proved: a path with a name, a name with a relative path, and the omitted second file, which always ends in a TypeError."
  },
  {
   "property": "C86",
   "status": "partial",
   "theorems": [
    "Dedop.Notebook.inspect_notebook_partial",
    "Dedop.Notebook.inspect_quote_violated",
    "Dedop.Notebook.compare_notebook_partial",
    "Dedop.Notebook.compare_quote_violated",
    "Dedop.Notebook.text_calls_partial",
    "Dedop.Notebook.text_calls_violated"
   ],
   "note": "Proved for the shipped templates and all paths without quotes; for every path with a quote the negation is proved (quotes are escaped for Python but not for JSON, or end the JSON string)."
  },
  {
   "property": "C87",
   "status": "partial",
   "theorems": [
    "Dedop.Notebook.shell_direct_partial",
    "Dedop.Notebook.shell_direct_quote_violated",
    "Dedop.Notebook.shell_direct_brace_violated",
    "Dedop.Notebook.shell_window_partial",
    "Dedop.Notebook.shell_window_violated"
   ],
   "note": "Proved for paths without special characters; negations proved for double quotes, for braces when no terminal program is found (the command is then formatted as a template) and for apostrophes with a terminal program. konsole, the command file of macOS and Windows are not covered."
  },
  {
   "property": "C88",
   "status": "partial",
   "theorems": [
    "Dedop.Report.remove_effect",
    "Dedop.Report.remove_cases",
    "Dedop.Report.remove_reports_partial",
    "Dedop.Report.remove_reports_violated",
    "Dedop.Report.add_reports_partial",
    "Dedop.Report.add_reports_violated",
    "Dedop.Report.add_nothing",
    "Dedop.Report.clean_reports_partial",
    "Dedop.Report.clean_declined",
    "Dedop.Report.clean_reports_violated",
    "Dedop.Report.clean_refuses_violated"
   ],
   "note": "The effect of input remove is proved in full. The number is proved when no input matches two patterns, no two added files share a base name and all outputs are products; in all other cases the negation is proved."
  },
  {
   "property": "C89",
   "status": "partial",
   "theorems": [
    "Dedop.Web.web_list_partial",
    "Dedop.Web.web_list_file_violated",
    "Dedop.Web.web_current_mark_violated",
    "Dedop.Web.web_list_missing_violated",
    "Dedop.Web.web_current_partial",
    "Dedop.Web.web_current_dir_violated"
   ],
   "note": "The list is right for a directory without stray files, and the current workspace for the default directory. Negations proved: a stray file is listed, the current one is never marked, no list before the first workspace, the wrong directory for another base directory."
  },
  {
   "property": "C90",
   "status": "partial",
   "theorems": [
    "Dedop.Util.parameters_nearest",
    "Dedop.Util.algorithm_values",
    "Dedop.Util.declaration_local",
    "Dedop.Util.declaration_inherited",
    "Dedop.Util.shipped_names_known",
    "Dedop.Util.unreadable_silent_violated",
    "Dedop.Util.reportsUnreadable_false"
   ],
   "note": "Which declaration counts and which value is taken are proved for all hierarchies of single inheritance. The last clause is false: a value that is missing or of the wrong type is replaced by the default, or None, without a report."
  },
  {
   "property": "C91",
   "status": "proved",
   "theorems": [
    "Dedop.Util.settings_answers",
    "Dedop.Util.nothing_asked",
    "Dedop.Util.settings_warnings",
    "Dedop.Util.settings_path"
   ],
   "note": "All sequences of questions and changes. A settings file is modelled by the assignments it makes; expansion of ~ is a parameter."
  },
  {
   "property": "C92",
   "status": "partial",
   "theorems": [
    "Dedop.Web.coordinates_partial",
    "Dedop.Web.coordinates_violated",
    "Dedop.Web.coordinates_missing"
   ],
   "note": "Proved for tracks along which both coordinates are monotone; the negation is proved for every track that leaves the range of its ends: the first and last values are sent."
  },
  {
   "property": "C93",
   "status": "proved",
   "theorems": [
    "Dedop.Report.status_size"
   ],
   "note": "For every tree; the size of a file is the length of its content, directories count nothing."
  },
  {
   "property": "C94",
   "status": "partial",
   "theorems": [
    "Dedop.Globals.attributes_copied_partial",
    "Dedop.Globals.finish_violated",
    "Dedop.Globals.platform_violated",
    "Dedop.Globals.product_name_level",
    "Dedop.Globals.product_names_differ_iff",
    "Dedop.Globals.product_names_same_violated"
   ],
   "note": "Proved for inputs with a product name. Negations: without one the run fails at its end with open, undescribed products; the L1B product lacks xref_platform; the names of both products are equal unless the name of the input contains _A__."
  },
  {
   "property": "C95",
   "status": "partial",
   "theorems": [
    "Dedop.Globals.iso_reads_back",
    "Dedop.Globals.iso_denotes",
    "Dedop.Globals.iso_order",
    "Dedop.Globals.iso_defined",
    "Dedop.Globals.times_partial",
    "Dedop.Globals.region_times_violated",
    "Dedop.Globals.region_times_reversed_violated",
    "Dedop.Globals.region_first_record_violated"
   ],
   "note": "Format proved for all times (rationals) up to the year 9999, and the records without a region. With a region the last time is that of the record before: negations proved, including a reversed interval and a failure when only the first record is inside."
  },
  {
   "property": "C96",
   "status": "partial",
   "theorems": [
    "Dedop.Util.Fetch.run_tame",
    "Dedop.Util.Fetch.fetch_partial",
    "Dedop.Util.Fetch.restored_iff",
    "Dedop.Util.Fetch.fetch_closed_violated",
    "Dedop.Util.Fetch.fetch_closed_before"
   ],
   "note": "Proved for every block that leaves the two fetched streams open; the streams are restored if and only if that is the case (a closed stream makes the restoring code raise first: negation proved)."
  },
  {
   "property": "C97",
   "status": "partial",
   "theorems": [
    "Dedop.Lineage.telemetry_copied_partial",
    "Dedop.Lineage.surface_type_violated",
    "Dedop.Lineage.weighting_violated",
    "Dedop.Lineage.getitem_exact"
   ],
   "note": "Proved for 24 variables of both L1B formats and 9 of L1BS, all files and histories. Negations: surf_type of L1BS is the constant of the null type; weighting is never given a value."
  },
  {
   "property": "C98",
   "status": "partial",
   "theorems": [
    "Dedop.Lineage.roll_pointing_violated",
    "Dedop.Lineage.pointing_not_read",
    "Dedop.Lineage.pointing_is_mispointing"
   ],
   "note": "Negation proved: roll_sat_pointing (and yaw) of the input are never read; the angles come from the mispointing of the instrument."
  },
  {
   "property": "C99",
   "status": "partial",
   "theorems": [
    "Dedop.Process.record_counter_partial",
    "Dedop.Process.record_counter_no_drops",
    "Dedop.Process.record_counter_violated",
    "Dedop.Process.done_in_order"
   ],
   "note": "The counter is the position plus the number of surfaces dropped before it, so it is right exactly for products without dropped surfaces before the record; negation proved."
  },
  {
   "property": "C100",
   "status": "partial",
   "theorems": [
    "Dedop.Dummy.dummy_work_and_files",
    "Dedop.Dummy.dummy_two_files",
    "Dedop.Dummy.dummy_cancelled",
    "Dedop.Dummy.dummy_errors",
    "Dedop.Dummy.dummy_exception_violated",
    "Dedop.Dummy.run_dummy_not_reported"
   ],
   "note": "Work, products and stopping proved. The error case is false: the exception class is not defined in the module, so that a NameError passes through the run command (negation proved). Time spent is not modelled."
  },
  {
   "property": "C101",
   "status": "partial",
   "theorems": [
    "Dedop.Conf.shipped_provides_partial",
    "Dedop.Conf.antenna_pattern_violated",
    "Dedop.Conf.cryosat_rejected_violated",
    "Dedop.Conf.cryosat_others"
   ],
   "note": "All declared parameters of the default files except the antenna pattern, which no shipped file has (negation proved); the CryoSat-2 characterisation file is rejected (negation proved). Tables transcribed from the JSON files; numbers as rationals."
  },
  {
   "property": "C102",
   "status": "partial",
   "theorems": [
    "Dedop.Conf.value_same_iff",
    "Dedop.Conf.value_violated",
    "Dedop.Conf.fraction_violated",
    "Dedop.Conf.wrong_values_rejected",
    "Dedop.Conf.value_read_as",
    "Dedop.Conf.null_read"
   ],
   "note": "value_read_as: what is read instead of a value of another type, option by option type. The exceptions are characterised exactly; negations proved: the text false is read as true, 2.5 as 2."
  },
  {
   "property": "C103",
   "status": "partial",
   "theorems": [
    "Dedop.Conf.options_without_effect",
    "Dedop.Conf.option_effect_violated",
    "Dedop.Conf.options_are_read_partial",
    "Dedop.Conf.used_or_unused",
    "Dedop.Chain.setting_changes_waveform"
   ],
   "note": "Negation proved: five switches have no effect in any program that reads what the processing reads. setting_changes_waveform: nine options (azimuth method, window and width, both corrections, masking, zeros, padding, looks) and the look angle bounds change the waveform of some surface. The two calibration switches: C81. For the remaining options it is proved that different values can be told apart by what is read, not that the products differ."
  },
  {
   "property": "C104",
   "status": "proved",
   "theorems": [
    "Dedop.Conf.Derived.derived_values",
    "Dedop.Conf.Derived.derived_stable",
    "Dedop.Conf.Derived.derived_available"
   ],
   "note": "Over exact numbers."
  },
  {
   "property": "C105",
   "status": "partial",
   "theorems": [
    "Dedop.Report.command_reported_iff",
    "Dedop.Report.current_commands_reported_partial",
    "Dedop.Report.command_reported_violated",
    "Dedop.Report.cfgCommand_effect"
   ],
   "note": "The exceptions are characterised exactly for every state; commands on the current workspace are always reported after any session. Negation proved: copying a configuration in a new workspace is a TypeError, a missing workspace an internal WorkspaceError."
  },
  {
   "property": "C106",
   "status": "proved",
   "theorems": [
    "Dedop.Report.list_workspaces_shows",
    "Dedop.Report.list_configs_shows",
    "Dedop.Report.list_inputs_shows",
    "Dedop.Report.list_outputs_shows",
    "Dedop.Report.status_shows"
   ],
   "note": "On the file system model of Workspace (regular files and directories). For configurations, outputs and status the selected workspace exists; otherwise see C105."
  },
  {
   "property": "C107",
   "status": "proved",
   "theorems": [
    "Dedop.Chain.point_peaks_in_centre",
    "Dedop.Chain.point_peak_exact",
    "Dedop.Chain.demo_surface"
   ],
   "note": "Over real and complex numbers. The echo model is part of the statement (PointEcho): linear range within the burst, deramped samples, no migration in the window. With the approximate azimuth method the beam has to point to the surface exactly (Steered). Antenna weighting off; Gaussian fit left out except for the number of its beams."
  },
  {
   "property": "C108",
   "status": "proved",
   "theorems": [
    "Dedop.Chain.record_own_stack",
    "Dedop.Chain.own_bursts_matter"
   ],
   "note": "For the steps from the calibrated pulses to the waveform; numbers exact, antenna weighting off, Gaussian fit left out except for the number of its beams. The state an algorithm keeps is read off the code: only closest_burst_index can survive a call."
  },
  {
   "property": "C109",
   "status": "proved",
   "theorems": [
    "Dedop.Chain.approximate_loss_bounded",
    "Dedop.Chain.approximate_loses"
   ],
   "note": "Over real and complex numbers, under the echo model of C107. The steering error of a look is read off the burst (miss); that every look of a track is within half a beam is a hypothesis, not proved of the surface locations. approximate_loses: the loss occurs."
  },
  {
   "property": "C110",
   "status": "partial",
   "theorems": [
    "Dedop.Objects.surface_attribute_holds_last_partial",
    "Dedop.Objects.burst_attribute_holds_last_partial",
    "Dedop.Objects.burst_velocity_holds_last",
    "Dedop.Objects.surface_vector_reads",
    "Dedop.Objects.burst_vector_reads",
    "Dedop.Objects.norm_of_first_reading",
    "Dedop.Objects.new_surface_fails_iff",
    "Dedop.Objects.burst_items_violated",
    "Dedop.Objects.burst_dictionary_velocity_lost",
    "Dedop.Objects.surface_items_violated",
    "Dedop.Objects.norm_violated",
    "Dedop.Objects.short_vectors",
    "Dedop.Objects.unknown_names",
    "Dedop.Objects.never_readable"
   ],
   "note": "Proved for every attribute that is a place of its own, for the vectors and for the velocity of a burst. The second sentence is false: a velocity component stored as an item or given in a dictionary is accepted and lost (burst_items_violated, burst_dictionary_velocity_lost), a position stored as an item of a surface too (surface_items_violated). The norm of the velocity is that of the first reading (norm_of_first_reading, norm_violated). h, cai and fai can never be read (never_readable)."
  },
  {
   "property": "C111",
   "status": "partial",
   "theorems": [
    "Dedop.Objects.reading_changes_nothing_partial",
    "Dedop.Objects.surface_readings_unseen",
    "Dedop.Objects.reading_changes_nothing_violated"
   ],
   "note": "Proved for all readings except of target_focused, which stores False, and of the norm of the velocity, which is computed once: with these it is false (reading_changes_nothing_violated)."
  },
  {
   "property": "C112",
   "status": "partial",
   "theorems": [
    "Dedop.Multilook.Stats.gauss_moments",
    "Dedop.Multilook.Stats.characterise_look",
    "Dedop.Multilook.Stats.standard_deviation_violated",
    "Dedop.Multilook.Stats.scale_invariant",
    "Dedop.Multilook.Stats.maximum_violated",
    "Dedop.Multilook.Stats.second_half_unused",
    "Dedop.Multilook.Stats.power_violated",
    "Dedop.Multilook.Stats.moments_related",
    "Dedop.Multilook.Stats.skewness_kurtosis_partial",
    "Dedop.Multilook.Stats.skewness_violated",
    "Dedop.Multilook.Stats.fitted_beams",
    "Dedop.Multilook.Stats.failed_fit_violated"
   ],
   "note": "The centre is that of the fitted curve and skewness and kurtosis, when they are numbers, satisfy the relation of moments. The rest is false for every fitting method: the maximum does not depend on the scale of the powers (maximum_violated), only the first half of the samples counts (power_violated), the standard deviation is c/2 instead of |c|/sqrt 2 (standard_deviation_violated), a single beam has no skewness (skewness_violated), after a failed fit all values come from parameters 1 (failed_fit_violated)."
  },
  {
   "property": "C113",
   "status": "partial",
   "theorems": [
    "Dedop.Writer.open_creates",
    "Dedop.Writer.open_creates_with",
    "Dedop.Writer.schemas_agree",
    "Dedop.Writer.l1b_products_open",
    "Dedop.Writer.l1bs_product_open_partial",
    "Dedop.Writer.l1bs_product_open_violated",
    "Dedop.Writer.names_free",
    "Dedop.Writer.bare_file_name_violated",
    "Dedop.Writer.open_twice_fails"
   ],
   "note": "Holds for every list of well-formed declarations and for both L1B products. The L1BS product declares a fill value that does not fit its type (l1bs_product_open_violated), and an output path without a directory cannot be opened (bare_file_name_violated)."
  },
  {
   "property": "C114",
   "status": "partial",
   "theorems": [
    "Dedop.Writer.packed_reads_back",
    "Dedop.Writer.integer_reads_back",
    "Dedop.Writer.declarations",
    "Dedop.Writer.physical_values_read_back",
    "Dedop.Writer.values_read_back_partial",
    "Dedop.Writer.agccode_violated",
    "Dedop.Writer.negative_deviation_violated"
   ],
   "note": "Holds for the physical ranges of the listed variables except two: the gain code 127 is read as missing (agccode_violated) and a negative standard deviation wraps around (negative_deviation_violated)."
  },
  {
   "property": "C115",
   "status": "partial",
   "theorems": [
    "Dedop.Writer.shared_complete",
    "Dedop.Writer.shared_values_partial",
    "Dedop.Writer.surface_type_violated",
    "Dedop.Writer.waveform_violated",
    "Dedop.Writer.shared_pointing_violated",
    "Dedop.Writer.looks_violated"
   ],
   "note": "Holds for all shared variables but surface type, waveform, pointing angles, number of looks and beam angles. The L1BS file says open ocean for every record (surface_type_violated), has the waveform in another unit without a scale factor (waveform_violated), the pointing angles in another unit (shared_pointing_violated) and another number of looks (looks_violated)."
  },
  {
   "property": "C116",
   "status": "proved",
   "theorems": [
    "Dedop.Workspace.during_begins",
    "Dedop.Workspace.during_ends",
    "Dedop.Workspace.killed_during",
    "Dedop.Workspace.interrupted_confined",
    "Dedop.Workspace.interrupted_creation_keeps",
    "Dedop.Workspace.interrupted_rename_keeps",
    "Dedop.Workspace.interrupted_removal_keeps"
   ],
   "note": "Killed between two calls of the operating system; rename, mkdir and unlink happen at once."
  },
  {
   "property": "C117",
   "status": "partial",
   "theorems": [
    "Dedop.Workspace.interrupted_current_partial",
    "Dedop.Workspace.interrupted_current_violated",
    "Dedop.Workspace.command_begins",
    "Dedop.Workspace.command_ends"
   ],
   "note": "Holds for add, copy and current, and for remove and rename of other workspaces. Removing or renaming the current workspace first removes the directory and then writes the marker: in every state with a current workspace there is a point where it names a missing one (interrupted_current_violated)."
  },
  {
   "property": "C118",
   "status": "partial",
   "theorems": [
    "Dedop.Workspace.repeat_remove",
    "Dedop.Workspace.repeat_add",
    "Dedop.Workspace.repeat_current",
    "Dedop.Workspace.repeat_remove_violated",
    "Dedop.Workspace.repeat_config_add_violated",
    "Dedop.Workspace.repeat_copy_violated",
    "Dedop.Workspace.repeat_config_remove",
    "Dedop.Workspace.repeat_config_current",
    "Dedop.Workspace.repeat_config_remove_violated"
   ],
   "note": "Holds for workspace add and current, config current, and for remove of either as long as the directory is there. A removal of the current workspace or configuration killed after it cannot be completed (repeat_remove_violated, repeat_config_remove_violated), an incomplete configuration makes config add fail (repeat_config_add_violated), an incomplete copy is listed as a workspace and stays (repeat_copy_violated)."
  },
  {
   "property": "C119",
   "status": "partial",
   "theorems": [
    "Dedop.Inputs.fnmatch_exact",
    "Dedop.Inputs.fnmatch_ending",
    "Dedop.Inputs.fnmatch_plain",
    "Dedop.Inputs.fnmatch_class",
    "Dedop.Inputs.glob_exact",
    "Dedop.Inputs.star_nc_exact",
    "Dedop.Inputs.named_inputs_added_partial",
    "Dedop.Inputs.missing_input_ignored_violated",
    "Dedop.Inputs.bracket_input_violated",
    "Dedop.Inputs.double_star_fails_violated"
   ],
   "note": "fnmatch and glob of the Python library are modelled. The expansion is exact, and plain names of readable files with distinct base names are added. A missing file beside others is ignored silently (missing_input_ignored_violated), a file with brackets in its name is taken for a pattern (bracket_input_violated), a path that ends in ** always fails (double_star_fails_violated)."
  },
  {
   "property": "C120",
   "status": "partial",
   "theorems": [
    "Dedop.Inputs.missing_name_fails_partial",
    "Dedop.Inputs.input_add_creates_violated",
    "Dedop.Inputs.input_list_missing_violated"
   ],
   "note": "Holds for the commands on workspaces and configurations. input add creates the workspace (input_add_creates_violated), input list reports no inputs (input_list_missing_violated)."
  },
  {
   "property": "C121",
   "status": "partial",
   "theorems": [
    "Dedop.Workspace.run_whole",
    "Dedop.Workspace.confined",
    "Dedop.Workspace.concurrent_apart",
    "Dedop.Workspace.follow_both",
    "Dedop.Workspace.concurrent_create_violated",
    "Dedop.Workspace.concurrent_current_violated",
    "Dedop.Workspace.concurrent_copy_violated"
   ],
   "note": "Each call is a program of single accesses to the files which alone does what the call does (run_whole); its accesses stay within the workspaces it names (confined). Calls that name different workspaces can be interleaved in any way (concurrent_apart). Two calls that create the same configuration (concurrent_create_violated), a deletion beside making the same workspace current (concurrent_current_violated) and two copies to the same name (concurrent_copy_violated) have outcomes that no order of whole calls has."
  },
  {
   "property": "C122",
   "status": "partial",
   "theorems": [
    "Dedop.Workspace.save_alone",
    "Dedop.Workspace.save_alone_rewritten",
    "Dedop.Workspace.concurrent_save_partial",
    "Dedop.Workspace.concurrent_save_violated",
    "Dedop.Workspace.concurrent_save_pieces_violated"
   ],
   "note": "Holds for texts of the same length which are written at once. For any two texts of different lengths an order leaves neither of them (concurrent_save_violated), and so do texts written in pieces (concurrent_save_pieces_violated)."
  },
  {
   "property": "C123",
   "status": "partial",
   "theorems": [
    "Dedop.Workspace.interrupted_save_partial",
    "Dedop.Workspace.interrupted_save_violated",
    "Dedop.Workspace.interrupted_save_pieces_violated"
   ],
   "note": "Holds if the text is written at once and is not shorter than the old one. Otherwise the interruption may leave a mixture (interrupted_save_violated, interrupted_save_pieces_violated)."
  },
  {
   "property": "C124",
   "status": "proved",
   "theorems": [
    "Dedop.Chain.waveform_scales"
   ],
   "note": "For the whole chain from the echoes of the stack to the record: the same error or the same record with the waveform times the square of the common modulus."
  },
  {
   "property": "C125",
   "status": "proved",
   "theorems": [
    "Dedop.Chain.waveform_between",
    "Dedop.Chain.bound_attained",
    "Dedop.Chain.dft_le",
    "Dedop.Chain.compress_le",
    "Dedop.Chain.azimuth_le"
   ],
   "note": "The bound is attained by an example (bound_attained)."
  },
  {
   "property": "C126",
   "status": "partial",
   "theorems": [
    "Dedop.Surface.meridian_step_partial",
    "Dedop.Surface.meridian_track_partial",
    "Dedop.Surface.meridian_angles",
    "Dedop.Surface.meridian_record",
    "Dedop.Surface.meridian_violated",
    "Dedop.Surface.lla_rot",
    "Dedop.Whole.meridian_products_partial",
    "Dedop.Whole.meridian_skips_violated"
   ],
   "note": "Holds for tracks whose surfaces and satellite positions stay away from the axis of the Earth. Near the axis the test whether a position is at the pole bounds each coordinate, a square which does not turn with the meridian: the same place is given different latitudes (meridian_violated). Records at latitude 0 and longitude 0 are skipped, whichever the meridian (meridian_skips_violated). meridian_products_partial is the statement for a whole run and both products."
  },
  {
   "property": "C127",
   "status": "partial",
   "theorems": [
    "Dedop.Surface.mirror_step_partial",
    "Dedop.Surface.mirror_track_partial",
    "Dedop.Surface.mirror_angles",
    "Dedop.Surface.mirror_record",
    "Dedop.Surface.mirror_violated",
    "Dedop.Surface.lla_mir",
    "Dedop.Whole.mirror_products_partial"
   ],
   "note": "Holds for tracks whose surfaces and satellite positions stay outside the square about the axis in which the altitude is computed in another way. There a position above the south pole gets the altitude z - b with z negative (mirror_violated). mirror_products_partial is the statement for a whole run and both products."
  },
  {
   "property": "C128",
   "status": "proved",
   "theorems": [
    "Dedop.Process.causal",
    "Dedop.Process.damaged",
    "Dedop.Process.damaged_product",
    "Dedop.Process.interrupted",
    "Dedop.Process.demo_unseen"
   ],
   "note": "The algorithms are parameters of the loop; that they do not look at records not yet read is the hypothesis Unseen, which holds because they are given the bursts of the working buffers only."
  },
  {
   "property": "C129",
   "status": "proved",
   "theorems": [
    "Dedop.Workspace.add_inputs_repeat",
    "Dedop.Workspace.remove_inputs_repeat",
    "Dedop.Workspace.remove_outputs_repeat",
    "Dedop.Workspace.input_add_repeat",
    "Dedop.Workspace.add_inputs_ends",
    "Dedop.Workspace.remove_inputs_ends",
    "Dedop.Workspace.remove_outputs_ends"
   ],
   "note": "For every point between two calls of the operating system and every place up to which a file has been written."
  },
  {
   "property": "C130",
   "status": "partial",
   "theorems": [
    "Dedop.Workspace.interrupted_add_partial",
    "Dedop.Workspace.interrupted_add_violated",
    "Dedop.Workspace.interrupted_remove_keeps"
   ],
   "note": "At most one file is incomplete, and nothing outside the inputs directory is touched. Files are copied to their final name, so that a beginning of the file replaces what was there and is listed like any other input (interrupted_add_violated)."
  },
  {
   "property": "C131",
   "status": "partial",
   "theorems": [
    "Dedop.Workspace.interrupted_config_partial",
    "Dedop.Workspace.interrupted_config_violated",
    "Dedop.Workspace.config_command_begins",
    "Dedop.Workspace.config_command_ends"
   ],
   "note": "Holds for add, copy and current, and for remove and rename of a configuration that is not the current one. The marker of the current configuration is replaced after the directory has been removed or renamed: killed in between, it names a configuration that does not exist."
  },
  {
   "property": "C132",
   "status": "partial",
   "theorems": [
    "Dedop.Run.products_differ_partial",
    "Dedop.Run.products_kept_partial",
    "Dedop.Run.only_products_written",
    "Dedop.Run.inputs_not_replaced",
    "Dedop.Run.selected_once",
    "Dedop.Run.same_name_violated",
    "Dedop.Run.shared_directory_violated",
    "Dedop.Run.input_replaced_violated"
   ],
   "note": "Holds for inputs with different base names and a directory for every configuration. False for inputs with the same base name, for several configurations with underscores that write into one directory given with -o, and for a directory given with -o that holds inputs; negations proved."
  },
  {
   "property": "C133",
   "status": "partial",
   "theorems": [
    "Dedop.Main.main_uses",
    "Dedop.Main.setting_home",
    "Dedop.Main.programs_agree_partial",
    "Dedop.Main.programs_agree_violated"
   ],
   "note": "What a call uses is proved for every sequence of calls; settings are those at the first call. The web service ignores the setting workspaces_dir, so that the programs agree only without it."
  },
  {
   "property": "C134",
   "status": "partial",
   "theorems": [
    "Dedop.Main.location_partial",
    "Dedop.Main.location_violated",
    "Dedop.Main.location_interrupted_violated"
   ],
   "note": "Holds if the service is always started from the same environment and the first start is not interrupted. An existing file is never changed: it keeps the first environment, and remains empty after a first start that was killed."
  },
  {
   "property": "C135",
   "status": "partial",
   "theorems": [
    "Dedop.Json.restored_spec",
    "Dedop.Json.roundtrip_partial",
    "Dedop.Json.roundtrip_violated",
    "Dedop.Json.open_violated",
    "Dedop.Json.open_refuses",
    "Dedop.Json.new_directory",
    "Dedop.Json.restored_empty"
   ],
   "note": "The dictionary is written with other keys than those that are read: only the workspace without a name in the default directory is restored."
  },
  {
   "property": "C136",
   "status": "partial",
   "theorems": [
    "Dedop.Geo.Iterative.iterative_axis",
    "Dedop.Geo.Iterative.iterative_centre",
    "Dedop.Geo.Iterative.iterative_longitude",
    "Dedop.Geo.Iterative.iterative_mirror",
    "Dedop.Geo.Iterative.iterative_turn",
    "Dedop.Geo.Iterative.iterative_stationary",
    "Dedop.Geo.Iterative.iterative_equator",
    "Dedop.Geo.Iterative.iterative_sphere",
    "Dedop.Geo.Iterative.iterative_converges_wrongly",
    "Dedop.Geo.Iterative.iterative_violated"
   ],
   "note": "Exact on the axis, above the equator, on a sphere and wherever the iteration is stationary; the longitude is always right. For every flattened ellipsoid there is a point at which the first step looks converged: with the delivered constants the result is more than 5 km off."
  },
  {
   "property": "C137",
   "status": "partial",
   "theorems": [
    "Dedop.JsonText.text_restores",
    "Dedop.JsonText.text_ascii",
    "Dedop.JsonText.saved_is_read_partial",
    "Dedop.JsonText.saved_part_missing_violated",
    "Dedop.JsonText.interrupted_third_violated"
   ],
   "note": "Holds for requests with all three parts. A part that is left out is replaced by null and the configuration cannot be read any more; an interrupted save can leave a readable third configuration. Numbers are their texts."
  },
  {
   "property": "C138",
   "status": "partial",
   "theorems": [
    "Dedop.Surface.Epoch.epoch_track",
    "Dedop.Surface.Epoch.epoch_run",
    "Dedop.Surface.Epoch.epoch_utc",
    "Dedop.Surface.Epoch.epoch_utc_violated",
    "Dedop.Process.Epoch.epoch_process"
   ],
   "note": "Holds for everything but the UTC time of the surfaces before the first interpolated one: it is computed from zeros, so that its day does not follow the clock."
  },
  {
   "property": "C139",
   "status": "proved",
   "theorems": [
    "Dedop.Process.Optional.option_process",
    "Dedop.Process.Optional.option_product"
   ],
   "note": "For algorithms and an L1B writer which do not look at the L1B-S file. Writing the global attributes and closing count as one step that may fail in both runs."
  },
  {
   "property": "C140",
   "status": "proved",
   "theorems": [
    "Dedop.UpgradeText.upgrade_refines",
    "Dedop.UpgradeText.upgrade_again",
    "Dedop.UpgradeText.upgrade_same",
    "Dedop.UpgradeText.upgradeFile_spec",
    "Dedop.UpgradeText.upgrade_files_again",
    "Dedop.JsonText.loads_valid",
    "Dedop.JsonText.same_text"
   ],
   "note": "Assumed of Python's numbers: the text repr gives for a number is read as itself. The version of the reference is not NaN, and its changelog does not name __metainf__. An upgrade of a file that is up to date keeps its values, not its layout."
  },
  {
   "property": "C141",
   "status": "proved",
   "theorems": [
    "Dedop.Whole.whole_terminates",
    "Dedop.Whole.products_agree"
   ],
   "note": "The algorithms are those modelled in Surface, Calib, Beams, Azimuth and Chain, over the real numbers. A NaN in a surface location is an outcome of its own, after which the model says nothing."
  },
  {
   "property": "C142",
   "status": "proved",
   "theorems": [
    "Dedop.Whole.record_sources"
   ],
   "note": "np.argsort is any function that sorts. The number of a burst is its index in the file."
  },
  {
   "property": "C143",
   "status": "proved",
   "theorems": [
    "Dedop.Whole.waveforms_bounded"
   ],
   "note": "Over the real numbers, antenna weighting off. The bound is reached (demo_run with demo_energy)."
  },
  {
   "property": "C144",
   "status": "proved",
   "theorems": [
    "Dedop.Whole.echoes_only_power",
    "Dedop.Whole.memory_irrelevant"
   ],
   "note": "Whole processor with the algorithms of the code over the real numbers, antenna weighting on or off. Rounding and overflow of floating point numbers are not modelled."
  },
  {
   "property": "C145",
   "status": "proved",
   "theorems": [
    "Dedop.Whole.products_scale"
   ],
   "note": "As C144."
  },
  {
   "property": "C146",
   "status": "proved",
   "theorems": [
    "Dedop.Whole.own_echoes"
   ],
   "note": "As C144."
  },
  {
   "property": "C147",
   "status": "proved",
   "theorems": [
    "Dedop.Whole.looks_aimed"
   ],
   "note": "As C144. With focusing the moved surface may already have looks, which keep their old direction; the statement excepts it."
  },
  {
   "property": "C148",
   "status": "proved",
   "theorems": [
    "Dedop.Whole.target_in_centre"
   ],
   "note": "As C144. Exact azimuth method, calibrations, focusing and antenna weighting off, at least two looks per stack."
  },
  {
   "property": "C149",
   "status": "proved",
   "theorems": [
    "Dedop.Chain.weighting_changes_power",
    "Dedop.Chain.weighting_off",
    "Dedop.Chain.uniform_weighting",
    "Dedop.Chain.pattern_needed",
    "Dedop.Whole.weighting_products",
    "Dedop.Whole.no_pattern_products"
   ],
   "note": "For one surface as C107 and for the products of whole files. The angles of the pattern are evenly spaced with positive spacing; exact numbers."
  },
  {
   "property": "C150",
   "status": "partial",
   "theorems": [
    "Dedop.Chain.weighted_power_partial",
    "Dedop.Chain.weighted_power_violated",
    "Dedop.Whole.weighted_waveforms_bounded_partial"
   ],
   "note": "Violated (negation proved): inside the pattern the interpolation mixes angles and weights, and weights between 3/4 and 1 give a negative power for a point target. Proved for looks outside the angles of the pattern and for equal weights."
  },
  {
   "property": "C151",
   "status": "partial",
   "theorems": [
    "Dedop.Process.every_record_partial",
    "Dedop.Process.first_invalid",
    "Dedop.Process.every_record_violated",
    "Dedop.Whole.zero_first_record"
   ],
   "note": "Violated (negation proved): a record which is not valid, or outside the region, takes one surface from the queue; the run ends normally as soon as the queue is empty, though records are left: after the first record if that is not valid (then both products are empty, for every file), or after 79 such records. Proved if the first record is valid and at most 78 are not."
  },
  {
   "property": "C152",
   "status": "proved",
   "theorems": [
    "Dedop.Lineage.burst_of_record"
   ],
   "note": "Names of variables without their common suffix; the conversions (radians, waveform, window delay, row of the CAL2 table) are parameters. Attitude angles are those of the mispointing (C98)."
  },
  {
   "property": "C153",
   "status": "proved",
   "theorems": [
    "Dedop.Whole.outside_irrelevant",
    "Dedop.Whole.region_only",
    "Dedop.Whole.region_is_cut"
   ],
   "note": "Whole-file model with exact numbers. Failures of writing are those of a disk, not of the content: they depend on the number of the record only (`World.Steady`). Records left out between two used ones still count as None in both files. The last record in the region is lost in both (C25, violated)."
  },
  {
   "property": "C154",
   "status": "partial",
   "theorems": [
    "Dedop.Whole.distortion_removed_partial",
    "Dedop.Whole.distortion_removed_violated"
   ],
   "note": "Equality of the records without a burst after a gap, and of everything but the powers for all others. Violated for records with the first burst after a gap, which is calibrated twice: a file of three bursts whose second record has four times the power. Whole-file model with exact numbers; samples beyond the window are counted round; failures of writing depend on the number of the record only."
  },
  {
   "property": "C155",
   "status": "proved",
   "theorems": [
    "Dedop.Whole.surface_below"
   ],
   "note": "The pitch in the centre-of-gravity correction is taken as the program does, in radians (C84)."
  },
  {
   "property": "C156",
   "status": "proved",
   "theorems": [
    "Dedop.Whole.gaps_by_time",
    "Dedop.Whole.calibrations_by_time"
   ],
   "note": "Records entered into the queue of bursts; one found after a gap and never taken up, because the run ended, is covered by the first half."
  },
  {
   "property": "C157",
   "status": "proved",
   "theorems": [
    "Dedop.Whole.looks_in_band",
    "Dedop.Whole.looks_unambiguous"
   ],
   "note": "Exact real numbers; surface focusing off; positive light speed, frequency and pulse interval."
  },
  {
   "property": "C158",
   "status": "proved",
   "theorems": [
    "Dedop.Whole.product_shows_results",
    "Dedop.Whole.waveforms_shown",
    "Dedop.Whole.target_read",
    "Dedop.Whole.nan_waveform_unreadable"
   ],
   "note": "Heights and ranges from 500 to 900 km, scalings to 1000 dB, other numbers below 1e18. Exact real numbers are written; rounding is that of the packing. Attributes of a surface other than those of the results, per-beam tables and telemetry of the bursts are arbitrary. The maximum of an empty waveform, which raises, is not modelled."
  },
  {
   "property": "C159",
   "status": "partial",
   "theorems": [
    "Dedop.Whole.record_times_rise",
    "Dedop.Surface.surface_times_violated"
   ],
   "note": "Exact real arithmetic. For files that are not dense the negation is proved at the surfaces from which the records are made: three bursts with rising times give surfaces whose times do not rise."
  },
  {
   "property": "C160",
   "status": "proved",
   "theorems": [
    "Dedop.Whole.nothing_left",
    "Dedop.Whole.products_as_before"
   ],
   "note": "The index of the closest burst is the only attribute of the stages after beam angles that may survive a call in the model; the surface-location algorithm keeps its state on purpose and the buffers are set anew for each surface."
  },
  {
   "property": "C161",
   "status": "partial",
   "theorems": [
    "Dedop.Args.every_word_used",
    "Dedop.Args.options_then_names",
    "Dedop.Args.names_then_options",
    "Dedop.Args.split_names_refused",
    "Dedop.Args.dash_word_refused",
    "Dedop.Args.commands_declared",
    "Dedop.Args.parse_ends",
    "Dedop.Args.repeated_inputs_violated"
   ],
   "note": "argparse of Python 3.11 is modelled and was compared with the library on random lines. The parser above the commands (cate.util.cli) is not part of the code. Violated where a list option is given twice: the first list is dropped without a word."
  },
  {
   "property": "C162",
   "status": "proved",
   "theorems": [
    "Dedop.Monitor.rounded_never_falls",
    "Dedop.Monitor.rounded_near_exact",
    "Dedop.Monitor.rounded_ends_at_100",
    "Dedop.Monitor.rounded_last_shown",
    "Dedop.Monitor.float_last_shown",
    "Dedop.Monitor.exact_feed"
   ],
   "note": "The machine's numbers are rationals rounded to 53 binary digits without bounds of the exponent: neither overflow nor the loss of digits below the smallest normal number is modelled."
  },
  {
   "property": "C163",
   "status": "partial",
   "theorems": [
    "Dedop.Args.typed_lines_current_partial",
    "Dedop.Args.typed_lines_current_violated",
    "Dedop.Args.names_unambiguous",
    "Dedop.Args.order_free",
    "Dedop.Args.usual_line",
    "Dedop.Args.workspace_lines",
    "Dedop.Args.config_lines",
    "Dedop.Args.confirmed_iff"
   ],
   "note": "Composition of C161 with C10 and C61. Violated for names such as .current, which no command refuses. Not covered: lines of config edit and upgrade, input add and remove, output clean, run and commands that start programs; the parser above the commands."
  },
  {
   "property": "C164",
   "status": "proved",
   "theorems": [
    "Dedop.Multilook.rounded_average",
    "Dedop.Multilook.float_average",
    "Dedop.Multilook.rounded_average_mono",
    "Dedop.Multilook.rounded_average_scales",
    "Dedop.Multilook.unrounded"
   ],
   "note": "As for C162, the exponent is unbounded: overflow and numbers below the smallest normal number are not modelled. The statement that a sample is zero exactly if all powers are is about 53 binary digits and up to a million beams."
  },
  {
   "property": "C165",
   "status": "proved",
   "theorems": [
    "Dedop.Whole.records_on_track",
    "Dedop.Whole.records_between",
    "Dedop.Whole.record_times_within"
   ],
   "note": "Numbers are exact. With adaptation to a target the ground position of one surface is moved (C71, C72), which is why that is excepted."
  },
  {
   "property": "C166",
   "status": "proved",
   "theorems": [
    "Dedop.Args.names_alike",
    "Dedop.Args.values_alike",
    "Dedop.Args.switches_joined",
    "Dedop.Args.commands_tidy"
   ],
   "note": "argparse of Python 3.11 is modelled (see C161). The hypotheses on the parser are shown for all commands in commands_tidy."
  },
  {
   "property": "C167",
   "status": "proved",
   "theorems": [
    "Dedop.Writer.packed_rounded",
    "Dedop.Writer.values_rounded",
    "Dedop.Writer.waveform_rounded",
    "Dedop.Writer.iq_rounded",
    "Dedop.Writer.double_binary",
    "Dedop.Writer.offsets_small"
   ],
   "note": "The order of the operations in the NetCDF library is modelled from its documentation. Overflow and numbers near 0 (denormals) are not modelled; waveforms and samples are normal numbers."
  },
  {
   "property": "C168",
   "status": "proved",
   "theorems": [
    "Dedop.Args.run_line_meaning",
    "Dedop.Args.named_files_processed",
    "Dedop.Args.named_files_products",
    "Dedop.Args.bare_file_refused"
   ],
   "note": "argparse of Python 3.11 is modelled (see C161); the values are plain words, other spellings are covered by C166."
  },
  {
   "property": "C169",
   "status": "proved",
   "theorems": [
    "Dedop.Whole.stack_shown",
    "Dedop.Whole.stacks_of_run"
   ],
   "note": "Arithmetic is that of the reals; C167 gives the bytes with rounding. For an all-zero stack see C56."
  },
  {
   "property": "C170",
   "status": "proved",
   "theorems": [
    "Dedop.Whole.looks_steered",
    "Dedop.Whole.stack_from_echoes"
   ],
   "note": "Arithmetic is that of the reals. Bursts after a gap are calibrated twice (C44) and are left out."
  },
  {
   "property": "C171",
   "status": "proved",
   "theorems": [
    "Dedop.Whole.looks_linear",
    "Dedop.Whole.stacks_superpose",
    "Dedop.Whole.waveforms_parallelogram"
   ],
   "note": "Arithmetic is that of the reals. The writing of records may fail depending on their number only."
  },
  {
   "property": "C172",
   "status": "proved",
   "theorems": [
    "Dedop.Whole.delay_moves_looks",
    "Dedop.Whole.delay_moves_waveform"
   ],
   "note": "Arithmetic is that of the reals. CAL2 divides by the measured gain of the receiver at each position, so an echo moves unchanged only without it."
  },
  {
   "property": "C173",
   "status": "proved",
   "theorems": [
    "Dedop.Whole.failure_reasons",
    "Dedop.Whole.slow_record_fatal"
   ],
   "note": "Failures of the argument of `np.arccos` (NaN, outcome `nan`) are not errors of the program and are treated apart. It is not shown whether stacks can begin out of order in the geometry of a real orbit."
  },
  {
   "property": "C174",
   "status": "partial",
   "theorems": [
    "Dedop.Whole.run_completes_partial",
    "Dedop.Whole.slow_record_violated"
   ],
   "note": "Violated: the check of the records when they are read looks at the position only; `acos` raises ValueError for a velocity which is too small and the run ends, in the example with empty products. Holds: without such records a run with the exact method ends normally or for one of the three named reasons."
  },
  {
   "property": "C175",
   "status": "partial",
   "theorems": [
    "Dedop.Info.summary_tells",
    "Dedop.Info.no_outputs_told",
    "Dedop.Info.no_outputs_told_violated",
    "Dedop.Info.no_inputs_told_violated"
   ],
   "note": "The lists, marks and inputs can be told from the text. Violated: with a current configuration that has never been run nothing is said about outputs, and with an empty directory of inputs nothing about inputs."
  },
  {
   "property": "C176",
   "status": "partial",
   "theorems": [
    "Dedop.Info.save_partial",
    "Dedop.Info.save_violated"
   ],
   "note": "Violated for every object: `save` reads `self.base_dir`, which no workspace object has, outside of the `try`; AttributeError. The rest of the method does what is claimed if the attribute existed."
  },
  {
   "property": "C177",
   "status": "partial",
   "theorems": [
    "Dedop.Workspace.saves_per_file_partial",
    "Dedop.Workspace.reads_per_file_partial",
    "Dedop.Workspace.run_start_partial",
    "Dedop.Workspace.save_call_alone",
    "Dedop.Workspace.saves_mixed_violated",
    "Dedop.Workspace.reads_mixed_violated"
   ],
   "note": "Holds file by file, each file being written in one step (what may happen inside is C122, C123); a run has the old constants or all three new files. Violated: for every choice of one of the two texts for each of the three files there is a schedule that ends with it, and likewise for what a client reads."
  },
  {
   "property": "C178",
   "status": "partial",
   "theorems": [
    "Dedop.Workspace.cli_keeps_workspace",
    "Dedop.Workspace.cli_keeps_config",
    "Dedop.Workspace.web_keeps_workspace_partial",
    "Dedop.Workspace.web_delete_resets_violated",
    "Dedop.Workspace.web_delete_config_resets_violated"
   ],
   "note": "Holds on the command line for names that are given. Violated through the web service: deleting any workspace or configuration makes `default` the current one, if it exists, whatever was current."
  }
 ]
}