import json
P=[]
def p(id,title,statement,quant,why,anchors): P.append(dict(id=id,title=title,statement=statement,quantifier=quant,why_tests_cant=why,anchors=anchors))
WM="dedop/ui/workspace_manager.py"
CLI="dedop/cli/main.py"
PR="dedop/proc/sar/processor.py"
AL="dedop/proc/sar/algorithms/"
p("C01","Config upgrade gives every parameter its changelog-determined value",
"After a successful `config upgrade` of one file, every parameter whose last changelog entry newer than the old file's version is '+' or '*' has the value of the shipped default, every parameter whose last such entry is '-' is absent, every other parameter keeps exactly the user's value, and the metadata block is the default's.",
"every user configuration (with or without metadata), every default configuration and every changelog, including changelogs that add, modify and remove the same parameter repeatedly",
"there are unboundedly many changelogs and orders of +,*,- on the same key; the tests replay three fixed files",
[WM+":WorkspaceManager._do_upgrade_config",WM+":WorkspaceManager.upgrade_config"])
p("C02","Config upgrade is idempotent, never downgrades and fails only on a broken default",
"Upgrading an already upgraded configuration changes nothing; a configuration at or above the shipped version is returned unchanged; a successful upgrade ends at max(old version, shipped version); the only failures are a default lacking metadata or lacking a parameter its own changelog says was added/modified.",
"every current and default configuration",
"idempotence over all changelogs and all starting versions cannot be sampled exhaustively",
[WM+":WorkspaceManager._do_upgrade_config",WM+":WorkspaceManager.get_config_version"])
p("C03","Upgrading release by release equals upgrading once",
"If the newer release's changelog extends the older one's, and the newer release lists every parameter whose default it changed, then upgrading first to the older and then to the newer release yields the same configuration as upgrading directly to the newer one.",
"every user configuration and every pair of successive defaults with versions v1 <= v2",
"path independence ranges over pairs of releases and all histories of changes, including future ones",
[WM+":WorkspaceManager._do_upgrade_config"])
p("C04","Unique-name generation terminates with a fresh, smallest-suffix name",
"When adding or copying a workspace or configuration without giving a target name, the generated name does not collide with any existing one, is either the base name or base_k with the smallest k >= 2 that is free, and the search always terminates.",
"every set of existing names and every base name",
"a test fixes a handful of directory contents; termination and minimality are claims over all of them",
[CLI+":ManageWorkspacesCommand.ensure_unique_name",CLI+":ManageConfigsCommand.ensure_unique_name"])
p("C05","Launching notebooks never overwrites a notebook",
"Each inspect/compare launch writes a file whose name was not present in the notebooks directory, all earlier notebook files keep their contents, and n launches create n new files.",
"every directory content and every sequence of launches",
"histories of launches and deletions are unbounded; a test launches a few notebooks into an empty directory",
[WM+":WorkspaceManager._launch_notebook_from_template"])
p("C06","NetCDF listings contain exactly the matching regular .nc files, once each, sorted",
"get_input_names / get_output_names return, in sorted order, exactly the regular files with suffix .nc that match the pattern (or at least one of the patterns), and each file once.",
"every directory content and every None / single / multiple pattern argument",
"unboundedly many directory contents and combinations of overlapping patterns; duplicates show only where patterns overlap",
[WM+":WorkspaceManager.get_nc_filename_list",WM+":WorkspaceManager.get_input_names",WM+":WorkspaceManager.get_output_names"])
p("C07","Shortened titles respect the limit and only elide one end",
"A title within the limit is unchanged; a longer one becomes exactly max_len characters: '...' plus the last max_len-3 characters (mode r) or the first max_len-3 characters plus '...' (mode l).",
"every non-empty title, every limit > 3, both modes",
"off-by-one errors of slices with negative bounds show only for particular relations between length and limit; the claim is about all strings and limits",
[WM+":WorkspaceManager._limit_title"])
p("C08","Output file names: L1B and L1B-S never collide, and distinct inputs get distinct outputs",
"For one processor the L1B and L1B-S outputs of any two inputs are different files, and inputs with different stems produce different L1B (resp. L1B-S) files.",
"every input file path and every configuration name",
"a collision search over strings is unbounded; a collision silently overwrites results",
[PR+":L1BProcessor._process"])
p("C09","The current workspace/config that was set is what is read back",
"After set_current_workspace_name(n) (or set_current_config_name) succeeds, get_current_* returns n until another operation writes it.",
"every name, every file system state and every following history of operations that do not write the marker",
"histories and names (including names with line breaks) are unbounded",
[WM+":_readline",WM+":_writeline",WM+":WorkspaceManager.set_current_workspace_name",WM+":WorkspaceManager.get_current_workspace"])
p("C10","The command line never leaves a dangling current workspace",
"After any sequence of dedop workspace add/remove/copy/rename/set-current commands, the recorded current workspace is unset or names an existing workspace.",
"every sequence of workspace commands with arbitrary names from any valid start state",
"an invariant over all histories of commands with arbitrary names; a test replays one short history with ordinary names",
[CLI+":ManageWorkspacesCommand",WM+":WorkspaceManager"])
p("C11","Workspace operations touch only the workspaces they name",
"Creating, deleting, copying or renaming a workspace leaves every other workspace (all of its files) unchanged; a copy has exactly the source's tree, a rename moves exactly the source's tree, a delete removes exactly the named tree.",
"every file system tree and every pair of plain workspace names",
"a frame condition: nothing else may change, for all other paths and contents; a test looks at the workspaces it created",
[WM+":WorkspaceManager.create_workspace",WM+":WorkspaceManager.delete_workspace",WM+":WorkspaceManager.copy_workspace",WM+":WorkspaceManager.rename_workspace"])
p("C12","A failing workspace/config operation changes nothing",
"If create/delete/copy/rename of a workspace or configuration raises WorkspaceError because of missing or already existing names, the file system is unchanged.",
"every file system tree and every argument",
"every error path in every state of the file system; a test provokes a few errors and looks at part of the tree",
[WM+":WorkspaceManager._assert_workspace_exists",WM+":WorkspaceManager._assert_config_exists",WM+":WorkspaceManager.create_config"])
p("C13","Deleting or copying a workspace is confined to that workspace for every accepted name",
"delete_workspace(name) for any accepted name removes at most one workspace and never the whole workspaces directory.",
"every name accepted by the API, including the empty name",
"the names accepted are unbounded; tests use ordinary names, and the corner that destroys data is the empty one",
[WM+":WorkspaceManager.delete_workspace",WM+":WorkspaceManager.get_workspace_path"])
p("C14","Rewriting a configuration file replaces its whole content",
"When write_config_file returns, the file content is exactly the new text whatever the lengths of old and new text; if the process dies in between, the file holds either the old or the new text.",
"every old content, new content and every crash point between the file operations (including partial writes)",
"the process can be stopped between any two operations and in the middle of a write; tests cannot stop it there",
[WM+":WorkspaceManager.write_config_file"])
p("C15","Saving or upgrading the three configuration files is all-or-nothing per file and ordered",
"Saving/upgrading a configuration updates CHD, then CNF, then CST; after an interruption between files some prefix of the three is new, the rest is old, and a re-run of the upgrade completes it.",
"every triple of contents and every crash point between files",
"the process can be stopped between any two of the three files; tests see complete runs only",
["dedop/webapi/websocket.py:WebSocketService.save_configs",WM+":WorkspaceManager.upgrade_all_config"])
p("C16","Adding and removing inputs is exact",
"After add_inputs succeeds the inputs directory holds for every given path a file of its base name with the content of the last given path of that base name and all other files are unchanged; remove_inputs removes exactly the named files; progress is reported once per path.",
"every directory content and every list of paths (with repetitions and clashing base names)",
"all lists of paths, with repetitions and equal base names in different directories; a test adds a few distinct files",
[WM+":WorkspaceManager.add_inputs",WM+":WorkspaceManager.remove_inputs"])
p("C17","Cleaning outputs empties the directory or reports an error",
"remove_outputs either returns with an empty output directory or raises WorkspaceError; it never reports success while an output file remains.",
"every output directory content, including sub-directories",
"depends on the kinds of all entries and on the listing order of the directory, which the operating system chooses",
[WM+":WorkspaceManager.remove_outputs"])
p("C18","A freshly created configuration is complete, usable and up to date",
"create_config on a workspace yields exactly the three template files, the existence check then succeeds, creating it again fails, and no upgrade is required.",
"every file system tree, workspace and configuration name, every template",
"the statement is about every state in which the command can be called and every name, and links three commands; a test creates one configuration in an empty workspace",
[WM+":WorkspaceManager.create_config",WM+":WorkspaceManager.config_exists",CLI+":_require_upgrade"])
p("C19","Child progress monitors conserve work at any nesting depth",
"If a task run under child(w) starts with total t and reports work items summing to t, the parent receives exactly w in total; in general it receives w*(sum/t); this composes through any nesting of children.",
"every total, every list of reported work amounts and every nesting depth",
"lists of work amounts and nesting of monitors are unbounded; a test runs two levels with round numbers",
["dedop/util/monitor.py:ChildMonitor"])
p("C20","Cancellation requested anywhere is seen everywhere and sticks",
"After cancel() on a console monitor or any (nested) child of it, is_cancelled() is true on the monitor and on all of its descendants, forever.",
"every tree of child monitors and every later sequence of calls",
"the request can come from any monitor of the tree at any time; all later histories of calls count",
["dedop/util/monitor.py:ConsoleMonitor","dedop/util/monitor.py:ChildMonitor"])
p("C21","Console progress is monotone, bounded, reported only on change, and the bar has constant width",
"With non-negative work not exceeding the total, reported percentages never decrease and lie in 0..100; a line is printed iff percentage or message changed; the progress bar always has the configured width.",
"every total > 0, every sequence of progress calls and every bar size",
"monotone, bounded and constant width are claims over all sequences of calls and all sizes, including rounding at halves",
["dedop/util/monitor.py:ConsoleMonitor.progress","dedop/util/monitor.py:ConsoleMonitor._report_progress"])
p("C22","The monitoring context always signals done and restores Ctrl-C",
"`with monitor.starting(...)` calls done exactly once whether the body returns or raises, and afterwards the interrupt handler is the one installed before start.",
"every body outcome and every properly nested use",
"the body can end in every possible way at every nesting; a test covers normal return and one exception",
["dedop/util/monitor.py:Monitor.starting","dedop/util/monitor.py:ConsoleMonitor.start","dedop/util/monitor.py:ConsoleMonitor.done"])
p("C23","Auxiliary parameter lookup",
"Reading a parameter of a CHD/CNF/CST object yields the keyword value if given, else the file value, else the default when optional, else MissingParameterError; the metadata block is never a parameter; repeated reads return the same value; a file of another version is rejected.",
"every file content, keyword set, parameter and sequence of reads",
"the cache is shared by all objects of a class, so that the value can depend on the whole history of objects and reads",
["dedop/conf/auxiliary_file_reader.py:AuxiliaryFileReader","dedop/conf/auxiliary_parameter.py:AuxiliaryParameter.__get__"])
p("C24","Chunked NetCDF reading is transparent",
"Reading variable v at an in-range index i through the reader returns v[i], whatever was read before and whatever the chunk size; reading beyond the end is an error.",
"every variable length, chunk size and history of reads",
"the state of the cache depends on the whole history of reads, and the interesting ones are at chunk borders",
["dedop/data/input/netcdf_reader.py:NetCDFReader.get_value"])
p("C25","Region-of-interest iteration delivers exactly the records in the region",
"Iterating an L1A product with a region of interest yields, in order and once each, exactly the valid records whose position lies in the region (records outside are skipped as None).",
"every latitude/longitude series and every ROI bounds combination",
"every track and every subset of the four bounds, including tracks that leave and re-enter the region or never meet it",
["dedop/data/input/l1a/l1a_dataset.py:L1ADataset.__next__","dedop/data/input/l1a/l1a_dataset.py:L1ADataset.__init__"])
p("C26","Beam angles: one angle per seen surface, a contiguous run capped at the pulse count",
"For each burst the list of seen surfaces is a contiguous run of the surface queue in order, paired one to one with angles, of length at most the pulses per burst; when more are visible, the last ones are kept.",
"every surface queue, visibility pattern and pulse count",
"every pattern of visible surfaces, with gaps, and every length around the number of pulses; a test has one smooth orbit",
[AL+"beam_angles.py:BeamAnglesAlgorithm"])
p("C27","Beam-angle trend",
"The trend is 0 exactly when the list is full, otherwise +1 or -1: +1 for the first burst or after growth, -1 after shrinking, else the previous trend.",
"every sequence of bursts",
"the value depends on the sizes of all earlier lists; a test sees growing, then constant, then shrinking lists once",
["dedop/model/l1a_processing_data.py:L1AProcessingData.calculate_beam_angles_trend",PR+":L1BProcessor.beam_angles"])
p("C28","Stack bookkeeping: every seen surface records the burst once, with the right beam",
"After beam angles are computed for a burst, exactly the surfaces seen by it have that burst appended to their stack once, together with the position of the surface in the burst's list; stack and index lists stay the same length; beam indices lie in [-N/2, N/2).",
"every surface queue with distinct counters and every seen run",
"a loop with a moving start index over two lists; it must be right for every queue and every run of surfaces in it",
[PR+":L1BProcessor.beam_angles","dedop/model/surface_data.py:SurfaceData.add_stack_beam_index"])
p("C29","Stack gathering selects a contiguous window of the right size containing the closest look",
"The gathered stack is a contiguous part of the full stack in order, of size min(n_looks, full size); when truncation happens it contains the beam with the smallest look angle; no index error occurs.",
"every full stack and every n_looks >= 1",
"every sequence of angles and every stack size around the limit, with ties; a test has one typical stack",
[AL+"stack_gathering.py:StackGatheringAlgorithm"])
p("C30","Stack gathering selects the n_looks smallest look angles",
"When the stack is truncated, the selected beams are the n_looks beams closest to nadir.",
"every full stack (true when |look angle| decreases then increases along the stack)",
"true for the angles of an ordinary stack, false in general: no sample of ordinary stacks shows it",
[AL+"stack_gathering.py:StackGatheringAlgorithm"])
p("C31","The closest burst minimises the distance of the beam angle to nadir",
"The burst reported as closest has minimal |beam angle - pi/2| in the stack, the earliest such; it does not depend on earlier surfaces.",
"every non-empty stack; every history for the last part",
"every sequence of angles, with ties and angles on one side only; the last part is about all histories",
[AL+"stack_gathering.py:StackGatheringAlgorithm"])
p("C32","Stack mask vector encodes the mask",
"The mask vector written to the product determines, for each beam, the number of leading valid samples of masks whose invalid samples are trailing.",
"every mask",
"that a code determines the mask is a statement about all pairs of masks",
[AL+"stack_masking.py:StackMaskingAlgorithm.combine_masks"])
p("C33","Masking zeroes exactly the samples rejected by some mask",
"A sample of the masked stack is unchanged if geometry, ambiguity and look-angle masks all accept it and zero otherwise; beams outside the look-angle bounds are all zero; with masking disabled nothing changes.",
"every stack, mask bounds and shift values",
"every sample of every beam for every combination of the masks and every shift, including shifts beyond the window",
[AL+"stack_masking.py:StackMaskingAlgorithm"])
p("C34","Multilooking averages exactly the unmasked beams",
"The multilooked waveform at each sample is the mean over contributing beams of the (weighted) powers; it lies between the smallest and largest contributing power when no weights are used; surfaces without any contributing beam are handled without division by zero.",
"every stack, mask vector, flag setting",
"every stack, every mask and both settings of the flag, including beams and samples that are masked everywhere (0/0)",
[AL+"multilooking.py:MultilookingAlgorithm.compute_multilooking"])
p("C35","Multilooking start/stop beams",
"Start and stop indices are the first and last beam with a non-empty mask, all contributing beams lie between them, and the number of beams start..stop is stop-start+1.",
"every mask vector",
"every mask vector, including empty ones and those with holes at the ends; a test has one without holes",
[AL+"multilooking.py:MultilookingAlgorithm.compute_multilooking"])
p("C36","Antenna weighting interpolates the characterisation table",
"At a tabulated angle the antenna weight equals the tabulated weight and between two tabulated angles it lies between their weights.",
"every monotone table and every angle",
"every table and every angle, on, between and outside its nodes; the formula agrees with interpolation at some points by accident",
[AL+"multilooking.py:MultilookingAlgorithm._select_weight_from_angle"])
p("C37","Azimuth window has the configured shape and support",
"The window is zero outside the configured width centred in the burst, and follows the named shape inside; all windows are symmetric.",
"every burst length, width and windowing method",
"every burst length and width, odd and even, and all four shapes; tests use the width of the instrument",
[AL+"azimuth_processing.py:AzimuthProcessingAlgorithm.construct_azimuth_window"])
p("C38","Approximate azimuth method produces a beam for every seen surface",
"With the approximate method, for each burst and each entry of its beam list there is a row of the beam matrix holding the corresponding focussed beam.",
"every list length and trend",
"every length of the list of angles and every trend: the rows that stay undefined appear at the ends of a track only",
[AL+"azimuth_processing.py:AzimuthProcessingAlgorithm.compute_approximate_method"])
p("C39","The nadir beam is the beam with angle closest to pi/2",
"The beam used as nadir reference has minimal distance to pi/2 among the burst's beams.",
"every non-empty beam list",
"every list length below, at and above half of the pulses, for each trend; tests use full lists",
[AL+"azimuth_processing.py:AzimuthProcessingAlgorithm.get_nadir_beam_angle"])
p("C40","Processing terminates on every input",
"The processing loop terminates for every input product, gap pattern, geometry and cancellation time, within (records + surfaces + gaps) iterations.",
"every record stream, every behaviour of the geometry algorithms, every cancellation schedule",
"termination for all inputs, all behaviours of the algorithms it calls and all schedules of cancellation cannot be observed by running",
[PR+":L1BProcessor._process"])
p("C41","Output records appear in order, at most once, and identically in both products",
"Surfaces are written in creation order, each at most once; the L1B and L1B-S files receive the same surfaces in the same order.",
"every execution",
"order and uniqueness over whole executions, for every pattern of gaps and dropped surfaces; tests compare one product",
[PR+":L1BProcessor._process",PR+":L1BProcessor.clear_old_records"])
p("C42","Only surfaces with enough looks are written, and every surface is written or dropped",
"A surface reaches the outputs iff its stack has at least n_looks//2 beams when it is processed; on normal completion every created surface has been either written or dropped for this reason.",
"every execution",
"every execution: a surface that is lost leaves no trace in the product a test could look at",
[PR+":L1BProcessor._process"])
p("C43","The processing loop never indexes an empty surface queue",
"Whenever the loop selects the working surface the queue is non-empty, and the gap monitor exists whenever it is used.",
"every reachable loop state",
"an exception that needs a particular state of two queues; the claim is that no input leads to it",
[PR+":L1BProcessor._process"])
p("C44","Each record is calibrated exactly once",
"Each valid input record has CAL1 and CAL2 corrections applied exactly once before being used.",
"every execution, including gaps",
"the record after a gap is kept aside and can be calibrated twice or not at all; every pattern of gaps counts",
[PR+":L1BProcessor._process"])
p("C45","Each burst contributes beams at most once",
"Beam angles and azimuth processing run at most once for each input record.",
"every execution",
"a burst stays in the queue over many iterations; that it is focused once is an invariant of the loop",
[PR+":L1BProcessor._process"])
p("C46","Gaps separate processing: no surface stacks bursts from both sides of a gap",
"Surfaces created before a time gap only stack bursts received before it, and surfaces created after it only bursts received after it.",
"every execution with gaps",
"every pattern of gaps and every geometry; a stack mixed over a gap looks like any other stack",
[PR+":L1BProcessor._process"])
p("C47","Cancellation stops within one iteration and leaves closed outputs",
"Once cancellation is visible, at most the current iteration completes, no further record is read after it, both outputs are closed and the status is -1 unless the queue was drained by that very iteration.",
"every cancellation time",
"the request can arrive at any moment; a test cancels at one",
[PR+":L1BProcessor._process"])
p("C48","Every completed input yields closed outputs",
"For every product with at least min_surfs surfaces, the run ends normally with outputs closed even if the data contain gaps.",
"every gap pattern",
"every pattern of gaps, also at the end of the file and before the first surface; tests have files without gaps",
[PR+":L1BProcessor._process"])
p("C49","Processing a file does not depend on the files processed before",
"Running several inputs through one processor gives for each of them the output it would give alone.",
"every list of inputs",
"the object keeps state between files; every history of files, including cancelled and failed ones, counts",
[PR+":L1BProcessor.process",CLI+":RunProcessorCommand.execute"])
p("C50","Progress equals records read",
"The monitor receives one unit per record obtained from the input, at most its length; gap handling adds at most one extra unit per gap.",
"every execution",
"the count is reported from several places of the loop; it must agree for every pattern of gaps and skipped records",
[PR+":L1BProcessor._process"])
p("C51","Geodetic to Cartesian conversion is correct on the ellipsoid and inverts",
"Points at altitude 0 satisfy the ellipsoid equation; converting to Cartesian and back returns latitude, longitude and altitude (exactly on the ellipsoid or for a sphere); scalar and array versions agree.",
"every latitude, longitude, altitude and ellipsoid",
"a continuum of positions and every ellipsoid; poles and the equator are single values that random tests miss",
["dedop/proc/geo/lla2ecef.py:lla2ecef","dedop/proc/geo/ecef2lla.py:ecef2lla"])
p("C52","Angle normalisation terminates in range and preserves the angle",
"The normalised angle lies in [-pi, pi] and differs from the input by a multiple of 2 pi.",
"every finite angle",
"a continuum of angles with exceptional single values at the ends of the interval; termination for all of them",
["dedop/proc/geo/normalize.py:normalize"])
p("C53","Angle between vectors is always defined and in [0, pi]",
"For non-zero vectors the function returns an angle in [0, pi], symmetric in its arguments and invariant under positive scaling, also when rounding pushes the cosine slightly outside [-1,1].",
"every pair of non-zero vectors and rounding error",
"rounding errors push the cosine beyond 1 for particular, nearly parallel vectors only; tests with random vectors do not meet them",
["dedop/proc/functions/vectors.py:angle_between"])
p("C54","NetCDF writer: the n-th record lands at index n of every variable",
"After k successful write_record calls each variable holds at index i < k the value given in the i-th call, missing values stay fill values, and a failing call does not advance the record index.",
"every sequence of records",
"every sequence of records and failing writes; a misplaced index shows only from the second record on",
["dedop/data/output/netcdf_writer.py:NetCDFWriter.write_record"])
p("C55","UTC day rollover",
"Written UTC day and seconds denote the same instant as previous UTC + elapsed time, with seconds in [0, day length).",
"every time, day length and elapsed interval shorter than a day",
"the instants around midnight, for all lengths of a day (leap seconds) and all intervals; test products do not cross midnight",
["dedop/data/output/l1b_writer.py:L1BWriter.write_record","dedop/data/output/l1bs_writer.py:L1BSWriter.write_record"])
p("C56","Waveform scaling is lossless and in range",
"The stored waveform times the stored scale factor equals the multilooked waveform, its maximum is 1; scaled I/Q samples fit a signed byte.",
"every waveform",
"every waveform, including the all-zero one and those with one huge value; a test scales a typical one",
["dedop/data/output/l1b_writer.py","dedop/data/output/l1bs_writer.py"])
p("C57","Run command selects inputs, config and outputs as documented",
"`dedop run` processes exactly the selected inputs in order with the selected or current configuration, refuses outdated configurations, and stops at the first failing input.",
"every command line, workspace state and processor behaviour",
"the table of options given and omitted, for every state of the workspace and every failure of the processor at every input",
[CLI+":RunProcessorCommand.execute"])
p("C58","Surface locations advance along track",
"A new surface is created only when the angular distance since the last surface reaches the resolution, it lies on the segment between the last two burst ground points, and surface focusing replaces at most one surface.",
"every burst sequence",
"every sequence of bursts, including repeated positions and turning tracks; tests have one smooth orbit",
[AL+"surface_locations.py:SurfaceLocationAlgorithm"])
p("C59","Web API never leaves a dangling current workspace or config",
"After any sequence of Web API workspace/config calls the recorded current names exist.",
"every call sequence",
"an invariant over all histories of calls of several clients, which a test with one client and one history does not explore",
["dedop/webapi/websocket.py:WebSocketService"])
p("C60","Range compression preserves energy",
"Range compression (orthonormal FFT with zero padding) preserves the energy of each beam and the shift is a permutation, so no sample is lost.",
"every beam and every padding factor",
"an identity for all complex vectors of all lengths; tests compare one vector up to a tolerance",
[AL+"range_compression.py:RangeCompressionAlgorithm"])
p("C61","The command line never leaves a dangling current configuration",
"After any sequence of command line workspace and config commands, every workspace whose current configuration is recorded does contain a configuration of that name.",
"every sequence of commands, successful or failing, from any tidy state",
"an invariant over all histories of commands, including those that fail half-way",
[CLI+":ManageConfigsCommand",CLI+":ManageWorkspacesCommand"])
p("C62","Azimuth beams are coherent sums that keep the burst's energy",
"The exact azimuth method forms each beam as the coherent sum of the burst's pulses steered to that beam's angle; with the approximate method the beams of a full list carry together exactly the energy of the burst.",
"every burst, number of pulses and steering angle",
"an identity for all bursts, numbers of pulses and angles; tests compare one burst with reference values",
[AL+"azimuth_processing.py:AzimuthProcessingAlgorithm"])
p("C63","Both azimuth methods agree at nadir",
"For the beam with absolute index 0 the exact and the approximate azimuth methods give the same samples.",
"every burst with an even number of pulses",
"an identity between two algorithms for all bursts; tests run each with its own reference values",
[AL+"azimuth_processing.py:AzimuthProcessingAlgorithm"])
p("C64","Geometry corrections align echoes and lose none unnoticed",
"The geometry corrections keep the power of every sample, move the range-compressed beam by the total shift (circularly), and the samples that wrapped around are exactly those the geometry mask rejects.",
"every beam, padding factor and whole-sample shift",
"all beams, all paddings and all shifts, including shifts beyond the window; test shifts are small",
[AL+"geometry_corrections.py:GeometryCorrectionsAlgorithm",AL+"stack_masking.py:StackMaskingAlgorithm",AL+"range_compression.py"])
p("C65","The stack characterisation window lies in the stack",
"The beams used for fitting the stack's power distribution are beams of the stack, include the beam closest to nadir and are at most 249.",
"every stack size and closest beam",
"every stack size and every position of the closest beam, in particular near the ends of a stack",
[AL+"multilooking.py:compute_stack_characterization_params"])
p("C66","Angles in the output files are representable",
"Every beam and look angle written to an output file is stored as a code other than the fill value and read back within half a microradian, including start and stop angles and the unused entries of the tables.",
"every angle occurring in a stack and every record",
"tests compare a few values; overflow of the 16-bit code depends on the value and on the stack",
["dedop/data/output/l1b_writer.py:L1BWriterExtended","dedop/data/output/l1bs_writer.py:L1BSWriter"])
p("C67","Pointing angles are written in the declared unit",
"Roll, pitch and yaw of a record, read back from a variable whose unit is degrees, are the satellite's angles in degrees.",
"every angle",
"the shipped tests have angles near zero, where degrees and radians cannot be told apart",
["dedop/data/output/l1b_writer.py:L1BWriterExtended.write_record","dedop/data/output/l1bs_writer.py:L1BSWriter.write_record"])
p("C68","Every record of the processor is accepted by every writer",
"For all stack and echo sizes, writing the values of a surface raises no exception in any of the three writers: every name is a defined variable and every array fits its dimensions; the n-th surface is record n.",
"every sequence of surfaces, every number of looks and samples",
"the writers reserve sizes from the configuration and the records bring their own; all combinations of both count, a test has the shipped one",
["dedop/data/output/l1b_writer.py:L1BWriterExtended","dedop/data/output/l1b_writer.py:L1BWriter","dedop/data/output/l1bs_writer.py:L1BSWriter"])
p("C69","Per-beam tables of a record describe the same beams",
"Within a record, entry i of every per-beam table (beam angles, look angles, mask vector, echoes) belongs to the same beam, for all of the announced number of useful entries.",
"every stack and every mask",
"the tables differ only for stacks whose first beams are masked",
["dedop/data/output/l1b_writer.py:L1BWriterExtended.write_record","dedop/data/output/l1bs_writer.py:L1BSWriter.write_record",AL+"multilooking.py:compute_multilooking"])
p("C70","Longitudes of a product follow one convention",
"All surface longitudes of a product lie in one range of length 360 degrees, so that neighbouring surfaces away from the edge of that range have neighbouring longitudes.",
"every product, every surface including the first one and those after gaps",
"only the first record of a product and the first after a gap differ; comparing values of a few records, or products over eastern longitudes, does not show it",
[AL+"surface_locations.py:SurfaceLocationAlgorithm","dedop/data/output/l1b_writer.py:L1BWriterExtended.write_record"])
p("C71","Surface focusing works on every product",
"With surface focusing switched on, whether and where a surface of a product is focused depends only on that product and the configuration, not on the products processed before in the same run.",
"every sequence of products processed by one processor",
"every history of a processor object; tests process one product per processor",
[AL+"surface_locations.py:SurfaceLocationAlgorithm","dedop/proc/sar/processor.py:L1BProcessor.process"])
p("C72","A focused surface stays between its neighbours",
"Moving a surface to the closest approach of the focusing target leaves it between the surface before and the surface after it.",
"every track and every target position",
"ranges over all relative positions of target and track, including targets behind the start or beyond the end",
[AL+"surface_locations.py:SurfaceLocationAlgorithm.focus_surface"])
p("C73","Window delay and altitudes of a surface agree",
"For every surface, created directly below a burst, by interpolation or moved by focusing, the window delay times c/2 is the altitude of the satellite minus the altitude of the surface.",
"every track, every history of calls",
"the three code paths compute the delay separately; the relation is over all real inputs",
[AL+"surface_locations.py:SurfaceLocationAlgorithm"])
p("C74","Every saved figure is kept",
"Each figure plotted with an output path can be found afterwards: as a page of the PDF file, in the order of plotting, or as a file of its own in the output directory; no other file is changed.",
"every sequence of plots and close calls of an inspector or comparator",
"needs all histories of plots; two plots that share a file name, or a plot after a close, must be combined to see a loss",
["dedop/ui/figurewriter.py:FigureWriter","dedop/ui/inspect.py:L1bProductInspectorPlots","dedop/ui/compare.py:L1bProductComparator"])
p("C75","Display limits given by the user are used",
"A plot shows exactly the value range given by its limits; a limit that is not given is the minimum or maximum of the data.",
"every plot, every pair of limits including 0, every product",
"the exceptions are single values and single argument combinations among all numbers",
["dedop/ui/inspect.py:L1bProductInspectorPlots","dedop/ui/compare.py:L1bProductComparatorPlots"])
p("C76","An image shows the variable that was asked for",
"The image of a variable shows the values of this variable, and the line plots beside it its chosen row and column.",
"every product, every two-dimensional variable",
"a test that saves the figure checks that a file exists; the relation is between all variables of all products and the picture",
["dedop/ui/inspect.py:L1bProductInspectorPlots.im","dedop/ui/inspect.py:L1bProductInspectorPlots.im_line"])
p("C77","A histogram without limits counts every sample",
"Without limits the histograms of the waveforms of one product, of both products and of their difference count every sample.",
"every product and every pair of products",
"ranges over all value distributions; test products have values inside the range by chance",
["dedop/ui/inspect.py:L1bProductInspectorPlots.waveform_hist","dedop/ui/compare.py:L1bProductComparatorPlots.waveforms_hist"])
p("C78","Inspected waveforms are the waveforms of the product",
"The waveforms an inspector returns for a product written by the processor are the multilooked waveforms, up to the resolution of the file; the comparator shows no difference exactly when the waveforms of the two products agree.",
"every product written by the processor, every pair of products",
"links the writer and the inspector for all waveforms and calibration factors; each side passes its own tests",
["dedop/ui/inspect.py:L1bProductInspector","dedop/ui/compare.py:L1bProductComparator","dedop/data/output/l1b_writer.py:L1BWriterExtended.write_record"])
p("C79","The output format follows the output path",
"Without an output format, an output path with the extension .pdf in any case of letters stands for a PDF file and any other path for a directory; a given format is used whatever the path looks like.",
"every output path and format",
"every path, with every combination of directory, dots and extension; a test tries two",
["dedop/ui/figurewriter.py:FigureWriter.__init__"])
p("C80","The Doppler angle is the inclination of the orbit",
"The Doppler angle of a burst is the angle between the velocity and the horizontal plane, with the sign of the motion, so that the point below the satellite has look angle 0.",
"every position and every velocity that is not vertical",
"ranges over all pairs of vectors; the sign matters only for a climbing satellite, which short test products do not contain",
["dedop/model/l1a_processing_data.py:compute_doppler_angle","dedop/proc/functions/vectors.py:angle_between","dedop/proc/sar/algorithms/stack_gathering.py"])
p("C81","Calibration corrects pulses and spectrum and nothing else",
"With both calibrations off the echoes are unchanged. CAL1 multiplies the power of every pulse by its correction and by sig0_cal / AGC and aligns the phases of pulses that differ by the stored phases; CAL2 divides the spectrum of every pulse by the centred gain profile, restores an echo distorted by it, and leaves a flat profile alone; the two can be exchanged.",
"every burst, all correction tables, every number of samples",
"an identity between transforms of all lengths and for all signals; tests compare one burst with reference values",
["dedop/proc/sar/cal/cal1_algorithm.py:CAL1Algorithm","dedop/proc/sar/cal/cal2_algorithm.py:CAL2Algorithm","dedop/proc/sar/processor.py:L1BProcessor.process"])
p("C82","The sigma0 factor follows the radar equation",
"The sigma0 scaling factor of a beam is the AGC setting minus the path loss of the radar equation in decibels; the factor of a record is the mean over exactly its beams; it decreases with the range; parameters or ranges that are not positive are refused.",
"every instrument, every stack, every range and velocity",
"a closed formula for all real parameters and monotonicity over all pairs of ranges",
["dedop/proc/sar/algorithms/sigma_zero_scaling.py:Sigma0ScalingFactorAlgorithm"])
p("C83","Backscatter does not depend on the receiver setting",
"If the receiver attenuates the echo by more decibels and the AGC setting records it, then the backscatter (calibrated power plus sigma0 factor) stays the same, with and without CAL1.",
"every echo, every AGC setting and change of it, both calibration options",
"links the reader, the calibration and the sigma0 factor for all settings; each has its own tests with one setting",
["dedop/data/input/l1a/l1a_dataset.py:L1ADataset","dedop/proc/sar/cal/cal1_algorithm.py:CAL1Algorithm","dedop/proc/sar/algorithms/sigma_zero_scaling.py:Sigma0ScalingFactorAlgorithm"])
p("C84","The window delay contains the centre-of-gravity correction along the line of sight",
"The window delay of a burst is twice the range plus the centre-of-gravity correction times the cosine of the pitch, divided by the speed of light; the pitch is given in degrees.",
"every packet",
"ranges over all pitches; products with pitch near 0 do not show the unit",
["dedop/data/input/l1a/l1a_dataset.py:L1ADataset","docs/user_manual/input_output_files/um_l1a.rst"])
p("C85","The products named on the command line are the ones shown",
"In inspect and compare a bare file name stands for a file in the outputs of the (first or second) configuration and anything with a directory is a path; without a second file the first one is used, as the help text says.",
"every pair of names and paths, every workspace and configuration, every current directory",
"the mixed cases (name and path) and the omitted argument form a table no test covers; the claim is about all names",
["dedop/cli/main.py:ManageOutputsCommand.execute_inspect","dedop/cli/main.py:ManageOutputsCommand.execute_compare"])
p("C86","A generated notebook opens the product it was made for",
"The notebook made by inspect or compare is the shipped template with, in the place of the placeholder, a Python literal that denotes exactly the path of the product, in valid JSON.",
"every path (every character, also quotes, backslashes, control characters and characters outside ASCII), every notion of printable character",
"two levels of escaping over all strings; a test tries a few paths",
["dedop/ui/workspace_manager.py:WorkspaceManager.inspect_l1b_product","dedop/ui/workspace_manager.py:WorkspaceManager.compare_l1b_products","dedop/ui/data/notebooks/inspect-template.ipynb","dedop/ui/data/notebooks/compare-template.ipynb"])
p("C87","Opening a notebook runs Jupyter for that notebook",
"The text handed to the shell makes it run Jupyter with the notebook and its directory as arguments, directly or inside a terminal window.",
"every path, directory and title, every terminal program",
"quoting by a shell over all strings, and str.format over all strings with braces",
["dedop/ui/workspace_manager.py:WorkspaceManager.launch_notebook"])
p("C88","The counts reported by input and output commands are the numbers of files added and removed",
"After `input add`, `input remove` and `output clean` the number in the message is the number of files that were added or removed; exactly the files named are affected, and a command without `yes` to its question changes nothing.",
"every workspace, every set of files in it, every list of patterns and of files, every answer to the question",
"the number and the effect come from different lists; they differ only for overlapping patterns, equal base names or files of other kinds, and the claim is about all combinations",
["dedop/cli/main.py:ManageInputsCommand.execute_add","dedop/cli/main.py:ManageInputsCommand.execute_remove","dedop/cli/main.py:ManageOutputsCommand.execute_clean","dedop/ui/workspace_manager.py:WorkspaceManager.add_inputs","dedop/ui/workspace_manager.py:WorkspaceManager.remove_inputs"])
p("C89","The web service describes the workspaces as they are",
"The list sent to the web client has every workspace once, with its directory, and marks the current one; the answer to the question for the current workspace is that workspace with its directory.",
"every content of the workspaces directory, every location of it, every current workspace",
"a test has one tidy directory; the claim includes stray files, a missing directory and a manager with another directory",
["dedop/webapi/websocket.py:WebSocketService.get_all_workspaces","dedop/webapi/websocket.py:WebSocketService.get_current_workspace","dedop/webapi/websocket.py:WebSocketService.set_current_workspace"])
p("C90","An algorithm runs with the configured values of its parameters",
"A new algorithm has for every parameter declared by its class or an ancestor the value of the configuration, and if the configuration has none the default of the nearest declaration; declarations for one class do not change others; a parameter with neither is reported.",
"every class hierarchy (single inheritance), every order of declarations, every configuration",
"inheritance and overriding over all hierarchies; a configuration without an entry, or with one of a wrong type, is silently accepted, which no test of the good case shows",
["dedop/util/parameter.py:Parameter","dedop/proc/sar/base_algorithm.py:BaseAlgorithm.collect_parameter_values","dedop/conf/configuration.py:ConfigurationFile"])
p("C91","User settings come from the local file, then the file of the user, then the default",
"Every setting asked for during a session is the one of `dedop-config.py`, else of `~/.dedop/config.py` (made from the template if missing), else the default given, as the files were at the first question; unreadable files only lead to a warning; a setting without a name is refused.",
"every state of both files, every sequence of questions and of changes to the files",
"histories: a change of the files between two questions must not matter, and every combination of missing, broken and readable files",
["dedop/util/config.py:get_config","dedop/util/config.py:get_config_value","dedop/util/config.py:get_config_path"])
p("C92","The coordinates sent for a product bound its track",
"The latitudes and longitudes sent for an input file as its extent are the smallest and the largest of the file.",
"every list of latitudes and longitudes",
"test tracks are monotone; the claim fails for every track over its turning point",
["dedop/webapi/websocket.py:WebSocketService.get_max_min_coordinates"])
p("C93","The size shown by status is the size of all files",
"The size shown by the status command is the sum of the sizes of all files in the workspaces directory, at any depth, in whole MiB.",
"every tree of directories and files",
"trees of unbounded depth and number of files, including empty directories; a test has one small tree",
["dedop/cli/main.py:ShowStatusCommand.execute","dedop/cli/main.py:_dir_size"])
p("C94","Both products carry the attributes of the input",
"When a run ends, the L1B and the L1BS product have the global attributes of the input file (`Not available` for missing ones), the constants used, the same measurement times, and each the product name of its own level, and both are closed.",
"every set of attributes of the input file, every product name, with and without an L1BS product",
"test inputs have all attributes and a regular product name; a missing or unusual one matters only after the whole run has been computed",
["dedop/proc/sar/processor.py:L1BProcessor._process","dedop/data/input/l1a/l1a_dataset.py:L1AGlobals","dedop/data/output/netcdf_writer.py:NetCDFWriter.write_globals"])
p("C95","The measurement times in the products are those of the first and last record read",
"`first_meas_time` and `last_meas_time` denote, to the second, the times of the first and of the last record of the input that lies in the region, in order.",
"every input file, region, chunk size and history of reads, every time from 2000 to the end of year 9999",
"calendar arithmetic over eight thousand years and the reader cache in every state; the region is wrong by one record, which no comparison on a whole file shows",
["dedop/util/time.py:iso_format","dedop/data/input/l1a/l1a_dataset.py:L1ADataset.first_time","dedop/data/input/l1a/l1a_dataset.py:L1ADataset.last_time","dedop/proc/sar/processor.py:L1BProcessor._process"])
p("C96","Fetching the standard streams captures exactly what the block prints and restores the streams",
"Inside `with fetch_std_streams() as (out, err)` all that is printed goes to `out` and `err`, in order and to nothing else; after the block, however it ends, printing goes where it went before.",
"every sequence of actions in the block, including nested blocks, exceptions, replacing and closing the streams",
"each test prints a line and looks at it; what is left behind by a block that fails or closes a stream shows in whatever runs next",
["dedop/util/fetchstd.py:fetch_std_streams"])
p("C97","Telemetry in the products is that of the input at the closest burst",
"Each measurement of the instrument that is repeated in a product (times of the source packet, navigation and tracking status, gains, corrections, surface type) is the value of the variable of the same name in the input, at the burst of the record's stack that is closest to its surface (C31); the L1B and L1BS products agree on it.",
"every input file, chunk size and history of reads, every burst, every change of the working data of the burst on the way",
"some hundred keyword arguments copied by hand through three layers; a test compares a few, and most are constant in the test file",
["dedop/data/input/l1a/l1a_dataset.py:L1ADataset.__getitem__","dedop/data/output/l1b_writer.py:L1BWriterExtended.write_record","dedop/data/output/l1b_writer.py:L1BWriter.write_record","dedop/data/output/l1bs_writer.py:L1BSWriter.write_record"])
p("C98","The satellite's pointing angles in the products derive from those of the input",
"Roll, pitch and yaw under `*_sat_pointing` in a product are determined by the satellite's pointing angles in the input.",
"every input and every way of computing the angles of the product from the bursts",
"with angles near zero in the test file the wrong source gives the same values; that no later computation can repair it is a statement about all of them",
["dedop/data/input/l1a/l1a_dataset.py:L1ADataset.__getitem__","dedop/data/output/l1bs_writer.py:L1BSWriter.write_record"])
p("C99","The record counter of the L1BS product counts its records",
"`records_count` of a record of the L1BS product is the position of the record in the product.",
"every input, with every pattern of gaps, locations and surfaces with too few looks",
"in the test data no surface is dropped, so that the number of the surface and that of the record agree",
["dedop/data/output/l1bs_writer.py:L1BSWriter.write_record","dedop/proc/sar/processor.py:L1BProcessor.new_surface"])
p("C100","The dummy processor reports its work, leaves its products and can be stopped",
"A call of the dummy processor that is not stopped reports exactly the work it announced and leaves exactly its products in the output directory; one that is stopped leaves no files; an input with ERR in its file name is answered by a processor error, which the run command reports as such.",
"every input path, output directory, file system, cancellation schedule and number of records",
"the monitor can ask to stop before any record, and the exception is built only when the error case is reached",
["dedop/model/processor.py:DummyProcessor.process","dedop/cli/main.py:RunProcessorCommand.execute"])
p("C101","The shipped auxiliary files provide what the program declares",
"Every shipped characterisation, configuration and constants file is accepted by its class, and every declared parameter that is not optional can be read from it with a value of its declared kind.",
"every declared parameter, every shipped file, every way of reading numbers from texts, every history of reads",
"values are converted when an algorithm reads them, so that a missing or wrong one shows only under the options that lead there",
["dedop/conf/characterization.py:CharacterisationFile","dedop/conf/configuration.py:ConfigurationFile","dedop/conf/constants.py:ConstantsFile","dedop/ui/data/config/CHD.json","dedop/ui/data/config/CNF.json","dedop/ui/data/config/CST.json"])
p("C102","A parameter has the value that was written in the file",
"The value an algorithm obtains says the same as the value in the auxiliary file (same number, truth value, name, angle or list); anything that cannot be a value of the parameter is rejected.",
"every declared kind of parameter and every JSON value",
"JSON values of all types and sizes against all kinds; a test writes values of the right type",
["dedop/conf/auxiliary_parameter.py:AuxiliaryParameter","dedop/conf/auxiliary_parameter.py:AuxiliaryParameterArray","dedop/conf/enums.py"])
p("C103","Every option in the configuration file has an effect",
"For every option of the configuration file there are two settings under which the processing differs.",
"every option, every pair of settings, every way in which the processing uses the parameters it reads, every history of the descriptors' caches",
"that an option has no effect is a statement about all inputs and all pairs of settings",
["dedop/conf/configuration.py:ConfigurationFile","dedop/conf/auxiliary_parameter.py:AuxiliaryParameter.__get__"])
p("C104","Derived characterisation values agree with those they derive from",
"Wavelength times frequency is the speed of light, chirp slope times pulse length is the bandwidth, pulse and burst repetition intervals are the inverses of the frequencies and the sample interval that of the clock, after any history of accesses; values given to the constructor are kept.",
"every characterisation file, every history of accesses, every pair of values given to the constructor",
"two of the five keep their value in the object, so that the history of accesses matters; tests ask each once",
["dedop/conf/characterization.py:CharacterisationFile"])
p("C105","A command that fails does so with a message",
"A workspace, configuration, output or status command that cannot do its work ends with a command error, which the shell prints as a message; no other exception leaves it.",
"every state of the workspaces directory, every command and every choice of arguments, every history of commands",
"which of the statements can fail depends on what exists: the statements outside of the try block fail only in states that a test has to think of",
["dedop/cli/main.py:_get_workspace_and_config_name","dedop/cli/main.py:ManageConfigsCommand","dedop/cli/main.py:ManageOutputsCommand","dedop/cli/main.py:ShowStatusCommand"])
p("C106","The list commands show exactly what exists",
"The list commands print one line for each workspace, configuration, input or output that exists (and matches the pattern) and no other, in increasing order, numbered from 1, and announce their number; status names all workspaces and the recorded current workspace and configuration.",
"every state of the workspaces directory, every workspace, configuration and pattern, every number of entries",
"any number of entries of any kind and name, and the number of digits changes the width of the lines",
["dedop/cli/main.py:ManageWorkspacesCommand.execute_list","dedop/cli/main.py:ManageConfigsCommand.execute_list","dedop/cli/main.py:ManageInputsCommand.execute_list","dedop/cli/main.py:ManageOutputsCommand.execute_list","dedop/cli/main.py:ShowStatusCommand.execute"])
p("C107","The echo of a point at a surface peaks in the centre of its waveform",
"If every look of a surface sees a point at the surface, then with the Doppler and slant range corrections on, the waveform of the surface has at its centre the power of the echoes times the gain of the coherent sums over pulses and samples, whatever the positions, window delays and velocities of the bursts; every other sample is smaller.",
"every number of pulses, samples and looks, every padding factor, azimuth window, masking and treatment of zeros, both azimuth methods, every geometry and window delay of the bursts for which the point lies inside the window",
"the signs and units of the phases, shifts and delays of five steps have to match for every geometry; a test checks each step with its own reference data",
["dedop/proc/sar/processor.py:L1BProcessor.process","dedop/proc/sar/algorithms/azimuth_processing.py:AzimuthProcessingAlgorithm","dedop/proc/sar/algorithms/stack_gathering.py:StackGatheringAlgorithm","dedop/proc/sar/algorithms/geometry_corrections.py:GeometryCorrectionsAlgorithm","dedop/proc/sar/algorithms/range_compression.py:RangeCompressionAlgorithm","dedop/proc/sar/algorithms/stack_masking.py:StackMaskingAlgorithm","dedop/proc/sar/algorithms/multilooking.py:MultilookingAlgorithm"])
p("C108","A record depends on nothing but its own stack",
"What is computed for a surface, or the error raised, depends on the configuration, the surface and the bursts of its stack only: not on the surfaces processed before it, on other bursts or on memory that was allocated and not written.",
"every stack, every state left by earlier surfaces, every other burst and every content of unwritten memory",
"the algorithm objects live as long as the processor and arrays are allocated without being cleared; the history before a surface is unbounded",
["dedop/proc/sar/processor.py:L1BProcessor.process","dedop/proc/sar/algorithms/stack_gathering.py:StackGatheringAlgorithm.__call__","dedop/proc/sar/algorithms/azimuth_processing.py:AzimuthProcessingAlgorithm.__call__"])
p("C109","The approximate azimuth method loses at most 3.9 dB of the echo of a point",
"With the approximate azimuth method and no azimuth window, a waveform whose looks each point within half a beam of the surface has at its centre at least 4/pi^2 of the power which the exact method gives, and at most that power; no other sample reaches that power.",
"every number of pulses, samples and looks, every padding factor, geometry and window delay, every steering error of up to half a beam, different for every look",
"the loss depends on the pointing of every beam, a continuous quantity; a test compares two methods on the beams of one recorded burst",
["dedop/proc/sar/algorithms/azimuth_processing.py:AzimuthProcessingAlgorithm.compute_approximate_method","dedop/proc/sar/algorithms/azimuth_processing.py:AzimuthProcessingAlgorithm.compute_exact_method","dedop/proc/sar/processor.py:L1BProcessor.process"])
p("C110","The attributes of surfaces and bursts hold what was last stored in them",
"Reading an attribute of a surface or of a burst gives the value last stored under its name, by assignment, by item, through a vector attribute or when the object was made; other operations on the object do not change it. A value which the object accepts under the name of an attribute is what the attribute gives.",
"every sequence of reading, storing and deleting attributes and items, every set of values given at construction",
"every step of the processing communicates through these attributes, in an order that depends on options and data; a test stores a value and reads it back at once",
["dedop/model/surface_data.py:SurfaceData","dedop/model/l1a_processing_data.py:L1AProcessingData"])
p("C111","Reading an attribute of a surface or burst changes nothing",
"Leaving out readings of attributes and items from a program does not change what later readings of the same object give.",
"every sequence of reading, storing and deleting attributes and items",
"an object remembers its whole history; a test reads after one sequence of operations",
["dedop/model/surface_data.py:SurfaceData","dedop/model/l1a_processing_data.py:L1AProcessingData.vel_sat_sar_norm"])
p("C112","The stack statistics in the products describe the stack",
"The maximum power, centre, standard deviation, skewness and kurtosis written for a record are those of the beams of its stack: the power of a beam counts all its samples, the maximum is the largest of these powers, the standard deviation is that of the fitted curve and not negative, skewness and kurtosis are numbers.",
"every stack, every choice of the samples, angles and zero padding, whatever the fitting method returns",
"the values depend on a fit and on all samples of all beams; a test compares one stack with recorded numbers",
["dedop/proc/sar/algorithms/multilooking.py:MultilookingAlgorithm.compute_stack_characterization_params","dedop/proc/sar/algorithms/multilooking.py:gauss_fit","dedop/data/output/l1b_writer.py:L1BWriter"])
p("C113","A product file has exactly the declared dimensions and variables",
"Opening an output file of a run succeeds; afterwards the file has exactly the dimensions and variables that the product declares, each with its type, dimensions, fill value and attributes, and every later write finds its variable.",
"every number of samples and looks, every list of dimension and variable declarations, every output path",
"a test opens one file; that no declaration fails, is lost or overwrites a member of the writer depends on all names and types together",
["dedop/data/output/netcdf_writer.py:NetCDFWriter.open","dedop/data/output/netcdf_writer.py:NetCDFWriter.define_variable","dedop/data/output/l1b_writer.py:L1BWriter","dedop/data/output/l1bs_writer.py:L1BSWriter"])
p("C114","Values in the products can be read back",
"A quantity that lies in the physical range of its variable is read back from a product with an error of at most one unit of the last stored digit; in particular it is neither wrapped around nor taken for a missing value.",
"every packed variable of the three products, every value in the range of the quantity",
"whether a value survives depends on type, scale, offset and fill value of its variable; a test writes a few harmless values",
["dedop/data/output/l1b_writer.py:L1BWriter","dedop/data/output/l1bs_writer.py:L1BSWriter","dedop/data/output/netcdf_writer.py:NetCDFWriter.write_record"])
p("C115","A quantity in both products of a record has the same value",
"A variable that both the L1B and the L1BS product of a run have under the same name (up to the product name) gets the same value for the same surface.",
"every surface, closest burst and constants, every shared variable, both L1B formats",
"the two writers list their sources separately; a test of one writer does not see the other",
["dedop/data/output/l1b_writer.py:L1BWriter.write_record","dedop/data/output/l1bs_writer.py:L1BSWriter.write_record","dedop/model/surface_data.py:SurfaceType"])
p("C116","An interrupted command harms nothing it does not name",
"Wherever a call on workspaces or configurations is killed, the other workspaces are as they were; a call that creates something leaves everything that existed as it was, a renamed workspace is complete under its old or its new name, what is left of a removed one is as it was.",
"every tree of files, every call with every name, every point between two calls of the operating system, every order in which directories are removed and copied",
"a test cannot kill the program at every point",
["dedop/ui/workspace_manager.py:WorkspaceManager.create_workspace","dedop/ui/workspace_manager.py:WorkspaceManager.delete_workspace","dedop/ui/workspace_manager.py:WorkspaceManager.copy_workspace","dedop/ui/workspace_manager.py:WorkspaceManager.rename_workspace","dedop/ui/workspace_manager.py:WorkspaceManager.create_config","dedop/ui/workspace_manager.py:WorkspaceManager.copy_config"])
p("C117","After an interruption the current workspace exists",
"Wherever a workspace command of the command line is killed, the workspace that is current afterwards exists, or there is none.",
"every state which the command line makes, every command with plain names, every point at which it is killed",
"a test cannot kill the program at every point",
["dedop/cli/main.py:ManageWorkspacesCommand","dedop/ui/workspace_manager.py:WorkspaceManager.set_current_workspace_name"])
p("C118","An interrupted command can be repeated",
"Repeating a command that was killed has the effect which it would have had without the interruption.",
"every state which the command line makes, every name, every point at which the command is killed",
"a test cannot kill the program at every point",
["dedop/cli/main.py:ManageWorkspacesCommand","dedop/cli/main.py:ManageConfigsCommand","dedop/ui/workspace_manager.py:WorkspaceManager.create_config"])
p("C119","The inputs named on the command line are the ones that are added",
"Every file named in input add is added or the command fails; a path with wildcards stands for exactly the existing paths which it denotes.",
"every tree of files, every path with and without wildcards, every workspace",
"names and trees of files are unlimited, tests use a few",
["dedop/cli/main.py:_expand_wildcard_paths","dedop/cli/main.py:ManageInputsCommand.execute_add","dedop/ui/workspace_manager.py:WorkspaceManager.add_inputs","dedop/ui/workspace_manager.py:WorkspaceManager.get_nc_filename_list"])
p("C120","A command that names a missing workspace or configuration fails",
"A command that is given the name of a workspace or configuration which does not exist fails and creates nothing.",
"every tree of files, every command, every name",
"names and trees of files are unlimited, tests use a few",
["dedop/cli/main.py:ManageWorkspacesCommand","dedop/cli/main.py:ManageConfigsCommand","dedop/cli/main.py:ManageInputsCommand"])
p("C121","Calls made at the same time have the effect of calls made one after the other",
"When two calls that create, copy, delete or choose workspaces and configurations run at the same time, the results and the files are those of running them one after the other.",
"every two calls, every tree of files, every interleaving of their accesses to the files",
"tests run one call at a time, and the interleavings cannot be enumerated",
["dedop/webapi/main.py:create_application","dedop/webapi/websocket.py:WebSocketService","dedop/ui/workspace_manager.py:WorkspaceManager","dedop/cli/main.py:ManageWorkspacesCommand"])
p("C122","A configuration file saved twice at the same time holds one of the saved texts",
"When two saves of the same configuration file run at the same time, the file afterwards holds the text of one of them.",
"every two texts, every previous content, every interleaving of their accesses to the file",
"tests run one save at a time, and the interleavings cannot be enumerated",
["dedop/ui/workspace_manager.py:WorkspaceManager.write_config_file","dedop/webapi/websocket.py:WebSocketService.save_configs"])
p("C123","An interrupted save of a configuration file leaves the old or the new text",
"If saving a configuration file is interrupted at any point, the file holds either its previous text or the new one.",
"every old and new text, every point of interruption",
"tests do not interrupt the program, and the points and texts are unlimited",
["dedop/ui/workspace_manager.py:WorkspaceManager.write_config_file"])
p("C124","Waveforms scale with the power of the echoes, whatever their phase",
"If the echoes of every burst are multiplied by complex numbers of one common modulus, the processing of a stack ends with the same error, or with the same record, in which only the waveform is multiplied by the square of that modulus.",
"every stack of bursts, every choice of the multipliers with a common modulus, every configuration",
"tests use a few echoes, and rounding hides whether the factor is exact",
["dedop/proc/sar/processor.py:L1BProcessor.process","dedop/proc/sar/algorithms/azimuth_processing.py","dedop/proc/sar/algorithms/stack_gathering.py","dedop/proc/sar/algorithms/geometry_corrections.py","dedop/proc/sar/algorithms/range_compression.py","dedop/proc/sar/algorithms/stack_masking.py","dedop/proc/sar/algorithms/multilooking.py"])
p("C125","Waveform samples lie between zero and the energy received",
"No sample of a written waveform is negative, and none exceeds the energy of the strongest burst of its stack, after the azimuth window, divided by the zero padding factor.",
"every stack of bursts, every echo, every configuration",
"tests look at a few waveforms, and a bound cannot be established by samples",
["dedop/proc/sar/algorithms/azimuth_processing.py","dedop/proc/sar/algorithms/range_compression.py","dedop/proc/sar/algorithms/multilooking.py"])
p("C126","The surfaces and records do not depend on the choice of the prime meridian",
"If all positions and velocities are turned about the axis of the Earth by one angle and all longitudes shifted by it, the surfaces found are the same ones turned, and the beam angles, Doppler angles and records are the same.",
"every track of bursts, every angle, every configuration",
"tests use recorded tracks, whose longitudes are given, and the angles are unlimited",
["dedop/proc/sar/algorithms/surface_locations.py","dedop/proc/sar/algorithms/beam_angles.py","dedop/proc/geo/ecef2lla.py","dedop/proc/geo/lla2ecef.py","dedop/model/l1a_processing_data.py:L1AProcessingData.compute_doppler_angle"])
p("C127","The northern and the southern hemisphere are processed alike",
"If all positions and velocities are mirrored at the plane of the equator and all latitudes change their sign, the surfaces found are the mirrored ones, and the beam angles, Doppler angles and records are the same.",
"every track of bursts, every configuration",
"tests use a few recorded tracks, none of which comes in two mirrored versions",
["dedop/proc/sar/algorithms/surface_locations.py","dedop/proc/sar/algorithms/beam_angles.py","dedop/proc/geo/ecef2lla.py","dedop/proc/geo/lla2ecef.py","dedop/model/l1a_processing_data.py:L1AProcessingData.compute_doppler_angle"])
p("C128","What is written before a record is read does not depend on it",
"Everything the processor does before it tries to read a record is the same whatever that record and the later ones are. So an input which cannot be read to its end gives the first surfaces of the product of the repaired input, and a run stopped after any iteration has done the beginning of what the complete run does.",
"every sequence of records and every continuation of it, every configuration, every number of iterations",
"the continuations are unlimited, and a test of a damaged file shows one point of damage only",
["dedop/proc/sar/processor.py:L1BProcessor.process","dedop/proc/sar/processor.py:L1BProcessor.clear_old_records","dedop/data/input/l1a/l1a_dataset.py:L1ADataset.__next__"])
p("C129","An interrupted addition or removal of inputs can be repeated",
"Wherever adding inputs, removing inputs or removing outputs is killed, repeating the call has the result, reports the progress and leaves the files which it would have without the interruption.",
"every tree of files, every list of paths or names, every point at which the call is killed",
"a test cannot kill the program at every point",
["dedop/ui/workspace_manager.py:WorkspaceManager.add_inputs","dedop/ui/workspace_manager.py:WorkspaceManager.remove_inputs","dedop/ui/workspace_manager.py:WorkspaceManager.remove_outputs","dedop/cli/main.py:ManageInputsCommand"])
p("C130","After an interruption every input is complete",
"Wherever adding or removing inputs is killed, every file that is then listed as an input is as it was before or has the whole content of one of the given paths; everything outside the inputs directory is as it was.",
"every tree of files, every list of paths or names, every point at which the call is killed",
"a test cannot kill the program at every point",
["dedop/ui/workspace_manager.py:WorkspaceManager.add_inputs","dedop/ui/workspace_manager.py:WorkspaceManager.get_input_names","dedop/ui/workspace_manager.py:WorkspaceManager.remove_inputs"])
p("C131","After an interruption the current configuration exists",
"Wherever a configuration command of the command line is killed, the current workspace and the current configuration of every workspace exist, or there is none.",
"every state which the command line makes, every command with plain names, every point at which it is killed",
"a test cannot kill the program at every point",
["dedop/cli/main.py:ManageConfigsCommand","dedop/ui/workspace_manager.py:WorkspaceManager.set_current_config_name"])
p("C132","Every product of a run is kept",
"After a run of any number of configurations on any number of inputs, every input that was processed has its products, made from it with this configuration, in the output directory; no other file is replaced.",
"every workspace, every list of configurations and inputs, every outcome of every single processing",
"which product overwrites which depends on all names of a run together",
["dedop/proc/sar/processor.py:L1BProcessor._process","dedop/cli/main.py:RunProcessorCommand.execute","dedop/data/output/netcdf_writer.py:NetCDFWriter.__init__"])
p("C133","Command line and web service use what they are told to use",
"Every command uses the processor and the workspaces directory of its own call, else those of the settings, else the defaults, whatever was called before in the process; command line and web service work on the same workspaces.",
"every content of the settings files, every sequence of calls, changes of settings and web requests",
"a test sees one call with one content of the settings",
["dedop/cli/main.py:main","dedop/util/config.py:get_config_path","dedop/webapi/main.py:create_application","dedop/ui/workspace_manager.py:WorkspaceManager.__init__"])
p("C134","The location file names the environment of the service",
"After the web service has started, the location file of its version names the environment from which it was started.",
"every sequence of starts from any environments, every point at which a start is killed",
"a test does not start the service from several environments or kill it between two writes",
["dedop/webapi/main.py:main","dedop/conf/defaults.py:ENV_LOCATION_FILE"])
p("C135","A workspace sent to a client and back is the same",
"A workspace made from the dictionary of a workspace equals it; an opened workspace has its own directory.",
"every directory, name and mark of the current workspace",
"the keys that are read and written differ for every workspace, tests only write",
["dedop/ui/workspace.py:Workspace.to_json_dict","dedop/ui/workspace.py:Workspace.from_json_dict","dedop/ui/workspace.py:Workspace.open"])
p("C136","The iterative conversion gives the coordinates of the point or raises",
"ecef2lla_iterative either raises an error or returns geodetic coordinates that, converted back, are the given point.",
"every ellipsoid and every point",
"the points at which the iteration stops too early are rare and depend on the ellipsoid",
["dedop/proc/geo/ecef2lla.py:ecef2lla_iterative"])
p("C137","What a client saves is what it gets back",
"After the web service has saved the parts of a configuration, a request for it gives the same parts with the same values; other files stay as they are.",
"every configuration value with any nesting, strings of any characters, any previous content of the files",
"the escapes, nestings and orders of keys that a text can hold cannot be enumerated",
["dedop/webapi/websocket.py:WebSocketService.save_configs","dedop/webapi/websocket.py:WebSocketService.get_configs","dedop/ui/workspace_manager.py:WorkspaceManager.get_config_json","dedop/ui/workspace_manager.py:WorkspaceManager._open_config_json"])
p("C138","The origin of the clock does not matter",
"If all bursts of an input are measured later by the same amount, a run makes the same surfaces at the same places, writes the same records with the same stacks in the same order and ends in the same way; all written times are later by that amount, and the UTC days by the days of it.",
"every input with any gaps and failures, every amount of time, every configuration with and without focusing",
"the amounts and inputs cannot be enumerated, and tests use one epoch",
["dedop/proc/sar/algorithms/surface_locations.py:SurfaceLocationAlgorithm.__call__","dedop/proc/sar/algorithms/surface_locations.py:SurfaceLocationAlgorithm.find_new_location","dedop/proc/sar/processor.py:L1BProcessor._process","dedop/data/output/l1b_writer.py:L1BWriter.write_record"])
p("C139","The L1B-S product is an option",
"Whether an L1B-S file is written makes no difference to anything else a run does: the L1B product has the same records. If writing to the L1B-S file fails the L1B product has the first of these records.",
"every input, cancellation, failure of any algorithm or writer",
"the moments at which writing fails and the inputs cannot be enumerated",
["dedop/proc/sar/processor.py:L1BProcessor._process"])
p("C140","Upgrading works on files of any layout",
"Upgrading a configuration reads and writes text: whatever the layout, the order of the keys and the spelling of the numbers in the user's file and in the reference, the new file is read as the configuration which C01 to C03 describe, the reported version is its version, and an upgrade that fails leaves the file as it was. Files which are read as the same configuration become the same bytes. Upgrading again leaves every file byte by byte as it is and reports the same versions.",
"every text of the user's file and of the reference, including broken ones; every workspace",
"the texts cannot be enumerated; tests upgrade a few files written by the program itself",
["dedop/ui/workspace_manager.py:WorkspaceManager.upgrade_config","dedop/ui/workspace_manager.py:WorkspaceManager.upgrade_all_config","dedop/ui/workspace_manager.py:WorkspaceManager._do_upgrade_config","dedop/ui/workspace_manager.py:WorkspaceManager._json_to_str","dedop/ui/workspace_manager.py:WorkspaceManager._open_config_json"])
p("C141","A run on a file ends, and the two products have the same records",
"Processing a file of n records ends after at most 3 n + 2 iterations, whatever the values in the file, the configuration, the moment of a cancellation and the failures of writing. The numbers of the surfaces in the L1B product rise strictly. The L1B-S product is a prefix of the L1B product record by record, at most one shorter, empty when it is not wanted and equal to it when the run ends normally.",
"every input file, configuration, schedule of cancellation and failure of writing; the algorithms are those of the code, not arbitrary functions",
"the runs cannot be enumerated, and a run on one file says nothing of the next",
["dedop/proc/sar/processor.py:L1BProcessor.process","dedop/proc/sar/processor.py:L1BProcessor._process","dedop/data/input/l1a/l1a_dataset.py:L1ADataset.__getitem__","dedop/data/input/l1a/l1a_dataset.py:L1ADataset.__next__","dedop/data/output/l1b_writer.py:L1BWriter.write_record","dedop/data/output/l1bs_writer.py:L1BSWriter.write_record"])
p("C142","Every record in the products is made of bursts of the file",
"The bursts that contribute to a record in a product are records of the input file, in their order, no one twice, each with a position other than (0, 0) and within the region of the configuration; their number is at most the configured number of looks and at least half of it.",
"every input file, configuration with at least one pulse, schedule of cancellation and failure of writing; every record of either product",
"tests check the record of one file and never which bursts it was made of",
["dedop/proc/sar/processor.py:L1BProcessor.process","dedop/proc/sar/processor.py:L1BProcessor._process","dedop/data/input/l1a/l1a_dataset.py:L1ADataset.__getitem__","dedop/data/input/l1a/l1a_dataset.py:L1ADataset.__next__","dedop/data/output/l1b_writer.py:L1BWriter.write_record","dedop/data/output/l1bs_writer.py:L1BSWriter.write_record"])
p("C143","The waveforms of the products are bounded by the energy of the file",
"No sample of a waveform in a product is negative, and none is larger than the energy of the strongest burst of the file (the sum of the squares of its calibrated samples after the azimuth window, calibrated once or twice) over the padding factor.",
"every input file, configuration with at least one pulse and antenna weighting off (C150 with it on), schedule of cancellation and failure of writing; every sample of every waveform of either product",
"the samples cannot be enumerated; tests compare single waveforms with stored ones",
["dedop/proc/sar/processor.py:L1BProcessor.process","dedop/proc/sar/processor.py:L1BProcessor._process","dedop/data/input/l1a/l1a_dataset.py:L1ADataset.__getitem__","dedop/data/input/l1a/l1a_dataset.py:L1ADataset.__next__","dedop/data/output/l1b_writer.py:L1BWriter.write_record","dedop/data/output/l1bs_writer.py:L1BSWriter.write_record"])
p("C144","The echoes decide the powers and nothing else",
"Two files with the same orbit, times and instrument settings and arbitrary echoes and calibration corrections are processed alike: the same records are used, the same surfaces made and written, the run ends in the same way, and the records of both products differ only in the samples of the beams and of the waveform. The content of memory that was allocated and not written has no influence on the products.",
"every pair of files that differ in the I and Q samples, the sigma0 calibration and the CAL1 and CAL2 corrections only, every configuration with at least one pulse, schedule of cancellation, failure of writing that depends on the number of the record only, and content of unwritten memory",
"a test compares a run with stored values; that no sample is ever looked at by the geometry, the masks or the selection can only be shown for all samples",
["dedop/proc/sar/processor.py:L1BProcessor.process","dedop/proc/sar/processor.py:L1BProcessor._process","dedop/data/input/l1a/l1a_dataset.py:L1ADataset.__getitem__","dedop/data/output/l1b_writer.py:L1BWriter.write_record","dedop/data/output/l1bs_writer.py:L1BSWriter.write_record"])
p("C145","Products scale with the power of the echoes",
"If the echoes of a file are made a times as strong, with any phase for each burst, then the same records are written, each sample of a waveform is a squared times as large, each beam in the stacks is multiplied like its burst, and nothing else changes.",
"every file, every factor and phases of the bursts, every configuration with at least one pulse, schedule of cancellation and failure of writing that depends on the number of the record only",
"the files and factors cannot be enumerated; linearity of the whole chain is not visible in single results",
["dedop/proc/sar/processor.py:L1BProcessor.process","dedop/proc/sar/processor.py:L1BProcessor._process","dedop/data/input/l1a/l1a_dataset.py:L1ADataset.__getitem__","dedop/data/output/l1b_writer.py:L1BWriter.write_record","dedop/data/output/l1bs_writer.py:L1BSWriter.write_record"])
p("C146","A record depends on the echoes of its own bursts only",
"If the echoes or calibration corrections of some bursts of a file are replaced, by anything, every record of both products in whose stack none of these bursts takes part stays exactly as it was, and the other records keep everything but the samples of beams and waveform: a damaged burst does not spread to surfaces that do not see it.",
"every pair of files that differ in I and Q samples, sigma0 calibration, CAL1 and CAL2 corrections of any set of bursts, every configuration with at least one pulse, schedule of cancellation, and failure of writing that depends on the number of the record only",
"the damage and the stacks cannot be enumerated; that no value is carried from one surface to the next cannot be seen from single products",
["dedop/proc/sar/processor.py:L1BProcessor.process","dedop/proc/sar/processor.py:L1BProcessor._process","dedop/data/input/l1a/l1a_dataset.py:L1ADataset.__getitem__","dedop/data/output/l1b_writer.py:L1BWriter.write_record","dedop/data/output/l1bs_writer.py:L1BSWriter.write_record"])
p("C147","The looks of a record point at the place of the record",
"Each look in the stack of a written record was formed in the direction of the place given in that record, seen from the position and flight direction of the satellite in the burst it comes from, and within the limits of view of that burst. If surface focusing is on, this holds for all records but at most one, the one whose surface was moved to the target.",
"every file, configuration, schedule of cancellation, failure of writing and end of the run; all records of both products",
"beam angles are formed burst by burst and put into the stacks of a moving queue; that index, burst and surface never get out of step over a whole file cannot be seen from a few cases",
["dedop/proc/sar/processor.py:L1BProcessor.process","dedop/proc/sar/processor.py:L1BProcessor._process","dedop/proc/sar/processor.py:L1BProcessor.beam_angles","dedop/proc/sar/algorithms/beam_angles.py:BeamAnglesAlgorithm.__call__","dedop/proc/sar/algorithms/surface_locations.py:SurfaceLocationAlgorithm.__call__","dedop/data/output/l1b_writer.py:L1BWriter.write_record","dedop/data/output/l1bs_writer.py:L1BSWriter.write_record"])
p("C148","A point target appears in the middle of its record",
"If a file holds the echoes of a point at a place wherever the place is in view, then every record written for that place has its largest sample in the middle of the waveform, and this sample lies between the smallest and the largest power of the echoes times the gain of the coherent sums over pulses and samples.",
"every file with such echoes (any orbit, window delays, times and other bursts), every configuration with the exact azimuth method, Doppler and slant range corrections, without calibrations, focusing and antenna weighting; any masking, treatment of zeros, azimuth window, padding; all records of both products",
"simulated point targets test a few geometries; here it must hold for all orbits, windows and queues of the whole processing",
["dedop/proc/sar/processor.py:L1BProcessor.process","dedop/proc/sar/processor.py:L1BProcessor._process","dedop/proc/sar/processor.py:L1BProcessor.beam_angles","dedop/proc/sar/algorithms/beam_angles.py:BeamAnglesAlgorithm.__call__","dedop/proc/sar/algorithms/surface_locations.py:SurfaceLocationAlgorithm.__call__","dedop/data/output/l1b_writer.py:L1BWriter.write_record","dedop/data/output/l1bs_writer.py:L1BSWriter.write_record"])
p("C149","Antenna weighting changes the power of the looks and nothing else",
"With antenna weighting on, the run takes the same course and the products have the same records as without (the same looks, shifts, masks, angles and counts) but for the waveforms, in which the power of each look is multiplied by one weight for its pointing angle. Equal weights multiply the waveform by the weight. With the weighting off the antenna pattern is neither needed nor used; with it on and no pattern in the characterisation file the run ends with an error at the first record and the products stay empty, instead of having unweighted records.",
"every stack of looks, bursts, configuration and antenna pattern; for the products every file, schedule of cancellation and failure of writing that depends on the number of the record only",
"the weighting is off in the shipped configuration and there is no shipped pattern; every stack and pattern matters",
["dedop/proc/sar/algorithms/multilooking.py:MultilookingAlgorithm.apply_antenna_weighting","dedop/proc/sar/algorithms/multilooking.py:MultilookingAlgorithm._select_weight_from_angle","dedop/conf/characterization.py:CharacterisationFile.antenna_weights","dedop/conf/configuration.py:ConfigurationFile.flag_antenna_weighting"])
p("C150","Weighted waveforms are powers",
"With antenna weighting on and weights between 0 and W in the pattern, every sample of a waveform is not negative and at most W times the energy of the strongest burst of the stack, over the padding factor.",
"every stack of looks, bursts, configuration and antenna pattern with non-negative weights",
"whether a sample is negative depends on all angles of the stack and the whole pattern",
["dedop/proc/sar/algorithms/multilooking.py:MultilookingAlgorithm.apply_antenna_weighting","dedop/proc/sar/algorithms/multilooking.py:MultilookingAlgorithm._select_weight_from_angle","dedop/conf/characterization.py:CharacterisationFile.antenna_weights","dedop/conf/configuration.py:ConfigurationFile.flag_antenna_weighting"])
p("C151","Every valid record of the file is used",
"A run that is not cancelled and ends normally has used every valid record of the file inside the region of interest, in order. Records without position or outside the region are passed over and do not keep the others from being processed.",
"every file, every pattern of invalid records, gaps and region of interest, every behaviour of the algorithms",
"an invalid record has its effect only through the length of the queue of surfaces, many records later; the run then ends early without any error",
["dedop/proc/sar/processor.py:L1BProcessor._process","dedop/data/input/l1a/l1a_dataset.py:L1ADataset.__next__","dedop/data/input/input_dataset.py:InputDataset.is_valid"])
p("C152","The measurements of a burst are those of its record",
"For every file and every history of reads, the burst made of record i has the time, position, altitude, velocity components, attitude, corrections, calibration tables, gain, echoes and range of record i, each from the variable of that name, with the angles converted from degrees.",
"every L1A file, chunk size, history of reads and record",
"records are read in chunks that are kept; whether a value is that of its own record depends on everything read before",
["dedop/data/input/l1a/l1a_dataset.py:L1ADataset.__getitem__","dedop/data/input/netcdf_reader.py:NetCDFReader.get_value"])
p("C153","What is outside the region of interest has no influence",
"With a region of interest in the configuration, two files which have the same records in the region give the same course of processing and the same products, whatever their records outside the region are and however many; if those inside stand at other places in the file, only the burst numbers change. Processing with a region holding the records from lo to hi gives the products of the file cut down to these records (without the last, see C25) and processed without a region.",
"every configuration with a region, every pair of files that agree inside it, every length",
"any content of the records left out, before, between and after those used; a test compares two files",
["dedop/proc/sar/processor.py:L1BProcessor.process","dedop/data/input/l1a/l1a_dataset.py:L1ADataset.__init__","dedop/data/input/l1a/l1a_dataset.py:L1ADataset.__next__"])
p("C154","Calibration removes the distortion of the instrument from the products",
"Take echoes as they arrive, and the echoes the instrument makes of them: each pulse multiplied by its CAL1 factor (phase, power, attenuation) and each frequency by the square root of its CAL2 gain. Processing the measured echoes with calibration gives the products that processing the arriving ones without calibration would give: the same course, the same records, the same waveforms, in any combination of the two calibration switches.",
"every pair of files related by the distortion, every configuration, orbit and length",
"a comparison with undistorted echoes is not possible with real files, and one file shows one instrument state only",
["dedop/proc/sar/processor.py:L1BProcessor.process","dedop/proc/sar/cal/cal1_algorithm.py:CAL1Algorithm","dedop/proc/sar/cal/cal2_algorithm.py:CAL2Algorithm"])
p("C155","The surface under a burst is where the measured range says",
"The point of the surface attributed to a burst lies on the vertical through the satellite, below it by the measured range including the centre-of-gravity correction; the satellite is at the position of the record.",
"every record: position, altitude, range, pitch and correction",
"a continuum of positions on an ellipsoid; a test checks a few",
["dedop/data/input/l1a/l1a_dataset.py:L1ADataset.__getitem__","dedop/proc/geo/lla2ecef.py:lla2ecef"])
p("C156","Gaps are found exactly where the times of the file have them",
"A record is treated as the first after a gap if and only if its time is at least one and a half burst intervals after that of the last usable record before it (with a position, inside the region); invalid records in between do not hide or make a gap. The records so treated are those calibrated twice.",
"every file, region, configuration, moment of cancellation and failure",
"any pattern of times, invalid records and regions over any length",
["dedop/proc/sar/processor.py:L1BProcessor.process"])
p("C157","The looks of a record lie within the unambiguous Doppler band",
"Each look of a record comes from a burst in which the place of the record is seen within the unambiguous band: the angle between the flight direction and the direction to the place differs from a right angle, less the angle between the flight direction and the horizontal plane, by at most arcsin(c/(4*PRI*f*v)). In level flight the Doppler shift of the place is at most half the pulse repetition frequency. A burst without velocity, flying straight up or down, or slower than c/(4*PRI*f), contributes no look.",
"every record, every look, every file, configuration and orbit",
"a continuum of positions, velocities and attitudes; an ambiguous look is not visible in a product",
["dedop/proc/sar/algorithms/beam_angles.py:BeamAnglesAlgorithm.__call__","dedop/proc/sar/processor.py:L1BProcessor.process","dedop/model/l1a_processing_data.py:L1AProcessingData.compute_doppler_angle"])
p("C158","What is read from the L1B product is what was computed",
"The extended L1B file of a run has one record for each surface processed, in order, and no record fails to be written. A reader finds the time, position and velocity exactly, latitude and longitude in degrees to half a millionth, height and range to 0.05 mm, the sigma0 scaling to 0.005 dB. If the waveform consists of numbers, none negative and one not zero, then the scale factor is its largest sample, and each sample times the scale factor is right to half a part in 4294967294 of it; this is so for every record with masking and antenna weighting off. The echo of a point reads as 1 in the middle of its record. A waveform with a sample that is not a number cannot be read at all.",
"every file, configuration, orbit and course of the run; every record, sample and rounding function",
"unit tests write a record or compute a surface, never both, and compare few values with a tolerance",
["dedop/data/output/l1b_writer.py:L1BWriterExtended.write_record","dedop/data/output/netcdf_writer.py:NetCDFWriter.write_record","dedop/proc/sar/processor.py:L1BProcessor.process","dedop/proc/sar/algorithms/multilooking.py:MultilookingAlgorithm"])
p("C159","The times of the records of a product rise",
"If the times in the input file rise and the bursts are dense, the times of the records of the L1B and of the L1B-S product rise strictly: no two records have the same time and none is out of order, however the run ends, with gaps in the input and with surfaces adapted to a target. Dense means that the movement of the satellite and of the point below it, from one record to another which is less than one and a half burst repetition intervals later, is seen from the satellite under an angle smaller than the angular resolution.",
"every dense file, configuration with positive constants, number of records, course of the run",
"needs arbitrary orbits and numbers of records; a test follows a few bursts and looks at the surfaces, not at the records",
["dedop/proc/sar/algorithms/surface_locations.py:SurfaceLocationAlgorithm.find_new_location","dedop/proc/sar/processor.py:L1BProcessor.process","dedop/model/surface_data.py:SurfaceData.compute_angular_azimuth_beam_resolution"])
p("C160","Nothing left behind by one surface reaches the next",
"While a file is processed, the attributes which an algorithm keeps from one surface to the next have no influence on the following surfaces: if the index of the closest burst left by the earlier surface is replaced by anything before each iteration, the run ends in the same way, reports the same events in the same order and writes the same L1B and L1B-S records.",
"every file, configuration, number of records, course of the run and every overwritten value at each iteration",
"needs every history of surfaces before the one looked at, among them surfaces without any look",
["dedop/proc/sar/algorithms/stack_gathering.py:StackGatheringAlgorithm","dedop/proc/sar/processor.py:L1BProcessor.process"])
p("C161","The words of a command line reach the command",
"A line that a command accepts consists of options, the words these take, and names; every option sets what it was given (the last one of several wins), the names go to the positional arguments in their order, everything else keeps its default, and no word but the separator -- is ignored. Options may stand before or after the names; names on both sides of an option and words that look like unknown options are refused. Every attribute a command reads is declared by its parser. Giving a list option twice (run -i a -i b) silently drops the files given first.",
"every line of words (with at most one --), every parser built from switches, options with one value or a list, and positional arguments; all 30 commands",
"the lines are unbounded and abbreviations, joined short options, values after an equals sign and separators combine in any order",
["dedop/cli/main.py:RunProcessorCommand.configure_parser","dedop/cli/main.py:ManageWorkspacesCommand.configure_parser_and_subparsers","dedop/cli/main.py:ManageConfigsCommand.configure_parser_and_subparsers","dedop/cli/main.py:ManageInputsCommand.configure_parser_and_subparsers","dedop/cli/main.py:ManageOutputsCommand.configure_parser_and_subparsers","dedop/cli/main.py:ShowStatusCommand"])
p("C162","Progress is right although numbers are rounded",
"With every product, quotient and sum of the monitors rounded, the percentages shown never fall and are never negative, whatever the rounding and however many calls are made. As long as the number of calls is not astronomical (ten million million for numbers of 53 binary digits), each percentage differs by at most one from the exact one, none is above 100, and when all work announced has been done the last one is exactly 100.",
"every rounding that keeps order and has a bounded relative error (also: rounding half to even to any number of binary digits), every nesting of sub-tasks, every amount that is not negative",
"rounding errors add up over unbounded numbers of calls and depths of sub-tasks",
["dedop/util/monitor.py:ChildMonitor.progress","dedop/util/monitor.py:ConsoleMonitor.progress","dedop/util/monitor.py:ConsoleMonitor._calc_percentage"])
p("C163","Whatever lines are typed, the current workspace and configuration stay in order",
"Any sequence of typed lines (workspace and config commands and those that only print, accepted or refused, with aliases, abbreviated, joined and repeated options, in any order) leaves the current workspace and the current configuration of every workspace unset, empty or among those listed. Every alias names one command; options before or after the names make no difference; names reach the command in the documented roles (one name for copy is the old name, one for rename the new). A removal needs -y or an answer that is yes in any case or empty.",
"every list of lines of words without slashes or line breaks that do not end in a dot or in .current, with at most one -- each, every answer to questions",
"lines and sessions are unbounded; parsing, name resolution and the files interact",
["dedop/cli/main.py:ManageWorkspacesCommand","dedop/cli/main.py:ManageConfigsCommand","dedop/cli/main.py:_input","dedop/cli/main.py:_get_workspace_and_config_name"])
p("C164","The averaged waveform is right although numbers are rounded",
"With every product, sum and quotient of the average over the beams rounded, a sample of the waveform is NaN exactly if no beam has it; otherwise it is not negative, it is zero exactly if all powers are, and it differs from the exact average by a fraction of it that depends on the number of beams only (less than a part in a thousand million for up to a million beams and numbers of 53 binary digits). Raising powers never lowers a sample, not even by the last digit. Multiplying all powers by a power of two multiplies the waveform by exactly that.",
"every rounding that keeps order and has a bounded relative error, every number of beams and samples, every mask, every power that is not negative",
"rounding errors add up over the beams of a stack; tests compare a few waveforms with a tolerance",
["dedop/proc/sar/algorithms/multilooking.py:MultilookingAlgorithm.compute_multilooking"])
p("C165","The records lie on the measured track",
"Every record of a product is at a record of the input file which can be used, or on the line through two successive ones with no gap between them; time, satellite position, velocity, altitude rate, attitude and, unless surfaces are adapted to a target, the ground position are all taken at the same point of that line. If the file is dense (as in C159) the point lies between the two records: after the first and not after the second.",
"every input file, configuration and end of the run, with gaps, records without position and a region of interest",
"which records of the file a surface lies between depends on the whole history of the run; tests compare a few surfaces of one file",
["dedop/proc/sar/algorithms/surface_locations.py:SurfaceLocationAlgorithm.find_new_location","dedop/proc/sar/algorithms/surface_locations.py:SurfaceLocationAlgorithm.store_first_location","dedop/proc/sar/processor.py:L1BProcessor.process"])
p("C166","All ways to write an option have the same effect",
"In the line of a command an option can be written with any of its names or with any beginning of a long name that fits no other option; a value can be joined with = or follow as its own word, and with a short name also follow at once (-w x, -wx, -w=x); short switches can be joined to one word. One spelling can be replaced by another anywhere in a line before a word -- and the command gets the same values, or the same error is reported, whatever stands before and after it.",
"every command, option, spelling, value and every line around them",
"the rest of the line, the number of names already read and the other options can all interact with a spelling; tests use one spelling in a few lines",
["dedop/cli/main.py:RunProcessorCommand.configure_parser","dedop/cli/main.py:ManageWorkspacesCommand.configure_parser_and_subparsers","dedop/cli/main.py:ManageConfigsCommand.configure_parser_and_subparsers","dedop/cli/main.py:ManageInputsCommand.configure_parser_and_subparsers","dedop/cli/main.py:ManageOutputsCommand.configure_parser_and_subparsers","dedop/cli/main.py:ShowStatusCommand"])
p("C167","Stored values can be read back although numbers are rounded",
"With arithmetic in which every operation has a relative error of at most 2^-53 (the conversion of the declared scale and offset too), every number in the range of a packed variable is stored as a code of its type which is not the fill value, is read with an error of at most 0.502 units of the stored digit, and writing again what was read does not change the file (not claimed for the two variables of C114). A waveform without negative samples and with a positive one is read back with an error of at most 0.51 units of 2^-32 of its largest sample. All I/Q samples of a stack that is not zero get a byte from -127 to 127, and its product with the scale factor differs from the sample by at most 1.001 times the scale factor.",
"every packed variable of the three products, every value in its range, every waveform and stack, every rounding with that error",
"whether a rounding error moves a value into the fill value or out of the type depends on the value; tests compare a few values",
["dedop/data/output/netcdf_writer.py:NetCDFWriter.write_record","dedop/data/output/l1b_writer.py:L1BWriter.write_record","dedop/data/output/l1bs_writer.py:L1BSWriter.write_record"])
p("C168","A typed run line processes the files it names",
"A line of the run command made of its options in any order and number, each with its short or long name, is accepted and means what its parts mean: of repeated options the last counts (the files are those after the last -i), a switch counts wherever it stands. If the line names files, a workspace is given or recorded as current, and the command ends without an error, then for the configuration of the line or the current one (with -a for every configuration) one processor was made with that configuration, output directory and switch, and called once for each of these files in their order, and nothing else was done. With -w and -c and files of different base names every file then has a complete L1B product, and an L1B-S product unless -s is given. A line with a bare file name at its beginning is refused.",
"every line made of these parts, every state of the workspaces, every behaviour of the processor",
"the meaning of a line depends on the order and number of all its words and on what is stored; tests run one or two lines",
["dedop/cli/main.py:RunProcessorCommand.configure_parser","dedop/cli/main.py:RunProcessorCommand.execute","dedop/cli/main.py:main"])
p("C169","The stack of a record can be read from the L1B-S product",
"The L1B-S file of a run has one record for each record made, in their order, and no record fails to be written. For a record whose waveform has a positive sample (antenna weighting off, energy of the bursts below 10^36) a reader finds the number of looks, and a positive scale factor d such that for every look and sample the two stored bytes times d are the real and imaginary parts of the compressed echo with errors below d, where 127 d is the largest part in the stack; the power made of them differs by at most 508 d^2 from that which entered the multilooking, unless the sample was masked there. For looks beyond the stack nothing is found.",
"every input file, configuration and record; every stack, look and sample",
"the scale depends on all samples of the stack, and whether bytes hit the fill value or wrap depends on the data; tests look at one stack",
["dedop/data/output/l1bs_writer.py:L1BSWriter.write_record","dedop/proc/sar/algorithms/range_compression.py:RangeCompressionAlgorithm","dedop/data/output/netcdf_writer.py:NetCDFWriter.write_record"])
p("C170","Every sample of a stack is a double sum of the echoes of one burst",
"With the exact azimuth method, every look in a record of the products (burst not after a gap) is the sum of the calibrated pulses of its burst, each turned by the phase -4*pi/wavelength * |velocity| * pulse interval * cos(angle) * pulse number and weighted with the azimuth window, over the root of the number of pulses, with the angle which the record gives for the look. Every complex sample of the stack is the zero-padded, centred Fourier sum of that look with the shift which the record gives for the geometry corrections.",
"every input file, configuration with the exact method, record, look and sample",
"the looks are selected, reordered and shifted on the way from the bursts to the records; a test compares stages, not the record with the input",
["dedop/proc/sar/algorithms/azimuth_processing.py:AzimuthProcessingAlgorithm","dedop/proc/sar/algorithms/geometry_corrections.py:GeometryCorrectionsAlgorithm","dedop/proc/sar/algorithms/range_compression.py:RangeCompressionAlgorithm","dedop/proc/sar/processor.py:L1BProcessor.process"])
p("C171","Echoes superpose",
"With either azimuth method every look is a sum of the calibrated pulses of its burst, with weights that are the same for all samples and for all files which differ in their echoes only. If the echoes of a file are a times those of a first and b times those of a second file with the same orbit, times, settings and calibrations, then (bursts not after a gap) the runs give corresponding records with the same looks, masks and shifts, and every complex sample of a stack is a times that of the first plus b times that of the second. Of the files with the sums and with the differences of the echoes, the waveforms (weighting off) add up to twice the waveforms of the two files; a sample is undefined in all four or in none.",
"every two files that differ in their echoes, every configuration, record, look, sample",
"linearity is a relation between several runs over whole files; tests check one run against stored values",
["dedop/proc/sar/algorithms/azimuth_processing.py:AzimuthProcessingAlgorithm","dedop/proc/sar/cal/cal1_algorithm.py:CAL1Algorithm","dedop/proc/sar/algorithms/range_compression.py:RangeCompressionAlgorithm","dedop/proc/sar/algorithms/multilooking.py:MultilookingAlgorithm","dedop/proc/sar/processor.py:L1BProcessor.process"])
p("C172","Echoes from further away appear further on in the waveform",
"If the echoes of a file have, against those of another file that is else the same, the phase of a displacement by d positions of the zero-padded range window (2*pi*d*s/(zp*N) in sample s), then (CAL2 off, bursts not after a gap) the runs give corresponding records with the same looks, shifts and masks, and each look of a stack has the same complex samples, d positions further on, counted round the window. Without masking and weighting the same holds of the waveforms.",
"every two such files, every displacement, configuration, record, look and position",
"the position of an echo is kept through calibration, azimuth processing, corrections, padding and averaging; tests check these steps for single values",
["dedop/proc/sar/algorithms/range_compression.py:RangeCompressionAlgorithm","dedop/proc/sar/algorithms/geometry_corrections.py:GeometryCorrectionsAlgorithm","dedop/proc/sar/algorithms/azimuth_processing.py:AzimuthProcessingAlgorithm","dedop/proc/sar/algorithms/multilooking.py:MultilookingAlgorithm"])
p("C173","A run that fails, fails for a stated reason",
"With sound settings (positive constants and sizes, at least two looks, weighting off or with a complete antenna pattern, no focusing on a target), a run over any file that ends with an error does so because: the file cannot be opened with the bounds given; or the records end before there are enough surfaces; or the burst whose beams are being formed has a satellite velocity so small that c/(4 PRI f |v|) exceeds 1; or, with the approximate method, that burst sees no surface; or surfaces wait while the current burst is the only one kept, which happens only after a surface was written whose stack begins with an older burst than that of a surface written before it; or a product cannot be written or finished. In particular none of calibration, stacking, corrections, compression, averaging, weighting and sigma0 fails. A run that is finished formed no beams of a burst that is too slow.",
"every file of any length, every sound configuration, every environment, every way the run fails",
"there is no list of the errors to be expected; that all others are excluded is a statement about all files and all points of the run",
["dedop/proc/sar/processor.py:L1BProcessor._process","dedop/proc/sar/algorithms/beam_angles.py:BeamAnglesAlgorithm","dedop/proc/sar/algorithms/azimuth_processing.py:AzimuthProcessingAlgorithm","dedop/proc/sar/algorithms/surface_locations.py:SurfaceLocationAlgorithm"])
p("C174","A damaged record costs no more than itself",
"If one record of the input has an unusable velocity (zero, or too small for the pulse repetition interval), the run still ends normally and gives the surfaces which do not depend on that record.",
"every file with such a record, every sound configuration",
"the record may stand anywhere and the effect appears only when its beams are formed, many iterations after it was read",
["dedop/proc/sar/algorithms/beam_angles.py:BeamAnglesAlgorithm","dedop/proc/sar/processor.py:L1BProcessor._process"])
p("C175","The summary of a workspace tells what there is",
"From the summary text of a workspace one can tell, whatever the names (without line ends), which workspaces and configurations exist, in their order, which are current, and which input files there are with their sizes in MiB: two situations with the same summary agree in all of this. Where there are no inputs or no outputs, the summary says so.",
"every list of names, every current workspace and configuration, every content of the directories",
"names are arbitrary texts, including ones that look like headings or marks of the summary",
["dedop/ui/workspace_info.py:WorkspaceInfo.get_workspace_info_string"])
p("C176","A workspace object can be saved",
"Saving a workspace object makes its directory, and the directory of the workspaces, unless they exist, and nothing else.",
"every workspace object, every set of existing directories",
"no test calls the method; that it can never succeed is a statement about all objects of the class",
["dedop/ui/workspace.py:Workspace.save"])
p("C177","A configuration is saved and read as a whole",
"When two clients save a configuration at the same time, it is afterwards one of the two saved configurations. A client that asks for a configuration, and a run that is started with it, while it is saved, gets the old or the new one.",
"every schedule of the steps of two calls, every two configurations, every content of the files",
"it depends on the order in which the steps of two threads are carried out",
["dedop/webapi/websocket.py:WebSocketService.save_configs","dedop/webapi/websocket.py:WebSocketService.get_configs","dedop/proc/sar/processor.py:L1BProcessor.__init__"])
p("C178","The choice of the current workspace and configuration is kept",
"Removing or renaming a workspace that is not the current one, and copying any workspace, does not change which workspace is current; the same holds for the configurations of a workspace, and for the command line as for the web service.",
"every tidy state of the files, all plain names, whether the command succeeds or fails",
"it is a statement about all states and names; a test with one other workspace named default does not see what happens",
["dedop/cli/main.py:ManageWorkspacesCommand","dedop/cli/main.py:ManageConfigsCommand","dedop/webapi/websocket.py:WebSocketService.delete_workspace","dedop/webapi/websocket.py:WebSocketService.delete_config"])
with open('/verif/properties.jsonl','w') as f:
    for x in P: f.write(json.dumps(x)+"\n")
print(len(P))
