# Formal model of DeDop/dedop-core — design

The model is written in Lean 4.33.0 under `lean/Verif/`.  Each area of the code has

* a *model* file (`Verif/<Area>/Model.lean`): total, computable functions mirroring the Python
  functions branch by branch, each with a comment citing file and lines in `/repo`;
* a *spec* section: small definitions that do not mention the model, used to state properties;
* a *lemma* file (`Verif/<Area>/Lemmas.lean`) when helpers are needed;
* a *property* file (`Verif/<Area>/Props.lean`): the theorems listed in `MANIFEST.json`, each with
  an `example` showing that a concrete, non-trivial case meets its hypotheses.

Python exceptions are values of `Except`.  Python `dict`/`OrderedDict` are association lists with
unique keys or finite functions.  Floats are replaced by exact numbers (an arbitrary linearly
ordered field, `ℚ` or `ℝ`), which is stated where it matters: rounding is outside the model.

When the code violates a property the negation is proved for a concrete witness
(`…_violated`), together with the strongest true part (`…_partial`).

## Plan per property

| Id | What is modelled | How it is proved |
|----|------------------|------------------|
| C01–C03 | `_do_upgrade_config` over association-list configs, the add/remove lists replayed exactly | induction over the changelog: the two lists characterise the last operation per key; composition of replays for C03 |
| C04 | both `ensure_unique_name` loops as unbounded search | pigeonhole termination, minimality |
| C05 | notebook index search + write on a directory map | invariant over launch histories |
| C06 | `get_nc_filename_list` on directory listings | membership/sortedness; negation: duplicates |
| C07 | `_limit_title` on character lists with Python slices | case analysis |
| C08 | output name construction on character lists | injectivity; negation: the stripped `L1A` prefix collides |
| C09–C13, C59 | abstract file tree, manager operations, CLI and Web API command layers as a state machine | invariants by induction over command lists, frame lemmas, negations for the empty name and Web API rename |
| C14, C15 | byte-level file with seek/write/truncate micro-steps and crash after any prefix | induction over micro-steps; negation for atomicity |
| C16, C17 | inputs/outputs directories as finite maps | induction over path lists |
| C18 | `create_config` on the file tree + template versions | computation on the tree |
| C19–C22 | monitors as a tree; console monitor as a state machine with SIGINT handler | induction on nesting depth / call list |
| C23 | auxiliary reader objects with parameter descriptors and cache | invariant over read histories |
| C24 | `NetCDFReader` chunk cache as state machine | refinement to the plain array for every read history; negation for out-of-range reads |
| C25 | `L1ADataset` ROI + iterator | characterisation of the yielded list; negation: last ROI record lost |
| C26–C28 | `BeamAnglesAlgorithm`, trend, `L1BProcessor.beam_angles`, stack index | list induction |
| C29–C31 | `StackGatheringAlgorithm` | argsort spec, window lemma, unimodality |
| C32, C33 | `StackMaskingAlgorithm` | list induction; negation: ambiguous code |
| C34–C36 | `MultilookingAlgorithm` | sums over lists in an ordered field; negation for interpolation |
| C37–C39 | azimuth window, row placement, nadir search | index arithmetic |
| C40–C50 | `_process` loop as a step machine with arbitrary geometry oracles | well-founded measure; invariants over reachable states; negations by witnesses |
| C51–C53 | `lla2ecef`, `ecef2lla`, `normalize`, `angle_between` over ℝ | real analysis from Mathlib |
| C54–C56 | NetCDF writer, UTC rollover, scaling | invariants / field arithmetic |
| C57 | `RunProcessorCommand.execute` decision logic | case analysis over states |
| C58 | `SurfaceLocationAlgorithm` decision/interpolation logic | field arithmetic |
| C60 | orthonormal DFT + zero padding + shift over ℂ | Parseval |
| C61 | like C10, for the current configuration of each workspace | invariant over command sequences |
| C62 | both azimuth methods over ℂ | unfolding the DFT; Parseval |
| C63 | both azimuth methods over ℂ | equality of the twiddle factors at index 0 |
| C64 | geometry corrections + range compression + mask over ℂ | DFT shift theorem |
| C65 | window indices over ℤ | arithmetic |
| C66 | 16-bit packing with scale and offset, any rounding to nearest | arithmetic; negations: disjoint ranges, padding |
| C67 | the written expressions over ℝ | field arithmetic; negation for the L1B-S file |
| C68 | schemas and records extracted from the source, the record writer | invariant over write histories; finite check of the names |
| C69 | tables of a record from the multilooking model | list indices; negation by a masked first beam |
| C70–C73 | surface locations as for C58, calls on one algorithm object with arbitrary lists | real analysis, induction over calls; negations by concrete tracks |
| C74, C79 | `FigureWriter` on a map of files, calls on one writer shared by the plots | induction over calls; file names of plots split at hyphens; negations for the two products of a comparator and for a closed writer |
| C75–C77 | the plots of inspector and comparator as data drawn, range, counted samples | case analysis, minimum and maximum of lists; negations for all products or by witness |
| C78 | inspector arrays computed from the values of the writer model | field arithmetic; negation for every waveform and factor |
| C80 | `compute_doppler_angle` on vectors of Euclidean space | vector identities, angles; negation for all climbing velocities |
| C81 | `CAL1Algorithm`, `CAL2Algorithm` on complex signals | inversion of the discrete Fourier transform |
| C82–C84 | sigma0 scaling, echo and window delay of the reader | logarithms; negations for all echoes and all small pitches |
| C85 | `Notebook/Model`: path resolution of `inspect` and `compare` as functions of the names and directories. `Notebook/Props`: a resolution rule from the help text; equality where it holds, negations for the three other cases. |
| C86 | `Notebook/Model`: `repr`, doubling of backslashes, `str.replace`. `Notebook/Text`: specification of JSON strings and Python literals as readers; `Notebook/Shipped`: the shipped templates. Induction over the path; a placeholder occurs exactly once. |
| C87 | `Notebook/Shell`: specification of shell words; the model of `str.format` and of the four templates; induction over the text. |
| C88 | `Report/Model`: the three commands on the file system model of `Workspace`. `Report/Props`: number of entries that differ before and after; negations with the general condition under which the number is wrong. |
| C89 | `Web/Props`: the three answers as functions of the file system and two base directories; characterisation of membership in the list, negations for the four deviations. |
| C90 | `Util/Parameter`: class hierarchies as lists of dictionaries; specification `nearest` as a search in the flattened list of decorators; induction over the hierarchy. |
| C91 | `Util/Config`: state machine with a cache; specification without a cache; induction over the history. |
| C92 | `Web/Props`: list with first and last; order lemma for monotone lists, counterexample family. |
| C93 | `Report/Size`: recursion over the tree with the depth as fuel, shown to be enough; sum over the entries. |
| C94 | `Globals/Model`: attributes as dictionary, the two `write_globals` calls, outcome with the state of both files. Lookup after a fold with distinct keys; for the names, induction over the replacement. |
| C95 | `Globals/Iso`: proleptic Gregorian calendar by counting days, formatting; an independent reader and day number give the time back; induction over days. `Globals/Props`: with the transparency of the chunked reader (C24) for all histories. |
| C96 | `Util/Fetch`: the two stream variables of `sys`, buffers with a closed flag, blocks as trees of actions. Induction over the block. |
| C97 | `Lineage/Model`: tables transcribed from the three `write_record` calls and from `__getitem__`; reading through the chunk cache; later assignments to working entries as an arbitrary list. Lookup lemmas and the transparency of the reader (C12). |
| C98 | Same model: two records that differ in the pointing angles only give the same burst. |
| C99 | `Process/Count`: on the traces of the processing loop; the numbers of written and dropped surfaces form a prefix of 0, 1, 2, … |
| C100 | `Dummy/Model`: the loop, the two files and the events of the monitor; as a processor of the model of `run`. Induction over the records and the inputs. |
| C101 | `Conf/Declared`: the three tables of declarations and the shipped files; the theorems for every reader of numbers in texts reduce to one computation. |
| C102 | `Conf/Declared`: the converters on a type of JSON values; case analysis. |
| C103 | `Conf/Options`: a program is any tree of reads of declared attributes; the attributes read in the processing packages are listed with one place each. Induction over the tree with the caches of the descriptors as state. `Chain/Single`, `Chain/Settings`: waveform of a surface with one look, exactly; a pair of configurations with different waveforms for each option of the steps from azimuth processing to multilooking. |
| C104 | `Conf/Derived`: the object with its two kept values; invariant over accesses. |
| C105 | `Report/Outcome`: the commands with the place of `try`, and the commands that only read. `Report/OutcomeProps`: exact condition for an exception that is not a message; with the invariant of C10 for the current workspace; witnesses. |
| C106 | `Report/Listing`: the printed lines. `Report/ListingProps`: specification by reading the lines back (number before, name after the colon); sortedness and membership from C06. |
| C107 | `Chain/Model`: the steps of `process` for a surface, composed of the models of the algorithms. `Chain/Echo`: echo of a point, coherent sums, alignment, compression of a constant. `Chain/Looks`: masking and multilooking together. `Chain/Props`: theorem for every geometry; `Chain/Demo`: a case with two bursts. |
| C108 | `Chain/Own`: the composed model does not depend on the previous closest burst, other bursts or unwritten rows. |
| C109 | `Chain/Steering`: amplitude of an echo in a beam that misses it, bounds of the geometric sum (Jordan's inequality), lifted to the waveform by the theorem behind C107. |
| C110 | `Objects/Tables` (generated from the two classes): name, getter, setter, deleter of every property. `Objects/Model`: attribute and item access. Simulation against independent named places (`Objects/Spec`), the table checked by the kernel. |
| C111 | Over the same model: readings leave the object equal, by cases over the getters. |
| C112 | `Multilook/Stats`: `compute_stack_characterization_params` over ℝ with the fitting method as a parameter. Moments of the fitted curve from Mathlib's normal distribution; scale invariance and independence of the second half by congruence; moment inequality by a sum of squares. |
| C113 | `Writer/Define`: `NetCDFWriter.define_dimension/define_variable/open` over a model of a netCDF file; the declarations of the three products are generated (`tools/defs.py` → `Writer/Defs`). Induction over the declarations, then decided side conditions for the three lists. |
| C114 | `Writer/Readback`: packing and unpacking with type, scale, offset and fill value of the generated declarations; rounding bound once, then the ranges per variable. |
| C115 | `Writer/Sources`: the source expressions of the three `write_record` methods (generated) with an evaluator; equal expressions give equal values, the differing ones are refuted one by one. |
| C116–C118 | `Workspace/Crash`: the states which a killed manager call or command may leave, as predicates beside the functions of `Workspace/Manager` and `Commands`; start and end are among them. Frame lemmas for all of them; repetition compared with the uninterrupted command. |
| C119, C120 | `Inputs/Pattern`: `fnmatch` (elements of a pattern, matching) and `glob` (components, hidden names, `**`) on the tree of files; `Inputs/Add`: the command. Exactness against a specification by parts (`Fits`, `Denotes`), induction over the components. |
| C121 | `Workspace/Race`: each call as a program of single looks at and changes of the tree of files (`Prog`), and all interleavings of two programs (`Both`). `RaceLemmas`: programs confined to disjoint parts of the tree commute. `RaceProps`: the calls are confined; witnesses of the violations. |
| C122, C123 | `Workspace/RaceFiles`: a save as a list of writes at positions and a cut; all interleavings (`Shuffle`) and all interruptions (prefixes). |
| C124 | `Chain/Scale`: the stages of the chain applied to multiplied echoes, stage by stage. |
| C125 | `Chain/Bound`: Parseval-type inequalities for every transform of the chain, with a case where the bound is attained. |
| C126 | `Surface/Meridian`: turning about the axis as a relation between bursts, locations, surfaces and states of the algorithm, kept by every step; `Whole/Moved`: for whole runs and products. |
| C127 | `Surface/Hemisphere`: the same for the reflection at the plane of the equator; `Whole/Moved`. |
| C128 | `Process/Causal`: the run with more records to come makes the same steps until it reads, by a simulation of every phase of an iteration. |
| C129 | `Workspace/CrashInputs`: the states an interrupted call may leave; they differ only in files which the repetition writes again. |
| C130 | The same model: at most one of the files is incomplete; a witness in every workspace that it is listed. |
| C131 | `Workspace/CrashConfigs`: the states an interrupted configuration command may leave; markers and what they name are kept. |
| C132 | `Run/Products`: the files a run writes, in order; names are different if base names are, so nothing is replaced. |
| C133 | `Run/Main`: module variables and cached settings as state; induction over what happens in a process; both programs as steps on a store of directories. |
| C134 | `Run/Main`: the content of the location file over any sequence of starts. |
| C135 | `Web/Json`: constructor, both conversions, `open`; what becomes of every workspace. |
| C136 | `Geo/Iterative`: the loop with its ten steps; exact cases, symmetry; for every flattening a point at which the first step reproduces the first estimate. |
| C137 | `Web/JsonText`: `json.dumps` and `json.loads` as functions on characters; induction over values: the text, wherever it stands, is read as the value with sorted keys; then the two requests on the file system. |
| C138 | `Surface/Epoch`: relation between locations which differ in their time attributes, kept by every step; `Process/Epoch`: the loop commutes with making all times later. |
| C139 | `Process/Optional`: simulation between the runs with and without the file; where writing to it fails the traces are prefixes. |
| C140 | `Upgrade/Text`: `_do_upgrade_config` on JSON values with all its errors, between reading and writing text; refinement to the model of C01 to C03; the text is a canonical form of the value (`Web/JsonTextRead`). |
| C141 | `Whole/Model`: reading, loop, surface locations, calibrations, beam angles, azimuth processing, stacks and products in one state machine; lockstep with the model of the loop of C40 to C50 (`Whole/Refine`, `Whole/Run`), which bounds the iterations. |
| C142 | Invariant of the whole machine (`Whole/Made`, `Whole/Records`, `Whole/Steps`): every burst in memory is a record of the file with its calibrations, every stack a sublist of the bursts read; with the selection of records of C25. |
| C143 | The same invariant with the bound for one surface (`Chain/Bound`). |
| C144 | `Whole/Twin`: two runs in lockstep for relations between surfaces, bursts and records that every algorithm keeps; `Whole/Echo`: the instance in which the bursts differ in the echoes. |
| C145 | `Whole/Echo`: the instance in which the echoes of one file are multiples of those of the other; linearity of calibrations, azimuth processing and range compression. |
| C146 | `Whole/Local`: the algorithms of a surface read only the bursts of its stack; with the two runs in lockstep of `Whole/Twin`. |
| C147 | `Whole/Aim`: invariant of the loop that the beam angle of each look in a stack is that of the place of its surface, and a count of the surfaces moved; `Whole/Target`: for the records. |
| C148 | `Whole/Target`: with C147 the steering angles are those of the target, the bursts are those of the file, and the theorem about one surface (C107) applies. |
| C149 | `Chain/Antenna`: weighting as a step before the average of C107; the loop of the average is compared with and without weights. `Whole/Weighted`: the runs with and without weighting in lockstep (`Whole/Twin`). |
| C150 | `Chain/Antenna`: witness with one look (negation); bound of C125 for the weighted looks otherwise; `Whole/Props` for the products. |
| C151 | `Process/Every`: invariant relating the length of the queue and the number of invalid records read; witnesses and a general theorem for the violation; `Whole/Every` for whole files. |
| C152 | `Lineage/Burst`: lookup in the table of the call, with the exactness of chunked reads (C22). |
| C153 | `Chain/Renumber` (results for a surface with all burst numbers moved), `Whole/Renumber` (two runs side by side, by induction on iterations), `Whole/Region`: the items read, and the property. |
| C154 | `Whole/Twin`, `Whole/Echo` (two runs side by side, now with different calibration switches and with the number of calibrations known), `Whole/Distorted`: the calibrations undo the distortion of each burst (inverse transforms), hence the same records. `Whole/Twice`: the counterexample, a file of three bursts followed through the run with and without calibration. |
| C155 | `Whole/Nadir`: the closed form of the ellipsoid coordinates (`Geo`). |
| C156 | `Process/Timely`: the time kept is that of the last record read, by induction on iterations; `Whole/Late`, `Whole/Gaps`: in terms of the file. |
| C157 | `Whole/Sight`: the condition under which a beam angle enters the list of a burst, in terms of the record of the file; the Doppler shift from the angle. |
| C158 | `Whole/Product`: the records of the whole-file model given to the model of the extended L1B writer (C68), read back with packing (C56, C114); with C143 for the sign of the samples and C148 for the point target. |
| C159 | `Whole/Times`, `Whole/Rising`: invariant of the whole-file model: times of records and surfaces rise, all are before the records to come, and the newest burst is within the resolution of the last surface. The last part follows from a bound on the angle between a vector and a changed one. |
| C160 | `Whole/History`: lock-step simulation between the run and one whose state is overwritten before each iteration; a surface without looks is treated apart (the fit of an empty stack takes no burst whatever the index). |
| C161 | `Args/Model` mirrors `argparse` on the declarations of `main.py` (`Args/Table`). `Args/Lines`: greedy matching of positional groups computed in closed form, then induction over the options of the line. `Args/Used`: soundness of every step of the main loop: the words used so far are the words of proper pieces. Negation: a list option given twice. |
| C162 | `Monitor/Rounded`: the amounts that reach the console with every operation rounded. `Basic/Rounding`: what is assumed of rounding, and rounding half to even to `p + 1` binary digits as an instance of it; two numbers agree up to `m` roundings if they differ by at most the factor `(1 + u) ^ m`; `Monitor/RoundedProps`: this composes along nesting and sums, and Bernoulli's inequality bounds it. |
| C163 | `Args/Session` maps the namespace of C161 to the commands of `Workspace/Commands`. `Args/SessionProps`: from C161, every value of one word is the end of a word of the line, so names are plain and the invariant of C10 and C61 applies. `Args/SessionLines`: closed forms of lines in the usual form; settings of different attributes commute. Negation: the name `.current`. |
| C164 | `Multilook/Rounded`: `compute_multilooking` with every operation on powers rounded (`Basic/Rounding`); invariants of the loop over the beams, one for each statement: closeness to the sums without rounding, order, and the scale. |
| C165 | `Whole/Placed`: an invariant of the run: the records written and the surfaces in the queue are at or between successive records of the file, the newest burst is the one before the records to come, and the time remembered is its time. Density (`Whole/Times`) gives the bounds of the ratio. |
| C166 | `Args/Context`, `Args/Spelling`: the parser's loop on `pre ++ word ++ post` depends on the word only through the option it names and the value it carries, so two spellings give the same state after the word; the rest of the loop is then the same. The options of all commands are checked to have unambiguous names. |
| C167 | `Writer/Rounded`: difference, quotient, product, sum, scale and offset rounded; errors are added up in units of the scale (codes and offsets are below 2^33, so the total stays below 1/1000 of a code), which keeps the rounded code in the usable range. The bound of the offsets is checked for every declaration. |
| C168 | `Args/RunLine`: a line is a list of parts; induction over the parts gives the state of the parser after them, from which the arguments of the command follow; joined with the model of the command (`Run/Products`). |
| C169 | `Whole/StackFile`: the values given to `write_record` are built from the record of the model of whole files (`stackIq` is the stack before taking powers), written with the model of the writer and read with that of the NetCDF library. The power uses the masking lemma row by row; the hypotheses on samples follow from the energy bound (Cauchy-Schwarz) and from the mean of zeros being zero. |
| C170 | `Whole/Superpose`: a relation between a run and itself (`process_twin`) carries the formula from the memory of bursts to the records; the middle row of the transform is the plain sum, the padded transform a sum over the samples. |
| C171 | `Whole/Superpose`: for both azimuth methods a look is a sum over the pulses; comparing every run with that of a file of unit impulses (`process_twin`) shows that the weights are the looks of that run, hence the same for all files. C144 gives the same outlines, and the calibration is linear. The waveform is the mean of squares over the looks that count, which the outline decides; then the parallelogram law. |
| C172 | `Whole/Delay`: by C171 the looks are the same sums of pulses with the additional phase, which in the transform moves the index (congruence of positions modulo the padded length); the waveform is the mean over the same looks. |
| C173 | `Whole/Failure`: each algorithm is shown to succeed on the states that occur (`Made`, `Sighted`: burst velocities, looks from 0 to pi, trend indices in range), so that an iteration can fail only at the places left; induction over the iterations. `Whole/Queue`: as long as the stacks written begin in order, every burst accepted since the beginning of the last of them is still kept. |
| C174 | `Whole/Failure`: corollary of C173 for files without slow records; witness of two records, the first with velocity zero. |
| C175 | `Report/Info`: the text as a function of the fields and the directories; headings and empty lines separate the sections, lines of names begin with a mark, so that the text determines the lists (injectivity); the two silent cases for all situations of the kind. |
| C176 | `Report/Info`: attribute lookup over the attributes of the class; for all objects and directories. |
| C177 | `Workspace/RaceConfigs`: the two calls as sequences of steps on the files, all shuffles of them; induction over the shuffle, and construction of a shuffle for every mixture. |
| C178 | `Workspace/Keep`: from the frame lemmas of the operations (the marker file is outside of what they change); for the web service the effect of `delete` for all tidy states. |

## Trusted base

* Lean's kernel (4.33.0), which checks every proof; `lake build` elaborates all modules from source.
* Three standard axioms: `propext`, `Classical.choice`, `Quot.sound`.  No axiom is added, there is no `sorry`, and
  no proof rests on compiled evaluation (`decide +kernel` evaluates in the kernel).  The axioms of each theorem are
  listed below.
* Mathlib, as far as definitions of it occur in statements (fields, orders, `ℚ`, `ℝ`, `ℂ`, sums over finite
  lists, `Real.sin` and the like).
* The faithfulness of the model to the text of `/repo`: it was read, never run.  Each definition cites the lines it
  models and what it leaves out.
* What stands for the world outside the program: the file system is a finite tree of files and directories without
  links, permissions and concurrent changes, except where crashes and interleavings are the subject (C14, C15, C59);
  NetCDF files are tables of named variables with the packing arithmetic of the library; JSON is a tree of values;
  NumPy arrays are lists, slices follow Python's rules; `dict` keeps insertion order.
* Floating point: computations are over exact numbers (an ordered field, `ℚ`, `ℝ` or `ℂ`); rounding, overflow and
  NaN are modelled only where a comment says so (NaN of 0/0 in the multilooking, packing to integer codes, JSON
  integers).

## What is modelled

| Code | Modelled in | Left out |
|------|-------------|----------|
| `dedop/ui/workspace_manager.py` | `Workspace`, `Upgrade`, `Names`, `Notebook`, `Report`, `Web` | starting editors and browsers, text of notebooks beyond the cells with parameters |
| `dedop/ui/workspace.py`, `workspace_info.py` | `Web` (JSON round trip), `Report/Info` (summary, `save`) | `WorkspaceInfo` is not used by the program |
| `dedop/cli/main.py` | `Workspace` (commands), `Run` (`run`, patterns, formats), `Names`, `Report` (exit codes, messages, counts, how commands end, what `list` and `status` print), `Notebook` (shell command), `Args` (declared parsers and what `argparse` of Python 3.11 makes of a line) | the parser above the commands (`cate.util.cli`) |
| `dedop/webapi/websocket.py` | `Workspace`, `Web` | the transport (`tornado`); `webapi/main.py` only starts it |
| `dedop/util/monitor.py` | `Monitor` | printing beyond the text of the console monitor |
| `dedop/util/config.py`, `parameter.py`, `fetchstd.py`, `time.py` | `Util`, `Globals/Iso` | contents of the template |
| `dedop/conf/*`, the shipped JSON files | `Conf` | texts of the messages |
| `dedop/data/input/*` | `Reader` (chunk cache, region, iteration), `Lineage` (values of a burst), `Globals` | the NetCDF library |
| `dedop/data/output/*` | `Writer` (schema, packing, both writers), `Lineage`, `Globals` | the NetCDF library |
| `dedop/model/l1a_processing_data.py`, `surface_data.py` | attributes, items and constructors in `Objects`; as dictionaries in `Lineage`, `Beams`, `Surface`, `Calib` | changes made inside a stored array, conversion of velocities to floats |
| `dedop/model/processor.py` | `Dummy` | sleeping |
| `dedop/proc/sar/processor.py` | `Process` (the loop), `Chain` (the steps of a surface), `Names`, `Globals` | printing, timing |
| `dedop/proc/sar/algorithms/*` | `Surface`, `Beams`, `Azimuth`, `Stack`, `Signal`, `Multilook`, `Calib` | SciPy's spline and NumPy's FFT are replaced by their mathematical meaning |
| `dedop/proc/sar/cal/*` | `Calib` | |
| `dedop/proc/geo/*`, `proc/functions/*` | `Geo` | `ecef2lla_iterative` is not used by the program |
| `dedop/ui/inspect.py`, `compare.py`, `figurewriter.py` | `Figures` | drawing |

## Findings

Properties that the code violates; the negation is proved for a witness, and the other theorems listed in
`MANIFEST.json` state what does hold.

<!-- begin findings -->
* **C06** NetCDF listings contain exactly the matching regular .nc files, once each, sorted. Files matched by several patterns of a list are listed several times: the once-each part is false (negation proved), proved for at most one matching pattern.
  `Dedop.Names.listing_duplicates_violated`
* **C08** Output file names: L1B and L1B-S never collide, and distinct inputs get distinct outputs. False when one stem is the other with a leading L1A (negation proved); exact criterion proved.
  `Dedop.Names.distinct_inputs_collide_violated`
* **C09** The current workspace/config that was set is what is read back. Names with a line break come back truncated (negation proved); proved for all other names.
  `Dedop.Workspace.current_round_trip_violated`
* **C10** The command line never leaves a dangling current workspace. Proved for all command sequences with plain names; false for the workspace name '.current' (negation proved).
  `Dedop.Workspace.cli_current_workspace_exists_violated`
* **C11** Workspace operations touch only the workspaces they name. Frame and exact effect proved; renaming onto an existing workspace moves it inside (negation proved), so rename is exact for free names only.
  `Dedop.Workspace.rename_onto_existing_violated`
* **C13** Deleting or copying a workspace is confined to that workspace for every accepted name. Deleting the empty name deletes every workspace (negation proved); all other names confined.
  `Dedop.Workspace.delete_empty_name_violated`
* **C14** Rewriting a configuration file replaces its whole content. On return the content is exact; the content at each crash point is characterised; atomicity is false (negation proved).
  `Dedop.Workspace.rewrite_not_atomic_violated`
* **C17** Cleaning outputs empties the directory or reports an error. Broken symbolic links are skipped and remain (negation proved).
  `Dedop.Workspace.outputs_remain_violated`
* **C18** A freshly created configuration is complete, usable and up to date. Complete for all templates; up to date for the default templates, false for the CryoSat-2 template (CHD version 0).
  `Dedop.Upgrade.fresh_cryosat_config_up_to_date_violated`
* **C22** The monitoring context always signals done and restores Ctrl-C. Holds for properly nested use; reusing one console inside itself leaves its handler installed (negation proved).
  `Dedop.Monitor.Signal.handler_not_restored_when_reentered_violated`
* **C24** Chunked NetCDF reading is transparent. All reads inside the file are exact; a read beyond the end can return a stale buffered record (negation proved).
  `Dedop.Reader.read_beyond_end_violated`
* **C25** Region-of-interest iteration delivers exactly the records in the region. With a region the last record inside it is not delivered (negation proved); what is delivered is characterised exactly.
  `Dedop.Reader.last_record_in_region_lost_violated`
* **C29** Stack gathering selects a contiguous window of the right size containing the closest look. Contiguity, size, order for all stacks; that the smallest look is inside needs |look| to fall then rise (negation proved otherwise).
  `Dedop.Stack.closest_look_left_out_violated`
* **C30** Stack gathering selects the n_looks smallest look angles. Proved where |look| falls and then rises along the stack; false in general (negation proved).
  `Dedop.Stack.closest_look_left_out_violated`
* **C32** Stack mask vector encodes the mask. The full row has the same entry as the row lacking one sample (negation proved).
  `Dedop.Stack.vector_ambiguous_violated`
* **C34** Multilooking averages exactly the unmasked beams. Mean and bounds proved where some beam contributes; otherwise the sample is 0/0 = NaN (negation proved). Exact numbers.
  `Dedop.Multilook.no_contributing_beam_violated`
* **C36** Antenna weighting interpolates the characterisation table. The interpolation is wrong inside the table (negations proved); right outside it and for constant tables.
  `Dedop.Multilook.weight_at_table_angle_violated`, `Dedop.Multilook.weight_between_violated`
* **C37** Azimuth window has the configured shape and support. Support, values and symmetry proved for widths up to the burst; names swapped, wide windows wrong or failing (negations proved).
  `Dedop.Azimuth.hamming_hanning_swapped_violated`, `Dedop.Azimuth.wide_boxcar_violated`
* **C39** The nadir beam is the beam with angle closest to pi/2. Proved for even numbers of pulses and regular tracks; false otherwise (negations proved).
  `Dedop.Azimuth.nadir_not_closest_violated`, `Dedop.Azimuth.nadir_odd_violated`
* **C44** Each record is calibrated exactly once. The record after a gap is calibrated twice (negation proved); all others once, and before use.
  `Dedop.Process.calibrated_once_violated`
* **C46** Gaps separate processing: no surface stacks bursts from both sides of a gap. First half proved; second half false when unused bursts stay in the queue (negation proved), proved otherwise.
  `Dedop.Process.surfaces_after_gap_violated`
* **C48** Every completed input yields closed outputs. A gap followed by fewer than 80 surfaces makes the run fail with the outputs open (negation proved).
  `Dedop.Process.completes_violated`
* **C49** Processing a file does not depend on the files processed before. Left-over surfaces and unprocessed bursts enter the next file (negations proved); processed bursts have no effect.
  `Dedop.Process.history_violated`, `Dedop.Process.history_cancelled_violated`
* **C51** Geodetic to Cartesian conversion is correct on the ellipsoid and inverts. Over the reals. The scalar version returns a wrong altitude at the south pole, where it differs from the array version (negation proved).
  `Dedop.Geo.south_pole_violated`
* **C52** Angle normalisation terminates in range and preserves the angle. Proved with exact arithmetic; with 53-bit rounding the loop never ends on -2^57 (negation proved).
  `Dedop.Geo.normalize_diverges_violated`
* **C53** Angle between vectors is always defined and in [0, pi]. Proved for exact arithmetic and for cosines rounded above 1; a cosine rounded below -1 gives NaN (negation proved).
  `Dedop.Geo.angle_between_violated`
* **C54** NetCDF writer: the n-th record lands at index n of every variable. Proved for histories without exception, and for the given values in all histories; after an exception rejected values show in place of fill values (negation proved).
  `Dedop.Writer.records_land_violated`
* **C55** UTC day rollover. The first surface of a file, midnight, and gaps longer than a day are dated wrongly (negations proved).
  `Dedop.Writer.utc_midnight_violated`, `Dedop.Writer.first_surface_violated`, `Dedop.Writer.surface_after_gap_violated`
* **C56** Waveform scaling is lossless and in range. Fails for waveforms and stacks of zeros and for strong echoes in the Sentinel-3 file (negations proved).
  `Dedop.Writer.zero_waveform_violated`, `Dedop.Writer.zero_iq_violated`, `Dedop.Writer.s3_waveform_violated`
* **C57** Run command selects inputs, config and outputs as documented. The inputs processed and the outcome are proved for all states; outdated configurations are not refused, and without a current workspace the current configuration of the default workspace is ignored (negations proved).
  `Dedop.Run.outdated_config_violated`, `Dedop.Run.current_config_violated`
* **C58** Surface locations advance along track. Over the reals. On the segment whenever the bursts are closer together than the surfaces; otherwise the location is extrapolated (negation proved).
  `Dedop.Surface.off_segment_violated`
* **C59** Web API never leaves a dangling current workspace or config. Renaming or deleting the current one through the Web API leaves a dangling name (negation proved); proved for the remaining calls.
  `Dedop.Workspace.web_current_exists_violated`
* **C61** The command line never leaves a dangling current configuration. All command sequences with plain names (not empty, no separators or line breaks, not '.current'). With a line break in a name it is false: only the first line is read back (negation proved).
  `Dedop.Workspace.cli_current_config_exists_violated`
* **C66** Angles in the output files are representable. The look-angle table has the offset of the beam angles, and padding is not representable (negations proved).
  `Dedop.Writer.look_angle_violated`, `Dedop.Writer.look_table_violated`, `Dedop.Writer.beam_angle_padding_violated`
* **C67** Pointing angles are written in the declared unit. True of the extended L1B file, false of the L1B-S file (negation proved).
  `Dedop.Writer.pointing_degrees_violated`
* **C69** Per-beam tables of a record describe the same beams. False when the first beam of a stack is masked (negation proved).
  `Dedop.Writer.tables_aligned_violated`, `Dedop.Writer.useful_entries_violated`
* **C70** Longitudes of a product follow one convention. The ranges are proved; they differ between the first surface and the others (negation proved).
  `Dedop.Surface.longitude_convention_violated`
* **C71** Surface focusing works on every product. False: focusing happens once in the life of a processor (proved for all histories; witness for the negation).
  `Dedop.Surface.focus_per_product_violated`
* **C72** A focused surface stays between its neighbours. True from the third surface on, on a straight track; false when the target is behind the start (negation proved).
  `Dedop.Surface.focus_between_violated`
* **C74** Every saved figure is kept. Holds between opening and closing a PDF file and for different plots of one product in a directory; the plots of the two products of a comparator replace each other, and so does a PDF file after a close (negations proved).
  `Dedop.Figures.figure_overwritten_violated`, `Dedop.Figures.pages_lost_violated`
* **C75** Display limits given by the user are used. False for a limit of 0, for the upper limit of im_line and for the lower limit of im in a notebook (negations proved).
  `Dedop.Figures.limit_zero_violated`, `Dedop.Figures.limit_zero_demo_violated`, `Dedop.Figures.im_line_upper_violated`, `Dedop.Figures.im_notebook_lower_violated`
* **C76** An image shows the variable that was asked for. The cuts are right; the image always shows the waveform (negation proved).
  `Dedop.Figures.image_shows_waveform_violated`, `Dedop.Figures.image_variable_violated`
* **C77** A histogram without limits counts every sample. False for the histogram of two products (negation proved).
  `Dedop.Figures.waveforms_hist_violated`
* **C78** Inspected waveforms are the waveforms of the product. The comparator is right about the arrays; the arrays are scaled with the sigma0 factor (negation proved). The resolution of the file is not included.
  `Dedop.Figures.difference_hidden_violated`
* **C79** The output format follows the output path. False for mixed case and for directories with a dot in their name (negation proved).
  `Dedop.Figures.format_guess_violated`
* **C80** The Doppler angle is the inclination of the orbit. Holds for a descending satellite; the angle is never positive, so that for a climbing one the look angle of the point below is wrong by twice the inclination (negation proved for all such vectors).
  `Dedop.Calib.nadir_look_violated`
* **C83** Backscatter does not depend on the receiver setting. Holds with CAL1; without CAL1 the setting is counted twice (negation proved for all echoes).
  `Dedop.Calib.agc_twice_violated`
* **C84** The window delay contains the centre-of-gravity correction along the line of sight. Holds for pitch 0; otherwise the cosine of the number of degrees is taken (negation proved for all pitches up to 3 degrees).
  `Dedop.Calib.cog_degrees_violated`, `Dedop.Calib.cog_size_violated`
* **C85** The products named on the command line are the ones shown. Holds for inspect, and for compare with two names or two paths (or an absolute second path). Negations proved: a path with a name, a name with a relative path, and the omitted second file, which always ends in a TypeError.
  `Dedop.Notebook.compare_path_name_violated`, `Dedop.Notebook.compare_name_path_violated`, `Dedop.Notebook.compare_omitted_violated`
* **C86** A generated notebook opens the product it was made for. Proved for the shipped templates and all paths without quotes; for every path with a quote the negation is proved (quotes are escaped for Python but not for JSON, or end the JSON string).
  `Dedop.Notebook.inspect_quote_violated`, `Dedop.Notebook.compare_quote_violated`, `Dedop.Notebook.text_calls_violated`
* **C87** Opening a notebook runs Jupyter for that notebook. Proved for paths without special characters; negations proved for double quotes, for braces when no terminal program is found (the command is then formatted as a template) and for apostrophes with a terminal program. konsole, the command file of macOS and Windows are not covered.
  `Dedop.Notebook.shell_direct_quote_violated`, `Dedop.Notebook.shell_direct_brace_violated`, `Dedop.Notebook.shell_window_violated`
* **C88** The counts reported by input and output commands are the numbers of files added and removed. The effect of input remove is proved in full. The number is proved when no input matches two patterns, no two added files share a base name and all outputs are products; in all other cases the negation is proved.
  `Dedop.Report.remove_reports_violated`, `Dedop.Report.add_reports_violated`, `Dedop.Report.clean_reports_violated`, `Dedop.Report.clean_refuses_violated`
* **C89** The web service describes the workspaces as they are. The list is right for a directory without stray files, and the current workspace for the default directory. Negations proved: a stray file is listed, the current one is never marked, no list before the first workspace, the wrong directory for another base directory.
  `Dedop.Web.web_list_file_violated`, `Dedop.Web.web_current_mark_violated`, `Dedop.Web.web_list_missing_violated`, `Dedop.Web.web_current_dir_violated`
* **C90** An algorithm runs with the configured values of its parameters. Which declaration counts and which value is taken are proved for all hierarchies of single inheritance. The last clause is false: a value that is missing or of the wrong type is replaced by the default, or None, without a report.
  `Dedop.Util.unreadable_silent_violated`
* **C92** The coordinates sent for a product bound its track. Proved for tracks along which both coordinates are monotone; the negation is proved for every track that leaves the range of its ends: the first and last values are sent.
  `Dedop.Web.coordinates_violated`
* **C94** Both products carry the attributes of the input. Proved for inputs with a product name. Negations: without one the run fails at its end with open, undescribed products; the L1B product lacks xref_platform; the names of both products are equal unless the name of the input contains _A__.
  `Dedop.Globals.finish_violated`, `Dedop.Globals.platform_violated`, `Dedop.Globals.product_names_same_violated`
* **C95** The measurement times in the products are those of the first and last record read. Format proved for all times (rationals) up to the year 9999, and the records without a region. With a region the last time is that of the record before: negations proved, including a reversed interval and a failure when only the first record is inside.
  `Dedop.Globals.region_times_violated`, `Dedop.Globals.region_times_reversed_violated`, `Dedop.Globals.region_first_record_violated`
* **C96** Fetching the standard streams captures exactly what the block prints and restores the streams. Proved for every block that leaves the two fetched streams open; the streams are restored if and only if that is the case (a closed stream makes the restoring code raise first: negation proved).
  `Dedop.Util.Fetch.fetch_closed_violated`
* **C97** Telemetry in the products is that of the input at the closest burst. Proved for 24 variables of both L1B formats and 9 of L1BS, all files and histories. Negations: surf_type of L1BS is the constant of the null type; weighting is never given a value.
  `Dedop.Lineage.surface_type_violated`, `Dedop.Lineage.weighting_violated`
* **C98** The satellite's pointing angles in the products derive from those of the input. Negation proved: roll_sat_pointing (and yaw) of the input are never read; the angles come from the mispointing of the instrument.
  `Dedop.Lineage.roll_pointing_violated`
* **C99** The record counter of the L1BS product counts its records. The counter is the position plus the number of surfaces dropped before it, so it is right exactly for products without dropped surfaces before the record; negation proved.
  `Dedop.Process.record_counter_violated`
* **C100** The dummy processor reports its work, leaves its products and can be stopped. Work, products and stopping proved. The error case is false: the exception class is not defined in the module, so that a NameError passes through the run command (negation proved). Time spent is not modelled.
  `Dedop.Dummy.dummy_exception_violated`
* **C101** The shipped auxiliary files provide what the program declares. All declared parameters of the default files except the antenna pattern, which no shipped file has (negation proved); the CryoSat-2 characterisation file is rejected (negation proved). Tables transcribed from the JSON files; numbers as rationals.
  `Dedop.Conf.antenna_pattern_violated`, `Dedop.Conf.cryosat_rejected_violated`
* **C102** A parameter has the value that was written in the file. value_read_as: what is read instead of a value of another type, option by option type. The exceptions are characterised exactly; negations proved: the text false is read as true, 2.5 as 2.
  `Dedop.Conf.value_violated`, `Dedop.Conf.fraction_violated`
* **C103** Every option in the configuration file has an effect. Negation proved: five switches have no effect in any program that reads what the processing reads. setting_changes_waveform: nine options (azimuth method, window and width, both corrections, masking, zeros, padding, looks) and the look angle bounds change the waveform of some surface. The two calibration switches: C81. For the remaining options it is proved that different values can be told apart by what is read, not that the products differ.
  `Dedop.Conf.option_effect_violated`
* **C105** A command that fails does so with a message. The exceptions are characterised exactly for every state; commands on the current workspace are always reported after any session. Negation proved: copying a configuration in a new workspace is a TypeError, a missing workspace an internal WorkspaceError.
  `Dedop.Report.command_reported_violated`
* **C110** The attributes of surfaces and bursts hold what was last stored in them. Proved for every attribute that is a place of its own, for the vectors and for the velocity of a burst. The second sentence is false: a velocity component stored as an item or given in a dictionary is accepted and lost (burst_items_violated, burst_dictionary_velocity_lost), a position stored as an item of a surface too (surface_items_violated). The norm of the velocity is that of the first reading (norm_of_first_reading, norm_violated). h, cai and fai can never be read (never_readable).
  `Dedop.Objects.burst_items_violated`, `Dedop.Objects.surface_items_violated`, `Dedop.Objects.norm_violated`
* **C111** Reading an attribute of a surface or burst changes nothing. Proved for all readings except of target_focused, which stores False, and of the norm of the velocity, which is computed once: with these it is false (reading_changes_nothing_violated).
  `Dedop.Objects.reading_changes_nothing_violated`
* **C112** The stack statistics in the products describe the stack. The centre is that of the fitted curve and skewness and kurtosis, when they are numbers, satisfy the relation of moments. The rest is false for every fitting method: the maximum does not depend on the scale of the powers (maximum_violated), only the first half of the samples counts (power_violated), the standard deviation is c/2 instead of |c|/sqrt 2 (standard_deviation_violated), a single beam has no skewness (skewness_violated), after a failed fit all values come from parameters 1 (failed_fit_violated).
  `Dedop.Multilook.Stats.standard_deviation_violated`, `Dedop.Multilook.Stats.maximum_violated`, `Dedop.Multilook.Stats.power_violated`, `Dedop.Multilook.Stats.skewness_violated`, `Dedop.Multilook.Stats.failed_fit_violated`
* **C113** A product file has exactly the declared dimensions and variables. Holds for every list of well-formed declarations and for both L1B products. The L1BS product declares a fill value that does not fit its type (l1bs_product_open_violated), and an output path without a directory cannot be opened (bare_file_name_violated).
  `Dedop.Writer.l1bs_product_open_violated`, `Dedop.Writer.bare_file_name_violated`
* **C114** Values in the products can be read back. Holds for the physical ranges of the listed variables except two: the gain code 127 is read as missing (agccode_violated) and a negative standard deviation wraps around (negative_deviation_violated).
  `Dedop.Writer.agccode_violated`, `Dedop.Writer.negative_deviation_violated`
* **C115** A quantity in both products of a record has the same value. Holds for all shared variables but surface type, waveform, pointing angles, number of looks and beam angles. The L1BS file says open ocean for every record (surface_type_violated), has the waveform in another unit without a scale factor (waveform_violated), the pointing angles in another unit (shared_pointing_violated) and another number of looks (looks_violated).
  `Dedop.Writer.surface_type_violated`, `Dedop.Writer.waveform_violated`, `Dedop.Writer.shared_pointing_violated`, `Dedop.Writer.looks_violated`
* **C117** After an interruption the current workspace exists. Holds for add, copy and current, and for remove and rename of other workspaces. Removing or renaming the current workspace first removes the directory and then writes the marker: in every state with a current workspace there is a point where it names a missing one (interrupted_current_violated).
  `Dedop.Workspace.interrupted_current_violated`
* **C118** An interrupted command can be repeated. Holds for workspace add and current, config current, and for remove of either as long as the directory is there. A removal of the current workspace or configuration killed after it cannot be completed (repeat_remove_violated, repeat_config_remove_violated), an incomplete configuration makes config add fail (repeat_config_add_violated), an incomplete copy is listed as a workspace and stays (repeat_copy_violated).
  `Dedop.Workspace.repeat_remove_violated`, `Dedop.Workspace.repeat_config_add_violated`, `Dedop.Workspace.repeat_copy_violated`, `Dedop.Workspace.repeat_config_remove_violated`
* **C119** The inputs named on the command line are the ones that are added. fnmatch and glob of the Python library are modelled. The expansion is exact, and plain names of readable files with distinct base names are added. A missing file beside others is ignored silently (missing_input_ignored_violated), a file with brackets in its name is taken for a pattern (bracket_input_violated), a path that ends in ** always fails (double_star_fails_violated).
  `Dedop.Inputs.missing_input_ignored_violated`, `Dedop.Inputs.bracket_input_violated`, `Dedop.Inputs.double_star_fails_violated`
* **C120** A command that names a missing workspace or configuration fails. Holds for the commands on workspaces and configurations. input add creates the workspace (input_add_creates_violated), input list reports no inputs (input_list_missing_violated).
  `Dedop.Inputs.input_add_creates_violated`, `Dedop.Inputs.input_list_missing_violated`
* **C121** Calls made at the same time have the effect of calls made one after the other. Each call is a program of single accesses to the files which alone does what the call does (run_whole); its accesses stay within the workspaces it names (confined). Calls that name different workspaces can be interleaved in any way (concurrent_apart). Two calls that create the same configuration (concurrent_create_violated), a deletion beside making the same workspace current (concurrent_current_violated) and two copies to the same name (concurrent_copy_violated) have outcomes that no order of whole calls has.
  `Dedop.Workspace.concurrent_create_violated`, `Dedop.Workspace.concurrent_current_violated`, `Dedop.Workspace.concurrent_copy_violated`
* **C122** A configuration file saved twice at the same time holds one of the saved texts. Holds for texts of the same length which are written at once. For any two texts of different lengths an order leaves neither of them (concurrent_save_violated), and so do texts written in pieces (concurrent_save_pieces_violated).
  `Dedop.Workspace.concurrent_save_violated`, `Dedop.Workspace.concurrent_save_pieces_violated`
* **C123** An interrupted save of a configuration file leaves the old or the new text. Holds if the text is written at once and is not shorter than the old one. Otherwise the interruption may leave a mixture (interrupted_save_violated, interrupted_save_pieces_violated).
  `Dedop.Workspace.interrupted_save_violated`, `Dedop.Workspace.interrupted_save_pieces_violated`
* **C126** The surfaces and records do not depend on the choice of the prime meridian. Holds for tracks whose surfaces and satellite positions stay away from the axis of the Earth. Near the axis the test whether a position is at the pole bounds each coordinate, a square which does not turn with the meridian: the same place is given different latitudes (meridian_violated). Records at latitude 0 and longitude 0 are skipped, whichever the meridian (meridian_skips_violated). meridian_products_partial is the statement for a whole run and both products.
  `Dedop.Surface.meridian_violated`, `Dedop.Whole.meridian_skips_violated`
* **C127** The northern and the southern hemisphere are processed alike. Holds for tracks whose surfaces and satellite positions stay outside the square about the axis in which the altitude is computed in another way. There a position above the south pole gets the altitude z - b with z negative (mirror_violated). mirror_products_partial is the statement for a whole run and both products.
  `Dedop.Surface.mirror_violated`
* **C130** After an interruption every input is complete. At most one file is incomplete, and nothing outside the inputs directory is touched. Files are copied to their final name, so that a beginning of the file replaces what was there and is listed like any other input (interrupted_add_violated).
  `Dedop.Workspace.interrupted_add_violated`
* **C131** After an interruption the current configuration exists. Holds for add, copy and current, and for remove and rename of a configuration that is not the current one. The marker of the current configuration is replaced after the directory has been removed or renamed: killed in between, it names a configuration that does not exist.
  `Dedop.Workspace.interrupted_config_violated`
* **C132** Every product of a run is kept. Holds for inputs with different base names and a directory for every configuration. False for inputs with the same base name, for several configurations with underscores that write into one directory given with -o, and for a directory given with -o that holds inputs; negations proved.
  `Dedop.Run.same_name_violated`, `Dedop.Run.shared_directory_violated`, `Dedop.Run.input_replaced_violated`
* **C133** Command line and web service use what they are told to use. What a call uses is proved for every sequence of calls; settings are those at the first call. The web service ignores the setting workspaces_dir, so that the programs agree only without it.
  `Dedop.Main.programs_agree_violated`
* **C134** The location file names the environment of the service. Holds if the service is always started from the same environment and the first start is not interrupted. An existing file is never changed: it keeps the first environment, and remains empty after a first start that was killed.
  `Dedop.Main.location_violated`, `Dedop.Main.location_interrupted_violated`
* **C135** A workspace sent to a client and back is the same. The dictionary is written with other keys than those that are read: only the workspace without a name in the default directory is restored.
  `Dedop.Json.roundtrip_violated`, `Dedop.Json.open_violated`
* **C136** The iterative conversion gives the coordinates of the point or raises. Exact on the axis, above the equator, on a sphere and wherever the iteration is stationary; the longitude is always right. For every flattened ellipsoid there is a point at which the first step looks converged: with the delivered constants the result is more than 5 km off.
  `Dedop.Geo.Iterative.iterative_violated`
* **C137** What a client saves is what it gets back. Holds for requests with all three parts. A part that is left out is replaced by null and the configuration cannot be read any more; an interrupted save can leave a readable third configuration. Numbers are their texts.
  `Dedop.JsonText.saved_part_missing_violated`, `Dedop.JsonText.interrupted_third_violated`
* **C138** The origin of the clock does not matter. Holds for everything but the UTC time of the surfaces before the first interpolated one: it is computed from zeros, so that its day does not follow the clock.
  `Dedop.Surface.Epoch.epoch_utc_violated`
* **C150** Weighted waveforms are powers. Violated (negation proved): inside the pattern the interpolation mixes angles and weights, and weights between 3/4 and 1 give a negative power for a point target. Proved for looks outside the angles of the pattern and for equal weights.
  `Dedop.Chain.weighted_power_violated`
* **C151** Every valid record of the file is used. Violated (negation proved): a record which is not valid, or outside the region, takes one surface from the queue; the run ends normally as soon as the queue is empty, though records are left: after the first record if that is not valid (then both products are empty, for every file), or after 79 such records. Proved if the first record is valid and at most 78 are not.
  `Dedop.Process.every_record_violated`
* **C154** Calibration removes the distortion of the instrument from the products. Equality of the records without a burst after a gap, and of everything but the powers for all others. Violated for records with the first burst after a gap, which is calibrated twice: a file of three bursts whose second record has four times the power. Whole-file model with exact numbers; samples beyond the window are counted round; failures of writing depend on the number of the record only.
  `Dedop.Whole.distortion_removed_violated`
* **C159** The times of the records of a product rise. Exact real arithmetic. For files that are not dense the negation is proved at the surfaces from which the records are made: three bursts with rising times give surfaces whose times do not rise.
  `Dedop.Surface.surface_times_violated`
* **C161** The words of a command line reach the command. argparse of Python 3.11 is modelled and was compared with the library on random lines. The parser above the commands (cate.util.cli) is not part of the code. Violated where a list option is given twice: the first list is dropped without a word.
  `Dedop.Args.repeated_inputs_violated`
* **C163** Whatever lines are typed, the current workspace and configuration stay in order. Composition of C161 with C10 and C61. Violated for names such as .current, which no command refuses. Not covered: lines of config edit and upgrade, input add and remove, output clean, run and commands that start programs; the parser above the commands.
  `Dedop.Args.typed_lines_current_violated`
* **C174** A damaged record costs no more than itself. Violated: the check of the records when they are read looks at the position only; `acos` raises ValueError for a velocity which is too small and the run ends, in the example with empty products. Holds: without such records a run with the exact method ends normally or for one of the three named reasons.
  `Dedop.Whole.slow_record_violated`
* **C175** The summary of a workspace tells what there is. The lists, marks and inputs can be told from the text. Violated: with a current configuration that has never been run nothing is said about outputs, and with an empty directory of inputs nothing about inputs.
  `Dedop.Info.no_outputs_told_violated`, `Dedop.Info.no_inputs_told_violated`
* **C176** A workspace object can be saved. Violated for every object: `save` reads `self.base_dir`, which no workspace object has, outside of the `try`; AttributeError. The rest of the method does what is claimed if the attribute existed.
  `Dedop.Info.save_violated`
* **C177** A configuration is saved and read as a whole. Holds file by file, each file being written in one step (what may happen inside is C122, C123); a run has the old constants or all three new files. Violated: for every choice of one of the two texts for each of the three files there is a schedule that ends with it, and likewise for what a client reads.
  `Dedop.Workspace.saves_mixed_violated`, `Dedop.Workspace.reads_mixed_violated`
* **C178** The choice of the current workspace and configuration is kept. Holds on the command line for names that are given. Violated through the web service: deleting any workspace or configuration makes `default` the current one, if it exists, whatever was current.
  `Dedop.Workspace.web_delete_resets_violated`, `Dedop.Workspace.web_delete_config_resets_violated`
<!-- end findings -->

## Axioms of the theorems

<!-- begin axioms -->
**no axioms** (7 theorems)

* Dedop.Main: location_violated
* Dedop.Notebook: compare_omitted_violated
* Dedop.Upgrade: fresh_default_config_up_to_date, fresh_cryosat_config_up_to_date_violated
* Dedop.Workspace: concurrent_save_pieces_violated, interrupted_save_pieces_violated, remove_outputs_ends

**`propext`** (38 theorems)

* Dedop.Conf: used_or_unused
* Dedop.Figures: pdf_kept, dir_kept, close_idempotent, pdf_replaced, format_dir, format_no_extension,
  format_pdf
* Dedop.Info: save_violated
* Dedop.Main: location_partial
* Dedop.Monitor.Signal: done_exactly_once, rejected_label_changes_nothing
* Dedop.Names: l1b_and_l1bs_never_collide
* Dedop.Notebook: compare_products_partial, compare_first, compare_path_name_violated,
  compare_name_path_violated
* Dedop.Objects: burst_items_violated, burst_dictionary_velocity_lost, surface_items_violated, norm_violated,
  short_vectors, unknown_names, never_readable, reading_changes_nothing_violated
* Dedop.Reader: read_beyond_end_violated
* Dedop.Report: clean_declined
* Dedop.Upgrade: upgrade_noop_if_current, shipped_default_wellFormed, fresh_cryosat_upgrade_keeps_values
* Dedop.Util: shipped_names_known
* Dedop.Util.Fetch: restored_iff, fetch_closed_before
* Dedop.Web: coordinates_violated, coordinates_missing
* Dedop.Workspace: follow_both
* Dedop.Writer: records_land_violated, never_written

**`Quot.sound`, `propext`** (56 theorems)

* Dedop.Args: parse_ends
* Dedop.Beams: seen_is_run
* Dedop.Conf: other_version_rejected, right_version_accepted, unknown_parameters_warned
* Dedop.Figures: dir_all_kept_partial, limits_3d, limits_im_partial, im_line_upper_violated,
  im_notebook_lower_violated, im_line_cuts_partial, image_shows_waveform_violated, compare_shape,
  format_pdf_refused
* Dedop.Globals: product_names_same_violated
* Dedop.Inputs: fnmatch_exact, fnmatch_class
* Dedop.Lineage: pointing_not_read
* Dedop.Monitor.Signal: handler_restored_and_done_balanced, ctrlC_cancels_innermost
* Dedop.Multilook: no_contributing_beam_violated, weight_outside_partial
* Dedop.Names: suffixed_names_distinct, limited_title_rejects, same_output_iff
* Dedop.Objects: surface_vector_reads, burst_vector_reads, new_surface_fails_iff,
  reading_changes_nothing_partial
* Dedop.Process: first_invalid
* Dedop.Process.Epoch: epoch_process
* Dedop.Stack: gather_zero_looks_fails, closest_stale_when_empty, vector_counts_valid_partial,
  vector_full_row, vector_ambiguous_violated, vector_zero_iff, masking_disabled
* Dedop.Surface.Epoch: epoch_utc, epoch_utc_violated
* Dedop.Upgrade: upgrade_reaches_max_version, upgrade_idempotent, upgradeConfig_reports_written_version
* Dedop.Util: declaration_local, nothing_asked
* Dedop.Web: coordinates_partial
* Dedop.Workspace: delete_exact, delete_confined_partial, upgrade_interrupted, upgrade_rerun_completes
* Dedop.Writer: failed_call, utc_at_previous_record, utc_midnight_violated, first_surface_violated,
  zero_waveform_violated, bare_file_name_violated

**`Classical.choice`, `Quot.sound`, `propext`** (627 theorems)

* Dedop.Args: every_word_used, options_then_names, names_then_options, split_names_refused, dash_word_refused,
  commands_declared, repeated_inputs_violated, typed_lines_current_partial, typed_lines_current_violated,
  names_unambiguous, order_free, usual_line, workspace_lines, config_lines, confirmed_iff, names_alike,
  values_alike, switches_joined, commands_tidy, run_line_meaning, named_files_processed, named_files_products,
  bare_file_refused
* Dedop.Azimuth: window_support, window_values, window_symmetric, hamming_hanning_swapped_violated,
  wide_boxcar_violated, wide_hamming_fails, width_one_nan, approximate_row, approximate_empty_list_fails,
  nadir_has_smallest_look_index, nadir_closest_partial, nadir_not_closest_violated, nadir_odd_violated,
  exact_row, approximate_energy, methods_agree_at_nadir
* Dedop.Beams: seen_at_most_pulses, trend_spec, burst_recorded_once, absIndex_range, stack_lengths_agree
* Dedop.Calib: doppler_eq, doppler_angle_partial, nadir_look_partial, nadir_look_violated, doppler_vertical,
  calibration_off, cal1_power, cal1_aligns, cal2_spectrum, cal2_unique, cal2_flat, cal2_restores,
  calibrations_commute, calibration_switches, sigma0_radar_equation, sigma0_mean, sigma0_decreases,
  sigma0_refused, agc_independent_partial, agc_twice_violated, cog_partial, cog_degrees_violated,
  cog_size_violated
* Dedop.Chain: setting_changes_waveform, point_peaks_in_centre, point_peak_exact, demo_surface,
  record_own_stack, own_bursts_matter, approximate_loss_bounded, approximate_loses, waveform_scales,
  waveform_between, bound_attained, dft_le, compress_le, azimuth_le, weighting_changes_power, weighting_off,
  uniform_weighting, pattern_needed, weighted_power_partial, weighted_power_violated
* Dedop.Conf: parameter_value, shipped_provides_partial, antenna_pattern_violated, cryosat_rejected_violated,
  cryosat_others, value_same_iff, value_violated, fraction_violated, wrong_values_rejected, value_read_as,
  null_read, options_without_effect, option_effect_violated, options_are_read_partial
* Dedop.Conf.Derived: derived_values, derived_stable, derived_available
* Dedop.Dummy: dummy_work_and_files, dummy_two_files, dummy_cancelled, dummy_errors, dummy_exception_violated,
  run_dummy_not_reported
* Dedop.Figures: plot_files_differ, plots_all_kept_partial, figure_overwritten_violated, pages_lost_violated,
  limits_waveform_partial, limit_zero_violated, limit_zero_demo_violated, image_variable_violated,
  waveform_hist_all, delta_hist_all, waveforms_hist_violated, compare_zero_iff, inspected_iff,
  difference_hidden_violated, format_guess_violated
* Dedop.Geo: altitude_zero_on_ellipsoid, altitude_along_normal, degrees, longitude_round_trip,
  ellipsoid_round_trip, sphere_round_trip, equator_round_trip, north_pole_round_trip, south_pole_array,
  south_pole_violated, near_pole_altitude, versions_agree_partial, bowring_not_exact, normalize_partial,
  normalize_mono, normalize_diverges_violated, angle_between_partial, angle_between_rounded_partial,
  angle_between_violated, angle_between_zero
* Dedop.Geo.Iterative: iterative_axis, iterative_centre, iterative_longitude, iterative_mirror,
  iterative_turn, iterative_stationary, iterative_equator, iterative_sphere, iterative_converges_wrongly,
  iterative_violated
* Dedop.Globals: attributes_copied_partial, finish_violated, platform_violated, product_name_level,
  product_names_differ_iff, iso_reads_back, iso_denotes, iso_order, iso_defined, times_partial,
  region_times_violated, region_times_reversed_violated, region_first_record_violated
* Dedop.Info: summary_tells, no_outputs_told, no_outputs_told_violated, no_inputs_told_violated, save_partial
* Dedop.Inputs: fnmatch_ending, fnmatch_plain, glob_exact, star_nc_exact, named_inputs_added_partial,
  missing_input_ignored_violated, bracket_input_violated, double_star_fails_violated,
  missing_name_fails_partial, input_add_creates_violated, input_list_missing_violated
* Dedop.Json: restored_spec, roundtrip_partial, roundtrip_violated, open_violated, open_refuses,
  new_directory, restored_empty
* Dedop.JsonText: text_restores, text_ascii, saved_is_read_partial, saved_part_missing_violated,
  interrupted_third_violated, loads_valid, same_text
* Dedop.Lineage: telemetry_copied_partial, surface_type_violated, weighting_violated, getitem_exact,
  roll_pointing_violated, pointing_is_mispointing, burst_of_record
* Dedop.Main: main_uses, setting_home, programs_agree_partial, programs_agree_violated,
  location_interrupted_violated
* Dedop.Monitor: child_work_is_scaled, child_work_is_conserved, console_receives_announced_work,
  one_child_receives_its_share, child_progress_errors, child_done_signalled_on_any_outcome,
  cancel_seen_everywhere_forever, not_cancelled_without_request, percentage_is_nearest,
  line_printed_iff_changed, percentages_monotone_bounded, bar_has_constant_width, bar_monotone,
  bar_overflows_beyond_total, rounded_never_falls, rounded_near_exact, rounded_ends_at_100,
  rounded_last_shown, float_last_shown, exact_feed
* Dedop.Monitor.Signal: handler_not_restored_when_reentered_violated
* Dedop.Multilook: multilooked_is_mean, start_stop_spec, burst_indices_of_whole_stack,
  weight_at_table_angle_violated, weight_between_violated, constant_weights_partial, fit_window_spec,
  rounded_average, float_average, rounded_average_mono, rounded_average_scales, unrounded
* Dedop.Multilook.Stats: gauss_moments, characterise_look, standard_deviation_violated, scale_invariant,
  maximum_violated, second_half_unused, power_violated, moments_related, skewness_kurtosis_partial,
  skewness_violated, fitted_beams, failed_fit_violated
* Dedop.Names: unique_name_found, unique_config_name_found, launch_never_overwrites,
  launches_create_distinct_files, listing_exact_and_sorted, listing_once_each_partial, listing_multiplicity,
  listing_duplicates_violated, limited_title, distinct_stems_distinct_outputs_partial,
  distinct_inputs_collide_violated
* Dedop.Notebook: inspect_product, inspect_notebook_partial, inspect_quote_violated, compare_notebook_partial,
  compare_quote_violated, text_calls_partial, text_calls_violated, shell_direct_partial,
  shell_direct_quote_violated, shell_direct_brace_violated, shell_window_partial, shell_window_violated
* Dedop.Objects: surface_attribute_holds_last_partial, burst_attribute_holds_last_partial,
  burst_velocity_holds_last, norm_of_first_reading, surface_readings_unseen
* Dedop.Process: process_terminates, process_fuel, iterations_bounded, written_in_order, both_files,
  both_files_failed, enough_looks, all_written_or_dropped, working_surface_exists, only_exceptions,
  calibrated_once_partial, used_after_calibration, calibrated_once_violated, beams_once, surfaces_before_gap,
  stack_after_creation, surfaces_after_gap_partial, surfaces_after_gap_violated, cancellation_prompt,
  cancellation_closes, cancelled_finishes, completes_partial, completes_violated, history_partial,
  history_violated, history_cancelled_violated, progress_counts, record_counter_partial,
  record_counter_no_drops, record_counter_violated, done_in_order, causal, damaged, damaged_product,
  interrupted, demo_unseen, every_record_partial, every_record_violated
* Dedop.Process.Optional: option_process, option_product
* Dedop.Reader: read_is_transparent, read_beyond_end_partial, next_agrees_with_iteration,
  no_region_delivers_all, region_delivers_inside_partial, last_record_in_region_lost_violated, in_range_agrees
* Dedop.Report: remove_effect, remove_cases, remove_reports_partial, remove_reports_violated,
  add_reports_partial, add_reports_violated, add_nothing, clean_reports_partial, clean_reports_violated,
  clean_refuses_violated, status_size, command_reported_iff, current_commands_reported_partial,
  command_reported_violated, cfgCommand_effect, list_workspaces_shows, list_configs_shows, list_inputs_shows,
  list_outputs_shows, status_shows
* Dedop.Run: selection_partial, selection_inputs, run_executes_plan, run_stops_at_failure, run_refused,
  outdated_config_violated, current_config_violated, products_differ_partial, products_kept_partial,
  only_products_written, inputs_not_replaced, selected_once, same_name_violated, shared_directory_violated,
  input_replaced_violated
* Dedop.Signal: compression_preserves_energy, compression_shift, padding_interpolates,
  corrections_preserve_modulus, integer_shift_moves, accepted_samples_not_wrapped, aligned_burst_not_shifted,
  shift_independent_of_reference, slant_range_is_distance, doppler_shift_spec
* Dedop.Stack: gather_contiguous, gather_selects_smallest_partial, closest_look_left_out_violated,
  vector_determines_other_rows, masked_iff_rejected, outside_bounds_zero
* Dedop.Surface: new_surface_iff, first_surface, new_surface_interpolated, on_segment_iff, on_segment_partial,
  after_first_surface_partial, surfaces_advance_partial, off_segment_violated, focus_moves_one,
  focus_closest_approach, longitude_ranges, longitude_convention_violated, focus_never_again,
  focus_per_product_violated, focus_between_partial, focus_between_violated, window_delay_consistent,
  meridian_step_partial, meridian_track_partial, meridian_angles, meridian_record, meridian_violated, lla_rot,
  mirror_step_partial, mirror_track_partial, mirror_angles, mirror_record, mirror_violated, lla_mir,
  surface_times_violated
* Dedop.Surface.Epoch: epoch_track, epoch_run
* Dedop.Upgrade: upgrade_gives_changelog_value, upgrade_fails_iff_default_broken,
  upgrade_to_shipped_never_fails, upgrade_path_independent
* Dedop.UpgradeText: upgrade_refines, upgrade_again, upgrade_same, upgradeFile_spec, upgrade_files_again
* Dedop.Util: parameters_nearest, algorithm_values, declaration_inherited, unreadable_silent_violated,
  reportsUnreadable_false, settings_answers, settings_warnings, settings_path
* Dedop.Util.Fetch: run_tame, fetch_partial, fetch_closed_violated
* Dedop.Web: web_list_partial, web_list_file_violated, web_current_mark_violated, web_list_missing_violated,
  web_current_partial, web_current_dir_violated
* Dedop.Whole: meridian_products_partial, meridian_skips_violated, mirror_products_partial, whole_terminates,
  products_agree, record_sources, waveforms_bounded, echoes_only_power, memory_irrelevant, products_scale,
  own_echoes, looks_aimed, target_in_centre, weighting_products, no_pattern_products,
  weighted_waveforms_bounded_partial, zero_first_record, outside_irrelevant, region_only, region_is_cut,
  distortion_removed_partial, distortion_removed_violated, surface_below, gaps_by_time, calibrations_by_time,
  looks_in_band, looks_unambiguous, product_shows_results, waveforms_shown, target_read,
  nan_waveform_unreadable, record_times_rise, nothing_left, products_as_before, records_on_track,
  records_between, record_times_within, stack_shown, stacks_of_run, looks_steered, stack_from_echoes,
  looks_linear, stacks_superpose, waveforms_parallelogram, delay_moves_looks, delay_moves_waveform,
  failure_reasons, slow_record_fatal, run_completes_partial, slow_record_violated
* Dedop.Workspace: current_round_trip_partial, current_config_round_trip_partial, current_stays,
  current_round_trip_violated, cli_current_workspace_exists_partial, cli_current_workspace_exists_violated,
  empty_is_tidied, other_workspaces_untouched, other_configs_untouched, create_exact, copy_exact,
  rename_exact_partial, rename_onto_existing_violated, config_operations_exact,
  failing_operation_changes_nothing, missing_or_taken_names_fail,
  create_config_missing_or_taken_changes_nothing, delete_empty_name_violated, rewrite_replaces_content,
  rewrite_missing_file, rewrite_crash_content_partial, rewrite_not_atomic_violated, save_interrupted,
  add_inputs_exact, add_inputs_succeeds, remove_inputs_exact, outputs_removed_partial,
  outputs_remain_violated, create_config_complete, web_current_exists_partial, web_current_exists_violated,
  cli_current_config_exists_partial, cli_current_config_exists_violated, during_begins, during_ends,
  killed_during, interrupted_confined, interrupted_creation_keeps, interrupted_rename_keeps,
  interrupted_removal_keeps, interrupted_current_partial, interrupted_current_violated, command_begins,
  command_ends, repeat_remove, repeat_add, repeat_current, repeat_remove_violated, repeat_config_add_violated,
  repeat_copy_violated, repeat_config_remove, repeat_config_current, repeat_config_remove_violated, run_whole,
  confined, concurrent_apart, concurrent_create_violated, concurrent_current_violated,
  concurrent_copy_violated, save_alone, save_alone_rewritten, concurrent_save_partial,
  concurrent_save_violated, interrupted_save_partial, interrupted_save_violated, add_inputs_repeat,
  remove_inputs_repeat, remove_outputs_repeat, input_add_repeat, add_inputs_ends, remove_inputs_ends,
  interrupted_add_partial, interrupted_add_violated, interrupted_remove_keeps, interrupted_config_partial,
  interrupted_config_violated, config_command_begins, config_command_ends, saves_per_file_partial,
  reads_per_file_partial, run_start_partial, save_call_alone, saves_mixed_violated, reads_mixed_violated,
  cli_keeps_workspace, cli_keeps_config, web_keeps_workspace_partial, web_delete_resets_violated,
  web_delete_config_resets_violated
* Dedop.Writer: records_land_partial, values_land, utc_instant_partial, utc_at_record,
  surface_after_gap_partial, surface_after_gap_violated, waveform_scaling_partial, waveform_packed_partial,
  iq_scaling_partial, zero_iq_violated, s3_waveform_violated, angle_stored_partial, look_angle_violated,
  look_table_violated, beam_angle_padding_violated, pointing_degrees_partial, pointing_degrees_violated,
  writers_accept, cut_tables, tables_aligned_partial, tables_aligned_violated, useful_entries_violated,
  open_creates, open_creates_with, schemas_agree, l1b_products_open, l1bs_product_open_partial,
  l1bs_product_open_violated, names_free, open_twice_fails, packed_reads_back, integer_reads_back,
  declarations, physical_values_read_back, values_read_back_partial, agccode_violated,
  negative_deviation_violated, shared_complete, shared_values_partial, surface_type_violated,
  waveform_violated, shared_pointing_violated, looks_violated, packed_rounded, values_rounded,
  waveform_rounded, iq_rounded, double_binary, offsets_small
<!-- end axioms -->
