import Verif.Args.SessionLines
import Verif.Run.Products

/-!
# From a typed `run` line to the products (C168)
-/
namespace Dedop.Args
open Dedop.Workspace Dedop.Names Dedop.Run

/-! ## Model -/

/-- An attribute used as a list of files: `None` counts as no files (`main.py:176`). -/
def wordsOf : Value → List Name
  | .words ws => ws
  | _ => []

/-- What `RunProcessorCommand.execute` reads from its attributes (`main.py:155-202`). -/
def runArgs (ns : Ns) : Run.Args where
  ws := nameOf (ns "workspace_name")
  cfg := nameOf (ns "config_name")
  inputs := wordsOf (ns "inputs")
  out := nameOf (ns "output_dir")
  skip := ns "skip_l1bs" == .flag true
  quiet := ns "quiet" == .flag true
  all := ns "all_configs" == .flag true

/-- A `run` line typed after `dedop`; `none` if it is refused, asks for help or is another command (`main.py:137-205`, `1292-1298`). -/
def typeRun {Ω σ : Type} (P : Processor Ω σ) (t : Templates) (fs : FS) (ω : Ω) (words : List Word) : Option (Out Ω × FS) :=
  match findCommand words with
  | none => none
  | some (c, args) =>
    if c = cmdRun then
      match parse c.parser args with
      | .error _ => none
      | .ok ns => some (run P t fs ω (runArgs ns))
    else none

/-! ## Specification -/

/-- A part of a `run` line, as the help text describes them. -/
inductive Part where
  | skip
  | quiet
  | all
  | workspace (w : Name)
  | config (c : Name)
  | output (dir : Name)
  | inputs (files : List Name)
  deriving DecidableEq, Repr

/-- The words of a part, with the long or the short name of the option. -/
def Part.words (long : Bool) : Part → List Word
  | .skip => [(if long then "--skip-l1bs" else "-s" : String).toList]
  | .quiet => [(if long then "--quiet" else "-q" : String).toList]
  | .all => [(if long then "--all-configs" else "-a" : String).toList]
  | .workspace w => [(if long then "--workspace" else "-w" : String).toList, w]
  | .config c => [(if long then "--config" else "-c" : String).toList, c]
  | .output d => [(if long then "--output" else "-o" : String).toList, d]
  | .inputs fs => (if long then "--inputs" else "-i" : String).toList :: fs

/-- The words typed by the user for a part: they do not begin with a dash. -/
def Part.Fine : Part → Prop
  | .workspace w | .config w | .output w => Plain w
  | .inputs ws => ∀ w ∈ ws, Plain w
  | _ => True

/-- The parts of a line, each with the choice between long and short name. -/
abbrev Parts := List (Bool × Part)

/-- The words of the parts. -/
def Parts.words (ps : Parts) : List Word := ps.flatMap fun x => x.2.words x.1

/-- The last part that `f` picks. -/
def lastPart {α : Type} (f : Part → Option α) (ps : Parts) : Option α := (ps.filterMap fun x => f x.2).getLast?

/-- The workspace named last on the line. -/
def Parts.workspace (ps : Parts) : Name := (lastPart (fun | .workspace w => some w | _ => none) ps).getD []
/-- The configuration named last on the line. -/
def Parts.config (ps : Parts) : Name := (lastPart (fun | .config c => some c | _ => none) ps).getD []
/-- The output directory named last on the line. -/
def Parts.output (ps : Parts) : Name := (lastPart (fun | .output d => some d | _ => none) ps).getD []
/-- The files listed after the last `-i`. -/
def Parts.files (ps : Parts) : List Name := (lastPart (fun | .inputs l => some l | _ => none) ps).getD []
/-- Whether a switch is on the line. -/
def Parts.has (ps : Parts) (p : Part) : Bool := ps.any fun x => x.2 == p
/-- What the line asks for. -/
def Parts.args (ps : Parts) : Run.Args where
  ws := ps.workspace
  cfg := ps.config
  inputs := ps.files
  out := ps.output
  skip := ps.has .skip
  quiet := ps.has .quiet
  all := ps.has .all

/-! ## What the line sets -/

/-- Proof helper: the option of a part. -/
def Part.opt : Part → Opt
  | .skip => option "-s" "--skip-l1bs" "skip_l1bs" .flag
  | .quiet => quietOpt
  | .all => option "-a" "--all-configs" "all_configs" .flag
  | .workspace _ => workspaceOpt
  | .config _ => configOpt
  | .output _ => option "-o" "--output" "output_dir" .one
  | .inputs _ => option "-i" "--inputs" "inputs" .many

/-- Proof helper: the words taken by the option of a part. -/
def Part.values : Part → List Word
  | .workspace w | .config w | .output w => [w]
  | .inputs ws => ws
  | _ => []

/-- Proof helper: the part as an option on the line. -/
def given (x : Bool × Part) : Given := ⟨x.2.opt, (x.2.words x.1).headD [], x.2.values⟩

theorem given_words (x : Bool × Part) : (given x).words = x.2.words x.1 := by
  obtain ⟨b, p⟩ := x
  cases p <;> rfl

theorem opt_mem (p : Part) : p.opt ∈ cmdRun.parser.opts := by
  cases p <;> simp [Part.opt, cmdRun]

theorem given_valid (x : Bool × Part) (h : x.2.Fine) : (given x).Valid cmdRun.parser := by
  obtain ⟨b, p⟩ := x
  refine ⟨opt_mem p, ?_, ?_, ?_⟩
  · cases b <;> cases p <;> simp [given, Part.words, Part.opt, option, workspaceOpt, configOpt, quietOpt]
  · cases p <;> simp_all [given, Part.values, Part.Fine]
  · cases p <;> simp [given, Part.values, Part.opt, option, workspaceOpt, configOpt, quietOpt]

theorem assign_snoc (ns : Ns) (l : List (String × Value)) (x : String × Value) (d : String) :
    assign ns (l ++ [x]) d = if d = x.1 then x.2 else assign ns l d := by
  unfold assign
  rw [List.foldl_append]
  simp only [List.foldl_cons, List.foldl_nil, Function.update_apply]

theorem lastPart_snoc {α : Type} (f : Part → Option α) (ps : Parts) (x : Bool × Part) :
    lastPart f (ps ++ [x]) = (f x.2).or (lastPart f ps) := by
  unfold lastPart
  rw [List.filterMap_append]
  cases h : f x.2 <;> simp [h]

theorem has_snoc (ps : Parts) (x : Bool × Part) (p : Part) : Parts.has (ps ++ [x]) p = (x.2 == p || ps.has p) := by
  simp [Parts.has, List.any_append, Bool.or_comm]

theorem runArgs_parts (ps : Parts) : runArgs (assign cmdRun.parser.defaults ((ps.map given).map Given.sets)) =
    ps.args := by
  induction ps using List.reverseRecOn with
  | nil => rfl
  | append_singleton ps x ih =>
    simp only [runArgs, Parts.args, Run.Args.mk.injEq] at ih ⊢
    obtain ⟨h1, h2, h3, h4, h5, h6, h7⟩ := ih
    simp only [List.map_append, List.map_cons, List.map_nil, assign_snoc]
    simp only [Parts.workspace, Parts.config, Parts.output, Parts.files, lastPart_snoc, has_snoc] at h1 h2 h3 h4 ⊢
    generalize assign cmdRun.parser.defaults ((ps.map given).map Given.sets) = A at *
    have e1 : ∀ w, nameOf (.word w) = w := fun _ => rfl
    have e2 : ∀ ws, wordsOf (.words ws) = ws := fun _ => rfl
    obtain ⟨b, p⟩ := x
    cases p <;>
      simp [given, Given.sets, optSets, Part.opt, Part.values, option, workspaceOpt, configOpt, quietOpt, e1, e2, h1, h2, h3, h4, ← h5, ← h6, ← h7]

/-! ## Properties -/

/-- **C168.**  A `run` line made of any options in any order, each with its short or long name, is accepted and runs the processor with the workspace,
configuration, files and output directory named last on the line and with the switches that are on it. -/
theorem run_line_meaning {Ω σ : Type} (P : Processor Ω σ) (t : Templates) (fs : FS) (ω : Ω) (ps : Parts) (hf : ∀ x ∈ ps, x.2.Fine)
    (n : String) (hn : n = "run" ∨ n = "r") :
    typeRun P t fs ω (n.toList :: ps.words) = some (run P t fs ω ps.args) := by
  have h1 : findCommand (n.toList :: ps.words) = some (cmdRun, ps.words) :=
    (names_unambiguous cmdRun (by decide +kernel) n (by rcases hn with rfl | rfl <;> decide +kernel) ps.words).2 rfl
  have h2 : ps.words = (ps.map given).flatMap Given.words ++ [] := by
    rw [List.append_nil, List.flatMap_map]
    unfold Parts.words
    congr 1
    funext x
    exact (given_words x).symm
  have h3 := options_then_names cmdRun.parser (by decide +kernel) (ps.map given)
    (by intro g hg; obtain ⟨x, hx, rfl⟩ := List.mem_map.mp hg; exact given_valid x (hf x hx)) [] (by simp) (Or.inl rfl) [] rfl
  rw [← h2] at h3
  unfold typeRun
  rw [h1]
  dsimp only
  rw [if_pos rfl, h3]
  simp only [List.map_nil, List.append_nil]
  rw [runArgs_parts]

/-- **C168.**  A run line that ends without an error and names files: for each configuration one processor made from the files of the configuration,
the output directory and the switch of the line, and then the files of the line in their order, each once, and nothing else.  The workspace is the one
on the line, otherwise the current one; the configuration is the one on the line, otherwise the current one of the workspace; with `-a` all. -/
theorem named_files_processed {Ω σ : Type} (P : Processor Ω σ) (t : Templates) (fs : FS) (ω : Ω) (ps : Parts) (hf : ∀ x ∈ ps, x.2.Fine)
    (hne : NoEmpty fs) (hfiles : ps.files ≠ []) (hcur : ps.workspace ≠ [] ∨ recorded fs [".current".toList] ≠ none)
    (out : Out Ω) (fs' : FS) (h : typeRun P t fs ω ("run".toList :: ps.words) = some (out, fs')) (hok : out.res = .ok ()) :
    ∃ (w : Name) (cfgs : List Name),
      (if ps.workspace ≠ [] then w = ps.workspace else recorded fs [".current".toList] = some w) ∧
      (ps.has .all = false → cfgs = [if ps.config ≠ [] then ps.config
        else (recorded fs [w, "configs".toList, ".current".toList]).getD "default".toList]) ∧
      (ps.has .all = true → ps.config = [] ∧ cfgs.Pairwise (· ≤ ·) ∧ ∀ c, c ∈ cfgs ↔ view fs [w, "configs".toList, c] = some .dir) ∧
      out.calls = (cfgs.flatMap fun c =>
        Call.make ⟨c, [w, "configs".toList, c, "CHD.json".toList], [w, "configs".toList, c, "CNF.json".toList],
          [w, "configs".toList, c, "CST.json".toList],
          if ps.output = [] then .stored [w, "configs".toList, c, "outputs".toList] else .given ps.output, ps.has .skip⟩ ::
        ps.files.map fun f => Call.process c (.given f) (ps.has .quiet)).map (·, none) := by
  rw [run_line_meaning P t fs ω ps hf "run" (Or.inl rfl)] at h
  simp only [Option.some.injEq] at h
  set a : Run.Args := ps.args with ha
  have hres : (run P t fs ω a).1.res = .ok () := by rw [h]; exact hok
  rcases hs : (select t fs a).1 with e | s
  · obtain ⟨-, -, e', he⟩ := (run_refused P t fs ω a).1 ⟨e, hs⟩
    rw [hres] at he
    cases he
  · obtain ⟨q1, q2, q3⟩ := selection_partial t fs a s hs (hcur.imp id Or.inl)
    have hin : s.inputs = ps.files.map .given := by
      rcases hr : select t fs a with ⟨r, fs2⟩
      rw [hr] at hs
      simp only at hs
      subst hs
      obtain ⟨c, fs1, -, -, hi, -, -⟩ := selection_frame t fs a s fs2 hr
      rw [hi, if_pos (show a.inputs ≠ [] from hfiles)]
      rfl
    have hac : ps.has .all = true → ps.config = [] := by
      intro hall
      by_contra hc
      obtain ⟨-, -, m, hm⟩ := (run_refused P t fs ω a).2 hall hc
      rw [hres] at hm
      cases hm
    obtain ⟨-, -, r3⟩ := run_stops_at_failure P t fs ω a s hne hs
    rcases r3 with ⟨-, r4, r5⟩ | ⟨c, e, e', -, he, -⟩
    · refine ⟨s.ws, s.cfgs, ?_, ?_, ?_, ?_⟩
      · rw [q1]
        unfold wantedWs
        by_cases hw : ps.workspace ≠ []
        · rw [if_pos hw, if_pos (show a.ws ≠ [] from hw)]
          rfl
        · rw [if_neg hw, if_neg (show ¬ a.ws ≠ [] from hw)]
          rcases hcur with hc | hc
          · exact absurd hc hw
          · cases hrec : recorded fs [".current".toList] with
            | none => exact absurd hrec hc
            | some v => rfl
      · intro hall
        rw [q2 hall]
        unfold wantedCfg
        rw [q1]
        rfl
      · intro hall
        exact ⟨hac hall, (q3 hall).2⟩
      · have e1 : out.calls = (out.calls.map (·.1)).map (·, none) := by
          rw [List.map_map]
          have : ∀ x ∈ out.calls, ((·, none) ∘ (·.1)) x = x := by
            intro x hx
            have := r5 x (by rw [h]; exact hx)
            exact Prod.ext rfl this.symm
          rw [List.map_congr_left this]
          exact (List.map_id _).symm
        rw [e1]
        congr 1
        have r4' : out.calls.map (·.1) = plan a s := by rw [← r4, h]
        rw [r4']
        unfold plan
        rw [hin]
        simp only [List.map_map]
        rfl
    · rw [hres] at he
      cases he

/-- **C168.**  With the writers: after such a line with `-w` and `-c` (files of different base names) there is for each file of the line
the L1B product, and the L1B-S product unless `-s` is on the line, complete and made from this file. -/
theorem named_files_products (mf : Setup → Option RunErr) (pf : Setup → Place → Option (RunErr × Bool)) (t : Templates) (fs : FS) (d : Disk) (ps : Parts)
    (hf : ∀ x ∈ ps, x.2.Fine) (hne : NoEmpty fs) (hon : Once fs) (hw : ps.workspace ≠ []) (hc : ps.config ≠ []) (hfiles : ps.files ≠ [])
    (hbase : (ps.files.map l1aBase).Nodup) (out : Out Disk) (fs' : FS)
    (h : typeRun (l1bProcessor mf pf) t fs d ("run".toList :: ps.words) = some (out, fs')) (hok : out.res = .ok ()) (f : Name) (hmem : f ∈ ps.files) :
    let dir : Place := if ps.output = [] then .stored [ps.workspace, "configs".toList, ps.config, "outputs".toList] else .given ps.output
    (∃ c, out.world (inDir dir (l1bName f ps.config)) = some c ∧ c.kind = .l1b ∧ c.input = .given f ∧ c.setup.name = ps.config ∧ c.complete = true) ∧
    (ps.has .skip = false → ∃ c, out.world (inDir dir (l1bsName f ps.config)) = some c ∧ c.kind = .l1bs ∧ c.input = .given f ∧
      c.setup.name = ps.config ∧ c.complete = true) := by
  intro dir
  obtain ⟨w, cfgs, p1, p2, p3, p4⟩ := named_files_processed _ t fs d ps hf hne hfiles (Or.inl hw) out fs' h hok
  have hall : ps.has .all = false := by
    cases ha : ps.has .all with
    | false => rfl
    | true => exact absurd (p3 ha).1 hc
  rw [run_line_meaning _ t fs d ps hf "run" (Or.inl rfl)] at h
  simp only [Option.some.injEq] at h
  set a : Run.Args := ps.args with ha
  have hres : (run (l1bProcessor mf pf) t fs d a).1.res = .ok () := by rw [h]; exact hok
  rcases hs : (select t fs a).1 with e | s
  · obtain ⟨-, -, e', he⟩ := (run_refused (l1bProcessor mf pf) t fs d a).1 ⟨e, hs⟩
    rw [hres] at he
    cases he
  · obtain ⟨q1, q2, q3⟩ := selection_partial t fs a s hs (Or.inl hw)
    have hsw : s.ws = ps.workspace := by
      rw [q1]; unfold wantedWs; rw [if_pos (show a.ws ≠ [] from hw)]; rfl
    have hcf : s.cfgs = [ps.config] := by
      rw [q2 hall]; unfold wantedCfg; rw [if_pos (show a.cfg ≠ [] from hc)]; rfl
    have hin : s.inputs = ps.files.map .given := by
      rcases hr : select t fs a with ⟨r, fs2⟩
      rw [hr] at hs
      simp only at hs
      subst hs
      obtain ⟨c, fs1, -, -, hi, -, -⟩ := selection_frame t fs a s fs2 hr
      rw [hi, if_pos (show a.inputs ≠ [] from hfiles)]
      rfl
    have hdone : Done (run (l1bProcessor mf pf) t fs d a).1.calls ps.config (.given f) := by
      refine ⟨ps.has .quiet, ?_⟩
      rw [h]
      dsimp only
      rw [p4, p2 hall, if_pos hc]
      simp only [List.flatMap_cons, List.flatMap_nil, List.append_nil, List.map_cons, List.mem_cons, List.mem_map, List.map_map]
      exact Or.inr ⟨f, hmem, rfl⟩
    obtain ⟨-, -, g3, g4⟩ := products_kept_partial mf pf t fs d a s hne hon hs (Or.inr (Or.inl (by rw [hcf]; simp)))
      (by rw [hin, List.map_map]; exact hbase) ps.config (.given f) hdone
    rw [h] at g3 g4
    have hout : (setupOf a s ps.config).out = dir := by
      simp only [setupOf, hsw]
      rfl
    simp only [productAt, hout, fileText] at g3 g4
    exact ⟨⟨_, g3, rfl, rfl, rfl, rfl⟩, fun hsk => ⟨_, g4 hsk, rfl, rfl, rfl, rfl⟩⟩

theorem spells_dash (w : Word) (ws : List Word) (acts : List (Opt × List Word)) (h : Spells cmdRun.parser w ws acts) : ¬ Plain w := by
  have key : ∀ (w n : Word) (o : Opt), Means cmdRun.parser w n o → w ≠ [] → w.head? = some '-' := by
    have hn : ∀ o ∈ cmdRun.parser.opts, ∀ n ∈ o.names, n.head? = some '-' := by decide +kernel
    intro w n o h hw
    have h1 := hn o h.1 n h.2.1
    rcases h.2.2 with rfl | ⟨⟨t, ht⟩, -⟩
    · exact h1
    · cases w with
      | nil => exact absurd rfl hw
      | cons c w => rw [← ht] at h1; exact h1
  intro hp
  cases h with
  | name hm _ =>
    cases w with
    | nil =>
      have hu : ∀ o ∈ cmdRun.parser.opts, ∀ n ∈ o.names, n ≠ [] := by decide +kernel
      obtain ⟨h1, h2, h3 | ⟨-, h3⟩⟩ := hm
      · exact hu _ h1 _ h2 h3.symm
      · have e1 := h3 helpOpt (by decide +kernel) "-h".toList (by decide +kernel) (List.nil_prefix)
        have e2 := h3 helpOpt (by decide +kernel) "--help".toList (by decide +kernel) (List.nil_prefix)
        rw [← e1] at e2
        revert e2
        decide +kernel
    | cons c w => exact hp (key _ _ _ hm (by simp))
  | @equals a n x o hm _ =>
    cases a with
    | nil =>
      have hu : ∀ o ∈ cmdRun.parser.opts, ∀ n ∈ o.names, n ≠ [] := by decide +kernel
      obtain ⟨h1, h2, h3 | ⟨-, h3⟩⟩ := hm
      · exact hu _ h1 _ h2 h3.symm
      · have e1 := h3 helpOpt (by decide +kernel) "-h".toList (by decide +kernel) (List.nil_prefix)
        have e2 := h3 helpOpt (by decide +kernel) "--help".toList (by decide +kernel) (List.nil_prefix)
        rw [← e1] at e2
        revert e2
        decide +kernel
    | cons c w => exact hp (by have := key _ _ _ hm (by simp); simpa using this)
  | joined _ _ _ _ => exact hp rfl
  | flag _ _ _ _ _ => exact hp rfl

/-- **C168.**  A `run` line that begins with a word which is no option is refused: the file is neither processed nor ignored. -/
theorem bare_file_refused {Ω σ : Type} (P : Processor Ω σ) (t : Templates) (fs : FS) (ω : Ω) (f : Word) (rest : List Word) (hf : Plain f)
    (hc : (f :: rest).count dd ≤ 1) : typeRun P t fs ω ("run".toList :: f :: rest) = none := by
  have h1 : findCommand ("run".toList :: f :: rest) = some (cmdRun, f :: rest) :=
    (names_unambiguous cmdRun (by decide +kernel) "run" (by decide +kernel) (f :: rest)).2 rfl
  unfold typeRun
  rw [h1]
  dsimp only
  rw [if_pos rfl]
  cases h : parse cmdRun.parser (f :: rest) with
  | error e => rfl
  | ok ns =>
    exfalso
    obtain ⟨pieces, more, p1, p2, p3, -, -⟩ := every_word_used cmdRun.parser _ ns hc h
    cases pieces with
    | nil => simp at p1
    | cons x pieces =>
      cases x with
      | name q ws =>
        have : cmdRun.parser.poss = [] := rfl
        rw [this] at p3
        simp [Piece.pos] at p3
      | opt w ws acts =>
        have hl := p2 _ (List.mem_cons_self ..)
        simp only [List.flatMap_cons, Piece.words, List.cons_append, List.cons.injEq] at p1
        exact spells_dash w ws acts hl (p1.1 ▸ hf)

/-! ## Examples -/

/-- `run --workspace w -c b -i x.nc d/y.nc -o out -s`. -/
def exampleParts : Parts := [(true, .workspace "w".toList), (false, .config "b".toList),
  (false, .inputs ["x.nc".toList, "d/y.nc".toList]), (false, .output "out".toList), (false, .skip)]

-- The words of the line.
example : "run".toList :: exampleParts.words = line ["run", "--workspace", "w", "-c", "b", "-i", "x.nc", "d/y.nc", "-o", "out", "-s"] := by decide +kernel

-- The line is accepted, succeeds and leaves the two products.
example : (∀ x ∈ exampleParts, x.2.Fine) ∧ exampleParts.files ≠ [] ∧ (exampleParts.files.map l1aBase).Nodup ∧
    ∃ out fs', typeRun goodP demoT demoFS (fun _ => none) ("run".toList :: exampleParts.words) = some (out, fs') ∧ out.res = .ok () ∧
      out.calls.length = 3 ∧ (out.world (.given "out/L1B_y_b.nc".toList)).isSome = true ∧ out.world (.given "out/L1BS_y_b.nc".toList) = none := by
  have hf : ∀ x ∈ exampleParts, x.2.Fine := by
    simp [exampleParts, Part.Fine, Plain]
  refine ⟨hf, by decide +kernel, by decide +kernel, _, _, run_line_meaning goodP demoT demoFS _ exampleParts hf "run" (Or.inl rfl), ?_⟩
  decide +kernel

-- The file is not given with `-i`.
example : typeRun goodP demoT demoFS (fun _ => none) (line ["run", "x.nc", "-w", "w"]) = none :=
  bare_file_refused _ _ _ _ "x.nc".toList (line ["-w", "w"]) (by simp [Plain]) (by decide +kernel)

end Dedop.Args
