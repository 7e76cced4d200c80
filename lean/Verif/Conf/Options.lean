import Verif.Conf.DeclaredProps

/-!
# Options without an effect

C103.  Whatever the processing does, it knows the auxiliary files only through the attributes it reads.  The
attributes read anywhere in `/repo/dedop/data`, `/repo/dedop/model` and `/repo/dedop/proc` are listed in `used`.  A
program is any tree of such reads; it may catch the exceptions they raise.
-/
namespace Dedop.Conf

/-- The three auxiliary files (`processor.py:58-60`). -/
inductive Which where
  | chd
  | cnf
  | cst
  deriving DecidableEq, Repr

/-- The declarations of a file (`characterization.py:15-106`, `configuration.py:18-92`, `constants.py:11-38`). -/
def decls : Which → List Decl
  | .chd => declCHD
  | .cnf => declCNF
  | .cst => declCST

/-- The parameters the processing reads, with one place where it does.  Derived attributes are replaced by what they
are computed from (`characterization.py:108-133`).  `flag_window_delay_alignment_method` is copied into an attribute of
the algorithm, exceptions being swallowed (`geometry_corrections.py:13`, `base_algorithm.py:29-39`), that is never
used; it is left out here. -/
def used : Which → List String
  | .chd => [
    "mean_sat_alt",            -- l1a_processing_data.py:904
    "n_samples_sar",           -- l1b_writer.py:110
    "n_ku_pulses_burst",       -- beam_angles.py:46
    "freq_ku",                 -- beam_angles.py:34
    "pulse_length",            -- geometry_corrections.py:81
    "bw_ku",                   -- geometry_corrections.py:81
    "power_tx_ant_ku",         -- sigma_zero_scaling.py:27
    "antenna_gain_ku",         -- sigma_zero_scaling.py:28
    "uso_freq_nom",            -- l1a_dataset.py:201 (t0_nom)
    "alt_freq_multiplier",     -- l1a_dataset.py:201 (t0_nom)
    "prf_sar",                 -- l1a_dataset.py:183 (pri_sar)
    "brf_sar",                 -- processor.py:104 (bri_sar)
    "antenna_weights",         -- multilooking.py:200
    "antenna_angles",          -- multilooking.py:198
    "antenna_angles_spacing",  -- multilooking.py:206
    "look_angle_mask_min",     -- stack_masking.py:107
    "look_angle_mask_max",     -- stack_masking.py:108
    "ptr_width",               -- sigma_zero_scaling.py:50
    "ratio_trc_ku"]            -- sigma_zero_scaling.py:30
  | .cnf => [
    "flag_cal2_correction",             -- cal2_algorithm.py:10
    "flag_cal2_table_index",            -- l1a_dataset.py:234
    "flag_cal1_corrections",            -- cal1_algorithm.py:10
    "flag_surface_focusing",            -- surface_locations.py:79
    "surface_focusing_lat",             -- surface_locations.py:142
    "surface_focusing_lon",             -- surface_locations.py:143
    "surface_focusing_alt",             -- surface_locations.py:144
    "flag_azimuth_processing_method",   -- azimuth_processing.py:41
    "flag_azimuth_windowing_method",    -- azimuth_processing.py:35
    "azimuth_window_width",             -- azimuth_processing.py:36
    "flag_doppler_range_correction",    -- geometry_corrections.py:74
    "flag_slant_range_correction",      -- geometry_corrections.py:100
    "flag_stack_masking",               -- stack_masking.py:20
    "flag_avoid_zeros_in_multilooking", -- multilooking.py:268
    "flag_antenna_weighting",           -- multilooking.py:79
    "zp_fact_range",                    -- l1b_writer.py:110
    "n_looks_stack",                    -- processor.py:250
    "min_lat",                          -- l1a_dataset.py:128
    "max_lat",                          -- l1a_dataset.py:130
    "min_lon",                          -- l1a_dataset.py:129
    "max_lon",                          -- l1a_dataset.py:131
    "output_format"]                    -- processor.py:159
  | .cst => [
    "c",                -- beam_angles.py:33
    "pi",               -- beam_angles.py:35
    "semi_major_axis",  -- lla2ecef.py:18
    "semi_minor_axis",  -- lla2ecef.py:19
    "earth_radius",     -- sigma_zero_scaling.py:46
    "flat_coeff",       -- ecef2lla.py:68
    "sec_in_day"]       -- surface_locations.py:325

/-- A program that reads attributes of its three auxiliary objects; a read gives a value or an exception, which the
program may catch.  Reads are by position among the declarations. -/
inductive Prog (A : Type) where
  | ret (a : A)
  | get (file : Which) (k : Nat) (next : Except PyErr (Option Val) → Prog A)

/-- The program reads nothing but what the processing reads. -/
def Prog.OnlyUsed {A : Type} : Prog A → Prop
  | .ret _ => True
  | .get file k next => (∃ d, (decls file)[k]? = some d ∧ d.attr ∈ used file) ∧ ∀ r, (next r).OnlyUsed

/-- The descriptors of a class. -/
def paramsOf (T : Texts) (file : Which) : List (Param Val) := (decls file).map (Decl.param T)

/-- The execution (`auxiliary_parameter.py:37-61`): the caches of the descriptors change on the way.  `inst` are the
three objects of the processor (`processor.py:58-60`). -/
def Prog.eval {A : Type} (T : Texts) (inst : Which → Nat) : Prog A → (Which → World Val) → A
  | .ret a, _ => a
  | .get file k next, w =>
    let r := read (paramsOf T file) (w file) (inst file) k
    (next r.1).eval T inst (fun f => if f = file then r.2 else w f)

/-- Declared options that the processing does not read, by name in the file. -/
def unused : Which → List String
  | .chd => ["fft_step_freq_ku_chd"]
  | .cnf => ["flag_uso_correction_cnf", "flag_cal1_intraburst_corrections_cnf", "flag_postphase_azimuth_processing_cnf",
      "flag_window_delay_alignment_method_cnf", "flag_surface_weighting_cnf"]
  | .cst => []

/-- Every declared parameter is in exactly one of the two lists. -/
theorem used_or_unused (file : Which) (d : Decl) (hd : d ∈ decls file) :
    d.attr ∈ used file ↔ d.name ∉ unused file := by
  have h : ∀ file, ∀ d ∈ decls file, (d.attr ∈ used file ↔ d.name ∉ unused file) := by
    intro file
    cases file <;> decide +kernel
  exact h file d hd

/-- Two states of a class in which the caches are right and the objects have the same values for all parameters that
are read. -/
def Alike (T : Texts) (file : Which) (inst : Nat) (w1 w2 : World Val) : Prop :=
  Good (paramsOf T file) w1 ∧ Good (paramsOf T file) w2 ∧
  ∃ d1 d2, w1.instances[inst]? = some d1 ∧ w2.instances[inst]? = some d2 ∧
    ∀ d ∈ decls file, d.attr ∈ used file → d1.get? d.name = d2.get? d.name

theorem plain_congr (T : Texts) (known : List String) (d1 d2 : Dict String (Option Val)) (d : Decl)
    (h : d1.get? d.name = d2.get? d.name) : plain known d1 (d.param T) = plain known d2 (d.param T) := by
  unfold plain retrieve getItem
  have h' : d1.get? (d.param T).name = d2.get? (d.param T).name := h
  rw [h']

theorem eval_alike {A : Type} (T : Texts) (inst : Which → Nat) (p : Prog A) (hp : p.OnlyUsed)
    (w1 w2 : Which → World Val) (h : ∀ f, Alike T f (inst f) (w1 f) (w2 f)) :
    p.eval T inst w1 = p.eval T inst w2 := by
  induction p generalizing w1 w2 with
  | ret a => rfl
  | get file k next ih =>
    obtain ⟨⟨d, hk, hd⟩, hn⟩ := hp
    obtain ⟨g1, g2, d1, d2, i1, i2, hv⟩ := h file
    have hk' : (paramsOf T file)[k]? = some (d.param T) := by
      unfold paramsOf
      rw [List.getElem?_map, hk]
      rfl
    have r1 := read_spec _ _ g1 (inst file) k _ d1 hk' i1
    have r2 := read_spec _ _ g2 (inst file) k _ d2 hk' i2
    have e := plain_congr T ((paramsOf T file).map (·.name)) d1 d2 d (hv d (List.mem_of_getElem? hk) hd)
    have er : (read (paramsOf T file) (w1 file) (inst file) k).1 = (read (paramsOf T file) (w2 file) (inst file) k).1 := by
      rw [r1, r2, e]
    unfold Prog.eval
    dsimp only
    rw [er]
    apply ih _ (hn _)
    intro f
    by_cases hf : f = file
    · subst hf
      simp only [if_true]
      obtain ⟨a1, a2⟩ := good_read _ _ g1 (inst f) k
      obtain ⟨b1, b2⟩ := good_read _ _ g2 (inst f) k
      exact ⟨a1, b1, d1, d2, by rw [a2]; exact i1, by rw [b2]; exact i2, hv⟩
    · simp only [if_neg hf]
      exact h f

/-- The state after a history, the creation of an object from a file, and a further history. -/
def after (T : Texts) (file : Which) (version : Int) (before : List (Event Val)) (j : Json Val)
    (later : List (Event Val)) : World Val :=
  run (paramsOf T file) version (run (paramsOf T file) version World.empty before) (.create (some j) [] :: later)

/-- The version each class accepts. -/
def versionOf : Which → Int
  | .chd => versionCHD
  | .cnf => versionCNF
  | .cst => versionCST

/-- Specification: two files with the same entries, up to the options listed in `unused`. -/
def SameButUnused (file : Which) (j1 j2 : Json Val) : Prop :=
  ∀ name, name ∉ unused file → j1.valueOf name = j2.valueOf name

/-- **C103, what has no effect.**  Whatever the processing computes from what it reads, its result is the same for any
two settings of the options in `unused`: the USO correction, the CAL1 intra-burst corrections, the post-phase azimuth
processing, the window delay alignment method and the surface weighting (and the FFT step of the characterisation
file).  The objects may have been created in any history. -/
theorem options_without_effect {A : Type} (T : Texts) (p : Prog A) (hp : p.OnlyUsed)
    (before later1 later2 : Which → List (Event Val)) (j1 j2 : Which → Json Val)
    (h1 : ∀ f, (j1 f).Proper) (h2 : ∀ f, (j2 f).Proper)
    (a1 : ∀ f, ∃ d, create ((paramsOf T f).map (·.name)) (versionOf f) (some (j1 f)) [] = .ok d)
    (a2 : ∀ f, ∃ d, create ((paramsOf T f).map (·.name)) (versionOf f) (some (j2 f)) [] = .ok d)
    (h : ∀ f, SameButUnused f (j1 f) (j2 f)) :
    let inst := fun f => (run (paramsOf T f) (versionOf f) World.empty (before f)).instances.length
    p.eval T inst (fun f => after T f (versionOf f) (before f) (j1 f) (later1 f)) =
    p.eval T inst (fun f => after T f (versionOf f) (before f) (j2 f) (later2 f)) := by
  intro inst
  apply eval_alike T inst p hp
  intro f
  have key : ∀ (j : Json Val) (later : List (Event Val)) (dd : Dict String (Option Val)), j.Proper →
      create ((paramsOf T f).map (·.name)) (versionOf f) (some j) [] = .ok dd →
      Good (paramsOf T f) (after T f (versionOf f) (before f) j later) ∧
      (after T f (versionOf f) (before f) j later).instances[inst f]? = some dd ∧
      ∀ name, dd.get? name = j.valueOf name := by
    intro j later dd hj hc
    have hw : Good (paramsOf T f) (run (paramsOf T f) (versionOf f) World.empty (before f)) :=
      (good_run _ _ (before f) World.empty (by intro k i v hv; cases hv)).1
    refine ⟨(good_run _ _ _ _ hw).1, ?_, ?_⟩
    · unfold after
      simp only [run, hc]
      have hw2 : Good (paramsOf T f) { run (paramsOf T f) (versionOf f) World.empty (before f) with
          instances := (run (paramsOf T f) (versionOf f) World.empty (before f)).instances ++ [dd] } := by
        intro k i v hv
        obtain ⟨p', d', q1, q2, q3⟩ := hw k i v hv
        refine ⟨p', d', q1, ?_, q3⟩
        rw [List.getElem?_append_left (List.getElem?_eq_some_iff.1 q2).1]
        exact q2
      obtain ⟨-, t, ht⟩ := good_run _ (versionOf f) later _ hw2
      rw [← ht]
      simp [inst]
    · intro name
      rw [create_spec _ _ (some j) [] (by simp) (by rintro j' hj'; cases hj'; exact hj) dd hc name]
      rfl
  obtain ⟨dd1, c1⟩ := a1 f
  obtain ⟨dd2, c2⟩ := a2 f
  obtain ⟨k1, k2, k3⟩ := key (j1 f) (later1 f) dd1 (h1 f) c1
  obtain ⟨l1, l2, l3⟩ := key (j2 f) (later2 f) dd2 (h2 f) c2
  refine ⟨k1, l1, dd1, dd2, k2, l2, ?_⟩
  intro d hd hu
  rw [k3, l3]
  exact h f _ ((used_or_unused f d hd).1 hu)

/-- Setting an entry of a file. -/
def Json.setValue (j : Json Val) (name : String) (v : Val) : Json Val :=
  { j with entries := j.entries.map (fun e => if e.1 = name then (name, some (some v)) else e) }

theorem Json.names_setValue (j : Json Val) (k : String) (v : Val) :
    (j.setValue k v).entries.map (·.1) = j.entries.map (·.1) := by
  unfold Json.setValue
  rw [List.map_map]
  apply List.map_congr_left
  intro e _
  simp only [Function.comp]
  split
  · rename_i he; exact he.symm
  · rfl

theorem Json.valueOf_setValue (j : Json Val) (k : String) (v : Val) (name : String) (hn : name ≠ k) :
    (j.setValue k v).valueOf name = j.valueOf name := by
  unfold Json.setValue Json.valueOf
  dsimp only
  generalize j.entries = l
  induction l with
  | nil => rfl
  | cons e l ih =>
    rw [List.map_cons, List.find?_cons, List.find?_cons]
    by_cases he : e.1 = k
    · rw [if_pos he]
      have e1 : decide (k = name) = false := by simpa using fun h => hn h.symm
      have e2 : decide (e.1 = name) = false := by rw [he]; exact e1
      simp only [e1, e2]
      exact ih
    · rw [if_neg he]
      split
      · rfl
      · exact ih

/-- The shipped files with one option of the configuration file set to a value. -/
def shippedWith (name : String) (v : Val) : Which → Json Val
  | .chd => shippedCHD
  | .cnf => shippedCNF.setValue name v
  | .cst => shippedCST

/-- **C103 is violated.**  Not every option has an effect: there are five switches of the configuration file such that
no program that reads what the processing reads distinguishes any two settings of them (here: on the shipped files,
for every setting). -/
theorem option_effect_violated (T : Texts) :
    ¬ ∀ d ∈ declCNF, ∃ (p : Prog (List (Except PyErr (Option Val)))) (x y : Val), p.OnlyUsed ∧
      p.eval T (fun _ => 0) (fun f => after T f (versionOf f) [] (shippedWith d.name x f) []) ≠
      p.eval T (fun _ => 0) (fun f => after T f (versionOf f) [] (shippedWith d.name y f) []) := by
  intro hall
  obtain ⟨p, x, y, hp, hne⟩ := hall { attr := "flag_uso_correction", name := "flag_uso_correction_cnf", kind := .any }
    (by decide +kernel)
  apply hne
  have hknown : ∀ f, (paramsOf T f).map (·.name) = (decls f).map (·.name) := by
    intro f
    unfold paramsOf
    rw [List.map_map]
    rfl
  have hmap : ∀ (v : Val), (shippedCNF.setValue "flag_uso_correction_cnf" v).entries.map (·.1) =
      shippedCNF.entries.map (·.1) := fun v => Json.names_setValue _ _ _
  have pchd : shippedCHD.Proper := ⟨by decide +kernel, by decide +kernel⟩
  have pcst : shippedCST.Proper := ⟨by decide +kernel, by decide +kernel⟩
  have hprop : ∀ (v : Val) (f : Which), Json.Proper (shippedWith "flag_uso_correction_cnf" v f) := by
    intro v f
    cases f
    · exact pchd
    · show Json.Proper (shippedCNF.setValue _ v)
      unfold Json.Proper
      rw [hmap]
      exact ⟨by decide +kernel, by decide +kernel⟩
    · exact pcst
  have hacc : ∀ (v : Val) (f : Which), ∃ d, create ((paramsOf T f).map (·.name)) (versionOf f) (some
      (shippedWith "flag_uso_correction_cnf" v f)) [] = .ok d := by
    intro v f
    have hv : ∀ e ∈ (shippedCNF.setValue "flag_uso_correction_cnf" v).entries, e.2 ≠ none := by
      intro e he
      unfold Json.setValue at he
      obtain ⟨e', he', rfl⟩ := List.mem_map.1 he
      split
      · simp
      · have : ∀ e ∈ shippedCNF.entries, e.2 ≠ none := by decide +kernel
        exact this e' he'
    rw [hknown]
    cases f
    · obtain ⟨d, hd, -⟩ := right_version_accepted (declCHD.map (·.name)) versionCHD shippedCHD (hprop v .chd) [] (by simp) rfl
        (by decide +kernel)
      exact ⟨d, hd⟩
    · obtain ⟨d, hd, -⟩ := right_version_accepted (declCNF.map (·.name)) versionCNF _ (hprop v .cnf) [] (by simp) rfl hv
      exact ⟨d, hd⟩
    · obtain ⟨d, hd, -⟩ := right_version_accepted (declCST.map (·.name)) versionCST shippedCST (hprop v .cst) [] (by simp) rfl
        (by decide +kernel)
      exact ⟨d, hd⟩
  have hfind : ∀ (v : Val) (name : String), name ≠ "flag_uso_correction_cnf" →
      (shippedCNF.setValue "flag_uso_correction_cnf" v).valueOf name = shippedCNF.valueOf name :=
    fun v name hn => Json.valueOf_setValue _ _ _ _ hn
  have := options_without_effect T p hp (fun _ => []) (fun _ => []) (fun _ => []) _ _ (hprop x) (hprop y) (hacc x) (hacc y)
    (by
      intro f
      cases f
      · intro name _; rfl
      · intro name hn
        have : name ≠ "flag_uso_correction_cnf" := by
          rintro rfl
          exact hn (by decide)
        exact (hfind x name this).trans (hfind y name this).symm
      · intro name _; rfl)
  exact this

/-- **C103 (partial), what has an effect.**  Every other option can make a difference: for each declared option of the
configuration file that is not in `unused` the processing reads its value, and different values are told apart by the
program that returns what it read. -/
theorem options_are_read_partial (T : Texts) (d : Decl) (hd : d ∈ declCNF) (hu : d.name ∉ unused .cnf)
    (j1 j2 : Json Val) (h1 : j1.Proper) (h2 : j2.Proper)
    (a1 : ∃ x, create ((paramsOf T .cnf).map (·.name)) versionCNF (some j1) [] = .ok x)
    (a2 : ∃ x, create ((paramsOf T .cnf).map (·.name)) versionCNF (some j2) [] = .ok x)
    (hne : expected (some j1) [] (d.param T) ≠ expected (some j2) [] (d.param T)) (w : Which → World Val) :
    ∃ p : Prog (Except PyErr (Option Val)), p.OnlyUsed ∧
      p.eval T (fun _ => 0) (fun f => if f = .cnf then after T .cnf versionCNF [] j1 [] else w f) ≠
      p.eval T (fun _ => 0) (fun f => if f = .cnf then after T .cnf versionCNF [] j2 [] else w f) := by
  obtain ⟨k, hk⟩ := List.mem_iff_getElem?.1 hd
  refine ⟨.get .cnf k .ret, ⟨⟨d, hk, (used_or_unused .cnf d hd).2 hu⟩, fun _ => trivial⟩, ?_⟩
  have hk' : (paramsOf T .cnf)[k]? = some (d.param T) := by
    unfold paramsOf
    rw [List.getElem?_map]
    show Option.map _ (declCNF[k]?) = _
    rw [hk]
    rfl
  obtain ⟨x1, c1⟩ := a1
  obtain ⟨x2, c2⟩ := a2
  have e1 := parameter_value (paramsOf T .cnf) versionCNF [] [] (some j1) [] (by simp) (by rintro j hj; cases hj; exact h1)
    x1 c1 k _ hk'
  have e2 := parameter_value (paramsOf T .cnf) versionCNF [] [] (some j2) [] (by simp) (by rintro j hj; cases hj; exact h2)
    x2 c2 k _ hk'
  show (read (paramsOf T .cnf) (after T .cnf versionCNF [] j1 []) 0 k).1 ≠
    (read (paramsOf T .cnf) (after T .cnf versionCNF [] j2 []) 0 k).1
  intro h
  apply hne
  rw [← e1, ← e2]
  exact h

/-- The program that reads whether the stack is masked, then the number of looks, and gives up on an exception. -/
def exampleProg : Prog (Except PyErr (Option Val) × Option (Except PyErr (Option Val))) :=
  .get .cnf 16 fun a => match a with
    | .ok (some (.bool true)) => .get .cnf 21 fun b => .ret (a, some b)
    | _ => .ret (a, none)

example : exampleProg.OnlyUsed := by
  refine ⟨⟨_, rfl, by decide +kernel⟩, fun r => ?_⟩
  dsimp only
  split
  · exact ⟨⟨_, rfl, by decide +kernel⟩, fun _ => trivial⟩
  · trivial

example : exampleProg.eval noTexts (fun _ => 0) (fun _ => after noTexts .cnf versionCNF [] shippedCNF []) =
    (.ok (some (.bool true)), some (.ok (some (.int 240)))) := by decide +kernel

end Dedop.Conf
