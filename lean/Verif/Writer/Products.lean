import Verif.Writer.DefineProps
import Mathlib.Data.List.TakeWhile
/-!
# The three output files after `open` (C113)
-/
namespace Dedop.Writer

/-- The fixed dimensions by name. -/
def dimOf (n : String) : Option Dim :=
  if n = "max_multi_stack_ind" then some .looks else if n = "echo_sample_ind" then some .samples else none

/-- The definitions are those on which the record writer's properties rest (C54, C68): the same names with the same dimensions
after the record dimension, which is the first dimension of every variable. -/
theorem schemas_agree :
    extendedDefs.map (fun d => (d.name, d.dims.tail.filterMap dimOf)) = extendedSchema ∧
    s3Defs.map (fun d => (d.name, d.dims.tail.filterMap dimOf)) = s3Schema ∧
    l1bsDefs.map (fun d => (d.name, d.dims.tail.filterMap dimOf)) = l1bsSchema ∧
    (∀ d ∈ extendedDefs ++ s3Defs, d.dims.head? = some "time_l1b_echo_sar_ku") ∧
    (∀ d ∈ l1bsDefs, d.dims.head? = some "time_l1bs_echo_sar_ku") := by
  decide +kernel

theorem extended_good : (extendedDefs.map VarDef.name).Nodup ∧
    (∀ d ∈ extendedDefs, wellFormed ["time_l1b_echo_sar_ku", "echo_sample_ind", "max_multi_stack_ind"] d = true) ∧
    (∀ d ∈ extendedDefs, fillFits d = true) := by decide +kernel

theorem s3_good : (s3Defs.map VarDef.name).Nodup ∧
    (∀ d ∈ s3Defs, wellFormed ["time_l1b_echo_sar_ku", "echo_sample_ind", "max_multi_stack_ind"] d = true) ∧
    (∀ d ∈ s3Defs, fillFits d = true) := by decide +kernel

theorem l1bs_good : (l1bsDefs.map VarDef.name).Nodup ∧
    (∀ d ∈ l1bsDefs, wellFormed ["time_l1bs_echo_sar_ku", "echo_sample_ind", "max_multi_stack_ind"] d = true) ∧
    (∀ d ∈ l1bsDefs, fillFits d = true ∨ d.name = "beam_form_l1bs_echo_sar_ku") := by decide +kernel

/-- **C113 for the L1B products.**  For every number of samples and looks both L1B files are opened; they have the declared
dimensions and variables, and the writer finds each variable under its name. -/
theorem l1b_products_open (strict : Bool) (samples looks : Nat) :
    (∃ w, (defined (extendedDims samples looks) extendedDefs).open strict = (w, none) ∧
      w.fileDims = extendedDims samples looks ∧ w.fileVars = extendedDefs.map declared ∧
      (∀ d ∈ extendedDefs, w.handles.get? d.name = some (.var d.name)) ∧ w.index = 0) ∧
    (∃ w, (defined (s3Dims samples looks) s3Defs).open strict = (w, none) ∧
      w.fileDims = s3Dims samples looks ∧ w.fileVars = s3Defs.map declared ∧
      (∀ d ∈ s3Defs, w.handles.get? d.name = some (.var d.name)) ∧ w.index = 0) := by
  constructor
  · obtain ⟨w, h1, h2, h3, h4, h5⟩ := open_creates strict (extendedDims samples looks) extendedDefs
      (by simp [extendedDims]) extended_good.1 extended_good.2.1 extended_good.2.2
    exact ⟨w, h1, h2, h3, fun d hd => by rw [h4, if_pos (List.mem_map_of_mem hd)], h5⟩
  · obtain ⟨w, h1, h2, h3, h4, h5⟩ := open_creates strict (s3Dims samples looks) s3Defs
      (by simp [s3Dims]) s3_good.1 s3_good.2.1 s3_good.2.2
    exact ⟨w, h1, h2, h3, fun d hd => by rw [h4, if_pos (List.mem_map_of_mem hd)], h5⟩

/-- The fill value which a wrapping conversion gives the variable of the L1BS file whose fill value does not fit its type. -/
def wrappedFill (d : VarDef) : Option ℚ := if d.name = "beam_form_l1bs_echo_sar_ku" then some 255 else declaredFill d

/-- **C113 for the L1BS product**, when numpy wraps numbers which do not fit: as declared, except that the variable
`beam_form_l1bs_echo_sar_ku` has the fill value 255 instead of 65535. -/
theorem l1bs_product_open_partial (samples looks : Nat) :
    ∃ w, (defined (l1bsDims samples looks) l1bsDefs).open false = (w, none) ∧
      w.fileDims = l1bsDims samples looks ∧ w.fileVars = l1bsDefs.map (fun d => { declared d with fill := wrappedFill d }) ∧
      (∀ d ∈ l1bsDefs, w.handles.get? d.name = some (.var d.name)) ∧ w.index = 0 := by
  obtain ⟨w, h1, h2, h3, h4, h5⟩ := open_creates_with false wrappedFill (l1bsDims samples looks) l1bsDefs
    (by simp [l1bsDims]) l1bs_good.1 l1bs_good.2.1 (by
      have hb : ∀ d ∈ l1bsDefs, d.name = "beam_form_l1bs_echo_sar_ku" →
          fillOf false d.type (fillProps d) = .ok (some 255) := by decide +kernel
      intro d hd
      by_cases e : d.name = "beam_form_l1bs_echo_sar_ku"
      · rw [hb d hd e, wrappedFill, if_pos e]
      · rcases l1bs_good.2.2 d hd with h | h
        · rw [fillOf_eq _ d h, wrappedFill, if_neg e]
        · exact absurd h e)
  exact ⟨w, h1, h2, h3, fun d hd => by rw [h4, if_pos (List.mem_map_of_mem hd)], h5⟩

theorem createVars_append (strict : Bool) (a b : List (String × Dict String Entry)) : ∀ w : W,
    createVars strict (a ++ b) w =
      match createVars strict a w with
      | (w', some e) => (w', some e)
      | (w', none) => createVars strict b w' := by
  induction a with
  | nil => intro w; rfl
  | cons p t ih =>
    intro w
    obtain ⟨n, d⟩ := p
    simp only [List.cons_append, createVars]
    cases descriptor d with
    | error e => rfl
    | ok desc =>
      dsimp only
      generalize createVar strict _ n desc = r
      obtain ⟨w', e⟩ := r
      cases e with
      | none => exact ih w'
      | some e => rfl

theorem l1bs_split : ∃ b c, l1bsDefs = l1bsDefs.takeWhile (fun d => d.name ≠ "beam_form_l1bs_echo_sar_ku") ++ b :: c ∧
    b.name = "beam_form_l1bs_echo_sar_ku" ∧ b.type = .u8 ∧ b.dims = ["time_l1bs_echo_sar_ku"] ∧
    declaredFill b = some 65535 ∧ fillOf true b.type (fillProps b) = .error (.other "OverflowError") := by
  have h := List.takeWhile_append_dropWhile (p := fun d : VarDef => decide (d.name ≠ "beam_form_l1bs_echo_sar_ku")) (l := l1bsDefs)
  cases hd : l1bsDefs.dropWhile (fun d : VarDef => decide (d.name ≠ "beam_form_l1bs_echo_sar_ku")) with
  | nil => exact absurd hd (by decide +kernel)
  | cons b c =>
    rw [hd] at h
    have hb : b ∈ l1bsDefs := by rw [← h]; simp
    have hn : b.name = "beam_form_l1bs_echo_sar_ku" := by
      have := List.head?_dropWhile_not (fun d : VarDef => decide (d.name ≠ "beam_form_l1bs_echo_sar_ku")) l1bsDefs
      rw [hd] at this
      simpa using this
    have all : ∀ d ∈ l1bsDefs, d.name = "beam_form_l1bs_echo_sar_ku" → d.type = .u8 ∧ d.dims = ["time_l1bs_echo_sar_ku"] ∧
        declaredFill d = some 65535 ∧ fillOf true d.type (fillProps d) = .error (.other "OverflowError") := by decide +kernel
    exact ⟨b, c, h.symm, hn, all b hb hn⟩

/-- **C113 is violated for the L1BS product**: `beam_form_l1bs_echo_sar_ku` is declared with 8 bits and the fill value 65535.  With a
numpy that refuses such a conversion (version 2), opening an L1BS file fails for every number of samples and looks, and the file lacks
this and all later variables, among them the echoes. -/
theorem l1bs_product_open_violated (samples looks : Nat) :
    ∃ w, (defined (l1bsDims samples looks) l1bsDefs).open true = (w, some (.other "OverflowError")) ∧
      ∀ n ∈ ["beam_form_l1bs_echo_sar_ku", "i_echoes_ku_l1bs_echo_sar_ku", "q_echoes_ku_l1bs_echo_sar_ku"],
        n ∉ w.fileVars.map NcVar.name := by
  obtain ⟨b, c, hs, hn, ht, hdim, _, hfill⟩ := l1bs_split
  generalize ha : l1bsDefs.takeWhile (fun d => d.name ≠ "beam_form_l1bs_echo_sar_ku") = a at hs
  have hsub : ∀ d ∈ a, d ∈ l1bsDefs := fun d h => by rw [hs]; simp [h]
  have hfits : ∀ d ∈ a, fillFits d = true := by
    intro d h
    rcases l1bs_good.2.2 d (hsub d h) with h' | h'
    · exact h'
    · rw [← ha] at h
      have := List.all_eq_true.mp (List.all_takeWhile (p := fun d : VarDef => decide (d.name ≠ "beam_form_l1bs_echo_sar_ku"))
        (l := l1bsDefs)) d h
      simp [h'] at this
  have hnd : (a.map VarDef.name).Nodup := by
    have := l1bs_good.1
    rw [hs, List.map_append] at this
    exact (List.nodup_append.mp this).1
  rw [defined_eq _ _ (by simp [l1bsDims]) l1bs_good.1]
  obtain ⟨dd, hh, h1, h2, h3⟩ := createDims_eq (l1bsDims samples looks)
    ⟨l1bsDims samples looks, l1bsDefs.map (fun d => (d.name, entries d)), [], [], [], [], 0⟩ (by simp [l1bsDims]) (by simp)
  have hdd : ∀ n ∈ ["time_l1bs_echo_sar_ku", "echo_sample_ind", "max_multi_stack_ind"], dd.get? n = some n := by
    intro n hn; rw [h2, if_pos]; exact hn
  have hmap : l1bsDefs.map (fun d => (d.name, entries d)) =
      a.map (fun d => (d.name, entries d)) ++ (b :: c).map (fun d => (d.name, entries d)) := by
    rw [← List.map_append, ← hs]
  obtain ⟨v', hs', h4, h5⟩ := createVars_eq true declaredFill ["time_l1bs_echo_sar_ku", "echo_sample_ind", "max_multi_stack_ind"] a
    ⟨l1bsDims samples looks, l1bsDefs.map (fun d => (d.name, entries d)), l1bsDims samples looks, [], dd, hh, 0⟩ hnd (by simp)
    (fun d h => l1bs_good.2.1 d (hsub d h)) (fun d h => fillOf_eq true d (hfits d h)) hdd
  have hbm : b ∈ l1bsDefs := by rw [hs]; simp
  have hwf := l1bs_good.2.1 b hbm
  refine ⟨⟨l1bsDims samples looks, v'.set b.name (popped (entries b)), l1bsDims samples looks,
    a.map (fun d => { declared d with fill := declaredFill d }), dd, hs', 0⟩, ?_, ?_⟩
  · simp only [W.open, h1, List.nil_append]
    have key : ∀ w, createVars true (l1bsDefs.map fun d => (d.name, entries d)) w = _ := fun w => by
      rw [hmap]
    rw [key, createVars_append, h4]
    simp only [List.map_cons, createVars, descriptor_eq _ b hwf, createVar, List.nil_append]
    rw [dimNames_eq _ _ (by rw [hdim]; simpa using hdd _ (by simp))]
    dsimp only
    rw [if_neg]
    · simp only [hfill]
    · rw [List.map_map]
      intro hm
      have hnd' := l1bs_good.1
      rw [hs, List.map_append] at hnd'
      have := (List.nodup_append.mp hnd').2.2
      exact this _ (by simpa [Function.comp_def, declared] using hm) b.name (by simp) rfl
  · intro n hn' hm
    have hm' : n ∈ a.map VarDef.name := by simpa [Function.comp_def, declared] using hm
    rw [← ha] at hm'
    have all : ∀ n ∈ ["beam_form_l1bs_echo_sar_ku", "i_echoes_ku_l1bs_echo_sar_ku", "q_echoes_ku_l1bs_echo_sar_ku"],
      n ∉ (l1bsDefs.takeWhile (fun d => decide (d.name ≠ "beam_form_l1bs_echo_sar_ku"))).map VarDef.name := by decide +kernel
    exact all n hn' hm'

/-- The names of variables and dimensions do not hide anything the writers use. -/
theorem names_free : (∀ n ∈ (extendedDefs ++ s3Defs ++ l1bsDefs).map VarDef.name, n ∉ ownNames) ∧
    (∀ samples looks, ∀ n ∈ (extendedDims samples looks ++ s3Dims samples looks ++ l1bsDims samples looks).map Prod.fst,
      n ∉ ownNames) := by
  constructor
  · decide +kernel
  · intro samples looks n hn
    have : n ∈ ["time_l1b_echo_sar_ku", "echo_sample_ind", "max_multi_stack_ind", "time_l1bs_echo_sar_ku"] := by
      simp only [extendedDims, s3Dims, l1bsDims, List.cons_append, List.nil_append, List.map_cons, List.map_nil, List.mem_cons,
        List.not_mem_nil, or_false] at hn
      grind
    have all : ∀ n ∈ ["time_l1b_echo_sar_ku", "echo_sample_ind", "max_multi_stack_ind", "time_l1bs_echo_sar_ku"], n ∉ ownNames := by
      decide +kernel
    exact all n this

/-! ## Files which cannot be opened -/

theorem dirname_nil (path : List Char) : dirname path = [] ↔ '/' ∉ path := by
  have key : ∀ l : List Char, l.dropWhile (· ≠ '/') = [] ↔ '/' ∉ l := by
    intro l
    rw [List.dropWhile_eq_nil_iff]
    constructor
    · intro h hm
      have := h '/' hm
      simp at this
    · intro h c hc
      simp only [decide_not, Bool.not_eq_eq_eq_not, Bool.not_true, decide_eq_false_iff_not]
      exact fun e => h (e ▸ hc)
  unfold dirname
  set head := (path.reverse.dropWhile (· ≠ '/')).reverse with hh
  have hnil : head = [] ↔ '/' ∉ path := by
    rw [hh, List.reverse_eq_nil_iff, key, List.mem_reverse]
  by_cases hall : head.all (· = '/') = true
  · simp only [hall, if_true]; exact hnil
  · simp only [hall]
    rw [← hnil]
    constructor
    · intro h
      exfalso
      apply hall
      rw [if_neg (by simp), List.reverse_eq_nil_iff, List.dropWhile_eq_nil_iff] at h
      rw [List.all_eq_true]
      intro c hc
      simpa using h c (List.mem_reverse.mpr hc)
    · intro h
      exact absurd (by rw [h]; rfl) hall

/-- **C113 is violated for files in the current directory**: a writer can be made exactly for the paths with a slash; a bare file name
raises `FileNotFoundError`. -/
theorem bare_file_name_violated (path : List Char) : newWriter path = .error .ioError ↔ '/' ∉ path := by
  rw [newWriter, ← dirname_nil]
  by_cases h : dirname path = [] <;> simp [h]

theorem createDims_keeps (l : List (String × Option Nat)) : ∀ w w' : W, createDims l w = (w', none) →
    w'.dimDefs = w.dimDefs ∧ (∀ n ∈ w.fileDims.map Prod.fst, n ∈ w'.fileDims.map Prod.fst) ∧
      ∀ n ∈ l.map Prod.fst, n ∈ w'.fileDims.map Prod.fst := by
  induction l with
  | nil => intro w w' h; cases h; simp
  | cons p t ih =>
    intro w w' h
    obtain ⟨n, s⟩ := p
    simp only [createDims] at h
    cases hc : createDim w n s with
    | error e => rw [hc] at h; cases h
    | ok w1 =>
      rw [hc] at h
      obtain ⟨a, b, c⟩ := ih w1 w' h
      unfold createDim at hc
      split at hc
      · cases hc
      · cases hc
        refine ⟨a, fun j hj => b j (by simp only [List.map_append, List.mem_append]; exact .inl hj), ?_⟩
        intro j hj
        rw [List.map_cons, List.mem_cons] at hj
        rcases hj with rfl | hj
        · exact b _ (by simp)
        · exact c j hj

theorem createVar_keeps (strict : Bool) (w : W) (n : String) (d : Desc) :
    (createVar strict w n d).1.dimDefs = w.dimDefs ∧ (createVar strict w n d).1.fileDims = w.fileDims := by
  unfold createVar
  repeat' split
  all_goals exact ⟨rfl, rfl⟩

theorem createVars_keeps (strict : Bool) (l : List (String × Dict String Entry)) : ∀ w w' : W, ∀ e,
    createVars strict l w = (w', e) → w'.dimDefs = w.dimDefs ∧ w'.fileDims = w.fileDims := by
  induction l with
  | nil => intro w w' e h; cases h; exact ⟨rfl, rfl⟩
  | cons p t ih =>
    intro w w' e h
    obtain ⟨n, d⟩ := p
    simp only [createVars] at h
    cases hd : descriptor d with
    | error e => rw [hd] at h; cases h; exact ⟨rfl, rfl⟩
    | ok desc =>
      rw [hd] at h
      dsimp only at h
      have hk := createVar_keeps strict { w with varDefs := w.varDefs.set n (popped d) } n desc
      generalize createVar strict _ n desc = r at h hk
      obtain ⟨w1, e1⟩ := r
      cases e1 with
      | some e1 => cases h; exact hk
      | none =>
        obtain ⟨a, b⟩ := ih w1 w' e h
        exact ⟨a.trans hk.1, b.trans hk.2⟩

/-- A writer with a dimension can be opened once: the second `open` raises. -/
theorem open_twice_fails (strict : Bool) (w w' : W) (h : w.open strict = (w', none)) (hd : w.dimDefs ≠ []) :
    w'.open strict = (w', some (.other "RuntimeError")) := by
  unfold W.open at h
  cases hc : createDims w.dimDefs w with
  | mk w1 e1 =>
    rw [hc] at h
    cases e1 with
    | some e => cases h
    | none =>
      dsimp only at h
      cases hv : createVars strict w1.varDefs w1 with
      | mk w2 e2 =>
        rw [hv] at h
        cases e2 with
        | some e => cases h
        | none =>
          cases h
          obtain ⟨a, _, c⟩ := createDims_keeps _ _ _ hc
          obtain ⟨a', b'⟩ := createVars_keeps _ _ _ _ _ hv
          obtain ⟨p, t, hp⟩ := List.exists_cons_of_ne_nil hd
          have hm : p.1 ∈ w2.fileDims.map Prod.fst := by rw [b']; exact c _ (by rw [hp]; simp)
          have e : w2.dimDefs = p :: t := by rw [a', a, hp]
          unfold W.open
          simp only [e]
          obtain ⟨n, s⟩ := p
          simp only [createDims, createDim, if_pos hm]

/-- The hypotheses of `open_creates` and `open_twice_fails` are met by a small file in which a dimension and a variable share their
name: the variable is found under it. -/
example : ∃ w, (defined [("t", none), ("x", some 3)]
    [⟨"t", .f64, ["t"], [("long_name", .str "time"), ("units", .str "s")]⟩,
     ⟨"a", .i16, ["t", "x"], [("fill_value", .num 7), ("long_name", .str "A"), ("flag_meanings", .strs ["u", "v"])]⟩]).open true =
      (w, none) ∧ w.fileVars = [⟨"t", .f64, ["t"], none, [("units", .bytes "s"), ("long_name", .bytes "time")]⟩,
        ⟨"a", .i16, ["t", "x"], some 7, [("flag_meanings", .bytes "u v"), ("long_name", .bytes "A")]⟩] ∧
      w.handles.get? "t" = some (.var "t") ∧ w.handles.get? "x" = some (.dim "x") ∧
      w.open true = (w, some (.other "RuntimeError")) := by
  refine ⟨_, rfl, ?_⟩
  decide +kernel

/-- A variable over a dimension that is not defined, one without a long name and a fill value of another type end with an exception. -/
example : ((defined [] [⟨"a", .i8, ["t"], [("long_name", .str "A")]⟩]).open false).2 = some (.keyError "t") ∧
    ((defined [("t", none)] [⟨"a", .i8, ["t"], []⟩]).open false).2 = some .typeError ∧
    ((defined [("t", none)] [⟨"a", .u8, ["t"], [("fill_value", .num (-1)), ("long_name", .str "A")]⟩]).open true).2 =
      some (.other "OverflowError") := by decide +kernel

end Dedop.Writer
