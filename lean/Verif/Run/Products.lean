import Verif.Run.Props
import Verif.Names.Props

/-!
# The products of a run (C132)

The processor of `dedop run` seen from the disk: which files it opens for writing and hence replaces
(`/repo/dedop/proc/sar/processor.py:107-170`, `/repo/dedop/data/output/netcdf_writer.py:87-100`).

Full statement of C132: after `dedop run`, whatever the number of configurations and inputs, every
input that was processed has its products, made from this input with this configuration, in the output
directory; and no other file was replaced.

* different products are different files: `products_differ_partial`;
* every product is kept, whether or not a later input fails: `products_kept_partial`;
* nothing but products is written: `only_products_written`, `inputs_not_replaced`;
* a product can replace another one: `same_name_violated`, `shared_directory_violated`; and an input:
  `input_replaced_violated`.
-/
namespace Dedop.Run

open Dedop.Names Dedop.Workspace

/-- The two kinds of products (`processor.py:150-156`). -/
inductive Kind where
  | l1b | l1bs
  deriving DecidableEq, Repr

/-- The content of a product file: the kind, the setup of the processor it was made with, the input it
was made from, and whether processing ran to its end (`processor.py:158-170`). -/
structure Content where
  kind : Kind
  setup : Setup
  input : Place
  complete : Bool
  deriving DecidableEq, Repr

/-- The products on the disk.  Files that are no products of the run are not in it.
Simplification: two places are the same file only if they are the same text or the same path in the
workspaces directory (no links, no `..`). -/
abbrev Disk := Place → Option Content

/-- The text whose base name is taken by `processor.py:138`: the path as typed, or the last component
of a path in the workspace. -/
def fileText : Place → Name
  | .given p => p
  | .stored q => q.getLast?.getD []

/-- `os.path.join(self.out_path, name)` (`processor.py:152`, `156`). -/
def inDir (dir : Place) (name : Name) : Place :=
  match dir with
  | .given d => .given (join d name)
  | .stored p => .stored (p ++ [name])

/-- The path of a product (`processor.py:137-156`). -/
def productAt (s : Setup) (input : Place) : Kind → Place
  | .l1b => inDir s.out (l1bName (fileText input) s.name)
  | .l1bs => inDir s.out (l1bsName (fileText input) s.name)

/-- The products of one call, in the order they are opened (`processor.py:158-170`). -/
def kinds (s : Setup) : List Kind := if s.skip then [.l1b] else [.l1b, .l1bs]

/-- Opening with mode `'w'` replaces the file (`netcdf_writer.py:100`). -/
def put (d : Disk) (p : Place) (c : Content) : Disk := fun q => if q = p then some c else d q

/-- The files written by one call of `process` (`processor.py:107-170`). -/
def writeAll (d : Disk) (s : Setup) (input : Place) (complete : Bool) : Disk :=
  (kinds s).foldl (fun d k => put d (productAt s input k) ⟨k, s, input, complete⟩) d

/-- The processor of `main` (`cli/main.py:1257-1276`, `processor.py:40-170`) and its effect on the
product files.  Construction and processing fail for any setups and inputs; a processing that fails
leaves incomplete files (or, if the input cannot be opened, none). -/
def l1bProcessor (makeFails : Setup → Option RunErr) (fails : Setup → Place → Option (RunErr × Bool)) :
    Processor Disk Setup where
  make d s := match makeFails s with
    | some e => (.error e, d)
    | none => (.ok s, d)
  process d s i _ := match fails s i with
    | some (e, true) => (.error e, s, writeAll d s i false)
    | some (e, false) => (.error e, s, d)
    | none => (.ok 0, s, writeAll d s i true)

/-- The setup used for a configuration, as planned. -/
def setupOf (a : Args) (s : Selection) (c : Name) : Setup where
  name := c
  chd := [s.ws, "configs".toList, c, "CHD.json".toList]
  cnf := [s.ws, "configs".toList, c, "CNF.json".toList]
  cst := [s.ws, "configs".toList, c, "CST.json".toList]
  out := if a.out = [] then .stored [s.ws, "configs".toList, c, "outputs".toList] else .given a.out
  skip := a.skip

/-! ## Lemmas -/

theorem writeAll_other (d : Disk) (s : Setup) (i : Place) (b : Bool) (q : Place)
    (h : ∀ k ∈ kinds s, q ≠ productAt s i k) : writeAll d s i b q = d q := by
  unfold writeAll
  revert h
  unfold kinds
  split <;> intro h <;> simp [put, h]

theorem productAt_kind (s s' : Setup) (i i' : Place) (h : s.out = s'.out) :
    productAt s i .l1b ≠ productAt s' i' .l1bs := by
  have key := l1b_and_l1bs_never_collide [] (fileText i) (fileText i') s.name s'.name
  simp only [join, true_or, if_true, List.nil_append] at key
  unfold productAt
  rw [h]
  unfold inDir
  cases s'.out with
  | given d =>
    intro e
    exact key (join_injective _ _ _ (Place.given.inj e))
  | stored p =>
    intro e
    have := List.append_cancel_left (Place.stored.inj e)
    exact key (List.singleton_inj.1 this)

theorem writeAll_own (d : Disk) (s : Setup) (i : Place) (b : Bool) (k : Kind) (hk : k ∈ kinds s) :
    writeAll d s i b (productAt s i k) = some ⟨k, s, i, b⟩ := by
  have hne := productAt_kind s s i i rfl
  unfold writeAll
  revert hk
  unfold kinds
  split
  · intro hk
    rw [List.mem_singleton] at hk
    subst hk
    simp [put]
  · intro hk
    cases k with
    | l1b => simp [put, hne]
    | l1bs => simp [put]

/-- The product files of the calls of a plan, in order. -/
def placesOf : Option Setup → List Call → List Place
  | _, [] => []
  | _, .make s :: rest => placesOf (some s) rest
  | none, .process _ _ _ :: rest => placesOf none rest
  | some s, .process _ i _ :: rest => (kinds s).map (productAt s i) ++ placesOf (some s) rest

/-- The setups and inputs of the calls that succeeded. -/
def succeeded : Option Setup → List (Call × Option RunErr) → List (Setup × Place)
  | _, [] => []
  | _, (.make s, _) :: rest => succeeded (some s) rest
  | none, (.process _ _ _, _) :: rest => succeeded none rest
  | some s, (.process _ i _, none) :: rest => (s, i) :: succeeded (some s) rest
  | some s, (.process _ _ _, some _) :: rest => succeeded (some s) rest

theorem exec_other (mf : Setup → Option RunErr) (pf : Setup → Place → Option (RunErr × Bool))
    (calls : List Call) : ∀ (d : Disk) (p : Option Setup) (q : Place), q ∉ placesOf p calls →
    (exec (l1bProcessor mf pf) d p calls).2 q = d q := by
  induction calls with
  | nil => intro d p q _; cases p <;> rfl
  | cons c rest ih =>
    intro d p q hq
    cases c with
    | make s =>
      have hq' : q ∉ placesOf (some s) rest := by cases p <;> exact hq
      unfold exec
      simp only [l1bProcessor]
      cases hm : mf s with
      | some e => rfl
      | none => exact ih d (some s) q hq'
    | process c i b =>
      unfold exec
      cases p with
      | none => rfl
      | some s =>
        simp only [placesOf, List.mem_append, not_or, List.mem_map, not_exists, not_and] at hq
        have hw : ∀ b, writeAll d s i b q = d q := fun b =>
          writeAll_other d s i b q (fun k hk e => hq.1 k hk e.symm)
        simp only [l1bProcessor]
        rcases hf : pf s i with _ | ⟨e, b'⟩
        · simp only
          have := ih (writeAll d s i true) (some s) q hq.2
          rw [hw] at this
          exact this
        · cases b' with
          | true => exact hw false
          | false => rfl

theorem exec_kept (mf : Setup → Option RunErr) (pf : Setup → Place → Option (RunErr × Bool))
    (calls : List Call) : ∀ (d : Disk) (p : Option Setup), (placesOf p calls).Nodup →
    ∀ x ∈ succeeded p (exec (l1bProcessor mf pf) d p calls).1, ∀ k ∈ kinds x.1,
      (exec (l1bProcessor mf pf) d p calls).2 (productAt x.1 x.2 k) = some ⟨k, x.1, x.2, true⟩ := by
  induction calls with
  | nil => intro d p _ x hx; cases p <;> simp [exec, succeeded] at hx
  | cons c rest ih =>
    intro d p hnd x hx k hk
    cases c with
    | make s =>
      have hnd' : (placesOf (some s) rest).Nodup := by cases p <;> exact hnd
      unfold exec at hx ⊢
      simp only [l1bProcessor] at hx ⊢
      cases hm : mf s with
      | some e => rw [hm] at hx; cases p <;> simp [succeeded] at hx
      | none =>
        rw [hm] at hx
        have hx' : x ∈ succeeded (some s) (exec (l1bProcessor mf pf) d (some s) rest).1 := by
          cases p <;> exact hx
        exact ih d (some s) hnd' x hx' k hk
    | process c i b =>
      unfold exec at hx ⊢
      cases p with
      | none => simp [succeeded] at hx
      | some s =>
        simp only [placesOf] at hnd
        obtain ⟨-, hnd2, hdis⟩ := List.nodup_append.1 hnd
        simp only [l1bProcessor] at hx ⊢
        rcases hf : pf s i with _ | ⟨e, b'⟩
        · rw [hf] at hx
          simp only [succeeded, List.mem_cons] at hx
          simp only
          rcases hx with rfl | hx
          · have h1 : productAt s i k ∉ placesOf (some s) rest := fun hm =>
              hdis _ (List.mem_map.2 ⟨k, hk, rfl⟩) _ hm rfl
            have := exec_other mf pf rest (writeAll d s i true) (some s) _ h1
            rw [writeAll_own d s i true k hk] at this
            exact this
          · exact ih (writeAll d s i true) (some s) hnd2 x hx k hk
        · rw [hf] at hx
          cases b' <;> simp [succeeded] at hx

/-- The planned product files. -/
theorem placesOf_plan (a : Args) (s : Selection) (p : Option Setup) (cs : List Name) :
    placesOf p (cs.flatMap (fun c => .make (setupOf a s c) ::
      s.inputs.map (fun i => Call.process c i a.quiet))) =
    cs.flatMap (fun c => s.inputs.flatMap (fun i => (kinds (setupOf a s c)).map (productAt (setupOf a s c) i))) := by
  induction cs generalizing p with
  | nil => cases p <;> rfl
  | cons c cs ih =>
    have hin : ∀ (is : List Place) (rest : List Call),
        placesOf (some (setupOf a s c)) (is.map (fun i => Call.process c i a.quiet) ++ rest) =
        is.flatMap (fun i => (kinds (setupOf a s c)).map (productAt (setupOf a s c) i)) ++
          placesOf (some (setupOf a s c)) rest := by
      intro is rest
      induction is with
      | nil => rfl
      | cons i is ihi => simp only [List.map_cons, List.cons_append, placesOf, ihi, List.flatMap_cons,
          List.append_assoc]
    rw [List.flatMap_cons, List.flatMap_cons]
    have : placesOf p (.make (setupOf a s c) :: s.inputs.map (fun i => Call.process c i a.quiet) ++
        cs.flatMap (fun c => .make (setupOf a s c) :: s.inputs.map (fun i => Call.process c i a.quiet))) =
        placesOf (some (setupOf a s c)) (s.inputs.map (fun i => Call.process c i a.quiet) ++
        cs.flatMap (fun c => .make (setupOf a s c) :: s.inputs.map (fun i => Call.process c i a.quiet))) := by
      cases p <;> rfl
    rw [this, hin, ih]

theorem plan_setups (a : Args) (s : Selection) :
    plan a s = s.cfgs.flatMap (fun c => .make (setupOf a s c) ::
      s.inputs.map (fun i => Call.process c i a.quiet)) := rfl

theorem l1bName_inj {p q n m : Name} (h : l1bName p n = l1bName q m) :
    part (l1aBase p) ++ part n = part (l1aBase q) ++ part m := by
  unfold l1bName at h
  have h := List.append_cancel_right h
  rw [List.append_assoc, List.append_assoc] at h
  exact List.append_cancel_left h

theorem l1bsName_inj {p q n m : Name} (h : l1bsName p n = l1bsName q m) :
    part (l1aBase p) ++ part n = part (l1aBase q) ++ part m := by
  unfold l1bsName at h
  have h := List.append_cancel_right h
  rw [List.append_assoc, List.append_assoc] at h
  exact List.append_cancel_left h

/-- The last underscore separates the configuration name if that name has none. -/
theorem parts_inj {b b' n m : Name} (hn : n ≠ []) (hm : m ≠ []) (h1 : '_' ∉ n) (h2 : '_' ∉ m)
    (h : part b ++ part n = part b' ++ part m) : b = b' ∧ n = m := by
  have hpn : part n = '_' :: n := by simp [part, hn]
  have hpm : part m = '_' :: m := by simp [part, hm]
  rw [hpn, hpm] at h
  have key : ∀ (x y u v : Name), '_' ∉ u → '_' ∉ v → x ++ '_' :: u = y ++ '_' :: v → x = y ∧ u = v := by
    intro x
    induction x with
    | nil =>
      intro y u v hu hv e
      cases y with
      | nil => simpa using e
      | cons c y =>
        exfalso
        simp only [List.nil_append, List.cons_append, List.cons.injEq] at e
        rw [e.2] at hu
        simp at hu
    | cons c x ih =>
      intro y u v hu hv e
      cases y with
      | nil =>
        exfalso
        simp only [List.nil_append, List.cons_append, List.cons.injEq] at e
        rw [← e.2] at hv
        simp at hv
      | cons c' y =>
        simp only [List.cons_append, List.cons.injEq] at e
        obtain ⟨i1, i2⟩ := ih y u v hu hv e.2
        exact ⟨by rw [e.1, i1], i2⟩
  obtain ⟨k1, k2⟩ := key _ _ _ _ h1 h2 h
  refine ⟨part_injective (c := []) (by rw [k1]), k2⟩

/-! ## C132 -/

/-- Specification: when the products of a run are told apart.  Either every configuration has its own
output directory, or there is only one configuration, or no configuration name has an underscore. -/
def Separate (a : Args) (cfgs : List Name) : Prop :=
  a.out = [] ∨ cfgs.length ≤ 1 ∨ ∀ c ∈ cfgs, '_' ∉ c

/-- **C132, different products are different files** (`_partial`).  Missing: inputs of the same base
name and configurations with underscores writing to one directory, see `same_name_violated` and
`shared_directory_violated`. -/
theorem products_differ_partial (a : Args) (s : Selection) (hne : ∀ c ∈ s.cfgs, c ≠ [])
    (hs : Separate a s.cfgs) (c c' : Name) (hc : c ∈ s.cfgs) (hc' : c' ∈ s.cfgs) (i i' : Place)
    (k k' : Kind) (h : productAt (setupOf a s c) i k = productAt (setupOf a s c') i' k') :
    k = k' ∧ c = c' ∧ l1aBase (fileText i) = l1aBase (fileText i') := by
  have hout : (setupOf a s c).out = (setupOf a s c').out ∧
      ∀ x y, inDir (setupOf a s c).out x = inDir (setupOf a s c').out y → x = y := by
    have hx : ∀ x y, inDir (setupOf a s c).out x = inDir (setupOf a s c').out y →
        (setupOf a s c).out = (setupOf a s c').out ∧ x = y := by
      intro x y e
      unfold setupOf inDir at *
      by_cases ho : a.out = []
      · simp only [ho, if_true, Place.stored.injEq] at e ⊢
        simpa using e
      · simp only [if_neg ho, Place.given.injEq] at e ⊢
        exact ⟨trivial, join_injective _ _ _ e⟩
    refine ⟨?_, fun x y e => (hx x y e).2⟩
    cases k <;> cases k' <;> exact (hx _ _ h).1
  have hk : k = k' := by
    cases k <;> cases k'
    · rfl
    · exact absurd h (productAt_kind _ _ _ _ hout.1)
    · exact absurd h.symm (productAt_kind _ _ _ _ hout.1.symm)
    · rfl
  subst hk
  have hparts : part (l1aBase (fileText i)) ++ part c = part (l1aBase (fileText i')) ++ part c' := by
    cases k
    · exact l1bName_inj (hout.2 _ _ h)
    · exact l1bsName_inj (hout.2 _ _ h)
  refine ⟨rfl, ?_⟩
  rcases hs with ho | hl | hu
  · have : c = c' := by
      have := hout.1
      simp only [setupOf, ho, if_true, Place.stored.injEq] at this
      simpa using this
    subst this
    exact ⟨rfl, part_injective hparts⟩
  · have : c = c' := by
      match hcf : s.cfgs, hl with
      | [], _ => rw [hcf] at hc; cases hc
      | [z], _ =>
        rw [hcf, List.mem_singleton] at hc hc'
        rw [hc, hc']
    subst this
    exact ⟨rfl, part_injective hparts⟩
  · obtain ⟨h1, h2⟩ := parts_inj (hne c hc) (hne c' hc') (hu c hc) (hu c' hc') hparts
    exact ⟨h2, h1⟩

/-- Specification: the processings of a run that succeeded, with the configuration and the input of
each. -/
def Done (calls : List (Call × Option RunErr)) (c : Name) (i : Place) : Prop :=
  ∃ q, (Call.process c i q, none) ∈ calls

theorem exec_first (P : Processor Ω σ) (calls : List Call) : ∀ (ω : Ω) (p : Option σ),
    (exec P ω p calls).1.map (·.1) <+: calls := by
  induction calls with
  | nil => intro ω p; cases p <;> simp [exec]
  | cons c rest ih =>
    intro ω p
    cases c with
    | make s =>
      unfold exec
      rcases P.make ω s with ⟨_ | p', ω'⟩
      · simp
      · simpa using ih ω' (some p')
    | process c i q =>
      unfold exec
      cases p with
      | none => simp
      | some p =>
        simp only
        rcases P.process ω p i q with ⟨_ | n, p', ω'⟩
        · simp
        · simpa using ih ω' (some p')

/-- The calls of a plan that succeeded used the setup of their configuration. -/
theorem done_succeeded (a : Args) (s : Selection) (cs : List Name) :
    ∀ (calls : List (Call × Option RunErr)) (p : Option Setup) (c : Name) (i : Place) (q : Bool),
      calls.map (·.1) <+: cs.flatMap (fun c => .make (setupOf a s c) ::
        s.inputs.map (fun i => Call.process c i a.quiet)) →
      (Call.process c i q, none) ∈ calls →
      c ∈ cs ∧ i ∈ s.inputs ∧ (setupOf a s c, i) ∈ succeeded p calls := by
  induction cs with
  | nil =>
    intro calls p c i q hpre hm
    have : calls = [] := by simpa using hpre
    rw [this] at hm; cases hm
  | cons c0 cs ih =>
    intro calls p c i q hpre hm
    rw [List.flatMap_cons] at hpre
    -- the calls with the first configuration
    have hin : ∀ (is : List Place) (calls : List (Call × Option RunErr)),
        calls.map (·.1) <+: is.map (fun i => Call.process c0 i a.quiet) ++
          cs.flatMap (fun c => .make (setupOf a s c) :: s.inputs.map (fun i => Call.process c i a.quiet)) →
        (∀ x ∈ is, x ∈ s.inputs) → (Call.process c i q, none) ∈ calls →
        c ∈ c0 :: cs ∧ i ∈ s.inputs ∧ (setupOf a s c, i) ∈ succeeded (some (setupOf a s c0)) calls := by
      intro is
      induction is with
      | nil =>
        intro calls hpre _ hm
        obtain ⟨h1, h2, h3⟩ := ih calls (some (setupOf a s c0)) c i q (by simpa using hpre) hm
        exact ⟨List.mem_cons_of_mem _ h1, h2, h3⟩
      | cons i0 is ihi =>
        intro calls hpre hsub hm
        cases calls with
        | nil => cases hm
        | cons x calls =>
          obtain ⟨xc, xe⟩ := x
          simp only [List.map_cons, List.cons_append, List.cons_prefix_cons] at hpre
          obtain ⟨rfl, hpre⟩ := hpre
          rcases List.mem_cons.1 hm with e | hm
          · simp only [Prod.mk.injEq, Call.process.injEq] at e
            obtain ⟨⟨rfl, rfl, -⟩, rfl⟩ := e
            refine ⟨by simp, hsub _ (by simp), ?_⟩
            simp [succeeded]
          · obtain ⟨h1, h2, h3⟩ := ihi calls hpre (fun y hy => hsub y (by simp [hy])) hm
            refine ⟨h1, h2, ?_⟩
            cases xe <;> simp [succeeded, h3]
    cases calls with
    | nil => cases hm
    | cons x calls =>
      obtain ⟨xc, xe⟩ := x
      simp only [List.map_cons, List.cons_append, List.cons_prefix_cons] at hpre
      obtain ⟨rfl, hpre⟩ := hpre
      rcases List.mem_cons.1 hm with e | hm
      · simp at e
      · obtain ⟨h1, h2, h3⟩ := hin s.inputs calls hpre (fun _ h => h) hm
        refine ⟨h1, h2, ?_⟩
        cases p <;> exact h3

/-- The selected configurations are selected once each. -/
theorem selected_once (t : Templates) (fs : FS) (a : Args) (s : Selection) (ho : Once fs)
    (h : (select t fs a).1 = .ok s) : s.cfgs.Nodup := by
  rcases hs : select t fs a with ⟨r, fs2⟩
  rw [hs] at h
  simp only at h
  subst h
  obtain ⟨c, fs1, h1, h2, -, -, -⟩ := selection_frame t fs a s fs2 hs
  obtain ⟨-, -, w3⟩ := selectWs_cases h1
  have ho1 : Once fs1 := by
    rcases w3 with ⟨e, -, -⟩ | ⟨e, -, -, -⟩
    · rw [e]; exact ho
    · rw [e]; exact once_createDefaultWs fs ho
  unfold selectCfgs at h2
  split at h2
  · unfold configNames at h2
    by_cases e1 : fs1.exists? (wsPath s.ws) = true
    · simp only [e1, not_true, if_false] at h2
      by_cases e2 : fs1.exists? (comp s.ws ++ [configsDir]) = true
      · simp only [e2, if_true] at h2
        split at h2
        · cases h2
        · cases h2
        · cases h2
        · rename_i names hnm hnn
          simp only [Except.ok.injEq, Option.some.injEq] at hnn
          simp only [Prod.mk.injEq, Except.ok.injEq] at h2
          obtain ⟨rfl, rfl⟩ := h2
          rw [← hnn, (sortNames_perm _).nodup_iff]
          exact (listdir_nodup fs1 _ ho1).filter _
      · simp [e2] at h2
    · simp [e1] at h2
  · split at h2
    · split at h2
      · cases h2
      · simp only [Prod.mk.injEq, Except.ok.injEq] at h2
        rw [← h2.1]; simp
    · simp only [Prod.mk.injEq, Except.ok.injEq] at h2
      rw [← h2.1]; simp

/-- **C132, products are kept** (`_partial`).  Whatever fails: for every input that was processed, the
disk holds at the end of the run its products, complete and made from this input with the files of this
configuration.  Missing: see `products_differ_partial`. -/
theorem products_kept_partial (mf : Setup → Option RunErr) (pf : Setup → Place → Option (RunErr × Bool))
    (t : Templates) (fs : FS) (d : Disk) (a : Args) (s : Selection) (hn : NoEmpty fs)
    (ho : Once fs) (h : (select t fs a).1 = .ok s) (hs : Separate a s.cfgs)
    (hbase : (s.inputs.map (fun i => l1aBase (fileText i))).Nodup)
    (c : Name) (i : Place) (hd : Done (run (l1bProcessor mf pf) t fs d a).1.calls c i) :
    c ∈ s.cfgs ∧ i ∈ s.inputs ∧
    (run (l1bProcessor mf pf) t fs d a).1.world (productAt (setupOf a s c) i .l1b) =
      some ⟨.l1b, setupOf a s c, i, true⟩ ∧
    (a.skip = false → (run (l1bProcessor mf pf) t fs d a).1.world (productAt (setupOf a s c) i .l1bs) =
      some ⟨.l1bs, setupOf a s c, i, true⟩) := by
  obtain ⟨hw, hne⟩ := selected_named t fs a s hn h
  have hcfg := selected_once t fs a s ho h
  obtain ⟨h1, h2⟩ := run_executes_plan (l1bProcessor mf pf) t fs d a s hn h
  rw [h2]
  obtain ⟨q, hq⟩ := hd
  rw [h1] at hq
  have hpre := exec_first (l1bProcessor mf pf) (plan a s) d none
  rw [plan_setups] at hpre
  obtain ⟨g1, g2, g3⟩ := done_succeeded a s s.cfgs _ none c i q hpre hq
  have hnd : (placesOf none (plan a s)).Nodup := by
    rw [plan_setups, placesOf_plan]
    rw [List.nodup_flatMap]
    constructor
    · intro c hc
      rw [List.nodup_flatMap]
      constructor
      · intro i _
        have hk := productAt_kind (setupOf a s c) (setupOf a s c) i i rfl
        unfold kinds
        split <;> simp [hk]
      · have := List.pairwise_map.1 hbase
        refine this.imp ?_
        intro i i' hii
        rw [Function.onFun, List.disjoint_left]
        intro x hx hx'
        obtain ⟨k, -, rfl⟩ := List.mem_map.1 hx
        obtain ⟨k', -, e⟩ := List.mem_map.1 hx'
        exact hii (products_differ_partial a s hne hs c c hc hc i i' k k' e.symm).2.2
    · refine hcfg.imp_of_mem ?_
      intro c c' hc hc' hcc
      rw [Function.onFun, List.disjoint_left]
      intro x hx hx'
      obtain ⟨i, -, hx⟩ := List.mem_flatMap.1 hx
      obtain ⟨i', -, hx'⟩ := List.mem_flatMap.1 hx'
      obtain ⟨k, -, rfl⟩ := List.mem_map.1 hx
      obtain ⟨k', -, e⟩ := List.mem_map.1 hx'
      exact hcc (products_differ_partial a s hne hs c c' hc hc' i i' k k' e.symm).2.1
  have key := exec_kept mf pf (plan a s) d none hnd _ g3
  refine ⟨g1, g2, key .l1b ?_, fun hsk => key .l1bs ?_⟩
  · unfold kinds; split <;> simp
  · have : (setupOf a s c).skip = false := hsk
    simp [kinds, this]

/-- **C132, nothing else is written.**  A file that is not the product of a selected input with a
selected configuration is as it was before the run, however the run ends. -/
theorem only_products_written (mf : Setup → Option RunErr) (pf : Setup → Place → Option (RunErr × Bool))
    (t : Templates) (fs : FS) (d : Disk) (a : Args) (s : Selection) (hn : NoEmpty fs)
    (h : (select t fs a).1 = .ok s) (q : Place)
    (hq : ∀ c ∈ s.cfgs, ∀ i ∈ s.inputs, ∀ k, q ≠ productAt (setupOf a s c) i k) :
    (run (l1bProcessor mf pf) t fs d a).1.world q = d q := by
  obtain ⟨h1, h2⟩ := run_executes_plan (l1bProcessor mf pf) t fs d a s hn h
  rw [h2]
  apply exec_other
  rw [plan_setups, placesOf_plan]
  simp only [List.mem_flatMap, List.mem_map, not_exists, not_and]
  intro c hc i hi k hk e
  exact hq c hc i hi k e.symm

/-- **C132, inputs and configuration files of the workspaces are not replaced** if no output directory
is given: whatever is written in the workspaces directory is in the output directory of a selected
configuration. -/
theorem inputs_not_replaced (mf : Setup → Option RunErr) (pf : Setup → Place → Option (RunErr × Bool))
    (t : Templates) (fs : FS) (d : Disk) (a : Args) (s : Selection) (hn : NoEmpty fs)
    (h : (select t fs a).1 = .ok s) (ho : a.out = []) (q : Place)
    (hq : ∀ c ∈ s.cfgs, ∀ name, q ≠ .stored [s.ws, "configs".toList, c, "outputs".toList, name]) :
    (run (l1bProcessor mf pf) t fs d a).1.world q = d q := by
  apply only_products_written mf pf t fs d a s hn h
  intro c hc i _ k
  have hp : ∃ name, productAt (setupOf a s c) i k =
      .stored [s.ws, "configs".toList, c, "outputs".toList, name] := by
    have hout : (setupOf a s c).out = .stored [s.ws, "configs".toList, c, "outputs".toList] := by
      simp [setupOf, ho]
    cases k <;> exact ⟨_, by simp only [productAt, hout, inDir]; rfl⟩
  obtain ⟨name, hp⟩ := hp
  rw [hp]
  exact hq c hc name

/-! ## Examples and violations -/

/-- A processor that always succeeds. -/
def goodP : Processor Disk Setup := l1bProcessor (fun _ => none) (fun _ _ => none)

/-- A processor for which the second input fails after its products were opened. -/
def failingP : Processor Disk Setup := l1bProcessor (fun _ => none)
  (fun _ i => if i = .stored ["w".toList, "inputs".toList, "y.nc".toList] then some (.processor "bad", true) else none)

/-- Non-vacuity: two configurations and two inputs, in the directories of the configurations and in one
directory. -/
example : ∀ out ∈ [[], "out".toList], ∃ s, (select demoT demoFS { all := true, out := out }).1 = .ok s ∧
    s.cfgs.Nodup ∧ s.cfgs.length = 2 ∧ s.inputs.length = 2 ∧ (∀ c ∈ s.cfgs, '_' ∉ c) ∧
    (s.inputs.map (fun i => l1aBase (fileText i))).Nodup := by
  intro out hout
  have : (select demoT demoFS { all := true, out := out }).1 = .ok ⟨"w".toList, ["a".toList, "b".toList],
      [.stored ["w".toList, "inputs".toList, "x.nc".toList],
       .stored ["w".toList, "inputs".toList, "y.nc".toList]]⟩ := by
    revert out; decide +kernel
  exact ⟨_, this, by decide +kernel, rfl, rfl, by decide +kernel, by decide +kernel⟩

/-- Non-vacuity: with a failing second input the product of the first one is complete, the product of
the second one is not. -/
example : (run failingP demoT demoFS (fun _ => none) {}).1.calls.map (fun x => x.2.isSome) = [false, false, true] ∧
    ((run failingP demoT demoFS (fun _ => none) {}).1.world
      (.stored ["w".toList, "configs".toList, "b".toList, "outputs".toList, "L1B_x_b.nc".toList])).map
        (fun c => c.complete) = some true ∧
    ((run failingP demoT demoFS (fun _ => none) {}).1.world
      (.stored ["w".toList, "configs".toList, "b".toList, "outputs".toList, "L1BS_y_b.nc".toList])).map
        (fun c => c.complete) = some false := by
  decide +kernel

/-- **C132 violated: inputs of the same name.**  Two inputs of the same name in different directories
(or `x.nc` and `L1Ax.nc`) are both processed; at the end there is no product of the first. -/
theorem same_name_violated :
    (run goodP demoT demoFS (fun _ => none) { inputs := ["a/x.nc".toList, "b/x.nc".toList] }).1.res = .ok () ∧
    ((run goodP demoT demoFS (fun _ => none)
      { inputs := ["a/x.nc".toList, "b/x.nc".toList] }).1.calls.map (·.1)).filter
        (fun c => match c with | .process _ _ _ => true | _ => false) =
      [.process "b".toList (.given "a/x.nc".toList) false, .process "b".toList (.given "b/x.nc".toList) false] ∧
    ∀ p c, (run goodP demoT demoFS (fun _ => none)
        { inputs := ["a/x.nc".toList, "b/x.nc".toList] }).1.world p = some c →
      c.input ≠ .given "a/x.nc".toList := by
  refine ⟨by decide +kernel, by decide +kernel, ?_⟩
  intro p c hc
  have hw : (run goodP demoT demoFS (fun _ => none)
      { inputs := ["a/x.nc".toList, "b/x.nc".toList] }).1.world =
    writeAll (writeAll (fun _ => none) (setup {} "w".toList "b".toList) (.given "a/x.nc".toList) true)
      (setup {} "w".toList "b".toList) (.given "b/x.nc".toList) true := by rfl
  rw [hw] at hc
  have hk : kinds (setup {} "w".toList "b".toList) = [.l1b, .l1bs] := rfl
  have hp : ∀ k, productAt (setup {} "w".toList "b".toList) (.given "a/x.nc".toList) k =
      productAt (setup {} "w".toList "b".toList) (.given "b/x.nc".toList) k := by
    intro k; cases k <;> decide +kernel
  unfold writeAll at hc
  rw [hk] at hc
  simp only [List.foldl_cons, List.foldl_nil, put, hp] at hc
  split at hc
  · rw [← Option.some.inj hc]; decide +kernel
  · split at hc
    · rw [← Option.some.inj hc]; decide +kernel
    · cases hc

/-- Two configurations, one of which has an underscore in its name. -/
def underscoreFS : FS :=
  [([], .dir), (["w".toList], .dir), (["w".toList, "configs".toList], .dir),
   (["w".toList, "configs".toList, "b".toList], .dir),
   (["w".toList, "configs".toList, "a_b".toList], .dir)]

/-- **C132 violated: several configurations and one directory.**  The product of the input `x_a.nc`
with the configuration `b` and the product of `x.nc` with `a_b` are the same file; the run with all
configurations makes both and keeps the one made last. -/
theorem shared_directory_violated :
    (run goodP demoT underscoreFS (fun _ => none)
      { ws := "w".toList, all := true, out := "out".toList, inputs := ["x_a.nc".toList, "x.nc".toList] }).1.res =
        .ok () ∧
    (run goodP demoT underscoreFS (fun _ => none)
      { ws := "w".toList, all := true, out := "out".toList, inputs := ["x_a.nc".toList, "x.nc".toList] }).1.calls.length
        = 6 ∧
    ((run goodP demoT underscoreFS (fun _ => none)
      { ws := "w".toList, all := true, out := "out".toList, inputs := ["x_a.nc".toList, "x.nc".toList] }).1.world
        (.given "out/L1B_x_a_b.nc".toList)).map (fun c => (c.setup.name, c.input)) =
      some ("b".toList, .given "x_a.nc".toList) ∧
    productAt (setup { out := "out".toList } "w".toList "a_b".toList) (.given "x.nc".toList) .l1b =
      .given "out/L1B_x_a_b.nc".toList := by
  decide +kernel

/-- **C132 violated: a product can replace an input.**  With the output directory in which the inputs
are, the product of `d/x.nc` replaces the input `d/L1B_x_b.nc` before that one is read. -/
theorem input_replaced_violated :
    (run goodP demoT demoFS (fun _ => none)
      { inputs := ["d/x.nc".toList, "d/L1B_x_b.nc".toList], out := "d".toList }).1.calls.map (·.1) =
      [.make (setup { out := "d".toList } "w".toList "b".toList),
       .process "b".toList (.given "d/x.nc".toList) false,
       .process "b".toList (.given "d/L1B_x_b.nc".toList) false] ∧
    productAt (setup { out := "d".toList } "w".toList "b".toList) (.given "d/x.nc".toList) .l1b =
      .given "d/L1B_x_b.nc".toList := by
  decide +kernel

end Dedop.Run
