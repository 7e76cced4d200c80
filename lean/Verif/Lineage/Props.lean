import Verif.Lineage.Model
import Verif.Basic.Tactics

namespace Dedop.Lineage

open Dedop

variable {V : Type}

/-! ## Specification -/

/-- The measurements of the instrument that the L1B product repeats (`comment="value the closest in time to the
reference measurement"`): variables with the same name in the input and in the L1B files. -/
def telemetry : List String :=
  ["isp_coarse_time", "isp_fine_time", "sral_fine_time", "flag_time_status", "nav_bul_status", "nav_bul_source",
   "seq_count", "oper_instr", "SAR_mode", "cl_gain", "acq_stat", "dem_eeprom", "loss_track", "h0_nav_dem",
   "h0_applied", "cor2_nav_dem", "cor2_applied", "dh0", "agccode_ku", "surf_type", "uso_cor", "int_path_cor_ku",
   "agc_ku", "sig0_cal_ku"]

/-- The same for the L1B-S product. -/
def telemetryS : List String :=
  ["roll_sral_mispointing", "pitch_sral_mispointing", "yaw_sral_mispointing", "int_path_cor_ku", "uso_cor",
   "cog_cor", "agccode_ku", "agc_ku", "sig0_cal_ku"]

/-- The variables that are read for a record. -/
def inputs : List String :=
  ["time", "UTC_day", "UTC_sec", "isp_coarse_time", "isp_fine_time", "flag_time_status", "sral_fine_time",
      "lat", "lon", "surf_type", "burst_count_prod", "seq_count", "nav_bul_status", "nav_bul_source", "oper_instr",
      "SAR_mode", "cl_gain", "acq_stat", "dem_eeprom", "loss_track", "h0_nav_dem", "h0_applied", "cor2_nav_dem",
      "cor2_applied", "dh0", "agccode_ku", "alt", "orb_alt_rate", "x_pos", "y_pos", "z_pos", "x_vel", "y_vel",
      "z_vel", "pitch_sat_pointing", "roll_sral_mispointing", "pitch_sral_mispointing", "yaw_sral_mispointing",
      "range_ku", "int_path_cor_ku", "uso_cor", "cog_cor", "agc_ku", "sig0_cal_ku", "i_meas_ku", "q_meas_ku",
      "gprw_meas_ku", "burst_power_cor_ku", "burst_phase_cor_ku"]

/-- Every variable is in the file, with a value for the record. -/
def Complete (f : Reader.File String V) (i : Nat) : Prop :=
  ∀ v ∈ inputs, v ∈ f.variables ∧ i < (f.data v).length

/-! ## Reading -/

/-- What an expression is for a record with the values `x`. -/
def Src.of (o : Ops V) (x : String → V) : Src → V
  | .raw v => x v
  | .rad v => o.rad (x v)
  | .row v => o.row (x v)
  | .const c => o.const c
  | .wave => o.wave (x "agc_ku") (x "i_meas_ku") (x "q_meas_ku")
  | .delay => o.delay (x "pitch_sat_pointing") (x "cog_cor") (x "range_ku")

/-- The burst of a record with the values `x`. -/
def burstOf (o : Ops V) (x : String → V) : List (String × V) := packetSpec.map fun p => (p.1, p.2.of o x)

/-- Whatever was read before, the computation gives `a` (and only reads). -/
def Exact (f : Reader.File String V) (chunk : Nat) {A : Type} (m : M V A) (a : A) : Prop :=
  ∀ history, ∃ more, m (Reader.reads f chunk Reader.Reader.fresh history) =
    (.ok a, Reader.reads f chunk Reader.Reader.fresh (history ++ more))

theorem reads_concat (f : Reader.File String V) (k : Nat) (history : List (String × Int)) (v : String)
    (i : Int) (r : Reader.Reader String V) : Reader.reads f k r (history ++ [(v, i)]) =
      (Reader.getValue f k (Reader.reads f k r history) v i).2 := by
  induction history generalizing r with
  | nil => rfl
  | cons a t ih => obtain ⟨v, i⟩ := a; exact ih _

theorem exact_get (f : Reader.File String V) (k : Nat) (hk : 0 < k) (i : Nat) (x : String → V) (v : String)
    (hv : v ∈ f.variables) (hi : (f.data v)[i]? = some (x v)) : Exact f k (get f k i v) (x v) := by
  intro history
  obtain ⟨hlt, he⟩ := List.getElem?_eq_some_iff.1 hi
  refine ⟨[(v, (i : Int))], ?_⟩
  rw [reads_concat]
  have := Reader.read_is_transparent f k hk history v hv i hlt
  rw [he] at this
  unfold get
  rw [← this]

theorem exact_pure (f : Reader.File String V) (k : Nat) {A : Type} (a : A) :
    Exact f k (M.pure a) a := fun history => ⟨[], by rw [List.append_nil]; rfl⟩

theorem Exact.bind {f : Reader.File String V} {k : Nat} {A B : Type} {m : M V A} {a : A} {g : A → M V B} {b : B}
    (h : Exact f k m a) (h' : Exact f k (g a) b) : Exact f k (m.bind g) b := by
  intro history
  obtain ⟨m1, h1⟩ := h history
  obtain ⟨m2, h2⟩ := h' (history ++ m1)
  refine ⟨m1 ++ m2, ?_⟩
  rw [← List.append_assoc]
  unfold M.bind
  rw [h1]
  exact h2

/-- The variables of an expression. -/
def Src.vars : Src → List String
  | .raw v | .rad v | .row v => [v]
  | _ => []

theorem exact_evalAll (o : Ops V) (f : Reader.File String V) (k : Nat) (i : Nat) (x : String → V)
    (w d : V) (hw : w = o.wave (x "agc_ku") (x "i_meas_ku") (x "q_meas_ku"))
    (hd : d = o.delay (x "pitch_sat_pointing") (x "cog_cor") (x "range_ku"))
    (l : List (String × Src)) (h : ∀ p ∈ l, ∀ v ∈ p.2.vars, Exact f k (get f k i v) (x v)) :
    Exact f k (evalAll o f k i w d l) (l.map fun p => (p.1, p.2.of o x)) := by
  induction l with
  | nil => exact exact_pure f k _
  | cons a t ih =>
    obtain ⟨n, s⟩ := a
    refine Exact.bind (a := s.of o x) ?_ (Exact.bind (ih fun p hp => h p (.tail _ hp)) (exact_pure f k _))
    have hs := h (n, s) (.head _)
    cases s with
    | raw v => exact hs v (.head _)
    | rad v => exact (hs v (.head _)).bind (exact_pure f k _)
    | row v => exact (hs v (.head _)).bind (exact_pure f k _)
    | const c => exact exact_pure f k _
    | wave => rw [hw]; exact exact_pure f k _
    | delay => rw [hd]; exact exact_pure f k _

/-- The burst built from a record depends on the values of that record only, whatever was read before. -/
theorem getitem_exact (o : Ops V) (f : Reader.File String V) (k : Nat) (hk : 0 < k) (i : Nat)
    (hc : Complete f i) (x : String → V) (hx : ∀ v a, (f.data v)[i]? = some a → x v = a) :
    Exact f k (getitem o f k i) (burstOf o x) := by
  have g : ∀ v, v ∈ _ → Exact f k (get f k i v) (x v) := fun v hv => by
    obtain ⟨h1, h2⟩ := hc v hv
    refine exact_get f k hk i x v h1 ?_
    rw [List.getElem?_eq_getElem h2, hx v _ (List.getElem?_eq_getElem h2)]
  unfold getitem
  refine (g _ (by decide +kernel)).bind ((g _ (by decide +kernel)).bind ((g _ (by decide +kernel)).bind
    ((g _ (by decide +kernel)).bind ((g _ (by decide +kernel)).bind ((g _ (by decide +kernel)).bind ?_)))))
  refine exact_evalAll o f k i x _ _ rfl rfl packetSpec fun p hp v hv => g v ?_
  revert v
  revert p
  decide +kernel

/-! ## Writing -/

theorem get?_later (burst : Dict String V) (sets : List (String × V)) (n : String)
    (h : ∀ p ∈ sets, p.1 ≠ n) : (later burst sets).get? n = burst.get? n := by
  unfold later
  induction sets generalizing burst with
  | nil => rfl
  | cons a t ih =>
    rw [List.foldl_cons, ih _ fun p hp => h p (.tail _ hp), Dict.get?_set,
      if_neg fun e => h a (.head _) e.symm]

theorem get?_map (l : List (String × Src)) (g : Src → V) (n : String) :
    Dict.get? (l.map fun p => (p.1, g p.2)) n = (Dict.get? l n).map g := by
  induction l with
  | nil => rfl
  | cons a t ih =>
    simp only [List.map_cons, Dict.get?]
    split
    · rfl
    · exact ih

theorem get?_record (o : Ops V) (burst : Dict String V) (surf : String → V) (table : List (String × Out))
    (rec : List (String × Option V)) (h : record o burst surf table = .ok rec) (n : String) :
    (Dict.get? table n = none ∧ Dict.get? rec n = none) ∨
    ∃ e x, Dict.get? table n = some e ∧ Dict.get? rec n = some x ∧ e.eval o burst surf = .ok x := by
  induction table generalizing rec with
  | nil => cases h; exact .inl ⟨rfl, rfl⟩
  | cons a t ih =>
    obtain ⟨m, e⟩ := a
    unfold record at h
    split at h
    · cases h
    · rename_i x hx
      split at h
      · cases h
      · rename_i l hl
        cases h
        by_cases hm : n = m
        · right
          exact ⟨e, x, by simp [Dict.get?, hm], by simp [Dict.get?, hm], hx⟩
        · rcases ih l hl with ⟨h1, h2⟩ | ⟨e', x', h1, h2, h3⟩
          · left
            exact ⟨by simp [Dict.get?, hm, h1], by simp [Dict.get?, hm, h2]⟩
          · right
            exact ⟨e', x', by simp [Dict.get?, hm, h1], by simp [Dict.get?, hm, h2], h3⟩

/-- The keys an expression reads from the burst. -/
def Out.keys : Out → List String
  | .burst k => [k]
  | .diff a b => [a, b]
  | _ => []

theorem record_ok (o : Ops V) (burst : Dict String V) (surf : String → V) (table : List (String × Out))
    (h : ∀ p ∈ table, ∀ k ∈ p.2.keys, (burst.get? k).isSome) : ∃ rec, record o burst surf table = .ok rec := by
  induction table with
  | nil => exact ⟨[], rfl⟩
  | cons a t ih =>
    obtain ⟨n, e⟩ := a
    obtain ⟨rec, hr⟩ := ih fun p hp => h p (.tail _ hp)
    have he := h (n, e) (.head _)
    have : ∃ x, e.eval o burst surf = .ok x := by
      cases e with
      | burst k =>
        obtain ⟨x, hx⟩ := Option.isSome_iff_exists.1 (he k (.head _))
        exact ⟨some x, by simp only [Out.eval, item, hx]⟩
      | diff a b =>
        obtain ⟨x, hx⟩ := Option.isSome_iff_exists.1 (he a (.head _))
        obtain ⟨y, hy⟩ := Option.isSome_iff_exists.1 (he b (.tail _ (.head _)))
        exact ⟨some (o.sub x y), by simp only [Out.eval, item, hx, hy]⟩
      | none => exact ⟨none, rfl⟩
      | surf e => exact ⟨some (surf e), rfl⟩
    obtain ⟨x, hx⟩ := this
    exact ⟨(n, x) :: rec, by simp only [record, hx, hr]⟩

/-- The entries of a burst that are not set again are the ones of its construction. -/
theorem burst_entry (o : Ops V) (x : String → V) (sets : List (String × V)) (hs : ∀ p ∈ sets, p.1 ∈ working)
    (n : String) (hn : n ∉ working) :
    (later (burstOf o x) sets).get? n = (Dict.get? packetSpec n).map fun s => s.of o x := by
  rw [get?_later _ _ n fun p hp e => hn (e ▸ hs p hp)]
  exact get?_map packetSpec (fun s => s.of o x) n

/-- A name of a table whose expression copies an unchanged entry of the burst, which is a variable of the input. -/
def Copies (table : List (String × Out)) (n : String) : Bool :=
  match Dict.get? table n with
  | some (.burst k) => match Dict.get? packetSpec k with
    | some (.raw v) => v == n && !working.contains k
    | _ => false
  | _ => false

/-- All entries read by a table are there. -/
def Provided (table : List (String × Out)) : Bool :=
  table.all fun p => p.2.keys.all fun k => (Dict.get? packetSpec k).isSome && !working.contains k

theorem telemetry_of (o : Ops V) (x : String → V) (sets : List (String × V))
    (hs : ∀ p ∈ sets, p.1 ∈ working) (surf : String → V) (table : List (String × Out))
    (hp : Provided table = true) (names : List String) (hn : ∀ n ∈ names, Copies table n = true) :
    ∃ rec, record o (later (burstOf o x) sets) surf table = .ok rec ∧
      ∀ n ∈ names, Dict.get? rec n = some (some (x n)) := by
  obtain ⟨rec, hr⟩ := record_ok o (later (burstOf o x) sets) surf table fun p hp' k hk => by
    have h1 := List.all_eq_true.1 (List.all_eq_true.1 hp p hp') k hk
    rw [Bool.and_eq_true, Bool.not_eq_true'] at h1
    rw [burst_entry o x sets hs k (by
      intro hc
      have := List.contains_iff_mem.2 hc
      rw [this] at h1
      exact absurd h1.2 (by decide))]
    rw [Option.isSome_map]
    exact h1.1
  refine ⟨rec, hr, fun n hmem => ?_⟩
  have hc := hn n hmem
  unfold Copies at hc
  rcases get?_record o _ surf table rec hr n with ⟨h1, _⟩ | ⟨e, y, h1, h2, h3⟩
  · rw [h1] at hc; cases hc
  · rw [h1] at hc
    cases e with
    | burst k =>
      simp only at hc
      cases hk : Dict.get? packetSpec k with
      | none => rw [hk] at hc; cases hc
      | some s =>
        rw [hk] at hc
        cases s with
        | raw v =>
          simp only [Bool.and_eq_true, beq_iff_eq, Bool.not_eq_true'] at hc
          have hb := burst_entry o x sets hs k (by
            intro hm
            have := List.contains_iff_mem.2 hm
            rw [this] at hc
            exact absurd hc.2 (by decide))
          rw [hk] at hb
          simp only [Out.eval, item, hb, Option.map_some, Src.of] at h3
          cases h3
          rw [h2, hc.1]
        | rad v => cases hc
        | row v => cases hc
        | const v => cases hc
        | wave => cases hc
        | delay => cases hc
    | diff a b => cases hc
    | none => cases hc
    | surf e => cases hc

/-! ## C97 -/

/-- **C97 (`_partial`)**: for every input file, chunk size and history of reads: the record of the closest burst
can be read, every writer gets its record, and the instrument measurements in the record are those of the input
file at the closest burst, each under its own name, in the extended, the Sentinel-3 and the L1B-S product; whatever
happened to the working data of the burst meanwhile.  Missing: `surf_type` of the L1B-S product and `weighting` of
the L1B products (see the negations below). -/
theorem telemetry_copied_partial (o : Ops V) (f : Reader.File String V) (chunk : Nat) (hk : 0 < chunk)
    (history : List (String × Int)) (i : Nat) (hc : Complete f i) (sets : List (String × V))
    (hs : ∀ p ∈ sets, p.1 ∈ working) (surf : String → V) :
    ∃ burst r, getitem o f chunk i (Reader.reads f chunk Reader.Reader.fresh history) = (.ok burst, r) ∧
      ∃ ext s3 bs, record o (later burst sets) surf extended = .ok ext ∧
        record o (later burst sets) surf sentinel3 = .ok s3 ∧ record o (later burst sets) surf l1bs = .ok bs ∧
        (∀ n ∈ telemetry, ∃ a, (f.data n)[i]? = some a ∧ Dict.get? ext n = some (some a) ∧
          Dict.get? s3 n = some (some a)) ∧
        ∀ n ∈ telemetryS, ∃ a, (f.data n)[i]? = some a ∧ Dict.get? bs n = some (some a) := by
  have hne : ∃ a : V, True := by
    obtain ⟨_, h⟩ := hc "time" (by decide +kernel)
    exact ⟨(f.data "time")[i], trivial⟩
  obtain ⟨a0, _⟩ := hne
  let x : String → V := fun v => ((f.data v)[i]?).getD a0
  have hx : ∀ v a, (f.data v)[i]? = some a → x v = a := fun v a h => by
    show ((f.data v)[i]?).getD a0 = a
    rw [h]; rfl
  obtain ⟨more, hg⟩ := getitem_exact o f chunk hk i hc x hx history
  refine ⟨_, _, hg, ?_⟩
  obtain ⟨ext, he, he'⟩ := telemetry_of o x sets hs surf extended (by decide +kernel) telemetry
    (by decide +kernel)
  obtain ⟨s3, h3, h3'⟩ := telemetry_of o x sets hs surf sentinel3 (by decide +kernel) telemetry
    (by decide +kernel)
  obtain ⟨bs, hb, hb'⟩ := telemetry_of o x sets hs surf l1bs (by decide +kernel) telemetryS
    (by decide +kernel)
  have hin : ∀ n, n ∈ telemetry ∨ n ∈ telemetryS → (f.data n)[i]? = some (x n) := by
    intro n hn
    have : i < (f.data n).length := by
      refine (hc n ?_).2
      rcases hn with hn | hn
      · revert n; decide +kernel
      · revert n; decide +kernel
    rw [List.getElem?_eq_getElem this, hx n _ (List.getElem?_eq_getElem this)]
  exact ⟨ext, s3, bs, he, h3, hb, fun n hn => ⟨x n, hin n (.inl hn), he' n hn, h3' n hn⟩,
    fun n hn => ⟨x n, hin n (.inr hn), hb' n hn⟩⟩

/-- A file with a value for every variable of its records: the variable's name and the number of the record. -/
def exampleFile : Reader.File String String := ⟨inputs, fun v => [v ++ "0", v ++ "1", v ++ "2"]⟩

/-- The names of the operations. -/
def exampleOps : Ops String where
  rad x := "rad " ++ x
  const c := c
  wave a b c := a ++ b ++ c
  delay a b c := a ++ b ++ c
  row x := "row " ++ x
  sub a b := a ++ " - " ++ b

/-- The hypotheses hold for the record 2 of the example. -/
example : Complete exampleFile 2 := fun _ hv => ⟨hv, by simp [exampleFile]⟩

/-- The burst from record 2 of the example, read in chunks of two after record 0. -/
example : (match (getitem exampleOps exampleFile 2 2
      (Reader.reads exampleFile 2 Reader.Reader.fresh [("time", 0)])).1 with
    | .ok b => Dict.get? b "source_seq_count"
    | .error _ => none) = some "seq_count2" := by decide +kernel

/-- **C97 is violated** by the surface type of the L1B-S product: it is the code of `SurfaceType.surface_null` in
every record, whatever the input says.  (`sets` are all assignments to the surface; no statement assigns
`surface_type`.  The expressions of the call are those of the surface.) -/
theorem surface_type_violated (o : Ops V) (null : V) (burst : Dict String V) (sets : List (String × V))
    (hs : ∀ p ∈ sets, p.1 ≠ "surface_type") (surf : String → V)
    (hsurf : (surfaceData null sets).get? "surface_type" = some (surf "surface_type.value"))
    (rec : List (String × Option V)) (h : record o burst surf l1bs = .ok rec) :
    Dict.get? rec "surf_type" = some (some null) := by
  have hnull : (surfaceData null sets).get? "surface_type" = some null := get?_later _ sets _ hs
  rw [hnull] at hsurf
  cases hsurf
  rcases get?_record o burst surf l1bs rec h "surf_type" with ⟨h1, _⟩ | ⟨e, y, h1, h2, h3⟩
  · exact absurd h1 (by simp [l1bs, Dict.get?])
  · have : Dict.get? l1bs "surf_type" = some (.surf "surface_type.value") := by simp [l1bs, Dict.get?]
    rw [this] at h1
    cases h1
    cases h3
    exact h2

/-- A surface with assignments as they occur: the type is null. -/
example : (surfaceData "null" [("time_surf", "1.5"), ("x_surf", "2")]).get? "surface_type" = some "null" := by
  decide +kernel

/-- **C97 is violated** by `weighting`, which is a variable of the input and of both L1B files: no value is ever
given for it. -/
theorem weighting_violated (o : Ops V) (burst : Dict String V) (surf : String → V) (table : List (String × Out))
    (ht : table = extended ∨ table = sentinel3) (rec : List (String × Option V))
    (h : record o burst surf table = .ok rec) : Dict.get? rec "weighting" = some none := by
  have : Dict.get? table "weighting" = some .none := by
    rcases ht with rfl | rfl <;> simp [extended, sentinel3, Dict.get?]
  rcases get?_record o burst surf table rec h "weighting" with ⟨h1, _⟩ | ⟨e, y, h1, h2, h3⟩
  · rw [this] at h1; cases h1
  · rw [this] at h1
    cases h1
    cases h3
    exact h2

/-! ## C98 -/

/-- Two records that differ in the roll and yaw of the satellite only give the same burst. -/
theorem pointing_not_read (o : Ops V) (x y : String → V)
    (h : ∀ v, v ≠ "roll_sat_pointing" → v ≠ "yaw_sat_pointing" → x v = y v) : burstOf o x = burstOf o y := by
  unfold burstOf
  refine List.map_congr_left fun p hp => ?_
  have hv : ∀ v ∈ p.2.vars, v ≠ "roll_sat_pointing" ∧ v ≠ "yaw_sat_pointing" := by
    revert p; decide +kernel
  congr 1
  cases hs : p.2 with
  | raw v => exact h v (hv v (by rw [hs]; exact .head _)).1 (hv v (by rw [hs]; exact .head _)).2
  | rad v => exact congrArg o.rad (h v (hv v (by rw [hs]; exact .head _)).1 (hv v (by rw [hs]; exact .head _)).2)
  | row v => exact congrArg o.row (h v (hv v (by rw [hs]; exact .head _)).1 (hv v (by rw [hs]; exact .head _)).2)
  | const c => rfl
  | wave =>
    simp only [Src.of]
    rw [h "agc_ku" (by decide) (by decide), h "i_meas_ku" (by decide) (by decide),
      h "q_meas_ku" (by decide) (by decide)]
  | delay =>
    simp only [Src.of]
    rw [h "pitch_sat_pointing" (by decide) (by decide), h "cog_cor" (by decide) (by decide),
      h "range_ku" (by decide) (by decide)]

/-- **C98 is violated**: the processing of a product sees its records as bursts only; no way to compute the roll
in the product from the bursts gives, for every input, the roll of the satellite in the input, not even for inputs
of one record. -/
theorem roll_pointing_violated [Nontrivial V] (o : Ops V) (product : List (List (String × V)) → V) :
    ∃ x : String → V, product [burstOf o x] ≠ x "roll_sat_pointing" := by
  obtain ⟨a, b, hab⟩ := exists_pair_ne V
  by_contra hcon
  push Not at hcon
  have h1 := hcon fun _ => a
  have h2 := hcon fun v => if v = "roll_sat_pointing" then b else a
  rw [pointing_not_read o (fun _ => a) (fun v => if v = "roll_sat_pointing" then b else a) (by
    intro v hv _
    exact (if_neg hv).symm)] at h1
  rw [h1] at h2
  simp at h2
  exact hab h2

/-- What stands in their place: the entries from which the pointing angles of the products are interpolated are
the mispointing angles of the instrument, in radians. -/
theorem pointing_is_mispointing (o : Ops V) (x : String → V) (sets : List (String × V))
    (hs : ∀ p ∈ sets, p.1 ∈ working) :
    (later (burstOf o x) sets).get? "roll_sar" = some (o.rad (x "roll_sral_mispointing")) ∧
    (later (burstOf o x) sets).get? "pitch_sar" = some (o.rad (x "pitch_sral_mispointing")) ∧
    (later (burstOf o x) sets).get? "yaw_sar" = some (o.rad (x "yaw_sral_mispointing")) := by
  refine ⟨?_, ?_, ?_⟩ <;>
    rw [burst_entry o x sets hs _ (by decide +kernel)] <;> simp [packetSpec, Dict.get?, Src.of]

/-- Two records that differ in the roll. -/
example : burstOf exampleOps (fun _ => "a") =
    burstOf exampleOps (fun v => if v = "roll_sat_pointing" then "b" else "a") :=
  pointing_not_read exampleOps _ _ fun _ h _ => (if_neg h).symm

end Dedop.Lineage
