import Verif.Lineage.Props

/-!
# C152: the measurements of a burst are those of its record

The processing uses a burst as a dictionary (`l1a_dataset.py:173-235`); these are its entries for the time, orbit,
attitude, echoes and calibration.
-/

namespace Dedop.Lineage

open Dedop

variable {V : Type}

/-! ## Specification -/

/-- Entries of a burst, and the variable of the L1A file each is a copy of. -/
def copied : List (String × String) :=
  [("time_sar_ku", "time"), ("days", "UTC_day"), ("seconds", "UTC_sec"),
   ("alt_sar_sat", "alt"), ("alt_rate_sat_sar", "orb_alt_rate"),
   ("x_vel_sat_sar", "x_vel"), ("y_vel_sat_sar", "y_vel"), ("z_vel_sat_sar", "z_vel"),
   ("x_sar_sat", "x_pos"), ("y_sar_sat", "y_pos"), ("z_sar_sat", "z_pos"),
   ("burst_sar_ku", "burst_count_prod"), ("source_seq_count", "seq_count"),
   ("h0_sar", "h0_applied"), ("cor2_sar", "cor2_applied"), ("range_ku", "range_ku"), ("cog_cor", "cog_cor"),
   ("cal1_power", "burst_power_cor_ku"), ("cal1_phase", "burst_phase_cor_ku")]

/-- Angles, which the file has in degrees and the processing uses in radians. -/
def angles : List (String × String) :=
  [("lat_sar_sat", "lat"), ("lon_sar_sat", "lon"), ("roll_sar", "roll_sral_mispointing"),
   ("pitch_sar", "pitch_sral_mispointing"), ("yaw_sar", "yaw_sral_mispointing")]

/-- Entry `n` of the burst. -/
def entry (burst : List (String × V)) (n : String) : Option V := (burst.find? (fun p => p.1 == n)).map (·.2)

/-! ## C152 -/

deriving instance DecidableEq for Src

theorem get?_burstOf (o : Ops V) (x : String → V) (n : String) :
    entry (burstOf o x) n = (entry packetSpec n).map fun s => s.of o x := by
  unfold entry burstOf
  induction packetSpec with
  | nil => rfl
  | cons p l ih =>
    rw [List.map_cons, List.find?_cons, List.find?_cons]
    cases p.1 == n with
    | true => rfl
    | false => exact ih

/-- **C152**: for every file, chunk size and history of reads, the burst built from record `i` has the time, orbit
and corrections of record `i` in its entries, the angles in radians, the waveform of the gain and the two
quadratures of that record, the window delay of its range, pitch and centre of gravity, and one row of its CAL2
table; no name stands for two entries. -/
theorem burst_of_record (o : Ops V) (f : Reader.File String V) (chunk : Nat) (hk : 0 < chunk)
    (history : List (String × Int)) (i : Nat) (hc : Complete f i) :
    ∃ burst r, getitem o f chunk i (Reader.reads f chunk Reader.Reader.fresh history) = (.ok burst, r) ∧
      (burst.map (·.1)).Nodup ∧
      (∀ p ∈ copied, ∃ a, (f.data p.2)[i]? = some a ∧ entry burst p.1 = some a) ∧
      (∀ p ∈ angles, ∃ a, (f.data p.2)[i]? = some a ∧ entry burst p.1 = some (o.rad a)) ∧
      (∃ g re im, (f.data "agc_ku")[i]? = some g ∧ (f.data "i_meas_ku")[i]? = some re ∧
        (f.data "q_meas_ku")[i]? = some im ∧ entry burst "waveform_cor_sar" = some (o.wave g re im)) ∧
      (∃ pitch cog range, (f.data "pitch_sat_pointing")[i]? = some pitch ∧ (f.data "cog_cor")[i]? = some cog ∧
        (f.data "range_ku")[i]? = some range ∧ entry burst "win_delay_sar_ku" = some (o.delay pitch cog range)) ∧
      ∃ t, (f.data "gprw_meas_ku")[i]? = some t ∧ entry burst "cal2_array" = some (o.row t) := by
  have hne : ∃ a : V, True := by
    obtain ⟨_, h⟩ := hc "time" (by decide +kernel)
    exact ⟨(f.data "time")[i], trivial⟩
  obtain ⟨a0, _⟩ := hne
  let x : String → V := fun v => ((f.data v)[i]?).getD a0
  have hx : ∀ v a, (f.data v)[i]? = some a → x v = a := fun v a h => by
    show ((f.data v)[i]?).getD a0 = a
    rw [h]; rfl
  have hin : ∀ v, v ∈ inputs → (f.data v)[i]? = some (x v) := by
    intro v hv
    have : i < (f.data v).length := (hc v hv).2
    rw [List.getElem?_eq_getElem this, hx v _ (List.getElem?_eq_getElem this)]
  obtain ⟨more, hg⟩ := getitem_exact o f chunk hk i hc x hx history
  refine ⟨_, _, hg, ?_, ?_, ?_, ?_, ?_, ?_⟩
  · have : (burstOf o x).map (·.1) = packetSpec.map (·.1) := by
      unfold burstOf; rw [List.map_map]; rfl
    rw [this]
    decide +kernel
  · intro p hp
    have h : ∀ p ∈ copied, p.2 ∈ inputs ∧ entry packetSpec p.1 = some (.raw p.2) := by decide +kernel
    refine ⟨x p.2, hin _ (h p hp).1, ?_⟩
    rw [get?_burstOf, (h p hp).2]; rfl
  · intro p hp
    have h : ∀ p ∈ angles, p.2 ∈ inputs ∧ entry packetSpec p.1 = some (.rad p.2) := by decide +kernel
    refine ⟨x p.2, hin _ (h p hp).1, ?_⟩
    rw [get?_burstOf, (h p hp).2]; rfl
  · refine ⟨_, _, _, hin _ (by decide +kernel), hin _ (by decide +kernel), hin _ (by decide +kernel), ?_⟩
    rw [get?_burstOf, show entry packetSpec "waveform_cor_sar" = some .wave by decide +kernel]; rfl
  · refine ⟨_, _, _, hin _ (by decide +kernel), hin _ (by decide +kernel), hin _ (by decide +kernel), ?_⟩
    rw [get?_burstOf, show entry packetSpec "win_delay_sar_ku" = some .delay by decide +kernel]; rfl
  · refine ⟨_, hin _ (by decide +kernel), ?_⟩
    rw [get?_burstOf, show entry packetSpec "cal2_array" = some (.row "gprw_meas_ku") by decide +kernel]; rfl

/-- The velocity and latitude of record 1 of the example, read in chunks of two after record 2. -/
example : Complete exampleFile 1 ∧ (match (getitem exampleOps exampleFile 2 1
      (Reader.reads exampleFile 2 Reader.Reader.fresh [("x_vel", 2)])).1 with
    | .ok b => (entry b "y_vel_sat_sar", entry b "lat_sar_sat")
    | .error _ => (none, none)) = (some "y_vel1", some "rad lat1") :=
  ⟨fun _ hv => ⟨hv, by simp [exampleFile]⟩, by decide +kernel⟩

end Dedop.Lineage
