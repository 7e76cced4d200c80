import Verif.Writer.Model
import Verif.Multilook.Props
import Verif.Basic.Tactics
import Mathlib.Tactic.Linarith
import Mathlib.Tactic.FieldSimp
import Mathlib.Tactic.Ring
import Mathlib.Tactic.NormNum
import Mathlib.Analysis.Real.Pi.Bounds
/-!
# Properties of the written values (C55, C56, C66, C67, C69)
-/
namespace Dedop.Writer

section Time
variable {K : Type} [Field K] [LinearOrder K] [IsStrictOrderedRing K]

/-! ## UTC time -/

/-- `(days, secs)` denotes the instant `elapsed` after `(days₀, secs₀)`, when day `days₀` has `len` seconds. -/
def SameInstant (len : K) (days₀ : ℤ) (secs₀ elapsed : K) (days : ℤ) (secs : K) : Prop :=
  secs₀ + elapsed = (days - days₀ : ℤ) * len + secs

/-- **C55**, the part that holds: UTC day and seconds denote the same instant as the previous record's UTC plus the elapsed
time; the seconds are inside the day except at midnight, where they equal the length of the day. -/
theorem utc_instant_partial (t : Times K) (h0 : 0 ≤ t.prevSecs) (h1 : t.prevSecs < t.dayLength)
    (h2 : t.prevTai ≤ t.timeSurf) (h3 : t.timeSurf - t.prevTai < t.dayLength) :
    let q := utc t
    SameInstant t.dayLength t.prevDays t.prevSecs (t.timeSurf - t.prevTai) q.1 q.2 ∧
    0 ≤ q.2 ∧ q.2 ≤ t.dayLength ∧
    (t.prevSecs + (t.timeSurf - t.prevTai) ≠ t.dayLength → q.2 < t.dayLength) ∧
    (q.1 = t.prevDays ∨ q.1 = t.prevDays + 1) := by
  simp only [utc, SameInstant]
  split
  · rename_i h
    refine ⟨by push_cast; ring, by linarith, by linarith, fun _ => by linarith, .inr rfl⟩
  · rename_i h
    rw [gt_iff_lt, not_lt] at h
    refine ⟨by push_cast; ring, by linarith, h, fun hne => lt_of_le_of_ne h hne, .inl rfl⟩

example : let t : Times ℚ := ⟨1000, 990, 7000, 86395, 86400⟩
    0 ≤ t.prevSecs ∧ t.prevSecs < t.dayLength ∧ t.prevTai ≤ t.timeSurf ∧ t.timeSurf - t.prevTai < t.dayLength ∧
    utc t = (7001, 5) := by
  decide +kernel

/-- **C55 is violated** at midnight: the seconds reach the length of the day (86400 on an ordinary day) and the day is not
advanced. -/
theorem utc_midnight_violated (prevTai : K) (prevDays : ℤ) (prevSecs dayLength : K) :
    utc ⟨prevTai + (dayLength - prevSecs), prevTai, prevDays, prevSecs, dayLength⟩ = (prevDays, dayLength) := by
  have : ¬ (prevSecs + (prevTai + (dayLength - prevSecs) - prevTai) > dayLength) := by
    rw [gt_iff_lt, not_lt]; exact le_of_eq (by ring)
  simp only [utc, if_neg this, Prod.mk.injEq, true_and]
  ring

/-- At the time of a record the written UTC time is the record's own, also across midnight with or without a leap second. -/
theorem utc_at_record (secInDay : K) (prev curr : Burst K)
    (h : (curr.days = prev.days ∧ curr.tai - prev.tai = curr.secs - prev.secs ∧ curr.secs ≤ secInDay) ∨
      (curr.days = prev.days + 1 ∧ 0 < curr.secs)) :
    utc (newTimes secInDay 1 prev curr) = (curr.days, curr.secs) := by
  unfold utc
  rcases h with ⟨hd, ht, hs⟩ | ⟨hd, hs⟩
  · have e : (newTimes secInDay 1 prev curr).prevSecs + ((newTimes secInDay 1 prev curr).timeSurf -
        (newTimes secInDay 1 prev curr).prevTai) = curr.secs := by simp only [newTimes]; linear_combination ht
    simp only [e]
    rw [if_neg]
    · simp only [newTimes, hd]
    · rw [gt_iff_lt, not_lt]
      simp only [newTimes, Burst.leap, hd]
      linarith
  · have e : (newTimes secInDay 1 prev curr).prevSecs + ((newTimes secInDay 1 prev curr).timeSurf -
        (newTimes secInDay 1 prev curr).prevTai) - (newTimes secInDay 1 prev curr).dayLength = curr.secs := by
      simp only [newTimes, Burst.leap, hd]
      push_cast
      ring
    simp only [e]
    rw [if_pos]
    · simp only [newTimes, hd]
    · rw [gt_iff_lt]
      linarith

/-- A leap second between two records: day 6025 has 86401 seconds. -/
example : let prev : Burst ℚ := ⟨520646399, 6025, 86399⟩
    let curr : Burst ℚ := ⟨520646402, 6026, 1⟩
    (curr.days = prev.days + 1 ∧ 0 < curr.secs) ∧ utc (newTimes 86400 1 prev curr) = (6026, 1) ∧
      utc (newTimes 86400 (1/2) prev curr) = (6025, 86400 + 1/2) := by
  decide +kernel

/-- At the time of the previous record the written UTC time is that record's. -/
theorem utc_at_previous_record (secInDay : K) (prev curr : Burst K)
    (h : prev.secs ≤ (newTimes secInDay 0 prev curr).dayLength) :
    utc (newTimes secInDay 0 prev curr) = (prev.days, prev.secs) := by
  have e : (newTimes secInDay 0 prev curr).prevSecs + ((newTimes secInDay 0 prev curr).timeSurf -
      (newTimes secInDay 0 prev curr).prevTai) = prev.secs := by simp only [newTimes]; ring
  unfold utc
  simp only [e]
  rw [if_neg (by rw [gt_iff_lt, not_lt]; exact h)]
  rfl

example : let prev : Burst ℚ := ⟨100, 5, 86399⟩
    let curr : Burst ℚ := ⟨102, 6, 1⟩
    prev.secs ≤ (newTimes 86400 0 prev curr).dayLength := by decide +kernel

/-- **C55 is violated** for the first surface of a file: whatever the first record says, day 1 and the TAI time are written. -/
theorem first_surface_violated (b : Burst K) (h : 0 < b.tai) : utc (firstTimes noTimes b) = (1, b.tai) := by
  simp only [utc, firstTimes, noTimes, zero_add, sub_zero]
  rw [if_pos h]

/-- A record of 1 July 2016: the first surface is dated 2 January 2000, 520646402 seconds. -/
example : utc (firstTimes noTimes (⟨520646402, 6026, 1⟩ : Burst ℚ)) = (1, 520646402) :=
  first_surface_violated _ (by norm_num)

/-- The first surface after a gap is dated from the record before the last surface: right if the gap is shorter than a day. -/
theorem surface_after_gap_partial (old : Times K) (b : Burst K) (h0 : 0 ≤ old.prevSecs) (h1 : old.prevSecs < old.dayLength)
    (h2 : old.prevTai ≤ b.tai) (h3 : b.tai - old.prevTai < old.dayLength) :
    SameInstant old.dayLength old.prevDays old.prevSecs (b.tai - old.prevTai) (utc (firstTimes old b)).1
      (utc (firstTimes old b)).2 :=
  (utc_instant_partial (firstTimes old b) h0 h1 h2 h3).1

/-- After a gap of two days the seconds exceed the day. -/
theorem surface_after_gap_violated : utc (firstTimes (⟨100, 99, 10, 0, 86400⟩ : Times ℚ) ⟨172999, 12, 100⟩) = (11, 86500) := by
  decide +kernel

end Time

/-! ## Scaling -/

section Scale
variable {K : Type} [Field K] [LinearOrder K] [IsStrictOrderedRing K]

omit [Field K] [IsStrictOrderedRing K] in
theorem foldl_max_spec (l : List K) : ∀ x : K, (x ≤ l.foldl max x ∧ ∀ y ∈ l, y ≤ l.foldl max x) ∧
    (l.foldl max x = x ∨ l.foldl max x ∈ l) := by
  induction l with
  | nil => intro x; simp
  | cons y l ih =>
    intro x
    obtain ⟨⟨h1, h2⟩, h3⟩ := ih (max x y)
    simp only [List.foldl_cons]
    refine ⟨⟨le_trans (le_max_left _ _) h1, ?_⟩, ?_⟩
    · intro z hz
      rcases List.mem_cons.mp hz with rfl | hz
      · exact le_trans (le_max_right _ _) h1
      · exact h2 z hz
    · rcases h3 with h3 | h3
      · rcases max_choice x y with h | h
        · left; rw [h3, h]
        · right; rw [h3, h]; exact List.mem_cons_self
      · right; exact List.mem_cons_of_mem _ h3

omit [Field K] [IsStrictOrderedRing K] in
theorem npMax_spec {l : List K} {m : K} (h : npMax l = some m) : (∀ y ∈ l, y ≤ m) ∧ m ∈ l := by
  cases l with
  | nil => simp [npMax] at h
  | cons x l =>
    simp only [npMax, Option.some.injEq] at h
    subst h
    obtain ⟨⟨h1, h2⟩, h3⟩ := foldl_max_spec l x
    refine ⟨?_, ?_⟩
    · intro y hy
      rcases List.mem_cons.mp hy with rfl | hy
      · exact h1
      · exact h2 y hy
    · rcases h3 with h3 | h3
      · rw [h3]; exact List.mem_cons_self
      · exact List.mem_cons_of_mem _ h3

omit [Field K] [IsStrictOrderedRing K] in
theorem npMax_some {l : List K} (h : l ≠ []) : ∃ m, npMax l = some m := by
  cases l with
  | nil => exact absurd rfl h
  | cons x l => exact ⟨_, rfl⟩

/-- **C56**, waveforms.  For a waveform with a positive sample: the scale factor is the largest sample; each stored value is the
sample divided by it, so that multiplying gives back the waveform; the largest stored value is 1. -/
theorem waveform_scaling_partial (w : List K) (h : ∃ x ∈ w, 0 < x) :
    ∃ (s : List K) (m : K), scaleWaveform w = some (s.map some, m) ∧ 0 < m ∧ (∀ x ∈ w, x ≤ m) ∧
      s.map (· * m) = w ∧ (∀ x ∈ s, x ≤ 1) ∧ 1 ∈ s ∧ ((∀ x ∈ w, 0 ≤ x) → ∀ x ∈ s, 0 ≤ x) := by
  obtain ⟨x, hx, hpos⟩ := h
  obtain ⟨m, hm⟩ := npMax_some (List.ne_nil_of_mem hx)
  obtain ⟨hle, hmem⟩ := npMax_spec hm
  have hmpos : 0 < m := lt_of_lt_of_le hpos (hle x hx)
  refine ⟨w.map (· / m), m, ?_, hmpos, hle, ?_, ?_, ?_, ?_⟩
  · simp only [scaleWaveform, hm, npDiv, hmpos.ne', if_false, List.map_map]
    rfl
  · rw [List.map_map]
    conv_rhs => rw [← List.map_id w]
    refine List.map_congr_left fun y _ => ?_
    simp only [Function.comp, id]
    exact div_mul_cancel₀ _ hmpos.ne'
  · intro y hy
    obtain ⟨z, hz, rfl⟩ := List.mem_map.mp hy
    exact (div_le_one hmpos).mpr (hle z hz)
  · exact List.mem_map.mpr ⟨m, hmem, div_self hmpos.ne'⟩
  · intro hn y hy
    obtain ⟨z, hz, rfl⟩ := List.mem_map.mp hy
    exact div_nonneg (hn z hz) hmpos.le

example : ∃ x ∈ ([0, 3, 12, 6] : List ℚ), 0 < x := by decide +kernel
example : scaleWaveform ([0, 3, 12, 6] : List ℚ) = some ([some 0, some (1/4), some 1, some (1/2)], 12) := by decide +kernel

/-- **C56 is violated** for a waveform of zeros: NaN is stored for every sample. -/
theorem zero_waveform_violated (n : Nat) : scaleWaveform (List.replicate (n + 1) (0 : K)) = some (List.replicate (n + 1) none, 0) := by
  have h : npMax (List.replicate (n + 1) (0 : K)) = some 0 := by
    obtain ⟨m, hm⟩ := npMax_some (l := List.replicate (n + 1) (0 : K)) (by simp [List.replicate_succ])
    have := (npMax_spec hm).2
    rw [List.mem_replicate] at this
    rw [hm, this.2]
  simp [scaleWaveform, h, npDiv, List.map_replicate]

/-- A rounding function to integers, such as `numpy.around` (ties to even) or rounding half up. -/
def Rounds (rnd : K → ℤ) : Prop := ∀ x, |(rnd x : K) - x| ≤ 1 / 2

theorem Rounds.mem {rnd : K → ℤ} (h : Rounds rnd) {x : K} {a b : ℤ} (ha : (a : K) ≤ x) (hb : x ≤ b) :
    a ≤ rnd x ∧ rnd x ≤ b := by
  have := abs_le.mp (h x)
  constructor
  · have h1 : (a : K) - 1 < rnd x := by linarith
    have : a - 1 < rnd x := by exact_mod_cast h1
    omega
  · have h1 : (rnd x : K) < b + 1 := by linarith
    have : rnd x < b + 1 := by exact_mod_cast h1
    omega

/-- **C56**, waveforms in the file: every sample of a non-negative waveform with a positive sample gets a 32-bit code that is
not the fill value 4294967295, and what a reader gets back, times the scale factor, is within half a code of the sample.  The
code of the largest sample is exact. -/
theorem waveform_packed_partial (rnd : K → ℤ) (hr : Rounds rnd) (w : List K) (hn : ∀ x ∈ w, 0 ≤ x) (hp : ∃ x ∈ w, 0 < x) :
    ∃ (s : List K) (m : K), scaleWaveform w = some (s.map some, m) ∧ s.length = w.length ∧
      ∀ (i : Nat) (hi : i < s.length) (hi' : i < w.length), ∃ c, pack rnd (1 / 4294967294) 0 0 4294967295 s[i] = some c ∧
        c ≠ 4294967295 ∧ |unpack (1 / 4294967294) 0 c * m - w[i]| ≤ m / (2 * 4294967294) ∧
        (w[i] = m → unpack (1 / 4294967294) 0 c * m = w[i]) := by
  obtain ⟨s, m, h1, hm, hle, h2, h3, h4, h5⟩ := waveform_scaling_partial w hp
  have hlen : s.length = w.length := by rw [← h2, List.length_map]
  refine ⟨s, m, h1, hlen, fun i hi hi' => ?_⟩
  have hw : w[i] = s[i] * m := by
    have : (s.map (· * m))[i]'(by simpa using hi) = w[i] := by simp only [h2]
    rw [← this, List.getElem_map]
  have hs0 := h5 hn s[i] (List.getElem_mem hi)
  have hs1 := h3 s[i] (List.getElem_mem hi)
  have hb := hr.mem (x := (s[i] - 0) / (1 / 4294967294)) (a := 0) (b := 4294967294)
    (by push_cast; rw [sub_zero]; exact div_nonneg hs0 (by norm_num))
    (by push_cast; rw [sub_zero, div_div_eq_mul_div, div_one]; nlinarith)
  refine ⟨rnd ((s[i] - 0) / (1 / 4294967294)), ?_, ?_, ?_, ?_⟩
  · simp only [pack]
    rw [if_pos ⟨hb.1, by omega⟩]
  · omega
  · have := hr ((s[i] - 0) / (1 / 4294967294))
    set c : K := (rnd ((s[i] - 0) / (1 / 4294967294)) : K) with hc
    rw [sub_zero, div_div_eq_mul_div, div_one] at this
    rw [unpack, hw, ← hc]
    have e : (c * (1 / 4294967294) + 0) * m - s[i] * m = (c - s[i] * 4294967294) * (m / 4294967294) := by ring
    rw [e, abs_mul, abs_of_pos (by positivity : (0 : K) < m / 4294967294)]
    calc _ ≤ 1 / 2 * (m / 4294967294) := mul_le_mul_of_nonneg_right this (by positivity)
      _ = _ := by ring
  · intro hmax
    have hs : s[i] = 1 := by
      rw [hw] at hmax
      exact mul_right_cancel₀ hm.ne' (by rw [hmax, one_mul])
    have hb' := hr.mem (x := (s[i] - 0) / (1 / 4294967294)) (a := 4294967294) (b := 4294967294)
      (by rw [hs]; norm_num) (by rw [hs]; norm_num)
    have : rnd ((s[i] - 0) / (1 / 4294967294)) = 4294967294 := le_antisymm hb'.2 hb'.1
    rw [this, unpack, hw, hs]
    norm_num

example : Rounds (fun x : ℚ => round x) := fun x => by rw [abs_sub_comm]; exact abs_sub_round x

/-- **C56**, I/Q samples.  For a stack with a non-zero sample every stored part is between -127 and 127, hence its byte is
never the fill value -128; multiplying by the scale factor gives back the sample before truncation, and after it up to one
scale factor. -/
theorem iq_scaling_partial [FloorRing K] (iq : List (K × K)) (h : ∃ z ∈ iq, z.1 ≠ 0 ∨ z.2 ≠ 0) :
    ∃ (s : List (K × K)) (d : K), scaleIQ iq = some (s.map (fun z => (some z.1, some z.2)), d) ∧ 0 < d ∧
      s.map (fun z => (z.1 * d, z.2 * d)) = iq ∧
      ∀ z ∈ s, ∀ x, x = z.1 ∨ x = z.2 → |x| ≤ 127 ∧
        ∃ c, castInt (-128) 127 x = some c ∧ c ≠ -128 ∧ |(c : K) * d - x * d| < d := by
  obtain ⟨z, hz, hne⟩ := h
  have hnil : iq ≠ [] := List.ne_nil_of_mem hz
  obtain ⟨a, ha⟩ := npMax_some (l := iq.map fun z => |z.1|) (by simpa using hnil)
  obtain ⟨b, hb⟩ := npMax_some (l := iq.map fun z => |z.2|) (by simpa using hnil)
  have ha' := (npMax_spec ha).1
  have hb' := (npMax_spec hb).1
  simp only [List.mem_map, forall_exists_index, and_imp, forall_apply_eq_imp_iff₂] at ha' hb'
  have hmax : 0 < max a b := by
    rcases hne with hne | hne
    · exact lt_of_lt_of_le (abs_pos.mpr hne) (le_trans (ha' z hz) (le_max_left _ _))
    · exact lt_of_lt_of_le (abs_pos.mpr hne) (le_trans (hb' z hz) (le_max_right _ _))
  have hd : 0 < max a b / 127 := by positivity
  refine ⟨iq.map fun z => (z.1 / (max a b / 127), z.2 / (max a b / 127)), max a b / 127, ?_, hd, ?_, ?_⟩
  · simp only [scaleIQ, ha, hb, npDiv, hd.ne', if_false, List.map_map]
    rfl
  · rw [List.map_map]
    conv_rhs => rw [← List.map_id iq]
    refine List.map_congr_left fun y _ => ?_
    simp only [Function.comp, id, div_mul_cancel₀ _ hd.ne']
  · intro y hy x hx
    obtain ⟨u, hu, rfl⟩ := List.mem_map.mp hy
    have key : ∀ v : K, |v| ≤ max a b → |v / (max a b / 127)| ≤ 127 := by
      intro v hv
      rw [abs_div, abs_of_pos hd, div_le_iff₀ hd]
      calc |v| ≤ max a b := hv
        _ = 127 * (max a b / 127) := by ring
    have hx127 : |x| ≤ 127 := by
      rcases hx with rfl | rfl
      · exact key _ (le_trans (ha' u hu) (le_max_left _ _))
      · exact key _ (le_trans (hb' u hu) (le_max_right _ _))
    refine ⟨hx127, ?_⟩
    obtain ⟨hlo, hhi⟩ := abs_le.mp hx127
    have hc : ∃ c : ℤ, (if 0 ≤ x then ⌊x⌋ else ⌈x⌉) = c ∧ -127 ≤ c ∧ c ≤ 127 ∧ |(c : K) - x| < 1 := by
      by_cases h0 : 0 ≤ x
      · rw [if_pos h0]
        refine ⟨_, rfl, ?_, ?_, ?_⟩
        · have := Int.floor_nonneg.mpr h0; omega
        · have : (⌊x⌋ : K) ≤ 127 := le_trans (Int.floor_le x) hhi
          exact_mod_cast this
        · have h1 := Int.floor_le x
          have h2 := Int.lt_floor_add_one x
          rw [abs_lt]; constructor <;> linarith
      · rw [if_neg h0]
        refine ⟨_, rfl, ?_, ?_, ?_⟩
        · have : (-127 : K) ≤ ⌈x⌉ := le_trans hlo (Int.le_ceil x)
          exact_mod_cast this
        · have h1 : ⌈x⌉ ≤ 0 := Int.ceil_le.mpr (by push_cast; linarith)
          omega
        · have h1 := Int.le_ceil x
          have h2 := Int.ceil_lt_add_one x
          rw [abs_lt]; constructor <;> linarith
    obtain ⟨c, e, h1, h2, h3⟩ := hc
    refine ⟨c, ?_, by omega, ?_⟩
    · simp only [castInt, e]
      rw [if_pos ⟨by omega, h2⟩]
    · rw [← sub_mul, abs_mul, abs_of_pos hd]
      exact mul_lt_of_lt_one_left hd h3

example : scaleIQ ([(3, -254), (127, 0)] : List (ℚ × ℚ)) =
    some ([(some (3/2), some (-127)), (some (127/2), some 0)], 2) := by decide +kernel
example : castInt (-128) 127 (3/2 : ℚ) = some 1 ∧ castInt (-128) 127 (-3/2 : ℚ) = some (-1) := by decide +kernel

/-- **C56 is violated** for a stack of zeros: NaN is stored, whose byte is undefined. -/
theorem zero_iq_violated (n : Nat) : scaleIQ (List.replicate (n + 1) ((0 : K), (0 : K))) =
    some (List.replicate (n + 1) (none, none), 0) := by
  have h : ∀ f : K × K → K, f (0, 0) = 0 → npMax ((List.replicate (n + 1) ((0 : K), (0 : K))).map f) = some 0 := by
    intro f hf
    obtain ⟨m, hm⟩ := npMax_some (l := (List.replicate (n + 1) ((0 : K), (0 : K))).map f) (by simp [List.replicate_succ])
    have := (npMax_spec hm).2
    rw [List.map_replicate, List.mem_replicate, hf] at this
    rw [hm, this.2]
  have h1 := h (fun z => |z.1|) (by simp)
  have h2 := h (fun z => |z.2|) (by simp)
  simp only [scaleIQ, h1, h2]
  simp [npDiv, List.map_replicate]

/-- The Sentinel-3 file stores the unscaled waveform with a fixed scale of 0.001: any sample of 4294968 or more has no code. -/
theorem s3_waveform_violated (rnd : K → ℤ) (hr : Rounds rnd) (x : K) (h : 4294968 ≤ x) :
    pack rnd (1 / 1000) 0 0 4294967295 x = none := by
  have := abs_le.mp (hr ((x - 0) / (1 / 1000)))
  have e : (x - 0) / (1 / 1000) = x * 1000 := by ring
  simp only [pack]
  rw [if_neg]
  rintro ⟨_, h2⟩
  have h2' : (rnd ((x - 0) / (1 / 1000)) : K) ≤ 4294967295 := by exact_mod_cast h2
  rw [e] at this h2'
  linarith

end Scale

/-! ## Packed angles -/

/-- An angle is representable when it gets a code other than the fill value. -/
def AngleVar.Representable (v : AngleVar) (rnd : ℚ → ℤ) (x : ℚ) : Prop :=
  ∃ c, v.store rnd x = some c ∧ c ≠ 32767

/-- **C66**, the part that holds: angles within 0.0327 of the offset of their variable are stored, to half a microradian. -/
theorem angle_stored_partial (rnd : ℚ → ℤ) (hr : Rounds rnd) (v : AngleVar)
    (hv : v = beamAngVar ∨ v = lookAngVar ∨ v = startLookVar ∨ v = s3BeamAngVar) (x : ℚ)
    (hx : |x - v.offset| ≤ 32766 / 1000000) :
    ∃ c, v.store rnd x = some c ∧ c ≠ 32767 ∧ |v.load c - x| ≤ 1 / 2000000 := by
  have hs : v.scale = 1 / 1000000 := by rcases hv with rfl | rfl | rfl | rfl <;> rfl
  obtain ⟨h1, h2⟩ := abs_le.mp hx
  have hb := hr.mem (x := (x - v.offset) / v.scale) (a := -32766) (b := 32766)
    (by rw [hs]; push_cast; linarith) (by rw [hs]; push_cast; linarith)
  refine ⟨rnd ((x - v.offset) / v.scale), ?_, ?_, ?_⟩
  · simp only [AngleVar.store, pack]
    rw [if_pos ⟨by omega, by omega⟩]
  · omega
  · have := hr ((x - v.offset) / v.scale)
    simp only [AngleVar.load, unpack]
    have e : (rnd ((x - v.offset) / v.scale) : ℚ) * v.scale + v.offset - x =
        (rnd ((x - v.offset) / v.scale) - (x - v.offset) / v.scale) * v.scale := by
      rw [hs]; ring
    rw [e, abs_mul, hs, abs_of_pos (by norm_num : (0 : ℚ) < 1 / 1000000)]
    rw [hs] at this
    linarith

theorem not_representable (rnd : ℚ → ℤ) (hr : Rounds rnd) (v : AngleVar) (hs : v.scale = 1 / 1000000) (x : ℚ)
    (hx : 3277 / 100000 ≤ |x - v.offset|) : v.store rnd x = none := by
  simp only [AngleVar.store, pack]
  rw [if_neg]
  rintro ⟨h1, h2⟩
  have h1' : (-32768 : ℚ) ≤ rnd ((x - v.offset) / v.scale) := by exact_mod_cast h1
  have h2' : (rnd ((x - v.offset) / v.scale) : ℚ) ≤ 32767 := by exact_mod_cast h2
  have := abs_le.mp (hr ((x - v.offset) / v.scale))
  rw [hs] at this h1' h2'
  rcases le_abs.mp hx with h | h <;> linarith

/-- **C66 is violated**: the table of look angles and the look angle at the start of the stack are the same angles, but no angle
can be stored in both variables. -/
theorem look_angle_violated (rnd : ℚ → ℤ) (hr : Rounds rnd) (x : ℚ) :
    ¬ (lookAngVar.Representable rnd x ∧ startLookVar.Representable rnd x) := by
  rintro ⟨⟨c, h1, _⟩, ⟨d, h2, _⟩⟩
  by_cases h : 3277 / 100000 ≤ |x - lookAngVar.offset|
  · rw [not_representable rnd hr _ rfl x h] at h1; cases h1
  · by_cases h' : 3277 / 100000 ≤ |x - startLookVar.offset|
    · rw [not_representable rnd hr _ rfl x h'] at h2; cases h2
    · simp only [lookAngVar, startLookVar, not_le] at h h'
      have a := (abs_lt.mp h).1
      have b := (abs_lt.mp h').2
      linarith

/-- Look angles within one radian of the nadir are not representable in the look-angle table. -/
theorem look_table_violated (rnd : ℚ → ℤ) (hr : Rounds rnd) (x : ℚ) (h : |x| ≤ 1) : lookAngVar.store rnd x = none := by
  refine not_representable rnd hr _ rfl x ?_
  have := (abs_le.mp h).2
  rw [le_abs]; right
  simp only [lookAngVar]
  linarith

/-- **C66 is violated** for the entries after the last beam, which hold angle 0, and for records all of whose beams are masked,
whose start and stop angles are 0. -/
theorem beam_angle_padding_violated (rnd : ℚ → ℤ) (hr : Rounds rnd) : beamAngVar.store rnd 0 = none :=
  not_representable rnd hr _ rfl 0 (by rw [le_abs]; right; norm_num [beamAngVar])

example : beamAngVar.store (fun x => round x) (158 / 100) = some 10000 ∧
    startLookVar.store (fun x => round x) (-1 / 100) = some (-10000) := by decide +kernel

/-! ## Units -/

/-- An angle in radians, expressed in degrees. -/
noncomputable def inDegrees (x : ℝ) : ℝ := x / (2 * Real.pi) * 360

/-- **C67**, the part that holds: the extended L1B file has the pointing angles in degrees. -/
theorem pointing_degrees_partial (roll : ℝ) : extPointing Real.pi roll = inDegrees roll := by
  unfold extPointing inDegrees
  have := Real.pi_ne_zero
  field_simp
  ring

/-- **C67 is violated**: in the L1B-S file, whose variable is in degrees too, every pointing angle other than 0 is wrong. -/
theorem pointing_degrees_violated (roll : ℝ) (h : roll ≠ 0) : l1bsPointing roll ≠ inDegrees roll := by
  unfold l1bsPointing inDegrees
  intro e
  have hp : 0 < 2 * Real.pi := by positivity
  have : roll * (360 / (2 * Real.pi) - 1) = 0 := by
    rw [mul_sub, mul_one]
    rw [sub_eq_zero]
    conv_rhs => rw [e]
    ring
  rcases mul_eq_zero.mp this with h0 | h0
  · exact h h0
  · rw [sub_eq_zero, div_eq_one_iff_eq hp.ne'] at h0
    have := Real.pi_lt_four
    linarith

end Dedop.Writer
