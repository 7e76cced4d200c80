import Mathlib.Tactic.Linarith
import Mathlib.Tactic.IntervalCases
import Mathlib.Algebra.Order.Floor.Ring
import Mathlib.Data.Rat.Floor
import Verif.Basic.Tactics
import Verif.Basic.Dict

/-!
# Times as text

Models `iso_format` of `/repo/dedop/util/time.py` for a given time.  `datetime` and `timedelta` belong to
Python: a date is a year, month and day, and adding days is taking the next day that many times; a
`timedelta` of a number of seconds is rounded to whole microseconds, halves to even.  A floating point
number stands for its exact value.
-/
namespace Dedop.Globals

/-! ## Dates -/

/-- A date of the calendar (Python's `datetime`, used in `time.py:7-25`). -/
structure Date where
  year : Nat
  month : Nat
  day : Nat
  deriving DecidableEq, Repr

/-- Leap years of the Gregorian calendar. -/
def leap (y : Nat) : Bool := y % 4 = 0 && (y % 100 ≠ 0 || y % 400 = 0)

/-- Days of a month (Python's `datetime`, used in `time.py:7-25`). -/
def daysInMonth (y m : Nat) : Nat :=
  if m = 2 then (if leap y then 29 else 28)
  else if m = 4 ∨ m = 6 ∨ m = 9 ∨ m = 11 then 30
  else 31

/-- The day after a date. -/
def Date.next (d : Date) : Date :=
  if d.day < daysInMonth d.year d.month then { d with day := d.day + 1 }
  else if d.month < 12 then ⟨d.year, d.month + 1, 1⟩
  else ⟨d.year + 1, 1, 1⟩

/-- `UTC_BASE` (`time.py:19`). -/
def base : Date := ⟨2000, 1, 1⟩

/-- The date that many days after the base. -/
def dateAfter : Nat → Date
  | 0 => base
  | n + 1 => (dateAfter n).next

/-! ## Text -/

/-- The last digit of a number as a character (Python's `strftime`, used in `time.py:7-25`). -/
def digit (n : Nat) : Char := Char.ofNat (48 + n % 10)

/-- The last `k` decimal digits of a number: `'%0kd'` for a number with at most `k` digits. -/
def digits : Nat → Nat → List Char
  | 0, _ => []
  | k + 1, n => digits k (n / 10) ++ [digit n]

/-- Microseconds in a day (Python's `timedelta`, used in `time.py:7-25`). -/
def microsPerDay : Nat := 86400000000

/-- `datetime.isoformat()` with the offset of UTC: the microseconds are left out when they are zero. -/
def isoText (date : Date) (micros : Nat) : List Char :=
  digits 4 date.year ++ '-' :: digits 2 date.month ++ '-' :: digits 2 date.day ++
  'T' :: digits 2 (micros / 3600000000) ++ ':' :: digits 2 (micros / 60000000 % 60) ++
  ':' :: digits 2 (micros / 1000000 % 60) ++
  (if micros % 1000000 = 0 then [] else '.' :: digits 6 (micros % 1000000)) ++
  ['+', '0', '0', ':', '0', '0']

/-- Rounding to an integer, halves to even (`timedelta(seconds=…)`). -/
def roundHalfEven (x : ℚ) : ℤ :=
  if x - ⌊x⌋ < 1 / 2 then ⌊x⌋
  else if 1 / 2 < x - ⌊x⌋ then ⌊x⌋ + 1
  else if ⌊x⌋ % 2 = 0 then ⌊x⌋ else ⌊x⌋ + 1

/-- The time of a record in microseconds after the base. -/
def toMicros (secs : ℚ) : ℤ := roundHalfEven (secs * 1000000)

/-- `iso_format(utc_secs)` (`time.py:21-26`) for a time that is not before the base (the altimeters are
younger); dates after the year 9999 raise `OverflowError`. -/
def isoFormat (secs : ℚ) : Except PyErr (List Char) :=
  let t := (toMicros secs).toNat
  let date := dateAfter (t / microsPerDay)
  if date.year ≤ 9999 then .ok (isoText date (t % microsPerDay))
  else .error (.other "OverflowError")

/-! ## Specification: a reader for such texts -/

/-- The value of a digit (specification: reading a text back). -/
def digitValue (c : Char) : Option Nat :=
  if 48 ≤ c.toNat ∧ c.toNat ≤ 57 then some (c.toNat - 48) else none

/-- The number written with these digits. -/
def numberFrom (acc : Nat) : List Char → Option Nat
  | [] => some acc
  | c :: t => (digitValue c).bind fun v => numberFrom (10 * acc + v) t

/-- The number written in digits (specification: reading a text back). -/
def number (s : List Char) : Option Nat := numberFrom 0 s

/-- Number of days from 1 January of the year 0 to 1 January of a year. -/
def daysBeforeYear (y : Nat) : Nat := 365 * y + (y + 3) / 4 - (y + 99) / 100 + (y + 399) / 400

/-- Number of days of a year before a month. -/
def daysBeforeMonth (y m : Nat) : Nat := ((List.range' 1 (m - 1)).map (daysInMonth y)).sum

/-- Number of days from 1 January 2000. -/
def dayNumber (d : Date) : Int :=
  (daysBeforeYear d.year + daysBeforeMonth d.year d.month + d.day : Nat) - (daysBeforeYear 2000 + 1 : Nat)

/-- Reads `YYYY-MM-DDTHH:MM:SS+00:00` or `YYYY-MM-DDTHH:MM:SS.ffffff+00:00`: microseconds since the
beginning of the year 2000. -/
def readIso (s : List Char) : Option Int := do
  let y ← number (s.take 4)
  let m ← number ((s.drop 5).take 2)
  let d ← number ((s.drop 8).take 2)
  let h ← number ((s.drop 11).take 2)
  let mi ← number ((s.drop 14).take 2)
  let sec ← number ((s.drop 17).take 2)
  let rest := s.drop 19
  let frac ← if rest.head? = some '.' then number ((rest.drop 1).take 6) else some 0
  let zone := if rest.head? = some '.' then rest.drop 7 else rest
  if zone = ['+', '0', '0', ':', '0', '0'] then
    some (dayNumber ⟨y, m, d⟩ * 86400000000 + (((h * 60 + mi) * 60 + sec) * 1000000 + frac : Nat))
  else none

/-! ## Lemmas -/

theorem digits_length (k n : Nat) : (digits k n).length = k := by
  induction k generalizing n with
  | zero => rfl
  | succ k ih => simp [digits, ih]

theorem digitValue_digit (n : Nat) : digitValue (digit n) = some (n % 10) := by
  have h : n % 10 < 10 := Nat.mod_lt _ (by decide)
  unfold digit
  generalize n % 10 = m at h
  interval_cases m <;> rfl

theorem numberFrom_append (acc : Nat) (s t : List Char) :
    numberFrom acc (s ++ t) = (numberFrom acc s).bind fun a => numberFrom a t := by
  induction s generalizing acc with
  | nil => rfl
  | cons c s ih =>
    simp only [List.cons_append, numberFrom]
    cases digitValue c with
    | none => rfl
    | some v => exact ih _

theorem numberFrom_digits (k n acc : Nat) :
    numberFrom acc (digits k n) = some (acc * 10 ^ k + n % 10 ^ k) := by
  induction k generalizing n acc with
  | zero => simp [digits, numberFrom, Nat.mod_one]
  | succ k ih =>
    simp only [digits, numberFrom_append, ih, Option.bind_some, numberFrom, digitValue_digit,
      Option.some.injEq]
    have h1 : n % 10 ^ (k + 1) = 10 * (n / 10 % 10 ^ k) + n % 10 := by
      rw [Nat.pow_succ', Nat.mod_mul]; omega
    rw [h1, Nat.pow_succ']
    ring

theorem number_digits (k n : Nat) (h : n < 10 ^ k) : number (digits k n) = some n := by
  rw [number, numberFrom_digits, Nat.mod_eq_of_lt h, Nat.zero_mul, Nat.zero_add]

/-- A date of the calendar. -/
structure Date.Valid (d : Date) : Prop where
  month : 1 ≤ d.month ∧ d.month ≤ 12
  day : 1 ≤ d.day ∧ d.day ≤ daysInMonth d.year d.month

theorem daysInMonth_pos (y m : Nat) : 28 ≤ daysInMonth y m ∧ daysInMonth y m ≤ 31 := by
  unfold daysInMonth
  split
  · split <;> omega
  · split <;> omega

theorem next_valid (d : Date) (h : d.Valid) : d.next.Valid := by
  unfold Date.next
  split
  · rename_i hd; exact ⟨h.month, by simp; omega⟩
  · split
    · rename_i hm
      refine ⟨by simp; omega, ?_⟩
      have := daysInMonth_pos d.year (d.month + 1)
      simp; omega
    · exact ⟨by simp, by simp [daysInMonth]⟩

theorem dateAfter_valid (n : Nat) : (dateAfter n).Valid := by
  induction n with
  | zero => exact ⟨by simp [dateAfter, base], by simp [dateAfter, base, daysInMonth]⟩
  | succ n ih => exact next_valid _ ih

theorem daysBeforeMonth_succ (y m : Nat) (h : 1 ≤ m) :
    daysBeforeMonth y (m + 1) = daysBeforeMonth y m + daysInMonth y m := by
  unfold daysBeforeMonth
  obtain ⟨k, rfl⟩ : ∃ k, m = k + 1 := ⟨m - 1, by omega⟩
  simp only [Nat.add_sub_cancel]
  rw [List.range'_concat]
  simp [Nat.add_comm]

theorem leap_iff (y : Nat) : leap y = true ↔ y % 4 = 0 ∧ (y % 100 ≠ 0 ∨ y % 400 = 0) := by
  simp [leap]

theorem year_length (y : Nat) :
    daysBeforeYear (y + 1) = daysBeforeYear y + daysBeforeMonth y 12 + 31 := by
  have hm : daysBeforeMonth y 12 = 306 + daysInMonth y 2 := by
    have : daysBeforeMonth y 12 = 31 + (daysInMonth y 2 + 275) := rfl
    omega
  rw [hm]
  unfold daysBeforeYear
  by_cases hl : leap y = true
  · have h2 : daysInMonth y 2 = 29 := by unfold daysInMonth; rw [if_pos rfl, if_pos hl]
    rw [h2]
    obtain ⟨h4, h | h⟩ := (leap_iff y).1 hl
    · omega
    · omega
  · have h2 : daysInMonth y 2 = 28 := by unfold daysInMonth; rw [if_pos rfl, if_neg hl]
    rw [h2]
    rw [leap_iff] at hl
    by_cases h4 : y % 4 = 0
    · have h100 : y % 100 = 0 := by by_contra h; exact hl ⟨h4, .inl h⟩
      have h400 : y % 400 ≠ 0 := fun h => hl ⟨h4, .inr h⟩
      omega
    · omega

theorem dayNumber_next (d : Date) (h : d.Valid) : dayNumber d.next = dayNumber d + 1 := by
  have key : (daysBeforeYear d.next.year + daysBeforeMonth d.next.year d.next.month + d.next.day) =
      (daysBeforeYear d.year + daysBeforeMonth d.year d.month + d.day) + 1 := by
    unfold Date.next
    split
    · simp only; omega
    · rename_i hd
      have hd' : d.day = daysInMonth d.year d.month := le_antisymm h.day.2 (Nat.le_of_not_lt hd)
      split
      · simp only
        rw [daysBeforeMonth_succ _ _ h.month.1]; omega
      · rename_i hm
        have hm' : d.month = 12 := by have := h.month; omega
        simp only
        rw [year_length]
        have h1 : daysBeforeMonth (d.year + 1) 1 = 0 := rfl
        have h31 : daysInMonth d.year 12 = 31 := by simp [daysInMonth]
        rw [h1, hm']
        rw [hm', h31] at hd'
        omega
  unfold dayNumber
  rw [key]; push_cast; ring

theorem dayNumber_dateAfter (n : Nat) : dayNumber (dateAfter n) = n := by
  induction n with
  | zero => decide +kernel
  | succ n ih =>
    rw [dateAfter, dayNumber_next _ (dateAfter_valid n), ih]; push_cast; ring

/-- The reader on any text with the fields at their places. -/
theorem readIso_fields (Y M D H I S : List Char) (hY : Y.length = 4) (hM : M.length = 2)
    (hD : D.length = 2) (hH : H.length = 2) (hI : I.length = 2) (hS : S.length = 2)
    (y m d h mi sec : Nat) (nY : number Y = some y) (nM : number M = some m) (nD : number D = some d)
    (nH : number H = some h) (nI : number I = some mi) (nS : number S = some sec)
    (F : List Char) (frac : Nat) (hF : (F = [] ∧ frac = 0) ∨
      ∃ G, F = '.' :: G ∧ G.length = 6 ∧ number G = some frac) :
    readIso (Y ++ '-' :: M ++ '-' :: D ++ 'T' :: H ++ ':' :: I ++ ':' :: S ++ F ++
      ['+', '0', '0', ':', '0', '0']) =
      some (dayNumber ⟨y, m, d⟩ * 86400000000 + (((h * 60 + mi) * 60 + sec) * 1000000 + frac : Nat)) := by
  match Y, hY with
  | [y1, y2, y3, y4], _ =>
  match M, hM with
  | [m1, m2], _ =>
  match D, hD with
  | [d1, d2], _ =>
  match H, hH with
  | [h1, h2], _ =>
  match I, hI with
  | [i1, i2], _ =>
  match S, hS with
  | [s1, s2], _ =>
  rcases hF with ⟨rfl, rfl⟩ | ⟨G, rfl, hG, nG⟩
  · simp [readIso, nY, nM, nD, nH, nI, nS]
  · match G, hG with
    | [g1, g2, g3, g4, g5, g6], _ =>
    simp [readIso, nY, nM, nD, nH, nI, nS, nG]

theorem roundHalfEven_near (x : ℚ) : |(roundHalfEven x : ℚ) - x| ≤ 1 / 2 := by
  have h0 := Int.floor_le x
  have h1 := Int.lt_floor_add_one x
  rw [abs_le]
  unfold roundHalfEven
  split
  · constructor <;> linarith
  · split
    · push_cast; constructor <;> linarith
    · have : x - ⌊x⌋ = 1 / 2 := by linarith
      split
      · constructor <;> linarith
      · push_cast; constructor <;> linarith

theorem roundHalfEven_mono (x y : ℚ) (h : x ≤ y) : roundHalfEven x ≤ roundHalfEven y := by
  rcases lt_trichotomy (⌊x⌋) (⌊y⌋) with hlt | heq | hgt
  · by_contra hc
    have hc' : roundHalfEven y < roundHalfEven x := not_le.1 hc
    have hx : roundHalfEven x ≤ ⌊x⌋ + 1 := by unfold roundHalfEven; split_ifs <;> omega
    have hy : ⌊y⌋ ≤ roundHalfEven y := by unfold roundHalfEven; split_ifs <;> omega
    omega
  · unfold roundHalfEven
    rw [← heq]
    split_ifs <;> first | omega | (exfalso; linarith)
  · exact absurd (Int.floor_mono h) (not_le.2 hgt)

/-! ## Properties -/

/-- The text of a time in whole microseconds, read again, is that time. -/
theorem iso_reads_back (t : Nat) (hy : (dateAfter (t / microsPerDay)).year ≤ 9999) :
    readIso (isoText (dateAfter (t / microsPerDay)) (t % microsPerDay)) = some (t : Int) := by
  have hv := dateAfter_valid (t / microsPerDay)
  have hn := dayNumber_dateAfter (t / microsPerDay)
  have hdm := Nat.div_add_mod t microsPerDay
  have hlt : t % microsPerDay < microsPerDay := Nat.mod_lt _ (by decide)
  generalize dateAfter (t / microsPerDay) = date at *
  generalize t % microsPerDay = r at *
  have hday := daysInMonth_pos date.year date.month
  have h1 := hv.month
  have h2 := hv.day
  unfold microsPerDay at *
  unfold isoText
  rw [readIso_fields _ _ _ _ _ _ (digits_length _ _) (digits_length _ _) (digits_length _ _)
    (digits_length _ _) (digits_length _ _) (digits_length _ _) date.year date.month date.day
    (r / 3600000000) (r / 60000000 % 60) (r / 1000000 % 60)
    (number_digits _ _ (by omega)) (number_digits _ _ (by omega)) (number_digits _ _ (by omega))
    (number_digits _ _ (by omega)) (number_digits _ _ (by omega)) (number_digits _ _ (by omega))
    _ (r % 1000000)]
  · have : (⟨date.year, date.month, date.day⟩ : Date) = date := rfl
    rw [this, hn]
    congr 1
    have : ((r / 3600000000 * 60 + r / 60000000 % 60) * 60 + r / 1000000 % 60) * 1000000 + r % 1000000
        = r := by omega
    rw [this]
    have hdm' : (86400000000 * (t / 86400000000 : Nat) + r : Int) = t := by exact_mod_cast hdm
    omega
  · by_cases h : r % 1000000 = 0
    · left; simp [h]
    · right
      exact ⟨digits 6 (r % 1000000), by rw [if_neg h], digits_length _ _,
        number_digits _ _ (Nat.mod_lt _ (by decide))⟩

/-- **C95** (the text denotes the time).  For every time not before the base, the text, if there is one,
denotes a time at most half a microsecond away; equal rounded times have equal texts and later times later
ones, so that the texts of two times can be compared. -/
theorem iso_denotes (secs : ℚ) (h0 : 0 ≤ secs) (s : List Char) (h : isoFormat secs = .ok s) :
    ∃ t : Int, readIso s = some t ∧ |(t : ℚ) - secs * 1000000| ≤ 1 / 2 := by
  unfold isoFormat at h
  simp only at h
  split at h
  · rename_i hy
    injection h with h
    refine ⟨((toMicros secs).toNat : Int), by rw [← h, iso_reads_back _ hy], ?_⟩
    have hnn : 0 ≤ toMicros secs := by
      have := roundHalfEven_mono 0 (secs * 1000000) (by linarith)
      have h0 : roundHalfEven 0 = 0 := by simp [roundHalfEven]
      rwa [h0] at this
    rw [Int.toNat_of_nonneg hnn]
    exact roundHalfEven_near _
  · cases h

/-- … and the order of the times is kept. -/
theorem iso_order (a b : ℚ) (_ha : 0 ≤ a) (hab : a ≤ b) (s t : List Char) (hs : isoFormat a = .ok s)
    (ht : isoFormat b = .ok t) : ∃ x y, readIso s = some x ∧ readIso t = some y ∧ x ≤ y := by
  unfold isoFormat at hs ht
  simp only at hs ht
  split at hs
  · split at ht
    · rename_i h1 h2
      injection hs with hs; injection ht with ht
      refine ⟨_, _, by rw [← hs, iso_reads_back _ h1], by rw [← ht, iso_reads_back _ h2], ?_⟩
      have := roundHalfEven_mono (a * 1000000) (b * 1000000) (by linarith)
      unfold toMicros
      omega
    · cases ht
  · cases hs

/-- The day number of the last day of the year 9999. -/
def lastDay : Nat := 2921939

theorem year_bound (n : Nat) (h : n < lastDay + 1) : (dateAfter n).year ≤ 9999 := by
  by_contra hc
  have hv := dateAfter_valid n
  have hn := dayNumber_dateAfter n
  generalize dateAfter n = d at *
  have hmono : daysBeforeYear 10000 ≤ daysBeforeYear d.year := by
    unfold daysBeforeYear; omega
  have h10 : daysBeforeYear 10000 = 3652425 := by decide
  have h20 : daysBeforeYear 2000 = 730485 := by decide
  have := hv.day.1
  unfold dayNumber at hn
  unfold lastDay at h
  rw [h20] at hn
  omega

/-- **C95** (there is a text).  Every time up to the end of the year 9999 has a text. -/
theorem iso_defined (secs : ℚ) (_h0 : 0 ≤ secs) (h : secs < 252455616000 - 1) :
    ∃ s, isoFormat secs = .ok s := by
  unfold isoFormat
  simp only
  rw [if_pos]
  · exact ⟨_, rfl⟩
  · apply year_bound
    have hnear := roundHalfEven_near (secs * 1000000)
    rw [abs_le] at hnear
    have hlt : (toMicros secs : ℚ) < 252455616000000000 := by
      unfold toMicros; linarith [hnear.2]
    have hlt' : toMicros secs < 252455616000000000 := by exact_mod_cast hlt
    unfold lastDay microsPerDay
    omega

/-- Non-vacuity: 28 February 2000, a leap day, with and without a fraction. -/
example : isoFormat (58 * 86400 + 3723 + 1 / 4) = .ok "2000-02-28T01:02:03.250000+00:00".toList := by
  decide +kernel
example : isoFormat (59 * 86400 + 86399) = .ok "2000-02-29T23:59:59+00:00".toList := by decide +kernel
example : readIso "2016-02-29T00:00:01.000001+00:00".toList = some (5903 * 86400000000 + 1000001) := by
  decide +kernel

end Dedop.Globals
