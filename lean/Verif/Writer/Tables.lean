import Verif.Multilook.Props
/-!
# Per-beam tables of the output records (C69)

The output files give several tables with one entry per beam of the stack.  Some are written as gathered, some cut to the
beams between the first and the last unmasked one.
-/
namespace Dedop.Writer
open Multilook

variable {R : Type} [Field R] [LinearOrder R]

/-- `beam_angles_start_stop` (multilooking.py 246-249, 320-321): the beam angles cut to the beams start..stop, then zeros. -/
def beamAnglesStartStop (nLooks : Nat) (out : Out R) (beams : List (Beam R)) : List R :=
  match out.start with
  | some s => ((beams.map (·.beamAngle)).drop s).take out.nStartStop ++ List.replicate (nLooks - out.nStartStop) 0
  | none => List.replicate nLooks 0

/-- The number of useful entries and three of the tables of a record of the extended L1B file (l1b_writer.py 918, 923, 924, 932). -/
structure ExtTables (R : Type) where
  nbStack : Nat
  beamAng : List R
  lookAng : List R
  maskVector : List Nat

/-- `L1BWriterExtended.write_record` (l1b_writer.py 918, 923, 924, 932): the arrays gathered for the whole stack, of length
`n_looks_stack` with zeros after the last beam (stack_gathering.py 81-92), and the cut mask vector. -/
def extTables (avoidZeros : Bool) (samples nLooks : Nat) (beams : List (Beam R)) : ExtTables R :=
  let out := compute avoidZeros samples nLooks beams
  { nbStack := out.nStartStop
    beamAng := beams.map (·.beamAngle) ++ List.replicate (nLooks - beams.length) 0
    lookAng := beams.map (·.look) ++ List.replicate (nLooks - beams.length) 0
    maskVector := out.vectorStartStop }

/-- The number of useful entries and two of the tables of a record of the L1B-S file. -/
structure L1bsTables (R : Type) where
  nbStack : Nat
  beamAng : List R
  echoes : List (List R)

/-- `L1BSWriter.write_record` (l1bs_writer.py 686, 692, 697-698): the beam angles are cut, the echoes are those of the whole
stack.  The powers of the beams stand for their I/Q samples. -/
def l1bsTables (avoidZeros : Bool) (samples nLooks : Nat) (beams : List (Beam R)) : L1bsTables R :=
  let out := compute avoidZeros samples nLooks beams
  { nbStack := beams.length
    beamAng := beamAnglesStartStop nLooks out beams
    echoes := beams.map (·.power) }

/-- Where the entries of the cut tables come from: entry `i` belongs to beam `s + i`, with `s` the first unmasked beam. -/
theorem cut_tables (avoidZeros : Bool) (samples nLooks : Nat) (beams : List (Beam R)) (h : ∃ b ∈ beams, b.vector ≠ 0) :
    ∃ s b, beams[s]? = some b ∧ b.vector ≠ 0 ∧ (∀ j b', beams[j]? = some b' → b'.vector ≠ 0 → s ≤ j) ∧
    ∀ i < (extTables avoidZeros samples nLooks beams).nbStack,
      (extTables avoidZeros samples nLooks beams).maskVector[i]? = beams[s + i]?.map (·.vector) ∧
      (l1bsTables avoidZeros samples nLooks beams).beamAng[i]? = beams[s + i]?.map (·.beamAngle) := by
  obtain ⟨s, t, bs, bt, h1, h2, hbs, hbt, hv1, hv2, hb, hn, _, _, _, hvec⟩ :=
    (start_stop_spec avoidZeros samples nLooks beams).2.2 h
  refine ⟨s, bs, hbs, hv1, fun j b hj hv => (hb j b hj hv).1, fun i hi => ⟨hvec i hi, ?_⟩⟩
  simp only [l1bsTables, beamAnglesStartStop, h1]
  have htl : t < beams.length := (List.getElem?_eq_some_iff.1 hbt).1
  have hst : s ≤ t := (hb t bt hbt hv2).1
  have hi' : i < t - s + 1 := by rw [← hn]; exact hi
  rw [hn, List.getElem?_append_left (by simp; omega), List.getElem?_take, if_pos hi', List.getElem?_drop, List.getElem?_map]

/-- **C69**, the part that holds: when the first beam of the stack is unmasked, entry `i` of every table of both files belongs to
beam `i` of the stack, up to the last unmasked beam. -/
theorem tables_aligned_partial (avoidZeros : Bool) (samples nLooks : Nat) (beams : List (Beam R)) (b0 : Beam R)
    (h0 : beams[0]? = some b0) (hv : b0.vector ≠ 0) :
    let x := extTables avoidZeros samples nLooks beams
    let y := l1bsTables avoidZeros samples nLooks beams
    ∀ i < x.nbStack, ∃ b, beams[i]? = some b ∧ x.beamAng[i]? = some b.beamAngle ∧ x.lookAng[i]? = some b.look ∧
      x.maskVector[i]? = some b.vector ∧ y.beamAng[i]? = some b.beamAngle ∧ y.echoes[i]? = some b.power := by
  intro x y i hi
  have hex : ∃ b ∈ beams, b.vector ≠ 0 := ⟨b0, List.mem_of_getElem? h0, hv⟩
  obtain ⟨s, b, hbs, _, hmin, hcut⟩ := cut_tables avoidZeros samples nLooks beams hex
  have hs : s = 0 := Nat.le_zero.mp (hmin 0 b0 h0 hv)
  subst hs
  obtain ⟨hm, hba⟩ := hcut i hi
  rw [Nat.zero_add] at hm hba
  obtain ⟨s, t, bs, bt, h1, h2, hbs', hbt, hv1, hv2, hb, hn, _, _, _, _⟩ :=
    (start_stop_spec avoidZeros samples nLooks beams).2.2 hex
  have htl : t < beams.length := (List.getElem?_eq_some_iff.1 hbt).1
  have hi' : i < t - s + 1 := by rw [← hn]; exact hi
  have hs0 : s = 0 := Nat.le_zero.mp (hb 0 b0 h0 hv).1
  have hlt : i < beams.length := by omega
  have hg : beams[i]? = some beams[i] := List.getElem?_eq_getElem hlt
  refine ⟨beams[i], hg, ?_, ?_, by rw [hm, hg]; rfl, by rw [hba, hg]; rfl, ?_⟩
  · show (beams.map (·.beamAngle) ++ _)[i]? = _
    rw [List.getElem?_append_left (by simpa using hlt), List.getElem?_map, hg]; rfl
  · show (beams.map (·.look) ++ _)[i]? = _
    rw [List.getElem?_append_left (by simpa using hlt), List.getElem?_map, hg]; rfl
  · show (beams.map (·.power))[i]? = _
    rw [List.getElem?_map, hg]; rfl

/-- Three beams, the first one masked. -/
def maskedFirst : List (Beam ℚ) :=
  [⟨0, [false], [5], -1/100, 0, 0, 158/100, 10⟩, ⟨1, [true], [6], 0, 0, 0, 157/100, 11⟩, ⟨1, [true], [7], 1/100, 0, 0, 156/100, 12⟩]

/-- The same stack with an unmasked first beam. -/
def unmaskedFirst : List (Beam ℚ) :=
  [⟨1, [true], [5], -1/100, 0, 0, 158/100, 10⟩, ⟨0, [false], [6], 0, 0, 0, 157/100, 11⟩, ⟨1, [true], [7], 1/100, 0, 0, 156/100, 12⟩]

example : ∃ b0, unmaskedFirst[0]? = some b0 ∧ b0.vector ≠ 0 ∧ (extTables true 1 5 unmaskedFirst).nbStack = 3 :=
  ⟨_, rfl, by decide, by decide +kernel⟩

/-- **C69 is violated** when the first beam is masked: in the extended L1B file the first mask entry (1) belongs to the second
beam while the first beam angle (1.58) belongs to the first; in the L1B-S file the first beam angle (1.57) belongs to the
second beam while the first echo (5) belongs to the first. -/
theorem tables_aligned_violated :
    (extTables true 1 5 maskedFirst).nbStack = 2 ∧
    (extTables true 1 5 maskedFirst).maskVector[0]? = some 1 ∧
    (extTables true 1 5 maskedFirst).beamAng[0]? = some (158/100) ∧
    (l1bsTables true 1 5 maskedFirst).beamAng[0]? = some (157/100) ∧
    (l1bsTables true 1 5 maskedFirst).echoes[0]? = some [5] := by
  decide +kernel

/-- **C69 is violated** also for the count: of the three useful entries announced in the L1B-S file, the last beam angle is 0. -/
theorem useful_entries_violated :
    (l1bsTables true 1 5 maskedFirst).nbStack = 3 ∧ (l1bsTables true 1 5 maskedFirst).beamAng[2]? = some 0 := by
  decide +kernel

end Dedop.Writer
