import Verif.Whole.Late
import Verif.Whole.Demo

/-!
# Gaps are found exactly where the times of the file have them (C156)

`Precedes` and `AfterGap` (`Whole/Late`) say which records come too late after the last usable record before them.
-/
namespace Dedop.Whole

open Real Process

/-- **C156.**  The records taken for the first after a gap come too late after the last usable record before them, and every record in
use that does so is taken for the first after a gap. -/
theorem gaps_by_time (c : Conf) (o : World) (alg : Surface.Alg) (file : ℕ → Raw) (n : ℕ) :
    (∀ id ∈ gapOf (process c o alg file n).state.ctl.trace, AfterGap c file id) ∧
    ∀ id ∈ acceptedOf (process c o alg file n).state.ctl.trace,
      (id ∈ gapOf (process c o alg file n).state.ctl.trace ↔ AfterGap c file id) :=
  ⟨fun id h => gap_is_late c o alg file n id h, fun id h => ⟨fun hg => gap_is_late c o alg file n id hg, late_is_gap c o alg file n id h⟩⟩

open Classical in
/-- **C156, calibrations.**  Which records are calibrated twice can be told from the times in the file: those after a gap. -/
theorem calibrations_by_time (c : Conf) (o : World) (alg : Surface.Alg) (file : ℕ → Raw) (n id : ℕ)
    (h : id ∈ acceptedOf (process c o alg file n).state.ctl.trace) :
    (calibratedOf (process c o alg file n).state.ctl.trace).count id = if AfterGap c file id then 2 else 1 := by
  have hg := (gaps_by_time c o alg file n).2 id h
  have hc : (calibratedOf (process c o alg file n).state.ctl.trace).count id =
      (if id ∈ acceptedOf (process c o alg file n).state.ctl.trace then 1 else 0) +
      (if id ∈ gapOf (process c o alg file n).state.ctl.trace then 1 else 0) := by
    obtain ⟨its, _, h2, _, _, _, ⟨e, hs⟩ | hs⟩ := process_products c o alg file n
    · rw [hs]
      simp [Outcome.state, start, Process.start, calibratedOf, acceptedOf, gapOf]
    · rw [← same_trace hs]
      have := calibrated_once_partial (runEnv c o file (start alg its)) [] (by simp) its (h2.imp (fun h => Nat.ne_of_lt h)) id
      exact this
  rw [hc, if_pos h]
  by_cases ha : AfterGap c file id
  · rw [if_pos ha, if_pos (hg.2 ha)]
  · rw [if_neg ha, if_neg (fun q => ha (hg.1 q))]

/-! ## Example -/

/-- Both cases occur in the example: the second record comes 100 s after the first, with 1 s between bursts. -/
example (alg : Surface.Alg) :
    acceptedOf (process demoConf (demoWorld realArg) alg demoFile 2).state.ctl.trace = [0, 1] ∧ ¬ AfterGap demoConf demoFile 0 ∧
      AfterGap demoConf demoFile 1 := by
  obtain ⟨s, rec, e, _, _, _, _, _, _, h⟩ := demo_run_full realArg realArg_isArgsort alg
  rw [e]
  refine ⟨h, ?_, 0, ⟨by norm_num, ?_, fun i h1 h2 => by omega⟩, by norm_num [demoConf, demoFile]⟩
  · rintro ⟨j, ⟨hj, _⟩, _⟩
    omega
  · refine ⟨by norm_num [demoFile], ?_⟩
    refine ⟨?_, ?_, ?_, ?_⟩ <;> intro m hm <;> simp [demoConf] at hm

end Dedop.Whole
