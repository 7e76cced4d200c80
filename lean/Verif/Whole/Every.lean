import Verif.Process.Every
import Verif.Whole.Props
import Verif.Whole.Demo

/-!
# C151: a file whose first record has no position

The violation of C151 for whole files: `L1ADataset.__next__` gives `None` for a record at latitude and longitude 0
(`input_dataset.py:18-27`, `l1a_dataset.py:261-262`).
-/
namespace Dedop.Whole

open Real Process

theorem items_zero (c : Conf) (file : ℕ → Raw) (n : ℕ) (hroi : Reader.roiEnabled c.bounds = false)
    (h0 : (file 0).lat = 0 ∧ (file 0).lon = 0) : ∃ d rest,
    Reader.openDataset c.bounds (positions file (n + 1)) = .ok d ∧ items file (n + 1) d = .invalid :: rest := by
  refine ⟨⟨none, 0, n + 1, 0⟩, ?_⟩
  have hl : (positions file (n + 1)).lats.length = n + 1 := by simp [positions]
  have hv : Reader.isValid (positions file (n + 1)) 0 = false := by
    unfold Reader.isValid positions
    simp [List.range_succ_eq_map, h0.1, h0.2]
  have hi : ∃ rest, items file (n + 1) ⟨none, 0, n + 1, 0⟩ = .invalid :: rest := by
    unfold items Reader.iterate
    simp only [Nat.sub_zero]
    rw [List.range'_succ, List.map_cons, List.map_cons, hv]
    simp only [Bool.and_false, Bool.false_eq_true, if_false]
    exact ⟨_, rfl⟩
  obtain ⟨rest, hi⟩ := hi
  refine ⟨rest, ?_, hi⟩
  unfold Reader.openDataset
  rw [if_neg (by rw [hroi]; simp), hl]

/-- **C151 is violated for whole files.**  Without a region of interest, whatever the configuration and whatever
the other records: if the first record of a file has latitude 0 and longitude 0, processing ends normally and both
products are empty. -/
theorem zero_first_record (c : Conf) (o : World) (alg : Surface.Alg) (file : ℕ → Raw) (n : ℕ)
    (hroi : Reader.roiEnabled c.bounds = false) (hfin : o.finishFails = none)
    (h0 : (file 0).lat = 0 ∧ (file 0).lon = 0) :
    ∃ s, process c o alg file (n + 1) = .finished s ∧ s.l1b = [] ∧ s.l1bs = [] := by
  obtain ⟨d, rest, h1, h2⟩ := items_zero c file n hroi h0
  have hrun : process c o alg file (n + 1) = run c o file (3 * (items file (n + 1) d).length + 2) (start alg (items file (n + 1) d)) := by
    unfold process
    rw [h1]
  have hsame := run_same c o file alg (items file (n + 1) d)
  rw [← hrun] at hsame
  have hm : (itemIds (items file (n + 1) d)).Pairwise (· < ·) := (items_usable file (n + 1) d h1).1
  have hw := run_whole (c := c) (o := o) (file := file) (its := items file (n + 1) d) alg (hm.imp (fun h => Nat.ne_of_lt h))
  rw [← hrun] at hw
  obtain ⟨t, q1, _, q2, _⟩ := first_invalid (runEnv c o file (start alg (items file (n + 1) d))) [] rest (fun _ => hfin)
  rw [h2] at hsame
  unfold Process.process at hsame
  rw [h2] at q1
  rw [q1] at hsame
  revert hsame hw
  generalize process c o alg file (n + 1) = w
  intro hw hsame
  cases w with
  | failed e s => obtain ⟨_, h, _⟩ := hsame; cases h
  | nan s => obtain ⟨_, h, _⟩ := hsame; cases h
  | timeout s => cases hsame
  | finished s =>
    cases hsame
    have hp := hw.1
    have hl : s.l1b = [] := by
      have ht := hp.traced.1
      have hz : l1bOf s.ctl.trace = [] := by
        rw [List.eq_nil_iff_forall_not_mem]
        intro x hx
        have : x ∈ doneOf s.ctl.trace := by
          unfold l1bOf at hx
          unfold doneOf
          rw [List.mem_filterMap] at hx ⊢
          obtain ⟨e, he, h⟩ := hx
          refine ⟨e, he, ?_⟩
          cases e <;> simp_all
        rw [q2] at this
        cases this
      rw [hz] at ht
      exact List.map_eq_nil_iff.1 ht
    refine ⟨s, rfl, hl, ?_⟩
    have := hp.second
    rw [hl] at this
    exact List.prefix_nil.1 this

/-- The file of the example with a record without position in front. -/
noncomputable def zeroFile : ℕ → Raw
  | 0 => { demoFile 0 with lat := 0, lon := 0 }
  | i + 1 => demoFile i

example (argsort : List ℝ → List ℕ) : Reader.roiEnabled demoConf.bounds = false ∧ (demoWorld argsort).finishFails = none ∧
    ((zeroFile 0).lat = 0 ∧ (zeroFile 0).lon = 0) ∧ (zeroFile 1) = demoFile 0 :=
  ⟨rfl, rfl, ⟨rfl, rfl⟩, rfl⟩

end Dedop.Whole
