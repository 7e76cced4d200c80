import Verif.Whole.Props
import Verif.Process.Timely

/-!
# When a record of a file is taken for the first after a gap (lemmas)
-/
namespace Dedop.Whole

open Real Process

/-- Record `j` is the last record before `id` that can be used. -/
def Precedes (c : Conf) (file : ℕ → Raw) (j id : ℕ) : Prop :=
  j < id ∧ Usable c file j ∧ ∀ i, j < i → i < id → ¬ Usable c file i

/-- Record `id` comes too late after the last record before it that can be used: at least one and a half times the interval between bursts. -/
def AfterGap (c : Conf) (file : ℕ → Raw) (id : ℕ) : Prop :=
  ∃ j, Precedes c file j id ∧ c.bri * 1.5 ≤ (file id).time - (file j).time

/-- What can be used and lies before a record that is used, is used. -/
theorem items_below {c : Conf} (file : ℕ → Raw) (n : ℕ) (d : Reader.Dataset)
    (h : Reader.openDataset c.bounds (positions file n) = .ok d) (i id : ℕ) (hid : id ∈ itemIds (items file n d)) (hi : i < id)
    (hu : Usable c file i) : i ∈ itemIds (items file n d) := by
  classical
  have hp : (positions file n).lats.length = (positions file n).lons.length := by simp [positions]
  have hlen : (positions file n).lats.length = n := by simp [positions]
  have hidn : id < n := ((items_usable file n d h).2 id hid).1
  have hin : i < n := hi.trans hidn
  have hlat : (positions file n).lats[i]? = some (file i).lat := by simp [positions, hin]
  have hlon : (positions file n).lons[i]? = some (file i).lon := by simp [positions, hin]
  have hv : (positions file n).Valid i := by
    rintro ⟨a, b⟩
    rw [hlat] at a
    rw [hlon] at b
    exact hu.1 ⟨Option.some.inj a, Option.some.inj b⟩
  rw [itemIds_items] at hid ⊢
  by_cases hb : Reader.roiEnabled c.bounds = true
  · obtain ⟨h1, h2⟩ := Reader.region_delivers_inside_partial c.bounds (positions file n) hp hb
    have hin' : (positions file n).Inside c.bounds i := ⟨_, _, hlat, hlon, hu.2⟩
    have hbd : ∀ i, (positions file n).Inside c.bounds i → i ≤ n := by
      rintro i ⟨lat, lon, hl, _⟩
      have := (List.getElem?_eq_some_iff.1 hl).1
      omega
    have hl1 := Nat.findGreatest_spec (P := fun i => (positions file n).Inside c.bounds i) (hbd i hin') hin'
    have hl2 : ∀ j, (positions file n).Inside c.bounds j → j ≤ Nat.findGreatest (fun i => (positions file n).Inside c.bounds i) n :=
      fun j hj => Nat.le_findGreatest (hbd j hj) hj
    obtain ⟨d', hd, he⟩ := h2 _ hl1 hl2
    rw [h] at hd
    cases hd
    rw [he, hlen] at hid ⊢
    simp only [List.mem_filter, List.mem_range, decide_eq_true_eq] at hid ⊢
    refine ⟨hin, hin', hv, ?_⟩
    have := hl2 id hid.2.1
    omega
  · rw [Bool.not_eq_true] at hb
    obtain ⟨d', hd, he⟩ := Reader.no_region_delivers_all c.bounds (positions file n) hp hb
    rw [h] at hd
    cases hd
    rw [he, hlen]
    simp only [List.mem_filter, List.mem_range, decide_eq_true_eq]
    exact ⟨hin, hv⟩

theorem items_time (file : ℕ → Raw) (n : ℕ) (d : Reader.Dataset) (p : Pk ℝ) (h : .record p ∈ items file n d) : p.time = (file p.counter).time := by
  unfold items at h
  obtain ⟨x, _, hx⟩ := List.mem_map.1 h
  cases x with
  | none => cases hx
  | some i => cases hx; rfl

/-- Neighbours among the records that are used. -/
theorem precedes_adjacent {c : Conf} (file : ℕ → Raw) (n : ℕ) (d : Reader.Dataset)
    (ho : Reader.openDataset c.bounds (positions file n) = .ok d) (pre suf : List ℕ) (j id : ℕ)
    (hids : itemIds (items file n d) = pre ++ j :: id :: suf) : Precedes c file j id := by
  obtain ⟨h1, h2⟩ := items_usable file n d ho
  have hidm : id ∈ itemIds (items file n d) := by rw [hids]; simp
  refine ⟨?_, (h2 j (by rw [hids]; simp)).2, ?_⟩
  · rw [hids] at h1
    have := (List.pairwise_append.1 h1).2.1
    exact (List.pairwise_cons.1 this).1 id (by simp)
  · intro i hji hi hu
    have hm := items_below file n d ho i id hidm hi hu
    rw [hids] at h1 hm
    rcases List.mem_append.1 hm with hm | hm
    · have := (List.pairwise_append.1 h1).2.2 i hm j (by simp)
      omega
    · have hp := (List.pairwise_append.1 h1).2.1
      rcases List.mem_cons.1 hm with rfl | hm
      · exact lt_irrefl _ hji
      · have hp2 := (List.pairwise_cons.1 hp).2
        rcases List.mem_cons.1 hm with rfl | hm
        · exact lt_irrefl _ hi
        · have := (List.pairwise_cons.1 hp2).1 i hm
          omega

theorem precedes_unique {c : Conf} {file : ℕ → Raw} {i j id : ℕ} (h1 : Precedes c file i id) (h2 : Precedes c file j id) : i = j := by
  rcases lt_trichotomy i j with h | h | h
  · exact absurd h2.2.1 (h1.2.2 j h h2.1)
  · exact h
  · exact absurd h1.2.1 (h2.2.2 i h h1.1)

theorem reads_prefix (env : Env ℝ) (its : List (Item ℝ)) : readOf (Process.process env its).trace <+: itemIds its := by
  have := process_inv env [] (by simp) its
  unfold Process.process
  revert this
  cases processWith env [] [] its with
  | finished s =>
    rintro ⟨s', hi, _, _, rfl⟩
    exact hi.trace.closed.ids.read
  | failed e s =>
    rintro (hi | ⟨hi, _⟩)
    · exact hi.tr.ids.read
    · exact hi.trace.ids.read
  | timeout s => exact False.elim

/-- A record is taken for the first after a gap only if it comes too late after the last record before it that can be used. -/
theorem gap_is_late (c : Conf) (o : World) (alg : Surface.Alg) (file : ℕ → Raw) (n id : ℕ)
    (h : id ∈ gapOf (process c o alg file n).state.ctl.trace) : AfterGap c file id := by
  unfold process at h
  cases ho : Reader.openDataset c.bounds (positions file n) with
  | error e =>
    rw [ho] at h
    exact absurd h (by simp [Outcome.state, start, Process.start, gapOf])
  | ok d =>
    rw [ho] at h
    dsimp only at h
    rw [← same_trace (run_same c o file alg (items file n d))] at h
    obtain ⟨pre, j, suf, e, hl⟩ := (gap_late (runEnv c o file (start alg (items file n d))) (fun k => (file k).time) (items file n d)
      (items_time file n d) _).1 id h
    have hl : ¬ (file id).time - (file j).time < c.bri * 1.5 := hl
    have hpre := reads_prefix (runEnv c o file (start alg (items file n d))) (items file n d)
    have e' : readOf (Process.process (runEnv c o file (start alg (items file n d))) (items file n d)).trace = pre ++ j :: id :: suf := e
    rw [e'] at hpre
    obtain ⟨tl, htl⟩ := hpre
    exact ⟨j, precedes_adjacent file n d ho pre (suf ++ tl) j id (by rw [← htl]; simp), not_lt.1 hl⟩

/-- A record that is used and comes too late after the last record before it that can be used, is taken for the first after a gap. -/
theorem late_is_gap (c : Conf) (o : World) (alg : Surface.Alg) (file : ℕ → Raw) (n id : ℕ)
    (h : id ∈ acceptedOf (process c o alg file n).state.ctl.trace) (hl : AfterGap c file id) :
    id ∈ gapOf (process c o alg file n).state.ctl.trace := by
  unfold process at h ⊢
  cases ho : Reader.openDataset c.bounds (positions file n) with
  | error e =>
    rw [ho] at h
    exact absurd h (by simp [Outcome.state, start, Process.start, acceptedOf])
  | ok d =>
    rw [ho] at h
    dsimp only at h ⊢
    rw [← same_trace (run_same c o file alg (items file n d))] at h ⊢
    have hacc := (gap_late (runEnv c o file (start alg (items file n d))) (fun k => (file k).time) (items file n d)
      (items_time file n d) (3 * (items file n d).length + 2)).2
    have hacc : TimelyT (c.bri * 1.5) (fun k => (file k).time)
      (Process.process (runEnv c o file (start alg (items file n d))) (items file n d)).trace := hacc
    have hpre := reads_prefix (runEnv c o file (start alg (items file n d))) (items file n d)
    revert h hacc hpre
    generalize (Process.process (runEnv c o file (start alg (items file n d))) (items file n d)).trace = t
    intro h hacc hpre
    obtain ⟨ev, hev, hx⟩ := List.mem_filterMap.1 h
    have hev : Event.accepted id ∈ t := by
      cases ev <;> simp at hx
      rw [← hx]; exact hev
    obtain ⟨a, b, rfl⟩ := List.append_of_mem hev
    rw [readOf_append] at hpre
    obtain ⟨tl, htl⟩ := hpre
    obtain ⟨j, hj, hlate⟩ := hl
    rcases hacc a id b rfl with e | e | ⟨pre, i, e, hlt⟩
    · rw [e] at htl
      obtain ⟨h1, h2⟩ := items_usable file n d ho
      have hm := items_below file n d ho j id (by rw [← htl]; simp) hj.1 hj.2.1
      rw [← htl, List.append_assoc] at h1 hm
      have h1 : (id :: (readOf (Event.accepted id :: b) ++ tl)).Pairwise (· < ·) := h1
      have hm : j ∈ id :: (readOf (Event.accepted id :: b) ++ tl) := hm
      have hjid := hj.1
      rcases List.mem_cons.1 hm with rfl | hm
      · exact absurd hjid (lt_irrefl _)
      · have := (List.pairwise_cons.1 h1).1 j hm
        omega
    · rw [gapOf_append]
      exact List.mem_append_left _ e
    · rw [e] at htl
      have hp := precedes_adjacent file n d ho pre (readOf (Event.accepted id :: b) ++ tl) i id (by rw [← htl]; simp)
      rw [precedes_unique hj hp] at hlate
      exact absurd hlt (not_lt.2 hlate)

end Dedop.Whole
