import Verif.Beams.Model
import Mathlib.Data.List.TakeWhile

/-! # Beam angles, trend and stack bookkeeping (C26, C27, C28) -/
namespace Dedop.Beams

variable {R : Type} [Field R] [LinearOrder R]
variable {S B : Type}

/-! ## Specification -/

/-- A surface is visible if its beam angle, relative to the Doppler angle, is within the limits. -/
def Visible (v : View R) (angle : S → R) (s : S) : Prop :=
  v.qMin ≤ angle s - v.doppler ∧ angle s - v.doppler ≤ v.qMax

/-- `run` is the first contiguous run of visible surfaces in the queue. -/
def FirstRun (P : S → Prop) (queue run : List S) : Prop :=
  ∃ pre post, queue = pre ++ run ++ post ∧ (∀ s ∈ pre, ¬ P s) ∧ (∀ s ∈ run, P s) ∧
    (run = [] → post = []) ∧ ∀ s ∈ post.head?, ¬ P s

/-- The last `n` elements. -/
def lastN (n : Nat) (l : List S) : List S := l.drop (l.length - n)

/-! ## C26 -/

theorem lastN_snoc (n : Nat) (l : List S) (a : S) :
    lastN n (l ++ [a]) =
      if (lastN n l ++ [a]).length > n then (lastN n l ++ [a]).tail else lastN n l ++ [a] := by
  unfold lastN
  simp only [List.length_append, List.length_cons, List.length_nil, List.length_drop]
  by_cases h : l.length + 1 ≤ n
  · rw [if_neg (by omega)]
    have h1 : l.length - n = 0 := by omega
    have h2 : l.length + (0 + 1) - n = 0 := by omega
    rw [h1, h2]; rfl
  · rw [if_pos (by omega)]
    have h2 : l.length + (0 + 1) - n = (l.length - n) + 1 := by omega
    rw [h2, ← List.drop_append_of_le_length (by omega : l.length - n ≤ l.length), List.tail_drop]

theorem lastN_map {T : Type} (n : Nat) (f : S → T) (l : List S) :
    lastN n (l.map f) = (lastN n l).map f := by
  simp [lastN, List.map_drop]

theorem anglesLoop_run (n : Nat) (v : View R) (angle : S → R) (counter : S → Nat)
    (isWork : S → Bool) (run : List S) (hrun : ∀ s ∈ run, Visible v angle s) (post : List S)
    (hpost : ∀ s ∈ post.head?, ¬ Visible v angle s) (done : List S) (w : Bool) :
    anglesLoop n v angle counter isWork true
      ⟨w, (lastN n done).map angle, (lastN n done).map counter⟩ (run ++ post) =
      ⟨w || run.any isWork, (lastN n (done ++ run)).map angle,
        (lastN n (done ++ run)).map counter⟩ := by
  induction run generalizing done w with
  | nil =>
    cases post with
    | nil => simp [anglesLoop]
    | cons s post =>
      have : ¬ Visible v angle s := hpost s (by simp)
      simp [anglesLoop, locationSeen, show ¬ (v.qMin ≤ angle s - v.doppler ∧ angle s - v.doppler ≤ v.qMax) from this]
  | cons s run ih =>
    have hs : Visible v angle s := hrun s (by simp)
    have hrun' : ∀ t ∈ run, Visible v angle t := fun t ht => hrun t (by simp [ht])
    have step := ih hrun' (done ++ [s]) (if isWork s then true else w)
    rw [List.cons_append, anglesLoop]
    simp only [locationSeen, show (v.qMin ≤ angle s - v.doppler ∧ angle s - v.doppler ≤ v.qMax) from hs,
      decide_true, if_true]
    have e1 : (if decide (((lastN n done).map angle ++ [angle s]).length > n) = true then
        ((lastN n done).map angle ++ [angle s]).tail else (lastN n done).map angle ++ [angle s]) =
        (lastN n (done ++ [s])).map angle := by
      rw [← lastN_map, ← lastN_map, List.map_append, List.map_singleton, lastN_snoc]
      simp
    have e2 : (if decide (((lastN n done).map angle ++ [angle s]).length > n) = true then
        ((lastN n done).map counter ++ [counter s]).tail
        else (lastN n done).map counter ++ [counter s]) =
        (lastN n (done ++ [s])).map counter := by
      rw [← lastN_map (f := counter), ← lastN_map (f := counter), List.map_append,
        List.map_singleton, lastN_snoc]
      simp [lastN]
    rw [e1, e2, step, List.append_assoc, List.singleton_append]
    congr 1
    rw [List.any_cons]
    cases h : isWork s <;> cases w <;> simp

/-- **C26.**  Let `run` be the first contiguous run of visible surfaces in the queue.  The burst's list
holds the counters of the last `n` of them (`n` the number of pulses), in order, paired with their
angles; the working location is reported as seen exactly if it is in the run. -/
theorem seen_is_run (n : Nat) (v : View R) (angle : S → R) (counter : S → Nat) (isWork : S → Bool)
    (queue run : List S) (h : FirstRun (Visible v angle) queue run) :
    let out := beamAngles n v angle counter isWork queue
    out.counters = (lastN n run).map counter ∧ out.angles = (lastN n run).map angle ∧
      (out.workSeen = true ↔ ∃ s ∈ run, isWork s = true) := by
  obtain ⟨pre, post, rfl, hpre, hrun, hemp, hpost⟩ := h
  have main : beamAngles n v angle counter isWork (pre ++ run ++ post) =
      ⟨run.any isWork, (lastN n run).map angle, (lastN n run).map counter⟩ := by
    unfold beamAngles
    rw [List.append_assoc]
    induction pre with
    | nil =>
      cases run with
      | nil => simp [hemp rfl, anglesLoop, lastN]
      | cons s run =>
        have := anglesLoop_run n v angle counter isWork (s :: run) hrun post hpost [] false
        rw [show lastN n ([] : List S) = [] by simp [lastN]] at this
        simp only [List.map_nil, Bool.false_or, List.nil_append] at this ⊢
        rw [← this]
        have hs : (v.qMin ≤ angle s - v.doppler ∧ angle s - v.doppler ≤ v.qMax) := hrun s (by simp)
        simp only [List.cons_append, anglesLoop, locationSeen, hs, and_self, decide_true, if_true]
    | cons s pre ih =>
      have hs : ¬ (v.qMin ≤ angle s - v.doppler ∧ angle s - v.doppler ≤ v.qMax) :=
        hpre s (by simp)
      rw [List.cons_append, anglesLoop]
      simp only [locationSeen, hs, decide_false, Bool.false_eq_true, if_false]
      exact ih (fun t ht => hpre t (by simp [ht]))
  simp only [main]
  simp

/-- Every queue has such a run, so the theorem always applies; there is only one. -/
theorem firstRun_exists (P : S → Prop) (queue : List S) : ∃ run, FirstRun P queue run := by
  classical
  refine ⟨(queue.dropWhile (fun s => decide (¬ P s))).takeWhile (fun s => decide (P s)),
    queue.takeWhile (fun s => decide (¬ P s)),
    (queue.dropWhile (fun s => decide (¬ P s))).dropWhile (fun s => decide (P s)), ?_, ?_, ?_, ?_, ?_⟩
  · rw [List.append_assoc, List.takeWhile_append_dropWhile, List.takeWhile_append_dropWhile]
  · intro s hs; simpa using List.mem_takeWhile_imp hs
  · intro s hs; simpa using List.mem_takeWhile_imp hs
  · intro h
    rcases hq : queue.dropWhile (fun s => decide (¬ P s)) with _ | ⟨a, l⟩
    · simp
    · exfalso
      rw [hq] at h
      have ha : P a := by
        have := List.head_dropWhile_not (l := queue) (fun s => decide (¬ P s)) (by rw [hq]; simp)
        simp only [hq, List.head_cons] at this
        simpa using this
      simp [ha] at h
  · intro s hs
    rw [Option.mem_def] at hs
    set l := queue.dropWhile (fun s => decide (¬ P s))
    have hne : l.dropWhile (fun s => decide (P s)) ≠ [] := by
      intro h; rw [h] at hs; simp at hs
    have := List.head_dropWhile_not (l := l) (fun s => decide (P s)) hne
    rw [List.head?_eq_some_head hne] at hs
    cases hs
    simpa using this

/-- The list is never longer than the number of pulses. -/
theorem seen_at_most_pulses (n : Nat) (v : View R) (angle : S → R) (counter : S → Nat)
    (isWork : S → Bool) (queue : List S) :
    let out := beamAngles n v angle counter isWork queue
    out.counters.length = out.angles.length ∧ out.angles.length ≤ n := by
  obtain ⟨run, h⟩ := firstRun_exists (Visible v angle) queue
  obtain ⟨h1, h2, _⟩ := seen_is_run n v angle counter isWork queue run h
  simp only [h1, h2, List.length_map, lastN, List.length_drop, true_and]
  omega

/-- Surfaces 3..6 visible, three pulses: 4, 5, 6 are kept although the working location 3 is seen. -/
example : beamAngles 3 ⟨(1 : ℚ), 4, 0⟩ (fun s : Nat => s - 2) id (· == 3) [1, 2, 3, 4, 5, 6, 7, 8] =
    ⟨true, [2, 3, 4], [4, 5, 6]⟩ := by decide +kernel

/-! ## C27 -/

/-- **C27.**  For every sequence of list sizes, the trend of burst `k` is 0 exactly if its list is
full; otherwise it is +1 for the first burst or if the list has grown, −1 if it has shrunk, and the
(non-zero) trend of the burst before if the sizes are equal. -/
theorem trend_spec (n : Nat) (sizes : List Nat) (k size : Nat) (hk : sizes[k]? = some size) :
    ∃ t, (trends n (-1) (-1) sizes)[k]? = some t ∧ (t = 0 ↔ size = n) ∧
      (size ≠ n → (t = 1 ∨ t = -1) ∧ (k = 0 → t = 1) ∧
        ∀ j prev tp, k = j + 1 → sizes[j]? = some prev →
          (trends n (-1) (-1) sizes)[j]? = some tp →
            (prev < size → t = 1) ∧ (size < prev → t = -1) ∧
            (prev = size → t = tp ∧ tp ≠ 0)) := by
  have gen : ∀ (sizes : List Nat) (ps pt : Int) (k size : Nat),
      (ps = -1 ∨ 0 ≤ ps) → (ps ≠ n → ps ≠ -1 → pt = 1 ∨ pt = -1) →
      sizes[k]? = some size →
      ∃ t, (trends n ps pt sizes)[k]? = some t ∧ (t = 0 ↔ size = n) ∧
      (size ≠ n → (t = 1 ∨ t = -1) ∧
        (k = 0 → (ps = -1 → t = 1) ∧ (ps ≠ -1 → (ps < size → t = 1) ∧ ((size : Int) < ps → t = -1) ∧
          (ps = size → t = pt))) ∧
        ∀ j prev tp, k = j + 1 → sizes[j]? = some prev →
          (trends n ps pt sizes)[j]? = some tp →
            (prev < size → t = 1) ∧ (size < prev → t = -1) ∧
            (prev = size → t = tp ∧ tp ≠ 0)) := by
    intro sizes
    induction sizes with
    | nil => intro ps pt k size _ _ hk; simp at hk
    | cons s rest ih =>
      intro ps pt k size hps hpt hk
      have htr : (trend n ps pt s = 0 ↔ s = n) ∧
          (s ≠ n → trend n ps pt s = 1 ∨ trend n ps pt s = -1) := by
        unfold trend
        by_cases h1 : s = n
        · simp [h1]
        · have h1' : (s : Int) ≠ n := by exact_mod_cast h1
          simp only [h1, if_false]
          split_ifs with h2 h3
          · simp
          · simp
          · push Not at h2
            have hs : (s : Int) = ps := le_antisymm h2.2 (by omega)
            have := hpt (by omega) h2.1
            rcases this with h | h <;> simp [h]
      cases k with
      | zero =>
        simp at hk; subst hk
        refine ⟨trend n ps pt s, by simp [trends], htr.1, fun hn => ⟨htr.2 hn, ?_, ?_⟩⟩
        · intro _
          unfold trend
          rw [if_neg hn]
          constructor
          · intro h; simp [h]
          · intro h
            refine ⟨fun hl => by simp [hl], fun hl => ?_, fun he => ?_⟩
            · rw [if_neg (by push Not; exact ⟨h, by omega⟩), if_pos hl]
            · rw [if_neg (by push Not; exact ⟨h, by omega⟩), if_neg (by omega)]
        · intro j prev tp h; omega
      | succ k =>
        simp only [List.getElem?_cons_succ] at hk
        obtain ⟨t, ht, h0, hrest⟩ := ih s (trend n ps pt s) k size (Or.inr (by omega))
          (by intro h _; exact htr.2 (by exact_mod_cast h)) hk
        refine ⟨t, by simpa [trends] using ht, h0, fun hn => ?_⟩
        obtain ⟨hpm, hz, hstep⟩ := hrest hn
        refine ⟨hpm, by simp, ?_⟩
        intro j prev tp hj hprev htp
        have hj' : j = k := by omega
        subst hj'
        cases j with
        | zero =>
          simp at hprev
          simp [trends] at htp
          subst hprev; subst htp
          obtain ⟨_, hz2⟩ := hz rfl
          obtain ⟨a, b, c⟩ := hz2 (by omega)
          refine ⟨fun h => a (by exact_mod_cast h), fun h => b (by exact_mod_cast h), fun h => ⟨c (by exact_mod_cast h), ?_⟩⟩
          rw [Ne, htr.1]; omega
        | succ j =>
          apply hstep j prev tp rfl
          · simpa using hprev
          · simpa [trends] using htp
  obtain ⟨t, h1, h2, h3⟩ := gen sizes (-1) (-1) k size (Or.inl rfl) (by simp) hk
  refine ⟨t, h1, h2, fun hn => ?_⟩
  obtain ⟨a, b, c⟩ := h3 hn
  exact ⟨a, fun h => (b h).1 rfl, c⟩

example : trends 4 (-1) (-1) [1, 1, 3, 4, 4, 2, 2, 3] = [1, 1, 1, 0, 0, -1, -1, 1] := by decide +kernel

/-! ## C28 -/

/-- What must have happened to a surface: if its counter is at position `k` of the seen list, the burst
has been appended once, with position `k` and the absolute index; otherwise nothing. -/
def Updated (n : Nat) (tr : Int) (size : Nat) (packet : B) (seen : List Nat) (s s' : Surf B) : Prop :=
  (∀ k, seen[k]? = some s.counter →
    s' = ⟨s.counter, s.indices ++ [k], s.indicesAbs ++ [absIndex n tr size k], s.bursts ++ [packet]⟩) ∧
  (s.counter ∉ seen → s' = s)

theorem inner_append (upd : Surf B → Surf B) (c : Nat) (l1 : List (Surf B)) (s : Surf B)
    (l2 : List (Surf B)) (h1 : ∀ t ∈ l1, t.counter ≠ c) (hs : s.counter = c) :
    inner upd c (l1 ++ s :: l2) = (l1 ++ upd s :: l2, l1.length + 1) := by
  induction l1 with
  | nil => simp [inner, hs]
  | cons t l1 ih =>
    rw [List.cons_append, inner, if_neg (h1 t (by simp)), ih (fun u hu => h1 u (by simp [hu]))]
    simp

theorem outer_spec (n : Nat) (tr : Int) (size : Nat) (packet : B) (seen : List Nat) :
    ∀ (k : Nat) (front back : List (Surf B)), seen.Sublist (back.map (·.counter)) →
      (back.map (·.counter)).Nodup →
      ∃ back', outer n tr size packet k front.length seen (front ++ back) = front ++ back' ∧
        List.Forall₂ (fun s s' =>
          (∀ j, seen[j]? = some s.counter → s' = addStack n tr size (k + j) packet s) ∧
          (s.counter ∉ seen → s' = s)) back back' := by
  induction seen with
  | nil =>
    intro k front back _ _
    refine ⟨back, rfl, ?_⟩
    rw [List.forall₂_same]
    intro s _
    simp
  | cons c seen ih =>
    intro k front back hsub hnd
    obtain ⟨r1, r2, hr, hc, hsub'⟩ := List.cons_sublist_iff.1 hsub
    obtain ⟨b1, b2, rfl, hb1, hb2⟩ := List.map_eq_append_iff.1 hr
    -- the surface with counter c is in b1; split there
    rw [← hb1] at hc
    obtain ⟨s, hs, hsc⟩ := List.mem_map.1 hc
    obtain ⟨p, q, rfl⟩ := List.append_of_mem hs
    have hnd' : (p.map (·.counter) ++ s.counter :: (q ++ b2).map (·.counter)).Nodup := by
      simpa using hnd
    have hpc : ∀ t ∈ p, t.counter ≠ c := by
      intro t ht h
      rw [List.nodup_append] at hnd'
      exact hnd'.2.2 t.counter (List.mem_map_of_mem ht) s.counter (by simp) (h.trans hsc.symm)
    have hqnd : ((q ++ b2).map (·.counter)).Nodup := by
      rw [List.nodup_append] at hnd'
      exact (List.nodup_cons.1 hnd'.2.1).2
    have hsq : s.counter ∉ (q ++ b2).map (·.counter) := by
      rw [List.nodup_append] at hnd'
      exact (List.nodup_cons.1 hnd'.2.1).1
    have hsub2 : seen.Sublist ((q ++ b2).map (·.counter)) := by
      rw [List.map_append, hb2]
      exact hsub'.trans (List.sublist_append_right _ _)
    have hout : outer n tr size packet k front.length (c :: seen)
        (front ++ (p ++ s :: q ++ b2)) =
        outer n tr size packet (k + 1) (front ++ p ++ [addStack n tr size k packet s]).length seen
          ((front ++ p ++ [addStack n tr size k packet s]) ++ (q ++ b2)) := by
      rw [outer]
      simp only [List.drop_left, List.take_left]
      rw [List.append_assoc p, List.cons_append,
        inner_append (addStack n tr size k packet) c p s (q ++ b2) hpc hsc]
      simp
    obtain ⟨back', h1, h2⟩ := ih (k + 1) (front ++ p ++ [addStack n tr size k packet s]) (q ++ b2) hsub2 hqnd
    refine ⟨p ++ addStack n tr size k packet s :: back', ?_, ?_⟩
    · rw [hout, h1]; simp
    · have hmem : ∀ x ∈ seen, x ∈ (q ++ b2).map (·.counter) := fun x hx => hsub2.subset hx
      have hp2 : List.Forall₂ (fun s s' =>
          (∀ j, (c :: seen)[j]? = some s.counter → s' = addStack n tr size (k + j) packet s) ∧
          (s.counter ∉ c :: seen → s' = s)) p p := by
        rw [List.forall₂_same]
        intro t ht
        refine ⟨?_, fun _ => rfl⟩
        intro j hj
        exfalso
        have htm : t.counter ∈ c :: seen := List.mem_of_getElem? hj
        rcases List.mem_cons.1 htm with h | h
        · exact hpc t ht h
        · rw [List.nodup_append] at hnd'
          exact hnd'.2.2 t.counter (List.mem_map_of_mem ht) t.counter
            (List.mem_cons_of_mem _ (hmem _ h)) rfl
      have hs2 : (∀ j, (c :: seen)[j]? = some s.counter →
            addStack n tr size k packet s = addStack n tr size (k + j) packet s) ∧
          (s.counter ∉ c :: seen → addStack n tr size k packet s = s) := by
        refine ⟨?_, fun h => absurd (by simp [hsc]) h⟩
        intro j hj
        cases j with
        | zero => rfl
        | succ j =>
          simp only [List.getElem?_cons_succ] at hj
          exact absurd (hmem _ (List.mem_of_getElem? hj)) hsq
      have hq2 : List.Forall₂ (fun s s' =>
          (∀ j, (c :: seen)[j]? = some s.counter → s' = addStack n tr size (k + j) packet s) ∧
          (s.counter ∉ c :: seen → s' = s)) (q ++ b2) back' := by
        have hm : ∀ t ∈ q ++ b2, t.counter ≠ c := by
          intro t ht h
          exact hsq (by rw [hsc, ← h]; exact List.mem_map_of_mem ht)
        clear h1 hout hsub2 hqnd hsq hmem hp2 hs2 hnd' hnd hr hsub
        generalize q ++ b2 = l at h2 hm
        induction h2 with
        | nil => exact .nil
        | cons hab _ ihf =>
          refine .cons ⟨?_, ?_⟩ (ihf (fun t ht => hm t (by simp [ht])))
          · intro j hj
            cases j with
            | zero =>
              simp at hj
              exact absurd hj.symm (hm _ (by simp))
            | succ j =>
              simp only [List.getElem?_cons_succ] at hj
              rw [hab.1 j hj]
              congr 1
              omega
          · intro h
            exact hab.2 (fun h' => h (by simp [h']))
      rw [List.append_assoc, List.cons_append]
      exact List.rel_append hp2 (.cons hs2 hq2)

/-- **C28.**  Processing a burst, for every queue with distinct counters: each surface in the burst's
list has the burst appended once together with its position in the list and the absolute index;
every other surface is unchanged. -/
theorem burst_recorded_once (n : Nat) (v : View R) (angle : Surf B → R) (isWork : Surf B → Bool)
    (packet : B) (ps pt : Int) (queue : List (Surf B)) (hnd : (queue.map (·.counter)).Nodup) :
    let r := processBurst n v angle isWork packet ps pt queue
    List.Forall₂ (Updated n r.2.1 r.1.angles.length packet r.1.counters) queue r.2.2 := by
  obtain ⟨run, h⟩ := firstRun_exists (Visible v angle) queue
  obtain ⟨h1, h2, _⟩ := seen_is_run n v angle (·.counter) isWork queue run h
  obtain ⟨pre, post, hq, _⟩ := h
  have hsub : (beamAngles n v angle (·.counter) isWork queue).counters.Sublist
      (queue.map (·.counter)) := by
    rw [h1]
    apply List.Sublist.map
    rw [hq]
    exact ((List.drop_sublist _ _).trans (List.sublist_append_right pre run)).trans
      (List.sublist_append_left _ post)
  intro r
  obtain ⟨back', e, hb⟩ := outer_spec n r.2.1 r.1.angles.length packet r.1.counters 0 [] queue hsub hnd
  have : r.2.2 = back' := by simpa [r, processBurst] using e
  rw [this]
  refine hb.imp ?_
  intro s s' hss
  refine ⟨fun k hk => ?_, hss.2⟩
  rw [hss.1 k hk]
  simp [addStack]

/-- The absolute indices appended lie in `[-N/2, N - N/2)`. -/
theorem absIndex_range (n : Nat) (v : View R) (angle : Surf B → R) (isWork : Surf B → Bool)
    (packet : B) (ps pt : Int) (queue : List (Surf B)) (k : Nat) :
    let r := processBurst n v angle isWork packet ps pt queue
    k < r.1.counters.length →
      -((n / 2 : Nat) : Int) ≤ absIndex n r.2.1 r.1.angles.length k ∧
      absIndex n r.2.1 r.1.angles.length k < (n : Int) - ((n / 2 : Nat) : Int) := by
  intro r hk
  obtain ⟨h1, h2⟩ := seen_at_most_pulses n v angle (·.counter) isWork queue
  change r.1.counters.length = r.1.angles.length at h1
  change r.1.angles.length ≤ n at h2
  unfold absIndex
  split_ifs <;> omega

/-- Stack and index lists stay the same length. -/
theorem stack_lengths_agree (n : Nat) (v : View R) (angle : Surf B → R) (isWork : Surf B → Bool)
    (packet : B) (ps pt : Int) (queue : List (Surf B)) (hnd : (queue.map (·.counter)).Nodup)
    (hlen : ∀ s ∈ queue, s.indices.length = s.bursts.length ∧ s.indicesAbs.length = s.bursts.length) :
    ∀ s ∈ (processBurst n v angle isWork packet ps pt queue).2.2,
      s.indices.length = s.bursts.length ∧ s.indicesAbs.length = s.bursts.length := by
  have h := burst_recorded_once n v angle isWork packet ps pt queue hnd
  simp only at h
  intro s' hs'
  obtain ⟨hl, hg⟩ := List.forall₂_iff_get.1 h
  obtain ⟨i, hi, rfl⟩ := List.getElem_of_mem hs'
  have hu := hg i (by omega) hi
  have hs : queue.get ⟨i, by omega⟩ ∈ queue := List.get_mem _ _
  revert hu hs
  generalize queue.get ⟨i, by omega⟩ = s
  intro hu hs
  simp only [List.get_eq_getElem] at hu
  obtain ⟨a, b⟩ := hlen s hs
  by_cases hm : s.counter ∈ (processBurst n v angle isWork packet ps pt queue).1.counters
  · obtain ⟨k, hk⟩ := List.getElem?_of_mem hm
    rw [hu.1 k hk]
    simp [a, b]
  · rw [hu.2 hm]; exact ⟨a, b⟩

/-- Three surfaces, the last two seen. -/
example : (processBurst 4 ⟨(1 : ℚ), 4, 0⟩ (fun s => (s.counter : ℚ) - 6) (fun s => s.counter == 8)
      'p' (-1) (-1) [⟨6, [], [], []⟩, ⟨7, [0], [-2], ['o']⟩, ⟨8, [], [], []⟩]).2 =
    (1, [⟨6, [], [], []⟩, ⟨7, [0, 0], [-2, 0], ['o', 'p']⟩, ⟨8, [1], [1], ['p']⟩]) := by
  decide +kernel

end Dedop.Beams
