import Verif.Whole.Records

/-!
# Iterations of the whole processor (lemmas)
-/
namespace Dedop.Whole

open Real Process

variable {c : Conf} {o : World} {file : ℕ → Raw} {s0 : State} {its : List (Item ℝ)}

/-- What is known of the variables of the loop inside an iteration. -/
structure Mid (its : List (Item ℝ)) (s : State) : Prop where
  ids : Ids (itemIds its) s.ctl
  seg : Seg s.ctl
  inv : Inv s

theorem Mid.held {s : State} (h : Mid its s) : ∀ w ∈ s.ctl.surfaces, ∀ id ∈ stackIds w,
    id ∈ beamsOf s.ctl.trace ∧ id ∈ acceptedOf s.ctl.trace ∧ id ∈ readOf s.ctl.trace ∧ id ∈ itemIds its := by
  intro w hw id hid
  obtain ⟨a, t, h1, h2⟩ := h.seg.held w hw
  have h3 : id ∈ beamsOf s.ctl.trace := by
    rw [h1, beamsOf_append]
    refine List.mem_append_right _ ?_
    have := h2.subset hid
    simpa [beamsOf] using this
  have h4 : id ∈ acceptedOf s.ctl.trace := ((List.sublist_append_left _ _).trans h.ids.beams).subset h3
  have h5 : id ∈ readOf s.ctl.trace := by rw [h.ids.pend]; exact List.mem_append_left _ h4
  exact ⟨h3, h4, h5, by rw [← h.ids.all]; exact List.mem_append_left _ h5⟩

theorem Mid.known {s : State} (hnd : (itemIds its).Nodup) (h : Mid its s) : Known (itemIds its) s := by
  intro w hw
  constructor
  · obtain ⟨a, t, h1, h2⟩ := h.seg.held w hw
    have h3 : (stackIds w).Sublist (beamsOf s.ctl.trace) := by
      rw [h1, beamsOf_append]
      refine h2.trans ((?_ : (beamsOf t).Sublist _).trans (List.sublist_append_right _ _))
      simp [beamsOf]
    have h4 : (acceptedOf s.ctl.trace).Sublist (readOf s.ctl.trace) := by
      rw [h.ids.pend]; exact List.sublist_append_left _ _
    have h5 : (readOf s.ctl.trace).Sublist (itemIds its) := by
      rw [← h.ids.all]; exact List.sublist_append_left _ _
    exact h3.trans (((List.sublist_append_left _ _).trans h.ids.beams).trans (h4.trans h5))
  intro id hid
  obtain ⟨_, h2, h3, h4⟩ := h.held w hw id hid
  have hread : (readOf s.ctl.trace).Nodup := by
    have := h.ids.all
    rw [← this, List.nodup_append] at hnd
    exact hnd.1
  have hacc : (acceptedOf s.ctl.trace).Nodup := by
    have := h.ids.pend
    rw [this, List.nodup_append] at hread
    exact hread.1
  have hgap : (gapOf s.ctl.trace).Nodup := h.ids.gap.nodup hread
  refine ⟨h3, ?_, ?_⟩
  · rw [h.ids.cal, List.Nodup.count hacc, if_pos h2]; omega
  · rw [h.ids.cal, List.Nodup.count hacc, List.Nodup.count hgap]
    split <;> split <;> omega

theorem Mid.apart {s : State} (hnd : (itemIds its).Nodup) (h : Mid its s) : (waiting s.ctl.packets).Nodup ∧
    ∀ w ∈ s.ctl.surfaces, ∀ id ∈ stackIds w, id ∉ waiting s.ctl.packets := by
  have hread : (readOf s.ctl.trace).Nodup := by
    have := h.ids.all
    rw [← this, List.nodup_append] at hnd
    exact hnd.1
  have hacc : (acceptedOf s.ctl.trace).Nodup := by
    have := h.ids.pend
    rw [this, List.nodup_append] at hread
    exact hread.1
  have := h.ids.beams.nodup hacc
  rw [List.nodup_append] at this
  refine ⟨this.2.1, ?_⟩
  intro w hw id hid hm
  exact this.2.2 id (h.held w hw id hid).1 id hm rfl

theorem Good.mid {s : State} (h : Good c o file s0 its s) : Mid its s := ⟨h.loop.ids, h.loop.seg, h.inv⟩

theorem Good.begin {s : State} (h : Good c o file s0 its s) : Mid its (beginIteration o s) := by
  obtain ⟨f1, f2, f3, f4, f5, f6, f7, f8⟩ := begin_facts o s
  exact ⟨ids_begin (env := runEnv c o file s0) h.loop.ids, seg_begin (env := runEnv c o file s0) h.loop.seg, h.inv.of f1 f5 f6⟩

theorem Good.input {s s1 : State} {b : Bool} (h : Good c o file s0 its s) (hr : s.ctl.running = true)
    (hs : inputPhase c file (beginIteration o s) = .ok (b, s1)) :
    Mid its s1 ∧ afterInput c o file (stateAt c o file s0 (s1.ctl.k - 1)) = s1 ∧ s1.ctl.k = s.ctl.k + 1 := by
  obtain ⟨f1, f2, f3, f4, f5, f6, f7, f8⟩ := begin_facts o s
  have hk : (beginIteration o s).ctl.k - 1 = s.ctl.k := by rw [f4]; rfl
  obtain ⟨q1, q2⟩ := input_sim c o file (stateAt c o file s0) (beginIteration o s)
    (by rw [f5, f7]; exact fun hg => ((h.loop.ctl hr).resume hg).1) (h.inv.of f1 f5 f6)
    (by rw [hk, h.at_k, f2]) (by rw [hk, h.at_k, f1])
  rw [hs] at q1
  change Process.inputPhase (runEnv c o file s0) (beginIteration o s).ctl = .ok (b, s1.ctl) at q1
  have hrel := inputPhase_rel (runEnv c o file s0) (beginIteration o s).ctl
  rw [q1] at hrel
  have hc := ctl_begin (runEnv c o file s0) s.ctl (h.loop.ctl hr)
  obtain ⟨k1, k2⟩ := q2 b s1 hs
  have hk1 : s1.ctl.k = s.ctl.k + 1 := k1.trans f4
  refine ⟨⟨ids_input hc h.begin.ids hrel, seg_input (ord_begin h.loop.ord) h.begin.seg hrel, k2⟩, ?_, hk1⟩
  rw [hk1]
  change afterInput c o file (stateAt c o file s0 s.ctl.k) = s1
  rw [h.at_k]
  unfold afterInput
  rw [hs]

theorem mid_loop {s1 s2 : State} (h : Mid its s1) (hS : afterInput c o file (stateAt c o file s0 (s1.ctl.k - 1)) = s1)
    (hs : packetLoop c file [] s1.ctl.packets s1.begun = .ok s2) : Mid its s2 := by
  obtain ⟨q1, q2⟩ := loop_sim c o file (stateAt c o file s0) s1.ctl.packets [] s1.begun (h.inv.of rfl rfl rfl) (by
        change (afterInput c o file (stateAt c o file s0 (s1.ctl.k - 1))).surfs = s1.surfs
        rw [hS])
  rw [hs] at q1
  change Process.packetLoop (runEnv c o file s0) [] s1.ctl.packets s1.ctl.begun = .ok s2.ctl at q1
  have hrel := packetLoop_spec (runEnv c o file s0) s1.ctl.packets [] s1.ctl.begun rfl
  rw [q1] at hrel
  obtain ⟨new, n, hl, hp⟩ := hrel
  exact ⟨ids_loop h.ids hl (by simpa using hp), seg_loop h.seg hl, (q2 s2 hs).1.inv⟩

theorem Made.begin {s : State} (h : Made c file s) : Made c file (beginIteration o s) := by
  unfold beginIteration
  dsimp only
  cases o.cancelled s.ctl.k
  · refine h.of (fun w hw => Or.inl hw) rfl rfl rfl ?_ ?_
    · simp [St.log, readOf]
    · simp [St.log, calibratedOf]
  · refine h.of (fun w hw => Or.inl hw) rfl rfl rfl ?_ ?_
    · simp [St.log, readOf]
    · simp [St.log, calibratedOf]

theorem Traced.begin {s : State} (h : Traced s) : Traced (beginIteration o s) := by
  obtain ⟨h1, h2⟩ := h
  unfold beginIteration
  dsimp only
  cases o.cancelled s.ctl.k
  · constructor
    · simpa [l1bOf, St.log] using h1
    · simpa [l1bsOf, St.log] using h2
  · constructor
    · simpa [l1bOf, St.log] using h1
    · simpa [l1bsOf, St.log] using h2

theorem begin_writes (s : State) : (beginIteration o s).l1b = s.l1b ∧ (beginIteration o s).l1bs = s.l1bs := ⟨rfl, rfl⟩

theorem Adds.of {ids : List ℕ} {s t s' : State} (h : Adds c o file ids t s') (h1 : t.l1b = s.l1b) (h2 : t.l1bs = s.l1bs) :
    Adds c o file ids s s' := by
  cases h with
  | none a b => exact .none (a.trans h1) (b.trans h2)
  | first s2 rec a b d => exact .first s2 rec a (by rw [b, h1]) (by rw [d, h2])
  | both s2 rec a b d => exact .both s2 rec a (by rw [b, h1]) (by rw [d, h2])

theorem end_ends (s : State) :
    match endPhase s with
    | .ok s' => s'.l1b = s.l1b ∧ s'.l1bs = s.l1bs ∧ (Traced s → Traced s') ∧ (Made c file s → Made c file s')
    | .error x => x.state.l1b = s.l1b ∧ x.state.l1bs = s.l1bs ∧ (Traced s → Traced x.state) := by
  unfold endPhase
  have key : ∀ (t : St ℝ) (new : List Event), t.trace = s.ctl.trace ++ new → l1bOf new = [] → l1bsOf new = [] → (Traced s →
      s.l1b.map Record.counter = l1bOf t.trace ∧ s.l1bs.map Record.counter = l1bsOf t.trace) := by
    intro t new h0 h3 h4 h
    rw [h0, l1bOf_append, l1bsOf_append', h3, h4, List.append_nil, List.append_nil]
    exact h
  cases ht : Process.endPhase s.ctl with
  | error x =>
    unfold Process.endPhase at ht
    split at ht
    · split at ht
      · dsimp only at ht
        split at ht
        · cases ht
        · cases ht; exact ⟨rfl, rfl, id⟩
      · cases ht
    · cases ht
  | ok t =>
    unfold Process.endPhase at ht
    split at ht
    · split at ht
      · dsimp only at ht
        split at ht
        · cases ht
          refine ⟨rfl, rfl, key _ [.gapDone] rfl rfl rfl, fun h => h.of (fun w hw => Or.inl hw) rfl rfl rfl ?_ ?_⟩
          · simp [St.log, readOf]
          · simp [St.log, calibratedOf]
        · cases ht
      · cases ht
        exact ⟨rfl, rfl, id, fun h => h.of (fun w hw => Or.inl hw) rfl rfl rfl rfl rfl⟩
    · cases ht
      exact ⟨rfl, rfl, id, id⟩

theorem surface_ends {s1 : State} (hnd : (itemIds its).Nodup) (h : Mid its s1)
    (hS : afterInput c o file (stateAt c o file s0 (s1.ctl.k - 1)) = s1) (hm : Made c file s1) :
    match surfacePhase c o file s1 with
    | .ok s' => Ends c o file (itemIds its) s1 s' ∧ Made c file s' ∧ (o.skipL1bs = false → s1.l1bs = s1.l1b → s'.l1bs = s'.l1b) ∧
        (o.skipL1bs = true → s'.l1bs = s1.l1bs)
    | .error x => Ends c o file (itemIds its) s1 x.state ∧ (o.skipL1bs = true → x.state.l1bs = s1.l1bs) := by
  unfold surfacePhase
  by_cases hc : s1.ctl.surfaceProcessing = true ∨ minSurfs ≤ s1.ctl.surfaces.length ∨ s1.ctl.gapProcessing = true
  · rw [if_pos hc]
    cases hw : s1.ctl.surfaces with
    | nil => exact ⟨⟨.none rfl rfl, id⟩, fun _ => rfl⟩
    | cons w rest =>
      dsimp only
      obtain ⟨n1, n2⟩ := h.apart hnd
      have q0 := loop_writes c file s1.ctl.packets [] s1.begun
      have q1 := fun s2 => loop_made c o file (stateAt c o file s0) s1.ctl.packets [] s1.begun s2 (h.inv.of rfl rfl rfl) (by
        change (afterInput c o file (stateAt c o file s0 (s1.ctl.k - 1))).surfs = s1.surfs
        rw [hS]) n1 n2 (hm.of (fun w hw => Or.inl hw) rfl rfl rfl rfl rfl)
      have q2 := fun s2 => mid_loop (s2 := s2) h hS
      revert q0 q1 q2
      cases packetLoop c file [] s1.ctl.packets s1.begun with
      | error x =>
        rintro ⟨r1, r2, r3⟩ _ _
        exact ⟨⟨.none r1 r2, r3⟩, fun _ => r2⟩
      | ok s2 =>
        rintro ⟨r1, r2, r3⟩ q1 q2
        have r1 : s2.l1b = s1.l1b := r1
        have r2 : s2.l1bs = s1.l1bs := r2
        have hm2 := (q1 s2 rfl).1
        have h2 := q2 s2 rfl
        have q3 := finish_ends c o file (itemIds its) s2 hm2 h2.inv (h2.known hnd)
        dsimp only
        revert q3
        cases finishSurface c o file s2 with
        | error x =>
          rintro ⟨⟨a1, a2⟩, a3⟩
          exact ⟨⟨a1.of r1 r2, fun ht => a2 (r3 ht)⟩, fun hs => (a3 hs).trans r2⟩
        | ok s' =>
          rintro ⟨⟨a1, a2⟩, a3, a4, a5⟩
          exact ⟨⟨a1.of r1 r2, fun ht => a2 (r3 ht)⟩, a3, fun hs he => a4 hs (by rw [r1, r2, he]), fun hs => (a5 hs).trans r2⟩
  · rw [if_neg hc]
    exact ⟨⟨.none rfl rfl, id⟩, hm, fun _ h => h, fun _ => rfl⟩

/-- What an iteration does to bursts, stacks and products. -/
theorem step_ends {s : State} (hnd : (itemIds its).Nodup) (h : Good c o file s0 its s) (hr : s.ctl.running = true) (hm : Made c file s) :
    match step c o file s with
    | .ok s' => Ends c o file (itemIds its) s s' ∧ Made c file s' ∧ (o.skipL1bs = false → s.l1bs = s.l1b → s'.l1bs = s'.l1b) ∧
        (o.skipL1bs = true → s'.l1bs = s.l1bs)
    | .error x => Ends c o file (itemIds its) s x.state ∧ (o.skipL1bs = true → x.state.l1bs = s.l1bs) := by
  unfold step
  have q1 := input_writes c file (beginIteration o s)
  have q2 := fun b s1 => h.input (b := b) (s1 := s1) hr
  have q3 := fun b s1 => input_made c file (itemIds its) hnd (beginIteration o s) s1 b h.begin.ids
    (fun w hw id hid => (h.begin.held w hw id hid).2.2.1) hm.begin
  revert q1 q2 q3
  cases inputPhase c file (beginIteration o s) with
  | error x =>
    rintro ⟨r1, r2, r3⟩ _ _
    exact ⟨⟨.none r1 r2, fun ht => r3 ht.begin⟩, fun _ => r2⟩
  | ok x =>
    obtain ⟨b, s1⟩ := x
    rintro ⟨r1, r2, r3⟩ q2 q3
    have r1 : s1.l1b = s.l1b := r1
    have r2 : s1.l1bs = s.l1bs := r2
    obtain ⟨m1, m2, _⟩ := q2 b s1 rfl
    have hm1 := q3 b s1 rfl
    cases b with
    | true =>
      exact ⟨⟨.none r1 r2, fun ht => r3 ht.begin⟩, hm1, fun _ he => r2.trans (he.trans r1.symm), fun _ => r2⟩
    | false =>
      dsimp only
      have q4 := surface_ends hnd m1 m2 hm1
      revert q4
      cases surfacePhase c o file s1 with
      | error x =>
        rintro ⟨⟨a1, a2⟩, a3⟩
        exact ⟨⟨a1.of r1 r2, fun ht => a2 (r3 ht.begin)⟩, fun hs => (a3 hs).trans r2⟩
      | ok s2 =>
        rintro ⟨⟨a1, a2⟩, a3, a4, a5⟩
        dsimp only
        have q5 := end_ends (c := c) (file := file) s2
        have fin : ∀ s3 : State, s3.l1b = s2.l1b → s3.l1bs = s2.l1bs → Adds c o file (itemIds its) s s3 := by
          intro s3 e1 e2
          have := a1.of r1 r2
          cases this with
          | none x y => exact .none (e1.trans x) (e2.trans y)
          | first s2 rec x y z => exact .first s2 rec x (e1.trans y) (e2.trans z)
          | both s2 rec x y z => exact .both s2 rec x (e1.trans y) (e2.trans z)
        revert q5
        cases endPhase s2 with
        | error x =>
          rintro ⟨b1, b2, b3⟩
          exact ⟨⟨fin _ b1 b2, fun ht => b3 (a2 (r3 ht.begin))⟩, fun hs => b2.trans ((a5 hs).trans r2)⟩
        | ok s3 =>
          rintro ⟨b1, b2, b3, b4⟩
          exact ⟨⟨fin _ b1 b2, fun ht => b3 (a2 (r3 ht.begin))⟩, b4 a3,
            fun hs he => by rw [b1, b2]; exact a4 hs (r2.trans (he.trans r1.symm)), fun hs => b2.trans ((a5 hs).trans r2)⟩

/-! ## Runs -/

/-- What is known of the products at any time. -/
structure Products (c : Conf) (o : World) (file : ℕ → Raw) (ids : List ℕ) (s : State) : Prop where
  traced : Traced s
  origin : ∀ rec, rec ∈ s.l1b ∨ rec ∈ s.l1bs → ∃ s2, Origin c o file ids s2 rec
  second : s.l1bs <+: s.l1b
  skipped : o.skipL1bs = true → s.l1bs = []

/-- What holds at the start of an iteration. -/
structure Whole (c : Conf) (o : World) (file : ℕ → Raw) (ids : List ℕ) (s : State) : Prop where
  made : Made c file s
  prod : Products c o file ids s
  same : o.skipL1bs = false → s.l1bs = s.l1b

theorem Products.ends {ids : List ℕ} {s s' : State} (h : Products c o file ids s) (hs : o.skipL1bs = false → s.l1bs = s.l1b)
    (he : Ends c o file ids s s') (hk : o.skipL1bs = true → s'.l1bs = s.l1bs) : Products c o file ids s' := by
  obtain ⟨p1, p2, p3, p4⟩ := h
  obtain ⟨ha, ht⟩ := he
  refine ⟨ht p1, ?_, ?_, fun h => by rw [hk h, p4 h]⟩
  · intro rec hrec
    cases ha with
    | none x y => rw [x, y] at hrec; exact p2 rec hrec
    | first s2 r x y z =>
      rw [y, z] at hrec
      rcases hrec with hrec | hrec
      · rcases List.mem_append.1 hrec with hrec | hrec
        · exact p2 rec (Or.inl hrec)
        · rw [List.mem_singleton] at hrec; subst hrec; exact ⟨s2, x⟩
      · exact p2 rec (Or.inr hrec)
    | both s2 r x y z =>
      rw [y, z] at hrec
      rcases hrec with hrec | hrec
      · rcases List.mem_append.1 hrec with hrec | hrec
        · exact p2 rec (Or.inl hrec)
        · rw [List.mem_singleton] at hrec; subst hrec; exact ⟨s2, x⟩
      · rcases List.mem_append.1 hrec with hrec | hrec
        · exact p2 rec (Or.inr hrec)
        · rw [List.mem_singleton] at hrec; subst hrec; exact ⟨s2, x⟩
  · cases ha with
    | none x y => rw [x, y]; exact p3
    | first s2 r x y z => rw [y, z]; exact p3.trans (List.prefix_append _ _)
    | both s2 r x y z =>
      cases hsk : o.skipL1bs with
      | false => rw [y, z, hs hsk]
      | true =>
        have := hk hsk
        rw [z] at this
        simp at this

theorem run_whole (alg : Surface.Alg) (hnd : (itemIds its).Nodup) :
    match run c o file (3 * its.length + 2) (start alg its) with
    | .finished s' => Products c o file (itemIds its) s' ∧ (o.skipL1bs = false → s'.l1bs = s'.l1b)
    | .failed _ s' => Products c o file (itemIds its) s'
    | .nan s' => Products c o file (itemIds its) s'
    | .timeout s' => Products c o file (itemIds its) s' := by
  have h := (run_good c o file (start alg its) its (Whole c o file (itemIds its)) (fun x => Products c o file (itemIds its) x.state)
    ?_ ?_ (3 * its.length + 2) (start alg its) (good_start c o file alg its) ?_).2
  · revert h
    cases run c o file (3 * its.length + 2) (start alg its) with
    | finished s' =>
      rintro ⟨s1, _, hw, rfl⟩
      obtain ⟨⟨t1, t2⟩, p2, p3, p4⟩ := hw.prod
      refine ⟨⟨⟨?_, ?_⟩, p2, p3, p4⟩, hw.same⟩
      · simpa [l1bOf, St.log] using t1
      · simpa [l1bsOf, St.log] using t2
    | failed e s' =>
      rintro (h | ⟨_, h⟩)
      · exact h
      · exact h.prod
    | nan s' => exact id
    | timeout s' => exact fun h => h.2.prod
  · intro s s' hg hw hr hs
    have q := step_ends hnd hg hr hw.made
    rw [hs] at q
    obtain ⟨q1, q2, q3, q4⟩ := q
    exact ⟨q2, hw.prod.ends hw.same q1 q4, fun hsk => q3 hsk (hw.same hsk)⟩
  · intro s x hg hw hr hs
    have q := step_ends hnd hg hr hw.made
    rw [hs] at q
    exact hw.prod.ends hw.same q.1 q.2
  · refine ⟨⟨?_, Or.inl rfl, ?_⟩, ⟨⟨rfl, rfl⟩, ?_, ?_, fun _ => rfl⟩, fun _ => rfl⟩
    · intro w hw; simp [start, Process.start] at hw
    · intro id hid; simp [start, Process.start, readOf] at hid
    · intro rec hrec; simp [start] at hrec
    · exact List.prefix_refl _

end Dedop.Whole
