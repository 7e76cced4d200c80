import Verif.Basic.Tactics
import Verif.Monitor.Spec
import Mathlib.Algebra.Order.Floor.Ring
import Mathlib.Data.Rat.Floor

namespace Dedop.Monitor

/-! ## Work accounting -/

/-- `Gain s id g`: monitor `id` is ready and one unit of its work is `g` units of console work. -/
inductive Gain (s : State) : Nat → ℚ → Prop
  | console (w : ℚ) : s.console.worked = some w → s.console.total ≠ some 0 → Gain s 0 1
  | child (i : Nat) (ch : Child) (t g : ℚ) : s.children[i]? = some ch → ch.parent ≤ i →
      ch.total = some t → t ≠ 0 → Gain s ch.parent g → Gain s (i + 1) (g * (ch.partialWork / t))

theorem Ready.gain {s : State} {id : Nat} (h : Ready s id) : ∃ g, Gain s id g := by
  induction h with
  | console w h1 h2 => exact ⟨1, .console w h1 h2⟩
  | child i ch t h1 h2 h3 h4 _ ih =>
    obtain ⟨g, hg⟩ := ih
    exact ⟨_, .child i ch t g h1 h2 h3 h4 hg⟩

theorem Gain.ready {s : State} {id : Nat} {g : ℚ} (h : Gain s id g) : Ready s id := by
  induction h with
  | console w h1 h2 => exact .console w h1 h2
  | child i ch t g h1 h2 h3 h4 _ ih => exact .child i ch t h1 h2 h3 h4 ih

theorem Gain.unique {s : State} {id : Nat} {g g' : ℚ} (h : Gain s id g) (h' : Gain s id g') :
    g = g' := by
  induction h generalizing g' with
  | console w h1 h2 => cases h'; rfl
  | child i ch t g h1 h2 h3 h4 _ ih =>
    cases h' with
    | child _ ch' t' g'' k1 k2 k3 k4 k5 =>
      rw [h1] at k1; cases k1
      rw [h3] at k3; cases k3
      rw [ih k5]

theorem Gain.worked {s : State} {id : Nat} {g : ℚ} (h : Gain s id g) :
    ∃ w, s.console.worked = some w ∧ s.console.total ≠ some 0 := by
  induction h with
  | console w h1 h2 => exact ⟨w, h1, h2⟩
  | child _ _ _ _ _ _ _ _ _ ih => exact ih

theorem Gain.exists {s : State} {id : Nat} {g : ℚ} (h : Gain s id g) : id ≤ s.children.length := by
  cases h with
  | console => simp
  | child i ch t g h1 =>
    have := (List.getElem?_eq_some_iff.1 h1).1
    omega

theorem console_progress {c : Console} {w0 : ℚ} (hw : c.worked = some w0) (ht : c.total ≠ some 0)
    (w : ℚ) (msg : Option String) :
    ∃ c', c.progress (some w) msg = (c', none) ∧ c'.worked = some (w0 + w) ∧
      c'.total = c.total ∧ c'.cancelled = c.cancelled := by
  unfold Console.progress
  simp only [hw]
  cases htot : c.total with
  | none => simp [Console.calcPercentage, Console.finish]
  | some t =>
    have : t ≠ 0 := by rintro rfl; exact ht htot
    simp [Console.calcPercentage, this, Console.finish]

theorem Gain.progress {s : State} {id : Nat} {g : ℚ} (h : Gain s id g) {w0 : ℚ}
    (hw : s.console.worked = some w0) (w : ℚ) (msg : Option String) :
    ∃ c', s.progress id (some w) msg = ({ s with console := c' }, none) ∧
      c'.worked = some (w0 + g * w) ∧ c'.total = s.console.total ∧
      c'.cancelled = s.console.cancelled := by
  induction h generalizing w msg with
  | console w1 h1 h2 =>
    obtain ⟨c', e, h3, h4, h5⟩ := console_progress hw h2 w msg
    exact ⟨c', by simp [State.progress, e], by simpa using h3, h4, h5⟩
  | child i ch t g h1 h2 h3 h4 _ ih =>
    obtain ⟨c', e, k⟩ := ih (ch.partialWork * (w / t)) (msg.map (fun m => ch.label.getD "None" ++ ": " ++ m))
    refine ⟨c', ?_, ?_, k.2⟩
    · rw [State.progress]; simp [h1, h2, h3, h4, e]
    · rw [k.1]; congr 1; ring

/-- Readiness only depends on the console being started and on a prefix of the children. -/
theorem Gain.mono {s s' : State} {id : Nat} {g : ℚ} (h : Gain s id g)
    (hp : s.children <+: s'.children) (hw : ∃ w, s'.console.worked = some w)
    (ht : s'.console.total = s.console.total) : Gain s' id g := by
  induction h with
  | console w h1 h2 => obtain ⟨w', hw'⟩ := hw; exact .console w' hw' (by rw [ht]; exact h2)
  | child i ch t g h1 h2 h3 h4 _ ih =>
    refine .child i ch t g ?_ h2 h3 h4 ih
    obtain ⟨r, hr⟩ := hp
    have hi := (List.getElem?_eq_some_iff.1 h1).1
    rw [← hr, List.getElem?_append_left hi]; exact h1

theorem exec_effect (p : Prog) {s : State} {id : Nat} {g w0 : ℚ} (h : Gain s id g)
    (hs : p.Startable) (hw : s.console.worked = some w0) :
    ∃ s', s.exec id p = (s', none) ∧ s.children <+: s'.children ∧
      s'.console.worked = some (w0 + g * p.effective) ∧
      s'.console.total = s.console.total ∧ s'.console.cancelled = s.console.cancelled := by
  induction p generalizing s id g w0 with
  | nil => exact ⟨s, rfl, List.prefix_refl _, by simp [Prog.effective, hw], rfl, rfl⟩
  | progress w m rest ih =>
    obtain ⟨c', e, k1, k2, k3⟩ := h.progress hw w m
    have hg : Gain { s with console := c' } id g :=
      h.mono (List.prefix_refl _) ⟨_, k1⟩ k2
    obtain ⟨s', e', j1, j2, j3, j4⟩ := ih hg hs k1
    refine ⟨s', ?_, j1, ?_, by rw [j3]; exact k2, by rw [j4]; exact k3⟩
    · simp [State.exec, State.step, e, e']
    · rw [j2]; simp only [Prog.effective]; congr 1; ring
  | sub w label total body rest ihb ihr =>
    obtain ⟨hl, ht0, hb, hr⟩ := hs
    have hex := h.exists
    -- create the child
    set s1 : State := { s with children := s.children ++ [{ parent := id, partialWork := w }] } with hs1
    have e1 : s.step (.child id w) = (s1, none) := by simp [State.step, hex, hs1]
    -- start it
    set s2' : State := { s with children := s.children ++
      [{ parent := id, partialWork := w, total := some total, label := some label }] } with hs2'
    have hg2' : Gain s2' id g := h.mono ⟨_, rfl⟩ ⟨w0, hw⟩ rfl
    obtain ⟨c2, e2, k1, k2, k3⟩ := hg2'.progress hw 0 (some label)
    have estart : s1.step (.start (s.children.length + 1) label (some total)) =
        ({ s2' with console := c2 }, none) := by
      simp only [State.step, hs1, List.getElem?_append_right (Nat.le_refl _), Nat.sub_self,
        List.getElem?_cons_zero, hl, if_false, Option.isSome_some, if_true]
      have hset : (s.children ++ [({ parent := id, partialWork := w } : Child)]).set s.children.length
        ({ parent := id, partialWork := w, total := some total, label := some label } : Child) =
        s.children ++ [({ parent := id, partialWork := w, total := some total, label := some label } : Child)] := by
        simp
      rw [hset]
      exact e2
    set s2 : State := { s2' with console := c2 } with hs2
    have hgid2 : Gain s2 id g := hg2'.mono (List.prefix_refl _) ⟨_, k1⟩ k2
    have hgc : Gain s2 (s.children.length + 1) (g * (w / total)) :=
      .child s.children.length
        { parent := id, partialWork := w, total := some total, label := some label } total g
        (by simp [hs2, hs2']) hex rfl ht0 hgid2
    obtain ⟨s3, e3, j1, j2, j3, j4⟩ := ihb hgc hb k1
    have hgid3 : Gain s3 id g := hgid2.mono j1 ⟨_, j2⟩ j3
    obtain ⟨c4, e4, l1, l2, l3⟩ := hgid3.progress j2 0 (some label)
    have edone : s3.step (.done (s.children.length + 1)) = ({ s3 with console := c4 }, none) := by
      have : s3.children[s.children.length]? =
          some { parent := id, partialWork := w, total := some total, label := some label } := by
        obtain ⟨r, hr'⟩ := j1
        rw [← hr', List.getElem?_append_left (by simp [hs2, hs2'])]
        simp [hs2, hs2']
      simp only [State.step, this, Option.isSome_some, if_true]
      exact e4
    have hgid4 : Gain { s3 with console := c4 } id g :=
      hgid3.mono (List.prefix_refl _) ⟨_, l1⟩ l2
    obtain ⟨s5, e5, m1, m2, m3, m4⟩ := ihr hgid4 hr l1
    refine ⟨s5, ?_, ?_, ?_, ?_, ?_⟩
    · simp only [State.exec, e1, estart, e3, edone, e5]
    · refine List.IsPrefix.trans ?_ m1
      refine List.IsPrefix.trans ?_ j1
      simp [hs2, hs2']
    · rw [m2]; simp only [Prog.effective]; congr 1; ring
    · rw [m3]; simp only; rw [l2, j3]; exact k2
    · rw [m4]; simp only; rw [l3, j4]; exact k3

theorem Prog.Complete.startable {p : Prog} (h : p.Complete) : p.Startable := by
  induction p with
  | nil => trivial
  | progress _ _ _ ih => exact ih h
  | sub _ _ _ _ _ ihb ihr => obtain ⟨a, b, _, d, e⟩ := h; exact ⟨a, b, ihb d, ihr e⟩

theorem Prog.Complete.effective {p : Prog} (h : p.Complete) : p.effective = p.amount := by
  induction p with
  | nil => rfl
  | progress _ _ _ ih => simp only [Prog.effective, Prog.amount]; rw [ih h]
  | sub _ _ _ _ _ ihb ihr =>
    obtain ⟨a, b, c, d, e⟩ := h
    simp only [Prog.effective, Prog.amount]
    rw [ihb d, ihr e, c, div_self b, mul_one]

/-! ## Cancellation -/

theorem progress_cancelled (s : State) (id : Nat) (w : Option ℚ) (m : Option String) :
    (s.progress id w m).1.console.cancelled = s.console.cancelled ∧
    (s.progress id w m).1.children = s.children := by
  fun_induction State.progress s id w m with
  | case1 work msg =>
    rename_i c e heq
    simp only [and_true]
    have hc : c = (s.console.progress work msg).1 := by rw [heq]
    subst hc
    unfold Console.progress
    split
    · rfl
    · split
      · rfl
      · simp only; split <;> rfl
  | case2 => exact ⟨rfl, rfl⟩
  | case3 => assumption
  | case4 => exact ⟨rfl, rfl⟩
  | case5 => exact ⟨rfl, rfl⟩
  | case6 => assumption
  | case7 => exact ⟨rfl, rfl⟩

/-- Parents are older monitors. -/
def WF (s : State) : Prop := ∀ (i : Nat) (ch : Child), s.children[i]? = some ch → ch.parent ≤ i

theorem isCancelled_eq {s : State} (h : WF s) (id : Nat) (hid : s.Exists id) :
    s.isCancelled id = s.console.cancelled := by
  unfold State.Exists at hid
  induction id using Nat.strongRecOn with
  | ind id ih =>
    cases id with
    | zero => simp [State.isCancelled]
    | succ i =>
      rw [State.isCancelled]
      have hi : i < s.children.length := by omega
      have hget : s.children[i]? = some s.children[i] := List.getElem?_eq_getElem hi
      have := h i _ hget
      simp only [hget, this, dite_true]
      exact ih _ (by omega) (by omega)

theorem cancel_eq {s : State} (h : WF s) (id : Nat) (hid : s.Exists id) :
    s.cancel id = { s with console := s.console.cancel } := by
  unfold State.Exists at hid
  induction id using Nat.strongRecOn with
  | ind id ih =>
    cases id with
    | zero => simp [State.cancel]
    | succ i =>
      rw [State.cancel]
      have hi : i < s.children.length := by omega
      have hget : s.children[i]? = some s.children[i] := List.getElem?_eq_getElem hi
      have := h i _ hget
      simp only [hget, this, dite_true]
      exact ih _ (by omega) (by omega)

theorem cancel_children (s : State) (id : Nat) : (s.cancel id).children = s.children := by
  fun_induction State.cancel s id <;> simp_all

theorem cancel_mono (s : State) (id : Nat) (h : s.console.cancelled = true) :
    (s.cancel id).console.cancelled = true := by
  fun_induction State.cancel s id <;> simp_all [Console.cancel]

theorem WF.step {s : State} (h : WF s) (op : Op) : WF (s.step op).1 := by
  intro i ch hget
  cases op with
  | child p w =>
    simp only [State.step] at hget
    split at hget
    · rename_i hp
      simp only at hget
      by_cases hi : i < s.children.length
      · rw [List.getElem?_append_left hi] at hget; exact h i ch hget
      · rw [List.getElem?_append_right (by omega)] at hget
        have hlt := (List.getElem?_eq_some_iff.1 hget).1
        simp at hlt
        have : i = s.children.length := by omega
        subst this
        simp at hget; subst hget; exact hp
    · exact h i ch hget
  | start id label total =>
    cases id with
    | zero =>
      simp only [State.step] at hget
      split at hget <;> exact h i ch hget
    | succ j =>
      simp only [State.step] at hget
      split at hget
      · exact h i ch hget
      · rename_i c hc
        split at hget
        · exact h i ch hget
        · rw [(progress_cancelled _ _ _ _).2] at hget
          simp only at hget
          rw [List.getElem?_set] at hget
          split at hget
          · rename_i hij
            subst hij
            split at hget
            · simp only [Option.some.injEq] at hget; subst hget; exact h j c hc
            · cases hget
          · exact h i ch hget
  | progress id w m =>
    simp only [State.step] at hget
    rw [(progress_cancelled _ _ _ _).2] at hget
    exact h i ch hget
  | done id =>
    cases id with
    | zero => exact h i ch hget
    | succ j =>
      simp only [State.step] at hget
      split at hget
      · exact h i ch hget
      · rw [(progress_cancelled _ _ _ _).2] at hget
        exact h i ch hget
  | cancel id =>
    simp only [State.step, cancel_children] at hget
    exact h i ch hget

theorem step_cancelled_mono (s : State) (op : Op) (h : s.console.cancelled = true) :
    (s.step op).1.console.cancelled = true := by
  cases op with
  | child p w => simp only [State.step]; split <;> exact h
  | start id label total =>
    cases id with
    | zero =>
      simp only [State.step]
      unfold Console.start
      split
      · exact h
      · rename_i c hc
        split at hc
        · cases hc
        · cases hc; exact h
    | succ j =>
      simp only [State.step]
      split
      · exact h
      · split
        · exact h
        · rw [(progress_cancelled _ _ _ _).1]; exact h
  | progress id w m => simp only [State.step]; rw [(progress_cancelled _ _ _ _).1]; exact h
  | done id =>
    cases id with
    | zero => exact h
    | succ j =>
      simp only [State.step]
      split
      · exact h
      · rw [(progress_cancelled _ _ _ _).1]; exact h
  | cancel id => exact cancel_mono s id h

theorem step_children_length (s : State) (op : Op) :
    s.children.length ≤ (s.step op).1.children.length := by
  cases op with
  | child p w => simp only [State.step]; split <;> simp
  | start id label total =>
    cases id with
    | zero => simp only [State.step]; split <;> simp
    | succ j =>
      simp only [State.step]
      split
      · simp
      · split
        · simp
        · rw [(progress_cancelled _ _ _ _).2]; simp
  | progress id w m => simp only [State.step]; rw [(progress_cancelled _ _ _ _).2]
  | done id =>
    cases id with
    | zero => simp [State.step]
    | succ j =>
      simp only [State.step]
      split
      · simp
      · rw [(progress_cancelled _ _ _ _).2]
  | cancel id => simp only [State.step, cancel_children]; omega

theorem WF.run {s : State} (h : WF s) (ops : List Op) : WF (s.run ops) := by
  induction ops generalizing s with
  | nil => exact h
  | cons op ops ih => exact ih (h.step op)

theorem run_cancelled_mono (s : State) (ops : List Op) (h : s.console.cancelled = true) :
    (s.run ops).console.cancelled = true := by
  induction ops generalizing s with
  | nil => exact h
  | cons op ops ih => exact ih _ (step_cancelled_mono s op h)

theorem WF.init : WF {} := by intro i ch h; simp at h

/-! ## Facts that hold also when calls fail -/

theorem progress_keeps (s : State) (id : Nat) (w : Option ℚ) (m : Option String) :
    (s.progress id w m).1.console.total = s.console.total ∧
    (s.console.worked.isSome → (s.progress id w m).1.console.worked.isSome) := by
  fun_induction State.progress s id w m with
  | case1 work msg =>
    rename_i c e heq
    simp only
    have hc : c = (s.console.progress work msg).1 := by rw [heq]
    subst hc
    unfold Console.progress
    split
    · exact ⟨rfl, fun h => h⟩
    · split
      · exact ⟨rfl, fun h => h⟩
      · simp only; split <;> simp [Console.finish]
  | case2 => exact ⟨rfl, fun h => h⟩
  | case3 => assumption
  | case4 => exact ⟨rfl, fun h => h⟩
  | case5 => exact ⟨rfl, fun h => h⟩
  | case6 => assumption
  | case7 => exact ⟨rfl, fun h => h⟩

/-- `s'` can be reached from `s` without touching existing children or restarting the console. -/
def Later (s s' : State) : Prop :=
  s.children <+: s'.children ∧ s'.console.total = s.console.total ∧
    (s.console.worked.isSome → s'.console.worked.isSome)

theorem Later.refl (s : State) : Later s s := ⟨List.prefix_refl _, rfl, fun h => h⟩

theorem Later.trans {a b c : State} (h1 : Later a b) (h2 : Later b c) : Later a c :=
  ⟨h1.1.trans h2.1, h2.2.1.trans h1.2.1, fun h => h2.2.2 (h1.2.2 h)⟩

theorem later_progress (s : State) (id : Nat) (w : Option ℚ) (m : Option String) :
    Later s (s.progress id w m).1 :=
  ⟨by rw [(progress_cancelled s id w m).2], (progress_keeps s id w m).1,
    (progress_keeps s id w m).2⟩

theorem later_done (s : State) (i : Nat) : Later s (s.step (.done (i + 1))).1 := by
  simp only [State.step]
  split
  · exact Later.refl s
  · exact later_progress _ _ _ _

/-- Creating and starting a child. -/
theorem later_child_start (s : State) (id : Nat) (w : ℚ) (label : String) (total : Option ℚ)
    (hex : id ≤ s.children.length) (hl : label ≠ "") :
    ((s.step (.child id w)).1.step (.start (s.children.length + 1) label total)).1.children =
      s.children ++ [{ parent := id, partialWork := w, total := total, label := some label }] ∧
    Later s ((s.step (.child id w)).1.step (.start (s.children.length + 1) label total)).1 := by
  have h1 : (s.step (.child id w)).1 =
      { s with children := s.children ++ [({ parent := id, partialWork := w } : Child)] } := by
    simp [State.step, hex]
  have hset : (s.children ++ [({ parent := id, partialWork := w } : Child)]).set s.children.length
        ({ parent := id, partialWork := w, total := total, label := some label } : Child) =
        s.children ++ [({ parent := id, partialWork := w, total := total, label := some label } : Child)] := by
        simp
  rw [h1]
  simp only [State.step, List.getElem?_append_right (Nat.le_refl _), Nat.sub_self,
        List.getElem?_cons_zero, hl, if_false]
  rw [hset]
  refine ⟨(progress_cancelled _ _ _ _).2, ?_⟩
  exact Later.trans (b := { s with children := s.children ++
    [({ parent := id, partialWork := w, total := total, label := some label } : Child)] })
    ⟨⟨_, rfl⟩, rfl, fun h => h⟩ (later_progress _ _ _ _)

theorem later_start_any (s : State) (id : Nat) (w : ℚ) (label : String) (total : Option ℚ) :
    Later s ((s.step (.child id w)).1.step (.start (s.children.length + 1) label total)).1 := by
  by_cases hex : id ≤ s.children.length
  · by_cases hl : label = ""
    · subst hl
      simp only [State.step, hex, if_true, List.getElem?_append_right (Nat.le_refl _), Nat.sub_self,
        List.getElem?_cons_zero]
      exact ⟨⟨_, rfl⟩, rfl, fun h => h⟩
    · exact (later_child_start s id w label total hex hl).2
  · have h1 : (s.step (.child id w)).1 = s := by simp [State.step, hex]
    rw [h1]
    simp only [State.step]
    rw [List.getElem?_eq_none_iff.2 (Nat.le_refl _)]
    exact Later.refl s

theorem later_exec (p : Prog) (s : State) (id : Nat) : Later s (s.exec id p).1 := by
  induction p generalizing s id with
  | nil => exact Later.refl s
  | progress w m rest ih =>
    have h1 : Later s (s.step (.progress id (some w) m)).1 := later_progress _ _ _ _
    simp only [State.exec]
    split
    · rename_i s' e he; rw [he] at h1; exact h1
    · rename_i s' he; rw [he] at h1; exact h1.trans (ih s' id)
  | sub w label total body rest ihb ihr =>
    simp only [State.exec]
    have h0 : Later s (s.step (.child id w)).1 := by
      simp only [State.step]; split
      · exact ⟨⟨_, rfl⟩, rfl, fun h => h⟩
      · exact Later.refl s
    have h1 := later_start_any s id w label (some total)
    split
    · rename_i s1 e he; rw [he] at h0; exact h0
    · rename_i s1 he
      rw [he] at h1
      simp only at h1
      split
      · rename_i s2 e he2; rw [he2] at h1; exact h1
      · rename_i s2 he2
        rw [he2] at h1
        simp only at h1
        have h2 := ihb s2 (s.children.length + 1)
        split
        · rename_i s3 e he3
          rw [he3] at h2
          exact (h1.trans h2).trans (later_done s3 _)
        · rename_i s3 he3
          rw [he3] at h2
          have h3 := (h1.trans h2).trans (later_done s3 s.children.length)
          split
          · rename_i s4 e he4; rw [he4] at h3; exact h3
          · rename_i s4 he4; rw [he4] at h3; exact h3.trans (ihr s4 id)

theorem console_progress_msg {c : Console} {w0 : ℚ} (hw : c.worked = some w0) (ht : c.total ≠ some 0)
    (w : ℚ) (msg : Option String) : (c.progress (some w) msg).1.msg = msg := by
  unfold Console.progress
  simp only [hw]
  cases htot : c.total with
  | none => simp [Console.calcPercentage, Console.finish]
  | some t =>
    have : t ≠ 0 := by rintro rfl; exact ht htot
    simp [Console.calcPercentage, this, Console.finish]

/-! ## Rounding -/

theorem pyRound_bounds (q : ℚ) : ⌊q⌋ ≤ pyRound q ∧ pyRound q ≤ ⌊q⌋ + 1 := by
  unfold pyRound
  simp only
  split <;> [skip; (split <;> [skip; split])] <;> omega

theorem pyRound_int (n : ℤ) : pyRound (n : ℚ) = n := by
  unfold pyRound
  simp

theorem pyRound_mono {a b : ℚ} (h : a ≤ b) : pyRound a ≤ pyRound b := by
  have hf : ⌊a⌋ ≤ ⌊b⌋ := Int.floor_le_floor h
  rcases lt_or_eq_of_le hf with hlt | heq
  · have := (pyRound_bounds a).2
    have := (pyRound_bounds b).1
    omega
  · unfold pyRound
    simp only
    rw [← heq]
    by_cases h1 : a - (⌊a⌋ : ℚ) < 1/2
    · rw [if_pos h1]
      split <;> [skip; (split <;> [skip; split])] <;> omega
    · have h1b : ¬ b - (⌊a⌋ : ℚ) < 1/2 := by linarith
      rw [if_neg h1, if_neg h1b]
      by_cases h2 : 1/2 < a - (⌊a⌋ : ℚ)
      · have h2b : 1/2 < b - (⌊a⌋ : ℚ) := by linarith
        rw [if_pos h2, if_pos h2b]
      · rw [if_neg h2]
        split
        · split <;> omega
        · omega

end Dedop.Monitor
