import Verif.Workspace.Race
import Verif.Workspace.FrameLemmas

namespace Dedop.Workspace
open Dedop.Names

/-- A tree whose root is there. -/
def Good (fs : FS) : Prop := IsTree (view fs) ∧ view fs [] = some .dir

/-- The same entries in a region. -/
def Agree (R : Path → Prop) (fs fs' : FS) : Prop := ∀ r, R r → view fs r = view fs' r

/-- Everything in the given workspaces. -/
def Within (ws : List Name) (r : Path) : Prop := ∃ w ∈ ws, [w] <+: r

/-- A change that depends on a region and changes nothing else. -/
structure Fine (R : Path → Prop) (f : FS → Res Unit) : Prop where
  good : ∀ fs, Good fs → Good (f fs).2
  only : ∀ fs, Good fs → Only fs (f fs).2 R
  agree : ∀ fs fs', Good fs → Good fs' → Agree R fs fs' → (f fs).1 = (f fs').1 ∧ Agree R (f fs).2 (f fs').2

/-- A call whose looks and changes are confined to a region. -/
inductive Confined (R : Path → Prop) : Prog → Prop
  | done (r : Except PyErr Unit) : Confined R (.done r)
  | look {k : FS → Prog} : (∀ fs fs', Good fs → Good fs' → Agree R fs fs' → k fs = k fs') → (∀ fs, Good fs → Confined R (k fs)) →
      Confined R (.look k)
  | change {f : FS → Res Unit} {k : Prog} : Fine R f → Confined R k → Confined R (.change f k)

theorem run_confined {R : Path → Prop} {p : Prog} (h : Confined R p) : ∀ {fs : FS}, Good fs →
    Good (p.run fs).2 ∧ Only fs (p.run fs).2 R ∧
    ∀ fs', Good fs' → Agree R fs fs' → (p.run fs).1 = (p.run fs').1 ∧ Agree R (p.run fs).2 (p.run fs').2 := by
  induction h with
  | done r => intro fs hg; exact ⟨hg, Only.rfl', fun fs' _ ha => ⟨rfl, ha⟩⟩
  | @look k hk _ ih =>
    intro fs hg
    obtain ⟨h1, h2, h3⟩ := ih fs hg hg
    refine ⟨h1, h2, fun fs' hg' ha => ?_⟩
    simp only [Prog.run, ← hk fs fs' hg hg' ha]
    exact h3 fs' hg' ha
  | @change f k hf _ ih =>
    intro fs hg
    have h1 := hf.good fs hg
    have h2 := hf.only fs hg
    have h3 := hf.agree fs
    simp only [Prog.run]
    rcases hr : f fs with ⟨res, fs1⟩
    rw [hr] at h1 h2
    cases res with
    | error e =>
      refine ⟨h1, h2, fun fs' hg' ha => ?_⟩
      have := h3 fs' hg hg' ha
      rw [hr] at this
      rcases hr' : f fs' with ⟨res', fs1'⟩
      rw [hr'] at this
      obtain ⟨rfl, hag⟩ := this
      exact ⟨rfl, hag⟩
    | ok u =>
      obtain ⟨g1, g2, g3⟩ := ih h1
      refine ⟨g1, h2.trans g2, fun fs' hg' ha => ?_⟩
      have := h3 fs' hg hg' ha
      rw [hr] at this
      have hgood := hf.good fs' hg'
      rcases hr' : f fs' with ⟨res', fs1'⟩
      rw [hr'] at this hgood
      obtain ⟨rfl, hag⟩ := this
      exact g3 fs1' hgood hag

theorem step_run {p p' : Prog} {fs fs1 : FS} (h : p.step fs = some (p', fs1)) : p.run fs = p'.run fs1 := by
  cases p with
  | done r => cases h
  | look k => simp only [Prog.step, Option.some.injEq, Prod.mk.injEq] at h; obtain ⟨rfl, rfl⟩ := h; rfl
  | change f k =>
    simp only [Prog.step] at h
    simp only [Prog.run]
    rcases hr : f fs with ⟨res, fs2⟩
    rw [hr] at h
    cases res <;> simp only [Option.some.injEq, Prod.mk.injEq] at h <;> obtain ⟨rfl, rfl⟩ := h <;> rfl

theorem step_confined {R : Path → Prop} {p p' : Prog} {fs fs1 : FS} (hc : Confined R p) (hg : Good fs)
    (h : p.step fs = some (p', fs1)) : Confined R p' ∧ Good fs1 ∧ Only fs fs1 R := by
  cases hc with
  | done r => cases h
  | @look k _ hk =>
    simp only [Prog.step, Option.some.injEq, Prod.mk.injEq] at h
    obtain ⟨rfl, rfl⟩ := h
    exact ⟨hk fs hg, hg, Only.rfl'⟩
  | @change f k hf hk =>
    simp only [Prog.step] at h
    have h1 := hf.good fs hg
    have h2 := hf.only fs hg
    rcases hr : f fs with ⟨res, fs2⟩
    rw [hr] at h h1 h2
    cases res <;> simp only [Option.some.injEq, Prod.mk.injEq] at h <;> obtain ⟨rfl, rfl⟩ := h
    · exact ⟨.done _, h1, h2⟩
    · exact ⟨hk, h1, h2⟩

/-- Two calls in separate regions: each has the result and the effect which it has alone. -/
theorem both_apart {R Q : Path → Prop} (hd : ∀ r, R r → ¬ Q r) {p q : Prog} {fs fs2 : FS} {r s : Except PyErr Unit}
    (h : Both p q fs r s fs2) : Confined R p → Confined Q q → Good fs →
    r = (p.run fs).1 ∧ s = (q.run fs).1 ∧ Agree R fs2 (p.run fs).2 ∧ Agree Q fs2 (q.run fs).2 ∧
      ∀ x, ¬ R x → ¬ Q x → view fs2 x = view fs x := by
  induction h with
  | ended r s fs => intro _ _ _; exact ⟨rfl, rfl, fun _ _ => rfl, fun _ _ => rfl, fun _ _ _ => rfl⟩
  | @left p q p' fs fs1 fs2 r s hs _ ih =>
    intro hp hq hg
    obtain ⟨hp', hg1, ho⟩ := step_confined hp hg hs
    obtain ⟨i1, i2, i3, i4, i5⟩ := ih hp' hq hg1
    have hag : Agree Q fs fs1 := fun x hx => (ho x fun hr => hd x hr hx).symm
    obtain ⟨e1, e2⟩ := (run_confined hq hg).2.2 fs1 hg1 hag
    rw [← step_run hs] at i1 i3
    exact ⟨i1, i2.trans e1.symm, i3, fun x hx => (i4 x hx).trans (e2 x hx).symm, fun x h1 h2 => (i5 x h1 h2).trans (ho x h1)⟩
  | @right p q q' fs fs1 fs2 r s hs _ ih =>
    intro hp hq hg
    obtain ⟨hq', hg1, ho⟩ := step_confined hq hg hs
    obtain ⟨i1, i2, i3, i4, i5⟩ := ih hp hq' hg1
    have hag : Agree R fs fs1 := fun x hx => (ho x fun hr => hd x hx hr).symm
    obtain ⟨e1, e2⟩ := (run_confined hp hg).2.2 fs1 hg1 hag
    rw [← step_run hs] at i2 i4
    exact ⟨i1.trans e1.symm, i2, fun x hx => (i3 x hx).trans (e2 x hx).symm, i4, fun x h1 h2 => (i5 x h1 h2).trans (ho x h2)⟩

/-- One call after the other is one of the orders of steps. -/
theorem both_of_right {r : Except PyErr Unit} (q : Prog) : ∀ fs, Both (.done r) q fs r (q.run fs).1 (q.run fs).2 := by
  induction q with
  | done s => intro fs; exact .ended _ _ _
  | look k ih => intro fs; exact .right rfl (ih fs fs)
  | change f k ih =>
    intro fs
    simp only [Prog.run]
    rcases hr : f fs with ⟨res, fs1⟩
    cases res with
    | error e => exact .right (by simp only [Prog.step, hr]) (.ended _ _ _)
    | ok u => exact .right (by simp only [Prog.step, hr]) (ih fs1)

theorem both_serial (p q : Prog) : ∀ fs, Both p q fs (p.run fs).1 (q.run (p.run fs).2).1 (q.run (p.run fs).2).2 := by
  induction p with
  | done r => intro fs; exact both_of_right q fs
  | look k ih => intro fs; exact .left rfl (ih fs fs)
  | change f k ih =>
    intro fs
    simp only [Prog.run]
    rcases hr : f fs with ⟨res, fs1⟩
    cases res with
    | error e => exact .left (by simp only [Prog.step, hr]) (both_of_right q fs1)
    | ok u => exact .left (by simp only [Prog.step, hr]) (ih fs1)

theorem both_symm {p q : Prog} {fs fs2 : FS} {r s : Except PyErr Unit} (h : Both p q fs r s fs2) : Both q p fs s r fs2 := by
  induction h with
  | ended r s fs => exact .ended _ _ _
  | left hs _ ih => exact .right hs ih
  | right hs _ ih => exact .left hs ih

/-! ## The changes -/

theorem within_of_prefix {ws : List Name} {w : Name} (hw : w ∈ ws) {p r : Path} (hp : [w] <+: p) (h : p <+: r) : Within ws r :=
  ⟨w, hw, hp.trans h⟩

theorem mkdirs_ok_agree {t : Path} : ∀ {pre : Path} {fs fs' : FS},
    (∀ r, pre <+: r → r <+: pre ++ t → Dict.get? fs r = Dict.get? fs' r) →
    ((∃ g, fs.makedirsFrom pre t = .ok g) ↔ ∃ g, fs'.makedirsFrom pre t = .ok g) := by
  have mk : ∀ {pre : Path} {fs fs' : FS}, Dict.get? fs pre = Dict.get? fs' pre →
      ((∃ g, fs.mkdirOk pre = .ok g) ↔ ∃ g, fs'.mkdirOk pre = .ok g) := by
    intro pre fs fs' h
    unfold FS.mkdirOk
    rw [h]
    rcases Dict.get? fs' pre with _ | _ | _ <;> simp
  induction t with
  | nil =>
    intro pre fs fs' h
    exact mk (h pre (List.prefix_refl _) (by simp))
  | cons c t ih =>
    intro pre fs fs' h
    have h0 := h pre (List.prefix_refl _) (List.prefix_append _ _)
    have hm := mk h0
    simp only [FS.makedirsFrom]
    cases h1 : fs.mkdirOk pre with
    | error e =>
      cases h2 : fs'.mkdirOk pre with
      | error e' => simp
      | ok g' => rw [h1, h2] at hm; simp at hm
    | ok g =>
      cases h2 : fs'.mkdirOk pre with
      | error e' => rw [h1, h2] at hm; simp at hm
      | ok g' =>
        refine ih fun r hr1 hr2 => ?_
        rw [FS.mkdirOk_ok h1, FS.mkdirOk_ok h2]
        split
        · rfl
        · exact h r ((List.prefix_append _ _).trans hr1) (by simpa using hr2)

theorem ensureDir_cases (fs : FS) (p : Path) :
    (view fs p ≠ none ∧ ensureDir fs p = (.ok (), fs)) ∨
    (view fs p = none ∧ (∃ g, fs.makedirs p = .ok g) ∧ (ensureDir fs p).1 = .ok () ∧
      ∀ r, view (ensureDir fs p).2 r = if r <+: p then some .dir else view fs r) ∨
    (view fs p = none ∧ (¬ ∃ g, fs.makedirs p = .ok g) ∧
      ensureDir fs p = (.error (.workspaceError "cannot create directory"), fs)) := by
  unfold ensureDir
  split
  · rename_i h
    exact .inl ⟨(FS.exists?_iff _ _).1 h, rfl⟩
  · rename_i h
    have hn : view fs p = none := by by_contra h1; exact h ((FS.exists?_iff _ _).2 h1)
    right
    cases hm : fs.makedirs p with
    | ok g => exact .inl ⟨hn, ⟨g, rfl⟩, rfl, FS.makedirs_ok hm⟩
    | error e => exact .inr ⟨hn, by simp, rfl⟩

theorem fine_ensureDir {ws : List Name} {w : Name} (hw : w ∈ ws) {p : Path} (hp : [w] <+: p) :
    Fine (Within ws) (fun fs => ensureDir fs p) where
  good := by
    intro fs hg
    rcases ensureDir_cases fs p with h | h | h
    · rw [h.2]; exact hg
    · refine ⟨?_, ?_⟩
      · intro q n hq
        rw [h.2.2.2] at hq ⊢
        by_cases hqp : q ++ [n] <+: p
        · rw [if_pos ((List.prefix_append _ _).trans hqp)]
        · rw [if_neg hqp] at hq
          rw [hg.1 q n hq]
          simp
      · rw [h.2.2.2, if_pos List.nil_prefix]
    · rw [h.2.2]; exact hg
  only := by
    intro fs hg r hr
    refine only_ensureDir fs p r ?_
    rintro ⟨h1, h2⟩
    cases r with
    | nil => rw [hg.2] at h2; cases h2
    | cons c r =>
      obtain ⟨t, rfl⟩ := hp
      rw [List.singleton_append, List.cons_prefix_cons] at h1
      exact hr ⟨w, hw, by rw [h1.1]; simp⟩
  agree := by
    intro fs fs' hg hg' ha
    have hpR : Within ws p := ⟨w, hw, hp⟩
    have hv := ha p hpR
    have hmk : (∃ g, fs.makedirs p = .ok g) ↔ ∃ g, fs'.makedirs p = .ok g := by
      refine mkdirs_ok_agree fun r _ hr => ?_
      cases r with
      | nil => exact hg.2.trans hg'.2.symm
      | cons c r =>
        obtain ⟨t, rfl⟩ := hp
        rw [List.nil_append, List.singleton_append, List.cons_prefix_cons] at hr
        exact ha _ ⟨w, hw, by rw [hr.1]; simp⟩
    rcases ensureDir_cases fs p with h | h | h <;> rcases ensureDir_cases fs' p with h' | h' | h'
    · rw [h.2, h'.2]; exact ⟨rfl, ha⟩
    · exact absurd (hv.trans h'.1) h.1
    · exact absurd (hv.trans h'.1) h.1
    · exact absurd (hv.symm.trans h.1) h'.1
    · refine ⟨h.2.2.1.trans h'.2.2.1.symm, fun r hr => ?_⟩
      rw [h.2.2.2, h'.2.2.2, ha r hr]
    · exact absurd (hmk.1 h.2.1) h'.2.1
    · exact absurd (hv.symm.trans h.1) h'.1
    · exact absurd (hmk.2 h'.2.1) h.2.1
    · rw [h.2.2, h'.2.2]; exact ⟨rfl, ha⟩

theorem fine_writeline {ws : List Name} {w : Name} (hw : w ∈ ws) {p : Path} (hp : [w] <+: p.dropLast) (s : Name) :
    Fine (Within ws) (fun fs => writeline fs p s) where
  good := by
    intro fs hg
    rcases writeline_cases fs p s with h | h
    · have hne : p ≠ [] := by rintro rfl; obtain ⟨t, ht⟩ := hp; simp at ht
      refine ⟨?_, ?_⟩
      · intro q n hq
        rw [h.2.2.2] at hq ⊢
        by_cases hqp : q ++ [n] = p
        · subst hqp
          rw [if_neg (by simp)]
          simpa using h.2.1
        · rw [if_neg hqp] at hq
          have := hg.1 q n hq
          rw [if_neg (by rintro rfl; exact h.2.2.1 this)]
          exact this
      · rw [h.2.2.2, if_neg (Ne.symm hne)]; exact hg.2
    · rw [h.2.1]; exact hg
  only := by
    intro fs _ r hr
    refine only_writeline fs p s r ?_
    rintro rfl
    exact hr ⟨w, hw, hp.trans (List.dropLast_prefix _)⟩
  agree := by
    intro fs fs' _ _ ha
    have h1 := ha p.dropLast ⟨w, hw, hp⟩
    have h2 := ha p ⟨w, hw, hp.trans (List.dropLast_prefix _)⟩
    have herr : ∀ g : FS, (∃ e, (writeline g p s).1 = .error e) → (writeline g p s).1 = .error (.workspaceError "cannot write") := by
      intro g
      unfold writeline
      split <;> simp
    rcases writeline_cases fs p s with h | h <;> rcases writeline_cases fs' p s with h' | h'
    · refine ⟨h.1.trans h'.1.symm, fun r hr => ?_⟩
      rw [h.2.2.2, h'.2.2.2, ha r hr]
    · exact absurd ⟨h1 ▸ h.2.1, h2 ▸ h.2.2.1⟩ h'.2.2
    · exact absurd ⟨h1.symm ▸ h'.2.1, h2.symm ▸ h'.2.2.1⟩ h.2.2
    · rw [h.2.1, h'.2.1]
      exact ⟨(herr fs h.1).trans (herr fs' h'.1).symm, ha⟩

theorem fine_rmtree {ws : List Name} {w : Name} (hw : w ∈ ws) {p : Path} (hp : [w] <+: p) :
    Fine (Within ws) (fun fs => rmtreeChecked fs p) where
  good := by
    intro fs hg
    unfold rmtreeChecked
    split
    · have hv : ∀ r, view (fs.rmtree p) r = if p <+: r then none else view fs r := fun r => FS.get?_rmtree _ _ _
      refine ⟨?_, ?_⟩
      · intro q n hq
        rw [hv] at hq ⊢
        by_cases h1 : p <+: q ++ [n]
        · rw [if_pos h1] at hq; exact absurd rfl hq
        · rw [if_neg h1] at hq
          rw [if_neg fun h2 => h1 (h2.trans (List.prefix_append _ _))]
          exact hg.1 q n hq
      · rw [hv, if_neg]
        · exact hg.2
        · intro h
          have := hp.trans h
          simp at this
    · exact hg
  only := by
    intro fs _
    unfold rmtreeChecked
    split
    · exact (only_rmtree fs p).mono fun r hr => within_of_prefix hw hp hr
    · exact Only.rfl'
  agree := by
    intro fs fs' _ _ ha
    have h := ha p ⟨w, hw, hp⟩
    have hd : fs.isDir p = fs'.isDir p := by
      rw [Bool.eq_iff_iff, FS.isDir_iff, FS.isDir_iff]
      show view fs p = _ ↔ view fs' p = _
      rw [h]
    unfold rmtreeChecked
    rw [hd]
    split
    · refine ⟨rfl, fun r hr => ?_⟩
      show Dict.get? _ r = Dict.get? _ r
      rw [FS.get?_rmtree, FS.get?_rmtree]
      split
      · rfl
      · exact ha r hr
    · exact ⟨rfl, ha⟩

theorem fine_copytree {ws : List Name} {v w : Name} (hv : v ∈ ws) (hw : w ∈ ws) {p q : Path} (hp : [v] <+: p) (hq : [w] <+: q)
    (hpar : ∀ fs, Good fs → view fs p = some .dir → view fs q = none → view fs q.dropLast = some .dir) :
    Fine (Within ws) (fun fs => copytreeChecked fs p q) where
  good := by
    intro fs hg
    rcases copytreeChecked_cases hg.1 p q with h | ⟨-, hpd, hqn, hr⟩
    · rw [h.2]; exact hg
    · have hqne : q ≠ [] := by rintro rfl; simp at hq
      refine ⟨?_, ?_⟩
      · intro x n hx
        rw [hr] at hx ⊢
        by_cases h1 : q <+: x ++ [n]
        · by_cases h2 : q <+: x
          · obtain ⟨t, rfl⟩ := h2
            rw [if_pos (List.prefix_append _ _)]
            rw [if_pos (by simp)] at hx
            simp only [List.append_assoc, List.drop_left] at hx ⊢
            refine hg.1 _ n ?_
            simpa using hx
          · have : x ++ [n] = q := by
              obtain ⟨t, ht⟩ := h1
              rcases List.eq_nil_or_concat t with rfl | ⟨t', c, rfl⟩
              · simpa using ht.symm
              · exfalso
                rw [List.concat_eq_append, ← List.append_assoc] at ht
                exact h2 ⟨t', (List.append_inj' ht rfl).1⟩
            rw [if_neg h2]
            have := hpar fs hg hpd hqn
            rw [← ‹x ++ [n] = q›] at this
            simpa using this
        · rw [if_neg h1] at hx
          rw [if_neg fun h2 => h1 (h2.trans (List.prefix_append _ _))]
          exact hg.1 x n hx
      · rw [hr, if_neg]
        · exact hg.2
        · intro h; exact hqne (List.prefix_nil.1 h)
    
  only := by
    intro fs _
    unfold copytreeChecked
    split
    · exact Only.rfl'
    · split
      · exact Only.rfl'
      · exact (only_copytree fs p q).mono fun r hr => within_of_prefix hw hq hr
  agree := by
    intro fs fs' hg hg' ha
    have h1 := ha p ⟨v, hv, hp⟩
    have h2 := ha q ⟨w, hw, hq⟩
    have hd : fs.isDir p = fs'.isDir p := by
      rw [Bool.eq_iff_iff, FS.isDir_iff, FS.isDir_iff]
      show view fs p = _ ↔ view fs' p = _
      rw [h1]
    have he : fs.exists? q = fs'.exists? q := by
      rw [Bool.eq_iff_iff, FS.exists?_iff, FS.exists?_iff]
      show view fs q ≠ _ ↔ view fs' q ≠ _
      rw [h2]
    unfold copytreeChecked
    rw [hd, he]
    split
    · exact ⟨rfl, ha⟩
    · split
      · exact ⟨rfl, ha⟩
      · rename_i hq'
        have hqn' : view fs' q = none := by by_contra h; exact hq' ((FS.exists?_iff _ _).2 h)
        have hqn : view fs q = none := h2.trans hqn'
        refine ⟨rfl, fun r hr => ?_⟩
        show Dict.get? _ r = Dict.get? _ r
        rw [FS.get?_copytree _ _ _ _ (tree_none_below hg.1 hqn), FS.get?_copytree _ _ _ _ (tree_none_below hg'.1 hqn')]
        split
        · exact ha _ ⟨v, hv, hp.trans (List.prefix_append _ _)⟩
        · exact ha r hr

end Dedop.Workspace
