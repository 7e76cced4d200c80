import Verif.Figures.WriterProps
import Verif.Names.Lemmas
import Verif.Basic.Tactics
/-!
# Different plots are saved under different names (C74)
-/
namespace Dedop.Figures
open Dedop.Names (Name decimal)

/-! ## Specification -/

/-- The name of a variable (or the kind of a 3D plot) as it occurs in product files: no hyphen, and not the word the names of the
waveform plots begin with. -/
def Ordinary (n : Name) : Prop := '-' ∉ n ∧ n ≠ ['w', 'a', 'v', 'e', 'f', 'o', 'r', 'm']

/-- The names a plot is made of are ordinary. -/
def Plot.Ordinary : Plot → Prop
  | .waveformIm | .waveformHist | .waveformLine _ => True
  | .waveform3d k => '-' ∉ k
  | .im z | .imLine z _ _ => Figures.Ordinary z
  | .line x y => Figures.Ordinary x ∧ '-' ∉ y

/-- A picture of a variable with neither of the two cuts is the plain picture of that variable. -/
def Plot.plain : Plot → Plot
  | .imLine z none none => .im z
  | q => q

/-! ## Lemmas -/

/-- The parts of a file name, separated by hyphens. -/
def dashed : List Name → Name
  | [] => []
  | [a] => a
  | a :: b :: t => a ++ '-' :: dashed (b :: t)

theorem takeWhile_dash (a r : Name) (ha : '-' ∉ a) :
    (a ++ '-' :: r).takeWhile (· ≠ '-') = a ∧ (a ++ '-' :: r).dropWhile (· ≠ '-') = '-' :: r := by
  induction a with
  | nil => exact ⟨rfl, rfl⟩
  | cons c t ih =>
    have hc : c ≠ '-' := fun h => ha (by rw [h]; exact List.mem_cons_self)
    have := ih fun h => ha (List.mem_cons_of_mem _ h)
    simp only [List.cons_append, List.takeWhile_cons, List.dropWhile_cons, ne_eq, hc, not_false_eq_true, decide_true, if_true]
    exact ⟨congrArg (c :: ·) this.1, this.2⟩

theorem first_part {a b r s : Name} (ha : '-' ∉ a) (hb : '-' ∉ b) (h : a ++ '-' :: r = b ++ '-' :: s) : a = b ∧ r = s := by
  have h1 := takeWhile_dash a r ha
  have h2 := takeWhile_dash b s hb
  rw [h] at h1
  refine ⟨h1.1.symm.trans h2.1, ?_⟩
  have := h1.2.symm.trans h2.2
  exact List.cons.inj this |>.2

theorem dashed_injective : ∀ l m : List Name, l ≠ [] → m ≠ [] → (∀ a ∈ l, '-' ∉ a) → (∀ a ∈ m, '-' ∉ a) →
    dashed l = dashed m → l = m
  | [], _, h, _, _, _, _ => absurd rfl h
  | _, [], _, h, _, _, _ => absurd rfl h
  | [a], [b], _, _, _, _, h => by rw [show a = b from h]
  | [a], b :: c :: t, _, _, ha, _, h => by
    have : '-' ∈ a := by rw [show a = b ++ '-' :: dashed (c :: t) from h]; simp
    exact absurd this (ha a List.mem_cons_self)
  | a :: c :: t, [b], _, _, _, hb, h => by
    have : '-' ∈ b := by rw [← show a ++ '-' :: dashed (c :: t) = b from h]; simp
    exact absurd this (hb b List.mem_cons_self)
  | a :: a' :: t, b :: b' :: s, _, _, ha, hb, h => by
    obtain ⟨h1, h2⟩ := first_part (ha a List.mem_cons_self) (hb b List.mem_cons_self) h
    have := dashed_injective (a' :: t) (b' :: s) (List.cons_ne_nil _ _) (List.cons_ne_nil _ _)
      (fun x hx => ha x (List.mem_cons_of_mem _ hx)) (fun x hx => hb x (List.mem_cons_of_mem _ hx)) h2
    rw [h1, this]

theorem decimal_no_dash (n : Nat) : '-' ∉ decimal n := by
  induction n using Nat.strongRecOn with
  | _ n ih =>
    rw [decimal]
    have hd : ∀ k, k < 10 → '-' ≠ Names.digitChar k := by decide
    split
    · rename_i h
      rw [List.mem_singleton]
      exact hd n h
    · rename_i h
      intro hm
      rcases List.mem_append.mp hm with hm | hm
      · exact ih (n / 10) (by omega) hm
      · rw [List.mem_singleton] at hm
        exact hd (n % 10) (by omega) hm

/-- The parts of the file name of a plot. -/
def parts : Plot → List Name
  | .waveformIm => [['w', 'a', 'v', 'e', 'f', 'o', 'r', 'm'], ['i', 'm']]
  | .waveform3d k => [['w', 'a', 'v', 'e', 'f', 'o', 'r', 'm'], ['3', 'd'], k]
  | .waveformHist => [['w', 'a', 'v', 'e', 'f', 'o', 'r', 'm'], ['h', 'i', 's', 't']]
  | .waveformLine i => [['w', 'a', 'v', 'e', 'f', 'o', 'r', 'm'], ['x'], decimal i]
  | .im z => [z]
  | .line x y => [x, ['o', 'v', 'e', 'r'], y]
  | .imLine z (some x) (some y) => [z, ['x'], decimal x, ['y'], decimal y]
  | .imLine z (some x) none => [z, ['x'], decimal x]
  | .imLine z none (some y) => [z, ['y'], decimal y]
  | .imLine z none none => [z]

theorem file_parts (q : Plot) : q.file = ['f', 'i', 'g', '-'] ++ dashed (parts q) ++ ['.', 'p', 'n', 'g'] := by
  rcases q with _ | _ | _ | _ | _ | _ | ⟨_, _ | _, _ | _⟩ <;> simp [Plot.file, parts, dashed]

theorem parts_ne (q : Plot) : parts q ≠ [] := by
  rcases q with _ | _ | _ | _ | _ | _ | ⟨_, _ | _, _ | _⟩ <;> exact List.cons_ne_nil _ _

theorem parts_no_dash (q : Plot) (h : q.Ordinary) : ∀ a ∈ parts q, '-' ∉ a := by
  rcases q with _ | _ | _ | _ | _ | _ | ⟨_, _ | _, _ | _⟩ <;>
    simp_all [parts, Plot.Ordinary, Figures.Ordinary, decimal_no_dash]

theorem parts_plain (p q : Plot) (hp : p.Ordinary) (hq : q.Ordinary) (h : parts p = parts q) : p.plain = q.plain := by
  rcases p with _ | _ | _ | _ | _ | _ | ⟨_, _ | _, _ | _⟩ <;>
    rcases q with _ | _ | _ | _ | _ | _ | ⟨_, _ | _, _ | _⟩ <;>
    simp_all [parts, Plot.plain, Plot.Ordinary, Figures.Ordinary]
  all_goals first
    | exact Names.decimal_injective ‹_›
    | exact Names.decimal_injective h.2
    | exact ⟨Names.decimal_injective h.2.1, Names.decimal_injective h.2.2⟩
    | skip

/-! ## Theorems -/

/-- **C74**: two plots of a product get the same file name exactly when they are the same plot (a picture without cuts being
the plain picture). -/
theorem plot_files_differ (p q : Plot) (hp : p.Ordinary) (hq : q.Ordinary) : p.file = q.file ↔ p.plain = q.plain := by
  constructor
  · intro h
    rw [file_parts, file_parts, List.append_cancel_right_eq, List.append_cancel_left_eq] at h
    exact parts_plain p q hp hq
      (dashed_injective _ _ (parts_ne p) (parts_ne q) (parts_no_dash p hp) (parts_no_dash q hq) h)
  · have hf : ∀ r : Plot, r.plain.file = r.file := by
      intro r
      rcases r with _ | _ | _ | _ | _ | _ | ⟨_, _ | _, _ | _⟩ <;> rfl
    intro h
    rw [← hf p, ← hf q, h]

/-- **C74**, directory: whatever different plots of one product are made, in any number and order, every one of them is in a file
of its own in the end. -/
theorem plots_all_kept_partial (w : Writer (Product × Plot)) (hf : w.format = .dir) (d : Disk (Product × Plot)) (p : Product)
    (l : List Plot) (ho : ∀ q ∈ l, q.Ordinary) (hd : (l.map Plot.plain).Nodup) :
    ∃ d', calls w d (l.map (productCall p)) = .ok (w, d') ∧
      (∀ q ∈ l, ∃ n, d' (Names.join w.path n) = some (.image (p, q)) ∧ ∀ r ∈ l, r ≠ q → r.file ≠ n) := by
  have hne : ∀ q ∈ l, ∀ r ∈ l, r.file = q.file → r = q := by
    intro q hq r hr h
    exact List.inj_on_of_nodup_map hd hr hq ((plot_files_differ r q (ho r hr) (ho q hq)).mp h)
  have hl : l.Nodup := List.Nodup.of_map _ hd
  obtain ⟨d', hc, hk⟩ := dir_all_kept_partial w hf d (l.map fun q => (q.file, (p, q)))
    (by
      intro x hx
      obtain ⟨q, _, rfl⟩ := List.mem_map.mp hx
      exact file_ne_nil q)
    (by
      rw [List.map_map]
      exact hl.map_on fun q hq r hr h => hne r hr q hq h)
  refine ⟨d', ?_, fun q hq => ⟨q.file, hk _ (List.mem_map_of_mem hq), fun r hr hrq h => hrq (hne q hq r hr h)⟩⟩
  rw [← hc, saves, List.map_map]
  rfl

/-- The names of the variables do occur in the plots of the theorem. -/
example : (Plot.line "lat_20_ku".toList "lon_20_ku".toList).Ordinary ∧ (Plot.imLine "i2q2_meas_ku".toList (some 3) none).Ordinary ∧
    (Plot.waveform3d "surface".toList).Ordinary ∧
    (Plot.waveformLine 3).file ≠ (Plot.waveformLine 13).file := by
  refine ⟨⟨⟨by decide, by decide⟩, by decide⟩, ⟨by decide, by decide⟩, (by decide : '-' ∉ "surface".toList), ?_⟩
  rw [ne_eq, plot_files_differ (.waveformLine 3) (.waveformLine 13) trivial trivial]
  decide

/-- Without the restriction the names can coincide: a cut of a variable named `waveform` is saved over a single waveform. -/
example : (Plot.imLine "waveform".toList (some 3) none).file = (Plot.waveformLine 3).file := by
  simp [Plot.file]

end Dedop.Figures
