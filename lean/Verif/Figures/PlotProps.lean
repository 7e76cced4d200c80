import Verif.Figures.Model
import Verif.Writer.ValueProps
import Verif.Basic.Tactics
/-!
# Limits (C75), images (C76), histograms (C77) and the waveforms of an inspector (C78)
-/
namespace Dedop.Figures
open Dedop.Names (Name)
variable {K : Type} [Field K] [LinearOrder K]

/-! ## Specification -/

/-- Smallest and largest value of an array. -/
def IsRange (r : K × K) (l : List K) : Prop := r.1 ∈ l ∧ r.2 ∈ l ∧ ∀ x ∈ l, r.1 ≤ x ∧ x ≤ r.2

/-! ## Lemmas -/

theorem npMin_spec {l : List K} {m : K} (h : npMin l = some m) : (∀ y ∈ l, m ≤ y) ∧ m ∈ l := by
  cases l with
  | nil => cases h
  | cons x t =>
    simp only [npMin, Option.some.injEq] at h
    subst h
    suffices H : ∀ (t : List K) (x : K), (t.foldl min x ≤ x ∧ ∀ y ∈ t, t.foldl min x ≤ y) ∧ (t.foldl min x = x ∨ t.foldl min x ∈ t) by
      obtain ⟨⟨h1, h2⟩, h3⟩ := H t x
      refine ⟨fun y hy => ?_, ?_⟩
      · rcases List.mem_cons.mp hy with rfl | hy
        · exact h1
        · exact h2 y hy
      · rcases h3 with h3 | h3
        · rw [h3]; exact List.mem_cons_self
        · exact List.mem_cons_of_mem _ h3
    intro t
    induction t with
    | nil => intro x; exact ⟨⟨le_refl _, fun _ h => by cases h⟩, Or.inl rfl⟩
    | cons z t ih =>
      intro x
      obtain ⟨⟨h1, h2⟩, h3⟩ := ih (min x z)
      simp only [List.foldl_cons]
      refine ⟨⟨h1.trans (min_le_left _ _), fun y hy => ?_⟩, ?_⟩
      · rcases List.mem_cons.mp hy with rfl | hy
        · exact h1.trans (min_le_right _ _)
        · exact h2 y hy
      · rcases h3 with h3 | h3
        · rcases min_choice x z with h | h
          · left; rw [h3, h]
          · right; rw [h3, h]; exact List.mem_cons_self
        · right; exact List.mem_cons_of_mem _ h3

theorem gridRange_spec {g : Grid K} {r : K × K} (h : gridRange g = .ok r) : IsRange r g.flatten := by
  unfold gridRange at h
  split at h
  · rename_i a b ha hb
    cases h
    have h1 := npMin_spec ha
    have h2 := Writer.npMax_spec hb
    exact ⟨h1.2, h2.2, fun x hx => ⟨h1.1 x hx, h2.1 x hx⟩⟩
  · cases h

theorem gridRange_ok {g : Grid K} (h : g.flatten ≠ []) : ∃ r, gridRange g = .ok r := by
  unfold gridRange
  cases hf : g.flatten with
  | nil => exact absurd hf h
  | cons x t => exact ⟨_, rfl⟩

theorem orDefault_ne {x : K} (h : x ≠ 0) (d : K) : orDefault (some x) d = x := by
  simp only [orDefault, h, if_false]

theorem limit_ne {x : K} (h : x ≠ 0) (d : Option K) : limit (some x) d = .ok x := by
  simp only [limit, h, if_false]

theorem mapM_some {A B : Type} (f : A → Option B) : ∀ (l : List A) (c : List B), l.mapM f = some c → l.map f = c.map some
  | [], c, h => by
    simp at h
    simp [← h]
  | x :: t, c, h => by
    rw [List.mapM_cons] at h
    cases hx : f x with
    | none => simp [hx] at h
    | some y =>
      cases ht : t.mapM f with
      | none => simp [hx, ht] at h
      | some d =>
        simp [hx, ht] at h
        simp [← h, hx, mapM_some f t d ht]

/-! ## C75: limits -/

/-- **C75**, the 3D plots: a given limit is used, and the range of the data otherwise. -/
theorem limits_3d (i : Inspector K) (zmin zmax : Option K) (r : K × K) (h : waveform3dRange i zmin zmax = .ok r) :
    ∃ data, IsRange data i.waveform.flatten ∧
      (∀ a, zmin = some a → r.1 = a) ∧ (zmin = none → r.1 = data.1) ∧
      (∀ b, zmax = some b → r.2 = b) ∧ (zmax = none → r.2 = data.2) := by
  unfold waveform3dRange at h
  split at h
  · cases h
  · rename_i d hd
    cases h
    refine ⟨d, gridRange_spec hd, ?_, ?_, ?_, ?_⟩ <;> · intros; subst_vars; rfl

/-- **C75**, the waveform image: a given limit other than 0 is used, and the range of the data without a limit. -/
theorem limits_waveform_partial (i : Inspector K) (vmin vmax : Option K) (v : Grid K) (r : K × K) (t : Name) (row col : Option (List K))
    (h : waveformIm i vmin vmax = .ok (.image v r t row col)) :
    v = i.waveform ∧ ∃ data, IsRange data i.waveform.flatten ∧
      (∀ a, vmin = some a → a ≠ 0 → r.1 = a) ∧ (vmin = none → r.1 = data.1) ∧
      (∀ b, vmax = some b → b ≠ 0 → r.2 = b) ∧ (vmax = none → r.2 = data.2) := by
  unfold waveformIm at h
  split at h
  · cases h
  · rename_i d hd
    simp only [Except.ok.injEq, Drawn.image.injEq] at h
    obtain ⟨rfl, rfl, -⟩ := h
    refine ⟨rfl, d, gridRange_spec hd, ?_, ?_, ?_, ?_⟩
    · rintro a rfl ha; exact orDefault_ne ha _
    · rintro rfl; rfl
    · rintro a rfl ha; exact orDefault_ne ha _
    · rintro rfl; rfl

/-- **C75**, the image of a variable: the same. -/
theorem limits_im_partial (i : Inspector K) (z : Name) (zmin zmax : Option K) (v : Grid K) (r : K × K) (t : Name)
    (row col : Option (List K)) (h : plotIm i z zmin zmax = .ok (.image v r t row col)) :
    ∃ x, i.vars.get? z = some x ∧ x.dims.length = 2 ∧
      (∀ a, zmin = some a → a ≠ 0 → r.1 = a) ∧ (zmin = none → r.1 ∈ x.values.flatten ∧ ∀ y ∈ x.values.flatten, r.1 ≤ y) ∧
      (∀ b, zmax = some b → b ≠ 0 → r.2 = b) ∧ (zmax = none → r.2 ∈ x.values.flatten ∧ ∀ y ∈ x.values.flatten, y ≤ r.2) := by
  unfold plotIm at h
  split at h
  · simp at h
  · rename_i x hx
    split at h
    · simp at h
    · rename_i hl
      split at h
      · rename_i a b ha hb
        simp only [Except.ok.injEq, Drawn.image.injEq] at h
        obtain ⟨-, rfl, -⟩ := h
        refine ⟨x, hx, by simpa using hl, ?_, ?_, ?_, ?_⟩
        · rintro c rfl hc
          rw [limit_ne hc] at ha
          cases ha; rfl
        · rintro rfl
          unfold limit at ha
          split at ha
          · rename_i h0; cases h0
          · split at ha
            · rename_i m hm
              cases ha
              exact ⟨(npMin_spec hm).2, (npMin_spec hm).1⟩
            · cases ha
        · rintro c rfl hc
          rw [limit_ne hc] at hb
          cases hb; rfl
        · rintro rfl
          unfold limit at hb
          split at hb
          · rename_i h0; cases h0
          · split at hb
            · rename_i m hm
              cases hb
              exact ⟨(Writer.npMax_spec hm).2, (Writer.npMax_spec hm).1⟩
            · cases hb
      · cases h
      · cases h

/-- **C75 is violated** by a limit of 0: all plots but the 3D ones behave as if it had not been given. -/
theorem limit_zero_violated (i : Inspector K) (a b : Grid K) (z : Name) (v : Option K) :
    waveformIm i (some 0) v = waveformIm i none v ∧ waveformIm i v (some 0) = waveformIm i v none ∧
    plotIm i z (some 0) v = plotIm i z none v ∧ plotIm i z v (some 0) = plotIm i z v none ∧
    waveformHist i (some 0) v = waveformHist i none v ∧ waveformHist i v (some 0) = waveformHist i v none ∧
    waveformsHist a b (some 0) v = waveformsHist a b none v ∧ waveformsHist a b v (some 0) = waveformsHist a b v none ∧
    waveformsDeltaHist a b (some 0) v = waveformsDeltaHist a b none v ∧
    scatterAxes a b (some 0) v = scatterAxes a b none v := by
  have h : ∀ d : K, orDefault (some 0) d = orDefault none d := fun d => by simp [orDefault]
  have hl : ∀ d : Option K, limit (some 0) d = limit none d := fun d => by simp [limit]
  refine ⟨?_, ?_, ?_, ?_, ?_, ?_, ?_, ?_, ?_, ?_⟩
  · simp only [waveformIm, h]
  · simp only [waveformIm, h]
  · simp only [plotIm, hl]
  · simp only [plotIm, hl]
  · simp only [waveformHist, h]
  · simp only [waveformHist, h]
  · simp only [waveformsHist, h]
  · simp only [waveformsHist, h]
  · simp only [waveformsDeltaHist, h]
  · simp only [scatterAxes, h]

/-- A product with one two-dimensional variable besides the waveform. -/
def demo : Inspector ℚ where
  vars := [(['b'], ⟨[['t'], ['n']], [[10, 20], [30, 40]]⟩), (['t'], ⟨[['t']], []⟩)]
  waveform := [[-1, 2], [3, 4]]

/-- The image of the demonstration product with lower limit 0 starts at -1. -/
theorem limit_zero_demo_violated : ∃ v t x y, waveformIm demo (some 0) (some 3) = .ok (.image v (-1, 3) t x y) :=
  ⟨[[-1, 2], [3, 4]], "Waveform".toList, none, none, by decide +kernel⟩

/-- **C75 is violated** by `im_line` outside a notebook: the upper limit has no effect, and the lower limit is used as both. -/
theorem im_line_upper_violated (i : Inspector K) (z : Name) (zmin b b' : Option K) (xind yind : Option Nat) :
    imLine i z zmin b xind yind = imLine i z zmin b' xind yind ∧
    ∀ a, a ≠ 0 → ∀ v r t row col, imLine i z (some a) b xind yind = .ok (.image v r t row col) → r = (a, a) := by
  refine ⟨rfl, fun a ha v r t row col h => ?_⟩
  unfold imLine at h
  split at h
  · cases h
  · unfold plotImLine at h
    simp only [limit_ne ha] at h
    split at h
    · simp at h
    · split at h
      · simp at h
      · split at h
        · simp only [Except.ok.injEq, Drawn.image.injEq] at h
          exact h.2.1.symm
        · cases h
        · cases h

/-- **C75 is violated** by `im` in a notebook without a variable: the lower limit is ignored, the upper limit is used as both. -/
theorem im_notebook_lower_violated (i : Inspector K) (pick : Name) (a a' b : K) (hb : b ≠ 0) :
    im i true pick none (some a) (some b) = im i true pick none (some a') (some b) ∧
    ∀ v r t row col, im i true pick none (some a) (some b) = .ok (.image v r t row col) → r = (b, b) := by
  refine ⟨rfl, fun v r t row col h => ?_⟩
  obtain ⟨x, _, _, h1, _, h2, _⟩ := limits_im_partial i pick (some b) (some b) v r t row col h
  exact Prod.ext (h1 b rfl hb) (h2 b rfl hb)

example : imLine demo ['b'] (some 15) (some 35) (some 1) none =
    .ok (.image [[-1, 2], [3, 4]] (15, 15) ['b'] none (some [20, 40])) := by decide +kernel
example : im demo true ['b'] none (some 15) (some 35) = .ok (.image [[-1, 2], [3, 4]] (35, 35) ['b'] none none) := by decide +kernel
example : waveform3dRange demo (some 0) none = .ok (0, 4) := by decide +kernel
example : plotIm demo ['b'] (some 15) none = .ok (.image [[-1, 2], [3, 4]] (15, 40) ['b'] none none) := by decide +kernel

/-! ## C76: images of variables -/

/-- **C76**, the part that holds: the cuts beside the image are the chosen row and column of the chosen variable, the title is
its name, and the image is right if the variable is the waveform. -/
theorem im_line_cuts_partial (i : Inspector K) (z : Name) (zmin zmax : Option K) (xind yind : Option Nat) (v : Grid K) (r : K × K)
    (t : Name) (row col : Option (List K)) (h : imLine i z zmin zmax xind yind = .ok (.image v r t row col)) :
    ∃ x, i.vars.get? z = some x ∧ t = z ∧ (yind = none → row = none) ∧ (∀ n, yind = some n → row = x.values[n]? ∧ row ≠ none) ∧
      (xind = none → col = none) ∧
      (∀ n, xind = some n → ∃ c, col = some c ∧ x.values.map (fun l => l[n]?) = c.map some) ∧
      (x.values = i.waveform → v = x.values) := by
  unfold imLine at h
  split at h
  · cases h
  · unfold plotImLine at h
    split at h
    · simp at h
    · rename_i x hx
      split at h
      · simp at h
      · split at h
        · split at h
          · rename_i r' c' hr hc
            simp only [Except.ok.injEq, Drawn.image.injEq] at h
            obtain ⟨rfl, -, rfl, rfl, rfl⟩ := h
            refine ⟨x, hx, rfl, ?_, ?_, ?_, ?_, fun h => h.symm⟩
            · rintro rfl; cases hr; rfl
            · rintro n rfl
              unfold rowOf at hr
              split at hr
              · rename_i h0; cases h0
              · rename_i h0
                cases h0
                split at hr
                · rename_i w hw
                  cases hr
                  exact ⟨hw.symm, by simp⟩
                · cases hr
            · rintro rfl; cases hc; rfl
            · rintro n rfl
              unfold columnOf at hc
              split at hc
              · rename_i h0; cases h0
              · rename_i h0
                cases h0
                split at hc
                · rename_i w hw
                  cases hc
                  exact ⟨w, rfl, mapM_some _ _ _ hw⟩
                · cases hc
          · cases h
          · cases h
        · cases h
        · cases h

/-- **C76 is violated**: whatever variable is chosen, the image shows the waveform, under the title of the chosen variable and in
its range of values. -/
theorem image_shows_waveform_violated (i : Inspector K) (z : Name) (zmin zmax : Option K) (v : Grid K) (r : K × K) (t : Name)
    (row col : Option (List K)) (h : plotIm i z zmin zmax = .ok (.image v r t row col)) : v = i.waveform ∧ t = z := by
  unfold plotIm at h
  split at h
  · simp at h
  · split at h
    · simp at h
    · split at h
      · simp only [Except.ok.injEq, Drawn.image.injEq] at h
        exact ⟨h.1.symm, h.2.2.1.symm⟩
      · cases h
      · cases h

/-- A product for which that is wrong. -/
theorem image_variable_violated : ∃ (i : Inspector ℚ) (z : Name) (x : Variable ℚ) (v : Grid ℚ) (r : ℚ × ℚ),
    i.vars.get? z = some x ∧ plotIm i z none none = .ok (.image v r z none none) ∧ v ≠ x.values :=
  ⟨demo, ['b'], ⟨[['t'], ['n']], [[10, 20], [30, 40]]⟩, [[-1, 2], [3, 4]], (10, 40), by decide +kernel, by decide +kernel,
    by decide +kernel⟩

/-! ## C77: histograms -/

theorem counted_all {r : K × K} {l : List K} (h : ∀ x ∈ l, r.1 ≤ x ∧ x ≤ r.2) : counted r l = l := by
  unfold counted
  rw [List.filter_eq_self]
  intro x hx
  simp [h x hx]

theorem widen_covers [IsStrictOrderedRing K] {r : K × K} {l : List K} (h : IsRange r l) : counted (widen r) l = l := by
  refine counted_all fun x hx => ⟨(h.2.2 x hx).1, ?_⟩
  unfold widen
  simp only
  split
  · rename_i he
    have := (h.2.2 x hx).2
    rw [← he] at this
    exact this.trans (le_of_lt (lt_add_one _))
  · exact (h.2.2 x hx).2

/-- **C77**, inspector: without limits every sample is counted. -/
theorem waveform_hist_all [IsStrictOrderedRing K] (i : Inspector K) (h : i.waveform.flatten ≠ []) :
    waveformHist i none none = .ok i.waveform.flatten := by
  obtain ⟨r, hr⟩ := gridRange_ok h
  unfold waveformHist
  rw [hr]
  exact congrArg _ (widen_covers (gridRange_spec hr))

/-- **C77**, differences: without limits every difference is counted. -/
theorem delta_hist_all [IsStrictOrderedRing K] (a b delta : Grid K) (r : K × K) (h : compare a b = .ok (delta, r)) :
    waveformsDeltaHist a b none none = .ok delta.flatten := by
  unfold waveformsDeltaHist
  rw [h]
  refine congrArg _ (widen_covers ?_)
  unfold compare at h
  split at h
  · cases h
  · simp only at h
    split at h
    · cases h
    · rename_i r' hr
      simp only [Except.ok.injEq, Prod.mk.injEq] at h
      obtain ⟨rfl, rfl⟩ := h
      exact gridRange_spec hr

theorem zipWith_sub_self : ∀ a : Grid K, List.zipWith (List.zipWith (· - ·)) a a = a.map fun r => r.map fun _ => 0
  | [] => rfl
  | r :: t => by
    have hr : List.zipWith (· - ·) r r = r.map fun _ => (0 : K) := by
      induction r with
      | nil => rfl
      | cons x l ih => simp [ih]
    simp [zipWith_sub_self t, hr]

/-- **C77 is violated** by the histogram of two products: its range is that of the difference.  A product compared with itself
whose samples are larger than 1 gives two empty histograms, and none of its points is inside the axes of the scatter plot. -/
theorem waveforms_hist_violated [IsStrictOrderedRing K] (a : Grid K) (hne : a.flatten ≠ []) (h : ∀ x ∈ a.flatten, 1 < x) :
    waveformsHist a a none none = .ok ([], []) ∧
    ∃ axes, scatterAxes a a none none = .ok axes ∧ ∀ x ∈ a.flatten, ¬ (axes.1 ≤ x ∧ x ≤ axes.2) := by
  have hflat : (a.map fun r => r.map fun _ => (0 : K)).flatten = a.flatten.map fun _ => 0 := by
    rw [List.map_flatten]
  have hne' : (a.map fun r => r.map fun _ => (0 : K)).flatten ≠ [] := by
    rw [hflat]; simpa using hne
  obtain ⟨r, hr⟩ := gridRange_ok hne'
  have hc : compare a a = .ok (a.map fun r => r.map fun _ => 0, r) := by
    unfold compare
    simp only [ne_eq, not_true_eq_false, if_false, zipWith_sub_self, hr]
  have hs := gridRange_spec hr
  rw [hflat] at hs
  obtain ⟨y1, _, h1⟩ := List.mem_map.mp hs.1
  obtain ⟨y2, _, h2⟩ := List.mem_map.mp hs.2.1
  have hw : widen (orDefault none r.1, orDefault none r.2) = ((0 : K), 1) := by
    simp only [orDefault, ← h1, ← h2, widen, if_true, zero_add]
  have hout : ∀ x ∈ a.flatten, ¬ ((0 : K) ≤ x ∧ x ≤ 1) := fun x hx hx' => absurd (h x hx) (not_lt.mpr hx'.2)
  refine ⟨?_, (0, 1), ?_, hout⟩
  · unfold waveformsHist
    rw [hc]
    simp only [hw]
    have : counted ((0 : K), (1 : K)) a.flatten = [] := by
      unfold counted
      rw [List.filter_eq_nil_iff]
      intro x hx
      simpa using fun h0 => lt_of_not_ge fun h1 => hout x hx ⟨h0, h1⟩
    rw [this]
  · unfold scatterAxes
    rw [hc]
    simp only [hw]

example : ∃ a : Grid ℚ, a.flatten ≠ [] ∧ (∀ x ∈ a.flatten, 1 < x) ∧ waveformsHist a a none none = .ok ([], []) :=
  ⟨[[2, 3], [4, 5]], by decide, by decide +kernel, by decide +kernel⟩
example : waveformHist demo none none = .ok [-1, 2, 3, 4] := by decide +kernel
example : waveformsDeltaHist ([[2, 3], [4, 5]] : Grid ℚ) [[2, 3], [1, 7]] none none = .ok [0, 0, 3, -2] := by decide +kernel

/-! ## C78: the waveforms of an inspector, and their difference -/

/-- The comparator refuses products of different shape. -/
theorem compare_shape (a b : Grid K) (h : shape a ≠ shape b) : compare a b = .error .valueError := by
  unfold compare
  rw [if_pos h]

theorem zipWith_sub_zero : ∀ r s : List K, r.length = s.length →
    ((∀ x ∈ List.zipWith (· - ·) r s, x = 0) ↔ r = s)
  | [], [], _ => by simp
  | x :: r, y :: s, h => by
    have := zipWith_sub_zero r s (by simpa using h)
    simp only [List.zipWith_cons_cons, List.forall_mem_cons, this, sub_eq_zero, List.cons.injEq]
  | [], _ :: _, h => by simp at h
  | _ :: _, [], h => by simp at h

/-- **C78**, the comparator: the difference of two arrays is zero everywhere exactly when they are equal. -/
theorem compare_zero_iff (a b delta : Grid K) (r : K × K) (h : compare a b = .ok (delta, r)) :
    (∀ x ∈ delta.flatten, x = 0) ↔ a = b := by
  unfold compare at h
  split at h
  · cases h
  · rename_i hs
    simp only at h
    split at h
    · cases h
    · simp only [Except.ok.injEq, Prod.mk.injEq] at h
      obtain ⟨rfl, -⟩ := h
      have hs : shape a = shape b := by simpa using hs
      clear * - hs
      induction a generalizing b with
      | nil =>
        cases b with
        | nil => simp
        | cons y t => simp [shape] at hs
      | cons x l ih =>
        cases b with
        | nil => simp [shape] at hs
        | cons y t =>
          simp only [shape, List.map_cons, List.cons.injEq] at hs
          have h1 := zipWith_sub_zero x y hs.1
          have h2 := ih t hs.2
          simp only [List.zipWith_cons_cons, List.flatten_cons, List.forall_mem_append, h1, h2, List.cons.injEq]

/-- What a record looks like in an inspector: the waveform divided by its largest sample and multiplied by the sigma0 factor. -/
theorem written_eq [IsStrictOrderedRing K] (sigma0 : K) (w : List K) (h : ∃ x ∈ w, 0 < x) :
    ∃ m ∈ w, (∀ x ∈ w, x ≤ m) ∧ 0 < m ∧ written sigma0 w = some (sigma0, w.map (· / m)) := by
  obtain ⟨x, hx, hpos⟩ := h
  obtain ⟨m, hm⟩ := Writer.npMax_some (List.ne_nil_of_mem hx)
  obtain ⟨hle, hmem⟩ := Writer.npMax_spec hm
  have hmpos : 0 < m := lt_of_lt_of_le hpos (hle x hx)
  refine ⟨m, hmem, hle, hmpos, ?_⟩
  unfold written Writer.scaleWaveform
  simp only [hm, Writer.npDiv, hmpos.ne', if_false]
  have : ∀ l : List K, (l.map fun x => some (x / m)).mapM id = some (l.map (· / m)) := by
    intro l
    induction l with
    | nil => rfl
    | cons y t ih => simp [List.mapM_cons, ih]
  rw [this]
  rfl

/-- **C78 is violated**: the inspector multiplies by the sigma0 factor, which is a number of decibels, and not by the factor of the
waveform.  A record is shown as it was computed exactly when the sigma0 factor happens to be the largest sample. -/
theorem inspected_iff [IsStrictOrderedRing K] (sigma0 : K) (w : List K) (h : ∃ x ∈ w, 0 < x) :
    ∃ m ∈ w, (∀ x ∈ w, x ≤ m) ∧ inspected [(sigma0, w)] = some [w.map fun x => sigma0 * (x / m)] ∧
      (inspected [(sigma0, w)] = some [w] ↔ sigma0 = m) := by
  obtain ⟨m, hm, hle, hpos, he⟩ := written_eq sigma0 w h
  have hi : inspected [(sigma0, w)] = some [w.map fun x => sigma0 * (x / m)] := by
    simp [inspected, he, scaled, List.mapM_cons, Function.comp_def]
  refine ⟨m, hm, hle, hi, ?_⟩
  rw [hi]
  constructor
  · intro hw
    simp only [Option.some.injEq, List.cons.injEq, and_true] at hw
    have := (List.map_eq_map_iff.mp (hw.trans (List.map_id w).symm)) m hm
    simpa [div_self hpos.ne'] using this
  · rintro rfl
    simp only [Option.some.injEq, List.cons.injEq, and_true]
    conv_rhs => rw [← List.map_id w]
    refine List.map_congr_left fun x _ => ?_
    simp only [id]
    field_simp

/-- **C78 is violated**: two products whose echoes differ by any factor show no difference in the comparator when their sigma0
factors agree. -/
theorem difference_hidden_violated [IsStrictOrderedRing K] (sigma0 k : K) (hk : 0 < k) (w : List K) (h : ∃ x ∈ w, 0 < x) :
    ∃ g, inspected [(sigma0, w)] = some g ∧ inspected [(sigma0, w.map (k * ·))] = some g ∧
      ∃ delta r, compare g g = .ok (delta, r) ∧ ∀ x ∈ delta.flatten, x = 0 := by
  obtain ⟨m, hm, hle, hpos, he⟩ := written_eq sigma0 w h
  obtain ⟨x, hx, hxpos⟩ := h
  obtain ⟨m', hm', hle', hpos', he'⟩ := written_eq sigma0 (w.map (k * ·)) ⟨k * x, List.mem_map_of_mem hx, mul_pos hk hxpos⟩
  obtain ⟨y, hy, rfl⟩ := List.mem_map.mp hm'
  have hym : y = m := le_antisymm (hle y hy) (le_of_mul_le_mul_left (hle' _ (List.mem_map_of_mem hm)) hk)
  subst hym
  have hi : ∀ v : List K, written sigma0 v = some (sigma0, w.map (· / y)) →
      inspected [(sigma0, v)] = some [w.map fun x => sigma0 * (x / y)] := by
    intro v hv
    simp [inspected, hv, scaled, List.mapM_cons, Function.comp_def]
  refine ⟨_, hi w he, hi _ ?_, ?_⟩
  · rw [he', List.map_map]
    congr 2
    refine List.map_congr_left fun z _ => ?_
    simp only [Function.comp]
    exact mul_div_mul_left z y hk.ne'
  · set g : Grid K := [w.map fun x => sigma0 * (x / y)] with hg
    have hne : (List.zipWith (List.zipWith (· - ·)) g g).flatten ≠ [] := by
      rw [zipWith_sub_self, hg]
      simp only [List.map_cons, List.map_nil, List.flatten_cons, List.flatten_nil, List.append_nil, List.map_map]
      intro h0
      rw [List.map_eq_nil_iff] at h0
      rw [h0] at hx
      cases hx
    obtain ⟨r, hr⟩ := gridRange_ok hne
    have hc : compare g g = .ok (List.zipWith (List.zipWith (· - ·)) g g, r) := by
      unfold compare
      simp only [ne_eq, not_true_eq_false, if_false, hr]
    exact ⟨_, r, hc, (compare_zero_iff g g _ r hc).mpr rfl⟩

example : ∃ w : List ℚ, (∃ x ∈ w, 0 < x) ∧ inspected [(50, w)] = some [[0, 25 / 2, 50, 25]] :=
  ⟨[0, 3, 12, 6], by decide +kernel, by decide +kernel⟩
example : compare ([[2, 3], [4, 5]] : Grid ℚ) [[2, 3], [1, 7]] = .ok ([[0, 0], [3, -2]], (-2, 3)) := by decide +kernel
example : compare ([[2, 3], [4, 5]] : Grid ℚ) [[2, 3]] = .error .valueError := compare_shape _ _ (by decide)

end Dedop.Figures
