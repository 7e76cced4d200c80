import Verif.Objects.Claims
/-!
# Surfaces and bursts: where the claims fail, and examples (C110, C111)
-/
namespace Dedop.Objects

/-- Values for the examples: numbers and tuples. -/
inductive PyVal where
  | num (n : Int)
  | empty
  | more (first rest : PyVal)
  deriving DecidableEq

/-- A tuple. -/
def PyVal.tup : List PyVal → PyVal
  | [] => .empty
  | x :: t => .more x (tup t)

/-- The elements of a tuple. -/
def PyVal.elems : PyVal → Option (List PyVal)
  | .num _ => none
  | .empty => some []
  | .more x t => t.elems.map (x :: ·)

/-- The example values; the sum of squares stands for the norm, derived values are not computed. -/
def demoVals : Vals PyVal where
  no := .num 0
  zero := .num 0
  pack := .tup
  unpack := PyVal.elems
  unpack_pack l := by induction l with
    | nil => rfl
    | cons x t ih => simp [PyVal.tup, PyVal.elems, ih]
  norm | .num x, .num y, .num z => .num (x * x + y * y + z * z) | _, _, _ => .num 0
  derive _ _ := .error .typeError

/-- The class of surfaces without the names which every class has. -/
abbrev S : Cls := surfaceClass fun _ => false
/-- The class of bursts without the names which every class has. -/
abbrev B : Cls := burstClass fun _ => false
/-- A surface with a time. -/
def demoSurface : Except PyErr (Obj PyVal) := newSurface S demoVals (.num 0) (.num 7) [("time_surf", .num 5)]
/-- A burst with a velocity. -/
def demoBurst : Obj PyVal :=
  newBurst demoVals (.num 0) (.num 7) [("time_sar_ku", .num 5)] [("x_vel_sat_sar", .num 3), ("alt_sar_sat", .num 9)]

/-- What C110 would need: a value that the object accepts under the name of an attribute is what the attribute gives. -/
def ItemsAreAttributes {V : Type} (c : Cls) (p : Vals V) (o : Obj V) : Prop :=
  ∀ ops a v, a ∈ c.attrs.map (·.name) → (step c p (run c p o ops) (.setItem a v)).1 = .ok none →
    (getAttr c p (step c p (run c p o ops) (.setItem a v)).2 a).1 = .ok v

/-- C110 fails for a burst: the velocity stored as an item is accepted, the attribute keeps its value. -/
theorem burst_items_violated : ¬ ItemsAreAttributes B demoVals demoBurst := by
  intro h
  have := h [] "y_vel_sat_sar" (.num 8) (by decide +kernel) (by decide +kernel)
  revert this
  decide +kernel

/-- The velocity given in a dictionary is lost: the attribute is 0. -/
theorem burst_dictionary_velocity_lost :
    (getAttr B demoVals (newBurst demoVals (.num 0) (.num 7) [("x_vel_sat_sar", .num 3)] []) "x_vel_sat_sar").1 = .ok (.num 0) ∧
    (getAttr B demoVals (newBurst demoVals (.num 0) (.num 7) [] [("x_vel_sat_sar", .num 3)]) "x_vel_sat_sar").1 = .ok (.num 3) := by
  decide +kernel

/-- C110 fails for a surface: a position stored as an item, or given when the surface is made, is accepted, but the attribute
cannot be read. -/
theorem surface_items_violated :
    (∃ o, demoSurface = .ok o ∧ ¬ ItemsAreAttributes S demoVals o) ∧
    ∃ o, newSurface S demoVals (.num 0) (.num 7) [("ecef_surf", .tup [.num 1, .num 2, .num 3])] = .ok o ∧
      (getAttr S demoVals o "ecef_surf").1 = .error (.keyError "x_surf") := by
  refine ⟨⟨_, rfl, fun h => ?_⟩, _, rfl, by decide +kernel⟩
  have := h [] "ecef_surf" (.tup [.num 1, .num 2, .num 3]) (by decide +kernel) (by decide +kernel)
  revert this
  decide +kernel

/-- The norm of the velocity is out of date after the velocity changed. -/
theorem norm_violated :
    ¬ ∀ ops, (getAttr B demoVals (run B demoVals demoBurst ops) "vel_sat_sar_norm").1 = .ok (normOf demoVals demoBurst ops) := by
  intro h
  have := h [.get "vel_sat_sar_norm", .set "x_vel_sat_sar" (.num 5)]
  revert this
  decide +kernel

/-- C111 fails: reading the norm of the velocity of a burst, or the attribute `target_focused` of a surface, changes what
is read later. -/
theorem reading_changes_nothing_violated :
    (∃ ops, (getAttr B demoVals (run B demoVals demoBurst (.get "vel_sat_sar_norm" :: ops)) "vel_sat_sar_norm").1 ≠
      (getAttr B demoVals (run B demoVals demoBurst ops) "vel_sat_sar_norm").1) ∧
    ∃ o, demoSurface = .ok o ∧
      (step S demoVals (run S demoVals o [.get "target_focused"]) (.getItem "target_focused")).1 ≠
        (step S demoVals (run S demoVals o []) (.getItem "target_focused")).1 :=
  ⟨⟨[.set "x_vel_sat_sar" (.num 5)], by decide +kernel⟩, _, rfl, by decide +kernel⟩

/-- A short velocity is stored in part before the exception; a short position is not stored at all. -/
theorem short_vectors :
    (step B demoVals demoBurst (.set "vel_sat_sar" (.tup [.num 1, .num 2]))).1 = .error .indexError ∧
    (getAttr B demoVals (step B demoVals demoBurst (.set "vel_sat_sar" (.tup [.num 1, .num 2]))).2 "y_vel_sat_sar").1 =
      .ok (.num 2) ∧
    (step B demoVals demoBurst (.set "pos_sar_sat" (.tup [.num 1, .num 2]))).1 = .error .valueError ∧
    (getAttr B demoVals (step B demoVals demoBurst (.set "pos_sar_sat" (.tup [.num 1, .num 2]))).2 "x_sar_sat").1 =
      .error (.keyError "x_sar_sat") := by decide +kernel

/-- A history for `surface_attribute_holds_last_partial`: the vector stores its parts, the last value counts. -/
example : ∃ o, demoSurface = .ok o ∧
    (getAttr S demoVals (run S demoVals o [.set "ecef_surf" (.tup [.num 1, .num 2, .num 3]), .setItem "y_surf" (.num 4),
      .del "x_surf", .get "target_focused"]) "y_surf").1 = .ok (.num 4) ∧
    (getAttr S demoVals (run S demoVals o [.set "ecef_surf" (.tup [.num 1, .num 2, .num 3]), .setItem "y_surf" (.num 4),
      .del "x_surf", .get "target_focused"]) "x_surf").1 = .error (.keyError "x_surf") ∧
    (getAttr S demoVals (run S demoVals o [.set "ecef_surf" (.tup [.num 1, .num 2, .num 3])]) "ecef_surf").1 =
      .ok (.tup [.num 1, .num 2, .num 3]) := ⟨_, rfl, by decide +kernel⟩

/-- Unknown names: a surface refuses them when it is made, a burst accepts them. -/
theorem unknown_names :
    newSurface S demoVals (.num 0) (.num 7) [("tim_surf", .num 5)] = .error (.keyError "tim_surf") ∧
    (newBurst demoVals (.num 0) (.num 7) [("tim_sar_ku", .num 5)] []).entry "tim_sar_ku" = .ok (.num 5) := by
  refine ⟨rfl, rfl⟩

/-- A history for `norm_of_first_reading` and `burst_velocity_holds_last`. -/
example : (getAttr B demoVals demoBurst "vel_sat_sar_norm").1 = .ok (.num 9) ∧
    (getAttr B demoVals (run B demoVals demoBurst [.set "vel_sat_sar" (.tup [.num 1, .num 2, .num 2])]) "z_vel_sat_sar").1 =
      .ok (.num 2) := by decide +kernel

end Dedop.Objects
