/-!
# Python dictionaries as association lists

`Dict K V` models a Python `dict` / `OrderedDict`: a list of key/value pairs in insertion order.
Only the operations used by the modelled code are defined.
-/
namespace Dedop

/-- Python exceptions that the modelled code can raise, as values. -/
inductive PyErr where
  | keyError (key : String)
  | indexError
  | typeError
  | valueError
  | zeroDivision
  | workspaceError (msg : String)
  | ioError
  | other (msg : String)
  deriving DecidableEq, Repr

/-- A Python dictionary (or an ordered table), in the order of insertion; not tied to a line of the code. -/
abbrev Dict (K V : Type) := List (K × V)

namespace Dict
variable {K V : Type} [DecidableEq K]

/-- `d.get(k)`; `none` models an absent key. -/
def get? : Dict K V → K → Option V
  | [], _ => none
  | (k', v) :: t, k => if k = k' then some v else get? t k

/-- `d[k] = v`: replaces in place or appends. -/
def set : Dict K V → K → V → Dict K V
  | [], k, v => [(k, v)]
  | (k', v') :: t, k, v => if k = k' then (k', v) :: t else (k', v') :: set t k v

/-- `d.pop(k)` for a present key / no-op for an absent one. -/
def erase : Dict K V → K → Dict K V
  | [], _ => []
  | (k', v') :: t, k => if k = k' then erase t k else (k', v') :: erase t k

theorem get?_set (d : Dict K V) (k j : K) (v : V) :
    get? (set d k v) j = if j = k then some v else get? d j := by
  induction d with
  | nil => simp [set, get?]
  | cons p t ih =>
    obtain ⟨k', v'⟩ := p
    by_cases h : k = k' <;> by_cases hj : j = k' <;> simp [set, get?, h, hj, ih] <;> grind

theorem get?_erase (d : Dict K V) (k j : K) :
    get? (erase d k) j = if j = k then none else get? d j := by
  induction d with
  | nil => simp [erase, get?]
  | cons p t ih =>
    obtain ⟨k', v'⟩ := p
    by_cases h : k = k' <;> by_cases hj : j = k' <;> simp [erase, get?, h, hj, ih] <;> grind

end Dict
end Dedop
