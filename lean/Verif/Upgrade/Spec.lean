import Verif.Upgrade.Model

/-!
# Configuration upgrade (specification)

What a changelog *means*, independently of how the code replays it.
-/
namespace Dedop.Upgrade

/-- The two recognised effects of a changelog operation. -/
inductive Effect where
  | put   -- "+" or "*": the parameter takes the default's value
  | del   -- "-": the parameter is removed
  deriving DecidableEq, Repr

/-- Meaning of the operation symbol; anything else is ignored. -/
def effectOf (op : String) : Option Effect :=
  if op = "+" ∨ op = "*" then some .put else if op = "-" then some .del else none

/-- All operations of changelog entries strictly newer than version `v`, in order. -/
def opsNewerThan (v : Int) (log : List Change) : List (String × String) :=
  (log.filter (fun c => decide (v < c.version))).flatMap (·.parameters)

/-- The last recognised effect on key `k` in a list of operations. -/
def lastEffect (ops : List (String × String)) (k : String) : Option Effect :=
  ((ops.filter (fun p => decide (p.1 = k))).filterMap (fun p => effectOf p.2)).getLast?

/-- The version a file carries; a file without one is older than every numbered version. -/
def Config.storedVersion {V : Type} (c : Config V) : Int :=
  (c.metainf.bind (·.version)).getD (-1)

/-- Two configurations are the same to a reader: same metadata, same value for every key
(Python dict equality; the file is written with sorted keys). -/
def Config.Same {V : Type} (a b : Config V) : Prop :=
  a.metainf = b.metainf ∧ ∀ k, a.params.get? k = b.params.get? k

end Dedop.Upgrade
