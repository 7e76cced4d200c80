import Verif.Basic.Dict
import Verif.Basic.Tactics

/-!
# The command line (model)

Models the parsers that `/repo/dedop/cli/main.py` declares for its commands and what `argparse` of the Python library (Python 3.11,
`ArgumentParser._parse_known_args` and what it calls) makes of the words after the name of the command.  The parsers above
(`cate.util.cli`, not part of `/repo`) hand over the words that follow the name of the command.  Types, choices, groups and files with
arguments are not used by the commands and are left out.
-/
namespace Dedop.Args

/-- A word of the command line.  (`main.py:1292-1298`) -/
abbrev Word := List Char

/-- How many words an option takes: `action='store_true'`, one value, `nargs='*'`, and `-h` which prints the help and ends
(`main.py:140-153`). -/
inductive Arity where
  | flag
  | one
  | many
  | help
  deriving DecidableEq, Repr

/-- An option: its names, the attribute it sets, the words it takes (`main.py:140-153`). -/
structure Opt where
  names : List Word
  dest : String
  arity : Arity
  deriving DecidableEq, Repr

/-- `nargs` of a positional argument: none, `'?'`, `'*'`, `'+'` (`main.py:222-241, 698, 706, 712`). -/
inductive NArgs where
  | one
  | opt
  | star
  | plus
  deriving DecidableEq, Repr

/-- A positional argument (`main.py:222-241`). -/
structure Pos where
  dest : String
  nargs : NArgs
  deriving DecidableEq, Repr

/-- A parser: what `add_argument` was called with (`main.py:138-153`). -/
structure Parser where
  opts : List Opt
  poss : List Pos
  deriving DecidableEq, Repr

/-- The value of an attribute.  (`main.py:156-203`) -/
inductive Value where
  | none
  | flag (b : Bool)
  | word (w : Word)
  | words (ws : List Word)
  deriving DecidableEq, Repr

/-- The namespace handed to the command (`main.py:156`). -/
abbrev Ns := String → Value

/-- Ways in which `argparse` ends without a namespace; all but `help` print the usage and an error.  `fuel` never occurs.  (for `main.py:1292-1298`) -/
inductive Err where
  | help
  | ambiguous
  | unrecognized
  | expected
  | ignored
  | required
  | fuel
  deriving DecidableEq, Repr

/-- What a word is taken for: an argument, the first `--`, or an option (with its name, if known, and the value in the
same word, and whether that follows an equals sign):
the letters `A`, `-`, `O` of `_parse_known_args`.  (for `main.py:1292-1298`) -/
inductive Sym where
  | arg
  | dash
  | opt (name : Word) (o : Option Opt) (explicit : Option (Bool × Word))
  deriving DecidableEq, Repr

/-- Whether the word was taken for an option.  (letter `O` of `_parse_known_args`)  (for `main.py:1292-1298`) -/
def Sym.isOpt : Sym → Bool
  | .opt .. => true
  | _ => false

/-- The word `--`.  (for `main.py:1292-1298`) -/
def dd : Word := ['-', '-']

/-- `_option_string_actions`: the names of options in the order of declaration.  (for `main.py:1292-1298`) -/
def Parser.strings (p : Parser) : List (Word × Opt) := p.opts.flatMap fun o => o.names.map fun n => (n, o)

/-- `_option_string_actions[name]`.  (for `main.py:1292-1298`) -/
def Parser.lookup (p : Parser) (w : Word) : Option Opt := (p.strings.find? fun x => x.1 == w).map (·.2)

/-- `w.split('=', 1)` if there is an equals sign.  (for `main.py:1292-1298`) -/
def splitEq (w : Word) : Option (Word × Word) :=
  if '=' ∈ w then some (w.takeWhile (· != '='), (w.dropWhile (· != '=')).tail) else none

/-- `_negative_number_matcher`: `^-\d+$|^-\d*\.\d+$`; digits are ASCII only in the model.  (for `main.py:1292-1298`) -/
def negativeNumber (w : Word) : Bool :=
  let w := if w.getLast? = some '\n' then w.dropLast else w
  match w with
  | '-' :: r =>
    (r != [] && r.all Char.isDigit) ||
    (match r.dropWhile Char.isDigit with
     | '.' :: s => s != [] && s.all Char.isDigit
     | _ => false)
  | _ => false

/-- `_get_option_tuples`: all names a word may be short for.  (for `main.py:1292-1298`) -/
def tuples (p : Parser) (w : Word) : List (Word × Opt × Option (Bool × Word)) :=
  if w.tail.head? = some '-' then
    let (pre, explicit) := match splitEq w with
      | some (a, b) => (a, some (true, b))
      | none => (w, none)
    (p.strings.filter fun x => pre.isPrefixOf x.1).map fun x => (x.1, x.2, explicit)
  else
    p.strings.filterMap fun x =>
      if x.1 = w.take 2 then some (x.1, x.2, some (false, w.drop 2))
      else if w.isPrefixOf x.1 then some (x.1, x.2, none)
      else none

/-- The last part of `_parse_optional`: abbreviations, negative numbers, words with a space, unknown options.  (for `main.py:1292-1298`) -/
def abbreviated (p : Parser) (w : Word) : Except Err Sym :=
  match tuples p w with
  | _ :: _ :: _ => .error .ambiguous
  | [t] => .ok (.opt t.1 (some t.2.1) t.2.2)
  | [] => if negativeNumber w then .ok .arg else if ' ' ∈ w then .ok .arg else .ok (.opt w none none)

/-- `_parse_optional`.  (for `main.py:1292-1298`) -/
def parseOptional (p : Parser) (w : Word) : Except Err Sym :=
  match w with
  | [] => .ok .arg
  | c :: rest =>
    if c ≠ '-' then .ok .arg
    else match p.lookup w with
      | some o => .ok (.opt w (some o) none)
      | none =>
        if rest = [] then .ok .arg
        else match splitEq w with
          | some (a, b) =>
            (match p.lookup a with
             | some o => .ok (.opt a (some o) (some (true, b)))
             | none => abbreviated p w)
          | none => abbreviated p w

/-- The first part of `_parse_known_args`: what each word is taken for; after `--` all are arguments.  (for `main.py:1292-1298`) -/
def classify (p : Parser) : List Word → Except Err (List (Word × Sym))
  | [] => .ok []
  | w :: ws =>
    if w = dd then .ok ((w, .dash) :: ws.map fun v => (v, .arg))
    else match parseOptional p w with
      | .error e => .error e
      | .ok s => match classify p ws with
        | .error e => .error e
        | .ok l => .ok ((w, s) :: l)

/-- A piece of the regular expressions of `_get_nargs_pattern`: a class of letters, repeated.  (for `main.py:1292-1298`) -/
structure Item where
  ok : Sym → Bool
  lo : Nat
  hi : Option Nat

/-- The letter `A`.  (for `main.py:1292-1298`) -/
def isArg : Sym → Bool
  | .arg => true
  | _ => false
/-- The letter `-`.  (for `main.py:1292-1298`) -/
def isDash : Sym → Bool
  | .dash => true
  | _ => false

/-- The repetitions of a piece at the start of the letters, the longest first.  (for `main.py:1292-1298`) -/
def Item.lengths (i : Item) (l : List Sym) : List Nat :=
  let m := (l.takeWhile i.ok).length
  let m := match i.hi with
    | some h => min h m
    | none => m
  (List.range' i.lo (m + 1 - i.lo)).reverse

/-- `_get_nargs_pattern` for positional arguments: `(-*A-*)`, `(-*A?-*)`, `(-*[A-]*)`, `(-*A[A-]*)`.  (for `main.py:1292-1298`) -/
def NArgs.items : NArgs → List Item
  | .one => [⟨isDash, 0, none⟩, ⟨isArg, 1, some 1⟩, ⟨isDash, 0, none⟩]
  | .opt => [⟨isDash, 0, none⟩, ⟨isArg, 0, some 1⟩, ⟨isDash, 0, none⟩]
  | .star => [⟨isDash, 0, none⟩, ⟨fun s => isArg s || isDash s, 0, none⟩]
  | .plus => [⟨isDash, 0, none⟩, ⟨isArg, 1, some 1⟩, ⟨fun s => isArg s || isDash s, 0, none⟩]

/-- `re.match` of one group with backtracking, `k` is the rest of the match.  (for `main.py:1292-1298`) -/
def matchGroup {β : Type} : List Item → List Sym → (Nat → List Sym → Option β) → Option β
  | [], l, k => k 0 l
  | i :: is, l, k => (i.lengths l).findSome? fun n => matchGroup is (l.drop n) fun m l' => k (n + m) l'

/-- `re.match` of several groups: the lengths of the groups.  (for `main.py:1292-1298`) -/
def matchGroups : List NArgs → List Sym → Option (List Nat)
  | [], _ => some []
  | g :: gs, l => matchGroup g.items l fun n l' => (matchGroups gs l').map (n :: ·)

/-- `_match_arguments_partial`: as many of the positional arguments as possible.  (for `main.py:1292-1298`) -/
def matchPartial (gs : List NArgs) (l : List Sym) : List Nat :=
  ((List.range (gs.length + 1)).reverse.findSome? fun i => matchGroups (gs.take i) l).getD []

/-- `_match_argument` for an option: the number of words it takes; `none` is the error "expected one argument".  (for `main.py:1292-1298`) -/
def Arity.count (a : Arity) (l : List Sym) : Option Nat :=
  match a with
  | .flag | .help => some 0
  | .one => match l with
    | .arg :: _ => some 1
    | _ => none
  | .many => some (l.takeWhile isArg).length

/-- `_get_values` for an option.  (for `main.py:1292-1298`) -/
def optValue (a : Arity) (ws : List Word) : Value :=
  match a, ws with
  | .one, [w] => .word w
  | _, ws => .words ws

/-- `_get_values` for a positional argument: the first `--` is removed.  (for `main.py:1292-1298`) -/
def posValue (n : NArgs) (ws : List Word) : Value :=
  match n, ws.erase dd with
  | .opt, [] => .none
  | .opt, [w] => .word w
  | .one, [w] => .word w
  | _, ws => .words ws

/-- The action of an option: `store_true`, `store`, help.  (for `main.py:1292-1298`) -/
def act (ns : Ns) (o : Opt) (ws : List Word) : Except Err Ns :=
  match o.arity with
  | .help => .error .help
  | .flag => .ok (Function.update ns o.dest (.flag true))
  | a => .ok (Function.update ns o.dest (optValue a ws))

/-- The actions of the options of one word, in order.  (for `main.py:1292-1298`) -/
def actAll (ns : Ns) : List (Opt × List Word) → Except Err Ns
  | [] => .ok ns
  | (o, ws) :: l => match act ns o ws with
    | .error e => .error e
    | .ok ns => actAll ns l

/-- What one word with options amounts to: the options with the words they take, how many of the following words are taken, and a rest which is
no option.  (for `main.py:1292-1298`) -/
structure Cluster where
  acts : List (Opt × List Word)
  taken : Nat
  extra : List Word

/-- The loop of `consume_optional`: the options in one word (`-sq`).  `explicit` is the rest of the word.  (for `main.py:1292-1298`) -/
def cluster (p : Parser) (following : List (Word × Sym)) : Nat → Word → Opt → Option (Bool × Word) → Except Err Cluster
  | 0, _, _, _ => .error .fuel
  | fuel + 1, name, o, explicit =>
    match explicit with
    | some (eq, x) =>
      match o.arity.count [.arg] with
      | some 0 =>
        (match x with
         | c :: r =>
           if name.tail.head? ≠ some '-' then
             if eq ∨ c = '-' then .error .ignored
             else match p.lookup ['-', c] with
               | some o' =>
                 let rest := match r with
                   | [] => none
                   | '=' :: y => some (true, y)
                   | r => some (false, r)
                 match cluster p following fuel ['-', c] o' rest with
                 | .error e => .error e
                 | .ok k => .ok { k with acts := (o, []) :: k.acts }
               | none => .ok ⟨[(o, [])], 0, ['-' :: x]⟩
           else .error .ignored
         | [] => .error .ignored)
      | some _ => .ok ⟨[(o, [x])], 0, []⟩
      | none => .error .expected
    | none =>
      match o.arity.count (following.map (·.2)) with
      | some n => .ok ⟨[(o, (following.take n).map (·.1))], n, []⟩
      | none => .error .expected

/-- The state of the loop: words not yet looked at, positional arguments not yet found, the namespace, the words nobody wants.  (for `main.py:1292-1298`) -/
structure St where
  todo : List (Word × Sym)
  poss : List Pos
  ns : Ns
  extras : List Word

/-- `consume_positionals`.  (for `main.py:1292-1298`) -/
def givePos : List Pos → List Nat → List (Word × Sym) → Ns → List (Word × Sym) × List Pos × Ns
  | q :: qs, n :: ns, l, env => givePos qs ns (l.drop n) (Function.update env q.dest (posValue q.nargs ((l.take n).map (·.1))))
  | qs, _, l, env => (l, qs, env)

/-- `consume_positionals`.  (for `main.py:1292-1298`) -/
def consumePos (s : St) : St :=
  let counts := matchPartial (s.poss.map (·.nargs)) (s.todo.map (·.2))
  let r := givePos s.poss counts s.todo s.ns
  { s with todo := r.1, poss := r.2.1, ns := r.2.2 }

/-- `consume_optional` with the option at the head of the words.  (for `main.py:1292-1298`) -/
def consumeOpt (p : Parser) (s : St) : Except Err St :=
  match s.todo with
  | (w, .opt name o explicit) :: following =>
    match o with
    | none => .ok { s with todo := following, extras := s.extras ++ [w] }
    | some o =>
      match cluster p following (w.length + 1) name o explicit with
      | .error e => .error e
      | .ok k => match actAll s.ns k.acts with
        | .error e => .error e
        | .ok ns => .ok { s with todo := following.drop k.taken, ns := ns, extras := s.extras ++ k.extra }
  | _ => .ok s

/-- The main loop of `_parse_known_args`.  (for `main.py:1292-1298`) -/
def loop (p : Parser) : Nat → St → Except Err St
  | 0, _ => .error .fuel
  | fuel + 1, s =>
    if s.todo.any (fun x => x.2.isOpt) then
      let s' := if (s.todo.head?.any fun x => x.2.isOpt) then s else consumePos s
      if s'.todo.length < s.todo.length then loop p fuel s'
      else
        let s' := { s' with
          extras := s'.extras ++ (s'.todo.takeWhile fun x => !x.2.isOpt).map (·.1)
          todo := s'.todo.dropWhile fun x => !x.2.isOpt }
        match consumeOpt p s' with
        | .error e => .error e
        | .ok s => loop p fuel s
    else .ok s

/-- The defaults: `False` for flags, `None` for everything else.  (for `main.py:1292-1298`) -/
def Parser.defaults (p : Parser) : Ns := fun d =>
  if p.opts.any (fun o => o.dest == d && o.arity == .flag) then .flag false else .none

/-- A positional argument that must be there: all but `'?'`.  (for `main.py:1292-1298`) -/
def Pos.required (q : Pos) : Bool := q.nargs != .opt

/-- `parse_args`.  (for `main.py:1292-1298`) -/
def parse (p : Parser) (args : List Word) : Except Err Ns :=
  match classify p args with
  | .error e => .error e
  | .ok l =>
    match loop p (l.length + 1) ⟨l, p.poss, p.defaults, []⟩ with
    | .error e => .error e
    | .ok s =>
      let s' := consumePos s
      if s'.poss.any Pos.required then .error .required
      else if s'.extras ++ s'.todo.map (·.1) = [] then .ok s'.ns
      else .error .unrecognized

end Dedop.Args
