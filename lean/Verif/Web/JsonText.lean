import Verif.Workspace.Files
import Mathlib.Data.List.Sort

/-!
# Configurations as text (model)

Models how a configuration becomes text and text a configuration again: `json.dumps(…, indent=4,
separators=(',', ': '), sort_keys=True)` of `/repo/dedop/webapi/websocket.py:119-125` and
`/repo/dedop/ui/workspace_manager.py:356-357`, `json.load(…, object_pairs_hook=OrderedDict)` of
`workspace_manager.py:366-369`, and with them `save_configs`, `get_configs` and `get_config_json`.

The two functions of Python's `json` are modelled after its documentation and source (`json/encoder.py`,
`json/scanner.py`, `json/decoder.py` of CPython).  A number is its text: that `repr` of a number is read as
the same number is taken as given.  Strings hold characters, no unpaired surrogates.  The limit on the depth
of recursion is not modelled.
-/
namespace Dedop.JsonText

open Dedop.Names Dedop.Workspace

/-- The constants of `json.dumps`. -/
inductive Lit where
  | null | true | false | nan | infinity | minusInfinity
  deriving DecidableEq, Repr

/-- A value that JSON-RPC delivers and `json.dumps` accepts (`websocket.py:119-125`); the members of an
object in the order of the dictionary. -/
inductive Json where
  | lit (l : Lit)
  | num (text : Name)
  | str (s : Name)
  | arr (items : List Json)
  | obj (members : List (Name × Json))
  deriving Repr

/-! ## Writing -/

/-- The text of a constant. -/
def Lit.text : Lit → Name
  | .null => "null".toList
  | .true => "true".toList
  | .false => "false".toList
  | .nan => "NaN".toList
  | .infinity => "Infinity".toList
  | .minusInfinity => "-Infinity".toList

/-- A hexadecimal digit, as `'{:x}'` writes it. -/
def hexDigit (d : Nat) : Char := if d < 10 then Char.ofNat (48 + d) else Char.ofNat (87 + d)

/-- `'\\u{0:04x}'` (`json/encoder.py`, `py_encode_basestring_ascii`). -/
def unicodeEscape (n : Nat) : Name :=
  ['\\', 'u', hexDigit (n / 4096 % 16), hexDigit (n / 256 % 16), hexDigit (n / 16 % 16), hexDigit (n % 16)]

/-- The escapes with a letter (`ESCAPE_DCT` of `json/encoder.py`). -/
def letters : List (Char × Char) :=
  [('"', '"'), ('\\', '\\'), ('\n', 'n'), ('\r', 'r'), ('\t', 't'), ('\x08', 'b'), ('\x0c', 'f')]

/-- One character of a string: everything outside the printable ASCII characters is escaped. -/
def escape (c : Char) : Name :=
  match letters.lookup c with
  | some e => ['\\', e]
  | none =>
    if 0x20 ≤ c.toNat ∧ c.toNat ≤ 0x7e then [c]
    else if c.toNat < 0x10000 then unicodeEscape c.toNat
    else
      let n := c.toNat - 0x10000
      unicodeEscape (0xd800 + n / 0x400 % 0x400) ++ unicodeEscape (0xdc00 + n % 0x400)

/-- A string with its quotes. -/
def quote (s : Name) : Name := '"' :: s.flatMap escape ++ ['"']

/-- `newline_indent` at a level, four blanks for each. -/
def newline (level : Nat) : Name := '\n' :: List.replicate (4 * level) ' '

/-- Elements with the separator between them. -/
def joined (sep : Name) : List Name → Name
  | [] => []
  | [x] => x
  | x :: y :: rest => x ++ sep ++ joined sep (y :: rest)

/-- Elements between brackets, each on a line of its own; nothing between the brackets if there are none. -/
def bracketed (level : Nat) (opening closing : Char) (elements : List Name) : Name :=
  if elements = [] then [opening, closing]
  else opening :: (newline (level + 1) ++ joined (',' :: newline (level + 1)) elements ++ newline level ++ [closing])

/-- `sorted(dct.items())` for the members of an object, whose keys are different. -/
def byKey {α : Type} (l : List (Name × α)) : List (Name × α) := l.insertionSort (fun a b => a.1 ≤ b.1)

/-- A member: the key, `': '` and the value. -/
def member (kv : Name × Name) : Name := quote kv.1 ++ ": ".toList ++ kv.2

mutual
/-- The text of a value at a level of indentation (`_iterencode` of `json/encoder.py`). -/
def render (level : Nat) : Json → Name
  | .lit l => l.text
  | .num t => t
  | .str s => quote s
  | .arr items => bracketed level '[' ']' (renderItems (level + 1) items)
  | .obj members => bracketed level '{' '}' ((byKey (renderMembers (level + 1) members)).map member)
/-- The texts of the elements of an array. -/
def renderItems (level : Nat) : List Json → List Name
  | [] => []
  | x :: rest => render level x :: renderItems level rest
/-- The keys with the texts of the values. -/
def renderMembers (level : Nat) : List (Name × Json) → List (Name × Name)
  | [] => []
  | kv :: rest => renderMember level kv :: renderMembers level rest
/-- A key with the text of its value. -/
def renderMember (level : Nat) : Name × Json → Name × Name
  | (k, v) => (k, render level v)
end

/-- `json.dumps(v, indent=4, separators=(',', ': '), sort_keys=True)` (`websocket.py:120`, `:122`, `:124`;
`workspace_manager.py:357`). -/
def dumps (v : Json) : Name := render 0 v

/-! ## Reading -/

/-- The rest after a given beginning. -/
def strip? : Name → Name → Option Name
  | [], s => some s
  | _ :: _, [] => none
  | p :: ps, c :: s => if p = c then strip? ps s else none

/-- White space (`json/decoder.py`, `WHITESPACE`). -/
def isBlank (c : Char) : Bool := c = ' ' ∨ c = '\t' ∨ c = '\n' ∨ c = '\r'

/-- The text after white space. -/
def skip (s : Name) : Name := s.dropWhile isBlank

/-- The value of a hexadecimal digit. -/
def hexVal (c : Char) : Option Nat :=
  if '0'.toNat ≤ c.toNat ∧ c.toNat ≤ '9'.toNat then some (c.toNat - '0'.toNat)
  else if 'a'.toNat ≤ c.toNat ∧ c.toNat ≤ 'f'.toNat then some (c.toNat - 'a'.toNat + 10)
  else if 'A'.toNat ≤ c.toNat ∧ c.toNat ≤ 'F'.toNat then some (c.toNat - 'A'.toNat + 10)
  else none

/-- Four hexadecimal digits (`_decode_uXXXX` of `json/decoder.py`). -/
def hex4 : Name → Option (Nat × Name)
  | a :: b :: c :: d :: rest =>
    match hexVal a, hexVal b, hexVal c, hexVal d with
    | some a, some b, some c, some d => some (a * 4096 + b * 256 + c * 16 + d, rest)
    | _, _, _, _ => none
  | _ => none

/-- The character of an escape without `u` (`BACKSLASH` of `json/decoder.py`). -/
def unletters : List (Char × Char) :=
  [('"', '"'), ('\\', '\\'), ('/', '/'), ('b', '\x08'), ('f', '\x0c'), ('n', '\n'), ('r', '\r'), ('t', '\t')]

/-- What follows a backslash (`py_scanstring` of `json/decoder.py`); two surrogates make one character. -/
def unescape : Name → Option (Char × Name)
  | [] => none
  | e :: rest =>
    if e = 'u' then
      match hex4 rest with
      | none => none
      | some (n, rest) =>
        if 0xd800 ≤ n ∧ n < 0xdc00 then
          match strip? ['\\', 'u'] rest with
          | none => none
          | some rest =>
            match hex4 rest with
            | none => none
            | some (m, rest) =>
              if 0xdc00 ≤ m ∧ m < 0xe000 then
                some (Char.ofNat (0x10000 + ((n - 0xd800) * 0x400 + (m - 0xdc00))), rest)
              else none
        else if 0xdc00 ≤ n ∧ n < 0xe000 then none
        else some (Char.ofNat n, rest)
    else
      match unletters.lookup e with
      | some c => some (c, rest)
      | none => none

/-- A string after its opening quote, up to the closing one; control characters are refused.  The number
bounds the characters and is never smaller than the length of the text. -/
def scanString : Nat → Name → Option (Name × Name)
  | 0, _ => none
  | _ + 1, [] => none
  | n + 1, c :: rest =>
    if c = '"' then some ([], rest)
    else if c = '\\' then
      match unescape rest with
      | none => none
      | some (d, rest) =>
        match scanString n rest with
        | none => none
        | some (s, rest) => some (d :: s, rest)
    else if c.toNat < 0x20 then none
    else
      match scanString n rest with
      | none => none
      | some (s, rest) => some (c :: s, rest)

/-- The whole part of a number: `0`, or digits which do not begin with `0` (`NUMBER_RE` of `json/scanner.py`). -/
def scanInt : Name → Option (Name × Name)
  | [] => none
  | c :: r =>
    if c = '0' then some ([c], r)
    else if c.isDigit then some (c :: r.takeWhile Char.isDigit, r.dropWhile Char.isDigit)
    else none

/-- The fraction of a number, if there is one: a point and digits (`NUMBER_RE` of `json/scanner.py`). -/
def scanFrac : Name → Name × Name
  | p :: d :: r =>
    if p = '.' ∧ d.isDigit = true then (p :: d :: r.takeWhile Char.isDigit, r.dropWhile Char.isDigit) else ([], p :: d :: r)
  | s => ([], s)

/-- The exponent of a number, if there is one: the letter, perhaps a sign, and digits (`NUMBER_RE` of `json/scanner.py`). -/
def scanExp : Name → Name × Name
  | [] => ([], [])
  | e :: s =>
    if e = 'e' ∨ e = 'E' then
      match s with
      | [] => ([], e :: s)
      | c :: r =>
        if c.isDigit then (e :: c :: r.takeWhile Char.isDigit, r.dropWhile Char.isDigit)
        else if c = '-' ∨ c = '+' then
          match r with
          | [] => ([], e :: s)
          | d :: r => if d.isDigit then (e :: c :: d :: r.takeWhile Char.isDigit, r.dropWhile Char.isDigit) else ([], e :: s)
        else ([], e :: s)
    else ([], e :: s)

/-- A number without its sign (`NUMBER_RE` of `json/scanner.py`). -/
def scanUnsigned (s : Name) : Option (Name × Name) :=
  match scanInt s with
  | none => none
  | some (i, r) => some (i ++ (scanFrac r).1 ++ (scanExp (scanFrac r).2).1, (scanExp (scanFrac r).2).2)

/-- A number at the beginning of the text (`NUMBER_RE` of `json/scanner.py`). -/
def scanNumber (s : Name) : Option (Name × Name) :=
  match strip? ['-'] s with
  | some r =>
    match scanUnsigned r with
    | none => none
    | some (t, rest) => some ('-' :: t, rest)
  | none => scanUnsigned s

/-- The characters of numbers (`NUMBER_RE` of `json/scanner.py`). -/
def isNum (c : Char) : Bool := c.isDigit || c = '-' || c = '+' || c = '.' || c = 'e' || c = 'E'

/-- A constant or a number at the beginning of the text. -/
def scanAtom (s : Name) : Option (Json × Name) :=
  match strip? "null".toList s with
  | some r => some (.lit .null, r)
  | none =>
  match strip? "true".toList s with
  | some r => some (.lit .true, r)
  | none =>
  match strip? "false".toList s with
  | some r => some (.lit .false, r)
  | none =>
  match strip? "NaN".toList s with
  | some r => some (.lit .nan, r)
  | none =>
  match strip? "Infinity".toList s with
  | some r => some (.lit .infinity, r)
  | none =>
  match strip? "-Infinity".toList s with
  | some r => some (.lit .minusInfinity, r)
  | none =>
    match scanNumber s with
    | none => none
    | some (t, rest) => some (.num t, rest)

mutual
/-- `scan_once` of `json/scanner.py`.  The first argument bounds the depth of the recursion; it is never
smaller than the length of the text. -/
def scan : Nat → Name → Option (Json × Name)
  | 0, _ => none
  | _ + 1, [] => none
  | n + 1, c :: rest =>
    if c = '"' then
      match scanString (rest.length + 1) rest with
      | none => none
      | some (s, rest) => some (.str s, rest)
    else if c = '[' then
      match skip rest with
      | [] => none
      | d :: rest' =>
        if d = ']' then some (.arr [], rest')
        else
          match scanItems n (d :: rest') with
          | none => none
          | some (l, rest) => some (.arr l, rest)
    else if c = '{' then
      match skip rest with
      | [] => none
      | d :: rest' =>
        if d = '}' then some (.obj [], rest')
        else
          match scanMembers n (d :: rest') with
          | none => none
          | some (l, rest) => some (.obj (l.foldl (fun d kv => Dict.set d kv.1 kv.2) []), rest)
    else scanAtom (c :: rest)
/-- The elements of an array up to the closing bracket (`JSONArray` of `json/decoder.py`). -/
def scanItems : Nat → Name → Option (List Json × Name)
  | 0, _ => none
  | n + 1, s =>
    match scan n s with
    | none => none
    | some (v, rest) =>
      match skip rest with
      | [] => none
      | c :: rest =>
        if c = ']' then some ([v], rest)
        else if c = ',' then
          match scanItems n (skip rest) with
          | none => none
          | some (l, rest) => some (v :: l, rest)
        else none
/-- The members of an object up to the closing bracket (`JSONObject` of `json/decoder.py`). -/
def scanMembers : Nat → Name → Option (List (Name × Json) × Name)
  | 0, _ => none
  | _ + 1, [] => none
  | n + 1, q :: s =>
    if q = '"' then
      match scanString (s.length + 1) s with
      | none => none
      | some (k, rest) =>
        match skip rest with
        | [] => none
        | c :: rest =>
          if c = ':' then
            match scan n (skip rest) with
            | none => none
            | some (v, rest) =>
              match skip rest with
              | [] => none
              | c :: rest =>
                if c = '}' then some ([(k, v)], rest)
                else if c = ',' then
                  match scanMembers n (skip rest) with
                  | none => none
                  | some (l, rest) => some ((k, v) :: l, rest)
                else none
          else none
    else none
end

/-- `json.loads(text, object_pairs_hook=OrderedDict)` (`workspace_manager.py:368`): a `ValueError` unless the
whole text is one value. -/
def loads (s : Name) : Except PyErr Json :=
  match scan (s.length + 1) (skip s) with
  | some (v, rest) => if skip rest = [] then .ok v else .error .valueError
  | none => .error .valueError

/-! ## The requests -/

/-- `[name for name in config_json]` with `str.lower` applied to each (`workspace_manager.py:264-265`): the
keys of an object, the elements of an array of strings, the characters of a string; `TypeError` for everything
else. -/
def names : Json → Except PyErr (List Name)
  | .obj members => .ok (members.map (·.1))
  | .arr items =>
    items.foldr (fun x r => match x, r with
      | .str s, .ok l => .ok (s :: l)
      | _, _ => .error .typeError) (.ok [])
  | .str s => .ok (s.map fun c => [c])
  | _ => .error .typeError

/-- `get_config_json` (`workspace_manager.py:261-265`) with `str.lower` given: the value in the file and its
names in the order of their lower-case form. -/
def getConfigJson (lower : Name → Name) (fs : FS) (w c key : Name) : Except PyErr (Json × List Name) :=
  match Dict.get? fs (cfgFile w c key) with
  | some (.file text) =>
    match loads text with
    | .error e => .error e
    | .ok v =>
      match names v with
      | .error e => .error e
      | .ok l => .ok (v, l.insertionSort (fun a b => lower a ≤ lower b))
  | _ => .error .ioError

/-- What `get_configs` sends (`websocket.py:97-109`). -/
structure Configs where
  name : Name
  chd : Json
  chdOrder : List Name
  cnf : Json
  cnfOrder : List Name
  cst : Json
  cstOrder : List Name

/-- `get_configs` (`websocket.py:97-109`). -/
def getConfigs (lower : Name → Name) (fs : FS) (w c : Name) : Except PyErr Configs :=
  match getConfigJson lower fs w c "CHD".toList with
  | .error e => .error e
  | .ok (chd, chdOrder) =>
    match getConfigJson lower fs w c "CNF".toList with
    | .error e => .error e
    | .ok (cnf, cnfOrder) =>
      match getConfigJson lower fs w c "CST".toList with
      | .error e => .error e
      | .ok (cst, cstOrder) => .ok ⟨c, chd, chdOrder, cnf, cnfOrder, cst, cstOrder⟩

/-- `json.dumps(configurations.get(key), …)` (`websocket.py:119-125`): `None` for a part that was not sent. -/
def part (configurations : Dict Name Json) (key : Name) : Name :=
  dumps ((Dict.get? configurations key).getD (.lit .null))

/-- `save_configs` (`websocket.py:119-125`) for what the client sends. -/
def save (fs : FS) (w c : Name) (configurations : Dict Name Json) : Res Unit :=
  saveConfigs fs w c
    [("CHD".toList, part configurations "chd".toList), ("CNF".toList, part configurations "cnf".toList),
      ("CST".toList, part configurations "cst".toList)]

end Dedop.JsonText
