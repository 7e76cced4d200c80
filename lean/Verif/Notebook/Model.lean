import Verif.Figures.Model
import Verif.Basic.Tactics
/-!
# Notebooks for products (model)

Models `dedop output inspect` and `dedop output compare` (`/repo/dedop/cli/main.py` 913-976), the notebooks they write and the
command that opens them (`/repo/dedop/ui/workspace_manager.py` 462-603).  Text is a list of characters.  How the file is encoded
is left out; so are lone surrogates, which Python allows in file names.
-/
namespace Dedop.Notebook
open Dedop.Names (Name basename)
open Dedop.Figures (dirname)

/-! ## Which products -/

/-- `os.path.join(dir, name)` (POSIX): an absolute name replaces the directory.  Used in `cli/main.py:920-963`. -/
def join (dir name : Name) : Name := if name.head? = some '/' then name else Names.join dir name

/-- Where the command runs: the outputs directories of the two configurations and the current directory.
For `cli/main.py:905-970`. -/
structure Dirs where
  outputs1 : Name
  outputs2 : Name
  cwd : Name
  deriving DecidableEq, Repr

/-- `os.path.abspath` without normalisation of `.` and `..`.  Used in `cli/main.py:926, 952, 963`. -/
def abspath (d : Dirs) (p : Name) : Name := join d.cwd p

/-- `execute_inspect`, the path of the product (`cli/main.py` 921-928), with a workspace and a configuration. -/
def inspectPath (d : Dirs) (f : Name) : Name := if dirname f ≠ [] then abspath d f else join d.outputs1 f

/-- `execute_compare`, the paths of the two products (`cli/main.py` 942-966), with workspaces and configurations.  An omitted second
file name is `None`; joining or normalising it is a `TypeError`. -/
def comparePaths (d : Dirs) (f1 : Name) (f2 : Option Name) : Except PyErr (Name × Name) :=
  let p1 := if dirname f1 ≠ [] then abspath d f1 else join d.outputs1 f1
  match f2 with
  | none => .error .typeError
  | some f2 => .ok (p1, if dirname f1 ≠ [] then abspath d f2 else join d.outputs2 f2)

/-! ## `repr` of a string -/

/-- A hexadecimal digit.  For `repr` in `workspace_manager.py:470, 481-482`. -/
def hexDigit (d : Nat) : Char := if d < 10 then Char.ofNat (48 + d) else Char.ofNat (87 + d)

/-- `n` as `w` hexadecimal digits.  For `repr` in `workspace_manager.py:470, 481-482`. -/
def hex : Nat → Nat → Name
  | 0, _ => []
  | w + 1, n => hex w (n / 16) ++ [hexDigit (n % 16)]

/-- A character in the `repr` of a string delimited by `q` (CPython `unicode_repr`).  Which characters outside ASCII are printable
is a parameter.  For `workspace_manager.py:470, 481-482`. -/
def reprChar (printable : Char → Bool) (q c : Char) : Name :=
  if c = q ∨ c = '\\' then ['\\', c]
  else if c = '\t' then ['\\', 't']
  else if c = '\n' then ['\\', 'n']
  else if c = '\r' then ['\\', 'r']
  else if c.toNat < 32 ∨ c.toNat = 127 then ['\\', 'x'] ++ hex 2 c.toNat
  else if c.toNat < 127 then [c]
  else if printable c then [c]
  else if c.toNat < 256 then ['\\', 'x'] ++ hex 2 c.toNat
  else if c.toNat < 65536 then ['\\', 'u'] ++ hex 4 c.toNat
  else ['\\', 'U'] ++ hex 8 c.toNat

/-- The delimiter: double quotes if there is a single and no double quote in the string.
For `workspace_manager.py:470, 481-482`. -/
def reprQuote (s : Name) : Char := if '\'' ∈ s ∧ '"' ∉ s then '"' else '\''

/-- `repr(s)`.  Used in `workspace_manager.py:470, 481-482`. -/
def pyRepr (printable : Char → Bool) (s : Name) : Name :=
  reprQuote s :: s.flatMap (reprChar printable (reprQuote s)) ++ [reprQuote s]

/-! ## The notebook -/

/-- `s.replace(pat, new)` for a pattern that is not empty: occurrences from left to right, not overlapping.
For `workspace_manager.py:470, 481-482`. -/
def replaceAux (pat new : Name) : Nat → Name → Name
  | 0, s => s
  | _ + 1, [] => []
  | n + 1, c :: t =>
    if pat.isPrefixOf (c :: t) then new ++ replaceAux pat new n ((c :: t).drop pat.length)
    else c :: replaceAux pat new n t

/-- `s.replace(pat, new)`; every round consumes a character.  Used in `workspace_manager.py:470, 481-482`. -/
def replace (pat new s : Name) : Name := replaceAux pat new (s.length + 1) s

/-- `.replace('\\', '\\\\')`: every backslash doubled.  `workspace_manager.py:470, 481-482`. -/
def doubleBackslash (s : Name) : Name := s.flatMap fun c => if c = '\\' then ['\\', '\\'] else [c]

/-- The text put into the template for a path (`workspace_manager.py` 465, 477-478). -/
def pathText (printable : Char → Bool) (path : Name) : Name := doubleBackslash (pyRepr printable path)

/-- `__L1B_FILE_PATH__` -/
def mark : Name := ['_', '_', 'L', '1', 'B', '_', 'F', 'I', 'L', 'E', '_', 'P', 'A', 'T', 'H', '_', '_']
/-- `__L1B_FILE_PATH_1__`.  The first placeholder (`workspace_manager.py:481`). -/
def mark1 : Name := ['_', '_', 'L', '1', 'B', '_', 'F', 'I', 'L', 'E', '_', 'P', 'A', 'T', 'H', '_', '1', '_', '_']
/-- `__L1B_FILE_PATH_2__`.  The second placeholder (`workspace_manager.py:482`). -/
def mark2 : Name := ['_', '_', 'L', '1', 'B', '_', 'F', 'I', 'L', 'E', '_', 'P', 'A', 'T', 'H', '_', '2', '_', '_']

/-- `inspect_l1b_product`, the text of the notebook (`workspace_manager.py` 463-465). -/
def inspectNotebook (printable : Char → Bool) (template path : Name) : Name := replace mark (pathText printable path) template

/-- `compare_l1b_products`, the text of the notebook (`workspace_manager.py` 475-478). -/
def compareNotebook (printable : Char → Bool) (template path1 path2 : Name) : Name :=
  replace mark2 (pathText printable path2) (replace mark1 (pathText printable path1) template)

/-! ## The command that opens it -/

/-- `jupyter notebook --notebook-dir "…" "…"` behind a prefix (`workspace_manager.py` 523-530). -/
def notebookCommand (pre dir path : Name) : Name :=
  pre ++ ("/bin/jupyter notebook --notebook-dir \"").toList ++ dir ++ ("\" \"").toList ++ path ++ ['"']

/-- `str.format` with named fields: `{{` and `}}` stand for braces, `{name}` for the value; a name without a value is a `KeyError`, a
single brace a `ValueError`.  Conversions and format specifications are left out: a field containing one of them is treated as an
unknown name.  Used in `workspace_manager.py:527, 574-589, 629`. -/
def formatAux (env : Dict Name Name) : Nat → Name → Except PyErr Name
  | 0, _ => .ok []
  | _ + 1, [] => .ok []
  | n + 1, c :: t =>
    if c = '{' then
      if t.head? = some '{' then (formatAux env n (t.drop 1)).map ('{' :: ·)
      else
        let field := t.takeWhile (· ≠ '}')
        if field.length = t.length then .error .valueError
        else match env.get? field with
          | none => .error (.keyError "field")
          | some v => (formatAux env n (t.drop (field.length + 1))).map (v ++ ·)
    else if c = '}' then
      if t.head? = some '}' then (formatAux env n (t.drop 1)).map ('}' :: ·) else .error .valueError
    else (formatAux env n t).map (c :: ·)

/-- `template.format(title=…, command=…, command_file=…, prefix=…)` (`workspace_manager.py` 591-594). -/
def format (env : Dict Name Name) (s : Name) : Except PyErr Name := formatAux env (s.length + 1) s

/-- The values of the fields.  `workspace_manager.py:586-589`. -/
def env (title command commandFile pre : Name) : Dict Name Name :=
  [("title".toList, title), ("command".toList, command), ("command_file".toList, commandFile), ("prefix".toList, pre)]

/-- Which program opens the notebook (`workspace_manager.py` 532-560), on a Unix system: a command configured by the user, or the one
for the terminal that is installed.  Without any, the command itself is used as the template. -/
inductive Terminal where
  | user (template : Name)
  | konsole
  | gnome
  | xterm
  | none
  deriving DecidableEq, Repr

/-- The template (same lines).  `workspace_manager.py:527-585`. -/
def template (t : Terminal) (command : Name) : Name :=
  match t with
  | .user s => s
  | .konsole => "konsole -p tabtitle=\"{title}\" -e '{command}' & disown".toList
  | .gnome => "gnome-terminal -e '{command}'".toList
  | .xterm => "xterm  -T \"{title}\" -e '{command}'".toList
  | .none => command

/-- The text given to the shell (`workspace_manager.py` 519-599) for templates without `{command_file}`, where that field is empty. -/
def shellText (t : Terminal) (pre title dir path : Name) : Except PyErr Name :=
  let command := notebookCommand pre dir path
  format (env (("DeDop - ").toList ++ title) command [] pre) (template t command)

end Dedop.Notebook
