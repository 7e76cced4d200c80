import Verif.Args.Used
import Verif.Workspace.Commands

/-!
# Sessions of typed lines (model)

From the words after `dedop` to what the command does to the workspaces directory.  The parser above the commands is that of `cate.util.cli`, which
is not part of `/repo`: lines with options before the name of the command are taken to be refused.
-/
namespace Dedop.Args
open Dedop.Workspace Dedop.Names

deriving instance DecidableEq for Command

/-- A line and what the user answers when asked.  (`/repo/dedop/cli/main.py:61-63`, `1292-1298`) -/
structure Typed where
  words : List Word
  answer : Word := []
  deriving DecidableEq, Repr

/-- White space that `strip` removes from an answer (ASCII only in the model).  (`main.py:62`) -/
def blank (c : Char) : Bool := c == ' ' || c == '\t' || c == '\n' || c == '\r' || c == '\x0b' || c == '\x0c'

/-- `input(prompt).strip()` (`main.py:62`). -/
def stripped (w : Word) : Word := ((w.dropWhile blank).reverse.dropWhile blank).reverse

/-- `_input(…, 'yes').lower() == 'yes'` (`main.py:61-63`, `269-270`, `483-484`): no answer counts as `yes`. -/
def confirmed (answer : Word) : Bool :=
  let a := stripped answer
  (if a = [] then "yes".toList else a).map Char.toLower == "yes".toList

/-- The command a line names and the words that follow (`main.py:208-213`, `221-246`, `382-387`, `395-450`, `1236-1247`): the names are taken as
they are, without abbreviations. -/
def findCommand : List Word → Option (Command × List Word)
  | [] => none
  | g :: rest =>
    match commands.find? (fun c => c.group == [] && (c.names.map String.toList).contains g) with
    | some c => some (c, rest)
    | none =>
      match rest with
      | [] => none
      | n :: args =>
        (commands.find? (fun c => (c.group.map String.toList).contains g && (c.names.map String.toList).contains n)).map (·, args)

/-- An attribute used as a name: `None` and the empty word count as no name (`if not name`, `main.py:66-82`). -/
def nameOf : Value → Name
  | .word w => w
  | _ => []

/-- What a line amounts to: a change by one of the modelled commands, nothing, or a command which is not modelled here. -/
inductive Act where
  | change (cryosat : Bool) (c : Cmd)
  | nothing
  | other
  deriving DecidableEq, Repr

/-- Remove after a question (`main.py:267-271`, `481-485`). -/
def asked (ns : Ns) (answer : Word) (c : Cmd) : Act :=
  if ns "yes" = .flag true ∨ confirmed answer = true then .change false c else .nothing

/-- What the command does with its attributes (`main.py:253-330` for workspaces, `463-565` for configurations).  The commands that print only do
nothing; `config edit`, `config upgrade`, `input add`, `input remove`, `output clean`, `output open` and others which start programs, `run`, and
`notebook` are not covered. -/
def toAct (c : Command) (ns : Ns) (answer : Word) : Act :=
  let w := nameOf (ns "workspace_name")
  let f := nameOf (ns "config_name")
  let n := nameOf (ns "new_name")
  match c.group.headD "", c.names.headD "" with
  | "workspace", "add" => .change false (.ws (.add w))
  | "workspace", "remove" => asked ns answer (.ws (.remove w))
  | "workspace", "copy" => .change false (.ws (.copy w n))
  | "workspace", "rename" => .change false (.ws (.rename w n))
  | "workspace", "current" => .change false (.ws (.current w))
  | "workspace", "list" => .nothing
  | "config", "add" => .change (ns "cryosat_adapted" == .flag true) (.cfg (.add w f))
  | "config", "remove" => asked ns answer (.cfg (.remove w f))
  | "config", "copy" => .change false (.cfg (.copy w f n))
  | "config", "rename" => .change false (.cfg (.rename w f n))
  | "config", "current" => .change false (.cfg (.current w f))
  | "config", "list" => .nothing
  | "config", "info" => .nothing
  | "config", "version" => .nothing
  | "input", "list" => .nothing
  | "output", "list" => .nothing
  | "", "status" => .nothing
  | "", "copyright" => .nothing
  | "", "license" => .nothing
  | _, _ => .other

/-- What a line amounts to; a line that is refused, or asks for help, does nothing (`main.py:247-251`, `457-461`, `1292-1298`). -/
def lineAct (l : Typed) : Act :=
  match findCommand l.words with
  | none => .nothing
  | some (c, args) =>
    match parse c.parser args with
    | .error _ => .nothing
    | .ok ns => toAct c ns l.answer

/-- The workspaces directory after a line; `none` if its command is not covered.  `t` are the shipped templates, for CryoSat and not.
(`main.py:1292-1298`) -/
def typeLine (t : Bool → Templates) (fs : FS) (l : Typed) : Option FS :=
  match lineAct l with
  | .change b c => some (cliSession (t b) fs [c])
  | .nothing => some fs
  | .other => none

/-- Lines typed one after the other (`main.py:1292-1298`). -/
def typeLines (t : Bool → Templates) (fs : FS) : List Typed → Option FS
  | [] => some fs
  | l :: ls =>
    match typeLine t fs l with
    | some fs' => typeLines t fs' ls
    | none => none

end Dedop.Args
