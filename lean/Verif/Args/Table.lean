import Verif.Args.Model

/-!
# The parsers of the commands

The declarations of `/repo/dedop/cli/main.py`.  Every parser has `-h`/`--help`, added by `argparse`.
-/
namespace Dedop.Args

/-- An option with a short and a long name.  (`main.py:140-153`) -/
def option (short long dest : String) (a : Arity) : Opt := ⟨[short.toList, long.toList], dest, a⟩

/-- Added by `argparse` to every parser. -/
def helpOpt : Opt := option "-h" "--help" "help" .help
/-- `main.py:144, 454-455, 718-719, 852-854`. -/
def workspaceOpt : Opt := option "-w" "--workspace" "workspace_name" .one
/-- `main.py:146, 855-857`. -/
def configOpt : Opt := option "-c" "--config" "config_name" .one
/-- `main.py:142, 696, 704, 815`. -/
def quietOpt : Opt := option "-q" "--quiet" "quiet" .flag
/-- `main.py:228, 404`. -/
def yesOpt : Opt := option "-y" "--yes" "yes" .flag

/-- A command: its names (of the two levels, with the aliases), its parser and the attributes it reads.  (`main.py:127-1124`) -/
structure Command where
  group : List String
  names : List String
  parser : Parser
  reads : List String

/-- `main.py:138-153`; reads `156-203`. -/
def cmdRun : Command := ⟨[], ["run", "r"],
  ⟨[helpOpt, option "-s" "--skip-l1bs" "skip_l1bs" .flag, quietOpt, workspaceOpt, configOpt,
    option "-i" "--inputs" "inputs" .many, option "-o" "--output" "output_dir" .one, option "-a" "--all-configs" "all_configs" .flag], []⟩,
  ["all_configs", "config_name", "workspace_name", "inputs", "output_dir", "skip_l1bs", "quiet"]⟩

/-- The names of the commands for workspaces (`main.py:208-213`). -/
def wsGroup : List String := ["workspace", "w"]
/-- `main.py:221-222`; reads `255`. -/
def wsAdd : Command := ⟨wsGroup, ["add"], ⟨[helpOpt], [⟨"workspace_name", .one⟩]⟩, ["workspace_name"]⟩
/-- `main.py:225-228`; reads `263-268`. -/
def wsRemove : Command := ⟨wsGroup, ["remove", "rm"], ⟨[helpOpt, yesOpt], [⟨"workspace_name", .opt⟩]⟩, ["workspace_name", "yes"]⟩
/-- `main.py:230-232`; reads `289-293`. -/
def wsCopy : Command := ⟨wsGroup, ["copy", "cp"], ⟨[helpOpt], [⟨"workspace_name", .opt⟩, ⟨"new_name", .opt⟩]⟩, ["workspace_name", "new_name"]⟩
/-- `main.py:235-237`; reads `303-308`. -/
def wsRename : Command :=
  ⟨wsGroup, ["rename", "rn"], ⟨[helpOpt], [⟨"workspace_name", .opt⟩, ⟨"new_name", .one⟩]⟩, ["workspace_name", "new_name"]⟩
/-- `main.py:240-241`; reads `318-330`. -/
def wsCurrent : Command := ⟨wsGroup, ["current", "cur"], ⟨[helpOpt], [⟨"workspace_name", .opt⟩]⟩, ["workspace_name"]⟩
/-- `main.py:244`. -/
def wsList : Command := ⟨wsGroup, ["list", "ls"], ⟨[helpOpt], []⟩, []⟩

/-- The names of the commands for configurations (`main.py:382-387`). -/
def cfGroup : List String := ["config", "c"]
/-- `main.py:395-400`; reads `466-469`. -/
def cfAdd : Command := ⟨cfGroup, ["add"],
  ⟨[helpOpt, workspaceOpt, ⟨["--cryosat-adapted".toList], "cryosat_adapted", .flag⟩], [⟨"config_name", .one⟩]⟩,
  ["workspace_name", "config_name", "cryosat_adapted"]⟩
/-- A command with `-w` and an optional name of a configuration (`main.py:410-413, 427-435, 441-450`). -/
def cfOne (names : List String) : Command :=
  ⟨cfGroup, names, ⟨[helpOpt, workspaceOpt], [⟨"config_name", .opt⟩]⟩, ["workspace_name", "config_name"]⟩
/-- `main.py:403-407`; reads `474-483`. -/
def cfRemove : Command := ⟨cfGroup, ["remove", "rm"],
  ⟨[helpOpt, yesOpt, workspaceOpt], [⟨"config_name", .opt⟩]⟩, ["workspace_name", "config_name", "yes"]⟩
/-- `main.py:415-418`; reads `502-509`. -/
def cfCopy : Command := ⟨cfGroup, ["copy", "cp"],
  ⟨[helpOpt, workspaceOpt], [⟨"config_name", .opt⟩, ⟨"new_name", .opt⟩]⟩, ["workspace_name", "config_name", "new_name"]⟩
/-- `main.py:421-424`; reads `520-527`. -/
def cfRename : Command := ⟨cfGroup, ["rename", "rn"],
  ⟨[helpOpt, workspaceOpt], [⟨"config_name", .opt⟩, ⟨"new_name", .one⟩]⟩, ["workspace_name", "config_name", "new_name"]⟩
/-- `main.py:437-438`; reads `workspace_name`. -/
def cfList : Command := ⟨cfGroup, ["list", "ls"], ⟨[helpOpt, workspaceOpt], []⟩, ["workspace_name"]⟩

/-- The names of the commands for inputs (`main.py:683-688`). -/
def inGroup : List String := ["input", "i"]
/-- `main.py:694-699`; reads `728-736`. -/
def inAdd : Command := ⟨inGroup, ["add"], ⟨[helpOpt, workspaceOpt, quietOpt], [⟨"inputs", .plus⟩]⟩, ["workspace_name", "inputs", "quiet"]⟩
/-- `main.py:702-707`; reads `752-764`. -/
def inRemove : Command :=
  ⟨inGroup, ["remove", "rm"], ⟨[helpOpt, workspaceOpt, quietOpt], [⟨"inputs", .star⟩]⟩, ["workspace_name", "inputs", "quiet"]⟩
/-- `main.py:710-713`. -/
def inList : Command := ⟨inGroup, ["list", "ls"], ⟨[helpOpt, workspaceOpt], [⟨"pattern", .opt⟩]⟩, ["workspace_name", "pattern"]⟩

/-- The names of the commands for outputs (`main.py:801-806`). -/
def outGroup : List String := ["output", "o"]
/-- `main.py:812-816`; reads `875-885`. -/
def outClean : Command :=
  ⟨outGroup, ["clean", "cl"], ⟨[helpOpt, workspaceOpt, configOpt, quietOpt], []⟩, ["workspace_name", "config_name", "quiet"]⟩
/-- `main.py:819-823`; reads `980-987`. -/
def outList : Command := ⟨outGroup, ["list", "ls"],
  ⟨[helpOpt, workspaceOpt, configOpt], [⟨"pattern", .opt⟩]⟩, ["workspace_name", "config_name", "pattern"]⟩
/-- `main.py:826-828`; reads `900-906`. -/
def outOpen : Command := ⟨outGroup, ["open", "op"], ⟨[helpOpt, workspaceOpt, configOpt], []⟩, ["workspace_name", "config_name"]⟩
/-- `main.py:831-835`; reads `917-923`. -/
def outInspect : Command := ⟨outGroup, ["inspect", "ins"],
  ⟨[helpOpt, workspaceOpt, configOpt], [⟨"l1b_filename", .one⟩]⟩, ["workspace_name", "config_name", "l1b_filename"]⟩
/-- `main.py:838-847, 859-866`; reads `940-962`. -/
def outCompare : Command := ⟨outGroup, ["compare", "cmp"],
  ⟨[helpOpt, workspaceOpt, configOpt, option "-W" "--workspace-2" "workspace_name_2" .one, option "-C" "--config-2" "config_name_2" .one],
    [⟨"l1b_filename_1", .one⟩, ⟨"l1b_filename_2", .opt⟩]⟩,
  ["workspace_name", "config_name", "workspace_name_2", "config_name_2", "l1b_filename_1", "l1b_filename_2"]⟩

/-- `main.py:1036-1039`; reads `1043`. -/
def cmdStatus : Command := ⟨[], ["status", "s"], ⟨[helpOpt, option "-l" "--long" "long" .flag], []⟩, ["long"]⟩
/-- A command without arguments (`main.py:1002-1025, 1080-1124`). -/
def cmdPlain (name : String) : Command := ⟨[], [name], ⟨[helpOpt], []⟩, []⟩

/-- `COMMAND_REGISTRY` with the commands of each group (`main.py:1236-1247`). -/
def commands : List Command :=
  [wsAdd, wsRemove, wsCopy, wsRename, wsCurrent, wsList,
   cfAdd, cfRemove, cfOne ["edit", "ed"], cfCopy, cfRename, cfOne ["info", "i"], cfOne ["current", "cur"], cfList,
   cfOne ["upgrade", "up"], cfOne ["version", "v"],
   inAdd, inRemove, inList, outClean, outList, outOpen, outInspect, outCompare,
   cmdRun, cmdStatus, cmdPlain "notebook", cmdPlain "man", cmdPlain "copyright", cmdPlain "license"]

end Dedop.Args
