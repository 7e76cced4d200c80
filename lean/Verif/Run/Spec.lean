import Verif.Run.Model
import Verif.Workspace.Spec

/-!
# Specification of the `run` command

What `dedop run` should do, in terms of calls to the processor only.
-/
namespace Dedop.Run

open Dedop.Names Dedop.Workspace

/-- Carrying out a list of calls one after the other.  Inputs go to the processor made last, in the
state the inputs before left it in.  Stops at the first call that fails. -/
def exec {Ω σ : Type} (P : Processor Ω σ) (ω : Ω) (p : Option σ) :
    List Call → List (Call × Option RunErr) × Ω
  | [] => ([], ω)
  | .make s :: rest =>
    match P.make ω s with
    | (.error e, ω') => ([(.make s, some e)], ω')
    | (.ok p', ω') =>
      let r := exec P ω' (some p') rest
      ((.make s, none) :: r.1, r.2)
  | .process c i q :: rest =>
    match p with
    | none => ([], ω)
    | some p =>
      match P.process ω p i q with
      | (.error e, _, ω') => ([(.process c i q, some e)], ω')
      | (.ok _, p', ω') =>
        let r := exec P ω' (some p') rest
        ((.process c i q, none) :: r.1, r.2)

/-- The calls `dedop run` should make: for each configuration one processor with the three files of
that configuration, the output directory of the user or of the configuration, and then each input. -/
def plan (a : Args) (s : Selection) : List Call :=
  s.cfgs.flatMap (fun c =>
    .make { name := c
            chd := [s.ws, "configs".toList, c, "CHD.json".toList]
            cnf := [s.ws, "configs".toList, c, "CNF.json".toList]
            cst := [s.ws, "configs".toList, c, "CST.json".toList]
            out := if a.out = [] then .stored [s.ws, "configs".toList, c, "outputs".toList]
                   else .given a.out
            skip := a.skip } ::
    s.inputs.map (fun i => .process c i a.quiet))

/-- The name recorded in a marker file, if there is a marker with a non-empty first line. -/
def recorded (fs : FS) (p : Path) : Option Name :=
  match view fs p with
  | some (.file text) => if firstLine text = [] then none else some (firstLine text)
  | _ => none

/-- The workspace that should be used: `-w`, else the current one, else `default`. -/
def wantedWs (fs : FS) (a : Args) : Name :=
  if a.ws ≠ [] then a.ws else (recorded fs [".current".toList]).getD "default".toList

/-- The configuration that should be used without `-a`: `-c`, else the current one of the workspace,
else `default`. -/
def wantedCfg (fs : FS) (a : Args) : Name :=
  if a.cfg ≠ [] then a.cfg
  else (recorded fs [wantedWs fs a, "configs".toList, ".current".toList]).getD "default".toList

end Dedop.Run
