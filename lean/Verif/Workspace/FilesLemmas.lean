import Verif.Workspace.Files
import Verif.Workspace.FrameLemmas

namespace Dedop.Workspace
open Dedop.Names

theorem write_from (old pre text : Name) :
    (OpenFile.mk (pre ++ old.drop pre.length) pre.length).write text =
      ⟨pre ++ text ++ old.drop (pre.length + text.length), pre.length + text.length⟩ := by
  induction text generalizing pre with
  | nil => simp [OpenFile.write]
  | cons c t ih =>
    have h1 : (OpenFile.mk (pre ++ old.drop pre.length) pre.length).put c =
        ⟨(pre ++ [c]) ++ old.drop (pre ++ [c]).length, (pre ++ [c]).length⟩ := by
      unfold OpenFile.put
      simp only [List.take_left, List.length_append, List.length_singleton, OpenFile.mk.injEq, and_true]
      congr 1
      rw [List.drop_append, List.drop_drop]
      simp
    unfold OpenFile.write at ih ⊢
    rw [List.foldl_cons, h1, ih]
    have hl : (pre ++ [c]).length + t.length = pre.length + (c :: t).length := by
      simp only [List.length_append, List.length_cons, List.length_nil]; omega
    rw [hl]
    simp

theorem write_from_start (old text : Name) :
    (OpenFile.mk old 0).write text = ⟨text ++ old.drop text.length, text.length⟩ := by
  have := write_from old [] text
  simpa using this

theorem get?_writeConfigFile (fs : FS) (w c key text : Name) (r : Path) :
    view (writeConfigFile fs w c key text).2 r = if (writeConfigFile fs w c key text).1 = .ok () ∧
      r = cfgFile w c key then some (.file (rewritten
        (match view fs (cfgFile w c key) with | some (.file s) => s | _ => []) text))
      else view fs r := by
  unfold writeConfigFile view
  cases hg : Dict.get? fs (cfgFile w c key) with
  | none => simp
  | some e =>
    cases e with
    | dir => simp
    | file old =>
      simp only [true_and]
      exact FS.get?_set _ _ _ _

theorem cfgFile_inj {w c k k' : Name} (h : cfgFile w c k = cfgFile w c k') : k = k' := by
  unfold cfgFile at h
  have := (snoc_inj.1 h).2
  exact List.append_cancel_right this

end Dedop.Workspace
