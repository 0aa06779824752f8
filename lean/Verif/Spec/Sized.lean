import Verif.Spec.History

/-!
# Histories in which the screen is resized
-/

namespace Slate
open Term

/-- An operation of an application on its screen, or a change of its size. -/
inductive SizedOp where
  | op (o : Op)
  | resize (w h : Nat) (fill : Char) (keep : Bool)

/-- Performing an operation. -/
def execSized (env : Color.Env) (origin : Int × Int) (s : Sys) : SizedOp → Sys
  | .op o => exec env origin s o
  | .resize w h fill keep => { s with w := { s.w with scr := s.w.scr.resize (w, h) [fill] keep } }

/-- Performing a history. -/
def execSizedAll (env : Color.Env) (origin : Int × Int) (s : Sys) (ops : List SizedOp) : Sys :=
  ops.foldl (execSized env origin) s

/-- Every character and colour used by the operation can be displayed. -/
def SizedOk (P : Span → Prop) : SizedOp → Prop
  | .op o => OpOk P o
  | .resize _ _ fill _ => Printable fill

/-- A cell was changed after the state `s`: the screen was cleared, or there was a time when it was not `c`. -/
def ChangedSince (env : Color.Env) (origin : Int × Int) (s : Sys) (ops : List Op) (x y : Nat) (c : Cell) : Prop :=
  (∃ f, Op.clear f ∈ ops) ∨ ∃ p q, ops = p ++ q ∧ cellAt (execAll env origin s p).w.scr.cells x y ≠ some c

end Slate
