import Verif.Spec.History

/-!
# A terminal with characters of two columns

East Asian characters and emoji take two columns of a terminal. The emulator of `Spec/Emulator.lean` gives every character one column;
here the set of wide characters is a parameter.
-/

namespace Term

/-- One character sent to a terminal on which the characters in `wide` take two columns: both columns show (a half of) it. -/
def wideStep (wide : Char → Bool) (s : State) (c : Char) : State :=
  if s.mode = .ground ∧ c ≠ '\x1b' ∧ Printable c ∧ wide c = true then
    { s with
      grid := fun r k => if r = s.row ∧ (k = s.col ∨ k = s.col + 1) then { ch := c, attr := s.pen } else s.grid r k
      col := s.col + 2
      log := s.log ++ [(s.row, s.col), (s.row, s.col + 1)] }
  else step s c

/-- A string sent to such a terminal. -/
def wideRun (wide : Char → Bool) (s : State) (cs : List Char) : State := cs.foldl (wideStep wide) s

end Term

namespace Slate
open Term

/-- `exec` on a terminal with wide characters. -/
def wideExec (wide : Char → Bool) (env : Color.Env) (origin : Int × Int) (s : Sys) : Op → Sys
  | .draw => { w := { s.w with scr := (s.w.scr.render origin).1 }
               term := wideRun wide s.term (s.w.scr.render origin).2 }
  | op => exec env origin s op

/-- Performing a history on a terminal with wide characters. -/
def wideExecAll (wide : Char → Bool) (env : Color.Env) (origin : Int × Int) (s : Sys) (ops : List Op) : Sys :=
  ops.foldl (wideExec wide env origin) s

end Slate
