import Verif.Spec.Emulator
import Verif.Spec.History

/-!
# A terminal with margins

The terminal of `Spec/Emulator.lean` has no margins. A real one has `W` columns and `H` rows: after the last column the next
character goes to the next line, a line feed in the last row scrolls everything up, and the cursor cannot be put outside.
(A cursor in column `W + 1` stands for the state after a character was printed in the last column: the line is only wrapped when
another character follows.)
-/

namespace Term

/-- To the first column of the next line; in the last row everything moves up by one row. -/
def lineFeed (H : Nat) (s : State) : State :=
  if s.row < H then { s with row := s.row + 1, col := 1 }
  else { s with grid := fun r c => if r < H then s.grid (r + 1) c
                                   else if r = H then { ch := ' ', attr := Attr.clean } else s.grid r c
                col := 1 }

/-- The cursor inside the margins. -/
def clamp (W H : Nat) (s : State) : State := { s with row := min s.row H, col := min s.col W }

/-- One character sent to a terminal of `W` columns and `H` rows. -/
def boundedStep (W H : Nat) (s : State) (c : Char) : State :=
  match s.mode with
  | .ground =>
    if c = '\n' then lineFeed H s
    else if c ≠ '\x1b' ∧ Printable c ∧ W < s.col then step (lineFeed H s) c
    else step s c
  | .csi _ => if c = 'H' then clamp W H (step s c) else step s c
  | _ => step s c

/-- A string sent to a terminal of `W` columns and `H` rows. -/
def boundedRun (W H : Nat) (s : State) (cs : List Char) : State := cs.foldl (boundedStep W H) s

end Term

namespace Slate
open Term

/-- `exec` with a terminal of `W` columns and `H` rows. -/
def boundedExec (W H : Nat) (env : Color.Env) (origin : Int × Int) (s : Sys) : Op → Sys
  | .draw => { w := { s.w with scr := (s.w.scr.render origin).1 }
               term := boundedRun W H s.term (s.w.scr.render origin).2 }
  | op => exec env origin s op

/-- Performing a history with a terminal of `W` columns and `H` rows. -/
def boundedExecAll (W H : Nat) (env : Color.Env) (origin : Int × Int) (s : Sys) (ops : List Op) : Sys :=
  ops.foldl (boundedExec W H env origin) s

end Slate
