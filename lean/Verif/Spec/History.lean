import Verif.Spec.Display

/-!
# Histories of screen operations seen together with a terminal
-/

namespace Slate
open Term

/-- An operation of an application on its screen. Exceptions raised by a write are
caught by the application. -/
inductive Op where
  | write (spans : List Span) (cursor : Option (Int × Int)) (tb : Color) (force : Bool)
  | writeBulk (data : List Entry) (tb : Color) (force : Bool)
  | clear (fill : Char)
  | draw

/-- Screen (with the character cache) and terminal. -/
structure Sys where
  w : World
  term : State

/-- Performing an operation; `draw` sends the rendered string to the terminal. -/
def exec (env : Color.Env) (origin : Int × Int) (s : Sys) : Op → Sys
  | .write spans cursor tb force => { s with w := (Slate.write env spans cursor tb force s.w).1 }
  | .writeBulk data tb force => { s with w := (Slate.writeBulk env data tb force s.w).1 }
  | .clear fill => { s with w := { s.w with scr := s.w.scr.clear [fill] } }
  | .draw =>
    let r := s.w.scr.render origin
    { w := { s.w with scr := r.1 }, term := run s.term r.2 }

/-- Performing a history. -/
def execAll (env : Color.Env) (origin : Int × Int) (s : Sys) (ops : List Op) : Sys :=
  ops.foldl (exec env origin) s

/-- Every character and colour used by the operation can be displayed. -/
def OpOk (P : Span → Prop) : Op → Prop
  | .write spans _ _ _ => ∀ s ∈ spans, P s
  | .writeBulk data _ _ => ∀ e ∈ data, ∀ s ∈ e.2, P s
  | .clear fill => Printable fill
  | .draw => True

end Slate
