import Verif.Model.Terminal

/-!
# The first example of the README

Without the context manager and the pauses. The terminal has the default origin (1, 1) (`terminal.py:67`).
-/

namespace Slate
open Py

namespace Readme

/-- One of the spans (`README.md:54-59`). -/
def line (width : Nat) : Span :=
  { text := List.replicate width 'X', style := { bold := true }, fg := some (Color.black.lighten 2),
    bg := some (Color.lighten { Color.black with isBg := true } 1) }

/-- `content` (`README.md:53-61`). -/
def content (width height : Nat) : List Span := List.replicate height (line width)

/-- `for line in content: terminal.write(content)` (`README.md:65-66`), `n` times. The README passes no cursor. -/
def fill (env : Color.Env) (bg : Color) (cursor : Option (Int × Int)) (l : List Span) : Nat → World → World × Except PyErr Unit
  | 0, w => (w, .ok ())
  | n + 1, w =>
    match Terminal.write env (.spans l) cursor bg w with
    | (w, .error e) => (w, .error e)
    | (w, .ok _) => fill env bg cursor l n w

/-- The loop (`README.md:75-83`) for the positions it chooses: the numbers of changes, and what is sent to the terminal. -/
def zeros (env : Color.Env) (bg : Color) : List (Nat × Nat) → World → World × Str × Except PyErr (List Nat)
  | [], w => (w, [], .ok [])
  | (x, y) :: rest, w =>
    match Terminal.write env (.str ['0']) (some ((x : Int), (y : Int))) bg w with
    | (w, .error e) => (w, [], .error e)
    | (w, .ok n) =>
      let r := w.scr.render (1, 1)
      match zeros env bg rest { w with scr := r.1 } with
      | (w, out, .error e) => (w, r.2 ++ out, .error e)
      | (w, out, .ok ns) => (w, r.2 ++ out, .ok (n :: ns))

end Readme
end Slate
