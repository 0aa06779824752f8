import Verif.Model.Terminal
import Verif.Py.Float

/-!
# `experiments/resize.py`

The listener that paints a gradient over the whole terminal. The context managers and the loop of the experiment are not
modelled; the loop calls `terminal.size`, which calls the listener (`Model/Terminal.lean`), and `terminal.draw()`.
-/

namespace Slate
open Py

namespace Resize

/-- `normalize(val, limit)` (`resize.py:6-7`), given the exact quotient: it is rounded, multiplied by 256, rounded again and truncated.
The quotient of two integers is rounded once; so is that of a float and an integer that is a float. Integers too large for a float
(`OverflowError`) are not modelled. -/
def normalize (quotient : Rat) : Int := truncate (fl (fl quotient * 256))

/-- `color((red, green, 0))` (`color.py:451-470`). -/
def tint (red green : Int) : Except PyErr Color := Color.make (red, green, 0)

/-- The span for a cell (`resize.py:15-31`). -/
def shade (width height x y : Nat) : Except PyErr Span := do
  let col1 ← tint (normalize ((x : Rat) / width)) (normalize ((y : Rat) / height))
  let col2 ← tint (normalize ((x : Rat) / width)) (normalize (fl ((y : Rat) + 1 / 2) / fl height))
  .ok { text := ['▄'], fg := some col2, bg := some col1.asBackground }

/-- The order of the two loops (`resize.py:13-14`). -/
def order (width height : Nat) : List (Nat × Nat) :=
  (List.range width).flatMap fun x => (List.range height).map fun y => (x, y)

/-- The body of the loops (`resize.py:15-31`) for a list of positions. -/
def paint (env : Color.Env) (bg : Color) (width height : Nat) : List (Nat × Nat) → World → World × Except PyErr Unit
  | [], w => (w, .ok ())
  | (x, y) :: rest, w =>
    match shade width height x y with
    | .error e => (w, .error e)
    | .ok s =>
      match Terminal.write env (.span s) (some ((x : Int), (y : Int))) bg w with
      | (w, .error e) => (w, .error e)
      | (w, .ok _) => paint env bg width height rest w

/-- `print_uv` (`resize.py:10-33`): the screen, and what is sent to the terminal. The experiment has `redraw=True`, and the default
origin (1, 1) (`terminal.py:67`). -/
def printUv (env : Color.Env) (bg : Color) (redraw : Bool) (width height : Nat) (w : World) : World × Except PyErr Str :=
  match paint env bg width height (order width height) w with
  | (w, .error e) => (w, .error e)
  | (w, .ok ()) =>
    let r := w.scr.render (1, 1) redraw
    ({ w with scr := r.1 }, .ok r.2)

end Resize
end Slate
