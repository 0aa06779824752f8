import Verif.Model.Screen

/-!
# Lines of one bulk write that scroll

Each line is one span with a position. A line below the window scrolls the screen by one row and goes to the last row. The lines of the same call
that were written before are not moved.
-/

namespace Slate

/-- Where the lines go on a screen of `h` rows that has scrolled by `off` rows. -/
def landed (h : Nat) : Int → List ((Int × Int) × Span) → List ((Int × Int) × List Span)
  | _, [] => []
  | off, ((x, y), s) :: rest =>
    if y < off + h then ((x, y - off), [s]) :: landed h off rest
    else ((x, (h : Int) - 1), [s]) :: landed h (y - h + 1) rest

/-- How often they scroll. -/
def scrollsOf (h : Nat) : Int → List ((Int × Int) × Span) → Nat
  | _, [] => 0
  | off, ((_, y), _) :: rest => if y < off + h then scrollsOf h off rest else scrollsOf h (y - h + 1) rest + 1

/-- By how many rows the screen has scrolled afterwards. -/
def offsetAfter (h : Nat) : Int → List ((Int × Int) × Span) → Int
  | off, [] => off
  | off, ((_, y), _) :: rest => offsetAfter h (if y < off + h then off else y - h + 1) rest

/-- The cells of a screen of `h` rows that is moved up by `k` rows. -/
def liftedCell (h k : Nat) (cells : List (List Cell)) (x y : Nat) : Option Cell :=
  if y + k < h then cellAt cells x (y + k) else some { char := [] }

end Slate
