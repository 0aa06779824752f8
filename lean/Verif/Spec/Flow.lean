import Verif.Model.Screen

/-!
# Where the spans of a bulk write go on a screen that scrolls

A line is a position and spans. Every span of a line is taken for a line of its own: the rows by which the screen has scrolled are subtracted again for
each of them, from the row in which the one before it ended. A span below the window scrolls if it is the only one of its line, the last one behind spans
of which no character was written, or the second one behind one that was written to its end; all others below the window are not shown. The screen moves
up by one row however far the span is below it. What the same call wrote before is not moved. Texts have no line breaks here.
-/

namespace Slate

/-- Where a text of `n` characters ends that starts in column `x` of row `row`: the column, the row, and the mark that it leaves for the next span (the number
of the span of its line that may scroll). -/
def behind (w h n : Nat) (x row mark : Int) : Int × Int × Int :=
  if 0 ≤ x ∧ x < (w : Int) ∧ 0 ≤ row ∧ row < (h : Int) then
    let i := (row * (w : Int) + x).toNat + n
    if i ≤ h * w then (((i % w : Nat) : Int), ((i / w : Nat) : Int), 1) else (0, (h : Int), 0)
  else (x, row, mark)

/-- The spans of a line from number `k` on: where they go, by how many rows the screen has scrolled afterwards, and how often it moved. -/
def flowLine (w h : Nat) : Nat → Int → Int → Int × Int → List Span → List ((Int × Int) × List Span) × Int × Nat
  | _, _, off, _, [] => ([], off, 0)
  | k, mark, off, (x, y), s :: ss =>
    let scrolls := (k : Int) = mark ∧ off + (h : Int) ≤ y
    let row := if scrolls then (h : Int) - 1 else y - off
    let b := behind w h s.text.length x row mark
    let r := flowLine w h (k + 1) b.2.2 (if scrolls then y - h + 1 else off) (b.1, b.2.1) ss
    (((x, row), [s]) :: r.1, r.2.1, (if scrolls then 1 else 0) + r.2.2)

/-- The lines of a bulk write. -/
def flow (w h : Nat) : Int → List ((Int × Int) × List Span) → List ((Int × Int) × List Span) × Int × Nat
  | off, [] => ([], off, 0)
  | off, (pos, line) :: d =>
    let r := flowLine w h 0 ((line.length : Int) - 1) off pos line
    let t := flow w h r.2.1 d
    (r.1 ++ t.1, t.2.1, r.2.2 + t.2.2)

end Slate
