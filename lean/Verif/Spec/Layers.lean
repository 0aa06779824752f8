import Verif.Model.Screen

/-!
# A bulk write as layers of text

The characters that fall on a cell form a pile. Which of them is seen, on which background and in which tint, is said here by
looking at the whole pile, without matrices and without going through the pile character by character.
-/

namespace Slate
open Py

/-- The `nth` character of a span. -/
structure Layer where
  span : Span
  nth : Nat
  char : Char

namespace Layer

/-- The background lets something through. -/
def translucent (l : Layer) : Bool :=
  match l.span.bg with
  | some b => decide (b.alpha ≠ 1)
  | none => false

/-- Nothing is seen of the character: a space that is only a tint. -/
def unseen (l : Layer) : Bool := l.translucent && isSpace l.char && !l.span.style.isOpaque

/-- The character with the sequences of its style. -/
def letter (l : Layer) : Str :=
  let seq := wrapSgr l.span.style.colorless
  if l.nth + 1 < l.span.text.length then seq ++ [l.char]
  else if seq ≠ [] ∧ l.span.resetAfter = true then seq ++ [l.char] ++ "\x1b[0m".toList
  else [l.char]

/-- What is kept of it: not a line break at its end. -/
def shown (l : Layer) : Str := if l.letter.getLast? = some '\n' then l.letter.dropLast else l.letter

end Layer

/-- The characters of a line. -/
def lineLayers (line : List Span) : List Layer := line.flatMap fun s => s.text.mapIdx fun j c => ⟨s, j, c⟩

/-- The character of a line that covers the cell `k` cells behind its start, in reading order: a line break takes the text one row down,
everything else takes a cell. (A line break in a style is not a line break for the code: C88.) -/
def covering (w : Nat) : List Layer → Nat → Option Layer
  | [], _ => none
  | l :: ls, k =>
    if l.letter = ['\n'] then (if k < w then none else covering w ls (k - w))
    else if k = 0 then some l else covering w ls (k - 1)

/-- The pile on the cell `(x, y)` of a screen of `w` columns and `h` rows: each line that starts inside the screen covers cells
behind its start. -/
def layersAt (w h : Nat) (d : List ((Int × Int) × List Span)) (x y : Nat) : List Layer :=
  d.filterMap fun e =>
    if 0 ≤ e.1.1 ∧ e.1.1 < (w : Int) ∧ 0 ≤ e.1.2 ∧ e.1.2 < (h : Int) ∧ e.1.2 * (w : Int) + e.1.1 ≤ ((y * w + x : Nat) : Int) then
      covering w (lineLayers e.2) (y * w + x - (e.1.2 * (w : Int) + e.1.1).toNat)
    else none

/-- The same lines with their rows counted from the first one that is still there, on a screen that has scrolled by `off` rows. -/
def raised (off : Int) (d : List ((Int × Int) × List Span)) : List ((Int × Int) × List Span) :=
  d.map fun e => ((e.1.1, e.1.2 - off), e.2)

/-- The cells that a character takes the text further. -/
def Layer.room (w : Nat) (l : Layer) : Nat := if l.letter = ['\n'] then w else 1

/-- Where a text stops that starts `i` cells behind the first one of the screen, which has `w` columns and `h` rows: behind its last character,
or below the screen. -/
def stopOf (w h : Nat) : List Layer → Nat → Nat
  | [], i => i
  | l :: ls, i => if h * w ≤ i then i else stopOf w h ls (i + l.room w)

/-- The spans of a line as lines of their own, on a screen that has scrolled by `off` rows: the first one is moved up by `off` rows, and each
of the others again, from where the one before it stopped. (So they are pieces of one running text only if the screen has not scrolled: C16.) -/
def pieces (w h : Nat) (off : Int) : Int × Int → List Span → List ((Int × Int) × List Span)
  | _, [] => []
  | (x, y), s :: ss =>
    ((x, y - off), [s]) ::
      if 0 ≤ x ∧ x < (w : Int) ∧ 0 ≤ y - off ∧ y - off < (h : Int) then
        let i := stopOf w h (lineLayers [s]) ((y - off) * (w : Int) + x).toNat
        pieces w h off (((i % w : Nat) : Int), ((i / w : Nat) : Int)) ss
      else pieces w h off (x, y - off) ss

/-- All spans of a bulk write, with the rows of the screen. -/
def placed (w h : Nat) (off : Int) (d : List ((Int × Int) × List Span)) : List ((Int × Int) × List Span) :=
  d.flatMap fun e => pieces w h off e.1 e.2

namespace Pile

/-- The layer whose background is the lowest that is seen: the last one that hides what is below it, or the first. -/
def ground (first : Layer) (pile : List Layer) : Layer := (pile.reverse.find? fun l => !l.translucent).getD first

/-- The layer whose character is seen: the last one that is more than a tint, or the first. -/
def text (first : Layer) (pile : List Layer) : Layer := (pile.reverse.find? fun l => !l.unseen).getD first

/-- The tints: all translucent backgrounds above the first layer. (Those below the ground are among them: C19.) -/
def tints (above : List Layer) : List Color := (above.filter Layer.translucent).filterMap (·.span.bg)

/-- A tint that follows an equal one is left out. -/
def fresh : Option Color → List Color → List Color
  | _, [] => []
  | some b, c :: cs => if c.eq b then fresh (some b) cs else c :: fresh (some c) cs
  | none, c :: cs => c :: fresh (some c) cs

/-- A tint over a colour. -/
def over (below : Option Color) (c : Color) : Color :=
  match below with
  | none => c
  | some b => b.blend c (min (fl (c.alpha + fl (1 / 10))) 1)

/-- The background of the cell. -/
def back (tb : Color) (first : Layer) (above : List Layer) : Option Color :=
  let g := (ground first (first :: above)).span.bg
  ((fresh g (tints above)).foldl (fun b c => some (over b c)) g).map fun b => if b.alpha = 1 then b else over (some tb) b

/-- The colour of the text: the tints are over it if the topmost layer shows another letter. -/
def ink (first : Layer) (above : List Layer) : Color :=
  let t := text first (first :: above)
  let f := t.span.fg.getD Color.white
  if (above.getLastD first).letter = t.letter then f
  else (fresh (ground first (first :: above)).span.bg (tints above)).foldl (fun b c => over (some b) c) f

/-- The cell that is stored. A text colour that is still translucent is mixed with the background (C21 says how badly). -/
def cell (tb : Color) (first : Layer) (above : List Layer) : Cell :=
  let b := back tb first above
  let f := ink first above
  { char := (text first (first :: above)).shown
    fg := some (if f.alpha = 1 then f else match b with
      | none => f
      | some b => if b.alpha = 1 then b else f.blend b (min (fl (b.alpha + 0)) 1))
    bg := b }

end Pile

end Slate
