import Verif.Spec.Modes
import Verif.Spec.Emulator
import Verif.Model.Screen

/-!
# What a stored cell looks like

The look of a screen cell, of a text style and of a colour, in terms of the
terminal of `Spec/Emulator.lean`.
-/

namespace Slate
open Term

/-- Colouring a rendition: in the foreground or in the background. -/
def paint (isBg : Bool) (t : TColor) (a : Attr) : Attr :=
  if isBg then { a with bg := t } else { a with fg := t }

/-- Colouring by an optional colour, `den` giving the terminal colour. -/
def paintOpt (den : Color → TColor) (c : Option Color) (a : Attr) : Attr :=
  match c with
  | some c => paint c.isBg (den c) a
  | none => a

/-- The look of a text style (Slate's "opaque" is no style of the terminal). -/
def applyStyle (st : Style) (a : Attr) : Attr :=
  { a with
    bold := a.bold || st.bold
    dim := a.dim || st.dim
    italic := a.italic || st.italic
    underline := a.underline || st.underline
    blink := a.blink || st.blink
    fastBlink := a.fastBlink || st.fastBlink
    invert := a.invert || st.invert
    conceal := a.conceal || st.conceal
    strike := a.strike || st.strike }

/-- The rendition of a pair of stored colours. -/
def cellAttr (den : Color → TColor) (cell : Cell) : Attr :=
  paintOpt den cell.bg (paintOpt den cell.fg Attr.clean)

/-- What a stored cell looks like: its string printed in the top left corner of a
terminal whose pen has the stored colours. -/
def cellGlyph (den : Color → TColor) (cell : Cell) : Glyph :=
  (run { pen := cellAttr den cell, grid := fun _ _ => { ch := ' ', attr := Attr.clean } }
    cell.char).grid 1 1

/-- All channels in `0..255`. -/
def Color.Valid (c : Color) : Prop := c.r ≤ 255 ∧ c.g ≤ 255 ∧ c.b ≤ 255

/-- The true-colour meaning of a colour. -/
def trueColor (c : Color) : TColor := .rgb c.r c.g c.b

/-- The code of colour `c` is an SGR code that paints terminal colour `t` in the role
of `c`, wherever it stands in a sequence. -/
def Sendable (env : Color.Env) (c : Color) (t : TColor) : Prop :=
  ∃ n ns, c.ansi env = Py.join [';'] ((n :: ns).map Py.dec) ∧
    ∀ rest a, sgr (n :: ns ++ rest) a = sgr rest (paint c.isBg t a)

/-- `den` is the meaning of the codes of all colours that were not made from an
ANSI string (direct construction, blending). -/
def DenOk (env : Color.Env) (den : Color → TColor) : Prop :=
  ∀ c : Color, c.ctor = none → Sendable env c (den c)

/-- A string without line breaks. -/
def Flat (str : Str) : Prop := ∀ c ∈ str, c ≠ '\n' ∧ c ≠ '\r'

/-- A string that prints exactly one glyph, leaves the pen clean, switches no mode and breaks no line. -/
structure Prints (str : Str) (g : Glyph) : Prop where
  run : ∀ s : State, s.mode = .ground → s.pen = Attr.clean →
    run s str = { s with grid := setGrid s.grid s.row s.col g, col := s.col + 1
                         log := s.log ++ [(s.row, s.col)] }
  quiet : Modes.Quiet str
  flat : Flat str

end Slate
