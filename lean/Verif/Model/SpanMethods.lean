import Verif.Model.Span

/-!
# The small methods of `Span` (`slate/span.py:265-266,564-632`) and hashing
-/

namespace Slate
open Py

namespace Span

/-- `text in span` (`span.py:265-266`): Python's substring test. -/
def contains (s : Span) (t : Str) : Bool := s.text.tails.any fun r => t.isPrefixOf r

/-- `as_color` with a string (`span.py:564-573`). -/
def asColorStr (s : Span) (d : Str) : Except PyErr Span := do
  let c ← Color.ofString d
  .ok (s.asColor c)

/-- `as_color` with a tuple (`span.py:564-573`). -/
def asColorTuple (s : Span) (rgb : Int × Int × Int) (alpha : Option Rat := none) : Except PyErr Span := do
  let c ← Color.ofTuple rgb alpha
  .ok (s.asColor c)

/-- `as_bold` (`span.py:575-578`). -/
def asBold (s : Span) (v : Bool := true) : Span := s.mutate { bold := some v }

/-- `as_dim` (`span.py:580-583`). -/
def asDim (s : Span) (v : Bool := true) : Span := s.mutate { dim := some v }

/-- `as_italic` (`span.py:585-588`). -/
def asItalic (s : Span) (v : Bool := true) : Span := s.mutate { italic := some v }

/-- `as_underline` (`span.py:590-593`). -/
def asUnderline (s : Span) (v : Bool := true) : Span := s.mutate { underline := some v }

/-- `as_blink` (`span.py:595-598`). -/
def asBlink (s : Span) (v : Bool := true) : Span := s.mutate { blink := some v }

/-- `as_fast_blink` (`span.py:600-603`). -/
def asFastBlink (s : Span) (v : Bool := true) : Span := s.mutate { fastBlink := some v }

/-- `as_invert` (`span.py:605-608`). -/
def asInvert (s : Span) (v : Bool := true) : Span := s.mutate { invert := some v }

/-- `as_conceal` (`span.py:610-613`). -/
def asConceal (s : Span) (v : Bool := true) : Span := s.mutate { conceal := some v }

/-- `as_strike` (`span.py:615-618`). -/
def asStrike (s : Span) (v : Bool := true) : Span := s.mutate { strike := some v }

/-- `as_hyperlink` (`span.py:620-623`). -/
def asHyperlink (s : Span) (v : Str := []) : Span := s.mutate { hyperlink := some v }

end Span

/-- What `hash(color)` is computed from (`color.py:124`): a frozen dataclass hashes the tuple of
all its fields, also if `__eq__` is written by hand. The derived fields are left out, they
are functions of the RGB value. -/
def Color.hashKey (c : Color) : (Nat × Nat × Nat) × Bool × Rat × ColorSpace × Option Str :=
  ((c.r, c.g, c.b), c.isBg, c.alpha, c.origin, c.ctor)

/-- What `hash(span)` is computed from (`span.py:216`): the tuple of all fields; a colour
contributes its own hash. -/
def Span.hashKey {κ : Type} (h : (Nat × Nat × Nat) × Bool × Rat × ColorSpace × Option Str → κ)
    (env : Color.Env) (s : Span) :
    Str × Option κ × Option κ × Str × Style × Bool × Str × Str × Str :=
  (s.text, s.fg.map (h ·.hashKey), s.bg.map (h ·.hashKey), s.hyperlink, s.style, s.resetAfter,
   s.render env, s.sequences env, s.colorlessSequences)

end Slate
