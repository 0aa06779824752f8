/-!
# An ANSI terminal

The yardstick for everything Slate sends to the terminal: a character-level
state machine with the ECMA-48 / xterm meaning of cursor positioning (`CUP`) and
of graphic rendition (`SGR`). It does not mention any definition of the model.

The plane of cells is unbounded (no margins, no scrolling); rows and columns
count from 1. Codes that the terminal does not know are ignored.
-/

namespace Term

/-- A colour as the terminal understands it. -/
inductive TColor where
  | default
  /-- an entry of the 256-colour palette -/
  | idx (n : Nat)
  | rgb (r g b : Nat)
  deriving DecidableEq, Repr

/-- Graphic rendition: the text styles of ECMA-48 and the two colours. -/
structure Attr where
  bold : Bool := false
  dim : Bool := false
  italic : Bool := false
  underline : Bool := false
  blink : Bool := false
  fastBlink : Bool := false
  invert : Bool := false
  conceal : Bool := false
  strike : Bool := false
  fg : TColor := .default
  bg : TColor := .default
  deriving DecidableEq, Repr

/-- The rendition after a reset. -/
def Attr.clean : Attr := {}

/-- The effect of a single SGR parameter. -/
def sgr1 (n : Nat) (a : Attr) : Attr :=
  match n with
  | 0 => Attr.clean
  | 1 => { a with bold := true }
  | 2 => { a with dim := true }
  | 3 => { a with italic := true }
  | 4 => { a with underline := true }
  | 5 => { a with blink := true }
  | 6 => { a with fastBlink := true }
  | 7 => { a with invert := true }
  | 8 => { a with conceal := true }
  | 9 => { a with strike := true }
  | 22 => { a with bold := false, dim := false }
  | 23 => { a with italic := false }
  | 24 => { a with underline := false }
  | 25 => { a with blink := false, fastBlink := false }
  | 27 => { a with invert := false }
  | 28 => { a with conceal := false }
  | 29 => { a with strike := false }
  | 39 => { a with fg := .default }
  | 49 => { a with bg := .default }
  | n =>
    if 30 ≤ n ∧ n ≤ 37 then { a with fg := .idx (n - 30) }
    else if 40 ≤ n ∧ n ≤ 47 then { a with bg := .idx (n - 40) }
    else if 90 ≤ n ∧ n ≤ 97 then { a with fg := .idx (n - 82) }
    else if 100 ≤ n ∧ n ≤ 107 then { a with bg := .idx (n - 92) }
    else a

/-- The effect of a list of SGR parameters. -/
def sgr : List Nat → Attr → Attr
  | [], a => a
  | 38 :: 5 :: n :: rest, a => sgr rest { a with fg := .idx n }
  | 48 :: 5 :: n :: rest, a => sgr rest { a with bg := .idx n }
  | 38 :: 2 :: r :: g :: b :: rest, a => sgr rest { a with fg := .rgb r g b }
  | 48 :: 2 :: r :: g :: b :: rest, a => sgr rest { a with bg := .rgb r g b }
  | n :: rest, a => sgr rest (sgr1 n a)

/-- Reading a parameter string: decimal numbers separated by `;`, an empty number
is 0; `none` if another character occurs. `cur` is the number read so far. -/
def params (cur : Nat) : List Char → Option (List Nat)
  | [] => some [cur]
  | c :: cs =>
    if c = ';' then (params 0 cs).map (cur :: ·)
    else if '0' ≤ c ∧ c ≤ '9' then params (cur * 10 + (c.toNat - 48)) cs
    else none

/-- Parser mode. -/
inductive Mode where
  | ground
  /-- after `ESC` -/
  | esc
  /-- inside a control sequence; the parameter characters so far -/
  | csi (ps : List Char)
  /-- inside an OSC / DCS / APC string -/
  | str
  /-- after `ESC` inside such a string -/
  | strEsc
  deriving DecidableEq, Repr

/-- What one character cell of the terminal shows. -/
structure Glyph where
  ch : Char
  attr : Attr
  deriving DecidableEq, Repr

/-- The terminal. `grid row col` is what a cell shows; `log` records the cells
printed to so far, in order (it does not influence anything). -/
structure State where
  mode : Mode := .ground
  row : Nat := 1
  col : Nat := 1
  pen : Attr := Attr.clean
  grid : Nat → Nat → Glyph
  log : List (Nat × Nat) := []

/-- A character that occupies a cell when printed. -/
def Printable (c : Char) : Prop :=
  32 ≤ c.toNat ∧ ¬ (127 ≤ c.toNat ∧ c.toNat ≤ 159)

instance (c : Char) : Decidable (Printable c) := inferInstanceAs (Decidable (_ ∧ _))

/-- Replace one cell. -/
def setGrid (g : Nat → Nat → Glyph) (row col : Nat) (v : Glyph) : Nat → Nat → Glyph :=
  fun r c => if r = row ∧ c = col then v else g r c

/-- A control sequence with parameter characters `ps` and final byte `f`. -/
def dispatch (ps : List Char) (f : Char) (s : State) : State :=
  match params 0 ps with
  | none => s
  | some ns =>
    if f = 'm' then { s with pen := sgr ns s.pen }
    else if f = 'H' then
      { s with row := max 1 (ns.getD 0 1), col := max 1 (ns.getD 1 1) }
    else s

/-- One character sent to the terminal. -/
def step (s : State) (c : Char) : State :=
  match s.mode with
  | .ground =>
    if c = '\x1b' then { s with mode := .esc }
    else if c = '\n' then { s with row := s.row + 1, col := 1 }
    else if c = '\r' then { s with col := 1 }
    else if Printable c then
      { s with grid := setGrid s.grid s.row s.col { ch := c, attr := s.pen }
               col := s.col + 1
               log := s.log ++ [(s.row, s.col)] }
    else s
  | .esc =>
    if c = '[' then { s with mode := .csi [] }
    else if c = ']' ∨ c = 'P' ∨ c = '_' then { s with mode := .str }
    else if c = '\x1b' then s
    else { s with mode := .ground }
  | .csi ps =>
    if c = '\x1b' then { s with mode := .esc }
    else if 64 ≤ c.toNat ∧ c.toNat ≤ 126 then { dispatch ps c s with mode := .ground }
    else { s with mode := .csi (ps ++ [c]) }
  | .str =>
    if c = '\x1b' then { s with mode := .strEsc }
    else if c = '\x07' then { s with mode := .ground }
    else s
  | .strEsc =>
    if c = '\\' then { s with mode := .ground }
    else if c = '\x1b' then s
    else { s with mode := .str }

/-- A string sent to the terminal. -/
def run (s : State) (cs : List Char) : State := cs.foldl step s

end Term
