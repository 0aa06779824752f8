import Verif.Spec.Emulator

/-!
# What a screen may send

The strings by which a screen is painted and nothing else is done: printed characters, line breaks, cursor positions
(`CSI row ; column H`) and graphic rendition (`CSI parameters m`). No other control character, control sequence or command
occurs in them. It does not mention any definition of the model.
-/

namespace Traffic

/-- A decimal number. -/
def Number (t : List Char) : Prop := t ≠ [] ∧ ∀ c ∈ t, 48 ≤ c.toNat ∧ c.toNat ≤ 57

/-- Parameters of a control sequence: decimal digits and semicolons. -/
def Params (t : List Char) : Prop := ∀ c ∈ t, 48 ≤ c.toNat ∧ c.toNat ≤ 57 ∨ c = ';'

/-- One thing sent. -/
inductive Piece : List Char → Prop where
  | print (c : Char) (h : Term.Printable c) : Piece [c]
  | break : Piece ['\n']
  | position (row column : List Char) (hr : Number row) (hc : Number column) :
      Piece (['\x1b', '['] ++ row ++ [';'] ++ column ++ ['H'])
  | rendition (ps : List Char) (h : Params ps) : Piece (['\x1b', '['] ++ ps ++ ['m'])

/-- A string that only paints. -/
def Paints (t : List Char) : Prop := ∃ pieces : List (List Char), (∀ p ∈ pieces, Piece p) ∧ t = pieces.flatten

end Traffic
