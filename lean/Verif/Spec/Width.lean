import Verif.Spec.Emulator

/-!
# Text with escape sequences in it

What programs embed in text: renditions and cursor positions (control sequences), hyperlinks and other operating system
commands, and images of the kitty graphics protocol. Mentions no definition of the model.
-/

namespace Markup

/-- A parameter character of a control sequence (ECMA-48, 5.4: `0`–`9`, `:`, `;`, `<`–`?`). -/
def Param (c : Char) : Prop := 0x30 ≤ c.toNat ∧ c.toNat ≤ 0x3f

/-- A character of the body of a string: anything but the characters that end the string, and newlines. -/
def Body (c : Char) : Prop := c ≠ '\x1b' ∧ c ≠ '\x07' ∧ c ≠ '\n'

inductive Piece where
  /-- characters to be shown -/
  | text (t : List Char)
  /-- `ESC [ ps m` -/
  | rendition (ps : List Char)
  /-- `ESC [ ps H` -/
  | position (ps : List Char)
  /-- `ESC ] body ESC \` -/
  | command (body : List Char)
  /-- `ESC _ G body ESC \` -/
  | image (body : List Char)

/-- What is sent for a piece. -/
def Piece.chars : Piece → List Char
  | .text t => t
  | .rendition ps => '\x1b' :: '[' :: (ps ++ ['m'])
  | .position ps => '\x1b' :: '[' :: (ps ++ ['H'])
  | .command b => '\x1b' :: ']' :: (b ++ ['\x1b', '\\'])
  | .image b => '\x1b' :: '_' :: 'G' :: (b ++ ['\x1b', '\\'])

/-- The characters of a piece that are shown. -/
def Piece.shown : Piece → List Char
  | .text t => t
  | _ => []

/-- The piece is well formed. -/
def Piece.Ok : Piece → Prop
  | .text t => ∀ c ∈ t, Term.Printable c
  | .rendition ps => ∀ c ∈ ps, Param c
  | .position ps => ∀ c ∈ ps, Param c
  | .command b => ∀ c ∈ b, Body c
  | .image b => ∀ c ∈ b, Body c

instance (c : Char) : Decidable (Param c) := inferInstanceAs (Decidable (_ ∧ _))
instance (c : Char) : Decidable (Body c) := inferInstanceAs (Decidable (_ ∧ _))

instance : (p : Piece) → Decidable p.Ok
  | .text t => inferInstanceAs (Decidable (∀ c ∈ t, Term.Printable c))
  | .rendition ps => inferInstanceAs (Decidable (∀ c ∈ ps, Param c))
  | .position ps => inferInstanceAs (Decidable (∀ c ∈ ps, Param c))
  | .command b => inferInstanceAs (Decidable (∀ c ∈ b, Body c))
  | .image b => inferInstanceAs (Decidable (∀ c ∈ b, Body c))

end Markup
