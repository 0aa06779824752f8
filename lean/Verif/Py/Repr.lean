import Verif.Py.Str

/-!
# `repr` of strings

The algorithm of CPython (`unicode_repr`). Which characters outside ASCII are printable
(`str.isprintable`) is a parameter: it depends on the Unicode tables of the interpreter.
-/

namespace Slate.Py

/-- Lower-case hexadecimal digit. -/
def hexLower (n : Nat) : Char := if n < 10 then Char.ofNat (48 + n) else Char.ofNat (87 + n)

/-- The last `k` hexadecimal digits of a number. -/
def hexN : Nat → Nat → Str
  | 0, _ => []
  | k + 1, n => hexLower (n / 16 ^ k % 16) :: hexN k n

/-- One character inside a literal delimited by `q`. -/
def reprChar (printable : Char → Bool) (q c : Char) : Str :=
  if c = q ∨ c = '\\' then ['\\', c]
  else if c = '\t' then ['\\', 't']
  else if c = '\n' then ['\\', 'n']
  else if c = '\r' then ['\\', 'r']
  else if c.toNat < 32 ∨ c.toNat = 127 then ['\\', 'x'] ++ hexN 2 c.toNat
  else if c.toNat < 127 then [c]
  else if printable c then [c]
  else if c.toNat < 256 then ['\\', 'x'] ++ hexN 2 c.toNat
  else if c.toNat < 65536 then ['\\', 'u'] ++ hexN 4 c.toNat
  else ['\\', 'U'] ++ hexN 8 c.toNat

/-- The quotes used: double ones if there are single but no double quotes in the text. -/
def reprQuote (s : Str) : Char := if '\'' ∈ s ∧ '"' ∉ s then '"' else '\''

/-- `repr(s)`. -/
def reprOf (printable : Char → Bool) (s : Str) : Str :=
  let q := reprQuote s
  [q] ++ s.flatMap (reprChar printable q) ++ [q]

end Slate.Py
