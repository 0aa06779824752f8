/-!
# Character data of XML

A decoder for the text between two tags: the five predefined entities and
numeric character references. Markup characters and unknown or unfinished
references are errors.
-/

namespace Xml

/-- Value of a digit string in a base, `none` if a character is no digit. -/
def number (base : Nat) : Nat → List Char → Option Nat
  | acc, [] => some acc
  | acc, c :: cs =>
    let d := if '0' ≤ c ∧ c ≤ '9' then c.toNat - 48
      else if 'a' ≤ c ∧ c ≤ 'f' then c.toNat - 87
      else if 'A' ≤ c ∧ c ≤ 'F' then c.toNat - 55 else base
    if d < base then number base (acc * base + d) cs else none

/-- The character a reference `&name;` stands for. -/
def resolve (name : List Char) : Option Char :=
  if name = ['a', 'm', 'p'] then some '&'
  else if name = ['l', 't'] then some '<'
  else if name = ['g', 't'] then some '>'
  else if name = ['q', 'u', 'o', 't'] then some '"'
  else if name = ['a', 'p', 'o', 's'] then some '\''
  else match name with
    | '#' :: 'x' :: d :: ds => (number 16 0 (d :: ds)).map Char.ofNat
    | '#' :: d :: ds => (number 10 0 (d :: ds)).map Char.ofNat
    | _ => none

/-- Decoding; the first argument is the name of the reference being read. -/
def decodeGo : Option (List Char) → List Char → Option (List Char)
  | none, [] => some []
  | some _, [] => none
  | none, c :: cs =>
    if c = '&' then decodeGo (some []) cs
    else if c = '<' ∨ c = '>' then none
    else (decodeGo none cs).map (c :: ·)
  | some name, c :: cs =>
    if c = ';' then
      match resolve name with
      | some d => (decodeGo none cs).map (d :: ·)
      | none => none
    else decodeGo (some (name ++ [c])) cs

/-- The text that character data stands for. -/
def decode (s : List Char) : Option (List Char) := decodeGo none s

end Xml
