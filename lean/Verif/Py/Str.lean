/-!
# Python string primitives

The code under study manipulates `str` values. They are modelled as lists of
Unicode code points (`Str := List Char`). Nothing here models a line of Slate
itself; these are the built-ins that Slate calls. Each definition says which
built-in it stands for and where Slate uses it.
-/

namespace Slate

/-- A Python `str`. -/
abbrev Str := List Char

/-- Python exceptions that the modelled code can raise. -/
inductive PyErr where
  | typeError
  | valueError
  | indexError
  | keyError
  | attributeError
  | overflowError
  | osError
  | recursionError
  | timeout
  | interrupt
  | user (n : Nat)
  deriving DecidableEq, Repr

/-- The escape character `"\x1b"`. -/
def ESC : Char := '\x1b'

/-- The reset sequence `"\x1b[0m"`. -/
def RESET : Str := ['\x1b', '[', '0', 'm']

namespace Py

/-- ASCII digit test. -/
def isDig (c : Char) : Bool := decide (48 ≤ c.toNat) && decide (c.toNat ≤ 57)

/-- The decimal zeros of Unicode 14 (Python 3.11); the other nine digits of each script follow its zero. -/
def decimalZeros : List Nat :=
  [0x30, 0x660, 0x6f0, 0x7c0, 0x966, 0x9e6, 0xa66, 0xae6, 0xb66, 0xbe6, 0xc66, 0xce6, 0xd66, 0xde6, 0xe50, 0xed0,
   0xf20, 0x1040, 0x1090, 0x17e0, 0x1810, 0x1946, 0x19d0, 0x1a80, 0x1a90, 0x1b50, 0x1bb0, 0x1c40, 0x1c50, 0xa620,
   0xa8d0, 0xa900, 0xa9d0, 0xa9f0, 0xaa50, 0xabf0, 0xff10, 0x104a0, 0x10d30, 0x11066, 0x110f0, 0x11136, 0x111d0,
   0x112f0, 0x11450, 0x114d0, 0x11650, 0x116c0, 0x11730, 0x118e0, 0x11950, 0x11c50, 0x11d50, 0x11da0, 0x16a60,
   0x16ac0, 0x16b50, 0x1d7ce, 0x1d7d8, 0x1d7e2, 0x1d7ec, 0x1d7f6, 0x1e140, 0x1e2f0, 0x1e950, 0x1fbf0]

/-- The value of a decimal digit of any script: what `int` and `float` read and `\d` matches. -/
def decimalVal (c : Char) : Option Nat :=
  (decimalZeros.find? fun z => decide (z ≤ c.toNat) && decide (c.toNat < z + 10)).map (c.toNat - ·)

/-- `\d` (`terminal.py:40`). -/
def isDecChar (c : Char) : Bool := (decimalVal c).isSome

/-- Digits that are not decimal digits, such as superscripts: `str.isdigit` accepts them, `int` does not. -/
def otherDigits : List (Nat × Nat) :=
  [(0xb2, 0xb3), (0xb9, 0xb9), (0x1369, 0x1371), (0x19da, 0x19da), (0x2070, 0x2070), (0x2074, 0x2079), (0x2080, 0x2089),
   (0x2460, 0x2468), (0x2474, 0x247c), (0x2488, 0x2490), (0x24ea, 0x24ea), (0x24f5, 0x24fd), (0x24ff, 0x24ff),
   (0x2776, 0x277e), (0x2780, 0x2788), (0x278a, 0x2792), (0x10a40, 0x10a43), (0x10e60, 0x10e68), (0x11052, 0x1105a),
   (0x1f100, 0x1f10a)]

/-- `str.isdigit` on one character. -/
def isDigitChar (c : Char) : Bool :=
  isDecChar c || otherDigits.any fun r => decide (r.1 ≤ c.toNat) && decide (c.toNat ≤ r.2)

/-- `s.isdigit()` (`span.py:125,166`): non-empty and digits only. -/
def isDigit (s : Str) : Bool := !s.isEmpty && s.all isDigitChar

/-- `str.isspace` on one character: the full list of Python whitespace. -/
def isSpace (c : Char) : Bool :=
  let n := c.toNat
  (9 ≤ n && n ≤ 13) || (28 ≤ n && n ≤ 31) || n == 32 || n == 0x85 || n == 0xa0 ||
  n == 0x1680 || (0x2000 ≤ n && n ≤ 0x200a) || n == 0x2028 || n == 0x2029 ||
  n == 0x202f || n == 0x205f || n == 0x3000

/-- `s.lstrip(chars)` where membership in `chars` is given by `p`. -/
def lstrip (p : Char → Bool) (s : Str) : Str := s.dropWhile p

/-- `s.rstrip(chars)`. -/
def rstrip (p : Char → Bool) (s : Str) : Str := (s.reverse.dropWhile p).reverse

/-- `s.strip()`. -/
def strip (s : Str) : Str := rstrip isSpace (lstrip isSpace s)

/-- `s.startswith(p)`. -/
def startsWith (s p : Str) : Bool := p.isPrefixOf s

/-- `s.endswith(p)`. -/
def endsWith (s p : Str) : Bool := p.isSuffixOf s

/-- `s.split(c)` for a one-character separator (`";"`, `"\x1b"`). -/
def splitC (c : Char) : Str → List Str
  | [] => [[]]
  | x :: xs =>
    if x = c then [] :: splitC c xs
    else match splitC c xs with
      | [] => [[x]]
      | h :: t => (x :: h) :: t

/-- Worker of `splitS`: `skip` characters of a separator remain to be skipped,
`cur` is the part being collected. -/
def splitGo (sep : Str) : Nat → Str → Str → List Str
  | _, cur, [] => [cur]
  | k + 1, cur, _ :: cs => splitGo sep k cur cs
  | 0, cur, c :: cs =>
    if sep.isPrefixOf (c :: cs) then cur :: splitGo sep (sep.length - 1) [] cs
    else splitGo sep 0 (cur ++ [c]) cs

/-- `s.split(sep)` for a non-empty separator string. -/
def splitS (sep s : Str) : List Str := splitGo sep 0 [] s

/-- `sep.join(parts)`. -/
def join (sep : Str) : List Str → Str
  | [] => []
  | [a] => a
  | a :: b :: t => a ++ sep ++ join sep (b :: t)

/-- `chr(48 + n)`: the digit `n`. -/
def digitChar (n : Nat) : Char := Char.ofNat (48 + n)

/-- Worker of `dec`; the first argument bounds the number of digits. -/
def decF : Nat → Nat → Str
  | 0, n => [digitChar (n % 10)]
  | f + 1, n => if n < 10 then [digitChar n] else decF f (n / 10) ++ [digitChar (n % 10)]

/-- `str(n)` / `f"{n}"` for `n ≥ 0`. -/
def dec (n : Nat) : Str := decF n n

/-- `str(n)` / `f"{n}"` for an `int`. -/
def decInt : Int → Str
  | Int.ofNat n => dec n
  | Int.negSucc n => '-' :: dec (n + 1)

/-- Value of an ASCII digit in base `base` (10 or 16), as accepted by `int(s, base)`. -/
def digitVal (base : Nat) (c : Char) : Option Nat :=
  let n := c.toNat
  let v :=
    if 48 ≤ n ∧ n ≤ 57 then some (n - 48)
    else if 97 ≤ n ∧ n ≤ 102 then some (n - 87)
    else if 65 ≤ n ∧ n ≤ 70 then some (n - 55)
    else none
  match v with
  | some d => if d < base then some d else none
  | none => none

/-- Digits with single underscores between them, as `int()` reads them.
`us` — an underscore may follow; `fin` — the text may end here. -/
def digitsGo (base : Nat) : Bool → Bool → Nat → Str → Option Nat
  | _, fin, acc, [] => if fin then some acc else none
  | us, _, acc, c :: cs =>
    match digitVal base c with
    | some d => digitsGo base true true (acc * base + d) cs
    | none => if c = '_' ∧ us then digitsGo base false false acc cs else none

/-- The unsigned part of `int(s, base)`, with the optional `0x` for base 16. Decimal numbers of more than 4300 digits
are rejected (`sys.int_info.default_max_str_digits`). -/
def intBody (base : Nat) (s : Str) : Option Nat :=
  match s with
  | '0' :: 'x' :: rest => if base = 16 then digitsGo base true false 0 rest else none
  | '0' :: 'X' :: rest => if base = 16 then digitsGo base true false 0 rest else none
  | s => if base = 10 ∧ 4300 < s.countP (· ≠ '_') then none else digitsGo base false false 0 s

/-- The first step of `int` and `float`: decimal digits of all scripts become ASCII digits, white space outside of ASCII becomes
a blank. (CPython puts a question mark in the place of all other characters outside of ASCII; none of them can be read.) -/
def toAscii (c : Char) : Char :=
  if c.toNat < 127 then c
  else if isSpace c then ' '
  else match decimalVal c with
    | some d => digitChar d
    | none => '?'

/-- The white space that `int` and `float` strip, after `toAscii`. -/
def isBlank (c : Char) : Bool := (9 ≤ c.toNat && c.toNat ≤ 13) || c.toNat == 32

/-- `int(s, base)`; `none` is `ValueError`. -/
def int (base : Nat) (s : Str) : Option Int :=
  match rstrip isBlank (lstrip isBlank (s.map toAscii)) with
  | '-' :: rest => (intBody base rest).map fun n => -(n : Int)
  | '+' :: rest => (intBody base rest).map fun n => (n : Int)
  | s => (intBody base s).map fun n => (n : Int)

/-- Upper-case hexadecimal digit. -/
def hexDigit (n : Nat) : Char := if n < 10 then Char.ofNat (48 + n) else Char.ofNat (55 + n)

/-- `f"{n:02X}"` for `0 ≤ n < 256` (`color.py:155`). -/
def hex2 (n : Nat) : Str := [hexDigit (n / 16), hexDigit (n % 16)]

/-- `c.lower()` restricted to ASCII. Exact for the comparisons made in
`core.py:285-302`: no non-ASCII character lowers to a string containing only
the letters of the names compared with. -/
def lower (s : Str) : Str :=
  s.map fun c => if 65 ≤ c.toNat ∧ c.toNat ≤ 90 then Char.ofNat (c.toNat + 32) else c

/-- `s.count(c)` for one character. -/
def count (c : Char) (s : Str) : Nat := s.countP (· = c)

/-- Worker of `replaceS`. -/
def replaceGo (old new : Str) : Nat → Str → Str
  | _, [] => []
  | k + 1, _ :: cs => replaceGo old new k cs
  | 0, c :: cs =>
    if old.isPrefixOf (c :: cs) then new ++ replaceGo old new (old.length - 1) cs
    else c :: replaceGo old new 0 cs

/-- `s.replace(old, new)` for non-empty `old`. -/
def replace (old new s : Str) : Str := replaceGo old new 0 s

end Py
end Slate
