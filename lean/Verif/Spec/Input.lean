import Verif.Py.Str

/-!
# What terminals send: the SGR mouse protocol and reply formats

Written from the xterm control sequence documentation, independently of the code.
-/

namespace Slate
open Py

/-- What the mouse did. -/
inductive MouseEv where
  | click (right : Bool)
  | drag (right : Bool)
  | hover
  | scrollUp
  | scrollDown
  | scrollLeft
  | scrollRight
  deriving DecidableEq

/-- The event of an SGR button code, leaving out the modifier bits 4, 8 and 16: the low
bits are the button (0 left, 2 right, 3 none), 32 is set for motion, 64 for the wheel.
The middle button (1) has no name in the library. -/
def mouseEv (b : Nat) : Option MouseEv :=
  let k := b / 32 * 32 + b % 4
  if k = 0 then some (.click false)
  else if k = 2 then some (.click true)
  else if k = 32 then some (.drag false)
  else if k = 34 then some (.drag true)
  else if k = 35 then some .hover
  else if k = 64 then some .scrollUp
  else if k = 65 then some .scrollDown
  else if k = 66 then some .scrollLeft
  else if k = 67 then some .scrollRight
  else none

/-- The modifier bits: 4 shift, 8 option (meta), 16 ctrl. -/
def mouseModifiers (b : Nat) : Str :=
  (if b.testBit 2 then "shift_".toList else []) ++ (if b.testBit 4 then "ctrl_".toList else []) ++
  (if b.testBit 3 then "option_".toList else [])

/-- The name of an event; a click that ends is a release. -/
def MouseEv.name (pressed : Bool) : MouseEv → Str
  | .click right =>
    (if right then "right_".toList else "left_".toList) ++ (if pressed then "click".toList else "release".toList)
  | .drag right => if right then "right_drag".toList else "left_drag".toList
  | .hover => "hover".toList
  | .scrollUp => "scroll_up".toList
  | .scrollDown => "scroll_down".toList
  | .scrollLeft => "scroll_left".toList
  | .scrollRight => "scroll_right".toList

/-- The report `ESC [ < b ; x ; y M` (pressed) or `... m` (released). -/
def mouseReport (b : Nat) (x y : Nat) (pressed : Bool) : Str :=
  ['\x1b', '[', '<'] ++ dec b ++ [';'] ++ dec x ++ [';'] ++ dec y ++ [if pressed then 'M' else 'm']

/-- `t` reads `ev;x;z`, up to any number of the characters `ESC`, `[` and `<` in front. -/
def MouseLike (t ev x z : Str) : Prop :=
  ∃ p : Str, (∀ c ∈ p, c = '\x1b' ∨ c = '[' ∨ c = '<') ∧ t = p ++ (ev ++ ';' :: (x ++ ';' :: z)) ∧
    (∀ c, ev.head? = some c → c ≠ '\x1b' ∧ c ≠ '[' ∧ c ≠ '<') ∧ ';' ∉ ev ∧ ';' ∉ x ∧ ';' ∉ z

/-- `ev` is the decimal number of a supported button. -/
def Supported (ev : Str) : Prop := ∃ b e, ev = dec b ∧ mouseEv b = some e

/-- `t` is the part of `s` after the last occurrence of `sep`, or `s` itself. -/
def AfterLast (sep s t : Str) : Prop :=
  (∃ p, s = p ++ sep ++ t ∧ ¬ sep <:+: t) ∨ (¬ sep <:+: s ∧ t = s)

/-- Lower-case hexadecimal digits. -/
def lowHexDigit (n : Nat) : Char := if n < 10 then Char.ofNat (48 + n) else Char.ofNat (87 + n)

/-- A 16-bit channel in four lower-case hexadecimal digits. -/
def hexChannel (n : Nat) : Str :=
  [lowHexDigit (n / 4096), lowHexDigit (n / 256 % 16), lowHexDigit (n / 16 % 16), lowHexDigit (n % 16)]

/-- The reply to a palette query: `ESC ] layer ; rgb:RRRR/GGGG/BBBB ESC \`. -/
def paletteReply (layer : Str) (r g b : Nat) : Str :=
  ['\x1b', ']'] ++ layer ++ ";rgb:".toList ++ hexChannel r ++ ['/'] ++ hexChannel g ++ ['/'] ++ hexChannel b ++
  ['\x1b', '\\']

/-- What a terminal with the given text and background colours answers to what it is sent: `ESC ] 10 ; ? ESC \\` asks for the
colour of the text, `ESC ] 11 ; ? ESC \\` for that of the background (xterm control sequences, OSC 10 and 11). -/
def paletteAnswers (fore back : Nat × Nat × Nat) : Str → List Str
  | '\x1b' :: ']' :: '1' :: d :: ';' :: '?' :: '\x1b' :: '\\' :: t =>
    (if d = '0' then [paletteReply ['1', '0'] fore.1 fore.2.1 fore.2.2]
     else if d = '1' then [paletteReply ['1', '1'] back.1 back.2.1 back.2.2]
     else []) ++ paletteAnswers fore back t
  | _ :: t => paletteAnswers fore back t
  | [] => []

/-- The reply to the pixel size query: `ESC [ 4 ; H ; W t`. -/
def pixelReply (h w : Nat) : Str :=
  ['\x1b', '[', '4', ';'] ++ dec h ++ [';'] ++ dec w ++ ['t']

end Slate
