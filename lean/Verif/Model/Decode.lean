import Verif.Model.Input

/-!
# From bytes to text: `slate/core.py:388-482, 502-511` and `Terminal.supports_synchronized_update`

Bytes are numbers below 256. The encoding of the stream is UTF-8;
streams that are not in UTF-8 are in `Model/Codec.lean`.
-/

namespace Slate
open Py

namespace Core

/-! ### The incremental UTF-8 decoder (`core.py:402-403`) -/

/-- What decoding some bytes without more input at hand gives: a character that uses all of
them, nothing yet, or `UnicodeDecodeError`. -/
inductive Dec where
  | char (c : Char)
  | more
  | bad
  deriving DecidableEq

/-- A continuation byte. -/
def isCont (b : Nat) : Bool := decide (0x80 ≤ b) && decide (b ≤ 0xBF)

/-- A byte that may follow the lead byte `a` of three or four bytes: the overlong forms, the surrogates and
the numbers above `0x10FFFF` are refused here. -/
def isSecond (a b : Nat) : Bool :=
  isCont b && !(decide (a = 0xE0) && decide (b < 0xA0)) && !(decide (a = 0xED) && decide (0xA0 ≤ b)) &&
    !(decide (a = 0xF0) && decide (b < 0x90)) && !(decide (a = 0xF4) && decide (0x90 ≤ b))

/-- The first two bytes of a surrogate. The decoder refuses a surrogate only when its third byte arrives ("truncated
surrogate code" in `unicode_decode_utf8` of CPython). -/
def isHalfSurrogate (a b : Nat) : Bool := decide (a = 0xED) && decide (0xA0 ≤ b) && decide (b ≤ 0xBF)

/-- `_codecs.utf_8_decode(data, "strict", False)` of the standard library, for what the decoder below can
hold: at most one character. -/
def utf8Decode : List Nat → Dec
  | [] => .more
  | [a] => if a < 0x80 then .char (Char.ofNat a) else if 0xC2 ≤ a ∧ a ≤ 0xF4 then .more else .bad
  | [a, b] =>
    if 0xC2 ≤ a ∧ a ≤ 0xDF then
      if isCont b then .char (Char.ofNat ((a - 0xC0) * 64 + (b - 0x80))) else .bad
    else if 0xE0 ≤ a ∧ a ≤ 0xF4 then
      if isSecond a b || isHalfSurrogate a b then .more else .bad
    else .bad
  | [a, b, c] =>
    if 0xE0 ≤ a ∧ a ≤ 0xEF then
      if isSecond a b && isCont c then .char (Char.ofNat ((a - 0xE0) * 4096 + (b - 0x80) * 64 + (c - 0x80))) else .bad
    else if 0xF0 ≤ a ∧ a ≤ 0xF4 then
      if isSecond a b && isCont c then .more else .bad
    else .bad
  | [a, b, c, d] =>
    if 0xF0 ≤ a ∧ a ≤ 0xF4 then
      if isSecond a b && isCont c && isCont d then
        .char (Char.ofNat ((a - 0xF0) * 262144 + (b - 0x80) * 4096 + (c - 0x80) * 64 + (d - 0x80)))
      else .bad
    else .bad
  | _ => .bad

/-- One hexadecimal digit, lower case. -/
def hexDigit (n : Nat) : Char := if n < 10 then Char.ofNat (48 + n) else Char.ofNat (87 + n)

/-- `str(char)` of a single byte (`core.py:421`): its `repr`. -/
def byteRepr (b : Nat) : Str :=
  if b = 39 then "b\"'\"".toList
  else if b = 92 then "b'\\\\'".toList
  else if b = 9 then "b'\\t'".toList
  else if b = 10 then "b'\\n'".toList
  else if b = 13 then "b'\\r'".toList
  else if 32 ≤ b ∧ b ≤ 126 then ['b', '\'', Char.ofNat b, '\'']
  else ['b', '\'', '\\', 'x', hexDigit (b / 16), hexDigit (b % 16), '\'']

/-- One turn of the loop of `_read` (`core.py:416-421`): the text appended and the bytes the decoder
keeps. `BufferedIncrementalDecoder.decode` decodes what it kept together with the new byte and
replaces what it kept only if that did not raise. -/
def readByte (kept : List Nat) (b : Nat) : Str × List Nat :=
  match utf8Decode (kept ++ [b]) with
  | .char c => ([c], [])
  | .more => ([], kept ++ [b])
  | .bad => (byteRepr b, kept)

/-- `_read(1)` (`core.py:410-423`) on a stream that delivers `bytes`: the text, the bytes left and the bytes
kept by the decoder. `none`: still waiting for more bytes. -/
def readOne : List Nat → List Nat → Option (Str × List Nat × List Nat)
  | _, [] => none
  | kept, b :: bs =>
    let r := readByte kept b
    if r.1.length < 1 then readOne r.2 bs else some (r.1, bs, r.2)

/-- The loop `while _is_ready(stream)` (`core.py:439-440`). `ready` tells from the bytes not yet read whether
the first of them has arrived. Each turn reads at least one byte, so that `fuel`, the number
of bytes, is not a restriction. -/
def readWhile (ready : List Nat → Bool) : Nat → List Nat → List Nat → Str → Option (Str × List Nat)
  | 0, _, bs, buff => if ready bs then none else some (buff, bs)
  | fuel + 1, kept, bs, buff =>
    if ready bs then
      match readOne kept bs with
      | none => none
      | some (t, bs, kept) => readWhile ready fuel kept bs (buff ++ t)
    else some (buff, bs)

/-- The reading part of `_getch_posix` (`core.py:434-440`): text and bytes left, or `none` if it waits for ever.
The decoder is a new one for each call (`core.py:402-403`). -/
def readText (ready : List Nat → Bool) (bs : List Nat) : Option (Str × List Nat) :=
  match readOne [] bs with
  | none => none
  | some (t, bs, kept) => readWhile ready bs.length kept bs t

/-! ### End of input -/

/-- The state of the loop of `_read(1)` (`core.py:413-421`). -/
structure Loop where
  bytes : List Nat
  kept : List Nat := []
  buff : Str := []
  deriving DecidableEq

/-- `len(buff) < count` (`core.py:415`). -/
def Loop.running (l : Loop) : Bool := decide (l.buff.length < 1)

/-- The body of the loop (`core.py:416-421`) on a stream at whose end `os.read` returns `b""` at once; decoding
that gives the empty string. -/
def Loop.body (l : Loop) : Loop :=
  match l.bytes with
  | [] => l
  | b :: bs => { bytes := bs, kept := (readByte l.kept b).2, buff := l.buff ++ (readByte l.kept b).1 }

/-- The state after `n` turns, or earlier if the loop ends. -/
def Loop.after : Nat → Loop → Loop
  | 0, l => l
  | n + 1, l => if l.running then Loop.after n l.body else l

/-! ### Windows -/

/-- `_ensure_str` of one byte (`core.py:457-463`): bytes above 127 raise `UnicodeDecodeError`, a `ValueError`. -/
def ensureStr (b : Nat) : Except PyErr Str := if b < 0x80 then .ok [Char.ofNat b] else .error .valueError

/-- The loop `while msvcrt.kbhit()` (`core.py:478-480`): `bs` are the bytes waiting. -/
def ntMore : List Nat → Str → Except PyErr Str
  | [], buff => .ok buff
  | b :: bs, buff => do
    let t ← ensureStr b
    ntMore bs (buff ++ t)

/-- `_getch_nt` (`core.py:450-482`). -/
def getchNt : List Nat → Except PyErr Str
  | [] => .ok []
  | b :: bs => do
    let t ← if b = 0xE0 then .ok ['\x1b'] else ensureStr b
    ntMore bs t

/-- `getch` on Windows (`core.py:502-511`). -/
def getchOnNt (tty raw : Bool) (bs : List Nat) : Except PyErr Key :=
  if !tty then .ok ⟨[[]]⟩
  else do
    let key ← getchNt bs
    if raw then .ok ⟨[key]⟩ else .ok ⟨(dictGet ntKeyNames key).getD [key]⟩

/-! ### `Terminal.supports_synchronized_update` -/

/-- `QUERY_SYNCHRONIZED_UPDATE` (`core.py:154`). -/
def querySync : Str := "\x1b[?2026$p".toList

/-- The accepted responses (`terminal.py:125`). -/
def syncAccepted : List Str := ["\x1b[?2026;1$y".toList, "\x1b[?2026;2$y".toList]

/-- `supports_synchronized_update` (`terminal.py:112-125`); `reply` as in `resolution`. If the time runs out
`getch_timeout` returns its default `None`, and `str` turns that into `"None"`. -/
def supportsSync (stdin : Bool) (reply : Option Input) : Except PyErr Bool := do
  let response ← match reply with
    | none => if stdin then .ok "None".toList else .ok []
    | some inp => (do
        let k ← getch stdin false inp
        k.str)
  if response = [] then .ok false
  else .ok (decide (response ∈ syncAccepted))

end Core
end Slate
