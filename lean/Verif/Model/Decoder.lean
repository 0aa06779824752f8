import Verif.Model.Codec

/-!
# Streams in any encoding: `slate/core.py:388-447`

`Model/Decode.lean` is about UTF-8 and `Model/Codec.lean` about single-byte encodings. Here the decoder is any machine.
-/

namespace Slate
open Py

namespace Core

/-- `getincrementaldecoder(stream.encoding)().decode` (`core.py:402-403`), which is called with one byte at a time: any machine that takes a
byte and either gives a text (often the empty one) or raises `UnicodeDecodeError`; in both cases it is in a new state afterwards.
The decoders of the standard library are such machines; which one it is does not matter here. -/
structure Decoder where
  State : Type
  start : State
  feed : State → Nat → Except State (Str × State)

/-- One turn of the loop of `_read` (`core.py:416-421`): the text appended and the new state of the decoder. -/
def Decoder.readByte (d : Decoder) (s : d.State) (b : Nat) : Str × d.State :=
  match d.feed s b with
  | .ok r => r
  | .error s => (byteRepr b, s)

/-- `_read(1)` (`core.py:410-423`), as `readOne`. -/
def Decoder.readOne (d : Decoder) : d.State → List Nat → Option (Str × List Nat × d.State)
  | _, [] => none
  | s, b :: bs =>
    let r := d.readByte s b
    if r.1.length < 1 then d.readOne r.2 bs else some (r.1, bs, r.2)

/-- The loop `while _is_ready(stream)` (`core.py:439-440`), as `readWhile`. -/
def Decoder.readWhile (d : Decoder) (ready : List Nat → Bool) : Nat → d.State → List Nat → Str → Option (Str × List Nat)
  | 0, _, bs, buff => if ready bs then none else some (buff, bs)
  | fuel + 1, s, bs, buff =>
    if ready bs then
      match d.readOne s bs with
      | none => none
      | some (t, bs, s) => d.readWhile ready fuel s bs (buff ++ t)
    else some (buff, bs)

/-- The reading part of `_getch_posix` (`core.py:434-440`), as `readText`. The decoder is a new one for each call. -/
def Decoder.readText (d : Decoder) (ready : List Nat → Bool) (bs : List Nat) : Option (Str × List Nat) :=
  match d.readOne d.start bs with
  | none => none
  | some (t, bs, s) => d.readWhile ready bs.length s bs t

/-- The decoder of UTF-8 (`Model/Decode.lean`): bytes that were refused are forgotten, those kept before are not. -/
def utf8Decoder : Decoder where
  State := List Nat
  start := []
  feed kept b := match utf8Decode (kept ++ [b]) with
    | .char c => .ok ([c], [])
    | .more => .ok ([], kept ++ [b])
    | .bad => .error kept

/-- The decoder of a single-byte encoding (`Model/Codec.lean`). -/
def tableDecoder (t : Nat → Option Char) : Decoder where
  State := Unit
  start := ()
  feed _ b := match t b with
    | some c => .ok ([c], ())
    | none => .error ()

/-- The decoder of an encoding with characters of one and of two bytes, such as EUC-KR, GBK or Big5: `lead` are the bytes that begin a
character of two, `one` and `two` are the tables. `MultibyteIncrementalDecoder` of CPython has no bytes waiting after an error. -/
def pairDecoder (lead : Nat → Bool) (one : Nat → Option Char) (two : Nat → Nat → Option Char) : Decoder where
  State := Option Nat
  start := none
  feed s b := match s with
    | none =>
      if lead b then .ok ([], some b)
      else match one b with
        | some c => .ok ([c], none)
        | none => .error none
    | some a => match two a b with
      | some c => .ok ([c], none)
      | none => .error none

end Core
end Slate
