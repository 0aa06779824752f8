import Verif.Model.Decode

/-!
# Streams that are not in UTF-8: `slate/core.py:400-447`
-/

namespace Slate
open Py

namespace Core

/-- The other values of `decode` (`core.py:402-408`). -/
inductive Codec where
  /-- A single-byte encoding: `none` is `UnicodeDecodeError`. -/
  | table (t : Nat → Option Char)
  /-- `stream.encoding is None` -/
  | noEncoding

/-- `latin-1`. -/
def latin1 : Codec := .table fun b => some (Char.ofNat b)

/-- `ascii`. -/
def ascii : Codec := .table fun b => if b < 0x80 then some (Char.ofNat b) else none

/-- One turn of the loop of `_read` (`core.py:416-421`): the text appended. Without an encoding `decode` returns the bytes as they are,
and adding `bytes` to a `str` raises `TypeError`. -/
def Codec.readByte : Codec → Nat → Except PyErr Str
  | .table t, b =>
    match t b with
    | some c => .ok [c]
    | none => .ok (byteRepr b)
  | .noEncoding, _ => .error .typeError

/-- `_read(1)` (`core.py:410-423`): how it ends, and the bytes left. `none`: still waiting for bytes. -/
def Codec.readOne (d : Codec) : List Nat → Option (Except PyErr Str × List Nat)
  | [] => none
  | b :: bs =>
    match d.readByte b with
    | .error e => some (.error e, bs)
    | .ok t => if t.length < 1 then d.readOne bs else some (.ok t, bs)

/-- The loop `while _is_ready(stream)` (`core.py:439-440`), as `readWhile`. -/
def Codec.readWhile (d : Codec) (ready : List Nat → Bool) : Nat → List Nat → Str → Option (Except PyErr Str × List Nat)
  | 0, bs, buff => if ready bs then none else some (.ok buff, bs)
  | fuel + 1, bs, buff =>
    if ready bs then
      match d.readOne bs with
      | none => none
      | some (.error e, bs) => some (.error e, bs)
      | some (.ok t, bs) => d.readWhile ready fuel bs (buff ++ t)
    else some (.ok buff, bs)

/-- The reading part of `_getch_posix` (`core.py:434-440`), as `readText`. -/
def Codec.readText (d : Codec) (ready : List Nat → Bool) (bs : List Nat) : Option (Except PyErr Str × List Nat) :=
  match d.readOne bs with
  | none => none
  | some (.error e, bs) => some (.error e, bs)
  | some (.ok t, bs) => d.readWhile ready bs.length bs t

end Core
end Slate
