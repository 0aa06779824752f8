import Verif.Py.Str
import Mathlib.Data.Int.Bitwise

/-!
# `slate/event.py`
-/

namespace Slate
open Py

/-- A value returned by a listener: `None`, a `bool`, an `int`, or an object of another type (of which
only the truth value matters). -/
inductive Ret where
  | none
  | bool (b : Bool)
  | int (n : Int)
  | other (truth : Bool)
  deriving DecidableEq, Repr

/-- `bool(v)`. -/
def Ret.truthy : Ret → Bool
  | .none => false
  | .bool b => b
  | .int n => decide (n ≠ 0)
  | .other t => t

/-- The integer value of a `bool` or `int`. -/
def Ret.toInt : Ret → Option Int
  | .bool b => some (if b then 1 else 0)
  | .int n => some n
  | _ => Option.none

/-- `a | b`: of two `bool`s a `bool`, of `bool`s and `int`s an `int`, otherwise `TypeError` (objects with their
own `|` are not modelled). -/
def Ret.bor (a b : Ret) : Except PyErr Ret :=
  match a, b with
  | .bool a, .bool b => .ok (.bool (a || b))
  | a, b =>
    match a.toInt, b.toInt with
    | some x, some y => .ok (.int (Int.lor x y))
    | _, _ => .error .typeError

/-- `v or False`. -/
def Ret.orFalse (v : Ret) : Ret := if v.truthy then v else .bool false

/-- A listener: what it does to the state of the application, and what it returns or raises. -/
abbrev Listener (σ D : Type) := D → σ → σ × Except PyErr Ret

/-- An `Event` (`event.py:18-28`). Listeners do not change the event while it is emitted; `Model/LiveEvent.lean` has those that do. -/
structure Event (σ D : Type) where
  listeners : List (Listener σ D) := []

variable {σ D : Type}

/-- `__bool__` (`event.py:30-33`). -/
def Event.truthy (e : Event σ D) : Bool := decide (0 < e.listeners.length)

/-- `append` (`event.py:59-63`). -/
def Event.append (e : Event σ D) (l : Listener σ D) : Event σ D := { e with listeners := e.listeners ++ [l] }

/-- `__iadd__` (`event.py:35-41`); `none` is an object that cannot be called. -/
def Event.iadd (e : Event σ D) (l : Option (Listener σ D)) : Except PyErr (Event σ D) :=
  match l with
  | some l => .ok (e.append l)
  | none => .error .valueError

/-- `clear` (`event.py:65-68`). -/
def Event.clear (_ : Event σ D) : Event σ D := { listeners := [] }

/-- The loop of `__call__` (`event.py:53-57`). -/
def emitGo (d : D) : List (Listener σ D) → Ret → σ → σ × Except PyErr Ret
  | [], output, s => (s, .ok output)
  | l :: ls, output, s =>
    match l d s with
    | (s, .error e) => (s, .error e)
    | (s, .ok v) =>
      match output.bor v.orFalse with
      | .error e => (s, .error e)
      | .ok output => emitGo d ls output s

/-- `__call__` (`event.py:43-57`). -/
def Event.call (e : Event σ D) (d : D) (s : σ) : σ × Except PyErr Ret := emitGo d e.listeners (.bool false) s

end Slate
