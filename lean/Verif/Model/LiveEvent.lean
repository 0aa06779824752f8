import Verif.Model.Event

/-!
# `slate/event.py` with listeners that change the event

`Model/Event.lean` leaves out that a listener may call `append`, `+=` or `clear` of the event that is being emitted. Here a listener is a name, and the
list of the listeners is a part of the state that all of them can change.
-/

namespace Slate
open Py

/-- The event's `_listeners` (`event.py:28`) and the rest of the application. -/
structure Live (N σ : Type) where
  listeners : List N
  app : σ

/-- What the listener of a name does when it is called with data, and what it returns or raises. -/
abbrev Acts (N σ D : Type) := N → D → Live N σ → Live N σ × Except PyErr Ret

variable {N σ D : Type}

/-- The loop of `__call__` (`event.py:53-57`), which may run forever: from the index `i` of the iterator of the list, with `output`. The listeners called,
the state at the end, and the value returned or the exception. An iterator of a list ends at the first index that is not in the list at that time. -/
inductive Emits (act : Acts N σ D) (d : D) : Nat → Ret → Live N σ → List N → Live N σ → Except PyErr Ret → Prop
  | done {i output s} (h : s.listeners[i]? = none) : Emits act d i output s [] s (.ok output)
  | raised {i output s n s' e} (h : s.listeners[i]? = some n) (hc : act n d s = (s', .error e)) : Emits act d i output s [n] s' (.error e)
  | refused {i output s n s' v e} (h : s.listeners[i]? = some n) (hc : act n d s = (s', .ok v)) (ho : output.bor v.orFalse = .error e) :
    Emits act d i output s [n] s' (.error e)
  | next {i output s n s' v output' tr s'' r} (h : s.listeners[i]? = some n) (hc : act n d s = (s', .ok v))
    (ho : output.bor v.orFalse = .ok output') (hn : Emits act d (i + 1) output' s' tr s'' r) : Emits act d i output s (n :: tr) s'' r

/-- `__call__` (`event.py:43-57`). -/
def Calls (act : Acts N σ D) (d : D) (s : Live N σ) (tr : List N) (s' : Live N σ) (r : Except PyErr Ret) : Prop :=
  Emits act d 0 (.bool false) s tr s' r

end Slate
