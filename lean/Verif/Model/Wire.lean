import Verif.Model.Input

/-!
# The tty during `getch`, and queries to the terminal (`slate/core.py:249-258,431-447`, `slate/terminal.py:113-125,177-205`)

What arrives at the tty is modelled as events that can happen between any two steps of the program. `tty.setcbreak` is called without
its argument `when`, so it is `TCSAFLUSH`: what has arrived and was not read is discarded. `termios.tcsetattr(…, TCSADRAIN, …)`
discards nothing. Characters arrive whole (for the bytes of a character see `Model/Decode.lean`), nothing was fed, and nobody else
changes the modes of the tty meanwhile.
-/

namespace Slate
open Py

namespace Wire

/-- The input side of a tty: its two modes that matter here, what has arrived and was not read, and what the tty echoed. -/
structure Tty where
  echo : Bool := true
  canon : Bool := true
  queue : Str := []
  shown : Str := []
  deriving DecidableEq

/-- Text arrives. -/
def Tty.arrive (s : Str) (t : Tty) : Tty :=
  { t with queue := t.queue ++ s, shown := if t.echo then t.shown ++ s else t.shown }

/-- `tty.setcbreak(descriptor)` (`core.py:433`). -/
def Tty.setcbreak (t : Tty) : Tty := { t with echo := false, canon := false, queue := [] }

/-- `termios.tcsetattr(descriptor, termios.TCSADRAIN, old_settings)` (`core.py:445`). -/
def Tty.restore (old : Bool × Bool) (t : Tty) : Tty := { t with echo := old.1, canon := old.2 }

/-- Where `_getch_posix` is: not called; after `tcgetattr` (`core.py:432`); in the reading loop (`core.py:435-441`) with `buff`; after
`_is_ready` has said that nothing is there (`core.py:440`). `old` is `old_settings`. -/
inductive Phase where
  | idle
  | saved (old : Bool × Bool)
  | reading (old : Bool × Bool) (buff : Str)
  | ending (old : Bool × Bool) (buff : Str)
  deriving DecidableEq

/-- A program that calls `getch` and what its calls have returned. -/
structure Sys where
  tty : Tty := {}
  phase : Phase := .idle
  keys : List Str := []
  deriving DecidableEq

/-- Something is typed, or the program makes a step: `tcgetattr`, `setcbreak`, the reading of a character, `_is_ready` with the answer
no, and the restoring of the attributes with the return; or the alarm of `getch_timeout` strikes. -/
inductive Ev where
  | typed (s : Str)
  | begin
  | cbreak
  | read
  | quiet
  | restore
  | alarm
  deriving DecidableEq

/-- One event (`core.py:431-447`); `none` if it cannot happen. The first read waits; further ones are made if something is there
(`core.py:438-441`). The exception of an alarm (`core.py:360-371`) leaves `_getch_posix` through its `finally`; the local variable `buff` is
lost. (That it can also strike right after `setcbreak` and leave the mode as it is, is C59.) -/
def step (s : Sys) : Ev → Option Sys
  | .typed t => some { s with tty := s.tty.arrive t }
  | .begin => match s.phase with
    | .idle => some { s with phase := .saved (s.tty.echo, s.tty.canon) }
    | _ => none
  | .cbreak => match s.phase with
    | .saved old => some { s with tty := s.tty.setcbreak, phase := .reading old [] }
    | _ => none
  | .read => match s.phase, s.tty.queue with
    | .reading old buff, c :: q => some { s with tty := { s.tty with queue := q }, phase := .reading old (buff ++ [c]) }
    | _, _ => none
  | .quiet => match s.phase, s.tty.queue with
    | .reading old buff, [] => if buff = [] then none else some { s with phase := .ending old buff }
    | _, _ => none
  | .restore => match s.phase with
    | .ending old buff => some { s with tty := s.tty.restore old, phase := .idle, keys := s.keys ++ [buff] }
    | _ => none
  | .alarm => match s.phase with
    | .idle => none
    | .saved _ => some { s with phase := .idle }
    | .reading old _ => some { s with tty := s.tty.restore old, phase := .idle }
    | .ending old _ => some { s with tty := s.tty.restore old, phase := .idle }

/-- A sequence of events. -/
def run (s : Sys) : List Ev → Option Sys
  | [] => some s
  | e :: es => match step s e with
    | some s => run s es
    | none => none

/-! ### Queries -/

/-- A query: the reading program, whether the query was written, what the terminal still has to answer, and whether the read timed
out. -/
structure Query where
  sys : Sys := {}
  sent : Bool := false
  owed : Str := []
  timedOut : Bool := false
  deriving DecidableEq

/-- What can happen during a query: an event of the reader, the writing of the query, the arrival of a part of the answer, and the
end of the waiting time. -/
inductive QEv where
  | ev (e : Ev)
  | send
  | reply (s : Str)
  | timeout
  deriving DecidableEq

/-- One event during a query whose answer is `ans`. If `threaded`, it is the query of a colour: the reader is a thread that is
started before the query is written and may be anywhere by then, and there is no timeout (`core.py:249-258`). Otherwise the query
is written first and `getch_timeout` is called then (`terminal.py:120-122,192-200`). One key is read. -/
def qstep (threaded : Bool) (ans : Str) (q : Query) : QEv → Option Query
  | .ev .begin =>
    if (threaded = true ∨ q.sent = true) ∧ q.sys.keys = [] ∧ q.timedOut = false then (step q.sys .begin).map fun s => { q with sys := s }
    else none
  | .ev .alarm => none
  | .ev e => (step q.sys e).map fun s => { q with sys := s }
  | .send => if q.sent = true then none else some { q with sent := true, owed := ans }
  | .reply s =>
    if q.sent = true ∧ s ≠ [] ∧ s <+: q.owed then
      some { q with sys := { q.sys with tty := q.sys.tty.arrive s }, owed := q.owed.drop s.length }
    else none
  | .timeout =>
    if threaded = true then none else (step q.sys .alarm).map fun s => { q with sys := s, timedOut := true }

/-- A sequence of events. -/
def qrun (threaded : Bool) (ans : Str) (q : Query) : List QEv → Option Query
  | [] => some q
  | e :: es => match qstep threaded ans q e with
    | some q => qrun threaded ans q es
    | none => none

end Wire
end Slate
