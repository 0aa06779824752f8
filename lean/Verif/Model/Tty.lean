import Verif.Model.Prog
import Verif.Model.Input
import Verif.Spec.Modes

/-!
# Terminal modes: `slate/terminal.py:221-316`, `slate/core.py:145-156, 350-375, 388-447, 530-579`
-/

namespace Slate
open Py Core

namespace Tty

/-! ### Control sequences (`core.py:145-156`, `terminal.py:309-316`) -/

/-- `START_ALT_BUFFER` (`core.py:145`). -/
def startAlt : Str := "\x1b[?1049h".toList
/-- `END_ALT_BUFFER` (`core.py:146`). -/
def endAlt : Str := "\x1b[?1049l".toList
/-- `SHOW_CURSOR` (`core.py:147`). -/
def showCursor : Str := "\x1b[?25h".toList
/-- `HIDE_CURSOR` (`core.py:148`). -/
def hideCursor : Str := "\x1b[?25l".toList
/-- `STORE_TITLE` (`core.py:150`). -/
def storeTitle : Str := "\x1b[22;0t".toList
/-- `SET_TITLE.format(title=...)` (`core.py:151`). -/
def setTitleSeq (t : Str) : Str := "\x1b]0;".toList ++ t ++ ['\x07']
/-- `RESTORE_TITLE` (`core.py:152`). -/
def restoreTitle : Str := "\x1b[23;0t".toList
/-- `BEGIN_SYNCHRONIZED_UPDATE` (`core.py:155`), with the `$` of the code. -/
def beginSync : Str := "\x1b[?2026$h".toList
/-- `END_SYNCHRONIZED_UPDATE` (`core.py:156`). -/
def endSync : Str := "\x1b[?2026$l".toList
/-- `set_report_mouse(True)` (`terminal.py:313`). -/
def mouseOn : Str := "\x1b[?1006h\x1b[?1002h\x1b[?1003h".toList
/-- `set_report_mouse(False)` (`terminal.py:316`). -/
def mouseOff : Str := "\x1b[?1006l\x1b[?1002l\x1b[?1003l".toList

/-! ### The terminal object and its context managers -/

/-- The kinds of blocks. -/
inductive Kind where
  | alt (hide : Bool)
  | mouse
  | batch
  | echo
  deriving DecidableEq

/-- What the blocks act on: all that was written to the stream, the echo flag of the
tty, `_custom_title` (`terminal.py:76`). `log` is not part of the code: it records what an
observer inside the blocks sees. -/
structure Console where
  out : Str := []
  echo : Bool := true
  custom : Option Str := none
  log : List (List Kind × Str × Bool) := []

/-- `write_control` (`terminal.py:384-397`). -/
def writeControl (s : Str) (w : Console) : Console := { w with out := w.out ++ s }

/-- `set_echo` on a tty (`core.py:565-579`). -/
def setEcho (v : Bool) (w : Console) : Console := { w with echo := v }

/-- Programs of a user: writes (of what `draw` emits, or of other text), exceptions, titles,
observations, and blocks. -/
inductive Block where
  | skip
  | write (text : Str)
  | raise (e : PyErr)
  | title (new : Option Str)
  | look
  | seq (a b : Block)
  /-- `try: a` / `except e: b` -/
  | catch (a : Block) (e : PyErr) (b : Block)
  | within (k : Kind) (body : Block)

/-- `if not self._custom_title` (`terminal.py:294`): `None` and `""` are false. -/
def hasTitle (w : Console) : Bool :=
  match w.custom with
  | some t => decide (t ≠ [])
  | none => false

/-- `set_title` (`terminal.py:281-298`). -/
def titleProg (new : Option Str) : Prog Console :=
  match new with
  | none => .seq (.risky (writeControl restoreTitle)) (.risky fun w => { w with custom := none })
  | some t =>
    .seq (.ite hasTitle .skip (.risky (writeControl storeTitle)))
      (.seq (.risky (writeControl (setTitleSeq t))) (.risky fun w => { w with custom := some t }))

/-- What a context manager does before its `yield`, inside the `try` (`terminal.py:227-231, 246-247,
257-258, 273-274`). -/
def enter : Kind → Prog Console
  | .alt hide => .seq (.risky (writeControl startAlt)) (if hide then .risky (writeControl hideCursor) else .skip)
  | .mouse => .risky (writeControl mouseOn)
  | .batch => .risky (writeControl beginSync)
  | .echo => .risky (setEcho false)

/-- What it does in the `finally` (`terminal.py:235-240, 250-251, 261-262, 278-279`). The steps of the
`finally` are assumed to complete: if the stream itself fails, nothing can be undone. -/
def leave : Kind → Prog Console
  | .alt hide => .seq (.sure (writeControl endAlt)) (.seq (.sure (writeControl restoreTitle))
      (if hide then .sure (writeControl showCursor) else .skip))
  | .mouse => .sure (writeControl mouseOff)
  | .batch => .sure (writeControl endSync)
  | .echo => .sure (setEcho true)

/-- The program of a block: `with cm: body` runs the generator up to the `yield`, the body, and
then the generator's `finally`, also if the first part or the body raises. `ctx` lists the
enclosing blocks. -/
def prog (ctx : List Kind) : Block → Prog Console
  | .skip => .skip
  | .write text => .risky (writeControl text)
  | .raise e => .raise e
  | .title new => titleProg new
  | .look => .risky fun w => { w with log := w.log ++ [(ctx, w.out, w.echo)] }
  | .seq a b => .seq (prog ctx a) (prog ctx b)
  | .catch a e b => .tryExcept (prog ctx a) e (prog ctx b)
  | .within k body => .tryFinally (.seq (enter k) (prog (k :: ctx) body)) (leave k)

/-! ### Titles, without exceptions -/

/-- `set_title` (`terminal.py:281-298`). -/
def setTitle (w : Console) (new : Option Str) : Console :=
  match new with
  | none => { writeControl restoreTitle w with custom := none }
  | some t =>
    let w := if hasTitle w then w else writeControl storeTitle w
    { writeControl (setTitleSeq t) w with custom := some t }

/-- The start of `alt_buffer` (`terminal.py:227-231`). -/
def altStart (hide : Bool) (w : Console) : Console :=
  let w := writeControl startAlt w
  if hide then writeControl hideCursor w else w

/-- The end of `alt_buffer` (`terminal.py:235-240`). -/
def altEnd (hide : Bool) (w : Console) : Console :=
  let w := writeControl restoreTitle (writeControl endAlt w)
  if hide then writeControl showCursor w else w

/-! ### `getch` and the tty attributes -/

/-- The state during a `getch` on a tty: its attributes, the local variable `old_settings`, what
has been read, whether the alarm is armed, and what has been returned. -/
structure Reader (α : Type) where
  attrs : α
  old : Option α := none
  buff : Str := []
  armed : Bool := false
  ret : Option Str := none

variable {α : Type}

/-- The reading loop (`core.py:437-441`): any number of reads, each of which may be interrupted or
fail. -/
def reads : List Str → Prog (Reader α)
  | [] => .skip
  | c :: cs => .seq (.risky fun r => { r with buff := r.buff ++ c }) (reads cs)

/-- `_getch_posix` from the query of the attributes on (`core.py:431-447`). `cb` is what `setcbreak`
does to the attributes; `late` are the exceptions that can strike between `setcbreak` and the `try`,
`fin` those that can prevent the restoring in the `finally`. -/
def getchPosix (cb : α → α) (late fin : Reader α → PyErr → Prop) (chunks : List Str) : Prog (Reader α) :=
  .seq (.risky fun r => { r with old := some r.attrs })
    (.seq (.act (fun r => { r with attrs := cb r.attrs }) (fun _ _ => True) late)
      (.seq (.tryFinally (reads chunks)
          (.act (fun r => { r with attrs := r.old.getD r.attrs }) fin fin))
        .skip))

/-- `getch` on a tty (`core.py:515-527`): `KeyboardInterrupt` counts as the key `chr(3)`; then the key is
looked up and returned. What is returned is represented by the raw text (`getch` of
`Model/Input.lean` gives the key). -/
def getchProg (cb : α → α) (late fin : Reader α → PyErr → Prop) (chunks : List Str) : Prog (Reader α) :=
  .seq (.tryExcept (getchPosix cb late fin chunks) .interrupt (.risky fun r => { r with buff := ['\x03'] }))
    (.risky fun r => { r with ret := some r.buff })

/-- `timeout` (`core.py:350-375`) around a body. The first two steps install the handler and start
the timer; `fin` are the exceptions that can strike before or after `signal.alarm(0)`. -/
def timeoutProg (fin : Reader α → PyErr → Prop) (body : Prog (Reader α)) : Prog (Reader α) :=
  .tryFinally
    (.tryExcept
      (.seq (.act (fun r => { r with armed := true }) (fun _ e => e ≠ .timeout) (fun _ _ => True)) body)
      .timeout .skip)
    (.act (fun r => { r with armed := false }) fin fin)

/-- `getch_timeout` (`core.py:530-562`): `with timeout(duration): return getch()`, then
`return default`. The body returns iff it set `ret`. -/
def getchTimeout (fin : Reader α → PyErr → Prop) (default : Str) (body : Prog (Reader α)) : Prog (Reader α) :=
  .seq (timeoutProg fin body)
    (.ite (fun r => r.ret.isSome) .skip (.sure fun r => { r with ret := some default }))

end Tty
end Slate
