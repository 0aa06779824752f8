import Verif.Model.Terminal
import Verif.Model.Tty

/-!
# `slate/terminal.py`: the small properties and `bell`
-/

namespace Slate
open Py

namespace Terminal

/-- The property `width` (`terminal.py:154-158`). -/
def width (os : Nat → Nat × Nat) (ls : List (Nat × Nat → Reaction)) (depth : Nat) (s : State) : State × Except PyErr Nat :=
  let r := size os ls depth s
  (r.1, r.2.map (·.1))

/-- The property `height` (`terminal.py:160-164`). -/
def height (os : Nat → Nat × Nat) (ls : List (Nat × Nat → Reaction)) (depth : Nat) (s : State) : State × Except PyErr Nat :=
  let r := size os ls depth s
  (r.1, r.2.map (·.2))

/-- The property `isatty` (`terminal.py:166-175`); `answer` is what the method of the stream returns or raises. -/
def isatty (answer : Except PyErr Bool) : Except PyErr Bool :=
  match answer with
  | .error .valueError => .ok false
  | r => r

/-- The property `cursor` (`terminal.py:209-213`). -/
def cursor (w : World) : Int × Int := w.scr.cursor

/-- The setter of `cursor` (`terminal.py:215-219`). -/
def setCursor (new : Int × Int) (w : World) : World := { w with scr := { w.scr with cursor := new } }

/-- `bell` (`terminal.py:415-418`). -/
def bell (c : Tty.Console) : Tty.Console := Tty.writeControl ['\x07'] c

end Terminal
end Slate
