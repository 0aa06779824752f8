import Verif.Model.Terminal
import Verif.Model.Input

/-!
# `slate/terminal.py`: constructing a `Terminal` and using it

The constructor asks the terminal for its default colours (`terminal.py:91-92`); `write` and `write_bulk` use the background
colour (`terminal.py:354,379`). The tty, its input and the stream are part of the state. Exceptions that strike the main thread during a
query are not modelled here (for `no_echo` they are in `Model/Tty.lean`).
-/

namespace Slate
open Py

namespace Session

/-- A terminal and what it is attached to: the screen, the two cached properties, whether `sys.stdin` is a tty, whether
the tty echoes, the inputs that successive calls of `getch` meet, and everything sent to the stream. -/
structure State where
  w : World
  background : Option Color := none
  foreground : Option Color := none
  tty : Bool := true
  echo : Bool := true
  inputs : List Core.Input := []
  out : Str := []

/-- `set_echo` (`core.py:565-579`). -/
def setEcho (v : Bool) (s : State) : State := if s.tty then { s with echo := v } else s

/-- The digits of a layer (`terminal.py:132,139`). -/
def digits : Core.Layer → Str
  | .fore => ['1', '0']
  | .back => ['1', '1']

/-- `f"\x1b]{layer};?\x1b\\"` (`core.py:261`). -/
def query (layer : Core.Layer) : Str := ['\x1b', ']'] ++ digits layer ++ [';', '?', '\x1b', '\\']

/-- `get_default_color` with its effects (`core.py:244-272`): on a tty the query is sent and one input is read.
`none`: it waits for an input that does not come. -/
def ask (layer : Core.Layer) (s : State) : Option (State × Except PyErr Color) :=
  if s.tty then
    match s.inputs with
    | [] => none
    | inp :: rest => some ({ s with inputs := rest, out := s.out ++ query layer }, Core.getDefaultColor true layer inp)
  else some (s, Core.getDefaultColor false layer .interrupt)

/-- The same within `no_echo` (`terminal.py:131-132,138-139,261-272`). -/
def askQuietly (layer : Core.Layer) (s : State) : Option (State × Except PyErr Color) :=
  (ask layer (setEcho false s)).map fun r => (setEcho true r.1, r.2)

/-- The property `background_color` (`terminal.py:134-139`): a `cached_property` keeps the value once the function has
returned one. -/
def background (s : State) : Option (State × Except PyErr Color) :=
  match s.background with
  | some c => some (s, .ok c)
  | none =>
    match askQuietly .back s with
    | some (s, .ok c) => some ({ s with background := some c }, .ok c)
    | r => r

/-- The property `foreground_color` (`terminal.py:127-132`). -/
def foreground (s : State) : Option (State × Except PyErr Color) :=
  match s.foreground with
  | some c => some (s, .ok c)
  | none =>
    match askQuietly .fore s with
    | some (s, .ok c) => some ({ s with foreground := some c }, .ok c)
    | r => r

/-- The constructor (`terminal.py:78-92`) on a tty of the given size. -/
def construct (width height : Nat) (cache : CharCache) (tty echo : Bool) (inputs : List Core.Input) :
    Option (State × Except PyErr Unit) :=
  match background { w := { scr := Screen.init width height, cache := cache }, tty := tty, echo := echo, inputs := inputs } with
  | none => none
  | some (s, .error e) => some (s, .error e)
  | some (s, .ok _) =>
    match foreground s with
    | none => none
    | some (s, .error e) => some (s, .error e)
    | some (s, .ok _) => some (s, .ok ())

/-- What an application does with the terminal. -/
inductive Call where
  | write (d : Terminal.Data) (cursor : Option (Int × Int))
  | writeBulk (data : List ((Int × Int) × Terminal.Data))
  | clear (fill : Char)
  | draw

/-- A write: first the background colour is evaluated, then the screen is written to (`terminal.py:347-355,376-380`). -/
def onScreen (f : Color → World → World × Except PyErr Nat) (s : State) : Option (State × Except PyErr Nat) :=
  match background s with
  | none => none
  | some (s, .error e) => some (s, .error e)
  | some (s, .ok c) =>
    let r := f (c.asBackground true none) s.w
    some ({ s with w := r.1 }, r.2)

/-- One call (`terminal.py:318-413`) with the default origin (`terminal.py:67`); `none` if it never returns. -/
def call (env : Color.Env) (op : Call) (s : State) : Option (State × Except PyErr Nat) :=
  match op with
  | .write d cursor => onScreen (Terminal.write env d cursor) s
  | .writeBulk data => onScreen (Terminal.writeBulk env data) s
  | .clear fill => some ({ s with w := { s.w with scr := s.w.scr.clear [fill] } }, .ok 0)
  | .draw =>
    let r := s.w.scr.render (1, 1)
    some ({ s with w := { s.w with scr := r.1 }, out := s.out ++ r.2 }, .ok 0)

/-- One call after the other; the application catches exceptions. -/
def calls (env : Color.Env) : List Call → State → Option State
  | [], s => some s
  | op :: ops, s =>
    match call env op s with
    | none => none
    | some (s, _) => calls env ops s

end Session
end Slate
