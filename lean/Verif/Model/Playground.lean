import Verif.Model.Terminal
import Verif.Model.Input
import Verif.Model.Repr

/-!
# `examples/mouse_playground.py`

The loop of the example, without its context managers (those are in `Model/Tty.lean`). The terminal has the
default origin (1, 1) (`terminal.py:67`).
-/

namespace Slate
open Py

namespace Playground

/-- How an iteration of the loop ends: with the next one, with the end of the loop, or with an
exception. -/
inductive Outcome where
  | next
  | stop
  | raised (e : PyErr)
  deriving DecidableEq

/-- `tuple(int(x) - 1 for x in coord_part.split(";"))` (`mouse_playground.py:21`). -/
def coords : List Str → Except PyErr (List Int)
  | [] => .ok []
  | s :: rest =>
    match Py.int 10 s with
    | none => .error .valueError
    | some n =>
      match coords rest with
      | .error e => .error e
      | .ok l => .ok ((n - 1) :: l)

/-- `terminal.write` of a string with a tuple as the cursor (`mouse_playground.py:15,18,23`): unpacking a tuple that
is not a pair raises `ValueError` (`screen.py:193`), before anything is written. -/
def writeAt (env : Color.Env) (bg : Color) (s : Str) (cursor : List Int) (w : World) :
    World × Except PyErr Nat :=
  match cursor with
  | [x, y] => Terminal.write env (.str s) (some (x, y)) bg w
  | _ => (w, .error .valueError)

/-- `terminal.draw()` (`terminal.py:399-413`): the screen afterwards, and what is sent. -/
def draw (redraw : Bool) (w : World) : World × Str :=
  let r := w.scr.render (1, 1) redraw
  ({ w with scr := r.1 }, r.2)

/-- The `else` branch of the loop (`mouse_playground.py:17-23`). -/
def mouse (env : Color.Env) (pr : Char → Bool) (bg : Color) (key : Str) (w : World) :
    World × Except PyErr Nat :=
  match writeAt env bg (" Mouse: ".toList ++ reprOf pr key ++ [' ']) [0, 1] w with
  | (w, .error e) => (w, .error e)
  | (w, .ok _) =>
    match coords (splitC ';' ((splitC '@' key).getLastD [])) with
    | .error e => (w, .error e)
    | .ok cs => writeAt env bg ['X'] cs w

/-- The body of the loop for a key (`mouse_playground.py:7-25`): the screen, what is sent to the terminal, and how the
body ends. -/
def body (env : Color.Env) (pr : Char → Bool) (bg : Color) (key : Str) (w : World) : World × Str × Outcome :=
  if key = "ctrl-c".toList then (w, [], .stop)
  else
    let (w, out) := if key = ['c'] then draw true { w with scr := w.scr.clear [' '] } else (w, [])
    let r := if startsWith key "mouse:".toList = false then
        writeAt env bg (" Keyboard: ".toList ++ reprOf pr key ++ [' ']) [0, 0] w
      else mouse env pr bg key w
    match r with
    | (w, .error e) => (w, out, .raised e)
    | (w, .ok _) =>
      let (w, out') := draw false w
      (w, out ++ out', .next)

/-- One iteration (`mouse_playground.py:6-25`): the loop also ends if the key is empty. -/
def step (env : Color.Env) (pr : Char → Bool) (bg : Color) (inp : Core.Input) (w : World) : World × Str × Outcome :=
  match Core.getch true false inp with
  | .error e => (w, [], .raised e)
  | .ok k =>
    match k.str with
    | .error e => (w, [], .raised e)
    | .ok key => if key = [] then (w, [], .stop) else body env pr bg key w

/-- The loop on a list of inputs (`mouse_playground.py:6-25`): the screen, everything sent to the terminal, and how it ended;
`next` if it waits for more. -/
def loop (env : Color.Env) (pr : Char → Bool) (bg : Color) : List Core.Input → World → World × Str × Outcome
  | [], w => (w, [], .next)
  | inp :: rest, w =>
    match step env pr bg inp w with
    | (w, out, .next) =>
      let (w, out', o) := loop env pr bg rest w
      (w, out ++ out', o)
    | r => r

end Playground
end Slate
