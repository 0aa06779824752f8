import Verif.Model.Event
import Verif.Model.Prog
import Verif.Model.Screen

/-!
# `slate/terminal.py`: size, `write`, `write_bulk`, `draw`
-/

namespace Slate
open Py

namespace Terminal

/-! ### The size (`terminal.py:78-92, 141-152`) -/

/-- What an `on_resize` listener does with the terminal: it may query the size any number of times,
and returns or raises. -/
inductive Reaction where
  | done (v : Ret)
  | fail (e : PyErr)
  | query (next : Nat × Nat → Reaction)

/-- The parts of a terminal that matter here. `clock` counts the calls of `get_terminal_size`; `calls` records the
listeners invoked (position and argument). -/
structure State where
  prev : Option (Nat × Nat)
  scr : Screen
  clock : Nat
  calls : List (Nat × (Nat × Nat)) := []

/-- A listener as a function of the state, given the meaning `q` of a size query. -/
def react (q : State → State × Except PyErr (Nat × Nat)) : Reaction → State → State × Except PyErr Ret
  | .done v, s => (s, .ok v)
  | .fail e, s => (s, .error e)
  | .query next, s =>
    match q s with
    | (s, .error e) => (s, .error e)
    | (s, .ok size) => react q (next size) s

/-- The listener registered by the constructor (`terminal.py:83-88`). -/
def resizeListener : Listener State (Nat × Nat) :=
  fun size s => ({ s with scr := s.scr.resize size }, .ok (.bool true))

/-- The listeners of a user, in order, starting with position `i`. -/
def userListeners (q : State → State × Except PyErr (Nat × Nat)) :
    Nat → List (Nat × Nat → Reaction) → List (Listener State (Nat × Nat))
  | _, [] => []
  | i, l :: ls =>
    (fun size s => react q (l size) { s with calls := s.calls ++ [(i, size)] }) :: userListeners q (i + 1) ls

/-- The property `size` (`terminal.py:141-152`). `os n` is the answer of the `n`-th call of
`get_terminal_size`; the first argument is the remaining recursion depth. -/
def size (os : Nat → Nat × Nat) (ls : List (Nat × Nat → Reaction)) : Nat → State → State × Except PyErr (Nat × Nat)
  | 0, s => (s, .error .recursionError)
  | depth + 1, s =>
    let size' := os s.clock
    let s := { s with clock := s.clock + 1 }
    match s.prev with
    | none => ({ s with prev := some size' }, .ok size')
    | some p =>
      if size' ≠ p then
        match (Event.call { listeners := resizeListener :: userListeners (size os ls depth) 0 ls } size' s) with
        | (s, .error e) => (s, .error e)
        | (s, .ok _) => ({ s with prev := some size' }, .ok size')
      else ({ s with prev := some size' }, .ok size')

/-- The constructor (`terminal.py:78-88`), as far as the size is concerned. -/
def create (os : Nat → Nat × Nat) : State :=
  { prev := some (os 0), scr := Screen.init (os 0).1 (os 0).2, clock := 1 }

/-! ### `write` and `write_bulk` (`terminal.py:327-382`) -/

/-- What can be passed as the spans of a write: a list, a generator (the spans it yields and the
exception that ends it, if any), a string, or a single span, which can be iterated. -/
inductive Data where
  | spans (l : List Span)
  | span (s : Span)
  | gen (g : List Span × Option PyErr)
  | str (s : Str)

/-- The loop over the data of `Screen.write_bulk` (`screen.py:193-244`) for any iterables: `list(line)` runs a
generator to its end; a non-empty string gives one-character strings, which have no attribute
`foreground`. -/
def putItems : List (Option (Int × Int) × Data) → Mats → World → Mats × World × Option PyErr
  | [], m, w => (m, w, none)
  | (none, _) :: _, m, w => (m, w, some .typeError)
  | (some pos, d) :: rest, m, w =>
    let go (line : List Span) :=
      match putData [(some pos, line)] m w with
      | (m, w, some e) => (m, w, some e)
      | (m, w, none) => putItems rest m w
    match d with
    | .spans l => go l
    | .span s => go s.items
    | .gen (l, none) => go l
    | .gen (_, some e) => (m, w, some e)
    | .str [] => go []
    | .str (_ :: _) => (m, w, some .attributeError)

/-- `Screen.write_bulk` for any iterables. -/
def screenWriteBulk (env : Color.Env) (data : List (Option (Int × Int) × Data)) (tb : Color) (w : World) :
    World × Except PyErr Nat :=
  match putItems data Mats.blank w with
  | (_, w, some e) => (w, .error e)
  | (m, w, none) =>
    let (s, r) := commit env tb m w.scr
    ({ w with scr := s }, r)

/-- `Terminal.write` (`terminal.py:327-357`). `bg` is `self.background_color.as_background()`. -/
def write (env : Color.Env) (d : Data) (cursor : Option (Int × Int)) (bg : Color) (w : World) :
    World × Except PyErr Nat :=
  let d := match d with
    | .str s => .gen (yieldFrom s)
    | d => d
  screenWriteBulk env [(cursor, d)] bg w

/-- `Terminal.write_bulk` (`terminal.py:359-382`): strings are passed on as they are. -/
def writeBulk (env : Color.Env) (data : List ((Int × Int) × Data)) (bg : Color) (w : World) :
    World × Except PyErr Nat :=
  screenWriteBulk env (data.map fun e => (some e.1, e.2)) bg w

/-! ### `draw` (`terminal.py:399-413`) -/

/-- The state during a draw: screen, local variable `ansi`, contents of the file `screen.txt`, and everything that
reached the stream. -/
structure Drawing where
  scr : Screen
  ansi : Str := []
  file : Str := []
  stream : Str := []

/-- `draw`: each step may raise, before or after its effect. -/
def drawProg (origin : Int × Int) (redraw : Bool) : Prog Drawing :=
  .seq (.risky fun d => { d with scr := (d.scr.render origin redraw).1, ansi := (d.scr.render origin redraw).2 })
    (.seq (.risky fun d => { d with file := [] })
      (.seq (.risky fun d => { d with file := d.ansi })
        (.risky fun d => { d with stream := d.stream ++ d.ansi })))

end Terminal
end Slate
