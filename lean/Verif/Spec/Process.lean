import Verif.Spec.Api
import Mathlib.Logic.Function.Basic

/-!
# Several screens in one process

All `Screen` objects of a process share the cache of `Span.get_characters` (`span.py:418`, a decorator on the function, so one cache for
the process), and every screen has its own cells and pending changes. Making a screen does not touch the cache, so a screen that is
made later is here one that is there from the start.
-/

namespace Slate
open Py

/-- The screens of a process and the cache. -/
structure Process where
  scr : Nat → Screen
  cache : CharCache := []

/-- A call on the screen with the given number. -/
def Process.run (env : Color.Env) (p : Process) (call : Nat × Api) : Process :=
  let w := call.2.run env { scr := p.scr call.1, cache := p.cache }
  { scr := Function.update p.scr call.1 w.scr, cache := w.cache }

/-- A history of calls on the screens, in any order. -/
def Process.runAll (env : Color.Env) (p : Process) (calls : List (Nat × Api)) : Process := calls.foldl (Process.run env) p

/-- The calls on one screen, in their order. -/
def callsOn (i : Nat) (calls : List (Nat × Api)) : List Api := (calls.filter fun c => c.1 == i).map (·.2)

/-- What a screen is like when no other one is used. -/
def alone (env : Color.Env) (p : Process) (i : Nat) (calls : List (Nat × Api)) : Screen :=
  (Api.runAll env { scr := p.scr i } (callsOn i calls)).scr

/-- Strings that are equal up to the line breaks at their ends. -/
def AlikeStr (a b : Str) : Prop := rstrip (· == '\n') a = rstrip (· == '\n') b

/-- Screens that differ at most in line breaks at the ends of the strings that are still to be drawn. -/
structure Screen.Alike (a b : Screen) : Prop where
  width : a.width = b.width
  height : a.height = b.height
  cells : a.cells = b.cells
  cursor : a.cursor = b.cursor
  offset : a.offset = b.offset
  changes : List.Forall₂ (fun c d => c.1 = d.1 ∧ AlikeStr c.2 d.2) a.changes b.changes

/-- Every call on another screen either leaves the window of that screen where it is or is given none of the spans. -/
def Undisturbed (env : Color.Env) (P : Span → Prop) (i : Nat) : Process → List (Nat × Api) → Prop
  | _, [] => True
  | p, c :: rest =>
    (c.1 = i ∨ c.2.Uses (fun s => ¬ P s) (fun _ => True) ∨ ((p.run env c).scr c.1).offset = (p.scr c.1).offset) ∧
    Undisturbed env P i (p.run env c) rest

end Slate
