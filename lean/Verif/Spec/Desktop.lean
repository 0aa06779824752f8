import Verif.Spec.History
import Mathlib.Logic.Function.Basic

/-!
# Several screens on one terminal

The screens of a process are drawn at different places of the same terminal. They share the cache of `Span.get_characters`.
-/

namespace Slate
open Term

/-- The screens, the cache and the terminal. -/
structure Desktop where
  scr : Nat → Screen
  cache : CharCache := []
  term : State

/-- An operation on the screen with the given number, which is drawn at its own origin. -/
def Desktop.run (env : Color.Env) (org : Nat → Nat × Nat) (d : Desktop) (call : Nat × Op) : Desktop :=
  let s := exec env ((org call.1).1, (org call.1).2) { w := { scr := d.scr call.1, cache := d.cache }, term := d.term } call.2
  { scr := Function.update d.scr call.1 s.w.scr, cache := s.w.cache, term := s.term }

/-- A history of operations on the screens, in any order. -/
def Desktop.runAll (env : Color.Env) (org : Nat → Nat × Nat) (d : Desktop) (calls : List (Nat × Op)) : Desktop :=
  calls.foldl (Desktop.run env org) d

/-- The operations on one screen, in their order. -/
def opsOn (i : Nat) (calls : List (Nat × Op)) : List Op := (calls.filter fun c => c.1 == i).map (·.2)

/-- The cell of the terminal in row `r` and column `c` belongs to the window. -/
def InWindow (org size : Nat × Nat) (r c : Nat) : Prop :=
  org.2 ≤ r ∧ r < org.2 + size.2 ∧ org.1 ≤ c ∧ c < org.1 + size.1

end Slate
