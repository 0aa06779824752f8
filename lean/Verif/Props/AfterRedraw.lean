import Verif.Props.Draw

/-!
# C02: a draw after a redraw
-/

namespace Slate
open Py

/-- **C02** (nothing changed), after a draw of either kind: a redraw leaves nothing pending either, so the next draw emits only the reset
sequence. -/
theorem C02_draw_after_any (s : Screen) (o o' : Int × Int) (redraw : Bool) :
    ((s.render o redraw).1.render o').2 = "\x1b[0m".toList ∧ (s.render o redraw).1.cells = s.cells := by
  cases redraw <;> simp [Screen.render, Changes.gather, renderGo, endsWith, RESET]

/-- A new screen has all of its places pending; a redraw takes them all. -/
example : (Screen.init 2 1).changes.length = 2 ∧ ((Screen.init 2 1).render (1, 1) true).1.changes = [] := by decide +kernel

end Slate
