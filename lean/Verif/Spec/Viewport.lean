import Verif.Spec.Api

/-!
# The same drawing on two screens

A drawing is a list of calls. It is made on one screen, and on another one with all positions moved.
-/

namespace Slate

/-- The calls of a drawing, with positions. -/
inductive Stroke where
  | bulk (data : List ((Int × Int) × List Span)) (tb : Color) (force : Bool)
  | clear (fill : Str)
  | draw (origin : Int × Int) (redraw : Bool)

/-- The call on a screen on which all positions are moved. -/
def Stroke.moved (dx dy : Int) : Stroke → Api
  | .bulk data tb force => .writeBulk (data.map fun e => (some (e.1.1 + dx, e.1.2 + dy), e.2)) tb force
  | .clear fill => .clear fill
  | .draw origin redraw => .render origin redraw

/-- A text that stays in its row: it starts inside the row and is not longer than the row, and the row is not below the screen. -/
def StaysIn (w h : Nat) (dx dy : Int) (e : (Int × Int) × List Span) : Prop :=
  0 ≤ e.1.1 + dx ∧ e.1.1 + dx + ((e.2.map fun s => s.text.length).sum : Nat) ≤ w ∧ e.1.2 + dy < h ∧
  ∀ s ∈ e.2, s.text ≠ [] ∧ '\n' ∉ s.text

/-- All texts of a call stay in their rows. -/
def Stroke.StaysIn (w h : Nat) (dx dy : Int) : Stroke → Prop
  | .bulk data _ _ => ∀ e ∈ data, Slate.StaysIn w h dx dy e
  | _ => True

end Slate
