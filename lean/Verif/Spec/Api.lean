import Verif.Model.Screen

/-!
# Histories of arbitrary calls on a screen
-/

namespace Slate

/-- A call of the public interface of `Screen`, with arbitrary arguments, or a direct
call of `Span.get_characters`. -/
inductive Api where
  | write (spans : List Span) (cursor : Option (Int × Int)) (tb : Color) (force : Bool)
  | writeBulk (data : List Entry) (tb : Color) (force : Bool)
  | clear (fill : Str)
  | resize (w h : Nat) (fill : Str) (keep : Bool)
  | render (origin : Int × Int) (redraw : Bool)
  | getCharacters (s : Span)

/-- The world after a call. A call that raises leaves whatever it had changed. -/
def Api.run (env : Color.Env) (w : World) : Api → World
  | .write spans cursor tb force => (Slate.write env spans cursor tb force w).1
  | .writeBulk data tb force => (Slate.writeBulk env data tb force w).1
  | .clear fill => { w with scr := w.scr.clear fill }
  | .resize a b fill keep => { w with scr := w.scr.resize (a, b) fill keep }
  | .render origin redraw => { w with scr := (w.scr.render origin redraw).1 }
  | .getCharacters s => { w with cache := (w.cache.get s).2 }

/-- A history. -/
def Api.runAll (env : Color.Env) (w : World) (ops : List Api) : World := ops.foldl (Api.run env) w

/-- The spans and background colours that a call is given. -/
def Api.Uses (P : Span → Prop) (Q : Color → Prop) : Api → Prop
  | .write spans _ tb _ => (∀ s ∈ spans, P s) ∧ Q tb
  | .writeBulk data tb _ => (∀ e ∈ data, ∀ s ∈ e.2, P s) ∧ Q tb
  | _ => True

/-- The fill strings that a call is given. -/
def Api.Fills (F : Str → Prop) : Api → Prop
  | .clear fill => F fill
  | .resize _ _ fill _ => F fill
  | _ => True

end Slate
