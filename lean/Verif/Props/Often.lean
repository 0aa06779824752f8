import Verif.Lemmas.Forget
import Verif.Props.Draw

/-!
# C100: how often an application draws
-/

namespace Slate
open Py Term

/-- **C100** (stored): two histories of calls that differ only in when and how something was drawn, including writes that raise or
scroll, resizing and redraws, leave the same cells, size, cursor, offset and cache, and every later write returns or raises
the same. -/
theorem C100_stored (env : Color.Env) (w : World) (ops ops' : List Api)
    (h : (ops.filter fun op => !op.isRender) = ops'.filter fun op => !op.isRender) :
    let a := Api.runAll env w ops
    let b := Api.runAll env w ops'
    a.scr.cells = b.scr.cells ∧ a.scr.width = b.scr.width ∧ a.scr.height = b.scr.height ∧ a.scr.cursor = b.scr.cursor ∧
    a.scr.offset = b.scr.offset ∧ a.cache = b.cache ∧
    ∀ data tb force, (writeBulk env data tb force a).2 = (writeBulk env data tb force b).2 := by
  intro a b
  have e : a.forget = b.forget := by
    rw [Api.runAll_forget env ops w w rfl, Api.runAll_forget env ops' w w rfl, h]
  obtain ⟨e1, e2⟩ := World.forget_eq.mp e
  refine ⟨congrArg (fun s => s.cells) e1, congrArg (fun s => s.width) e1, congrArg (fun s => s.height) e1,
    congrArg (fun s => s.cursor) e1, congrArg (fun s => s.offset) e1, e2, fun data tb force => ?_⟩
  exact (writeBulk_forget env data tb force a b e).2

/-- The calls that a history makes on the screen. -/
def Op.api (origin : Int × Int) : Op → Api
  | .write spans cursor tb force => .write spans cursor tb force
  | .writeBulk data tb force => .writeBulk data tb force
  | .clear fill => .clear [fill]
  | .draw => .render origin false

theorem exec_api (env : Color.Env) (origin : Int × Int) (s : Sys) (op : Op) :
    (exec env origin s op).w = (op.api origin).run env s.w := by cases op <;> rfl

theorem execAll_api (env : Color.Env) (origin : Int × Int) (ops : List Op) (s : Sys) :
    (execAll env origin s ops).w = Api.runAll env s.w (ops.map (Op.api origin)) := by
  induction ops generalizing s with
  | nil => rfl
  | cons op ops ih =>
    show (execAll env origin (exec env origin s op) ops).w = Api.runAll env ((op.api origin).run env s.w) (ops.map (Op.api origin))
    rw [ih, exec_api]

/-- Whether the operation is not a draw. -/
def Op.keeps : Op → Bool
  | .draw => false
  | _ => true

theorem filter_api (origin : Int × Int) (ops : List Op) :
    ((ops.map (Op.api origin)).filter fun op => !op.isRender) = (ops.filter Op.keeps).map (Op.api origin) := by
  induction ops with
  | nil => rfl
  | cons op ops ih =>
    cases op with
    | draw => exact ih
    | write => exact congrArg (List.cons _) ih
    | writeBulk => exact congrArg (List.cons _) ih
    | clear => exact congrArg (List.cons _) ih

/-- **C100** (shown): after the last draw of two histories that differ only in when was drawn before, and that did not scroll, the
terminals show the same, at any two origins and whatever was on them. -/
theorem C100_shown (env : Color.Env) (den : Color → TColor) (hden : DenOk env den)
    (ox oy ox' oy' : Nat) (hx : 1 ≤ ox) (hy : 1 ≤ oy) (hx' : 1 ≤ ox') (hy' : 1 ≤ oy') (w h : Nat)
    (cur : Int × Int) (fill : Char) (hfill : Printable fill) (cache : CharCache) (hcache : CacheOk cache)
    (T T' : State) (hT : T.mode = .ground) (hpen : T.pen = Attr.clean) (hT' : T'.mode = .ground) (hpen' : T'.pen = Attr.clean)
    (ops ops' : List Op) (hops : ∀ op ∈ ops, OpOk (SpanOk env den) op) (same : ops.filter Op.keeps = ops'.filter Op.keeps) :
    let s := execAll env (ox, oy) { w := { scr := Screen.init w h cur [fill], cache := cache }, term := T } (ops ++ [.draw])
    let s' := execAll env (ox', oy') { w := { scr := Screen.init w h cur [fill], cache := cache }, term := T' } (ops' ++ [.draw])
    s.w.scr.offset = 0 →
    ∀ x y, x < w → y < h → s.term.grid (y + oy) (x + ox) = s'.term.grid (y + oy') (x + ox') := by
  intro s s' ho x y hxw hyh
  have hops' : ∀ op ∈ ops', OpOk (SpanOk env den) op := by
    intro op hop
    cases hd : op.keeps with
    | false => cases op <;> trivial
    | true =>
      have : op ∈ ops'.filter Op.keeps := List.mem_filter.mpr ⟨hop, hd⟩
      rw [← same] at this
      exact hops op (List.mem_filter.mp this).1
  have hf : ((((ops ++ [Op.draw]).map (Op.api (ox, oy))).filter fun op => !op.isRender)) =
      (((ops' ++ [Op.draw]).map (Op.api (ox', oy'))).filter fun op => !op.isRender) := by
    rw [filter_api, filter_api, List.filter_append, List.filter_append, same]
    refine List.map_congr_left fun op hop => ?_
    have : op.keeps = true := by
      rcases List.mem_append.mp hop with hop | hop <;> exact (List.mem_filter.mp hop).2
    cases op <;> first | rfl | simp [Op.keeps] at this
  obtain ⟨c1, -, -, -, c5, -, -⟩ := C100_stored env { scr := Screen.init w h cur [fill], cache := cache } _ _ hf
  have e1 := execAll_api env (ox, oy) (ops ++ [.draw])
    { w := { scr := Screen.init w h cur [fill], cache := cache }, term := T }
  have e2 := execAll_api env (ox', oy') (ops' ++ [.draw])
    { w := { scr := Screen.init w h cur [fill], cache := cache }, term := T' }
  have ho' : s'.w.scr.offset = 0 := by
    show (execAll _ _ _ _).w.scr.offset = 0
    rw [e2, ← c5, ← e1]
    exact ho
  obtain ⟨cell, a1, a2⟩ := C01_draw_shows_screen env den hden ox oy hx hy w h cur fill hfill cache hcache T hT hpen ops hops ho x y
    hxw hyh
  obtain ⟨cell', b1, b2⟩ := C01_draw_shows_screen env den hden ox' oy' hx' hy' w h cur fill hfill cache hcache T' hT' hpen' ops' hops'
    ho' x y hxw hyh
  have : some cell = some cell' := by
    rw [← a1, ← b1, e1, e2, c1]
  cases this
  show (execAll _ _ _ _).term.grid _ _ = (execAll _ _ _ _).term.grid _ _
  rw [a2, b2]

/-- Two histories, one drawn three times and one only at the end; "b" replaces "a". -/
example :
    let a : List Op := [.write [{ text := ['a'] }] (some (0, 0)) Color.black false, .draw, .draw,
      .write [{ text := ['b'] }] (some (0, 0)) Color.black false]
    let b : List Op := [.write [{ text := ['a'] }] (some (0, 0)) Color.black false,
      .write [{ text := ['b'] }] (some (0, 0)) Color.black false]
    a.filter Op.keeps = b.filter Op.keeps ∧
    (let s := execAll {} (1, 1) { w := { scr := Screen.init 1 1 }, term := { grid := fun _ _ => { ch := ' ', attr := Attr.clean } } } (a ++ [.draw])
     s.w.scr.offset = 0 ∧ (s.term.grid 1 1).ch = 'b') := by
  refine ⟨rfl, by decide +kernel⟩

end Slate
