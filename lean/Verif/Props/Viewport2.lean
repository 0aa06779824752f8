import Verif.Props.Viewport
import Verif.Props.Often

/-!
# C120: the same drawing as shown by two terminals
-/

namespace Slate
open Py Term

/-- The operation on a screen on which all positions are moved. -/
def Op.moved (dx dy : Int) : Op → Op
  | .write spans cursor tb force => .write spans (cursor.map fun p => (p.1 + dx, p.2 + dy)) tb force
  | .writeBulk data tb force => .writeBulk (data.map fun e => (e.1.map fun p => (p.1 + dx, p.2 + dy), e.2)) tb force
  | op => op

/-- All texts are given a position and stay in their rows. -/
def Op.StaysIn (w h : Nat) (dx dy : Int) : Op → Prop
  | .write spans cursor _ _ => ∃ p, cursor = some p ∧ Slate.StaysIn w h dx dy (p, spans)
  | .writeBulk data _ _ => ∀ e ∈ data, ∃ p, e.1 = some p ∧ Slate.StaysIn w h dx dy (p, e.2)
  | _ => True

/-- The same call as part of a drawing. -/
def Op.stroke : Op → Stroke
  | .write spans cursor tb force => .bulk ((cursor.map fun p => (p, spans)).toList) tb force
  | .writeBulk data tb force => .bulk (data.filterMap fun e => e.1.map fun p => (p, e.2)) tb force
  | .clear fill => .clear [fill]
  | .draw => .draw (1, 1) false

theorem Op.stroke_stays (w h : Nat) (dx dy : Int) (op : Op) (hop : op.StaysIn w h dx dy) : op.stroke.StaysIn w h dx dy := by
  cases op with
  | clear => trivial
  | draw => trivial
  | write spans cursor tb force =>
    obtain ⟨p, rfl, hp⟩ := hop
    intro e he
    simp only [Option.map_some, Option.toList_some, List.mem_singleton] at he
    rw [he]; exact hp
  | writeBulk data tb force =>
    intro e he
    obtain ⟨e', he', h2⟩ := List.mem_filterMap.mp he
    obtain ⟨p, hp, hs⟩ := hop e' he'
    rw [hp] at h2
    cases h2
    exact hs

theorem Op.stroke_run (env : Color.Env) (o : Int × Int) (w h : Nat) (dx dy : Int) (op : Op) (hop : op.StaysIn w h dx dy) (v : World) :
    ((op.moved dx dy).api o).run env v = (op.stroke.moved dx dy).run env v := by
  cases op with
  | clear => rfl
  | draw => rfl
  | write spans cursor tb force =>
    obtain ⟨p, rfl, hp⟩ := hop
    rfl
  | writeBulk data tb force =>
    have e : (data.map fun e => ((e.1.map fun p => (p.1 + dx, p.2 + dy), e.2) : Entry)) =
        (data.filterMap fun e => e.1.map fun p => (p, e.2)).map fun e => (some (e.1.1 + dx, e.1.2 + dy), e.2) := by
      clear v
      replace hop : ∀ e ∈ data, ∃ p, e.1 = some p ∧ Slate.StaysIn w h dx dy (p, e.2) := hop
      induction data with
      | nil => rfl
      | cons e data ih =>
        obtain ⟨p, hp, -⟩ := hop e (by simp)
        rw [List.map_cons, ih fun e he => hop e (by simp [he]), List.filterMap_cons, hp]
        rfl
    show (Slate.writeBulk env (data.map fun e => ((e.1.map fun p => (p.1 + dx, p.2 + dy), e.2) : Entry)) tb force v).1 = _
    rw [e]
    rfl

theorem execAll_page (env : Color.Env) (o : Int × Int) (w h : Nat) (cur : Int × Int) (fill : Char) (dx dy : Int) (T : State)
    (ops : List Op) (hops : ∀ op ∈ ops, op.StaysIn w h dx dy) :
    (execAll env o { w := { scr := Screen.init w h cur [fill] }, term := T } (ops.map (Op.moved dx dy))).w =
      page env w h cur [fill] dx dy (ops.map Op.stroke) := by
  rw [execAll_api]
  unfold page
  generalize ({ scr := Screen.init w h cur [fill] } : World) = v
  show Api.runAll env v _ = _
  induction ops generalizing v with
  | nil => rfl
  | cons op ops ih =>
    have := ih (fun op ho => hops op (by simp [ho])) (((op.moved dx dy).api o).run env v)
    show Api.runAll env (((op.moved dx dy).api o).run env v) _ = Api.runAll env ((op.stroke.moved dx dy).run env v) _
    rw [this, Op.stroke_run env o w h dx dy op (hops op (by simp)) v]

/-- **C120** (shown): after the last draw, two terminals show the same drawing, whatever was on them before, made on screens of any two
sizes that are drawn at any two origins. -/
theorem C120_shown (env : Color.Env) (den : Color → TColor) (hden : DenOk env den)
    (ox oy ox' oy' : Nat) (ho : 1 ≤ ox ∧ 1 ≤ oy ∧ 1 ≤ ox' ∧ 1 ≤ oy') (w h W H : Nat) (cur cur' : Int × Int)
    (fill : Char) (hfill : Printable fill) (T T' : State) (hT : T.mode = .ground) (hpen : T.pen = Attr.clean)
    (hT' : T'.mode = .ground) (hpen' : T'.pen = Attr.clean) (dx dy : Nat) (ops : List Op)
    (hops : ∀ op ∈ ops, OpOk (SpanOk env den) op) (hin : ∀ op ∈ ops, op.StaysIn w h 0 0 ∧ op.StaysIn W H dx dy) :
    let s := execAll env (ox, oy) { w := { scr := Screen.init w h cur [fill] }, term := T } (ops ++ [.draw])
    let s' := execAll env (ox', oy') { w := { scr := Screen.init W H cur' [fill] }, term := T' } (ops.map (Op.moved dx dy) ++ [.draw])
    ∀ x y, x < w → y < h → x + dx < W → y + dy < H → s'.term.grid (y + dy + oy') (x + dx + ox') = s.term.grid (y + oy) (x + ox) := by
  intro s s' x y hx hy hX hY
  have hm0 : ∀ l : List Op, (∀ op ∈ l, op.StaysIn w h 0 0) → l.map (Op.moved 0 0) = l := by
    intro l hl
    refine (List.map_congr_left fun op hop => ?_).trans (List.map_id l)
    cases op with
    | clear => rfl
    | draw => rfl
    | write spans cursor tb force => cases cursor <;> simp [Op.moved]
    | writeBulk data tb force =>
      have : (fun e : Entry => (e.1.map fun p : Int × Int => (p.1 + 0, p.2 + 0), e.2)) = id := by
        funext e
        obtain ⟨c, l⟩ := e
        cases c <;> simp
      simp only [Op.moved, this, List.map_id, id]
  have hA : ∀ op ∈ ops ++ [Op.draw], op.StaysIn w h 0 0 ∧ op.StaysIn W H dx dy := by
    intro op hop
    rcases List.mem_append.mp hop with hop | hop
    · exact hin op hop
    · rw [List.mem_singleton.mp hop]; exact ⟨trivial, trivial⟩
  have e1 : s.w = page env w h cur [fill] 0 0 ((ops ++ [Op.draw]).map Op.stroke) := by
    have := execAll_page env (ox, oy) w h cur fill 0 0 T (ops ++ [.draw]) fun op ho => (hA op ho).1
    rw [hm0 _ fun op ho => (hA op ho).1] at this
    exact this
  have e2 : s'.w = page env W H cur' [fill] dx dy ((ops ++ [Op.draw]).map Op.stroke) := by
    have := execAll_page env (ox', oy') W H cur' fill dx dy T' (ops ++ [.draw]) fun op ho => (hA op ho).2
    rw [List.map_append] at this
    exact this
  obtain ⟨h1, h2, h3⟩ := C120_cells env w h W H cur cur' [fill] dx dy ((ops ++ [Op.draw]).map Op.stroke) (by
    intro st hst
    obtain ⟨op, hop, rfl⟩ := List.mem_map.mp hst
    exact ⟨op.stroke_stays w h 0 0 (hA op hop).1, op.stroke_stays W H dx dy (hA op hop).2⟩) x y hx hy hX hY
  have hops' : ∀ op ∈ ops.map (Op.moved dx dy), OpOk (SpanOk env den) op := by
    intro op hop
    obtain ⟨op, hmem, rfl⟩ := List.mem_map.mp hop
    have := hops op hmem
    cases op with
    | clear => exact this
    | draw => trivial
    | write => exact this
    | writeBulk data tb force =>
      intro e he
      obtain ⟨e', he', rfl⟩ := List.mem_map.mp he
      exact this e' he'
  have hnil : CacheOk ([] : CharCache) := by intro e he; cases he
  obtain ⟨c, hc, hg⟩ := C01_draw_shows_screen env den hden ox oy ho.1 ho.2.1 w h cur fill hfill _ hnil T hT hpen ops hops
    ((congrArg (fun v : World => v.scr.offset) e1).trans h2) x y hx hy
  obtain ⟨c', hc', hg'⟩ := C01_draw_shows_screen env den hden ox' oy' ho.2.2.1 ho.2.2.2 W H cur' fill hfill _ hnil T' hT' hpen' _ hops'
    ((congrArg (fun v : World => v.scr.offset) e2).trans h3) (x + dx) (y + dy) hX hY
  have e1' := congrArg (fun v : World => cellAt v.scr.cells x y) e1
  have e2' := congrArg (fun v : World => cellAt v.scr.cells (x + dx) (y + dy)) e2
  have hcc : some c' = some c := hc'.symm.trans (e2'.trans (h1.trans (e1'.symm.trans hc)))
  cases hcc
  exact hg'.trans hg.symm

/-- A drawing with a translucent text over another one, drawn twice, on a screen of 3 x 2 and at column 2, row 1 of one of 6 x 4, for a terminal
with true colours. -/
def C120ex.ops : List Op :=
  [.write [{ text := ['a', 'b'], style := { bold := true } }, { text := ['c'] }] (some (0, 0)) Color.black false, .draw,
   .writeBulk [(some (1, 0), [{ text := [' '], bg := some { r := 9, g := 9, b := 9, isBg := true, alpha := 1 / 2 } }]),
     (some (2, 1), [{ text := ['d'] }])] { r := 0, g := 0, b := 0, isBg := true } false]

example : ∀ op ∈ C120ex.ops, op.StaysIn 3 2 0 0 ∧ op.StaysIn 6 4 2 1 := by
  simp only [C120ex.ops, List.forall_mem_cons, Op.StaysIn, List.not_mem_nil, false_imp_iff, implies_true, and_true]
  refine ⟨⟨⟨_, rfl, ?_⟩, _, rfl, ?_⟩, trivial, ⟨⟨_, rfl, ?_⟩, _, rfl, ?_⟩, ⟨_, rfl, ?_⟩, _, rfl, ?_⟩ <;> unfold StaysIn <;> decide

example : ∀ op ∈ C120ex.ops, OpOk (fun s =>
      (∀ c ∈ s.text, Printable c ∨ (c = '\n' ∧ s.style = {})) ∧
      (∀ c, s.fg = some c ∨ s.bg = some c → c.ctor = none ∨ ∃ t, c.ctor = some ('#' :: t))) op := by
  simp only [C120ex.ops, List.mem_cons, List.not_mem_nil, or_false, forall_eq_or_imp, forall_eq, OpOk]
  refine ⟨⟨⟨by decide, ?_⟩, ⟨by decide, ?_⟩⟩, trivial, ⟨⟨by decide, ?_⟩, ⟨by decide, ?_⟩⟩⟩ <;>
  · intro c hc; left; rcases hc with hc | hc <;> simp at hc <;> try (rw [← hc])

end Slate
