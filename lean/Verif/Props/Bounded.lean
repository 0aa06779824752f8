import Verif.Lemmas.Bounded
import Verif.Props.Draw

/-!
# C99: drawing on a terminal with margins
-/

namespace Slate
open Py Term

/-- A draw on a terminal with margins that the screen fits into. -/
theorem Alike.draw {den : Color → TColor} {ox oy W H : Nat} (hx : 1 ≤ ox) (hy : 1 ≤ oy) {s : Screen} {U B : State}
    (h : Sync den ox oy s U) (hW : ox + s.width ≤ W + 1) (hH : oy + s.height ≤ H + 1) (ha : Alike W H U B) :
    Alike W H (run U (s.render (ox, oy)).2) (boundedRun W H B (s.render (ox, oy)).2) := by
  have hpr : ∀ e ∈ s.changes, Prints e.2
      (cellGlyph den ((cellAt s.cells e.1.1 e.1.2).getD { char := [] })) := by
    rintro ⟨⟨x, y⟩, str⟩ he
    have hk : (x, y) ∈ s.changes.keys := List.mem_map_of_mem (f := (·.1)) he
    obtain ⟨b1, b2⟩ := h.inside _ hk
    obtain ⟨cell, hcell⟩ := h.shape.exists_cell b1 b2
    simp only [hcell, Option.getD_some]
    exact h.pend x y str cell ((Changes.lookup_eq_some_iff _ h.nodup _ _).mpr he) hcell
  obtain ⟨-, -, -, -, r5⟩ := run_render ox oy hx hy
    (fun k => cellGlyph den ((cellAt s.cells k.1 k.2).getD { char := [] })) s hpr U h.ground h.clean
  have hf : Flat (s.render (ox, oy)).2 := flat_render fun e he => (hpr e he).flat
  refine ha.run _ hf.not_mem.1 hf.not_mem.2 _ r5 ?_
  intro p hp
  obtain ⟨k, hk, rfl⟩ := List.mem_map.mp hp
  obtain ⟨b1, b2⟩ := h.inside k ((mem_gather_keys _ _).mp hk)
  unfold Within
  simp only
  omega

theorem Alike.execAll {env : Color.Env} {den : Color → TColor} (hden : DenOk env den) {ox oy W H : Nat} (hx : 1 ≤ ox) (hy : 1 ≤ oy)
    (ops : List Op) (s : Sys) (B : State) (h : Sync den ox oy s.w.scr s.term) (hc : CacheOk s.w.cache)
    (hops : ∀ op ∈ ops, OpOk (SpanOk env den) op) (hW : ox + s.w.scr.width ≤ W + 1) (hH : oy + s.w.scr.height ≤ H + 1)
    (ho : (execAll env (ox, oy) s ops).w.scr.offset = s.w.scr.offset) (ha : Alike W H s.term B) :
    (boundedExecAll W H env (ox, oy) { s with term := B } ops).w = (execAll env (ox, oy) s ops).w ∧
    Alike W H (execAll env (ox, oy) s ops).term (boundedExecAll W H env (ox, oy) { s with term := B } ops).term := by
  induction ops generalizing s B with
  | nil => exact ⟨rfl, ha⟩
  | cons op ops ih =>
    obtain ⟨f1, f2, f3, f4⟩ := exec_frame env (ox, oy) s op h.shape
    obtain ⟨-, -, g3, -⟩ := execAll_frame env (ox, oy) (exec env (ox, oy) s op) ops (by rw [f1, f2]; exact f4)
    have ho1 : (exec env (ox, oy) s op).w.scr.offset = s.w.scr.offset :=
      le_antisymm (by
        have : (Slate.execAll env (ox, oy) (exec env (ox, oy) s op) ops).w.scr.offset = s.w.scr.offset := ho
        omega) f3
    obtain ⟨h', hc'⟩ := h.exec hden hx hy hc (hops op (by simp)) ho1
    have hstep : ∃ B', boundedExec W H env (ox, oy) { s with term := B } op = { exec env (ox, oy) s op with term := B' } ∧
        Alike W H (exec env (ox, oy) s op).term B' := by
      cases op with
      | draw => exact ⟨_, rfl, Alike.draw hx hy h hW hH ha⟩
      | write spans cursor tb force => exact ⟨B, rfl, ha⟩
      | writeBulk data tb force => exact ⟨B, rfl, ha⟩
      | clear fill => exact ⟨B, rfl, ha⟩
    obtain ⟨B', e, ha'⟩ := hstep
    have := ih (exec env (ox, oy) s op) B' h' hc' (fun op hop => hops op (by simp [hop])) (by rw [f1]; exact hW)
      (by rw [f2]; exact hH) (by rw [ho1]; exact ho) ha'
    show (boundedExecAll W H env (ox, oy) (boundedExec W H env (ox, oy) { s with term := B } op) ops).w = _ ∧
      Alike W H _ (boundedExecAll W H env (ox, oy) (boundedExec W H env (ox, oy) { s with term := B } op) ops).term
    rw [e]
    exact this

/-- **C99**, partial: on a terminal with margins, large enough for the screen at its origin, after any history that did not scroll a
draw shows the screen; in particular the last column and the last row can be used, no line is wrapped and nothing moves.
What is missing: histories that scrolled (`C99_scroll_violated`, `C99_taller_violated`). -/
theorem C99_margins_partial (env : Color.Env) (den : Color → TColor) (hden : DenOk env den)
    (ox oy : Nat) (hx : 1 ≤ ox) (hy : 1 ≤ oy) (W H w h : Nat) (hW : ox + w ≤ W + 1) (hH : oy + h ≤ H + 1)
    (cur : Int × Int) (fill : Char) (hfill : Printable fill) (cache : CharCache) (hcache : CacheOk cache)
    (T : State) (hT : T.mode = .ground) (hpen : T.pen = Attr.clean)
    (ops : List Op) (hops : ∀ op ∈ ops, OpOk (SpanOk env den) op) :
    let sys := boundedExecAll W H env (ox, oy)
      { w := { scr := Screen.init w h cur [fill], cache := cache }, term := T } (ops ++ [.draw])
    sys.w.scr.offset = 0 →
    ∀ x y, x < w → y < h → ∃ cell, cellAt sys.w.scr.cells x y = some cell ∧
      sys.term.grid (y + oy) (x + ox) = cellGlyph den cell := by
  intro sys ho x y hxw hyh
  have hop' : ∀ op ∈ ops ++ [.draw], OpOk (SpanOk env den) op := by
    intro op hop
    rcases List.mem_append.mp hop with hop | hop
    · exact hops op hop
    · simp only [List.mem_singleton] at hop; subst hop; trivial
  -- the screen does not depend on the terminal
  have hsame : ∀ (ops : List Op) (s s' : Sys), s.w = s'.w →
      (boundedExecAll W H env (ox, oy) s ops).w = (execAll env (ox, oy) s' ops).w := by
    intro ops
    induction ops with
    | nil => exact fun s s' e => e
    | cons op ops ih =>
      intro s s' e
      refine ih _ _ ?_
      cases op <;> simp only [boundedExec, exec, e]
  have ew := hsame (ops ++ [.draw]) { w := { scr := Screen.init w h cur [fill], cache := cache }, term := T } _ rfl
  have ho' : (execAll env (ox, oy) { w := { scr := Screen.init w h cur [fill], cache := cache }, term := T }
      (ops ++ [.draw])).w.scr.offset = 0 := by rw [← ew]; exact ho
  obtain ⟨-, ha⟩ := Alike.execAll hden hx hy (ops ++ [.draw])
    { w := { scr := Screen.init w h cur [fill], cache := cache }, term := T } T
    (Sync.init den ox oy w h cur hfill T hT hpen) hcache hop' hW hH (by rw [ho']; rfl)
    ⟨rfl, rfl, fun _ => ⟨rfl, rfl⟩, fun _ => rfl, fun _ _ _ => rfl⟩
  obtain ⟨cell, h1, h2⟩ := C01_draw_shows_screen env den hden ox oy hx hy w h cur fill hfill cache hcache T hT hpen ops hops ho' x y
    hxw hyh
  refine ⟨cell, by rw [ew]; exact h1, ?_⟩
  rw [← h2]
  refine ha.grid _ _ ?_
  unfold Within
  omega

namespace C99ex
/-- A log: line `k` is written at row `k` and drawn. -/
def log (ls : List String) : List Op :=
  (ls.mapIdx fun k l => [Op.write [{ text := l.toList }] (some (0, k)) Color.black false, .draw]).flatten

/-- The characters on the terminal. -/
def shown (w h : Nat) (T : State) : List (List Char) :=
  (List.range h).map fun y => (List.range w).map fun x => (T.grid (y + 1) (x + 1)).ch

/-- The characters in the screen. -/
def stored (s : Screen) : List (List Str) := s.cells.map fun r => r.map (·.char)

def blank : State := { grid := fun _ _ => { ch := ' ', attr := Attr.clean } }
end C99ex

open C99ex in
/-- A full screen: the last column and the last row are in use. -/
example : let ops := log ["abc", "def"]
    (∀ op ∈ ops, OpOk (SpanOk {} trueColor) op) ∧
    (let sys := boundedExecAll 3 2 {} (1, 1) { w := { scr := Screen.init 3 2 }, term := blank } ops
     sys.w.scr.offset = 0 ∧ shown 3 2 sys.term = ["abc".toList, "def".toList]) := by
  refine ⟨?_, by decide +kernel⟩
  intro op hop
  simp only [log, List.mapIdx_cons, List.mapIdx_nil, List.flatten_cons, List.flatten_nil, List.append_nil, List.cons_append,
    List.nil_append, List.mem_cons, List.not_mem_nil, or_false] at hop
  rcases hop with rfl | rfl | rfl | rfl
  · intro s hs
    rw [List.mem_singleton.mp hs]
    exact ⟨fun c hc => .inl (by revert c; unfold Printable; decide +kernel), by simp, by simp⟩
  · trivial
  · intro s hs
    rw [List.mem_singleton.mp hs]
    exact ⟨fun c hc => .inl (by revert c; unfold Printable; decide +kernel), by simp, by simp⟩
  · trivial

open C99ex in
/-- C99 is violated when the screen has scrolled: the line break that is sent after the new line scrolls the terminal after the line was
drawn over the last one. The terminal shows the new line one row too high, the line before it not at all and an empty last row;
the screen stores the lines as they should be shown. -/
theorem C99_scroll_violated :
    let sys := boundedExecAll 2 3 {} (1, 1) { w := { scr := Screen.init 2 3 }, term := blank } (log ["l0", "l1", "l2", "l3"])
    stored sys.w.scr = [[['l'], ['1']], [['l'], ['2']], [['l'], ['3']]] ∧
    shown 2 3 sys.term = ["l1".toList, "l3".toList, "  ".toList] := by
  decide +kernel

open C99ex in
/-- C99 is violated on a terminal with more rows than the screen as well: the terminal does not scroll, and the rows that moved in the
screen are not drawn again. -/
theorem C99_taller_violated :
    let sys := boundedExecAll 2 10 {} (1, 1) { w := { scr := Screen.init 2 3 }, term := blank } (log ["l0", "l1", "l2", "l3"])
    stored sys.w.scr = [[['l'], ['1']], [['l'], ['2']], [['l'], ['3']]] ∧
    shown 2 3 sys.term = ["l0".toList, "l1".toList, "l3".toList] := by
  decide +kernel

end Slate
