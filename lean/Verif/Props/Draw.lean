import Verif.Lemmas.Sync
import Verif.Lemmas.Color

/-!
# C01, C02, C09, C22: drawing
-/

namespace Slate
open Py Term

/-! ## C01 A draw makes the terminal show the screen -/

/-- **C01**, any colour space. `den` is the meaning of colour codes; the hypotheses on
the operations say that the texts are printable (newlines only in unstyled
spans) and that the code of every colour used is a colour code. The final offset
being 0 says that nothing scrolled (the offset never decreases,
`execAll_frame`). -/
theorem C01_draw_shows_screen (env : Color.Env) (den : Color → TColor) (hden : DenOk env den)
    (ox oy : Nat) (hx : 1 ≤ ox) (hy : 1 ≤ oy) (w h : Nat) (cur : Int × Int) (fill : Char)
    (hfill : Printable fill) (cache : CharCache) (hcache : CacheOk cache)
    (T : State) (hT : T.mode = .ground) (hpen : T.pen = Attr.clean)
    (ops : List Op) (hops : ∀ op ∈ ops, OpOk (SpanOk env den) op) :
    let sys := execAll env (ox, oy)
      { w := { scr := Screen.init w h cur [fill], cache := cache }, term := T } (ops ++ [.draw])
    sys.w.scr.offset = 0 →
    ∀ x y, x < w → y < h → ∃ cell, cellAt sys.w.scr.cells x y = some cell ∧
      sys.term.grid (y + oy) (x + ox) = cellGlyph den cell := by
  intro sys ho x y hxw hyh
  have h0 := Sync.init den ox oy w h cur hfill T hT hpen
  obtain ⟨hs, -⟩ := Sync.execAll hden hx hy (ops ++ [.draw])
    { w := { scr := Screen.init w h cur [fill], cache := cache }, term := T } h0 hcache
    (by
      intro op hop
      rcases List.mem_append.mp hop with hop | hop
      · exact hops op hop
      · simp only [List.mem_singleton] at hop; subst hop; trivial) ho
  obtain ⟨f1, f2, -, f4⟩ := execAll_frame env (ox, oy)
    { w := { scr := Screen.init w h cur [fill], cache := cache }, term := T } (ops ++ [.draw])
    h0.shape
  obtain ⟨cell, hcell⟩ := f4.exists_cell (x := x) (y := y) hxw hyh
  refine ⟨cell, hcell, hs.shown x y cell ?_ hcell⟩
  have : sys.w.scr.changes = [] := by
    simp [sys, execAll, List.foldl_append, exec, Screen.render]
  show List.lookup (x, y) sys.w.scr.changes = none
  rw [this]; rfl

/-- **C01** in a true-colour terminal: the terminal shows the RGB values of the stored
colours. The spans may have any colours that were constructed directly or from
hex strings. -/
theorem C01_draw_shows_screen_true_color (env : Color.Env) (henv : env.space = .trueColor)
    (ox oy : Nat) (hx : 1 ≤ ox) (hy : 1 ≤ oy) (w h : Nat) (cur : Int × Int) (fill : Char)
    (hfill : Printable fill) (cache : CharCache) (hcache : CacheOk cache)
    (T : State) (hT : T.mode = .ground) (hpen : T.pen = Attr.clean)
    (ops : List Op) (hops : ∀ op ∈ ops, OpOk (fun s =>
      (∀ c ∈ s.text, Printable c ∨ (c = '\n' ∧ s.style = {})) ∧
      (∀ c, s.fg = some c ∨ s.bg = some c → c.ctor = none ∨ ∃ t, c.ctor = some ('#' :: t))) op) :
    let sys := execAll env (ox, oy)
      { w := { scr := Screen.init w h cur [fill], cache := cache }, term := T } (ops ++ [.draw])
    sys.w.scr.offset = 0 →
    ∀ x y, x < w → y < h → ∃ cell, cellAt sys.w.scr.cells x y = some cell ∧
      sys.term.grid (y + oy) (x + ox) = cellGlyph (fun c => .rgb c.r c.g c.b) cell := by
  have e : (fun c : Color => TColor.rgb c.r c.g c.b) = denOf env := by
    rw [denOf_trueColor henv]; rfl
  rw [e]
  refine C01_draw_shows_screen env (denOf env) (denOk env) ox oy hx hy w h cur fill hfill cache
    hcache T hT hpen ops ?_
  intro op hop
  have := hops op hop
  have key : ∀ s : Span, ((∀ c ∈ s.text, Printable c ∨ (c = '\n' ∧ s.style = {})) ∧
      (∀ c, s.fg = some c ∨ s.bg = some c → c.ctor = none ∨ ∃ t, c.ctor = some ('#' :: t))) →
      SpanOk env (denOf env) s := fun s hs =>
    ⟨hs.1, fun c hc => sendable_of_hex env c (hs.2 c (.inl hc)),
      fun c hc => sendable_of_hex env c (hs.2 c (.inr hc))⟩
  cases op with
  | write spans c tb f => exact fun s hs => key s (this s hs)
  | writeBulk data tb f => exact fun e he s hs => key s (this e he s hs)
  | clear f => exact this
  | draw => trivial

/-- What the look of a cell is: a cell whose string is a style sequence, a
character and possibly a reset shows that character in that style and in the
stored colours. -/
theorem C01_cell_look (den : Color → TColor) (st : Style) (c : Char) (reset : Bool)
    (hc : Printable c) (fg bg : Option Color) :
    cellGlyph den { char := wrapSgr st.colorless ++ c :: (if reset then RESET else [])
                    fg := fg, bg := bg } =
      { ch := c, attr := applyStyle st (paintOpt den bg (paintOpt den fg Attr.clean)) } :=
  CellStr.glyph (cell := { char := wrapSgr st.colorless ++ c :: (if reset then RESET else []),
                           fg := fg, bg := bg }) ⟨rfl, hc⟩ den

namespace C01ex
/-- A history: bold red text across the row boundary, a draw, a translucent
overlay, a clear. -/
def ops : List Op :=
  [.write [{ text := "abc".toList, style := { bold := true }, fg := some { r := 200, g := 0, b := 0 } },
           { text := "de".toList }] (some (1, 0)) Color.black false,
   .draw,
   .writeBulk [(some (0, 0), [{ text := "xy".toList }]),
     (some (0, 0), [{ text := " z".toList, bg := some { r := 9, g := 9, b := 9, isBg := true, alpha := 1 / 2 } }])]
     { r := 0, g := 0, b := 0, isBg := true } false]

example : (execAll {} (1, 1)
    { w := { scr := Screen.init 4 2 }, term := { grid := fun _ _ => ⟨'?', {}⟩ } }
    (ops ++ [.draw])).w.scr.offset = 0 := by decide +kernel

example : ∀ op ∈ ops, OpOk (fun s =>
      (∀ c ∈ s.text, Printable c ∨ (c = '\n' ∧ s.style = {})) ∧
      (∀ c, s.fg = some c ∨ s.bg = some c → c.ctor = none ∨ ∃ t, c.ctor = some ('#' :: t))) op := by
  simp only [ops, List.mem_cons, List.not_mem_nil, or_false, forall_eq_or_imp, forall_eq, OpOk]
  refine ⟨⟨⟨by decide, ?_⟩, ⟨by decide, ?_⟩⟩, trivial, ⟨⟨by decide, ?_⟩, ⟨by decide, ?_⟩⟩⟩ <;>
  · intro c hc; left; rcases hc with hc | hc <;> simp at hc <;> try (rw [← hc])
end C01ex

/-! ## C02 A draw only touches changed cells -/

/-- Position `k` is changed by `op` performed in state `s`: it is covered by a clear,
or the stored cell afterwards differs (Python `!=`) from the one before. -/
def Touched (env : Color.Env) (o : Int × Int) (s : Sys) (op : Op) (k : Nat × Nat) : Prop :=
  (∃ f, op = .clear f ∧ k.1 < s.w.scr.width ∧ k.2 < s.w.scr.height) ∨
  ∃ a b, cellAt s.w.scr.cells k.1 k.2 = some a ∧
    cellAt (exec env o s op).w.scr.cells k.1 k.2 = some b ∧ b.eq a = false

theorem Span.optEq_refl (c : Option Color) : Span.optEq c c = true := by
  cases c <;> simp [Span.optEq, Color.eq]

theorem Cell.eq_refl (c : Cell) : c.eq c = true := by
  simp [Cell.eq, Span.optEq_refl]

theorem outcome_isSome_iff {env : Color.Env} {tb : Color} {m : Mats} {s s' : Screen}
    (hw : Wrote env tb m s s') (k : Nat × Nat) :
    (outcome tb m s k).isSome ↔ ∃ a b, cellAt s.cells k.1 k.2 = some a ∧
      cellAt s'.cells k.1 k.2 = some b ∧ b.eq a = false := by
  have hc := hw.cell k.1 k.2
  have ek : (k.1, k.2) = k := rfl
  rw [ek] at hc
  constructor
  · intro h
    obtain ⟨⟨new, nl⟩, ho⟩ := Option.isSome_iff_exists.mp h
    rw [ho] at hc
    unfold outcome at ho
    split at ho
    · simp at ho
    · simp only at ho
      split at ho
      · simp at ho
      · rename_i old hold
        split at ho
        · simp at ho
        · rename_i hne
          simp only [Option.some.injEq, Prod.mk.injEq] at ho
          obtain ⟨rfl, -⟩ := ho
          exact ⟨old, _, hold, by simpa using hc, by simpa using hne⟩
  · rintro ⟨a, b, h1, h2, h3⟩
    by_contra hn
    rw [Option.not_isSome_iff_eq_none] at hn
    rw [hn, h2, h1] at hc
    simp only [Option.map_none, Option.none_or, Option.some.injEq] at hc
    rw [hc, Cell.eq_refl] at h3
    cases h3

/-- One operation other than a draw. -/
theorem keys_exec (env : Color.Env) (o : Int × Int) (s : Sys) (op : Op) (hop : op ≠ .draw)
    (hs : Shape s.w.scr.width s.w.scr.height s.w.scr.cells) (hc : CacheOk s.w.cache)
    (ho : (exec env o s op).w.scr.offset = s.w.scr.offset) :
    CacheOk (exec env o s op).w.cache ∧
    ∀ k, k ∈ (exec env o s op).w.scr.changes.keys ↔
      k ∈ s.w.scr.changes.keys ∨ Touched env o s op k := by
  have hwb : ∀ data tb force, (writeBulk env data tb force s.w).1.scr.offset = s.w.scr.offset →
      CacheOk (writeBulk env data tb force s.w).1.cache ∧
      ∀ k, k ∈ (writeBulk env data tb force s.w).1.scr.changes.keys ↔
      k ∈ s.w.scr.changes.keys ∨ ∃ a b, cellAt s.w.scr.cells k.1 k.2 = some a ∧
        cellAt (writeBulk env data tb force s.w).1.scr.cells k.1 k.2 = some b ∧
        b.eq a = false := by
    intro data tb force ho
    obtain ⟨h1, h2⟩ := writeBulk_still env data tb force s.w hs hc ho
    refine ⟨h1, fun k => ?_⟩
    rcases h2 with ⟨-, h2, -⟩ | ⟨d, -, -, h2⟩
    · rw [h2]
      constructor
      · exact .inl
      · rintro (h | ⟨a, b, e1, e2, e3⟩)
        · exact h
        · rw [e1] at e2; injection e2 with e2
          rw [e2, Cell.eq_refl] at e3; cases e3
    · rw [← outcome_isSome_iff h2, ← Changes.lookup_isSome, h2.pending, ← Changes.lookup_isSome]
      simp only [Option.isSome_or, Option.isSome_map, Bool.or_eq_true]
      exact or_comm
  cases op with
  | write spans cursor tb force =>
    obtain ⟨h1, h2⟩ := hwb [(cursor, spans)] tb force ho
    refine ⟨h1, fun k => ?_⟩
    rw [show (exec env o s (.write spans cursor tb force)).w.scr.changes =
      (writeBulk env [(cursor, spans)] tb force s.w).1.scr.changes from rfl, h2]
    constructor
    · rintro (h | h)
      · exact .inl h
      · exact .inr (.inr h)
    · rintro (h | ⟨f, h, -⟩ | h)
      · exact .inl h
      · cases h
      · exact .inr h
  | writeBulk data tb force =>
    obtain ⟨h1, h2⟩ := hwb data tb force ho
    refine ⟨h1, fun k => ?_⟩
    rw [show (exec env o s (.writeBulk data tb force)).w.scr.changes =
      (writeBulk env data tb force s.w).1.scr.changes from rfl, h2]
    constructor
    · rintro (h | h)
      · exact .inl h
      · exact .inr (.inr h)
    · rintro (h | ⟨f, h, -⟩ | h)
      · exact .inl h
      · cases h
      · exact .inr h
  | clear f =>
    refine ⟨hc, fun k => ?_⟩
    have := foldl_insert_keys (positions s.w.scr.width s.w.scr.height) [f] s.w.scr.changes k
    rw [show (exec env o s (.clear f)).w.scr.changes = (positions s.w.scr.width s.w.scr.height).foldl
      (fun (ch : Changes) p => ch.insert p [f]) s.w.scr.changes from rfl, this, mem_positions]
    constructor
    · rintro (h | h)
      · exact .inr (.inl ⟨f, rfl, h⟩)
      · exact .inl h
    · rintro (h | ⟨-, -, h⟩ | ⟨a, b, e1, -⟩)
      · exact .inr h
      · exact .inl h
      · exact .inl (hs.cellAt_isSome.mp (by rw [e1]; rfl))
  | draw => exact absurd rfl hop

/-- **C02** (pending set): in a history without draw and without scrolling, started
with nothing pending, the pending positions are exactly those changed by one of
the operations. -/
theorem C02_pending_iff_changed (env : Color.Env) (o : Int × Int) (s : Sys) (ops : List Op)
    (hdraw : .draw ∉ ops) (hs : Shape s.w.scr.width s.w.scr.height s.w.scr.cells)
    (hc : CacheOk s.w.cache) (hpend : s.w.scr.changes = [])
    (ho : (execAll env o s ops).w.scr.offset = s.w.scr.offset) (k : Nat × Nat) :
    k ∈ (execAll env o s ops).w.scr.changes.keys ↔
      ∃ pre op post, ops = pre ++ op :: post ∧ Touched env o (execAll env o s pre) op k := by
  suffices H : ∀ (s : Sys), Shape s.w.scr.width s.w.scr.height s.w.scr.cells → CacheOk s.w.cache →
      (execAll env o s ops).w.scr.offset = s.w.scr.offset →
      (k ∈ (execAll env o s ops).w.scr.changes.keys ↔ k ∈ s.w.scr.changes.keys ∨
        ∃ pre op post, ops = pre ++ op :: post ∧ Touched env o (execAll env o s pre) op k) by
    rw [H s hs hc ho, hpend]
    simp [Changes.keys]
  clear hs hc hpend ho
  induction ops with
  | nil =>
    intro s _ _ _
    simp [execAll]
  | cons op ops ih =>
    intro s hs hc ho
    obtain ⟨f1, f2, f3, f4⟩ := exec_frame env o s op hs
    have hs' : Shape (exec env o s op).w.scr.width (exec env o s op).w.scr.height
        (exec env o s op).w.scr.cells := by rw [f1, f2]; exact f4
    obtain ⟨-, -, g3, -⟩ := execAll_frame env o (exec env o s op) ops hs'
    have ho' : (execAll env o (exec env o s op) ops).w.scr.offset = s.w.scr.offset := ho
    have e1 : (exec env o s op).w.scr.offset = s.w.scr.offset := by omega
    obtain ⟨hc', hk⟩ := keys_exec env o s op (fun e => hdraw (by simp [e])) hs hc e1
    have := ih (fun h => hdraw (by simp [h])) (exec env o s op) hs' hc' (by rw [ho', e1])
    rw [show execAll env o s (op :: ops) = execAll env o (exec env o s op) ops from rfl, this, hk]
    constructor
    · rintro ((h | h) | ⟨pre, op', post, e, h⟩)
      · exact .inl h
      · exact .inr ⟨[], op, ops, rfl, h⟩
      · exact .inr ⟨op :: pre, op', post, by simp [e], h⟩
    · rintro (h | ⟨pre, op', post, e, h⟩)
      · exact .inl (.inl h)
      · cases pre with
        | nil =>
          simp only [List.nil_append, List.cons.injEq] at e
          obtain ⟨rfl, rfl⟩ := e
          exact .inl (.inr h)
        | cons p pre =>
          simp only [List.cons_append, List.cons.injEq] at e
          obtain ⟨rfl, rfl⟩ := e
          exact .inr ⟨pre, op', post, rfl, h⟩

/-- **C02** (draw): in a history that is in sync with the terminal (C01), a draw prints
to exactly the pending cells and leaves every other terminal cell alone. -/
theorem C02_draw_touches_pending (den : Color → TColor) (ox oy : Nat) (hx : 1 ≤ ox) (hy : 1 ≤ oy)
    (s : Screen) (T : State) (h : Sync den ox oy s T) :
    (∃ l : List (Nat × Nat), l.Perm s.changes.keys ∧
      (run T (s.render (ox, oy)).2).log = T.log ++ l.map fun k => (k.2 + oy, k.1 + ox)) ∧
    ∀ r c, (¬ ∃ k ∈ s.changes.keys, r = k.2 + oy ∧ c = k.1 + ox) →
      (run T (s.render (ox, oy)).2).grid r c = T.grid r c := by
  have hpr : ∀ e ∈ s.changes, Prints e.2
      (cellGlyph den ((cellAt s.cells e.1.1 e.1.2).getD { char := [] })) := by
    rintro ⟨⟨x, y⟩, str⟩ he
    have hk : (x, y) ∈ s.changes.keys := List.mem_map_of_mem (f := (·.1)) he
    obtain ⟨b1, b2⟩ := h.inside _ hk
    obtain ⟨cell, hcell⟩ := h.shape.exists_cell b1 b2
    simp only [hcell, Option.getD_some]
    exact h.pend x y str cell ((Changes.lookup_eq_some_iff _ h.nodup _ _).mpr he) hcell
  obtain ⟨-, -, -, r4, r5⟩ := run_render ox oy hx hy
    (fun k => cellGlyph den ((cellAt s.cells k.1 k.2).getD { char := [] })) s hpr T h.ground h.clean
  refine ⟨⟨_, (gather_perm s.changes).map _, r5⟩, fun r c hn => r4 r c fun k hk hh => hn ⟨k, hk, hh⟩⟩

/-- **C02** (nothing changed): a second draw emits only the reset sequence. -/
theorem C02_second_draw_is_reset (s : Screen) (o o' : Int × Int) :
    ((s.render o).1.render o').2 = "\x1b[0m".toList := by
  simp [Screen.render, Changes.gather, renderGo, endsWith, RESET]

example : Touched {} (1, 1) { w := { scr := (Screen.init 2 1).render.1 }, term := { grid := fun _ _ => ⟨'?', {}⟩ } }
    (.write [{ text := "x".toList }] (some (1, 0)) Color.black false) (1, 0) ∧
    (Screen.init 2 1).render.1.changes = [] :=
  ⟨.inr ⟨{ char := " ".toList }, { char := "x".toList, fg := some Color.white },
    by decide +kernel, by decide +kernel, by decide +kernel⟩, by decide +kernel⟩

/-! ## C09 Clear resets the whole screen -/

/-- **C09** (stored state), for every screen whatsoever. -/
theorem C09_clear (s : Screen) (fill : Str) :
    (s.clear fill).width = s.width ∧ (s.clear fill).height = s.height ∧
    (s.clear fill).cursor = (0, 0) ∧
    (s.clear fill).cells.length = s.height ∧
    (∀ row ∈ (s.clear fill).cells, row.length = s.width) ∧
    (∀ x y, x < s.width → y < s.height →
      cellAt (s.clear fill).cells x y = some { char := fill, fg := none, bg := none }) ∧
    (∀ x y, x < s.width → y < s.height → (x, y) ∈ (s.clear fill).changes.keys) := by
  have hs := resize_shape s s.width s.height fill false
  refine ⟨rfl, rfl, rfl, hs.rows, hs.cols, fun x y hx hy => clear_cellAt s fill x y hx hy, ?_⟩
  intro x y hx hy
  exact (foldl_insert_keys _ _ _ _).mpr (.inl (mem_positions.mpr ⟨hx, hy⟩))

/-- **C09** (draw): whatever happened before (any history without scrolling, any
terminal content), clear followed by a draw leaves the plain fill character in
every cell. -/
theorem C09_clear_then_draw (env : Color.Env) (den : Color → TColor) (hden : DenOk env den)
    (ox oy : Nat) (hx : 1 ≤ ox) (hy : 1 ≤ oy) (w h : Nat) (cur : Int × Int) (fill fill' : Char)
    (hfill : Printable fill) (hfill' : Printable fill') (cache : CharCache)
    (hcache : CacheOk cache) (T : State) (hT : T.mode = .ground) (hpen : T.pen = Attr.clean)
    (ops : List Op) (hops : ∀ op ∈ ops, OpOk (SpanOk env den) op) :
    let sys := execAll env (ox, oy)
      { w := { scr := Screen.init w h cur [fill], cache := cache }, term := T }
      (ops ++ [.clear fill', .draw])
    sys.w.scr.offset = 0 →
    ∀ x y, x < w → y < h → sys.term.grid (y + oy) (x + ox) = { ch := fill', attr := Attr.clean } := by
  intro sys ho x y hxw hyh
  have h1 := C01_draw_shows_screen env den hden ox oy hx hy w h cur fill hfill cache hcache T hT hpen
    (ops ++ [.clear fill']) (by
      intro op hop
      rcases List.mem_append.mp hop with hop | hop
      · exact hops op hop
      · simp only [List.mem_singleton] at hop; subst hop; exact hfill')
  simp only [List.append_assoc, List.cons_append, List.nil_append] at h1
  obtain ⟨cell, hc1, hc2⟩ := h1 ho x y hxw hyh
  obtain ⟨f1, f2, -, -⟩ := execAll_frame env (ox, oy)
    { w := { scr := Screen.init w h cur [fill], cache := cache }, term := T } ops
    (resize_shape _ w h [fill] true)
  have hcell : cellAt sys.w.scr.cells x y = some { char := [fill'] } := by
    have e : sys.w.scr.cells = ((execAll env (ox, oy)
      { w := { scr := Screen.init w h cur [fill], cache := cache }, term := T } ops).w.scr.clear
        [fill']).cells := by
      simp [sys, execAll, List.foldl_append, exec, Screen.render]
    rw [e]
    apply clear_cellAt
    · rw [f1]; exact hxw
    · rw [f2]; exact hyh
  rw [hc1] at hcell
  injection hcell with hcell
  subst hcell
  rw [hc2]
  have hcs : CellStr [fill'] {} fill' false := ⟨by rw [wrapSgr_empty]; rfl, hfill'⟩
  rw [CellStr.glyph hcs den]
  rfl

example : (execAll {} (1, 1)
    { w := { scr := Screen.init 4 2 }, term := { grid := fun _ _ => ⟨'?', {}⟩ } }
    (C01ex.ops ++ [.clear '.', .draw])).w.scr.offset = 0 := by decide +kernel

/-! ## C22 Render addresses each pending cell once, in reading order -/

theorem le_total' (a b : (Nat × Nat) × Str) : Changes.le a b || Changes.le b a := by
  simp only [Changes.le, Bool.or_eq_true, Bool.and_eq_true, decide_eq_true_eq]; omega

theorem le_trans' (a b c : (Nat × Nat) × Str) (h1 : Changes.le a b) (h2 : Changes.le b c) :
    Changes.le a c := by
  simp only [Changes.le, Bool.or_eq_true, Bool.and_eq_true, decide_eq_true_eq] at *; omega

/-- Strict reading order of positions `(x, y)`. -/
def Before (p q : Nat × Nat) : Prop := p.2 < q.2 ∨ (p.2 = q.2 ∧ p.1 < q.1)

theorem gather_sorted (ch : Changes) (hnd : ch.keys.Nodup) :
    (Changes.keys ch.gather).Pairwise Before := by
  have h1 : ch.gather.Pairwise (fun a b => Changes.le a b) :=
    haveI : Std.Total (fun a b : (Nat × Nat) × Str => Changes.le a b = true) :=
      ⟨fun a b => by simpa using le_total' a b⟩
    haveI : IsTrans _ (fun a b : (Nat × Nat) × Str => Changes.le a b = true) :=
      ⟨fun a b c => le_trans' a b c⟩
    List.pairwise_insertionSort _ ch
  have h2 : (Changes.keys ch.gather).Nodup := ((gather_perm ch).map _).nodup_iff.mpr hnd
  unfold Changes.keys at h2 ⊢
  rw [List.Nodup, List.pairwise_map] at h2
  rw [List.pairwise_map]
  refine (h1.and h2).imp ?_
  rintro ⟨⟨x, y⟩, s⟩ ⟨⟨x', y'⟩, s'⟩ ⟨ha, hb⟩
  simp only [Changes.le, Bool.or_eq_true, Bool.and_eq_true, decide_eq_true_eq, ne_eq,
    Prod.mk.injEq, not_and] at ha hb
  simp only [Before]
  omega

/-- The text emitted for the `i`-th cell of a list: its string, preceded by a cursor
move unless the cell is the right neighbour of the previous one. -/
def segment (origin : Int × Int) (l : Changes) (i : Nat) : Str :=
  match l[i]? with
  | none => []
  | some ((x, y), str) =>
    let neighbour := match i with
      | 0 => false
      | j + 1 => match l[j]? with
        | some ((px, py), _) => decide (x = px + 1) && decide (y = py)
        | none => false
    (if neighbour then [] else
      "\x1b[".toList ++ decInt ((y : Int) + origin.2) ++ ";".toList ++
        decInt ((x : Int) + origin.1) ++ "H".toList) ++ str

theorem renderGo_segments (origin : Int × Int) (l : Changes) (prev : (Nat × Nat) × Str) :
    renderGo origin (some ((prev.1.1 : Int) + origin.1, (prev.1.2 : Int) + origin.2)) l =
      (List.range l.length).flatMap fun i => segment origin (prev :: l) (i + 1) := by
  induction l generalizing prev with
  | nil => rfl
  | cons e l ih =>
    obtain ⟨⟨x, y⟩, str⟩ := e
    rw [renderGo_cons, ih ((x, y), str), List.length_cons, List.range_succ_eq_map,
      List.flatMap_cons, List.flatMap_map]
    congr 1
    · obtain ⟨⟨px, py⟩, ps⟩ := prev
      simp only [segment, moveStr, List.getElem?_cons_succ, List.getElem?_cons_zero]
      congr 1
      by_cases hc : x = px + 1 ∧ y = py
      · obtain ⟨rfl, rfl⟩ := hc
        simp; omega
      · have : ¬ ((x : Int) + origin.1 = px + origin.1 + 1 ∧ (y : Int) + origin.2 = py + origin.2) := by
          omega
        rw [if_neg this]
        have h2 : (decide (x = px + 1) && decide (y = py)) = false := by
          simpa using hc
        simp [h2, cursorTo]

/-- **C22**: the output of a non-redraw render is the concatenation of the segments of
the pending cells in strict reading order, plus a reset if it does not end with
one already; afterwards nothing is pending. For every change buffer (keys
distinct, as in a dictionary) and every integer origin. -/
theorem C22_render_order (s : Screen) (hnd : s.changes.keys.Nodup) (origin : Int × Int) :
    ∃ l : Changes, l.Perm s.changes ∧ l.keys.Pairwise Before ∧
      (s.render origin).1 = { s with changes := [] } ∧
      let body := (List.range l.length).flatMap (segment origin l)
      ((∃ t, body = t ++ "\x1b[0m".toList) ∧ (s.render origin).2 = body) ∨
      ((¬ ∃ t, body = t ++ "\x1b[0m".toList) ∧
        (s.render origin).2 = body ++ "\x1b[0m".toList) := by
  refine ⟨s.changes.gather, gather_perm _, gather_sorted _ hnd, by simp [Screen.render], ?_⟩
  · have key : renderGo origin none s.changes.gather =
        (List.range s.changes.gather.length).flatMap (segment origin s.changes.gather) := by
      cases hg : s.changes.gather with
      | nil => rfl
      | cons e l =>
        obtain ⟨⟨x, y⟩, str⟩ := e
        rw [renderGo_cons, List.length_cons, List.range_succ_eq_map, List.flatMap_cons,
          List.flatMap_map, renderGo_segments origin l ((x, y), str)]
        congr 1
    have hsuf : ∀ a : Str, endsWith a RESET = true ↔ ∃ t, a = t ++ "\x1b[0m".toList := by
      intro a
      simp only [endsWith, List.isSuffixOf_iff_suffix, List.IsSuffix, RESET]
      exact ⟨fun ⟨t, h⟩ => ⟨t, h.symm⟩, fun ⟨t, h⟩ => ⟨t, h.symm⟩⟩
    simp only [Screen.render, Bool.false_eq_true, if_false, key]
    split
    · rename_i h
      exact .inl ⟨(hsuf _).mp h, rfl⟩
    · rename_i h
      exact .inr ⟨fun hh => h ((hsuf _).mpr hh), rfl⟩

example : (Screen.init 2 2).changes.keys.Nodup ∧ (Screen.init 2 2).changes.length = 4 := by
  decide +kernel

end Slate
