import Verif.Props.Print

/-!
# C05 and C93 after any history that did not scroll
-/

namespace Slate
open Py Term

/-- What the terminal shows for a cell that is written: the new look, unless the cell before counts as equal. Then it stays. -/
def KeptOr (den : Color → TColor) (cells : List (List Cell)) (x y : Nat) (new seen : Glyph) : Prop :=
  ∃ old cell, cellAt cells x y = some old ∧ cellGlyph den cell = new ∧ seen = cellGlyph den (if cell.eq old then old else cell)

/-- **C05** end to end, after any history of writes, clears and draws that did not scroll: writing and drawing shows every character of
the text at its place in its style and colours. -/
theorem C05_later (env : Color.Env) (den : Color → TColor) (hden : DenOk env den)
    (ox oy : Nat) (hox : 1 ≤ ox) (hoy : 1 ≤ oy) (width height : Nat) (cur : Int × Int) (fill : Char)
    (hfill : Printable fill) (T : State) (hT : T.mode = .ground) (hpen : T.pen = Attr.clean)
    (ops : List Op) (hops : ∀ op ∈ ops, OpOk (SpanOk env den) op)
    (x y : Nat) (hx : x < width) (hy : y < height) (spans : List Span)
    (hok : ∀ s ∈ spans, SpanOk env den s) (hnl : ∀ s ∈ spans, '\n' ∉ s.text)
    (hop : ∀ s ∈ spans, ∀ b, s.bg = some b ∨ s.fg = some b → b.alpha = 1)
    (hcorner : ∀ s t rest, spans = s :: t :: rest → y * width + x + s.text.length ≠ height * width) (tb : Color) (force : Bool) :
    let sys := execAll env (ox, oy) { w := { scr := Screen.init width height cur [fill] }, term := T } ops
    let r := write env spans (some ((x : Int), (y : Int))) tb force sys.w
    sys.w.scr.offset = 0 →
    (∃ n, r.2 = .ok n) ∧
    ∀ (pre : List Span) (s : Span) (post : List Span), spans = pre ++ s :: post → s.resetAfter = true →
      ∀ (j : Nat) (c : Char), s.text[j]? = some c →
      let i := y * width + x + (pre.map Span.len).sum + j
      i < height * width →
      KeptOr den sys.w.scr.cells (i % width) (i / width)
        { ch := c, attr := applyStyle s.style (paintOpt den s.bg (paintOpt den (some (s.fg.getD Color.white)) Attr.clean)) }
        ((run sys.term (r.1.scr.render (ox, oy)).2).grid (i / width + oy) (i % width + ox)) := by
  intro sys r h0
  have hfr := execAll_frame env (ox, oy) { w := { scr := Screen.init width height cur [fill] }, term := T } ops (resize_shape _ width height [fill] true)
  obtain ⟨hsync, hcache⟩ := Sync.execAll hden hox hoy ops { w := { scr := Screen.init width height cur [fill] }, term := T }
    (Sync.init den ox oy width height cur hfill T hT hpen) (by intro e he; simp at he) hops h0
  have ew : sys.w.scr.width = width := hfr.1
  have eh : sys.w.scr.height = height := hfr.2.1
  have hplace := C05_placement_partial env tb force sys.w hsync.shape hcache h0 x y (by rw [ew]; exact hx) (by rw [eh]; exact hy) spans hnl
    (fun s hs b hb => hop s hs b (.inl hb)) (by rw [ew, eh]; exact hcorner)
  obtain ⟨hn, ho, hcell, -⟩ := hplace
  refine ⟨hn, ?_⟩
  intro pre s post hsp hreset j c hj i hi
  have hw : 0 < width := by omega
  rw [ew, eh] at hcell
  obtain ⟨old, hold, hnew⟩ := hcell pre s post hsp j c hj hi
  have hsync2 := (Sync.exec hden hox hoy (s := sys) hsync hcache (op := .write spans (some ((x : Int), (y : Int))) tb force) hok
    (by rw [h0]; exact ho)).1
  have hsync3 := hsync2.draw hox hoy
  have hshown := hsync3.shown (i % width) (i / width) _ rfl hnew
  have hsm : s ∈ spans := by rw [hsp]; simp
  have hfg : (storedCell s (styledChar s j c)).fg = some (s.fg.getD Color.white) := by
    unfold storedCell
    cases hf : s.fg with
    | none => rfl
    | some f => simp [hop s hsm f (.inr hf)]
  have hpr : Printable c := by
    rcases (hok s hsm).text c (List.mem_of_getElem? hj) with h | ⟨h, -⟩
    · exact h
    · exact absurd (List.mem_of_getElem? hj) (h ▸ hnl s hsm)
  have hcs : ∃ b, CellStr (storedCell s (styledChar s j c)).char s.style c b := by
    simp only [storedCell, styledChar]
    split
    · exact ⟨false, by simp, hpr⟩
    · split
      · exact ⟨true, by simp [RESET], hpr⟩
      · rename_i hne
        have : wrapSgr s.style.colorless = [] := by
          by_contra hh; exact hne ⟨hh, hreset⟩
        exact ⟨false, by simp [this], hpr⟩
  obtain ⟨b, hcs⟩ := hcs
  refine ⟨old, storedCell s (styledChar s j c), hold, ?_, hshown⟩
  rw [CellStr.glyph hcs den, cellAttr, hfg]
  rfl

/-- **C93**, exact, after any history of writes, clears and draws that did not scroll: a line of SGR sequences and printable text that
fits into its row is written with `Terminal.write` and drawn. Then every cell of the text shows what it would show if the string had
been printed there, except that text in the default colour is shown in white, and that a cell that counts as equal to the new one stays
as it was. -/
theorem C93_later_partial (env : Color.Env) (henv : env.space = .trueColor) (width height : Nat) (cur : Int × Int) (fill : Char)
    (hfill : Printable fill) (T : State) (hT : T.mode = .ground) (hpen : T.pen = Attr.clean)
    (ops : List Op) (hops : ∀ op ∈ ops, OpOk (SpanOk env (codeDen env)) op) (x y : Nat)
    (hy : y < height) (items : List Item) (h : ∀ it ∈ items, it.Ok) (hp : ∀ it ∈ items, ∀ c ∈ it.text, Printable c)
    (h25 : ∀ it ∈ items, .unset 25 ∉ it.units) (hfit : x + lineLen items ≤ width) (bg : Color) (k : Nat) (hk : k < lineLen items) :
    let sys := execAll env (1, 1) { w := { scr := Screen.init width height cur [fill] }, term := T } ops
    let r := Terminal.write env (.str (lineOf items)) (some ((x : Int), (y : Int))) bg sys.w
    let drawn := run sys.term (r.1.scr.render (1, 1)).2
    let printed := run { T with row := y + 1, col := x + 1 } (lineOf items)
    sys.w.scr.offset = 0 →
    (∃ n, r.2 = .ok n) ∧
    KeptOr (codeDen env) sys.w.scr.cells (x + k) y (whitened env (printed.grid (y + 1) (x + k + 1))) (drawn.grid (y + 1) (x + k + 1)) := by
  intro sys r drawn pr h0
  have hy' := yieldFrom_items h
  have hcolors := spansOf_colors env h (o := {}) (a := Attr.clean) rfl rfl
  have hr : r = Slate.write env (spansOf {} items) (some ((x : Int), (y : Int))) bg false sys.w := by
    show Terminal.write env _ _ bg _ = _
    rw [C66_write, hy']
    exact terminal_write_spans env _ _ bg false _
  have halpha : ∀ s ∈ spansOf {} items, ∀ b, s.bg = some b ∨ s.fg = some b → b.alpha = 1 := by
    intro s hs b hb
    obtain ⟨⟨t1, h1⟩, ⟨t2, h2⟩, -⟩ := hcolors s hs
    rcases hb with hb | hb
    · rw [hb] at h2
      obtain ⟨⟨ns, hn, rfl⟩, -⟩ := h2
      exact (codeColor_alpha hn).1
    · rw [hb] at h1
      obtain ⟨⟨ns, hn, rfl⟩, -⟩ := h1
      exact (codeColor_alpha hn).1
  have hprs : ∀ s ∈ spansOf {} items, ∀ c ∈ s.text, Printable c := by
    intro s hs c hc
    obtain ⟨-, -, it, hit, he⟩ := hcolors s hs
    exact hp it hit c (he ▸ hc)
  have hnl : ∀ s ∈ spansOf {} items, '\n' ∉ s.text := fun s hs hm => absurd (hprs s hs _ hm) (by decide)
  have hok : ∀ s ∈ spansOf {} items, SpanOk env (codeDen env) s := by
    intro s hs
    obtain ⟨⟨t1, h1⟩, ⟨t2, h2⟩, -⟩ := hcolors s hs
    refine ⟨fun c hc => .inl (hprs s hs c hc), ?_, ?_⟩
    · intro c hc
      rw [hc] at h1
      obtain ⟨⟨ns, hn, rfl⟩, -⟩ := h1
      exact sendable_code henv hn
    · intro c hc
      rw [hc] at h2
      obtain ⟨⟨ns, hn, rfl⟩, -⟩ := h2
      exact sendable_code henv hn
  have hsum : ((spansOf {} items).map Span.len).sum = lineLen items := by
    have key : ∀ (its : List Item) (o : Opts), ((spansOf o its).map Span.len).sum = lineLen its := by
      intro its
      induction its with
      | nil => intro o; rfl
      | cons it its ih =>
        intro o
        simp only [spansOf, List.map_cons, List.sum_cons, lineLen, Span.len]
        rw [ih]
        rfl
    exact key items {}
  have hrow : y * width + width ≤ height * width := by
    calc y * width + width = (y + 1) * width := by ring
      _ ≤ height * width := Nat.mul_le_mul_right _ hy
  have hcorner : ∀ s t rest, spansOf {} items = s :: t :: rest → y * width + x + s.text.length ≠ height * width := by
    intro s t rest he
    have ht : t ∈ spansOf {} items := by rw [he]; simp
    obtain ⟨-, -, it, hit, htx⟩ := hcolors t ht
    have hpos : 0 < t.text.length := by
      rw [htx]
      exact List.length_pos_of_ne_nil (h it hit).text.1
    rw [he] at hsum
    simp only [List.map_cons, List.sum_cons, Span.len] at hsum
    omega
  obtain ⟨pre, sp, post, j, c, a, e1, e2, e3, e4, e5, e6, e7, e8⟩ := line_cells env h hp h25 (o := {})
    { T with row := y + 1, col := x + 1 } hT (by rw [hpen]; exact Agree.clean true) rfl (by rw [hpen]; rfl) (by rw [hpen]; rfl) k hk
  have hx : x < width := by omega
  have hsp : sp ∈ spansOf {} items := by rw [e1]; simp
  obtain ⟨hn, hshown⟩ := C05_later env (codeDen env) (codeDen_ok env) 1 1 (Nat.le_refl 1) (Nat.le_refl 1) width height cur fill
    hfill T hT hpen ops hops x y hx hy (spansOf {} items) hok hnl halpha hcorner bg false h0
  have hshown := hshown pre sp post e1 e8 j c e2
  have hi : y * width + x + (pre.map Span.len).sum + j = y * width + (x + k) := by omega
  simp only [hi] at hshown
  have hmod : (y * width + (x + k)) % width = x + k := by
    rw [Nat.mul_comm, Nat.mul_add_mod, Nat.mod_eq_of_lt (by omega)]
  have hdiv : (y * width + (x + k)) / width = y := by
    rw [Nat.mul_comm, Nat.mul_add_div (by omega), Nat.div_eq_of_lt (by omega), Nat.add_zero]
  rw [hmod, hdiv] at hshown
  refine ⟨by rw [hr]; exact hn, ?_⟩
  have e4' : pr.grid (y + 1) (x + k + 1) = { ch := c, attr := a } := by
    rw [show x + k + 1 = x + 1 + k by omega]
    exact e4
  have hlook := look_whitened env sp a e5 e6 e7
  rw [hlook] at hshown
  rw [e4']
  show KeptOr _ _ _ _ _ ((run sys.term (r.1.scr.render (1, 1)).2).grid (y + 1) (x + k + 1))
  rw [hr]
  exact hshown (by omega)

/-- The example of C93 after a translucent text and a draw. -/
example : let ops : List Op :=
      [.write [{ text := "ab".toList, bg := some { r := 1, g := 2, b := 3, alpha := 1 / 2, isBg := true } }] (some (3, 0)) Color.black false, .draw]
    let sys := execAll {} (1, 1) { w := { scr := Screen.init 20 2 }, term := { grid := fun _ _ => ⟨'?', Attr.clean⟩ } } ops
    sys.w.scr.offset = 0 ∧ (cellAt sys.w.scr.cells 3 0).map (·.char) = some ['a'] := by decide +kernel

end Slate
