import Verif.Props.Scroll

/-!
# C15, C20: redraws, and the stored colours
-/

namespace Slate
open Py Term

/-! ## C15 A redraw reproduces the complete screen -/

/-- The cell's string prints one character: a style sequence, the character, possibly a
reset. Every cell written by `write` with printable text, and every fill cell, is
of this kind (`SpanOk.cellStr`, `C01`). -/
def OneChar (cell : Cell) : Prop := ∃ st c r, CellStr cell.char st c r

/-- The cell has no colours, and its string ends as it began (it is unstyled or ends
with a reset). -/
def Faithful (cell : Cell) : Prop :=
  cell.fg = none ∧ cell.bg = none ∧
    ∃ st c r, CellStr cell.char st c r ∧ (r = true ∨ applyStyle st Attr.clean = Attr.clean)

theorem run_row (den : Color → TColor) (row : List Cell) (T : State) (hm : T.mode = .ground)
    (hrow : ∀ cell ∈ row, OneChar cell) :
    let T' := run T (row.flatMap (·.char))
    T'.mode = .ground ∧ T'.row = T.row ∧ T'.col = T.col + row.length ∧
    (∀ (k : Nat) cell, row[k]? = some cell →
      (T'.grid T.row (T.col + k)).ch = (cellGlyph den cell).ch) ∧
    (∀ r c, ¬ (r = T.row ∧ T.col ≤ c ∧ c < T.col + row.length) → T'.grid r c = T.grid r c) ∧
    ((T.pen = Attr.clean ∧ ∀ cell ∈ row, Faithful cell) →
      T'.pen = Attr.clean ∧ ∀ (k : Nat) cell, row[k]? = some cell →
        T'.grid T.row (T.col + k) = cellGlyph den cell) := by
  induction row generalizing T with
  | nil => simp [hm]
  | cons a row ih =>
    intro T'
    -- the first cell
    have key : ∀ st c r, CellStr a.char st c r →
        T' = run { T with grid := setGrid T.grid T.row T.col { ch := c, attr := applyStyle st T.pen }
                          col := T.col + 1
                          pen := if r then Attr.clean else applyStyle st T.pen
                          log := T.log ++ [(T.row, T.col)] } (row.flatMap (·.char)) := by
      intro st c r h
      simp only [T', List.flatMap_cons]
      rw [h.run T _ hm]
    obtain ⟨st, c, r, h⟩ := hrow a (by simp)
    have hT := key st c r h
    obtain ⟨i1, i2, i3, i4, i5, i6⟩ := ih (hrow := fun cell hc => hrow cell (by simp [hc])) (hm := hm)
      (T := { T with grid := setGrid T.grid T.row T.col { ch := c, attr := applyStyle st T.pen }
                     col := T.col + 1
                     pen := if r then Attr.clean else applyStyle st T.pen
                     log := T.log ++ [(T.row, T.col)] })
    rw [← hT] at i1 i2 i3 i4 i5
    simp only at i2 i3 i4 i5
    have hfirst : T'.grid T.row T.col = { ch := c, attr := applyStyle st T.pen } := by
      rw [i5 T.row T.col (by omega)]
      simp [setGrid]
    refine ⟨i1, i2, by rw [i3, List.length_cons]; omega, ?_, ?_, ?_⟩
    · intro k cell hk
      cases k with
      | zero =>
        simp only [List.getElem?_cons_zero, Option.some.injEq] at hk
        subst hk
        rw [Nat.add_zero, hfirst, CellStr.glyph h den]
      | succ k =>
        have := i4 k cell (by simpa using hk)
        rwa [show T.col + 1 + k = T.col + (k + 1) by omega] at this
    · intro r' c' hn
      rw [List.length_cons] at hn
      rw [i5 r' c' (by omega)]
      simp only [setGrid]
      rw [if_neg (by omega)]
    · rintro ⟨hp, hf⟩
      obtain ⟨hfg, hbg, st', c'', r', h', hr'⟩ := hf a (by simp)
      have hT2 := key st' c'' r' h'
      obtain ⟨j1, j2, j3, j4, j5, j6⟩ := ih (hrow := fun cell hc => hrow cell (by simp [hc])) (hm := hm)
        (T := { T with grid := setGrid T.grid T.row T.col { ch := c'', attr := applyStyle st' T.pen }
                       col := T.col + 1
                       pen := if r' then Attr.clean else applyStyle st' T.pen
                       log := T.log ++ [(T.row, T.col)] })
      rw [← hT2] at j5 j6
      obtain ⟨k1, k2⟩ := j6 ⟨by
        simp only [hp]
        rcases hr' with rfl | hr'
        · rfl
        · rw [hr']; simp, fun cell hc => hf cell (by simp [hc])⟩
      refine ⟨k1, ?_⟩
      intro k cell hk
      cases k with
      | zero =>
        simp only [List.getElem?_cons_zero, Option.some.injEq] at hk
        subst hk
        rw [Nat.add_zero, j5 T.row T.col (by simp only; omega), CellStr.glyph h' den]
        simp [setGrid, hp, cellAttr, hfg, hbg, paintOpt]
      | succ k =>
        have := k2 k cell (by simpa using hk)
        simp only at this
        rwa [show T.col + 1 + k = T.col + (k + 1) by omega] at this

theorem run_redrawGo (den : Color → TColor) (ox oy : Nat) (hox : 1 ≤ ox) (hoy : 1 ≤ oy)
    (rows : List (List Cell)) (width : Nat) (hw : ∀ row ∈ rows, row.length = width) (T : State)
    (hm : T.mode = .ground) (hrow : ∀ row ∈ rows, ∀ cell ∈ row, OneChar cell) :
    let T' := run T (redrawGo (ox : Int) (oy : Int) rows)
    T'.mode = .ground ∧
    (∀ x y cell, cellAt rows x y = some cell →
      (T'.grid (y + oy) (x + ox)).ch = (cellGlyph den cell).ch) ∧
    (∀ r c, ¬ (oy ≤ r ∧ r < oy + rows.length ∧ ox ≤ c ∧ c < ox + width) →
      T'.grid r c = T.grid r c) ∧
    ((T.pen = Attr.clean ∧ ∀ row ∈ rows, ∀ cell ∈ row, Faithful cell) →
      T'.pen = Attr.clean ∧ ∀ x y cell, cellAt rows x y = some cell →
        T'.grid (y + oy) (x + ox) = cellGlyph den cell) := by
  induction rows generalizing oy T with
  | nil => simp [redrawGo, hm, cellAt]
  | cons row rows ih =>
    intro T'
    have hT : T' = run (run { T with row := oy, col := ox } (row.flatMap (·.char)))
        (redrawGo (ox : Int) ((oy + 1 : Nat) : Int) rows) := by
      simp only [T', redrawGo]
      rw [List.append_assoc, cursorTo_nat, run_cup _ _ _ _ hm, run_append]
      have e1 : max 1 oy = oy := by omega
      have e2 : max 1 ox = ox := by omega
      rw [e1, e2]
      push_cast
      rfl
    obtain ⟨a1, a2, a3, a4, a5, a6⟩ := run_row den row { T with row := oy, col := ox } hm
      (hrow row (by simp))
    obtain ⟨b1, b2, b3, b4⟩ := ih (oy + 1) (by omega) (fun r hr => hw r (by simp [hr]))
      (run { T with row := oy, col := ox } (row.flatMap (·.char))) a1
      (fun r hr => hrow r (by simp [hr]))
    rw [← hT] at b1 b2 b3 b4
    have hlen := hw row (by simp)
    rw [hlen] at a5
    have hz : ∀ x cell, cellAt (row :: rows) x 0 = some cell → row[x]? = some cell := fun x cell h => h
    have hsx : ∀ x y cell, cellAt (row :: rows) x (y + 1) = some cell → cellAt rows x y = some cell :=
      fun x y cell h => by simpa [cellAt] using h
    refine ⟨b1, ?_, ?_, ?_⟩
    · intro x y cell h
      cases y with
      | zero =>
        have := a4 x cell (hz x cell h)
        simp only at this
        rw [b3 _ _ (by omega), Nat.zero_add, Nat.add_comm x ox]
        exact this
      | succ y =>
        have := b2 x y cell (hsx x y cell h)
        rwa [show y + (oy + 1) = y + 1 + oy by omega] at this
    · intro r c hn
      rw [List.length_cons] at hn
      rw [b3 r c (by omega), a5 r c (by simp only; omega)]
    · rintro ⟨hp, hf⟩
      obtain ⟨c1, c2⟩ := a6 ⟨hp, hf row (by simp)⟩
      obtain ⟨d1, d2⟩ := b4 ⟨c1, fun r hr => hf r (by simp [hr])⟩
      refine ⟨d1, ?_⟩
      intro x y cell h
      cases y with
      | zero =>
        have := c2 x cell (hz x cell h)
        simp only at this
        rw [b3 _ _ (by omega), Nat.zero_add, Nat.add_comm x ox]
        exact this
      | succ y =>
        have := d2 x y cell (hsx x y cell h)
        rwa [show y + (oy + 1) = y + 1 + oy by omega] at this

/-- **C15** (partial: the colours are missing, `C15_violated`). Whatever the terminal
showed and whatever its pen was: a redraw of a screen whose cells each hold one
character shows the character of every cell at its place and changes nothing
outside the screen area; and if the pen was clean and the cells have no colours and
reset their styles, the whole look of every cell. -/
theorem C15_redraw_partial (den : Color → TColor) (ox oy : Nat) (hox : 1 ≤ ox) (hoy : 1 ≤ oy)
    (s : Screen) (hs : Shape s.width s.height s.cells)
    (hcell : ∀ x y cell, cellAt s.cells x y = some cell → OneChar cell) (T : State)
    (hT : T.mode = .ground) :
    let T' := run T (s.render (ox, oy) true).2
    (∀ x y cell, cellAt s.cells x y = some cell →
      (T'.grid (y + oy) (x + ox)).ch = (cellGlyph den cell).ch) ∧
    (∀ r c, ¬ (oy ≤ r ∧ r < oy + s.height ∧ ox ≤ c ∧ c < ox + s.width) →
      T'.grid r c = T.grid r c) ∧
    ((T.pen = Attr.clean ∧ ∀ x y cell, cellAt s.cells x y = some cell → Faithful cell) →
      ∀ x y cell, cellAt s.cells x y = some cell →
        T'.grid (y + oy) (x + ox) = cellGlyph den cell) := by
  have hmem : ∀ (P : Cell → Prop), (∀ x y cell, cellAt s.cells x y = some cell → P cell) →
      ∀ row ∈ s.cells, ∀ cell ∈ row, P cell := by
    intro P hP row hrow cell hc
    obtain ⟨y, hy⟩ := List.mem_iff_getElem?.mp hrow
    obtain ⟨x, hx⟩ := List.mem_iff_getElem?.mp hc
    exact hP x y cell (by simp [cellAt, hy, hx])
  obtain ⟨-, h2, h3, h4⟩ := run_redrawGo den ox oy hox hoy s.cells s.width hs.cols T hT
    (hmem OneChar hcell)
  rw [hs.rows] at h3
  exact ⟨h2, h3, fun ⟨hp, hf⟩ => (h4 ⟨hp, hmem Faithful hf⟩).2⟩

-- a written screen meets the hypotheses
example : let s := (write {} [{ text := ['a'], style := { bold := true } }] (some (0, 0)) Color.black
      false { scr := Screen.init 1 1 }).1.scr
    ∀ cell, cellAt s.cells 0 0 = some cell → OneChar cell := by
  intro s cell h
  have e : cellAt s.cells 0 0 = some { char := "\x1b[1ma\x1b[0m".toList, fg := some Color.white } := by
    decide +kernel
  rw [e] at h
  injection h with h
  subst h
  exact ⟨{ bold := true }, 'a', true, by decide, by decide⟩

/-- **C15 violated**: a redraw drops the colours. A red "a" is drawn red, redrawn in the
default colour. -/
theorem C15_violated :
    let s := (write {} [{ text := ['a'], fg := some { r := 200, g := 0, b := 0 } }] (some (0, 0))
      Color.black false { scr := Screen.init 1 1 }).1.scr
    let T : State := { grid := fun _ _ => { ch := '?', attr := Attr.clean } }
    (run T (s.render (1, 1) false).2).grid 1 1 = { ch := 'a', attr := { fg := .rgb 200 0 0 } } ∧
    (run T (s.render (1, 1) true).2).grid 1 1 = { ch := 'a', attr := Attr.clean } := by
  decide +kernel

/-- **C15 violated**: nor does a redraw reset the pen after the style of a span that was
cut off: the second cell of the row is drawn bold too. -/
theorem C15_violated_style :
    let s := (write {} [{ text := ['a', 'b'], style := { bold := true } }] (some (0, 0))
      Color.black false { scr := Screen.init 2 1 }).1.scr
    let s := (write {} [{ text := ['x'] }] (some (1, 0)) Color.black false { scr := s }).1.scr
    let T : State := { grid := fun _ _ => { ch := '?', attr := Attr.clean } }
    (run T (s.render (1, 1) false).2).grid 1 2 = { ch := 'x', attr := { fg := .rgb 255 255 255 } } ∧
    (run T (s.render (1, 1) true).2).grid 1 2 = { ch := 'x', attr := { bold := true } } := by
  decide +kernel

/-! ## C20 Stored colours are always valid and backgrounds always opaque -/

theorem blendChan_range (a b : Nat) (t : Rat) :
    0 ≤ Color.blendChan a b t ∧ Color.blendChan a b t ≤ 255 := by
  unfold Color.blendChan; omega

/-- **C20** (no range error): for all colours - even invalid ones - and all alphas, the
constructor called by `blend` accepts the blended channels. -/
theorem C20_blend_never_raises (c o : Color) (alpha : Rat) (isBg : Bool) :
    Color.make (Color.blendChan c.r o.r alpha, Color.blendChan c.g o.g alpha,
      Color.blendChan c.b o.b alpha) isBg = .ok (c.blend o alpha (some isBg)) := by
  have h1 := blendChan_range c.r o.r alpha
  have h2 := blendChan_range c.g o.g alpha
  have h3 := blendChan_range c.b o.b alpha
  have ok : ∀ v : Int, 0 ≤ v ∧ v ≤ 255 → Color.chanOk v = true := by
    intro v hv
    simp only [Color.chanOk, Bool.and_eq_true, decide_eq_true_eq]; omega
  unfold Color.make
  rw [ok _ h1, ok _ h2, ok _ h3]
  rfl

theorem blend_valid (c o : Color) (t : Rat) (isBg : Option Bool) : (c.blend o t isBg).Valid := by
  have h1 := blendChan_range c.r o.r t
  have h2 := blendChan_range c.g o.g t
  have h3 := blendChan_range c.b o.b t
  refine ⟨?_, ?_, ?_⟩ <;> simp only [Color.blend] <;> omega

theorem getBlended_valid {a b : Option Color} {t : Rat} (ha : ∀ c, a = some c → c.Valid)
    (hb : ∀ c, b = some c → c.Valid) : ∀ c, getBlended a b t = some c → c.Valid := by
  intro c hc
  unfold getBlended at hc
  split at hc
  · cases hc
  · exact ha c hc
  · exact hb c hc
  · split at hc
    · exact hb c hc
    · injection hc with hc
      subst hc
      exact blend_valid _ _ _ _

/-- Colours in the matrices of a write. -/
structure MatsValid (m : Mats) : Prop where
  fg : ∀ x y c f, m.wm x y = some c → c.fg = some f → f.Valid
  bg : ∀ x y c f, m.wm x y = some c → c.bg = some f → f.Valid
  am : ∀ x y, ∀ c ∈ m.am x y, Color.Valid c

/-- The colours of a span are valid. -/
def Span.ColorsValid (s : Span) : Prop :=
  (∀ c, s.fg = some c → c.Valid) ∧ (∀ c, s.bg = some c → c.Valid)

theorem MatsValid.putCell {m : Mats} (h : MatsValid m) {s : Span} (hs : s.ColorsValid) (ch : Str)
    (x y : Nat) : MatsValid (putCell m s ch x y) := by
  have set : ∀ (c : WCell) (am : Nat → Nat → List Color), (∀ x y, ∀ c ∈ am x y, Color.Valid c) →
      (∀ f, c.fg = some f → f.Valid) → (∀ f, c.bg = some f → f.Valid) →
      MatsValid { wm := upd m.wm x y (some c), am := am } := by
    intro c am ham hf hb
    refine ⟨?_, ?_, ham⟩
    · intro x' y' c' f hc hfg
      simp only [upd] at hc
      split at hc
      · injection hc with hc; subst hc; exact hf f hfg
      · exact h.fg x' y' c' f hc hfg
    · intro x' y' c' f hc hfg
      simp only [upd] at hc
      split at hc
      · injection hc with hc; subst hc; exact hb f hfg
      · exact h.bg x' y' c' f hc hfg
  unfold Slate.putCell
  split
  · rename_i old hold
    split
    · apply set
      · intro x' y' c hc
        simp only [upd] at hc
        split at hc
        · rcases List.mem_append.mp hc with hc | hc
          · exact h.am x y c hc
          · exact hs.2 c (by simpa using hc)
        · exact h.am x' y' c hc
      · intro f hf
        simp only at hf
        split at hf
        · exact h.fg x y old f hold hf
        · exact hs.1 f hf
      · exact fun f hf => h.bg x y old f hold hf
    · exact set _ _ h.am hs.1 hs.2
  · exact set _ _ h.am hs.1 hs.2

theorem white_valid : Color.white.Valid := by unfold Color.Valid; decide

theorem resolve_valid (tb : Color) (htb : tb.Valid) (stack : List Color) (hst : ∀ c ∈ stack, c.Valid)
    (c : WCell) (hf : ∀ f, c.fg = some f → f.Valid) (hb : ∀ f, c.bg = some f → f.Valid) :
    (∀ f, (resolveCell tb stack c).fg = some f → f.Valid) ∧
    (∀ b, (resolveCell tb stack c).bg = some b → b.Valid ∧ b.alpha = 1) ∧
    ∃ f, (resolveCell tb stack c).fg = some f := by
  have hfold : ∀ (stack : List Color) (s : Blend), (∀ c ∈ stack, c.Valid) →
      (∀ f, s.fg = some f → f.Valid) → (∀ f, s.blent = some f → f.Valid) →
      (∀ f, (stack.foldl (blendStep c.bleed) s).fg = some f → f.Valid) ∧
      (∀ f, (stack.foldl (blendStep c.bleed) s).blent = some f → f.Valid) := by
    intro stack
    induction stack with
    | nil => exact fun s _ h1 h2 => ⟨h1, h2⟩
    | cons a t ih =>
      intro s hst h1 h2
      rw [List.foldl_cons]
      have ha := hst a (by simp)
      have hstep : (∀ f, (blendStep c.bleed s a).fg = some f → f.Valid) ∧
          (∀ f, (blendStep c.bleed s a).blent = some f → f.Valid) := by
        have hblent := getBlended_valid (t := fl (1 / 10)) h2
          (b := some a) (fun c hc => by injection hc with hc; exact hc ▸ ha)
        have hfg := getBlended_valid (t := fl (1 / 10)) h1
          (b := some a) (fun c hc => by injection hc with hc; exact hc ▸ ha)
        unfold blendStep
        split
        · split
          · exact ⟨h1, h2⟩
          · refine ⟨?_, hblent⟩
            intro f hf
            simp only at hf
            split at hf
            · exact hfg f hf
            · exact h1 f hf
        · refine ⟨?_, hblent⟩
          intro f hf
          simp only at hf
          split at hf
          · exact hfg f hf
          · exact h1 f hf
      exact ih _ (fun c hc => hst c (by simp [hc])) hstep.1 hstep.2
  obtain ⟨g1, g2⟩ := hfold stack
    { blent := c.bg, fg := some (c.fg.getD Color.white), last := c.bg } hst
    (by
      intro f hff
      simp only [Option.some.injEq] at hff
      subst hff
      cases hc : c.fg with
      | none => exact white_valid
      | some f => exact hf f hc)
    hb
  have hbg : ∀ b, (resolveColors tb stack c).2 = some b → b.Valid ∧ b.alpha = 1 := by
    intro b hbb
    unfold resolveColors at hbb
    simp only at hbb
    split at hbb
    · rename_i b' hb'
      split at hbb
      · rename_i hne
        refine ⟨getBlended_valid (fun c hc => by injection hc with hc; exact hc ▸ htb)
          (fun c hc => by injection hc with hc; exact hc ▸ g2 _ hb') b hbb, ?_⟩
        simp only [getBlended, if_neg hne, Option.some.injEq] at hbb
        rw [← hbb]; rfl
      · rename_i heq
        have heq : b'.alpha = 1 := by simpa using heq
        injection hbb with hbb
        subst hbb
        exact ⟨g2 _ hb', heq⟩
    · cases hbb
  refine ⟨?_, hbg, Option.isSome_iff_exists.mp (resolve_fg_isSome tb stack c)⟩
  intro f hff
  have hff : (resolveColors tb stack c).1 = some f := hff
  have hbg' : ∀ b, (resolveColors tb stack c).2 = some b → b.Valid := fun b hb => (hbg b hb).1
  unfold resolveColors at hff hbg'
  simp only at hff hbg'
  split at hff
  · rename_i f' hf'
    split at hff
    · exact getBlended_valid (fun c hc => by injection hc with hc; exact hc ▸ g1 _ hf') hbg' f hff
    · injection hff with hff
      subst hff
      exact g1 _ hf'
  · cases hff

/-- What C20 says about a cell: valid colours, an opaque background; a cell without
foreground was never written (it is empty or holds one of the fill strings). -/
structure CellValid (F : Str → Prop) (cell : Cell) : Prop where
  fg : ∀ c, cell.fg = some c → c.Valid
  bg : ∀ c, cell.bg = some c → c.Valid ∧ c.alpha = 1
  written : cell.fg = none → cell.bg = none ∧ (cell.char = [] ∨ F cell.char)

def CellsValid (F : Str → Prop) (cells : List (List Cell)) : Prop :=
  ∀ x y cell, cellAt cells x y = some cell → CellValid F cell

theorem CellsValid.scroll {F : Str → Prop} (r : List Cell) (rows : List (List Cell)) (w : Nat)
    (h : CellsValid F (r :: rows)) :
    CellsValid F (rows ++ [List.replicate w { char := [] }]) := by
  intro x y cell hc
  unfold cellAt at hc
  by_cases hy : y < rows.length
  · rw [List.getElem?_append_left hy] at hc
    exact h x (y + 1) cell (by simpa [cellAt] using hc)
  · rw [List.getElem?_append_right (by omega)] at hc
    have : cell = { char := [] } := by
      split at hc
      · rename_i row hrow
        have hr := List.mem_of_getElem? hrow
        simp only [List.mem_singleton] at hr
        subst hr
        have hx := List.mem_of_getElem? hc
        exact (List.mem_replicate.mp hx).2
      · cases hc
    subst this
    exact ⟨by simp, by simp, fun _ => ⟨rfl, .inl rfl⟩⟩

theorem writeBulk_cellsValid {F : Str → Prop} (env : Color.Env) (data : List Entry) (tb : Color)
    (force : Bool) (w : World) (hs : Shape w.scr.width w.scr.height w.scr.cells)
    (hd : ∀ e ∈ data, ∀ s ∈ e.2, s.ColorsValid) (htb : tb.Valid) (h : CellsValid F w.scr.cells) :
    CellsValid F (writeBulk env data tb force w).1.scr.cells := by
  have hf := putData_frame data Mats.blank w
  have hinv := putData_inv MatsValid (CellsValid F) data
    (fun m sp ch x y ⟨e, he, hsp⟩ hm => hm.putCell (hd e he sp hsp) ch x y)
    CellsValid.scroll Mats.blank w
    ⟨by simp [Mats.blank], by simp [Mats.blank], by simp [Mats.blank]⟩ h
  unfold writeBulk
  revert hf hinv
  rcases putData data Mats.blank w with ⟨m, w', e⟩
  intro hf hinv
  obtain ⟨hm, hc⟩ := hinv
  simp only at hm hc hf
  cases e with
  | some e => exact hc
  | none =>
    simp only
    obtain ⟨n, -, hwr⟩ := commit_wrote env tb m w'.scr
      (by rw [hf.width, hf.height]; exact hf.shape _ _ rfl hs)
    intro x y cell hcell
    rw [hwr.cell] at hcell
    cases ho : outcome tb m w'.scr (x, y) with
    | none =>
      rw [ho] at hcell
      exact hc x y cell (by simpa using hcell)
    | some r =>
      rw [ho] at hcell
      simp only [Option.map_some, Option.some_or, Option.some.injEq] at hcell
      subst hcell
      unfold outcome at ho
      split at ho
      · simp at ho
      · rename_i c hcw
        simp only at ho
        split at ho
        · simp at ho
        · split at ho
          · simp at ho
          · simp only [Option.some.injEq] at ho
            subst ho
            obtain ⟨v1, v2, f, v3⟩ := resolve_valid tb htb (m.am x y) (hm.am x y) c
              (fun f hf => hm.fg x y c f hcw hf) (fun f hf => hm.bg x y c f hcw hf)
            refine ⟨v1, v2, fun hn => ?_⟩
            simp only at hn
            rw [v3] at hn
            cases hn

/-- **C20**: in every state reached by any history of calls (scrolling and raising ones
included) with colours whose channels are in range and with any alphas: every
stored colour has its channels in `0..255`, every stored background is opaque, and
a cell without a foreground was never written. -/
theorem C20_stored_colors (env : Color.Env) (F : Str → Prop) (width height : Nat) (cur : Int × Int)
    (fill : Str) (hfill : F fill) (cache : CharCache) (ops : List Api)
    (huse : ∀ op ∈ ops, op.Uses Span.ColorsValid Color.Valid) (hF : ∀ op ∈ ops, op.Fills F)
    (x y : Nat) (cell : Cell)
    (hc : cellAt (Api.runAll env { scr := Screen.init width height cur fill, cache := cache }
      ops).scr.cells x y = some cell) :
    (∀ c, cell.fg = some c → c.r ≤ 255 ∧ c.g ≤ 255 ∧ c.b ≤ 255) ∧
    (∀ c, cell.bg = some c → c.r ≤ 255 ∧ c.g ≤ 255 ∧ c.b ≤ 255 ∧ c.alpha = 1) ∧
    (cell.fg = none → cell.bg = none ∧ (cell.char = [] ∨ F cell.char)) := by
  have hres : ∀ (s : Screen) (a b : Nat) (fill : Str) (keep : Bool), F fill → CellsValid F s.cells →
      CellsValid F (s.resize (a, b) fill keep).cells := by
    intro s a b fill keep hf h x y cell hc
    have hb := (resize_shape s a b fill keep).cellAt_isSome (x := x) (y := y) |>.mp
      (Option.isSome_iff_exists.mpr ⟨cell, hc⟩)
    rw [resize_cellAt s a b fill keep x y hb.1 hb.2] at hc
    injection hc with hc
    have hfillv : CellValid F { char := fill } := ⟨by simp, by simp, fun _ => ⟨rfl, .inr hf⟩⟩
    split at hc
    · cases ho : cellAt s.cells x y with
      | none => rw [ho] at hc; simp only [Option.getD_none] at hc; rw [← hc]; exact hfillv
      | some o =>
        rw [ho] at hc; simp only [Option.getD_some] at hc; rw [← hc]; exact h x y o ho
    · rw [← hc]; exact hfillv
  have hinv : ∀ (ops : List Api) (w : World), Shape w.scr.width w.scr.height w.scr.cells →
      CellsValid F w.scr.cells → (∀ op ∈ ops, op.Uses Span.ColorsValid Color.Valid) →
      (∀ op ∈ ops, op.Fills F) → CellsValid F (Api.runAll env w ops).scr.cells := by
    intro ops
    induction ops with
    | nil => exact fun w _ h _ _ => h
    | cons op ops ih =>
      intro w hs h hu hF
      refine ih _ (run_shape env w op hs) ?_ (fun op hop => hu op (by simp [hop]))
        (fun op hop => hF op (by simp [hop]))
      have hu := hu op (by simp)
      have hF := hF op (by simp)
      cases op with
      | write spans cursor tb force =>
        refine writeBulk_cellsValid env _ tb force w hs ?_ hu.2 h
        intro e he sp hsp
        simp only [List.mem_singleton] at he
        subst he
        exact hu.1 sp hsp
      | writeBulk data tb force => exact writeBulk_cellsValid env _ tb force w hs hu.1 hu.2 h
      | clear fill => exact hres _ _ _ _ _ hF h
      | resize a b fill keep => exact hres _ _ _ _ _ hF h
      | render origin redraw => cases redraw <;> exact h
      | getCharacters s => exact h
  have h := hinv ops { scr := Screen.init width height cur fill, cache := cache }
    (resize_shape _ _ _ _ _) (hres _ _ _ _ _ hfill (by intro x y cell h; simp [cellAt] at h)) huse hF
    x y cell hc
  exact ⟨h.fg, fun c hb => by
    obtain ⟨⟨h1, h2, h3⟩, h4⟩ := h.bg c hb; exact ⟨h1, h2, h3, h4⟩, h.written⟩

-- a translucent stack on a scrolled screen
example : let bg (a : Rat) : Option Color := some { r := 200, g := 10, b := 255, isBg := true, alpha := a }
    let ops : List Api := [
      .writeBulk [(some (0, 2), [{ text := "ab".toList, bg := bg (1/3) }]),
        (some (0, 0), [{ text := " ".toList, bg := bg (2/3) }])] Color.black false]
    (∀ op ∈ ops, op.Uses Span.ColorsValid Color.Valid) ∧ (∀ op ∈ ops, op.Fills (· = [' '])) ∧
    (cellAt (Api.runAll {} { scr := Screen.init 2 2 } ops).scr.cells 0 1).map (·.bg.isSome) = some true := by
  refine ⟨?_, by simp [Api.Fills], by decide +kernel⟩
  intro op hop
  simp only [List.mem_singleton] at hop
  subst hop
  refine ⟨?_, by unfold Color.Valid; decide⟩
  intro e he s hs
  simp only [List.mem_cons, List.not_mem_nil, or_false] at he
  rcases he with rfl | rfl
  all_goals
    simp only [List.mem_singleton] at hs
    subst hs
    exact ⟨by simp, by intro c hc; simp only [Option.some.injEq] at hc; subst hc; exact ⟨by simp, by simp, by simp⟩⟩

end Slate
