import Verif.Props.Redraw
import Verif.Props.Group

/-!
# What a redraw shows exactly (C15)

`render(redraw=True)` sends the strings of the cells without their colours. The strings set styles and only some of them reset them, so
that styles run on into the cells that follow, across the rows, until the next reset.
-/

namespace Slate
open Py Term

/-- The text styles: the flag of the terminal and that of the style. -/
def textFlags : List ((Attr → Bool) × (Style → Bool)) :=
  [(Attr.bold, Style.bold), (Attr.dim, Style.dim), (Attr.italic, Style.italic), (Attr.underline, Style.underline),
   (Attr.blink, Style.blink), (Attr.fastBlink, Style.fastBlink), (Attr.invert, Style.invert), (Attr.conceal, Style.conceal),
   (Attr.strike, Style.strike)]

/-- The pen after the first cells in reading order. -/
def penUpTo (st : Nat → Style) (r : Nat → Bool) (pen : Attr) : Nat → Attr
  | 0 => pen
  | i + 1 => if r i then Attr.clean else applyStyle (st i) (penUpTo st r pen i)

theorem penUpTo_fg (st : Nat → Style) (r : Nat → Bool) (pen : Attr) (hp : pen.fg = .default ∧ pen.bg = .default) (i : Nat) :
    (penUpTo st r pen i).fg = .default ∧ (penUpTo st r pen i).bg = .default := by
  induction i with
  | zero => exact hp
  | succ i ih =>
    unfold penUpTo
    split
    · exact ⟨rfl, rfl⟩
    · exact ih

theorem penUpTo_flag (st : Nat → Style) (r : Nat → Bool) (pen : Attr) {f : (Attr → Bool) × (Style → Bool)}
    (hap : ∀ s a, f.1 (applyStyle s a) = (f.1 a || f.2 s)) (hcl : f.1 Attr.clean = false) (i : Nat) :
    f.1 (penUpTo st r pen i) = true ↔
      (∃ j < i, f.2 (st j) = true ∧ ∀ k, j ≤ k → k < i → r k = false) ∨ (f.1 pen = true ∧ ∀ k < i, r k = false) := by
  induction i with
  | zero => simp [penUpTo]
  | succ i ih =>
    unfold penUpTo
    cases hr : r i with
    | true =>
      simp only [if_true, hcl, Bool.false_eq_true, false_iff]
      rintro (⟨j, hj, -, h⟩ | ⟨-, h⟩)
      · rw [h i (by omega) (by omega)] at hr; cases hr
      · rw [h i (by omega)] at hr; cases hr
    | false =>
      simp only [Bool.false_eq_true, if_false, hap, Bool.or_eq_true, ih]
      constructor
      · rintro ((⟨j, hj, h1, h2⟩ | ⟨h1, h2⟩) | h)
        · refine .inl ⟨j, by omega, h1, fun k hk1 hk2 => ?_⟩
          rcases Nat.lt_succ_iff_lt_or_eq.mp hk2 with h | rfl
          · exact h2 k hk1 h
          · exact hr
        · refine .inr ⟨h1, fun k hk => ?_⟩
          rcases Nat.lt_succ_iff_lt_or_eq.mp hk with h | rfl
          · exact h2 k h
          · exact hr
        · refine .inl ⟨i, by omega, h, fun k hk1 hk2 => ?_⟩
          have : k = i := by omega
          rw [this]; exact hr
      · rintro (⟨j, hj, h1, h2⟩ | ⟨h1, h2⟩)
        · rcases Nat.lt_succ_iff_lt_or_eq.mp hj with h | rfl
          · exact .inl (.inl ⟨j, h, h1, fun k hk1 hk2 => h2 k hk1 (by omega)⟩)
          · exact .inr h1
        · exact .inl (.inr ⟨h1, fun k hk => h2 k (by omega)⟩)

theorem textFlags_apply {f : (Attr → Bool) × (Style → Bool)} (hf : f ∈ textFlags) :
    (∀ s a, f.1 (applyStyle s a) = (f.1 a || f.2 s)) ∧ f.1 Attr.clean = false := by
  simp only [textFlags, List.mem_cons, List.not_mem_nil, or_false] at hf
  rcases hf with rfl | rfl | rfl | rfl | rfl | rfl | rfl | rfl | rfl <;> exact ⟨fun _ _ => rfl, rfl⟩

theorem run_row_pen (st : Nat → Style) (ch : Nat → Char) (r : Nat → Bool) (pen : Attr) (row : List Cell) :
    ∀ (i : Nat) (T : State), T.mode = .ground → T.pen = penUpTo st r pen i →
    (∀ (k : Nat) cell, row[k]? = some cell → CellStr cell.char (st (i + k)) (ch (i + k)) (r (i + k))) →
    let T' := run T (row.flatMap (·.char))
    T'.mode = .ground ∧ T'.pen = penUpTo st r pen (i + row.length) ∧
    (∀ k < row.length, T'.grid T.row (T.col + k) = { ch := ch (i + k), attr := applyStyle (st (i + k)) (penUpTo st r pen (i + k)) }) ∧
    (∀ a b, ¬ (a = T.row ∧ T.col ≤ b ∧ b < T.col + row.length) → T'.grid a b = T.grid a b) := by
  induction row with
  | nil => intro i T hm hp _; simp [hm, hp]
  | cons a row ih =>
    intro i T hm hp hrow T'
    have h0 := hrow 0 a rfl
    rw [Nat.add_zero] at h0
    have hT : T' = run { T with grid := setGrid T.grid T.row T.col { ch := ch i, attr := applyStyle (st i) T.pen }
                                col := T.col + 1
                                log := T.log ++ [(T.row, T.col)]
                                pen := if r i then Attr.clean else applyStyle (st i) T.pen } (row.flatMap (·.char)) := by
      simp only [T', List.flatMap_cons]
      rw [h0.run T _ hm]
    obtain ⟨i1, i2, i3, i4⟩ := ih (i + 1)
      { T with grid := setGrid T.grid T.row T.col { ch := ch i, attr := applyStyle (st i) T.pen }
               col := T.col + 1
               log := T.log ++ [(T.row, T.col)]
               pen := if r i then Attr.clean else applyStyle (st i) T.pen } hm (by rw [hp]; rfl)
      (fun k cell hk => by
        have := hrow (k + 1) cell (by simpa using hk)
        rwa [show i + (k + 1) = i + 1 + k by omega] at this)
    rw [← hT] at i1 i2 i3 i4
    simp only at i3 i4
    refine ⟨i1, by rw [i2, List.length_cons]; congr 1; omega, ?_, ?_⟩
    · intro k hk
      cases k with
      | zero =>
        rw [Nat.add_zero, i4 T.row T.col (by omega)]
        simp [setGrid, hp]
      | succ k =>
        have := i3 k (by simpa using hk)
        rwa [show T.col + 1 + k = T.col + (k + 1) by omega, show i + 1 + k = i + (k + 1) by omega] at this
    · intro a' b' hn
      rw [List.length_cons] at hn
      rw [i4 a' b' (by omega)]
      simp only [setGrid]
      rw [if_neg (by omega)]

theorem run_rows_pen (st : Nat → Style) (ch : Nat → Char) (r : Nat → Bool) (pen : Attr) (width ox : Nat) (hox : 1 ≤ ox)
    (rows : List (List Cell)) : ∀ (i oy : Nat) (T : State), 1 ≤ oy → T.mode = .ground → T.pen = penUpTo st r pen i →
    (∀ row ∈ rows, row.length = width) →
    (∀ x y cell, cellAt rows x y = some cell → CellStr cell.char (st (i + (y * width + x))) (ch (i + (y * width + x))) (r (i + (y * width + x)))) →
    let T' := run T (redrawGo (ox : Int) (oy : Int) rows)
    T'.pen = penUpTo st r pen (i + rows.length * width) ∧
    (∀ x y, x < width → y < rows.length → T'.grid (y + oy) (x + ox) =
      { ch := ch (i + (y * width + x)), attr := applyStyle (st (i + (y * width + x))) (penUpTo st r pen (i + (y * width + x))) }) ∧
    (∀ a b, ¬ (oy ≤ a ∧ a < oy + rows.length ∧ ox ≤ b ∧ b < ox + width) → T'.grid a b = T.grid a b) := by
  induction rows with
  | nil => intro i oy T _ _ hp _ _; simp [redrawGo, hp]
  | cons row rows ih =>
    intro i oy T hoy hm hp hw hcell T'
    have hT : T' = run (run { T with row := oy, col := ox } (row.flatMap (·.char))) (redrawGo (ox : Int) ((oy + 1 : Nat) : Int) rows) := by
      simp only [T', redrawGo]
      rw [List.append_assoc, cursorTo_nat, run_cup _ _ _ _ hm, run_append]
      have e1 : max 1 oy = oy := by omega
      have e2 : max 1 ox = ox := by omega
      rw [e1, e2]
      push_cast
      rfl
    have hlen := hw row (by simp)
    obtain ⟨a1, a2, a3, a4⟩ := run_row_pen st ch r pen row i { T with row := oy, col := ox } hm hp
      (fun k cell hk => by have := hcell k 0 cell hk; rwa [Nat.zero_mul, Nat.zero_add] at this)
    obtain ⟨b2, b3, b4⟩ := ih (i + width) (oy + 1) (run { T with row := oy, col := ox } (row.flatMap (·.char))) (by omega) a1
      (by rw [a2, hlen]) (fun q hq => hw q (by simp [hq]))
      (fun x y cell h => by
        have := hcell x (y + 1) cell (by simpa [cellAt] using h)
        rwa [show i + ((y + 1) * width + x) = i + width + (y * width + x) by rw [Nat.add_mul]; omega] at this)
    rw [← hT] at b2 b3 b4
    rw [hlen] at a3 a4
    simp only at a3 a4
    refine ⟨by rw [b2, List.length_cons, Nat.add_mul]; congr 1; omega, ?_, ?_⟩
    · intro x y hx hy
      cases y with
      | zero =>
        rw [b4 _ _ (by omega), Nat.zero_add, Nat.add_comm x ox, a3 x hx, Nat.zero_mul, Nat.zero_add]
      | succ y =>
        have := b3 x y hx (by simpa using hy)
        rwa [show y + (oy + 1) = y + 1 + oy by omega, show i + width + (y * width + x) = i + ((y + 1) * width + x) by rw [Nat.add_mul]; omega] at this
    · intro a b hn
      rw [List.length_cons] at hn
      rw [b4 a b (by omega), a4 a b (by omega)]

/-- **C15**, what a redraw shows, for all screens whose cells hold one character each (`st`, `ch` and `r` are the style, the character and
whether the string resets, by the number of the cell in reading order). A cell shows its character; a text style is on exactly if the style of
a cell since the last reset before it has it, or the terminal had it and nothing was reset yet; and
if the terminal had the default colours, everything is shown in the default colours, whatever colours are stored. -/
theorem C15_exact_partial (ox oy : Nat) (hox : 1 ≤ ox) (hoy : 1 ≤ oy) (s : Screen) (hs : Shape s.width s.height s.cells)
    (st : Nat → Style) (ch : Nat → Char) (r : Nat → Bool)
    (hcell : ∀ x y cell, cellAt s.cells x y = some cell →
      CellStr cell.char (st (y * s.width + x)) (ch (y * s.width + x)) (r (y * s.width + x)))
    (T : State) (hT : T.mode = .ground) :
    let T' := run T (s.render (ox, oy) true).2
    (∀ x y, x < s.width → y < s.height →
      (T'.grid (y + oy) (x + ox)).ch = ch (y * s.width + x) ∧
      (∀ f ∈ textFlags, f.1 (T'.grid (y + oy) (x + ox)).attr = true ↔
        (∃ j ≤ y * s.width + x, f.2 (st j) = true ∧ ∀ k, j ≤ k → k < y * s.width + x → r k = false) ∨
        (f.1 T.pen = true ∧ ∀ k < y * s.width + x, r k = false)) ∧
      (T.pen.fg = .default ∧ T.pen.bg = .default →
        (T'.grid (y + oy) (x + ox)).attr.fg = .default ∧ (T'.grid (y + oy) (x + ox)).attr.bg = .default)) ∧
    (∀ a b, ¬ (oy ≤ a ∧ a < oy + s.height ∧ ox ≤ b ∧ b < ox + s.width) → T'.grid a b = T.grid a b) := by
  intro T'
  obtain ⟨-, h2, h3⟩ := run_rows_pen st ch r T.pen s.width ox hox s.cells 0 oy T hoy hT rfl hs.cols
    (fun x y cell h => by simpa using hcell x y cell h)
  rw [hs.rows] at h2 h3
  have eT : T' = run T (redrawGo (ox : Int) (oy : Int) s.cells) := rfl
  rw [← eT] at h2 h3
  refine ⟨?_, h3⟩
  intro x y hx hy
  have h := h2 x y hx hy
  rw [Nat.zero_add] at h
  rw [h]
  refine ⟨rfl, ?_, fun hd => penUpTo_fg st r T.pen hd (y * s.width + x)⟩
  intro f hf
  obtain ⟨ha, hc⟩ := textFlags_apply hf
  simp only
  rw [ha, Bool.or_eq_true, penUpTo_flag st r T.pen ha hc]
  constructor
  · rintro ((⟨j, hj, h1, h2⟩ | h) | h)
    · exact .inl ⟨j, hj.le, h1, h2⟩
    · exact .inr h
    · exact .inl ⟨_, le_rfl, h, fun k h1 h2 => absurd h2 (by omega)⟩
  · rintro (⟨j, hj, h1, h2⟩ | h)
    · rcases Nat.lt_or_eq_of_le hj with h | rfl
      · exact .inl (.inl ⟨j, h, h1, h2⟩)
      · exact .inr h1
    · exact .inl (.inr h)

/-- Printable text; line breaks only without style. -/
def Span.Plain (s : Span) : Prop := ∀ c ∈ s.text, Printable c ∨ (c = '\n' ∧ s.style = {})

/-- A fill string of one printable character. -/
def PlainFill (f : Str) : Prop := ∃ c, f = [c] ∧ Printable c

/-- C15 is violated by every coloured cell: after every history of calls with printable text that did not scroll, a redraw on a clean terminal shows
every character in the default colours, whatever colours it was written with. -/
theorem C15_colourless_violated (env : Color.Env) (width height : Nat) (cur : Int × Int) (fill : Str) (hfill : PlainFill fill) (ops : List Api)
    (hu : ∀ op ∈ ops, op.Uses Span.Plain fun _ => True) (hF : ∀ op ∈ ops, op.Fills PlainFill)
    (ho : (Api.runAll env { scr := Screen.init width height cur fill } ops).scr.offset = 0) (ox oy : Nat) (hox : 1 ≤ ox) (hoy : 1 ≤ oy)
    (T : State) (hT : T.mode = .ground) (hp : T.pen = Attr.clean) :
    let s := (Api.runAll env { scr := Screen.init width height cur fill } ops).scr
    let T' := run T (s.render (ox, oy) true).2
    ∀ x y, x < s.width → y < s.height → ∀ den : Color → TColor, ∃ cell, cellAt s.cells x y = some cell ∧
      (T'.grid (y + oy) (x + ox)).ch = (cellGlyph den cell).ch ∧
      (T'.grid (y + oy) (x + ox)).attr.fg = .default ∧ (T'.grid (y + oy) (x + ox)).attr.bg = .default := by
  intro s T' x y hx hy den
  have hspan : ∀ sp : Span, sp.Plain → ∀ c ∈ sp.cellChars, c = ['\n'] ∨ ∃ st ch r, CellStr c st ch r := by
    intro sp hsp c hc
    have hok : SpanOk env (fun _ => TColor.default) { sp with fg := none, bg := none } :=
      ⟨hsp, by simp, by simp⟩
    by_cases hn : c = ['\n']
    · exact .inl hn
    · exact .inr (hok.cellStr hc hn)
  have hlast : ∀ {c st ch r}, CellStr c st ch r → rstrip (· == '\n') c = c := by
    intro c st ch r h
    unfold rstrip
    have h1 := h.last_ne_newline
    rcases List.eq_nil_or_concat c with rfl | ⟨c', a, rfl⟩
    · rfl
    · rw [List.concat_eq_append] at h1 ⊢
      have := h1 a (by simp)
      simp [this]
  have hI : StrInv Span.Plain False (fun c => c = ['\n'] ∨ ∃ st ch r, CellStr c st ch r) (fun c => ∃ st ch r, CellStr c st ch r) := by
    refine ⟨hspan, ?_, by simp, by simp⟩
    intro c h hne
    obtain ⟨st, ch, r, h⟩ := h.resolve_left hne
    exact ⟨st, ch, r, by rw [hlast h]; exact h⟩
  have hfl : ∀ {f}, PlainFill f → ∃ st ch r, CellStr f st ch r := by
    rintro f ⟨c, rfl, hc⟩
    exact ⟨{}, c, false, by rw [wrapSgr_empty]; rfl, hc⟩
  have hshape : Shape s.width s.height s.cells := runAll_shape env ops _ (resize_shape _ _ _ _ _)
  have hcells := runAll_strInv hI env ops { scr := Screen.init width height cur fill } (resize_shape _ _ _ _ _) hu
    (fun op hop => by
      have := hF op hop
      cases op with
      | clear f => exact hfl this
      | resize a b f k => exact hfl this
      | _ => trivial)
    (by simp [CacheG]) (resize_strInv _ _ _ _ (hfl hfill) (by simp [CellsN])) (.inr ho)
  rw [cellsN_iff] at hcells
  -- the reading of the cells
  have hread : ∀ i : Nat, ∃ t : Style × Char × Bool, ∀ cell, cellAt s.cells (i % s.width) (i / s.width) = some cell →
      CellStr cell.char t.1 t.2.1 t.2.2 := by
    intro i
    cases h : cellAt s.cells (i % s.width) (i / s.width) with
    | none => exact ⟨({}, ' ', false), by simp⟩
    | some cell =>
      obtain ⟨a, b, c, h'⟩ := hcells _ _ cell h
      exact ⟨(a, b, c), fun cell' e => by cases e; exact h'⟩
  choose t ht using hread
  have hidx : ∀ x y, x < s.width → (y * s.width + x) % s.width = x ∧ (y * s.width + x) / s.width = y := by
    intro x y hx
    constructor
    · rw [Nat.mul_comm, Nat.mul_add_mod, Nat.mod_eq_of_lt hx]
    · rw [Nat.mul_comm, Nat.mul_add_div (by omega), Nat.div_eq_of_lt hx, Nat.add_zero]
  obtain ⟨h1, -⟩ := C15_exact_partial ox oy hox hoy s hshape (fun i => (t i).1) (fun i => (t i).2.1) (fun i => (t i).2.2)
    (fun x y cell h => by
      have hb := hshape.cellAt_isSome.mp (Option.isSome_iff_exists.mpr ⟨cell, h⟩)
      obtain ⟨e1, e2⟩ := hidx x y hb.1
      exact ht (y * s.width + x) cell (by rw [e1, e2]; exact h)) T hT
  obtain ⟨g1, -, g3⟩ := h1 x y hx hy
  obtain ⟨cell, hc⟩ := hshape.exists_cell hx hy
  refine ⟨cell, hc, ?_, g3 (by rw [hp]; exact ⟨rfl, rfl⟩)⟩
  obtain ⟨e1, e2⟩ := hidx x y hx
  have := (ht (y * s.width + x) cell (by rw [e1, e2]; exact hc)).glyph den
  rw [g1, this]

/-- A red word and a bold blue one; the hypotheses hold. -/
example :
    let ops : List Api := [.clear ['.'], .write [{ text := "ab".toList, fg := some { r := 200, g := 0, b := 0 } },
      { text := "cd".toList, style := { bold := true }, bg := some { r := 0, g := 0, b := 200, isBg := true } }] (some (0, 0)) Color.black false]
    (∀ op ∈ ops, op.Uses Span.Plain fun _ => True) ∧ (∀ op ∈ ops, op.Fills PlainFill) ∧
    (Api.runAll {} { scr := Screen.init 3 2 } ops).scr.offset = 0 := by
  refine ⟨?_, ?_, by decide +kernel⟩
  · simp [Api.Uses, Span.Plain, Printable]
  · simp [Api.Fills, PlainFill, Printable]

end Slate
