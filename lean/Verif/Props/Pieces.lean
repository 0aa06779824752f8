import Verif.Props.Breaks
import Verif.Props.Terminal

/-!
# How a text is divided into spans does not matter (C106)
-/

namespace Slate
open Py Term

/-- A character with its attributes. -/
structure Attributed where
  char : Char
  style : Style
  fg : Option Color
  bg : Option Color

/-- The characters of a line with their attributes, regardless of how it is divided into spans. -/
def attributed (spans : List Span) : List Attributed :=
  spans.flatMap fun s => s.text.map fun c => { char := c, style := s.style, fg := s.fg, bg := s.bg }

/-- A cell holds a character in a style: the codes of the style, the character, and possibly a reset. -/
def Holds (cell : Cell) (st : Style) (c : Char) : Prop :=
  cell.char = wrapSgr st.colorless ++ [c] ∨ cell.char = wrapSgr st.colorless ++ c :: "\x1b[0m".toList

/-- Two cells are the same, or hold the same character in the same style and in equal colours. -/
def SameContent (a b : Cell) : Prop :=
  a = b ∨ ∃ st c, Holds a st c ∧ Holds b st c ∧ Span.optEq a.fg b.fg = true ∧ Span.optEq a.bg b.bg = true

/-- `list(span)` is what the indices give. -/
theorem Span.items_getElem? (s : Span) (i : Nat) : s.items[i]? = (match s.item i with | .ok t => some t | .error _ => none) := by
  unfold Span.items Span.item
  rw [List.getElem?_map]
  have h : ¬ ((i : Int) < 0) := by omega
  simp only [h, if_false, Int.toNat_natCast]
  cases s.text[i]? <;> rfl

theorem attributed_index (spans : List Span) : ∀ (n : Nat) (a : Attributed), (attributed spans)[n]? = some a →
    ∃ pre s post j, spans = pre ++ s :: post ∧ s.text[j]? = some a.char ∧ s.style = a.style ∧ s.fg = a.fg ∧ s.bg = a.bg ∧
      pre.flatMap Span.text ++ s.text.take j = ((attributed spans).map Attributed.char).take n := by
  induction spans with
  | nil => intro n a h; simp [attributed] at h
  | cons s rest ih =>
    intro n a h
    have e : attributed (s :: rest) = (s.text.map fun c => { char := c, style := s.style, fg := s.fg, bg := s.bg }) ++ attributed rest := rfl
    have em : (s.text.map fun c => ({ char := c, style := s.style, fg := s.fg, bg := s.bg } : Attributed)).map Attributed.char = s.text := by
      rw [List.map_map]; exact List.map_id _
    rw [e] at h ⊢
    rw [List.map_append, em]
    by_cases hn : n < s.text.length
    · rw [List.getElem?_append_left (by simpa using hn), List.getElem?_map] at h
      obtain ⟨c, hc, ha⟩ := Option.map_eq_some_iff.mp h
      subst ha
      refine ⟨[], s, rest, n, rfl, hc, rfl, rfl, rfl, ?_⟩
      rw [List.take_append_of_le_length (by omega)]
      rfl
    · rw [List.getElem?_append_right (by simpa using hn)] at h
      obtain ⟨pre, t, post, j, h1, h2, h3, h4, h5, h6⟩ := ih _ a h
      refine ⟨s :: pre, t, post, j, by rw [h1]; rfl, h2, h3, h4, h5, ?_⟩
      rw [List.flatMap_cons, List.append_assoc, h6, List.take_append, List.take_of_length_le (l := s.text) (by omega)]
      simp

theorem attributed_mem {spans pre post : List Span} {s : Span} {j : Nat} {c : Char} (h : spans = pre ++ s :: post) (hj : s.text[j]? = some c) :
    ∃ n, (attributed spans)[n]? = some { char := c, style := s.style, fg := s.fg, bg := s.bg } ∧
      pre.flatMap Span.text ++ s.text.take j = ((attributed spans).map Attributed.char).take n := by
  have em : ∀ l : List Span, (attributed l).map Attributed.char = l.flatMap Span.text := by
    intro l
    induction l with
    | nil => rfl
    | cons s l ih =>
      have e : attributed (s :: l) = (s.text.map fun c => { char := c, style := s.style, fg := s.fg, bg := s.bg }) ++ attributed l := rfl
      rw [e, List.map_append, ih, List.map_map, List.flatMap_cons]
      congr 1
      exact List.map_id _
  have hlt : j < s.text.length := (List.getElem?_eq_some_iff.mp hj).1
  have hl : (attributed pre).length = (pre.flatMap Span.text).length := by rw [← em, List.length_map]
  refine ⟨(attributed pre).length + j, ?_, ?_⟩
  · have e : attributed spans = attributed pre ++ ((s.text.map fun c => { char := c, style := s.style, fg := s.fg, bg := s.bg }) ++ attributed post) := by
      rw [h]; simp [attributed]
    rw [e, List.getElem?_append_right (by omega), Nat.add_sub_cancel_left, List.getElem?_append_left (by simpa using hlt), List.getElem?_map, hj]
    rfl
  · rw [em, h, List.flatMap_append, List.flatMap_cons, hl, List.take_length_add_append, List.take_append_of_le_length (by omega)]

theorem optEq_symm {a b : Option Color} (h : Span.optEq a b = true) : Span.optEq b a = true := by
  cases a <;> cases b <;> simp_all [Span.optEq, Color.eq]

theorem optEq_trans {a b c : Option Color} (h : Span.optEq a b = true) (h' : Span.optEq b c = true) : Span.optEq a c = true := by
  cases a <;> cases b <;> cases c <;> simp_all [Span.optEq, Color.eq]

theorem optEq_refl (a : Option Color) : Span.optEq a a = true := by
  cases a <;> simp [Span.optEq, Color.eq]

theorem holds_styledChar {s : Span} {j : Nat} {c : Char} (hr : s.resetAfter = true ∨ s.style = {}) :
    Holds (storedCell s (styledChar s j c)) s.style c := by
  unfold Holds
  simp only [storedCell, styledChar]
  split_ifs with h1 h2
  · exact .inl rfl
  · exact .inr (by simp)
  · have : wrapSgr s.style.colorless = [] := by
      rcases hr with hr | hr
      · by_contra hh; exact h2 ⟨hh, hr⟩
      · rw [hr]; rfl
    exact .inl (by rw [this]; rfl)

theorem storedCell_colors {s t : Span} (hf : s.fg = t.fg) (hb : s.bg = t.bg) (a b : Str) :
    (storedCell s a).fg = (storedCell t b).fg ∧ (storedCell s a).bg = (storedCell t b).bg := by
  simp [storedCell, hf, hb]

/-- The cell after the comparison with the previous one. -/
theorem stored_or_old {s : Span} {st : Style} {c : Char} {str : Str} {old : Cell} (h : Holds (storedCell s str) st c) :
    let new := if (storedCell s str).eq old then old else storedCell s str
    Holds new st c ∧ Span.optEq (storedCell s str).fg new.fg = true ∧ Span.optEq (storedCell s str).bg new.bg = true := by
  intro new
  by_cases he : (storedCell s str).eq old = true
  · have hn : new = old := if_pos he
    rw [hn]
    simp only [Cell.eq, Bool.and_eq_true, decide_eq_true_eq] at he
    refine ⟨?_, he.1.2, he.2⟩
    unfold Holds at h ⊢
    rwa [← he.1.1]
  · have hn : new = storedCell s str := if_neg he
    rw [hn]
    exact ⟨h, optEq_refl _, optEq_refl _⟩

theorem pieces_core (env : Color.Env) (tb : Color) (force : Bool) (w : World)
    (hs : Shape w.scr.width w.scr.height w.scr.cells) (hok : CacheOk w.cache)
    (h0 : w.scr.offset = 0) (x y : Nat) (hx : x < w.scr.width)
    (line line' : List Span) (hsame : attributed line = attributed line')
    (hline : ∀ s ∈ line ++ line', (s.resetAfter = true ∨ s.style = {}) ∧ (∀ b, s.bg = some b → b.alpha = 1) ∧ ('\n' ∈ s.text → s.style = {}))
    (hns : (write env line (some ((x : Int), (y : Int))) tb force w).1.scr.offset = 0)
    (hns' : (write env line' (some ((x : Int), (y : Int))) tb force w).1.scr.offset = 0)
    (x' y' : Nat) (hx' : x' < w.scr.width) (hy' : y' < w.scr.height) :
    ∃ cell cell' old, cellAt (write env line (some ((x : Int), (y : Int))) tb force w).1.scr.cells x' y' = some cell ∧
      cellAt (write env line' (some ((x : Int), (y : Int))) tb force w).1.scr.cells x' y' = some cell' ∧
      cellAt w.scr.cells x' y' = some old ∧
      (cell = old ∧ cell' = old ∨ ∃ s ∈ line, ∃ s' ∈ line', ∃ j j' c, c ∈ s.text ∧ c ≠ '\n' ∧
        s.style = s'.style ∧ s.fg = s'.fg ∧ s.bg = s'.bg ∧
        cell = (if (storedCell s (styledChar s j c)).eq old then old else storedCell s (styledChar s j c)) ∧
        cell' = (if (storedCell s' (styledChar s' j' c)).eq old then old else storedCell s' (styledChar s' j' c))) := by
  have hw : 0 < w.scr.width := by omega
  obtain ⟨-, a2, a3⟩ := C88_lines_partial env tb force w hs hok h0 x y hx line
    (fun s h => (hline s (by simp [h])).2.1) (fun s h => (hline s (by simp [h])).2.2) hns
  obtain ⟨-, b2, b3⟩ := C88_lines_partial env tb force w hs hok h0 x y hx line'
    (fun s h => (hline s (by simp [h])).2.1) (fun s h => (hline s (by simp [h])).2.2) hns'
  simp only at a2 a3 b2 b3
  obtain ⟨old0, hold0⟩ : ∃ c, cellAt w.scr.cells x' y' = some c := hs.exists_cell hx' hy'
  by_cases hex : ∃ (n : Nat) (a : Attributed), (attributed line)[n]? = some a ∧ a.char ≠ '\n' ∧
      placeAfter w.scr.width x y (((attributed line).map Attributed.char).take n) = y' * w.scr.width + x'
  · obtain ⟨n, a, hn, hc, hp⟩ := hex
    have em : (y' * w.scr.width + x') % w.scr.width = x' := by
      rw [Nat.mul_comm, Nat.mul_add_mod, Nat.mod_eq_of_lt hx']
    have ed : (y' * w.scr.width + x') / w.scr.width = y' := by
      rw [Nat.mul_comm, Nat.mul_add_div hw, Nat.div_eq_of_lt hx', Nat.add_zero]
    have hin : y' * w.scr.width + x' < w.scr.height * w.scr.width := by
      have := Nat.mul_le_mul_right w.scr.width (Nat.succ_le_of_lt hy')
      rw [Nat.succ_mul] at this
      omega
    obtain ⟨pre, s, post, j, e1, e2, e3, e4, e5, e6⟩ := attributed_index line n a hn
    obtain ⟨pre', s', post', j', f1, f2, f3, f4, f5, f6⟩ := attributed_index line' n a (hsame ▸ hn)
    rw [← hsame] at f6
    have A := a2 pre s post e1 j a.char e2 hc
    have B := b2 pre' s' post' f1 j' a.char f2 hc
    rw [e6, hp, em, ed] at A
    rw [f6, hp, em, ed] at B
    obtain ⟨old, ho, hA⟩ := A hin
    obtain ⟨old', ho', hB⟩ := B hin
    rw [ho] at ho'
    injection ho' with ho'
    subst ho'
    exact ⟨_, _, old, hA, hB, ho, .inr ⟨s, by simp [e1], s', by simp [f1], j, j', a.char, List.mem_of_getElem? e2, hc,
      e3.trans f3.symm, e4.trans f4.symm, e5.trans f5.symm, rfl, rfl⟩⟩
  · refine ⟨old0, old0, old0, ?_, ?_, hold0, .inl ⟨rfl, rfl⟩⟩
    · rw [a3 x' y' hx', hold0]
      intro pre s post e j c hj hc hp
      obtain ⟨n, h1, h2⟩ := attributed_mem e hj
      exact hex ⟨n, _, h1, hc, by rw [← h2]; exact hp⟩
    · rw [b3 x' y' hx', hold0]
      intro pre s post e j c hj hc hp
      obtain ⟨n, h1, h2⟩ := attributed_mem e hj
      exact hex ⟨n, _, hsame ▸ h1, hc, by rw [hsame, ← h2]; exact hp⟩

/-- **C106** (partial: on a screen that has scrolled, or if one of the writes scrolls, it does matter, `C106_scrolled_violated` and
`C106_corner_violated`; so does `reset_after=False`, `C106_reset_violated`). If two lines have the same
characters in the same styles and colours, writing one of them leaves the same content in every cell as writing the other. -/
theorem C106_cells_partial (env : Color.Env) (tb : Color) (force : Bool) (w : World)
    (hs : Shape w.scr.width w.scr.height w.scr.cells) (hok : CacheOk w.cache)
    (h0 : w.scr.offset = 0) (x y : Nat) (hx : x < w.scr.width)
    (line line' : List Span) (hsame : attributed line = attributed line')
    (hline : ∀ s ∈ line ++ line', (s.resetAfter = true ∨ s.style = {}) ∧ (∀ b, s.bg = some b → b.alpha = 1) ∧ ('\n' ∈ s.text → s.style = {}))
    (hns : (write env line (some ((x : Int), (y : Int))) tb force w).1.scr.offset = 0)
    (hns' : (write env line' (some ((x : Int), (y : Int))) tb force w).1.scr.offset = 0)
    (x' y' : Nat) (hx' : x' < w.scr.width) (hy' : y' < w.scr.height) :
    ∃ cell cell', cellAt (write env line (some ((x : Int), (y : Int))) tb force w).1.scr.cells x' y' = some cell ∧
      cellAt (write env line' (some ((x : Int), (y : Int))) tb force w).1.scr.cells x' y' = some cell' ∧ SameContent cell cell' := by
  obtain ⟨cell, cell', old, h1, h2, -, h⟩ := pieces_core env tb force w hs hok h0 x y hx line line' hsame hline hns hns' x' y' hx' hy'
  refine ⟨cell, cell', h1, h2, ?_⟩
  rcases h with ⟨rfl, rfl⟩ | ⟨s, hm, s', hm', j, j', c, -, -, e3, e4, e5, rfl, rfl⟩
  · exact .inl rfl
  · refine .inr ⟨s.style, c, ?_⟩
    have hh := stored_or_old (old := old) (holds_styledChar (s := s) (j := j) (c := c) (hline s (by simp [hm])).1)
    have hh' := stored_or_old (old := old) (holds_styledChar (s := s') (j := j') (c := c) (hline s' (by simp [hm'])).1)
    obtain ⟨c1, c2⟩ := storedCell_colors e4 e5 (styledChar s j c) (styledChar s' j' c)
    rw [← e3, ← c1, ← c2] at hh'
    exact ⟨hh.1, hh'.1, optEq_trans (optEq_symm hh.2.1) hh'.2.1, optEq_trans (optEq_symm hh.2.2) hh'.2.2⟩

/-- **C106**, end to end (partial as above): two lines with the same characters in the same styles and colours, written to a
new screen and drawn, look the same on the terminal. -/
theorem C106_draw_partial (env : Color.Env) (den : Color → TColor) (hden : DenOk env den)
    (ox oy : Nat) (hox : 1 ≤ ox) (hoy : 1 ≤ oy) (width height : Nat) (cur : Int × Int) (fill : Char)
    (hfill : Printable fill) (T : State) (hT : T.mode = .ground) (hpen : T.pen = Attr.clean)
    (tb : Color) (force : Bool) (x y : Nat) (hx : x < width)
    (line line' : List Span) (hsame : attributed line = attributed line')
    (hline : ∀ s ∈ line ++ line', SpanOk env den s ∧ (s.resetAfter = true ∨ s.style = {}) ∧ ∀ b, s.bg = some b → b.alpha = 1) :
    let show' (l : List Span) := execAll env (ox, oy) { w := { scr := Screen.init width height cur [fill] }, term := T }
      [.write l (some ((x : Int), (y : Int))) tb force, .draw]
    (show' line).w.scr.offset = 0 → (show' line').w.scr.offset = 0 → ∀ x' y', x' < width → y' < height →
      (show' line).term.grid (y' + oy) (x' + ox) = (show' line').term.grid (y' + oy) (x' + ox) := by
  intro show' ho ho' x' y' hx' hy'
  have hbr : ∀ s ∈ line ++ line', '\n' ∈ s.text → s.style = {} := by
    intro s hs hn
    rcases (hline s hs).1.text _ hn with h | h
    · exact absurd h (by decide)
    · exact h.2
  obtain ⟨cell, cell', old, h1, h2, h3, h⟩ := pieces_core env tb force { scr := Screen.init width height cur [fill] }
    (resize_shape _ width height [fill] true) (by intro e he; simp at he) rfl x y hx line line' hsame
    (fun s hs => ⟨(hline s hs).2.1, (hline s hs).2.2, hbr s hs⟩) ho ho' x' y' hx' hy'
  obtain ⟨d, hd1, hd2⟩ := C01_draw_shows_screen env den hden ox oy hox hoy width height cur fill hfill []
    (by intro e he; simp at he) T hT hpen [.write line (some ((x : Int), (y : Int))) tb force]
    (by intro op hop; simp only [List.mem_singleton] at hop; subst hop; exact fun s hs => (hline s (by simp [hs])).1) ho x' y' hx' hy'
  obtain ⟨d', hd1', hd2'⟩ := C01_draw_shows_screen env den hden ox oy hox hoy width height cur fill hfill []
    (by intro e he; simp at he) T hT hpen [.write line' (some ((x : Int), (y : Int))) tb force]
    (by intro op hop; simp only [List.mem_singleton] at hop; subst hop; exact fun s hs => (hline s (by simp [hs])).1) ho' x' y' hx' hy'
  have e1 : d = cell := by
    have := hd1.symm.trans h1
    injection this
  have e2 : d' = cell' := by
    have := hd1'.symm.trans h2
    injection this
  refine hd2.trans (Eq.trans ?_ hd2'.symm)
  rw [e1, e2]
  have hold : old = { char := [fill] } := by
    have := h3.symm.trans (init_cellAt width height cur [fill] x' y' hx' hy')
    injection this
  rcases h with ⟨rfl, rfl⟩ | ⟨s, hm, s', hm', j, j', c, hc, hcn, e3, e4, e5, rfl, rfl⟩
  · rfl
  · have hne : ∀ (s : Span) (str : Str), (storedCell s str).eq old = false := by
      intro s str
      rw [hold]
      unfold storedCell Cell.eq
      cases s.fg with
      | none => simp [Span.optEq]
      | some f =>
        simp only
        split_ifs <;> cases s.bg <;> simp [Span.optEq]
    have hpr : Printable c := by
      rcases (hline s (by simp [hm])).1.text c hc with h | h
      · exact h
      · exact absurd h.1 hcn
    have glyph : ∀ (s : Span) (j : Nat), (s.resetAfter = true ∨ s.style = {}) →
        cellGlyph den (storedCell s (styledChar s j c)) =
          { ch := c, attr := applyStyle s.style (cellAttr den (storedCell s (styledChar s j c))) } := by
      intro s j hr
      rcases holds_styledChar (s := s) (j := j) (c := c) hr with h | h
      · exact CellStr.glyph (reset := false) ⟨by rw [h]; rfl, hpr⟩ den
      · exact CellStr.glyph (reset := true) ⟨by rw [h]; rfl, hpr⟩ den
    rw [hne, hne]
    simp only [Bool.false_eq_true, if_false]
    rw [glyph s j (hline s (by simp [hm])).2.1, glyph s' j' (hline s' (by simp [hm'])).2.1]
    obtain ⟨c1, c2⟩ := storedCell_colors e4 e5 (styledChar s j c) (styledChar s' j' c)
    unfold cellAttr
    rw [c1, c2, e3]

/-- The items of a span have its characters in its style and colours. -/
theorem attributed_items (s : Span) : attributed s.items = attributed [s] := by
  unfold attributed Span.items
  rw [List.flatMap_map]
  simp only [List.flatMap_cons, List.flatMap_nil, List.append_nil]
  induction s.text with
  | nil => rfl
  | cons c t ih => rw [List.flatMap_cons, ih]; rfl

/-- So have the two parts of a span that is cut by slicing. -/
theorem attributed_slices (s : Span) (k : Int) : attributed [s.slice none (some k), s.slice (some k) none] = attributed [s] := by
  have h : (s.slice none (some k)).text ++ (s.slice (some k) none).text = s.text := by
    simp only [Span.slice, Span.mutate, Option.getD_some, Span.sliceStr, List.drop_zero, List.take_length]
    exact List.take_append_drop _ _
  simp only [attributed, List.flatMap_cons, List.flatMap_nil, List.append_nil]
  rw [← h, List.map_append]
  rfl

/-- **C106** for a single span instead of a list (`terminal.write(span, cursor=…)`): it is written like the list of its
one-character pieces. -/
theorem C106_single (env : Color.Env) (s : Span) (cursor : Option (Int × Int)) (bg : Color) (force : Bool) (w : World) :
    Terminal.write env (.span s) cursor bg w = Slate.write env s.items cursor bg force w := by
  rw [← terminal_write_spans env s.items cursor bg force w]
  cases cursor <;> rfl

/-- **C106** (partial: not in the bottom right corner, `C106_single_violated`): a single span without line breaks, written at a
position of a screen that has not scrolled, leaves the same content in every cell as a list with that span. -/
theorem C106_single_partial (env : Color.Env) (bg : Color) (w : World)
    (hs : Shape w.scr.width w.scr.height w.scr.cells) (hok : CacheOk w.cache)
    (h0 : w.scr.offset = 0) (x y : Nat) (hx : x < w.scr.width) (hy : y < w.scr.height)
    (hcorner : ¬ (x + 1 = w.scr.width ∧ y + 1 = w.scr.height))
    (s : Span) (hr : s.resetAfter = true ∨ s.style = {}) (hop : ∀ b, s.bg = some b → b.alpha = 1) (hnl : '\n' ∉ s.text)
    (x' y' : Nat) (hx' : x' < w.scr.width) (hy' : y' < w.scr.height) :
    ∃ cell cell', cellAt (Terminal.write env (.span s) (some ((x : Int), (y : Int))) bg w).1.scr.cells x' y' = some cell ∧
      cellAt (Terminal.write env (.spans [s]) (some ((x : Int), (y : Int))) bg w).1.scr.cells x' y' = some cell' ∧ SameContent cell cell' := by
  rw [C106_single env s _ bg false w, terminal_write_spans env [s] _ bg false w]
  have hitem : ∀ t ∈ s.items, ∃ c ∈ s.text, t = s.mutate { text := some [c] } := by
    intro t ht
    obtain ⟨c, hc, e⟩ := List.mem_map.mp ht
    exact ⟨c, hc, e.symm⟩
  have hi : y * w.scr.width + x < w.scr.height * w.scr.width := by
    have := Nat.mul_le_mul_right w.scr.width (Nat.succ_le_of_lt hy)
    rw [Nat.succ_mul] at this
    omega
  refine C106_cells_partial env bg false w hs hok h0 x y hx s.items [s] (attributed_items s) ?_ ?_ ?_ x' y' hx' hy'
  · intro t ht
    rcases List.mem_append.mp ht with ht | ht
    · obtain ⟨c, hc, rfl⟩ := hitem t ht
      refine ⟨.inl rfl, hop, fun h => absurd ?_ hnl⟩
      have h' : '\n' ∈ [c] := h
      rw [List.mem_singleton.mp h']
      exact hc
    · rw [List.mem_singleton.mp ht]
      exact ⟨hr, hop, fun h => absurd h hnl⟩
  · refine (C05_placement_partial env bg false w hs hok h0 x y hx hy s.items ?_ ?_ ?_).2.1
    · intro t ht h
      obtain ⟨c, hc, rfl⟩ := hitem t ht
      have h' : '\n' ∈ [c] := h
      exact hnl (by rw [List.mem_singleton.mp h']; exact hc)
    · intro t ht
      obtain ⟨c, hc, rfl⟩ := hitem t ht
      exact hop
    · intro a t rest he
      obtain ⟨c, hc, rfl⟩ := hitem a (by rw [he]; simp)
      intro hcc
      have hcc : y * w.scr.width + x + 1 = w.scr.height * w.scr.width := hcc
      apply hcorner
      by_cases hyy : y + 1 = w.scr.height
      · rw [← hyy, Nat.succ_mul] at hcc
        exact ⟨by omega, hyy⟩
      · have := Nat.mul_le_mul_right w.scr.width (show y + 2 ≤ w.scr.height by omega)
        rw [Nat.add_mul] at this
        omega
  · exact (C05_placement_partial env bg false w hs hok h0 x y hx hy [s] (by simpa using hnl) (by simpa using hop) (by simp)).2.1

/-- **C106 violated** on a screen that has scrolled by one row: "ab" is written to the last row, "a" and "b" are written to different rows. -/
theorem C106_scrolled_violated :
    let w : World := { scr := { Screen.init 3 3 with offset := 1 } }
    let s : Span := { text := "ab".toList }
    let r := write {} [s] (some (0, 3)) Color.black false w
    let r' := write {} s.items (some (0, 3)) Color.black false w
    attributed s.items = attributed [s] ∧
    (cellAt r.1.scr.cells 1 2).map (·.char) = some "b".toList ∧ (cellAt r'.1.scr.cells 1 2).map (·.char) = some " ".toList ∧
    (cellAt r'.1.scr.cells 1 1).map (·.char) = some "b".toList ∧ r.1.scr.offset = 1 ∧ r'.1.scr.offset = 1 :=
  ⟨attributed_items _, by decide +kernel⟩

/-- That screen exists: it is the one after a write below the last row. -/
example : (write {} [{ text := "x".toList }] (some (0, 3)) Color.black false { scr := Screen.init 3 3 }).1.scr.offset = 1 := by
  decide +kernel

/-- **C106 violated** at the end of the screen: a text that does not fit is cut off, its two halves scroll the screen. -/
theorem C106_corner_violated :
    let w : World := { scr := Screen.init 2 2 }
    let s : Span := { text := "abcdef".toList }
    let r := write {} [s] (some (0, 0)) Color.black false w
    let r' := write {} [s.slice none (some 4), s.slice (some 4) none] (some (0, 0)) Color.black false w
    attributed [s.slice none (some 4), s.slice (some 4) none] = attributed [s] ∧
    r.1.scr.offset = 0 ∧ r'.1.scr.offset = 1 ∧
    (cellAt r.1.scr.cells 0 1).map (·.char) = some "c".toList ∧ (cellAt r'.1.scr.cells 0 1).map (·.char) = some "e".toList :=
  ⟨attributed_slices _ _, by decide +kernel⟩

/-- **C106 violated** by a single span of at least two characters in the bottom right corner: the screen scrolls, which it does not if the span
is in a list. -/
theorem C106_single_violated :
    let w : World := { scr := Screen.init 2 2 }
    let s : Span := { text := "ab".toList }
    (Terminal.write {} (.span s) (some (1, 1)) Color.black w).1.scr.offset = 1 ∧
    (Terminal.write {} (.spans [s]) (some (1, 1)) Color.black w).1.scr.offset = 0 := by decide +kernel

/-- **C106 violated** by `reset_after=False`: the last character of the span is not bold if the span is in a list, and bold if it is written alone. -/
theorem C106_reset_violated :
    let w : World := { scr := Screen.init 4 2 }
    let s : Span := { text := "ab".toList, style := { bold := true }, resetAfter := false }
    let r := write {} [s] (some (0, 0)) Color.black false w
    let r' := write {} s.items (some (0, 0)) Color.black false w
    attributed s.items = attributed [s] ∧
    (cellAt r.1.scr.cells 1 0).map (·.char) = some "b".toList ∧
    (cellAt r'.1.scr.cells 1 0).map (·.char) = some "\x1b[1mb\x1b[0m".toList :=
  ⟨attributed_items _, by decide +kernel⟩

/-- A bold text in two divisions, over the end of a row. The stored strings differ, in the resets only. -/
example : let w : World := { scr := Screen.init 3 2 }
    let s : Span := { text := "abcde".toList, style := { bold := true } }
    let r := write {} [s] (some (1, 0)) Color.black false w
    let r' := write {} s.items (some (1, 0)) Color.black false w
    r.1.scr.offset = 0 ∧ r'.1.scr.offset = 0 ∧
    (cellAt r.1.scr.cells 0 1).map (·.char) = some "\x1b[1mc".toList ∧
    (cellAt r'.1.scr.cells 0 1).map (·.char) = some "\x1b[1mc\x1b[0m".toList := by decide +kernel

end Slate
