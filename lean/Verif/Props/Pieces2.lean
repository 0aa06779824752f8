import Verif.Props.Pieces
import Verif.Props.Drift
import Verif.Props.Corner
import Verif.Props.Roles

/-!
# Where the division into spans matters, for all texts (C106), and colours in the wrong role (C97)
-/

namespace Slate
open Py Term

/-- C106 is violated on every scrolled screen, for every text of at least two characters that fits: written as one span, its character `j ≥ 1`
is in its cell; written as a list of one-character spans, the cell is left as it was. -/
theorem C106_scrolls_violated (env : Color.Env) (width height : Nat) (cur : Int × Int) (fill : Str) (ops : List Api) (s : Span)
    (hnl : '\n' ∉ s.text) (hop : ∀ b, s.bg = some b → b.alpha = 1) (tb : Color) (force : Bool) (x : Nat) (y : Int) (j : Nat) (c : Char)
    (hj : s.text[j]? = some c) (hj0 : 0 < j) :
    let w := Api.runAll env { scr := Screen.init width height cur fill } ops
    let row := (y - w.scr.offset).toNat
    x + s.text.length ≤ w.scr.width → w.scr.offset ≤ y → y < w.scr.offset + w.scr.height → 0 < w.scr.offset →
    (∃ old, cellAt w.scr.cells (x + j) row = some old ∧
      cellAt (write env [s] (some ((x : Int), y)) tb force w).1.scr.cells (x + j) row =
        some (if (storedCell s (styledChar s j c)).eq old then old else storedCell s (styledChar s j c))) ∧
    cellAt (write env s.items (some ((x : Int), y)) tb force w).1.scr.cells (x + j) row = cellAt w.scr.cells (x + j) row := by
  intro w row hfit hy1 hy2 ho
  have hlen : j < s.text.length := by
    by_contra hh
    rw [List.getElem?_eq_none (by omega)] at hj
    cases hj
  have hrow : (row : Int) = y - w.scr.offset := by
    show (((y - w.scr.offset).toNat : Nat) : Int) = _
    omega
  constructor
  · have h1 := (C16_drift_partial env width height cur fill ops [s] (by
      intro t ht
      rw [List.mem_singleton.mp ht]
      exact ⟨hnl, by rintro e; rw [e] at hlen; simp at hlen⟩) (by
      intro t ht
      rw [List.mem_singleton.mp ht]
      exact hop) tb force x y (by simpa using hfit) hy1 hy2).2.2.1 0 s j c row rfl hj (by simp only [Nat.cast_zero, zero_mul, sub_zero]; exact hrow)
    rwa [lengthBefore_zero, Nat.add_zero] at h1
  · have hk : s.items[j]? = some (s.mutate { text := some [c] }) := by
      unfold Span.items
      rw [List.getElem?_map, hj]
      rfl
    have hsum : ∀ l : Str, ((l.map fun c => s.mutate { text := some [c] }).map fun t : Span => t.text.length).sum = l.length := by
      intro l
      induction l with
      | nil => rfl
      | cons a l ih =>
        rw [List.map_cons, List.map_cons, List.sum_cons, ih, List.length_cons]
        show 1 + _ = _
        omega
    have hb : lengthBefore s.items j = j := by
      unfold lengthBefore Span.items
      rw [← List.map_take, hsum, List.length_take]
      omega
    have h2 := C16_lines_violated env width height cur fill ops s.items (by
      intro t ht
      obtain ⟨a, ha, rfl⟩ := List.mem_map.mp ht
      refine ⟨?_, by simp [Span.mutate]⟩
      show '\n' ∉ [a]
      intro hm
      exact hnl (List.mem_singleton.mp hm ▸ ha)) (by
      intro t ht
      obtain ⟨a, ha, rfl⟩ := List.mem_map.mp ht
      exact hop) tb force x y j _ 0 hk hj0 (by simp [Span.mutate]) (by
      show x + ((s.text.map fun c => s.mutate { text := some [c] }).map fun t : Span => t.text.length).sum ≤ _
      rw [hsum]; exact hfit) hy1 hy2 ho
    rwa [hb] at h2

/-- A word in the last row of a screen that has scrolled by one row. -/
example : let w := Api.runAll {} { scr := Screen.init 3 2 } [.write [{ text := ['x'] }] (some (0, 2)) Color.black false]
    w.scr.offset = 1 ∧ (cellAt (write {} [{ text := "ab".toList }] (some (0, 2)) Color.black false w).1.scr.cells 1 1).map (·.char) = some ['b'] := by
  decide +kernel

/-- C106 is violated by every text that is too long for the rest of the screen: as one span it is cut off, divided at the last cell it scrolls. -/
theorem C106_corners_violated (env : Color.Env) (tb : Color) (force : Bool) (w : World)
    (hs : Shape w.scr.width w.scr.height w.scr.cells) (hok : CacheOk w.cache) (h0 : w.scr.offset = 0) (x y : Nat) (hx : x < w.scr.width)
    (hy : y < w.scr.height) (s : Span) (hnl : '\n' ∉ s.text) (hop : ∀ b, s.bg = some b → b.alpha = 1) (n : Nat)
    (hn : y * w.scr.width + x + n = w.scr.height * w.scr.width) (hlong : n < s.text.length) :
    attributed [s.slice none (some n), s.slice (some n) none] = attributed [s] ∧
    (write env [s] (some ((x : Int), (y : Int))) tb force w).1.scr.offset = 0 ∧
    0 < (write env [s.slice none (some n), s.slice (some n) none] (some ((x : Int), (y : Int))) tb force w).1.scr.offset := by
  refine ⟨attributed_slices s n, ?_, ?_⟩
  · exact (C05_placement_partial env tb force w hs hok h0 x y hx hy [s] (by
      intro t ht; rw [List.mem_singleton.mp ht]; exact hnl) (by
      intro t ht; rw [List.mem_singleton.mp ht]; exact hop) (by intro a b r he; simp at he)).2.1
  · have ht : (s.slice none (some (n : Int))).text = s.text.take n := by
      simp only [Span.slice, Span.mutate, Option.getD_some, Span.sliceStr, List.drop_zero, Span.sliceBound]
      rw [if_neg (by omega), Int.toNat_natCast, Nat.min_eq_left (Nat.le_of_lt hlong)]
    refine (C05_corner_violated env tb force w hs hok h0 x y hx hy _ _ [] ?_ ?_).1
    · rw [ht]
      exact fun h => hnl (List.mem_of_mem_take h)
    · rw [ht, List.length_take, Nat.min_eq_left (Nat.le_of_lt hlong)]
      exact hn

/-- Six characters on four cells. -/
example : let w : World := { scr := Screen.init 2 2 }
    Shape w.scr.width w.scr.height w.scr.cells ∧ 0 * w.scr.width + 0 + 4 = w.scr.height * w.scr.width ∧ 4 < "abcdef".length :=
  ⟨resize_shape _ 2 2 [' '] true, by decide, by decide⟩

/-- C106 is violated for single spans written to the last cell: given as a list the span is cut off, given as it is it scrolls, if it has
more than one character. -/
theorem C106_singles_violated (env : Color.Env) (bg : Color) (w : World)
    (hs : Shape w.scr.width w.scr.height w.scr.cells) (hok : CacheOk w.cache) (h0 : w.scr.offset = 0) (x y : Nat)
    (hx : x + 1 = w.scr.width) (hy : y + 1 = w.scr.height) (s : Span) (hnl : '\n' ∉ s.text) (hop : ∀ b, s.bg = some b → b.alpha = 1)
    (hlong : 1 < s.text.length) :
    (Terminal.write env (.spans [s]) (some ((x : Int), (y : Int))) bg w).1.scr.offset = 0 ∧
    0 < (Terminal.write env (.span s) (some ((x : Int), (y : Int))) bg w).1.scr.offset := by
  have hcorner : y * w.scr.width + x + 1 = w.scr.height * w.scr.width := by
    rw [← hy, Nat.add_mul, Nat.one_mul]; omega
  rw [C106_single env s _ bg false, terminal_write_spans env [s] _ bg false]
  constructor
  · exact (C05_placement_partial env bg false w hs hok h0 x y (by omega) (by omega) [s] (by
      intro t ht; rw [List.mem_singleton.mp ht]; exact hnl) (by
      intro t ht; rw [List.mem_singleton.mp ht]; exact hop) (by intro a b r he; simp at he)).2.1
  · rcases hst : s.text with _ | ⟨a, _ | ⟨b, t⟩⟩
    · rw [hst] at hlong; simp at hlong
    · rw [hst] at hlong; simp at hlong
    · have e : s.items = s.mutate { text := some [a] } :: s.mutate { text := some [b] } :: t.map fun c => s.mutate { text := some [c] } := by
        unfold Span.items; rw [hst]; rfl
      rw [e]
      refine (C05_corner_violated env bg false w hs hok h0 x y (by omega) (by omega) _ _ _ ?_ ?_).1
      · show '\n' ∉ [a]
        intro hm
        exact hnl (by rw [hst, List.mem_singleton.mp hm]; simp)
      · exact hcorner

/-- What a fresh screen holds after a write that fits into a row. -/
theorem fresh_cell (env : Color.Env) (tb : Color) (force : Bool) (width height : Nat) (cur : Int × Int) (fill : Str) (x y : Nat)
    (hy : y < height) (spans : List Span) (hn : ∀ s ∈ spans, '\n' ∉ s.text ∧ s.text ≠ []) (hop : ∀ s ∈ spans, ∀ b, s.bg = some b → b.alpha = 1)
    (hfit : x + (spans.map Span.len).sum ≤ width) (pre : List Span) (s : Span) (post : List Span) (hsp : spans = pre ++ s :: post) (j : Nat) (c : Char)
    (hj : s.text[j]? = some c) :
    cellAt (write env spans (some ((x : Int), (y : Int))) tb force { scr := Screen.init width height cur fill }).1.scr.cells
      (x + (pre.map Span.len).sum + j) y = some (storedCell s (styledChar s j c)) := by
  have hlen : j < s.text.length := by
    by_contra hh
    rw [List.getElem?_eq_none (by omega)] at hj
    cases hj
  have hin : x + (pre.map Span.len).sum + j < width := by
    rw [hsp, List.map_append, List.sum_append, List.map_cons, List.sum_cons] at hfit
    have : s.len = s.text.length := rfl
    omega
  have hrow : y * width + width ≤ height * width := by
    calc y * width + width = (y + 1) * width := by ring
      _ ≤ height * width := Nat.mul_le_mul_right _ hy
  obtain ⟨-, -, hcell, -⟩ := C05_placement_partial env tb force { scr := Screen.init width height cur fill } (resize_shape _ width height fill true)
    (by intro e he; simp at he) rfl x y (show x < width by omega) hy spans (fun s hs => (hn s hs).1) hop (by
      intro a b rest he
      rw [he, List.map_cons, List.map_cons, List.sum_cons, List.sum_cons] at hfit
      have h1 : a.len = a.text.length := rfl
      have h2 : 0 < b.len := List.length_pos_of_ne_nil (hn b (by rw [he]; simp)).2
      show y * width + x + a.text.length ≠ height * width
      omega)
  obtain ⟨old, h1, h2⟩ := hcell pre s post hsp j c hj (show y * width + x + (pre.map Span.len).sum + j < height * width by omega)
  have hw : 0 < width := by omega
  have hi : y * width + x + (pre.map Span.len).sum + j = y * width + (x + (pre.map Span.len).sum + j) := by omega
  have hmod : (y * width + (x + (pre.map Span.len).sum + j)) % width = x + (pre.map Span.len).sum + j := by
    rw [Nat.mul_comm, Nat.mul_add_mod, Nat.mod_eq_of_lt hin]
  have hdiv : (y * width + (x + (pre.map Span.len).sum + j)) / width = y := by
    rw [Nat.mul_comm, Nat.mul_add_div hw, Nat.div_eq_of_lt hin, Nat.add_zero]
  have h1' : cellAt (Screen.init width height cur fill).cells ((y * width + x + (pre.map Span.len).sum + j) % width)
      ((y * width + x + (pre.map Span.len).sum + j) / width) = some old := h1
  have h2' : cellAt (write env spans (some ((x : Int), (y : Int))) tb force { scr := Screen.init width height cur fill }).1.scr.cells
      ((y * width + x + (pre.map Span.len).sum + j) % width) ((y * width + x + (pre.map Span.len).sum + j) / width) =
      some (if (storedCell s (styledChar s j c)).eq old then old else storedCell s (styledChar s j c)) := h2
  rw [hi, hmod, hdiv] at h1' h2'
  rw [init_cellAt width height cur fill _ y hin hy] at h1'
  injection h1' with h1'
  rw [h2', ← h1']
  have hne : (storedCell s (styledChar s j c)).eq { char := fill } = false := by
    unfold storedCell Cell.eq
    cases s.fg with
    | none => simp [Span.optEq]
    | some f =>
      simp only
      split_ifs <;> cases s.bg <;> simp [Span.optEq]
  rw [hne]
  rfl

/-- C106 is violated by every styled span that does not reset: its last character is stored without the style, while the same character
as a piece of its own has it. -/
theorem C106_resets_violated (env : Color.Env) (tb : Color) (force : Bool) (width height : Nat) (cur : Int × Int) (fill : Str) (x y : Nat)
    (hy : y < height) (s : Span) (hnl : '\n' ∉ s.text) (hop : ∀ b, s.bg = some b → b.alpha = 1) (hfit : x + s.text.length ≤ width)
    (hr : s.resetAfter = false) (hst : wrapSgr s.style.colorless ≠ []) (rest : Str) (c : Char) (ht : s.text = rest ++ [c]) :
    let w : World := { scr := Screen.init width height cur fill }
    attributed s.items = attributed [s] ∧
    (cellAt (write env [s] (some ((x : Int), (y : Int))) tb force w).1.scr.cells (x + rest.length) y).map (·.char) = some [c] ∧
    (cellAt (write env s.items (some ((x : Int), (y : Int))) tb force w).1.scr.cells (x + rest.length) y).map (·.char) =
      some (wrapSgr s.style.colorless ++ [c] ++ "\x1b[0m".toList) := by
  intro w
  refine ⟨attributed_items s, ?_, ?_⟩
  · have h := fresh_cell env tb force width height cur fill x y hy [s] (by
      intro t hm
      rw [List.mem_singleton.mp hm]
      exact ⟨hnl, by rw [ht]; simp⟩) (by
      intro t hm
      rw [List.mem_singleton.mp hm]
      exact hop) (by simpa [Span.len] using hfit) [] s [] rfl rest.length c (by rw [ht]; simp)
    simp only [List.map_nil, List.sum_nil, Nat.add_zero] at h
    rw [h]
    have hs : styledChar s rest.length c = [c] := by
      unfold styledChar
      rw [ht]
      simp [hr]
    rw [hs]
    rfl
  · have hsum : ∀ l : Str, ((l.map fun c => s.mutate { text := some [c] }).map Span.len).sum = l.length := by
      intro l
      induction l with
      | nil => rfl
      | cons a l ih =>
        rw [List.map_cons, List.map_cons, List.sum_cons, ih, List.length_cons]
        show 1 + _ = _
        omega
    have h := fresh_cell env tb force width height cur fill x y hy s.items (by
      intro t hm
      obtain ⟨a, ha, rfl⟩ := List.mem_map.mp hm
      refine ⟨?_, by simp [Span.mutate]⟩
      show '\n' ∉ [a]
      intro hm
      exact hnl (List.mem_singleton.mp hm ▸ ha)) (by
      intro t hm
      obtain ⟨a, ha, rfl⟩ := List.mem_map.mp hm
      exact hop) (by unfold Span.items; rw [hsum]; exact hfit) (rest.map fun c => s.mutate { text := some [c] }) (s.mutate { text := some [c] }) []
      (by unfold Span.items; rw [ht, List.map_append]; rfl) 0 c rfl
    rw [hsum, Nat.add_zero] at h
    rw [h]
    have hs : styledChar (s.mutate { text := some [c] }) 0 c = wrapSgr s.style.colorless ++ [c] ++ "\x1b[0m".toList := by
      unfold styledChar
      have e : (s.mutate { text := some [c] }).style = s.style := rfl
      have e2 : (s.mutate { text := some [c] }).resetAfter = true := rfl
      have e3 : (s.mutate { text := some [c] }).text = [c] := rfl
      rw [e, e2, e3]
      simp [hst]
    rw [hs]
    rfl

/-- A bold word. -/
example : let s : Span := { text := "ab".toList, style := { bold := true }, resetAfter := false }
    wrapSgr s.style.colorless ≠ [] ∧ s.text = ['a'] ++ ['b'] := by decide

/-- C97 is violated by every translucent foreground over an opaque background: the background is stored in both places, so that the text is
shown in the default colour of the terminal. -/
theorem C97_translucents_violated (env : Color.Env) (den : Color → TColor) (tb : Color) (force : Bool) (width height : Nat) (cur : Int × Int)
    (fill : Str) (x y : Nat) (hy : y < height) (s : Span) (hnl : '\n' ∉ s.text) (f b : Color) (hf : s.fg = some f) (ha : f.alpha ≠ 1)
    (hb : s.bg = some b) (hop : b.alpha = 1) (hrole : b.isBg = true) (hfit : x + s.text.length ≤ width) (j : Nat) (hj : j < s.text.length) :
    ∃ cell, cellAt (write env [s] (some ((x : Int), (y : Int))) tb force { scr := Screen.init width height cur fill }).1.scr.cells (x + j) y = some cell ∧
      cell.fg = some b ∧ cell.bg = some b ∧ (cellAttr den cell).fg = .default := by
  have h := fresh_cell env tb force width height cur fill x y hy [s] (by
    intro t hm
    rw [List.mem_singleton.mp hm]
    exact ⟨hnl, by rintro e; rw [e] at hj; simp at hj⟩) (by
    intro t hm
    rw [List.mem_singleton.mp hm]
    intro b' hb'
    rw [hb] at hb'
    injection hb' with hb'
    rw [← hb']; exact hop) (by simpa [Span.len] using hfit) [] s [] rfl j s.text[j] (List.getElem?_eq_getElem hj)
  simp only [List.map_nil, List.sum_nil, Nat.add_zero] at h
  refine ⟨_, h, ?_, hb, ?_⟩
  · simp [storedCell, hf, ha, hb]
  · simp only [cellAttr, storedCell, hf, ha, hb, if_false, Option.or, paintOpt, hrole, paint, if_true]
    rfl

/-- Half transparent red on blue. -/
example : ∃ f b : Color, f.alpha ≠ 1 ∧ b.alpha = 1 ∧ b.isBg = true :=
  ⟨{ r := 255, g := 0, b := 0, alpha := 1 / 2 }, { r := 0, g := 0, b := 90, isBg := true }, by norm_num, rfl, rfl⟩

end Slate
