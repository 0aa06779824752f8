import Verif.Props.Layout
import Verif.Props.Breaks2

/-!
# C124: every text with a second line lands elsewhere if it is styled
-/

namespace Slate
open Py

/-- A styled text that ends with a reset and fits into its row leaves all other rows alone, whatever line breaks it has. -/
theorem styled_row (env : Color.Env) (tb : Color) (force : Bool) (w : World)
    (hs : Shape w.scr.width w.scr.height w.scr.cells) (hok : CacheOk w.cache)
    (h0 : w.scr.offset = 0) (x y : Nat) (hy : y < w.scr.height) (s : Span) (hst : s.style ≠ {}) (hr : s.resetAfter = true)
    (hop : ∀ b, s.bg = some b → b.alpha = 1) (hx0 : x < w.scr.width) (hx : x + s.text.length ≤ w.scr.width) (x' y' : Nat) (hx' : x' < w.scr.width)
    (hne : y' ≠ y) :
    cellAt (write env [s] (some ((x : Int), (y : Int))) tb force w).1.scr.cells x' y' = cellAt w.scr.cells x' y' := by
  obtain ⟨-, -, h3⟩ := C88_exact_partial env tb force w hs hok h0 x y hx0 [s]
    (by intro t hm; rw [List.mem_singleton] at hm; subst hm; exact hop) (C88_no_scroll env tb force w hs h0 x y hy s)
  refine h3 x' y' hx' fun pre t post e j hj _ hi => ?_
  have hpre : pre = [] ∧ t = s := by
    cases pre with
    | nil => simp at e; exact ⟨rfl, e.1.symm⟩
    | cons a l => simp at e
  obtain ⟨rfl, rfl⟩ := hpre
  have hnf : ∀ k, ¬ Falls t k := by
    rintro k ⟨-, h | ⟨-, h⟩⟩
    · exact hst h
    · rw [hr] at h; cases h
  unfold ledTo at hi
  rw [led_plain _ _ _ fun k _ => hnf k] at hi
  simp only [List.map_nil, List.sum_nil] at hi
  have e1 : (y * w.scr.width + (x + j)) / w.scr.width = y := by
    rw [Nat.mul_comm, Nat.mul_add_div (by omega), Nat.div_eq_of_lt (by omega)]; rfl
  have e2 : (y' * w.scr.width + x') / w.scr.width = y' := by
    rw [Nat.mul_comm, Nat.mul_add_div (by omega), Nat.div_eq_of_lt hx']; rfl
  have e3 : y * w.scr.width + (x + j) = y' * w.scr.width + x' := by omega
  rw [e3, e2] at e1
  exact hne e1

/-- **C124 is violated** by every text whose first line is not empty and is followed by another one, by every style, and wherever the text
fits into its row: without the style the first character of the second line is stored in the row below; with the style, and
nothing else changed, that place keeps what it had, and the character is stored in the row of the first line. -/
theorem C124_every_break_violated (env : Color.Env) (tb : Color) (force : Bool) (w : World)
    (hs : Shape w.scr.width w.scr.height w.scr.cells) (hok : CacheOk w.cache)
    (h0 : w.scr.offset = 0) (x y : Nat) (hy : y + 1 < w.scr.height) (s : Span) (hplain : s.style = {}) (hr : s.resetAfter = true)
    (hop : ∀ b, s.bg = some b → b.alpha = 1) (line : Str) (hline : '\n' ∉ line) (hne : line ≠ []) (c : Char) (hc : c ≠ '\n') (more : Str)
    (ht : s.text = line ++ '\n' :: c :: more) (hx : x + s.text.length ≤ w.scr.width) (style : Style) (hst : style ≠ {})
    (old : Cell) (hold : cellAt w.scr.cells (x + line.length) (y + 1) = some old) (hdiff : old.char ≠ [c]) :
    cellAt (write env [s] (some ((x : Int), (y : Int))) tb force w).1.scr.cells (x + line.length) (y + 1) = some (storedCell s [c]) ∧
    cellAt (write env [{ s with style := style }] (some ((x : Int), (y : Int))) tb force w).1.scr.cells (x + line.length) (y + 1) =
      some old ∧
    ∃ before new, cellAt w.scr.cells (x + (line.length + 1)) y = some before ∧
      new = storedCell { s with style := style } (styledChar { s with style := style } (line.length + 1) c) ∧
      cellAt (write env [{ s with style := style }] (some ((x : Int), (y : Int))) tb force w).1.scr.cells (x + (line.length + 1)) y =
        some (if new.eq before then before else new) := by
  have hlen : s.text.length = line.length + (more.length + 2) := by rw [ht]; simp
  refine ⟨?_, ?_, ?_⟩
  · obtain ⟨o, e1, -, e2⟩ := C88_staircase_violated env tb force w hs hok h0 x y hy s hplain hop line hline hne c hc more ht (by omega)
    rw [e1] at hold
    cases hold
    rw [e2, if_neg]
    intro h
    apply hdiff
    unfold Cell.eq at h
    simp [storedCell] at h
    tauto
  · rw [styled_row env tb force w hs hok h0 x y (by omega) { s with style := style } hst hr hop (by omega) hx _ _ (by omega) (by omega)]
    exact hold
  · obtain ⟨before, new, e1, e2, e3⟩ := C88_no_break_violated env tb force w hs hok h0 x y (by omega) { s with style := style } hst hr hop hx
      (line.length + 1) c (by show s.text[line.length + 1]? = some c; rw [ht]; simp)
    exact ⟨before, new, e1, by rw [e2, if_neg (fun h => hc h.1)], e3⟩

/-- "ab⏎c" and the same in italics, from (1, 0) of an empty 6x3 screen. -/
example : let w : World := { scr := Screen.init 6 3 }
    let s : Span := { text := "ab\nc".toList }
    (write {} [s] (some (1, 0)) Color.black false w).1.scr.offset = 0 ∧
    (cellAt (write {} [s] (some (1, 0)) Color.black false w).1.scr.cells 3 1).map (·.char) = some ['c'] ∧
    (cellAt (write {} [{ s with style := { italic := true } }] (some (1, 0)) Color.black false w).1.scr.cells 3 1).map (·.char) = some [' '] ∧
    (cellAt (write {} [{ s with style := { italic := true } }] (some (1, 0)) Color.black false w).1.scr.cells 4 0).map (·.char) =
      some "\x1b[3mc\x1b[0m".toList := by decide +kernel

end Slate
