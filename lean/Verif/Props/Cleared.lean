import Verif.Props.Drift

/-!
# What addresses which cell after a clear (C17)
-/

namespace Slate
open Py Term

/-- **C17**, exactly, for all histories, scrolled or not: after a clear the cell in row `row` is addressed by the row `row` plus
the scrollback offset that the screen had before, and a character written there changes no other cell. So the top-left cell is
addressed by `(0, offset)`. -/
theorem C17_exact_partial (env : Color.Env) (width height : Nat) (cur : Int × Int) (fill : Str) (ops : List Api) (c : Char) (hc : c ≠ '\n')
    (fill' : Str) (tb : Color) (force : Bool) (x row : Nat) :
    let w := Api.runAll env { scr := Screen.init width height cur fill } ops
    let r := write env [{ text := [c] }] (some ((x : Int), w.scr.offset + row)) tb force { w with scr := w.scr.clear fill' }
    x < w.scr.width → row < w.scr.height →
    ∀ a b, a < w.scr.width → b < w.scr.height →
      cellAt r.1.scr.cells a b = some (if a = x ∧ b = row then { char := [c], fg := some Color.white } else { char := fill' }) := by
  intro w r hx hrow a b ha hb
  have e : Api.runAll env { scr := Screen.init width height cur fill } (ops ++ [.clear fill']) = { w with scr := w.scr.clear fill' } := by
    rw [Api.runAll, List.foldl_append]; rfl
  have h := C16_drift_partial env width height cur fill (ops ++ [.clear fill']) [{ text := [c] }] (by simpa using hc.symm) (by simp) tb force x
    (w.scr.offset + row)
  simp only [e] at h
  have ho : (w.scr.clear fill').offset = w.scr.offset := rfl
  have hh : (w.scr.clear fill').height = w.scr.height := rfl
  have hw : (w.scr.clear fill').width = w.scr.width := rfl
  rw [ho, hh, hw] at h
  obtain ⟨-, -, h3, h4⟩ := h (by simp; omega) (by omega) (by omega)
  by_cases hab : a = x ∧ b = row
  · obtain ⟨rfl, rfl⟩ := hab
    obtain ⟨old, h5, h6⟩ := h3 0 { text := [c] } 0 c b rfl rfl (by push_cast; ring)
    simp only [lengthBefore, List.take_zero, List.map_nil, List.sum_nil, Nat.add_zero] at h5 h6
    rw [clear_cellAt w.scr fill' a b ha hb] at h5
    injection h5 with h5
    have hst : styledChar { text := [c] } 0 c = [c] := by simp [styledChar, wrapSgr_empty]
    rw [hst, ← h5, if_neg (by simp [Cell.eq, storedCell, Span.optEq])] at h6
    rw [if_pos ⟨rfl, rfl⟩]
    exact h6
  · rw [if_neg hab, ← clear_cellAt w.scr fill' a b ha hb]
    refine h4 a b ?_
    intro k s j hk hj hax hbr
    cases k with
    | succ k => simp at hk
    | zero =>
      simp only [List.getElem?_cons_zero, Option.some.injEq] at hk
      subst hk
      have : j = 0 := by simpa using hj
      subst this
      refine hab ⟨by simpa [lengthBefore] using hax, ?_⟩
      push_cast at hbr
      omega

/-- A screen that has scrolled twice: the top-left cell is addressed by `(0, 2)`. -/
example :
    let w := Api.runAll {} { scr := Screen.init 2 1 }
      [.write [{ text := ['a'] }] (some (0, 1)) Color.black false, .write [{ text := ['b'] }] (some (0, 2)) Color.black false]
    let r := write {} [{ text := ['c'] }] (some (0, 2)) Color.black false { w with scr := w.scr.clear }
    w.scr.offset = 2 ∧ cellAt r.1.scr.cells 0 0 = some { char := ['c'], fg := some Color.white } := by
  decide +kernel

end Slate
