import Verif.Props.Apart
import Verif.Props.Shared

/-!
# C111: a text and one below the window, in one call and in two
-/

namespace Slate
open Py

/-- The matrices after one character inside the window. -/
theorem put_inside (w : World) (s : Span) (g : Str) (hg : (w.cache.get s).1 = [g]) (hnl : g ≠ ['\n']) (m : Mats) (x y : Nat)
    (hx : x < w.scr.width) (hy : y < w.scr.height) (rest : List Entry) :
    putData ((some ((x : Int), (y : Int) + w.scr.offset), [s]) :: rest) m w =
      putData rest (putCell m s g x y) { w with cache := (w.cache.get s).2 } := by
  conv_lhs => unfold putData putSpans
  simp only
  rw [if_neg (by omega)]
  simp only [putSpans, hg]
  unfold putChars
  rw [if_neg (by simp only; omega), if_neg hnl]
  simp only [putChars, show (y : Int) + w.scr.offset - w.scr.offset = (y : Int) by omega, Int.toNat_natCast]

/-- The matrices and the screen after one character in the row below the window. -/
theorem put_below (w : World) (s : Span) (g : Str) (hg : (w.cache.get s).1 = [g]) (hnl : g ≠ []) (m : Mats) (x : Nat)
    (hx : x < w.scr.width) (hh : 0 < w.scr.height) (row : List Cell) (rows : List (List Cell)) (hc : w.scr.cells = row :: rows) :
    ∃ cache, putData [(some ((x : Int), (w.scr.height : Int) + w.scr.offset), [s])] m w =
      (putCell m s (g ++ ['\n']) x (w.scr.height - 1),
        { scr := { w.scr with offset := w.scr.offset + 1, cells := rows ++ [List.replicate w.scr.width { char := [] }] }, cache := cache }, none) := by
  refine ⟨(w.cache.get s).2.assign s (appendNewline [g]), ?_⟩
  unfold putData putSpans
  have hcond : ((0 : Nat) : Int) = (([s] : List Span).length : Int) - 1 ∧
      (w.scr.height : Int) + w.scr.offset - w.scr.offset > (w.scr.height : Int) - 1 := ⟨by simp, by omega⟩
  have e1 : (w.scr.height : Int) + w.scr.offset - w.scr.height + 1 = w.scr.offset + 1 := by omega
  have e2 : (w.scr.height : Int) + w.scr.offset - (w.scr.offset + 1) = ((w.scr.height - 1 : Nat) : Int) := by omega
  simp only [eq_true hcond, if_true, hg, hc, e1, e2, List.isEmpty_cons, Bool.false_eq_true, if_false]
  have ha : appendNewline [g] = [g ++ ['\n']] := rfl
  rw [ha]
  have hne : g ++ ['\n'] ≠ ['\n'] := by
    intro h
    exact hnl (by simpa using h)
  unfold putChars
  rw [if_neg (by simp only; omega), if_neg hne]
  simp only [putChars, putSpans, putData, Int.toNat_natCast]

theorem cellAt_scrolled {width height : Nat} {row : List Cell} {rows : List (List Cell)} (h : Shape width height (row :: rows)) (x y : Nat)
    (hx : x < width) (hy : y < height) :
    cellAt (rows ++ [List.replicate width { char := [] }]) x y =
      if y + 1 < height then cellAt (row :: rows) x (y + 1) else some { char := [] } := by
  have hl : rows.length + 1 = height := by simpa using h.rows
  unfold cellAt
  by_cases hy1 : y + 1 < height
  · rw [if_pos hy1, List.getElem?_append_left (by omega)]
    simp
  · rw [if_neg hy1, List.getElem?_append_right (by omega), show y - rows.length = 0 by omega]
    simp [hx]

/-- The content of a cell after the commit loop, if the matrix has a character there. -/
theorem commit_char (env : Color.Env) (tb : Color) (m : Mats) (scr : Screen) (hs : Shape scr.width scr.height scr.cells) (x y : Nat)
    (hx : x < scr.width) (hy : y < scr.height) (c : WCell) (hc : m.wm x y = some c) :
    (cellAt (commit env tb m scr).1.cells x y).map (·.char) = some (rstrip (· == '\n') c.char) := by
  obtain ⟨n, -, h⟩ := commit_wrote env tb m scr hs
  obtain ⟨old, ho⟩ := hs.exists_cell hx hy
  rw [h.cell]
  unfold outcome
  simp only [hc, ho]
  split
  · rename_i he
    simp only [Cell.eq, Bool.and_eq_true, decide_eq_true_eq] at he
    simp only [Option.map_none, Option.none_or, Option.map_some]
    exact congrArg some he.1.1.symm
  · rfl

/-- The content of a cell after the commit loop, if the matrix has none there. -/
theorem commit_kept (env : Color.Env) (tb : Color) (m : Mats) (scr : Screen) (hs : Shape scr.width scr.height scr.cells) (x y : Nat)
    (hc : m.wm x y = none) : cellAt (commit env tb m scr).1.cells x y = cellAt scr.cells x y := by
  obtain ⟨n, -, h⟩ := commit_wrote env tb m scr hs
  rw [h.cell]
  unfold outcome
  simp only [hc, Option.map_none, Option.none_or]

/-- C111 is violated by every pair of characters of which one is written into the window and the other into the row below: one call
leaves the first where it is, two calls move it up with its row, and its cell gets what was below it. -/
theorem C111_below_violated (env : Color.Env) (tb : Color) (force : Bool) (w : World) (hs : Shape w.scr.width w.scr.height w.scr.cells)
    (hok : CacheOk w.cache) (s t : Span) (c d : Char) (hc : s.text = [c]) (hd : t.text = [d]) (hcn : c ≠ '\n')
    (x y x' : Nat) (hx : x < w.scr.width) (hy : y < w.scr.height) (hy1 : 1 ≤ y) (hx' : x' < w.scr.width)
    (hne : ¬ (x = x' ∧ y = w.scr.height - 1)) :
    let a : Data := [(((x : Int), (y : Int) + w.scr.offset), [s])]
    let b : Data := [(((x' : Int), (w.scr.height : Int) + w.scr.offset), [t])]
    let both := writeBulk env (Data.entries (a ++ b)) tb force w
    let ab := writeBulk env b.entries tb force (writeBulk env a.entries tb force w).1
    (cellAt both.1.scr.cells x y).map (·.char) = some (styledChar s 0 c) ∧
    (cellAt ab.1.scr.cells x (y - 1)).map (·.char) = some (styledChar s 0 c) ∧
    cellAt ab.1.scr.cells x y = (if y + 1 < w.scr.height then cellAt w.scr.cells x (y + 1) else some { char := [] }) := by
  intro a b both ab
  have hchars : ∀ (s : Span) (c : Char), s.text = [c] → s.cellChars = [styledChar s 0 c] := by
    intro s c hc
    apply List.ext_getElem?
    intro k
    rw [cellChars_getElem?, hc]
    cases k <;> simp
  have hstrip : ∀ (s : Span) (c : Char), s.text = [c] → c ≠ '\n' → rstrip (· == '\n') (styledChar s 0 c) = styledChar s 0 c := fun s c hc hn =>
    rstrip_styledChar (by rw [hc]; simp [hn.symm]) (j := 0) (by rw [hc]; rfl)
  have hnl : styledChar s 0 c ≠ ['\n'] := by
    intro h
    have := hstrip s c hc hcn
    rw [h] at this
    exact absurd this (by decide)
  have hnil : styledChar t 0 d ≠ [] := by
    unfold styledChar
    simp only
    split
    · simp
    · split <;> simp
  have hg1 : (w.cache.get s).1 = [styledChar s 0 c] := by rw [(hok.get s).1, hchars s c hc]
  have hg2 : ((w.cache.get s).2.get t).1 = [styledChar t 0 d] := by rw [((hok.get s).2.get t).1, hchars t d hd]
  have hmat : ∀ g : Str, putCell Mats.blank s g x y = { wm := upd (fun _ _ => none) x y (some ⟨g, s.fg, s.bg, false⟩), am := fun _ _ => [] } := fun g => rfl
  have hput2 : ∀ (m : Mats) (g : Str), m.wm x' (w.scr.height - 1) = none → putCell m t g x' (w.scr.height - 1) =
      { m with wm := upd m.wm x' (w.scr.height - 1) (some ⟨g, t.fg, t.bg, false⟩) } := by
    intro m g hm
    unfold putCell
    rw [hm]
  have hne' : ¬ (x' = x ∧ w.scr.height - 1 = y) := fun h => hne ⟨h.1.symm, h.2.symm⟩
  have hne'' : ¬ (x = x' ∧ y - 1 = w.scr.height - 1) := fun h => by omega
  refine ⟨?_, ?_⟩
  · cases hcells : w.scr.cells with
    | nil => have := hs.rows; rw [hcells] at this; simp at this; omega
    | cons row rows =>
      obtain ⟨cache, h2⟩ := put_below { w with cache := (w.cache.get s).2 } t _ hg2 hnil (putCell Mats.blank s (styledChar s 0 c) x y) x' hx'
        (by show 0 < w.scr.height; omega) row rows hcells
      have h1 := put_inside w s _ hg1 hnl Mats.blank x y hx hy [(some ((x' : Int), (w.scr.height : Int) + w.scr.offset), [t])]
      have hp := h1.trans h2
      have hboth : both.1.scr = (commit env tb (putCell (putCell Mats.blank s (styledChar s 0 c) x y) t (styledChar t 0 d ++ ['\n']) x' (w.scr.height - 1))
          { w.scr with offset := w.scr.offset + 1, cells := rows ++ [List.replicate w.scr.width { char := [] }] }).1 := by
        show (writeBulk env [(some ((x : Int), (y : Int) + w.scr.offset), [s]), (some ((x' : Int), (w.scr.height : Int) + w.scr.offset), [t])] tb force w).1.scr = _
        unfold writeBulk
        rw [hp]
      rw [hboth]
      have := commit_char env tb (putCell (putCell Mats.blank s (styledChar s 0 c) x y) t (styledChar t 0 d ++ ['\n']) x' (w.scr.height - 1))
          { w.scr with offset := w.scr.offset + 1, cells := rows ++ [List.replicate w.scr.width { char := [] }] }
          (Shape.scroll _ (r := row) (by rw [← hcells]; exact hs)) x y hx hy ⟨styledChar s 0 c, s.fg, s.bg, false⟩
          (by
            rw [hput2 _ _ (by rw [hmat]; simp [upd, hne'])]
            rw [hmat]
            simp [upd, hne])
      rw [this]
      exact congrArg some (hstrip s c hc hcn)
  · have h1 := put_inside w s _ hg1 hnl Mats.blank x y hx hy []
    have hfirst : (writeBulk env a.entries tb force w).1 =
        { scr := (commit env tb (putCell Mats.blank s (styledChar s 0 c) x y) w.scr).1, cache := (w.cache.get s).2 } := by
      show (writeBulk env [(some ((x : Int), (y : Int) + w.scr.offset), [s])] tb force w).1 = _
      unfold writeBulk
      rw [h1]
      rfl
    obtain ⟨n, -, hw⟩ := commit_wrote env tb (putCell Mats.blank s (styledChar s 0 c) x y) w.scr hs
    have hxy := commit_char env tb (putCell Mats.blank s (styledChar s 0 c) x y) w.scr hs x y hx hy ⟨styledChar s 0 c, s.fg, s.bg, false⟩
      (by rw [hmat]; simp [upd])
    have hxy1 := commit_kept env tb (putCell Mats.blank s (styledChar s 0 c) x y) w.scr hs x (y + 1) (by rw [hmat]; simp [upd])
    have hab : ab = writeBulk env [(some ((x' : Int), (w.scr.height : Int) + w.scr.offset), [t])] tb force
        { scr := (commit env tb (putCell Mats.blank s (styledChar s 0 c) x y) w.scr).1, cache := (w.cache.get s).2 } := by
      show writeBulk env b.entries tb force (writeBulk env a.entries tb force w).1 = _
      rw [hfirst]
      rfl
    rw [hab]
    revert hw hxy hxy1
    generalize (commit env tb (putCell Mats.blank s (styledChar s 0 c) x y) w.scr).1 = scr1
    intro hw hxy hxy1
    have hs1 := hw.shape
    cases hcells : scr1.cells with
    | nil => have := hs1.rows; rw [hcells] at this; simp at this; omega
    | cons row rows =>
      obtain ⟨cache, h2⟩ := put_below { scr := scr1, cache := (w.cache.get s).2 } t _ hg2 hnil Mats.blank x' (by rw [hw.width]; exact hx')
        (by rw [hw.height]; omega) row rows hcells
      simp only [hw.height, hw.offset, hw.width] at h2
      unfold writeBulk
      rw [h2]
      simp only
      have hsh : Shape w.scr.width w.scr.height (rows ++ [List.replicate w.scr.width { char := [] }]) :=
        Shape.scroll _ (r := row) (by rw [← hcells]; exact hs1)
      have hrow := cellAt_scrolled (row := row) (rows := rows) (by rw [← hcells]; exact hs1)
      have hblank : ∀ x'' y'', ¬ (x'' = x' ∧ y'' = w.scr.height - 1) →
          (putCell Mats.blank t (styledChar t 0 d ++ ['\n']) x' (w.scr.height - 1)).wm x'' y'' = none := by
        intro x'' y'' h
        rw [hput2 _ _ rfl]
        simp [upd, h, Mats.blank]
      constructor
      · rw [commit_kept env tb _ _ (by simpa only [hw.width, hw.height] using hsh) x (y - 1) (hblank _ _ hne'')]
        simp only
        rw [hrow x (y - 1) hx (by omega), if_pos (by omega), ← hcells, show y - 1 + 1 = y by omega, hxy]
        exact congrArg some (hstrip s c hc hcn)
      · rw [commit_kept env tb _ _ (by simpa only [hw.width, hw.height] using hsh) x y (hblank _ _ hne)]
        simp only
        rw [hrow x y hx hy, ← hcells, hxy1]

/-- On a new screen of 2 columns and 3 rows, "x" in the second row and "y" below the window. -/
example :
    let w : World := { scr := Screen.init 2 3 }
    Shape w.scr.width w.scr.height w.scr.cells ∧ CacheOk w.cache ∧ 1 ≤ 1 ∧ ¬ ((0 : Nat) = 1 ∧ 1 = w.scr.height - 1) ∧
    (let both := writeBulk {} [(some (0, 1), [{ text := "x".toList }]), (some (1, 3), [{ text := "y".toList }])] Color.black false w
     (cellAt both.1.scr.cells 0 1).map (·.char) = some ['x'] ∧ (cellAt both.1.scr.cells 0 0).map (·.char) = some [' ']) := by
  exact ⟨⟨by decide, by decide +kernel⟩, (by intro e he; cases he), by omega, by decide, by decide +kernel⟩

end Slate
