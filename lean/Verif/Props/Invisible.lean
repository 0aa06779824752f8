import Verif.Props.Layers

/-!
# C21: translucent text on any background cannot be read
-/

namespace Slate
open Py

/-- The background of a pile is opaque. -/
theorem back_opaque {tb : Color} {first : Layer} {above : List Layer} {b : Color} (h : Pile.back tb first above = some b) : b.alpha = 1 := by
  unfold Pile.back at h
  obtain ⟨c, -, rfl⟩ := Option.map_eq_some_iff.mp h
  split_ifs with hc
  · exact hc
  · rfl

/-- If the colour of the text is translucent and there is a background, the text is stored in the colour of the background. -/
theorem Pile.cell_invisible (tb : Color) (first : Layer) (above : List Layer) (hf : (Pile.ink first above).alpha ≠ 1) (b : Color)
    (hb : Pile.back tb first above = some b) : (Pile.cell tb first above).fg = some b ∧ (Pile.cell tb first above).bg = some b := by
  refine ⟨?_, hb⟩
  unfold Pile.cell
  simp [hf, hb, back_opaque hb]

/-- Without translucent layers above the first, the text is that of the last layer. -/
theorem text_last (first : Layer) (above : List Layer) (hop : ∀ l ∈ above, l.translucent = false) :
    Pile.text first (first :: above) = above.getLastD first := by
  unfold Pile.text
  rcases List.eq_nil_or_concat above with rfl | ⟨l', o, rfl⟩
  · cases hf : first.unseen <;> simp [hf]
  · have : o.unseen = false := by simp [Layer.unseen, hop o (by simp)]
    simp [this]

/-- **C21 violated** for all texts: a character in a translucent colour that is the last to fall on its cell, on a background of its own
and over no other translucent background, is stored in the colour of its background, whatever the two colours are. -/
theorem C21_invisible_violated (env : Color.Env) (tb : Color) (force : Bool) (d : Data) (w : World)
    (hs : Shape w.scr.width w.scr.height w.scr.cells) (hok : CacheOkOn d.Has w.cache)
    (ho : (writeBulk env d.entries tb force w).1.scr.offset = w.scr.offset) (x y : Nat) (hx : x < w.scr.width) (hy : y < w.scr.height)
    (first : Layer) (above : List Layer) (hl : layersAt w.scr.width w.scr.height (placed w.scr.width w.scr.height w.scr.offset d) x y = first :: above)
    (hop : ∀ l ∈ above, l.translucent = false) (f b : Color) (hf : (above.getLastD first).span.fg = some f) (ha : f.alpha ≠ 1)
    (hb : (above.getLastD first).span.bg = some b) :
    ∃ c f' b', cellAt (writeBulk env d.entries tb force w).1.scr.cells x y = some c ∧ c.fg = some f' ∧ c.bg = some b' ∧
      f'.eq b' = true ∧ (b.alpha = 1 → b'.eq b = true) := by
  obtain ⟨old, -, hc⟩ := C103_cells_partial env tb force d w hs hok ho x y hx hy
  rw [hl] at hc
  simp only at hc
  obtain ⟨h1, h2⟩ := C103_opaque tb first above hop
  rw [hb] at h2
  simp only [Option.map_some] at h2
  have hink : (Pile.ink first above).alpha ≠ 1 := by
    unfold Pile.ink
    simp only [text_last first above hop, if_pos, hf, Option.getD_some]
    exact ha
  obtain ⟨e1, e2⟩ := Pile.cell_invisible tb first above hink _ h2
  have hrefl : ∀ c : Color, c.eq c = true := fun c => by simp [Color.eq]
  have hfin : ∀ b' : Color, Pile.back tb first above = some b' → b.alpha = 1 → b'.eq b = true := by
    intro b' h3 h4
    rw [h2] at h3
    injection h3 with h3
    rw [← h3, if_pos h4]
    exact hrefl b
  split_ifs at hc with he
  · simp only [Cell.eq, Bool.and_eq_true] at he
    obtain ⟨⟨-, he1⟩, he2⟩ := he
    rw [e1] at he1
    rw [e2] at he2
    cases h3 : old.fg with
    | none => rw [h3] at he1; cases he1
    | some f' =>
      cases h4 : old.bg with
      | none => rw [h4] at he2; cases he2
      | some b' =>
        rw [h3] at he1
        rw [h4] at he2
        refine ⟨old, f', b', hc, h3, h4, ?_, fun h5 => ?_⟩
        · exact Span.optEq_trans (a := some f') (b := some _) (c := some b') (Span.optEq_symm he1) he2
        · exact Span.optEq_trans (a := some b') (b := some _) (c := some b) (Span.optEq_symm he2) (hfin _ h2 h5)
  · exact ⟨_, _, _, hc, e1, e2, hrefl _, fun h5 => hfin _ h2 h5⟩

/-- A half-transparent white letter on red over an opaque text. -/
def C21ex.data : Data :=
  [((0, 0), [{ text := "xyz".toList }]),
   ((1, 0), [{ text := "a".toList, fg := some { r := 255, g := 255, b := 255, alpha := 1 / 2 }, bg := some { r := 200, g := 0, b := 0, isBg := true } }])]

/-- The hypotheses hold, and white and red differ. -/
example :
    let w : World := { scr := Screen.init 3 1 }
    (writeBulk {} C21ex.data.entries Color.black false w).1.scr.offset = 0 ∧ ((layersAt 3 1 C21ex.data 1 0).map fun l => (l.char, l.translucent)) = [('y', false), ('a', false)] ∧
    (cellAt (writeBulk {} C21ex.data.entries Color.black false w).1.scr.cells 1 0).map (fun c => (c.fg.map Color.hex, c.bg.map Color.hex)) =
      some (some "#C80000".toList, some "#C80000".toList) := by
  refine ⟨by decide +kernel, by decide +kernel, by decide +kernel⟩

end Slate
