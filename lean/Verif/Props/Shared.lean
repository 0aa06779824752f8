import Verif.Props.Process
import Verif.Props.Poison

/-!
# C119: every scroll with a character adds a line break to that character on every other screen
-/

namespace Slate
open Py

/-- Writing one character inside the window: what is queued, if the cell holds another character. -/
theorem write_one (env : Color.Env) (tb : Color) (force : Bool) (w : World) (hs : Shape w.scr.width w.scr.height w.scr.cells) (s : Span)
    (g : Str) (hg : (w.cache.get s).1 = [g]) (hnl : g ≠ ['\n']) (x y : Nat) (hx : x < w.scr.width) (hy : y < w.scr.height)
    (hold : ∀ old, cellAt w.scr.cells x y = some old → old.char ≠ rstrip (· == '\n') g) :
    let new := resolveCell tb [] { char := g, fg := s.fg, bg := s.bg, bleed := false }
    List.lookup (x, y) (write env [s] (some ((x : Int), (y : Int) + w.scr.offset)) tb force w).1.scr.changes =
      some (changeStr env new (endsWith g ['\n'])) := by
  intro new
  have hput : putData [(some ((x : Int), (y : Int) + w.scr.offset), [s])] Mats.blank w =
      (putCell Mats.blank s g x y, { w with cache := (w.cache.get s).2 }, none) := by
    unfold putData putSpans
    simp only
    rw [if_neg (by omega)]
    simp only [putSpans, putData, hg]
    unfold putChars
    rw [if_neg (by simp only; omega), if_neg hnl]
    simp only [putChars, show (y : Int) + w.scr.offset - w.scr.offset = (y : Int) by omega, Int.toNat_natCast]
  unfold write writeBulk
  rw [hput]
  simp only
  obtain ⟨n, -, h⟩ := commit_wrote env tb (putCell Mats.blank s g x y) w.scr hs
  rw [h.pending]
  obtain ⟨old, ho⟩ : ∃ old, cellAt w.scr.cells x y = some old := hs.exists_cell hx hy
  have hout : outcome tb (putCell Mats.blank s g x y) w.scr (x, y) = some (new, endsWith g ['\n']) := by
    unfold outcome putCell Mats.blank
    simp only [upd, and_self, if_true, ho]
    rw [if_neg]
    intro he
    apply hold old ho
    simp only [Cell.eq, Bool.and_eq_true, decide_eq_true_eq] at he
    exact he.1.1.symm
  rw [hout]
  rfl

/-- C119 is violated whenever another screen scrolls with a character: the next time that the character is written to this screen, into a
cell that holds another one, a line break is queued with it that would not be there without the other screen. -/
theorem C119_every_violated (env : Color.Env) (p : Process) (i j : Nat) (hij : i ≠ j) (s : Span) (c : Char) (hc : s.text = [c])
    (hnl : c ≠ '\n') (hcache : (p.cache.get s).1 = s.cellChars) (tb tb' : Color) (force force' : Bool)
    (hs : Shape (p.scr i).width (p.scr i).height (p.scr i).cells) (x y : Nat) (hx : x < (p.scr i).width) (hy : y < (p.scr i).height)
    (hold : ∀ old, cellAt (p.scr i).cells x y = some old → old.char ≠ styledChar s 0 c)
    (x' y' : Int) (hy' : (p.scr j).offset + (p.scr j).height ≤ y') :
    let calls := [(j, Api.write [s] (some (x', y')) tb' force'), (i, Api.write [s] (some ((x : Int), (y : Int) + (p.scr i).offset)) tb force)]
    ∃ str, List.lookup (x, y) (alone env p i calls).changes = some str ∧
      List.lookup (x, y) ((p.runAll env calls).scr i).changes = some (str ++ ['\n']) := by
  intro calls
  have hchars : s.cellChars = [styledChar s 0 c] := by
    apply List.ext_getElem?
    intro k
    rw [cellChars_getElem?, hc]
    cases k <;> simp
  have hne : styledChar s 0 c ≠ ['\n'] := by
    intro h
    have := rstrip_styledChar (s := s) (by rw [hc]; simp [hnl.symm]) (j := 0) (c := c) (by rw [hc]; rfl)
    rw [h] at this
    exact absurd this (by decide)
  have hstrip : rstrip (· == '\n') (styledChar s 0 c) = styledChar s 0 c :=
    rstrip_styledChar (by rw [hc]; simp [hnl.symm]) (j := 0) (by rw [hc]; rfl)
  have hstrip' : rstrip (· == '\n') (styledChar s 0 c ++ ['\n']) = styledChar s 0 c := by
    rw [rstrip_append_singleton rfl, hstrip]
  have hseq : ∀ a : Str, endsWith (a ++ [c]) ['\n'] = false := by
    intro a
    simp only [endsWith, Bool.eq_false_iff, ne_eq, List.isSuffixOf_iff_suffix]
    rintro ⟨t, ht⟩
    have := congrArg List.getLast? ht
    simp at this
    exact hnl this.symm
  have hends : endsWith (styledChar s 0 c) ['\n'] = false := by
    unfold styledChar
    rw [hc]
    simp only
    split
    · exact hseq _
    · split
      · simp only [endsWith, Bool.eq_false_iff, ne_eq, List.isSuffixOf_iff_suffix]
        rintro ⟨t, ht⟩
        have := congrArg List.getLast? ht
        simp at this
      · exact hseq []
  have h1 := write_one env tb force { scr := p.scr i } hs s (styledChar s 0 c) (by rw [← hchars]; rfl) hne x y hx hy
    (by rw [hstrip]; exact hold)
  have hsc := (C18_scroll_violated env { scr := p.scr j, cache := p.cache } s
    (by show (p.cache.get s).1 ≠ []; rw [hcache, hchars]; simp) tb' force' x' y' hy').1
  have h2 := write_one env tb force { scr := p.scr i, cache := (write env [s] (some (x', y')) tb' force' { scr := p.scr j, cache := p.cache }).1.cache }
    hs s (styledChar s 0 c ++ ['\n'])
    (by
      show getCharacters _ s = _
      refine hsc.trans ?_
      show appendNewline (p.cache.get s).1 = _
      rw [hcache, hchars]; rfl)
    (by
      intro h
      have h0 := congrArg List.length h
      simp at h0
      have hl : (styledChar s 0 c).length ≠ 0 := by
        unfold styledChar
        simp only
        split
        · simp
        · split <;> simp
      rw [h0] at hl
      exact hl rfl) x y hx hy (by rw [hstrip']; exact hold)
  refine ⟨changeStr env (resolveCell tb [] { char := styledChar s 0 c, fg := s.fg, bg := s.bg, bleed := false }) false, ?_, ?_⟩
  · have : alone env p i calls = (write env [s] (some ((x : Int), (y : Int) + (p.scr i).offset)) tb force { scr := p.scr i }).1.scr := by
      unfold alone callsOn
      simp [calls, hij.symm, Api.runAll, Api.run]
    rw [this, h1, hends]
  · have : (p.runAll env calls).scr i = (write env [s] (some ((x : Int), (y : Int) + (p.scr i).offset)) tb force
        { scr := p.scr i, cache := (write env [s] (some (x', y')) tb' force' { scr := p.scr j, cache := p.cache }).1.cache }).1.scr := by
      unfold Process.runAll
      simp [calls, Process.run, Api.run, Function.update_of_ne hij]
    rw [this, h2]
    have e1 : endsWith (styledChar s 0 c ++ ['\n']) ['\n'] = true := by
      simp [endsWith, List.isSuffixOf_iff_suffix]
    rw [e1]
    unfold changeStr resolveCell
    simp only [hstrip, hstrip', resolveColors]
    simp

/-- Two new screens of 3 columns and 2 rows: a bold blue "c" is written below the second one and then into the first cell of the first. -/
example :
    let p : Process := { scr := fun _ => Screen.init 3 2 }
    let s : Span := { text := "c".toList, style := { bold := true }, fg := some { r := 0, g := 0, b := 255 } }
    s.text = ['c'] ∧ (p.cache.get s).1 = s.cellChars ∧ Shape (p.scr 0).width (p.scr 0).height (p.scr 0).cells ∧
    (∀ old, cellAt (p.scr 0).cells 0 0 = some old → old.char ≠ styledChar s 0 'c') ∧ (p.scr 1).offset + (p.scr 1).height ≤ 2 ∧
    (let calls := [(1, Api.write [s] (some (0, 2)) Color.black false), (0, Api.write [s] (some (0, 0)) Color.black false)]
     List.lookup (0, 0) ((p.runAll {} calls).scr 0).changes = some "\x1b[38;2;0;0;255m\x1b[1mc\x1b[0m\x1b[0m\n".toList) := by
  refine ⟨rfl, rfl, ⟨by decide, by decide +kernel⟩, ?_, by decide, by decide +kernel⟩
  intro old h e
  have h' : some ({ char := [' '] } : Cell) = some old := h
  cases h'
  revert e
  decide +kernel

end Slate
