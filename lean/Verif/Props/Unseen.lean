import Verif.Props.AnyCache
import Verif.Props.Bulk
import Verif.Lemmas.Api

/-!
# Writes that change the look of a cell and are not drawn (C48), and writes that report no change (C03)
-/

namespace Slate
open Py Term

theorem commitCell_count (env : Color.Env) (tb : Color) (m : Mats) (ps : List (Nat × Nat)) :
    ∀ (s : Screen) (n k : Nat) (s' : Screen), ps.foldl (commitCell env tb m) (s, .ok n) = (s', .ok k) → n ≤ k ∧ (n = k → s' = s) := by
  have herr : ∀ (ps : List (Nat × Nat)) (s : Screen) (e : PyErr),
      ps.foldl (commitCell env tb m) (s, .error e) = (s, .error e) := by
    intro ps
    induction ps with
    | nil => intro s e; rfl
    | cons p ps ih => intro s e; rw [List.foldl_cons]; exact ih s e
  induction ps with
  | nil =>
    intro s n k s' h
    simp only [List.foldl_nil, Prod.mk.injEq, Except.ok.injEq] at h
    exact ⟨by omega, fun _ => h.1.symm⟩
  | cons p ps ih =>
    intro s n k s' h
    rw [List.foldl_cons] at h
    obtain ⟨x, y⟩ := p
    simp only [commitCell] at h
    split at h
    · exact ih s n k s' h
    · split at h
      · rw [herr] at h; cases h
      · split at h
        · exact ih s n k s' h
        · have := (ih _ _ _ _ h).1
          exact ⟨by omega, fun e => by omega⟩

/-- **C03**: a call that does not scroll and reports no change leaves the screen as it was, so that the next draw prints the same. -/
theorem C03_zero (env : Color.Env) (data : List Entry) (tb : Color) (force : Bool) (w : World)
    (hs : Shape w.scr.width w.scr.height w.scr.cells) (hr : (writeBulk env data tb force w).2 = .ok 0)
    (ho : (writeBulk env data tb force w).1.scr.offset = w.scr.offset) :
    (writeBulk env data tb force w).1.scr = w.scr := by
  have hfill := fill_still hs ho
  have hf := (putData_frame data Mats.blank w).still hfill
  unfold writeBulk at hr ⊢
  revert hr hf
  rcases putData data Mats.blank w with ⟨m, w', e⟩
  intro hr hf
  cases e with
  | some e => cases hr
  | none =>
    simp only at hr hf ⊢
    rcases hc : commit env tb m w'.scr with ⟨s', r⟩
    rw [hc] at hr
    simp only at hr ⊢
    subst hr
    rw [((commitCell_count env tb m _ _ _ _ _ hc).2 rfl), hf.1]

/-- A call that reports no change although it writes three characters, on a screen with pending changes. -/
example : let w := (write {} [{ text := "ab".toList }] (some (1, 0)) Color.black false { scr := Screen.init 3 2 }).1
    let r := write {} [{ text := "ab".toList }] (some (1, 0)) Color.black false w
    r.2 = .ok 0 ∧ r.1.scr.offset = w.scr.offset ∧ w.scr.changes ≠ [] := by decide +kernel

/-- **C48 violated**: a text whose characters would be stored as cells that are equal (`==`) to what the screen holds is not drawn: nothing
is reported or registered, whatever roles and codes its colours have. `==` does not compare those. -/
theorem C48_equal_violated (env : Color.Env) (tb : Color) (force : Bool) (w : World)
    (hs : Shape w.scr.width w.scr.height w.scr.cells) (hok : CacheOk w.cache)
    (h0 : w.scr.offset = 0) (x y : Nat) (hx : x < w.scr.width) (hy : y < w.scr.height)
    (s : Span) (hnl : '\n' ∉ s.text) (hop : ∀ b, s.bg = some b → b.alpha = 1)
    (heq : ∀ j c old, s.text[j]? = some c →
      let i := y * w.scr.width + x + j
      cellAt w.scr.cells (i % w.scr.width) (i / w.scr.width) = some old → (storedCell s (styledChar s j c)).eq old = true) :
    let r := write env [s] (some ((x : Int), (y : Int))) tb force w
    r.2 = .ok 0 ∧ r.1.scr = w.scr := by
  intro r
  obtain ⟨⟨n, h1⟩, h2, h3, h4⟩ := C05_placement_partial env tb force w hs hok h0 x y hx hy [s]
    (by simpa using hnl) (by simpa using hop) (by simp)
  have ho : r.1.scr.offset = w.scr.offset := by rw [h0]; exact h2
  classical
  obtain ⟨hn, -⟩ := C03_any_cache env [(some ((x : Int), (y : Int)), [s])] tb force w hs n h1 ho
  have hsame : ∀ x' y', x' < w.scr.width → y' < w.scr.height → cellAt r.1.scr.cells x' y' = cellAt w.scr.cells x' y' := by
    intro x' y' hx' hy'
    by_cases hout : y' * w.scr.width + x' < y * w.scr.width + x ∨
        y * w.scr.width + x + ([s].map Span.len).sum ≤ y' * w.scr.width + x'
    · exact h4 x' y' hx' hout
    · simp only [List.map_cons, List.map_nil, List.sum_cons, List.sum_nil, Span.len, Nat.add_zero, not_or, Nat.not_lt, Nat.not_le] at hout
      have hj : y' * w.scr.width + x' - (y * w.scr.width + x) < s.text.length := by omega
      have hlt : y' * w.scr.width + x' < w.scr.height * w.scr.width := by
        calc y' * w.scr.width + x' < y' * w.scr.width + w.scr.width := by omega
          _ = (y' + 1) * w.scr.width := by rw [Nat.add_mul]; omega
          _ ≤ w.scr.height * w.scr.width := Nat.mul_le_mul_right _ hy'
      have hi : y * w.scr.width + x + ((([] : List Span).map Span.len).sum) + (y' * w.scr.width + x' - (y * w.scr.width + x)) =
          y' * w.scr.width + x' := by simp only [List.map_nil, List.sum_nil]; omega
      have hmod : (y' * w.scr.width + x') % w.scr.width = x' := by
        rw [Nat.mul_comm, Nat.mul_add_mod, Nat.mod_eq_of_lt hx']
      have hdiv : (y' * w.scr.width + x') / w.scr.width = y' := by
        rw [Nat.mul_comm, Nat.mul_add_div (by omega), Nat.div_eq_of_lt hx']; rfl
      obtain ⟨old, ho1, ho2⟩ := h3 [] s [] rfl _ _ (List.getElem?_eq_getElem hj) (by rw [hi]; exact hlt)
      have he := heq _ _ old (List.getElem?_eq_getElem hj)
      simp only at he
      rw [hi, hmod, hdiv] at ho1 ho2
      have hi' : y * w.scr.width + x + (y' * w.scr.width + x' - (y * w.scr.width + x)) = y' * w.scr.width + x' := by omega
      rw [hi', hmod, hdiv] at he
      rw [if_pos (he ho1)] at ho2
      rw [ho1]
      exact ho2
  classical
  have h0' : n = 0 := by
    rw [hn, Finset.card_eq_zero, Finset.filter_eq_empty_iff]
    rintro ⟨x', y'⟩ hp ⟨a, b, ha, hb, hab⟩
    simp only [Finset.mem_product, Finset.mem_range] at hp
    have := hsame x' y' hp.1 hp.2
    simp only at ha hb
    rw [ha, show cellAt r.1.scr.cells x' y' = some b from hb] at this
    injection this with this
    rw [this, Cell.eq_refl] at hab
    cases hab
  subst h0'
  exact ⟨h1, C03_zero env _ tb force w hs h1 ho⟩

theorem storedCell_eq {s t : Span} (hf : Span.optEq s.fg t.fg = true) (hb : Span.optEq s.bg t.bg = true) (ch : Str) :
    (storedCell s ch).eq (storedCell t ch) = true := by
  unfold storedCell Cell.eq
  simp only [hb, Bool.and_true, decide_true, Bool.true_and]
  cases h1 : s.fg <;> cases h2 : t.fg <;> rw [h1, h2] at hf
  · exact Span.optEq_refl _
  · cases hf
  · cases hf
  · rename_i c d
    have ha : c.alpha = d.alpha := ((Color.eq_iff _ _).mp hf).2.2.2
    simp only
    rw [ha]
    split
    · exact hf
    · cases h3 : s.bg <;> cases h4 : t.bg <;> rw [h3, h4] at hb
      · exact hf
      · cases hb
      · cases hb
      · exact hb

theorem styledChar_congr {s t : Span} (h1 : s.text = t.text) (h2 : s.style = t.style) (h3 : s.resetAfter = t.resetAfter)
    (j : Nat) (c : Char) : styledChar s j c = styledChar t j c := by
  unfold styledChar
  rw [h1, h2, h3]

/-- **C48 violated**, for every text and all colours that are equal (`==`) but have other roles or codes: after a text was written and drawn
in the ones, writing it in the others does nothing, and the next draw prints nothing but the reset. -/
theorem C48_colours_violated (env : Color.Env) (tb tb' : Color) (force force' : Bool) (w : World)
    (hs : Shape w.scr.width w.scr.height w.scr.cells) (hok : CacheOk w.cache)
    (h0 : w.scr.offset = 0) (x y : Nat) (hx : x < w.scr.width) (hy : y < w.scr.height)
    (s t : Span) (hnl : '\n' ∉ s.text) (hop : ∀ b, s.bg = some b → b.alpha = 1)
    (htext : t.text = s.text) (hstyle : t.style = s.style) (hreset : t.resetAfter = s.resetAfter)
    (hf : Span.optEq t.fg s.fg = true) (hb : Span.optEq t.bg s.bg = true) (o o' : Int × Int) :
    let w1 := (write env [s] (some ((x : Int), (y : Int))) tb force w).1
    let w2 := { w1 with scr := (w1.scr.render o).1 }
    let r := write env [t] (some ((x : Int), (y : Int))) tb' force' w2
    r.2 = .ok 0 ∧ r.1.scr = w2.scr ∧ (r.1.scr.render o').2 = RESET := by
  intro w1 w2 r
  obtain ⟨-, h2, h3, -⟩ := C05_placement_partial env tb force w hs hok h0 x y hx hy [s]
    (by simpa using hnl) (by simpa using hop) (by simp)
  have hst := (writeBulk_still env [(some ((x : Int), (y : Int)), [s])] tb force w hs hok (by rw [h0]; exact h2)).1
  obtain ⟨f1, f2, -, -, f5, -⟩ := writeBulk_frame env [(some ((x : Int), (y : Int)), [s])] tb force w hs
  have e1 : w2.scr.width = w.scr.width := f1
  have e2 : w2.scr.height = w.scr.height := f2
  have e3 : w2.scr.cells = w1.scr.cells := rfl
  have key := C48_equal_violated env tb' force' w2 (by rw [e1, e2]; exact f5) hst h2 x y (by rw [e1]; exact hx) (by rw [e2]; exact hy) t
    (by rw [htext]; exact hnl)
    (by
      intro b hb'
      cases hsb : s.bg with
      | none => rw [hb', hsb] at hb; cases hb
      | some b' =>
        rw [hb', hsb] at hb
        rw [((Color.eq_iff _ _).mp hb).2.2.2]
        exact hop b' hsb)
    (by
      intro j c old hj
      simp only
      rw [e1, e3]
      intro hold
      have hw : 0 < w.scr.width := by omega
      have hlt : y * w.scr.width + x + j < w.scr.height * w.scr.width := by
        have := f5.cellAt_isSome.mp (Option.isSome_iff_exists.mpr ⟨old, hold⟩)
        exact (Nat.div_lt_iff_lt_mul hw).mp this.2
      obtain ⟨old', -, ho2⟩ := h3 [] s [] rfl j c (by rw [← htext]; exact hj) (by simpa using hlt)
      simp only [List.map_nil, List.sum_nil, Nat.add_zero] at ho2
      rw [styledChar_congr htext hstyle hreset]
      refine Cell.eq_trans (storedCell_eq hf hb _) ?_
      rw [show cellAt w1.scr.cells _ _ = _ from ho2] at hold
      injection hold with hold
      rw [← hold]
      split
      · assumption
      · exact Cell.eq_refl _)
  refine ⟨key.1, key.2, ?_⟩
  rw [show r.1.scr = w2.scr from key.2]
  rfl

/-- Red as a foreground and red as a background are equal; the code of the one is not the code of the other. -/
example : let c : Color := { r := 255, g := 0, b := 0 }
    let d : Color := { r := 255, g := 0, b := 0, isBg := true }
    Span.optEq (some d) (some c) = true ∧ d.ansi {} ≠ c.ansi {} := by decide +kernel

end Slate
