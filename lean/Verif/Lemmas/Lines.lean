import Verif.Props.Span

/-!
# Printing several spans, and several lines of spans
-/

namespace Slate
open Py Term

/-- What the spans of a line look like. -/
def lineGlyphs (den : Color → TColor) (spans : List Span) : List Glyph :=
  spans.flatMap fun s => s.text.map fun c => { ch := c, attr := charAttr den s false }

/-- The text sent for the spans of a line. -/
def lineStr (env : Color.Env) (spans : List Span) : Str := spans.flatMap fun s => s.render env

/-- Spans that a terminal prints as they are described. -/
structure PlainSpan (env : Color.Env) (den : Color → TColor) (s : Span) : Prop where
  text : ∀ c ∈ s.text, Printable c
  link : s.hyperlink = []
  fg : ∀ x, s.fg = some x → Sendable env x (den x)
  bg : ∀ x, s.bg = some x → Sendable env x (den x)
  reset : s.resetAfter = true

theorem run_line (env : Color.Env) (den : Color → TColor) (spans : List Span) (st : State)
    (h : ∀ s ∈ spans, PlainSpan env den s) (hm : st.mode = .ground) (hp : st.pen = Attr.clean) :
    (∀ r c, (run st (lineStr env spans)).grid r c =
      if r = st.row ∧ st.col ≤ c then ((lineGlyphs den spans)[c - st.col]?).getD (st.grid r c)
      else st.grid r c) ∧
    (run st (lineStr env spans)).row = st.row ∧
    (run st (lineStr env spans)).col = st.col + (lineGlyphs den spans).length ∧
    (run st (lineStr env spans)).mode = .ground ∧ (run st (lineStr env spans)).pen = Attr.clean := by
  induction spans generalizing st with
  | nil =>
    refine ⟨fun r c => ?_, rfl, rfl, hm, hp⟩
    simp [lineStr, lineGlyphs]
  | cons s ss ih =>
    have hs := h s (by simp)
    obtain ⟨g1, g2, hrow, hcol, hmode, hpen⟩ := C36_printed_span_partial env den s hs.text
      (by rw [hs.link]; simp) hs.fg hs.bg st hm hp
    rw [hs.reset, if_pos rfl] at hpen
    have e : run st (lineStr env (s :: ss)) = run (run st (s.render env)) (lineStr env ss) := by
      rw [lineStr, List.flatMap_cons, run_append]; rfl
    obtain ⟨i1, i2, i3, i4, i5⟩ := ih (run st (s.render env)) (fun x hx => h x (by simp [hx])) hmode hpen
    have el : lineGlyphs den (s :: ss) =
        (s.text.map fun c => ({ ch := c, attr := charAttr den s false } : Glyph)) ++ lineGlyphs den ss := by
      rw [lineGlyphs, List.flatMap_cons]; rfl
    rw [e]
    refine ⟨fun r c => ?_, by rw [i2, hrow], ?_, i4, i5⟩
    · rw [i1, hrow, hcol, el]
      by_cases hr : r = st.row
      · by_cases hc : st.col ≤ c
        · by_cases hlt : c < st.col + s.text.length
          · rw [if_neg (by omega), if_pos ⟨hr, hc⟩, List.getElem?_append_left (by simp; omega)]
            have hk : c - st.col < s.text.length := by omega
            have := g1 (c - st.col) _ (List.getElem?_eq_getElem hk)
            rw [hr]
            rw [show st.col + (c - st.col) = c by omega] at this
            rw [this]
            simp [hk]
          · rw [if_pos ⟨hr, by omega⟩, if_pos ⟨hr, hc⟩, List.getElem?_append_right (by simp; omega)]
            have e3 : c - (st.col + s.text.length) = c - st.col - (s.text.map fun c =>
              ({ ch := c, attr := charAttr den s false } : Glyph)).length := by
              rw [List.length_map]; omega
            rw [e3, g2 r c (by omega)]
        · rw [if_neg (by omega), if_neg (by omega), g2 r c (by omega)]
      · rw [if_neg (by omega), if_neg (by omega), g2 r c (by omega)]
    · rw [i3, hcol, el]; simp; omega

/-- Lines of spans, from the left margin on. -/
theorem run_lines (env : Color.Env) (den : Color → TColor) (lines : List (List Span)) (st : State)
    (h : ∀ l ∈ lines, ∀ s ∈ l, PlainSpan env den s) (hm : st.mode = .ground) (hp : st.pen = Attr.clean)
    (hcol : st.col = 1) :
    (∀ r c, (run st (join ['\n'] (lines.map (lineStr env)))).grid r c =
      if st.row ≤ r ∧ 1 ≤ c then
        ((lineGlyphs den (lines.getD (r - st.row) []))[c - 1]?).getD (st.grid r c)
      else st.grid r c) ∧
    (run st (join ['\n'] (lines.map (lineStr env)))).mode = .ground ∧
    (run st (join ['\n'] (lines.map (lineStr env)))).pen = Attr.clean := by
  induction lines generalizing st with
  | nil =>
    refine ⟨fun r c => ?_, hm, hp⟩
    simp [join, lineGlyphs]
  | cons l ls ih =>
    obtain ⟨g, hrow, hc, hmode, hpen⟩ := run_line env den l st (h l (by simp)) hm hp
    cases ls with
    | nil =>
      refine ⟨fun r c => ?_, hmode, hpen⟩
      simp only [List.map_cons, List.map_nil, join]
      rw [g, hcol]
      by_cases hr : r = st.row
      · subst hr
        by_cases h1 : 1 ≤ c
        · rw [if_pos ⟨rfl, h1⟩, if_pos ⟨le_refl _, h1⟩]; simp
        · rw [if_neg (by omega), if_neg (by omega)]
      · rw [if_neg (by omega)]
        split
        · have : r - st.row ≠ 0 := by omega
          obtain ⟨k, hk⟩ := Nat.exists_eq_succ_of_ne_zero this
          rw [hk]; simp [lineGlyphs]
        · rfl
    | cons l' ls =>
      have e : run st (join ['\n'] ((l :: l' :: ls).map (lineStr env))) =
          run { run st (lineStr env l) with row := (run st (lineStr env l)).row + 1, col := 1 }
            (join ['\n'] ((l' :: ls).map (lineStr env))) := by
        simp only [List.map_cons, join, run_append]
        congr 1
        rw [run_cons, run_nil, step]
        rw [hmode]
        rfl
      rw [e]
      obtain ⟨i1, i2, i3⟩ := ih { run st (lineStr env l) with row := (run st (lineStr env l)).row + 1, col := 1 }
        (fun x hx => h x (by simp [hx])) hmode hpen rfl
      refine ⟨fun r c => ?_, i2, i3⟩
      rw [i1]
      simp only [hrow]
      rw [g, hcol]
      by_cases h1 : 1 ≤ c
      · by_cases hr : r = st.row
        · subst hr
          rw [if_neg (by omega), if_pos ⟨rfl, h1⟩, if_pos ⟨le_refl _, h1⟩]; simp
        · by_cases hlt : st.row ≤ r
          · rw [if_pos ⟨by omega, h1⟩, if_neg (by omega), if_pos ⟨hlt, h1⟩]
            have : r - st.row = (r - (st.row + 1)) + 1 := by omega
            rw [this]; rfl
          · rw [if_neg (by omega), if_neg (by omega), if_neg (by omega)]
      · rw [if_neg (by omega), if_neg (by omega), if_neg (by omega)]

end Slate
