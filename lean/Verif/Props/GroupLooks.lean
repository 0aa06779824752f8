import Verif.Props.Group

/-!
# C33: exactly which rows keep their looks
-/

namespace Slate
open Py

/-- A cell of a row with the style and the character of its string. -/
abbrev Shown := Cell × Style × Char

/-- Neither foreground nor background. -/
def Bare (e : Shown) : Prop := e.1.fg = none ∧ e.1.bg = none

instance (e : Shown) : Decidable (Bare e) := by unfold Bare; infer_instance

/-- Somewhere a run of uncoloured cells of one style, which does not begin the row if it is unstyled, is followed by a coloured cell whose string
is that of the first cell of the run (without a reset). -/
def Swallows (row : List Shown) : Prop :=
  ∃ (pre : List Shown) (a : Shown) (run : List Shown) (b : Shown) (post : List Shown),
    row = pre ++ a :: run ++ b :: post ∧
    Bare a ∧ (∀ e ∈ run, Bare e ∧ e.2.1.seen = a.2.1.seen) ∧
    (pre = [] → a.2.1.seen ≠ {}) ∧ (∀ p, pre.getLast? = some p → ¬ (Bare p ∧ p.2.1.seen = a.2.1.seen)) ∧
    ¬ Bare b ∧ b.1.char = wrapSgr a.2.1.seen.colorless ++ [a.2.2]

/-- The state of the loop: the look of the group, and its string if it has no colours. -/
structure Look where
  style : Style
  fg : Option Color
  bg : Option Color
  key : Option Str

/-- Equal looks, as `group` compares them. -/
def Look.has (L : Look) (e : Shown) : Prop := e.2.1.seen = L.style ∧ Span.optEq e.1.fg L.fg = true ∧ Span.optEq e.1.bg L.bg = true

open Classical in
/-- No cell loses its colours from here on. -/
noncomputable def Kept : Look → List Shown → Prop
  | _, [] => True
  | L, e :: rest =>
    if L.key = some e.1.char then Bare e ∧ Kept L rest
    else if L.has e then Kept L rest
    else Kept { style := e.2.1.seen, fg := e.1.fg, bg := e.1.bg
                key := if Bare e then some (wrapSgr e.2.1.seen.colorless ++ [e.2.2]) else none } rest

theorem optEq_none {o : Option Color} (h : Span.optEq none o = true) : o = none := by
  cases o with
  | none => rfl
  | some c => cases h

theorem seen_seen (st : Style) : st.seen = st.seen.seen := rfl

/-- The loop. -/
theorem groupGo_kept (env : Color.Env) (rest : List Shown)
    (hl : ∀ e ∈ rest, Looks e.1 e.2.1 e.2.2)
    (hcol : ∀ e ∈ rest, (∀ c, e.1.fg = some c → HasCode env c) ∧ (∀ c, e.1.bg = some c → HasCode env c))
    (s : GroupState) (L : Look)
    (hL : L.style = s.attrs.style ∧ L.fg = s.attrs.fg ∧ L.bg = s.attrs.bg)
    (ha : s.group.fg = s.attrs.fg ∧ s.group.bg = s.attrs.bg ∧ s.group.hyperlink = [] ∧
      s.attrs.hyperlink = [] ∧ s.group.style = s.attrs.style)
    (hp : (s.prevStr = [] ∧ L.key = none) ∨ ∃ (st : Style) (c : Char), s.attrs.style = st.seen ∧
      ∃ f b, CodeOf env s.attrs.fg f ∧ CodeOf env s.attrs.bg b ∧
        (s.attrs.fg ≠ none → CodeNums f) ∧ (s.attrs.bg ≠ none → CodeNums b) ∧
        s.prevStr = wrapSgr (codeStr (f ++ b ++ styleNums st.seen)) ++ [c] ∧
        L.key = if s.attrs.fg = none ∧ s.attrs.bg = none then some s.prevStr else none)
    (hs : s.started = false → s.group.text = []) :
    ∃ out tail, groupGo env (rest.map (·.1)) s = .ok out ∧ out.flatMap letters = letters s.group ++ tail ∧
      (List.Forall₂ SameLook tail rest ↔ Kept L rest) := by
  induction rest generalizing s L with
  | nil => exact ⟨_, [], rfl, by simp, by simp [Kept]⟩
  | cons e rest ih =>
    obtain ⟨cell, st, c⟩ := e
    have hlook : Looks cell st c := hl _ List.mem_cons_self
    have hcols := hcol _ List.mem_cons_self
    have ih := ih (fun e he => hl e (List.mem_cons_of_mem _ he)) (fun e he => hcol e (List.mem_cons_of_mem _ he))
    -- extending the group
    have hext : ∀ (s' : GroupState), s'.group = s.group.mutate { text := some (s.group.text ++ [c]) } →
        s'.attrs = s.attrs → s'.prevStr = s.prevStr → s'.started = true →
        (SameLook (c, s.group.style, s.group.fg, s.group.bg) (cell, st, c) ∧ Kept L rest ↔ Kept L ((cell, st, c) :: rest)) →
        ∃ out tail, groupGo env (rest.map (·.1)) s' = .ok out ∧ out.flatMap letters = letters s.group ++ tail ∧
          (List.Forall₂ SameLook tail ((cell, st, c) :: rest) ↔ Kept L ((cell, st, c) :: rest)) := by
      intro s' e1 e2 e3 e4 hsame
      obtain ⟨out, tail, h1, h2, h3⟩ := ih s' L (by rw [e2]; exact hL)
        (by rw [e1, e2]; exact ⟨ha.1, ha.2.1, ha.2.2.1, ha.2.2.2.1, ha.2.2.2.2⟩)
        (by rw [e2, e3]; exact hp) (by rw [e4]; simp)
      refine ⟨out, (c, s.group.style, s.group.fg, s.group.bg) :: tail, h1, ?_, ?_⟩
      · rw [h2, e1]
        simp [letters, Span.mutate]
      · rw [List.forall₂_cons, h3]
        exact hsame
    rw [List.map_cons, groupGo]
    by_cases heq : cell.char = s.prevStr
    · rw [if_pos heq]
      obtain ⟨r, hstr, hr, hc⟩ := hlook
      rcases hp with ⟨hp, -⟩ | ⟨st0, c0, q1, f, b, cf, cb, nf, nb, hps, hkey⟩
      · rw [hp] at heq
        exact absurd heq (looks_ne_nil (hl _ List.mem_cons_self))
      · have hcl : st.colorless = codeStr (styleNums st) := colorless_eq st
        have heq' := heq
        rw [hps, hstr, hcl] at heq'
        obtain ⟨i1, i2, i3⟩ := wrap_inj hc heq'
        have hb0 : ∀ ns, CodeNums ns → ∀ a d, styleNums st = a ++ ns ++ d → False := by
          intro ns hns a d h
          obtain ⟨n, t, rfl, h1, h2⟩ := codeNums_head hns
          have := styleNums_mem (st := st) (n := n) (by rw [h]; simp)
          omega
        have hfg : s.attrs.fg = none := by
          by_contra hne
          exact hb0 f (nf hne) [] (b ++ styleNums st0.seen) (by rw [i1]; simp)
        have hbg : s.attrs.bg = none := by
          by_contra hne
          exact hb0 b (nb hne) f (styleNums st0.seen) i1
        rw [if_pos ⟨hfg, hbg⟩] at hkey
        rw [hfg] at cf
        rw [hbg] at cb
        have cf : f = [] := cf
        have cb : b = [] := cb
        subst cf cb
        have hst : st = st0.seen := styleNums_inj (by simpa using i1)
        have hlast : cell.char.getLast? = some c := by rw [hstr, i3]; simp
        rw [hlast]
        refine hext _ rfl rfl rfl rfl ?_
        rw [Kept, if_pos (by rw [hkey, heq])]
        refine and_congr_left fun _ => ?_
        simp only [SameLook, Bare, ha.1, ha.2.1, ha.2.2.2.2, hfg, hbg, q1, hst]
        constructor
        · rintro ⟨-, -, h1, h2⟩
          exact ⟨optEq_none h1, optEq_none h2⟩
        · rintro ⟨h1, h2⟩
          rw [h1, h2]
          exact ⟨trivial, seen_seen _, rfl, rfl⟩
    · have hnk : L.key ≠ some cell.char := by
        intro hk
        rcases hp with ⟨-, hp⟩ | ⟨st0, c0, q1, f, b, cf, cb, nf, nb, hps, hkey⟩
        · rw [hp] at hk; cases hk
        · rw [hkey] at hk
          split at hk
          · injection hk with hk
            exact heq hk.symm
          · cases hk
      rw [if_neg heq, firstFrom_cell hlook]
      simp only [Option.getD_some]
      generalize hspan : (({ text := [c], style := st.seen } : Span)).mutate
        { fg := some cell.fg, bg := some cell.bg } = span
      have hspan' : span = { text := [c], style := st.seen, fg := cell.fg, bg := cell.bg } := by
        rw [← hspan]; rfl
      have hiff : span.attrsEq s.attrs = true ↔ L.has (cell, st, c) := by
        unfold Span.attrsEq Look.has
        simp only [hspan', Bool.and_eq_true, decide_eq_true_eq, ha.2.2.2.1, and_true, hL.1, hL.2.1, hL.2.2]
        tauto
      by_cases hattr : span.attrsEq s.attrs = true
      · rw [if_pos hattr]
        have hhas := hiff.mp hattr
        refine hext _ (by rw [hspan']) rfl rfl rfl ?_
        rw [Kept, if_neg hnk, if_pos hhas]
        refine and_iff_right ⟨rfl, ?_, ?_, ?_⟩
        · simp only [ha.2.2.2.2, ← hL.1, ← hhas.1]; rfl
        · simp only [ha.1, ← hL.2.1]; exact optEq_symm hhas.2.1
        · simp only [ha.2.1, ← hL.2.2]; exact optEq_symm hhas.2.2
      · rw [if_neg hattr]
        have hcode : ∀ o : Option Color, (∀ c, o = some c → HasCode env c) →
            ∃ ns, CodeOf env o ns ∧ (o ≠ none → CodeNums ns) := by
          intro o ho
          cases o with
          | none => exact ⟨[], rfl, by simp⟩
          | some k =>
            obtain ⟨ns, h1, h2⟩ := ho k rfl
            exact ⟨ns, ⟨h2, codeNums_ne_nil h1⟩, fun _ => h1⟩
        obtain ⟨f, cf, nf⟩ := hcode cell.fg hcols.1
        obtain ⟨b, cb, nb⟩ := hcode cell.bg hcols.2
        have hrender : (span.mutate { resetAfter := some false }).render env =
            wrapSgr (codeStr (f ++ b ++ styleNums st.seen)) ++ [c] := by
          rw [hspan']
          have ht := total_eq (env := env)
            (s := Span.mutate { text := [c], fg := cell.fg, bg := cell.bg, style := st.seen }
              { resetAfter := some false }) (f := f) (b := b) cf cb
          unfold Span.render
          rw [Span.sequences, ht]
          simp [Span.mutate]
        obtain ⟨out, tail, h1, h2, h3⟩ := ih
          { group := span, started := true, attrs := span
            prevStr := (span.mutate { resetAfter := some false }).render env }
          { style := st.seen, fg := cell.fg, bg := cell.bg
            key := if Bare (cell, st, c) then some (wrapSgr st.seen.colorless ++ [c]) else none }
          (by rw [hspan']; exact ⟨rfl, rfl, rfl⟩)
          (by rw [hspan']; exact ⟨rfl, rfl, rfl, rfl, rfl⟩)
          (by
            refine .inr ⟨st, c, by rw [hspan'], f, b, by rw [hspan']; exact cf, by rw [hspan']; exact cb, by rw [hspan']; exact nf,
              by rw [hspan']; exact nb, hrender, ?_⟩
            rw [hrender, hspan']
            change _ = if Bare (cell, st, c) then _ else _
            split
            · rename_i hbare
              rw [hbare.1] at cf
              rw [hbare.2] at cb
              have cf : f = [] := cf
              have cb : b = [] := cb
              subst cf cb
              simp only [List.nil_append]
              rw [show st.seen.colorless = codeStr (styleNums st.seen) from colorless_eq st.seen]
            · rfl)
          (by simp)
        rw [h1]
        have hfin : List.Forall₂ SameLook ((c, st.seen, cell.fg, cell.bg) :: tail) ((cell, st, c) :: rest) ↔ Kept L ((cell, st, c) :: rest) := by
          rw [List.forall₂_cons, h3, Kept, if_neg hnk, if_neg fun hh => hattr (hiff.mpr hh)]
          exact and_iff_right ⟨rfl, rfl, optEq_refl _, optEq_refl _⟩
        have hlet : letters span = [(c, st.seen, cell.fg, cell.bg)] := by rw [hspan']; rfl
        refine ⟨_, (c, st.seen, cell.fg, cell.bg) :: tail, rfl, ?_, hfin⟩
        cases hst : s.started with
        | true =>
          simp only [if_true, List.flatMap_cons, h2, hlet]
          simp
        | false =>
          have : letters s.group = [] := by simp [letters, hs hst]
          rw [this]
          simp only [Bool.false_eq_true, if_false, h2, hlet]
          simp

/-! ## What the loop keeps, without the loop -/

/-- A coloured cell with the string of the current group follows its run. -/
def SwallowsNow (L : Look) (row : List Shown) : Prop :=
  ∃ (run : List Shown) (b : Shown) (post : List Shown), row = run ++ b :: post ∧
    (∀ e ∈ run, Bare e ∧ e.2.1.seen = L.style) ∧ ¬ Bare b ∧ L.key = some b.1.char

/-- A later group swallows a cell. -/
def SwallowsLater (L : Look) (row : List Shown) : Prop :=
  ∃ (pre : List Shown) (a : Shown) (run : List Shown) (b : Shown) (post : List Shown),
    row = pre ++ a :: run ++ b :: post ∧
    Bare a ∧ (∀ e ∈ run, Bare e ∧ e.2.1.seen = a.2.1.seen) ∧
    (pre = [] → ¬ L.has a) ∧ (∀ p, pre.getLast? = some p → ¬ (Bare p ∧ p.2.1.seen = a.2.1.seen)) ∧
    ¬ Bare b ∧ b.1.char = wrapSgr a.2.1.seen.colorless ++ [a.2.2]

theorem swallowsNow_cons (L : Look) (e : Shown) (rest : List Shown) :
    SwallowsNow L (e :: rest) ↔
      (¬ Bare e ∧ L.key = some e.1.char) ∨ (Bare e ∧ e.2.1.seen = L.style ∧ SwallowsNow L rest) := by
  constructor
  · rintro ⟨run, b, post, h, h1, h2, h3⟩
    cases run with
    | nil =>
      injection h with h4 h5
      subst h4
      exact .inl ⟨h2, h3⟩
    | cons r run =>
      injection h with h4 h5
      subst h4
      exact .inr ⟨(h1 _ List.mem_cons_self).1, (h1 _ List.mem_cons_self).2, run, b, post, h5,
        fun e he => h1 e (List.mem_cons_of_mem _ he), h2, h3⟩
  · rintro (⟨h1, h2⟩ | ⟨h1, h2, run, b, post, rfl, h3, h4, h5⟩)
    · exact ⟨[], e, rest, rfl, by simp, h1, h2⟩
    · refine ⟨e :: run, b, post, rfl, ?_, h4, h5⟩
      intro x hx
      rcases List.mem_cons.mp hx with rfl | hx
      · exact ⟨h1, h2⟩
      · exact h3 x hx

theorem has_bare {L : Look} {e a : Shown} (he : L.has e) (ha : Bare a) :
    L.has a ↔ Bare e ∧ e.2.1.seen = a.2.1.seen := by
  obtain ⟨h1, h2, h3⟩ := he
  constructor
  · rintro ⟨g1, g2, g3⟩
    rw [ha.1] at g2
    rw [ha.2] at g3
    rw [optEq_none g2] at h2
    rw [optEq_none g3] at h3
    exact ⟨⟨optEq_none (optEq_symm h2), optEq_none (optEq_symm h3)⟩, h1.trans g1.symm⟩
  · rintro ⟨hb, hs⟩
    rw [hb.1] at h2
    rw [hb.2] at h3
    exact ⟨hs.symm.trans h1, by rw [ha.1]; exact h2, by rw [ha.2]; exact h3⟩

theorem swallowsLater_skip {L L' : Look} {e : Shown} {rest : List Shown} (h' : L'.has e) :
    SwallowsLater L (e :: rest) ↔ SwallowsLater L' rest ∨
      (¬ L.has e ∧ Bare e ∧ SwallowsNow { style := e.2.1.seen, fg := none, bg := none
                                          key := some (wrapSgr e.2.1.seen.colorless ++ [e.2.2]) } rest) := by
  constructor
  · rintro ⟨pre, a, run, b, post, h, ha, hr, hp, hl, hb, hc⟩
    cases pre with
    | nil =>
      injection h with h4 h5
      subst h4
      exact .inr ⟨hp rfl, ha, run, b, post, h5, hr, hb, by rw [hc]⟩
    | cons p pre =>
      injection h with h4 h5
      subst h4
      refine .inl ⟨pre, a, run, b, post, h5, ha, hr, ?_, ?_, hb, hc⟩
      · rintro rfl
        rw [has_bare h' ha]
        exact hl e rfl
      · intro q hq
        exact hl q (by rw [List.getLast?_cons, hq]; rfl)
  · rintro (⟨pre, a, run, b, post, rfl, ha, hr, hp, hl, hb, hc⟩ | ⟨h1, h2, run, b, post, rfl, h3, h4, h5⟩)
    · refine ⟨e :: pre, a, run, b, post, rfl, ha, hr, by simp, ?_, hb, hc⟩
      intro q hq
      cases pre with
      | nil =>
        have hq : e = q := by simpa using hq
        subst hq
        rw [← has_bare h' ha]
        exact hp rfl
      | cons p pre =>
        rw [List.getLast?_cons_cons] at hq
        exact hl q hq
    · exact ⟨[], e, run, b, post, rfl, h2, h3, fun _ => h1, by simp, h4, by injection h5 with h5; exact h5.symm⟩

/-- What the loop keeps is what nothing swallows. -/
theorem kept_iff (row : List Shown) (hl : ∀ e ∈ row, Looks e.1 e.2.1 e.2.2) (L : Look)
    (hk : ∀ k, L.key = some k → L.fg = none ∧ L.bg = none ∧ ∃ st : Style, ∃ c, L.style = st.seen ∧ k = wrapSgr st.seen.colorless ++ [c]) :
    Kept L row ↔ ¬ (SwallowsNow L row ∨ SwallowsLater L row) := by
  induction row generalizing L with
  | nil => simp [Kept, SwallowsNow, SwallowsLater]
  | cons e rest ih =>
    have ih := ih fun e he => hl e (List.mem_cons_of_mem _ he)
    have hlook := hl e List.mem_cons_self
    rw [Kept]
    by_cases hkey : L.key = some e.1.char
    · rw [if_pos hkey]
      obtain ⟨g1, g2, st, c, g3, g4⟩ := hk _ hkey
      by_cases hb : Bare e
      · have hseen : e.2.1.seen = L.style := by
          obtain ⟨r, hstr, hr, hc⟩ := hlook
          rw [g4, colorless_eq e.2.1, colorless_eq st.seen] at hstr
          obtain ⟨i1, -, -⟩ := wrap_inj hc hstr.symm
          rw [g3, styleNums_inj i1]
          rfl
        have hhas : L.has e := ⟨hseen, by rw [hb.1, g1]; rfl, by rw [hb.2, g2]; rfl⟩
        rw [ih L hk, swallowsNow_cons, swallowsLater_skip hhas]
        tauto
      · rw [swallowsNow_cons]
        tauto
    · rw [if_neg hkey]
      by_cases hhas : L.has e
      · rw [if_pos hhas, ih L hk, swallowsNow_cons, swallowsLater_skip hhas]
        by_cases hb : Bare e
        · have := hhas.1
          tauto
        · have hn : ¬ SwallowsNow L rest := by
            rintro ⟨run, b, post, -, -, -, h3⟩
            obtain ⟨g1, g2, -⟩ := hk _ h3
            obtain ⟨-, h2, h3⟩ := hhas
            rw [g1] at h2
            rw [g2] at h3
            exact hb ⟨optEq_none (optEq_symm h2), optEq_none (optEq_symm h3)⟩
          tauto
      · rw [if_neg hhas]
        have hself : Look.has { style := e.2.1.seen, fg := e.1.fg, bg := e.1.bg
                                key := if Bare e then some (wrapSgr e.2.1.seen.colorless ++ [e.2.2]) else none } e :=
          ⟨rfl, optEq_refl _, optEq_refl _⟩
        have hnow : ¬ SwallowsNow L (e :: rest) := by
          rw [swallowsNow_cons]
          rintro (⟨-, h⟩ | ⟨hb, hs, run, b, post, -, -, -, h3⟩)
          · exact hkey h
          · obtain ⟨g1, g2, -⟩ := hk _ h3
            exact hhas ⟨hs, by rw [hb.1, g1]; rfl, by rw [hb.2, g2]; rfl⟩
        rw [ih _ ?_, swallowsLater_skip hself]
        · by_cases hb : Bare e
          · simp only [hb, hhas, not_false_eq_true, true_and, if_true, hb.1, hb.2]
            tauto
          · have hn : ¬ SwallowsNow { style := e.2.1.seen, fg := e.1.fg, bg := e.1.bg
                                      key := if Bare e then some (wrapSgr e.2.1.seen.colorless ++ [e.2.2]) else none } rest := by
              rintro ⟨run, b, post, -, -, -, h3⟩
              rw [if_neg hb] at h3
              cases h3
            tauto
        · intro k h
          split at h
          · rename_i hb
            injection h with h
            exact ⟨hb.1, hb.2, e.2.1, e.2.2, rfl, h.symm⟩
          · cases h

/-- C33, exactly: grouping the row gives every cell's character with the cell's style and colours if and only if no coloured cell follows a run of
uncoloured ones of one style with the string of the first of them. -/
theorem C33_exact_partial (env : Color.Env) (row : List Shown)
    (hl : ∀ e ∈ row, Looks e.1 e.2.1 e.2.2)
    (hcol : ∀ e ∈ row, (∀ c, e.1.fg = some c → HasCode env c) ∧ (∀ c, e.1.bg = some c → HasCode env c)) :
    ∃ spans, group env (row.map (·.1)) = .ok spans ∧
      (List.Forall₂ SameLook (spans.flatMap letters) row ↔ ¬ Swallows row) := by
  obtain ⟨out, tail, h1, h2, h3⟩ := groupGo_kept env row hl hcol {} { style := {}, fg := none, bg := none, key := none }
    ⟨rfl, rfl, rfl⟩ ⟨rfl, rfl, rfl, rfl, rfl⟩ (.inl ⟨rfl, rfl⟩) (fun _ => rfl)
  refine ⟨out, h1, ?_⟩
  have h2 : out.flatMap letters = tail := by simpa [letters, emptySpan] using h2
  rw [h2, h3, kept_iff row hl _ (by simp)]
  refine not_congr ⟨?_, ?_⟩
  · rintro (⟨run, b, post, -, -, -, h⟩ | ⟨pre, a, run, b, post, h, ha, hr, hp, hrest⟩)
    · cases h
    · exact ⟨pre, a, run, b, post, h, ha, hr,
        fun hpre hs => hp hpre ⟨hs, by rw [ha.1]; rfl, by rw [ha.2]; rfl⟩, hrest⟩
  · rintro ⟨pre, a, run, b, post, h, ha, hr, hp, hrest⟩
    exact .inr ⟨pre, a, run, b, post, h, ha, hr, fun hpre hh => hp hpre hh.1, hrest⟩

/-- A row with a swallowed cell: the red bold `a` after the bold `a` and the bold `b`. -/
example : Swallows
    [({ char := "\x1b[1ma".toList }, { bold := true }, 'a'), ({ char := "\x1b[1mb".toList }, { bold := true }, 'b'),
     ({ char := "\x1b[1ma".toList, fg := some { r := 255, g := 0, b := 0 } }, { bold := true }, 'a')] :=
  ⟨[], _, [_], _, [], rfl, ⟨rfl, rfl⟩, by simp [Bare], by decide, by simp, by simp [Bare], by decide +kernel⟩

/-- A row without one, although a red `a` follows a plain `a`: the run is plain and begins the row. -/
example : ¬ Swallows
    [({ char := "a".toList }, {}, 'a'), ({ char := "a".toList, fg := some { r := 255, g := 0, b := 0 } }, {}, 'a')] := by
  rintro ⟨pre, a, run, b, post, h, ha, -, hp, -, -, -⟩
  cases pre with
  | nil =>
    injection h with h1 h2
    subst h1
    exact hp rfl rfl
  | cons p pre =>
    injection h with h1 h2
    cases pre with
    | nil =>
      injection h2 with h3 h4
      subst h3
      cases ha.1
    | cons p' pre =>
      injection h2 with h3 h4
      cases pre <;> cases h4

end Slate
