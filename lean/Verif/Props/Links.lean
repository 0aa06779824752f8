import Verif.Spec.Links
import Verif.Lemmas.SpanText
import Verif.Model.Terminal

/-!
# C94: hyperlinks
-/

namespace Links
open Slate Slate.Py Term

theorem feed_append (s : State) (a b : List Char) : feed s (a ++ b) = feed (feed s a) b := by
  simp [feed, List.foldl_append]

theorem feed_cons (s : State) (c : Char) (t : List Char) : feed s (c :: t) = feed (step s c) t := rfl

theorem feed_nil (s : State) : feed s [] = s := rfl

/-- Printable text is printed with the current link. -/
theorem feed_text (s : State) (t : List Char) (hs : s.phase = .ground) (h : ∀ c ∈ t, Printable c) :
    feed s t = { s with out := s.out ++ t.map fun c => (c, s.link) } := by
  induction t generalizing s with
  | nil => simp [feed_nil]
  | cons c t ih =>
    have hc := h c (by simp)
    have h1 : c ≠ '\x1b' := by rintro rfl; exact absurd hc.1 (by decide)
    have h2 : step s c = { s with out := s.out ++ [(c, s.link)] } := by
      unfold step
      rw [hs]
      simp [h1, hc]
    rw [feed_cons, h2, ih { s with out := s.out ++ [(c, s.link)] } hs fun d hd => h d (by simp [hd])]
    simp

theorem feed_params (s : State) (t : List Char) (hs : s.phase = .csi) (h : ∀ c ∈ t, ParamChar c) : feed s t = s := by
  induction t with
  | nil => rfl
  | cons c t ih =>
    have hc := h c (by simp)
    have h1 : c ≠ '\x1b' := by rintro rfl; exact absurd hc.1 (by decide)
    have h2 : ¬ (64 ≤ c.toNat ∧ c.toNat ≤ 126) := by have := hc.2; omega
    have h3 : step s c = s := by
      unfold step
      rw [hs]
      simp only [h1, h2, if_false]
    rw [feed_cons, h3]
    exact ih fun d hd => h d (by simp [hd])

/-- Graphic rendition does not change links. -/
theorem feed_sgr (s : State) (body : List Char) (hs : s.phase = .ground) (h : ∀ c ∈ body, ParamChar c) :
    feed s (['\x1b', '['] ++ body ++ ['m']) = s := by
  have e1 : step s '\x1b' = { s with phase := .esc } := by unfold step; rw [hs]; simp
  have e2 : step { s with phase := .esc } '[' = { s with phase := .csi } := by unfold step; simp
  have e3 : feed s ['\x1b', '['] = { s with phase := .csi } := by rw [feed_cons, e1, feed_cons, e2, feed_nil]
  rw [feed_append, feed_append, e3, feed_params _ body rfl h, feed_cons, feed_nil]
  cases s
  simp only at hs
  subst hs
  rfl

theorem feed_osc_body (s : State) (buf body : List Char) (hs : s.phase = .osc buf)
    (h : ∀ c ∈ body, c ≠ '\x1b' ∧ c ≠ '\x07') : feed s body = { s with phase := .osc (buf ++ body) } := by
  induction body generalizing s buf with
  | nil => simp [feed_nil, ← hs]
  | cons c t ih =>
    obtain ⟨h1, h2⟩ := h c (by simp)
    have h3 : step s c = { s with phase := .osc (buf ++ [c]) } := by
      unfold step
      rw [hs]
      simp only [h1, h2, if_false]
    rw [feed_cons, h3, ih _ (buf ++ [c]) rfl fun d hd => h d (by simp [hd])]
    simp

/-- A complete link command. -/
theorem feed_link (s : State) (target : List Char) (hs : s.phase = .ground) (h : ∀ c ∈ target, c ≠ '\x1b' ∧ c ≠ '\x07') :
    feed s (['\x1b', ']', '8', ';', ';'] ++ target ++ ['\x1b', '\\']) = { s with link := target } := by
  have e1 : step s '\x1b' = { s with phase := .esc } := by unfold step; rw [hs]; simp
  have e2 : step { s with phase := .esc } ']' = { s with phase := .osc [] } := by unfold step; simp
  have e3 := feed_osc_body { s with phase := .osc [] } [] (['8', ';', ';'] ++ target) rfl (by
    intro c hc
    rcases List.mem_append.mp hc with hc | hc
    · exact (by decide : ∀ c ∈ ['8', ';', ';'], c ≠ '\x1b' ∧ c ≠ '\x07') c hc
    · exact h c hc)
  rw [show ['\x1b', ']', '8', ';', ';'] ++ target ++ ['\x1b', '\\'] =
    '\x1b' :: ']' :: ((['8', ';', ';'] ++ target) ++ ['\x1b', '\\']) by simp]
  rw [feed_cons, e1, feed_cons, e2, feed_append, e3]
  cases s
  simp only at hs
  subst hs
  rfl

end Links

namespace Slate
open Py Term

theorem total_paramChar {env : Color.Env} {s : Span}
    (hf : ∀ x, s.fg = some x → ∃ t, Sendable env x t) (hb : ∀ x, s.bg = some x → ∃ t, Sendable env x t) :
    ∀ c ∈ s.total env, ParamChar c := by
  have hsep : ParamChar ';' := ⟨by decide, by decide⟩
  have hcode : ∀ x : Color, (∃ t, Sendable env x t) → ∀ c ∈ x.ansi env, ParamChar c := by
    rintro x ⟨t, n, ns, h, -⟩
    rw [h]
    refine join_paramChar fun s hs => ?_
    obtain ⟨k, -, rfl⟩ := List.mem_map.mp hs
    exact fun c hc => dec_paramChar hc
  have ht : ∀ c ∈ join [';'] (s.colorCodes env), ParamChar c := by
    refine join_paramChar fun k hk => ?_
    unfold Span.colorCodes at hk
    rcases List.mem_append.mp hk with hk | hk <;> obtain ⟨x, hx, rfl⟩ := List.mem_map.mp hk
    · exact hcode x (hf x (by simpa using hx))
    · exact hcode x (hb x (by simpa using hx))
  have hl : ∀ c ∈ s.style.colorless, ParamChar c := by
    rw [colorless_eq]
    refine join_paramChar fun k hk => ?_
    obtain ⟨n, -, rfl⟩ := List.mem_map.mp hk
    exact fun c hc => dec_paramChar hc
  intro c h
  unfold Span.total at h
  simp only at h
  split at h
  · exact ht c h
  · rcases List.mem_append.mp h with h | h
    · rcases List.mem_append.mp h with h | h
      · exact ht c h
      · split at h
        · rw [List.mem_singleton.mp h]; exact hsep
        · simp at h
    · exact hl c h

/-- What can be printed with links: printable text, a target without escape and bell characters, and colours with a code that
the terminal understands. -/
structure Linkable (env : Color.Env) (s : Span) : Prop where
  text : ∀ c ∈ s.text, Printable c
  target : ∀ c ∈ s.hyperlink, c ≠ '\x1b' ∧ c ≠ '\x07'
  fg : ∀ x, s.fg = some x → ∃ t, Sendable env x t
  bg : ∀ x, s.bg = some x → ∃ t, Sendable env x t

/-- Printing a span. -/
theorem feed_render {env : Color.Env} {s : Span} (h : Linkable env s) (st : Links.State) (hs : st.phase = .ground)
    (hl : st.link = []) :
    Links.feed st (s.render env) = { st with out := st.out ++ s.text.map fun c => (c, s.hyperlink) } := by
  have hcomb : ∀ st : Links.State, st.phase = .ground → Links.feed st (s.sequences env ++ s.text ++
      (if s.resetAfter && !(s.sequences env).isEmpty then RESET else [])) =
      { st with out := st.out ++ s.text.map fun c => (c, st.link) } := by
    intro st hs
    have h1 : Links.feed st (s.sequences env) = st := by
      unfold Span.sequences wrapSgr
      split
      · rfl
      · exact Links.feed_sgr st _ hs (total_paramChar h.fg h.bg)
    rw [Links.feed_append, Links.feed_append, h1, Links.feed_text st _ hs h.text]
    split
    · exact Links.feed_sgr _ ['0'] hs (by
        intro c hc
        rw [List.mem_singleton.mp hc]
        exact ⟨by decide, by decide⟩)
    · rfl
  unfold Span.render
  simp only
  split
  · rename_i he
    rw [hcomb st hs, hl, List.isEmpty_iff.mp he]
  · have e1 : "\x1b]8;;".toList = ['\x1b', ']', '8', ';', ';'] := rfl
    have e2 : "\x1b\\".toList = ['\x1b', '\\'] := rfl
    have e3 : "\x1b]8;;\x1b\\".toList = ['\x1b', ']', '8', ';', ';'] ++ [] ++ ['\x1b', '\\'] := rfl
    rw [e1, e2, e3]
    generalize hX : s.sequences env ++ s.text ++ (if s.resetAfter && !(s.sequences env).isEmpty then RESET else []) = X
      at hcomb ⊢
    generalize hY : ['\x1b', ']', '8', ';', ';'] ++ ([] : Str) ++ ['\x1b', '\\'] = Y
    rw [Links.feed_append, Links.feed_append, Links.feed_link st _ hs h.target,
      hcomb { st with link := s.hyperlink } hs, ← hY, Links.feed_link _ [] (by exact hs) (by simp)]
    cases st
    simp only at hl
    subst hl
    rfl

/-- **C94**, printing: of spans printed one after the other, every character is linked to the target of its own span and to nothing
else, and no link is left open. -/
theorem C94_printed_partial (env : Color.Env) (spans : List Span) (h : ∀ s ∈ spans, Linkable env s) (st : Links.State)
    (hs : st.phase = .ground) (hl : st.link = []) :
    Links.feed st (spans.flatMap (Span.render env)) =
      { st with out := st.out ++ spans.flatMap fun s => s.text.map fun c => (c, s.hyperlink) } := by
  induction spans generalizing st with
  | nil => simp [Links.feed_nil]
  | cons s ss ih =>
    rw [List.flatMap_cons, Links.feed_append, feed_render (h s (by simp)) st hs hl,
      ih (fun t ht => h t (by simp [ht])) { st with out := st.out ++ s.text.map fun c => (c, s.hyperlink) } hs hl]
    simp

/-- The hypotheses of `C94_printed_partial` are met: a red linked span, plain text, and another link. -/
example : ∀ s ∈ ([
      { text := "a".toList, hyperlink := "https://x.org".toList, fg := some { r := 255, g := 0, b := 0 } },
      { text := "b".toList },
      { text := "c".toList, hyperlink := "mailto:y".toList, style := { bold := true } }] : List Span), Linkable {} s := by
  intro s hs
  have hred : ∃ t, Sendable {} { r := 255, g := 0, b := 0 } t := ⟨_, denOk {} _ rfl⟩
  simp only [List.mem_cons, List.not_mem_nil, or_false] at hs
  rcases hs with rfl | rfl | rfl
  · refine ⟨by decide, by decide, ?_, by simp⟩
    intro x hx
    rw [← Option.some.inj hx]
    exact hred
  · exact ⟨by decide, by decide, by simp, by simp⟩
  · exact ⟨by decide, by decide, by simp, by simp⟩

/-- What it gives for them. -/
example :
    let spans : List Span := [
      { text := "a".toList, hyperlink := "https://x.org".toList, fg := some { r := 255, g := 0, b := 0 } },
      { text := "b".toList },
      { text := "c".toList, hyperlink := "mailto:y".toList, style := { bold := true } }]
    (Links.feed {} (spans.flatMap (Span.render {}))).out =
      [('a', "https://x.org".toList), ('b', []), ('c', "mailto:y".toList)] := by decide +kernel

theorem putChars_target (width height : Nat) (s : Span) (target : Str) (l : List Str) (p : Pen) (m : Mats) :
    putChars width height { s with hyperlink := target } l p m = putChars width height s l p m := by
  induction l generalizing p m with
  | nil => rfl
  | cons c l ih =>
    unfold putChars
    split
    · rfl
    · split
      · exact ih _ _
      · exact ih _ _

/-- C94 is violated by drawing: the target of a span has no influence on the screen it is written to, hence none on what is drawn.
This is so for every span, every position and every screen. -/
theorem C94_screen_violated (env : Color.Env) (s : Span) (target : Str) (pos : Option (Int × Int)) (tb : Color) (force : Bool)
    (scr : Screen) :
    (write env [{ s with hyperlink := target }] pos tb force { scr := scr }).1.scr =
      (write env [s] pos tb force { scr := scr }).1.scr := by
  have hc : ({ s with hyperlink := target } : Span).cellChars = s.cellChars := rfl
  have key : ∀ p : Pen, ∃ p' m c c' scr' e,
      putSpans [{ s with hyperlink := target }] 0 p Mats.blank { scr := scr } = (p', m, { scr := scr', cache := c }, e) ∧
      putSpans [s] 0 p Mats.blank { scr := scr } = (p', m, { scr := scr', cache := c' }, e) := by
    intro p
    simp only [putSpans, CharCache.get, List.lookup_nil, hc, putChars_target]
    by_cases h1 : ((0 : Nat) : Int) = p.last ∧ p.y - scr.offset > (scr.height : Int) - 1
    · simp only [h1, and_self, if_true]
      by_cases h2 : s.cellChars.isEmpty = true
      · simp only [h2, if_true]
        exact ⟨_, _, _, _, _, _, rfl, rfl⟩
      · simp only [h2]
        cases scr.cells <;> exact ⟨_, _, _, _, _, _, rfl, rfl⟩
    · simp only [if_neg h1]
      exact ⟨_, _, _, _, _, _, rfl, rfl⟩
  unfold write writeBulk
  cases pos with
  | none => rfl
  | some q =>
    obtain ⟨p', m, c, c', scr', e, h1, h2⟩ := key { x := q.1, y := q.2, last := 0 }
    have e1 : putData [(some q, [{ s with hyperlink := target }])] Mats.blank { scr := scr } =
        (m, { scr := scr', cache := c }, e) := by
      obtain ⟨x, y⟩ := q
      show (match putSpans [{ s with hyperlink := target }] 0 { x := x, y := y, last := 0 } Mats.blank { scr := scr } with
        | (_, m, w, some e) => (m, w, some e)
        | (_, m, w, none) => putData [] m w) = _
      rw [h1]
      cases e <;> rfl
    have e2 : putData [(some q, [s])] Mats.blank { scr := scr } = (m, { scr := scr', cache := c' }, e) := by
      obtain ⟨x, y⟩ := q
      show (match putSpans [s] 0 { x := x, y := y, last := 0 } Mats.blank { scr := scr } with
        | (_, m, w, some e) => (m, w, some e)
        | (_, m, w, none) => putData [] m w) = _
      rw [h2]
      cases e <;> rfl
    rw [e1, e2]
    cases e <;> rfl

/-- A linked span, printed and drawn: printed it is linked, drawn it is not. -/
example :
    let s : Span := { text := "a".toList, hyperlink := "https://x.org".toList }
    (Links.feed {} (s.render {})).out = [('a', "https://x.org".toList)] ∧
    (Links.feed {} ((write {} [s] (some (0, 0)) Color.black false { scr := Screen.init 1 1 }).1.scr.render (1, 1)).2).out =
      [('a', [])] := by decide +kernel

theorem yieldLoop_target (ms : List (Str × Str × Nat)) (o : Opts) (i : Nat) :
    ∀ s ∈ (yieldLoop ms o i).1, s.hyperlink = [] := by
  induction ms generalizing o i with
  | nil => simp [yieldLoop]
  | cons m ms ih =>
    obtain ⟨seq, plain, stop⟩ := m
    unfold yieldLoop
    split
    · simp
    · simp
    · rename_i o' _
      split
      · simp
      · rename_i sp hsp
        intro s hs
        rcases List.mem_cons.mp hs with rfl | hs
        · unfold spanOfOpts at hsp
          split at hsp
          · simp at hsp
          · rw [← Except.ok.inj hsp]
        · exact ih _ _ s hs

/-- C94 is violated by parsing: no span that `yield_from` yields has a link, whatever the line. -/
theorem C94_parsed_violated (line : Str) : ∀ s ∈ (yieldFrom line).1, s.hyperlink = [] := by
  intro s hs
  unfold yieldFrom at hs
  simp only at hs
  generalize (if endsWith line [ESC] = true then line else line ++ [ESC]) = l at hs
  have hl := yieldLoop_target (styleMatches l) {} 0
  split at hs
  · rename_i h
    rw [h] at hl
    exact hl s hs
  · rename_i h
    rw [h] at hl
    split at hs
    · rcases List.mem_append.mp hs with hs | hs
      · exact hl s hs
      · rw [List.mem_singleton.mp hs]
    · exact hl s hs

/-- C94 is violated by parsing, also for the text: of a printed span with a link, the end of the link is yielded as text. -/
theorem C94_text_violated :
    let s : Span := { text := "here".toList, hyperlink := "https://x.org".toList, style := { bold := true } }
    (yieldFrom (s.render {})).1 =
      [{ text := "here".toList, style := { bold := true } }, { text := "\x1b[0m\x1b]8;;\x1b\\".toList }] := by decide +kernel

end Slate
