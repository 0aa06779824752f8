import Verif.Props.ParseExact
import Verif.Props.Terminal

/-!
# Reading back what was printed (C118)
-/

namespace Slate
open Py Term

/-- The spans the property is about: some text without the escape character, no link, `reset_after`, no opacity flag, and
usual colours in their roles. -/
structure Printed (s : Span) : Prop where
  text : s.text ≠ [] ∧ ∀ c ∈ s.text, c ≠ '\x1b'
  link : s.hyperlink = []
  shown : s.style.isOpaque = false
  reset : s.resetAfter = true
  fg : ∀ c, s.fg = some c → Usual c ∧ c.isBg = false
  bg : ∀ c, s.bg = some c → Usual c ∧ c.isBg = true

/-- A span without colours and styles. -/
def Unadorned (s : Span) : Prop := s.fg = none ∧ s.bg = none ∧ s.style = {}

instance (s : Span) : Decidable (Unadorned s) := by unfold Unadorned; infer_instance

theorem Usual.cleanCode {c : Color} (h : Usual c) : CleanCode c := by
  intro k hk
  rcases h.2.2 with h | ⟨t, h⟩ | ⟨ns, hn, rfl⟩
  · rw [h] at hk; cases hk
  · rw [h] at hk; cases hk; exact .inl rfl
  · rw [(codeColor_alpha hn).2] at hk; cases hk; exact .inr codeStr_bodyChar

theorem Usual.code_ne {env : Color.Env} (henv : env.space = .trueColor) {c : Color} (h : Usual c) : c.ansi env ≠ [] := by
  obtain ⟨ns, hn⟩ := h.canon henv
  rw [hn.code]
  exact codeStr_ne_nil (codeNums_ne_nil hn.nums)

theorem Unadorned.render (env : Color.Env) {s : Span} (h : Unadorned s) (hl : s.hyperlink = []) : s.render env = s.text := by
  obtain ⟨h1, h2, h3⟩ := h
  have hc : s.style.colorless = [] := by rw [h3]; decide
  have : s.sequences env = [] := by
    simp [Span.sequences, Span.total, Span.colorCodes, h1, h2, hc, wrapSgr, join]
  simp [Span.render, this, hl]

/-- What a styled span prints. -/
theorem Printed.render {env : Color.Env} (henv : env.space = .trueColor) {s : Span} (h : Printed s) (hb : ¬ Unadorned s) :
    s.render env = '\x1b' :: '[' :: (s.total env ++ 'm' :: (s.text ++ RESET)) ∧ (∀ c ∈ s.total env, BodyChar c) := by
  refine ⟨?_, total_bodyChar (fun c hc => (h.fg c hc).1.cleanCode) (fun c hc => (h.bg c hc).1.cleanCode)⟩
  have hne : s.total env ≠ [] := by
    obtain ⟨f, hf⟩ : ∃ f, CodeOf env s.fg f ∧ (f = [] → s.fg = none) := by
      cases hf : s.fg with
      | none => exact ⟨[], rfl, fun _ => rfl⟩
      | some c =>
        obtain ⟨ns, hn⟩ := (h.fg c hf).1.canon henv
        exact ⟨ns, ⟨hn.code, codeNums_ne_nil hn.nums⟩, fun e => absurd e (codeNums_ne_nil hn.nums)⟩
    obtain ⟨b, hb'⟩ : ∃ b, CodeOf env s.bg b ∧ (b = [] → s.bg = none) := by
      cases hf : s.bg with
      | none => exact ⟨[], rfl, fun _ => rfl⟩
      | some c =>
        obtain ⟨ns, hn⟩ := (h.bg c hf).1.canon henv
        exact ⟨ns, ⟨hn.code, codeNums_ne_nil hn.nums⟩, fun e => absurd e (codeNums_ne_nil hn.nums)⟩
    rw [total_eq hf.1 hb'.1]
    refine codeStr_ne_nil fun e => hb ?_
    simp only [List.append_eq_nil_iff] at e
    refine ⟨hf.2 e.1.1, hb'.2 e.1.2, ?_⟩
    have h3 := e.2
    have hs := h.shown
    generalize s.style = st at h3 hs
    obtain ⟨b1, b2, b3, b4, b5, b6, b7, b8, b9, b10⟩ := st
    simp only at hs
    subst hs
    revert h3
    revert b1 b2 b3 b4 b5 b6 b7 b8 b9
    decide +kernel
  have hseq : s.sequences env = '\x1b' :: '[' :: (s.total env ++ ['m']) := by
    rw [Span.sequences, wrapSgr, if_neg (by simpa using hne)]; rfl
  unfold Span.render
  simp [hseq, h.link, h.reset]

/-- What reading makes of the sequence of a styled span. -/
theorem Printed.parse {env : Color.Env} (henv : env.space = .trueColor) {s : Span} (h : Printed s) (hb : ¬ Unadorned s) :
    ∃ t o, t.eq env s = true ∧ parseSequence (s.total env) {} = (o, .ok none) ∧ spanOfOpts s.text o = .ok t := by
  obtain ⟨t, h1, h2⟩ := C25_parse_rendered_partial env henv s h.text h.link h.shown h.reset h.fg h.bg
  refine ⟨t, ?_⟩
  obtain ⟨hren, hbody⟩ := h.render henv hb
  have hlast : ∀ c, (s.render env).getLast? = some c → c ≠ ESC := by
    intro c hc
    rw [hren] at hc
    simp [List.getLast?_cons, RESET] at hc
    rw [← hc]; decide
  have hgo := styleMatchesGo_run 0 "[0m\x1b".toList hbody h.text
  have hline : s.render env ++ [ESC] = '\x1b' :: '[' :: (s.total env ++ 'm' :: (s.text ++ '\x1b' :: "[0m\x1b".toList)) := by
    rw [hren]; simp [RESET, ESC]
  unfold firstFrom yieldFrom at h1
  rw [endsWith_esc hlast] at h1
  simp only [Bool.false_eq_true, if_false, styleMatches] at h1
  rw [hline, hgo, yieldLoop] at h1
  rcases hp : parseSequence (s.total env) {} with ⟨o, e⟩
  rw [hp] at h1
  refine ⟨o, h2, ?_⟩
  rcases e with e | ⟨_ | p⟩
  · cases h1
  · refine ⟨rfl, ?_⟩
    simp only at h1
    rcases hs : spanOfOpts s.text o with e | t'
    · rw [hs] at h1; cases h1
    · rw [hs, styleMatchesGo_tail] at h1
      simp only [yieldLoop] at h1
      generalize rstrip (· == ESC) _ = line at h1
      generalize 0 + _ = idx at h1
      by_cases hl : idx < line.length
      · rw [if_pos hl] at h1; injection h1 with h1; injection h1 with h1; rw [h1]
      · rw [if_neg hl] at h1; injection h1 with h1; injection h1 with h1; rw [h1]
  · cases h1

/-! ### The string of a list of spans -/

/-- `"".join(str(span) for span in spans)`. -/
def joined (env : Color.Env) (l : List Span) : Str := l.flatMap (·.render env)

theorem joined_last {env : Color.Env} (henv : env.space = .trueColor) {l : List Span} (h : ∀ s ∈ l, Printed s) :
    ∀ c, (joined env l).getLast? = some c → c ≠ ESC := by
  induction l with
  | nil => simp [joined]
  | cons s l ih =>
    intro c hc
    rw [joined, List.flatMap_cons, List.getLast?_append] at hc
    cases hl : (l.flatMap (·.render env)).getLast? with
    | some d =>
      rw [hl] at hc
      simp only [Option.some_or, Option.some.injEq] at hc
      exact ih (fun x hx => h x (List.mem_cons_of_mem _ hx)) c (by rw [joined, hl, hc])
    | none =>
      rw [hl, Option.none_or] at hc
      have hs := h s List.mem_cons_self
      by_cases hb : Unadorned s
      · rw [hb.render env hs.link] at hc
        exact hs.text.2 c (List.mem_of_getLast? hc)
      · rw [(hs.render henv hb).1] at hc
        simp [List.getLast?_cons, RESET] at hc
        rw [← hc]; decide

/-- A printed line starts with plain text, up to the first sequence. -/
theorem joined_split {env : Color.Env} (henv : env.space = .trueColor) {l : List Span} (h : ∀ s ∈ l, Printed s) :
    ∃ p tail, joined env l ++ [ESC] = p ++ '\x1b' :: tail ∧ ∀ c ∈ p, c ≠ '\x1b' := by
  induction l with
  | nil => exact ⟨[], [], rfl, by simp⟩
  | cons s l ih =>
    have hs := h s List.mem_cons_self
    obtain ⟨p, tail, h1, h2⟩ := ih fun x hx => h x (List.mem_cons_of_mem _ hx)
    by_cases hb : Unadorned s
    · refine ⟨s.text ++ p, tail, ?_, ?_⟩
      · rw [joined, List.flatMap_cons, hb.render env hs.link, List.append_assoc, List.append_assoc, ← h1]; rfl
      · intro c hc
        rcases List.mem_append.mp hc with hc | hc
        · exact hs.text.2 c hc
        · exact h2 c hc
    · refine ⟨[], '[' :: (s.total env ++ 'm' :: (s.text ++ RESET)) ++ (joined env l ++ [ESC]), ?_, by simp⟩
      rw [joined, List.flatMap_cons, (hs.render henv hb).1]
      simp [joined]

theorem parse_zero (o : Opts) : parseSequence ['0'] o = (o, .ok (some ['0'])) := by
  rfl

theorem splitC_cons (c : Char) (s : Str) : ∃ h t, splitC c s = h :: t := by
  cases s with
  | nil => exact ⟨[], [], rfl⟩
  | cons x xs =>
    rw [splitC]
    split
    · exact ⟨_, _, rfl⟩
    · split <;> exact ⟨_, _, rfl⟩

theorem parse_zero_m (body : Str) (o : Opts) : ∃ p, parseSequence ("0m\x1b[".toList ++ body) o = (o, .ok (some p)) := by
  obtain ⟨h, t, e⟩ := splitC_cons ';' body
  have hs : splitC ';' ("0m\x1b[".toList ++ body) = ("0m\x1b[".toList ++ h) :: t := by
    show splitC ';' ('0' :: 'm' :: '\x1b' :: '[' :: body) = _
    simp [splitC, e]
  refine ⟨"0m\x1b[".toList ++ h, ?_⟩
  rw [parseSequence, hs, parseParts]
  have hd : isDigit ("0m\x1b[".toList ++ h) = false := by
    show isDigit ('0' :: 'm' :: '\x1b' :: '[' :: h) = false
    have hm : isDigitChar 'm' = false := by decide
    simp [isDigit, hm]
  rw [startsColor, hd]
  simp [applySetter, applyUnsetter]

/-- After a reset sequence there is no sequence that can be read. -/
theorem after_reset {env : Color.Env} (henv : env.space = .trueColor) (s : Span) (l : List Span) (h : ∀ u ∈ s :: l, Printed u) (pos : Nat) :
    ∃ body text stop ms, styleMatchesGo pos 0 (RESET ++ (joined env (s :: l) ++ [ESC])) = (body, text, stop) :: ms ∧
      ∀ o, ∃ p, parseSequence body o = (o, .ok (some p)) := by
  have hs := h s List.mem_cons_self
  obtain ⟨p, tail, h1, h2⟩ := joined_split henv fun x hx => h x (List.mem_cons_of_mem _ hx)
  by_cases hb : Unadorned s
  · have hline : RESET ++ (joined env (s :: l) ++ [ESC]) = '\x1b' :: '[' :: (['0'] ++ 'm' :: ((s.text ++ p) ++ '\x1b' :: tail)) := by
      rw [joined, List.flatMap_cons, hb.render env hs.link, List.append_assoc, List.append_assoc, ← h1]
      simp [RESET, joined]
    rw [hline, styleMatchesGo_run pos tail (body := ['0']) (by intro c hc; rw [List.mem_singleton.mp hc]; exact ⟨by decide, by decide, by decide⟩) (t := s.text ++ p) ⟨by simp [hs.text.1], ?_⟩]
    · exact ⟨_, _, _, _, rfl, fun o => ⟨_, parse_zero o⟩⟩
    · intro c hc
      rcases List.mem_append.mp hc with hc | hc
      · exact hs.text.2 c hc
      · exact h2 c hc
  · obtain ⟨hren, hbody⟩ := hs.render henv hb
    have hline : RESET ++ (joined env (s :: l) ++ [ESC]) = '\x1b' :: '[' :: '0' :: 'm' :: '\x1b' :: '[' ::
        (s.total env ++ 'm' :: (s.text ++ '\x1b' :: ("[0m".toList ++ (joined env l ++ [ESC])))) := by
      rw [joined, List.flatMap_cons, hren]
      simp [RESET, joined]
    have hm : styleMatch (RESET ++ (joined env (s :: l) ++ [ESC])) =
        some ("0m\x1b[".toList ++ s.total env, s.text, '\x1b' :: ("[0m".toList ++ (joined env l ++ [ESC]))) := by
      rw [hline]
      have := styleBody_of "0m\x1b[".toList ("[0m".toList ++ (joined env l ++ [ESC])) hbody hs.text
      rw [← this]
      simp [styleMatch, styleBody, styleText, ESC]
    have hc : ∃ cs, RESET ++ (joined env (s :: l) ++ [ESC]) = '\x1b' :: cs := ⟨_, hline⟩
    obtain ⟨cs, hcs⟩ := hc
    rw [hcs] at hm ⊢
    rw [styleMatchesGo, hm]
    exact ⟨_, _, _, _, rfl, parse_zero_m _⟩

theorem bare_joined (env : Color.Env) {l : List Span} (h : ∀ s ∈ l, Printed s) (hb : ∀ s ∈ l, Unadorned s) :
    joined env l = l.flatMap (·.text) := by
  induction l with
  | nil => rfl
  | cons s l ih =>
    have := ih (fun x hx => h x (List.mem_cons_of_mem _ hx)) (fun x hx => hb x (List.mem_cons_of_mem _ hx))
    rw [joined] at this
    rw [joined, List.flatMap_cons, List.flatMap_cons, this, (hb s List.mem_cons_self).render env (h s List.mem_cons_self).link]

/-- **C118**, exactly: what reading the string of a list of spans gives. Spans without styles and colours that come first are
dropped if a styled span follows, and merged otherwise. The first styled span is read. If it is the last span, its reset sequence
is read as a text; otherwise reading fails, whatever comes next. -/
theorem C118_exact (env : Color.Env) (henv : env.space = .trueColor) (lead rest : List Span)
    (h : ∀ s ∈ lead ++ rest, Printed s) (hlead : ∀ s ∈ lead, Unadorned s) (hrest : ∀ s, rest.head? = some s → ¬ Unadorned s) :
    match rest with
    | [] => yieldFrom (joined env (lead ++ rest)) = (if lead = [] then [] else [{ text := lead.flatMap (·.text) }], none)
    | [s] => ∃ t, t.eq env s = true ∧ yieldFrom (joined env (lead ++ rest)) = ([t, { text := "\x1b[0m".toList }], none)
    | s :: _ :: _ => ∃ t, t.eq env s = true ∧ yieldFrom (joined env (lead ++ rest)) = ([t], some .valueError) := by
  have hl : ∀ s ∈ lead, Printed s := fun s hs => h s (List.mem_append_left _ hs)
  have hplain : ∀ c ∈ lead.flatMap (·.text), c ≠ '\x1b' := by
    intro c hc
    obtain ⟨s, hs, hc⟩ := List.mem_flatMap.mp hc
    exact (hl s hs).text.2 c hc
  have hsplit : ∀ l, joined env (lead ++ l) = lead.flatMap (·.text) ++ joined env l := by
    intro l
    rw [joined, List.flatMap_append, ← bare_joined env hl hlead]; rfl
  match rest, h, hrest with
  | [], h, _ =>
    simp only
    rw [List.append_nil, bare_joined env hl hlead]
    by_cases he : lead = []
    · subst he
      rw [if_pos rfl]
      decide +kernel
    · rw [if_neg he]
      refine C30_plain_line _ ⟨?_, hplain⟩
      intro e
      obtain ⟨s, l', rfl⟩ := List.exists_cons_of_ne_nil he
      rw [List.flatMap_cons, List.append_eq_nil_iff] at e
      exact (hl s List.mem_cons_self).text.1 e.1
  | [s], h, hrest =>
    simp only
    have hs : Printed s := h s (by simp)
    have hb : ¬ Unadorned s := hrest s rfl
    obtain ⟨t, o, h1, h2, h3⟩ := hs.parse henv hb
    obtain ⟨hren, hbody⟩ := hs.render henv hb
    refine ⟨t, h1, ?_⟩
    have hgo := styleMatchesGo_run (0 + (lead.flatMap (·.text)).length) "[0m\x1b".toList hbody hs.text
    have hline : joined env (lead ++ [s]) ++ [ESC] =
        lead.flatMap (·.text) ++ '\x1b' :: '[' :: (s.total env ++ 'm' :: (s.text ++ '\x1b' :: "[0m\x1b".toList)) := by
      rw [hsplit, joined, List.flatMap_cons, hren]; simp [RESET, ESC]
    have hlast := joined_last henv h
    unfold yieldFrom
    rw [endsWith_esc hlast]
    simp only [Bool.false_eq_true, if_false, styleMatches]
    rw [rstrip_esc hlast, hline, styleMatchesGo_text 0 _ hplain, hgo, yieldLoop, h2]
    simp only [h3, styleMatchesGo_tail, yieldLoop]
    have hj : joined env (lead ++ [s]) =
        (lead.flatMap (·.text) ++ '\x1b' :: '[' :: (s.total env ++ 'm' :: s.text)) ++ "\x1b[0m".toList := by
      rw [hsplit, joined, List.flatMap_cons, hren]; simp [RESET]
    have hlen : 0 + (lead.flatMap (·.text)).length + ((s.total env).length + s.text.length + 3) =
        (lead.flatMap (·.text) ++ '\x1b' :: '[' :: (s.total env ++ 'm' :: s.text)).length := by
      simp only [List.length_append, List.length_cons]; omega
    rw [hlen, hj, if_pos (by rw [List.length_append]; simp), List.drop_left]
    rfl
  | s :: u :: us, h, hrest =>
    simp only
    have hs : Printed s := h s (by simp)
    have hb : ¬ Unadorned s := hrest s rfl
    obtain ⟨t, o, h1, h2, h3⟩ := hs.parse henv hb
    obtain ⟨hren, hbody⟩ := hs.render henv hb
    refine ⟨t, h1, ?_⟩
    have hgo := styleMatchesGo_run (0 + (lead.flatMap (·.text)).length) ("[0m".toList ++ (joined env (u :: us) ++ [ESC])) hbody hs.text
    have hline : joined env (lead ++ s :: u :: us) ++ [ESC] =
        lead.flatMap (·.text) ++ '\x1b' :: '[' :: (s.total env ++ 'm' :: (s.text ++ '\x1b' :: ("[0m".toList ++ (joined env (u :: us) ++ [ESC])))) := by
      rw [hsplit, joined, List.flatMap_cons, hren]; simp [RESET, ESC, joined]
    have hlast := joined_last henv h
    unfold yieldFrom
    rw [endsWith_esc hlast]
    simp only [Bool.false_eq_true, if_false, styleMatches]
    rw [hline, styleMatchesGo_text 0 _ hplain, hgo, yieldLoop, h2]
    simp only [h3]
    obtain ⟨body, text, stop, ms, e1, e2⟩ := after_reset henv u us
      (fun x hx => h x (List.mem_append_right _ (List.mem_cons_of_mem _ hx)))
      (0 + (lead.flatMap (·.text)).length + ((s.total env).length + s.text.length + 3))
    have e1' : styleMatchesGo (0 + (lead.flatMap (·.text)).length + ((s.total env).length + s.text.length + 3)) 0
        ('\x1b' :: ("[0m".toList ++ (joined env (u :: us) ++ [ESC]))) = (body, text, stop) :: ms := e1
    obtain ⟨p, e2⟩ := e2 o
    rw [e1', yieldLoop, e2]

/-- **C118** holds for no other lists: reading the string gives back the spans only if there is at most one, without styles and colours. -/
theorem C118_iff (env : Color.Env) (henv : env.space = .trueColor) (l : List Span) (h : ∀ s ∈ l, Printed s) :
    (∃ ts, yieldFrom (joined env l) = (ts, none) ∧ List.Forall₂ (fun t s => t.eq env s = true) ts l) ↔
      l = [] ∨ ∃ s, l = [s] ∧ Unadorned s := by
  have hsplit : ∀ l : List Span, ∃ lead rest, l = lead ++ rest ∧ (∀ s ∈ lead, Unadorned s) ∧ ∀ s, rest.head? = some s → ¬ Unadorned s := by
    intro l
    refine ⟨l.takeWhile (fun s => decide (Unadorned s)), l.dropWhile (fun s => decide (Unadorned s)), (List.takeWhile_append_dropWhile).symm, ?_, ?_⟩
    · intro s hs
      simpa using List.all_takeWhile (p := fun s => decide (Unadorned s)) (l := l) |> List.all_eq_true.mp |> (· s hs)
    · intro s hs
      have := List.head?_dropWhile_not (fun s => decide (Unadorned s)) l
      rw [hs] at this
      simpa using this
  obtain ⟨lead, rest, rfl, hlead, hrest⟩ := hsplit l
  have key := C118_exact env henv lead rest h hlead hrest
  constructor
  · rintro ⟨ts, h1, h2⟩
    rcases rest with _ | ⟨s, _ | ⟨u, us⟩⟩
    · simp only at key
      rw [h1] at key
      have hlen := h2.length_eq
      rw [List.append_nil] at hlen ⊢
      injection key with key
      match lead, key, hlen with
      | [], _, _ => exact .inl rfl
      | [s], _, _ => exact .inr ⟨s, rfl, hlead s (by simp)⟩
      | a :: b :: m, key, hlen =>
        rw [if_neg (by simp)] at key
        rw [key] at hlen
        simp at hlen
    · obtain ⟨t, -, e⟩ := key
      rw [h1] at e
      injection e with e
      rw [e] at h2
      have hlen := h2.length_eq
      match lead, hlen, h, h2 with
      | [], hlen, _, _ => simp at hlen
      | [a], hlen, h, h2 =>
        rcases h2 with _ | ⟨_, h2⟩
        rcases h2 with _ | ⟨h2, _⟩
        have : "\x1b[0m".toList = s.text := by
          unfold Span.eq at h2
          simp only [Bool.and_eq_true, decide_eq_true_eq] at h2
          exact h2.1.1.1.1.1
        exact absurd rfl ((h s (by simp)).text.2 '\x1b' (by rw [← this]; simp))
      | a :: b :: m, hlen, _, _ => simp at hlen
    · obtain ⟨t, -, e⟩ := key
      rw [h1] at e
      injection e with _ e
      cases e
  · rintro (e | ⟨s, e, hb⟩)
    · rw [e]
      exact ⟨[], by rw [show joined env [] = [] from rfl]; decide +kernel, .nil⟩
    · have hs : Printed s := h s (by rw [e]; simp)
      rw [e]
      refine ⟨[{ text := s.text }], ?_, .cons ?_ .nil⟩
      · rw [bare_joined env (by simpa using hs) (by simpa using hb)]
        simpa using C30_plain_line s.text hs.text
      · have : s = { text := s.text } := by
          obtain ⟨b1, b2, b3⟩ := hb
          have h1 := hs.link
          have h2 := hs.reset
          cases s
          simp only at b1 b2 b3 h1 h2
          simp [b1, b2, b3, h1, h2]
        rw [← this]
        simp [Span.eq, Span.attrsEq, hb.1, hb.2.1, Span.optEq]

/-- C118 for writing, which holds for one span without styles and colours: writing the string is writing the span. -/
theorem C118_write_partial (env : Color.Env) (s : Span) (hs : Printed s) (hb : Unadorned s) (pos : Int × Int) (bg : Color) (w : World) :
    Terminal.write env (.str (s.render env)) (some pos) bg w = Terminal.write env (.spans [s]) (some pos) bg w := by
  rw [C66_write, hb.render env hs.link, C30_plain_line s.text hs.text]
  have : s = { text := s.text } := by
    obtain ⟨b1, b2, b3⟩ := hb
    have h1 := hs.link
    have h2 := hs.reset
    cases s
    simp only at b1 b2 b3 h1 h2
    simp [b1, b2, b3, h1, h2]
  rw [← this]
  rfl

/-- C118 is violated by every span with a style or a colour: the string is written with four characters more, those of the reset
sequence, in the cells after the text. -/
theorem C118_write_violated (env : Color.Env) (henv : env.space = .trueColor) (s : Span) (hs : Printed s) (hb : ¬ Unadorned s)
    (pos : Int × Int) (bg : Color) (w : World) :
    ∃ t, t.eq env s = true ∧ Terminal.write env (.str (s.render env)) (some pos) bg w =
      Terminal.write env (.spans [t, { text := "\x1b[0m".toList }]) (some pos) bg w := by
  obtain ⟨t, h1, h2⟩ := C118_exact env henv [] [s] (by simpa using hs) (by simp) (by simpa using hb)
  refine ⟨t, h1, ?_⟩
  have : joined env ([] ++ [s]) = s.render env := by simp [joined]
  rw [this] at h2
  rw [C66_write, h2]
  rfl

/-- C118 is violated by every list in which a span follows one with a style or a colour: writing the string raises and writes nothing. -/
theorem C118_raises_violated (env : Color.Env) (henv : env.space = .trueColor) (before : List Span) (s u : Span) (after : List Span)
    (h : ∀ x ∈ before ++ s :: u :: after, Printed x) (hb : ¬ Unadorned s) (pos : Int × Int) (bg : Color) (w : World) :
    Terminal.write env (.str (joined env (before ++ s :: u :: after))) (some pos) bg w = (w, .error .valueError) := by
  suffices ∃ ts, yieldFrom (joined env (before ++ s :: u :: after)) = (ts, some .valueError) by
    obtain ⟨ts, e⟩ := this
    rw [C66_write, e]
    rfl
  -- the first span with a style
  obtain ⟨lead, v, x, m, e, hlead, hv⟩ : ∃ lead v x m, before ++ s :: u :: after = lead ++ v :: x :: m ∧ (∀ y ∈ lead, Unadorned y) ∧ ¬ Unadorned v := by
    clear h
    induction before with
    | nil => exact ⟨[], s, u, after, rfl, by simp, hb⟩
    | cons a before ih =>
      by_cases ha : Unadorned a
      · obtain ⟨lead, v, x, m, e, h1, h2⟩ := ih
        refine ⟨a :: lead, v, x, m, by rw [List.cons_append, e]; rfl, ?_, h2⟩
        intro y hy
        rcases List.mem_cons.mp hy with rfl | hy
        · exact ha
        · exact h1 y hy
      · cases before with
        | nil => exact ⟨[], a, s, u :: after, rfl, by simp, ha⟩
        | cons b before => exact ⟨[], a, b, before ++ s :: u :: after, rfl, by simp, ha⟩
  rw [e] at h ⊢
  obtain ⟨t, -, h2⟩ := C118_exact env henv lead (v :: x :: m) h hlead (by rintro y hy; simp at hy; rw [← hy]; exact hv)
  exact ⟨_, h2⟩

/-- The theorems are not vacuous: a bold span, a coloured span and a plain one, which can be written as spans. -/
example : let l : List Span := [{ text := ['a'], style := { bold := true } }, { text := ['b'], fg := some { r := 1, g := 2, b := 3 } }, { text := ['c'] }]
    (∀ s ∈ l, Printed s) ∧ (∃ s ∈ l, ¬ Unadorned s) ∧ (∃ s ∈ l, Unadorned s) ∧
    (Terminal.write {} (.spans l) (some (0, 0)) Color.black { scr := Screen.init 4 1 }).2 = .ok 3 ∧
    (Terminal.write {} (.str (joined {} l)) (some (0, 0)) Color.black { scr := Screen.init 4 1 }).2 = .error .valueError := by
  refine ⟨?_, ⟨_, List.mem_cons_self, by decide⟩, ⟨{ text := ['c'] }, by simp, by decide⟩, by decide +kernel, by decide +kernel⟩
  intro s hs
  simp only [List.mem_cons, List.not_mem_nil, or_false] at hs
  rcases hs with rfl | rfl | rfl
  · exact ⟨⟨by simp, by decide⟩, rfl, rfl, rfl, by simp, by simp⟩
  · refine ⟨⟨by simp, by decide⟩, rfl, rfl, rfl, ?_, by simp⟩
    intro c hc
    cases hc
    exact ⟨⟨⟨by decide, by decide, by decide⟩, rfl, .inl rfl⟩, rfl⟩
  · exact ⟨⟨by simp, by decide⟩, rfl, rfl, rfl, by simp, by simp⟩

/-- The string of a bold letter changes five cells, the span itself one. -/
example : let s : Span := { text := ['a'], style := { bold := true } }
    (Terminal.write {} (.spans [s]) (some (0, 0)) Color.black { scr := Screen.init 6 1 }).2 = .ok 1 ∧
    (Terminal.write {} (.str (s.render {})) (some (0, 0)) Color.black { scr := Screen.init 6 1 }).2 = .ok 5 := by
  decide +kernel

end Slate
