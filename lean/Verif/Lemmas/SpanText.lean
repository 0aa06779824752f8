import Verif.Lemmas.Cells
import Verif.Lemmas.Color
import Verif.Lemmas.Regex
import Verif.Lemmas.Parse

/-! The control sequences of a span: their characters, their numbers, their effect. -/

namespace Slate
open Py Term

/-! ### Characters of the sequences -/

theorem mem_join {sep : Str} {ss : List Str} {c : Char} (h : c ∈ join sep ss) :
    c ∈ sep ∨ ∃ s ∈ ss, c ∈ s := by
  induction ss with
  | nil => simp [join] at h
  | cons a t ih =>
    cases t with
    | nil => exact .inr ⟨a, by simp, h⟩
    | cons b t =>
      rw [join, List.mem_append, List.mem_append] at h
      rcases h with (h | h) | h
      · exact .inr ⟨a, by simp, h⟩
      · exact .inl h
      · rcases ih h with h | ⟨s, hs, h⟩
        · exact .inl h
        · exact .inr ⟨s, List.mem_cons_of_mem _ hs, h⟩

theorem bodyChar_of_isDig {c : Char} (h : isDig c = true) : BodyChar c :=
  ⟨isDig_ne h (by decide), isDig_ne h (by decide), isDig_ne h (by decide)⟩

theorem codeStr_bodyChar {ns : List Nat} : ∀ c ∈ codeStr ns, BodyChar c := by
  intro c h
  rcases mem_join h with h | ⟨s, hs, h⟩
  · rw [List.mem_singleton.mp h]; exact ⟨by decide, by decide, by decide⟩
  · obtain ⟨n, -, rfl⟩ := List.mem_map.mp hs
    exact bodyChar_of_isDig (dec_isDig h)

theorem colorless_bodyChar (st : Style) : ∀ c ∈ st.colorless, BodyChar c := by
  rw [colorless_eq]; exact codeStr_bodyChar

theorem convert_bodyChar (env : Color.Env) (k : Color) : ∀ c ∈ Color.convert env k, BodyChar c := by
  obtain ⟨n, ns, h, -⟩ := convert_sendable env k
  rw [h]; exact codeStr_bodyChar

/-- The colour was made directly, from a hex string, or from a code without the
characters `m`, `H` and newline. -/
def CleanCode (c : Color) : Prop :=
  ∀ k, c.ctor = some k → startsWith k ['#'] = true ∨ ∀ x ∈ k, BodyChar x

theorem CleanCode.bodyChar {env : Color.Env} {k : Color} (h : CleanCode k) :
    ∀ c ∈ Color.ansi env k, BodyChar c := by
  unfold Color.ansi
  split
  · rename_i s hs
    split
    · rename_i hc
      rcases h s hs with h | h
      · rw [h] at hc; simp at hc
      · exact h
    · exact convert_bodyChar env k
  · exact convert_bodyChar env k

theorem total_bodyChar {env : Color.Env} {s : Span} (hf : ∀ c, s.fg = some c → CleanCode c)
    (hb : ∀ c, s.bg = some c → CleanCode c) : ∀ c ∈ s.total env, BodyChar c := by
  have hsep : BodyChar ';' := ⟨by decide, by decide, by decide⟩
  have ht : ∀ c ∈ join [';'] (s.colorCodes env), BodyChar c := by
    intro c h
    rcases mem_join h with h | ⟨k, hk, h⟩
    · rw [List.mem_singleton.mp h]; exact hsep
    · unfold Span.colorCodes at hk
      rcases List.mem_append.mp hk with hk | hk <;> obtain ⟨x, hx, rfl⟩ := List.mem_map.mp hk
      · exact (hf x (by simpa using hx)).bodyChar c h
      · exact (hb x (by simpa using hx)).bodyChar c h
  intro c h
  unfold Span.total at h
  simp only at h
  split at h
  · exact ht c h
  · rcases List.mem_append.mp h with h | h
    · rcases List.mem_append.mp h with h | h
      · exact ht c h
      · split at h
        · rw [List.mem_singleton.mp h]; exact hsep
        · simp at h
    · exact colorless_bodyChar s.style c h

theorem subAnsi_wrapSgr {body : Str} (rest : Str) (h : ∀ c ∈ body, BodyChar c) :
    subAnsi (wrapSgr body ++ rest) = subAnsi rest := by
  unfold wrapSgr
  split
  · rfl
  · simpa using subAnsi_sgr rest h

theorem subAnsi_reset (rest : Str) : subAnsi (RESET ++ rest) = subAnsi rest := by
  have h := subAnsi_sgr (body := ['0']) rest (by
    intro c hc; rw [List.mem_singleton.mp hc]; exact ⟨by decide, by decide, by decide⟩)
  simpa [RESET] using h

/-! ### Numbers of the sequences -/

/-- `ns` are the numbers of the code of an optional colour. -/
def CodeOf (env : Color.Env) (c : Option Color) (ns : List Nat) : Prop :=
  match c with
  | none => ns = []
  | some c => c.ansi env = codeStr ns ∧ ns ≠ []

theorem codeStr_ne_nil {ns : List Nat} (h : ns ≠ []) : codeStr ns ≠ [] := by
  obtain ⟨n, t, rfl⟩ := List.exists_cons_of_ne_nil h
  unfold codeStr
  cases t <;> simp [join, dec_ne_nil]

theorem codeStr_append {a b : List Nat} (ha : a ≠ []) (hb : b ≠ []) :
    codeStr (a ++ b) = codeStr a ++ [';'] ++ codeStr b := by
  unfold codeStr
  rw [List.map_append, join_append _ _ (by simpa using ha) (by simpa using hb)]

theorem colors_join {env : Color.Env} {s : Span} {f b : List Nat} (hf : CodeOf env s.fg f)
    (hb : CodeOf env s.bg b) : join [';'] (s.colorCodes env) = codeStr (f ++ b) := by
  unfold Span.colorCodes
  cases hfg : s.fg with
  | none =>
    rw [hfg] at hf
    cases hbg : s.bg with
    | none => rw [hbg] at hb; simp only [CodeOf] at hf hb; subst hf hb; rfl
    | some y => rw [hbg] at hb; simp only [CodeOf] at hf hb; subst hf; simp [join, hb.1]
  | some x =>
    rw [hfg] at hf
    cases hbg : s.bg with
    | none => rw [hbg] at hb; simp only [CodeOf] at hf hb; subst hb; simp [join, hf.1]
    | some y =>
      rw [hbg] at hb; simp only [CodeOf] at hf hb
      rw [codeStr_append hf.2 hb.2]
      simp [join, hf.1, hb.1]

theorem total_eq {env : Color.Env} {s : Span} {f b : List Nat} (hf : CodeOf env s.fg f)
    (hb : CodeOf env s.bg b) : s.total env = codeStr (f ++ b ++ styleNums s.style) := by
  have hc : s.style.colorless = codeStr (styleNums s.style) := colorless_eq s.style
  unfold Span.total
  simp only
  rw [colors_join hf hb, hc]
  by_cases hs : styleNums s.style = []
  · rw [hs, if_pos (by rfl), List.append_nil]
  · rw [if_neg (by simpa using codeStr_ne_nil hs)]
    by_cases hfb : f ++ b = []
    · rw [hfb, if_neg (by simp [codeStr, join])]; rfl
    · rw [if_pos (by simpa using codeStr_ne_nil hfb), codeStr_append hfb hs]

/-- The look of a span: its styles and its colours. -/
def spanAttr (den : Color → TColor) (s : Span) (a : Attr) : Attr :=
  applyStyle s.style (paintOpt den s.bg (paintOpt den s.fg a))

theorem CodeOf.of_sendable {env : Color.Env} {den : Color → TColor} {c : Option Color}
    (h : ∀ x, c = some x → Sendable env x (den x)) :
    ∃ ns, CodeOf env c ns ∧ ∀ rest a, sgr (ns ++ rest) a = sgr rest (paintOpt den c a) := by
  cases c with
  | none => exact ⟨[], rfl, fun _ _ => rfl⟩
  | some x =>
    obtain ⟨n, ns, h1, h2⟩ := h x rfl
    exact ⟨n :: ns, ⟨h1, by simp⟩, h2⟩

theorem run_wrap_codeStr (st : State) (ns : List Nat) (rest : Str) (hm : st.mode = .ground) :
    run st (wrapSgr (codeStr ns) ++ rest) = run { st with pen := sgr ns st.pen } rest := by
  cases ns with
  | nil => simp [codeStr, join, wrapSgr, sgr]
  | cons n ns =>
    have hne : (codeStr (n :: ns)).isEmpty = false := by
      simpa using codeStr_ne_nil (ns := n :: ns) (by simp)
    have := run_sgr st n ns rest hm
    simp only [wrapSgr, hne]
    simpa [codeStr] using this

/-- The opening sequences of a span give the pen the look of the span. -/
theorem run_sequences {env : Color.Env} {den : Color → TColor} {s : Span}
    (hf : ∀ x, s.fg = some x → Sendable env x (den x)) (hb : ∀ x, s.bg = some x → Sendable env x (den x))
    (st : State) (rest : Str) (hm : st.mode = .ground) :
    run st (s.sequences env ++ rest) = run { st with pen := spanAttr den s st.pen } rest := by
  obtain ⟨f, h1, h2⟩ := CodeOf.of_sendable hf
  obtain ⟨b, h3, h4⟩ := CodeOf.of_sendable hb
  rw [Span.sequences, total_eq h1 h3, run_wrap_codeStr st _ rest hm]
  have := sgr_styleNums s.style [] (paintOpt den s.bg (paintOpt den s.fg st.pen))
  rw [List.append_nil] at this
  rw [List.append_assoc, h2, h4, this]
  rfl

theorem sequences_nil {env : Color.Env} {den : Color → TColor} {s : Span}
    (hf : ∀ x, s.fg = some x → Sendable env x (den x)) (hb : ∀ x, s.bg = some x → Sendable env x (den x))
    (h : s.sequences env = []) (a : Attr) : spanAttr den s a = a := by
  obtain ⟨f, h1, h2⟩ := CodeOf.of_sendable hf
  obtain ⟨b, h3, h4⟩ := CodeOf.of_sendable hb
  have hn : f ++ b ++ styleNums s.style = [] := by
    by_contra hne
    have := codeStr_ne_nil hne
    rw [Span.sequences, total_eq h1 h3, wrapSgr, if_neg (by rw [List.isEmpty_iff]; exact this)] at h
    simp at h
  have := sgr_styleNums s.style [] (paintOpt den s.bg (paintOpt den s.fg a))
  rw [List.append_nil, ← h4, ← h2, ← List.append_assoc, hn] at this
  exact this.symm

/-! ### Printing text -/

/-- The terminal after `text` was printed with the current pen. -/
def printed (st : State) (text : Str) : State :=
  { st with
    grid := fun r c =>
      if r = st.row ∧ st.col ≤ c ∧ c < st.col + text.length then
        { ch := text.getD (c - st.col) ' ', attr := st.pen }
      else st.grid r c
    col := st.col + text.length
    log := st.log ++ (List.range text.length).map fun k => (st.row, st.col + k) }

theorem run_printable (st : State) (text rest : Str) (hm : st.mode = .ground)
    (h : ∀ c ∈ text, Printable c) : run st (text ++ rest) = run (printed st text) rest := by
  induction text generalizing st with
  | nil =>
    have : printed st [] = st := by
      cases st; simp [printed]
      funext r c
      rw [if_neg (by omega)]
    rw [this]; rfl
  | cons x t ih =>
    rw [List.cons_append, run_cons, step_print _ _ hm (h x (by simp)),
      ih _ (by exact hm) fun c hc => h c (by simp [hc])]
    congr 1
    simp only [printed, List.length_cons, State.mk.injEq, true_and]
    refine ⟨by omega, ?_, ?_⟩
    · funext r c
      by_cases h1 : r = st.row ∧ st.col + 1 ≤ c ∧ c < st.col + 1 + t.length
      · rw [if_pos h1, if_pos (by omega)]
        have : c - st.col = (c - (st.col + 1)) + 1 := by omega
        rw [this, List.getD_cons_succ]
      · rw [if_neg h1]
        by_cases h2 : r = st.row ∧ c = st.col
        · rw [setGrid, if_pos h2, if_pos (by omega)]
          simp [h2.2]
        · rw [setGrid, if_neg h2, if_neg (by omega)]
    · rw [List.range_succ_eq_map]
      simp [Function.comp_def]
      omega

theorem run_str (st : State) (body rest : Str) (hm : st.mode = .str)
    (h : ∀ c ∈ body, c ≠ '\x1b' ∧ c ≠ '\x07') :
    run st (body ++ '\x1b' :: '\\' :: rest) = run { st with mode := .ground } rest := by
  induction body with
  | nil =>
    rw [List.nil_append, run_cons, run_cons]
    congr 1
    have e1 : step st '\x1b' = { st with mode := .strEsc } := by unfold step; rw [hm]; simp
    rw [e1]; simp [step]
  | cons c cs ih =>
    rw [List.cons_append, run_cons]
    have hc := h c (by simp)
    have : step st c = st := by unfold step; rw [hm]; simp [hc.1, hc.2]
    rw [this]
    exact ih fun x hx => h x (by simp [hx])

/-- An OSC string changes nothing visible. -/
theorem run_osc (st : State) (body rest : Str) (hm : st.mode = .ground)
    (h : ∀ c ∈ body, c ≠ '\x1b' ∧ c ≠ '\x07') :
    run st ('\x1b' :: ']' :: (body ++ '\x1b' :: '\\' :: rest)) = run st rest := by
  rw [run_cons, run_cons]
  have e1 : step st '\x1b' = { st with mode := .esc } := by unfold step; rw [hm]; simp
  have e2 : step { st with mode := .esc } ']' = { st with mode := .str } := by simp [step]
  rw [e1, e2, run_str _ _ _ rfl h]
  congr 1
  cases st; simp at hm; subst hm; rfl

end Slate
