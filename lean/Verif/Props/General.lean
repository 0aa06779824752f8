import Verif.Props.Width
import Verif.Props.Print
import Verif.Props.Span

/-!
# Text that is miscounted or lost, for all texts (C24, C93, C96)
-/

namespace Slate
open Py Term

/-! ### Widths -/

theorem csiRest_none {t : Str} (h : ∀ c ∈ t, c ≠ 'm' ∧ c ≠ 'H') : csiRest t = none := by
  induction t with
  | nil => rfl
  | cons c t ih =>
    have hc := h c (by simp)
    rw [csiRest, if_neg (by simp [hc.1, hc.2]), ih fun d hd => h d (by simp [hd])]
    split <;> rfl

theorem csiRest_some {t : Str} (h : ∀ c ∈ t, c ≠ 'm' ∧ c ≠ 'H' ∧ c ≠ '\n') {f : Char} (hf : f = 'm' ∨ f = 'H') (rest : Str) :
    csiRest (t ++ f :: rest) = some rest := by
  induction t with
  | nil => rw [List.nil_append, csiRest, if_pos hf]
  | cons c t ih =>
    have hc := h c (by simp)
    rw [List.cons_append, csiRest, if_neg (by simp [hc.1, hc.2.1]), if_neg hc.2.2, ih fun d hd => h d (by simp [hd])]

theorem subAnsi_keep {c : Char} {t : Str} (h : ansiRest (c :: t) = none) : subAnsi (c :: t) = c :: subAnsi t := by
  unfold subAnsi
  rw [subAnsiGo, h]

/-- A control sequence is a `CSI`, parameters, and a final character. -/
def csi (ps : Str) (f : Char) : Str := '\x1b' :: '[' :: (ps ++ [f])

theorem run_csi_text (T : State) (hT : T.mode = .ground) (ps : Str) (hps : ∀ c ∈ ps, ParamChar c) (f : Char) (hf : 64 ≤ f.toNat ∧ f.toNat ≤ 126)
    (t : Str) (ht : ∀ c ∈ t, Printable c) : (run T (csi ps f ++ t)).log.length = T.log.length + t.length := by
  have h1 := run_csi T ps t f hT hps hf
  have h2 := run_printable (dispatch ps f T) t [] ((dispatch_mode _ _ _).trans hT) ht
  rw [List.append_nil] at h2
  rw [csi, List.cons_append, List.cons_append, List.append_assoc, List.singleton_append, h1, h2]
  simp [run_nil, printed, dispatch_log]

theorem plain_param {c : Char} (h : ParamChar c) : c ≠ 'm' ∧ c ≠ 'H' ∧ c ≠ '\n' ∧ c ≠ '\x1b' := by
  refine ⟨?_, ?_, ?_, ?_⟩ <;> rintro rfl <;> revert h <;> unfold ParamChar <;> decide

theorem plain_printable {c : Char} (h : Printable c) : c ≠ '\n' ∧ c ≠ '\x1b' := by
  constructor <;> rintro rfl <;> exact absurd h (by decide)

/-- C96 is violated by every control sequence that does not end with `m` or `H`: if there is no such character in the text that follows it,
the sequence counts as text, ... -/
theorem C96_counted_violated (T : State) (hT : T.mode = .ground) (ps : Str) (hps : ∀ c ∈ ps, ParamChar c) (f : Char)
    (hf : 64 ≤ f.toNat ∧ f.toNat ≤ 126) (hf' : f ≠ 'm' ∧ f ≠ 'H') (t : Str) (ht : ∀ c ∈ t, Printable c ∧ c ≠ 'm' ∧ c ≠ 'H') :
    (run T (csi ps f ++ t)).log.length = T.log.length + t.length ∧ Core.widthStr (csi ps f ++ t) = ps.length + 3 + t.length := by
  refine ⟨run_csi_text T hT ps hps f hf t fun c hc => (ht c hc).1, ?_⟩
  have hpl : ∀ c ∈ ps ++ [f] ++ t, c ≠ 'm' ∧ c ≠ 'H' := by
    intro c hc
    simp only [List.mem_append, List.mem_singleton] at hc
    rcases hc with (hc | rfl) | hc
    · exact ⟨(plain_param (hps c hc)).1, (plain_param (hps c hc)).2.1⟩
    · exact hf'
    · exact (ht c hc).2
  have hesc : ∀ c ∈ '[' :: (ps ++ [f] ++ t), c ≠ '\x1b' := by
    intro c hc
    simp only [List.mem_cons, List.mem_append, List.not_mem_nil, or_false] at hc
    rcases hc with rfl | (hc | rfl) | hc
    · decide
    · exact (plain_param (hps c hc)).2.2.2
    · rintro rfl; revert hf; decide
    · exact (plain_printable (ht c hc).1).2
  have e : csi ps f ++ t = '\x1b' :: '[' :: (ps ++ [f] ++ t) := rfl
  have h1 := subAnsi_text [] hesc
  rw [List.append_nil, subAnsi_nil, List.append_nil] at h1
  rw [e, Core.widthStr, subAnsi_keep (by rw [ansiRest]; exact csiRest_none hpl), h1]
  simp only [List.length_cons, List.length_append, List.length_nil]
  omega

/-- ... and otherwise the text up to the first such character is not counted. -/
theorem C96_swallowed_violated (T : State) (hT : T.mode = .ground) (ps : Str) (hps : ∀ c ∈ ps, ParamChar c) (f : Char)
    (hf : 64 ≤ f.toNat ∧ f.toNat ≤ 126) (hf' : f ≠ 'm' ∧ f ≠ 'H') (t rest : Str) (m : Char) (hm : m = 'm' ∨ m = 'H')
    (ht : ∀ c ∈ t, Printable c ∧ c ≠ 'm' ∧ c ≠ 'H') (hr : ∀ c ∈ rest, Printable c) :
    (run T (csi ps f ++ (t ++ m :: rest))).log.length = T.log.length + (t.length + 1 + rest.length) ∧
    Core.widthStr (csi ps f ++ (t ++ m :: rest)) = rest.length := by
  refine ⟨?_, ?_⟩
  · rw [run_csi_text T hT ps hps f hf]
    · simp only [List.length_append, List.length_cons]; omega
    · intro c hc
      simp only [List.mem_append, List.mem_cons] at hc
      rcases hc with hc | rfl | hc
      · exact (ht c hc).1
      · rcases hm with rfl | rfl <;> decide
      · exact hr c hc
  · have hpl : ∀ c ∈ ps ++ [f] ++ t, c ≠ 'm' ∧ c ≠ 'H' ∧ c ≠ '\n' := by
      intro c hc
      simp only [List.mem_append, List.mem_singleton] at hc
      rcases hc with (hc | rfl) | hc
      · exact ⟨(plain_param (hps c hc)).1, (plain_param (hps c hc)).2.1, (plain_param (hps c hc)).2.2.1⟩
      · exact ⟨hf'.1, hf'.2, by rintro rfl; revert hf; decide⟩
      · exact ⟨(ht c hc).2.1, (ht c hc).2.2, (plain_printable (ht c hc).1).1⟩
    have e : csi ps f ++ (t ++ m :: rest) = '\x1b' :: (('[' :: (ps ++ [f] ++ t ++ [m])) ++ rest) := by simp [csi]
    have h0 : ansiRest ('\x1b' :: (('[' :: (ps ++ [f] ++ t ++ [m])) ++ rest)) = some rest := by
      have := csiRest_some hpl hm rest
      rw [List.cons_append, ansiRest, List.append_assoc, List.singleton_append]
      exact this
    have h1 := subAnsi_text [] fun c hc => (plain_printable (hr c hc)).2
    rw [List.append_nil, subAnsi_nil, List.append_nil] at h1
    rw [e, Core.widthStr, subAnsi_match h0, h1]

/-- Clearing a line, and hiding the cursor. -/
example : Core.widthStr "\x1b[2Kyes".toList = 7 ∧ Core.widthStr "\x1b[?25lWarm up".toList = 3 :=
  ⟨(C96_counted_violated { grid := fun _ _ => { ch := ' ', attr := Attr.clean } } rfl ['2'] (by unfold ParamChar; decide) 'K' (by decide) (by decide) "yes".toList
      (by decide)).2,
   (C96_swallowed_violated { grid := fun _ _ => { ch := ' ', attr := Attr.clean } } rfl "?25".toList (by unfold ParamChar; decide) 'l' (by decide) (by decide) "War".toList
      " up".toList 'm' (by decide) (by decide) (by decide)).2⟩

theorem stRest_text {t : Str} (h : ∀ c ∈ t, c ≠ '\x1b') : stRest t = none := by
  induction t with
  | nil => rfl
  | cons c t ih =>
    have hc' : ¬ '\x1b' = c := fun e => h c (by simp) e.symm
    rw [stRest, if_neg (by simp [List.isPrefixOf, hc']), ih fun d hd => h d (by simp [hd])]
    split <;> rfl

theorem run_body (T : State) (hT : T.mode = .str) (body rest : Str) (h : ∀ c ∈ body, Printable c) : run T (body ++ rest) = run T rest := by
  induction body with
  | nil => rfl
  | cons c body ih =>
    have h7 : c ≠ '\x07' := by rintro rfl; exact absurd (h '\x07' (by simp)) (by decide)
    have hs : step T c = T := by
      unfold step
      rw [hT]
      simp [(plain_printable (h c (by simp))).2, h7]
    rw [List.cons_append, run_cons, hs, ih fun d hd => h d (by simp [hd])]

/-- C96 is violated by every command that ends with `BEL`: the terminal shows none of it, and all of it counts as text. -/
theorem C96_bells_violated (T : State) (hT : T.mode = .ground) (body t : Str) (hb : ∀ c ∈ body, Printable c) (ht : ∀ c ∈ t, Printable c) :
    (run T ("\x1b]".toList ++ body ++ '\x07' :: t)).log.length = T.log.length + t.length ∧
    Core.widthStr ("\x1b]".toList ++ body ++ '\x07' :: t) = body.length + 3 + t.length := by
  have e : "\x1b]".toList ++ body ++ '\x07' :: t = '\x1b' :: ']' :: (body ++ '\x07' :: t) := by simp
  have hesc : ∀ c ∈ ']' :: (body ++ '\x07' :: t), c ≠ '\x1b' := by
    intro c hc
    simp only [List.mem_cons, List.mem_append] at hc
    rcases hc with rfl | hc | rfl | hc
    · decide
    · exact (plain_printable (hb c hc)).2
    · decide
    · exact (plain_printable (ht c hc)).2
  rw [e]
  refine ⟨?_, ?_⟩
  · have e1 : step T '\x1b' = { T with mode := .esc } := by unfold step; rw [hT]; simp
    have e2 : step { T with mode := .esc } ']' = { T with mode := .str } := by unfold step; simp
    have e3 : step { T with mode := .str } '\x07' = T := by unfold step; simp [← hT]
    have h2 := run_printable T t [] hT ht
    rw [List.append_nil] at h2
    rw [run_cons, e1, run_cons, e2, run_body _ rfl _ _ hb, run_cons, e3, h2]
    simp [run_nil, printed]
  · have h1 := subAnsi_text [] hesc
    rw [List.append_nil, subAnsi_nil, List.append_nil] at h1
    rw [Core.widthStr, subAnsi_keep (by rw [ansiRest]; exact stRest_text fun c hc => hesc c (by simp [hc])), h1]
    simp only [List.length_cons, List.length_append]
    omega

/-- A title and a word. -/
example : Core.widthStr "\x1b]0;abc\x07hi".toList = 10 :=
  (C96_bells_violated { grid := fun _ _ => { ch := ' ', attr := Attr.clean } } rfl "0;abc".toList "hi".toList (by decide) (by decide)).2

theorem stRest_none {a : Str} (h : ∀ c ∈ a, c ≠ '\x1b' ∧ c ≠ '\n') (rest : Str) : stRest (a ++ '\n' :: rest) = none := by
  induction a with
  | nil => rw [List.nil_append, stRest, if_neg (by simp [List.isPrefixOf]), if_pos rfl]
  | cons c a ih =>
    have hc := h c (by simp)
    have hc' : ¬ '\x1b' = c := fun e => hc.1 e.symm
    rw [List.cons_append, stRest, if_neg (by simp [List.isPrefixOf, hc']), if_neg hc.2, ih fun d hd => h d (by simp [hd])]

/-- C24 is violated by every hyperlink with a line break: the target and the sequence around it count as text. -/
theorem C24_newline_violated (env : Color.Env) (s : Span) (htext : ∀ c ∈ s.text, c ≠ ESC) (hlink : ∀ c ∈ s.hyperlink, c ≠ ESC)
    (hnl : '\n' ∈ s.hyperlink) (hfg : ∀ c, s.fg = some c → CleanCode c) (hbg : ∀ c, s.bg = some c → CleanCode c) :
    Core.widthSpan s = s.text.length ∧ Core.widthStr (s.render env) = s.text.length + s.hyperlink.length + 7 := by
  refine ⟨rfl, ?_⟩
  have hcomb : ∀ rest, subAnsi (s.sequences env ++ s.text ++
      (if s.resetAfter && !(s.sequences env).isEmpty then RESET else []) ++ rest) =
      s.text ++ subAnsi rest := by
    intro rest
    rw [List.append_assoc, List.append_assoc, Span.sequences,
      subAnsi_wrapSgr _ (total_bodyChar hfg hbg), subAnsi_text _ (by simpa [ESC] using htext)]
    split
    · rw [subAnsi_reset]
    · rfl
  obtain ⟨a, b, hab, ha⟩ := List.eq_append_cons_of_mem hnl
  have hne : s.hyperlink.isEmpty = false := by rw [hab]; cases a <;> rfl
  have h2 := subAnsi_osc (body := "8;;".toList) [] (by decide)
  have e3 : "\x1b]8;;\x1b\\".toList = '\x1b' :: ']' :: ("8;;".toList ++ '\x1b' :: '\\' :: []) := rfl
  rw [← e3, subAnsi_nil] at h2
  have h3 : ∀ rest, stRest ("8;;".toList ++ s.hyperlink ++ rest) = none := by
    intro rest
    rw [hab, ← List.append_assoc, List.append_assoc, List.cons_append]
    refine stRest_none (fun c hc => ?_) _
    rcases List.mem_append.mp hc with hc | hc
    · exact (by decide : ∀ c ∈ "8;;".toList, c ≠ '\x1b' ∧ c ≠ '\n') c hc
    · exact ⟨hlink c (by rw [hab]; simp [hc]), fun e => ha (e ▸ hc)⟩
  have h4 : s.render env = '\x1b' :: ((']' :: ("8;;".toList ++ s.hyperlink)) ++ ('\x1b' :: '\\' :: (s.sequences env ++ s.text ++
      (if s.resetAfter && !(s.sequences env).isEmpty then RESET else []) ++ "\x1b]8;;\x1b\\".toList))) := by
    unfold Span.render
    simp only [hne, Bool.false_eq_true, if_false]
    simp
  have h5 : ∀ c ∈ (']' :: ("8;;".toList ++ s.hyperlink)), c ≠ '\x1b' := by
    intro c hc
    rcases List.mem_cons.mp hc with rfl | hc
    · decide
    rcases List.mem_append.mp hc with hc | hc
    · exact (by decide : ∀ c ∈ "8;;".toList, c ≠ '\x1b') c hc
    · exact hlink c hc
  have h6 : ∀ t, subAnsi ('\x1b' :: '\\' :: t) = '\x1b' :: '\\' :: subAnsi t := by
    intro t
    rw [subAnsi_keep (by rw [ansiRest] <;> simp), subAnsi_keep (by rw [ansiRest] <;> simp)]
  rw [Core.widthStr, h4, subAnsi_keep (by rw [List.cons_append, ansiRest]; exact h3 _), subAnsi_text _ h5, h6, hcomb, h2]
  simp only [List.length_cons, List.length_append, List.append_nil]
  rw [show "8;;".toList.length = 3 from rfl]
  omega

/-- A bold link over two lines. -/
example : let s : Span := { text := "go".toList, hyperlink := "x\ny".toList, style := { bold := true } }
    Core.widthSpan s = 2 ∧ Core.widthStr (s.render {}) = 12 :=
  C24_newline_violated {} _ (by decide) (by decide) (by decide) (by simp) (by simp)

/-! ### Text before the first sequence -/

theorem yieldFrom_lead (lead : Str) (hl : PlainText lead) (items : List Item) (hne : items ≠ []) (h : ∀ it ∈ items, it.Ok) :
    yieldFrom (lead ++ lineOf items) = (spansOf {} items, none) := by
  have hlast : ∀ c, (lead ++ lineOf items).getLast? = some c → c ≠ ESC := by
    intro c hc
    rw [List.getLast?_append] at hc
    cases hl2 : (lineOf items).getLast? with
    | none =>
      obtain ⟨it, its, rfl⟩ := List.exists_cons_of_ne_nil hne
      rw [List.getLast?_eq_none_iff] at hl2
      simp [lineOf, Item.str] at hl2
    | some d => rw [hl2] at hc; simp at hc; exact lineOf_last h c (by rw [hl2, hc])
  unfold yieldFrom
  rw [endsWith_esc hlast]
  simp only [Bool.false_eq_true, if_false, styleMatches]
  have h1 := (styleMatches_items items h (0 + lead.length) [] styleMatchesGo_end).2 {} 0 rfl (by
    intro us hus o
    obtain ⟨it, hit, rfl⟩ := List.mem_map.mp hus
    exact seqEff_bad (h it hit).units o)
  have h2 := styleMatchesGo_text 0 (t := lead) (lineOf items ++ ['\x1b']) hl.2
  rw [← List.append_assoc] at h2
  rw [show ([ESC] : Str) = ['\x1b'] from rfl, h2, h1]
  simp only
  rw [show (['\x1b'] : Str) = [ESC] from rfl, rstrip_esc hlast, if_neg hne, if_neg (by simp)]

/-- C93 is violated by all text before the first sequence: whatever the screen, writing it is like writing the line without it. -/
theorem C93_lead_violated (env : Color.Env) (lead : Str) (hl : PlainText lead) (items : List Item) (hne : items ≠ []) (h : ∀ it ∈ items, it.Ok)
    (pos : Int × Int) (bg : Color) (w : World) :
    Terminal.write env (.str (lead ++ lineOf items)) (some pos) bg w = Terminal.write env (.str (lineOf items)) (some pos) bg w := by
  rw [C66_write, C66_write, yieldFrom_lead lead hl items hne h, yieldFrom_items h]

/-- The first word of this line is lost. -/
example : ∃ (lead : Str) (items : List Item), PlainText lead ∧ items ≠ [] ∧ (∀ it ∈ items, it.Ok) ∧
    lead ++ lineOf items = "hello \x1b[1mworld".toList := by
  refine ⟨"hello ".toList, [{ units := [.set 1], text := "world".toList }], by unfold PlainText; decide, by simp, ?_, by decide +kernel⟩
  intro it hit
  rw [List.mem_singleton.mp hit]
  refine ⟨by simp, ?_, by simp, by decide⟩
  intro u hu
  rw [List.mem_singleton.mp hu]
  exact ⟨by omega, by omega⟩

end Slate
