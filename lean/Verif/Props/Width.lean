import Verif.Spec.Width
import Verif.Model.Core
import Verif.Lemmas.Regex
import Verif.Lemmas.SpanText

/-!
# C96: the width of text with escape sequences in it
-/

namespace Slate
open Py Term Markup

/-! ### One piece -/

theorem bodyChar_of_param {c : Char} (h : Markup.Param c) : BodyChar c := by
  have e : c = Char.ofNat c.toNat := (Char.ofNat_toNat c).symm
  have : ∀ n < 64, 0x30 ≤ n → BodyChar (Char.ofNat n) := by unfold BodyChar; decide
  rw [e]
  exact this _ (by have := h.2; omega) h.1

theorem paramChar_of_param {c : Char} (h : Markup.Param c) : ParamChar c := by
  unfold Markup.Param at h
  exact ⟨by omega, by omega⟩

theorem subAnsi_cup {body : Str} (rest : Str) (h : ∀ c ∈ body, BodyChar c) :
    subAnsi ('\x1b' :: '[' :: (body ++ 'H' :: rest)) = subAnsi rest := by
  have hr : csiRest (body ++ 'H' :: rest) = some rest := by
    induction body with
    | nil => simp [csiRest]
    | cons c cs ih =>
      obtain ⟨h1, h2, h3⟩ := h c (by simp)
      rw [List.cons_append, csiRest, if_neg (by simp [h1, h2]), if_neg h3]
      exact ih fun c hc => h c (by simp [hc])
  have := subAnsi_match (c := '\x1b') (a := '[' :: (body ++ ['H'])) (rest := rest) (by
    have : ansiRest ('\x1b' :: '[' :: (body ++ 'H' :: rest)) = some rest := hr
    simpa using this)
  simpa using this

theorem subAnsi_image {body : Str} (rest : Str) (h : ∀ c ∈ body, c ≠ '\x1b' ∧ c ≠ '\n') :
    subAnsi ('\x1b' :: '_' :: 'G' :: (body ++ '\x1b' :: '\\' :: rest)) = subAnsi rest := by
  have := subAnsi_match (c := '\x1b') (a := '_' :: 'G' :: (body ++ ['\x1b', '\\'])) (rest := rest) (by
    have : ansiRest ('\x1b' :: '_' :: 'G' :: (body ++ '\x1b' :: '\\' :: rest)) = some rest := stRest_of rest h
    simpa using this)
  simpa using this

theorem run_apc (st : State) (body rest : Str) (hm : st.mode = .ground)
    (h : ∀ c ∈ body, c ≠ '\x1b' ∧ c ≠ '\x07') :
    run st ('\x1b' :: '_' :: (body ++ '\x1b' :: '\\' :: rest)) = run st rest := by
  rw [run_cons, run_cons]
  have e1 : step st '\x1b' = { st with mode := .esc } := by unfold step; rw [hm]; simp
  have e2 : step { st with mode := .esc } '_' = { st with mode := .str } := by simp [step]
  rw [e1, e2, run_str _ _ _ rfl h]
  congr 1
  cases st; simp at hm; subst hm; rfl

theorem printable_ne_esc {c : Char} (h : Printable c) : c ≠ '\x1b' := by
  rintro rfl
  exact absurd h.1 (by decide)

/-- `RE_ANSI` removes exactly the part of a piece that is not shown. -/
theorem subAnsi_piece (p : Piece) (h : p.Ok) (rest : Str) : subAnsi (p.chars ++ rest) = p.shown ++ subAnsi rest := by
  cases p with
  | text t => exact subAnsi_text rest fun c hc => printable_ne_esc (h c hc)
  | rendition ps =>
    have := subAnsi_sgr rest fun c hc => bodyChar_of_param (h c hc)
    simpa [Piece.chars, Piece.shown] using this
  | position ps =>
    have := subAnsi_cup rest fun c hc => bodyChar_of_param (h c hc)
    simpa [Piece.chars, Piece.shown] using this
  | command b =>
    have := subAnsi_osc rest fun c hc => ⟨(h c hc).1, (h c hc).2.2⟩
    simpa [Piece.chars, Piece.shown] using this
  | image b =>
    have := subAnsi_image rest fun c hc => ⟨(h c hc).1, (h c hc).2.2⟩
    simpa [Piece.chars, Piece.shown] using this

theorem dispatch_log (ps : List Char) (f : Char) (s : State) : (dispatch ps f s).log = s.log := by
  unfold dispatch
  split
  · rfl
  · split
    · rfl
    · split <;> rfl

/-- The terminal prints as many cells as the piece shows characters. -/
theorem run_piece (p : Piece) (h : p.Ok) (T : State) (hT : T.mode = .ground) :
    (run T p.chars).mode = .ground ∧ (run T p.chars).log.length = T.log.length + p.shown.length := by
  cases p with
  | text t =>
    have := run_printable T t [] hT h
    rw [List.append_nil] at this
    simp only [Piece.chars, Piece.shown, this, run_nil, printed, hT, List.length_append, List.length_map, List.length_range]
    trivial
  | rendition ps =>
    have := run_csi T ps [] 'm' hT (fun c hc => paramChar_of_param (h c hc)) (by decide)
    simp only [Piece.chars, Piece.shown, this, run_nil, dispatch_mode, dispatch_log, hT]
    trivial
  | position ps =>
    have := run_csi T ps [] 'H' hT (fun c hc => paramChar_of_param (h c hc)) (by decide)
    simp only [Piece.chars, Piece.shown, this, run_nil, dispatch_mode, dispatch_log, hT]
    trivial
  | command b =>
    have := run_osc T b [] hT fun c hc => ⟨(h c hc).1, (h c hc).2.1⟩
    simp only [Piece.chars, Piece.shown, this, run_nil, hT]
    trivial
  | image b =>
    have := run_apc T ('G' :: b) [] hT (by
      intro c hc
      rcases List.mem_cons.mp hc with rfl | hc
      · decide
      · exact ⟨(h c hc).1, (h c hc).2.1⟩)
    rw [List.cons_append] at this
    simp only [Piece.chars, Piece.shown, this, run_nil, hT]
    trivial

/-! ### The property -/

/-- **C96**, partial: the width of a text with renditions, cursor positions, hyperlinks or other commands and images in it is
the number of cells that the terminal prints when the text is sent to it, and what remains without them is what is shown.
What is missing: other control sequences (`C96_other_sequence_violated`), commands that end with `BEL`
(`C96_bell_violated`), newlines and other control characters (`C96_control_violated`). -/
theorem C96_width_partial (pieces : List Piece) (h : ∀ p ∈ pieces, p.Ok) (T : State) (hT : T.mode = .ground) :
    subAnsi (pieces.flatMap Piece.chars) = pieces.flatMap Piece.shown ∧
    (run T (pieces.flatMap Piece.chars)).log.length = T.log.length + Core.widthStr (pieces.flatMap Piece.chars) := by
  have h1 : ∀ pieces : List Piece, (∀ p ∈ pieces, p.Ok) →
      subAnsi (pieces.flatMap Piece.chars) = pieces.flatMap Piece.shown := by
    intro pieces h
    induction pieces with
    | nil => rfl
    | cons p ps ih =>
      rw [List.flatMap_cons, List.flatMap_cons, subAnsi_piece p (h p (by simp)), ih fun p hp => h p (by simp [hp])]
  refine ⟨h1 pieces h, ?_⟩
  unfold Core.widthStr
  rw [h1 pieces h]
  induction pieces generalizing T with
  | nil => rfl
  | cons p ps ih =>
    obtain ⟨m, l⟩ := run_piece p (h p (by simp)) T hT
    rw [List.flatMap_cons, List.flatMap_cons, run_append, ih (fun p hp => h p (by simp [hp])) _ m, l, List.length_append]
    omega

/-- A bold word with an image and a link in it. -/
example : ∃ pieces : List Piece, (∀ p ∈ pieces, p.Ok) ∧
    pieces.flatMap Piece.chars = "\x1b[1mab\x1b_Gf=100;QUJD\x1b\\\x1b]8;;https://x\x1b\\cd\x1b]8;;\x1b\\\x1b[0m".toList ∧
    Core.widthStr (pieces.flatMap Piece.chars) = 4 := by
  refine ⟨[.rendition ['1'], .text "ab".toList, .image "f=100;QUJD".toList, .command "8;;https://x".toList, .text "cd".toList,
    .command "8;;".toList, .rendition ['0']], by decide +kernel, by decide +kernel, by decide +kernel⟩

/-- C96 is violated for the other control sequences, also those that the library itself sends: hiding the cursor swallows the
text up to the next `m` or `H`. -/
theorem C96_other_sequence_violated (T : State) (hT : T.mode = .ground) :
    (run T "\x1b[?25lWarm".toList).log.length = T.log.length + 4 ∧ Core.widthStr "\x1b[?25lWarm".toList = 0 ∧
    (run T "\x1b[2Kyes".toList).log.length = T.log.length + 3 ∧ Core.widthStr "\x1b[2Kyes".toList = 7 := by
  obtain ⟨mode, row, col, pen, grid, log⟩ := T
  cases hT
  refine ⟨?_, by decide +kernel, ?_, by decide +kernel⟩
  · have := run_csi ⟨.ground, row, col, pen, grid, log⟩ "?25".toList "Warm".toList 'l' rfl
      (by unfold ParamChar; decide +kernel) (by decide)
    rw [show "\x1b[?25lWarm".toList = '\x1b' :: '[' :: ("?25".toList ++ 'l' :: "Warm".toList) from rfl, this]
    have := run_printable (dispatch "?25".toList 'l' ⟨.ground, row, col, pen, grid, log⟩) "Warm".toList []
      (dispatch_mode _ _ _) (by unfold Printable; decide +kernel)
    rw [List.append_nil] at this
    simp only [this, run_nil, printed, dispatch_log, List.length_append, List.length_map, List.length_range]
    rfl
  · have := run_csi ⟨.ground, row, col, pen, grid, log⟩ "2".toList "yes".toList 'K' rfl
      (by unfold ParamChar; decide +kernel) (by decide)
    rw [show "\x1b[2Kyes".toList = '\x1b' :: '[' :: ("2".toList ++ 'K' :: "yes".toList) from rfl, this]
    have := run_printable (dispatch "2".toList 'K' ⟨.ground, row, col, pen, grid, log⟩) "yes".toList []
      (dispatch_mode _ _ _) (by unfold Printable; decide +kernel)
    rw [List.append_nil] at this
    simp only [this, run_nil, printed, dispatch_log, List.length_append, List.length_map, List.length_range]
    rfl

/-- C96 is violated for commands that end with `BEL`, the form in which the library itself sets the title: the command counts as
text. -/
theorem C96_bell_violated (T : State) (hT : T.mode = .ground) :
    run T "\x1b]0;abc\x07".toList = T ∧ Core.widthStr "\x1b]0;abc\x07".toList = 8 := by
  obtain ⟨mode, row, col, pen, grid, log⟩ := T
  cases hT
  exact ⟨rfl, by decide +kernel⟩

/-- C96 is violated for control characters, which show nothing and count as one cell. -/
theorem C96_control_violated (T : State) (hT : T.mode = .ground) (c : Char) (hc : ¬ Printable c) (he : c ≠ '\x1b') :
    (run T [c]).log = T.log ∧ Core.widthStr [c] = 1 := by
  constructor
  · obtain ⟨mode, row, col, pen, grid, log⟩ := T
    cases hT
    simp only [run_cons, run_nil, step, he, hc, if_false]
    split
    · rfl
    · split <;> rfl
  · unfold Core.widthStr subAnsi
    rw [subAnsiGo, ansiRest_of_ne _ he]
    rfl

end Slate
