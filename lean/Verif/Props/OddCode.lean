import Verif.Props.General

/-!
# C24: colours whose code ends the sequence early
-/

namespace Slate
open Py

theorem subAnsi_csi {body : Str} (rest : Str) (h : ∀ c ∈ body, c ≠ 'm' ∧ c ≠ 'H' ∧ c ≠ '\n') {f : Char} (hf : f = 'm' ∨ f = 'H') :
    subAnsi ('\x1b' :: '[' :: (body ++ f :: rest)) = subAnsi rest := by
  unfold subAnsi
  rw [subAnsiGo, show ansiRest ('\x1b' :: '[' :: (body ++ f :: rest)) = some rest by rw [ansiRest]; exact csiRest_some h hf rest]
  simp only
  have key : ∀ (a : Str), subAnsiGo ((a ++ rest).length - rest.length) (a ++ rest) = subAnsiGo 0 rest := by
    intro a
    rw [show (a ++ rest).length - rest.length = a.length by simp]
    induction a with
    | nil => rfl
    | cons c a ih => exact ih
  have := key ('[' :: (body ++ [f]))
  simpa using this

/-- C24 is violated by every colour whose code contains one of the letters "m" and "H", which end a sequence: what follows it in the code
is counted as text, and so is the "m" at the end of the sequence. -/
theorem C24_code_violated (env : Color.Env) (text : Str) (ht : ∀ c ∈ text, c ≠ ESC) (col : Color) (pre post : Str) (f : Char)
    (hf : f = 'm' ∨ f = 'H') (hcol : col.ansi env = pre ++ f :: post) (hpre : ∀ c ∈ pre, c ≠ 'm' ∧ c ≠ 'H' ∧ c ≠ '\n')
    (hpost : ∀ c ∈ post, c ≠ ESC) :
    let s : Span := { text := text, fg := some col }
    Core.widthSpan s = text.length ∧ Core.widthStr (s.render env) = text.length + post.length + 1 := by
  intro s
  refine ⟨rfl, ?_⟩
  have hne : (pre ++ f :: post).isEmpty = false := by cases pre <;> rfl
  have h0 : ({} : Style).colorless = [] := by decide
  have ht' : s.total env = pre ++ f :: post := by
    unfold Span.total Span.colorCodes
    simp [s, hcol, h0, join]
  have hseq : s.sequences env = '\x1b' :: '[' :: (pre ++ f :: (post ++ ['m'])) := by
    unfold Span.sequences wrapSgr
    rw [ht', hne]
    simp
  have hr : s.render env = '\x1b' :: '[' :: (pre ++ f :: ((post ++ 'm' :: text) ++ (RESET ++ []))) := by
    unfold Span.render
    simp [hseq, s]
  rw [Core.widthStr, hr, subAnsi_csi _ hpre hf, subAnsi_text, subAnsi_reset]
  · simp [subAnsi, subAnsiGo]
    omega
  · intro c hc
    rcases List.mem_append.mp hc with hc | hc
    · exact hpost c hc
    · rcases List.mem_cons.mp hc with rfl | hc
      · decide
      · exact ht c hc

/-- The colour that `from_ansi` makes of "3Hx;5;1" meets the hypotheses. -/
example : ∃ c, Color.fromAnsi "3Hx;5;1".toList = .ok c ∧ c.ansi {} = "3".toList ++ 'H' :: "x;5;1".toList ∧
    Core.widthStr (Span.render {} { text := "ab".toList, fg := some c }) = 8 := by
  refine ⟨⟨170, 0, 0, false, 1, .eightBit, some "3Hx;5;1".toList⟩, ?_⟩
  decide +kernel

end Slate
