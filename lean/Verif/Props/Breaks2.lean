import Verif.Props.Breaks
import Verif.Lemmas.Group

/-!
# C88 exactly: line breaks in spans of any style
-/

namespace Slate
open Py

/-! ## What is expected -/

/-- The `j`-th character of the span goes one row down instead of taking a place: it is a line break, and either the span has no
style, or it is the last character of a span that does not reset. -/
def Falls (s : Span) (j : Nat) : Prop :=
  s.text[j]? = some '\n' ∧ (s.style = {} ∨ (j + 1 = s.text.length ∧ s.resetAfter = false))

instance (s : Span) (j : Nat) : Decidable (Falls s j) := by unfold Falls; infer_instance

/-- How far the first `j` characters of a span lead, in row-major order. -/
def led (width : Nat) (s : Span) (j : Nat) : Nat :=
  ((List.range j).map fun k => if Falls s k then width else 1).sum

/-- Where the `j`-th character of `s` comes after the spans `pre`, when the text starts at (`x`, `y`). -/
def ledTo (width x y : Nat) (pre : List Span) (s : Span) (j : Nat) : Nat :=
  y * width + x + (pre.map fun t => led width t t.text.length).sum + led width s j

/-! ## What is stored -/

theorem wrapSgr_eq_nil {st : Style} (h : wrapSgr st.colorless = []) : st = {} := by
  apply styleNums_inj
  unfold wrapSgr at h
  split at h
  · rename_i he
    rw [List.isEmpty_iff, colorless_eq] at he
    cases hn : styleNums st with
    | nil => rfl
    | cons n ns =>
      exfalso
      rw [hn] at he
      cases ns with
      | nil => exact dec_ne_nil n (by simpa [join] using he)
      | cons m ms => simp [join] at he
  · simp at h

theorem styledChar_falls (s : Span) {j : Nat} {c : Char} (hc : s.text[j]? = some c) :
    styledChar s j c = ['\n'] ↔ Falls s j := by
  have hj : j < s.text.length := (List.getElem?_eq_some_iff.mp hc).1
  unfold Falls
  rw [hc]
  simp only [Option.some.injEq]
  constructor
  · intro h
    have hcn : c = '\n' := by
      by_contra hne
      have hx : (styledChar s j c).getLast? ≠ some '\n' := by
        unfold styledChar
        simp only
        split
        · simpa using hne
        · split
          · simp
          · simpa using hne
      exact hx (by rw [h]; rfl)
    refine ⟨hcn, ?_⟩
    by_cases hst : s.style = {}
    · exact .inl hst
    · right
      have hseq : wrapSgr s.style.colorless ≠ [] := fun h => hst (wrapSgr_eq_nil h)
      unfold styledChar at h
      simp only at h
      split at h
      · exfalso
        obtain ⟨a, l, e⟩ := List.exists_cons_of_ne_nil hseq
        rw [e] at h
        simp at h
      · refine ⟨by omega, ?_⟩
        by_contra hr
        rw [if_pos ⟨hseq, by simpa using hr⟩] at h
        have := congrArg List.length h
        simp at this
  · rintro ⟨rfl, h⟩
    rcases h with h | ⟨h1, h2⟩
    · exact styledChar_plain h _ _
    · unfold styledChar
      simp only
      rw [if_neg (by omega), if_neg (by rw [h2]; simp)]

theorem steps_led (w : Nat) (s : Span) (j : Nat) (hj : j ≤ s.text.length) :
    stepsOf w ((s.cellChars.take j).map fun c => (s, c)) = led w s j := by
  unfold stepsOf led
  congr 1
  apply List.ext_getElem?
  intro k
  simp only [List.map_map, List.getElem?_map, List.getElem?_take]
  split
  · rename_i hk
    rw [cellChars_getElem?, List.getElem?_range hk]
    cases hc : s.text[k]? with
    | none =>
      rw [List.getElem?_eq_none_iff] at hc
      omega
    | some c =>
      simp only [Option.map_some, Function.comp_apply, stepOf, Option.some.injEq]
      exact if_congr (styledChar_falls s hc) rfl rfl
  · rename_i hk
    rw [List.getElem?_eq_none (by simpa using hk)]
    rfl

theorem steps_ledLine (w : Nat) (spans : List Span) :
    stepsOf w (lineChars spans) = (spans.map fun t => led w t t.text.length).sum := by
  induction spans with
  | nil => simp [stepsOf, lineChars]
  | cons s rest ih =>
    have h1 := steps_led w s s.text.length (Nat.le_refl _)
    rw [show s.cellChars.take s.text.length = s.cellChars by
      rw [← length_cellChars s]; exact List.take_length] at h1
    unfold stepsOf at h1 ih ⊢
    simp only [lineChars, List.flatMap_cons, List.map_append, List.sum_append, List.map_cons, List.sum_cons] at h1 ih ⊢
    rw [h1, ih]

/-- **C88**, exactly, for all styles. A write at an in-bounds cursor of a screen that has not scrolled, and that does not scroll, of any
spans with opaque or no backgrounds: the call succeeds; every character that does not fall is stored in its style and colours at the
row-major position of the characters before it, where a falling one counts as one row and any other, including all other line breaks, as one place;
of a stored line break only the style sequence is left, or nothing is removed if the reset follows it; and no other cell changes. -/
theorem C88_exact_partial (env : Color.Env) (tb : Color) (force : Bool) (w : World)
    (hs : Shape w.scr.width w.scr.height w.scr.cells) (hok : CacheOk w.cache)
    (h0 : w.scr.offset = 0) (x y : Nat) (hx : x < w.scr.width)
    (spans : List Span) (hop : ∀ s ∈ spans, ∀ b, s.bg = some b → b.alpha = 1)
    (hns : (write env spans (some ((x : Int), (y : Int))) tb force w).1.scr.offset = 0) :
    let r := write env spans (some ((x : Int), (y : Int))) tb force w
    let stored (s : Span) (j : Nat) (c : Char) : Cell :=
      storedCell s (if c = '\n' ∧ j + 1 < s.text.length then wrapSgr s.style.colorless else styledChar s j c)
    (∃ n, r.2 = .ok n) ∧
    (∀ pre s post, spans = pre ++ s :: post → ∀ j c, s.text[j]? = some c → ¬ Falls s j →
      let i := ledTo w.scr.width x y pre s j
      i < w.scr.height * w.scr.width →
      ∃ old, cellAt w.scr.cells (i % w.scr.width) (i / w.scr.width) = some old ∧
        cellAt r.1.scr.cells (i % w.scr.width) (i / w.scr.width) =
          some (if (stored s j c).eq old then old else stored s j c)) ∧
    (∀ x' y', x' < w.scr.width →
      (∀ pre s post, spans = pre ++ s :: post → ∀ j < s.text.length, ¬ Falls s j →
        ledTo w.scr.width x y pre s j ≠ y' * w.scr.width + x') →
      cellAt r.1.scr.cells x' y' = cellAt w.scr.cells x' y') := by
  intro r stored
  obtain ⟨h1, h2, h3⟩ := write_walk env tb force w hs hok h0 x y hx spans hop hns
  have hplace : ∀ pre s, ∀ j ≤ s.text.length,
      y * w.scr.width + x + stepsOf w.scr.width (lineChars pre ++
        (s.cellChars.take j).map fun c => (s, c)) = ledTo w.scr.width x y pre s j := by
    intro pre s j hj
    have e1 := steps_ledLine w.scr.width pre
    have e2 := steps_led w.scr.width s j hj
    unfold stepsOf at e1 e2 ⊢
    rw [List.map_append, List.sum_append, e1, e2]
    unfold ledTo
    omega
  refine ⟨h1, ?_, ?_⟩
  · intro pre s post hsp j c hj hc i hi
    have hlt : j < s.text.length := (List.getElem?_eq_some_iff.mp hj).1
    obtain ⟨tail, hl⟩ := lineChars_cut pre s post j c hj
    rw [← hsp] at hl
    have := h2 _ _ _ _ hl (fun h => hc ((styledChar_falls s hj).mp h))
    simp only [hplace pre s j hlt.le] at this
    have := this hi
    have hstr : rstrip (· == '\n') (styledChar s j c) =
        if c = '\n' ∧ j + 1 < s.text.length then wrapSgr s.style.colorless else styledChar s j c := by
      by_cases hcn : c = '\n'
      · subst hcn
        by_cases hlast : j + 1 < s.text.length
        · rw [if_pos ⟨rfl, hlast⟩]
          unfold styledChar
          simp only
          rw [if_pos hlast]
          have hne : wrapSgr s.style.colorless ≠ [] := by
            intro h
            exact hc ⟨hj, .inl (wrapSgr_eq_nil h)⟩
          have hlastc : (wrapSgr s.style.colorless).getLast? = some 'm' := by
            unfold wrapSgr at hne ⊢
            split
            · rename_i h; rw [if_pos h] at hne; exact absurd rfl hne
            · exact List.getLast?_concat
          obtain ⟨l, hl'⟩ := List.getLast?_eq_some_iff.mp hlastc
          rw [hl']
          simp [rstrip]
        · rw [if_neg (by simp [hlast])]
          unfold styledChar
          simp only
          rw [if_neg hlast]
          split
          · simp [rstrip]
          · rename_i hn
            exfalso
            apply hc
            refine ⟨hj, ?_⟩
            by_cases hst : s.style = {}
            · exact .inl hst
            · right
              refine ⟨by omega, ?_⟩
              by_contra hr
              exact hn ⟨fun h => hst (wrapSgr_eq_nil h), by simpa using hr⟩
      · rw [if_neg (by simp [hcn]), rstrip_styledChar_ne hcn]
    rw [hstr] at this
    exact this
  · intro x' y' hx' hout
    apply h3 x' y' hx'
    intro pre s c post hl hc
    obtain ⟨pre', post', j, d, e1, e2, e3, e4⟩ := lineChars_mem hl
    have hlt : j < s.text.length := (List.getElem?_eq_some_iff.mp e2).1
    rw [e4, hplace pre' s j hlt.le]
    refine hout pre' s post' e1 j hlt fun hd => hc ?_
    rw [e3]
    exact (styledChar_falls s e2).mpr hd

/-- A bold "a⏎b⏎" that does not reset and an unstyled "⏎c", from (0, 0) of a 4x3 screen: the first line break takes the place (1, 0), the
other two fall. -/
example : let w : World := { scr := Screen.init 4 3 }
    let s : Span := { text := "a\nb\n".toList, style := { bold := true }, resetAfter := false }
    let t : Span := { text := "\nc".toList }
    let r := write {} [s, t] (some (0, 0)) Color.black false w
    r.1.scr.offset = 0 ∧ ¬ Falls s 1 ∧ Falls s 3 ∧ Falls t 0 ∧
    ledTo 4 0 0 [] s 1 = 1 ∧ cellAt r.1.scr.cells 1 0 = some (storedCell s "\x1b[1m".toList) ∧
    ledTo 4 0 0 [] s 2 = 2 ∧ cellAt r.1.scr.cells 2 0 = some (storedCell s "\x1b[1mb".toList) ∧
    ledTo 4 0 0 [s] t 1 = 11 ∧ cellAt r.1.scr.cells 3 2 = some (storedCell t ['c']) := by decide +kernel

/-! ## The violations, for all texts -/

theorem led_plain (w : Nat) (s : Span) (j : Nat) (h : ∀ k < j, ¬ Falls s k) : led w s j = j := by
  unfold led
  have : (List.range j).map (fun k => if Falls s k then w else 1) = List.replicate j 1 := by
    rw [List.eq_replicate_iff]
    refine ⟨by simp, ?_⟩
    intro b hb
    obtain ⟨k, hk, rfl⟩ := List.mem_map.mp hb
    rw [if_neg (h k (List.mem_range.mp hk))]
  rw [this]
  simp

theorem led_succ (w : Nat) (s : Span) (j : Nat) : led w s (j + 1) = led w s j + if Falls s j then w else 1 := by
  unfold led
  rw [List.range_succ]
  simp

/-- **C88 is violated** by every unstyled text whose first line is not empty and is followed by another one, wherever it fits: the character
after the line break is stored under the end of the first line, not under its beginning. -/
theorem C88_staircase_violated (env : Color.Env) (tb : Color) (force : Bool) (w : World)
    (hs : Shape w.scr.width w.scr.height w.scr.cells) (hok : CacheOk w.cache)
    (h0 : w.scr.offset = 0) (x y : Nat) (hy : y + 1 < w.scr.height) (s : Span) (hst : s.style = {})
    (hop : ∀ b, s.bg = some b → b.alpha = 1) (line : Str) (hline : '\n' ∉ line) (hne : line ≠ []) (c : Char) (hc : c ≠ '\n') (more : Str)
    (ht : s.text = line ++ '\n' :: c :: more) (hx : x + line.length < w.scr.width) :
    ∃ old, cellAt w.scr.cells (x + line.length) (y + 1) = some old ∧ x < x + line.length ∧
      cellAt (write env [s] (some ((x : Int), (y : Int))) tb force w).1.scr.cells (x + line.length) (y + 1) =
        some (if (storedCell s [c]).eq old then old else storedCell s [c]) := by
  obtain ⟨-, h2, -⟩ := C88_exact_partial env tb force w hs hok h0 x y (by omega) [s]
    (by intro t hm; rw [List.mem_singleton] at hm; subst hm; exact hop) (C88_no_scroll env tb force w hs h0 x y (by omega) s)
  have hget : s.text[line.length + 1]? = some c := by rw [ht]; simp
  have hbr : s.text[line.length]? = some '\n' := by rw [ht]; simp
  have hnf : ∀ k < line.length, ¬ Falls s k := by
    rintro k hk ⟨h, -⟩
    rw [ht, List.getElem?_append_left hk] at h
    exact hline (List.mem_of_getElem? h)
  have hcell := h2 [] s [] rfl (line.length + 1) c hget (by rintro ⟨h, -⟩; rw [hget] at h; exact hc (Option.some.inj h))
  have hi : ledTo w.scr.width x y [] s (line.length + 1) = (y + 1) * w.scr.width + (x + line.length) := by
    unfold ledTo
    rw [led_succ, led_plain _ _ _ hnf, if_pos ⟨hbr, .inl hst⟩]
    simp only [List.map_nil, List.sum_nil]
    ring
  simp only [hi] at hcell
  have hmod : ((y + 1) * w.scr.width + (x + line.length)) % w.scr.width = x + line.length := by
    rw [Nat.mul_comm, Nat.mul_add_mod, Nat.mod_eq_of_lt hx]
  have hdiv : ((y + 1) * w.scr.width + (x + line.length)) / w.scr.width = y + 1 := by
    rw [Nat.mul_comm, Nat.mul_add_div (by omega), Nat.div_eq_of_lt hx]
  rw [hmod, hdiv] at hcell
  obtain ⟨old, e1, e2⟩ := hcell (by
    calc (y + 1) * w.scr.width + (x + line.length) < (y + 1) * w.scr.width + w.scr.width := by omega
      _ = (y + 2) * w.scr.width := by ring
      _ ≤ w.scr.height * w.scr.width := Nat.mul_le_mul_right _ hy)
  refine ⟨old, e1, Nat.lt_add_of_pos_right (List.length_pos_of_ne_nil hne), ?_⟩
  have hstr : (if c = '\n' ∧ line.length + 1 + 1 < s.text.length then wrapSgr s.style.colorless else styledChar s (line.length + 1) c) = [c] := by
    rw [if_neg (fun h => hc h.1), styledChar_plain hst]
  rw [e2]
  simp only [hstr]

/-- **C88 is violated** by every line break inside a span with any style: it takes a place like a letter, and what follows goes on in the same
row. -/
theorem C88_no_break_violated (env : Color.Env) (tb : Color) (force : Bool) (w : World)
    (hs : Shape w.scr.width w.scr.height w.scr.cells) (hok : CacheOk w.cache)
    (h0 : w.scr.offset = 0) (x y : Nat) (hy : y < w.scr.height) (s : Span) (hst : s.style ≠ {}) (hr : s.resetAfter = true)
    (hop : ∀ b, s.bg = some b → b.alpha = 1) (hx : x + s.text.length ≤ w.scr.width) :
    ∀ j c, s.text[j]? = some c → ∃ old new, cellAt w.scr.cells (x + j) y = some old ∧
      new = storedCell s (if c = '\n' ∧ j + 1 < s.text.length then wrapSgr s.style.colorless else styledChar s j c) ∧
      cellAt (write env [s] (some ((x : Int), (y : Int))) tb force w).1.scr.cells (x + j) y =
        some (if new.eq old then old else new) := by
  intro j c hj
  have hlt : j < s.text.length := (List.getElem?_eq_some_iff.mp hj).1
  obtain ⟨-, h2, -⟩ := C88_exact_partial env tb force w hs hok h0 x y (by omega) [s]
    (by intro t hm; rw [List.mem_singleton] at hm; subst hm; exact hop) (C88_no_scroll env tb force w hs h0 x y (by omega) s)
  have hnf : ∀ k, ¬ Falls s k := by
    rintro k ⟨-, h | ⟨-, h⟩⟩
    · exact hst h
    · rw [hr] at h; cases h
  have hcell := h2 [] s [] rfl j c hj (hnf j)
  have hi : ledTo w.scr.width x y [] s j = y * w.scr.width + (x + j) := by
    unfold ledTo
    rw [led_plain _ _ _ fun k _ => hnf k]
    simp only [List.map_nil, List.sum_nil]
    omega
  simp only [hi] at hcell
  have hmod : (y * w.scr.width + (x + j)) % w.scr.width = x + j := by
    rw [Nat.mul_comm, Nat.mul_add_mod, Nat.mod_eq_of_lt (by omega)]
  have hdiv : (y * w.scr.width + (x + j)) / w.scr.width = y := by
    rw [Nat.mul_comm, Nat.mul_add_div (by omega), Nat.div_eq_of_lt (by omega)]; rfl
  rw [hmod, hdiv] at hcell
  obtain ⟨old, e1, e2⟩ := hcell (by
    calc y * w.scr.width + (x + j) < y * w.scr.width + w.scr.width := by omega
      _ = (y + 1) * w.scr.width := by ring
      _ ≤ w.scr.height * w.scr.width := Nat.mul_le_mul_right _ hy)
  exact ⟨old, _, e1, rfl, e2⟩

end Slate
