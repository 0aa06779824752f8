import Verif.Props.Palette
import Verif.Props.Span
import Verif.Props.Names

/-!
# Colours made from a bare index: C27, C36 and C42 are violated by all of them
-/

namespace Slate
open Py Term

/-- The numbers that are the code of one of the 16 standard colours, in either role. -/
def IsStdCode (n : Nat) : Prop := (30 ≤ n ∧ n ≤ 37) ∨ (40 ≤ n ∧ n ≤ 47) ∨ (90 ≤ n ∧ n ≤ 97) ∨ (100 ≤ n ∧ n ≤ 107)

instance (n : Nat) : Decidable (IsStdCode n) := by unfold IsStdCode; infer_instance

/-- The colour that `from_ansi` makes of a bare index. -/
def bareColor (n : Nat) : Color :=
  ⟨(stdPalette n).1, (stdPalette n).2.1, (stdPalette n).2.2, startsWith (dec n) ['4'], 1, .standard, some (dec n)⟩

theorem bare_table : ∀ n < 256, ¬ IsStdCode n → Color.fromAnsi (dec n) = .ok (bareColor n) := by
  have key : ∀ n ∈ List.range 256, ¬ IsStdCode n → Color.fromAnsi (dec n) = .ok (bareColor n) := by decide +kernel
  exact fun n hn => key n (List.mem_range.mpr hn)

/-- The code of such a colour is its index, in every terminal. -/
theorem bare_ansi (env : Color.Env) (n : Nat) (hn : n < 256) : (bareColor n).ansi env = dec n := by
  have h : ∀ n ∈ List.range 256, startsWith (dec n) ['#'] = false := by decide +kernel
  have hg : env.space.geB .standard = true := by cases env.space <;> decide
  unfold Color.ansi bareColor
  simp [h n (List.mem_range.mpr hn), hg]

/-- C42 is violated by every bare index that is not the code of a standard colour: `from_ansi` makes the colour with this index of the
table of 256 colours of it, and in every terminal, however few colours it has, the index itself is sent, which is no code of a colour. -/
theorem C42_bare_violated (n : Nat) (hn : n < 256) (hs : ¬ IsStdCode n) :
    ∃ c, Color.fromAnsi (dec n) = .ok c ∧ (c.r, c.g, c.b) = stdPalette n ∧
      ∀ env, c.ansi env = dec n ∧ ¬ NearestStd env c := by
  refine ⟨_, bare_table n hn hs, rfl, fun env => ⟨bare_ansi env n hn, ?_⟩⟩
  rintro ⟨k, m, h1, h2, -⟩
  rw [bare_ansi env n hn] at h1
  have hk := dec_inj h1
  subst hk
  apply hs
  revert h2
  unfold StdCode IsStdCode
  cases (bareColor n).isBg <;> simp <;> omega

/-- What such a number does to the pen: it does not set a colour. -/
theorem sgr_bare (n : Nat) (hn : n < 256) (hs : ¬ IsStdCode n) :
    (sgr [n] Attr.clean).fg = .default ∧ (sgr [n] Attr.clean).bg = .default := by
  have h : sgr [n] Attr.clean = sgr1 n Attr.clean := by
    simp [sgr]
  rw [h]
  have : ∀ n ∈ List.range 256, ¬ IsStdCode n → (sgr1 n Attr.clean).fg = .default ∧ (sgr1 n Attr.clean).bg = .default := by decide +kernel
  exact this n (List.mem_range.mpr hn) hs

theorem bare_total (env : Color.Env) (n : Nat) (hn : n < 256) (text : Str) :
    Span.total env { text := text, fg := some (bareColor n) } = dec n := by
  have h0 : ({} : Style).colorless = [] := by decide
  unfold Span.total Span.colorCodes
  simp [bare_ansi env n hn, h0, join]

theorem bare_sequences (env : Color.Env) (n : Nat) (hn : n < 256) (text : Str) :
    Span.sequences env { text := text, fg := some (bareColor n) } = '\x1b' :: '[' :: (dec n ++ ['m']) := by
  have hne : (dec n).isEmpty = false := by
    have := dec_ne_nil n
    cases h : dec n with
    | nil => exact absurd h this
    | cons a l => rfl
  unfold Span.sequences wrapSgr
  rw [bare_total env n hn, hne]
  simp

/-- C36 is violated by every such colour, in every terminal and for every text: no character is shown in it, nor in any other colour. -/
theorem C36_bare_violated (env : Color.Env) (n : Nat) (hn : n < 256) (hs : ¬ IsStdCode n) (text : Str) (ht : ∀ c ∈ text, Printable c)
    (st : State) (hm : st.mode = .ground) (hp : st.pen = Attr.clean) :
    ∃ col, Color.fromAnsi (dec n) = .ok col ∧ (col.r, col.g, col.b) = stdPalette n ∧
      ∀ k c, text[k]? = some c →
        ∃ attr, (run st (Span.render env { text := text, fg := some col })).grid st.row (st.col + k) = { ch := c, attr := attr } ∧
          attr.fg = .default ∧ attr.bg = .default := by
  refine ⟨_, bare_table n hn hs, rfl, fun k c hk => ⟨sgr [n] Attr.clean, ?_, sgr_bare n hn hs⟩⟩
  have hseq := bare_sequences env n hn text
  have hr : Span.render env { text := text, fg := some (bareColor n) } = '\x1b' :: '[' :: (join [';'] ([n].map dec) ++ 'm' :: (text ++ RESET)) := by
    unfold Span.render
    simp [hseq, join]
  rw [hr, run_sgr st n [] _ hm, run_printable _ _ _ (by exact hm) ht]
  have hlast := run_reset (printed { st with pen := sgr [n] st.pen } text) [] hm
  rw [List.append_nil] at hlast
  rw [hlast]
  show (if st.row = st.row ∧ st.col ≤ st.col + k ∧ st.col + k < st.col + text.length then _ else _) = _
  have hlt := (List.getElem?_eq_some_iff.mp hk).1
  rw [if_pos ⟨rfl, by omega, by omega⟩, show st.col + k - st.col = k by omega, hp, List.getD_eq_getElem?_getD, hk]
  rfl

/-- C27 is violated by every such colour, in every terminal and for every text: no element of `get_characters` shows its character in
the colour. -/
theorem C27_bare_violated (env : Color.Env) (n : Nat) (hn : n < 256) (hs : ¬ IsStdCode n) (text : Str) (ht : ∀ c ∈ text, Printable c)
    (st : State) (hm : st.mode = .ground) (hp : st.pen = Attr.clean) :
    ∃ col, Color.fromAnsi (dec n) = .ok col ∧ (col.r, col.g, col.b) = stdPalette n ∧
      ∀ (k : Nat) (c : Char) (e : Str), text[k]? = some c →
        (Span.getCharacters env { text := text, fg := some col } false true)[k]? = some e →
        ∃ attr, (run st e).grid st.row st.col = { ch := c, attr := attr } ∧ attr.fg = .default ∧ attr.bg = .default := by
  refine ⟨_, bare_table n hn hs, rfl, fun k c e hk he => ⟨sgr [n] Attr.clean, ?_, sgr_bare n hn hs⟩⟩
  have hc : Printable c := ht c (List.mem_of_getElem? hk)
  have hshape : ∃ tail, (tail = [] ∨ tail = RESET) ∧ e = '\x1b' :: '[' :: (join [';'] ([n].map dec) ++ 'm' :: ([c] ++ tail)) := by
    unfold Span.getCharacters at he
    simp only [Bool.false_eq_true, if_false, bare_sequences env n hn text] at he
    rw [charsGo_getElem?, hk] at he
    simp only [Option.map_some, Option.some.injEq, List.isEmpty_cons, Bool.not_false, Bool.true_and, if_true] at he
    split at he
    · exact ⟨[], .inl rfl, by rw [← he]; simp [join]⟩
    · exact ⟨RESET, .inr rfl, by rw [← he]; simp [join]⟩
  obtain ⟨tail, htail, rfl⟩ := hshape
  rw [run_sgr st n [] _ hm, run_printable _ _ _ (by exact hm) (by simpa using hc)]
  have hlast : (run (printed { st with pen := sgr [n] st.pen } [c]) tail).grid = (printed { st with pen := sgr [n] st.pen } [c]).grid := by
    rcases htail with rfl | rfl
    · rfl
    · have := run_reset (printed { st with pen := sgr [n] st.pen } [c]) [] hm
      rw [List.append_nil] at this
      rw [this]
      rfl
  rw [hlast]
  show (if st.row = st.row ∧ st.col ≤ st.col ∧ st.col < st.col + 1 then _ else _) = _
  rw [if_pos ⟨rfl, by omega, by omega⟩, Nat.sub_self, hp]
  rfl

/-- The index 1 (red), which is sent as bold, the index 196 and the index 39. -/
example : ¬ IsStdCode 1 ∧ ¬ IsStdCode 196 ∧ ¬ IsStdCode 39 ∧ stdPalette 1 = (170, 0, 0) ∧ stdPalette 196 = (255, 0, 0) := by decide +kernel

end Slate
