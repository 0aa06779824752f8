import Verif.Props.Reparse
import Verif.Props.Links
import Verif.Props.Pieces2
import Verif.Props.Traffic
import Verif.Props.Shape

/-!
# Printed links are read as text (C94), written commands are obeyed (C95)
-/

namespace Slate
open Py Term Traffic

theorem styleMatchesGo_other (pos : Nat) (c : Char) (rest : Str) (h : c ≠ '[') :
    styleMatchesGo pos 0 ('\x1b' :: c :: rest) = styleMatchesGo (pos + 1) 0 (c :: rest) := by
  have hm : styleMatch ('\x1b' :: c :: rest) = none := by
    unfold styleMatch
    split
    · rename_i heq
      injection heq with h1 h2
      injection h2 with h2 h3
      exact absurd h2 h
    · rfl
  rw [styleMatchesGo, hm]

/-- The start of a link. -/
def linkStart (target : Str) : Str := "\x1b]8;;".toList ++ target ++ "\x1b\\".toList

/-- The end of a link. -/
def linkEnd : Str := "\x1b]8;;\x1b\\".toList

theorem styleMatchesGo_link (pos : Nat) (target rest : Str) (h : ∀ c ∈ target, c ≠ '\x1b') :
    styleMatchesGo pos 0 (linkStart target ++ rest) = styleMatchesGo (pos + (linkStart target).length) 0 rest := by
  have e : linkStart target ++ rest = '\x1b' :: ']' :: (("8;;".toList ++ target) ++ '\x1b' :: '\\' :: rest) := by
    simp [linkStart]
  have h1 : ∀ c ∈ (']' :: ("8;;".toList ++ target)), c ≠ '\x1b' := by
    intro c hc
    rcases List.mem_cons.mp hc with rfl | hc
    · decide
    rcases List.mem_append.mp hc with hc | hc
    · exact (by decide : ∀ c ∈ "8;;".toList, c ≠ '\x1b') c hc
    · exact h c hc
  rw [e, styleMatchesGo_other _ _ _ (by decide), ← List.cons_append, styleMatchesGo_text _ _ h1,
    styleMatchesGo_other _ _ _ (by decide)]
  have h2 := styleMatchesGo_text (pos + 1 + (']' :: ("8;;".toList ++ target)).length + 1) (t := ['\\']) rest (by decide)
  rw [List.singleton_append] at h2
  rw [h2]
  congr 1
  simp [linkStart]
  omega

theorem styleMatchesGo_linkTail (p : Nat) : styleMatchesGo p 0 (RESET ++ linkEnd ++ ['\x1b']) = [] := by
  have h : styleMatch (RESET ++ linkEnd ++ ['\x1b']) = none := by decide +kernel
  have e : RESET ++ linkEnd ++ ['\x1b'] = '\x1b' :: ("[0m".toList ++ (linkStart [] ++ ['\x1b'])) := by decide
  rw [e] at h ⊢
  rw [styleMatchesGo, h]
  simp only
  rw [styleMatchesGo_text _ _ (by decide), styleMatchesGo_link _ [] _ (by simp), styleMatchesGo_end]

/-- C94 is violated by parsing, for the text of every linked span: if it has styles or colours, what follows the text is yielded
as text, and otherwise everything that is printed is. -/
theorem C94_texts_violated (env : Color.Env) (henv : env.space = .trueColor) (s : Span) (target : Str) (hs : Printed s)
    (ht : target ≠ []) (hesc : ∀ c ∈ target, c ≠ '\x1b') :
    let printed := ({ s with hyperlink := target } : Span).render env
    (Unadorned s → yieldFrom printed = ([{ text := printed }], none)) ∧
    (¬ Unadorned s → ∃ t, t.eq env s = true ∧ yieldFrom printed = ([t, { text := "\x1b[0m\x1b]8;;\x1b\\".toList }], none)) := by
  intro printed
  have hp : printed = linkStart target ++ (s.render env ++ linkEnd) := by
    have hne : target.isEmpty = false := by cases target <;> simp_all
    have h1 : s.hyperlink.isEmpty = true := by rw [hs.link]; rfl
    have h2 : ({ s with hyperlink := target } : Span).sequences env = s.sequences env := rfl
    simp only [printed, Span.render, h2, h1, hne, Bool.false_eq_true, if_false, if_true]
    simp [linkStart, linkEnd]
  have hlast : ∀ c, printed.getLast? = some c → c ≠ ESC := by
    intro c hc
    rw [hp] at hc
    simp [List.getLast?_append, linkEnd] at hc
    rw [← hc]; decide
  constructor
  · intro hb
    have hr : s.render env = s.text := hb.render env hs.link
    have hm : styleMatchesGo 0 0 (printed ++ [ESC]) = [] := by
      have e : printed ++ [ESC] = linkStart target ++ (s.text ++ (linkStart [] ++ ['\x1b'])) := by
        rw [hp, hr]; simp [linkStart, linkEnd, ESC]
      rw [e, styleMatchesGo_link _ _ _ hesc, styleMatchesGo_text _ _ hs.text.2, styleMatchesGo_link _ [] _ (by simp), styleMatchesGo_end]
    unfold yieldFrom
    rw [endsWith_esc hlast]
    simp only [Bool.false_eq_true, if_false, styleMatches, hm, yieldLoop]
    rw [rstrip_esc hlast, if_pos (by rw [hp]; simp [linkStart])]
    rfl
  · intro hb
    obtain ⟨t, o, h1, h2, h3⟩ := hs.parse henv hb
    obtain ⟨hren, hbody⟩ := hs.render henv hb
    refine ⟨t, h1, ?_⟩
    have hline : printed ++ [ESC] = linkStart target ++
        ('\x1b' :: '[' :: (s.total env ++ 'm' :: (s.text ++ '\x1b' :: ("[0m".toList ++ linkEnd ++ ['\x1b'])))) := by
      rw [hp, hren]; simp [RESET, ESC]
    have hgo := styleMatchesGo_run (0 + (linkStart target).length) ("[0m".toList ++ linkEnd ++ ['\x1b']) hbody hs.text
    have htail : ∀ p, styleMatchesGo p 0 ('\x1b' :: ("[0m".toList ++ linkEnd ++ ['\x1b'])) = [] := styleMatchesGo_linkTail
    unfold yieldFrom
    rw [endsWith_esc hlast]
    simp only [Bool.false_eq_true, if_false, styleMatches]
    rw [rstrip_esc hlast, hline, styleMatchesGo_link _ _ _ hesc, hgo, yieldLoop, h2]
    simp only [h3, htail, yieldLoop]
    have hj : printed = (linkStart target ++ '\x1b' :: '[' :: (s.total env ++ 'm' :: s.text)) ++ "\x1b[0m\x1b]8;;\x1b\\".toList := by
      rw [hp, hren]; simp [RESET, linkEnd]
    have hlen : 0 + (linkStart target).length + ((s.total env).length + s.text.length + 3) =
        (linkStart target ++ '\x1b' :: '[' :: (s.total env ++ 'm' :: s.text)).length := by
      simp only [List.length_append, List.length_cons]; omega
    rw [hlen, hj, if_pos (by rw [List.length_append]; simp), List.drop_left]
    rfl

/-- A bold link and a plain one. -/
example : Printed { text := "here".toList, style := { bold := true } } ∧ ¬ Unadorned { text := "here".toList, style := { bold := true } } ∧
    Printed { text := "here".toList } ∧ Unadorned { text := "here".toList } := by
  refine ⟨⟨by decide, rfl, rfl, rfl, by simp, by simp⟩, by decide, ⟨by decide, rfl, rfl, rfl, by simp, by simp⟩, by decide⟩

/-! ### Redrawing a written text -/

/-- The rows of a fresh screen after a text was written into row `y`, from column `x` on. -/
def writtenRows (fill : Str) (width height x y : Nat) (s : Span) : List (List Cell) :=
  let blank : Cell := { char := fill }
  List.replicate y (List.replicate width blank) ++
    [List.replicate x blank ++ s.text.zipIdx.map (fun e => storedCell s (styledChar s e.2 e.1)) ++
      List.replicate (width - (x + s.text.length)) blank] ++
    List.replicate (height - (y + 1)) (List.replicate width blank)

theorem fresh_rows (env : Color.Env) (tb : Color) (force : Bool) (width height : Nat) (cur : Int × Int) (fill : Str) (x y : Nat)
    (hy : y < height) (s : Span) (hnl : '\n' ∉ s.text) (hne : s.text ≠ []) (hop : ∀ b, s.bg = some b → b.alpha = 1)
    (hfit : x + s.text.length ≤ width) :
    (write env [s] (some ((x : Int), (y : Int))) tb force { scr := Screen.init width height cur fill }).1.scr.cells =
      writtenRows fill width height x y s := by
  have hlen : 0 < s.text.length := List.length_pos_of_ne_nil hne
  have hsh : Shape width height
      (write env [s] (some ((x : Int), (y : Int))) tb force { scr := Screen.init width height cur fill }).1.scr.cells := by
    exact (writeBulk_frame env _ tb force { scr := Screen.init width height cur fill } (resize_shape _ width height fill true)).2.2.2.2.1
  have hsh2 : Shape width height (writtenRows fill width height x y s) := by
    constructor
    · simp [writtenRows]; omega
    · intro row hr
      simp only [writtenRows, List.mem_append, List.mem_replicate, List.mem_singleton] at hr
      rcases hr with (⟨-, rfl⟩ | rfl) | ⟨-, rfl⟩
      · simp
      · simp; omega
      · simp
  refine hsh.ext hsh2 fun x' y' hx' hy' => ?_
  obtain ⟨-, -, -, hother⟩ := C05_placement_partial env tb force { scr := Screen.init width height cur fill } (resize_shape _ width height fill true)
    (by intro e he; simp at he) rfl x y (show x < width by omega) hy [s] (by simpa using hnl) (by simpa using hop) (by
      intro a b rest he; simp at he)
  by_cases hin : y' = y ∧ x ≤ x' ∧ x' < x + s.text.length
  · obtain ⟨rfl, h1, h2⟩ := hin
    have h := fresh_cell env tb force width height cur fill x y' hy [s] (by
      intro t ht; rw [List.mem_singleton.mp ht]; exact ⟨hnl, hne⟩) (by
      intro t ht; rw [List.mem_singleton.mp ht]; exact hop) (by simpa [Span.len] using hfit) [] s [] rfl (x' - x) s.text[x' - x]
      (List.getElem?_eq_getElem (by omega))
    simp only [List.map_nil, List.sum_nil, Nat.add_zero] at h
    rw [show x + (x' - x) = x' by omega] at h
    rw [h]
    unfold cellAt writtenRows
    simp only [List.append_assoc]
    rw [List.getElem?_append_right (by simp)]
    simp only [List.length_replicate, Nat.sub_self, List.singleton_append, List.getElem?_cons_zero]
    rw [List.getElem?_append_right (by simpa using h1), List.getElem?_append_left (by simp; omega)]
    simp only [List.length_replicate, List.getElem?_map]
    rw [List.getElem?_zipIdx, List.getElem?_eq_getElem (by omega)]
    simp
  · have hlin : y' * width + x' < y * width + x ∨ y * width + x + s.text.length ≤ y' * width + x' := by
      rcases Nat.lt_trichotomy y' y with h | h | h
      · left
        have : (y' + 1) * width ≤ y * width := Nat.mul_le_mul_right _ h
        rw [Nat.add_mul] at this
        omega
      · subst h
        omega
      · right
        have : (y + 1) * width ≤ y' * width := Nat.mul_le_mul_right _ h
        rw [Nat.add_mul] at this
        omega
    have h := hother x' y' hx' (by
      rw [show (([s] : List Span).map Span.len).sum = s.text.length by simp [Span.len]]
      exact hlin)
    rw [h]
    have hi := init_cellAt width height cur fill x' y' hx' hy'
    refine (show cellAt (Screen.init width height cur fill).cells x' y' = _ from hi).trans ?_
    unfold cellAt writtenRows
    simp only [List.append_assoc]
    rcases Nat.lt_trichotomy y' y with h | h | h
    · rw [List.getElem?_append_left (by simpa using h)]
      simp [h, hx']
    · subst h
      rw [List.getElem?_append_right (by simp)]
      simp only [List.length_replicate, Nat.sub_self, List.singleton_append, List.getElem?_cons_zero]
      by_cases hx : x' < x
      · rw [List.getElem?_append_left (by simpa using hx)]
        simp [hx]
      · rw [List.getElem?_append_right (by simp; omega), List.getElem?_append_right (by simp; omega)]
        simp only [List.length_replicate, List.length_map, List.length_zipIdx, List.getElem?_replicate]
        rw [if_pos (by omega)]
    · rw [List.getElem?_append_right (by simp; omega)]
      obtain ⟨k, rfl⟩ : ∃ k, y' = y + 1 + k := ⟨y' - (y + 1), by omega⟩
      simp only [List.length_replicate, List.singleton_append]
      rw [show y + 1 + k - y = k + 1 by omega, List.getElem?_cons_succ]
      simp [hx', show k < height - (y + 1) by omega]

theorem redrawGo_append (x : Int) : ∀ (a b : List (List Cell)) (y : Int),
    redrawGo x y (a ++ b) = redrawGo x y a ++ redrawGo x (y + a.length) b
  | [], b, y => by simp [redrawGo]
  | row :: a, b, y => by
    rw [List.cons_append, redrawGo, redrawGo, redrawGo_append x a b (y + 1)]
    simp only [List.length_cons, List.append_assoc]
    congr 4
    push_cast
    ring

theorem paints_blank {fill : Str} (h : ∀ c ∈ fill, Printable c ∨ c = '\n') (n : Nat) :
    Paints ((List.replicate n ({ char := fill } : Cell)).flatMap (·.char)) := by
  apply paints_text
  intro c hc
  simp only [List.mem_flatMap, List.mem_replicate] at hc
  obtain ⟨cell, ⟨-, rfl⟩, hc⟩ := hc
  exact h c hc

/-- C95 is violated by every redraw: a text without styles is sent as it is, whatever characters it has, between what is sent
for the rest of the screen. -/
theorem C95_redraw_violated (env : Color.Env) (tb : Color) (force : Bool) (width height : Nat) (cur : Int × Int) (fill : Str)
    (hfill : ∀ c ∈ fill, Printable c ∨ c = '\n') (x y : Nat) (hy : y < height) (s : Span) (hst : wrapSgr s.style.colorless = [])
    (hnl : '\n' ∉ s.text) (hne : s.text ≠ []) (hop : ∀ b, s.bg = some b → b.alpha = 1) (hfit : x + s.text.length ≤ width)
    (origin : Int × Int) (hox : 0 ≤ origin.1) (hoy : 0 ≤ origin.2) :
    ∃ before after, Paints before ∧ Paints after ∧
      ((write env [s] (some ((x : Int), (y : Int))) tb force { scr := Screen.init width height cur fill }).1.scr.render origin true).2 =
        before ++ s.text ++ after := by
  have hrows := fresh_rows env tb force width height cur fill x y hy s hnl hne hop hfit
  have htext : (s.text.zipIdx.map (fun e => storedCell s (styledChar s e.2 e.1))).flatMap (·.char) = s.text := by
    have h1 : ∀ e : Char × Nat, (storedCell s (styledChar s e.2 e.1)).char = [e.1] := by
      intro e
      simp [storedCell, styledChar, hst]
    rw [List.flatMap_map]
    simp only [h1]
    have h2 : ∀ (t : Str) (n : Nat), (t.zipIdx n).flatMap (fun e => [e.1]) = t := by
      intro t
      induction t with
      | nil => intro n; rfl
      | cons c t ih => intro n; simp only [List.zipIdx_cons, List.flatMap_cons, ih, List.singleton_append]
    exact h2 _ 0
  have hblank : ∀ (n : Nat) (y : Int), 0 ≤ y → Paints (redrawGo origin.1 y (List.replicate n (List.replicate width ({ char := fill } : Cell)))) := by
    intro n y hy
    refine paints_redrawGo _ hox _ _ hy ?_
    intro row hr c hc
    rw [(List.mem_replicate.mp hr).2] at hc
    rw [(List.mem_replicate.mp hc).2]
    exact paints_text hfill
  refine ⟨redrawGo origin.1 origin.2 (List.replicate y (List.replicate width { char := fill })) ++
      (cursorTo origin.1 (origin.2 + y) ++ (List.replicate x ({ char := fill } : Cell)).flatMap (·.char)),
    (List.replicate (width - (x + s.text.length)) ({ char := fill } : Cell)).flatMap (·.char) ++
      redrawGo origin.1 (origin.2 + y + 1) (List.replicate (height - (y + 1)) (List.replicate width { char := fill })), ?_, ?_, ?_⟩
  · exact (hblank _ _ hoy).append ((paints_cursorTo _ _ hox (by omega)).append (paints_blank hfill _))
  · exact (paints_blank hfill _).append (hblank _ _ (by omega))
  · unfold Screen.render
    simp only [if_true, hrows, writtenRows]
    rw [redrawGo_append, redrawGo_append]
    simp only [redrawGo, List.length_append, List.length_replicate, List.length_cons, List.length_nil, List.flatMap_append, htext]
    simp [add_assoc]

/-- So a text that sets the title of the terminal sets it when it is redrawn, whatever the title. -/
theorem C95_titles_violated (env : Color.Env) (tb : Color) (force : Bool) (width height : Nat) (cur : Int × Int) (fill : Str)
    (hfill : ∀ c ∈ fill, Printable c ∨ c = '\n') (x y : Nat) (hy : y < height) (s : Span) (hst : wrapSgr s.style.colorless = [])
    (title : Str) (ht : ∀ c ∈ title, c ≠ '\n' ∧ c ≠ '\x1b' ∧ c ≠ '\x07') (hs : s.text = "\x1b]0;".toList ++ title ++ ['\x07'])
    (hop : ∀ b, s.bg = some b → b.alpha = 1) (hfit : x + s.text.length ≤ width)
    (origin : Int × Int) (hox : 0 ≤ origin.1) (hoy : 0 ≤ origin.2) (T : Modes.State) (hT : T.phase = .ground) :
    (Modes.feed T ((write env [s] (some ((x : Int), (y : Int))) tb force
      { scr := Screen.init width height cur fill }).1.scr.render origin true).2).title = title := by
  obtain ⟨a, b, ha, hb, h⟩ := C95_redraw_violated env tb force width height cur fill hfill x y hy s hst (by
    rw [hs]
    simp only [List.mem_append, not_or]
    exact ⟨⟨by decide, fun hm => (ht _ hm).1 rfl⟩, by decide⟩) (by rw [hs]; simp) hop hfit origin hox hoy
  have hfeed : Modes.feed T s.text = { T with title := title } := by
    have hosc : ∀ (t buf : Str) (S : Modes.State), (∀ c ∈ t, c ≠ '\x1b' ∧ c ≠ '\x07') → S.phase = .osc buf →
        Modes.feed S t = { S with phase := .osc (buf ++ t) } := by
      intro t
      induction t with
      | nil => intro buf S _ hS; simp [Modes.feed, ← hS]
      | cons c t ih =>
        intro buf S hc hS
        have h1 : Modes.step S c = { S with phase := .osc (buf ++ [c]) } := by
          unfold Modes.step
          rw [hS]
          simp [hc c (by simp)]
        rw [Modes.feed_cons, h1, ih (buf ++ [c]) _ (fun d hd => hc d (by simp [hd])) rfl]
        simp
    rw [hs, Modes.feed_append, Modes.feed_append]
    have h1 : Modes.feed T "\x1b]0;".toList = { T with phase := .osc "0;".toList } := by
      obtain ⟨p, on, ti, st⟩ := T
      simp only at hT
      subst hT
      rfl
    rw [h1, hosc title _ _ (fun c hc => (ht c hc).2) rfl]
    obtain ⟨p, on, ti, st⟩ := T
    simp only at hT
    subst hT
    rfl
  rw [h, Modes.feed_append, Modes.feed_append, Slate.Paints.quiet ha T hT, hfeed, Slate.Paints.quiet hb { T with title := title } hT]

/-- A title in a coloured text in the middle of a larger screen. -/
example : let s : Span := { text := "\x1b]0;evil\x07".toList, fg := some { r := 1, g := 2, b := 3 } }
    wrapSgr s.style.colorless = [] ∧ (∀ c ∈ "evil".toList, c ≠ '\n' ∧ c ≠ '\x1b' ∧ c ≠ '\x07') ∧
    s.text = "\x1b]0;".toList ++ "evil".toList ++ ['\x07'] ∧ 3 + s.text.length ≤ 20 := by decide

end Slate
