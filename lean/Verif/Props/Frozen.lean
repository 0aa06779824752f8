import Verif.Props.Playground
import Verif.Props.Process

/-!
# C91: after an event below the screen no key is shown any more
-/

namespace Slate
open Py Term Core

/-- A text in a row above the window changes nothing on the screen. -/
theorem write_above (env : Color.Env) (s : Span) (x y : Int) (tb : Color) (force : Bool) (w : World)
    (hs : Shape w.scr.width w.scr.height w.scr.cells) (hy : y < w.scr.offset) :
    write env [s] (some (x, y)) tb force w = ({ w with cache := (w.cache.get s).2 }, .ok 0) := by
  have hput : ∀ (chars : List Str) (last : Int), (putChars w.scr.width w.scr.height s chars { x := x, y := y - w.scr.offset, last := last } Mats.blank).2 = Mats.blank := by
    intro chars last
    cases chars with
    | nil => rfl
    | cons c l =>
      unfold putChars
      rw [if_pos (by simp only; omega)]
  have hdata : putData [(some (x, y), [s])] Mats.blank w = (Mats.blank, { w with cache := (w.cache.get s).2 }, none) := by
    unfold putData putSpans
    simp only
    rw [if_neg (by omega)]
    simp only [putSpans, hput, putData]
  unfold write writeBulk
  rw [hdata]
  simp only
  have hb : ∀ p, outcome tb Mats.blank w.scr p = none := fun p => rfl
  rw [commit_id env tb Mats.blank w.scr hs hb]

/-- A text with characters in a row below the window moves the window so that the row is its last one. -/
theorem write_below_offset (env : Color.Env) (s : Span) (x y : Int) (tb : Color) (force : Bool) (w : World)
    (hs : Shape w.scr.width w.scr.height w.scr.cells) (hh : 0 < w.scr.height) (hc : (w.cache.get s).1 ≠ [])
    (hy : w.scr.offset + w.scr.height ≤ y) :
    (∃ n, (write env [s] (some (x, y)) tb force w).2 = .ok n) ∧
    (write env [s] (some (x, y)) tb force w).1.scr.offset = y - w.scr.height + 1 ∧
    (write env [s] (some (x, y)) tb force w).1.scr.width = w.scr.width ∧
    (write env [s] (some (x, y)) tb force w).1.scr.height = w.scr.height := by
  have hsh : ∀ (m : Mats) (scr : Screen), Shape scr.width scr.height scr.cells → (∃ n, (commit env tb m scr).2 = .ok n) ∧
      (commit env tb m scr).1.offset = scr.offset ∧ (commit env tb m scr).1.width = scr.width ∧ (commit env tb m scr).1.height = scr.height := by
    intro m scr h
    obtain ⟨n, h1, h2⟩ := commit_wrote env tb m scr h
    exact ⟨⟨n, h1⟩, h2.offset, h2.width, h2.height⟩
  cases hcells : w.scr.cells with
  | nil =>
    have := hs.rows
    rw [hcells] at this
    simp at this
    omega
  | cons row rows =>
    have hs' : Shape w.scr.width w.scr.height (rows ++ [List.replicate w.scr.width { char := [] }]) := by
      have h1 := hs.rows
      have h2 := hs.cols
      rw [hcells] at h1 h2
      refine ⟨by simpa using h1, ?_⟩
      intro r hr
      rcases List.mem_append.mp hr with hr | hr
      · exact h2 r (by simp [hr])
      · rw [List.mem_singleton.mp hr]; simp
    have hcond : ((0 : Nat) : Int) = (([s] : List Span).length : Int) - 1 ∧ y - w.scr.offset > (w.scr.height : Int) - 1 := ⟨by simp, by omega⟩
    have hne : (w.cache.get s).1.isEmpty = false := by
      cases h : (w.cache.get s).1 with
      | nil => exact absurd h hc
      | cons a l => rfl
    unfold write writeBulk putData putSpans
    simp only [hcells, hne, hcond, if_true, and_self, putSpans, putData, Bool.false_eq_true, if_false]
    exact hsh _ { w.scr with offset := _, cells := _ } hs'

namespace Playground

theorem writeAt_plain (env : Color.Env) (bg : Color) {t : Str} (ht : t ≠ []) (hp : ∀ c ∈ t, Printable c) (x y : Int) (w : World) :
    writeAt env bg t [x, y] w = Slate.write env [{ text := t }] (some (x, y)) bg false w := by
  have hesc : ∀ c ∈ t, c ≠ '\x1b' := by
    intro c hc e; subst e; exact absurd (hp _ hc) (by decide)
  unfold writeAt
  simp only
  rw [C66_write, C30_plain_line t ⟨ht, hesc⟩]
  exact terminal_write_spans env _ _ bg false w

/-- A key that comes while the window of the screen has moved: nothing happens. -/
theorem step_frozen (env : Color.Env) (pr : Char → Bool) (hpr : ∀ c, pr c = true → Printable c) (bg : Color) {width height : Nat}
    (s name : Str) (ha : (Act.key name).Sent width height s) (hc : name ≠ ['c']) (w : World)
    (hs : Shape w.scr.width w.scr.height w.scr.cells) (ho : 0 < w.scr.offset) (hch : w.scr.changes = []) :
    ∃ cache, Playground.step env pr bg (.text s) w = ({ w with cache := cache }, RESET, .next) := by
  obtain ⟨⟨k, hk1, hk2⟩, hne, hmo⟩ := key_sent ha
  obtain ⟨hcc, -⟩ := ha
  refine ⟨(w.cache.get { text := " Keyboard: ".toList ++ reprOf pr name ++ [' '] }).2, ?_⟩
  have hw := writeAt_plain env bg (t := " Keyboard: ".toList ++ reprOf pr name ++ [' ']) (by simp) (printable_message pr hpr _ (by decide) name) 0 0 w
  rw [write_above env _ 0 0 bg false w hs ho] at hw
  unfold Playground.step
  rw [hk1]
  simp only [hk2, if_neg hne]
  unfold body
  rw [if_neg hcc, if_neg hc]
  simp only [hmo, if_true, hw]
  unfold Playground.draw Screen.render
  simp only [hch, Bool.false_eq_true, if_false]
  have hg : renderGo (1, 1) none (Changes.gather []) = [] := by decide +kernel
  have hscr : ({ w.scr with changes := [] } : Screen) = w.scr := by
    conv_rhs => rw [show w.scr = { w.scr with changes := w.scr.changes } from rfl, hch]
  rw [hg, hscr]
  rfl

/-- Once the window of the screen has moved, no key is shown: neither the screen nor what the terminal shows changes. -/
theorem C91_frozen (env : Color.Env) (pr : Char → Bool) (hpr : ∀ c, pr c = true → Printable c) (bg : Color) {width height : Nat}
    (names texts : List Str) (ha : List.Forall₂ (fun n s => (Act.key n).Sent width height s ∧ n ≠ ['c']) names texts) (w : World)
    (hs : Shape w.scr.width w.scr.height w.scr.cells) (ho : 0 < w.scr.offset) (hch : w.scr.changes = []) (T : State) (hT : T.mode = .ground) :
    ∃ w' out, loop env pr bg (texts.map .text) w = (w', out, .next) ∧ w'.scr = w.scr ∧ (run T out).grid = T.grid := by
  induction ha generalizing w T with
  | nil => exact ⟨w, [], rfl, rfl, rfl⟩
  | @cons n s names texts h1 _ ih =>
    obtain ⟨cache, e⟩ := step_frozen env pr hpr bg s n h1.1 h1.2 w hs ho hch
    have hreset : run T RESET = { T with pen := Attr.clean } := by
      have := run_reset T [] hT
      rwa [List.append_nil] at this
    obtain ⟨w', out, h2, h3, h4⟩ := ih { w with cache := cache } hs ho hch (run T RESET) (by rw [hreset]; exact hT)
    refine ⟨w', RESET ++ out, ?_, h3, ?_⟩
    · rw [List.map_cons, loop, e]
      simp only [h2]
    · rw [run_append, h4, hreset]

/-- C91 is violated after every event below the screen: whatever happened before, no key that is pressed afterwards is ever shown. -/
theorem C91_frozen_violated (env : Color.Env) (den : Color → TColor) (hden : DenOk env den) (pr : Char → Bool)
    (hpr : ∀ c, pr c = true → Printable c) (bg : Color) (width height : Nat) (hw : 1 ≤ width) (hh : 2 ≤ height)
    (hsize : width < intLimit ∧ height < intLimit)
    (acts : List Act) (texts : List Str) (ha : List.Forall₂ (fun a s => a.Sent width height s) acts texts)
    (b x y : Nat) (pressed : Bool) (hb : (mouseEv b).isSome) (hx : 1 ≤ x ∧ x < intLimit) (hy : height < y ∧ y < intLimit)
    (names later : List Str) (hl : List.Forall₂ (fun n s => (Act.key n).Sent width height s ∧ n ≠ ['c']) names later) :
    ∃ w out w', loop env pr bg (texts.map .text ++ [.text (mouseReport b x y pressed)]) { scr := Screen.init width height } = (w, out, .next) ∧
      w.scr.offset = y - height ∧
      ∀ T : State, T.mode = .ground → ∃ out', loop env pr bg (later.map .text) w = (w', out', .next) ∧ w'.scr = w.scr ∧
        (run T out').grid = T.grid := by
  obtain ⟨w1, o1, hl1, hinv, -⟩ := (Inv.init env den width height [] (by intro e he; simp at he)
    { grid := fun _ _ => { ch := ' ', attr := Attr.clean } } rfl rfl).loop hden pr hpr bg hw hh hsize ha
  obtain ⟨e, he⟩ := Option.isSome_iff_exists.mp hb
  obtain ⟨n1, n2, n3, n4, n5⟩ := printable_name b x y pressed e he
  have hk1 : getch true false (.text (mouseReport b x y pressed)) = .ok ⟨[mouseName b x y pressed e]⟩ := C54_mouse b x y pressed e he
  obtain ⟨w2, n, h2, hinv2⟩ := hinv.write hden bg (" Mouse: ".toList ++ reprOf pr (mouseName b x y pressed e) ++ [' '])
    (by simp) (printable_message pr hpr _ (by decide) _) 0 1 (by omega) (by omega)
  have hX := writeAt_plain env bg (t := ['X']) (by simp) (by decide) ((x - 1 : Nat) : Int) ((y - 1 : Nat) : Int) w2
  have hget : (w2.cache.get { text := ['X'] }).1 ≠ [] := by
    rw [(hinv2.cache.get _).1]
    decide
  obtain ⟨⟨m, q1⟩, q2, q3, q4⟩ := write_below_offset env { text := ['X'] } ((x - 1 : Nat) : Int) ((y - 1 : Nat) : Int) bg false w2
    hinv2.sync.shape (by rw [hinv2.height_eq]; omega) hget (by rw [hinv2.offset, hinv2.height_eq]; omega)
  have hsh := run_shape env w2 (.write [{ text := ['X'] }] (some (((x - 1 : Nat) : Int), ((y - 1 : Nat) : Int))) bg false) hinv2.sync.shape
  change Shape (Slate.write env [{ text := ['X'] }] (some (((x - 1 : Nat) : Int), ((y - 1 : Nat) : Int))) bg false w2).1.scr.width
    (Slate.write env [{ text := ['X'] }] (some (((x - 1 : Nat) : Int), ((y - 1 : Nat) : Int))) bg false w2).1.scr.height
    (Slate.write env [{ text := ['X'] }] (some (((x - 1 : Nat) : Int), ((y - 1 : Nat) : Int))) bg false w2).1.scr.cells at hsh
  revert hX q1 q2 q3 q4 hsh
  rcases Slate.write env [{ text := ['X'] }] (some (((x - 1 : Nat) : Int), ((y - 1 : Nat) : Int))) bg false w2 with ⟨w3, r3⟩
  intro hX q1 q2 q3 q4 hsh
  simp only at q1 q2 q3 q4 hsh
  subst q1
  have hstep : Playground.step env pr bg (.text (mouseReport b x y pressed)) w1 =
      ((Playground.draw false w3).1, (Playground.draw false w3).2, .next) := by
    unfold Playground.step
    rw [hk1]
    simp only [Key.str, if_neg n4]
    unfold body
    rw [if_neg n2, if_neg n3]
    simp only [n1, Bool.true_eq_false, if_false, List.nil_append]
    unfold mouse
    rw [show ([0, 1] : List Int) = [((0 : Nat) : Int), ((1 : Nat) : Int)] from rfl, h2]
    simp only [n5, coords_dec x y hx.1 (by omega) hx.2 hy.2, hX]
  have hofs : w3.scr.offset = (y : Int) - height := by
    rw [q2, hinv2.height_eq]
    omega
  have hfr : ∀ T : State, T.mode = .ground → ∃ w' out', loop env pr bg (later.map .text) (Playground.draw false w3).1 = (w', out', .next) ∧
      w'.scr = (Playground.draw false w3).1.scr ∧ (run T out').grid = T.grid := fun T hT =>
    C91_frozen env pr hpr bg names later hl (Playground.draw false w3).1 hsh (by show 0 < w3.scr.offset; rw [hofs]; omega) rfl T hT
  obtain ⟨w', out0, g1, g2, -⟩ := hfr { grid := fun _ _ => { ch := ' ', attr := Attr.clean } } rfl
  refine ⟨(Playground.draw false w3).1, o1 ++ (Playground.draw false w3).2, w', ?_, hofs, ?_⟩
  · rw [hl1]
    simp only [loop, hstep, List.append_nil]
  · intro T hT
    obtain ⟨w'', out', f1, f2, f3⟩ := hfr T hT
    rw [g1] at f1
    simp only [Prod.mk.injEq] at f1
    obtain ⟨rfl, rfl, -⟩ := f1
    exact ⟨out0, g1, g2, f3⟩

/-- A click below a screen of 20 columns and 4 rows, then the key "a" and backspace. -/
example : (mouseEv 0).isSome ∧ (1 ≤ 3 ∧ 3 < intLimit) ∧ (4 < 6 ∧ 6 < intLimit) ∧
    List.Forall₂ (fun n s => (Act.key n).Sent 20 4 s ∧ n ≠ ['c']) ["a".toList, "up".toList] [['a'], "\x1b[A".toList] := by
  have hlim : 10 ≤ intLimit := le_self_pow₀ (a := 10) (by omega) (by omega)
  have single : ∀ c : Char, (∀ p ∈ posixKeyNames, p.1 ≠ [c]) → c ≠ '\x1b' → [c] ≠ "ctrl-c".toList →
      (Act.key [c]).Sent 20 4 [c] := by
    intro c h1 h2 h3
    refine ⟨h3, .inr ⟨rfl, by simp, h1, ?_, ?_⟩⟩
    · rintro t (⟨pre, h, -⟩ | ⟨-, rfl⟩)
      · have h1 := congrArg List.length h
        have := List.count_le_length (a := ';') (l := t)
        simp at h1; omega
      · have := List.count_le_length (a := ';') (l := [c])
        simp only [List.length_singleton] at this; omega
    · intro h
      have := h.length_le
      simp at this
  exact ⟨by decide, ⟨by omega, by omega⟩, ⟨by omega, by omega⟩,
    .cons ⟨single 'a' (by decide +kernel) (by decide) (by decide), by decide⟩
    (.cons ⟨⟨by decide, .inl ⟨["arrow-up".toList], by decide +kernel⟩⟩, by decide⟩ .nil)⟩

end Playground
end Slate
