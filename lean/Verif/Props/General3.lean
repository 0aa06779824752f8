import Verif.Props.BulkScroll
import Verif.Props.Pieces2
import Verif.Props.Breaks
import Verif.Props.Roles
import Verif.Props.Malformed
import Verif.Props.Playground
import Verif.Props.Parse
import Verif.Props.Methods

/-!
# More violations for all inputs
-/

namespace Slate
open Py Term

/-! ## C97: the default terminal background -/

/-- The cell of a span of any colours, translucent or not, in a row of a fresh screen. -/
theorem fresh_pile (env : Color.Env) (tb : Color) (force : Bool) (width height : Nat) (cur : Int × Int) (fill : Str) (x y : Nat)
    (hy : y < height) (s : Span) (hnl : '\n' ∉ s.text) (hfit : x + s.text.length ≤ width) (j : Nat) (c : Char) (hj : s.text[j]? = some c) :
    cellAt (write env [s] (some ((x : Int), (y : Int))) tb force { scr := Screen.init width height cur fill }).1.scr.cells (x + j) y =
      some (Pile.cell tb ⟨s, j, c⟩ []) := by
  have hlen : j < s.text.length := (List.getElem?_eq_some_iff.mp hj).1
  have hxw : x < width := by omega
  have hw : 0 < width := by omega
  have hs : Shape width height (Screen.init width height cur fill).cells := resize_shape _ width height fill true
  have h0 := C88_no_scroll env tb force { scr := Screen.init width height cur fill } hs rfl (x : Int) y hy s
  obtain ⟨old, h1, h2⟩ := C103_flow_partial env tb force [(((x : Int), (y : Int)), [s])] { scr := Screen.init width height cur fill } hs
    (by intro e he; cases he) (.inl rfl) h0 (x + j) y (show x + j < width by omega) hy
  have hlay : layersAt width height (raised 0 [(((x : Int), (y : Int)), [s])]) (x + j) y = [⟨s, j, c⟩] := by
    have e : raised 0 [(((x : Int), (y : Int)), [s])] = [(((x : Int), (y : Int)), [s])] := by simp [raised]
    have := layersAt_index (w := width) (h := height) (x := x + j) (y := y) (by omega) hy (y * width + x) [s]
    have hm : (y * width + x) % width = x := by
      rw [Nat.add_comm, Nat.add_mul_mod_self_right, Nat.mod_eq_of_lt hxw]
    have hd : (y * width + x) / width = y := by
      rw [Nat.add_comm, Nat.add_mul_div_right _ _ hw, Nat.div_eq_of_lt hxw, Nat.zero_add]
    rw [hm, hd] at this
    rw [e, this, if_pos (by omega), covering_plain (lineLayers_plain hnl),
      show y * width + (x + j) - (y * width + x) = j by omega]
    simp [lineLayers, List.getElem?_mapIdx, hj]
  have hold : old = { char := fill } := by
    have := init_cellAt width height cur fill (x + j) y (by omega) hy
    rw [this] at h1
    exact (Option.some.inj h1).symm
  have h2' : cellAt (write env [s] (some ((x : Int), (y : Int))) tb force { scr := Screen.init width height cur fill }).1.scr.cells (x + j) y =
      some (if (Pile.cell tb ⟨s, j, c⟩ []).eq old then old else Pile.cell tb ⟨s, j, c⟩ []) := by
    refine Eq.trans h2 ?_
    show some (match layersAt width height (raised 0 [(((x : Int), (y : Int)), [s])]) (x + j) y with
      | [] => old
      | first :: above => if (Pile.cell tb first above).eq old then old else Pile.cell tb first above) = _
    rw [hlay]
  rw [h2', if_neg]
  rw [hold]
  simp [Cell.eq, Pile.cell, Span.optEq]

/-- C97 is violated for every translucent background if the terminal background has the foreground role, as the default argument of `Screen.write`
has it: the mixed background is a foreground, so that the text is shown in the colour that should be behind it, and nothing is behind it. -/
theorem C97_defaults_violated (env : Color.Env) (den : Color → TColor) (tb : Color) (htb : tb.isBg = false) (force : Bool)
    (width height : Nat) (cur : Int × Int) (fill : Str) (x y : Nat) (hy : y < height) (s : Span) (hnl : '\n' ∉ s.text)
    (hfit : x + s.text.length ≤ width) (hf : ∀ f, s.fg = some f → f.alpha = 1 ∧ f.isBg = false) (b : Color) (hb : s.bg = some b) (ha : b.alpha ≠ 1)
    (j : Nat) (hj : j < s.text.length) :
    ∃ cell mixed, cellAt (write env [s] (some ((x : Int), (y : Int))) tb force { scr := Screen.init width height cur fill }).1.scr.cells (x + j) y =
        some cell ∧ cell.fg = some (s.fg.getD Color.white) ∧ cell.bg = some mixed ∧ mixed.isBg = false ∧
      (cellAttr den cell).fg = den mixed ∧ (cellAttr den cell).bg = .default := by
  have h := fresh_pile env tb force width height cur fill x y hy s hnl hfit j s.text[j] (List.getElem?_eq_getElem hj)
  have hfa : (s.fg.getD Color.white).alpha = 1 ∧ (s.fg.getD Color.white).isBg = false := by
    cases e : s.fg with
    | none => exact ⟨rfl, rfl⟩
    | some f => exact hf f e
  have hback : Pile.back tb ⟨s, j, s.text[j]⟩ [] = some (Pile.over (some tb) b) := by
    have hg : Pile.ground ⟨s, j, s.text[j]⟩ [⟨s, j, s.text[j]⟩] = ⟨s, j, s.text[j]⟩ := by
      unfold Pile.ground
      cases hh : ([(⟨s, j, s.text[j]⟩ : Layer)].reverse.find? fun l => !l.translucent) with
      | none => rfl
      | some l => have := List.mem_of_find?_eq_some hh; simp at this; exact this
    unfold Pile.back
    simp only [hg, hb, Pile.tints, Pile.fresh, List.filter_nil, List.filterMap_nil, List.foldl_nil, Option.map_some]
    rw [if_neg ha]
  have htext : Pile.text ⟨s, j, s.text[j]⟩ [⟨s, j, s.text[j]⟩] = ⟨s, j, s.text[j]⟩ := by
    unfold Pile.text
    cases hh : ([(⟨s, j, s.text[j]⟩ : Layer)].reverse.find? fun l => !l.unseen) with
    | none => rfl
    | some l => have := List.mem_of_find?_eq_some hh; simp at this; exact this
  have hink : Pile.ink ⟨s, j, s.text[j]⟩ [] = s.fg.getD Color.white := by
    unfold Pile.ink
    simp only [htext, List.getLastD_nil, if_true]
  have hmix : (Pile.over (some tb) b).isBg = false := by
    simp [Pile.over, Color.blend, htb]
  refine ⟨_, Pile.over (some tb) b, h, ?_, ?_, hmix, ?_, ?_⟩
  · simp only [Pile.cell, hink, hfa.1, if_true]
  · simp only [Pile.cell, hback]
  · simp [cellAttr, Pile.cell, hback, paintOpt, paint, hmix]
  · simp only [cellAttr, Pile.cell, hback, hink, hfa.1, if_true, paintOpt, paint, hmix, hfa.2, Bool.false_eq_true, if_false]
    rfl

/-- The default terminal background has the foreground role; green on translucent red. -/
example : Color.black.isBg = false ∧ ∃ s : Span, s.text = ['x'] ∧ s.fg = some { r := 0, g := 255, b := 0 } ∧
    s.bg = some { r := 200, g := 0, b := 0, isBg := true, alpha := 1 / 2 } :=
  ⟨rfl, { text := ['x'], fg := some { r := 0, g := 255, b := 0 }, bg := some { r := 200, g := 0, b := 0, isBg := true, alpha := 1 / 2 } }, rfl, rfl, rfl⟩

/-! ## C87: descriptions that are accepted -/

/-- C87 fails for every true-colour code with something behind its third channel: it is ignored, whatever it is. -/
theorem C87_tail_violated (bg : Bool) (r g b : Nat) (hr : r < 256) (hg : g < 256) (hb : b < 256) (tail : Str) (ht : '.' ∉ tail) :
    ∃ c, Color.ofString ((if bg then "48".toList else "38".toList) ++ ';' :: (['2'] ++ ';' :: (dec r ++ ';' :: (dec g ++ ';' :: (dec b ++ ';' :: tail))))) =
      .ok c ∧ (c.r, c.g, c.b) = (r, g, b) ∧ c.isBg = bg ∧ c.alpha = 1 := by
  have hsemi : ∀ n, ';' ∉ dec n := fun n => dec_not_mem (by decide)
  have hp : ∀ p0 : Str, ';' ∉ p0 → splitC ';' (p0 ++ ';' :: (['2'] ++ ';' :: (dec r ++ ';' :: (dec g ++ ';' :: (dec b ++ ';' :: tail))))) =
      p0 :: ['2'] :: dec r :: dec g :: dec b :: splitC ';' tail := by
    intro p0 h0
    rw [splitC_append _ h0, splitC_append _ (by decide), splitC_append _ (hsemi r), splitC_append _ (hsemi g), splitC_append _ (hsemi b)]
  have hlast : ∀ p0 : Str, '.' ∉ (p0 :: ['2'] :: dec r :: dec g :: dec b :: splitC ';' tail).getLastD [] := by
    intro p0 hm
    have hne := splitC_ne_nil ';' tail
    have e : (p0 :: ['2'] :: dec r :: dec g :: dec b :: splitC ';' tail).getLastD [] = (splitC ';' tail).getLastD [] := by
      obtain ⟨q, qs, hq⟩ := List.exists_cons_of_ne_nil hne
      rw [hq]
      rfl
    rw [e] at hm
    have hin : (splitC ';' tail).getLastD [] ∈ splitC ';' tail := by
      rw [List.getLastD_eq_getLast?, List.getLast?_eq_getLast_of_ne_nil hne]
      exact List.getLast_mem hne
    exact ht ((splitC_infix _ _ _ hin).subset hm)
  have key : ∀ p0 : Str, p0 = "48".toList ∨ p0 = "38".toList → ∃ c,
      Color.ofString (p0 ++ ';' :: (['2'] ++ ';' :: (dec r ++ ';' :: (dec g ++ ';' :: (dec b ++ ';' :: tail))))) = .ok c ∧
        (c.r, c.g, c.b) = (r, g, b) ∧ c.isBg = startsWith p0 ['4'] ∧ c.alpha = 1 := by
    intro p0 h0
    have hs0 : ';' ∉ p0 := by rcases h0 with rfl | rfl <;> decide
    have hname : namedColors.lookup (p0 ++ ';' :: (['2'] ++ ';' :: (dec r ++ ';' :: (dec g ++ ';' :: (dec b ++ ';' :: tail))))) = none := by
      have keyn : ∀ p ∈ namedColors, ';' ∉ p.1 := by decide +kernel
      cases hl : namedColors.lookup (p0 ++ ';' :: (['2'] ++ ';' :: (dec r ++ ';' :: (dec g ++ ';' :: (dec b ++ ';' :: tail))))) with
      | none => rfl
      | some v => exact absurd (by simp) (keyn _ (lookup_mem hl))
    refine ⟨{ r := r, g := g, b := b, isBg := startsWith p0 ['4'], alpha := 1, origin := .trueColor
              ctor := some (join [';'] (p0 :: ['2'] :: dec r :: dec g :: dec b :: splitC ';' tail)) }, ?_, rfl, rfl, rfl⟩
    unfold Color.ofString
    rw [if_neg (by rcases h0 with rfl | rfl <;> simp [startsWith])]
    simp only [hp p0 hs0]
    rw [if_neg (hlast p0)]
    simp only [hname]
    unfold Color.fromAnsi
    simp only [hp p0 hs0]
    rw [if_neg (hlast p0)]
    unfold Color.fromParts
    simp only
    rw [if_pos (by simp), if_pos (by rcases h0 with rfl | rfl <;> simp)]
    have i2 : Color.intAt (p0 :: ['2'] :: dec r :: dec g :: dec b :: splitC ';' tail) 2 = .ok (r : Int) := pyInt_dec (dec_short (by omega))
    have i3 : Color.intAt (p0 :: ['2'] :: dec r :: dec g :: dec b :: splitC ';' tail) 3 = .ok (g : Int) := pyInt_dec (dec_short (by omega))
    have i4 : Color.intAt (p0 :: ['2'] :: dec r :: dec g :: dec b :: splitC ';' tail) 4 = .ok (b : Int) := pyInt_dec (dec_short (by omega))
    rw [i2, ok_bind, i3, ok_bind, i4, ok_bind, make_nat hr hg hb]
  cases bg with
  | true => obtain ⟨c, h1, h2, h3, h4⟩ := key "48".toList (.inl rfl); exact ⟨c, h1, h2, h3, h4⟩
  | false => obtain ⟨c, h1, h2, h3, h4⟩ := key "38".toList (.inr rfl); exact ⟨c, h1, h2, h3, h4⟩

/-- `48;2;1;2;3;x;y` -/
example : ∃ c, Color.ofString "48;2;1;2;3;x;y".toList = .ok c ∧ (c.r, c.g, c.b) = (1, 2, 3) ∧ c.isBg = true ∧ c.alpha = 1 :=
  C87_tail_violated true 1 2 3 (by decide) (by decide) (by decide) "x;y".toList (by decide)

/-- The hexadecimal digits. -/
def hexLetters : Str := "0123456789abcdefABCDEF".toList

theorem hex_pairs : ∀ a ∈ hexLetters, (∀ b ∈ hexLetters, (match Color.pyInt 16 [a, b] with
    | .ok n => decide (0 ≤ n ∧ n < 256)
    | .error _ => false) = true) ∧ (match Color.pyInt 16 [a] with
    | .ok n => decide (0 ≤ n ∧ n < 16)
    | .error _ => false) = true := by decide +kernel

/-- C87 fails for every description of five hexadecimal digits: it is accepted, and the last digit alone is the blue channel. -/
theorem C87_digits_violated (a b c d e : Char) (h : ∀ x ∈ [a, b, c, d, e], x ∈ hexLetters) :
    ∃ col, Color.ofString ['#', a, b, c, d, e] = .ok col ∧ col.b < 16 := by
  have hp : ∀ x ∈ hexLetters, ∀ y ∈ hexLetters, ∃ n : Nat, n < 256 ∧ Color.pyInt 16 [x, y] = .ok (n : Int) := by
    intro x hx y hy
    have := (hex_pairs x hx).1 y hy
    cases hh : Color.pyInt 16 [x, y] with
    | error e => rw [hh] at this; cases this
    | ok n =>
      rw [hh] at this
      simp only [decide_eq_true_eq] at this
      exact ⟨n.toNat, by omega, by rw [Int.toNat_of_nonneg this.1]⟩
  have h1 : ∃ n : Nat, n < 16 ∧ Color.pyInt 16 [e] = .ok (n : Int) := by
    have := (hex_pairs e (h e (by simp))).2
    cases hh : Color.pyInt 16 [e] with
    | error e => rw [hh] at this; cases this
    | ok n =>
      rw [hh] at this
      simp only [decide_eq_true_eq] at this
      exact ⟨n.toNat, by omega, by rw [Int.toNat_of_nonneg this.1]⟩
  obtain ⟨n1, l1, e1⟩ := hp a (h a (by simp)) b (h b (by simp))
  obtain ⟨n2, l2, e2⟩ := hp c (h c (by simp)) d (h d (by simp))
  obtain ⟨n3, l3, e3⟩ := h1
  have ha : a ≠ '#' := by
    rintro rfl
    exact absurd (h '#' (by simp)) (by decide)
  have hstrip : lstrip (· == '#') ['#', a, b, c, d, e] = [a, b, c, d, e] := by
    unfold lstrip
    rw [List.dropWhile_cons_of_pos (by rfl), List.dropWhile_cons_of_neg (by simpa using ha)]
  refine ⟨{ r := n1, g := n2, b := n3, isBg := false, alpha := 1, origin := .trueColor, ctor := some ['#', a, b, c, d, e] }, ?_, l3⟩
  unfold Color.ofString
  rw [if_pos (by rfl), if_neg (by simp)]
  unfold Color.fromHex
  simp only [hstrip]
  rw [show List.take 2 [a, b, c, d, e] = [a, b] from rfl, show List.take 2 (List.drop 2 [a, b, c, d, e]) = [c, d] from rfl,
    show List.drop 4 [a, b, c, d, e] = [e] from rfl, e1, ok_bind, e2, ok_bind, e3, ok_bind, make_nat l1 l2 (by omega)]

/-- `#12aBc` -/
example : ∃ col, Color.ofString "#12aBc".toList = .ok col ∧ col.b < 16 := C87_digits_violated '1' '2' 'a' 'B' 'c' (by decide)

/-! ## C91: names that stay behind -/

namespace Playground

/-- C91 is violated by every key whose name is shorter than that of the key before it (except "c"): the end of the longer text stays on the display, whatever
came before. -/
theorem C91_leftover_violated (env : Color.Env) (den : Color → TColor) (hden : DenOk env den) (pr : Char → Bool)
    (hpr : ∀ c, pr c = true → Printable c) (bg : Color) (width height : Nat) (hw : 1 ≤ width) (hh : 2 ≤ height)
    (hsize : width < intLimit ∧ height < intLimit) (T : State) (hT : T.mode = .ground) (hpen : T.pen = Attr.clean)
    (acts : List Act) (texts : List Str) (ha : List.Forall₂ (fun a s => a.Sent width height s) acts texts)
    (long short s1 s2 : Str) (h1 : (Act.key long).Sent width height s1) (h2 : (Act.key short).Sent width height s2) (hc : short ≠ ['c'])
    (k : Nat) (c : Char) (hk : (" Keyboard: ".toList ++ reprOf pr long ++ [' '])[k]? = some c)
    (hlen : (" Keyboard: ".toList ++ reprOf pr short ++ [' ']).length ≤ k) (hin : k < width * height) :
    ∃ w out, loop env pr bg ((texts ++ [s1, s2]).map .text) { scr := Screen.init width height } = (w, out, .next) ∧
      (run T out).grid (k / width + 1) (k % width + 1) = { ch := c, attr := { Attr.clean with fg := den Color.white } } := by
  obtain ⟨w, out, hl, hg⟩ := C91_session_partial env den hden pr hpr bg width height hw hh hsize [] (by intro e he; cases he) T hT hpen
    (acts ++ [.key long, .key short]) (texts ++ [s1, s2])
    (List.rel_append ha (.cons h1 (.cons h2 .nil))) (by simp)
  refine ⟨w, out, hl, ?_⟩
  have := hg (k % width) (k / width) (Nat.mod_lt _ hw) (Nat.div_lt_of_lt_mul hin)
  rw [this, Nat.div_add_mod', List.foldl_append]
  have hklt := (List.getElem?_eq_some_iff.mp hk).1
  simp only [List.foldl_cons, List.foldl_nil]
  generalize acts.foldl (Act.paint (reprOf pr) width) Canvas.empty = cv
  have e2 : Act.paint (reprOf pr) width (Act.paint (reprOf pr) width cv (.key long)) (.key short) k = some c := by
    rw [Act.paint, if_neg hc, Canvas.put, if_neg (by omega), Act.paint, Canvas.put, if_pos ⟨Nat.zero_le _, by omega⟩, Nat.sub_zero, hk]
  rw [e2]
  rfl

/-- Backspace, then "a": the name of the first is longer. -/
example : " Keyboard: 'backspace' ".toList.length = 23 ∧ " Keyboard: 'a' ".toList.length = 15 ∧
    (Act.key "backspace".toList).Sent 24 2 ['\x7f'] :=
  ⟨by decide, by decide, by decide, .inl ⟨[], by decide +kernel⟩⟩

end Playground

/-! ## C83: hashes of spans -/

/-- Every colour has an equal one with the same code but another hash. -/
theorem color_twin (env : Color.Env) (f : Color) : ∃ g : Color, f.eq g = true ∧ g.ansi env = f.ansi env ∧ g.hashKey ≠ f.hashKey := by
  cases hc : f.ctor with
  | none =>
    refine ⟨{ f with ctor := some f.hex }, by simp [Color.eq], ?_, ?_⟩
    · simp only [Color.ansi, hc]
      rw [if_neg (by simp [Color.hex, startsWith, List.isPrefixOf])]
      rfl
    · intro he
      have := congrArg (fun k => k.2.2.2.2) he
      simp [Color.hashKey, hc] at this
  | some k =>
    by_cases hk : (env.space.geB f.origin && !startsWith k ['#']) = true
    · refine ⟨{ f with isBg := !f.isBg }, by simp [Color.eq], ?_, ?_⟩
      · simp only [Color.ansi, hc, hk, if_true]
      · intro he
        have := congrArg (fun k => k.2.1) he
        simp [Color.hashKey] at this
    · refine ⟨{ f with ctor := none }, by simp [Color.eq], ?_, ?_⟩
      · simp only [Color.ansi, hc]
        rw [if_neg hk]
        rfl
      · intro he
        have := congrArg (fun k => k.2.2.2.2) he
        simp [Color.hashKey, hc] at this

/-- C83 is violated for every span with a text colour: there is an equal span with another hash, for all hash functions of tuples without collisions. -/
theorem C83_span_hashes_violated {κ : Type} (h : _ → κ) (hinj : Function.Injective h) (env : Color.Env) (s : Span) (f : Color) (hf : s.fg = some f) :
    ∃ t : Span, s.eq env t = true ∧ s.hashKey h env ≠ t.hashKey h env := by
  obtain ⟨g, h1, h2, h3⟩ := color_twin env f
  refine ⟨{ s with fg := some g }, ?_, fun he => ?_⟩
  · have hc : Span.colorCodes env { s with fg := some g } = s.colorCodes env := by
      simp [Span.colorCodes, hf, h2]
    have hs : Span.sequences env { s with fg := some g } = s.sequences env := by
      simp only [Span.sequences, Span.total, hc]
    have hr : Span.render env { s with fg := some g } = s.render env := by
      simp only [Span.render, hs]
    have hb : Span.optEq s.bg s.bg = true := by
      cases s.bg with
      | none => rfl
      | some b => simp [Span.optEq, Color.eq]
    have hfg : Span.optEq (some f) (some g) = true := h1
    simp only [Span.eq, hr, hs, Span.attrsEq, hf, hfg, hb]
    simp [Span.colorlessSequences]
  · have := congrArg (fun k => k.2.1) he
    simp only [Span.hashKey, hf, Option.map_some, Option.some.injEq] at this
    exact h3 (hinj this).symm

/-- A red word. -/
example : ∃ t : Span, Span.eq {} { text := "a".toList, fg := some { r := 255, g := 0, b := 0 } } t = true ∧
    Span.hashKey id {} { text := "a".toList, fg := some { r := 255, g := 0, b := 0 } } ≠ t.hashKey id {} :=
  C83_span_hashes_violated id Function.injective_id {} _ _ rfl

end Slate
