import Verif.Lemmas.RoundTrip

/-!
# Parsing ANSI text (C25, C30, C31, C32)
-/

namespace Slate
open Py Term

/-! ### C25 -/

/-- Colours made directly or from hex, and ANSI colours made from a standard, 8-bit
or true-colour code; not transparent. -/
def Usual (c : Color) : Prop :=
  c.Valid ∧ c.alpha = 1 ∧
  (c.ctor = none ∨ (∃ t, c.ctor = some ('#' :: t)) ∨ ∃ ns, CodeNums ns ∧ c = codeColor ns)

theorem geB_trueColor (o : ColorSpace) : ColorSpace.geB .trueColor o = true := by
  cases o <;> decide

theorem codeColor_alpha {ns : List Nat} (h : CodeNums ns) :
    (codeColor ns).alpha = 1 ∧ (codeColor ns).ctor = some (codeStr ns) := by
  cases h <;> exact ⟨rfl, rfl⟩

theorem codeStr_head {ns : List Nat} : startsWith (codeStr ns) ['#'] = false := by
  rw [Bool.eq_false_iff]
  intro h
  obtain ⟨t, ht⟩ := List.isPrefixOf_iff_prefix.mp h
  have := join_dec_head ns '#' (by rw [codeStr] at ht; rw [← ht]; rfl)
  revert this; decide

/-- The code of a usual colour in a true-colour terminal. -/
theorem Usual.canon {env : Color.Env} (henv : env.space = .trueColor) {c : Color} (h : Usual c) :
    ∃ ns, Canon env c.isBg c ns := by
  obtain ⟨⟨v1, v2, v3⟩, ha, hc⟩ := h
  have hconv : (c.ctor = none ∨ ∃ t, c.ctor = some ('#' :: t)) → ∃ ns, Canon env c.isBg c ns := by
    intro hc
    refine ⟨[if c.isBg then 48 else 38, 2, c.r, c.g, c.b],
      .rgb c.isBg c.r c.g c.b (by omega) (by omega) (by omega), ?_, ?_, ?_⟩
    · have : Color.ansi env c = Color.convert env c := by
        rcases hc with hc | ⟨t, hc⟩
        · rw [Color.ansi, hc]
        · rw [Color.ansi, hc]
          simp [startsWith]
      rw [this]
      unfold Color.convert Color.lead
      rw [henv]
      cases c.isBg <;> simp [codeStr, join, dec2]
    · cases c.isBg <;> rfl
    · simp [Color.eq, codeColor, ha]
  rcases hc with hc | hc | ⟨ns, hns, rfl⟩
  · exact hconv (.inl hc)
  · exact hconv (.inr hc)
  · refine ⟨ns, hns, ?_, rfl, by simp [Color.eq]⟩
    rw [Color.ansi, (codeColor_alpha hns).2]
    simp only [henv, geB_trueColor, codeStr_head]
    rfl

theorem codeColor_ansi {env : Color.Env} (henv : env.space = .trueColor) {ns : List Nat} (h : CodeNums ns) :
    (codeColor ns).ansi env = codeStr ns := by
  rw [Color.ansi, (codeColor_alpha h).2]
  simp only [henv, geB_trueColor, codeStr_head]
  rfl

theorem Color.eq_comm' (c d : Color) : c.eq d = d.eq c := by
  simp [Color.eq, Bool.beq_comm, _root_.eq_comm]

/-- C25, for spans with `reset_after` and usual (in particular opaque) colours: the
first span parsed from the rendering is Python-equal to the span. -/
theorem C25_parse_rendered_partial (env : Color.Env) (henv : env.space = .trueColor) (s : Span)
    (ht : s.text ≠ [] ∧ ∀ c ∈ s.text, c ≠ '\x1b') (hlink : s.hyperlink = [])
    (hop : s.style.isOpaque = false) (hr : s.resetAfter = true)
    (hf : ∀ c, s.fg = some c → Usual c ∧ c.isBg = false)
    (hb : ∀ c, s.bg = some c → Usual c ∧ c.isBg = true) :
    ∃ t, firstFrom (s.render env) = .ok (some t) ∧ t.eq env s = true := by
  obtain ⟨f, hf1, hf0⟩ : ∃ f : Option (List Nat),
      (∀ c, s.fg = some c → ∃ ns, f = some ns ∧ Canon env false c ns) ∧ (s.fg = none → f = none) := by
    cases h : s.fg with
    | none => exact ⟨none, by simp⟩
    | some c =>
      obtain ⟨ns, hns⟩ := (hf c h).1.canon henv
      rw [(hf c h).2] at hns
      exact ⟨some ns, fun d hd => by injection hd with hd; subst hd; exact ⟨ns, rfl, hns⟩, by simp⟩
  obtain ⟨b, hb1, hb0⟩ : ∃ b : Option (List Nat),
      (∀ c, s.bg = some c → ∃ ns, b = some ns ∧ Canon env true c ns) ∧ (s.bg = none → b = none) := by
    cases h : s.bg with
    | none => exact ⟨none, by simp⟩
    | some c =>
      obtain ⟨ns, hns⟩ := (hb c h).1.canon henv
      rw [(hb c h).2] at hns
      exact ⟨some ns, fun d hd => by injection hd with hd; subst hd; exact ⟨ns, rfl, hns⟩, by simp⟩
  refine ⟨_, firstFrom_render ht hlink hop hr hf1 hf0 hb1 hb0, ?_⟩
  have hfe : Span.optEq (f.map codeColor) s.fg = true ∧
      (f.map codeColor).toList.map (Color.ansi env) = s.fg.toList.map (Color.ansi env) := by
    cases h : s.fg with
    | none => rw [hf0 h]; exact ⟨rfl, rfl⟩
    | some c =>
      obtain ⟨ns, rfl, hc⟩ := hf1 c h
      refine ⟨?_, ?_⟩
      · have := hc.same
        rw [Color.eq_comm'] at this
        exact this
      · simp [codeColor_ansi henv hc.nums, hc.code]
  have hbe : Span.optEq (b.map codeColor) s.bg = true ∧
      (b.map codeColor).toList.map (Color.ansi env) = s.bg.toList.map (Color.ansi env) := by
    cases h : s.bg with
    | none => rw [hb0 h]; exact ⟨rfl, rfl⟩
    | some c =>
      obtain ⟨ns, rfl, hc⟩ := hb1 c h
      refine ⟨?_, ?_⟩
      · have := hc.same
        rw [Color.eq_comm'] at this
        exact this
      · simp [codeColor_ansi henv hc.nums, hc.code]
  have htot : ∀ t : Span, t.style = s.style → t.fg = f.map codeColor → t.bg = b.map codeColor →
      t.total env = s.total env := by
    intro t h1 h2 h3
    unfold Span.total Span.colorCodes
    rw [h1, h2, h3, hfe.2, hbe.2]
  have hseq : ∀ t : Span, t.style = s.style → t.fg = f.map codeColor → t.bg = b.map codeColor →
      t.sequences env = s.sequences env := by
    intro t h1 h2 h3
    rw [Span.sequences, Span.sequences, htot t h1 h2 h3]
  unfold Span.eq Span.attrsEq Span.render Span.colorlessSequences
  simp only [hseq _ (rfl : ({ text := s.text, fg := f.map codeColor, bg := b.map codeColor, style := s.style } : Span).style = s.style) rfl rfl]
  simp [hfe.1, hbe.1, hlink, hr]

/-- A case of C25 with a direct and an ANSI colour. -/
example : firstFrom (({ text := "hi".toList, fg := some { r := 1, g := 2, b := 3 }
                        bg := some (codeColor [48, 5, 9]), style := { bold := true, strike := true } } : Span).render {}) =
    .ok (some { text := "hi".toList, fg := some (codeColor [38, 2, 1, 2, 3])
                bg := some (codeColor [48, 5, 9]), style := { bold := true, strike := true } }) := by
  decide +kernel

/-- C25 fails without `reset_after`: the parsed span has it set. -/
theorem C25_no_reset_violated :
    let s : Span := { text := "a".toList, style := { bold := true }, resetAfter := false }
    ∃ t, firstFrom (s.render {}) = .ok (some t) ∧ t.eq {} s = false := by
  refine ⟨{ text := "a".toList, style := { bold := true } }, ?_⟩
  decide +kernel

/-- C25 fails for a translucent colour: the code does not carry the alpha value. -/
theorem C25_alpha_violated :
    let s : Span := { text := "a".toList, fg := some { r := 1, g := 2, b := 3, alpha := 1 / 2 } }
    ∃ t, firstFrom (s.render {}) = .ok (some t) ∧ t.eq {} s = false := by
  refine ⟨{ text := "a".toList, fg := some (codeColor [38, 2, 1, 2, 3]) }, ?_⟩
  decide +kernel

/-! ### C31 -/

/-- C31 for lines over the codes 1–9, 22–25, 27, 39, 49 and all colour codes: one span
per sequence, with the text after it and the styles and colours of the terminal's
pen at that point; fast blinking only if the line has no 25. -/
theorem C31_tracks_terminal_partial (items : List Item) (h : ∀ it ∈ items, it.Ok) (strict : Bool)
    (h25 : strict = true → ∀ it ∈ items, .unset 25 ∉ it.units)
    (st : State) (hm : st.mode = .ground) (hp : st.pen = Attr.clean) :
    ∃ sps, yieldFrom (lineOf items) = (sps, none) ∧ sps.length = items.length ∧
      ∀ (i : Nat) (it : Item) (sp : Span), items[i]? = some it → sps[i]? = some sp →
        sp.text = it.text ∧
        Agree strict sp.style sp.fg sp.bg (run st (lineOf (items.take (i + 1)))).pen := by
  have := spansOf_agree h h25 (o := {}) st hm (by rw [hp]; exact Agree.clean strict) rfl
  exact ⟨_, yieldFrom_items h, this.1, this.2⟩

/-- A line meeting the hypotheses of C31 (and of C30). -/
example : let items : List Item :=
      [{ units := [.set 1, .color [38, 5, 9]], text := "a".toList },
       { units := [.unset 22, .set 6, .color [48, 2, 1, 2, 3]], text := "b".toList }]
    (∀ it ∈ items, it.Ok) ∧ (∀ it ∈ items, SgrUnit.unset 25 ∉ it.units) ∧
    lineOf items = "\x1b[1;38;5;9ma\x1b[22;6;48;2;1;2;3mb".toList := by
  refine ⟨?_, by decide, by decide +kernel⟩
  intro it hit
  simp only [List.mem_cons, List.not_mem_nil, or_false] at hit
  rcases hit with rfl | rfl
  · refine ⟨by simp, ?_, by simp, by decide⟩
    intro u hu
    simp only [List.mem_cons, List.not_mem_nil, or_false] at hu
    rcases hu with rfl | rfl
    · exact ⟨by omega, by omega⟩
    · exact CodeNums.idx false 9 (by omega)
  · refine ⟨by simp, ?_, by simp, by decide⟩
    intro u hu
    simp only [List.mem_cons, List.not_mem_nil, or_false] at hu
    rcases hu with rfl | rfl | rfl
    · simp [SgrUnit.Ok]
    · exact ⟨by omega, by omega⟩
    · exact CodeNums.rgb true 1 2 3 (by omega) (by omega) (by omega)

/-- C31 fails for 25, which stops fast blinking on a terminal but not in the parser. -/
theorem C31_blink_off_violated :
    yieldFrom "\x1b[6ma\x1b[25mb".toList =
      ([{ text := "a".toList, style := { fastBlink := true } },
        { text := "b".toList, style := { fastBlink := true } }], none) ∧
    (run { grid := fun _ _ => { ch := ' ', attr := Attr.clean } } "\x1b[6ma\x1b[25mb".toList).pen = {} := by
  decide +kernel

/-- C31 fails for 28 and 29 (conceal off, strike off), which raise instead. -/
theorem C31_conceal_strike_off_violated :
    yieldFrom "\x1b[8ma\x1b[28mb".toList =
      ([{ text := "a".toList, style := { conceal := true } }], some .typeError) ∧
    yieldFrom "\x1b[9ma\x1b[29mb".toList =
      ([{ text := "a".toList, style := { strike := true } }], some .typeError) := by
  decide +kernel

/-- C31 fails for the reset 0, which is not understood. -/
theorem C31_reset_violated :
    yieldFrom "\x1b[1ma\x1b[0mb".toList =
      ([{ text := "a".toList, style := { bold := true } }], some .valueError) := by
  decide +kernel

/-! ### C30 -/

/-- C30 for lines in which every sequence is followed by text: no text is lost. -/
theorem C30_no_text_lost_partial (items : List Item) (h : ∀ it ∈ items, it.Ok) :
    ∃ sps, yieldFrom (lineOf items) = (sps, none) ∧
      sps.flatMap (·.text) = items.flatMap (·.text) ∧
      sps.flatMap (·.text) = subAnsi (lineOf items) := by
  refine ⟨_, yieldFrom_items h, ?_, ?_⟩
  · generalize ({} : Opts) = o
    induction items generalizing o with
    | nil => rfl
    | cons it its ih =>
      simp only [spansOf, List.flatMap_cons, ih (fun x hx => h x (by simp [hx]))]
  · generalize ({} : Opts) = o
    induction items generalizing o with
    | nil => rfl
    | cons it its ih =>
      rw [spansOf, List.flatMap_cons, ih (fun x hx => h x (by simp [hx]))]
      have := subAnsi_sgr (it.text ++ lineOf its) (codeStr_bodyChar (ns := seqNums it.units))
      rw [subAnsi_text _ (h it (by simp)).text.2] at this
      have e : lineOf (it :: its) = it.str ++ lineOf its := by simp [lineOf]
      rw [e]
      refine this.symm.trans ?_
      simp [Item.str]

/-- C30 for a line without sequences: the line is one plain span. -/
theorem C30_plain_line (t : Str) (h : PlainText t) : yieldFrom t = ([{ text := t }], none) := by
  have hlast : ∀ c, t.getLast? = some c → c ≠ ESC := fun c hc => h.2 c (List.mem_of_getLast? hc)
  unfold yieldFrom
  rw [endsWith_esc hlast]
  simp only [Bool.false_eq_true, if_false, styleMatches]
  have := styleMatchesGo_text 0 (t := t) ['\x1b'] h.2
  rw [show ([ESC] : Str) = ['\x1b'] from rfl, this, styleMatchesGo_end]
  simp only [yieldLoop]
  rw [show (['\x1b'] : Str) = [ESC] from rfl, rstrip_esc hlast, if_pos (List.length_pos_iff.mpr h.1)]
  simp

/-- C30 fails whenever plain text comes first: it is dropped, for every such line. -/
theorem C30_leading_text_violated (lead : Str) (hl : PlainText lead) (items : List Item) (hne : items ≠ [])
    (h : ∀ it ∈ items, it.Ok) :
    (yieldFrom (lead ++ lineOf items)).1.flatMap (·.text) = items.flatMap (·.text) := by
  have hlast : ∀ c, (lead ++ lineOf items).getLast? = some c → c ≠ ESC := by
    intro c hc
    rw [List.getLast?_append] at hc
    cases hl2 : (lineOf items).getLast? with
    | none =>
      obtain ⟨it, its, rfl⟩ := List.exists_cons_of_ne_nil hne
      rw [List.getLast?_eq_none_iff] at hl2
      simp [lineOf, Item.str] at hl2
    | some d => rw [hl2] at hc; simp at hc; exact lineOf_last h c (by rw [hl2, hc])
  unfold yieldFrom
  rw [endsWith_esc hlast]
  simp only [Bool.false_eq_true, if_false, styleMatches]
  have h1 := (styleMatches_items items h (0 + lead.length) [] styleMatchesGo_end).2 {} 0 rfl (by
    intro us hus o
    obtain ⟨it, hit, rfl⟩ := List.mem_map.mp hus
    exact seqEff_bad (h it hit).units o)
  have h2 := styleMatchesGo_text 0 (t := lead) (lineOf items ++ ['\x1b']) hl.2
  rw [← List.append_assoc] at h2
  rw [show ([ESC] : Str) = ['\x1b'] from rfl, h2, h1]
  simp only
  rw [show (['\x1b'] : Str) = [ESC] from rfl, rstrip_esc hlast, if_neg hne, if_neg (by simp)]
  simp only
  clear h1 h2 hlast hne
  generalize ({} : Opts) = o
  induction items generalizing o with
  | nil => rfl
  | cons it its ih =>
    simp only [spansOf, List.flatMap_cons, ih (fun x hx => h x (by simp [hx]))]

example : (yieldFrom "hello \x1b[1mworld".toList).1.flatMap (·.text) = "world".toList := by decide +kernel

/-- C30 fails for a rendered span: the reset sequence at its end comes back as text. -/
theorem C30_trailing_reset_violated :
    (yieldFrom "\x1b[1ma\x1b[0m".toList).1.map (·.text) = ["a".toList, "\x1b[0m".toList] := by
  decide +kernel

/-! ### C32 -/

theorem splitC_infix (c : Char) (s : Str) : ∀ p ∈ splitC c s, p <:+: s := by
  have key : ∀ s : Str, (∃ h t, splitC c s = h :: t ∧ h <+: s ∧ ∀ p ∈ t, p <:+: s) := by
    intro s
    induction s with
    | nil => exact ⟨[], [], rfl, List.prefix_refl _, by simp⟩
    | cons x xs ih =>
      obtain ⟨h, t, e, h1, h2⟩ := ih
      rw [splitC]
      split
      · refine ⟨[], splitC c xs, rfl, List.nil_prefix, ?_⟩
        intro p hp
        rw [e] at hp
        rcases List.mem_cons.mp hp with rfl | hp
        · exact h1.isInfix.trans (List.suffix_cons x xs).isInfix
        · exact (h2 p hp).trans (List.suffix_cons x xs).isInfix
      · rw [e]
        refine ⟨x :: h, t, rfl, ?_, ?_⟩
        · exact (List.prefix_cons_inj x).mpr h1
        · intro p hp
          exact (h2 p hp).trans (List.suffix_cons x xs).isInfix
  intro p hp
  obtain ⟨h, t, e, h1, h2⟩ := key s
  rw [e] at hp
  rcases List.mem_cons.mp hp with rfl | hp
  · exact h1.isInfix
  · exact h2 p hp

theorem styleBody_infix {acc s b t r : Str} (h : styleBody acc s = some (b, t, r)) :
    ∃ body, b = acc ++ body ∧ body <+: s := by
  induction s generalizing acc with
  | nil => simp [styleBody] at h
  | cons c cs ih =>
    rw [styleBody] at h
    split at h
    · injection h with h; injection h with h1 h2
      exact ⟨[], by simp [h1], List.nil_prefix⟩
    · split at h
      · exact absurd h (by simp)
      · obtain ⟨body, h1, h2⟩ := ih h
        exact ⟨c :: body, by rw [h1]; simp, (List.prefix_cons_inj c).mpr h2⟩

theorem styleMatches_infix (pos skip : Nat) (s : Str) : ∀ m ∈ styleMatchesGo pos skip s, m.1 <:+: s := by
  induction s generalizing pos skip with
  | nil => simp [styleMatchesGo]
  | cons c cs ih =>
    intro m hm
    have up : m.1 <:+: cs → m.1 <:+: c :: cs := fun h => h.trans (List.suffix_cons c cs).isInfix
    cases skip with
    | succ k => exact up (ih _ _ m hm)
    | zero =>
      rw [styleMatchesGo] at hm
      split at hm
      · rename_i body text rest he
        rcases List.mem_cons.mp hm with rfl | hm
        · unfold styleMatch at he
          split at he
          · rename_i t heq
            obtain ⟨b, h1, h2⟩ := styleBody_infix he
            rw [h1, List.nil_append, heq]
            exact h2.isInfix.trans ⟨['\x1b', '['], [], by simp⟩
          · exact absurd he (by simp)
        · exact up (ih _ _ m hm)
      · exact up (ih _ _ m hm)

/-- Parts whose style has no field in `Span`. -/
def badCodes : List Str := ["26".toList, "28".toList, "29".toList, "54".toList]

theorem applySetter_bad {p : Str} {o o' : Opts} (h : applySetter p o = some o') : o'.bad = o.bad := by
  unfold applySetter at h
  repeat (first | (split at h; injection h with h; rw [← h]) | exact absurd h (by simp))

theorem applyUnsetter_bad {p : Str} {o o' : Opts} (h : applyUnsetter p o = some o') :
    o'.bad = o.bad ∨ p ∈ badCodes := by
  unfold applyUnsetter at h
  repeat' (split at h)
  all_goals first
    | (injection h with h; left; rw [← h]; done)
    | (rename_i hp; right; rw [hp]; decide)
    | exact absurd h (by simp)

theorem make_error {rgb : Int × Int × Int} {i : Bool} {a : Rat} {o : ColorSpace} {k : Option Str} {e : PyErr}
    (h : Color.make rgb i a o k = .error e) : e = .valueError := by
  unfold Color.make at h
  split at h
  · exact absurd h (by simp)
  · injection h with h; exact h.symm

theorem pyInt_error {b : Nat} {s : Str} {e : PyErr} (h : Color.pyInt b s = .error e) : e = .valueError := by
  unfold Color.pyInt at h
  split at h
  · exact absurd h (by simp)
  · injection h with h; exact h.symm

theorem bind_error {α β : Type} {x : Except PyErr α} {f : α → Except PyErr β} {e : PyErr}
    (h : (x >>= f) = .error e) : x = .error e ∨ ∃ a, x = .ok a ∧ f a = .error e := by
  cases x with
  | error e' => exact .inl (by simpa [bind, Except.bind] using h)
  | ok a => exact .inr ⟨a, rfl, h⟩

theorem intAt_error {ps : List Str} {i : Nat} {e : PyErr} (hi : i < ps.length)
    (h : Color.intAt ps i = .error e) : e = .valueError := by
  unfold Color.intAt at h
  rw [List.getElem?_eq_getElem hi] at h
  exact pyInt_error h

/-- `from_ansi` on enough parts raises `ValueError` only. -/
theorem fromParts_error {ansi : Str} {ps : List Str} {a : Rat} {e : PyErr} (hne : ps ≠ [])
    (h4 : ps.length ≠ 4 ∨ ps[1]? ≠ some "2".toList)
    (h : Color.fromParts ansi ps a = .error e) : e = .valueError := by
  unfold Color.fromParts at h
  split at h
  · exact absurd rfl hne
  · rename_i p0 tl
    simp only at h
    split at h
    · rename_i h3
      split at h
      · rename_i h2
        have h5 : 5 ≤ (p0 :: tl).length := by
          rcases h4 with h4 | h4
          · omega
          · exfalso
            apply h4
            rcases h2 with h2 | h2 <;>
            · have := congrArg (fun l : List Str => l[1]?) h2
              simpa using this
        rcases bind_error h with h | ⟨r, -, h⟩
        · exact intAt_error (by omega) h
        rcases bind_error h with h | ⟨g, -, h⟩
        · exact intAt_error (by omega) h
        rcases bind_error h with h | ⟨b, -, h⟩
        · exact intAt_error (by omega) h
        exact make_error h
      · injection h with h; exact h.symm
    · rcases bind_error h with h | ⟨i, -, h⟩
      · exact pyInt_error h
      revert h
      generalize (if (p0 :: tl).length = 1 then _ else _ : ColorSpace × Int × Bool) = q
      intro h
      obtain ⟨q1, q2, q3⟩ := q
      simp only at h
      split at h
      · rename_i hlt
        rw [colorTable_getElem? (n := q2.toNat) (by omega)] at h
        exact make_error h
      · injection h with h; exact h.symm

theorem intAt_kind {ps : List Str} {i : Nat} {e : PyErr}
    (h : Color.intAt ps i = .error e) : e = .valueError ∨ e = .indexError := by
  unfold Color.intAt at h
  split at h
  · exact .inl (pyInt_error h)
  · injection h with h; exact .inr h.symm

/-- `from_ansi` raises `ValueError` or `IndexError` only. -/
theorem fromParts_kind {ansi : Str} {ps : List Str} {a : Rat} {e : PyErr}
    (h : Color.fromParts ansi ps a = .error e) : e = .valueError ∨ e = .indexError := by
  by_cases hne : ps = []
  · subst hne; injection h with h; exact .inr h.symm
  by_cases h4 : ps.length ≠ 4 ∨ ps[1]? ≠ some "2".toList
  · exact .inl (fromParts_error hne h4 h)
  · unfold Color.fromParts at h
    split at h
    · exact absurd rfl hne
    · simp only at h
      rw [if_pos (by omega)] at h
      split at h
      · rcases bind_error h with h | ⟨r, -, h⟩
        · exact intAt_kind h
        rcases bind_error h with h | ⟨g, -, h⟩
        · exact intAt_kind h
        rcases bind_error h with h | ⟨b, -, h⟩
        · exact intAt_kind h
        exact .inl (make_error h)
      · injection h with h; exact .inl h.symm

theorem fromAnsi_kind {ansi : Str} {a : Rat} {e : PyErr}
    (h : Color.fromAnsi ansi a = .error e) : e = .valueError ∨ e = .indexError := by
  unfold Color.fromAnsi at h
  simp only at h
  split at h
  · split at h
    · injection h with h; exact .inl h.symm
    · exact fromParts_kind h
  · exact fromParts_kind h

/-- A buffer that passed the colour test raises `ValueError` only, unless it has a dot. -/
theorem fromAnsi_error {buf : Str} {e : PyErr} (hv : isValidColor buf = .ok true)
    (h : Color.fromAnsi buf = .error e) : e = .valueError ∨ '.' ∈ buf := by
  unfold Color.fromAnsi at h
  simp only at h
  split at h
  · rename_i hdot
    right
    have hne := splitC_ne_nil ';' buf
    have hmem : (splitC ';' buf).getLastD [] ∈ splitC ';' buf := by
      obtain ⟨x, t, hx⟩ := List.exists_cons_of_ne_nil hne
      rw [hx, List.getLastD_cons]
      exact List.getLastD_mem_cons
    exact (splitC_infix ';' buf _ hmem).subset hdot
  · left
    refine fromParts_error (splitC_ne_nil ';' buf) ?_ h
    unfold isValidColor at hv
    split at hv
    · rename_i hd
      have hns : ';' ∉ buf := by
        intro hm
        have := isDigit_false_of_mem hm
        rw [hd] at this; cases this
      rw [splitC_of_not_mem hns]
      simp
    · simp only at hv
      split at hv
      · exact absurd hv (by simp)
      · rename_i p hp
        by_cases h2 : p = "2".toList
        · rw [if_pos h2] at hv
          injection hv with hv
          simp only [decide_eq_true_eq] at hv
          left; omega
        · right
          rw [hp]
          simpa using h2

theorem first_mem {c : Char} {s : Str} (h : c ∈ s) : ∃ a b, s = a ++ c :: b ∧ c ∉ a := by
  induction s with
  | nil => simp at h
  | cons x xs ih =>
    by_cases hx : x = c
    · exact ⟨[], xs, by simp [hx], by simp⟩
    · obtain ⟨a, b, h1, h2⟩ := ih ((List.mem_cons.mp h).resolve_left (Ne.symm hx))
      exact ⟨x :: a, b, by simp [h1], by simp [h2, Ne.symm hx]⟩

/-- The exceptions of the sequence parser. -/
theorem parseParts_error (parts : List Str) (inColor : Bool) (buf : Str) (o : Opts)
    (hbuf : if inColor then ';' ∈ buf else buf = []) :
    (∀ e, (parseParts parts inColor buf o).2 = .error e →
      e = .valueError ∨ e = .indexError ∧ ('.' ∈ buf ∨ ∃ p ∈ parts, '.' ∈ p)) ∧
    ((parseParts parts inColor buf o).1.bad = o.bad ∨ ∃ p ∈ parts, p ∈ badCodes) := by
  induction parts generalizing inColor buf o with
  | nil => exact ⟨by simp [parseParts], .inl rfl⟩
  | cons part rest ih =>
    have up : ∀ {Q : Prop}, (Q ∨ ∃ p ∈ rest, p ∈ badCodes) → (Q ∨ ∃ p ∈ part :: rest, p ∈ badCodes) := by
      intro Q h
      rcases h with h | ⟨p, hp, h⟩
      · exact .inl h
      · exact .inr ⟨p, by simp [hp], h⟩
    rw [parseParts]
    by_cases hrd : (isDigit part && (Py.int 10 part).isNone) = true
    · rw [if_pos hrd]
      exact ⟨fun e h => by injection h with h; exact .inl h.symm, .inl rfl⟩
    rw [if_neg hrd]
    by_cases hin : (inColor || startsColor part) = true
    · rw [if_pos hin]
      simp only
      -- the colour test does not raise IndexError
      have hve : ∀ e, isValidColor (buf ++ part) = .error e → e = .valueError := by
        intro e he
        unfold isValidColor at he
        split at he
        · split at he
          · injection he with he; exact he.symm
          · split at he
            · exact absurd he (by simp)
            · split at he <;> exact absurd he (by simp)
        · rename_i hd
          simp only at he
          have hmem : ';' ∈ buf ++ part := by
            cases inColor with
            | true => exact List.mem_append_left _ (by simpa using hbuf)
            | false =>
              exfalso
              have hb : buf = [] := by simpa using hbuf
              rw [hb, List.nil_append] at hd
              simp only [Bool.false_or, startsColor, Bool.and_eq_true] at hin
              exact hd hin.1.1
          obtain ⟨a, b, hab⟩ : ∃ a b, buf ++ part = a ++ ';' :: b ∧ ';' ∉ a := by
            exact first_mem hmem
          rw [hab.1, splitC_append b hab.2] at he
          obtain ⟨x, t, hx⟩ := List.exists_cons_of_ne_nil (splitC_ne_nil ';' b)
          rw [hx] at he
          simp only [List.getElem?_cons_succ, List.getElem?_cons_zero] at he
          split at he
          · exact absurd he (by simp)
          · split at he <;> exact absurd he (by simp)
      have hdot : '.' ∈ buf ++ part → ('.' ∈ buf ∨ ∃ p ∈ part :: rest, '.' ∈ p) := by
        intro h
        rcases List.mem_append.mp h with h | h
        · exact .inl h
        · exact .inr ⟨part, by simp, h⟩
      cases hval : isValidColor (buf ++ part) with
      | error e => exact ⟨fun e' h => by injection h with h; exact .inl (h ▸ hve e hval), .inl rfl⟩
      | ok v =>
        cases v with
        | false =>
          simp only
          obtain ⟨i1, i2⟩ := ih true (buf ++ part ++ [';']) o (by simp)
          refine ⟨fun e he => ?_, up i2⟩
          rcases i1 e he with h | ⟨h, hd⟩
          · exact .inl h
          · refine .inr ⟨h, ?_⟩
            rcases hd with hd | ⟨p, hp, hd⟩
            · rcases List.mem_append.mp hd with hd | hd
              · exact hdot hd
              · exact absurd hd (by decide)
            · exact .inr ⟨p, by simp [hp], hd⟩
        | true =>
          simp only
          cases hc : Color.fromAnsi (buf ++ part) with
          | error e =>
            refine ⟨fun e' h => ?_, .inl rfl⟩
            injection h with h
            subst h
            rcases fromAnsi_error hval hc with h | h
            · exact .inl h
            · by_cases hv : e = .valueError
              · exact .inl hv
              · exact .inr ⟨(fromAnsi_kind hc).resolve_left hv, hdot h⟩
          | ok c =>
            simp only
            obtain ⟨i1, i2⟩ := ih false [] (if isBackgroundColor (buf ++ part) = true then { o with bg := some c } else { o with fg := some c }) rfl
            have hb : (if isBackgroundColor (buf ++ part) = true then { o with bg := some c } else { o with fg := some c }).bad = o.bad := by
              split <;> rfl
            rw [hb] at i2
            refine ⟨fun e he => ?_, up i2⟩
            rcases i1 e he with h | ⟨h, hd⟩
            · exact .inl h
            · refine .inr ⟨h, ?_⟩
              rcases hd with hd | ⟨p, hp, hd⟩
              · exact absurd hd (by simp)
              · exact .inr ⟨p, by simp [hp], hd⟩
    · rw [if_neg hin]
      have hic : inColor = false := by
        cases inColor with
        | false => rfl
        | true => simp at hin
      have hb : buf = [] := by simpa [hic] using hbuf
      have lift : ∀ o', (∀ e, (parseParts rest false buf o').2 = .error e →
          e = .valueError ∨ e = .indexError ∧ ('.' ∈ buf ∨ ∃ p ∈ part :: rest, '.' ∈ p)) := by
        intro o' e he
        rcases (ih false buf o' (by simpa using hb)).1 e he with h | ⟨h, hd⟩
        · exact .inl h
        · refine .inr ⟨h, ?_⟩
          rcases hd with hd | ⟨p, hp, hd⟩
          · exact .inl hd
          · exact .inr ⟨p, by simp [hp], hd⟩
      cases hs : applySetter part o with
      | some o' =>
        simp only
        refine ⟨lift o', ?_⟩
        have := up (ih false buf o' (by simpa using hb)).2
        rwa [applySetter_bad hs] at this
      | none =>
        simp only
        cases hu : applyUnsetter part o with
        | some o' =>
          simp only
          refine ⟨lift o', ?_⟩
          rcases applyUnsetter_bad hu with h | h
          · have := up (ih false buf o' (by simpa using hb)).2
            rwa [h] at this
          · exact .inr ⟨part, by simp, h⟩
        | none => exact ⟨by simp, .inl rfl⟩

theorem yieldLoop_error (line : Str) : ∀ (ms : List (Str × Str × Nat)) (o : Opts) (i : Nat),
    (∀ m ∈ ms, m.1 <:+: line) → o.bad = false ∨ (∃ p ∈ badCodes, p <:+: line) →
    ∀ e, (yieldLoop ms o i).2.2 = some e →
      e = .valueError ∨ (e = .typeError ∧ ∃ p ∈ badCodes, p <:+: line) ∨ (e = .indexError ∧ '.' ∈ line) := by
  intro ms
  induction ms with
  | nil => intro o i _ _ e he; simp [yieldLoop] at he
  | cons m ms ih =>
    obtain ⟨seq, plain, stop⟩ := m
    intro o i hms ho e he
    have hseq : seq <:+: line := hms (seq, plain, stop) (by simp)
    obtain ⟨p1, p2⟩ := parseParts_error (splitC ';' seq) false [] o rfl
    have hbad : (parseSequence seq o).1.bad = false ∨ ∃ p ∈ badCodes, p <:+: line := by
      rcases p2 with p2 | ⟨p, hp, hb⟩
      · rw [parseSequence, p2]; exact ho
      · exact .inr ⟨p, hb, (splitC_infix ';' seq p hp).trans hseq⟩
    rw [yieldLoop] at he
    rw [← parseSequence] at p1
    generalize parseSequence seq o = r at he p1 hbad
    obtain ⟨o', res⟩ := r
    cases res with
    | error e' =>
      simp only [Option.some.injEq] at he
      subst he
      rcases p1 e' rfl with h | ⟨h, hd⟩
      · exact .inl h
      · refine .inr (.inr ⟨h, ?_⟩)
        rcases hd with hd | ⟨p, hp, hd⟩
        · simp at hd
        · exact ((splitC_infix ';' seq p hp).trans hseq).subset hd
    | ok q =>
      cases q with
      | some _ => simp only [Option.some.injEq] at he; exact .inl he.symm
      | none =>
        simp only [spanOfOpts] at he
        by_cases hb : o'.bad = true
        · rw [if_pos hb] at he
          simp only [Option.some.injEq] at he
          refine .inr (.inl ⟨he.symm, ?_⟩)
          rcases hbad with h | h
          · simp only at h; rw [hb] at h; cases h
          · exact h
        · rw [if_neg hb] at he
          exact ih o' stop (fun m hm => hms m (by simp [hm])) hbad e he

/-- C32, for every string: the parser ends without an exception or with `ValueError`,
unless the string has one of 26, 28, 29, 54 in it (`TypeError`) or a dot
(`IndexError`). -/
theorem C32_exceptions_partial (line : Str) :
    match (yieldFrom line).2 with
    | none => True
    | some .valueError => True
    | some .typeError => ∃ p ∈ badCodes, p <:+: line
    | some .indexError => '.' ∈ line
    | some _ => False := by
  have key : ∀ e, (yieldFrom line).2 = some e →
      e = .valueError ∨ (e = .typeError ∧ ∃ p ∈ badCodes, p <:+: line) ∨ (e = .indexError ∧ '.' ∈ line) := by
    intro e he
    have hinf : ∀ p ∈ badCodes, p <:+: line ++ [ESC] → p <:+: line := by
      intro p hp h
      have hnt : ESC ∉ p := (by decide : ∀ p ∈ badCodes, ESC ∉ p) p hp
      rw [List.infix_concat_iff] at h
      rcases h with h | h
      · exfalso
        obtain ⟨t, ht⟩ := h
        rcases List.eq_nil_or_concat p with rfl | ⟨q, x, rfl⟩
        · revert hp; decide
        · rw [List.concat_eq_append, ← List.append_assoc] at ht
          have := (List.append_inj' ht rfl).2
          simp only [List.cons.injEq, and_true] at this
          exact hnt (by simp [this])
      · exact h
    by_cases hend : endsWith line [ESC] = true
    · unfold yieldFrom at he
      rw [if_pos hend] at he
      have := yieldLoop_error line (styleMatches line) {} 0 (styleMatches_infix 0 0 line) (.inl rfl)
      rcases hy : yieldLoop (styleMatches line) {} 0 with ⟨sps, i, e'⟩
      rw [hy] at this
      simp only [hy] at he
      cases e' with
      | some e' => simp only [Option.some.injEq] at he; exact this e (by rw [← he])
      | none => simp only at he; split at he <;> simp at he
    · unfold yieldFrom at he
      rw [if_neg hend] at he
      have := yieldLoop_error (line ++ [ESC]) (styleMatches (line ++ [ESC])) {} 0 (styleMatches_infix 0 0 _) (.inl rfl)
      rcases hy : yieldLoop (styleMatches (line ++ [ESC])) {} 0 with ⟨sps, i, e'⟩
      rw [hy] at this
      simp only [hy] at he
      cases e' with
      | some e' =>
        simp only [Option.some.injEq] at he
        rcases this e (by rw [← he]) with h | ⟨h, p, hp, hi⟩ | ⟨h, hd⟩
        · exact .inl h
        · exact .inr (.inl ⟨h, p, hp, hinf p hp hi⟩)
        · refine .inr (.inr ⟨h, ?_⟩)
          rcases List.mem_append.mp hd with hd | hd
          · exact hd
          · exact absurd hd (by decide)
      | none => simp only at he; split at he <;> simp at he
  cases h : (yieldFrom line).2 with
  | none => trivial
  | some e =>
    rcases key e h with rfl | ⟨rfl, h'⟩ | ⟨rfl, h'⟩
    · trivial
    · exact h'
    · exact h'

/-- Exceptions that do occur: a malformed code gives `ValueError`. -/
example : (yieldFrom "[zma".toList).2 = some .valueError ∧
    (yieldFrom "[38;2;1;2;ma".toList).2 = some .valueError := by decide +kernel

/-- C32 fails: a valid "strike off" raises `TypeError`. -/
theorem C32_type_error_violated : (yieldFrom "[29ma".toList).2 = some .typeError := by
  decide +kernel

/-- C32 fails: a colour with a dot in its last part raises `IndexError`. -/
theorem C32_index_error_violated : (yieldFrom "[38;2;1;2;3.5ma".toList).2 = some .indexError := by
  decide +kernel

end Slate
