import Verif.Lemmas.Units

/-! Parsing the rendering of a span. -/

namespace Slate
open Py Term

theorem seqEff_append (a b : List SgrUnit) (o : Opts) : seqEff (a ++ b) o = seqEff b (seqEff a o) := by
  simp [seqEff, List.foldl_append]

theorem seqNums_append (a b : List SgrUnit) : seqNums (a ++ b) = seqNums a ++ seqNums b := by
  simp [seqNums]

/-- The commands of a style. -/
def styleUnits (st : Style) : List SgrUnit :=
  (if st.bold then [.set 1] else []) ++ ((if st.dim then [.set 2] else []) ++
  ((if st.italic then [.set 3] else []) ++ ((if st.underline then [.set 4] else []) ++
  ((if st.blink then [.set 5] else []) ++ ((if st.fastBlink then [.set 6] else []) ++
  ((if st.invert then [.set 7] else []) ++ ((if st.conceal then [.set 8] else []) ++
  (if st.strike then [.set 9] else []))))))))

theorem styleUnits_ok (st : Style) : ∀ u ∈ styleUnits st, u.Ok := by
  intro u hu
  have h : ∀ (b : Bool) (k : Nat), u ∈ (if b then [SgrUnit.set k] else []) → u = .set k := by
    intro b k hm; cases b <;> simp at hm; exact hm
  simp only [styleUnits, List.mem_append] at hu
  rcases hu with hu | hu | hu | hu | hu | hu | hu | hu | hu <;> rw [h _ _ hu] <;>
    exact ⟨by omega, by omega⟩

theorem seqNums_styleUnits {st : Style} (h : st.isOpaque = false) :
    seqNums (styleUnits st) = styleNums st := by
  have e : ∀ (b : Bool) (k : Nat), seqNums (if b then [SgrUnit.set k] else []) = if b then [k] else [] := by
    intro b k; cases b <;> rfl
  simp only [styleUnits, styleNums, seqNums_append, e, h, Bool.false_eq_true, if_false, List.append_nil]

theorem seqEff_if (b : Bool) (u : SgrUnit) (o : Opts) :
    seqEff (if b then [u] else []) o = if b then u.eff o else o := by
  cases b <;> rfl

theorem seqEff_styleUnits (st : Style) (o : Opts) (ho : o.style = {}) (h : st.isOpaque = false) :
    seqEff (styleUnits st) o = { o with style := st } := by
  obtain ⟨b1, b2, b3, b4, b5, b6, b7, b8, b9, b10⟩ := st
  obtain ⟨os, of, ob, obad⟩ := o
  simp only at ho h
  subst ho h
  simp only [styleUnits, seqEff_append, seqEff_if]
  have e1 : ∀ (b : Bool) (o : Opts), (if b then (SgrUnit.set 1).eff o else o) =
      { o with style := { o.style with bold := o.style.bold || b } } := by
    intro b o; cases b <;> simp [SgrUnit.eff]
  have e2 : ∀ (b : Bool) (o : Opts), (if b then (SgrUnit.set 2).eff o else o) =
      { o with style := { o.style with dim := o.style.dim || b } } := by
    intro b o; cases b <;> simp [SgrUnit.eff]
  have e3 : ∀ (b : Bool) (o : Opts), (if b then (SgrUnit.set 3).eff o else o) =
      { o with style := { o.style with italic := o.style.italic || b } } := by
    intro b o; cases b <;> simp [SgrUnit.eff]
  have e4 : ∀ (b : Bool) (o : Opts), (if b then (SgrUnit.set 4).eff o else o) =
      { o with style := { o.style with underline := o.style.underline || b } } := by
    intro b o; cases b <;> simp [SgrUnit.eff]
  have e5 : ∀ (b : Bool) (o : Opts), (if b then (SgrUnit.set 5).eff o else o) =
      { o with style := { o.style with blink := o.style.blink || b } } := by
    intro b o; cases b <;> simp [SgrUnit.eff]
  have e6 : ∀ (b : Bool) (o : Opts), (if b then (SgrUnit.set 6).eff o else o) =
      { o with style := { o.style with fastBlink := o.style.fastBlink || b } } := by
    intro b o; cases b <;> simp [SgrUnit.eff]
  have e7 : ∀ (b : Bool) (o : Opts), (if b then (SgrUnit.set 7).eff o else o) =
      { o with style := { o.style with invert := o.style.invert || b } } := by
    intro b o; cases b <;> simp [SgrUnit.eff]
  have e8 : ∀ (b : Bool) (o : Opts), (if b then (SgrUnit.set 8).eff o else o) =
      { o with style := { o.style with conceal := o.style.conceal || b } } := by
    intro b o; cases b <;> simp [SgrUnit.eff]
  have e9 : ∀ (b : Bool) (o : Opts), (if b then (SgrUnit.set 9).eff o else o) =
      { o with style := { o.style with strike := o.style.strike || b } } := by
    intro b o; cases b <;> simp [SgrUnit.eff]
  rw [e1, e2, e3, e4, e5, e6, e7, e8, e9]
  simp

/-- `ns` is the canonical code of an optional colour in role `bg`. -/
structure Canon (env : Color.Env) (bg : Bool) (c : Color) (ns : List Nat) : Prop where
  nums : CodeNums ns
  code : c.ansi env = codeStr ns
  role : (codeColor ns).isBg = bg
  same : c.eq (codeColor ns) = true

theorem codeNums_ne_nil {ns : List Nat} (h : CodeNums ns) : ns ≠ [] := by cases h <;> simp

/-- The command of an optional colour. -/
def colorUnits : Option (List Nat) → List SgrUnit
  | none => []
  | some ns => [.color ns]

theorem styleMatchesGo_tail (p : Nat) : styleMatchesGo p 0 ('\x1b' :: "[0m\x1b".toList) = [] := by
  have h : styleMatch ('\x1b' :: "[0m\x1b".toList) = none := by decide
  rw [styleMatchesGo, h]
  have := styleMatchesGo_text (p + 1) (t := "[0m".toList) ['\x1b'] (by decide)
  simp only
  rw [show "[0m\x1b".toList = "[0m".toList ++ ['\x1b'] from rfl, this, styleMatchesGo_end]

/-- The first span parsed from the rendering of a span with canonical colours. -/
theorem firstFrom_render {env : Color.Env} {s : Span} (ht : PlainText s.text) (hlink : s.hyperlink = [])
    (hop : s.style.isOpaque = false) (hr : s.resetAfter = true)
    {f b : Option (List Nat)}
    (hf : ∀ c, s.fg = some c → ∃ ns, f = some ns ∧ Canon env false c ns) (hf0 : s.fg = none → f = none)
    (hb : ∀ c, s.bg = some c → ∃ ns, b = some ns ∧ Canon env true c ns) (hb0 : s.bg = none → b = none) :
    firstFrom (s.render env) = .ok (some
      { text := s.text, fg := f.map codeColor, bg := b.map codeColor, style := s.style }) := by
  -- the sequences are those of some commands
  have hcf : CodeOf env s.fg (f.getD []) ∧ (∀ u ∈ colorUnits f, u.Ok) ∧ seqNums (colorUnits f) = f.getD [] ∧
      seqEff (colorUnits f) {} = { fg := f.map codeColor } := by
    cases hfg : s.fg with
    | none => rw [hf0 hfg]; exact ⟨rfl, by simp [colorUnits], rfl, rfl⟩
    | some c =>
      obtain ⟨ns, rfl, h1, h2, h3, h4⟩ := hf c hfg
      refine ⟨⟨h2, codeNums_ne_nil h1⟩, by simp only [colorUnits, List.mem_singleton, forall_eq]; exact h1, by simp [colorUnits, seqNums, SgrUnit.nums], ?_⟩
      simp only [colorUnits, seqEff, List.foldl_cons, List.foldl_nil, SgrUnit.eff, Opts.paint, h3]
      rfl
  have hcb : CodeOf env s.bg (b.getD []) ∧ (∀ u ∈ colorUnits b, u.Ok) ∧ seqNums (colorUnits b) = b.getD [] ∧
      seqEff (colorUnits b) { fg := f.map codeColor } = { fg := f.map codeColor, bg := b.map codeColor } := by
    cases hbg : s.bg with
    | none => rw [hb0 hbg]; exact ⟨rfl, by simp [colorUnits], rfl, rfl⟩
    | some c =>
      obtain ⟨ns, rfl, h1, h2, h3, h4⟩ := hb c hbg
      refine ⟨⟨h2, codeNums_ne_nil h1⟩, by simp only [colorUnits, List.mem_singleton, forall_eq]; exact h1, by simp [colorUnits, seqNums, SgrUnit.nums], ?_⟩
      simp only [colorUnits, seqEff, List.foldl_cons, List.foldl_nil, SgrUnit.eff, Opts.paint, h3]
      rfl
  let it : Item := { units := colorUnits f ++ colorUnits b ++ styleUnits s.style, text := s.text }
  have hnums : seqNums it.units = f.getD [] ++ b.getD [] ++ styleNums s.style := by
    simp only [it, seqNums_append, hcf.2.2.1, hcb.2.2.1, seqNums_styleUnits hop]
  have hunits : ∀ u ∈ it.units, u.Ok := by
    intro u hu
    simp only [it, List.mem_append] at hu
    rcases hu with (hu | hu) | hu
    · exact hcf.2.1 u hu
    · exact hcb.2.1 u hu
    · exact styleUnits_ok _ u hu
  have heff : seqEff it.units {} =
      { fg := f.map codeColor, bg := b.map codeColor, style := s.style } := by
    simp only [it, seqEff_append, hcf.2.2.2, hcb.2.2.2]
    exact seqEff_styleUnits s.style _ rfl hop
  have htot : s.total env = codeStr (seqNums it.units) := by rw [total_eq hcf.1 hcb.1, hnums]
  by_cases hne : it.units = []
  · -- no sequences at all
    rw [hne] at htot heff
    have hseq : s.sequences env = [] := by rw [Span.sequences, htot]; rfl
    have hren : s.render env = s.text := by
      unfold Span.render
      simp [hseq, hlink]
    have hlast : ∀ c, s.text.getLast? = some c → c ≠ ESC := fun c hc => ht.2 c (List.mem_of_getLast? hc)
    rw [hren]
    unfold firstFrom yieldFrom
    rw [endsWith_esc hlast]
    simp only [Bool.false_eq_true, if_false, styleMatches]
    have := styleMatchesGo_text 0 (t := s.text) ['\x1b'] ht.2
    rw [show ([ESC] : Str) = ['\x1b'] from rfl, this, styleMatchesGo_end]
    simp only [yieldLoop]
    rw [show (['\x1b'] : Str) = [ESC] from rfl, rstrip_esc hlast, if_pos (List.length_pos_iff.mpr ht.1)]
    have h := congrArg (fun o : Opts => (o.fg, o.bg, o.style)) heff
    simp only [seqEff, List.foldl_nil, Prod.mk.injEq] at h
    simp only [List.drop_zero, List.nil_append, ← h.1, ← h.2.1, ← h.2.2]
  · have hit : it.Ok := ⟨hne, hunits, ht⟩
    have hcode : codeStr (seqNums it.units) ≠ [] := codeStr_ne_nil (seqNums_ne_nil hne hunits)
    have hren : s.render env = lineOf [it] ++ '\x1b' :: "[0m".toList := by
      unfold Span.render
      have hseq : s.sequences env = '\x1b' :: '[' :: (codeStr (seqNums it.units) ++ ['m']) := by
        rw [Span.sequences, htot, wrapSgr, if_neg (by simpa using hcode)]; rfl
      simp only [hlink, hr, hseq]
      simp [lineOf, Item.str, it, RESET]
    have hlast : ∀ c, (s.render env).getLast? = some c → c ≠ ESC := by
      intro c hc
      rw [hren, List.getLast?_append] at hc
      simp at hc
      rw [← hc]; decide
    have hline : s.render env ++ [ESC] = lineOf [it] ++ '\x1b' :: "[0m\x1b".toList := by
      rw [hren, List.append_assoc]; rfl
    unfold firstFrom yieldFrom
    rw [endsWith_esc hlast]
    simp only [Bool.false_eq_true, if_false]
    rw [hline]
    have h1 := (styleMatches_items [it] (by simpa using hit) 0 "[0m\x1b".toList styleMatchesGo_tail).2 {} 0
      rfl (by intro us hus o; simp at hus; rw [hus]; exact seqEff_bad hunits o)
    unfold styleMatches
    rw [h1]
    simp only [spansOf, heff]
    generalize (if [it] = [] then 0 else 0 + (lineOf [it]).length) = idx
    by_cases hlt : idx < (rstrip (· == ESC) (lineOf [it] ++ '\x1b' :: "[0m\x1b".toList)).length
    · rw [if_pos hlt]; rfl
    · rw [if_neg hlt]

end Slate
