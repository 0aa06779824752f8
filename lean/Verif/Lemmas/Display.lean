import Verif.Spec.Display
import Verif.Lemmas.Emulator
import Verif.Lemmas.Quiet
import Mathlib.Data.List.Basic

/-! Printing of cell strings. -/

namespace Slate
open Py Term

theorem join_append {sep : Str} (a b : List Str) (ha : a ≠ []) (hb : b ≠ []) :
    join sep (a ++ b) = join sep a ++ sep ++ join sep b := by
  induction a with
  | nil => exact absurd rfl ha
  | cons x t ih =>
    cases t with
    | nil =>
      cases b with
      | nil => exact absurd rfl hb
      | cons y b => simp [join]
    | cons y t =>
      have := ih (by simp)
      simp only [List.cons_append] at this ⊢
      rw [join, this, join]
      simp

theorem flatMap_sep (codes : List Str) (h : codes ≠ []) :
    (codes.flatMap fun c => c ++ [';']) = join [';'] codes ++ [';'] := by
  induction codes with
  | nil => exact absurd rfl h
  | cons a t ih =>
    cases t with
    | nil => simp [join]
    | cons b t => rw [List.flatMap_cons, ih (by simp), join]; simp

theorem lstrip_of_head {p : Char → Bool} {s : Str} (h : ∀ c, s.head? = some c → p c = false) :
    lstrip p s = s := by
  cases s with
  | nil => rfl
  | cons c t => simp [lstrip, h c rfl]

theorem rstrip_of_last {p : Char → Bool} {s : Str} (h : ∀ c, s.getLast? = some c → p c = false) :
    rstrip p s = s := by
  have := lstrip_of_head (p := p) (s := s.reverse) (by simpa using h)
  unfold lstrip at this
  rw [rstrip, this, List.reverse_reverse]

theorem rstrip_append_singleton {p : Char → Bool} {s : Str} {c : Char} (hc : p c = true) :
    rstrip p (s ++ [c]) = rstrip p s := by
  simp [rstrip, hc]

/-- Numbers of the set styles. -/
def styleNums (st : Style) : List Nat :=
  (if st.bold then [1] else []) ++ ((if st.dim then [2] else []) ++
  ((if st.italic then [3] else []) ++ ((if st.underline then [4] else []) ++
  ((if st.blink then [5] else []) ++ ((if st.fastBlink then [6] else []) ++
  ((if st.invert then [7] else []) ++ ((if st.conceal then [8] else []) ++
  ((if st.strike then [9] else []) ++ (if st.isOpaque then [99] else [])))))))))

theorem filter_cons_if (b : Bool) (s : Str) (l : List (Bool × Str)) :
    (List.filter (·.1) ((b, s) :: l)).map (·.2) =
      (if b then [s] else []) ++ (List.filter (·.1) l).map (·.2) := by
  cases b <;> simp

theorem map_if (b : Bool) (n : Nat) :
    List.map dec (if b then [n] else []) = if b then [dec n] else [] := by
  cases b <;> rfl

theorem codes_eq (st : Style) : st.codes = (styleNums st).map dec := by
  have e : ∀ n : Nat, n < 10 → dec n = [digitChar n] := by
    intro n hn; simp [dec]; cases n <;> simp [decF, hn]
  have e99 : dec 99 = "99".toList := by rfl
  simp only [Style.codes, Style.setters, filter_cons_if, styleNums, List.map_append, map_if,
    e 1 (by decide), e 2 (by decide), e 3 (by decide), e 4 (by decide), e 5 (by decide),
    e 6 (by decide), e 7 (by decide), e 8 (by decide), e 9 (by decide), e99]
  simp only [List.filter_nil, List.map_nil, List.append_nil]
  rfl

theorem join_dec_head (ns : List Nat) : ∀ c, (join [';'] (ns.map dec)).head? = some c → isDig c = true := by
  intro c h
  cases ns with
  | nil => simp [join] at h
  | cons n ns =>
    obtain ⟨d, ds, hd⟩ := List.exists_cons_of_ne_nil (dec_ne_nil n)
    have hdig : isDig d = true := dec_isDig (n := n) (by simp [hd])
    cases ns with
    | nil => simp [join, hd] at h; exact h ▸ hdig
    | cons m ns => simp [join, hd] at h; exact h ▸ hdig

theorem join_dec_last (ns : List Nat) :
    ∀ c, (join [';'] (ns.map dec)).getLast? = some c → isDig c = true := by
  intro c h
  induction ns with
  | nil => simp [join] at h
  | cons n ns ih =>
    cases ns with
    | nil =>
      simp only [List.map_cons, List.map_nil, join] at h
      exact dec_isDig (List.mem_of_getLast? h)
    | cons m ns =>
      apply ih
      simp only [List.map_cons, join] at h ⊢
      have hne : join [';'] (dec m :: List.map dec ns) ≠ [] := by
        cases ns <;> simp [join, dec_ne_nil]
      rw [List.getLast?_append] at h
      obtain ⟨z, hz⟩ := Option.ne_none_iff_exists'.mp (fun e => hne (List.getLast?_eq_none_iff.mp e))
      rw [hz] at h ⊢
      simpa using h

theorem colorless_eq (st : Style) : st.colorless = join [';'] ((styleNums st).map dec) := by
  unfold Style.colorless
  simp only
  rw [codes_eq]
  by_cases hn : styleNums st = []
  · simp [hn, join, lstrip, rstrip]
  · rw [flatMap_sep _ (by simpa using hn), lstrip_of_head, rstrip_append_singleton (by rfl),
      rstrip_of_last]
    · intro c hc
      have := join_dec_last _ c hc
      simpa using isDig_ne this (by decide)
    · intro c hc
      have hne : join [';'] ((styleNums st).map dec) ≠ [] := by
        intro e
        obtain ⟨n, ns, hh⟩ := List.exists_cons_of_ne_nil hn
        rw [hh] at e
        cases ns <;> simp [join, dec_ne_nil] at e
      obtain ⟨z, zs, hz⟩ := List.exists_cons_of_ne_nil hne
      have := join_dec_head (styleNums st) c (by rw [hz] at hc ⊢; simpa using hc)
      simpa using isDig_ne this (by decide)

theorem sgr_cons {n : Nat} (h38 : n ≠ 38) (h48 : n ≠ 48) (rest : List Nat) (a : Attr) :
    sgr (n :: rest) a = sgr rest (sgr1 n a) := by
  rw [sgr] <;> simp_all

theorem sgr_if {n : Nat} (h38 : n ≠ 38) (h48 : n ≠ 48) (b : Bool) (rest : List Nat) (a : Attr) :
    sgr ((if b then [n] else []) ++ rest) a = sgr rest (if b then sgr1 n a else a) := by
  cases b
  · rfl
  · exact sgr_cons h38 h48 rest a

/-- The style numbers have the look of the style, also inside a longer sequence. -/
theorem sgr_styleNums (st : Style) (rest : List Nat) (a : Attr) :
    sgr (styleNums st ++ rest) a = sgr rest (applyStyle st a) := by
  obtain ⟨b1, b2, b3, b4, b5, b6, b7, b8, b9, b10⟩ := st
  simp only [styleNums, List.append_assoc]
  rw [sgr_if (by decide) (by decide), sgr_if (by decide) (by decide),
    sgr_if (by decide) (by decide), sgr_if (by decide) (by decide),
    sgr_if (by decide) (by decide), sgr_if (by decide) (by decide),
    sgr_if (by decide) (by decide), sgr_if (by decide) (by decide),
    sgr_if (by decide) (by decide), sgr_if (by decide) (by decide)]
  congr 1
  have e1 : ∀ (b : Bool) (a : Attr), (if b then sgr1 1 a else a) = { a with bold := a.bold || b } := by
    intro b a; cases b <;> simp [sgr1]
  have e2 : ∀ (b : Bool) (a : Attr), (if b then sgr1 2 a else a) = { a with dim := a.dim || b } := by
    intro b a; cases b <;> simp [sgr1]
  have e3 : ∀ (b : Bool) (a : Attr), (if b then sgr1 3 a else a) = { a with italic := a.italic || b } := by
    intro b a; cases b <;> simp [sgr1]
  have e4 : ∀ (b : Bool) (a : Attr), (if b then sgr1 4 a else a) = { a with underline := a.underline || b } := by
    intro b a; cases b <;> simp [sgr1]
  have e5 : ∀ (b : Bool) (a : Attr), (if b then sgr1 5 a else a) = { a with blink := a.blink || b } := by
    intro b a; cases b <;> simp [sgr1]
  have e6 : ∀ (b : Bool) (a : Attr), (if b then sgr1 6 a else a) = { a with fastBlink := a.fastBlink || b } := by
    intro b a; cases b <;> simp [sgr1]
  have e7 : ∀ (b : Bool) (a : Attr), (if b then sgr1 7 a else a) = { a with invert := a.invert || b } := by
    intro b a; cases b <;> simp [sgr1]
  have e8 : ∀ (b : Bool) (a : Attr), (if b then sgr1 8 a else a) = { a with conceal := a.conceal || b } := by
    intro b a; cases b <;> simp [sgr1]
  have e9 : ∀ (b : Bool) (a : Attr), (if b then sgr1 9 a else a) = { a with strike := a.strike || b } := by
    intro b a; cases b <;> simp [sgr1]
  have e99 : ∀ (b : Bool) (a : Attr), (if b then sgr1 99 a else a) = a := by
    intro b a; cases b <;> simp [sgr1]
  rw [e1, e2, e3, e4, e5, e6, e7, e8, e9, e99]
  rfl

theorem run_wrapSgr (s : State) (st : Style) (rest : Str) (hm : s.mode = .ground) :
    run s (wrapSgr st.colorless ++ rest) = run { s with pen := applyStyle st s.pen } rest := by
  rw [colorless_eq]
  have hs := sgr_styleNums st [] s.pen
  rw [List.append_nil] at hs
  cases hn : styleNums st with
  | nil =>
    rw [hn] at hs
    simp only [List.map_nil, join, wrapSgr, List.isEmpty_nil, if_true, List.nil_append]
    rw [← show s.pen = applyStyle st s.pen from hs]
  | cons n ns =>
    rw [hn] at hs
    have hne : (join [';'] ((n :: ns).map dec)).isEmpty = false := by
      cases ns <;> simp [join, dec_ne_nil]
    simp only [wrapSgr, hne]
    have := run_sgr s n ns rest hm
    simp only [Bool.false_eq_true, if_false, List.append_assoc, List.cons_append, List.nil_append]
    rw [this, hs]; rfl

/-- A string stored in a cell: an optional style sequence, one printable
character, an optional reset. -/
structure CellStr (str : Str) (st : Style) (c : Char) (reset : Bool) : Prop where
  eq : str = wrapSgr st.colorless ++ c :: (if reset then RESET else [])
  printable : Printable c

theorem CellStr.run {str : Str} {st : Style} {c : Char} {reset : Bool} (h : CellStr str st c reset)
    (s : State) (rest : Str) (hm : s.mode = .ground) :
    run s (str ++ rest) = run
      { s with grid := setGrid s.grid s.row s.col { ch := c, attr := applyStyle st s.pen }
               col := s.col + 1
               log := s.log ++ [(s.row, s.col)]
               pen := if reset then Attr.clean else applyStyle st s.pen } rest := by
  rw [h.eq, List.append_assoc, run_wrapSgr _ _ _ hm, List.cons_append, run_cons,
    step_print _ _ (by exact hm) h.printable]
  cases reset
  · simp
  · rw [if_pos rfl, run_reset _ _ (by simpa using hm)]; rfl

theorem quiet_sgr (ns : List Nat) : Modes.Quiet ('\x1b' :: '[' :: (join [';'] (ns.map dec) ++ ['m'])) := by
  refine Modes.quiet_csi _ 'm' ?_ (by decide) (by decide) (by decide) (by decide)
  refine join_paramChar ?_
  intro s hs c hc
  obtain ⟨n, -, rfl⟩ := List.mem_map.mp hs
  exact dec_paramChar hc

theorem quiet_reset : Modes.Quiet RESET :=
  Modes.quiet_csi ['0'] 'm' (by unfold ParamChar; decide) (by decide) (by decide) (by decide) (by decide)

theorem quiet_wrapSgr (st : Style) : Modes.Quiet (wrapSgr st.colorless) := by
  rw [colorless_eq]
  unfold wrapSgr
  split
  · exact .nil
  · simpa using quiet_sgr (styleNums st)

theorem CellStr.quiet {str : Str} {st : Style} {c : Char} {reset : Bool} (h : CellStr str st c reset) :
    Modes.Quiet str := by
  rw [h.eq]
  refine (quiet_wrapSgr st).append ?_
  have hc : Modes.Quiet [c] := by
    apply Modes.quiet_plain
    intro d hd
    rw [List.mem_singleton.mp hd]
    rintro rfl
    exact absurd h.printable.1 (by decide)
  show Modes.Quiet ([c] ++ _)
  refine hc.append ?_
  cases reset
  · exact .nil
  · exact quiet_reset

theorem Flat.append {a b : Str} (ha : Flat a) (hb : Flat b) : Flat (a ++ b) := by
  intro c hc
  rcases List.mem_append.mp hc with h | h
  · exact ha c h
  · exact hb c h

theorem flat_sgr (ns : List Nat) : Flat ('\x1b' :: '[' :: (join [';'] (ns.map dec) ++ ['m'])) := by
  refine Flat.append (a := ['\x1b', '[']) (by unfold Flat; decide) (Flat.append ?_ (by unfold Flat; decide))
  intro c hc
  have hp : ParamChar c := by
    refine join_paramChar ?_ c hc
    intro s hs c hc
    obtain ⟨n, -, rfl⟩ := List.mem_map.mp hs
    exact dec_paramChar hc
  constructor <;> (rintro rfl; exact absurd hp.1 (by decide))

theorem flat_reset : Flat RESET := by unfold Flat; decide

theorem flat_wrapSgr (st : Style) : Flat (wrapSgr st.colorless) := by
  rw [colorless_eq]
  unfold wrapSgr
  split
  · simp [Flat]
  · simpa using flat_sgr (styleNums st)

theorem CellStr.flat {str : Str} {st : Style} {c : Char} {reset : Bool} (h : CellStr str st c reset) : Flat str := by
  rw [h.eq]
  refine (flat_wrapSgr st).append ?_
  have hc : Flat [c] := by
    intro d hd
    rw [List.mem_singleton.mp hd]
    constructor <;> (rintro rfl; exact absurd h.printable.1 (by decide))
  show Flat ([c] ++ _)
  refine hc.append ?_
  cases reset
  · exact (by unfold Flat; decide : Flat [])
  · exact flat_reset

theorem CellStr.glyph {cell : Cell} {st : Style} {c : Char} {reset : Bool}
    (h : CellStr cell.char st c reset) (den : Color → TColor) :
    cellGlyph den cell = { ch := c, attr := applyStyle st (cellAttr den cell) } := by
  unfold cellGlyph
  have := h.run { pen := cellAttr den cell, grid := fun _ _ => { ch := ' ', attr := Attr.clean } } []
    rfl
  rw [List.append_nil] at this
  rw [this]
  simp [setGrid]

theorem CellStr.last {str : Str} {st : Style} {c : Char} {reset : Bool} (h : CellStr str st c reset) :
    str.getLast? = some c ∨ str.getLast? = some 'm' := by
  rw [h.eq]
  cases reset <;> simp [RESET]

theorem CellStr.last_ne_newline {str : Str} {st : Style} {c : Char} {reset : Bool}
    (h : CellStr str st c reset) : ∀ d, str.getLast? = some d → d ≠ '\n' := by
  intro d hd e
  subst e
  rcases h.last with h1 | h1 <;> rw [h1] at hd
  · injection hd with e; subst e
    exact absurd h.printable.1 (by decide)
  · exact absurd hd (by decide)

theorem CellStr.rstrip {str : Str} {st : Style} {c : Char} {reset : Bool}
    (h : CellStr str st c reset) : Py.rstrip (· == '\n') str = str := by
  apply rstrip_of_last
  intro d hd
  simpa using h.last_ne_newline d hd

theorem CellStr.endsWith {str : Str} {st : Style} {c : Char} {reset : Bool}
    (h : CellStr str st c reset) : Py.endsWith str ['\n'] = false := by
  rw [Bool.eq_false_iff]
  intro e
  obtain ⟨t, ht⟩ := List.isSuffixOf_iff_suffix.mp e
  exact h.last_ne_newline '\n' (by rw [← ht]; simp) rfl

/-- The string queued for a written cell prints the cell. -/
theorem prints_changeStr {env : Color.Env} {den : Color → TColor} {cell : Cell} {st : Style}
    {c : Char} {reset : Bool} (h : CellStr cell.char st c reset)
    (hfg : ∃ f, cell.fg = some f ∧ Sendable env f (den f))
    (hbg : ∀ b, cell.bg = some b → Sendable env b (den b)) :
    Prints (changeStr env cell false) (cellGlyph den cell) := by
  rw [h.glyph]
  obtain ⟨f, hf, n, ns, hcode, hsgr⟩ := hfg
  -- the colour part
  obtain ⟨k, ks, hk, hks⟩ : ∃ k ks,
      join [';'] (cell.fg.toList.map (Color.ansi env) ++ cell.bg.toList.map (Color.ansi env)) =
        join [';'] ((k :: ks).map dec) ∧
      sgr (k :: ks) Attr.clean = cellAttr den cell := by
    cases hb : cell.bg with
    | none =>
      refine ⟨n, ns, by simp [hf, join, hcode], ?_⟩
      have := hsgr [] Attr.clean
      simpa [cellAttr, paintOpt, hf, hb, sgr] using this
    | some b =>
      obtain ⟨n', ns', hcode', hsgr'⟩ := hbg b hb
      refine ⟨n, ns ++ (n' :: ns'), ?_, ?_⟩
      · simp only [hf, Option.toList_some, List.map_cons, List.map_nil, List.singleton_append, join,
          hcode, hcode']
        have := join_append (sep := [';']) ((n :: ns).map dec) ((n' :: ns').map dec) (by simp) (by simp)
        rw [← List.map_append] at this
        simpa using this.symm
      · rw [← List.cons_append, hsgr]
        have := hsgr' [] (paint f.isBg (den f) Attr.clean)
        rw [List.append_nil] at this
        rw [this]
        simp [cellAttr, paintOpt, hf, hb, sgr]
  have hne : (join [';'] ((k :: ks).map dec)).isEmpty = false := by
    cases ks <;> simp [join, dec_ne_nil]
  unfold changeStr
  simp only [hk, hne, Bool.false_eq_true, if_false, List.append_nil, List.append_assoc,
    List.cons_append, List.nil_append]
  refine ⟨fun s hm hp => ?_, ?_, ?_⟩
  rotate_left
  · have e : '\x1b' :: '[' :: (join [';'] ((k :: ks).map dec) ++ 'm' :: (cell.char ++ RESET)) =
        ('\x1b' :: '[' :: (join [';'] ((k :: ks).map dec) ++ ['m'])) ++ (cell.char ++ RESET) := by simp
    rw [e]
    exact (quiet_sgr _).append (h.quiet.append quiet_reset)
  · have e : '\x1b' :: '[' :: (join [';'] ((k :: ks).map dec) ++ 'm' :: (cell.char ++ RESET)) =
        ('\x1b' :: '[' :: (join [';'] ((k :: ks).map dec) ++ ['m'])) ++ (cell.char ++ RESET) := by simp
    rw [e]
    exact (flat_sgr _).append (h.flat.append flat_reset)
  rw [run_sgr s k ks _ hm, h.run _ _ (by exact hm), ← List.append_nil RESET,
    run_reset _ _ (by exact hm)]
  simp only [hp, hks, run_nil]

/-- A fill character prints itself in a clean cell. -/
theorem prints_fill (den : Color → TColor) {c : Char} (hc : Printable c) :
    Prints [c] (cellGlyph den { char := [c] }) := by
  have h : CellStr [c] {} c false := ⟨by simp [wrapSgr, Style.colorless, Style.codes, Style.setters, lstrip, rstrip], hc⟩
  have e := h.glyph (cell := { char := [c] }) den
  rw [e]
  refine ⟨fun s hm hp => ?_, h.quiet, h.flat⟩
  have := h.run s [] hm
  rw [List.append_nil] at this
  rw [this]
  have e2 : applyStyle {} Attr.clean = Attr.clean := by rfl
  simp only [hp, e2, run_nil, cellAttr, paintOpt, Bool.false_eq_true, if_false]

end Slate
