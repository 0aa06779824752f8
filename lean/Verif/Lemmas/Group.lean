import Verif.Lemmas.RoundTrip
import Verif.Lemmas.Api

/-! Parsing a stored cell, and the loop of `Span.group`. -/

namespace Slate
open Py Term

theorem dec_inj {a b : Nat} (h : dec a = dec b) : a = b := by
  exact Py.dec_inj h

theorem codeStr_inj {a b : List Nat} (ha : a ≠ []) (hb : b ≠ []) (h : codeStr a = codeStr b) : a = b := by
  obtain ⟨x, xs, rfl⟩ := List.exists_cons_of_ne_nil ha
  obtain ⟨y, ys, rfl⟩ := List.exists_cons_of_ne_nil hb
  have h' := congrArg (splitC ';') h
  rw [codeStr, codeStr, splitC_decs, splitC_decs] at h'
  exact List.map_injective_iff.mpr (fun _ _ => dec_inj) h'

/-- A cell whose string is a character, with the sequence of a style before it and
possibly a reset after it. -/
def Looks (cell : Cell) (st : Style) (c : Char) : Prop :=
  ∃ r, cell.char = wrapSgr st.colorless ++ c :: (if r then RESET else []) ∧
    (r = true → styleNums st ≠ []) ∧ c ≠ '\x1b'

/-- A style without the opacity flag, which no terminal shows. -/
def Style.seen (st : Style) : Style := { st with isOpaque := false }

theorem parse_style (st : Style) (h : styleNums st ≠ []) :
    parseSequence (codeStr (styleNums st)) {} = ({ style := st.seen }, .ok none) := by
  have hu : styleUnits st = styleUnits st.seen := rfl
  have hn : styleNums st = seqNums (styleUnits st) ++ (if st.isOpaque then [99] else []) := by
    rw [hu, seqNums_styleUnits (st := st.seen) rfl]
    unfold styleNums Style.seen
    cases st.isOpaque <;> simp
  have heff : seqEff (styleUnits st) {} = { style := st.seen } := by
    rw [hu]; exact seqEff_styleUnits st.seen {} rfl rfl
  have hp : ∀ rest, parseParts ((seqNums (styleUnits st)).map dec ++ rest) false [] {} =
      parseParts rest false [] { style := st.seen } := by
    intro rest
    rw [← heff]
    have key : ∀ (us : List SgrUnit), (∀ u ∈ us, u.Ok) → ∀ o,
        parseParts ((seqNums us).map dec ++ rest) false [] o = parseParts rest false [] (seqEff us o) := by
      intro us
      induction us with
      | nil => intro _ o; rfl
      | cons u us ih =>
        intro h o
        rw [seqNums, List.flatMap_cons, List.map_append, List.append_assoc, SgrUnit.parse (h u (by simp))]
        exact ih (fun v hv => h v (by simp [hv])) _
    exact key _ (styleUnits_ok st) {}
  obtain ⟨n, ns, e⟩ := List.exists_cons_of_ne_nil h
  unfold parseSequence
  rw [codeStr, e, splitC_decs, ← e, hn, List.map_append, hp]
  cases st.isOpaque
  · rfl
  · rfl

/-- Parsing a stored cell gives its character and its style. -/
theorem firstFrom_cell {cell : Cell} {st : Style} {c : Char} (h : Looks cell st c) :
    firstFrom cell.char = .ok (some { text := [c], style := st.seen }) := by
  obtain ⟨r, hstr, hr, hc⟩ := h
  have hplain : PlainText [c] := ⟨by simp, by simpa using hc⟩
  by_cases hne : styleNums st = []
  · have hr' : r = false := by
      cases r
      · rfl
      · exact absurd hne (hr rfl)
    subst hr'
    have hw : wrapSgr st.colorless = [] := by
      rw [colorless_eq, hne]; rfl
    have hst : st.seen = {} := by
      revert hne
      obtain ⟨b1, b2, b3, b4, b5, b6, b7, b8, b9, b10⟩ := st
      simp only [styleNums, List.append_eq_nil_iff, ite_eq_right_iff, Style.seen]
      intro ⟨h1, h2, h3, h4, h5, h6, h7, h8, h9, h10⟩
      simp only [List.cons_ne_nil, imp_false, Bool.not_eq_true] at *
      subst h1 h2 h3 h4 h5 h6 h7 h8 h9
      rfl
    rw [hstr, hw, hst]
    have hlast : ∀ x, [c].getLast? = some x → x ≠ ESC := by
      intro x hx; simp at hx; rw [← hx]; exact hc
    unfold firstFrom yieldFrom
    simp only [Bool.false_eq_true, if_false, List.nil_append]
    rw [endsWith_esc hlast]
    simp only [Bool.false_eq_true, if_false, styleMatches]
    have := styleMatchesGo_text 0 (t := [c]) ['\x1b'] hplain.2
    rw [show ([ESC] : Str) = ['\x1b'] from rfl, this, styleMatchesGo_end]
    simp only [yieldLoop]
    rw [show (['\x1b'] : Str) = [ESC] from rfl, rstrip_esc hlast, if_pos (by simp)]
    simp
  · have hcode : codeStr (styleNums st) ≠ [] := codeStr_ne_nil hne
    have hw : wrapSgr st.colorless = '\x1b' :: '[' :: (codeStr (styleNums st) ++ ['m']) := by
      have hcl : st.colorless = codeStr (styleNums st) := colorless_eq st
      rw [hcl, wrapSgr, if_neg (by simpa using hcode)]; rfl
    have hlast : ∀ x, cell.char.getLast? = some x → x ≠ ESC := by
      intro x hx
      rw [hstr, List.getLast?_append] at hx
      cases r
      · simp at hx; rw [← hx]; exact hc
      · simp [RESET] at hx; rw [← hx]; decide
    obtain ⟨tail, htail, hgo⟩ : ∃ tail, cell.char ++ [ESC] =
        '\x1b' :: '[' :: (codeStr (styleNums st) ++ 'm' :: ([c] ++ '\x1b' :: tail)) ∧
        ∀ p, styleMatchesGo p 0 ('\x1b' :: tail) = [] := by
      cases r
      · exact ⟨[], by rw [hstr, hw]; simp [ESC], styleMatchesGo_end⟩
      · exact ⟨"[0m\x1b".toList, by rw [hstr, hw]; simp [ESC, RESET], styleMatchesGo_tail⟩
    unfold firstFrom yieldFrom
    rw [endsWith_esc hlast]
    simp only [Bool.false_eq_true, if_false, styleMatches]
    rw [htail, styleMatchesGo_run 0 tail (codeStr_bodyChar (ns := styleNums st)) hplain, hgo]
    simp only [yieldLoop, parse_style st hne, spanOfOpts, Bool.false_eq_true, if_false]
    generalize (0 + ((codeStr (styleNums st)).length + [c].length + 3)) = idx
    split
    · rename_i heq; split at heq <;> (injection heq with h1 h2; injection h1 with h1 h3; rw [← h1])
    · rename_i heq; split at heq <;> (injection heq with h1 h2; cases h1)
    · rename_i heq; split at heq <;> (injection heq with h1 h2; cases h1)

theorem looks_ne_nil {cell : Cell} {st : Style} {c : Char} (h : Looks cell st c) : cell.char ≠ [] := by
  obtain ⟨r, hstr, -⟩ := h
  rw [hstr]; simp

/-- Grouping cells of this form never raises. -/
theorem groupGo_ok (env : Color.Env) (row : List Cell) (h : ∀ cell ∈ row, ∃ st c, Looks cell st c)
    (s : GroupState) : ∃ out, groupGo env row s = .ok out := by
  induction row generalizing s with
  | nil => exact ⟨_, rfl⟩
  | cons cell cells ih =>
    have ih := ih fun x hx => h x (by simp [hx])
    obtain ⟨st, c, hl⟩ := h cell (by simp)
    rw [groupGo]
    split
    · cases hg : cell.char.getLast? with
      | none => exact absurd (List.getLast?_eq_none_iff.mp hg) (looks_ne_nil hl)
      | some d => exact ih _
    · rw [firstFrom_cell hl]
      simp only
      split
      · exact ih _
      · obtain ⟨out, ho⟩ := ih
          { group := (({ text := [c], style := st.seen } : Span)).mutate { fg := some cell.fg, bg := some cell.bg }
            started := true
            attrs := (({ text := [c], style := st.seen } : Span)).mutate { fg := some cell.fg, bg := some cell.bg }
            prevStr := ((({ text := [c], style := st.seen } : Span)).mutate { fg := some cell.fg, bg := some cell.bg } |>.mutate { resetAfter := some false }).render env }
        refine ⟨if s.started then s.group :: out else out, ?_⟩
        simp only [Option.getD_some]
        rw [ho]

/-! ### Equal strings -/

theorem styleNums_inj {a b : Style} (h : styleNums a = styleNums b) : a = b := by
  have key : ∀ st : Style, st = ⟨decide (1 ∈ styleNums st), decide (2 ∈ styleNums st),
      decide (3 ∈ styleNums st), decide (4 ∈ styleNums st), decide (5 ∈ styleNums st),
      decide (6 ∈ styleNums st), decide (7 ∈ styleNums st), decide (8 ∈ styleNums st),
      decide (9 ∈ styleNums st), decide (99 ∈ styleNums st)⟩ := by
    have m : ∀ (b : Bool) (k n : Nat), (n ∈ (if b then [k] else [])) ↔ (b = true ∧ n = k) := by
      intro b k n; cases b <;> simp
    intro st
    simp [styleNums, m]
  rw [key a, key b, h]

theorem wrap_inj {A B : List Nat} {c c0 : Char} {tail : Str} (hc : c ≠ '\x1b')
    (h : wrapSgr (codeStr A) ++ c :: tail = wrapSgr (codeStr B) ++ [c0]) : A = B ∧ c = c0 ∧ tail = [] := by
  have e : ∀ ns : List Nat, ns ≠ [] → ∀ t, wrapSgr (codeStr ns) ++ t = '\x1b' :: '[' :: (codeStr ns ++ 'm' :: t) := by
    intro ns hns t
    rw [wrapSgr, if_neg (by simpa using codeStr_ne_nil hns)]
    simp
  have e0 : wrapSgr (codeStr []) = [] := rfl
  by_cases hA : A = []
  · by_cases hB : B = []
    · subst hA hB
      rw [e0] at h
      simp at h
      exact ⟨rfl, h.1, h.2⟩
    · subst hA
      rw [e0, e B hB] at h
      simp at h
      exact absurd h.1 hc
  · by_cases hB : B = []
    · subst hB
      rw [e0, e A hA] at h
      simp at h
    · rw [e A hA, e B hB] at h
      simp only [List.cons.injEq, true_and] at h
      have hm : ∀ ns, 'm' ∉ codeStr ns := fun ns hm => (codeStr_bodyChar _ hm).1 rfl
      have h' := congrArg (splitC 'm') h
      rw [splitC_append _ (hm A), splitC_append _ (hm B)] at h'
      injection h' with h1 h2
      rw [h1] at h
      have := List.append_cancel_left h
      simp at this
      exact ⟨codeStr_inj hA hB h1, this.1, this.2⟩

/-! ### Stored strings in every history -/

/-- No escape characters; newlines only in unstyled spans. -/
def Span.TextOk (s : Span) : Prop := ∀ c ∈ s.text, c ≠ '\x1b' ∧ (c = '\n' → s.style = {})

/-- A string that can be grouped. -/
def Groupable (t : Str) : Prop := ∃ st c, Looks { char := t } st c

theorem cellChars_groupable {s : Span} (h : s.TextOk) {ch : Str} (hm : ch ∈ s.cellChars) :
    ch = ['\n'] ∨ (Groupable ch ∧ rstrip (· == '\n') ch = ch) := by
  obtain ⟨k, hk⟩ := List.mem_iff_getElem?.mp hm
  unfold Span.cellChars at hk
  rw [charsGo_getElem?] at hk
  obtain ⟨c, hc, hk⟩ := Option.map_eq_some_iff.mp hk
  obtain ⟨h1, h2⟩ := h c (List.mem_of_getElem? hc)
  have hseq : s.colorlessSequences = wrapSgr s.style.colorless := rfl
  by_cases hn : c = '\n'
  · left
    have e : s.colorlessSequences = [] := by rw [hseq, h2 hn, wrapSgr_empty]
    rw [e] at hk
    rw [← hk, hn]
    split <;> simp
  · right
    have hrs : ∀ (a : Str) (r : Bool), rstrip (· == '\n') (a ++ c :: (if r then RESET else [])) =
        a ++ c :: (if r then RESET else []) := by
      intro a r
      apply rstrip_of_last
      intro d hd
      rw [List.getLast?_append] at hd
      cases r
      · simp at hd; rw [← hd]; simpa using hn
      · simp [RESET] at hd; rw [← hd]; decide
    split at hk
    · rw [← hk]
      exact ⟨⟨s.style, c, false, rfl, by simp, h1⟩, hrs _ false⟩
    · split at hk
      · rename_i hr
        have e : s.colorlessSequences ++ [c] ++ RESET =
            wrapSgr s.style.colorless ++ c :: (if true then RESET else []) := by simp [hseq]
        rw [← hk, e]
        refine ⟨⟨s.style, c, true, rfl, fun _ hnil => ?_, h1⟩, hrs _ true⟩
        simp only [Bool.and_eq_true, Bool.not_eq_true', hseq] at hr
        have : wrapSgr s.style.colorless = [] := by rw [colorless_eq, hnil]; rfl
        rw [this] at hr
        simp at hr
      · rw [← hk]
        exact ⟨⟨{}, c, false, by rw [wrapSgr_empty]; rfl, by simp, h1⟩, hrs [] false⟩

/-- All lists cached for spans of this kind hold strings of this kind. -/
def CacheG (K : Span → Prop) (G : Str → Prop) (cache : CharCache) : Prop :=
  ∀ e ∈ cache, K e.1 → ∀ ch ∈ e.2, G ch

theorem CacheG.get {K : Span → Prop} {G : Str → Prop} (hG : ∀ s : Span, K s → ∀ ch ∈ s.cellChars, G ch)
    {cache : CharCache} (h : CacheG K G cache) (s : Span) :
    (K s → ∀ ch ∈ (cache.get s).1, G ch) ∧ CacheG K G (cache.get s).2 := by
  unfold CharCache.get
  cases hl : cache.lookup s with
  | none =>
    refine ⟨hG s, ?_⟩
    intro e he
    rcases List.mem_cons.mp (List.mem_of_mem_take he) with rfl | hm
    · exact hG s
    · exact h e hm
  | some l =>
    have hm := mem_of_lookup hl
    refine ⟨h _ hm, ?_⟩
    intro e he
    rcases List.mem_cons.mp he with rfl | hm'
    · exact h _ hm
    · exact h e (List.mem_of_mem_filter hm')

theorem CacheG.assign {K : Span → Prop} {G : Str → Prop} {cache : CharCache} (h : CacheG K G cache) (s : Span) (l : List Str)
    (hl : K s → ∀ ch ∈ l, G ch) : CacheG K G (cache.assign s l) := by
  intro e he
  obtain ⟨e', he', rfl⟩ := List.mem_map.mp he
  split
  · exact hl
  · exact h e' he'

/-- The strings of the matrix, stripped. -/
def MatsN (N : Str → Prop) (m : Mats) : Prop :=
  ∀ x y c, m.wm x y = some c → N (rstrip (· == '\n') c.char)

theorem MatsN.putCell {N : Str → Prop} {m : Mats} (h : MatsN N m) (s : Span) {ch : Str}
    (hch : N (rstrip (· == '\n') ch)) (x y : Nat) : MatsN N (putCell m s ch x y) := by
  have set : ∀ (c : WCell) (am : Nat → Nat → List Color), N (rstrip (· == '\n') c.char) →
      MatsN N { wm := upd m.wm x y (some c), am := am } := by
    intro c am hc x' y' c' hc'
    simp only [upd] at hc'
    split at hc'
    · injection hc' with hc'; subst hc'; exact hc
    · exact h x' y' c' hc'
  unfold Slate.putCell
  split
  · rename_i old hold
    split
    · apply set
      simp only
      split
      · exact h x y old hold
      · exact hch
    · exact set _ _ hch
  · exact set _ _ hch

/-- The strings of the cells. -/
def CellsN (N : Str → Prop) (cells : List (List Cell)) : Prop := ∀ row ∈ cells, ∀ cell ∈ row, N cell.char

/-- The invariant of the fill phase. `closed` allows scrolling, `K` is known of the spans. -/
structure StrInv (K : Span → Prop) (closed : Prop) (G N : Str → Prop) : Prop where
  span : ∀ s : Span, K s → ∀ ch ∈ s.cellChars, G ch
  store : ∀ ch, G ch → ch ≠ ['\n'] → N (rstrip (· == '\n') ch)
  append : closed → ∀ ch, G ch → G (ch ++ ['\n'])
  blank : closed → N []

theorem putSpans_strInv {K : Span → Prop} {closed : Prop} {G N : Str → Prop} (hI : StrInv K closed G N) (spans : List Span)
    (hsp : ∀ s ∈ spans, K s) (i : Nat) (p : Pen) (m : Mats) (w : World)
    (hk : CacheG K G w.cache) (hm : MatsN N m) (hc : CellsN N w.scr.cells)
    (ho : closed ∨ (putSpans spans i p m w).2.2.1.scr.offset = w.scr.offset) :
    CacheG K G (putSpans spans i p m w).2.2.1.cache ∧ MatsN N (putSpans spans i p m w).2.1 ∧
      CellsN N (putSpans spans i p m w).2.2.1.scr.cells := by
  induction spans generalizing i p m w with
  | nil => exact ⟨hk, hm, hc⟩
  | cons span rest ih =>
    have ih := ih (fun s hs => hsp s (by simp [hs]))
    obtain ⟨h1, h2⟩ := hk.get hI.span span
    have h1 := h1 (hsp span (by simp))
    have hput : ∀ (a b : Nat) (chars : List Str) (p : Pen), (∀ ch ∈ chars, G ch) →
        MatsN N (putChars a b span chars p m).2 := fun a b chars p hch =>
      putChars_inv (MatsN N) a b span chars
        (fun m ch x y hmem hne _ _ hm => hm.putCell span (hI.store ch (hch ch hmem) hne) x y) p m hm
    unfold putSpans at ho ⊢
    simp only at ho ⊢
    split
    · rename_i hcond
      rw [if_pos hcond] at ho
      obtain ⟨-, hy⟩ := hcond
      split
      · exact ⟨h2, hm, hc⟩
      · rename_i hne
        rw [if_neg hne] at ho
        have hcl : closed := by
          rcases ho with ho | ho
          · exact ho
          · exfalso
            revert ho
            cases hcells : w.scr.cells with
            | nil => simp only; omega
            | cons r rows =>
              simp only
              intro ho
              have hoff := fun (i : Nat) p m w => (putSpans_frame rest i p m w).offset
              have := (hoff _ _ _ _).trans (le_of_eq ho)
              simp only at this
              omega
        have happ : ∀ ch ∈ appendNewline (w.cache.get span).1, G ch := by
          intro ch hch
          unfold appendNewline at hch
          split at hch
          · rename_i c hlast
            rcases List.mem_append.mp hch with hch | hch
            · exact h1 ch (List.dropLast_subset _ hch)
            · rw [List.mem_singleton.mp hch]
              exact hI.append hcl c (h1 c (List.mem_of_getLast? hlast))
          · simp at hch
        have h3 : CacheG K G ((w.cache.get span).2.assign span (appendNewline (w.cache.get span).1)) :=
          h2.assign span _ fun _ => happ
        split
        · exact ⟨h3, hm, hc⟩
        · rename_i r rows hcells
          apply ih
          · exact h3
          · exact hput _ _ _ _ happ
          · intro row hrow
            rcases List.mem_append.mp hrow with hrow | hrow
            · exact hc row (by rw [hcells]; simp [hrow])
            · rw [List.mem_singleton.mp hrow]
              intro cell hcell
              rw [(List.mem_replicate.mp hcell).2]
              exact hI.blank hcl
          · exact .inl hcl
    · rename_i hcond
      rw [if_neg hcond] at ho
      exact ih _ _ _ _ h2 (hput _ _ _ _ h1) hc ho

theorem putData_strInv {K : Span → Prop} {closed : Prop} {G N : Str → Prop} (hI : StrInv K closed G N) (data : List Entry)
    (hsp : ∀ e ∈ data, ∀ s ∈ e.2, K s) (m : Mats) (w : World)
    (hk : CacheG K G w.cache) (hm : MatsN N m) (hc : CellsN N w.scr.cells)
    (ho : closed ∨ (putData data m w).2.1.scr.offset = w.scr.offset) :
    CacheG K G (putData data m w).2.1.cache ∧ MatsN N (putData data m w).1 ∧
      CellsN N (putData data m w).2.1.scr.cells := by
  induction data generalizing m w with
  | nil => exact ⟨hk, hm, hc⟩
  | cons e rest ih =>
    obtain ⟨c, line⟩ := e
    cases c with
    | none => exact ⟨hk, hm, hc⟩
    | some xy =>
      have h1 := putSpans_strInv hI line (hsp _ (List.mem_cons_self ..)) 0
        { x := xy.1, y := xy.2, last := (line.length : Int) - 1 } m w hk hm hc
      have hf := putSpans_frame line 0 { x := xy.1, y := xy.2, last := (line.length : Int) - 1 } m w
      unfold putData at ho ⊢
      revert h1 hf ho
      rcases putSpans line 0 { x := xy.1, y := xy.2, last := (line.length : Int) - 1 } m w with
        ⟨p', m', w', e'⟩
      intro h1 hf ho
      cases e' with
      | some e => exact h1 ho
      | none =>
        simp only at ho hf h1 ⊢
        have hf2 := (putData_frame rest m' w').offset
        have ho1 : closed ∨ w'.scr.offset = w.scr.offset := by
          rcases ho with ho | ho
          · exact .inl ho
          · exact .inr (le_antisymm (ho ▸ hf2) hf.offset)
        obtain ⟨a, b, c⟩ := h1 ho1
        refine ih (fun e he => hsp e (by simp [he])) m' w' a b c ?_
        rcases ho with ho | ho
        · exact .inl ho
        · refine .inr (le_antisymm ?_ hf2)
          rw [ho]; exact hf.offset

end Slate
