import Verif.Lemmas.Group
import Verif.Props.Redraw

/-!
# Grouping cells into spans (C33, C34)
-/

namespace Slate
open Py Term

/-! ## C33 Grouping cells preserves text, order and look -/

/-- The letters of a span with their looks. -/
def letters (s : Span) : List (Char × Style × Option Color × Option Color) :=
  s.text.map fun c => (c, s.style, s.fg, s.bg)

/-- A letter looks like a cell of style `st` and character `c`: equal colours (Python
`==`), equal styles up to the opacity flag. -/
def SameLook (l : Char × Style × Option Color × Option Color) (e : Cell × Style × Char) : Prop :=
  l.1 = e.2.2 ∧ l.2.1 = { e.2.1 with isOpaque := false } ∧
  Span.optEq l.2.2.1 e.1.fg = true ∧ Span.optEq l.2.2.2 e.1.bg = true

/-- The code of a colour is a standard, 8-bit or true-colour code. -/
def HasCode (env : Color.Env) (c : Color) : Prop := ∃ ns, CodeNums ns ∧ c.ansi env = codeStr ns

theorem Color.eq_refl' (c : Color) : c.eq c = true := by simp [Color.eq]

theorem optEq_refl (c : Option Color) : Span.optEq c c = true := by
  cases c with
  | none => rfl
  | some c => exact Color.eq_refl' c

theorem optEq_symm {a b : Option Color} (h : Span.optEq a b = true) : Span.optEq b a = true := by
  cases a <;> cases b <;> simp_all [Span.optEq, Color.eq]

theorem codeNums_head {ns : List Nat} (h : CodeNums ns) : ∃ n t, ns = n :: t ∧ 10 ≤ n ∧ n ≠ 99 := by
  cases h with
  | std n h => exact ⟨n, [], rfl, by omega, by omega⟩
  | idx bg n h => exact ⟨_, _, rfl, by cases bg <;> simp, by cases bg <;> simp⟩
  | rgb bg r g b => exact ⟨_, _, rfl, by cases bg <;> simp, by cases bg <;> simp⟩

theorem styleNums_mem {st : Style} {n : Nat} (h : n ∈ styleNums st) : n < 10 ∨ n = 99 := by
  have m : ∀ (b : Bool) (k : Nat), (n ∈ (if b then [k] else [])) → n = k := by
    intro b k; cases b <;> simp
  simp only [styleNums, List.mem_append] at h
  rcases h with h | h | h | h | h | h | h | h | h | h <;> rw [m _ _ h] <;> simp

/-- The loop. -/
theorem groupGo_looks (env : Color.Env) (all rest : List (Cell × Style × Char))
    (hsub : ∀ e ∈ rest, e ∈ all)
    (hl : ∀ e ∈ all, Looks e.1 e.2.1 e.2.2)
    (hcol : ∀ e ∈ all, (∀ c, e.1.fg = some c → HasCode env c) ∧ (∀ c, e.1.bg = some c → HasCode env c))
    (hmix : ∀ a ∈ all, ∀ b ∈ all, a.1.fg = none → a.1.bg = none → a.2.2 = b.2.2 →
      a.2.1.seen = b.2.1.seen → b.1.fg = none ∧ b.1.bg = none)
    (s : GroupState) (pre : List (Cell × Style × Char))
    (ha : s.group.fg = s.attrs.fg ∧ s.group.bg = s.attrs.bg ∧ s.group.hyperlink = [] ∧
      s.attrs.hyperlink = [] ∧ s.group.style = s.attrs.style)
    (hp : s.prevStr = [] ∨ ∃ e ∈ all, s.attrs.style = e.2.1.seen ∧ s.attrs.fg = e.1.fg ∧
      s.attrs.bg = e.1.bg ∧ ∃ f b, CodeOf env e.1.fg f ∧ CodeOf env e.1.bg b ∧
        (e.1.fg ≠ none → CodeNums f) ∧ (e.1.bg ≠ none → CodeNums b) ∧
        s.prevStr = wrapSgr (codeStr (f ++ b ++ styleNums e.2.1.seen)) ++ [e.2.2])
    (hs : s.started = false → s.group.text = [])
    (hpre : List.Forall₂ SameLook (letters s.group) pre) :
    ∃ out, groupGo env (rest.map (·.1)) s = .ok out ∧
      List.Forall₂ SameLook (out.flatMap letters) (pre ++ rest) := by
  induction rest generalizing s pre with
  | nil => exact ⟨_, rfl, by simpa using hpre⟩
  | cons e rest ih =>
    obtain ⟨cell, st, c⟩ := e
    have hmem := hsub _ (List.mem_cons_self ..)
    have ih := ih fun e he => hsub e (by simp [he])
    have hlook : Looks cell st c := hl _ hmem
    -- extending the group
    have hext : ∀ (s' : GroupState), s'.group = s.group.mutate { text := some (s.group.text ++ [c]) } →
        s'.attrs = s.attrs → s'.prevStr = s.prevStr → s'.started = true →
        SameLook (c, s.group.style, s.group.fg, s.group.bg) (cell, st, c) →
        ∃ out, groupGo env (rest.map (·.1)) s' = .ok out ∧
          List.Forall₂ SameLook (out.flatMap letters) (pre ++ (cell, st, c) :: rest) := by
      intro s' e1 e2 e3 e4 hsame
      obtain ⟨out, h1, h2⟩ := ih s' (pre ++ [(cell, st, c)])
        (by rw [e1, e2]; exact ⟨ha.1, ha.2.1, ha.2.2.1, ha.2.2.2.1, ha.2.2.2.2⟩)
        (by rw [e2, e3]; exact hp) (by rw [e4]; simp)
        (by
          rw [e1]
          have : letters (s.group.mutate { text := some (s.group.text ++ [c]) }) =
              letters s.group ++ [(c, s.group.style, s.group.fg, s.group.bg)] := by
            simp [letters, Span.mutate]
          rw [this]
          exact List.rel_append hpre (.cons hsame .nil))
      exact ⟨out, h1, by simpa using h2⟩
    rw [List.map_cons, groupGo]
    by_cases heq : cell.char = s.prevStr
    · rw [if_pos heq]
      obtain ⟨r, hstr, hr, hc⟩ := hlook
      rcases hp with hp | ⟨e, he, q1, q2, q3, f, b, cf, cb, nf, nb, hps⟩
      · rw [hp] at heq
        exact absurd heq (looks_ne_nil (hl _ hmem))
      · have hcl : st.colorless = codeStr (styleNums st) := colorless_eq st
        rw [hps, hstr, hcl] at heq
        obtain ⟨i1, i2, i3⟩ := wrap_inj hc heq
        have hb0 : ∀ ns, CodeNums ns → ∀ a d, styleNums st = a ++ ns ++ d → False := by
          intro ns hns a d h
          obtain ⟨n, t, rfl, h1, h2⟩ := codeNums_head hns
          have := styleNums_mem (st := st) (n := n) (by rw [h]; simp)
          omega
        have hfg : e.1.fg = none := by
          by_contra hne
          exact hb0 f (nf hne) [] (b ++ styleNums e.2.1.seen) (by rw [i1]; simp)
        have hbg : e.1.bg = none := by
          by_contra hne
          exact hb0 b (nb hne) f (styleNums e.2.1.seen) i1
        rw [hfg] at cf
        rw [hbg] at cb
        have cf : f = [] := cf
        have cb : b = [] := cb
        subst cf cb
        have hst : st = e.2.1.seen := styleNums_inj (by simpa using i1)
        obtain ⟨m1, m2⟩ := hmix e he _ hmem hfg hbg i2.symm (by simp only [hst]; rfl)
        have hlast : cell.char.getLast? = some c := by rw [hstr, i3]; simp
        rw [hlast]
        refine hext _ rfl rfl rfl rfl ⟨rfl, ?_, ?_, ?_⟩
        · simp only [ha.2.2.2.2, q1, hst]; rfl
        · simp only [ha.1, q2, hfg]; simp only at m1; rw [m1]; rfl
        · simp only [ha.2.1, q3, hbg]; simp only at m2; rw [m2]; rfl
    · rw [if_neg heq, firstFrom_cell hlook]
      simp only [Option.getD_some]
      generalize hspan : (({ text := [c], style := st.seen } : Span)).mutate
        { fg := some cell.fg, bg := some cell.bg } = span
      have hspan' : span = { text := [c], style := st.seen, fg := cell.fg, bg := cell.bg } := by
        rw [← hspan]; rfl
      by_cases hattr : span.attrsEq s.attrs = true
      · rw [if_pos hattr]
        unfold Span.attrsEq at hattr
        simp only [hspan', Bool.and_eq_true, decide_eq_true_eq] at hattr
        refine hext _ (by rw [hspan']) rfl rfl rfl ⟨rfl, ?_, ?_, ?_⟩
        · simp only [ha.2.2.2.2, ← hattr.2]; rfl
        · simp only [ha.1]; exact optEq_symm hattr.1.1.1
        · simp only [ha.2.1]; exact optEq_symm hattr.1.1.2
      · rw [if_neg hattr]
        have hcode : ∀ o : Option Color, (∀ c, o = some c → HasCode env c) →
            ∃ ns, CodeOf env o ns ∧ (o ≠ none → CodeNums ns) := by
          intro o ho
          cases o with
          | none => exact ⟨[], rfl, by simp⟩
          | some k =>
            obtain ⟨ns, h1, h2⟩ := ho k rfl
            exact ⟨ns, ⟨h2, codeNums_ne_nil h1⟩, fun _ => h1⟩
        obtain ⟨f, cf, nf⟩ := hcode cell.fg (hcol _ hmem).1
        obtain ⟨b, cb, nb⟩ := hcode cell.bg (hcol _ hmem).2
        obtain ⟨out, h1, h2⟩ := ih
          { group := span, started := true, attrs := span
            prevStr := (span.mutate { resetAfter := some false }).render env } [(cell, st, c)]
          (by rw [hspan']; exact ⟨rfl, rfl, rfl, rfl, rfl⟩)
          (by
            refine .inr ⟨_, hmem, by rw [hspan'], by rw [hspan'], by rw [hspan'], f, b, cf, cb, nf, nb, ?_⟩
            simp only [hspan']
            have ht := total_eq (env := env)
              (s := Span.mutate { text := [c], fg := cell.fg, bg := cell.bg, style := st.seen }
                { resetAfter := some false }) (f := f) (b := b) cf cb
            unfold Span.render
            rw [Span.sequences, ht]
            simp [Span.mutate])
          (by simp)
          (by
            rw [hspan']
            exact .cons ⟨rfl, rfl, optEq_refl _, optEq_refl _⟩ .nil)
        rw [h1]
        refine ⟨_, rfl, ?_⟩
        cases hst : s.started with
        | true =>
          simp only [if_true, List.flatMap_cons]
          exact List.rel_append hpre h2
        | false =>
          have : letters s.group = [] := by simp [letters, hs hst]
          rw [this] at hpre
          cases hpre
          simpa using h2

/-- C33, for rows in which no coloured cell shows the same styled character as an
uncoloured one: the letters of the spans are the characters of the cells, in order,
with the cells' styles and colours. -/
theorem C33_group_partial (env : Color.Env) (row : List (Cell × Style × Char))
    (hl : ∀ e ∈ row, Looks e.1 e.2.1 e.2.2)
    (hcol : ∀ e ∈ row, (∀ c, e.1.fg = some c → HasCode env c) ∧ (∀ c, e.1.bg = some c → HasCode env c))
    (hmix : ∀ a ∈ row, ∀ b ∈ row, a.1.fg = none → a.1.bg = none → a.2.2 = b.2.2 →
      a.2.1.seen = b.2.1.seen → b.1.fg = none ∧ b.1.bg = none) :
    ∃ spans, group env (row.map (·.1)) = .ok spans ∧
      List.Forall₂ SameLook (spans.flatMap letters) row := by
  have := groupGo_looks env row row (fun _ h => h) hl hcol hmix {} [] ⟨rfl, rfl, rfl, rfl, rfl⟩
    (.inl rfl) (fun _ => rfl) (by exact .nil)
  simpa [group] using this

/-- A row meeting the hypotheses of C33. -/
example :
    let red : Color := { r := 255, g := 0, b := 0 }
    let row : List (Cell × Style × Char) :=
      [({ char := "\x1b[1ma".toList, fg := some red }, { bold := true }, 'a'),
       ({ char := "c".toList, fg := some red }, {}, 'c')]
    (∀ e ∈ row, Looks e.1 e.2.1 e.2.2) ∧
    (∀ e ∈ row, (∀ c, e.1.fg = some c → HasCode {} c) ∧ (∀ c, e.1.bg = some c → HasCode {} c)) ∧
    (∀ a ∈ row, ∀ b ∈ row, a.1.fg = none → a.1.bg = none → a.2.2 = b.2.2 →
      a.2.1.seen = b.2.1.seen → b.1.fg = none ∧ b.1.bg = none) := by
  have hred : HasCode {} { r := 255, g := 0, b := 0 } :=
    ⟨[38, 2, 255, 0, 0], .rgb false 255 0 0 (by omega) (by omega) (by omega), by decide +kernel⟩
  refine ⟨?_, ?_, ?_⟩
  · intro e he
    simp only [List.mem_cons, List.not_mem_nil, or_false] at he
    rcases he with rfl | rfl
    · exact ⟨false, by decide +kernel, by simp, by decide⟩
    · exact ⟨false, by decide +kernel, by simp, by decide⟩
  · intro e he
    simp only [List.mem_cons, List.not_mem_nil, or_false] at he
    rcases he with rfl | rfl <;>
      exact ⟨fun c hc => by injection hc with hc; exact hc ▸ hred, by simp⟩
  · simp

/-- A case of C33: four cells, two groups. -/
example :
    let red : Color := { r := 255, g := 0, b := 0 }
    group {} [{ char := "\x1b[1ma".toList, fg := some red }, { char := "\x1b[1mb\x1b[0m".toList, fg := some red },
              { char := "c".toList, fg := some red }, { char := "c".toList, fg := some red }] =
      .ok [{ text := "ab".toList, fg := some red, style := { bold := true } },
           { text := "cc".toList, fg := some red }] := by
  decide +kernel

/-- C33 fails for a coloured cell after an uncoloured one with the same character: its
colour is lost. -/
theorem C33_color_lost_violated :
    let red : Color := { r := 255, g := 0, b := 0 }
    group {} [{ char := "\x1b[1ma".toList }, { char := "\x1b[1ma".toList, fg := some red }] =
      .ok [{ text := "aa".toList, style := { bold := true } }] := by
  decide +kernel

/-- The same on a reachable screen: a red `x` and a red `b` written on a screen filled with
`b`; the second red is lost. -/
theorem C33_reachable_violated :
    let red : Color := { r := 255, g := 0, b := 0 }
    let w := (writeBulk {} [(some (0, 0), [{ text := "x".toList, fg := some red }]),
        (some (2, 0), [{ text := "b".toList, fg := some red }])] Color.black false
      { scr := Screen.init 3 1 (0, 0) "b".toList }).1
    w.scr.cells.map (group {}) = [.ok [{ text := "x".toList, fg := some red }, { text := "bb".toList }]] := by
  decide +kernel

/-! ## C34 Grouping never raises -/

theorem cellsN_iff {N : Str → Prop} {cells : List (List Cell)} :
    CellsN N cells ↔ ∀ x y cell, cellAt cells x y = some cell → N cell.char := by
  constructor
  · intro h x y cell hc
    unfold cellAt at hc
    split at hc
    · rename_i row hrow
      exact h row (List.mem_of_getElem? hrow) cell (List.mem_of_getElem? hc)
    · cases hc
  · intro h row hrow cell hcell
    obtain ⟨y, hy⟩ := List.mem_iff_getElem?.mp hrow
    obtain ⟨x, hx⟩ := List.mem_iff_getElem?.mp hcell
    exact h x y cell (by rw [cellAt, hy]; exact hx)

theorem writeBulk_strInv {K : Span → Prop} {closed : Prop} {G N : Str → Prop} (hI : StrInv K closed G N) (env : Color.Env)
    (data : List Entry) (tb : Color) (force : Bool) (w : World)
    (hs : Shape w.scr.width w.scr.height w.scr.cells)
    (hsp : ∀ e ∈ data, ∀ s ∈ e.2, K s) (hk : CacheG K G w.cache) (hc : CellsN N w.scr.cells)
    (ho : closed ∨ (writeBulk env data tb force w).1.scr.offset = w.scr.offset) :
    CacheG K G (writeBulk env data tb force w).1.cache ∧
      CellsN N (writeBulk env data tb force w).1.scr.cells := by
  have hf := putData_frame data Mats.blank w
  have hinv := putData_strInv hI data hsp Mats.blank w hk (by simp [MatsN, Mats.blank]) hc
  unfold writeBulk at ho ⊢
  revert ho hinv hf
  rcases putData data Mats.blank w with ⟨m, w', e⟩
  intro ho hf hinv
  cases e with
  | some e =>
    simp only at ho
    obtain ⟨h1, -, h3⟩ := hinv ho
    exact ⟨h1, h3⟩
  | none =>
    simp only at ho hinv hf ⊢
    obtain ⟨n, hcm, hwr⟩ := commit_wrote env tb m w'.scr
      (by rw [hf.width, hf.height]; exact hf.shape _ _ rfl hs)
    have ho' : closed ∨ w'.scr.offset = w.scr.offset := by
      rcases ho with ho | ho
      · exact .inl ho
      · right
        rw [← ho]
        exact hwr.offset.symm
    obtain ⟨h1, h2, h3⟩ := hinv ho'
    refine ⟨h1, ?_⟩
    rw [cellsN_iff] at h3 ⊢
    intro x y cell hcell
    rw [hwr.cell] at hcell
    cases hout : outcome tb m w'.scr (x, y) with
    | none =>
      rw [hout] at hcell
      exact h3 x y cell (by simpa using hcell)
    | some r =>
      rw [hout] at hcell
      simp only [Option.map_some, Option.some_or, Option.some.injEq] at hcell
      subst hcell
      unfold outcome at hout
      split at hout
      · simp at hout
      · rename_i c hcw
        simp only at hout
        split at hout
        · simp at hout
        · split at hout
          · simp at hout
          · simp only [Option.some.injEq] at hout
            subst hout
            exact h2 x y c hcw

theorem resize_strInv {N : Str → Prop} (s : Screen) (a b : Nat) {fill : Str} (keep : Bool) (hf : N fill)
    (h : CellsN N s.cells) : CellsN N (s.resize (a, b) fill keep).cells := by
  intro row hrow cell hcell
  simp only [Screen.resize, List.mem_map] at hrow
  obtain ⟨y, -, rfl⟩ := hrow
  simp only [List.mem_map] at hcell
  obtain ⟨x, -, rfl⟩ := hcell
  split
  · cases hc : cellAt s.cells x y with
    | none => exact hf
    | some c => exact (cellsN_iff.mp h) x y c hc
  · exact hf

theorem runAll_strInv {K : Span → Prop} {closed : Prop} {G N : Str → Prop} (hI : StrInv K closed G N) (env : Color.Env)
    (ops : List Api) (w : World) (hs : Shape w.scr.width w.scr.height w.scr.cells)
    (hu : ∀ op ∈ ops, op.Uses K fun _ => True) (hF : ∀ op ∈ ops, op.Fills N)
    (hk : CacheG K G w.cache) (hc : CellsN N w.scr.cells)
    (ho : closed ∨ (Api.runAll env w ops).scr.offset = w.scr.offset) :
    CellsN N (Api.runAll env w ops).scr.cells := by
  induction ops generalizing w with
  | nil => exact hc
  | cons op ops ih =>
    have hrest := runAll_offset_mono env ops (op.run env w) (run_shape env w op hs)
    have hone := (run_still env w op hs).1
    have h1 : closed ∨ (op.run env w).scr.offset = w.scr.offset := by
      rcases ho with ho | ho
      · exact .inl ho
      · right
        have ho : (Api.runAll env (op.run env w) ops).scr.offset = w.scr.offset := ho
        omega
    have h2 : closed ∨ (Api.runAll env (op.run env w) ops).scr.offset = (op.run env w).scr.offset := by
      rcases ho with ho | ho
      · exact .inl ho
      · right
        have ho : (Api.runAll env (op.run env w) ops).scr.offset = w.scr.offset := ho
        omega
    have hop := hu op (by simp)
    have hfo := hF op (by simp)
    have key : CacheG K G (op.run env w).cache ∧ CellsN N (op.run env w).scr.cells := by
      cases op with
      | write spans cursor tb force =>
        exact writeBulk_strInv hI env _ tb force w hs
          (by intro e he; rw [List.mem_singleton.mp he]; exact hop.1) hk hc h1
      | writeBulk data tb force => exact writeBulk_strInv hI env _ tb force w hs hop.1 hk hc h1
      | clear fill => exact ⟨hk, resize_strInv _ _ _ _ hfo hc⟩
      | resize a b fill keep => exact ⟨hk, resize_strInv _ _ _ _ hfo hc⟩
      | render origin redraw => cases redraw <;> exact ⟨hk, hc⟩
      | getCharacters s => exact ⟨(hk.get hI.span s).2, hc⟩
    exact ih (op.run env w) (run_shape env w op hs) (fun o h => hu o (by simp [h]))
      (fun o h => hF o (by simp [h])) key.1 key.2 h2

/-- One character that is not the escape character. -/
def OneCharFill (f : Str) : Prop := ∃ c, f = [c] ∧ c ≠ '\x1b'

theorem OneCharFill.groupable {f : Str} (h : OneCharFill f) : Groupable f := by
  obtain ⟨c, rfl, hc⟩ := h
  exact ⟨{}, c, false, by rw [wrapSgr_empty]; rfl, by simp, hc⟩

theorem rstrip_append_nl (ch : Str) : rstrip (· == '\n') (ch ++ ['\n']) = rstrip (· == '\n') ch := by
  simp [rstrip]

theorem group_ok_of (env : Color.Env) (row : List Cell) (h : ∀ cell ∈ row, Groupable cell.char) :
    ∃ spans, group env row = .ok spans :=
  groupGo_ok env row (fun cell hc => by
    obtain ⟨st, c, hl⟩ := h cell hc
    exact ⟨st, c, hl⟩) {}

/-- C34, for texts without escape characters (newlines in unstyled spans only) and
one-character fills: in every state reached without scrolling, every row can be grouped. -/
theorem C34_unscrolled_partial (env : Color.Env) (width height : Nat) (cur : Int × Int) (fill : Str)
    (hfill : OneCharFill fill) (ops : List Api)
    (hu : ∀ op ∈ ops, op.Uses Span.TextOk fun _ => True) (hF : ∀ op ∈ ops, op.Fills OneCharFill)
    (ho : (Api.runAll env { scr := Screen.init width height cur fill } ops).scr.offset = 0) :
    ∀ row ∈ (Api.runAll env { scr := Screen.init width height cur fill } ops).scr.cells,
      ∃ spans, group env row = .ok spans := by
  have hI : StrInv Span.TextOk False (fun ch => ch = ['\n'] ∨ Groupable (rstrip (· == '\n') ch)) Groupable := by
    refine ⟨?_, ?_, by simp, by simp⟩
    · intro s hs ch hch
      rcases cellChars_groupable hs hch with h | ⟨h1, h2⟩
      · exact .inl h
      · right; rw [h2]; exact h1
    · intro ch h hne
      exact h.resolve_left hne
  have hcells := runAll_strInv hI env ops { scr := Screen.init width height cur fill }
    (resize_shape _ _ _ _ _) hu
    (fun op hop => by
      have := hF op hop
      cases op with
      | clear f => exact OneCharFill.groupable this
      | resize a b f k => exact OneCharFill.groupable this
      | _ => trivial)
    (by simp [CacheG])
    (resize_strInv _ _ _ _ hfill.groupable (by simp [CellsN])) (.inr ho)
  exact fun row hrow => group_ok_of env row (hcells row hrow)

/-- C34 in every state, scrolled or not: a row raises at most if one of its cells is the
empty string, as in the rows brought in by scrolling. -/
theorem C34_rows_partial (env : Color.Env) (width height : Nat) (cur : Int × Int) (fill : Str)
    (hfill : OneCharFill fill) (ops : List Api)
    (hu : ∀ op ∈ ops, op.Uses Span.TextOk fun _ => True) (hF : ∀ op ∈ ops, op.Fills OneCharFill) :
    ∀ row ∈ (Api.runAll env { scr := Screen.init width height cur fill } ops).scr.cells,
      (∀ cell ∈ row, cell.char ≠ []) → ∃ spans, group env row = .ok spans := by
  have hI : StrInv Span.TextOk True (fun ch => rstrip (· == '\n') ch = [] ∨ Groupable (rstrip (· == '\n') ch))
      (fun t => t = [] ∨ Groupable t) := by
    refine ⟨?_, fun ch h _ => h, ?_, fun _ => .inl rfl⟩
    · intro s hs ch hch
      rcases cellChars_groupable hs hch with h | ⟨h1, h2⟩
      · left; rw [h]; decide
      · right; rw [h2]; exact h1
    · intro _ ch h
      rw [rstrip_append_nl]
      exact h
  have hcells := runAll_strInv hI env ops { scr := Screen.init width height cur fill }
    (resize_shape _ _ _ _ _) hu
    (fun op hop => by
      have := hF op hop
      cases op with
      | clear f => exact .inr (OneCharFill.groupable this)
      | resize a b f k => exact .inr (OneCharFill.groupable this)
      | _ => trivial)
    (by simp [CacheG])
    (resize_strInv _ _ _ _ (.inr hfill.groupable) (by simp [CellsN])) (.inl trivial)
  exact fun row hrow hne => group_ok_of env row fun cell hc =>
    (hcells row hrow cell hc).resolve_left (hne cell hc)

/-- A history meeting the hypotheses of both theorems. -/
example :
    let ops : List Api := [.write [{ text := "hi\nyou".toList, fg := some { r := 9, g := 9, b := 9 } }]
      (some (0, 0)) Color.black false, .write [{ text := "x".toList, style := { bold := true } }]
      (some (1, 0)) Color.black false, .clear "-".toList]
    (∀ op ∈ ops, op.Uses Span.TextOk fun _ => True) ∧ (∀ op ∈ ops, op.Fills OneCharFill) ∧
    (Api.runAll {} { scr := Screen.init 4 2 } ops).scr.offset = 0 := by
  refine ⟨?_, ?_, by decide +kernel⟩
  · simp [Api.Uses, Span.TextOk]
  · simp [Api.Fills, OneCharFill]

/-- C34 fails on a scrolled screen: the new row starts with empty cells. -/
theorem C34_scrolled_violated :
    let w := (write {} [{ text := "hi".toList }] (some (1, 2)) Color.black false { scr := Screen.init 4 2 }).1
    w.scr.cells.map (group {}) =
      [.ok [{ text := "    ".toList }], .error .indexError] := by
  decide +kernel

end Slate
