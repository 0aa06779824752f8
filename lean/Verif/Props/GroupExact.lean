import Verif.Props.Group
import Verif.Props.Scroll
import Verif.Model.Svg

/-!
# Which rows cannot be exported (C34, exactly)
-/

namespace Slate
open Py

/-! ### One row -/

/-- A cell holding a written character: every write stores a foreground. -/
def Written (c : Cell) : Prop := Groupable c.char ∧ c.fg.isSome

/-- A cell of a row brought in by scrolling that was not written since. -/
def Unwritten (c : Cell) : Prop := c = { char := [] }

/-- The row begins with an empty cell, or two empty cells stand side by side in it. -/
def Gap (row : List Cell) : Prop :=
  (∃ c, row[0]? = some c ∧ c.char = []) ∨
  ∃ i a b, row[i]? = some a ∧ row[i + 1]? = some b ∧ a.char = [] ∧ b.char = []

/-- Two empty cells stand side by side. -/
def Adjacent (row : List Cell) : Prop :=
  ∃ i a b, row[i]? = some a ∧ row[i + 1]? = some b ∧ a.char = [] ∧ b.char = []

theorem adjacent_cons (c : Cell) (row : List Cell) :
    Adjacent (c :: row) ↔ (c.char = [] ∧ ∃ d, row[0]? = some d ∧ d.char = []) ∨ Adjacent row := by
  constructor
  · rintro ⟨i, a, b, ha, hb, h1, h2⟩
    cases i with
    | zero =>
      simp only [List.getElem?_cons_zero, Option.some.injEq] at ha
      exact .inl ⟨ha ▸ h1, b, by simpa using hb, h2⟩
    | succ i => exact .inr ⟨i, a, b, by simpa using ha, by simpa using hb, h1, h2⟩
  · rintro (⟨h1, d, hd, h2⟩ | ⟨i, a, b, ha, hb, h1, h2⟩)
    · exact ⟨0, c, d, rfl, by simpa using hd, h1, h2⟩
    · exact ⟨i + 1, a, b, by simpa using ha, by simpa using hb, h1, h2⟩

theorem firstFrom_nil : firstFrom [] = .ok none := by decide +kernel

theorem render_ne_nil (env : Color.Env) {s : Span} (h : s.text ≠ []) : s.render env ≠ [] := by
  unfold Span.render
  simp only
  split <;> simp [h]

/-- The loop, in its two states: after an empty cell or at the start, and after a written cell. -/
theorem groupGo_exact (env : Color.Env) (row : List Cell) (h : ∀ c ∈ row, Written c ∨ Unwritten c) (st : GroupState) :
    (st.prevStr = [] → st.attrs.fg = none →
      (Gap row → groupGo env row st = .error .indexError) ∧ (¬ Gap row → ∃ out, groupGo env row st = .ok out)) ∧
    (st.prevStr ≠ [] → st.attrs.fg.isSome →
      (Adjacent row → groupGo env row st = .error .indexError) ∧
      (¬ Adjacent row → ∃ out, groupGo env row st = .ok out)) := by
  induction row generalizing st with
  | nil =>
    refine ⟨fun _ _ => ⟨?_, fun _ => ⟨_, rfl⟩⟩, fun _ _ => ⟨?_, fun _ => ⟨_, rfl⟩⟩⟩
    · rintro (⟨c, hc, -⟩ | ⟨i, a, b, ha, -⟩) <;> simp_all
    · rintro ⟨i, a, b, ha, -⟩; simp at ha
  | cons cell row ih =>
    have ih := ih fun c hc => h c (by simp [hc])
    have hgap : Gap (cell :: row) ↔ cell.char = [] ∨ Adjacent row := by
      constructor
      · rintro (⟨c, hc, hn⟩ | hadj)
        · simp only [List.getElem?_cons_zero, Option.some.injEq] at hc
          exact .inl (hc ▸ hn)
        · rcases (adjacent_cons cell row).mp hadj with ⟨h1, -⟩ | h1
          · exact .inl h1
          · exact .inr h1
      · rintro (h1 | h1)
        · exact .inl ⟨cell, rfl, h1⟩
        · exact .inr ((adjacent_cons cell row).mpr (.inr h1))
    have hadj : Adjacent (cell :: row) ↔ (cell.char = [] ∧ Gap row) ∨ Adjacent row := by
      rw [adjacent_cons]
      constructor
      · rintro (⟨h1, h2⟩ | h1)
        · exact .inl ⟨h1, .inl h2⟩
        · exact .inr h1
      · rintro (⟨h1, h2 | h2⟩ | h1)
        · exact .inl ⟨h1, h2⟩
        · exact .inr h2
        · exact .inr h1
    -- a written cell that begins a group, and one that continues it
    have hnew : ∀ (sp : Span) (st' : GroupState), sp.text ≠ [] → sp.fg.isSome → st'.attrs = sp →
        st'.prevStr = (sp.mutate { resetAfter := some false }).render env →
        (Adjacent row → groupGo env row st' = .error .indexError) ∧
        (¬ Adjacent row → ∃ out, groupGo env row st' = .ok out) := by
      intro sp st' h1 h2 h3 h4
      refine (ih st').2 ?_ (by rw [h3]; exact h2)
      rw [h4]
      exact render_ne_nil env (by simpa [Span.mutate] using h1)
    rcases h cell (by simp) with ⟨⟨sty, c, hl⟩, hfg⟩ | hun
    · have hl' : Looks cell sty c := hl
      have hne := looks_ne_nil hl'
      refine ⟨fun hp ha => ?_, fun hp ha => ?_⟩
      · have e1 : ¬ cell.char = st.prevStr := by rw [hp]; exact hne
        have e2 : ¬ Span.attrsEq ((({ text := [c], style := sty.seen } : Span)).mutate
            { fg := some cell.fg, bg := some cell.bg }) st.attrs = true := by
          obtain ⟨f, hf⟩ := Option.isSome_iff_exists.mp hfg
          simp [Span.attrsEq, Span.mutate, ha, hf, Span.optEq]
        obtain ⟨i1, i2⟩ := hnew ((({ text := [c], style := sty.seen } : Span)).mutate
            { fg := some cell.fg, bg := some cell.bg })
          { group := (({ text := [c], style := sty.seen } : Span)).mutate { fg := some cell.fg, bg := some cell.bg }
            started := true
            attrs := (({ text := [c], style := sty.seen } : Span)).mutate { fg := some cell.fg, bg := some cell.bg }
            prevStr := ((({ text := [c], style := sty.seen } : Span)).mutate
              { fg := some cell.fg, bg := some cell.bg } |>.mutate { resetAfter := some false }).render env }
          (by simp [Span.mutate]) (by simpa [Span.mutate] using hfg) rfl rfl
        rw [groupGo, if_neg e1, firstFrom_cell hl', hgap]
        simp only [Option.getD_some, if_neg e2, hne, false_or]
        refine ⟨fun hg => by rw [i1 hg], fun hg => ?_⟩
        obtain ⟨out, ho⟩ := i2 hg
        rw [ho]
        exact ⟨_, rfl⟩
      · rw [hadj]
        simp only [hne, false_and, false_or]
        rw [groupGo]
        split
        · cases hg : cell.char.getLast? with
          | none => exact absurd (List.getLast?_eq_none_iff.mp hg) hne
          | some d => exact (ih _).2 hp ha
        · rw [firstFrom_cell hl']
          simp only [Option.getD_some]
          split
          · exact (ih _).2 hp ha
          · obtain ⟨i1, i2⟩ := hnew ((({ text := [c], style := sty.seen } : Span)).mutate
                { fg := some cell.fg, bg := some cell.bg })
              { group := (({ text := [c], style := sty.seen } : Span)).mutate { fg := some cell.fg, bg := some cell.bg }
                started := true
                attrs := (({ text := [c], style := sty.seen } : Span)).mutate { fg := some cell.fg, bg := some cell.bg }
                prevStr := ((({ text := [c], style := sty.seen } : Span)).mutate
                  { fg := some cell.fg, bg := some cell.bg } |>.mutate { resetAfter := some false }).render env }
              (by simp [Span.mutate]) (by simpa [Span.mutate] using hfg) rfl rfl
            refine ⟨fun hg => by rw [i1 hg], fun hg => ?_⟩
            obtain ⟨out, ho⟩ := i2 hg
            rw [ho]
            exact ⟨_, rfl⟩
    · have hun : cell = { char := [] } := hun
      subst hun
      refine ⟨fun hp ha => ?_, fun hp ha => ?_⟩
      · rw [hgap]
        refine ⟨fun _ => ?_, fun hg => absurd (.inl rfl) hg⟩
        rw [groupGo, if_pos hp.symm]
        rfl
      · have e1 : ¬ ([] : Str) = st.prevStr := fun e => hp e.symm
        have e2 : ¬ Span.attrsEq (emptySpan.mutate { fg := some none, bg := some none }) st.attrs = true := by
          obtain ⟨f, hf⟩ := Option.isSome_iff_exists.mp ha
          simp [Span.attrsEq, Span.mutate, hf, Span.optEq]
        rw [groupGo, if_neg e1, firstFrom_nil, hadj]
        simp only [Option.getD_none, if_neg e2, true_and]
        have hi := (ih { group := emptySpan.mutate { fg := some none, bg := some none }
                         started := true
                         attrs := emptySpan.mutate { fg := some none, bg := some none }
                         prevStr := ((emptySpan.mutate { fg := some none, bg := some none }).mutate
                           { resetAfter := some false }).render env }).1
          (by simp [Span.render, Span.sequences, Span.total, Span.colorCodes, Span.mutate, emptySpan, join,
                Style.colorless, Style.codes, Style.setters, rstrip, lstrip, wrapSgr]) rfl
        have hga : Adjacent row → Gap row := .inr
        refine ⟨fun hg => ?_, fun hg => ?_⟩
        · rw [hi.1 (hg.elim id hga)]
        · obtain ⟨out, ho⟩ := hi.2 fun h => hg (.inl h)
          rw [ho]
          exact ⟨_, rfl⟩

/-- A row of written cells and of cells left empty by scrolling can be grouped if and only if it has no gap: otherwise grouping
raises `IndexError`. -/
theorem group_exact (env : Color.Env) (row : List Cell) (h : ∀ c ∈ row, Written c ∨ Unwritten c) :
    (Gap row → group env row = .error .indexError) ∧ (¬ Gap row → ∃ out, group env row = .ok out) :=
  (groupGo_exact env row h {}).1 rfl rfl

/-! ### The rows of a reachable screen -/

/-- No escape characters and no line breaks. -/
def Span.OneLine (s : Span) : Prop := ∀ c ∈ s.text, c ≠ '\x1b' ∧ c ≠ '\n'

/-- What is known of the strings of the cache and of the matrix. -/
def Storable (ch : Str) : Prop := Groupable (rstrip (· == '\n') ch)

theorem storable_cellChars {s : Span} (h : s.OneLine) : ∀ ch ∈ s.cellChars, Storable ch := by
  intro ch hch
  rcases cellChars_groupable (fun c hc => ⟨(h c hc).1, fun e => absurd e (h c hc).2⟩) hch with rfl | ⟨h1, h2⟩
  · exfalso
    obtain ⟨k, hk⟩ := List.mem_iff_getElem?.mp hch
    rw [cellChars_getElem?] at hk
    obtain ⟨c, hc, hk⟩ := Option.map_eq_some_iff.mp hk
    have hn := (h c (List.mem_of_getElem? hc)).2
    have hl := congrArg List.getLast? hk
    unfold styledChar at hl
    simp only at hl
    split at hl
    · rw [List.getLast?_append] at hl; simp at hl; exact hn hl
    · split at hl
      · rw [List.getLast?_append] at hl
        simp at hl
      · simp at hl; exact hn hl
  · rw [Storable, h2]; exact h1

theorem storable_append {ch : Str} (h : Storable ch) : Storable (ch ++ ['\n']) := by
  rw [Storable, rstrip_append_nl]; exact h

/-- The fill phase: every row is an old one or a new empty one, and every matrix entry has a groupable string. -/
theorem putSpans_rows (spans : List Span) (hsp : ∀ s ∈ spans, s.OneLine) (i : Nat) (p : Pen) (m : Mats) (w : World)
    (hk : CacheG Span.OneLine Storable w.cache) (hm : MatsN Groupable m) :
    CacheG Span.OneLine Storable (putSpans spans i p m w).2.2.1.cache ∧ MatsN Groupable (putSpans spans i p m w).2.1 ∧
      (∀ row ∈ (putSpans spans i p m w).2.2.1.scr.cells,
        row ∈ w.scr.cells ∨ ∃ n, row = List.replicate n { char := [] }) := by
  induction spans generalizing i p m w with
  | nil => exact ⟨hk, hm, fun row h => .inl h⟩
  | cons span rest ih =>
    have ih := ih fun s hs => hsp s (by simp [hs])
    obtain ⟨h1, h2⟩ := hk.get (fun s hs => storable_cellChars hs) span
    have h1 := h1 (hsp span (by simp))
    have hput : ∀ (a b : Nat) (chars : List Str) (p : Pen), (∀ ch ∈ chars, Storable ch) →
        MatsN Groupable (putChars a b span chars p m).2 := fun a b chars p hch =>
      putChars_inv (MatsN Groupable) a b span chars
        (fun m ch x y hmem _ _ _ hm => hm.putCell span (hch ch hmem) x y) p m hm
    unfold putSpans
    simp only
    split
    · split
      · exact ⟨h2, hm, fun row h => .inl h⟩
      · have happ : ∀ ch ∈ appendNewline (w.cache.get span).1, Storable ch := by
          intro ch hch
          unfold appendNewline at hch
          split at hch
          · rename_i c hlast
            rcases List.mem_append.mp hch with hch | hch
            · exact h1 ch (List.dropLast_subset _ hch)
            · rw [List.mem_singleton.mp hch]
              exact storable_append (h1 c (List.mem_of_getLast? hlast))
          · simp at hch
        have h3 := h2.assign span (appendNewline (w.cache.get span).1) fun _ => happ
        split
        · rename_i hcells
          exact ⟨h3, hm, fun row h => .inl h⟩
        · rename_i r rows hcells
          obtain ⟨j1, j2, j3⟩ := ih (i + 1) _ _
            { w with
              scr := { w.scr with offset := p.y - w.scr.height + 1
                                  cells := rows ++ [List.replicate w.scr.width { char := [] }] }
              cache := (w.cache.get span).2.assign span (appendNewline (w.cache.get span).1) } h3
            (hput _ _ _ { p with y := p.y - (p.y - w.scr.height + 1) } happ)
          refine ⟨j1, j2, fun row hrow => ?_⟩
          rcases j3 row hrow with h | h
          · rcases List.mem_append.mp h with h | h
            · exact .inl (by rw [hcells]; simp [h])
            · exact .inr ⟨_, List.mem_singleton.mp h⟩
          · exact .inr h
    · exact ih _ _ _ _ h2 (hput _ _ _ _ h1)

theorem putData_rows (data : List Entry) (hsp : ∀ e ∈ data, ∀ s ∈ e.2, s.OneLine) (m : Mats) (w : World)
    (hk : CacheG Span.OneLine Storable w.cache) (hm : MatsN Groupable m) :
    CacheG Span.OneLine Storable (putData data m w).2.1.cache ∧ MatsN Groupable (putData data m w).1 ∧
      (∀ row ∈ (putData data m w).2.1.scr.cells,
        row ∈ w.scr.cells ∨ ∃ n, row = List.replicate n { char := [] }) := by
  induction data generalizing m w with
  | nil => exact ⟨hk, hm, fun row h => .inl h⟩
  | cons e rest ih =>
    obtain ⟨c, line⟩ := e
    cases c with
    | none => exact ⟨hk, hm, fun row h => .inl h⟩
    | some xy =>
      have h1 := putSpans_rows line (hsp _ (List.mem_cons_self ..)) 0
        { x := xy.1, y := xy.2, last := (line.length : Int) - 1 } m w hk hm
      unfold putData
      revert h1
      rcases putSpans line 0 { x := xy.1, y := xy.2, last := (line.length : Int) - 1 } m w with ⟨p', m', w', e'⟩
      intro h1
      cases e' with
      | some e => exact h1
      | none =>
        obtain ⟨a, b, c⟩ := h1
        obtain ⟨a', b', c'⟩ := ih (fun e he => hsp e (by simp [he])) m' w' a b
        refine ⟨a', b', fun row hrow => ?_⟩
        rcases c' row hrow with h | h
        · exact c row h
        · exact .inr h

/-- What is known of a row: it has no empty cells, or it consists of written cells and of cells left empty. -/
def RowOk (row : List Cell) : Prop :=
  (∀ c ∈ row, Groupable c.char) ∨ ∀ c ∈ row, Written c ∨ Unwritten c

theorem rowOk_set {row row' : List Cell} (h : RowOk row)
    (hr : ∀ (x : Nat) (c : Cell), row'[x]? = some c → Written c ∨ row[x]? = some c) : RowOk row' := by
  rcases h with h | h
  · left
    intro c hc
    obtain ⟨x, hx⟩ := List.mem_iff_getElem?.mp hc
    rcases hr x c hx with hw | ho
    · exact hw.1
    · exact h c (List.mem_of_getElem? ho)
  · right
    intro c hc
    obtain ⟨x, hx⟩ := List.mem_iff_getElem?.mp hc
    rcases hr x c hx with hw | ho
    · exact .inl hw
    · exact h c (List.mem_of_getElem? ho)

theorem writeBulk_rows (env : Color.Env) (data : List Entry) (hsp : ∀ e ∈ data, ∀ s ∈ e.2, s.OneLine) (tb : Color) (force : Bool)
    (w : World) (hs : Shape w.scr.width w.scr.height w.scr.cells) (hk : CacheG Span.OneLine Storable w.cache)
    (hc : ∀ row ∈ w.scr.cells, RowOk row) :
    CacheG Span.OneLine Storable (writeBulk env data tb force w).1.cache ∧
      ∀ row ∈ (writeBulk env data tb force w).1.scr.cells, RowOk row := by
  have hf := putData_frame data Mats.blank w
  have hinv := putData_rows data hsp Mats.blank w hk (by simp [MatsN, Mats.blank])
  unfold writeBulk
  revert hinv hf
  rcases putData data Mats.blank w with ⟨m, w', e⟩
  rintro hf ⟨h1, h2, h3⟩
  have hold : ∀ row ∈ w'.scr.cells, RowOk row := by
    intro row hrow
    rcases h3 row hrow with h | ⟨n, rfl⟩
    · exact hc row h
    · exact .inr fun c hcm => .inr (List.mem_replicate.mp hcm).2
  cases e with
  | some e => exact ⟨h1, hold⟩
  | none =>
    simp only at hf ⊢
    obtain ⟨n, hcm, hwr⟩ := commit_wrote env tb m w'.scr
      (by rw [hf.width, hf.height]; exact hf.shape _ _ rfl hs)
    refine ⟨h1, ?_⟩
    intro row hrow
    obtain ⟨y, hy⟩ := List.mem_iff_getElem?.mp hrow
    have hlen : y < w'.scr.cells.length := by
      have e1 : (commit env tb m w'.scr).1.cells.length = w'.scr.cells.length := by
        rw [hwr.shape.rows, (show Shape w'.scr.width w'.scr.height w'.scr.cells by
          rw [hf.width, hf.height]; exact hf.shape _ _ rfl hs).rows]
      rw [← e1]
      exact (List.getElem?_eq_some_iff.mp hy).1
    refine rowOk_set (hold _ (List.getElem_mem hlen)) ?_
    intro x c hx
    have hcell : cellAt (commit env tb m w'.scr).1.cells x y = some c := by
      rw [cellAt]; rw [hy]; exact hx
    rw [hwr.cell] at hcell
    cases hout : outcome tb m w'.scr (x, y) with
    | none =>
      rw [hout] at hcell
      right
      have : cellAt w'.scr.cells x y = some c := by simpa using hcell
      rw [cellAt, List.getElem?_eq_getElem hlen] at this
      exact this
    | some r =>
      rw [hout] at hcell
      simp only [Option.map_some, Option.some_or, Option.some.injEq] at hcell
      subst hcell
      left
      unfold outcome at hout
      split at hout
      · simp at hout
      · rename_i c hcw
        simp only at hout
        split at hout
        · simp at hout
        · split at hout
          · simp at hout
          · simp only [Option.some.injEq] at hout
            subst hout
            exact ⟨h2 x y c hcw, resolve_fg_isSome tb _ c⟩

/-- Not a resize. -/
def Api.NoResize : Api → Prop
  | .resize _ _ _ _ => False
  | _ => True

theorem fill_rowOk (s : Screen) (a b : Nat) {fill : Str} (hf : OneCharFill fill) :
    ∀ row ∈ (s.resize (a, b) fill false).cells, RowOk row := by
  intro row hrow
  left
  intro cell hcell
  simp only [Screen.resize, List.mem_map] at hrow
  obtain ⟨y, -, rfl⟩ := hrow
  simp only [List.mem_map] at hcell
  obtain ⟨x, -, rfl⟩ := hcell
  exact hf.groupable

theorem runAll_rows (env : Color.Env) (ops : List Api) (w : World) (hs : Shape w.scr.width w.scr.height w.scr.cells)
    (hu : ∀ op ∈ ops, op.Uses Span.OneLine fun _ => True) (hF : ∀ op ∈ ops, op.Fills OneCharFill)
    (hr : ∀ op ∈ ops, op.NoResize) (hk : CacheG Span.OneLine Storable w.cache) (hc : ∀ row ∈ w.scr.cells, RowOk row) :
    ∀ row ∈ (Api.runAll env w ops).scr.cells, RowOk row := by
  induction ops generalizing w with
  | nil => exact hc
  | cons op ops ih =>
    have hop := hu op (by simp)
    have hfo := hF op (by simp)
    have hro := hr op (by simp)
    have key : CacheG Span.OneLine Storable (op.run env w).cache ∧ ∀ row ∈ (op.run env w).scr.cells, RowOk row := by
      cases op with
      | write spans cursor tb force =>
        exact writeBulk_rows env _ (by intro e he; rw [List.mem_singleton.mp he]; exact hop.1) tb force w hs hk hc
      | writeBulk data tb force => exact writeBulk_rows env _ hop.1 tb force w hs hk hc
      | clear fill => exact ⟨hk, fill_rowOk _ _ _ hfo⟩
      | resize a b fill keep => exact hro.elim
      | render origin redraw => cases redraw <;> exact ⟨hk, hc⟩
      | getCharacters s => exact ⟨(hk.get (fun s hs => storable_cellChars hs) s).2, hc⟩
    exact ih (op.run env w) (run_shape env w op hs) (fun o h => hu o (by simp [h]))
      (fun o h => hF o (by simp [h])) (fun o h => hr o (by simp [h])) key.1 key.2

/-- **C34**, exactly, for texts without escape characters and line breaks, one-character fills and no resizes: in every
state, scrolled or not, a row raises if and only if it begins with an empty cell or has two empty cells side by side,
and then it raises `IndexError`. -/
theorem C34_exact_partial (env : Color.Env) (width height : Nat) (cur : Int × Int) (fill : Str)
    (hfill : OneCharFill fill) (ops : List Api) (hu : ∀ op ∈ ops, op.Uses Span.OneLine fun _ => True)
    (hF : ∀ op ∈ ops, op.Fills OneCharFill) (hr : ∀ op ∈ ops, op.NoResize) :
    ∀ row ∈ (Api.runAll env { scr := Screen.init width height cur fill } ops).scr.cells,
      (Gap row → group env row = .error .indexError) ∧ (¬ Gap row → ∃ spans, group env row = .ok spans) := by
  intro row hrow
  rcases runAll_rows env ops { scr := Screen.init width height cur fill } (resize_shape _ _ _ _ _) hu hF hr
    (by simp [CacheG])
    (by
      intro row hrow
      left
      intro cell hcell
      simp only [Screen.init, Screen.resize, List.mem_map] at hrow
      obtain ⟨y, -, rfl⟩ := hrow
      simp only [List.mem_map] at hcell
      obtain ⟨x, -, rfl⟩ := hcell
      simpa [cellAt] using hfill.groupable) row hrow with h | h
  · refine ⟨?_, fun _ => group_ok_of env row h⟩
    have hne : ∀ (i : Nat) (a : Cell), row[i]? = some a → a.char ≠ [] := by
      intro i a ha hn
      obtain ⟨st, c, hl⟩ := h a (List.mem_of_getElem? ha)
      exact looks_ne_nil hl hn
    rintro (⟨c, hc, hn⟩ | ⟨i, a, b, ha, hb, hn, -⟩)
    · exact absurd hn (hne 0 c hc)
    · exact absurd hn (hne i a ha)
  · exact group_exact env row h

/-- A history meeting the hypotheses of `C34_exact_partial` that leaves a row with a gap and one without. -/
example :
    let ops : List Api := [.write [{ text := "abcd".toList, style := { bold := true } }] (some (0, 2)) Color.black false,
      .write [{ text := "hi".toList }] (some (1, 3)) Color.black false]
    (∀ op ∈ ops, op.Uses Span.OneLine fun _ => True) ∧ (∀ op ∈ ops, op.Fills OneCharFill) ∧ (∀ op ∈ ops, op.NoResize) ∧
    (Api.runAll {} { scr := Screen.init 4 2 } ops).scr.cells.map (group {}) =
      [.ok [{ text := "abcd".toList, fg := some Color.white, style := { bold := true } }], .error .indexError] := by
  refine ⟨by simp [Api.Uses, Span.OneLine], by simp [Api.Fills], by simp [Api.NoResize], by decide +kernel⟩

/-! ### Every scrolling write breaks the export -/

theorem exportRows_error (env : Color.Env) (p : Svg.Params) (x0 : Svg.Num) (rows : List (List Cell)) (y : Svg.Num)
    (st : Svg.Loop) (row : List Cell) (hrow : row ∈ rows) (e : PyErr) (he : group env row = .error e) :
    ∃ e, Svg.exportRows env p x0 rows y st = .error e := by
  induction rows generalizing y st with
  | nil => simp at hrow
  | cons r rows ih =>
    rw [Svg.exportRows]
    rcases List.mem_cons.mp hrow with rfl | hm
    · rw [he]; exact ⟨e, rfl⟩
    · cases hg : group env r with
      | error e => exact ⟨e, rfl⟩
      | ok spans => exact ih _ _ hm

/-- **C34 violated** in general: on every reachable screen, a line of one span that is written below the window and leaves the first
cell or the last two cells of the row free makes the SVG export raise. -/
theorem C34_export_violated (env : Color.Env) (width height : Nat) (cur : Int × Int) (fill : Str)
    (ops : List Api) (s : Span) (hpl : s.OneLine) (hne : s.text ≠ [])
    (hop : ∀ b, s.bg = some b → b.alpha = 1) (tb : Color) (force : Bool) (x : Nat) (y : Int)
    (fmt : Svg.Fmt) (fontSize : Int) (fg bg : Color) (size : Nat × Nat) :
    let w := Api.runAll env { scr := Screen.init width height cur fill } ops
    let r := write env [s] (some ((x : Int), y)) tb force w
    x < w.scr.width → 0 < w.scr.height → w.scr.offset + w.scr.height ≤ y →
    0 < x ∨ x + s.text.length + 2 ≤ w.scr.width →
    (∃ n, r.2 = .ok n) ∧ ∃ e, Svg.exportSvg env fmt fontSize fg bg size r.1.scr = .error e := by
  intro w r hx hh hy hgap
  have hnl : '\n' ∉ s.text := fun h => (hpl _ h).2 rfl
  obtain ⟨g1, -, -, g4, g5⟩ := C16_scroll_partial env width height cur fill ops s hnl hne hop tb force x y hx hh hy
  refine ⟨g1, ?_⟩
  change (∀ j c, s.text[j]? = some c → x + j < w.scr.width →
      cellAt r.1.scr.cells (x + j) (w.scr.height - 1) = some (storedCell s (styledChar s j c))) at g4
  change (∀ x', x' < w.scr.width → (x' < x ∨ x + s.text.length ≤ x') →
      cellAt r.1.scr.cells x' (w.scr.height - 1) = some { char := [] }) at g5
  -- the bottom row
  obtain ⟨row, hrow⟩ : ∃ row, r.1.scr.cells[w.scr.height - 1]? = some row := by
    have := g5
    cases hc : r.1.scr.cells[w.scr.height - 1]? with
    | some row => exact ⟨row, rfl⟩
    | none =>
      exfalso
      have hat : ∀ x', cellAt r.1.scr.cells x' (w.scr.height - 1) = none := by
        intro x'; rw [cellAt, hc]
      rcases hgap with h | h
      · have := g5 0 (by omega) (.inl h)
        rw [hat] at this
        cases this
      · have := g5 (x + s.text.length) (by omega) (.inr (le_refl _))
        rw [hat] at this
        cases this
  have hat : ∀ x', cellAt r.1.scr.cells x' (w.scr.height - 1) = row[x']? := by
    intro x'; rw [cellAt, hrow]
  have hlen : row.length = w.scr.width := by
    have hs : Shape w.scr.width w.scr.height w.scr.cells := runAll_shape env ops _ (resize_shape _ _ _ _ _)
    exact (writeBulk_frame env _ tb force w hs).2.2.2.2.1.cols row (List.mem_of_getElem? hrow)
  have hmem := List.mem_of_getElem? hrow
  have herr : group env row = .error .indexError := by
    refine (group_exact env row ?_).1 ?_
    · intro c hc
      obtain ⟨i, hi⟩ := List.mem_iff_getElem?.mp hc
      have hiw : i < w.scr.width := by rw [← hlen]; exact (List.getElem?_eq_some_iff.mp hi).1
      by_cases hb : i < x ∨ x + s.text.length ≤ i
      · right
        have := g5 i hiw hb
        rw [hat, hi] at this
        exact Option.some.inj this
      · left
        have hj : i - x < s.text.length := by omega
        have := g4 (i - x) s.text[i - x] (List.getElem?_eq_getElem hj) (by omega)
        rw [show x + (i - x) = i by omega, hat, hi] at this
        have := Option.some.inj this
        subst this
        refine ⟨?_, ?_⟩
        · have hst := storable_cellChars hpl (styledChar s (i - x) s.text[i - x])
            (List.mem_of_getElem? (i := i - x) (by rw [cellChars_getElem?, List.getElem?_eq_getElem hj]; rfl))
          rw [Storable, rstrip_styledChar hnl (List.getElem?_eq_getElem hj)] at hst
          exact hst
        · unfold storedCell
          simp only
          cases s.fg with
          | none => rfl
          | some f => simp only; split <;> simp
    · rcases hgap with h | h
      · left
        refine ⟨_, (by rw [← hat]; exact g5 0 (by omega) (.inl h)), rfl⟩
      · right
        exact ⟨x + s.text.length, _, _, (by rw [← hat]; exact g5 _ (by omega) (.inr (by omega))),
          (by rw [← hat]; exact g5 _ (by omega) (.inr (by omega))), rfl, rfl⟩
  unfold Svg.exportSvg Svg.exportWithStyles
  simp only
  obtain ⟨e, he⟩ := exportRows_error env _ (.int 0) r.1.scr.cells (.int 0) {} row hmem _ herr
  rw [he]
  exact ⟨e, rfl⟩

end Slate
