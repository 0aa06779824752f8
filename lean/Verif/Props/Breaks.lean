import Verif.Lemmas.Breaks
import Verif.Props.Write

/-!
# C88: line breaks in written text
-/

namespace Slate
open Py

/-! ## What is expected -/

/-- Where a character is placed that comes after the text `before`, when the text
starts at (`x`, `y`): in row-major order, a character takes one position and a line
break goes one row down. -/
def placeAfter (width x y : Nat) (before : Str) : Nat :=
  (y + before.count '\n') * width + x + before.countP (· != '\n')

/-! ## What is stored -/

/-- What a write at an in-bounds cursor stores if it does not scroll, character by character. -/
theorem write_walk (env : Color.Env) (tb : Color) (force : Bool) (w : World)
    (hs : Shape w.scr.width w.scr.height w.scr.cells) (hok : CacheOk w.cache)
    (h0 : w.scr.offset = 0) (x y : Nat) (hx : x < w.scr.width)
    (spans : List Span) (hop : ∀ s ∈ spans, ∀ b, s.bg = some b → b.alpha = 1)
    (hns : (write env spans (some ((x : Int), (y : Int))) tb force w).1.scr.offset = 0) :
    let r := write env spans (some ((x : Int), (y : Int))) tb force w
    (∃ n, r.2 = .ok n) ∧
    (∀ pre s c post, lineChars spans = pre ++ (s, c) :: post → c ≠ ['\n'] →
      let i := y * w.scr.width + x + stepsOf w.scr.width pre
      i < w.scr.height * w.scr.width →
      ∃ old, cellAt w.scr.cells (i % w.scr.width) (i / w.scr.width) = some old ∧
        cellAt r.1.scr.cells (i % w.scr.width) (i / w.scr.width) =
          some (if (storedCell s (rstrip (· == '\n') c)).eq old then old
            else storedCell s (rstrip (· == '\n') c))) ∧
    (∀ x' y', x' < w.scr.width →
      (∀ pre s c post, lineChars spans = pre ++ (s, c) :: post → c ≠ ['\n'] →
        y * w.scr.width + x + stepsOf w.scr.width pre ≠ y' * w.scr.width + x') →
      cellAt r.1.scr.cells x' y' = cellAt w.scr.cells x' y') := by
  intro r
  have hw : 0 < w.scr.width := by omega
  have hmod : (y * w.scr.width + x) % w.scr.width = x := by
    rw [Nat.mul_comm, Nat.mul_add_mod, Nat.mod_eq_of_lt hx]
  have hdiv : (y * w.scr.width + x) / w.scr.width = y := by
    rw [Nat.mul_comm, Nat.mul_add_div hw, Nat.div_eq_of_lt hx]; rfl
  have hpen : ({ x := (x : Int), y := (y : Int), last := (spans.length : Int) - 1 } : Pen) =
      penAt w.scr.width (y * w.scr.width + x) ((spans.length : Int) - 1) := by
    simp [penAt, hmod, hdiv]
  have ho : r.1.scr.offset = w.scr.offset := by rw [h0]; exact hns
  obtain ⟨-, h2⟩ := writeBulk_still env [(some ((x : Int), (y : Int)), spans)] tb force w hs hok ho
  rcases h2 with ⟨-, -, e, he, hn⟩ | ⟨d, hd, hret, h3⟩
  · simp only [List.mem_singleton] at he; subst he; cases hn
  have hd' : d = [(((x : Int), (y : Int)), spans)] := by
    match d, hd with
    | [], h => simp at h
    | [⟨a, b⟩], h => simp at h; simp [h]
    | _ :: _ :: _, h => simp at h
  subst hd'
  have hm : fillData w.scr.width w.scr.height w.scr.offset [(((x : Int), (y : Int)), spans)] Mats.blank =
      (walkHits w.scr.width w.scr.height (y * w.scr.width + x) (lineChars spans)).foldl
        Hit.put Mats.blank := by
    rw [fillData_hits, h0]
    simp only [dataHits, List.flatMap_cons, List.flatMap_nil, List.append_nil, startPen]
    rw [hpen, lineHits_walk hw]
  have hop' : ∀ t ∈ walkHits w.scr.width w.scr.height (y * w.scr.width + x) (lineChars spans),
      ∀ b, t.span.bg = some b → b.alpha = 1 := by
    intro t ht
    obtain ⟨pre, s, c, post, hl, -, -, rfl⟩ := (mem_walkHits hw _ _ _ _).mp ht
    have hcm : (s, c) ∈ lineChars spans := by rw [hl]; simp
    simp only [lineChars, List.mem_flatMap, List.mem_map] at hcm
    obtain ⟨s', hsm, ch, -, e⟩ := hcm
    obtain ⟨rfl, rfl⟩ := Prod.mk.inj e
    exact hop s' hsm
  refine ⟨⟨_, hret⟩, ?_, ?_⟩
  · intro pre s c post hl hc i hilt
    have hin : i / w.scr.width < w.scr.height := by
      rw [Nat.div_lt_iff_lt_mul hw]; exact hilt
    obtain ⟨old, hold⟩ := hs.exists_cell (Nat.mod_lt i hw) hin
    refine ⟨old, hold, ?_⟩
    refine (wrote_opaque h3 hm hop' (i % w.scr.width) (i / w.scr.width)).2
      (hitAt w.scr.width s i c) ?_ old hold
    apply lastHit_unique
    · exact (mem_walkHits hw _ _ _ _).mpr ⟨pre, s, c, post, hl, hc, hilt, rfl⟩
    · exact ⟨rfl, rfl⟩
    · intro t ht h1 h2
      obtain ⟨pre', s', c', post', hl', -, -, rfl⟩ := (mem_walkHits hw _ _ _ _).mp ht
      simp only [hitAt] at h1 h2
      have := index_inj h1 h2
      obtain ⟨rfl, e⟩ := steps_inj hw _ hl hl' (by omega)
      obtain ⟨rfl, rfl⟩ := Prod.mk.inj e
      rfl
  · intro x' y' hx' hout
    apply (wrote_opaque h3 hm hop' x' y').1
    apply lastHit_none
    rintro t ht ⟨h1, h2⟩
    obtain ⟨pre, s, c, post, hl, hc, -, rfl⟩ := (mem_walkHits hw _ _ _ _).mp ht
    simp only [hitAt] at h1 h2
    refine hout pre s c post hl hc ?_
    rw [← Nat.div_add_mod (y * w.scr.width + x + stepsOf w.scr.width pre) w.scr.width, h1, h2,
      Nat.mul_comm]

theorem wrapSgr_plain {s : Span} (h : s.style = {}) : wrapSgr s.style.colorless = [] := by
  rw [h]; decide

theorem styledChar_plain {s : Span} (h : s.style = {}) (j : Nat) (c : Char) :
    styledChar s j c = [c] := by
  simp [styledChar, wrapSgr_plain h]

/-- Only a line break of an unstyled span is the string of a line break. -/
theorem styledChar_break {s : Span} (hbr : '\n' ∈ s.text → s.style = {}) {j : Nat} {c : Char}
    (hc : s.text[j]? = some c) : styledChar s j c = ['\n'] ↔ c = '\n' := by
  constructor
  · intro h
    by_contra hne
    have hx : (styledChar s j c).getLast? ≠ some '\n' := by
      unfold styledChar
      simp only
      split
      · simpa using hne
      · split
        · simp
        · simpa using hne
    exact hx (by rw [h]; rfl)
  · rintro rfl
    rw [styledChar_plain (hbr (List.mem_of_getElem? hc))]

theorem rstrip_styledChar_ne {s : Span} {j : Nat} {c : Char} (h : c ≠ '\n') :
    rstrip (· == '\n') (styledChar s j c) = styledChar s j c := by
  have hne : (c == '\n') = false := by rwa [beq_eq_false_iff_ne]
  unfold styledChar
  simp only
  split
  · simp [rstrip, hne]
  · split
    · simp [rstrip]
    · simp [rstrip, hne]

/-- The distance of the characters of a text. -/
theorem steps_text (w : Nat) (s : Span) (hbr : '\n' ∈ s.text → s.style = {}) (j : Nat) :
    stepsOf w ((s.cellChars.take j).map fun c => (s, c)) =
      (s.text.take j).count '\n' * w + (s.text.take j).countP (· != '\n') := by
  have hmap : ((s.cellChars.take j).map fun c => (s, c)).map (fun c => stepOf w c.2) =
      (s.text.take j).map fun c => if c = '\n' then w else 1 := by
    apply List.ext_getElem?
    intro k
    simp only [List.map_map, List.getElem?_map, List.getElem?_take]
    split
    · rw [cellChars_getElem?]
      cases hk : s.text[k]? with
      | none => rfl
      | some c =>
        simp only [Option.map_some, Function.comp_apply, stepOf, Option.some.injEq]
        exact if_congr (styledChar_break hbr hk) rfl rfl
    · rfl
  unfold stepsOf
  rw [hmap]
  generalize s.text.take j = l
  induction l with
  | nil => simp
  | cons c l ih =>
    simp only [List.map_cons, List.sum_cons, ih, List.count_cons, List.countP_cons]
    by_cases hc : c = '\n'
    · simp [hc, Nat.add_mul]; omega
    · simp [hc]; omega

theorem steps_line (w : Nat) (spans : List Span) (hbr : ∀ s ∈ spans, '\n' ∈ s.text → s.style = {}) :
    stepsOf w (lineChars spans) =
      (spans.flatMap Span.text).count '\n' * w + (spans.flatMap Span.text).countP (· != '\n') := by
  induction spans with
  | nil => simp [stepsOf, lineChars]
  | cons s rest ih =>
    have h1 := steps_text w s (hbr s (by simp)) s.text.length
    rw [show s.cellChars.take s.text.length = s.cellChars by
      rw [← length_cellChars s]; exact List.take_length, List.take_length] at h1
    have h2 := ih fun s hs => hbr s (by simp [hs])
    unfold stepsOf at h1 h2 ⊢
    simp only [lineChars, List.flatMap_cons, List.map_append, List.sum_append, List.count_append,
      List.countP_append, Nat.add_mul] at h1 h2 ⊢
    omega

theorem lineChars_cut (pre : List Span) (s : Span) (post : List Span) (j : Nat) (c : Char)
    (hj : s.text[j]? = some c) :
    ∃ tail, lineChars (pre ++ s :: post) = (lineChars pre ++
      (s.cellChars.take j).map (fun c => (s, c))) ++ (s, styledChar s j c) :: tail := by
  have hc : s.cellChars[j]? = some (styledChar s j c) := by rw [cellChars_getElem?, hj]; rfl
  obtain ⟨hlt, hget⟩ := List.getElem?_eq_some_iff.mp hc
  refine ⟨(s.cellChars.drop (j + 1)).map (fun c => (s, c)) ++ lineChars post, ?_⟩
  have : s.cellChars = s.cellChars.take j ++ styledChar s j c :: s.cellChars.drop (j + 1) := by
    rw [← hget, List.getElem_cons_drop, List.take_append_drop]
  have e : lineChars (pre ++ s :: post) = lineChars pre ++ (s.cellChars.map (fun c => (s, c)) ++
      lineChars post) := by simp [lineChars]
  rw [e]
  conv_lhs => rw [this]
  simp

theorem lineChars_mem {spans : List Span} {pre : List (Span × Str)} {s : Span} {c : Str}
    {post : List (Span × Str)} (h : lineChars spans = pre ++ (s, c) :: post) :
    ∃ pre' post' j d, spans = pre' ++ s :: post' ∧ s.text[j]? = some d ∧ c = styledChar s j d ∧
      pre = lineChars pre' ++ (s.cellChars.take j).map fun c => (s, c) := by
  induction spans generalizing pre with
  | nil => simp [lineChars] at h
  | cons t rest ih =>
    have e : lineChars (t :: rest) = t.cellChars.map (fun c => (t, c)) ++ lineChars rest := by
      simp [lineChars]
    rw [e] at h
    rcases List.append_eq_append_iff.mp h with ⟨a, h1, h2⟩ | ⟨a, h1, h2⟩
    · obtain ⟨pre', post', j, d, e1, e2, e3, e4⟩ := ih h2
      refine ⟨t :: pre', post', j, d, by rw [e1]; rfl, e2, e3, ?_⟩
      rw [h1, e4]; simp [lineChars]
    · cases a with
      | nil =>
        simp only [List.nil_append, List.append_nil] at h1 h2
        obtain ⟨pre', post', j, d, e1, e2, e3, e4⟩ := ih (pre := []) h2.symm
        refine ⟨t :: pre', post', j, d, by rw [e1]; rfl, e2, e3, ?_⟩
        rw [← h1]
        simp only [lineChars, List.flatMap_cons] at e4 ⊢
        rw [List.append_assoc, ← e4, List.append_nil]
      | cons b a =>
        simp only [List.cons_append, List.cons.injEq] at h2
        obtain ⟨rfl, h2⟩ := h2
        have hlen : pre.length < t.cellChars.length := by
          have := congrArg List.length h1
          simp at this; omega
        have hget := congrArg (fun l => l[pre.length]?) h1
        simp only [List.getElem?_map, List.getElem?_append_right (Nat.le_refl _), Nat.sub_self,
          List.getElem?_cons_zero] at hget
        obtain ⟨c', hc', hcc⟩ := Option.map_eq_some_iff.mp hget
        obtain ⟨rfl, rfl⟩ := Prod.mk.inj hcc
        rw [cellChars_getElem?] at hc'
        obtain ⟨d, hd, hdc⟩ := Option.map_eq_some_iff.mp hc'
        refine ⟨[], rest, pre.length, d, rfl, hd, hdc.symm, ?_⟩
        have := congrArg (List.take pre.length) h1
        rw [List.take_left, ← List.map_take] at this
        simpa [lineChars] using this.symm

/-! ## C88 Line breaks in written text -/

/-- **C88** (partial: the column is not reset, `C88_column_violated`, and line breaks of
styled spans are not line breaks, `C88_styled_violated`). A write at an in-bounds cursor
of a screen that has not scrolled, and that does not scroll, of spans with opaque or no
backgrounds whose line breaks are in spans without styles: the call succeeds; every
character that is not a line break is stored in its style and colours at the
row-major position of the characters before it, with a line break counting as one row; and no other cell changes. -/
theorem C88_lines_partial (env : Color.Env) (tb : Color) (force : Bool) (w : World)
    (hs : Shape w.scr.width w.scr.height w.scr.cells) (hok : CacheOk w.cache)
    (h0 : w.scr.offset = 0) (x y : Nat) (hx : x < w.scr.width)
    (spans : List Span) (hop : ∀ s ∈ spans, ∀ b, s.bg = some b → b.alpha = 1)
    (hbr : ∀ s ∈ spans, '\n' ∈ s.text → s.style = {})
    (hns : (write env spans (some ((x : Int), (y : Int))) tb force w).1.scr.offset = 0) :
    let r := write env spans (some ((x : Int), (y : Int))) tb force w
    let place (pre : List Span) (s : Span) (j : Nat) : Nat :=
      placeAfter w.scr.width x y (pre.flatMap Span.text ++ s.text.take j)
    (∃ n, r.2 = .ok n) ∧
    (∀ pre s post, spans = pre ++ s :: post → ∀ j c, s.text[j]? = some c → c ≠ '\n' →
      let i := place pre s j
      i < w.scr.height * w.scr.width →
      ∃ old, cellAt w.scr.cells (i % w.scr.width) (i / w.scr.width) = some old ∧
        cellAt r.1.scr.cells (i % w.scr.width) (i / w.scr.width) =
          some (if (storedCell s (styledChar s j c)).eq old then old
            else storedCell s (styledChar s j c))) ∧
    (∀ x' y', x' < w.scr.width →
      (∀ pre s post, spans = pre ++ s :: post → ∀ j c, s.text[j]? = some c → c ≠ '\n' →
        place pre s j ≠ y' * w.scr.width + x') →
      cellAt r.1.scr.cells x' y' = cellAt w.scr.cells x' y') := by
  intro r place
  obtain ⟨h1, h2, h3⟩ := write_walk env tb force w hs hok h0 x y hx spans hop hns
  have hplace : ∀ pre s post, spans = pre ++ s :: post → ∀ j,
      y * w.scr.width + x + stepsOf w.scr.width (lineChars pre ++
        (s.cellChars.take j).map fun c => (s, c)) = place pre s j := by
    intro pre s post hsp j
    have e1 := steps_line w.scr.width pre fun s hs => hbr s (by rw [hsp]; simp [hs])
    have e2 := steps_text w.scr.width s (hbr s (by rw [hsp]; simp)) j
    unfold stepsOf at e1 e2 ⊢
    rw [List.map_append, List.sum_append, e1, e2]
    simp only [place, placeAfter, List.count_append, List.countP_append, Nat.add_mul]
    omega
  refine ⟨h1, ?_, ?_⟩
  · intro pre s post hsp j c hj hc i hi
    obtain ⟨tail, hl⟩ := lineChars_cut pre s post j c hj
    rw [← hsp] at hl
    have hbr' := hbr s (by rw [hsp]; simp)
    have := h2 _ _ _ _ hl (fun h => hc ((styledChar_break hbr' hj).mp h))
    simp only [hplace pre s post hsp j] at this
    have := this hi
    rwa [rstrip_styledChar_ne hc] at this
  · intro x' y' hx' hout
    apply h3 x' y' hx'
    intro pre s c post hl hc
    obtain ⟨pre', post', j, d, e1, e2, e3, e4⟩ := lineChars_mem hl
    rw [e4, hplace pre' s post' e1 j]
    refine hout pre' s post' e1 j d e2 fun hd => hc ?_
    rw [e3, styledChar_break (hbr s (by rw [e1]; simp)) e2, hd]

/-- **C88** (one span): a write of one span at an in-bounds cursor never scrolls. -/
theorem C88_no_scroll (env : Color.Env) (tb : Color) (force : Bool) (w : World)
    (hs : Shape w.scr.width w.scr.height w.scr.cells)
    (h0 : w.scr.offset = 0) (x : Int) (y : Nat) (hy : y < w.scr.height) (s : Span) :
    (write env [s] (some (x, (y : Int))) tb force w).1.scr.offset = 0 := by
  rw [← h0]
  apply offset_zero_of_putData hs
  rw [putData_singleton_offset]
  unfold putSpans
  simp only
  rw [if_neg (by simp only [h0]; rintro ⟨-, h⟩; simp at h; omega)]
  rfl

/-- **C88 violated**: the text after a line break does not start in the column of the
text: writing "ab⏎cd" at (0, 0) of a 4x2 screen puts "cd" under the end of "ab". -/
theorem C88_column_violated :
    let w : World := { scr := Screen.init 4 2 }
    let s : Span := { text := "ab\ncd".toList }
    let r := write {} [s] (some (0, 0)) Color.black false w
    cellAt r.1.scr.cells 2 1 = some (storedCell s ['c']) ∧
    cellAt r.1.scr.cells 0 1 = cellAt w.scr.cells 0 1 := by decide +kernel

/-- **C88 violated**: a line break in a bold span is stored like a character. The text after it stays
in the row, and the terminal is sent a bare line break at that place. -/
theorem C88_styled_violated :
    let w : World := { scr := Screen.init 4 2 }
    let s : Span := { text := "a\nb".toList, style := { bold := true } }
    let r := write {} [s] (some (0, 0)) Color.black false w
    cellAt r.1.scr.cells 1 0 = some (storedCell s "\x1b[1m".toList) ∧
    cellAt r.1.scr.cells 2 0 = some (storedCell s "\x1b[1mb\x1b[0m".toList) ∧
    (∀ x < 4, cellAt r.1.scr.cells x 1 = cellAt w.scr.cells x 1) ∧
    '\n' ∈ (r.1.scr.changes.find? (fun e => e.1 == (1, 0))).elim [] (·.2) := by decide +kernel

/-- **C88 violated**: after that text is written to a screen that has been drawn, and drawn, the terminal shows the "b" elsewhere than it is
stored. -/
theorem C88_draw_violated :
    let w : World := { scr := ((Screen.init 4 2).render (1, 1)).1 }
    let s : Span := { text := "a\nb".toList, style := { bold := true } }
    let r := write {} [s] (some (0, 0)) Color.black false w
    let T := Term.run { grid := fun _ _ => { ch := '?', attr := Term.Attr.clean } } (r.1.scr.render (1, 1)).2
    cellAt r.1.scr.cells 2 0 = some (storedCell s "\x1b[1mb\x1b[0m".toList) ∧
    (T.grid 1 3).ch ≠ 'b' ∧ (T.grid 2 1).ch = 'b' := by decide +kernel

/-- Two spans with line breaks on a 3x4 screen: "a⏎b" and a bold "c", "⏎d" from (1, 0). -/
example : let w : World := { scr := Screen.init 3 4 }
    let spans : List Span := [{ text := "a\nb".toList }, { text := "c".toList, style := { bold := true } },
      { text := "\nd".toList }]
    let r := write {} spans (some (1, 0)) Color.black false w
    r.1.scr.offset = 0 ∧ (∀ s ∈ spans, '\n' ∈ s.text → s.style = {}) ∧
    placeAfter 3 1 0 "a\n".toList = 5 ∧
    cellAt r.1.scr.cells 2 1 = some (storedCell { text := "b".toList } ['b']) ∧
    placeAfter 3 1 0 "a\nbc\n".toList = 10 ∧
    cellAt r.1.scr.cells 1 3 = some (storedCell { text := "d".toList } ['d']) := by decide +kernel

end Slate
