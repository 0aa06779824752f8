import Verif.Lemmas.Place
import Verif.Props.Draw
import Mathlib.Data.Finset.Prod

/-!
# C03, C04, C05, C08: what a write stores
-/

namespace Slate
open Py Term

/-! ## C03 The return value of write counts the changed cells -/

/-- The stored cells of a position before and after differ (Python `!=`). -/
def Differs (before after : Screen) (p : Nat × Nat) : Prop :=
  ∃ a b, cellAt before.cells p.1 p.2 = some a ∧ cellAt after.cells p.1 p.2 = some b ∧
    b.eq a = false

open Classical in
/-- **C03**: the number returned by a non-scrolling call is the number of positions
whose cell differs afterwards. -/
theorem C03_return_counts_changes (env : Color.Env) (data : List Entry) (tb : Color)
    (force : Bool) (w : World) (hs : Shape w.scr.width w.scr.height w.scr.cells)
    (hok : CacheOk w.cache) (n : Nat) (hr : (writeBulk env data tb force w).2 = .ok n)
    (ho : (writeBulk env data tb force w).1.scr.offset = w.scr.offset) :
    n = ((Finset.range w.scr.width ×ˢ Finset.range w.scr.height).filter
      (Differs w.scr (writeBulk env data tb force w).1.scr)).card ∧
    n ≤ w.scr.width * w.scr.height := by
  obtain ⟨-, h2⟩ := writeBulk_still env data tb force w hs hok ho
  have key : n = ((Finset.range w.scr.width ×ˢ Finset.range w.scr.height).filter
      (Differs w.scr (writeBulk env data tb force w).1.scr)).card := by
    rcases h2 with ⟨h2, -⟩ | ⟨d, -, h2, h3⟩
    · rw [hr] at h2; cases h2
    · rw [hr] at h2
      injection h2 with h2
      rw [h2, List.countP_eq_length_filter,
        ← List.toFinset_card_of_nodup ((nodup_positions _ _).filter _)]
      congr 1
      ext p
      simp only [List.mem_toFinset, List.mem_filter, mem_positions, Finset.mem_filter,
        Finset.mem_product, Finset.mem_range, outcome_isSome_iff h3]
      rfl
  refine ⟨key, ?_⟩
  rw [key]
  refine (Finset.card_filter_le _ _).trans ?_
  simp

/-- `n = 2` of 3 characters: one position already held the written character. -/
example : let w : World := { scr := (write {} [{ text := "abc".toList }] (some (0, 0)) Color.black false
      { scr := Screen.init 4 2 }).1.scr }
    let r := writeBulk {} [(some (0, 0), [{ text := "xbz".toList }])] Color.black false w
    r.2 = .ok 2 ∧ r.1.scr.offset = w.scr.offset := by decide +kernel

/-! ## C04 Writing the same data twice changes nothing -/

theorem commit_id (env : Color.Env) (tb : Color) (m : Mats) (s : Screen)
    (hs : Shape s.width s.height s.cells) (h : ∀ p, outcome tb m s p = none) :
    commit env tb m s = (s, .ok 0) := by
  unfold commit
  have : ∀ ps : List (Nat × Nat), (∀ p ∈ ps, p.1 < s.width ∧ p.2 < s.height) →
      ps.foldl (commitCell env tb m) (s, .ok 0) = (s, .ok 0) := by
    intro ps
    induction ps with
    | nil => intro _; rfl
    | cons p ps ih =>
      intro hp
      rw [List.foldl_cons, commitCell_eq _ _ _ _ _ _
        (hs.cellAt_isSome.mpr (hp p (by simp))), h p]
      simp only [commitStep, h p, Option.isSome_none, Bool.false_eq_true, if_false, Nat.add_zero]
      exact ih fun q hq => hp q (by simp [hq])
  exact this _ fun p hp => mem_positions.mp hp

/-- **C04**: repeating a successful non-scrolling call returns 0 and leaves the whole
screen (cells, pending changes, cursor, offset) exactly as it was. -/
theorem C04_write_twice (env : Color.Env) (data : List Entry) (tb : Color)
    (force force' : Bool) (w : World) (hs : Shape w.scr.width w.scr.height w.scr.cells)
    (hok : CacheOk w.cache) (n : Nat) (hr : (writeBulk env data tb force w).2 = .ok n)
    (ho : (writeBulk env data tb force w).1.scr.offset = w.scr.offset) :
    let w1 := (writeBulk env data tb force w).1
    (writeBulk env data tb force' w1).2 = .ok 0 ∧
    (writeBulk env data tb force' w1).1.scr = w1.scr := by
  intro w1
  obtain ⟨hok1, h2⟩ := writeBulk_still env data tb force w hs hok ho
  rcases h2 with ⟨h2, -⟩ | ⟨d, hd, -, h3⟩
  · rw [hr] at h2; cases h2
  have hs1 : Shape w1.scr.width w1.scr.height w1.scr.cells := by
    rw [h3.width, h3.height]; exact h3.shape
  -- the first fill phase did not scroll
  have hfill : (putData data Mats.blank w).2.1.scr.offset = w.scr.offset := by
    have hf := putData_frame data Mats.blank w
    unfold writeBulk at ho
    revert hf ho
    rcases putData data Mats.blank w with ⟨m, w', e⟩
    intro ho hf
    cases e with
    | some e => exact ho
    | none =>
      simp only at ho
      obtain ⟨s', e, -, -, ho', -⟩ := commit_spec env tb m w'.scr
        (by rw [hf.width, hf.height]; exact hf.shape _ _ rfl hs)
      rw [e] at ho
      simp only [ho'] at ho
      exact ho
  have hfill1 := putData_still_congr data Mats.blank Mats.blank w w1 hok hok1 h3.width h3.height
    h3.offset hfill
  obtain ⟨hsame, -⟩ := (putData_frame data Mats.blank w1).still hfill1
  rcases putData_still data Mats.blank w1 hok1 hfill1 with ⟨-, e, he, hn⟩ | ⟨he, d', hd', hm⟩
  · exfalso
    rw [hd] at he
    obtain ⟨e', -, rfl⟩ := List.mem_map.mp he
    cases hn
  · have : d' = d := by
      have : d'.map (fun e => ((some e.1, e.2) : Entry)) = d.map (fun e => (some e.1, e.2)) := by
        rw [← hd, ← hd']
      refine List.map_injective_iff.mpr ?_ this
      rintro ⟨a, b⟩ ⟨a', b'⟩ h
      simpa using h
    subst this
    have hout : ∀ p, outcome tb (putData data Mats.blank w1).1 w1.scr p = none := by
      intro p
      rw [hm, h3.width, h3.height, h3.offset]
      have hc := h3.cell p.1 p.2
      rw [show ((p.1, p.2) : Nat × Nat) = p from rfl] at hc
      cases ho1 : outcome tb (fillData w.scr.width w.scr.height w.scr.offset d' Mats.blank) w.scr p with
      | none =>
        rw [ho1] at hc
        rw [← ho1]
        exact outcome_congr _ _ (by rw [show w1.scr = (writeBulk env data tb force w).1.scr from rfl, hc]; simp)
      | some r =>
        rw [ho1] at hc
        simp only [Option.map_some, Option.some_or] at hc
        unfold outcome at ho1 ⊢
        split at ho1
        · simp at ho1
        · rename_i c hcw
          simp only at ho1
          have hc' : cellAt w1.scr.cells p.1 p.2 = some r.1 := hc
          simp only [hc']
          split at ho1
          · simp at ho1
          · split at ho1
            · simp at ho1
            · simp only [Option.some.injEq] at ho1
              rw [← ho1]
              simp [Cell.eq_refl]
    unfold writeBulk
    revert hsame he hout
    rcases putData data Mats.blank w1 with ⟨m, w', e⟩
    intro hsame he hout
    simp only at hsame he hout
    subst he
    simp only
    rw [hsame, commit_id env tb m w1.scr hs1 hout]
    simp

example : let w : World := { scr := Screen.init 4 2 }
    let data : List Entry := [(some (2, 0), [{ text := "abc".toList }]),
      (some (2, 0), [{ text := " ".toList, bg := some { r := 9, g := 9, b := 9, alpha := 1 / 2 } }])]
    (writeBulk {} data Color.black false w).2 = .ok 3 ∧
    (writeBulk {} data Color.black false w).1.scr.offset = w.scr.offset := by decide +kernel

/-! ## C05 Placement, wrapping and framing of written text -/

/-- The string of the `j`-th character `c` of a span: the style sequence, the
character, and on the last character the reset. (If the span does not reset, the
last character is left without its style sequence, see C27.) -/
def styledChar (s : Span) (j : Nat) (c : Char) : Str :=
  let seq := wrapSgr s.style.colorless
  if j + 1 < s.text.length then seq ++ [c]
  else if seq ≠ [] ∧ s.resetAfter = true then seq ++ [c] ++ "\x1b[0m".toList
  else [c]

theorem cellChars_getElem? (s : Span) (j : Nat) :
    s.cellChars[j]? = s.text[j]?.map (styledChar s j) := by
  unfold Span.cellChars
  rw [charsGo_getElem?]
  congr 1
  funext c
  simp only [styledChar, Span.colorlessSequences]
  split
  · rfl
  · congr 1
    simp

/-- The cell stored for a character of a span with opaque (or no) background:
default foreground white; a translucent foreground is replaced by the background
(C21). -/
def storedCell (s : Span) (char : Str) : Cell :=
  { char := char
    fg := match s.fg with
      | none => some Color.white
      | some f => if f.alpha = 1 then some f else (s.bg.or (some f))
    bg := s.bg }

theorem rstrip_styledChar {s : Span} (hnl : '\n' ∉ s.text) {j : Nat} {c : Char}
    (hc : s.text[j]? = some c) :
    rstrip (· == '\n') (styledChar s j c) = styledChar s j c := by
  have hne : (c == '\n') = false := by
    rw [beq_eq_false_iff_ne]; intro h; exact hnl (h ▸ List.mem_of_getElem? hc)
  unfold styledChar
  simp only
  split
  · simp [rstrip, hne]
  · split
    · simp [rstrip]
    · simp [rstrip, hne]

theorem resolveCell_opaque (tb : Color) (c : WCell) (hb : ∀ b, c.bg = some b → b.alpha = 1) :
    resolveCell tb [] c =
      { char := rstrip (· == '\n') c.char
        fg := match c.fg with
          | none => some Color.white
          | some f => if f.alpha = 1 then some f else (c.bg.or (some f))
        bg := c.bg } := by
  obtain ⟨ch, fg, bg, bl⟩ := c
  simp only at hb
  have hw : Color.white.alpha = 1 := rfl
  cases bg with
  | none =>
    cases fg with
    | none => simp [resolveCell, resolveColors, hw]
    | some f => by_cases hf : f.alpha = 1 <;> simp [resolveCell, resolveColors, getBlended, hf]
  | some b =>
    have := hb b rfl
    cases fg with
    | none => simp [resolveCell, resolveColors, hw, this]
    | some f => by_cases hf : f.alpha = 1 <;> simp [resolveCell, resolveColors, getBlended, hf, this]

theorem bgHasAlpha_false {s : Span} (h : ∀ b, s.bg = some b → b.alpha = 1) :
    bgHasAlpha s.bg = false := by
  unfold bgHasAlpha
  split
  · rename_i c hc; simp [h c hc]
  · rfl

theorem lastHit_unique {hits : List Hit} {x y : Nat} {t : Hit} (hm : t ∈ hits)
    (ht : t.x = x ∧ t.y = y) (hu : ∀ t' ∈ hits, t'.x = x → t'.y = y → t' = t) :
    lastHit hits x y = some t := by
  unfold lastHit
  have hs : (hits.reverse.find? (Hit.isAt x y)).isSome := by
    rw [List.find?_isSome]
    exact ⟨t, by simpa using hm, by simp [Hit.isAt, ht]⟩
  obtain ⟨t', ht'⟩ := Option.isSome_iff_exists.mp hs
  rw [ht']
  have h1 := List.find?_some ht'
  have h2 := List.mem_of_find?_eq_some ht'
  simp only [Hit.isAt, Bool.and_eq_true, decide_eq_true_eq] at h1
  rw [hu t' (by simpa using h2) h1.1 h1.2]

theorem lastHit_none {hits : List Hit} {x y : Nat} (h : ∀ t ∈ hits, ¬ (t.x = x ∧ t.y = y)) :
    lastHit hits x y = none := by
  unfold lastHit
  rw [List.find?_eq_none]
  intro t ht hat
  simp only [Hit.isAt, Bool.and_eq_true, decide_eq_true_eq] at hat
  exact h t (by simpa using ht) hat

theorem index_inj {w i j : Nat} (h1 : i % w = j % w) (h2 : i / w = j / w) : i = j := by
  rw [← Nat.div_add_mod i w, ← Nat.div_add_mod j w, h1, h2]

theorem lineChars_split (pre : List Span) (s : Span) (post : List Span) (j : Nat)
    (hj : j < s.text.length) :
    (lineChars (pre ++ s :: post))[(pre.map Span.len).sum + j]? =
      (s.cellChars[j]?).map fun c => (s, c) := by
  have e : lineChars (pre ++ s :: post) = lineChars pre ++ (s.cellChars.map (fun c => (s, c)) ++
      lineChars post) := by
    simp [lineChars]
  rw [e, List.getElem?_append_right (by rw [length_lineChars]; omega), length_lineChars,
    List.getElem?_append_left (by simp [length_cellChars]; omega)]
  simp

/-- What a write stores is decided by the last hit (opaque data, no scrolling). -/
theorem wrote_opaque {env : Color.Env} {tb : Color} {m : Mats} {s s' : Screen}
    (hw : Wrote env tb m s s') {hits : List Hit} (hm : m = hits.foldl Hit.put Mats.blank)
    (hop : ∀ t ∈ hits, ∀ b, t.span.bg = some b → b.alpha = 1)
    (x y : Nat) :
    (lastHit hits x y = none → cellAt s'.cells x y = cellAt s.cells x y) ∧
    (∀ t, lastHit hits x y = some t → ∀ old, cellAt s.cells x y = some old →
      cellAt s'.cells x y = some (if ((storedCell t.span (rstrip (· == '\n') t.char)).eq old) then old
        else storedCell t.span (rstrip (· == '\n') t.char))) := by
  have hwm : m.wm x y = (lastHit hits x y).map Hit.wcell ∧ m.am = fun _ _ => [] := by
    rw [hm]
    obtain ⟨h1, h2⟩ := foldl_put_opaque hits (fun t ht => bgHasAlpha_false (hop t ht)) Mats.blank x y
    exact ⟨by rw [h1]; simp [Mats.blank], h2⟩
  have hc := hw.cell x y
  unfold outcome at hc
  simp only [hwm.1, hwm.2] at hc
  constructor
  · intro hl
    rw [hl] at hc
    simpa using hc
  · intro t hl old hold
    rw [hl, hold] at hc
    have hmem : t ∈ hits := by
      have := List.mem_of_find?_eq_some hl
      simpa using this
    have hres : resolveCell tb [] t.wcell = storedCell t.span (rstrip (· == '\n') t.char) := by
      rw [resolveCell_opaque tb t.wcell (hop t hmem)]; rfl
    simp only [Option.map_some, hres] at hc
    split at hc <;> rename_i he
    · rw [if_pos he]; simpa using hc
    · rw [if_neg he]; simpa using hc

theorem offset_zero_of_putData {env : Color.Env} {data : List Entry} {tb : Color} {force : Bool}
    {w : World} (hs : Shape w.scr.width w.scr.height w.scr.cells)
    (h : (putData data Mats.blank w).2.1.scr.offset = w.scr.offset) :
    (writeBulk env data tb force w).1.scr.offset = w.scr.offset := by
  have hf := putData_frame data Mats.blank w
  unfold writeBulk
  revert hf h
  rcases putData data Mats.blank w with ⟨m, w', e⟩
  intro h hf
  cases e with
  | some e => exact h
  | none =>
    simp only at h ⊢
    obtain ⟨s', e, -, -, ho', -⟩ := commit_spec env tb m w'.scr
      (by rw [hf.width, hf.height]; exact hf.shape _ _ rfl hs)
    rw [e]
    simp only [ho']
    exact h

theorem putData_singleton_offset (x y : Int) (spans : List Span) (m : Mats) (w : World) :
    (putData [(some (x, y), spans)] m w).2.1.scr.offset =
      (putSpans spans 0 { x := x, y := y, last := (spans.length : Int) - 1 } m w).2.2.1.scr.offset := by
  unfold putData
  split
  · rename_i heq; rw [heq]
  · rename_i heq; rw [heq]; rfl

/-- **C05** (partial: the full statement fails in one corner, `C05_violated`). A write
of newline-free spans with opaque or no backgrounds at an in-bounds cursor of a
screen that has not scrolled: the call succeeds, nothing scrolls, character `j` of
the span `s` (after `pre`) is stored at row-major index
`y * width + x + len(pre) + j` if that is inside the screen, with its own style
and colours, and no cell outside that range changes. A cell that already is
(Python-)equal to what would be stored is kept. -/
theorem C05_placement_partial (env : Color.Env) (tb : Color) (force : Bool) (w : World)
    (hs : Shape w.scr.width w.scr.height w.scr.cells) (hok : CacheOk w.cache)
    (h0 : w.scr.offset = 0) (x y : Nat) (hx : x < w.scr.width) (hy : y < w.scr.height)
    (spans : List Span) (hnl : ∀ s ∈ spans, '\n' ∉ s.text)
    (hop : ∀ s ∈ spans, ∀ b, s.bg = some b → b.alpha = 1)
    (hcorner : ∀ s t rest, spans = s :: t :: rest →
      y * w.scr.width + x + s.text.length ≠ w.scr.height * w.scr.width) :
    let r := write env spans (some ((x : Int), (y : Int))) tb force w
    (∃ n, r.2 = .ok n) ∧ r.1.scr.offset = 0 ∧
    (∀ pre s post, spans = pre ++ s :: post → ∀ j c, s.text[j]? = some c →
      let i := y * w.scr.width + x + (pre.map Span.len).sum + j
      i < w.scr.height * w.scr.width →
      ∃ old, cellAt w.scr.cells (i % w.scr.width) (i / w.scr.width) = some old ∧
        cellAt r.1.scr.cells (i % w.scr.width) (i / w.scr.width) =
          some (if (storedCell s (styledChar s j c)).eq old then old
            else storedCell s (styledChar s j c))) ∧
    (∀ x' y', x' < w.scr.width →
      (y' * w.scr.width + x' < y * w.scr.width + x ∨
        y * w.scr.width + x + (spans.map Span.len).sum ≤ y' * w.scr.width + x') →
      cellAt r.1.scr.cells x' y' = cellAt w.scr.cells x' y') := by
  intro r
  have hw : 0 < w.scr.width := by omega
  have hi : y * w.scr.width + x < w.scr.height * w.scr.width := by
    calc y * w.scr.width + x < y * w.scr.width + w.scr.width := by omega
      _ = (y + 1) * w.scr.width := by rw [Nat.add_mul]; omega
      _ ≤ w.scr.height * w.scr.width := Nat.mul_le_mul_right _ hy
  have hmod : (y * w.scr.width + x) % w.scr.width = x := by
    rw [Nat.mul_comm, Nat.mul_add_mod, Nat.mod_eq_of_lt hx]
  have hdiv : (y * w.scr.width + x) / w.scr.width = y := by
    rw [Nat.mul_comm, Nat.mul_add_div hw, Nat.div_eq_of_lt hx]; rfl
  have hpen : ({ x := (x : Int), y := (y : Int), last := (spans.length : Int) - 1 } : Pen) =
      penAt w.scr.width (y * w.scr.width + x) ((spans.length : Int) - 1) := by
    simp [penAt, hmod, hdiv]
  have hns := putSpans_no_scroll hw h0 hok spans hnl (y * w.scr.width + x) hi hcorner Mats.blank
  have hfill : (putData [(some ((x : Int), (y : Int)), spans)] Mats.blank w).2.1.scr.offset
      = w.scr.offset := by
    rw [putData_singleton_offset, hpen]; exact hns
  have ho : r.1.scr.offset = w.scr.offset := offset_zero_of_putData hs hfill
  obtain ⟨-, h2⟩ := writeBulk_still env [(some ((x : Int), (y : Int)), spans)] tb force w hs hok ho
  rcases h2 with ⟨-, -, e, he, hn⟩ | ⟨d, hd, hret, h3⟩
  · simp only [List.mem_singleton] at he; subst he; cases hn
  have hd' : d = [(((x : Int), (y : Int)), spans)] := by
    match d, hd with
    | [], h => simp at h
    | [⟨a, b⟩], h => simp at h; simp [h]
    | _ :: _ :: _, h => simp at h
  subst hd'
  have hm : fillData w.scr.width w.scr.height w.scr.offset [(((x : Int), (y : Int)), spans)] Mats.blank =
      (((lineChars spans).take (w.scr.height * w.scr.width - (y * w.scr.width + x))).mapIdx
        fun k c => hitAt w.scr.width c.1 (y * w.scr.width + x + k) c.2).foldl Hit.put Mats.blank := by
    rw [fillData_hits, h0]
    simp only [dataHits, List.flatMap_cons, List.flatMap_nil, List.append_nil, startPen]
    rw [hpen, lineHits_index hw _ spans hnl _ (by omega)]
  have hmem : ∀ t ∈ ((lineChars spans).take (w.scr.height * w.scr.width - (y * w.scr.width + x))).mapIdx
        (fun k c => hitAt w.scr.width c.1 (y * w.scr.width + x + k) c.2),
      ∃ k c, (lineChars spans)[k]? = some c ∧
        t = hitAt w.scr.width c.1 (y * w.scr.width + x + k) c.2 := by
    intro t ht
    obtain ⟨k, hk, rfl⟩ := List.mem_mapIdx.mp ht
    refine ⟨k, _, ?_, rfl⟩
    rw [List.getElem_take]
    simp only [List.length_take] at hk
    exact List.getElem?_eq_getElem (by omega)
  have hop' : ∀ t ∈ ((lineChars spans).take (w.scr.height * w.scr.width - (y * w.scr.width + x))).mapIdx
        (fun k c => hitAt w.scr.width c.1 (y * w.scr.width + x + k) c.2),
      ∀ b, t.span.bg = some b → b.alpha = 1 := by
    intro t ht
    obtain ⟨k, c, hk, rfl⟩ := hmem t ht
    have hcm := List.mem_of_getElem? hk
    simp only [lineChars, List.mem_flatMap, List.mem_map] at hcm
    obtain ⟨s, hsm, ch, -, rfl⟩ := hcm
    exact hop s hsm
  refine ⟨⟨_, hret⟩, by rw [ho, h0], ?_, ?_⟩
  · intro pre s post hsp j c hj i hilt
    have hjl : j < s.text.length := (List.getElem?_eq_some_iff.mp hj).1
    have hlc : (lineChars spans)[(pre.map Span.len).sum + j]? = some (s, styledChar s j c) := by
      rw [hsp, lineChars_split pre s post j hjl, cellChars_getElem?, hj]; rfl
    have hk := (List.getElem?_eq_some_iff.mp hlc)
    obtain ⟨hklt, hkeq⟩ := hk
    have hin : i / w.scr.width < w.scr.height := by
      rw [Nat.div_lt_iff_lt_mul hw]; exact hilt
    obtain ⟨old, hold⟩ := hs.exists_cell (Nat.mod_lt i hw) hin
    refine ⟨old, hold, ?_⟩
    have hl : lastHit (((lineChars spans).take (w.scr.height * w.scr.width - (y * w.scr.width + x))).mapIdx
        fun k c => hitAt w.scr.width c.1 (y * w.scr.width + x + k) c.2) (i % w.scr.width)
        (i / w.scr.width) = some (hitAt w.scr.width s i (styledChar s j c)) := by
      apply lastHit_unique
      · rw [List.mem_mapIdx]
        refine ⟨(pre.map Span.len).sum + j, by simp only [List.length_take]; omega, ?_⟩
        rw [List.getElem_take, hkeq]
        simp only [hitAt, i, Nat.add_assoc]
      · exact ⟨rfl, rfl⟩
      · intro t ht h1 h2
        obtain ⟨k, c', hk, rfl⟩ := hmem t ht
        simp only [hitAt] at h1 h2
        have := index_inj h1 h2
        have hk' : k = (pre.map Span.len).sum + j := by omega
        subst hk'
        rw [hk] at hlc
        injection hlc with hlc
        subst hlc
        rw [this]
    have := (wrote_opaque h3 hm hop' (i % w.scr.width) (i / w.scr.width)).2 _ hl old hold
    rw [show rstrip (· == '\n') (hitAt w.scr.width s i (styledChar s j c)).char = styledChar s j c
      from rstrip_styledChar (hnl s (by rw [hsp]; simp)) hj] at this
    exact this
  · intro x' y' hx' hout
    apply (wrote_opaque h3 hm hop' x' y').1
    apply lastHit_none
    rintro t ht ⟨h1, h2⟩
    obtain ⟨k, c, hk, rfl⟩ := hmem t ht
    have hkl : k < (spans.map Span.len).sum := by
      have := (List.getElem?_eq_some_iff.mp hk).1
      rwa [length_lineChars] at this
    simp only [hitAt] at h1 h2
    have e : y * w.scr.width + x + k = y' * w.scr.width + x' := by
      rw [← Nat.div_add_mod (y * w.scr.width + x + k) w.scr.width, h1, h2, Nat.mul_comm]
    omega

/-- **C05** (out of bounds): at a position that is not on the screen and not below its
bottom, a write changes nothing. -/
theorem C05_out_of_bounds (env : Color.Env) (tb : Color) (force : Bool) (w : World)
    (hs : Shape w.scr.width w.scr.height w.scr.cells)
    (h0 : w.scr.offset = 0) (x y : Int) (hy : y < w.scr.height)
    (hb : (w.scr.width : Int) ≤ x ∨ x < 0 ∨ y < 0) (spans : List Span) :
    let r := write env spans (some (x, y)) tb force w
    r.2 = .ok 0 ∧ r.1.scr = w.scr := by
  have key : ∀ (spans : List Span) (k : Nat) (last : Int) (c : CharCache),
      ∃ c' p', putSpans spans k { x := x, y := y, last := last } Mats.blank
        { scr := w.scr, cache := c } = (p', Mats.blank, { scr := w.scr, cache := c' }, none) := by
    intro spans
    induction spans with
    | nil => intro k last c; exact ⟨c, _, rfl⟩
    | cons s rest ih =>
      intro k last c
      unfold putSpans
      simp only
      rw [if_neg (by rw [h0]; omega)]
      have hput : ∀ l, putChars w.scr.width w.scr.height s l
          { x := x, y := y - w.scr.offset, last := last } Mats.blank =
          ({ x := x, y := y, last := last }, Mats.blank) := by
        intro l
        rw [h0]
        cases l with
        | nil => simp [putChars]
        | cons a l => unfold putChars; rw [if_pos (by simp only; omega)]; simp
      rw [hput]
      exact ih _ _ _
  intro r
  obtain ⟨c', p', hp⟩ := key spans 0 ((spans.length : Int) - 1) w.cache
  have hd : putData [(some (x, y), spans)] Mats.blank w =
      (Mats.blank, { scr := w.scr, cache := c' }, none) := by
    unfold putData
    rw [show w = { scr := w.scr, cache := w.cache } from rfl, hp]
    rfl
  have : r = ({ scr := w.scr, cache := c' }, .ok 0) := by
    simp only [r, write, writeBulk, hd]
    rw [commit_id env tb Mats.blank w.scr hs (fun p => by simp [outcome, Mats.blank])]
  rw [this]
  exact ⟨rfl, rfl⟩

/-- **C05 violated**: a line that should be cut at the bottom right corner scrolls the
screen instead, if its first span ends exactly there: on a 2x1 screen the spans
"ab", "c" at (0, 0) push the row of the screen out, and nothing of "c" is dropped
without effect. -/
theorem C05_violated :
    let w : World := { scr := Screen.init 2 1 }
    let r := write {} [{ text := "ab".toList }, { text := "c".toList }] (some (0, 0)) Color.black false w
    r.1.scr.offset = 1 ∧ cellAt r.1.scr.cells 0 0 ≠ some (storedCell { text := "ab".toList } ['a']) := by
  decide +kernel

/-- **C05** end to end: writing to a fresh screen and drawing shows every character of
the text at its place in its style and colours. -/
theorem C05_write_then_draw (env : Color.Env) (den : Color → TColor) (hden : DenOk env den)
    (ox oy : Nat) (hox : 1 ≤ ox) (hoy : 1 ≤ oy) (width height : Nat) (cur : Int × Int) (fill : Char)
    (hfill : Printable fill) (T : State) (hT : T.mode = .ground) (hpen : T.pen = Attr.clean)
    (x y : Nat) (hx : x < width) (hy : y < height) (spans : List Span)
    (hok : ∀ s ∈ spans, SpanOk env den s) (hnl : ∀ s ∈ spans, '\n' ∉ s.text)
    (hop : ∀ s ∈ spans, ∀ b, s.bg = some b ∨ s.fg = some b → b.alpha = 1)
    (hcorner : ∀ s t rest, spans = s :: t :: rest →
      y * width + x + s.text.length ≠ height * width) (tb : Color) (force : Bool)
    (pre : List Span) (s : Span) (post : List Span) (hsp : spans = pre ++ s :: post)
    (hreset : s.resetAfter = true) (j : Nat) (c : Char) (hj : s.text[j]? = some c) :
    let i := y * width + x + (pre.map Span.len).sum + j
    i < height * width →
    (execAll env (ox, oy) { w := { scr := Screen.init width height cur [fill] }, term := T }
      [.write spans (some ((x : Int), (y : Int))) tb force, .draw]).term.grid
        (i / width + oy) (i % width + ox) =
      { ch := c, attr := applyStyle s.style
          (paintOpt den s.bg (paintOpt den (some (s.fg.getD Color.white)) Attr.clean)) } := by
  intro i hi
  have hw : 0 < width := by omega
  obtain ⟨-, ho, hcell, -⟩ := C05_placement_partial env tb force
    { scr := Screen.init width height cur [fill] } (resize_shape _ width height [fill] true)
    (by intro e he; simp at he) rfl x y hx hy spans hnl (fun s hs b hb => hop s hs b (.inl hb)) hcorner
  obtain ⟨old, hold, hnew⟩ := hcell pre s post hsp j c hj hi
  have hdraw := C01_draw_shows_screen env den hden ox oy hox hoy width height cur fill hfill []
    (by intro e he; simp at he) T hT hpen [.write spans (some ((x : Int), (y : Int))) tb force]
    (by intro op hop'; simp only [List.mem_singleton] at hop'; subst hop'; exact hok)
  obtain ⟨cell, hc1, hc2⟩ := hdraw ho (i % width) (i / width) (Nat.mod_lt i hw)
    (by rw [Nat.div_lt_iff_lt_mul hw]; exact hi)
  have hsm : s ∈ spans := by rw [hsp]; simp
  have hold' : old = { char := [fill] } := by
    have := init_cellAt width height cur [fill] (i % width) (i / width) (Nat.mod_lt i hw)
      (by rw [Nat.div_lt_iff_lt_mul hw]; exact hi)
    have := hold.symm.trans this
    injection this
  have hfg : (storedCell s (styledChar s j c)).fg = some (s.fg.getD Color.white) := by
    unfold storedCell
    cases hf : s.fg with
    | none => rfl
    | some f => simp [hop s hsm f (.inr hf)]
  have hne : (storedCell s (styledChar s j c)).eq old = false := by
    rw [hold']
    simp [Cell.eq, hfg, Span.optEq]
  rw [hne] at hnew
  have hc1' : cellAt (write env spans (some ((x : Int), (y : Int))) tb force
      { scr := Screen.init width height cur [fill] }).1.scr.cells (i % width) (i / width) = some cell := hc1
  have hcelleq : cell = storedCell s (styledChar s j c) := by
    have := hc1'.symm.trans hnew
    simpa using this
  refine hc2.trans ?_
  rw [hcelleq]
  have hpr : Printable c := by
    rcases (hok s hsm).text c (List.mem_of_getElem? hj) with h | ⟨h, -⟩
    · exact h
    · exact absurd (List.mem_of_getElem? hj) (h ▸ hnl s hsm)
  have hcs : ∃ b, CellStr (storedCell s (styledChar s j c)).char s.style c b := by
    simp only [storedCell, styledChar]
    split
    · exact ⟨false, by simp, hpr⟩
    · split
      · exact ⟨true, by simp [RESET], hpr⟩
      · rename_i hne
        have : wrapSgr s.style.colorless = [] := by
          by_contra hh; exact hne ⟨hh, hreset⟩
        exact ⟨false, by simp [this], hpr⟩
  obtain ⟨b, hcs⟩ := hcs
  rw [CellStr.glyph hcs den, cellAttr, hfg]
  rfl

example : ∃ spans : List Span, (∀ s ∈ spans, '\n' ∉ s.text) ∧
    (∀ s ∈ spans, ∀ b, s.bg = some b ∨ s.fg = some b → b.alpha = 1) ∧
    (∀ s t rest, spans = s :: t :: rest → 0 * 4 + 2 + s.text.length ≠ 2 * 4) ∧
    (∀ s ∈ spans, SpanOk {} (denOf {}) s) ∧ (spans.map Span.len).sum = 4 := by
  refine ⟨[{ text := "abc".toList, style := { bold := true } }, { text := "d".toList }], ?_, ?_, ?_, ?_, rfl⟩
  · decide
  · simp
  · intro s t rest h; simp at h; rw [← h.1]; decide
  · intro s hs
    simp only [List.mem_cons, List.not_mem_nil, or_false] at hs
    rcases hs with rfl | rfl
    · exact ⟨by decide, by simp, by simp⟩
    · exact ⟨by decide, by simp, by simp⟩

end Slate
