import Verif.Props.Poison
import Verif.Props.Terminal

/-!
# A write changes at most as many cells as it has characters (C105)
-/

namespace Slate
open Py

/-- The number of characters of some spans. -/
def charCount (spans : List Span) : Nat := (spans.map fun s => s.text.length).sum

/-- The positions written are among those of a list. -/
def Covered (m : Mats) (L : List (Nat × Nat)) : Prop := ∀ x y, m.wm x y ≠ none → (x, y) ∈ L

theorem Covered.putCell {m : Mats} {L : List (Nat × Nat)} (h : Covered m L) (span : Span) (char : Str) (x y : Nat) :
    Covered (putCell m span char x y) ((x, y) :: L) := by
  intro a b hab
  by_cases e : a = x ∧ b = y
  · rw [e.1, e.2]; exact List.mem_cons_self ..
  · refine List.mem_cons_of_mem _ (h a b ?_)
    unfold Slate.putCell at hab
    split at hab
    · split_ifs at hab <;> simpa [upd, e] using hab
    · simpa [upd, e] using hab

theorem Covered.putChars {width height : Nat} {span : Span} : ∀ (chars : List Str) (p : Pen) {m : Mats} {L : List (Nat × Nat)},
    Covered m L → ∃ L', Covered (putChars width height span chars p m).2 L' ∧ L'.length ≤ L.length + chars.length
  | [], p, m, L, h => ⟨L, h, by simp⟩
  | char :: rest, p, m, L, h => by
    unfold Slate.putChars
    split_ifs with h1 h2
    · exact ⟨L, h, by omega⟩
    · obtain ⟨L', h', hl⟩ := h.putChars (width := width) (height := height) (span := span) rest { p with y := p.y + 1 }
      exact ⟨L', h', by simp; omega⟩
    all_goals
      simp only
      generalize ({ x := _, y := _, last := _ } : Pen) = q
      obtain ⟨L', h', hl⟩ := (h.putCell span char p.x.toNat p.y.toNat).putChars (width := width) (height := height) (span := span) rest q
      exact ⟨L', h', by simp at hl ⊢; omega⟩

theorem putSpans_covered (spans : List Span) : ∀ (i : Nat) (p : Pen) {m : Mats} (w : World) {L : List (Nat × Nat)},
    CacheLen w.cache → Covered m L →
    CacheLen (putSpans spans i p m w).2.2.1.cache ∧
    ∃ L', Covered (putSpans spans i p m w).2.1 L' ∧ L'.length ≤ L.length + charCount spans := by
  induction spans with
  | nil => intro i p m w L hc h; exact ⟨hc, L, h, by simp⟩
  | cons s rest ih =>
    intro i p m w L hc h
    obtain ⟨hl, hc2⟩ := hc.get s
    have hcount : charCount (s :: rest) = s.text.length + charCount rest := by simp [charCount]
    have hc3 : CacheLen ((w.cache.get s).2.assign s (appendNewline (w.cache.get s).1)) :=
      hc2.assign _ _ (by rw [length_appendNewline, hl])
    unfold putSpans
    simp only
    split_ifs with h1 h4
    · exact ⟨hc2, L, h, by omega⟩
    · split
      · exact ⟨hc3, L, h, by omega⟩
      · obtain ⟨L1, k1, l1⟩ := h.putChars (width := w.scr.width) (height := w.scr.height) (span := s) (appendNewline (w.cache.get s).1)
          { p with y := p.y - (p.y - (w.scr.height : Int) + 1) }
        rw [length_appendNewline, hl] at l1
        have q := ih (i + 1) (putChars w.scr.width w.scr.height s (appendNewline (w.cache.get s).1)
            { p with y := p.y - (p.y - (w.scr.height : Int) + 1) } m).1
          { scr := { w.scr with offset := p.y - w.scr.height + 1, cells := (by assumption) ++ [List.replicate w.scr.width { char := [] }] },
            cache := (w.cache.get s).2.assign s (appendNewline (w.cache.get s).1) } (by exact hc3) k1
        obtain ⟨a, L2, k2, l2⟩ := q
        exact ⟨a, L2, k2, by omega⟩
    · obtain ⟨L1, k1, l1⟩ := h.putChars (width := w.scr.width) (height := w.scr.height) (span := s) (w.cache.get s).1
          { p with y := p.y - w.scr.offset }
      rw [hl] at l1
      obtain ⟨a, L2, k2, l2⟩ := ih (i + 1) _ { w with cache := (w.cache.get s).2 } (by exact hc2) k1
      exact ⟨a, L2, k2, by omega⟩

theorem putData_covered (data : List Entry) : ∀ {m : Mats} (w : World) {L : List (Nat × Nat)}, CacheLen w.cache → Covered m L →
    CacheLen (putData data m w).2.1.cache ∧
    ∃ L', Covered (putData data m w).1 L' ∧ L'.length ≤ L.length + (data.map fun e => charCount e.2).sum := by
  induction data with
  | nil => intro m w L hc h; exact ⟨hc, L, h, by simp⟩
  | cons e rest ih =>
    intro m w L hc h
    obtain ⟨c, line⟩ := e
    cases c with
    | none => exact ⟨hc, L, h, by omega⟩
    | some xy =>
      obtain ⟨h1, L1, k1, l1⟩ := putSpans_covered line 0 { x := xy.1, y := xy.2, last := (line.length : Int) - 1 } w hc h
      unfold putData
      cases hr : putSpans line 0 { x := xy.1, y := xy.2, last := (line.length : Int) - 1 } m w with
      | mk p r =>
        obtain ⟨m', w', o⟩ := r
        rw [hr] at h1 k1
        cases o with
        | some err => exact ⟨h1, L1, k1, by simp; omega⟩
        | none =>
          obtain ⟨a, L2, k2, l2⟩ := ih w' h1 k1
          exact ⟨a, L2, k2, by simp; omega⟩

theorem commit_count (env : Color.Env) (tb : Color) (m : Mats) : ∀ (ps : List (Nat × Nat)) (s : Screen) (k n : Nat),
    (ps.foldl (commitCell env tb m) (s, .ok k)).2 = .ok n → n ≤ k + ps.countP fun p => (m.wm p.1 p.2).isSome
  | [], s, k, n, h => by
    injection h with h
    simp [h]
  | p :: ps, s, k, n, h => by
    have herr : ∀ (ps : List (Nat × Nat)) (s : Screen) (e : PyErr), (ps.foldl (commitCell env tb m) (s, .error e)).2 = .error e := by
      intro ps
      induction ps with
      | nil => intro s e; rfl
      | cons q ps ih => intro s e; rw [List.foldl_cons]; exact ih s e
    rw [List.foldl_cons] at h
    rw [List.countP_cons]
    have hstep : commitCell env tb m (s, .ok k) p = match m.wm p.1 p.2 with
        | none => (s, .ok k)
        | some c => match cellAt s.cells p.1 p.2 with
          | none => (s, .error .indexError)
          | some old => if (resolveCell tb (m.am p.1 p.2) c).eq old then (s, .ok k)
            else ({ s with
              cells := setCell s.cells p.1 p.2 (resolveCell tb (m.am p.1 p.2) c)
              changes := s.changes.insert (p.1, p.2)
                (changeStr env (resolveCell tb (m.am p.1 p.2) c) (endsWith c.char ['\n'])) }, .ok (k + 1)) := rfl
    rw [hstep] at h
    cases hm : m.wm p.1 p.2 with
    | none =>
      rw [hm] at h
      have := commit_count env tb m ps s k n h
      simpa using this
    | some c =>
      rw [hm] at h
      simp only at h
      cases ho : cellAt s.cells p.1 p.2 with
      | none =>
        rw [ho] at h
        simp only at h
        rw [herr] at h
        cases h
      | some old =>
        rw [ho] at h
        simp only at h
        split_ifs at h
        · have := commit_count env tb m ps _ k n h
          simp; omega
        · have := commit_count env tb m ps _ (k + 1) n h
          simp; omega

/-- The number of changes a call reports is at most the number of its characters. -/
theorem writeBulk_count (env : Color.Env) (data : List Entry) (tb : Color) (force : Bool) (w : World) (hc : CacheLen w.cache) :
    CacheLen (writeBulk env data tb force w).1.cache ∧
    ∀ n, (writeBulk env data tb force w).2 = .ok n → n ≤ (data.map fun e => charCount e.2).sum := by
  obtain ⟨h1, L, k, l⟩ := putData_covered data (m := Mats.blank) (L := []) w hc (fun x y h => absurd rfl h)
  unfold writeBulk
  cases hr : putData data Mats.blank w with
  | mk m r =>
    obtain ⟨w', o⟩ := r
    rw [hr] at h1 k
    cases o with
    | some err => exact ⟨h1, fun n h => by cases h⟩
    | none =>
      refine ⟨h1, fun n h => ?_⟩
      have hn := commit_count env tb m _ _ _ _ h
      refine hn.trans ?_
      rw [Nat.zero_add, List.countP_eq_length_filter]
      refine le_trans ?_ (le_trans l (by simp))
      refine (List.subperm_of_subset ((nodup_positions _ _).filter _) ?_).length_le
      intro p hp
      have := (List.mem_filter.mp hp).2
      exact k p.1 p.2 (Option.isSome_iff_ne_none.mp this)

theorem runAll_cacheLen (env : Color.Env) (ops : List Api) : ∀ (w : World), CacheLen w.cache → CacheLen (Api.runAll env w ops).cache := by
  induction ops with
  | nil => intro w h; exact h
  | cons op ops ih =>
    intro w h
    refine ih _ ?_
    cases op with
    | write spans cursor tb force => exact (writeBulk_count env [(cursor, spans)] tb force w h).1
    | writeBulk data tb force => exact (writeBulk_count env data tb force w h).1
    | getCharacters s => exact (h.get s).2
    | clear fill => exact h
    | resize a b fill keep => exact h
    | render origin redraw => exact h

/-- **C105**. After any history, a call of `write_bulk` reports at most as many changes as its data has characters, with or without scrolling. -/
theorem C105_at_most (env : Color.Env) (width height : Nat) (cur : Int × Int) (fill : Str) (ops : List Api)
    (data : List Entry) (tb : Color) (force : Bool) (n : Nat)
    (h : (writeBulk env data tb force (Api.runAll env { scr := Screen.init width height cur fill } ops)).2 = .ok n) :
    n ≤ (data.map fun e => charCount e.2).sum :=
  (writeBulk_count env data tb force _ (runAll_cacheLen env ops _ (by simp [CacheLen]))).2 n h

/-- **C105**, `Terminal.write` with a string: at most as many changes as the characters of the spans read from the string. -/
theorem C105_string (env : Color.Env) (width height : Nat) (cur : Int × Int) (fill : Str) (ops : List Api)
    (s : Str) (pos : Int × Int) (bg : Color) (n : Nat)
    (h : (Terminal.write env (.str s) (some pos) bg (Api.runAll env { scr := Screen.init width height cur fill } ops)).2 = .ok n) :
    ∃ l, listOf (yieldFrom s) = .ok l ∧ n ≤ charCount l := by
  rw [C66_write] at h
  cases hl : listOf (yieldFrom s) with
  | error e => rw [hl] at h; cases h
  | ok l =>
    rw [hl] at h
    simp only [terminal_write_spans env l (some pos) bg false] at h
    have := C105_at_most env width height cur fill ops [(some pos, l)] bg false n h
    exact ⟨l, rfl, by simpa using this⟩

/-- **C105**, the assertion of the README: wherever it is written and whatever happened before, `write("0")` reports at most one
change. -/
theorem C105_readme (env : Color.Env) (width height : Nat) (cur : Int × Int) (fill : Str) (ops : List Api)
    (pos : Int × Int) (bg : Color) (n : Nat)
    (h : (Terminal.write env (.str ['0']) (some pos) bg (Api.runAll env { scr := Screen.init width height cur fill } ops)).2 = .ok n) :
    n ≤ 1 := by
  obtain ⟨l, hl, hn⟩ := C105_string env width height cur fill ops ['0'] pos bg n h
  have h0 : listOf (yieldFrom ['0']) = .ok [{ text := ['0'] }] := by decide +kernel
  rw [h0] at hl
  injection hl with hl
  rw [← hl] at hn
  exact hn

/-- The bound is reached on the same row and below the last row (the screen scrolls); a character that is there already is not a
change. -/
example :
    let env : Color.Env := { space := .trueColor, grey := fun _ => 0 }
    let w := Api.runAll env { scr := Screen.init 4 2 } [.write [{ text := "abcd".toList }] (some (0, 1)) Color.black false]
    (writeBulk env [(some (0, 1), [{ text := "efgh".toList }])] Color.black false w).2 = .ok 4 ∧
    (writeBulk env [(some (0, 1), [{ text := "ebgh".toList }])] Color.black false w).2 = .ok 3 ∧
    (writeBulk env [(some (0, 2), [{ text := "abcd".toList }])] Color.black false w).2 = .ok 4 := by
  decide +kernel

end Slate
