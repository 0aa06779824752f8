import Verif.Spec.Api
import Verif.Lemmas.Sync

/-! Invariants of arbitrary histories. -/

namespace Slate
open Py Term

/-- What any `write_bulk` (scrolling or raising) does to size, cursor and shape. -/
theorem writeBulk_frame (env : Color.Env) (data : List Entry) (tb : Color) (force : Bool)
    (w : World) (hs : Shape w.scr.width w.scr.height w.scr.cells) :
    (writeBulk env data tb force w).1.scr.width = w.scr.width ∧
    (writeBulk env data tb force w).1.scr.height = w.scr.height ∧
    (writeBulk env data tb force w).1.scr.cursor = w.scr.cursor ∧
    w.scr.offset ≤ (writeBulk env data tb force w).1.scr.offset ∧
    Shape w.scr.width w.scr.height (writeBulk env data tb force w).1.scr.cells ∧
    (∀ k ∈ (writeBulk env data tb force w).1.scr.changes.keys,
      k ∈ w.scr.changes.keys ∨ (k.1 < w.scr.width ∧ k.2 < w.scr.height)) := by
  have hf := putData_frame data Mats.blank w
  unfold writeBulk
  revert hf
  rcases putData data Mats.blank w with ⟨m, w', e⟩
  intro hf
  have hsh := hf.shape _ _ rfl hs
  cases e with
  | some e =>
    simp only
    refine ⟨hf.width, hf.height, hf.cursor, hf.offset, hsh, ?_⟩
    exact fun k hk => .inl (hf.changes ▸ hk)
  | none =>
    simp only
    have hsh' : Shape w'.scr.width w'.scr.height w'.scr.cells := by
      rw [hf.width, hf.height]; exact hsh
    obtain ⟨s', e, c1, c2, c3, c4, c5, c6, c7, c8⟩ := commit_spec env tb m w'.scr hsh'
    rw [e]
    simp only
    refine ⟨c1.trans hf.width, c2.trans hf.height, c4.trans hf.cursor, by rw [c3]; exact hf.offset,
      by rw [hf.width, hf.height] at c5; exact c5, ?_⟩
    intro k hk
    rw [← Changes.lookup_isSome, c7] at hk
    cases ho : outcome tb m w'.scr k with
    | none =>
      rw [ho] at hk
      left
      simp only [Option.map_none, Option.none_or] at hk
      rw [Changes.lookup_isSome, hf.changes] at hk
      exact hk
    | some r =>
      right
      unfold outcome at ho
      split at ho
      · cases ho
      · simp only at ho
        split at ho
        · cases ho
        · rename_i old hold
          exact hsh.cellAt_isSome.mp (by rw [hold]; rfl)

/-! ### Generic invariant of the fill phase, scrolling included -/

theorem putSpans_inv (P : Mats → Prop) (Q : List (List Cell) → Prop) (spans : List Span)
    (hP : ∀ m sp ch x y, sp ∈ spans → P m → P (putCell m sp ch x y))
    (hQ : ∀ r rows w, Q (r :: rows) → Q (rows ++ [List.replicate w { char := [] }]))
    (i : Nat) (p : Pen) (m : Mats) (w : World) (hm : P m) (hq : Q w.scr.cells) :
    P (putSpans spans i p m w).2.1 ∧ Q (putSpans spans i p m w).2.2.1.scr.cells := by
  induction spans generalizing i p m w with
  | nil => exact ⟨hm, hq⟩
  | cons span rest ih =>
    have ih := ih (fun m sp ch x y hs => hP m sp ch x y (by simp [hs]))
    have hput : ∀ w h chars p, P (putChars w h span chars p m).2 := fun w h chars p =>
      putChars_inv P w h span chars (fun m ch x y _ _ _ _ => hP m span ch x y (by simp)) p m hm
    unfold putSpans
    simp only
    split
    · split
      · exact ⟨hm, hq⟩
      · split
        · exact ⟨hm, hq⟩
        · rename_i r rows hc
          apply ih
          · exact hput _ _ _ _
          · exact hQ _ _ _ (hc ▸ hq)
    · exact ih _ _ _ _ (hput _ _ _ _) hq

theorem putData_inv (P : Mats → Prop) (Q : List (List Cell) → Prop) (data : List Entry)
    (hP : ∀ m sp ch x y, (∃ e ∈ data, sp ∈ e.2) → P m → P (putCell m sp ch x y))
    (hQ : ∀ r rows w, Q (r :: rows) → Q (rows ++ [List.replicate w { char := [] }]))
    (m : Mats) (w : World) (hm : P m) (hq : Q w.scr.cells) :
    P (putData data m w).1 ∧ Q (putData data m w).2.1.scr.cells := by
  induction data generalizing m w with
  | nil => exact ⟨hm, hq⟩
  | cons e rest ih =>
    obtain ⟨c, line⟩ := e
    cases c with
    | none => exact ⟨hm, hq⟩
    | some xy =>
      have h1 := putSpans_inv P Q line (fun m sp ch x y hs => hP m sp ch x y
        ⟨_, List.mem_cons_self .., hs⟩) hQ 0
        { x := xy.1, y := xy.2, last := (line.length : Int) - 1 } m w hm hq
      unfold putData
      revert h1
      rcases putSpans line 0 { x := xy.1, y := xy.2, last := (line.length : Int) - 1 } m w with
        ⟨p', m', w', e'⟩
      intro h1
      cases e' with
      | some e => exact h1
      | none =>
        exact ih (fun m sp ch x y ⟨e, he, hs⟩ => hP m sp ch x y ⟨e, by simp [he], hs⟩) m' w' h1.1 h1.2

/-! ### Exceptions -/

/-- Every cached list has as many elements as the text has characters. -/
def CacheLen (cache : CharCache) : Prop := ∀ e ∈ cache, e.2.length = e.1.text.length

theorem CacheLen.get {cache : CharCache} (h : CacheLen cache) (s : Span) :
    (cache.get s).1.length = s.text.length ∧ CacheLen (cache.get s).2 := by
  unfold CharCache.get
  cases hl : cache.lookup s with
  | none =>
    refine ⟨length_cellChars s, ?_⟩
    intro e he
    rcases List.mem_cons.mp (List.mem_of_mem_take he) with rfl | hm
    · exact length_cellChars s
    · exact h e hm
  | some l =>
    have hm := mem_of_lookup hl
    refine ⟨h _ hm, ?_⟩
    intro e he
    rcases List.mem_cons.mp he with rfl | hm'
    · exact h _ hm
    · exact h e (List.mem_of_mem_filter hm')

theorem length_appendNewline (l : List Str) : (appendNewline l).length = l.length := by
  unfold appendNewline
  cases h : l.getLast? with
  | none => simp [List.getLast?_eq_none_iff.mp h]
  | some c =>
    have : l ≠ [] := by rintro rfl; simp at h
    have := List.length_pos_of_ne_nil this
    simp; omega

theorem CacheLen.assign {cache : CharCache} (h : CacheLen cache) (s : Span) (l : List Str)
    (hl : l.length = s.text.length) : CacheLen (cache.assign s l) := by
  intro e he
  obtain ⟨e', he', rfl⟩ := List.mem_map.mp he
  split
  · exact hl
  · exact h e' he'

theorem putSpans_error (spans : List Span) (i : Nat) (p : Pen) (m : Mats) (w : World)
    {a b : Nat} (hs : Shape a b w.scr.cells) (ha : a = w.scr.width) (hc : CacheLen w.cache) :
    CacheLen (putSpans spans i p m w).2.2.1.cache ∧
    ∀ e, (putSpans spans i p m w).2.2.2 = some e →
      e = .indexError ∧ (b = 0 ∨ ∃ s ∈ spans, s.text = []) ∧
      w.scr.offset < (putSpans spans i p m w).2.2.1.scr.offset := by
  induction spans generalizing i p m w with
  | nil => exact ⟨hc, by simp [putSpans]⟩
  | cons span rest ih =>
    obtain ⟨hlen, hg⟩ := hc.get span
    unfold putSpans
    simp only
    split
    · rename_i hcond
      split
      · rename_i he
        refine ⟨hg, ?_⟩
        intro e hee
        simp only [Option.some.injEq] at hee
        refine ⟨hee.symm, .inr ⟨span, by simp, ?_⟩, by simp only; omega⟩
        have : (w.cache.get span).1.length = 0 := by
          rw [List.isEmpty_iff] at he; rw [he]; rfl
        rw [hlen] at this
        exact List.eq_nil_of_length_eq_zero this
      · have hg' := hg.assign span (appendNewline (w.cache.get span).1)
          (by rw [length_appendNewline, hlen])
        split
        · rename_i hcells
          refine ⟨hg', ?_⟩
          intro e hee
          simp only [Option.some.injEq] at hee
          refine ⟨hee.symm, .inl ?_, by simp only; omega⟩
          have := hs.rows
          rw [hcells] at this
          simpa using this.symm
        · rename_i r rows hcells
          subst ha
          rw [hcells] at hs
          have hih := ih (i + 1)
            (putChars w.scr.width w.scr.height span (appendNewline (w.cache.get span).1)
              { p with y := p.y - (p.y - w.scr.height + 1) } m).1
            (putChars w.scr.width w.scr.height span (appendNewline (w.cache.get span).1)
              { p with y := p.y - (p.y - w.scr.height + 1) } m).2
            { scr := { w.scr with offset := p.y - w.scr.height + 1,
                                  cells := rows ++ [List.replicate w.scr.width { char := [] }] },
              cache := (w.cache.get span).2.assign span (appendNewline (w.cache.get span).1) }
            (hs.scroll _) rfl hg'
          refine ⟨hih.1, ?_⟩
          intro e hee
          obtain ⟨h1, h2, h3⟩ := hih.2 e hee
          refine ⟨h1, ?_, ?_⟩
          · rcases h2 with h2 | ⟨s, hs, h2⟩
            · exact .inl h2
            · exact .inr ⟨s, by simp [hs], h2⟩
          · simp only at h3
            refine lt_of_le_of_lt ?_ h3
            omega
    · have hih := ih (i + 1)
            (putChars w.scr.width w.scr.height span (w.cache.get span).1
              { p with y := p.y - w.scr.offset } m).1
            (putChars w.scr.width w.scr.height span (w.cache.get span).1
              { p with y := p.y - w.scr.offset } m).2
            { scr := w.scr, cache := (w.cache.get span).2 } hs ha hg
      refine ⟨hih.1, ?_⟩
      intro e hee
      obtain ⟨h1, h2, h3⟩ := hih.2 e hee
      refine ⟨h1, ?_, h3⟩
      rcases h2 with h2 | ⟨s, hs, h2⟩
      · exact .inl h2
      · exact .inr ⟨s, by simp [hs], h2⟩

theorem putData_error (data : List Entry) (m : Mats) (w : World)
    {a b : Nat} (hs : Shape a b w.scr.cells) (ha : a = w.scr.width) (hc : CacheLen w.cache) :
    CacheLen (putData data m w).2.1.cache ∧
    ∀ e, (putData data m w).2.2 = some e →
      (e = .typeError ∧ ∃ en ∈ data, en.1 = none) ∨
      (e = .indexError ∧ (b = 0 ∨ ∃ en ∈ data, ∃ s ∈ en.2, s.text = []) ∧
      w.scr.offset < (putData data m w).2.1.scr.offset) := by
  induction data generalizing m w with
  | nil => exact ⟨hc, by simp [putData]⟩
  | cons en rest ih =>
    obtain ⟨c, line⟩ := en
    cases c with
    | none =>
      refine ⟨hc, ?_⟩
      intro e he
      simp only [putData, Option.some.injEq] at he
      exact .inl ⟨he.symm, _, List.mem_cons_self .., rfl⟩
    | some xy =>
      have h1 := putSpans_error line 0 { x := xy.1, y := xy.2, last := (line.length : Int) - 1 } m w
        hs ha hc
      have hf := putSpans_frame line 0 { x := xy.1, y := xy.2, last := (line.length : Int) - 1 } m w
      unfold putData
      revert h1 hf
      rcases putSpans line 0 { x := xy.1, y := xy.2, last := (line.length : Int) - 1 } m w with
        ⟨p', m', w', e'⟩
      intro h1 hf
      cases e' with
      | some er =>
        refine ⟨h1.1, ?_⟩
        intro e he
        obtain ⟨q1, q2, q3⟩ := h1.2 e he
        refine .inr ⟨q1, ?_, q3⟩
        rcases q2 with q2 | ⟨s, hs, q2⟩
        · exact .inl q2
        · exact .inr ⟨_, List.mem_cons_self .., s, hs, q2⟩
      | none =>
        simp only at h1 hf ⊢
        have hi := ih m' w' (hf.shape a b ha hs) (by rw [hf.width]; exact ha) h1.1
        refine ⟨hi.1, ?_⟩
        intro e he
        rcases hi.2 e he with ⟨q1, en, q2, q3⟩ | ⟨q1, q2, q3⟩
        · exact .inl ⟨q1, en, by simp [q2], q3⟩
        · refine .inr ⟨q1, ?_, lt_of_le_of_lt hf.offset q3⟩
          rcases q2 with q2 | ⟨en, q2, q3⟩
          · exact .inl q2
          · exact .inr ⟨en, by simp [q2], q3⟩

theorem writeBulk_error (env : Color.Env) (data : List Entry) (tb : Color) (force : Bool)
    (w : World) (hs : Shape w.scr.width w.scr.height w.scr.cells) (hc : CacheLen w.cache) :
    CacheLen (writeBulk env data tb force w).1.cache ∧
    ∀ e, (writeBulk env data tb force w).2 = .error e →
      (e = .typeError ∧ ∃ en ∈ data, en.1 = none) ∨
      (e = .indexError ∧ (w.scr.height = 0 ∨ ∃ en ∈ data, ∃ s ∈ en.2, s.text = []) ∧
      w.scr.offset < (writeBulk env data tb force w).1.scr.offset) := by
  have h1 := putData_error data Mats.blank w hs rfl hc
  have hf := putData_frame data Mats.blank w
  unfold writeBulk
  revert h1 hf
  rcases putData data Mats.blank w with ⟨m, w', e⟩
  intro h1 hf
  cases e with
  | some er =>
    refine ⟨h1.1, ?_⟩
    intro e he
    simp only [Except.error.injEq] at he
    exact h1.2 e (by rw [he])
  | none =>
    have hsh' : Shape w'.scr.width w'.scr.height w'.scr.cells := by
      rw [hf.width, hf.height]; exact hf.shape _ _ rfl hs
    obtain ⟨s', e, -⟩ := commit_spec env tb m w'.scr hsh'
    simp only
    rw [e]
    exact ⟨h1.1, by simp⟩

end Slate
