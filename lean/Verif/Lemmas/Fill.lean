import Verif.Lemmas.Screen
import Mathlib.Tactic.Linarith

/-! Facts about the fill phase of `write_bulk`. -/

namespace Slate
open Py

/-! ### The character cache -/

/-- Every cached list is what `get_characters` computes. -/
def CacheOk (cache : CharCache) : Prop := ∀ e ∈ cache, e.2 = e.1.cellChars

theorem mem_of_lookup {α β : Type} [BEq α] [LawfulBEq α] {l : List (α × β)} {k : α} {v : β}
    (h : l.lookup k = some v) : (k, v) ∈ l := by
  induction l with
  | nil => simp at h
  | cons e l ih =>
    obtain ⟨k2, v2⟩ := e
    rw [List.lookup_cons] at h
    split at h
    · rename_i hk
      have hk := eq_of_beq hk
      simp only [Option.some.injEq] at h
      subst hk h; simp
    · exact List.mem_cons_of_mem _ (ih h)

theorem CacheOk.get {cache : CharCache} (h : CacheOk cache) (s : Span) :
    (cache.get s).1 = s.cellChars ∧ CacheOk (cache.get s).2 := by
  unfold CharCache.get
  cases hl : cache.lookup s with
  | none =>
    refine ⟨rfl, ?_⟩
    intro e he
    have := List.mem_of_mem_take he
    rcases List.mem_cons.mp this with rfl | hm
    · rfl
    · exact h e hm
  | some l =>
    have hm := mem_of_lookup hl
    have hl' : l = s.cellChars := h _ hm
    refine ⟨hl', ?_⟩
    intro e he
    rcases List.mem_cons.mp he with rfl | hm
    · exact hl'
    · exact h e (List.mem_of_mem_filter hm)

/-! ### The pure fill phase, without scrolling -/

/-- The loop over the spans when nothing scrolls. -/
def fillSpans (w h : Nat) (off : Int) : List Span → Pen → Mats → Pen × Mats
  | [], p, m => (p, m)
  | span :: rest, p, m =>
    let r := putChars w h span span.cellChars { p with y := p.y - off } m
    fillSpans w h off rest r.1 r.2

/-- The loop over the data when nothing scrolls and every entry has a position. -/
def fillData (w h : Nat) (off : Int) : List ((Int × Int) × List Span) → Mats → Mats
  | [], m => m
  | ((x, y), line) :: rest, m =>
    fillData w h off rest
      (fillSpans w h off line { x := x, y := y, last := (line.length : Int) - 1 } m).2

/-- Relation between the world before and after the fill phase. -/
structure FillFrame (w w' : World) : Prop where
  width : w'.scr.width = w.scr.width
  height : w'.scr.height = w.scr.height
  cursor : w'.scr.cursor = w.scr.cursor
  changes : w'.scr.changes = w.scr.changes
  offset : w.scr.offset ≤ w'.scr.offset
  shape : ∀ a b, a = w.scr.width → Shape a b w.scr.cells → Shape a b w'.scr.cells
  /-- without scrolling the screen is untouched and the cache stays correct -/
  still : w'.scr.offset = w.scr.offset → w'.scr = w.scr ∧ (CacheOk w.cache → CacheOk w'.cache)

theorem FillFrame.refl (w : World) : FillFrame w w :=
  ⟨rfl, rfl, rfl, rfl, le_refl _, fun _ _ _ h => h, fun _ => ⟨rfl, id⟩⟩

theorem FillFrame.trans {a b c : World} (h1 : FillFrame a b) (h2 : FillFrame b c) :
    FillFrame a c where
  width := h2.width.trans h1.width
  height := h2.height.trans h1.height
  cursor := h2.cursor.trans h1.cursor
  changes := h2.changes.trans h1.changes
  offset := le_trans h1.offset h2.offset
  shape x y hx h := h2.shape x y (by rw [hx, h1.width]) (h1.shape x y hx h)
  still h := by
    have e1 : b.scr.offset = a.scr.offset := le_antisymm (h ▸ h2.offset) h1.offset
    obtain ⟨p1, p2⟩ := h1.still e1
    obtain ⟨q1, q2⟩ := h2.still (by omega)
    exact ⟨q1.trans p1, fun h => q2 (p2 h)⟩

theorem FillFrame.cacheGet (w : World) (s : Span) :
    FillFrame w { w with cache := (w.cache.get s).2 } :=
  ⟨rfl, rfl, rfl, rfl, le_refl _, fun _ _ _ h => h, fun _ => ⟨rfl, fun h => (h.get s).2⟩⟩

theorem Shape.scroll {w h : Nat} {r : List Cell} {rows : List (List Cell)} (c : Cell)
    (hs : Shape w h (r :: rows)) : Shape w h (rows ++ [List.replicate w c]) where
  rows := by have := hs.rows; simpa using this
  cols := by
    intro row hrow
    rcases List.mem_append.mp hrow with h1 | h1
    · exact hs.cols row (by simp [h1])
    · simp only [List.mem_singleton] at h1; subst h1; simp

/-- What one span does, as a relation; used to run inductions over `putSpans`. -/
theorem putSpans_frame (spans : List Span) (i : Nat) (p : Pen) (m : Mats) (w : World) :
    FillFrame w (putSpans spans i p m w).2.2.1 := by
  induction spans generalizing i p m w with
  | nil => exact .refl w
  | cons span rest ih =>
    have hget := FillFrame.cacheGet w span
    unfold putSpans
    simp only
    split
    · rename_i hcond
      obtain ⟨_, hy⟩ := hcond
      split
      · exact ⟨rfl, rfl, rfl, rfl, by simp only; omega, fun _ _ _ h => h, by
          simp only; intro h; omega⟩
      · split
        · exact ⟨rfl, rfl, rfl, rfl, by simp only; omega, fun _ _ _ h => h, by
            simp only; intro h; omega⟩
        · rename_i hc
          refine FillFrame.trans (b := _) ?_ (ih _ _ _ _)
          refine ⟨rfl, rfl, rfl, rfl, ?_, ?_, ?_⟩
          · simp only; omega
          · intro a b ha h
            simp only at hc ⊢
            rw [hc] at h
            subst ha
            exact h.scroll _
          · simp only; intro h; omega
    · exact hget.trans (ih _ _ _ _)

theorem putSpans_still (spans : List Span) (i : Nat) (p : Pen) (m : Mats) (w : World)
    (hok : CacheOk w.cache) (h : (putSpans spans i p m w).2.2.1.scr.offset = w.scr.offset) :
    (putSpans spans i p m w).2.2.2 = none ∧
    ((putSpans spans i p m w).1, (putSpans spans i p m w).2.1) =
      fillSpans w.scr.width w.scr.height w.scr.offset spans p m := by
  induction spans generalizing i p m w with
  | nil => exact ⟨rfl, rfl⟩
  | cons span rest ih =>
    obtain ⟨hch, hok'⟩ := hok.get span
    unfold putSpans at h ⊢
    simp only at h ⊢
    split at h
    · rename_i hcond
      obtain ⟨_, hy⟩ := hcond
      exfalso
      split at h
      · simp only at h; omega
      · split at h
        · simp only at h; omega
        · have := (putSpans_frame rest (i + 1) _ _ _ |>.offset).trans (le_of_eq h)
          simp only at this; omega
    · rename_i hcond
      rw [if_neg hcond]
      have := ih (i + 1) _ _ { w with cache := (w.cache.get span).2 } hok' h
      rw [fillSpans]
      simp only [hch] at this ⊢
      exact this

theorem putData_frame (data : List Entry) (m : Mats) (w : World) :
    FillFrame w (putData data m w).2.1 := by
  induction data generalizing m w with
  | nil => exact .refl w
  | cons e rest ih =>
    obtain ⟨c, line⟩ := e
    cases c with
    | none => exact .refl w
    | some xy =>
      obtain ⟨x, y⟩ := xy
      have hf := putSpans_frame line 0 { x := x, y := y, last := (line.length : Int) - 1 } m w
      unfold putData
      split
      · rename_i heq; rw [heq] at hf; exact hf
      · rename_i heq; rw [heq] at hf; exact hf.trans (ih _ _)

/-- Without scrolling: the only possible exception is the `TypeError` of a missing
position, and the matrices are those of the pure fill phase. -/
theorem putData_still (data : List Entry) (m : Mats) (w : World) (hok : CacheOk w.cache)
    (h : (putData data m w).2.1.scr.offset = w.scr.offset) :
    ((putData data m w).2.2 = some .typeError ∧ ∃ e ∈ data, e.1 = none) ∨
    ((putData data m w).2.2 = none ∧ ∃ d : List ((Int × Int) × List Span),
      data = d.map (fun e => (some e.1, e.2)) ∧
      (putData data m w).1 = fillData w.scr.width w.scr.height w.scr.offset d m) := by
  induction data generalizing m w with
  | nil => exact .inr ⟨rfl, [], rfl, rfl⟩
  | cons e rest ih =>
    obtain ⟨c, line⟩ := e
    cases c with
    | none => exact .inl ⟨rfl, _, List.mem_cons_self .., rfl⟩
    | some xy =>
      obtain ⟨x, y⟩ := xy
      have hf := putSpans_frame line 0 { x := x, y := y, last := (line.length : Int) - 1 } m w
      have hs := putSpans_still line 0 { x := x, y := y, last := (line.length : Int) - 1 } m w hok
      unfold putData at h ⊢
      revert hf hs h
      rcases putSpans line 0 { x := x, y := y, last := (line.length : Int) - 1 } m w with
        ⟨p', m', w', e'⟩
      cases e' with
      | some er =>
        intro hf hs h
        exact absurd (hs h).1 (by simp)
      | none =>
        intro hf hs h
        simp only at h hf hs ⊢
        have hf2 := putData_frame rest m' w'
        have ho : w'.scr.offset = w.scr.offset :=
          le_antisymm (by rw [← h]; exact hf2.offset) hf.offset
        obtain ⟨-, hm⟩ := hs ho
        obtain ⟨hscr, hc⟩ := hf.still ho
        have hm' : m' = (fillSpans w.scr.width w.scr.height w.scr.offset line
            { x := x, y := y, last := (line.length : Int) - 1 } m).2 := by rw [← hm]
        rcases ih m' w' (hc hok) (by rw [h, ho]) with ⟨h1, e, he, hn⟩ | ⟨h1, d, hd, h2⟩
        · exact .inl ⟨h1, e, by simp [he], hn⟩
        · refine .inr ⟨h1, ((x, y), line) :: d, by simp [hd], ?_⟩
          rw [h2, fillData, hscr, hm']

/-! ### Invariants of the matrices -/

theorem putChars_inv (P : Mats → Prop) (w h : Nat) (span : Span) (chars : List Str)
    (hP : ∀ m ch x y, ch ∈ chars → ch ≠ ['\n'] → x < w → y < h → P m → P (putCell m span ch x y))
    (p : Pen) (m : Mats) (hm : P m) : P (putChars w h span chars p m).2 := by
  induction chars generalizing p m with
  | nil => exact hm
  | cons c rest ih =>
    have ih := ih (fun m ch x y hc => hP m ch x y (by simp [hc]))
    unfold putChars
    split
    · exact hm
    · split
      · exact ih _ _ hm
      · rename_i hb hn
        exact ih _ _ (hP m c _ _ (by simp) hn (by omega) (by omega) hm)

theorem fillSpans_inv (P : Mats → Prop) (w h : Nat) (off : Int) (spans : List Span)
    (hP : ∀ m sp ch x y, sp ∈ spans → ch ∈ sp.cellChars → ch ≠ ['\n'] → x < w → y < h → P m →
      P (putCell m sp ch x y))
    (p : Pen) (m : Mats) (hm : P m) : P (fillSpans w h off spans p m).2 := by
  induction spans generalizing p m with
  | nil => exact hm
  | cons sp rest ih =>
    unfold fillSpans
    apply ih (fun m sp ch x y hs => hP m sp ch x y (by simp [hs]))
    exact putChars_inv P w h sp _ (fun m ch x y => hP m sp ch x y (by simp)) _ _ hm

theorem fillData_inv (P : Mats → Prop) (w h : Nat) (off : Int)
    (data : List ((Int × Int) × List Span))
    (hP : ∀ m sp ch x y, (∃ e ∈ data, sp ∈ e.2) → ch ∈ sp.cellChars → ch ≠ ['\n'] →
      x < w → y < h → P m → P (putCell m sp ch x y))
    (m : Mats) (hm : P m) : P (fillData w h off data m) := by
  induction data generalizing m with
  | nil => exact hm
  | cons e rest ih =>
    obtain ⟨⟨x, y⟩, line⟩ := e
    unfold fillData
    apply ih
    · intro m sp ch x y ⟨e, he, hs⟩
      exact hP m sp ch x y ⟨e, by simp [he], hs⟩
    · apply fillSpans_inv P w h off line _ _ _ hm
      intro m sp ch x y hs
      exact hP m sp ch x y ⟨_, List.mem_cons_self .., hs⟩

end Slate
