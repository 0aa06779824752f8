import Verif.Lemmas.Write

/-! Where the characters of a line go, independent of what is in the matrices. -/

namespace Slate
open Py

/-- One character put into the matrices. -/
structure Hit where
  x : Nat
  y : Nat
  span : Span
  char : Str

/-- Putting a character. -/
def Hit.put (m : Mats) (t : Hit) : Mats := putCell m t.span t.char t.x t.y

/-- The characters put by `putChars`. -/
def charHits (w h : Nat) (span : Span) : List Str → Int → Int → List Hit
  | [], _, _ => []
  | char :: rest, x, y =>
    if (w : Int) ≤ x ∨ x < 0 ∨ (h : Int) ≤ y ∨ y < 0 then []
    else if char = ['\n'] then charHits w h span rest x (y + 1)
    else { x := x.toNat, y := y.toNat, span := span, char := char } ::
      (if (w : Int) ≤ x + 1 then charHits w h span rest 0 (y + 1)
       else charHits w h span rest (x + 1) y)

theorem putChars_hits (w h : Nat) (span : Span) (chars : List Str) (p : Pen) (m : Mats) :
    (putChars w h span chars p m).2 = (charHits w h span chars p.x p.y).foldl Hit.put m := by
  induction chars generalizing p m with
  | nil => rfl
  | cons c rest ih =>
    unfold putChars charHits
    split
    · rfl
    · split
      · rw [ih]
      · rw [ih, List.foldl_cons]
        by_cases hw : (w : Int) ≤ p.x + 1
        · simp only [hw, if_true]; rfl
        · simp only [hw, if_false]; rfl

/-- The pen does not depend on the matrices. -/
theorem putChars_pen (w h : Nat) (span : Span) (chars : List Str) (p : Pen) (m m' : Mats) :
    (putChars w h span chars p m).1 = (putChars w h span chars p m').1 := by
  induction chars generalizing p m m' with
  | nil => rfl
  | cons c rest ih =>
    unfold putChars
    split
    · rfl
    · split
      · exact ih _ _ _
      · exact ih _ _ _

/-- The characters put by a line that does not scroll. -/
def lineHits (w h : Nat) (off : Int) : List Span → Pen → List Hit
  | [], _ => []
  | span :: rest, p =>
    charHits w h span span.cellChars p.x (p.y - off) ++
      lineHits w h off rest (putChars w h span span.cellChars { p with y := p.y - off } Mats.blank).1

theorem fillSpans_hits (w h : Nat) (off : Int) (spans : List Span) (p : Pen) (m : Mats) :
    (fillSpans w h off spans p m).2 = (lineHits w h off spans p).foldl Hit.put m := by
  induction spans generalizing p m with
  | nil => rfl
  | cons s rest ih =>
    unfold fillSpans lineHits
    simp only
    rw [ih, List.foldl_append, putChars_hits, putChars_pen _ _ _ _ _ m Mats.blank]

/-- The pen with which a line starts. -/
def startPen (e : (Int × Int) × List Span) : Pen :=
  { x := e.1.1, y := e.1.2, last := (e.2.length : Int) - 1 }

/-- All characters put by a non-scrolling `write_bulk`. -/
def dataHits (w h : Nat) (off : Int) (d : List ((Int × Int) × List Span)) : List Hit :=
  d.flatMap fun e => lineHits w h off e.2 (startPen e)

theorem fillData_hits (w h : Nat) (off : Int) (d : List ((Int × Int) × List Span)) (m : Mats) :
    fillData w h off d m = (dataHits w h off d).foldl Hit.put m := by
  induction d generalizing m with
  | nil => rfl
  | cons e rest ih =>
    obtain ⟨⟨x, y⟩, line⟩ := e
    unfold fillData
    rw [ih, fillSpans_hits]
    simp [dataHits, List.foldl_append, startPen]

/-! ### Hits are inside the screen -/

theorem charHits_inside (w h : Nat) (span : Span) (chars : List Str) (x y : Int) :
    ∀ t ∈ charHits w h span chars x y, t.x < w ∧ t.y < h ∧ t.span = span ∧ t.char ∈ chars ∧
      t.char ≠ ['\n'] := by
  induction chars generalizing x y with
  | nil => simp [charHits]
  | cons c rest ih =>
    intro t ht
    unfold charHits at ht
    split at ht
    · simp at ht
    · rename_i hb
      have hx : x.toNat < w := by omega
      have hy : y.toNat < h := by omega
      split at ht
      · obtain ⟨h1, h2, h3, h4, h5⟩ := ih _ _ t ht
        exact ⟨h1, h2, h3, by simp [h4], h5⟩
      · rename_i hc
        rcases List.mem_cons.mp ht with rfl | ht
        · exact ⟨hx, hy, rfl, by simp, hc⟩
        · split at ht <;>
          · obtain ⟨h1, h2, h3, h4, h5⟩ := ih _ _ t ht
            exact ⟨h1, h2, h3, by simp [h4], h5⟩

theorem lineHits_mem (w h : Nat) (off : Int) (spans : List Span) (p : Pen) :
    ∀ t ∈ lineHits w h off spans p, t.x < w ∧ t.y < h ∧ t.span ∈ spans ∧
      t.char ∈ t.span.cellChars ∧ t.char ≠ ['\n'] := by
  induction spans generalizing p with
  | nil => simp [lineHits]
  | cons s rest ih =>
    intro t ht
    unfold lineHits at ht
    rcases List.mem_append.mp ht with ht | ht
    · obtain ⟨h1, h2, rfl, h4, h5⟩ := charHits_inside _ _ _ _ _ _ t ht
      exact ⟨h1, h2, by simp, h4, h5⟩
    · obtain ⟨h1, h2, h3, h4⟩ := ih _ t ht
      exact ⟨h1, h2, by simp [h3], h4⟩

theorem dataHits_mem (w h : Nat) (off : Int) (d : List ((Int × Int) × List Span)) :
    ∀ t ∈ dataHits w h off d, t.x < w ∧ t.y < h ∧ (∃ e ∈ d, t.span ∈ e.2) ∧
      t.char ∈ t.span.cellChars ∧ t.char ≠ ['\n'] := by
  intro t ht
  obtain ⟨e, he, ht⟩ := List.mem_flatMap.mp ht
  obtain ⟨h1, h2, h3, h4⟩ := lineHits_mem _ _ _ _ _ t ht
  exact ⟨h1, h2, ⟨e, he, h3⟩, h4⟩

/-! ### Scrolling does not depend on the contents -/

/-- The offset after the fill phase, and whether it changes, only depends on size,
offset and the lengths involved. -/
theorem putSpans_still_congr (spans : List Span) (i : Nat) (p : Pen) (m m' : Mats) (w w' : World)
    (hok : CacheOk w.cache) (hok' : CacheOk w'.cache)
    (hw : w'.scr.width = w.scr.width) (hh : w'.scr.height = w.scr.height)
    (ho : w'.scr.offset = w.scr.offset)
    (h : (putSpans spans i p m w).2.2.1.scr.offset = w.scr.offset) :
    (putSpans spans i p m' w').2.2.1.scr.offset = w'.scr.offset := by
  induction spans generalizing i p m m' w w' with
  | nil => rfl
  | cons span rest ih =>
    obtain ⟨hch, hg⟩ := hok.get span
    obtain ⟨hch', hg'⟩ := hok'.get span
    unfold putSpans at h ⊢
    simp only at h ⊢
    split at h
    · rename_i hcond
      obtain ⟨_, hy⟩ := hcond
      exfalso
      split at h
      · simp only at h; omega
      · split at h
        · simp only at h; omega
        · have := (putSpans_frame rest (i + 1) _ _ _ |>.offset).trans (le_of_eq h)
          simp only at this; omega
    · rename_i hcond
      rw [hh, ho, if_neg hcond]
      have hpen := putChars_pen w.scr.width w.scr.height span span.cellChars
        { p with y := p.y - w.scr.offset } m m'
      have key := ih (i + 1) (putChars w.scr.width w.scr.height span span.cellChars
        { p with y := p.y - w.scr.offset } m).1
        (putChars w.scr.width w.scr.height span span.cellChars
        { p with y := p.y - w.scr.offset } m).2
        (putChars w.scr.width w.scr.height span span.cellChars
        { p with y := p.y - w.scr.offset } m').2 { w with cache := (w.cache.get span).2 }
        { w' with cache := (w'.cache.get span).2 } hg hg' hw hh ho (by rw [hch] at h; exact h)
      rw [hpen] at key
      rw [hch', hw]
      exact key.trans ho

/-- A `write_bulk` of explicit positions that does not scroll behaves the same in
every world with the same size and offset. -/
theorem putData_still_congr (d : List Entry) (m m' : Mats) (w w' : World)
    (hok : CacheOk w.cache) (hok' : CacheOk w'.cache)
    (hw : w'.scr.width = w.scr.width) (hh : w'.scr.height = w.scr.height)
    (ho : w'.scr.offset = w.scr.offset)
    (h : (putData d m w).2.1.scr.offset = w.scr.offset) :
    (putData d m' w').2.1.scr.offset = w'.scr.offset := by
  induction d generalizing m m' w w' with
  | nil => rfl
  | cons e rest ih =>
    obtain ⟨c, line⟩ := e
    cases c with
    | none => rfl
    | some xy =>
      obtain ⟨x, y⟩ := xy
      have f1 := putSpans_frame line 0 { x := x, y := y, last := (line.length : Int) - 1 } m w
      have f2 := putSpans_frame line 0 { x := x, y := y, last := (line.length : Int) - 1 } m' w'
      have s1 := putSpans_still line 0 { x := x, y := y, last := (line.length : Int) - 1 } m w hok
      have s2 := putSpans_still line 0 { x := x, y := y, last := (line.length : Int) - 1 } m' w' hok'
      have c1 := putSpans_still_congr line 0 { x := x, y := y, last := (line.length : Int) - 1 }
        m m' w w' hok hok' hw hh ho
      unfold putData at h ⊢
      revert f1 f2 s1 s2 c1 h
      rcases putSpans line 0 { x := x, y := y, last := (line.length : Int) - 1 } m w with
        ⟨p1, m1, w1, e1⟩
      rcases putSpans line 0 { x := x, y := y, last := (line.length : Int) - 1 } m' w' with
        ⟨p2, m2, w2, e2⟩
      intro f1 f2 s1 s2 c1 h
      simp only at h f1 f2 s1 s2 c1
      have hw1 : w1.scr.offset = w.scr.offset := by
        cases e1 with
        | some e => exact h
        | none =>
          have := (putData_frame rest m1 w1).offset
          simp only at h
          have := f1.offset
          omega
      have hw2 := c1 hw1
      obtain ⟨he1, -⟩ := s1 hw1
      obtain ⟨he2, -⟩ := s2 hw2
      subst he1 he2
      simp only at h ⊢
      obtain ⟨q1, q2⟩ := f1.still hw1
      obtain ⟨q3, q4⟩ := f2.still hw2
      have := ih m1 m2 w1 w2 (q2 hok) (q4 hok') (by rw [q1, q3]; exact hw)
        (by rw [q1, q3]; exact hh) (by rw [q1, q3]; exact ho) (by rw [h, hw1])
      rw [this, hw2]

end Slate
