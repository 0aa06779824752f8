import Verif.Lemmas.Place

/-! Placement of lines that may contain line breaks. -/

namespace Slate
open Py

/-- How far a character moves the row-major index. -/
def stepOf (w : Nat) (c : Str) : Nat := if c = ['\n'] then w else 1

/-- The characters that are put, from row-major index `i`. -/
def walkHits (w h : Nat) : Nat → List (Span × Str) → List Hit
  | _, [] => []
  | i, (s, c) :: rest =>
    if h * w ≤ i then []
    else if c = ['\n'] then walkHits w h (i + w) rest
    else hitAt w s i c :: walkHits w h (i + 1) rest

/-- The index after the characters; it stops below the screen. -/
def walkEnd (w h : Nat) : Nat → List Str → Nat
  | i, [] => i
  | i, c :: rest => if h * w ≤ i then i else walkEnd w h (i + stepOf w c) rest

theorem break_pos {w i : Nat} (hw : 0 < w) : ((i + w) % w, (i + w) / w) = (i % w, i / w + 1) := by
  rw [Nat.add_mod_right, Nat.add_div_right _ hw]

theorem charHits_walk {w : Nat} (hw : 0 < w) (h : Nat) (span : Span) (chars : List Str) (i : Nat) :
    charHits w h span chars ((i % w : Nat) : Int) ((i / w : Nat) : Int) =
      walkHits w h i (chars.map fun c => (span, c)) := by
  induction chars generalizing i with
  | nil => rfl
  | cons c rest ih =>
    unfold charHits
    rw [if_congr (inb_iff hw) rfl rfl, List.map_cons, walkHits]
    refine ite_congr rfl (fun _ => rfl) fun hi => ite_congr rfl (fun _ => ?_) fun _ => ?_
    · rw [← ih (i + w)]
      obtain ⟨e1, e2⟩ := Prod.mk.inj (break_pos (i := i) hw)
      rw [e1, e2]; simp
    · have np := next_pos (i := i) hw
      congr 1
      rw [← ih (i + 1)]
      by_cases hc : w ≤ i % w + 1
      · rw [if_pos hc] at np
        rw [if_pos (by exact_mod_cast hc)]
        obtain ⟨e1, e2⟩ := Prod.mk.inj np
        rw [← e1, ← e2]; simp
      · rw [if_neg hc] at np
        rw [if_neg (by exact_mod_cast hc)]
        obtain ⟨e1, e2⟩ := Prod.mk.inj np
        rw [← e1, ← e2]; simp

theorem putChars_walk {w : Nat} (hw : 0 < w) (h : Nat) (span : Span) (chars : List Str) (i : Nat)
    (last : Int) (m : Mats) :
    ∃ last', (putChars w h span chars (penAt w i last) m).1 = penAt w (walkEnd w h i chars) last' := by
  induction chars generalizing i last m with
  | nil => exact ⟨last, rfl⟩
  | cons c rest ih =>
    unfold putChars walkEnd
    by_cases hge : h * w ≤ i
    · have hb : (w : Int) ≤ (penAt w i last).x ∨ (penAt w i last).x < 0 ∨
        (h : Int) ≤ (penAt w i last).y ∨ (penAt w i last).y < 0 := (inb_iff hw).mpr hge
      rw [if_pos hb, if_pos hge]
      exact ⟨last, rfl⟩
    · have hb : ¬ ((w : Int) ≤ (penAt w i last).x ∨ (penAt w i last).x < 0 ∨
        (h : Int) ≤ (penAt w i last).y ∨ (penAt w i last).y < 0) := fun hh => hge ((inb_iff hw).mp hh)
      rw [if_neg hb, if_neg hge]
      by_cases hc : c = ['\n']
      · rw [if_pos hc]
        have e : ({ penAt w i last with y := (penAt w i last).y + 1 } : Pen) = penAt w (i + w) last := by
          obtain ⟨e1, e2⟩ := Prod.mk.inj (break_pos (i := i) hw)
          simp [penAt, e2]
        rw [e, show stepOf w c = w by simp [stepOf, hc]]
        exact ih (i + w) last m
      · rw [if_neg hc, show stepOf w c = 1 by simp [stepOf, hc]]
        have np := next_pos (i := i) hw
        have e : (if (w : Int) ≤ (penAt w i last).x + 1 then ((0 : Int), (penAt w i last).y + 1)
            else ((penAt w i last).x + 1, (penAt w i last).y)) =
            ((((i + 1) % w : Nat) : Int), (((i + 1) / w : Nat) : Int)) := by
          have hx : (penAt w i last).x = ((i % w : Nat) : Int) := rfl
          have hy : (penAt w i last).y = ((i / w : Nat) : Int) := rfl
          rw [hx, hy]
          by_cases hc : w ≤ i % w + 1
          · rw [if_pos hc] at np
            rw [if_pos (by exact_mod_cast hc)]
            obtain ⟨e1, e2⟩ := Prod.mk.inj np
            rw [← e1, ← e2]; simp
          · rw [if_neg hc] at np
            rw [if_neg (by exact_mod_cast hc)]
            obtain ⟨e1, e2⟩ := Prod.mk.inj np
            rw [← e1, ← e2]; simp
        simp only [e]
        exact ih (i + 1) _ _

theorem walkHits_append (w h : Nat) (s : Span) (chars : List Str) (rest : List (Span × Str))
    (i : Nat) :
    walkHits w h i (chars.map (fun c => (s, c)) ++ rest) =
      walkHits w h i (chars.map fun c => (s, c)) ++ walkHits w h (walkEnd w h i chars) rest := by
  induction chars generalizing i with
  | nil => rfl
  | cons c cs ih =>
    simp only [List.map_cons, List.cons_append, walkHits, walkEnd]
    by_cases hge : h * w ≤ i
    · rw [if_pos hge, if_pos hge, if_pos hge]
      cases rest with
      | nil => rfl
      | cons a rest => obtain ⟨a, b⟩ := a; simp [walkHits, hge]
    · rw [if_neg hge, if_neg hge, if_neg hge]
      by_cases hc : c = ['\n']
      · rw [if_pos hc, if_pos hc, ih, show stepOf w c = w by simp [stepOf, hc]]
      · rw [if_neg hc, if_neg hc, ih, show stepOf w c = 1 by simp [stepOf, hc]]; rfl

/-- The characters put by a line. -/
theorem lineHits_walk {w : Nat} (hw : 0 < w) (h : Nat) (spans : List Span) (i : Nat) (last : Int) :
    lineHits w h 0 spans (penAt w i last) = walkHits w h i (lineChars spans) := by
  induction spans generalizing i last with
  | nil => rfl
  | cons s rest ih =>
    unfold lineHits
    have e0 : ({ penAt w i last with y := (penAt w i last).y - 0 } : Pen) = penAt w i last := by
      simp
    obtain ⟨last', e1⟩ := putChars_walk hw h s s.cellChars i last Mats.blank
    rw [e0, e1, ih]
    have e2 := charHits_walk hw h s s.cellChars i
    simp only [penAt, Int.sub_zero]
    rw [e2]
    simp only [lineChars, List.flatMap_cons]
    rw [walkHits_append]

/-- The distance covered by characters. -/
def stepsOf (w : Nat) (l : List (Span × Str)) : Nat := (l.map fun c => stepOf w c.2).sum

theorem stepOf_pos {w : Nat} (hw : 0 < w) (c : Str) : 0 < stepOf w c := by
  unfold stepOf; split <;> omega

/-- Which hits there are. -/
theorem mem_walkHits {w : Nat} (hw : 0 < w) (h : Nat) (l : List (Span × Str)) (i : Nat) (t : Hit) :
    t ∈ walkHits w h i l ↔ ∃ pre s c post, l = pre ++ (s, c) :: post ∧ c ≠ ['\n'] ∧
      i + stepsOf w pre < h * w ∧ t = hitAt w s (i + stepsOf w pre) c := by
  induction l generalizing i with
  | nil => simp [walkHits]
  | cons a rest ih =>
    obtain ⟨s, c⟩ := a
    have split : ∀ Q : Nat → Span → Str → Prop,
        (∃ pre s' c' post, (s, c) :: rest = pre ++ (s', c') :: post ∧ Q (stepsOf w pre) s' c') ↔
        (Q 0 s c ∨ ∃ pre s' c' post, rest = pre ++ (s', c') :: post ∧
          Q (stepOf w c + stepsOf w pre) s' c') := by
      intro Q
      constructor
      · rintro ⟨pre, s', c', post, he, hq⟩
        cases pre with
        | nil =>
          simp only [List.nil_append, List.cons.injEq, Prod.mk.injEq] at he
          obtain ⟨⟨rfl, rfl⟩, rfl⟩ := he
          exact .inl hq
        | cons p pre =>
          simp only [List.cons_append, List.cons.injEq] at he
          obtain ⟨rfl, rfl⟩ := he
          exact .inr ⟨pre, s', c', post, rfl, by simpa [stepsOf] using hq⟩
      · rintro (hq | ⟨pre, s', c', post, rfl, hq⟩)
        · exact ⟨[], s, c, rest, rfl, hq⟩
        · exact ⟨(s, c) :: pre, s', c', post, rfl, by simpa [stepsOf] using hq⟩
    refine Iff.trans ?_ (split fun n s' c' => c' ≠ ['\n'] ∧ i + n < h * w ∧
      t = hitAt w s' (i + n) c').symm
    unfold walkHits
    by_cases hge : h * w ≤ i
    · rw [if_pos hge]
      simp only [List.not_mem_nil, false_iff, not_or, not_exists]
      refine ⟨by omega, ?_⟩
      rintro pre s' c' post ⟨-, -, h1, -⟩
      omega
    · rw [if_neg hge]
      by_cases hc : c = ['\n']
      · rw [if_pos hc, ih, show stepOf w c = w by simp [stepOf, hc]]
        simp only [hc, ne_eq, not_true, false_and, false_or, Nat.add_assoc]
      · rw [if_neg hc, List.mem_cons, ih, show stepOf w c = 1 by simp [stepOf, hc]]
        simp only [hc, ne_eq, not_false_eq_true, true_and, Nat.add_zero, Nat.add_assoc]
        rw [show (i < h * w ∧ t = hitAt w s i c) ↔ t = hitAt w s i c from
          ⟨fun h => h.2, fun h => ⟨by omega, h⟩⟩]

/-- Different characters are put at different positions. -/
theorem steps_inj {w : Nat} (hw : 0 < w) (l : List (Span × Str)) {pre pre' post post' : List (Span × Str)}
    {a a' : Span × Str} (h : l = pre ++ a :: post) (h' : l = pre' ++ a' :: post')
    (he : stepsOf w pre = stepsOf w pre') : pre = pre' ∧ a = a' := by
  subst h
  induction pre generalizing pre' with
  | nil =>
    cases pre' with
    | nil => simp only [List.nil_append, List.cons.injEq] at h'; exact ⟨rfl, h'.1⟩
    | cons p pre' =>
      have := stepOf_pos hw p.2
      simp [stepsOf] at he
      omega
  | cons p pre ih =>
    cases pre' with
    | nil =>
      have := stepOf_pos hw p.2
      simp [stepsOf] at he
      omega
    | cons p' pre' =>
      simp only [List.cons_append, List.cons.injEq] at h'
      obtain ⟨rfl, h'⟩ := h'
      simp only [stepsOf, List.map_cons, List.sum_cons] at he
      obtain ⟨e1, e2⟩ := ih (pre' := pre') (by unfold stepsOf; omega) h'
      exact ⟨by rw [e1], e2⟩

end Slate
