import Verif.Spec.Bounded
import Verif.Lemmas.Sync

/-! As long as nothing is printed outside the margins and no line break is sent, a terminal with margins shows the same as one
without. -/

namespace Term

/-- A position inside the margins. -/
def Within (W H : Nat) (row col : Nat) : Prop := 1 ≤ row ∧ row ≤ H ∧ 1 ≤ col ∧ col ≤ W

/-- The two terminals show the same inside the margins. -/
structure Alike (W H : Nat) (U B : State) : Prop where
  mode : B.mode = U.mode
  pen : B.pen = U.pen
  cursor : Within W H U.row U.col → B.row = U.row ∧ B.col = U.col
  row : U.row ≤ H → B.row = U.row
  grid : ∀ r c, Within W H r c → B.grid r c = U.grid r c

theorem step_log (s : State) (c : Char) : ∃ l, (step s c).log = s.log ++ l := by
  unfold step
  split
  · split
    · exact ⟨[], by simp⟩
    · split
      · exact ⟨[], by simp⟩
      · split
        · exact ⟨[], by simp⟩
        · split
          · exact ⟨_, rfl⟩
          · exact ⟨[], by simp⟩
  · split
    · exact ⟨[], by simp⟩
    · split
      · exact ⟨[], by simp⟩
      · split
        · exact ⟨[], by simp⟩
        · exact ⟨[], by simp⟩
  · split
    · exact ⟨[], by simp⟩
    · split
      · refine ⟨[], ?_⟩
        simp only [List.append_nil]
        unfold dispatch
        split
        · rfl
        · split
          · rfl
          · split <;> rfl
      · exact ⟨[], by simp⟩
  · split
    · exact ⟨[], by simp⟩
    · split <;> exact ⟨[], by simp⟩
  · split
    · exact ⟨[], by simp⟩
    · split <;> exact ⟨[], by simp⟩

theorem run_log (s : State) (cs : List Char) : ∃ l, (run s cs).log = s.log ++ l := by
  induction cs generalizing s with
  | nil => exact ⟨[], by simp [run]⟩
  | cons c cs ih =>
    obtain ⟨l, hl⟩ := step_log s c
    obtain ⟨l', hl'⟩ := ih (step s c)
    exact ⟨l ++ l', by rw [show run s (c :: cs) = run (step s c) cs from rfl, hl', hl, List.append_assoc]⟩

theorem Alike.step {W H : Nat} {U B : State} (h : Alike W H U B) (c : Char) (hn : c ≠ '\n') (hr : c ≠ '\r') (l : List (Nat × Nat))
    (hl : (Term.step U c).log = U.log ++ l) (hin : ∀ p ∈ l, Within W H p.1 p.2) :
    Alike W H (Term.step U c) (boundedStep W H B c) := by
  obtain ⟨hm, hp, hc, hro, hg⟩ := h
  unfold boundedStep
  cases hU : U.mode with
  | ground =>
    rw [hm, hU]
    simp only [hn, if_false]
    by_cases he : c = '\x1b'
    · subst he
      simp only [ne_eq, not_true_eq_false, false_and, if_false]
      have e1 : Term.step U '\x1b' = { U with mode := .esc } := by unfold Term.step; rw [hU]; simp
      have e2 : Term.step B '\x1b' = { B with mode := .esc } := by unfold Term.step; rw [hm, hU]; simp
      rw [e1, e2]
      exact ⟨rfl, hp, hc, hro, hg⟩
    · by_cases hpr : Printable c
      · have e1 : ∀ S : State, S.mode = .ground → Term.step S c =
            { S with grid := setGrid S.grid S.row S.col { ch := c, attr := S.pen }
                     col := S.col + 1
                     log := S.log ++ [(S.row, S.col)] } := by
          intro S hS
          unfold Term.step
          rw [hS]
          simp only [he, hn, hr, hpr, if_false, if_true]
        rw [e1 U hU] at hl ⊢
        simp only [List.append_cancel_left_eq] at hl
        have hw : Within W H U.row U.col := hin (U.row, U.col) (by rw [← hl]; simp)
        obtain ⟨h1, h2⟩ := hc hw
        have : ¬ W < B.col := by rw [h2]; have := hw.2.2.2; omega
        simp only [this, and_false, if_false]
        rw [e1 B (hm.trans hU)]
        refine ⟨hm, hp, fun _ => ⟨h1, by simp only [h2]⟩, fun _ => h1, ?_⟩
        intro r k hrk
        simp only [setGrid, h1, h2, hp]
        split
        · rfl
        · exact hg r k hrk
      · simp only [hpr, false_and, and_false, if_false]
        have e1 : ∀ S : State, S.mode = .ground → Term.step S c = S := by
          intro S hS
          unfold Term.step
          rw [hS]
          simp only [he, hn, hr, hpr, if_false]
        rw [e1 U hU, e1 B (hm.trans hU)]
        exact ⟨hm, hp, hc, hro, hg⟩
  | esc =>
    rw [hm, hU]
    simp only
    unfold Term.step
    rw [hm, hU]
    simp only
    split
    · exact ⟨rfl, hp, hc, hro, hg⟩
    · split
      · exact ⟨rfl, hp, hc, hro, hg⟩
      · split
        · exact ⟨hm, hp, hc, hro, hg⟩
        · exact ⟨rfl, hp, hc, hro, hg⟩
  | str =>
    rw [hm, hU]
    simp only
    unfold Term.step
    rw [hm, hU]
    simp only
    split
    · exact ⟨rfl, hp, hc, hro, hg⟩
    · split
      · exact ⟨rfl, hp, hc, hro, hg⟩
      · exact ⟨hm, hp, hc, hro, hg⟩
  | strEsc =>
    rw [hm, hU]
    simp only
    unfold Term.step
    rw [hm, hU]
    simp only
    split
    · exact ⟨rfl, hp, hc, hro, hg⟩
    · split
      · exact ⟨hm, hp, hc, hro, hg⟩
      · exact ⟨rfl, hp, hc, hro, hg⟩
  | csi ps =>
    rw [hm, hU]
    simp only
    unfold Term.step
    rw [hm, hU]
    simp only
    by_cases hH : c = 'H'
    · subst hH
      have e1 : ('H' = '\x1b') = False := by decide
      have e2 : (64 ≤ 'H'.toNat ∧ 'H'.toNat ≤ 126) = True := by decide
      have e3 : ('H' = 'm') = False := by decide
      simp only [if_true, e1, e2, if_false]
      unfold dispatch clamp
      cases params 0 ps with
      | none =>
        refine ⟨rfl, hp, ?_, fun h => by have := hro h; simp only at h ⊢; omega, hg⟩
        intro hw
        obtain ⟨h1, h2⟩ := hc hw
        have := hw.2.1
        have := hw.2.2.2
        simp only at this ⊢
        constructor <;> simp only at * <;> omega
      | some ns =>
        simp only [e3, if_false, if_true]
        refine ⟨rfl, hp, ?_, fun h => by simp only at h ⊢; omega, hg⟩
        intro hw
        have h1 := hw.2.1
        have h2 := hw.2.2.2
        simp only at h1 h2 ⊢
        omega
    · simp only [hH, if_false]
      split
      · exact ⟨rfl, hp, hc, hro, hg⟩
      · split
        · unfold dispatch
          cases params 0 ps with
          | none => exact ⟨rfl, hp, hc, hro, hg⟩
          | some ns =>
            simp only [hH, if_false]
            split
            · exact ⟨rfl, by simp only [hp], hc, hro, hg⟩
            · exact ⟨rfl, hp, hc, hro, hg⟩
        · exact ⟨rfl, hp, hc, hro, hg⟩

theorem Alike.run {W H : Nat} (cs : List Char) (hn : '\n' ∉ cs) (hr : '\r' ∉ cs) {U B : State} (h : Alike W H U B)
    (l : List (Nat × Nat)) (hl : (Term.run U cs).log = U.log ++ l) (hin : ∀ p ∈ l, Within W H p.1 p.2) :
    Alike W H (Term.run U cs) (boundedRun W H B cs) := by
  induction cs generalizing U B l with
  | nil => exact h
  | cons c cs ih =>
    obtain ⟨l₁, h₁⟩ := step_log U c
    obtain ⟨l₂, h₂⟩ := run_log (Term.step U c) cs
    have e : l = l₁ ++ l₂ := by
      rw [show Term.run U (c :: cs) = Term.run (Term.step U c) cs from rfl, h₂, h₁, List.append_assoc] at hl
      exact (List.append_cancel_left hl).symm
    subst e
    simp only [List.mem_cons, not_or] at hn hr
    exact ih hn.2 hr.2 (h.step c (Ne.symm hn.1) (Ne.symm hr.1) l₁ h₁ fun p hp => hin p (by simp [hp])) l₂ h₂
      fun p hp => hin p (by simp [hp])

end Term

namespace Slate
open Py Term

theorem Flat.nil : Flat [] := fun _ h => absurd h (by simp)

theorem Flat.not_mem {s : Str} (h : Flat s) : '\n' ∉ s ∧ '\r' ∉ s :=
  ⟨fun hm => (h _ hm).1 rfl, fun hm => (h _ hm).2 rfl⟩

theorem flat_decInt (i : Int) : Flat (decInt i) := by
  intro c hc
  have h : c = '-' ∨ ParamChar c := by
    unfold decInt at hc
    split at hc
    · exact .inr (dec_paramChar hc)
    · rcases List.mem_cons.mp hc with h | h
      · exact .inl h
      · exact .inr (dec_paramChar h)
  rcases h with rfl | h
  · decide
  · constructor <;> (rintro rfl; exact absurd h.1 (by decide))

theorem flat_cursor (x y : Int) : Flat (cursorTo x y) := by
  unfold cursorTo
  exact ((((by unfold Flat; decide : Flat ['\x1b', '[']).append (flat_decInt y)).append
    (by unfold Flat; decide : Flat [';'])).append (flat_decInt x)).append (by unfold Flat; decide : Flat ['H'])

/-- A draw sends no line breaks if the queued strings have none. -/
theorem flat_render {s : Screen} {o : Int × Int} (h : ∀ e ∈ s.changes, Flat e.2) : Flat (s.render o).2 := by
  have key : ∀ (l : Changes) (prev : Option (Int × Int)), (∀ e ∈ l, Flat e.2) → Flat (renderGo o prev l) := by
    intro l
    induction l with
    | nil => exact fun _ _ => .nil
    | cons e l ih =>
      obtain ⟨⟨x, y⟩, str⟩ := e
      intro prev hl
      unfold renderGo
      refine Flat.append (Flat.append ?_ (hl ((x, y), str) (by simp))) (ih _ fun e he => hl e (by simp [he]))
      split
      · split
        · exact .nil
        · exact flat_cursor _ _
      · exact flat_cursor _ _
  unfold Screen.render
  simp only [Bool.false_eq_true, if_false]
  have hb := key s.changes.gather none fun e he => h e ((mem_gather _ _).mp he)
  split
  · exact hb
  · exact hb.append flat_reset

end Slate
