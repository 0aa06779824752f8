import Verif.Spec.Api

/-! Writing does not depend on the pending changes. -/

namespace Slate
open Py

/-- The world without its pending changes. -/
def World.forget (w : World) : World := { w with scr := { w.scr with changes := [] } }

theorem putSpans_forget (spans : List Span) (i : Nat) (p : Pen) (m : Mats) (w : World) :
    (putSpans spans i p m w.forget).1 = (putSpans spans i p m w).1 ∧
    (putSpans spans i p m w.forget).2.1 = (putSpans spans i p m w).2.1 ∧
    (putSpans spans i p m w.forget).2.2.1 = (putSpans spans i p m w).2.2.1.forget ∧
    (putSpans spans i p m w.forget).2.2.2 = (putSpans spans i p m w).2.2.2 := by
  induction spans generalizing i p m w with
  | nil => exact ⟨rfl, rfl, rfl, rfl⟩
  | cons s rest ih =>
    obtain ⟨scr, cache⟩ := w
    obtain ⟨wd, ht, cells, ch, cur, off⟩ := scr
    unfold putSpans
    simp only [World.forget]
    by_cases h : (i : Int) = p.last ∧ p.y - off > (ht : Int) - 1
    · simp only [eq_true h, if_true]
      by_cases hc : (cache.get s).1.isEmpty = true
      · simp only [eq_true hc, if_true]
        exact ⟨trivial, trivial, trivial, trivial⟩
      · simp only [eq_false hc, if_false]
        cases cells with
        | nil => exact ⟨rfl, rfl, rfl, rfl⟩
        | cons r rows =>
          exact ih (i + 1) _ _
            { scr := { width := wd, height := ht, cells := rows ++ [List.replicate wd { char := [] }], changes := ch, cursor := cur,
                       offset := p.y - ht + 1 },
              cache := (cache.get s).2.assign s (appendNewline (cache.get s).1) }
    · simp only [eq_false h, if_false]
      exact ih (i + 1) _ _
        { scr := { width := wd, height := ht, cells := cells, changes := ch, cursor := cur, offset := off }, cache := (cache.get s).2 }

theorem putData_forget (data : List Entry) (m : Mats) (w : World) :
    (putData data m w.forget).1 = (putData data m w).1 ∧
    (putData data m w.forget).2.1 = (putData data m w).2.1.forget ∧
    (putData data m w.forget).2.2 = (putData data m w).2.2 := by
  induction data generalizing m w with
  | nil => exact ⟨rfl, rfl, rfl⟩
  | cons e rest ih =>
    obtain ⟨pos, line⟩ := e
    cases pos with
    | none => exact ⟨rfl, rfl, rfl⟩
    | some xy =>
      obtain ⟨x, y⟩ := xy
      unfold putData
      obtain ⟨-, h2, h3, h4⟩ := putSpans_forget line 0 { x := x, y := y, last := (line.length : Int) - 1 } m w
      generalize putSpans line 0 { x := x, y := y, last := (line.length : Int) - 1 } m w.forget = r at *
      generalize putSpans line 0 { x := x, y := y, last := (line.length : Int) - 1 } m w = r' at *
      obtain ⟨p, m', w', e⟩ := r
      obtain ⟨p', m'', w'', e'⟩ := r'
      simp only at h2 h3 h4
      subst h2 h3 h4
      cases e with
      | some e => exact ⟨rfl, rfl, rfl⟩
      | none => exact ih _ _

/-- The screen without its pending changes. -/
def Screen.forget (s : Screen) : Screen := { s with changes := [] }

theorem commitCell_forget (env : Color.Env) (tb : Color) (m : Mats) (a b : Screen × Except PyErr Nat) (pos : Nat × Nat)
    (h1 : a.1.forget = b.1.forget) (h2 : a.2 = b.2) :
    (commitCell env tb m a pos).1.forget = (commitCell env tb m b pos).1.forget ∧
    (commitCell env tb m a pos).2 = (commitCell env tb m b pos).2 := by
  obtain ⟨s, r⟩ := a
  obtain ⟨s', r'⟩ := b
  simp only at h1 h2
  subst h2
  have hc : s.cells = s'.cells := congrArg (fun s => s.cells) h1
  obtain ⟨x, y⟩ := pos
  unfold commitCell
  cases r with
  | error e => exact ⟨h1, rfl⟩
  | ok n =>
    simp only
    cases m.wm x y with
    | none => exact ⟨h1, rfl⟩
    | some c =>
      simp only [hc]
      cases cellAt s'.cells x y with
      | none => exact ⟨h1, rfl⟩
      | some old =>
        simp only
        split
        · exact ⟨h1, rfl⟩
        · refine ⟨?_, rfl⟩
          simp only [Screen.forget, Screen.mk.injEq] at h1 ⊢
          simp only [h1, and_self]

theorem commit_forget (env : Color.Env) (tb : Color) (m : Mats) (s s' : Screen) (h : s.forget = s'.forget) :
    (commit env tb m s).1.forget = (commit env tb m s').1.forget ∧ (commit env tb m s).2 = (commit env tb m s').2 := by
  have hw : s.width = s'.width := congrArg (fun s => s.width) h
  have hh : s.height = s'.height := congrArg (fun s => s.height) h
  unfold commit
  rw [hw, hh]
  have go : ∀ (l : List (Nat × Nat)) (a b : Screen × Except PyErr Nat), a.1.forget = b.1.forget → a.2 = b.2 →
      (l.foldl (commitCell env tb m) a).1.forget = (l.foldl (commitCell env tb m) b).1.forget ∧
      (l.foldl (commitCell env tb m) a).2 = (l.foldl (commitCell env tb m) b).2 := by
    intro l
    induction l with
    | nil => exact fun a b h1 h2 => ⟨h1, h2⟩
    | cons p l ih =>
      intro a b h1 h2
      obtain ⟨g1, g2⟩ := commitCell_forget env tb m a b p h1 h2
      exact ih _ _ g1 g2
  exact go _ _ _ h rfl

theorem World.forget_eq {w w' : World} : w.forget = w'.forget ↔ w.scr.forget = w'.scr.forget ∧ w.cache = w'.cache := by
  simp only [World.forget, World.mk.injEq, Screen.forget]

theorem writeBulk_forget (env : Color.Env) (data : List Entry) (tb : Color) (force : Bool) (w w' : World)
    (h : w.forget = w'.forget) :
    (writeBulk env data tb force w).1.forget = (writeBulk env data tb force w').1.forget ∧
    (writeBulk env data tb force w).2 = (writeBulk env data tb force w').2 := by
  obtain ⟨a1, a2, a3⟩ := putData_forget data Mats.blank w
  obtain ⟨b1, b2, b3⟩ := putData_forget data Mats.blank w'
  rw [h, b1] at a1
  rw [h, b2] at a2
  rw [h, b3] at a3
  unfold writeBulk
  generalize putData data Mats.blank w = r at *
  generalize putData data Mats.blank w' = r' at *
  obtain ⟨m, u, e⟩ := r
  obtain ⟨m', u', e'⟩ := r'
  simp only at a1 a2 a3
  subst a1 a3
  cases e' with
  | some e => exact ⟨a2.symm, rfl⟩
  | none =>
    simp only
    obtain ⟨c1, c2⟩ := World.forget_eq.mp a2
    obtain ⟨d1, d2⟩ := commit_forget env tb m' u.scr u'.scr c1.symm
    exact ⟨World.forget_eq.mpr ⟨d1, c2.symm⟩, d2⟩

/-- Calls that send the pending changes. -/
def Api.isRender : Api → Bool
  | .render _ _ => true
  | _ => false

theorem Api.run_forget (env : Color.Env) (op : Api) (w w' : World) (h : w.forget = w'.forget) :
    (op.run env w).forget = (op.run env w').forget := by
  obtain ⟨h1, h2⟩ := World.forget_eq.mp h
  cases op with
  | write spans cursor tb force => exact (writeBulk_forget env _ tb force w w' h).1
  | writeBulk data tb force => exact (writeBulk_forget env data tb force w w' h).1
  | clear fill =>
    refine World.forget_eq.mpr ⟨?_, h2⟩
    simp only [Screen.forget, Screen.mk.injEq] at h1
    simp only [Api.run, Screen.forget, Screen.clear, Screen.resize, h1]
  | resize a b fill keep =>
    refine World.forget_eq.mpr ⟨?_, h2⟩
    simp only [Screen.forget, Screen.mk.injEq] at h1
    simp only [Api.run, Screen.forget, Screen.resize, h1]
  | render origin redraw =>
    refine World.forget_eq.mpr ⟨?_, h2⟩
    simp only [Screen.forget, Screen.mk.injEq] at h1
    cases redraw <;> simp [Api.run, Screen.forget, Screen.render, h1]
  | getCharacters s => exact World.forget_eq.mpr ⟨h1, by simp only [Api.run, h2]⟩

theorem Api.render_forget (env : Color.Env) (op : Api) (hop : op.isRender = true) (w : World) :
    (op.run env w).forget = w.forget := by
  cases op with
  | render origin redraw => cases redraw <;> rfl
  | _ => simp [Api.isRender] at hop

theorem Api.runAll_forget (env : Color.Env) (ops : List Api) (w w' : World) (h : w.forget = w'.forget) :
    (Api.runAll env w ops).forget = (Api.runAll env w' (ops.filter fun op => !op.isRender)).forget := by
  induction ops generalizing w w' with
  | nil => exact h
  | cons op ops ih =>
    by_cases hop : op.isRender = true
    · have : (op :: ops).filter (fun op => !op.isRender) = ops.filter fun op => !op.isRender := by simp [hop]
      rw [this]
      exact ih _ _ ((op.render_forget env hop w).trans h)
    · have : (op :: ops).filter (fun op => !op.isRender) = op :: ops.filter fun op => !op.isRender := by simp [hop]
      rw [this]
      exact ih _ _ (op.run_forget env w w' h)

end Slate
