import Verif.Props.Desktop

/-!
# C121: the order in which the screens of a terminal are used
-/

namespace Slate
open Py Term

section
variable (env : Color.Env) (org size : Nat → Nat × Nat) (cur : Nat → Int × Int) (fill : Nat → Char) (T : State)

/-- A new screen after operations on it alone. -/
def Desktop.solo (i : Nat) (ops : List Op) : Sys :=
  execAll env ((org i).1, (org i).2) { w := { scr := Screen.init (size i).1 (size i).2 (cur i) [fill i] }, term := T } ops

/-- No screen scrolls if none does when it is alone. -/
theorem Desktop.calm (den : Color → TColor) (hden : DenOk env den) (horg : ∀ i, 1 ≤ (org i).1 ∧ 1 ≤ (org i).2)
    (hdisj : ∀ i j, i ≠ j → ∀ r c, InWindow (org i) (size i) r c → ¬ InWindow (org j) (size j) r c)
    (hfill : ∀ i, Printable (fill i)) (hT : T.mode = .ground) (hpen : T.pen = Attr.clean) (calls : List (Nat × Op))
    (hops : ∀ c ∈ calls, OpOk (SpanOk env den) c.2)
    (ho : ∀ i, (Desktop.solo env org size cur fill T i (opsOn i calls)).w.scr.offset = 0) :
    ∀ i, (((Desktop.new size cur fill T).runAll env org calls).scr i).offset = 0 := by
  induction calls using List.reverseRecOn with
  | nil => intro i; rfl
  | append_singleton calls c ih =>
    obtain ⟨j, op⟩ := c
    have hinit : ∀ i, Shape (size i).1 (size i).2 (Screen.init (size i).1 (size i).2 (cur i) [fill i]).cells :=
      fun i => resize_shape _ _ _ _ true
    have hstep : Desktop.solo env org size cur fill T j (opsOn j (calls ++ [(j, op)])) =
        exec env ((org j).1, (org j).2) (Desktop.solo env org size cur fill T j (opsOn j calls)) op := by
      rw [opsOn_snoc, if_pos rfl]
      unfold Desktop.solo execAll
      simp
    obtain ⟨f1, f2, f3, f4⟩ := execAll_frame env ((org j).1, (org j).2)
      { w := { scr := Screen.init (size j).1 (size j).2 (cur j) [fill j] }, term := T } (opsOn j calls) (hinit j)
    have hpre : ∀ i, (Desktop.solo env org size cur fill T i (opsOn i calls)).w.scr.offset = 0 := by
      intro i
      by_cases hij : j = i
      · subst hij
        have h1 := ho j
        rw [hstep] at h1
        have h2 := (exec_frame env ((org j).1, (org j).2) (Desktop.solo env org size cur fill T j (opsOn j calls)) op
          (by
            show Shape (Desktop.solo env org size cur fill T j (opsOn j calls)).w.scr.width _ _
            unfold Desktop.solo
            rw [f1, f2]; exact f4)).2.2.1
        have h3 : (0 : Int) ≤ (Desktop.solo env org size cur fill T j (opsOn j calls)).w.scr.offset := f3
        omega
      · have := ho i
        rw [opsOn_snoc, if_neg hij] at this
        exact this
    have hcalm := ih (fun c hc => hops c (by simp [hc])) hpre
    have hf := Desktop.fine env org size cur fill T den hden horg hdisj hfill hT hpen calls (fun c hc => hops c (by simp [hc])) hcalm
    intro i
    rw [Desktop.runAll_snoc]
    generalize (Desktop.new size cur fill T).runAll env org calls = d at hf hcalm ⊢
    by_cases hij : i = j
    · subst hij
      obtain ⟨s, g1, g2, g3⟩ := hf.own i
      have g4 : Desktop.solo env org size cur fill T i (opsOn i calls) = s := g3.symm
      rw [Desktop.run_self, exec_api]
      have h1 := ho i
      rw [hstep, g4, exec_api] at h1
      have e : s.w = { scr := d.scr i, cache := s.w.cache } := by rw [← g2]
      rw [e] at h1
      have := run_either (P := fun _ => True) env (d.scr i) s.w.cache d.cache (op.api ((org i).1, (org i).2)) (op.api_uses _)
        (g1.on _) (hf.cache.on _) (by rw [h1, hcalm i])
      exact (congrArg (·.offset) this).trans h1
    · rw [Desktop.run_other env org d i j op hij]
      exact hcalm i

/-- **C121** (partial: not if a screen scrolls): the order in which screens whose areas do not overlap are used has no influence. If the same
is done with every screen, ending with a draw, the screens and everything that the terminal shows are the same. -/
theorem C121_order_partial (den : Color → TColor) (hden : DenOk env den) (horg : ∀ i, 1 ≤ (org i).1 ∧ 1 ≤ (org i).2)
    (hdisj : ∀ i j, i ≠ j → ∀ r c, InWindow (org i) (size i) r c → ¬ InWindow (org j) (size j) r c)
    (hfill : ∀ i, Printable (fill i)) (hT : T.mode = .ground) (hpen : T.pen = Attr.clean) (calls calls' : List (Nat × Op))
    (hops : ∀ c ∈ calls, OpOk (SpanOk env den) c.2) (hsame : ∀ i, opsOn i calls = opsOn i calls')
    (hlast : ∀ i, size i = (0, 0) ∨ ∃ pre, opsOn i calls = pre ++ [.draw])
    (ho : ∀ i, (execAll env ((org i).1, (org i).2)
      { w := { scr := Screen.init (size i).1 (size i).2 (cur i) [fill i] }, term := T } (opsOn i calls)).w.scr.offset = 0) :
    let new : Desktop := { scr := fun i => Screen.init (size i).1 (size i).2 (cur i) [fill i], term := T }
    (∀ i, (new.runAll env org calls).scr i = (new.runAll env org calls').scr i) ∧
    ∀ r c, (new.runAll env org calls).term.grid r c = (new.runAll env org calls').term.grid r c := by
  intro new
  have hops' : ∀ c ∈ calls', OpOk (SpanOk env den) c.2 := by
    rintro ⟨i, op⟩ hc
    have : op ∈ opsOn i calls' := by
      unfold opsOn
      exact List.mem_map.mpr ⟨(i, op), List.mem_filter.mpr ⟨hc, by simp⟩, rfl⟩
    rw [← hsame] at this
    obtain ⟨c', h1, h2⟩ := List.mem_map.mp this
    rw [← h2]
    exact hops c' (List.mem_filter.mp h1).1
  have c1 := Desktop.calm env org size cur fill T den hden horg hdisj hfill hT hpen calls hops ho
  have c2 := Desktop.calm env org size cur fill T den hden horg hdisj hfill hT hpen calls' hops' (by
    intro i
    rw [← hsame]; exact ho i)
  have f1 := Desktop.fine env org size cur fill T den hden horg hdisj hfill hT hpen calls hops c1
  have f2 := Desktop.fine env org size cur fill T den hden horg hdisj hfill hT hpen calls' hops' c2
  have hscr : ∀ i, (new.runAll env org calls).scr i = (new.runAll env org calls').scr i := by
    intro i
    obtain ⟨s, -, a2, a3⟩ := f1.own i
    obtain ⟨s', -, b2, b3⟩ := f2.own i
    rw [← hsame i] at b3
    have : s = s' := a3.trans b3.symm
    subst this
    exact a2.symm.trans b2
  refine ⟨hscr, fun r c => ?_⟩
  by_cases hin : ∃ i, InWindow (org i) (size i) r c
  · obtain ⟨i, hi⟩ := hin
    rcases hlast i with h0 | ⟨pre, hp⟩
    · rw [h0] at hi
      unfold InWindow at hi
      simp only at hi
      omega
    · obtain ⟨s, -, a2, a3⟩ := f1.own i
      have hnil : s.w.scr.changes = [] := by
        rw [a3, hp]
        unfold execAll
        rw [List.foldl_append]
        rfl
      obtain ⟨-, -, hsh, -⟩ := Desktop.runAll_shape env org size cur fill T calls i
      obtain ⟨i1, i2, i3, i4⟩ := hi
      obtain ⟨cell, hcell⟩ := hsh.exists_cell (x := c - (org i).1) (y := r - (org i).2) (by omega) (by omega)
      have e1 := (f1.sync i).shown _ _ cell (by rw [← a2, hnil]; rfl) hcell
      have hcell' := hcell
      have hs2 : ((Desktop.new size cur fill T).runAll env org calls).scr i = ((Desktop.new size cur fill T).runAll env org calls').scr i := hscr i
      rw [hs2] at hcell'
      have e2 := (f2.sync i).shown _ _ cell (by rw [← hs2, ← a2, hnil]; rfl) hcell'
      rw [show r - (org i).2 + (org i).2 = r by omega, show c - (org i).1 + (org i).1 = c by omega] at e1 e2
      exact e1.trans e2.symm
  · have hout : ∀ i, ¬ InWindow (org i) (size i) r c := fun i hi => hin ⟨i, hi⟩
    exact (f1.out r c hout).trans (f2.out r c hout).symm

end

/-- Two screens, used in turn or one after the other; the others are empty. -/
def C121ex.size2 (i : Nat) : Nat × Nat := if i < 2 then (3, 1) else (0, 0)
def C121ex.turns : List (Nat × Op) :=
  [(0, C121ex.put ['a'] 0 0), (1, C121ex.put ['b', 'c'] 1 0), (0, .draw), (1, C121ex.put ['a'] 1 0), (1, .draw)]
def C121ex.turns' : List (Nat × Op) :=
  [(1, C121ex.put ['b', 'c'] 1 0), (1, C121ex.put ['a'] 1 0), (1, .draw), (0, C121ex.put ['a'] 0 0), (0, .draw)]

example : (∀ i, opsOn i C121ex.turns = opsOn i C121ex.turns') ∧
    (∀ i, C121ex.size2 i = (0, 0) ∨ ∃ pre, opsOn i C121ex.turns = pre ++ [.draw]) := by
  constructor
  · intro i
    by_cases h0 : i = 0
    · subst h0; rfl
    · by_cases h1 : i = 1
      · subst h1; rfl
      · simp [opsOn, C121ex.turns, C121ex.turns', Ne.symm h0, Ne.symm h1]
  · intro i
    by_cases h0 : i = 0
    · subst h0; exact .inr ⟨[C121ex.put ['a'] 0 0], rfl⟩
    · by_cases h1 : i = 1
      · subst h1; exact .inr ⟨[C121ex.put ['b', 'c'] 1 0, C121ex.put ['a'] 1 0], rfl⟩
      · left
        unfold C121ex.size2
        rw [if_neg (by omega)]

example :
    let solo := fun (i : Nat) => (execAll {} (1, i + 1) { w := { scr := Screen.init 3 1 }, term := C121ex.new.term } (opsOn i C121ex.turns)).w.scr
    (solo 0).offset = 0 ∧ (solo 1).offset = 0 ∧ (solo 1).cells.map (·.map (·.char)) = [[[' '], ['a'], ['c']]] := by
  decide +kernel

end Slate
