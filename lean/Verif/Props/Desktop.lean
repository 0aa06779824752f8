import Verif.Spec.Desktop
import Verif.Props.Process
import Verif.Props.Often

/-!
# C121: several screens on one terminal
-/

namespace Slate
open Py Term

section
variable (env : Color.Env) (org size : Nat → Nat × Nat) (cur : Nat → Int × Int) (fill : Nat → Char) (T : State)

/-- New screens on a terminal. -/
def Desktop.new : Desktop := { scr := fun i => Screen.init (size i).1 (size i).2 (cur i) [fill i], term := T }

theorem Desktop.runAll_snoc (d : Desktop) (calls : List (Nat × Op)) (c : Nat × Op) :
    d.runAll env org (calls ++ [c]) = (d.runAll env org calls).run env org c := by
  unfold Desktop.runAll
  simp

theorem Desktop.run_self (d : Desktop) (j : Nat) (op : Op) :
    (d.run env org (j, op)).scr j =
      (exec env ((org j).1, (org j).2) { w := { scr := d.scr j, cache := d.cache }, term := d.term } op).w.scr :=
  Function.update_self _ _ _

theorem Desktop.run_other (d : Desktop) (i j : Nat) (op : Op) (h : i ≠ j) : (d.run env org (j, op)).scr i = d.scr i :=
  Function.update_of_ne h _ _

theorem opsOn_snoc (i j : Nat) (calls : List (Nat × Op)) (op : Op) :
    opsOn i (calls ++ [(j, op)]) = if j = i then opsOn i calls ++ [op] else opsOn i calls := by
  unfold opsOn
  by_cases h : j = i <;> simp [h]

/-- The sizes do not change. -/
theorem Desktop.runAll_shape (calls : List (Nat × Op)) (i : Nat) :
    let d := (Desktop.new size cur fill T).runAll env org calls
    (d.scr i).width = (size i).1 ∧ (d.scr i).height = (size i).2 ∧ Shape (size i).1 (size i).2 (d.scr i).cells ∧ 0 ≤ (d.scr i).offset := by
  induction calls using List.reverseRecOn with
  | nil => exact ⟨rfl, rfl, resize_shape _ _ _ _ true, le_refl _⟩
  | append_singleton calls c ih =>
    obtain ⟨j, op⟩ := c
    rw [Desktop.runAll_snoc]
    generalize (Desktop.new size cur fill T).runAll env org calls = d at ih ⊢
    obtain ⟨h1, h2, h3, h4⟩ := ih
    show (((d.run env org (j, op)).scr i).width = (size i).1 ∧ ((d.run env org (j, op)).scr i).height = (size i).2 ∧
      Shape (size i).1 (size i).2 ((d.run env org (j, op)).scr i).cells ∧ 0 ≤ ((d.run env org (j, op)).scr i).offset)
    by_cases hj : i = j
    · subst hj
      rw [Desktop.run_self]
      obtain ⟨f1, f2, f3, f4⟩ := exec_frame env ((org i).1, (org i).2) { w := { scr := d.scr i, cache := d.cache }, term := d.term } op
        (by show Shape (d.scr i).width (d.scr i).height _; rw [h1, h2]; exact h3)
      refine ⟨f1.trans h1, f2.trans h2, ?_, le_trans h4 f3⟩
      have f4' : Shape (d.scr i).width (d.scr i).height _ := f4
      rw [h1, h2] at f4'
      exact f4'
    · rw [Desktop.run_other env org d i j op hj]
      exact ⟨h1, h2, h3, h4⟩

/-- What holds at all times while no screen scrolls. -/
structure Desktop.Fine (den : Color → TColor) (calls : List (Nat × Op)) (d : Desktop) : Prop where
  sync : ∀ i, Sync den (org i).1 (org i).2 (d.scr i) d.term
  cache : CacheOk d.cache
  out : ∀ r c, (∀ i, ¬ InWindow (org i) (size i) r c) → d.term.grid r c = T.grid r c
  own : ∀ i, ∃ s : Sys, CacheOk s.w.cache ∧ s.w.scr = d.scr i ∧
    s = execAll env ((org i).1, (org i).2) { w := { scr := Screen.init (size i).1 (size i).2 (cur i) [fill i] }, term := T } (opsOn i calls)

theorem Op.api_uses (o : Int × Int) (op : Op) : (op.api o).Uses (fun _ => True) (fun _ => True) := by
  cases op <;> simp [Op.api, Api.Uses]

theorem Desktop.fine (den : Color → TColor) (hden : DenOk env den) (horg : ∀ i, 1 ≤ (org i).1 ∧ 1 ≤ (org i).2)
    (hdisj : ∀ i j, i ≠ j → ∀ r c, InWindow (org i) (size i) r c → ¬ InWindow (org j) (size j) r c)
    (hfill : ∀ i, Printable (fill i)) (hT : T.mode = .ground) (hpen : T.pen = Attr.clean) (calls : List (Nat × Op))
    (hops : ∀ c ∈ calls, OpOk (SpanOk env den) c.2)
    (ho : ∀ i, (((Desktop.new size cur fill T).runAll env org calls).scr i).offset = 0) :
    Desktop.Fine env org size cur fill T den calls ((Desktop.new size cur fill T).runAll env org calls) := by
  induction calls using List.reverseRecOn with
  | nil =>
    exact ⟨fun i => Sync.init den _ _ _ _ (cur i) (hfill i) T hT hpen, (by intro e he; cases he), fun _ _ _ => rfl,
      fun i => ⟨_, (by intro e he; cases he), rfl, rfl⟩⟩
  | append_singleton calls c ih =>
    obtain ⟨j, op⟩ := c
    have hsz := fun i => Desktop.runAll_shape env org size cur fill T calls i
    rw [Desktop.runAll_snoc] at ho ⊢
    generalize (Desktop.new size cur fill T).runAll env org calls = d at ih ho hsz ⊢
    simp only at hsz
    have hshape : Shape (d.scr j).width (d.scr j).height (d.scr j).cells := by
      rw [(hsz j).1, (hsz j).2.1]; exact (hsz j).2.2.1
    obtain ⟨f1, f2, f3, -⟩ := exec_frame env ((org j).1, (org j).2) { w := { scr := d.scr j, cache := d.cache }, term := d.term } op hshape
    have hoj := ho j
    rw [Desktop.run_self] at hoj
    have hdj : (d.scr j).offset = 0 := by
      have f3' : (d.scr j).offset ≤ _ := f3
      rw [hoj] at f3'
      have := (hsz j).2.2.2
      omega
    have hd : ∀ i, (d.scr i).offset = 0 := by
      intro i
      by_cases hij : i = j
      · rw [hij]; exact hdj
      · rw [← Desktop.run_other env org d i j op hij]; exact ho i
    obtain ⟨hsync, hcache, hout, hown⟩ := ih (fun c hc => hops c (by simp [hc])) hd
    obtain ⟨g1, g2⟩ := Sync.exec hden (horg j).1 (horg j).2 (s := { w := { scr := d.scr j, cache := d.cache }, term := d.term })
      (hsync j) hcache (op := op) (hops (j, op) (by simp)) (by rw [hoj]; exact hdj.symm)
    -- an operation leaves the cells of the terminal outside the window as they are
    have hgrid : ∀ r c, ¬ InWindow (org j) (size j) r c → (d.run env org (j, op)).term.grid r c = d.term.grid r c := by
      intro r c hrc
      cases op with
      | write => rfl
      | writeBulk => rfl
      | clear => rfl
      | draw =>
        refine (C12_draw_stays_inside_partial den (org j).1 (org j).2 (horg j).1 (horg j).2 (d.scr j) d.term (hsync j) r c ?_).1
        rw [(hsz j).1, (hsz j).2.1]
        exact hrc
    refine ⟨fun i => ?_, g2, fun r c hrc => ?_, fun i => ?_⟩
    · by_cases hij : i = j
      · subst hij
        rw [Desktop.run_self]
        exact g1
      · rw [Desktop.run_other env org d i j op hij]
        have hs := hsync i
        refine ⟨hs.shape, hs.nodup, hs.inside, g1.ground, g1.clean, hs.pend, fun x y cell h1 h2 => ?_⟩
        rw [hgrid]
        · exact hs.shown x y cell h1 h2
        · refine hdisj i j hij _ _ ?_
          obtain ⟨b1, b2⟩ := hs.shape.cellAt_isSome.mp (by rw [h2]; rfl)
          rw [(hsz i).1] at b1
          rw [(hsz i).2.1] at b2
          unfold InWindow
          omega
    · rw [hgrid r c (hrc j)]
      exact hout r c hrc
    · obtain ⟨s, hs1, hs2, hs3⟩ := hown i
      rw [opsOn_snoc]
      by_cases hij : j = i
      · subst hij
        rw [if_pos rfl]
        refine ⟨exec env ((org j).1, (org j).2) s op, ?_, ?_, ?_⟩
        · rw [exec_api]
          refine (run_still env s.w (op.api _) (by rw [hs2]; exact hshape)).2 ?_ hs1
          have := run_either (P := fun _ => True) env (d.scr j) d.cache s.w.cache (op.api ((org j).1, (org j).2)) (op.api_uses _) (hcache.on _) (hs1.on _)
            (by rw [← exec_api env _ { w := { scr := d.scr j, cache := d.cache }, term := d.term } op]; rw [hoj, hdj])
          have e : s.w = { scr := d.scr j, cache := s.w.cache } := by rw [← hs2]
          rw [e, this, ← exec_api env _ { w := { scr := d.scr j, cache := d.cache }, term := d.term } op, hoj]
          exact hdj.symm
        · rw [Desktop.run_self, exec_api, exec_api]
          have := run_either (P := fun _ => True) env (d.scr j) d.cache s.w.cache (op.api ((org j).1, (org j).2)) (op.api_uses _) (hcache.on _) (hs1.on _)
            (by rw [← exec_api env _ { w := { scr := d.scr j, cache := d.cache }, term := d.term } op]; rw [hoj, hdj])
          have e : s.w = { scr := d.scr j, cache := s.w.cache } := by rw [← hs2]
          rw [e, this]
        · unfold execAll at hs3 ⊢
          rw [List.foldl_append, ← hs3]
          rfl
      · rw [if_neg hij, Desktop.run_other env org d i j op (Ne.symm hij)]
        exact ⟨s, hs1, hs2, hs3⟩

theorem Desktop.runAll_others (d : Desktop) (i : Nat) (calls : List (Nat × Op)) (h : ∀ c ∈ calls, c.1 ≠ i) :
    (d.runAll env org calls).scr i = d.scr i := by
  induction calls generalizing d with
  | nil => rfl
  | cons c calls ih =>
    have := ih (d.run env org c) fun c hc => h c (by simp [hc])
    exact this.trans (Desktop.run_other env org d i c.1 c.2 (h c (by simp)).symm)

/-- **C121** (partial: not if a screen scrolls, `C121_violated`): screens whose areas do not overlap, drawn on one terminal, with operations on them in any order and number. While no screen
scrolls, the area of every screen shows after its draw what the screen would hold if it were the only one, also after anything done with
the others, and the rest of the terminal is left as it was. -/
theorem C121_windows_partial (den : Color → TColor) (hden : DenOk env den) (horg : ∀ i, 1 ≤ (org i).1 ∧ 1 ≤ (org i).2)
    (hdisj : ∀ i j, i ≠ j → ∀ r c, InWindow (org i) (size i) r c → ¬ InWindow (org j) (size j) r c)
    (hfill : ∀ i, Printable (fill i)) (hT : T.mode = .ground) (hpen : T.pen = Attr.clean) (calls : List (Nat × Op))
    (hops : ∀ c ∈ calls, OpOk (SpanOk env den) c.2) :
    let d := Desktop.runAll env org { scr := fun i => Screen.init (size i).1 (size i).2 (cur i) [fill i], term := T } calls
    let alone := fun i => (execAll env ((org i).1, (org i).2)
      { w := { scr := Screen.init (size i).1 (size i).2 (cur i) [fill i] }, term := T } (opsOn i calls)).w.scr
    (∀ i, (d.scr i).offset = 0) →
    (∀ i, d.scr i = alone i) ∧
    (∀ i pre post, calls = pre ++ (i, .draw) :: post → (∀ c ∈ post, c.1 ≠ i) →
      ∀ x y, x < (size i).1 → y < (size i).2 → ∃ cell, cellAt (alone i).cells x y = some cell ∧
        d.term.grid (y + (org i).2) (x + (org i).1) = cellGlyph den cell) ∧
    ∀ r c, (∀ i, ¬ InWindow (org i) (size i) r c) → d.term.grid r c = T.grid r c := by
  intro d alone ho
  have hf := Desktop.fine env org size cur fill T den hden horg hdisj hfill hT hpen calls hops ho
  have hal : ∀ i, d.scr i = alone i := by
    intro i
    obtain ⟨s, -, h2, rfl⟩ := hf.own i
    exact h2.symm
  refine ⟨hal, ?_, hf.out⟩
  intro i pre post hcalls hpost x y hx hy
  obtain ⟨-, -, hs, -⟩ := Desktop.runAll_shape env org size cur fill T calls i
  obtain ⟨cell, hcell⟩ := hs.exists_cell hx hy
  refine ⟨cell, by rw [← hal]; exact hcell, ?_⟩
  refine (hf.sync i).shown x y cell ?_ hcell
  have : ((Desktop.new size cur fill T).runAll env org calls).scr i =
      (((Desktop.new size cur fill T).runAll env org pre).run env org (i, .draw)).scr i := by
    rw [hcalls]
    have e : (Desktop.new size cur fill T).runAll env org (pre ++ (i, .draw) :: post) =
        (((Desktop.new size cur fill T).runAll env org pre).run env org (i, .draw)).runAll env org post := by
      unfold Desktop.runAll
      rw [List.foldl_append, List.foldl_cons]
    rw [e, Desktop.runAll_others env org _ i post hpost]
  rw [this, Desktop.run_self]
  rfl

end

/-! ### Examples -/

/-- Screens of three columns and one row, below each other. -/
def C121ex.org (i : Nat) : Nat × Nat := (1, i + 1)
def C121ex.size (_ : Nat) : Nat × Nat := (3, 1)
def C121ex.new : Desktop :=
  { scr := fun i => Screen.init (C121ex.size i).1 (C121ex.size i).2, term := { grid := fun _ _ => { ch := '?', attr := Attr.clean } } }
def C121ex.put (text : Str) (x y : Int) : Op := .write [{ text := text }] (some (x, y)) Color.black false

/-- Two screens, used in turn. -/
def C121ex.calm : List (Nat × Op) :=
  [(0, C121ex.put ['a'] 0 0), (1, C121ex.put ['b', 'c'] 1 0), (0, .draw), (1, .draw), (1, C121ex.put ['a'] 1 0), (1, .draw)]

example : (∀ i j, i ≠ j → ∀ r c, InWindow (C121ex.org i) (C121ex.size i) r c → ¬ InWindow (C121ex.org j) (C121ex.size j) r c) ∧
    ∀ i, 1 ≤ (C121ex.org i).1 ∧ 1 ≤ (C121ex.org i).2 := by
  unfold InWindow C121ex.org C121ex.size
  constructor
  · intro i j hij r c h1 h2
    simp only at h1 h2
    omega
  · intro i
    simp

example :
    let d := Desktop.runAll {} C121ex.org C121ex.new C121ex.calm
    (∀ i, (d.scr i).offset = 0) ∧
    [d.term.grid 1 1, d.term.grid 1 2, d.term.grid 1 3].map (·.ch) = ['a', ' ', ' '] ∧
    [d.term.grid 2 1, d.term.grid 2 2, d.term.grid 2 3].map (·.ch) = [' ', 'a', 'c'] ∧ (d.term.grid 1 4).ch = '?' := by
  refine ⟨?_, by decide +kernel⟩
  intro i
  by_cases h0 : i = 0
  · subst h0; decide +kernel
  · by_cases h1 : i = 1
    · subst h1; decide +kernel
    · rw [Desktop.runAll_others _ _ _ i C121ex.calm]
      · rfl
      · intro c hc
        simp only [C121ex.calm, List.mem_cons, List.not_mem_nil, or_false] at hc
        rcases hc with rfl | rfl | rfl | rfl | rfl | rfl <;> simp <;> omega

/-- **C121** fails if a screen scrolls: the first screen, which does not, has 'b' in its second column, but after its draw the terminal
shows it in the first column of the second screen, which has an 'a' there. -/
theorem C121_violated :
    let d := Desktop.runAll {} C121ex.org C121ex.new
      [(1, C121ex.put ['a'] 0 1), (0, .draw), (1, .draw), (0, C121ex.put ['a'] 0 0), (0, C121ex.put ['b'] 1 0), (0, .draw)]
    (d.scr 0).offset = 0 ∧ (d.scr 1).offset = 1 ∧
    (d.scr 0).cells.map (·.map (·.char)) = [[['a'], ['b'], [' ']]] ∧
    [d.term.grid 1 1, d.term.grid 1 2, d.term.grid 1 3].map (·.ch) = ['a', ' ', ' '] ∧
    (d.scr 1).cells.map (·.map (·.char)) = [[['a'], [], []]] ∧ (d.term.grid 2 1).ch = 'b' := by
  decide +kernel

end Slate
