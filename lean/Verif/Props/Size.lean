import Verif.Model.Terminal
import Verif.Lemmas.Sync

/-!
# The size of the terminal: C63, C64
-/

namespace Slate
open Py Terminal

/-- Specification: a listener that does not use the terminal, given by what it returns or raises. -/
abbrev Answer := Nat × Nat → Except PyErr Ret

/-- The reaction of such a listener. -/
def Answer.reaction (f : Answer) : Nat × Nat → Reaction := fun size =>
  match f size with
  | .ok v => .done v
  | .error e => .fail e

/-- The listener returns `None`, a `bool`, an `int` or a false value. -/
def Answer.Fine (f : Answer) : Prop := ∀ size, ∃ v, f size = .ok v ∧
  (v = .none ∨ (∃ b, v = .bool b) ∨ (∃ n, v = .int n) ∨ v = .other false)

/-- The state after `n` size queries, and the results. -/
def queries (os : Nat → Nat × Nat) (ls : List (Nat × Nat → Reaction)) (depth : Nat) :
    Nat → State → State × List (Except PyErr (Nat × Nat))
  | 0, s => (s, [])
  | n + 1, s =>
    let r := queries os ls depth n s
    ((size os ls depth r.1).1, r.2 ++ [(size os ls depth r.1).2])

theorem react_fine (q) (f : Answer) (sz : Nat × Nat) (s : State) :
    react q (f.reaction sz) s = (s, f sz) := by
  unfold Answer.reaction
  cases f sz <;> rfl

theorem bor_fine (a v : Ret) (ha : (∃ b, a = .bool b) ∨ ∃ n, a = .int n)
    (hv : v = .none ∨ (∃ b, v = .bool b) ∨ (∃ n, v = .int n) ∨ v = .other false) :
    ∃ r, a.bor v.orFalse = .ok r ∧ ((∃ b, r = .bool b) ∨ ∃ n, r = .int n) := by
  have hv' : (∃ b, v.orFalse = .bool b) ∨ ∃ n, v.orFalse = .int n := by
    unfold Ret.orFalse
    rcases hv with rfl | ⟨b, rfl⟩ | ⟨n, rfl⟩ | rfl
    · exact .inl ⟨false, rfl⟩
    · split <;> exact .inl ⟨_, rfl⟩
    · split
      · exact .inr ⟨_, rfl⟩
      · exact .inl ⟨_, rfl⟩
    · exact .inl ⟨false, rfl⟩
  rcases ha with ⟨a, rfl⟩ | ⟨a, rfl⟩ <;> rcases hv' with ⟨b, hb⟩ | ⟨b, hb⟩ <;> rw [hb]
  · exact ⟨_, rfl, .inl ⟨_, rfl⟩⟩
  · exact ⟨_, rfl, .inr ⟨_, rfl⟩⟩
  · exact ⟨_, rfl, .inr ⟨_, rfl⟩⟩
  · exact ⟨_, rfl, .inr ⟨_, rfl⟩⟩

/-- Emission to listeners that neither raise nor use the terminal, followed by others. -/
theorem emit_fine (q) (sz : Nat × Nat) : ∀ (fs : List Answer) (rest : List (Nat × Nat → Reaction)) (i : Nat) (out : Ret)
    (s : State), (∀ f ∈ fs, f.Fine) → ((∃ b, out = .bool b) ∨ ∃ n, out = .int n) →
    ∃ out', ((∃ b, out' = .bool b) ∨ ∃ n, out' = .int n) ∧
      emitGo sz (userListeners q i (fs.map Answer.reaction ++ rest)) out s =
        emitGo sz (userListeners q (i + fs.length) rest) out'
          { s with calls := s.calls ++ (List.range' i fs.length).map (·, sz) }
  | [], rest, i, out, s, _, ho => ⟨out, ho, by simp⟩
  | f :: fs, rest, i, out, s, hf, ho => by
    obtain ⟨v, hv, hk⟩ := hf f (by simp) sz
    obtain ⟨r, hr, hr'⟩ := bor_fine out v ho hk
    obtain ⟨out', h1, h2⟩ := emit_fine q sz fs rest (i + 1) r { s with calls := s.calls ++ [(i, sz)] }
      (fun g hg => hf g (by simp [hg])) hr'
    refine ⟨out', h1, ?_⟩
    simp only [List.map_cons, List.cons_append, userListeners, emitGo, react_fine, hv, hr]
    rw [h2]
    simp [List.range'_succ, Nat.add_assoc, Nat.add_comm 1]

theorem resize_dims (s : Screen) (sz : Nat × Nat) :
    (s.resize sz).width = sz.1 ∧ (s.resize sz).height = sz.2 := ⟨rfl, rfl⟩

/-- One query with listeners that neither raise nor use the terminal. -/
theorem size_fine (os : Nat → Nat × Nat) (fs : List Answer) (hf : ∀ f ∈ fs, f.Fine) (depth : Nat) (s : State)
    (p : Nat × Nat) (hp : s.prev = some p) :
    size os (fs.map Answer.reaction) (depth + 1) s =
      ({ prev := some (os s.clock), clock := s.clock + 1,
         scr := if os s.clock = p then s.scr else s.scr.resize (os s.clock),
         calls := s.calls ++ if os s.clock = p then [] else (List.range fs.length).map (·, os s.clock) },
       .ok (os s.clock)) := by
  obtain ⟨prev, scr, clock, calls⟩ := s
  simp only at hp
  subst hp
  simp only
  by_cases hne : os clock = p
  · simp [size, hne]
  · obtain ⟨out', h1, h2⟩ := emit_fine (size os (fs.map Answer.reaction) depth) (os clock) fs [] 0 (.bool true)
      { prev := some p, calls := calls, clock := clock + 1, scr := scr.resize (os clock) } hf (.inl ⟨true, rfl⟩)
    rw [List.append_nil] at h2
    have h3 : Event.call ⟨resizeListener :: userListeners (size os (fs.map Answer.reaction) depth) 0 (fs.map Answer.reaction)⟩
        (os clock) { prev := some p, calls := calls, clock := clock + 1, scr := scr } =
        ({ prev := some p, clock := clock + 1, scr := scr.resize (os clock),
                  calls := calls ++ (List.range' 0 fs.length).map (·, os clock) }, .ok out') := by
      show emitGo _ (_ :: _) _ _ = _
      simp only [emitGo, resizeListener]
      exact h2
    simp only [size, ne_eq, hne, not_false_iff, if_true, h3, if_false]
    simp [List.range_eq_range']

/-- C63, in part: over any sequence of sizes reported by the system, every size query returns the size
just reported, the listeners are notified at exactly the queries whose answer differs from the
answer before (all of them, in order, once each, with the new size), and the screen has the size
observed last. Missing: listeners that raise (`C63_raising_violated`), that return true values
that are neither `bool` nor `int` (the same, see C65), or that query the size (C64). -/
theorem C63_history_partial (os : Nat → Nat × Nat) (fs : List Answer) (hf : ∀ f ∈ fs, f.Fine) (depth n : Nat) :
    let r := queries os (fs.map Answer.reaction) (depth + 1) n (create os)
    r.2 = (List.range n).map (fun i => .ok (os (i + 1))) ∧
    r.1.calls = (List.range n).flatMap (fun i =>
      if os (i + 1) = os i then [] else (List.range fs.length).map (·, os (i + 1))) ∧
    (r.1.scr.width, r.1.scr.height) = os n ∧ Shape (os n).1 (os n).2 r.1.scr.cells := by
  suffices h : ∀ n, (queries os (fs.map Answer.reaction) (depth + 1) n (create os)).1.prev = some (os n) ∧
      (queries os (fs.map Answer.reaction) (depth + 1) n (create os)).1.clock = n + 1 ∧
      (let r := queries os (fs.map Answer.reaction) (depth + 1) n (create os)
       r.2 = (List.range n).map (fun i => .ok (os (i + 1))) ∧
       r.1.calls = (List.range n).flatMap (fun i =>
          if os (i + 1) = os i then [] else (List.range fs.length).map (·, os (i + 1))) ∧
       (r.1.scr.width, r.1.scr.height) = os n ∧ Shape (os n).1 (os n).2 r.1.scr.cells) from (h n).2.2
  intro n
  induction n with
  | zero => exact ⟨rfl, rfl, rfl, rfl, rfl, resize_shape _ _ _ _ _⟩
  | succ n ih =>
    obtain ⟨h1, h2, h3, h4, h5, h6⟩ := ih
    have hq := size_fine os fs hf depth _ _ h1
    have e1 : (queries os (fs.map Answer.reaction) (depth + 1) (n + 1) (create os)).1 =
        (size os (fs.map Answer.reaction) (depth + 1) (queries os (fs.map Answer.reaction) (depth + 1) n (create os)).1).1 := rfl
    have e2 : (queries os (fs.map Answer.reaction) (depth + 1) (n + 1) (create os)).2 =
        (queries os (fs.map Answer.reaction) (depth + 1) n (create os)).2 ++
        [(size os (fs.map Answer.reaction) (depth + 1) (queries os (fs.map Answer.reaction) (depth + 1) n (create os)).1).2] := rfl
    simp only [e1, e2, hq, h2]
    refine ⟨trivial, trivial, ?_, ?_, ?_, ?_⟩
    · rw [h3, List.range_succ, List.map_append]; rfl
    · rw [h4, List.range_succ, List.flatMap_append]; simp
    · split
      · rename_i he; rw [h5, he]
      · rfl
    · split
      · rename_i he; rw [he]; exact h6
      · exact resize_shape _ _ _ _ _

/-- The system reports 4×2, 4×2, 6×3, 6×3, 4×2: the two listeners are told twice. -/
example : (queries (fun i => if i = 2 ∨ i = 3 then (6, 3) else (4, 2))
      ([(fun _ => .ok .none : Answer), fun s => .ok (.int s.1)].map Answer.reaction) 1 4
      (create (fun i => if i = 2 ∨ i = 3 then (6, 3) else (4, 2)))).1.calls =
    [(0, (6, 3)), (1, (6, 3)), (0, (4, 2)), (1, (4, 2))] := rfl

/-- C63, raising listeners: if a listener raises, the exception propagates from the query, the
listeners behind it are not called, the screen is resized, and the size before the change is still
the one that the next query compares with. -/
theorem C63_raising (os : Nat → Nat × Nat) (fs : List Answer) (hf : ∀ f ∈ fs, f.Fine) (f : Answer) (e : PyErr)
    (rest : List (Nat × Nat → Reaction)) (depth : Nat) (s : State) (p : Nat × Nat) (hp : s.prev = some p)
    (hne : os s.clock ≠ p) (hfail : f (os s.clock) = .error e) :
    size os (fs.map Answer.reaction ++ f.reaction :: rest) (depth + 1) s =
      ({ prev := some p, clock := s.clock + 1, scr := s.scr.resize (os s.clock),
         calls := s.calls ++ (List.range (fs.length + 1)).map (·, os s.clock) }, .error e) := by
  obtain ⟨prev, scr, clock, calls⟩ := s
  simp only at hp
  subst hp
  simp only at hne hfail ⊢
  obtain ⟨out', h1, h2⟩ := emit_fine (size os (fs.map Answer.reaction ++ f.reaction :: rest) depth) (os clock) fs
    (f.reaction :: rest) 0 (.bool true)
    { prev := some p, calls := calls, clock := clock + 1, scr := scr.resize (os clock) } hf (.inl ⟨true, rfl⟩)
  have h3 : Event.call ⟨resizeListener :: userListeners
        (size os (fs.map Answer.reaction ++ f.reaction :: rest) depth) 0 (fs.map Answer.reaction ++ f.reaction :: rest)⟩
      (os clock) { prev := some p, calls := calls, clock := clock + 1, scr := scr } =
      ({ prev := some p, clock := clock + 1, scr := scr.resize (os clock),
                calls := calls ++ (List.range (fs.length + 1)).map (·, os clock) }, .error e) := by
    show emitGo _ (_ :: _) _ _ = _
    simp only [emitGo, resizeListener]
    refine Eq.trans h2 ?_
    simp only [userListeners, emitGo, react_fine, hfail]
    simp [List.range_succ, List.range_eq_range']
  simp only [size, ne_eq, hne, not_false_iff, if_true, h3]

/-- C63 is violated with a raising listener: the system reports 4×2, then 6×3 (a listener raises),
then 4×2 again. The last query returns 4×2 without notifying anyone, and the screen stays 6×3. -/
theorem C63_raising_violated :
    let os : Nat → Nat × Nat := fun i => if i = 1 then (6, 3) else (4, 2)
    let r := queries os [fun _ => .fail (.user 0)] 1 2 (create os)
    r.2 = [.error (.user 0), .ok (4, 2)] ∧ r.1.calls = [(0, (6, 3))] ∧ (r.1.scr.width, r.1.scr.height) = (6, 3) :=
  ⟨rfl, rfl, rfl⟩

/-- C64 is violated, for every such listener: while the terminal has a size different from the one
observed before, every size query ends in `RecursionError`, whatever the recursion limit, if one of
the listeners starts by querying the size; and the old size is kept, so that later queries fail in the
same way. -/
theorem C64_violated (os : Nat → Nat × Nat) (fs : List Answer) (hf : ∀ f ∈ fs, f.Fine)
    (k : Nat × Nat → Nat × Nat → Reaction) (rest : List (Nat × Nat → Reaction)) (p new : Nat × Nat) (hne : new ≠ p) :
    ∀ (depth : Nat) (s : State), s.prev = some p → (∀ n, s.clock ≤ n → os n = new) →
      (size os (fs.map Answer.reaction ++ (fun sz => .query (k sz)) :: rest) depth s).2 = .error .recursionError ∧
      (size os (fs.map Answer.reaction ++ (fun sz => .query (k sz)) :: rest) depth s).1.prev = some p
  | 0, s, hp, _ => ⟨rfl, hp⟩
  | depth + 1, s, hp, hos => by
    obtain ⟨prev, scr, clock, calls⟩ := s
    simp only at hp
    subst hp
    simp only at hos ⊢
    have hn : os clock = new := hos _ le_rfl
    obtain ⟨out', h1, h2⟩ := emit_fine (size os (fs.map Answer.reaction ++ (fun sz => .query (k sz)) :: rest) depth)
      new fs ((fun sz => .query (k sz)) :: rest) 0 (.bool true)
      { prev := some p, calls := calls, clock := clock + 1, scr := scr.resize new } hf (.inl ⟨true, rfl⟩)
    obtain ⟨i1, i2⟩ := C64_violated os fs hf k rest p new hne depth
      { prev := some p, clock := clock + 1, scr := scr.resize new,
               calls := calls ++ (List.range' 0 fs.length).map (·, new) ++ [(0 + fs.length, new)] } rfl
      (fun n hle => hos n (Nat.le_of_succ_le hle))
    generalize hx : size os (fs.map Answer.reaction ++ (fun sz => .query (k sz)) :: rest) depth
      { prev := some p, clock := clock + 1, scr := scr.resize new,
               calls := calls ++ (List.range' 0 fs.length).map (·, new) ++ [(0 + fs.length, new)] } = x at i1 i2
    have h3 : Event.call ⟨resizeListener :: userListeners
          (size os (fs.map Answer.reaction ++ (fun sz => .query (k sz)) :: rest) depth) 0
          (fs.map Answer.reaction ++ (fun sz => .query (k sz)) :: rest)⟩
        new { prev := some p, calls := calls, clock := clock + 1, scr := scr } = (x.1, .error .recursionError) := by
      show emitGo _ (_ :: _) _ _ = _
      simp only [emitGo, resizeListener]
      refine Eq.trans h2 ?_
      simp only [userListeners, emitGo, react]
      obtain ⟨x1, x2⟩ := x
      simp only at i1
      subst i1
      rw [hx]
    have h4 : size os (fs.map Answer.reaction ++ (fun sz => .query (k sz)) :: rest) (depth + 1) ⟨some p, scr, clock, calls⟩ =
        (x.1, .error .recursionError) := by
      have hne' : os clock ≠ p := hn ▸ hne
      simp only [size, ne_eq, hne', not_false_iff, if_true]
      rw [hn, h3]
    rw [h4]
    exact ⟨rfl, i2⟩

/-- The situation arises: a terminal created at 4×2 that is then 6×3 for good. -/
example : let os : Nat → Nat × Nat := fun i => if i = 0 then (4, 2) else (6, 3)
    (create os).prev = some (4, 2) ∧ ∀ n, (create os).clock ≤ n → os n = (6, 3) := by
  refine ⟨rfl, fun n hn => ?_⟩
  have : n ≠ 0 := by intro h; subst h; exact absurd hn (by decide)
  simp [this]

/-- A listener that only looks at the width when asked for a wide terminal is enough. -/
example : (size (fun i => if i = 0 then (4, 2) else (6, 3)) [fun sz => if sz.1 = 6 then .query fun _ => .done .none else .done .none]
    900 (create (fun i => if i = 0 then (4, 2) else (6, 3)))).2 = .error .recursionError := by decide +kernel

/-- C64, in part: a listener that uses the size it is given, and not the terminal, terminates, and the
size it is given is the one that the query returns. Missing: listeners that query the size, for
which the property fails (`C64_violated`). -/
theorem C64_argument_partial (os : Nat → Nat × Nat) (fs : List Answer) (hf : ∀ f ∈ fs, f.Fine) (depth : Nat)
    (s : State) (p : Nat × Nat) (hp : s.prev = some p) (hne : os s.clock ≠ p) :
    let r := size os (fs.map Answer.reaction) (depth + 1) s
    r.2 = .ok (os s.clock) ∧ ∀ i < fs.length, (i, os s.clock) ∈ r.1.calls := by
  rw [size_fine os fs hf depth s p hp]
  refine ⟨rfl, fun i hi => ?_⟩
  simp [hne, hi]

end Slate
