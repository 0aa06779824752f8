import Verif.Model.Event

/-!
# Events: C65
-/

namespace Slate
open Py

variable {σ D : Type}

/-- Specification: calling functions one after the other with the same data. The values returned,
the final state, and the exception of the one that raised. -/
def callInOrder (d : D) : List (Listener σ D) → σ → List Ret × σ × Option PyErr
  | [], s => ([], s, none)
  | l :: ls, s =>
    match (l d s).2 with
    | .error e => ([], (l d s).1, some e)
    | .ok v =>
      let r := callInOrder d ls (l d s).1
      (v :: r.1, r.2)

/-- `None`, `bool`s, `int`s, and false values of any type. -/
def Ret.Plain : Ret → Prop
  | .other t => t = false
  | _ => True

instance (v : Ret) : Decidable v.Plain := by
  cases v <;> unfold Ret.Plain <;> infer_instance

/-- `bool`s and `int`s. -/
def Ret.Flag : Ret → Prop
  | .bool _ => True
  | .int _ => True
  | _ => False

theorem lor_eq_zero (a b : Int) : Int.lor a b = 0 ↔ a = 0 ∧ b = 0 := by
  cases a with
  | ofNat m =>
    cases b with
    | ofNat n =>
      show ((m ||| n : Nat) : Int) = 0 ↔ (m : Int) = 0 ∧ (n : Int) = 0
      norm_cast
      exact Nat.or_eq_zero_iff
    | negSucc n => exact ⟨fun h => (by cases h), fun h => (by cases h.2)⟩
  | negSucc m =>
    cases b with
    | ofNat n => exact ⟨fun h => (by cases h), fun h => (by cases h.1)⟩
    | negSucc n => exact ⟨fun h => (by cases h), fun h => (by cases h.1)⟩

theorem bor_ok (a v : Ret) (ha : a.Flag) (hv : v.Plain) :
    ∃ r, a.bor v.orFalse = .ok r ∧ r.Flag ∧ r.truthy = (a.truthy || v.truthy) := by
  have hint : ∀ x y : Int, (Ret.int (Int.lor x y)).truthy = (decide (x ≠ 0) || decide (y ≠ 0)) := by
    intro x y
    show decide (Int.lor x y ≠ 0) = _
    rw [Bool.eq_iff_iff]
    simp only [decide_eq_true_eq, Bool.or_eq_true, ne_eq, lor_eq_zero]
    tauto
  have hb : ∀ (b : Bool), decide ((if b then (1 : Int) else 0) ≠ 0) = b := by decide
  cases a with
  | none => exact ha.elim
  | other t => exact ha.elim
  | bool a =>
    cases v with
    | none => exact ⟨_, rfl, trivial, by simp [Ret.truthy]⟩
    | bool b => cases b <;> exact ⟨_, rfl, trivial, by simp [Ret.truthy]⟩
    | other t => cases hv; exact ⟨_, rfl, trivial, by simp [Ret.truthy]⟩
    | int n =>
      by_cases hn : n = 0
      · subst hn
        exact ⟨_, rfl, trivial, by simp [Ret.truthy]⟩
      · have : (Ret.int n).orFalse = .int n := by simp [Ret.orFalse, Ret.truthy, hn]
        rw [this]
        refine ⟨_, rfl, trivial, ?_⟩
        rw [hint, hb]; rfl
  | int m =>
    cases v with
    | none =>
      refine ⟨_, rfl, trivial, ?_⟩
      rw [hint]; simp [Ret.truthy]
    | bool b =>
      cases b
      · refine ⟨_, rfl, trivial, ?_⟩
        rw [hint]; simp [Ret.truthy]
      · refine ⟨_, rfl, trivial, ?_⟩
        rw [hint]; simp [Ret.truthy]
    | other t =>
      cases hv
      refine ⟨_, rfl, trivial, ?_⟩
      rw [hint]; simp [Ret.truthy]
    | int n =>
      by_cases hn : n = 0
      · subst hn
        refine ⟨_, rfl, trivial, ?_⟩
        rw [hint]; simp [Ret.truthy]
      · have : (Ret.int n).orFalse = .int n := by simp [Ret.orFalse, Ret.truthy, hn]
        rw [this]
        refine ⟨_, rfl, trivial, ?_⟩
        rw [hint]; rfl

theorem emitGo_eq (d : D) : ∀ (ls : List (Listener σ D)) (out : Ret) (s : σ), out.Flag →
    (∀ v ∈ (callInOrder d ls s).1, v.Plain) →
    (emitGo d ls out s).1 = (callInOrder d ls s).2.1 ∧
    (∀ e, (callInOrder d ls s).2.2 = some e → (emitGo d ls out s).2 = .error e) ∧
    ((callInOrder d ls s).2.2 = none → ∃ r, (emitGo d ls out s).2 = .ok r ∧ r.Flag ∧
      r.truthy = (out.truthy || (callInOrder d ls s).1.any Ret.truthy))
  | [], out, s, ho, _ => by
    refine ⟨rfl, fun e he => by simp [callInOrder] at he, fun _ => ⟨out, rfl, ho, by simp [callInOrder]⟩⟩
  | l :: ls, out, s, ho, hp => by
    rcases hl : l d s with ⟨s', r⟩
    cases r with
    | error e =>
      have h1 : callInOrder d (l :: ls) s = ([], s', some e) := by simp [callInOrder, hl]
      have h2 : emitGo d (l :: ls) out s = (s', .error e) := by simp [emitGo, hl]
      rw [h1, h2]
      exact ⟨rfl, fun e' he => by rw [Option.some.inj he], fun h => by simp at h⟩
    | ok v =>
      have h1 : callInOrder d (l :: ls) s = (v :: (callInOrder d ls s').1, (callInOrder d ls s').2) := by
        simp [callInOrder, hl]
      rw [h1] at hp ⊢
      obtain ⟨r, hr, hf, ht⟩ := bor_ok out v ho (hp v (by simp))
      have h2 : emitGo d (l :: ls) out s = emitGo d ls r s' := by simp [emitGo, hl, hr]
      rw [h2]
      obtain ⟨i1, i2, i3⟩ := emitGo_eq d ls r s' hf fun v hv => hp v (by simp [hv])
      refine ⟨i1, i2, fun h => ?_⟩
      obtain ⟨q, q1, q2, q3⟩ := i3 h
      refine ⟨q, q1, q2, ?_⟩
      rw [q3, ht]
      simp [Bool.or_assoc]

/-- C65, in part: a call of an event behaves as calling all its listeners in the order of registration,
each once, with the data, whatever the earlier ones returned; if one of them raises, the exception
propagates and the later ones are not called; otherwise the result is true iff one of the
results is. Missing: listeners that return true values that are neither `bool` nor `int`
(`C65_violated`). -/
theorem C65_call_partial (e : Event σ D) (d : D) (s : σ)
    (hp : ∀ v ∈ (callInOrder d e.listeners s).1, v.Plain) :
    (e.call d s).1 = (callInOrder d e.listeners s).2.1 ∧
    (∀ x, (callInOrder d e.listeners s).2.2 = some x → (e.call d s).2 = .error x) ∧
    ((callInOrder d e.listeners s).2.2 = none → ∃ r, (e.call d s).2 = .ok r ∧
      r.truthy = (callInOrder d e.listeners s).1.any Ret.truthy) := by
  obtain ⟨h1, h2, h3⟩ := emitGo_eq d e.listeners (.bool false) s trivial hp
  refine ⟨h1, h2, fun h => ?_⟩
  obtain ⟨r, r1, -, r3⟩ := h3 h
  exact ⟨r, r1, by simpa [Ret.truthy] using r3⟩

/-- Three listeners that note their position: all are called, and the result is true. -/
example : (Event.call (σ := List (Nat × Char)) (D := Char)
      { listeners := [fun d s => (s ++ [(0, d)], .ok (.int 2)), fun d s => (s ++ [(1, d)], .ok .none),
        fun d s => (s ++ [(2, d)], .ok (.bool false))] } 'x' []) =
    ([(0, 'x'), (1, 'x'), (2, 'x')], .ok (.int 2)) := rfl

/-- A listener that notes that it was called. -/
def noting (i : Nat) (r : Except PyErr Ret) : Listener (List (Nat × D)) D := fun d s => (s ++ [(i, d)], r)

theorem callInOrder_noting (d : D) : ∀ (rs : List Ret) (i : Nat) (s : List (Nat × D)),
    callInOrder d ((rs.zipIdx i).map fun r => noting r.2 (.ok r.1)) s =
      (rs, s ++ (List.range' i rs.length).map (·, d), none)
  | [], i, s => by simp [callInOrder]
  | r :: rs, i, s => by
    have := callInOrder_noting d rs (i + 1) (s ++ [(i, d)])
    simp only [List.zipIdx_cons, List.map_cons, callInOrder, noting]
    change callInOrder d ((rs.zipIdx (i + 1)).map fun r => noting r.2 (.ok r.1)) _ = _ at this
    simp only [show (fun d s => (s ++ [(i, d)], (Except.ok r : Except PyErr Ret))) d s = (s ++ [(i, d)], .ok r) from rfl, this]
    simp [List.range'_succ]

/-- C65, in terms of what happens: listeners numbered in the order of registration that return
`rs` are called exactly once each, in that order, with the data. -/
theorem C65_once_in_order (d : D) (rs : List Ret) (hp : ∀ r ∈ rs, r.Plain) :
    ∃ r, Event.call { listeners := (rs.zipIdx 0).map fun r => noting r.2 (.ok r.1) } d ([] : List (Nat × D)) =
      ((List.range rs.length).map (·, d), .ok r) ∧ r.truthy = rs.any Ret.truthy := by
  have h := callInOrder_noting d rs 0 []
  obtain ⟨h1, -, h3⟩ := C65_call_partial (D := D) { listeners := (rs.zipIdx 0).map fun r => noting r.2 (.ok r.1) } d []
    (by rw [h]; exact hp)
  rw [h] at h1 h3
  obtain ⟨r, r1, r2⟩ := h3 rfl
  refine ⟨r, Prod.ext ?_ r1, r2⟩
  rw [h1]
  simp [List.range_eq_range']

/-- C65, raising: exactly the listeners up to the raising one are called. -/
theorem C65_raise (d : D) (rs : List Ret) (hp : ∀ r ∈ rs, r.Plain) (x : PyErr) (rest : List (Listener (List (Nat × D)) D)) :
    Event.call { listeners := ((rs.zipIdx 0).map fun r => noting r.2 (.ok r.1)) ++ noting rs.length (.error x) :: rest } d
      ([] : List (Nat × D)) = ((List.range (rs.length + 1)).map (·, d), .error x) := by
  have key : ∀ (ls : List (Listener (List (Nat × D)) D)) (m : Listener (List (Nat × D)) D) (rest) (s s' s'' : List (Nat × D)) (vs)
      (_ : callInOrder d ls s = (vs, s', none)) (_ : m d s' = (s'', .error x)),
      callInOrder d (ls ++ m :: rest) s = (vs, s'', some x) := by
    intro ls
    induction ls with
    | nil =>
      intro m rest s s' s'' vs h1 h2
      simp only [callInOrder, Prod.mk.injEq] at h1
      obtain ⟨rfl, rfl, -⟩ := h1
      simp [callInOrder, h2]
    | cons l ls ih =>
      intro m rest s s' s'' vs h1 h2
      rcases hl : l d s with ⟨t, r⟩
      cases r with
      | error e => simp [callInOrder, hl] at h1
      | ok v =>
        simp only [callInOrder, hl, Prod.mk.injEq] at h1
        obtain ⟨rfl, h3⟩ := h1
        have := ih m rest t s' s'' (callInOrder d ls t).1 (Prod.ext rfl h3) h2
        simp [callInOrder, hl, this]
  have hc := key _ (noting rs.length (.error x)) rest [] _ _ _ (callInOrder_noting d rs 0 []) rfl
  obtain ⟨h1, h2, -⟩ := C65_call_partial (D := D)
    { listeners := ((rs.zipIdx 0).map fun r => noting r.2 (.ok r.1)) ++ noting rs.length (.error x) :: rest } d []
    (by rw [hc]; exact hp)
  rw [hc] at h1 h2
  refine Prod.ext ?_ (h2 x rfl)
  rw [h1]
  simp [List.range_succ, List.range_eq_range']

/-- C65, `clear`: no listener is invoked afterwards, and the event counts as empty. -/
theorem C65_clear (e : Event σ D) (d : D) (s : σ) :
    e.clear.call d s = (s, .ok (.bool false)) ∧ e.clear.truthy = false := ⟨rfl, rfl⟩

/-- C65, registration: `+=` and `append` put the listener behind those registered before; `+=` rejects
objects that cannot be called. -/
theorem C65_append (e : Event σ D) (l : Listener σ D) (d : D) (s : σ) :
    e.iadd (some l) = .ok (e.append l) ∧ e.iadd none = .error .valueError ∧
    callInOrder d (e.append l).listeners s =
      match callInOrder d e.listeners s with
      | (vs, s', some x) => (vs, s', some x)
      | (vs, s', none) =>
        match l d s' with
        | (s'', .error x) => (vs, s'', some x)
        | (s'', .ok v) => (vs ++ [v], s'', none) := by
  refine ⟨rfl, rfl, ?_⟩
  show callInOrder d (e.listeners ++ [l]) s = _
  generalize e.listeners = ls
  induction ls generalizing s with
  | nil =>
    simp only [List.nil_append, callInOrder]
    rcases l d s with ⟨t, r⟩
    cases r <;> rfl
  | cons m ls ih =>
    simp only [List.cons_append, callInOrder]
    rcases m d s with ⟨t, r⟩
    cases r with
    | error e => rfl
    | ok v =>
      simp only
      rw [ih t]
      rcases callInOrder d ls t with ⟨vs, s', x⟩
      cases x with
      | some x => rfl
      | none =>
        simp only
        rcases l d s' with ⟨s'', r⟩
        cases r <;> rfl

/-- C65 is violated: a listener that returns a non-empty string stops the emission with
`TypeError`; the next listener is not called. -/
theorem C65_violated :
    Event.call { listeners := [noting 0 (.ok (.other true)), noting 1 (.ok (.bool true))] } 'x' [] =
      ([(0, 'x')], .error .typeError) := rfl

theorem emitGo_stops (d : D) (l : Listener σ D) (rest : List (Listener σ D)) (v : Ret) (hv : ¬ v.Plain) :
    ∀ (pre : List (Listener σ D)) (out : Ret) (s s' s'' : σ) (vs : List Ret), out.Flag → callInOrder d pre s = (vs, s', none) →
      (∀ w ∈ vs, w.Plain) → l d s' = (s'', .ok v) → emitGo d (pre ++ l :: rest) out s = (s'', .error .typeError)
  | [], out, s, s', s'', vs, ho, hc, _, hl => by
    simp only [callInOrder, Prod.mk.injEq] at hc
    obtain ⟨-, rfl, -⟩ := hc
    have hb : out.bor v.orFalse = .error .typeError := by
      cases v with
      | other t =>
        cases t with
        | false => exact absurd rfl hv
        | true => cases out <;> first | exact ho.elim | rfl
      | none => exact absurd trivial hv
      | bool b => exact absurd trivial hv
      | int n => exact absurd trivial hv
    simp [emitGo, hl, hb]
  | m :: pre, out, s, s', s'', vs, ho, hc, hp, hl => by
    rcases hm : m d s with ⟨t, r⟩
    cases r with
    | error e => simp [callInOrder, hm] at hc
    | ok w =>
      simp only [callInOrder, hm, Prod.mk.injEq] at hc
      obtain ⟨rfl, hc⟩ := hc
      obtain ⟨q, hq, hf, -⟩ := bor_ok out w ho (hp w (by simp))
      have := emitGo_stops d l rest v hv pre q t s' s'' _ hf (Prod.ext rfl hc) (fun w hw => hp w (by simp [hw])) hl
      simp [emitGo, hm, hq, this]

/-- C65, in part: the rest of `C65_call_partial`. The first listener that returns a true value that is neither `bool` nor `int` stops the emission:
it raises `TypeError` after that listener has done its work, and the later ones are not called. -/
theorem C65_stops_partial (e : Event σ D) (d : D) (s s' s'' : σ) (pre rest : List (Listener σ D)) (l : Listener σ D) (vs : List Ret) (v : Ret)
    (he : e.listeners = pre ++ l :: rest) (hc : callInOrder d pre s = (vs, s', none)) (hp : ∀ w ∈ vs, w.Plain) (hl : l d s' = (s'', .ok v))
    (hv : ¬ v.Plain) : e.call d s = (s'', .error .typeError) := by
  rw [Event.call, he]
  exact emitGo_stops d l rest v hv pre _ s s' s'' vs trivial hc hp hl

/-- C65: one of `C65_call_partial` and `C65_stops_partial` applies to every emission. -/
theorem C65_cases (d : D) : ∀ (ls : List (Listener σ D)) (s : σ), (∀ v ∈ (callInOrder d ls s).1, v.Plain) ∨
    ∃ pre l rest vs s' s'' v, ls = pre ++ l :: rest ∧ callInOrder d pre s = (vs, s', none) ∧ (∀ w ∈ vs, w.Plain) ∧ l d s' = (s'', .ok v) ∧ ¬ v.Plain
  | [], s => .inl (by simp [callInOrder])
  | l :: ls, s => by
    rcases hl : l d s with ⟨t, r⟩
    cases r with
    | error e => exact .inl (by simp [callInOrder, hl])
    | ok v =>
      by_cases hv : v.Plain
      · rcases C65_cases d ls t with h | ⟨pre, m, rest, vs, s', s'', w, h1, h2, h3, h4, h5⟩
        · refine .inl ?_
          simp only [callInOrder, hl, List.mem_cons]
          rintro w (rfl | hw)
          · exact hv
          · exact h w hw
        · refine .inr ⟨l :: pre, m, rest, v :: vs, s', s'', w, by rw [h1]; rfl, by simp [callInOrder, hl, h2], ?_, h4, h5⟩
          simp only [List.mem_cons]
          rintro w (rfl | hw)
          · exact hv
          · exact h3 w hw
      · exact .inr ⟨[], l, ls, [], s, t, v, rfl, rfl, by simp, hl, hv⟩

/-- A case of `C65_stops_partial`: the second of three listeners returns a non-empty text. -/
example : Event.call { listeners := [noting 0 (.ok (.bool true)), noting 1 (.ok (.other true)), noting 2 (.ok .none)] } 'x' [] =
    ([(0, 'x'), (1, 'x')], .error .typeError) :=
  C65_stops_partial _ 'x' [] [(0, 'x')] [(0, 'x'), (1, 'x')] [noting 0 (.ok (.bool true))] [noting 2 (.ok .none)] (noting 1 (.ok (.other true)))
    [.bool true] (.other true) rfl rfl (by simp [Ret.Plain]) rfl (by simp [Ret.Plain])

end Slate
