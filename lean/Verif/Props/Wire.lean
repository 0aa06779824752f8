import Verif.Model.Wire
import Verif.Props.Input

/-!
# What is typed between two reads (C112), and answers of the terminal (C113)
-/

namespace Slate
open Py

namespace Wire

/-! ## C112 -/

/-- What the calls hear: what arrives after a call has set the mode of the tty and before it has found that nothing more is there. `now`
is what the present call has heard; an alarm makes it forget that. -/
def heard (listening : Bool) (now : Str) : List Ev → Str
  | [] => now
  | .typed s :: es => heard listening (if listening then now ++ s else now) es
  | .begin :: es => heard listening now es
  | .cbreak :: es => heard true [] es
  | .read :: es => heard listening now es
  | .quiet :: es => heard false now es
  | .restore :: es => now ++ heard false [] es
  | .alarm :: es => heard false [] es

/-- Everything that is typed. -/
def sentText : List Ev → Str
  | [] => []
  | .typed s :: es => s ++ sentText es
  | _ :: es => sentText es

/-- A call of `getch` is listening. -/
def Phase.listening : Phase → Bool
  | .reading _ _ => true
  | _ => false

/-- What was read but not returned yet, and what can still be read by the present call. -/
def Sys.held (s : Sys) : Str :=
  match s.phase with
  | .reading _ buff => buff ++ s.tty.queue
  | .ending _ buff => buff
  | _ => []

theorem step_heard {s s' : Sys} {e : Ev} (h : step s e = some s') (es : List Ev) :
    s'.keys.flatten ++ heard s'.phase.listening s'.held es = s.keys.flatten ++ heard s.phase.listening s.held (e :: es) := by
  obtain ⟨⟨echo, canon, queue, shown⟩, phase, keys⟩ := s
  cases e with
  | typed t =>
    injection h with h; subst h
    cases phase <;> simp [Sys.held, Phase.listening, Tty.arrive, heard]
  | begin =>
    cases phase with
    | idle => injection h with h; subst h; simp [Sys.held, Phase.listening, heard]
    | _ => cases h
  | cbreak =>
    cases phase with
    | saved old => injection h with h; subst h; simp [Sys.held, Phase.listening, Tty.setcbreak, heard]
    | _ => cases h
  | read =>
    cases phase with
    | reading old buff =>
      cases queue with
      | nil => cases h
      | cons c q => injection h with h; subst h; simp [Sys.held, Phase.listening, heard]
    | _ => cases h
  | quiet =>
    cases phase with
    | reading old buff =>
      cases queue with
      | cons c q => cases h
      | nil =>
        simp only [step] at h
        split_ifs at h
        injection h with h; subst h; simp [Sys.held, Phase.listening, heard]
    | _ => cases h
  | restore =>
    cases phase with
    | ending old buff => injection h with h; subst h; simp [Sys.held, Phase.listening, heard]
    | _ => cases h
  | alarm =>
    cases phase with
    | idle => cases h
    | _ => injection h with h; subst h; simp [Sys.held, Phase.listening, heard]

theorem run_heard {s s' : Sys} {es : List Ev} (h : run s es = some s') :
    s'.keys.flatten ++ s'.held = s.keys.flatten ++ heard s.phase.listening s.held es := by
  induction es generalizing s with
  | nil => injection h with h; subst h; simp [heard]
  | cons e es ih =>
    rw [run] at h
    cases hs : step s e with
    | none => rw [hs] at h; cases h
    | some s1 =>
      rw [hs] at h
      rw [ih h, step_heard hs]

/-- **C112**, exactly which characters are returned: in every run of a program that calls `getch` and `getch_timeout` any number of
times, the returned texts together (with what the present call holds) are what the calls heard, in order. -/
theorem C112_exact {s s' : Sys} {es : List Ev} (hi : s.phase = .idle) (hk : s.keys = []) (h : run s es = some s') :
    s'.keys.flatten ++ s'.held = heard false [] es := by
  have := run_heard h
  rw [hk, hi] at this
  simpa [Sys.held, hi, Phase.listening] using this

/-- **C112**, what is left for others: as long as no call sets the mode of the tty, nothing that arrives is discarded. What was not read,
also by a call that the alarm ended, stays in the tty for whoever reads next. -/
theorem C112_left {s s' : Sys} {es : List Ev} (h : run s es = some s') (hc : .cbreak ∉ es) :
    s'.tty.queue = (s.tty.queue ++ sentText es).drop (es.count .read) ∧ es.count .read ≤ (s.tty.queue ++ sentText es).length := by
  induction es generalizing s with
  | nil => injection h with h; subst h; simp [sentText]
  | cons e es ih =>
    rw [run] at h
    cases hs : step s e with
    | none => rw [hs] at h; cases h
    | some s1 =>
      rw [hs] at h
      obtain ⟨h1, h2⟩ := ih h (fun hm => hc (List.mem_cons_of_mem _ hm))
      rw [h1]
      clear h1 ih h
      obtain ⟨⟨echo, canon, queue, shown⟩, phase, keys⟩ := s
      cases e with
      | typed t =>
        injection hs with hs; subst hs
        simpa [Tty.arrive, sentText, List.append_assoc] using h2
      | begin =>
        cases phase with
        | idle => injection hs with hs; subst hs; simpa [sentText] using h2
        | _ => cases hs
      | cbreak => simp at hc
      | read =>
        cases phase with
        | reading old buff =>
          cases queue with
          | nil => cases hs
          | cons c q =>
            injection hs with hs; subst hs
            simp only [sentText, List.count_cons_self, List.cons_append, List.drop_succ_cons, List.length_cons]
            exact ⟨trivial, by simpa using h2⟩
        | _ => cases hs
      | quiet =>
        cases phase with
        | reading old buff =>
          cases queue with
          | cons c q => cases hs
          | nil =>
            simp only [step] at hs
            split_ifs at hs
            injection hs with hs; subst hs; simpa [sentText] using h2
        | _ => cases hs
      | restore =>
        cases phase with
        | ending old buff => injection hs with hs; subst hs; simpa [sentText, Tty.restore] using h2
        | _ => cases hs
      | alarm =>
        cases phase with
        | idle => cases hs
        | saved _ => injection hs with hs; subst hs; simpa [sentText] using h2
        | _ => injection hs with hs; subst hs; simpa [sentText, Tty.restore] using h2

/-- Two of four characters are read when the alarm strikes. -/
example : (run { phase := .reading (true, true) [] } [.typed "abc".toList, .read, .read, .alarm, .typed "d".toList]).map (·.tty.queue) =
    some "cd".toList := by decide

/-- Everything is typed while a call listens, and the alarm never strikes a call that has heard something. -/
def attentive (listening fresh : Bool) : List Ev → Prop
  | [] => True
  | .typed s :: es => s = [] ∧ attentive listening fresh es ∨ listening = true ∧ attentive listening false es
  | .begin :: es => attentive listening fresh es
  | .cbreak :: es => attentive true true es
  | .read :: es => attentive listening fresh es
  | .quiet :: es => attentive false fresh es
  | .restore :: es => attentive false true es
  | .alarm :: es => fresh = true ∧ attentive false true es

theorem heard_of_attentive {s s' : Sys} {fresh : Bool} {es : List Ev} (hf : fresh = true → s.held = []) (h : run s es = some s')
    (ha : attentive s.phase.listening fresh es) : heard s.phase.listening s.held es = s.held ++ sentText es := by
  induction es generalizing s fresh with
  | nil => simp [heard, sentText]
  | cons e es ih =>
    rw [run] at h
    cases hs : step s e with
    | none => rw [hs] at h; cases h
    | some s1 =>
      rw [hs] at h
      have key : ∀ {fresh'}, (fresh' = true → s1.held = []) → attentive s1.phase.listening fresh' es →
          heard s1.phase.listening s1.held es = s1.held ++ sentText es := fun hf ha => ih hf h ha
      obtain ⟨⟨echo, canon, queue, shown⟩, phase, keys⟩ := s
      cases e with
      | typed t =>
        injection hs with hs; subst hs
        have hheld : phase.listening = true →
            Sys.held { tty := Tty.arrive t ⟨echo, canon, queue, shown⟩, phase := phase, keys := keys } =
            Sys.held ⟨⟨echo, canon, queue, shown⟩, phase, keys⟩ ++ t := by
          cases phase <;> simp [Sys.held, Phase.listening, Tty.arrive]
        have hnil : t = [] → Sys.held { tty := Tty.arrive t ⟨echo, canon, queue, shown⟩, phase := phase, keys := keys } =
            Sys.held ⟨⟨echo, canon, queue, shown⟩, phase, keys⟩ := by
          rintro rfl
          cases phase <;> simp [Sys.held, Tty.arrive]
        simp only [heard, sentText]
        rcases ha with ⟨h1, h2⟩ | ⟨h1, h2⟩
        · have := key (fresh' := fresh) (fun h => (hnil h1).trans (hf h)) h2
          rw [hnil h1] at this
          subst h1
          simpa using this
        · have := key (fresh' := false) (by simp) h2
          rw [hheld h1] at this
          rw [if_pos h1]
          simpa using this
      | begin =>
        cases phase with
        | idle => injection hs with hs; subst hs; exact key (fresh' := fresh) (fun _ => rfl) ha
        | _ => cases hs
      | cbreak =>
        cases phase with
        | saved old => injection hs with hs; subst hs; exact key (fresh' := true) (fun _ => rfl) ha
        | _ => cases hs
      | read =>
        cases phase with
        | reading old buff =>
          cases queue with
          | nil => cases hs
          | cons c q =>
            injection hs with hs; subst hs
            have hh : Sys.held ⟨⟨echo, canon, q, shown⟩, .reading old (buff ++ [c]), keys⟩ =
                Sys.held ⟨⟨echo, canon, c :: q, shown⟩, .reading old buff, keys⟩ := by simp [Sys.held]
            have := key (fresh' := fresh) (fun h => hh.trans (hf h)) ha
            rw [hh] at this
            exact this
        | _ => cases hs
      | quiet =>
        cases phase with
        | reading old buff =>
          cases queue with
          | cons c q => cases hs
          | nil =>
            simp only [step] at hs
            split_ifs at hs
            injection hs with hs; subst hs
            have hh : Sys.held ⟨⟨echo, canon, [], shown⟩, .ending old buff, keys⟩ =
                Sys.held ⟨⟨echo, canon, [], shown⟩, .reading old buff, keys⟩ := by simp [Sys.held]
            have := key (fresh' := fresh) (fun h => hh.trans (hf h)) ha
            rw [hh] at this
            exact this
        | _ => cases hs
      | restore =>
        cases phase with
        | ending old buff =>
          injection hs with hs; subst hs
          have := key (fresh' := true) (fun _ => rfl) ha
          simp only [heard, sentText]
          exact congrArg _ this
        | _ => cases hs
      | alarm =>
        have h0 := hf ha.1
        have h1 : s1.phase.listening = false ∧ s1.held = [] := by
          cases phase with
          | idle => cases hs
          | _ => injection hs with hs; subst hs; exact ⟨rfl, rfl⟩
        have := key (fresh' := true) (fun _ => h1.2) (by rw [h1.1]; exact ha.2)
        rw [h1.1, h1.2] at this
        rw [h0]
        exact this

/-- **C112** (partial): nothing is lost, invented or reordered as long as the program is always listening when something is typed, and no
alarm strikes a call that has heard something. -/
theorem C112_nothing_lost_partial {s s' : Sys} {es : List Ev} (hi : s.phase = .idle) (hk : s.keys = []) (ha : attentive false true es)
    (h : run s es = some s') (hi' : s'.phase = .idle) : s'.keys.flatten = sentText es := by
  have h1 := C112_exact hi hk h
  have hh : s.held = [] := by simp [Sys.held, hi]
  have hl : s.phase.listening = false := by rw [hi]; rfl
  have h2 := heard_of_attentive (fresh := true) (fun _ => hh) h (by rw [hl]; exact ha)
  rw [hl, hh] at h2
  rw [h2] at h1
  simpa [Sys.held, hi'] using h1

/-- **C112 violated**: whatever is typed between two calls is discarded by the next one. The call then waits: no step of the program
is possible until something else is typed (or the alarm of a timeout strikes). And no later call returns it: what is returned is what
a program gets for which nothing was typed. -/
theorem C112_typed_ahead_violated (s : Sys) (hi : s.phase = .idle) (hk : s.keys = []) (t : Str) :
    (∃ s1, run s [.typed t, .begin, .cbreak] = some s1 ∧ s1.tty.queue = [] ∧
      ∀ e, (∀ u, e ≠ .typed u) → e ≠ .alarm → step s1 e = none) ∧
    ∀ es s', run s (.typed t :: es) = some s' → s'.keys.flatten ++ s'.held = heard false [] es := by
  obtain ⟨⟨echo, canon, queue, shown⟩, phase, keys⟩ := s
  simp only at hi hk
  subst hi; subst hk
  refine ⟨⟨_, rfl, rfl, ?_⟩, ?_⟩
  · intro e he ha
    cases e with
    | typed u => exact absurd rfl (he u)
    | alarm => exact absurd rfl ha
    | _ => rfl
  · intro es s' h
    exact (C112_exact rfl rfl h).trans (by simp [heard])

/-- **C112 violated** by `getch_timeout`: a key that was read when the time ran out is returned neither by this call nor by a later
one. -/
theorem C112_alarm_violated (tty : Tty) (k : Str) (es : List Ev) (s' : Sys)
    (h : run { tty := tty } ([.begin, .cbreak, .typed k] ++ List.replicate k.length .read ++ .alarm :: es) = some s') :
    s'.keys.flatten ++ s'.held = heard false [] es := by
  rw [C112_exact rfl rfl h]
  have : ∀ (n : Nat) (now : Str), heard true now (List.replicate n .read ++ .alarm :: es) = heard false [] es := by
    intro n
    induction n with
    | zero => intro now; rfl
    | succ n ih => intro now; exact ih now
  exact this k.length _

/-- The same within a call: a character that arrives after the last look and before the attributes are restored is discarded by
the next call. -/
theorem C112_gap_violated (old : Bool × Bool) (tty : Tty) (buff t : Str) :
    ∃ s1, run { tty := tty, phase := .ending old buff } [.typed t, .restore, .begin, .cbreak] = some s1 ∧ s1.keys = [buff] ∧
      s1.tty.queue = [] ∧ s1.held = [] := ⟨_, rfl, rfl, rfl, rfl⟩

/-- A run that meets the hypotheses of `C112_nothing_lost_partial`: two calls, three texts. -/
example : let es := [.begin, .cbreak, .typed "a".toList, .read, .typed "bc".toList, .read, .read, .quiet, .restore, .begin, .cbreak,
      .typed "d".toList, .read, .quiet, .restore]
    (run {} es).map (fun s => (s.keys, s.phase)) = some (["abc".toList, "d".toList], .idle) ∧ attentive false true es ∧
    sentText es = "abcd".toList := by
  refine ⟨by decide +kernel, by simp [attentive], by decide +kernel⟩

/-- A run as in `C112_alarm_violated`: `up` was read when the alarm struck, and the next call returns only what is typed then. -/
example : let k := "\x1b[A".toList
    (run {} ([.begin, .cbreak, .typed k] ++ List.replicate k.length .read ++ .alarm ::
      [.begin, .cbreak, .typed "x".toList, .read, .quiet, .restore])).map (fun s => (s.keys, s.phase)) = some (["x".toList], .idle) := by
  decide +kernel

/-! ## C113 -/

/-- The events of the tty during a query by a thread. -/
def tevs : List QEv → List Ev
  | [] => []
  | .ev e :: es => e :: tevs es
  | .reply s :: es => .typed s :: tevs es
  | _ :: es => tevs es

theorem qrun_run {ans : Str} {q q' : Query} {es : List QEv} (h : qrun true ans q es = some q') : run q.sys (tevs es) = some q'.sys := by
  induction es generalizing q with
  | nil => injection h with h; subst h; rfl
  | cons e es ih =>
    rw [qrun] at h
    cases hs : qstep true ans q e with
    | none => rw [hs] at h; cases h
    | some q1 =>
      rw [hs] at h
      have h1 := ih h
      cases e with
      | ev e =>
        rw [tevs, run]
        have : step q.sys e = some q1.sys := by
          cases e with
          | begin =>
            rw [qstep] at hs
            split_ifs at hs
            obtain ⟨s, e1, e2⟩ := Option.map_eq_some_iff.mp hs
            rw [e1, ← e2]
          | alarm => cases hs
          | _ =>
            rw [qstep] at hs
            · obtain ⟨s, e1, e2⟩ := Option.map_eq_some_iff.mp hs
              rw [e1, ← e2]
            · rintro ⟨⟩
            · rintro ⟨⟩
        rw [this]; exact h1
      | send =>
        rw [qstep] at hs
        split_ifs at hs
        injection hs with hs
        rw [← h1, ← hs]
        rfl
      | reply s =>
        rw [qstep] at hs
        split_ifs at hs
        injection hs with hs
        rw [tevs, run, ← h1, ← hs]
        rfl
      | timeout => rw [qstep, if_pos rfl] at hs; cases hs

/-- **C113**, exactly what a query of a colour reads: whatever the thread and the terminal do in which order, it is what arrives while
the thread is listening, and of the answer that arrives earlier nothing. -/
theorem C113_exact {ans : Str} {q q' : Query} {es : List QEv} (hi : q.sys.phase = .idle) (hk : q.sys.keys = [])
    (h : qrun true ans q es = some q') : q'.sys.keys.flatten ++ q'.sys.held = heard false [] (tevs es) := C112_exact hi hk (qrun_run h)

/-- Reading everything that is there. -/
theorem run_reads (s : Sys) (old : Bool × Bool) (buff : Str) (hp : s.phase = .reading old buff) :
    run s (List.replicate s.tty.queue.length .read) =
      some { s with tty := { s.tty with queue := [] }, phase := .reading old (buff ++ s.tty.queue) } := by
  obtain ⟨⟨echo, canon, queue, shown⟩, phase, keys⟩ := s
  simp only at hp
  subst hp
  induction queue generalizing buff with
  | nil => simp [run]
  | cons c q ih =>
    rw [List.length_cons, List.replicate_succ, run]
    simp only [step]
    rw [ih (buff ++ [c])]
    simp

/-- **C113 violated**: if the thread is slower than the terminal, the answer is discarded, and the call waits for ever: nothing but a
key can happen. For all answers, and whatever the state of the tty. -/
theorem C113_wait_violated (ans : Str) (hne : ans ≠ []) (tty : Tty) :
    ∃ q, qrun true ans { sys := { tty := tty } } [.ev .begin, .send, .reply ans, .ev .cbreak] = some q ∧ q.sys.keys = [] ∧
      ∀ e, (∀ u, e ≠ .ev (.typed u)) → qstep true ans q e = none := by
  refine ⟨{ sys := { tty := (tty.arrive ans).setcbreak, phase := .reading (tty.echo, tty.canon) [] }, sent := true, owed := [] },
    ?_, rfl, ?_⟩
  · simp [qrun, qstep, step, hne]
  · intro e he
    cases e with
    | ev e =>
      cases e with
      | typed u => exact absurd rfl (he u)
      | begin => simp [qstep, step]
      | _ => rfl
    | send => rfl
    | reply s =>
      rw [qstep, if_neg]
      rintro ⟨-, h1, h2⟩
      exact h1 (List.prefix_nil.mp h2)
    | timeout => rfl

/-- From the listening state, with something there: the call ends and returns it. -/
theorem run_return (s : Sys) (old : Bool × Bool) (hp : s.phase = .reading old []) (hne : s.tty.queue ≠ []) :
    run s (List.replicate s.tty.queue.length .read ++ [.quiet, .restore]) =
      some { tty := { s.tty with queue := [], echo := old.1, canon := old.2 }, phase := .idle, keys := s.keys ++ [s.tty.queue] } := by
  have happ : ∀ (s : Sys) (a b : List Ev), run s (a ++ b) = (run s a).bind fun s => run s b := by
    intro s a b
    induction a generalizing s with
    | nil => rfl
    | cons e a ih =>
      rw [List.cons_append, run, run]
      cases step s e with
      | none => rfl
      | some s => exact ih s
  rw [happ, run_reads s old [] hp]
  simp [run, step, Tty.restore, hne]

theorem qrun_append (threaded : Bool) (ans : Str) (q : Query) (a b : List QEv) :
    qrun threaded ans q (a ++ b) = (qrun threaded ans q a).bind fun q => qrun threaded ans q b := by
  induction a generalizing q with
  | nil => rfl
  | cons e a ih =>
    rw [List.cons_append, qrun, qrun]
    cases qstep threaded ans q e with
    | none => rfl
    | some q => exact ih q

theorem qrun_evs (threaded : Bool) (ans : Str) (q : Query) (es : List Ev) (hb : .begin ∉ es) (ha : .alarm ∉ es) (s : Sys) (h : run q.sys es = some s) :
    qrun threaded ans q (es.map .ev) = some { q with sys := s } := by
  induction es generalizing q with
  | nil => injection h with h; subst h; rfl
  | cons e es ih =>
    rw [run] at h
    cases hs : step q.sys e with
    | none => rw [hs] at h; cases h
    | some s1 =>
      rw [hs] at h
      have hq : qstep threaded ans q (.ev e) = some { q with sys := s1 } := by
        cases e with
        | begin => simp at hb
        | alarm => simp at ha
        | _ => rw [qstep, hs]; · rfl
               · rintro ⟨⟩
               · rintro ⟨⟩
      rw [List.map_cons, qrun, hq]
      exact ih { q with sys := s1 } (by simp at hb; exact hb.2) (by simp at ha; exact ha.2) h

/-- The steps in which a call returns `k`. -/
def returning (k : Str) : List QEv := (List.replicate k.length Ev.read ++ [Ev.quiet, Ev.restore]).map .ev

theorem qrun_returning (threaded : Bool) (ans : Str) (q : Query) (old : Bool × Bool) (hp : q.sys.phase = .reading old [])
    (hne : q.sys.tty.queue ≠ []) :
    qrun threaded ans q (returning q.sys.tty.queue) = some { q with sys :=
      { tty := { q.sys.tty with queue := [], echo := old.1, canon := old.2 }, phase := .idle, keys := q.sys.keys ++ [q.sys.tty.queue] } } :=
  qrun_evs threaded ans q _ (by simp) (by simp) _ (run_return q.sys old hp hne)

/-- The key that ends the waiting is taken for the answer: the default colour is returned and the key is gone. -/
theorem C113_key_violated (layer : Core.Layer) (ans k : Str) (hne : ans ≠ []) (hk : k ≠ [])
    (hp : ∀ (l : Core.Layer) (r g b : Nat) (rest : Str), r < 65536 → g < 65536 → b < 65536 → k ≠ paletteReply l.code r g b ++ rest)
    (tty : Tty) :
    ∃ q, qrun true ans { sys := { tty := tty } }
        ([.ev .begin, .send, .reply ans, .ev .cbreak, .ev (.typed k)] ++ returning k) = some q ∧
      q.sys.keys = [k] ∧ q.sys.tty.queue = [] ∧ Core.getDefaultColor true layer (.text k) = Core.defaultDefault layer := by
  rw [qrun_append]
  have h1 : qrun true ans { sys := { tty := tty } } [.ev .begin, .send, .reply ans, .ev .cbreak, .ev (.typed k)] =
      some { sys := { tty := ((tty.arrive ans).setcbreak).arrive k, phase := .reading (tty.echo, tty.canon) [] }, sent := true, owed := [] } := by
    simp [qrun, qstep, step, hne]
  have hq : (((tty.arrive ans).setcbreak).arrive k).queue = k := by simp [Tty.arrive, Tty.setcbreak]
  have h2 := qrun_returning true ans
    { sys := { tty := ((tty.arrive ans).setcbreak).arrive k, phase := .reading (tty.echo, tty.canon) [] }, sent := true, owed := [] }
    (tty.echo, tty.canon) rfl (by simpa [hq] using hk)
  simp only [hq] at h2
  rw [h1, Option.bind_some, h2]
  exact ⟨_, rfl, rfl, rfl, (C58_other layer k hp).1⟩

/-- An answer that arrives in two parts is cut: the first part is taken for the whole, and the default colour is returned. -/
theorem C113_cut_violated (layer reply : Core.Layer) (r g b : Nat) (p rest : Str) (hpr : p ++ rest = paletteReply reply.code r g b)
    (hp : p ≠ []) (hr : rest ≠ []) (tty : Tty) :
    ∃ q, qrun true (p ++ rest) { sys := { tty := tty } } ([.ev .begin, .ev .cbreak, .send, .reply p] ++ returning p) = some q ∧
      q.sys.keys = [p] ∧ q.owed = rest ∧ Core.getDefaultColor true layer (.text p) = Core.defaultDefault layer := by
  rw [qrun_append]
  have h1 : qrun true (p ++ rest) { sys := { tty := tty } } [.ev .begin, .ev .cbreak, .send, .reply p] =
      some { sys := { tty := tty.setcbreak.arrive p, phase := .reading (tty.echo, tty.canon) [] }, sent := true, owed := rest } := by
    simp [qrun, qstep, step, hp]
  have hq : (tty.setcbreak.arrive p).queue = p := by simp [Tty.arrive, Tty.setcbreak]
  have h2 := qrun_returning true (p ++ rest)
    { sys := { tty := tty.setcbreak.arrive p, phase := .reading (tty.echo, tty.canon) [] }, sent := true, owed := rest }
    (tty.echo, tty.canon) rfl (by simpa [hq] using hp)
  simp only [hq] at h2
  rw [h1, Option.bind_some, h2]
  refine ⟨_, rfl, rfl, rfl, (C58_other layer p ?_).1⟩
  intro l r' g' b' rest' _ _ _ he
  have hlen : ∀ (l : Core.Layer) (r g b : Nat), (paletteReply l.code r g b).length = 25 := by
    intro l r g b
    cases l <;> rfl
  have e1 := congrArg List.length hpr
  have e2 := congrArg List.length he
  rw [List.length_append, hlen] at e1 e2
  have : rest.length ≠ 0 := fun h => hr (List.length_eq_zero_iff.mp h)
  omega

/-- Before the answer, if nobody types. -/
def Before (ans : Str) (q : Query) : Prop :=
  q.sys.keys = [] ∧ (q.sent = true → q.owed = ans) ∧
  (q.sys.phase = .idle ∨ (∃ old, q.sys.phase = .saved old ∧ q.timedOut = false) ∨
    ∃ old, q.sys.phase = .reading old [] ∧ q.sys.tty.queue = [] ∧ q.timedOut = false)

/-- After the answer has arrived while the call was listening, if nobody types. -/
def After (ans : Str) (q : Query) : Prop :=
  q.owed = [] ∧ q.sent = true ∧
  ((∃ old buff, q.sys.phase = .reading old buff ∧ buff ++ q.sys.tty.queue = ans ∧ q.sys.keys = [] ∧ q.timedOut = false) ∨
   (∃ old, q.sys.phase = .ending old ans ∧ q.sys.keys = [] ∧ q.timedOut = false) ∨
   (q.sys.phase = .idle ∧ q.sys.keys = [ans] ∧ q.timedOut = false) ∨
   (q.sys.phase = .idle ∧ q.sys.keys = [] ∧ q.timedOut = true))

theorem Before.step {threaded : Bool} {ans : Str} {q q' : Query} {e : QEv} (hb : Before ans q) (h : qstep threaded ans q e = some q')
    (ht : ∀ u, e ≠ .ev (.typed u)) (hr : ∀ u, e ≠ .reply u) : Before ans q' := by
  obtain ⟨⟨⟨echo, canon, queue, shown⟩, phase, keys⟩, sent, owed, timedOut⟩ := q
  obtain ⟨h1, h2, h3⟩ := hb
  simp only at h1 h2 h3
  subst h1
  cases e with
  | reply u => exact absurd rfl (hr u)
  | send =>
    simp only [qstep] at h
    split_ifs at h
    injection h with h; subst h
    exact ⟨rfl, fun _ => rfl, h3⟩
  | timeout =>
    simp only [qstep] at h
    split_ifs at h
    cases phase with
    | idle => cases h
    | ending _ _ => injection h with h; subst h; exact ⟨rfl, h2, .inl rfl⟩
    | saved old => injection h with h; subst h; exact ⟨rfl, h2, .inl rfl⟩
    | reading old buff => injection h with h; subst h; exact ⟨rfl, h2, .inl rfl⟩
  | ev e =>
    cases e with
    | typed u => exact absurd rfl (ht u)
    | alarm => cases h
    | begin =>
      simp only [qstep] at h
      split_ifs at h with hc
      cases phase with
      | idle => injection h with h; subst h; exact ⟨rfl, h2, .inr (.inl ⟨_, rfl, hc.2.2⟩)⟩
      | _ => cases h
    | cbreak =>
      cases phase with
      | saved old =>
        injection h with h; subst h
        rcases h3 with h3 | ⟨old', -, h3⟩ | ⟨old', h3, -⟩
        · cases h3
        · exact ⟨rfl, h2, .inr (.inr ⟨_, rfl, rfl, h3⟩)⟩
        · cases h3
      | _ => cases h
    | read =>
      rcases h3 with rfl | ⟨old, rfl, rfl⟩ | ⟨old, rfl, rfl, rfl⟩ <;> cases h
    | quiet =>
      rcases h3 with rfl | ⟨old, rfl, rfl⟩ | ⟨old, rfl, rfl, rfl⟩ <;> cases h
    | restore =>
      rcases h3 with rfl | ⟨old, rfl, rfl⟩ | ⟨old, rfl, rfl, rfl⟩ <;> cases h

theorem After.step {threaded : Bool} {ans : Str} {q q' : Query} {e : QEv} (hb : After ans q) (h : qstep threaded ans q e = some q')
    (ht : ∀ u, e ≠ .ev (.typed u)) : After ans q' := by
  obtain ⟨⟨⟨echo, canon, queue, shown⟩, phase, keys⟩, sent, owed, timedOut⟩ := q
  obtain ⟨h1, h2, h3⟩ := hb
  simp only at h1 h2 h3
  subst h1; subst h2
  cases e with
  | reply u =>
    simp only [qstep] at h
    split_ifs at h with hc
    exact absurd (List.prefix_nil.mp hc.2.2) hc.2.1
  | send => cases h
  | timeout =>
    simp only [qstep] at h
    split_ifs at h
    rcases h3 with ⟨old, buff, rfl, rfl, rfl, rfl⟩ | ⟨old, rfl, rfl, rfl⟩ | ⟨rfl, rfl, rfl⟩ | ⟨rfl, rfl, rfl⟩
    · injection h with h; subst h
      exact ⟨rfl, rfl, .inr (.inr (.inr ⟨rfl, rfl, rfl⟩))⟩
    · injection h with h; subst h
      exact ⟨rfl, rfl, .inr (.inr (.inr ⟨rfl, rfl, rfl⟩))⟩
    · cases h
    · cases h
  | ev e =>
    cases e with
    | typed u => exact absurd rfl (ht u)
    | alarm => cases h
    | begin =>
      simp only [qstep] at h
      split_ifs at h with hc
      rcases h3 with ⟨old, buff, rfl, rfl, rfl, rfl⟩ | ⟨old, rfl, rfl, rfl⟩ | ⟨rfl, rfl, rfl⟩ | ⟨rfl, rfl, rfl⟩
      · cases h
      · cases h
      · exact absurd hc.2.1 (by simp)
      · exact absurd hc.2.2 (by simp)
    | cbreak =>
      rcases h3 with ⟨old, buff, rfl, rfl, rfl, rfl⟩ | ⟨old, rfl, rfl, rfl⟩ | ⟨rfl, rfl, rfl⟩ | ⟨rfl, rfl, rfl⟩ <;> cases h
    | read =>
      rcases h3 with ⟨old, buff, rfl, rfl, rfl, rfl⟩ | ⟨old, rfl, rfl, rfl⟩ | ⟨rfl, rfl, rfl⟩ | ⟨rfl, rfl, rfl⟩
      · cases queue with
        | nil => cases h
        | cons c q => injection h with h; subst h; exact ⟨rfl, rfl, .inl ⟨_, _, rfl, by simp, rfl, rfl⟩⟩
      · cases h
      · cases h
      · cases h
    | quiet =>
      rcases h3 with ⟨old, buff, rfl, rfl, rfl, rfl⟩ | ⟨old, rfl, rfl, rfl⟩ | ⟨rfl, rfl, rfl⟩ | ⟨rfl, rfl, rfl⟩
      · cases queue with
        | cons c q => cases h
        | nil =>
          simp only [qstep, Wire.step] at h
          split_ifs at h
          · cases h
          · injection h with h; subst h
            exact ⟨rfl, rfl, .inr (.inl ⟨old, by simp, rfl, rfl⟩)⟩
      · cases h
      · cases h
      · cases h
    | restore =>
      rcases h3 with ⟨old, buff, rfl, rfl, rfl, rfl⟩ | ⟨old, rfl, rfl, rfl⟩ | ⟨rfl, rfl, rfl⟩ | ⟨rfl, rfl, rfl⟩
      · cases h
      · injection h with h; subst h; exact ⟨rfl, rfl, .inr (.inr (.inl ⟨rfl, rfl, rfl⟩))⟩
      · cases h
      · cases h

theorem qrun_keeps {threaded : Bool} {ans : Str} {P : Query → Prop} {es : List QEv} {q q' : Query} (h : qrun threaded ans q es = some q')
    (hP : P q) (hstep : ∀ q q' e, e ∈ es → P q → qstep threaded ans q e = some q' → P q') : P q' := by
  induction es generalizing q with
  | nil => injection h with h; subst h; exact hP
  | cons e es ih =>
    rw [qrun] at h
    cases hs : qstep threaded ans q e with
    | none => rw [hs] at h; cases h
    | some q1 =>
      rw [hs] at h
      exact ih h (hstep q q1 e (by simp) hP hs) fun q q' e he => hstep q q' e (by simp [he])

theorem qstep_ev {threaded : Bool} {ans : Str} {q q' : Query} {e : Ev} (h : qstep threaded ans q (.ev e) = some q') :
    ∃ s, step q.sys e = some s ∧ q' = { q with sys := s } := by
  cases e with
  | begin =>
    simp only [qstep] at h
    split_ifs at h
    obtain ⟨s, e1, e2⟩ := Option.map_eq_some_iff.mp h
    exact ⟨s, e1, e2.symm⟩
  | alarm => cases h
  | _ =>
    rw [qstep] at h
    · obtain ⟨s, e1, e2⟩ := Option.map_eq_some_iff.mp h
      exact ⟨s, e1, e2.symm⟩
    · rintro ⟨⟩
    · rintro ⟨⟩

theorem no_timeout {threaded : Bool} {ans : Str} {q q' : Query} {es : List QEv} (hth : threaded = true)
    (h : qrun threaded ans q es = some q') (h0 : q.timedOut = false) : q'.timedOut = false := by
  refine qrun_keeps h (P := fun q => q.timedOut = false) h0 fun q q' e _ hP h => ?_
  cases e with
  | timeout => rw [qstep, if_pos hth] at h; cases h
  | send =>
    simp only [qstep] at h
    split_ifs at h
    injection h with h; subst h; exact hP
  | reply u =>
    simp only [qstep] at h
    split_ifs at h
    injection h with h; subst h; exact hP
  | ev e =>
    obtain ⟨s, -, rfl⟩ := qstep_ev h
    exact hP

/-- **C113** (partial): if nobody types, the answer arrives in one piece and the reader is listening when it does, then the query
gets it, whatever was waiting at the tty before: in every execution the only key that can be returned is the answer, and when nothing
more can happen it has been returned (or, in a query with a timeout, the time was over). -/
theorem C113_answer_partial {threaded : Bool} {ans : Str} (hne : ans ≠ []) {pre post : List QEv} {q0 q1 q : Query} (hi : q0.sys.phase = .idle)
    (hk : q0.sys.keys = []) (hs : q0.sent = false) (ht : q0.timedOut = false)
    (htyped : ∀ u, .ev (.typed u) ∉ pre ++ post) (hreply : ∀ u, .reply u ∉ pre)
    (hpre : qrun threaded ans q0 pre = some q1) (hl : q1.sys.phase.listening = true)
    (hpost : qrun threaded ans q1 (.reply ans :: post) = some q) :
    (q.sys.keys = [] ∨ q.sys.keys = [ans]) ∧
    ((∀ e, (∀ u, e ≠ .ev (.typed u)) → qstep threaded ans q e = none) → q.sys.keys = [ans] ∨ (threaded = false ∧ q.timedOut = true)) := by
  have hb : Before ans q1 := by
    refine qrun_keeps hpre (P := Before ans) ⟨hk, by simp [hs], .inl hi⟩ fun q q' e he hP h => ?_
    exact hP.step h (fun u h => htyped u (by rw [← h]; simp [he])) fun u h => hreply u (h ▸ he)
  rw [qrun] at hpost
  have ha : ∃ q2, qstep threaded ans q1 (.reply ans) = some q2 ∧ After ans q2 := by
    cases h2 : qstep threaded ans q1 (.reply ans) with
    | none => rw [h2] at hpost; cases hpost
    | some q2 =>
      refine ⟨q2, rfl, ?_⟩
      simp only [qstep] at h2
      split_ifs at h2 with hc
      injection h2 with h2; subst h2
      obtain ⟨b1, b2, b3⟩ := hb
      have ho := b2 hc.1
      rcases b3 with b3 | ⟨old, b3, -⟩ | ⟨old, b3, b4, b5⟩
      · rw [b3] at hl; cases hl
      · rw [b3] at hl; cases hl
      · exact ⟨by simp [ho], hc.1, .inl ⟨old, [], b3, by simp [Tty.arrive, b4], b1, b5⟩⟩
  obtain ⟨q2, h2, ha⟩ := ha
  rw [h2] at hpost
  have hend : After ans q := qrun_keeps hpost (P := After ans) ha fun q q' e he hP h =>
    hP.step h fun u h => htyped u (by rw [← h]; simp [he])
  have hto : threaded = true → q.timedOut = false := fun hth =>
    no_timeout hth hpost (no_timeout hth (es := [.reply ans]) (by rw [qrun, h2]; rfl) (no_timeout hth hpre ht))
  obtain ⟨-, -, h3⟩ := hend
  constructor
  · rcases h3 with ⟨old, buff, -, -, h, -⟩ | ⟨old, -, h, -⟩ | ⟨-, h, -⟩ | ⟨-, h, -⟩
    · exact .inl h
    · exact .inl h
    · exact .inr h
    · exact .inl h
  · intro hstuck
    rcases h3 with ⟨old, buff, hp, hq, -, -⟩ | ⟨old, hp, -, -⟩ | ⟨-, h, -⟩ | ⟨-, -, h⟩
    · exfalso
      cases hqu : q.sys.tty.queue with
      | nil =>
        have := hstuck (.ev .quiet) (by rintro u ⟨⟩)
        rw [hqu, List.append_nil] at hq
        simp [qstep, step, hp, hqu, hq, hne] at this
      | cons c cs =>
        have := hstuck (.ev .read) (by rintro u ⟨⟩)
        simp [qstep, step, hp, hqu] at this
    · exfalso
      have := hstuck (.ev .restore) (by rintro u ⟨⟩)
      simp [qstep, step, hp] at this
    · exact .inl h
    · refine .inr ⟨?_, h⟩
      cases hth : threaded with
      | false => rfl
      | true => rw [hto hth] at h; cases h

/-- The answer of a query with a timeout that comes before the reader listens is discarded and the time runs out; and if the tty
echoes, the answer is shown to the user. For all answers. -/
theorem C113_shown_violated (ans : Str) (hne : ans ≠ []) (tty : Tty) (he : tty.echo = true) :
    ∃ q, qrun false ans { sys := { tty := tty } } [.send, .reply ans, .ev .begin, .ev .cbreak] = some q ∧ q.sys.keys = [] ∧
      q.sys.tty.shown = tty.shown ++ ans ∧
      ∀ e, (∀ u, e ≠ .ev (.typed u)) → e ≠ .timeout → qstep false ans q e = none := by
  refine ⟨{ sys := { tty := (tty.arrive ans).setcbreak, phase := .reading (tty.echo, tty.canon) [] }, sent := true, owed := [] },
    ?_, rfl, by simp [Tty.arrive, Tty.setcbreak, he], ?_⟩
  · simp [qrun, qstep, step, hne, Tty.arrive]
  · intro e he ht
    cases e with
    | ev e =>
      cases e with
      | typed u => exact absurd rfl (he u)
      | begin => simp [qstep, step]
      | _ => rfl
    | send => rfl
    | reply s =>
      rw [qstep, if_neg]
      rintro ⟨-, h1, h2⟩
      exact h1 (List.prefix_nil.mp h2)
    | timeout => exact absurd rfl ht

/-- The tty does not echo, and the saved modes do not either. -/
def Silent (shown : Str) (s : Sys) : Prop :=
  s.tty.echo = false ∧ s.tty.shown = shown ∧
  match s.phase with
  | .idle => True
  | .saved old => old.1 = false
  | .reading old _ => old.1 = false
  | .ending old _ => old.1 = false

theorem Silent.step {shown : Str} {s s' : Sys} {e : Ev} (h : Silent shown s) (hs : step s e = some s') : Silent shown s' := by
  obtain ⟨⟨echo, canon, queue, shown'⟩, phase, keys⟩ := s
  obtain ⟨h1, h2, h3⟩ := h
  simp only at h1 h2
  subst h1; subst h2
  cases e with
  | typed u => injection hs with hs; subst hs; exact ⟨rfl, rfl, h3⟩
  | begin =>
    cases phase with
    | idle => injection hs with hs; subst hs; exact ⟨rfl, rfl, rfl⟩
    | _ => cases hs
  | cbreak =>
    cases phase with
    | saved old => injection hs with hs; subst hs; exact ⟨rfl, rfl, h3⟩
    | _ => cases hs
  | read =>
    cases phase with
    | reading old buff =>
      cases queue with
      | nil => cases hs
      | cons c q => injection hs with hs; subst hs; exact ⟨rfl, rfl, h3⟩
    | _ => cases hs
  | quiet =>
    cases phase with
    | reading old buff =>
      cases queue with
      | cons c q => cases hs
      | nil =>
        simp only [Wire.step] at hs
        split_ifs at hs
        injection hs with hs; subst hs; exact ⟨rfl, rfl, h3⟩
    | _ => cases hs
  | restore =>
    cases phase with
    | ending old buff => injection hs with hs; subst hs; exact ⟨h3, rfl, trivial⟩
    | _ => cases hs
  | alarm =>
    cases phase with
    | idle => cases hs
    | saved old => injection hs with hs; subst hs; exact ⟨rfl, rfl, trivial⟩
    | _ => injection hs with hs; subst hs; exact ⟨h3, rfl, trivial⟩

/-- On a tty that does not echo (as in `no_echo`, in which the colours are queried), nothing is ever shown, in any execution, whatever
the terminal answers and the user types. -/
theorem C113_not_shown {threaded : Bool} {ans : Str} {q q' : Query} {es : List QEv} (hi : q.sys.phase = .idle)
    (he : q.sys.tty.echo = false) (h : qrun threaded ans q es = some q') : q'.sys.tty.shown = q.sys.tty.shown := by
  have key : Silent q.sys.tty.shown q'.sys := by
    refine qrun_keeps h (P := fun q1 => Silent q.sys.tty.shown q1.sys) ⟨he, rfl, by rw [hi]; trivial⟩ fun q1 q2 e _ hP h => ?_
    cases e with
    | ev e =>
      obtain ⟨s, e1, rfl⟩ := qstep_ev h
      exact hP.step e1
    | send =>
      simp only [qstep] at h
      split_ifs at h
      injection h with h; subst h; exact hP
    | reply u =>
      simp only [qstep] at h
      split_ifs at h
      injection h with h; subst h
      exact hP.step (e := .typed u) rfl
    | timeout =>
      simp only [qstep] at h
      split_ifs at h
      obtain ⟨s, e1, e2⟩ := Option.map_eq_some_iff.mp h
      rw [← e2]
      exact hP.step e1
  exact key.2.1

/-- The hypotheses of `C113_answer_partial` are met: text was waiting, the thread starts, the query is sent, and the answer comes in time.
Nothing more can happen then, and the answer was returned. -/
example : let ans := paletteReply ['1', '1'] 0x2828 0x2c2c 0x3434
    let q0 : Query := { sys := { tty := { echo := false, queue := "typed ahead".toList } } }
    let pre : List QEv := [.ev .begin, .send, .ev .cbreak]
    ((qrun true ans q0 pre).map fun q => q.sys.phase.listening) = some true ∧
    ((qrun true ans q0 (pre ++ .reply ans :: returning ans)).map fun q => (q.sys.keys, q.sys.phase)) = some ([ans], .idle) := by
  decide +kernel

/-- An answer in two parts, as in `C113_cut_violated`. -/
example : "\x1b]11;rgb:2828/2c".toList ++ "2c/3434\x1b\\".toList = paletteReply Core.Layer.back.code 0x2828 0x2c2c 0x3434 := by decide +kernel

end Wire
end Slate
