import Verif.Model.Tty

/-!
# Modes of the terminal: C59, C60, C61
-/

namespace Slate
open Py Core Tty Prog

/-! ### Inversion of executions -/

section inversion
variable {σ : Type} {p q h : Prog σ} {s t : σ} {o : Option PyErr}

theorem exec_skip : Exec .skip s o t ↔ o = none ∧ t = s := by
  constructor
  · rintro ⟨⟩; exact ⟨rfl, rfl⟩
  · rintro ⟨rfl, rfl⟩; exact .skip _

theorem exec_sure {f : σ → σ} : Exec (.sure f) s o t ↔ o = none ∧ t = f s := by
  constructor
  · intro h
    unfold Prog.sure at h
    cases h with
    | act => exact ⟨rfl, rfl⟩
    | actBefore _ _ _ _ _ h => exact h.elim
    | actAfter _ _ _ _ _ h => exact h.elim
  · rintro ⟨rfl, rfl⟩; exact .act ..

theorem exec_act {f : σ → σ} {b a : σ → PyErr → Prop} : Exec (.act f b a) s o t ↔
    (o = none ∧ t = f s) ∨ (∃ e, o = some e ∧ b s e ∧ t = s) ∨ ∃ e, o = some e ∧ a s e ∧ t = f s := by
  constructor
  · intro h
    cases h with
    | act => exact .inl ⟨rfl, rfl⟩
    | actBefore _ _ _ _ e h => exact .inr (.inl ⟨e, rfl, h, rfl⟩)
    | actAfter _ _ _ _ e h => exact .inr (.inr ⟨e, rfl, h, rfl⟩)
  · rintro (⟨rfl, rfl⟩ | ⟨e, rfl, h, rfl⟩ | ⟨e, rfl, h, rfl⟩)
    · exact .act ..
    · exact .actBefore _ _ _ _ _ h
    · exact .actAfter _ _ _ _ _ h

theorem exec_risky {f : σ → σ} (h : Exec (.risky f) s o t) : (t = s ∧ o ≠ none) ∨ t = f s := by
  rcases exec_act.mp h with ⟨rfl, rfl⟩ | ⟨e, rfl, -, rfl⟩ | ⟨e, rfl, -, rfl⟩
  · exact .inr rfl
  · exact .inl ⟨rfl, by simp⟩
  · exact .inr rfl

theorem exec_seq : Exec (.seq p q) s o t ↔
    (∃ u, Exec p s none u ∧ Exec q u o t) ∨ (o ≠ none ∧ Exec p s o t) := by
  constructor
  · intro h
    cases h with
    | seq _ _ _ u _ _ h₁ h₂ => exact .inl ⟨u, h₁, h₂⟩
    | seqErr _ _ _ _ e h => exact .inr ⟨by simp, h⟩
  · rintro (⟨u, h₁, h₂⟩ | ⟨ho, h⟩)
    · exact .seq _ _ _ u _ _ h₁ h₂
    · obtain ⟨e, rfl⟩ := Option.ne_none_iff_exists'.mp ho
      exact .seqErr _ _ _ _ _ h

theorem exec_finally : Exec (.tryFinally p q) s o t ↔
    ∃ u o', Exec p s o' u ∧ ((o = o' ∧ Exec q u none t) ∨ ∃ e, o = some e ∧ Exec q u (some e) t) := by
  constructor
  · intro h
    cases h with
    | fin _ _ _ u _ _ h₁ h₂ => exact ⟨u, _, h₁, .inl ⟨rfl, h₂⟩⟩
    | finErr _ _ _ u _ o' e h₁ h₂ => exact ⟨u, o', h₁, .inr ⟨e, rfl, h₂⟩⟩
  · rintro ⟨u, o', h₁, ⟨rfl, h₂⟩ | ⟨e, rfl, h₂⟩⟩
    · exact .fin _ _ _ _ _ _ h₁ h₂
    · exact .finErr _ _ _ _ _ _ _ h₁ h₂

theorem exec_except {e : PyErr} : Exec (.tryExcept p e h) s o t ↔
    (o ≠ some e ∧ Exec p s o t) ∨ ∃ u, Exec p s (some e) u ∧ Exec h u o t := by
  constructor
  · intro hx
    cases hx with
    | tryOk _ _ _ _ _ h₁ => exact .inl ⟨by simp, h₁⟩
    | tryCaught _ _ _ _ u _ _ h₁ h₂ => exact .inr ⟨u, h₁, h₂⟩
    | tryOther _ _ e' _ _ _ h₁ hne => exact .inl ⟨by simpa using hne, h₁⟩
  · rintro (⟨hne, h₁⟩ | ⟨u, h₁, h₂⟩)
    · cases o with
      | none => exact .tryOk _ _ _ _ _ h₁
      | some e' => exact .tryOther _ _ _ _ _ _ h₁ (by simpa using hne)
    · exact .tryCaught _ _ _ _ _ _ _ h₁ h₂

theorem exec_ite {c : σ → Bool} : Exec (.ite c p q) s o t ↔
    (c s = true ∧ Exec p s o t) ∨ (c s = false ∧ Exec q s o t) := by
  constructor
  · intro h
    cases h with
    | iteTrue _ _ _ _ _ _ hc h => exact .inl ⟨hc, h⟩
    | iteFalse _ _ _ _ _ _ hc h => exact .inr ⟨hc, h⟩
  · rintro (⟨hc, h⟩ | ⟨hc, h⟩)
    · exact .iteTrue _ _ _ _ _ _ hc h
    · exact .iteFalse _ _ _ _ _ _ hc h

end inversion

/-! ### C59: the tty attributes -/

variable {α : Type}

theorem reads_attrs : ∀ (cs : List Str) (r r' : Reader α) (o : Option PyErr), Exec (reads cs) r o r' →
    r'.attrs = r.attrs ∧ r'.old = r.old ∧ r'.ret = r.ret ∧ r'.armed = r.armed
  | [], r, r', o, h => by
    obtain ⟨-, rfl⟩ := exec_skip.mp h
    exact ⟨rfl, rfl, rfl, rfl⟩
  | c :: cs, r, r', o, h => by
    rcases exec_seq.mp h with ⟨u, h₁, h₂⟩ | ⟨ho, h₁⟩
    · obtain ⟨ha, hb, hc, hd⟩ := reads_attrs cs u r' o h₂
      rcases exec_risky h₁ with ⟨rfl, -⟩ | rfl
      · exact ⟨ha, hb, hc, hd⟩
      · exact ⟨ha, hb, hc, hd⟩
    · rcases exec_risky h₁ with ⟨rfl, -⟩ | rfl
      · exact ⟨rfl, rfl, rfl, rfl⟩
      · exact ⟨rfl, rfl, rfl, rfl⟩

/-- No exception. -/
def noStrike : Reader α → PyErr → Prop := fun _ _ => False

theorem getchPosix_attrs (cb : α → α) (chunks : List Str) (r r' : Reader α) (o : Option PyErr)
    (h : Exec (getchPosix cb noStrike noStrike chunks) r o r') :
    r'.attrs = r.attrs ∧ r'.ret = r.ret ∧ r'.armed = r.armed := by
  unfold getchPosix at h
  rcases exec_seq.mp h with ⟨u, h₁, h₂⟩ | ⟨ho, h₁⟩
  · have hu : u.attrs = r.attrs ∧ u.old = some r.attrs ∧ u.ret = r.ret ∧ u.armed = r.armed := by
      rcases exec_risky h₁ with ⟨-, hn⟩ | rfl
      · exact absurd rfl hn
      · exact ⟨rfl, rfl, rfl, rfl⟩
    obtain ⟨hu₁, hu₂, hu₃, hu₄⟩ := hu
    rcases exec_seq.mp h₂ with ⟨v, h₃, h₄⟩ | ⟨ho, h₃⟩
    · have hv : v.old = some r.attrs ∧ v.ret = r.ret ∧ v.armed = r.armed := by
        rcases exec_act.mp h₃ with ⟨-, rfl⟩ | ⟨e, he, -⟩ | ⟨e, he, -⟩
        · exact ⟨hu₂, hu₃, hu₄⟩
        · exact absurd he (by simp)
        · exact absurd he (by simp)
      have key : ∀ (o' : Option PyErr) (x : Reader α), Exec (.tryFinally (reads chunks)
          (.act (fun r => { r with attrs := r.old.getD r.attrs }) noStrike noStrike)) v o' x →
          x.attrs = r.attrs ∧ x.ret = r.ret ∧ x.armed = r.armed := by
        intro o' x hx
        obtain ⟨y, o'', h₅, h₆⟩ := exec_finally.mp hx
        obtain ⟨-, hy, hy₂, hy₃⟩ := reads_attrs _ _ _ _ h₅
        rcases h₆ with ⟨-, h₆⟩ | ⟨e, -, h₆⟩
        · rcases exec_act.mp h₆ with ⟨-, rfl⟩ | ⟨e, he, -⟩ | ⟨e, he, -⟩
          · refine ⟨?_, hy₂.trans hv.2.1, hy₃.trans hv.2.2⟩
            show y.old.getD y.attrs = _
            rw [hy, hv.1]; rfl
          · exact absurd he (by simp)
          · exact absurd he (by simp)
        · rcases exec_act.mp h₆ with ⟨he, -⟩ | ⟨e, -, hf, -⟩ | ⟨e, -, hf, -⟩
          · exact absurd he (by simp)
          · exact hf.elim
          · exact hf.elim
      rcases exec_seq.mp h₄ with ⟨w, h₅, h₆⟩ | ⟨ho, h₅⟩
      · obtain ⟨-, rfl⟩ := exec_skip.mp h₆
        exact key _ _ h₅
      · exact key _ _ h₅
    · rcases exec_act.mp h₃ with ⟨he, -⟩ | ⟨e, -, -, rfl⟩ | ⟨e, -, hf, -⟩
      · exact absurd he ho
      · exact ⟨hu₁, hu₃, hu₄⟩
      · exact hf.elim
  · rcases exec_risky h₁ with ⟨rfl, -⟩ | rfl
    · exact ⟨rfl, rfl, rfl⟩
    · exact ⟨rfl, rfl, rfl⟩

/-- C59, in part: whatever `getch` reads and whichever exception strikes at whichever point – before,
in the middle of or after any read, in the query of the attributes, in the handling of an
interrupt – the attributes of the tty afterwards are those before the call. What is excluded: an
exception between the effect of `setcbreak` and the `try` in the next statement, or inside the `finally`
(`C59_violated` shows that these matter). -/
theorem C59_getch_restores_partial (cb : α → α) (chunks : List Str) (r r' : Reader α) (o : Option PyErr)
    (h : Exec (getchProg cb noStrike noStrike chunks) r o r') : r'.attrs = r.attrs := by
  unfold getchProg at h
  have key : ∀ (o' : Option PyErr) (x : Reader α), Exec (.tryExcept (getchPosix cb noStrike noStrike chunks)
      .interrupt (.risky fun r => { r with buff := ['\x03'] })) r o' x → x.attrs = r.attrs := by
    intro o' x hx
    rcases exec_except.mp hx with ⟨-, h₁⟩ | ⟨u, h₁, h₂⟩
    · exact (getchPosix_attrs _ _ _ _ _ h₁).1
    · have hu := (getchPosix_attrs _ _ _ _ _ h₁).1
      rcases exec_risky h₂ with ⟨rfl, -⟩ | rfl
      · exact hu
      · exact hu
  rcases exec_seq.mp h with ⟨u, h₁, h₂⟩ | ⟨-, h₁⟩
  · rcases exec_risky h₂ with ⟨rfl, -⟩ | rfl
    · exact key _ _ h₁
    · show u.attrs = _
      exact key _ _ h₁
  · exact key _ _ h₁

/-- The read is interrupted after one character: the attributes are back, and the interrupt became
a key. -/
example : Exec (getchProg (fun _ => "cbreak") noStrike noStrike [['a'], ['b']]) { attrs := "cooked" } none
    { attrs := "cooked", old := some "cooked", buff := ['\x03'], ret := some ['\x03'] } := by
  refine .seq _ _ _ { attrs := "cooked", old := some "cooked", buff := ['\x03'] } _ _ ?_ (.act ..)
  refine .tryCaught _ _ _ _ { attrs := "cooked", old := some "cooked", buff := ['a'] } _ _ ?_ (.act ..)
  refine .seq _ _ _ { attrs := "cooked", old := some "cooked" } _ _ (.act ..) ?_
  refine .seq _ _ _ { attrs := "cbreak", old := some "cooked" } _ _ (.act ..) ?_
  refine .seqErr _ _ _ _ _ ?_
  refine .fin _ _ _ { attrs := "cbreak", old := some "cooked", buff := ['a'] } _ _ ?_ (.act ..)
  refine .seq _ _ _ { attrs := "cbreak", old := some "cooked", buff := ['a'] } _ _ (.act ..) ?_
  exact .seqErr _ _ _ _ _ (.actBefore _ _ _ _ _ trivial)

/-- C59 is violated: an interrupt (or the alarm of `getch_timeout`) that strikes after `setcbreak` took
effect and before the `try` leaves the tty in cbreak mode; for an interrupt, `getch` even returns
normally. -/
theorem C59_violated (cb : α → α) (chunks : List Str) (r : Reader α) :
    ∃ r', Exec (getchProg cb (fun _ e => e = .interrupt) noStrike chunks) r none r' ∧ r'.attrs = cb r.attrs := by
  refine ⟨{ r with attrs := cb r.attrs, old := some r.attrs, buff := ['\x03'], ret := some ['\x03'] }, ?_, rfl⟩
  refine .seq _ _ _ { r with attrs := cb r.attrs, old := some r.attrs, buff := ['\x03'] } _ _ ?_ (.act ..)
  refine .tryCaught _ _ _ _ { r with attrs := cb r.attrs, old := some r.attrs } _ _ ?_ (.act ..)
  refine .seq _ _ _ { r with old := some r.attrs } _ _ (.act ..) ?_
  exact .seqErr _ _ _ _ _ (.actAfter _ _ _ _ _ rfl)

/-- C59 is violated inside the `finally` as well: a signal that strikes there prevents the restoring. -/
theorem C59_finally_violated (cb : α → α) (chunks : List Str) (r : Reader α) :
    ∃ r', Exec (getchProg cb noStrike (fun _ e => e = .interrupt) chunks) r none r' ∧ r'.attrs = cb r.attrs := by
  have hreads : ∀ (cs : List Str) (u : Reader α), Exec (reads cs) u none { u with buff := u.buff ++ cs.flatten } := by
    intro cs
    induction cs with
    | nil =>
      intro u
      rw [List.flatten_nil, List.append_nil]
      exact .skip u
    | cons c cs ih =>
      intro u
      have := ih { u with buff := u.buff ++ c }
      refine .seq _ _ _ { u with buff := u.buff ++ c } _ _ (.act ..) ?_
      simpa using this
  refine ⟨{ r with attrs := cb r.attrs, old := some r.attrs, buff := ['\x03'], ret := some ['\x03'] }, ?_, rfl⟩
  refine .seq _ _ _ { r with attrs := cb r.attrs, old := some r.attrs, buff := ['\x03'] } _ _ ?_ (.act ..)
  refine .tryCaught _ _ _ _ { r with attrs := cb r.attrs, old := some r.attrs, buff := r.buff ++ chunks.flatten } _ _ ?_ (.act ..)
  refine .seq _ _ _ { r with old := some r.attrs } _ _ (.act ..) ?_
  refine .seq _ _ _ { r with attrs := cb r.attrs, old := some r.attrs } _ _ (.act ..) ?_
  refine .seqErr _ _ _ _ _ ?_
  exact .finErr _ _ _ _ _ _ _ (hreads chunks _) (.actBefore _ _ _ _ _ rfl)

/-- The tty is left in cbreak mode. -/
example : ∃ r' : Reader String,
    Exec (getchProg (fun _ => "cbreak") noStrike (fun _ e => e = .interrupt) [['a']]) { attrs := "cooked" } none r' ∧ r'.attrs = "cbreak" :=
  C59_finally_violated _ _ _

/-! ### C60: timeouts -/

/-- The state when the body of `getch_timeout` starts. -/
def armed (r : Reader α) : Reader α := { r with armed := true }

/-- C60, in part: whichever point of the body the alarm strikes at, `getch_timeout`

* disarms the alarm, however it ends;
* never lets the timeout escape;
* if it returns, returns what the body returned if the body ended normally, and otherwise – the
  body was cut off by the alarm – the default, unless the body had already stored its result;
* raises only what the body raised, or what the installation of the alarm raised.

`body` is any program: `getch` is one. What is excluded: an exception inside the `finally`, before
`signal.alarm(0)` took effect (`C60_violated`). -/
theorem C60_timeout_partial (default : Str) (body : Prog (Reader α)) (r r' : Reader α) (o : Option PyErr)
    (h : Exec (getchTimeout noStrike default body) r o r') :
    r'.armed = false ∧ o ≠ some .timeout ∧
    (o = none → ∃ u, (Exec body (armed r) none u ∨ Exec body (armed r) (some .timeout) u ∨ u = armed r) ∧
      r'.ret = some (u.ret.getD default)) ∧
    (∀ e, o = some e → (∃ u, Exec body (armed r) (some e) u ∧ r' = { u with armed := false }) ∨
      r' = { r with armed := false }) := by
  have key : ∀ (o' : Option PyErr) (x : Reader α), Exec (timeoutProg noStrike body) r o' x →
      x.armed = false ∧ o' ≠ some .timeout ∧
      (o' = none → ∃ u, (Exec body (armed r) none u ∨ Exec body (armed r) (some .timeout) u ∨ u = armed r) ∧
        x.ret = u.ret) ∧
      (∀ e, o' = some e → (∃ u, Exec body (armed r) (some e) u ∧ x = { u with armed := false }) ∨
        x = { r with armed := false }) := by
    intro o' x hx
    obtain ⟨y, o'', h₁, h₂⟩ := exec_finally.mp hx
    have hfin : o' = o'' ∧ x = { y with armed := false } := by
      rcases h₂ with ⟨ho, h₂⟩ | ⟨e, -, h₂⟩
      · rcases exec_act.mp h₂ with ⟨-, hx⟩ | ⟨e, he, -⟩ | ⟨e, he, -⟩
        · exact ⟨ho, hx⟩
        · exact absurd he (by simp)
        · exact absurd he (by simp)
      · rcases exec_act.mp h₂ with ⟨he, -⟩ | ⟨e, -, hf, -⟩ | ⟨e, -, hf, -⟩
        · exact absurd he (by simp)
        · exact hf.elim
        · exact hf.elim
    obtain ⟨rfl, rfl⟩ := hfin
    refine ⟨rfl, ?_⟩
    rcases exec_except.mp h₁ with ⟨hne, h₃⟩ | ⟨u, h₃, h₄⟩
    · refine ⟨hne, ?_⟩
      rcases exec_seq.mp h₃ with ⟨v, h₅, h₆⟩ | ⟨ho, h₅⟩
      · have hv : v = armed r := by
          rcases exec_act.mp h₅ with ⟨-, hv⟩ | ⟨e, he, -⟩ | ⟨e, he, -⟩
          · exact hv
          · exact absurd he (by simp)
          · exact absurd he (by simp)
        subst hv
        refine ⟨?_, ?_⟩
        · rintro rfl
          exact ⟨y, .inl h₆, rfl⟩
        · rintro e rfl
          exact .inl ⟨y, h₆, rfl⟩
      · refine ⟨fun h => absurd h ho, ?_⟩
        intro e _
        refine .inr ?_
        rcases exec_act.mp h₅ with ⟨-, rfl⟩ | ⟨e, -, -, rfl⟩ | ⟨e, -, -, rfl⟩
        · rfl
        · rfl
        · rfl
    · obtain ⟨rfl, rfl⟩ := exec_skip.mp h₄
      refine ⟨by simp, fun _ => ?_, fun e he => absurd he (by simp)⟩
      rcases exec_seq.mp h₃ with ⟨v, h₅, h₆⟩ | ⟨ho, h₅⟩
      · have hv : v = armed r := by
          rcases exec_act.mp h₅ with ⟨-, hv⟩ | ⟨e, he, -⟩ | ⟨e, he, -⟩
          · exact hv
          · exact absurd he (by simp)
          · exact absurd he (by simp)
        subst hv
        exact ⟨y, .inr (.inl h₆), rfl⟩
      · rcases exec_act.mp h₅ with ⟨he, -⟩ | ⟨e, he, hb, -⟩ | ⟨e, -, -, rfl⟩
        · exact absurd he ho
        · exact absurd (Option.some.inj he).symm hb
        · exact ⟨armed r, .inr (.inr rfl), rfl⟩
  unfold getchTimeout at h
  rcases exec_seq.mp h with ⟨x, h₁, h₂⟩ | ⟨ho, h₁⟩
  · obtain ⟨ha, -, hb, -⟩ := key _ _ h₁
    obtain ⟨u, hu, hur⟩ := hb rfl
    rcases exec_ite.mp h₂ with ⟨hc, h₃⟩ | ⟨hc, h₃⟩
    · obtain ⟨rfl, rfl⟩ := exec_skip.mp h₃
      refine ⟨ha, by simp, fun _ => ⟨u, hu, ?_⟩, fun e he => absurd he (by simp)⟩
      rw [hur] at hc ⊢
      obtain ⟨v, hv⟩ := Option.isSome_iff_exists.mp hc
      simp [hv]
    · obtain ⟨rfl, rfl⟩ := exec_sure.mp h₃
      refine ⟨ha, by simp, fun _ => ⟨u, hu, ?_⟩, fun e he => absurd he (by simp)⟩
      rw [hur] at hc
      have : u.ret = none := by simpa using hc
      simp [this]
  · obtain ⟨ha, hb, -, hd⟩ := key _ _ h₁
    refine ⟨ha, hb, fun h => absurd h ho, fun e he => ?_⟩
    exact hd e he

/-- `getch` is cut off after two characters: the default is returned, the two characters are lost. -/
example : Exec (getchTimeout noStrike ['d'] (getchProg (fun _ => "cbreak") noStrike noStrike [['a'], ['b'], ['c']]))
    { attrs := "cooked" } none
    { attrs := "cooked", old := some "cooked", buff := ['a', 'b'], ret := some ['d'] } := by
  refine .seq _ _ _ { attrs := "cooked", old := some "cooked", buff := ['a', 'b'] } _ _ ?_ (.iteFalse _ _ _ _ _ _ rfl (.act ..))
  refine .fin _ _ _ { attrs := "cooked", old := some "cooked", buff := ['a', 'b'], armed := true } _ _ ?_ (.act ..)
  refine .tryCaught _ _ _ _ { attrs := "cooked", old := some "cooked", buff := ['a', 'b'], armed := true } _ _ ?_ (.skip _)
  refine .seq _ _ _ { attrs := "cooked", armed := true } _ _ (.act ..) (.seqErr _ _ _ _ _ ?_)
  refine .tryOther _ _ _ _ _ _ ?_ (by simp)
  refine .seq _ _ _ { attrs := "cooked", old := some "cooked", armed := true } _ _ (.act ..) ?_
  refine .seq _ _ _ { attrs := "cbreak", old := some "cooked", armed := true } _ _ (.act ..) ?_
  refine .seqErr _ _ _ _ _ ?_
  refine .fin _ _ _ { attrs := "cbreak", old := some "cooked", buff := ['a', 'b'], armed := true } _ _ ?_ (.act ..)
  refine .seq _ _ _ { attrs := "cbreak", old := some "cooked", buff := ['a'], armed := true } _ _ (.act ..) ?_
  exact .seqErr _ _ _ _ _ (.actAfter _ _ _ _ _ trivial)

/-- C60 is violated: if the alarm strikes inside the `finally` of `timeout`, before `signal.alarm(0)`, the
timeout escapes from `getch_timeout` although the body had finished, whatever it is and whatever it returned. -/
theorem C60_violated (default : Str) (body : Prog (Reader α)) (r u : Reader α) (h : Exec body (armed r) none u) (ha : u.armed = true) :
    Exec (getchTimeout (fun r e => r.armed = true ∧ e = .timeout) default body) r (some .timeout) u :=
  .seqErr _ _ _ _ _ (.finErr _ _ _ _ _ none _ (.tryOk _ _ _ _ _ (.seq _ _ _ (armed r) _ _ (.act ..) h)) (.actBefore _ _ _ _ _ ⟨ha, rfl⟩))

/-- `getch` has read a key. -/
example : ∃ r' : Reader String,
    Exec (getchTimeout (fun r e => r.armed = true ∧ e = .timeout) ['d']
      (getchProg (fun _ => "cbreak") noStrike noStrike [['a']])) { attrs := "cooked" } (some .timeout) r' ∧
    r'.ret = some ['a'] := by
  refine ⟨{ attrs := "cooked", old := some "cooked", buff := ['a'], armed := true, ret := some ['a'] }, C60_violated _ _ _ _ ?_ rfl, rfl⟩
  refine .seq _ _ _ { attrs := "cooked", old := some "cooked", buff := ['a'], armed := true } _ _ ?_ (.act ..)
  refine .tryOk _ _ _ _ _ ?_
  refine .seq _ _ _ { attrs := "cooked", old := some "cooked", armed := true } _ _ (.act ..) ?_
  refine .seq _ _ _ { attrs := "cbreak", old := some "cooked", armed := true } _ _ (.act ..) ?_
  refine .seq _ _ _ { attrs := "cooked", old := some "cooked", buff := ['a'], armed := true } _ _ ?_ (.skip _)
  refine .fin _ _ _ { attrs := "cbreak", old := some "cooked", buff := ['a'], armed := true } _ _ ?_ (.act ..)
  exact .seq _ _ _ { attrs := "cbreak", old := some "cooked", buff := ['a'], armed := true } _ _ (.act ..)
    (show Exec .skip _ _ _ from .skip _)

/-- The attributes of the tty are restored by `getch_timeout` as well. -/
theorem C59_getch_timeout_partial (cb : α → α) (chunks : List Str) (default : Str) (r r' : Reader α)
    (o : Option PyErr)
    (h : Exec (getchTimeout noStrike default (getchProg cb noStrike noStrike chunks)) r o r') :
    r'.attrs = r.attrs := by
  have hbody : ∀ (o' : Option PyErr) (u : Reader α), Exec (getchProg cb noStrike noStrike chunks) (armed r) o' u →
      u.attrs = r.attrs := fun o' u hu => C59_getch_restores_partial cb chunks (armed r) u o' hu
  unfold getchTimeout timeoutProg at h
  have key : ∀ (o' : Option PyErr) (x : Reader α), Exec (timeoutProg noStrike (getchProg cb noStrike noStrike chunks))
      r o' x → x.attrs = r.attrs := by
    intro o' x hx
    obtain ⟨y, o'', h₁, h₂⟩ := exec_finally.mp hx
    have hy : y.attrs = r.attrs := by
      have hs : ∀ (o' : Option PyErr) (y : Reader α), Exec (.seq (.act (fun r : Reader α => { r with armed := true })
          (fun _ e => e ≠ .timeout) (fun _ _ => True)) (getchProg cb noStrike noStrike chunks)) r o' y →
          y.attrs = r.attrs := by
        intro o' y hs
        rcases exec_seq.mp hs with ⟨v, h₅, h₆⟩ | ⟨ho, h₅⟩
        · rcases exec_act.mp h₅ with ⟨-, rfl⟩ | ⟨e, he, -⟩ | ⟨e, he, -⟩
          · exact hbody _ _ h₆
          · exact absurd he (by simp)
          · exact absurd he (by simp)
        · rcases exec_act.mp h₅ with ⟨-, rfl⟩ | ⟨e, -, -, rfl⟩ | ⟨e, -, -, rfl⟩ <;> rfl
      rcases exec_except.mp h₁ with ⟨hne, h₃⟩ | ⟨u, h₃, h₄⟩
      · exact hs _ _ h₃
      · obtain ⟨-, rfl⟩ := exec_skip.mp h₄
        exact hs _ _ h₃
    rcases h₂ with ⟨-, h₂⟩ | ⟨e, -, h₂⟩
    · rcases exec_act.mp h₂ with ⟨-, rfl⟩ | ⟨e, -, -, rfl⟩ | ⟨e, -, -, rfl⟩ <;> exact hy
    · rcases exec_act.mp h₂ with ⟨-, rfl⟩ | ⟨e, -, -, rfl⟩ | ⟨e, -, -, rfl⟩ <;> exact hy
  rcases exec_seq.mp h with ⟨x, h₁, h₂⟩ | ⟨ho, h₁⟩
  · rcases exec_ite.mp h₂ with ⟨hc, h₃⟩ | ⟨hc, h₃⟩
    · obtain ⟨-, rfl⟩ := exec_skip.mp h₃
      exact key _ _ h₁
    · obtain ⟨-, rfl⟩ := exec_sure.mp h₃
      show x.attrs = _
      exact key _ _ h₁
  · exact key _ _ h₁

end Slate
