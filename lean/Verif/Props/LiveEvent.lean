import Verif.Model.LiveEvent
import Verif.Props.Event

/-!
# C115: listeners that change the event they are called by
-/

namespace Slate
open Py

variable {N σ D : Type}

/-- An emission has one outcome at most. -/
theorem Emits.unique {act : Acts N σ D} {d : D} {i : Nat} {out : Ret} {s : Live N σ} {tr : List N} {s' : Live N σ} {r : Except PyErr Ret}
    (h : Emits act d i out s tr s' r) : ∀ {tr₂ s₂ r₂}, Emits act d i out s tr₂ s₂ r₂ → tr₂ = tr ∧ s₂ = s' ∧ r₂ = r := by
  induction h with
  | done h =>
    intro tr₂ s₂ r₂ h₂
    cases h₂ with
    | done => exact ⟨rfl, rfl, rfl⟩
    | raised h' => rw [h] at h'; cases h'
    | refused h' => rw [h] at h'; cases h'
    | next h' => rw [h] at h'; cases h'
  | raised h hc =>
    intro tr₂ s₂ r₂ h₂
    cases h₂ with
    | done h' => rw [h] at h'; cases h'
    | raised h' hc' => rw [h] at h'; cases h'; rw [hc] at hc'; cases hc'; exact ⟨rfl, rfl, rfl⟩
    | refused h' hc' => rw [h] at h'; cases h'; rw [hc] at hc'; cases hc'
    | next h' hc' => rw [h] at h'; cases h'; rw [hc] at hc'; cases hc'
  | refused h hc ho =>
    intro tr₂ s₂ r₂ h₂
    cases h₂ with
    | done h' => rw [h] at h'; cases h'
    | raised h' hc' => rw [h] at h'; cases h'; rw [hc] at hc'; cases hc'
    | refused h' hc' ho' => rw [h] at h'; cases h'; rw [hc] at hc'; cases hc'; rw [ho] at ho'; cases ho'; exact ⟨rfl, rfl, rfl⟩
    | next h' hc' ho' => rw [h] at h'; cases h'; rw [hc] at hc'; cases hc'; rw [ho] at ho'; cases ho'
  | next h hc ho hn ih =>
    intro tr₂ s₂ r₂ h₂
    cases h₂ with
    | done h' => rw [h] at h'; cases h'
    | raised h' hc' => rw [h] at h'; cases h'; rw [hc] at hc'; cases hc'
    | refused h' hc' ho' => rw [h] at h'; cases h'; rw [hc] at hc'; cases hc'; rw [ho] at ho'; cases ho'
    | next h' hc' ho' hn' =>
      rw [h] at h'; cases h'; rw [hc] at hc'; cases hc'; rw [ho] at ho'; cases ho'
      obtain ⟨rfl, rfl, rfl⟩ := ih hn'
      exact ⟨rfl, rfl, rfl⟩

theorem emits_fixed (f : N → Listener σ D) (d : D) (ns : List N) : ∀ (rest pre : List N) (out : Ret) (a : σ), ns = pre ++ rest →
    ∃ tr, Emits (fun n d s => ({ s with app := (f n d s.app).1 }, (f n d s.app).2)) d pre.length out ⟨ns, a⟩ tr
      ⟨ns, (emitGo d (rest.map f) out a).1⟩ (emitGo d (rest.map f) out a).2 ∧ tr <+: rest
  | [], pre, out, a, h => ⟨[], .done (by simp [h]), List.nil_prefix⟩
  | n :: rest, pre, out, a, h => by
    have hget : (⟨ns, a⟩ : Live N σ).listeners[pre.length]? = some n := by simp [h]
    rw [List.map_cons, emitGo]
    rcases hf : f n d a with ⟨a', e | v⟩
    · refine ⟨[n], .raised (s' := ⟨ns, a'⟩) hget ?_, by simp⟩
      show ((⟨ns, (f n d a).1⟩ : Live N σ), (f n d a).2) = _
      rw [hf]
    · have hc : ((⟨ns, (f n d a).1⟩ : Live N σ), (f n d a).2) = (⟨ns, a'⟩, .ok v) := by rw [hf]
      simp only
      rcases ho : out.bor v.orFalse with e | out'
      · exact ⟨[n], .refused (s' := ⟨ns, a'⟩) hget hc ho, by simp⟩
      · obtain ⟨tr, h1, h2⟩ := emits_fixed f d ns rest (pre ++ [n]) out' a' (by simp [h])
        rw [List.length_append] at h1
        exact ⟨n :: tr, .next (s' := ⟨ns, a'⟩) hget hc ho h1, by simpa using h2⟩

/-- C115: if the listeners leave the event alone, the emission is the one of C65. -/
theorem C115_unchanged (f : N → Listener σ D) (d : D) (ns : List N) (a : σ) (tr : List N) (s' : Live N σ) (r : Except PyErr Ret) :
    Calls (fun n d s => ({ s with app := (f n d s.app).1 }, (f n d s.app).2)) d ⟨ns, a⟩ tr s' r →
      tr <+: ns ∧ s'.listeners = ns ∧ (s'.app, r) = Event.call { listeners := ns.map f } d a := by
  intro h
  obtain ⟨tr', h1, h2⟩ := emits_fixed f d ns ns [] (.bool false) a rfl
  obtain ⟨rfl, rfl, rfl⟩ := Emits.unique h h1
  exact ⟨h2, rfl, rfl⟩

/-- The listener keeps the listeners there are and may add others. -/
def Adds (act : Acts N σ D) : Prop := ∀ n d s, s.listeners <+: (act n d s).1.listeners

theorem emits_adds {act : Acts N σ D} (ha : Adds act) {d : D} {i : Nat} {out : Ret} {s : Live N σ} {tr : List N} {s' : Live N σ}
    {r : Except PyErr Ret} (h : Emits act d i out s tr s' r) (hi : i ≤ s.listeners.length) :
    s.listeners <+: s'.listeners ∧ s.listeners.take i ++ tr <+: s'.listeners ∧ ((∃ v, r = .ok v) → s.listeners.take i ++ tr = s'.listeners) := by
  have keep : ∀ {i : Nat} {s s' : Live N σ} {n}, s.listeners[i]? = some n → s.listeners <+: s'.listeners →
      s.listeners.take i ++ [n] = s'.listeners.take (i + 1) ∧ i + 1 ≤ s'.listeners.length := by
    intro i s s' n hn hp
    obtain ⟨t, ht⟩ := hp
    have hlt : i < s.listeners.length := by
      by_contra hc
      rw [List.getElem?_eq_none (by omega)] at hn
      cases hn
    rw [← ht]
    refine ⟨?_, by rw [List.length_append]; omega⟩
    rw [List.take_append_of_le_length (by omega), List.take_add_one, hn]
    rfl
  induction h with
  | done h =>
    have := List.getElem?_eq_none_iff.mp h
    rw [List.take_of_length_le this]
    exact ⟨List.prefix_rfl, by simp, fun _ => by simp⟩
  | @raised i out s n s' e h hc =>
    have hp := ha n d s
    rw [hc] at hp
    obtain ⟨k, -⟩ := keep h hp
    refine ⟨hp, ?_, by rintro ⟨v, hv⟩; cases hv⟩
    rw [k]
    exact List.take_prefix _ _
  | @refused i out s n s' v e h hc ho =>
    have hp := ha n d s
    rw [hc] at hp
    obtain ⟨k, -⟩ := keep h hp
    refine ⟨hp, ?_, by rintro ⟨v, hv⟩; cases hv⟩
    rw [k]
    exact List.take_prefix _ _
  | @next i out s n s' v out' tr s'' r h hc ho hn ih =>
    have hp := ha n d s
    rw [hc] at hp
    obtain ⟨k, hle⟩ := keep h hp
    obtain ⟨h1, h2, h3⟩ := ih hle
    have e : s.listeners.take i ++ n :: tr = s'.listeners.take (i + 1) ++ tr := by rw [← k]; simp
    rw [e]
    exact ⟨hp.trans h1, h2, h3⟩

/-- C115: if listeners are added during the emission, by whomever, an emission that returns has called the listeners there are at the end, each once and
in the order of registration; one that raises has called an initial part of them. -/
theorem C115_added (act : Acts N σ D) (ha : Adds act) (d : D) (s s' : Live N σ) (tr : List N) (r : Except PyErr Ret) (h : Calls act d s tr s' r) :
    tr <+: s'.listeners ∧ ((∃ v, r = .ok v) → tr = s'.listeners) := by
  have := emits_adds ha h (Nat.zero_le _)
  simpa using this.2

/-- C115: a listener that is called as the `i`-th one (from 0) and leaves at most `i + 1` listeners is the last one called. So after a `clear`
nobody else is called. -/
theorem C115_cleared (act : Acts N σ D) (d : D) (i : Nat) (out : Ret) (s s' : Live N σ) (tr : List N) (r : Except PyErr Ret) (n : N)
    (h : Emits act d i out s tr s' r) (hn : s.listeners[i]? = some n) (hc : (act n d s).1.listeners.length ≤ i + 1) :
    tr = [n] ∧ s' = (act n d s).1 := by
  cases h with
  | done h => rw [h] at hn; cases hn
  | raised h ha => rw [h] at hn; cases hn; rw [ha]; exact ⟨rfl, rfl⟩
  | refused h ha => rw [h] at hn; cases hn; rw [ha]; exact ⟨rfl, rfl⟩
  | next h ha ho hnext =>
    rw [h] at hn; cases hn
    rw [ha] at hc ⊢
    cases hnext with
    | done => exact ⟨rfl, rfl⟩
    | raised h' => rw [List.getElem?_eq_none hc] at h'; cases h'
    | refused h' => rw [List.getElem?_eq_none hc] at h'; cases h'
    | next h' => rw [List.getElem?_eq_none hc] at h'; cases h'

/-- C115: every emission ends if no listener makes the list longer. -/
theorem C115_ends_partial (act : Acts N σ D) (hle : ∀ n d s, (act n d s).1.listeners.length ≤ s.listeners.length) (d : D) (s : Live N σ) :
    ∃ tr s' r, Calls act d s tr s' r := by
  have go : ∀ (k i : Nat) (out : Ret) (s : Live N σ), s.listeners.length ≤ i + k → ∃ tr s' r, Emits act d i out s tr s' r := by
    intro k
    induction k with
    | zero => exact fun i out s h => ⟨_, _, _, .done (List.getElem?_eq_none (by omega))⟩
    | succ k ih =>
      intro i out s h
      cases hg : s.listeners[i]? with
      | none => exact ⟨_, _, _, .done hg⟩
      | some n =>
        have hl := hle n d s
        rcases ha : act n d s with ⟨s', e | v⟩
        · exact ⟨_, _, _, .raised hg ha⟩
        · rw [ha] at hl
          cases ho : out.bor v.orFalse with
          | error e => exact ⟨_, _, _, .refused hg ha ho⟩
          | ok out' =>
            obtain ⟨tr, s'', r, hn⟩ := ih (i + 1) out' s' (by simp only at hl; omega)
            exact ⟨_, _, _, .next hg ha ho hn⟩
  exact go s.listeners.length 0 _ s (by omega)

/-- C115 is violated: if every call of a listener adds a listener (and raises nothing), the emission to any listener never ends. -/
theorem C115_endless_violated (act : Acts N σ D) (d : D)
    (hact : ∀ n s, s.listeners.length < (act n d s).1.listeners.length ∧ ∃ v, (act n d s).2 = .ok v ∧ v.Plain)
    (s : Live N σ) (hs : s.listeners ≠ []) : ¬ ∃ tr s' r, Calls act d s tr s' r := by
  have go : ∀ (i : Nat) (out : Ret) (s : Live N σ) (tr : List N) (s' : Live N σ) (r : Except PyErr Ret),
      Emits act d i out s tr s' r → out.Flag → i < s.listeners.length → False := by
    intro i out s tr s' r h
    induction h with
    | done h => intro _ hi; rw [List.getElem?_eq_none_iff] at h; omega
    | @raised i out s n s' e h hc =>
      obtain ⟨-, v, hv, -⟩ := hact n s
      rw [hc] at hv; cases hv
    | @refused i out s n s' v e h hc ho =>
      intro hf _
      obtain ⟨-, v', hv, hp⟩ := hact n s
      rw [hc] at hv; cases hv
      obtain ⟨q, hq, -⟩ := bor_ok out v hf hp
      rw [ho] at hq; cases hq
    | @next i out s n s' v out' tr s'' r h hc ho hn ih =>
      intro hf hi
      obtain ⟨hl, v', hv, hp⟩ := hact n s
      rw [hc] at hv hl; cases hv
      obtain ⟨q, hq, hqf, -⟩ := bor_ok out v hf hp
      rw [ho] at hq; cases hq
      exact ih hqf (by simp only at hl; omega)
  rintro ⟨tr, s', r, h⟩
  exact go 0 _ s tr s' r h trivial (List.length_pos_iff.mpr hs)

/-- The listeners of the cases below: 0 adds 1 when it is called, 2 clears the event and adds 1, 3 adds itself, 1 does nothing. -/
def liveCase : Acts Nat Unit Unit := fun n _ s =>
  (if n = 0 then { s with listeners := s.listeners ++ [1] }
   else if n = 2 then { s with listeners := [1] }
   else if n = 3 then { s with listeners := s.listeners ++ [3] }
   else s, .ok (.bool (n == 1)))

/-- A case of C115: the added listener is called in the same emission. -/
example : Calls liveCase () ⟨[0, 1], ()⟩ [0, 1, 1] ⟨[0, 1, 1], ()⟩ (.ok (.bool true)) :=
  .next (n := 0) rfl rfl rfl (.next (n := 1) rfl rfl rfl (.next (n := 1) rfl rfl rfl (.done rfl)))

/-- C115 is violated: a listener that is added after a `clear` is not called in the same emission. -/
theorem C115_replaced_violated :
    Calls liveCase () ⟨[2, 0], ()⟩ [2] ⟨[1], ()⟩ (.ok (.bool false)) :=
  .next (n := 2) rfl rfl rfl (.done rfl)

/-- A case of `C115_endless_violated`: only the listener 3. -/
example : ¬ ∃ tr s' r, Calls (fun _ d s => liveCase 3 d s) () ⟨[3], ()⟩ tr s' r :=
  C115_endless_violated _ () (fun _ s => ⟨by simp [liveCase], .bool false, rfl, trivial⟩) _ (by simp)

end Slate
