import Verif.Spec.Modes
import Verif.Lemmas.Emulator

/-! Texts that switch no modes. -/

namespace Slate
open Py

namespace Modes

theorem feed_append (s : State) (a b : Str) : feed s (a ++ b) = feed (feed s a) b := by
  simp [feed, List.foldl_append]

theorem feed_cons (s : State) (c : Char) (t : Str) : feed s (c :: t) = feed (step s c) t := rfl

theorem feed_nil (s : State) : feed s [] = s := rfl

theorem Quiet.nil : Quiet [] := fun _ _ => rfl

theorem Quiet.append {a b : Str} (ha : Quiet a) (hb : Quiet b) : Quiet (a ++ b) := by
  intro s hs
  rw [feed_append, ha s hs, hb s hs]

theorem quiet_plain (t : Str) (h : ∀ c ∈ t, c ≠ '\x1b') : Quiet t := by
  intro s hs
  induction t with
  | nil => rfl
  | cons c cs ih =>
    have hc : step s c = s := by
      unfold step
      rw [hs]
      simp [h c (by simp)]
    rw [feed_cons, hc]
    exact ih fun d hd => h d (by simp [hd])

theorem feed_csi_params (s : State) (ps qs rest : Str) (hm : s.phase = .csi ps)
    (h : ∀ c ∈ qs, Term.ParamChar c) :
    feed s (qs ++ rest) = feed { s with phase := .csi (ps ++ qs) } rest := by
  induction qs generalizing s ps with
  | nil => simp [← hm]
  | cons q qs ih =>
    have hq := h q (by simp)
    have h1 : q ≠ '\x1b' := by rintro rfl; exact absurd hq.1 (by decide)
    have h2 : ¬ (64 ≤ q.toNat ∧ q.toNat ≤ 126) := by have := hq.2; omega
    have hs : step s q = { s with phase := .csi (ps ++ [q]) } := by
      unfold step; rw [hm]; simp only [h1, h2, if_false]
    rw [List.cons_append, feed_cons, hs, ih _ (ps ++ [q]) rfl (fun c hc => h c (by simp [hc]))]
    simp

/-- A control sequence that is not one of those with an effect. -/
theorem quiet_csi (qs : Str) (f : Char) (h : ∀ c ∈ qs, Term.ParamChar c) (hf : 64 ≤ f.toNat ∧ f.toNat ≤ 126)
    (h1 : f ≠ 'h') (h2 : f ≠ 'l') (h3 : f ≠ 't') : Quiet ('\x1b' :: '[' :: (qs ++ [f])) := by
  intro s hs
  have e1 : step s '\x1b' = { s with phase := .esc } := by unfold step; rw [hs]; simp
  have e2 : step { s with phase := .esc } '[' = { s with phase := .csi [] } := by unfold step; simp
  rw [feed_cons, e1, feed_cons, e2, feed_csi_params _ [] qs _ rfl h]
  have hf1 : f ≠ '\x1b' := by rintro rfl; exact absurd hf.1 (by decide)
  have hx : ∀ s' : State, execCsi s' qs f = s' := by
    intro s'
    unfold execCsi
    split
    · simp [h1, h2]
    · simp [h3]
  rw [feed_cons, feed_nil]
  unfold step
  simp only [List.nil_append, hf1, if_false, hf, and_self, if_true]
  rw [hx]
  cases s
  simp only at hs
  subst hs
  rfl

end Modes
end Slate
