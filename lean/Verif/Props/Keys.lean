import Verif.Props.Mouse
import Verif.Spec.Keys

/-!
# C86: keys are named after themselves
-/

namespace Slate
open Py Core

/-- C86 (partial: home and end are missing, `C86_home_end_violated`): whatever a terminal sends for
a key, with any modifiers, `getch` returns names of that key with those modifiers only, or the
sequence unchanged. -/
theorem C86_named_partial (k : Cap) (m : Mods) (hk : k ≠ .home ∧ k ≠ .end) (s : Str) (hs : s ∈ keySequences k m) :
    getch true false (.text s) = .ok ⟨[s]⟩ ∨
    ∃ ns, getch true false (.text s) = .ok ⟨ns⟩ ∧ ns ≠ [] ∧ ∀ n ∈ ns, n ∈ keyNamesOf k m := by
  have key : ∀ k ∈ Cap.all, ∀ m ∈ Mods.all, k ≠ .home → k ≠ .end → ∀ s ∈ keySequences k m,
      (match getch true false (.text s) with
      | .ok key => decide (key.names = [s] ∨ (key.names ≠ [] ∧ ∀ n ∈ key.names, n ∈ keyNamesOf k m))
      | .error _ => false) = true := by
    decide +kernel
  have := key k k.mem_all m m.mem_all hk.1 hk.2 s hs
  cases hg : getch true false (.text s) with
  | error e => rw [hg] at this; cases this
  | ok key =>
    rw [hg] at this
    rcases of_decide_eq_true this with h | ⟨h1, h2⟩
    · exact .inl (by cases key; simp only at h; rw [h])
    · exact .inr ⟨key.names, rfl, h1, h2⟩

/-- C86: without modifiers every key but page up and page down has all of its names. -/
theorem C86_plain (k : Cap) (hk : k ≠ .home ∧ k ≠ .end ∧ k ≠ .pageUp ∧ k ≠ .pageDown) (s : Str)
    (hs : s ∈ keySequences k {}) : getch true false (.text s) = .ok ⟨keyNamesOf k {}⟩ := by
  have key : ∀ k ∈ Cap.all, k ≠ .home → k ≠ .end → k ≠ .pageUp → k ≠ .pageDown → ∀ s ∈ keySequences k {},
      getch true false (.text s) = .ok ⟨keyNamesOf k {}⟩ := by
    decide +kernel
  exact key k k.mem_all hk.1 hk.2.1 hk.2.2.1 hk.2.2.2 s hs

example : keySequences .up ⟨true, false, true⟩ = ["\x1b[1;6A".toList] ∧
    getch true false (.text "\x1b[1;6A".toList) = .ok ⟨["ctrl-shift-up".toList, "ctrl-shift-arrow-up".toList]⟩ ∧
    keySequences (.f 0) {} = ["\x1bOP".toList, "\x1b[11~".toList] ∧
    getch true false (.text "\x1b[11~".toList) = .ok ⟨["F1".toList]⟩ := by decide +kernel

/-- C86 fails: home is called `end`, and end is called `home`. -/
theorem C86_home_end_violated :
    keySequences .home {} = ["\x1b[H".toList] ∧ getch true false (.text "\x1b[H".toList) = .ok ⟨["end".toList]⟩ ∧
    keySequences .end {} = ["\x1b[F".toList] ∧ getch true false (.text "\x1b[F".toList) = .ok ⟨["home".toList]⟩ := by
  decide +kernel

/-- C86, the arrow keys: they are named with all modifiers but ctrl-alt and ctrl-alt-shift, and
but for ctrl-shift with right and left. -/
theorem C86_arrows (k : Cap) (hk : k = .up ∨ k = .down ∨ k = .right ∨ k = .left) (m : Mods) (s : Str)
    (hs : s ∈ keySequences k m) :
    getch true false (.text s) = .ok ⟨[s]⟩ ↔
      m.ctrl = true ∧ (m.alt = true ∨ m.shift = true ∧ (k = .right ∨ k = .left)) := by
  have key : ∀ k ∈ Cap.all, ∀ m ∈ Mods.all, k = .up ∨ k = .down ∨ k = .right ∨ k = .left → ∀ s ∈ keySequences k m,
      (getch true false (.text s) = .ok ⟨[s]⟩ ↔
        m.ctrl = true ∧ (m.alt = true ∨ m.shift = true ∧ (k = .right ∨ k = .left))) := by
    decide +kernel
  exact key k k.mem_all m m.mem_all hk s hs

/-- C86: a name tells the key. Two inputs with a name in common are the same input, unless they
are the two forms of a function key. (An input of several keys at once is its own name.) -/
theorem C86_unique (s t : Str) (a b : Key) (hs : ∃ p ∈ posixKeyNames, p.1 = s) (ht : ∃ p ∈ posixKeyNames, p.1 = t)
    (ha : getch true false (.text s) = .ok a) (hb : getch true false (.text t) = .ok b)
    (n : Str) (h1 : n ∈ a.names) (h2 : n ∈ b.names) :
    s = t ∨ ∃ i, s ∈ keySequences (.f i) {} ∧ t ∈ keySequences (.f i) {} := by
  have key : ∀ p ∈ posixKeyNames, ∀ q ∈ posixKeyNames, ∀ n ∈ p.2, n ∈ q.2 →
      p.1 = q.1 ∨ ∃ i, p.1 ∈ keySequences (.f i) {} ∧ q.1 ∈ keySequences (.f i) {} := by
    decide +kernel
  obtain ⟨p, hp, rfl⟩ := hs
  obtain ⟨q, hq, rfl⟩ := ht
  rw [C54_table p hp] at ha
  rw [C54_table q hq] at hb
  cases ha
  cases hb
  exact key p hp q hq n h1 h2

/-- C86: typed text never gets the name of a key: text that starts with a printable character and
has no escape character is returned as it is, unless it has exactly two semicolons (C54). -/
theorem C86_typed (c : Char) (s : Str) (hc : ' ' ≤ c) (hd : c ≠ '\x7f') (he : '\x1b' ∉ c :: s)
    (hn : (c :: s).count ';' ≠ 2) : getch true false (.text (c :: s)) = .ok ⟨[c :: s]⟩ := by
  have key : ∀ p ∈ posixKeyNames, p.1.head?.all (fun d => decide (d < ' ' ∨ d = '\x7f')) = true := by decide +kernel
  apply C54_other_partial
  · intro p hp h
    have := key p hp
    rw [h] at this
    rcases of_decide_eq_true (p := c < ' ' ∨ c = '\x7f') this with h | h
    · exact absurd hc (Char.not_le.mpr h)
    · exact hd h
  · rw [splitC_of_not_mem he]
    exact hn

example : getch true false (.text "home".toList) = .ok ⟨["home".toList]⟩ := by decide +kernel

end Slate
