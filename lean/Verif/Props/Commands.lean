import Verif.Model.Commands
import Verif.Spec.Emulator
import Verif.Props.Repr
import Verif.Props.Mouse

/-!
# C90: what the command line shows of a key
-/

namespace Slate
open Py Term Main Core

/-! ## `repr` prints no control characters -/

theorem printable_hexLower : ∀ d < 16, Printable (hexLower d) := by decide +kernel

theorem printable_hexN (k n : Nat) : ∀ c ∈ hexN k n, Printable c := by
  induction k with
  | zero => simp [hexN]
  | succ k ih =>
    intro c hc
    rw [hexN, List.mem_cons] at hc
    rcases hc with rfl | hc
    · exact printable_hexLower _ (Nat.mod_lt _ (by omega))
    · exact ih c hc

theorem printable_reprOf (pr : Char → Bool) (hpr : ∀ c, pr c = true → Printable c) (s : Str) :
    ∀ c ∈ reprOf pr s, Printable c := by
  have hq : Printable (reprQuote s) := by unfold reprQuote; split <;> decide
  have hch : ∀ d, ∀ c ∈ reprChar pr (reprQuote s) d, Printable c := by
    intro d c hc
    unfold reprChar at hc
    split at hc
    · rename_i h
      simp only [List.mem_cons, List.not_mem_nil, or_false] at hc
      rcases hc with rfl | rfl
      · decide
      · rcases h with rfl | rfl
        · exact hq
        · decide
    iterate 3
      split at hc
      · simp only [List.mem_cons, List.not_mem_nil, or_false] at hc
        rcases hc with rfl | rfl <;> decide
    have hesc : ∀ (p : Char) (k n : Nat), Printable p → c ∈ ['\\', p] ++ hexN k n → Printable c := by
      intro p k n hp hm
      simp only [List.mem_append, List.mem_cons, List.not_mem_nil, or_false] at hm
      rcases hm with (rfl | rfl) | hm
      · decide
      · exact hp
      · exact printable_hexN k n c hm
    split at hc
    · exact hesc 'x' _ _ (by decide) hc
    rename_i h32
    split at hc
    · simp only [List.mem_singleton] at hc
      subst hc
      unfold Printable
      omega
    split at hc
    · rename_i hp
      simp only [List.mem_singleton] at hc
      subst hc
      exact hpr _ hp
    split at hc
    · exact hesc 'x' _ _ (by decide) hc
    split at hc
    · exact hesc 'u' _ _ (by decide) hc
    · exact hesc 'U' _ _ (by decide) hc
  intro c hc
  simp only [reprOf, List.mem_append, List.mem_singleton, List.mem_flatMap] at hc
  rcases hc with (rfl | ⟨d, -, hd⟩) | rfl
  · exact hq
  · exact hch d c hd
  · exact hq

/-! ## C90 -/

/-- **C90** (`slate getch --raw`): what is shown is printable, and it is a Python literal of exactly
the characters that were read. -/
theorem C90_raw (pr : Char → Bool) (hpr : ∀ c, pr c = true → Printable c) (env : Color.Env) (s : Str) :
    ∃ prompt line, runGetch pr env true true (.text s) = .ok (prompt, line) ∧
      (∀ c ∈ line, Printable c) ∧ PyExpr.tokens line = some [.str s] := by
  refine ⟨getchPrompt env, reprOf pr s, rfl, printable_reprOf pr hpr s, C89_string pr s⟩

theorem other_key {s : Str} (hs : ∀ p ∈ posixKeyNames, p.1 ≠ s)
    (hm : ∀ t, AfterLast ['\x1b'] s t → t.count ';' ≠ 2) : getch true false (.text s) = .ok ⟨[s]⟩ := by
  apply C54_other_partial s hs
  have := hm _ (splitC_getLast '\x1b' s)
  rwa [List.count_eq_countP, show (fun x => x == ';') = fun x => decide (x = ';') from by
    funext x; rfl] at this

/-- **C90** (partial: other keys are printed as they are, `C90_unknown_violated`): for a key with a
name, and for a single character, what is shown is printable. -/
theorem C90_named_partial (pr : Char → Bool) (hpr : ∀ c, pr c = true → Printable c) (env : Color.Env) (s : Str)
    (hs : (∃ names, (s, names) ∈ posixKeyNames) ∨ s.length = 1) :
    ∃ prompt line, runGetch pr env true false (.text s) = .ok (prompt, line) ∧
      ∀ c ∈ line, Printable c := by
  have hnames : ∀ p ∈ posixKeyNames, ∀ n ∈ p.2, ∀ c ∈ n, Printable c := by decide +kernel
  have hline : ∀ k : Key, (∀ n ∈ k.names, n.length ≠ 1 → ∀ c ∈ n, Printable c) →
      ∀ c ∈ keyLine pr false k, Printable c := by
    intro k hk c hc
    rcases mem_join hc with h | ⟨a, ha, hca⟩
    · exact (by decide : ∀ c ∈ " | ".toList, Printable c) c h
    · obtain ⟨n, hn, rfl⟩ := List.mem_map.mp ha
      simp only [Bool.false_or, decide_eq_true_eq] at hca
      split at hca
      · exact printable_reprOf pr hpr n c hca
      · rename_i hl; exact hk n hn hl c hca
  by_cases ht : ∃ p ∈ posixKeyNames, p.1 = s
  · obtain ⟨p, hp, rfl⟩ := ht
    have := C54_table p hp
    refine ⟨getchPrompt env, keyLine pr false ⟨p.2⟩, ?_, hline _ fun n hn _ => hnames p hp n hn⟩
    unfold runGetch
    rw [this]; rfl
  · have hs1 : s.length = 1 := by
      rcases hs with ⟨names, h⟩ | h
      · exact absurd ⟨_, h, rfl⟩ ht
      · exact h
    have := other_key (s := s) (fun p hp he => ht ⟨p, hp, he⟩) (by
      rintro t (⟨pre, h, -⟩ | ⟨-, rfl⟩)
      · have h1 := congrArg List.length h
        have := List.count_le_length (a := ';') (l := t)
        simp at h1; omega
      · have := List.count_le_length (a := ';') (l := t); omega)
    refine ⟨getchPrompt env, keyLine pr false ⟨[s]⟩, ?_, hline _ fun n hn hl => ?_⟩
    · unfold runGetch
      rw [this]; rfl
    · simp only [List.mem_singleton] at hn
      subst hn; exact absurd hs1 hl

/-- **C90 violated**: any other text that is not taken for a mouse report is sent to the terminal as
it is. -/
theorem C90_unknown_violated (pr : Char → Bool) (env : Color.Env) (s : Str)
    (hs : ∀ p ∈ posixKeyNames, p.1 ≠ s) (h1 : s.length ≠ 1)
    (hm : ∀ t, AfterLast ['\x1b'] s t → t.count ';' ≠ 2) :
    ∃ prompt, runGetch pr env true false (.text s) = .ok (prompt, s) := by
  unfold runGetch
  rw [other_key hs hm]
  have : keyLine pr false ⟨[s]⟩ = s := by
    simp only [keyLine, List.map_cons, List.map_nil, join, Bool.false_or, h1, decide_false,
      Bool.false_eq_true, if_false]
  exact ⟨getchPrompt env, by
    simp only [ok_bind, this]⟩

/-- **C90 violated**: for instance the key F13, whose sequence has no name. The terminal takes it for a
control sequence: nothing is shown. -/
theorem C90_f13_violated (pr : Char → Bool) (T : State) (hT : T.mode = .ground) :
    (∃ prompt, runGetch pr {} true false (.text "\x1b[25~".toList) = .ok (prompt, "\x1b[25~".toList)) ∧
    (run T "\x1b[25~".toList).grid = T.grid := by
  constructor
  · refine C90_unknown_violated pr {} _ (by decide +kernel) (by decide) ?_
    rintro t (⟨pre, h, -⟩ | ⟨-, rfl⟩)
    · intro hc
      have hm : ';' ∈ t := List.count_pos_iff.mp (by omega)
      have : ';' ∈ "\x1b[25~".toList := by rw [h]; simp [hm]
      revert this; decide
    · decide
  · obtain ⟨mode, row, col, pen, grid, log⟩ := T
    simp only at hT
    subst hT
    rfl

/-- A predicate for `str.isprintable` as the theorems want it, a named key of several characters, a
control character, and a text that is neither. -/
example : let pr : Char → Bool := fun c => decide (Printable c)
    (∀ c, pr c = true → Printable c) ∧
    (∃ names, ("\x1b[A".toList, names) ∈ posixKeyNames) ∧
    runGetch pr {} true false (.text "\x1b[A".toList) = .ok (getchPrompt {}, "up | arrow-up".toList) ∧
    runGetch pr {} true true (.text "\x1b[A".toList) = .ok (getchPrompt {}, "'\\x1b[A'".toList) ∧
    runGetch pr {} true false (.text ['\x01']) = .ok (getchPrompt {}, "ctrl-a".toList) := by
  refine ⟨fun c h => by simpa using h, ?_, ?_, ?_, ?_⟩
  · exact ⟨["up".toList, "arrow-up".toList], by decide +kernel⟩
  · decide +kernel
  · decide +kernel
  · decide +kernel

/-- **C90** (`slate size`): the size can be read off what is printed. -/
theorem C90_size (a b : Nat × Nat) (h : runSize a = runSize b) : a = b := by
  have hne : ∀ n, ' ' ∉ dec n := fun n => dec_not_mem (by decide)
  have e : ∀ p : Nat × Nat, runSize p = dec p.1 ++ ' ' :: ("x ".toList ++ dec p.2) := by
    intro p; simp [runSize, join]
  rw [e, e] at h
  obtain ⟨h1, h2⟩ := append_sep_inj (hne _) (hne _) h
  exact Prod.ext (dec_inj h1) (dec_inj (List.append_cancel_left h2))

end Slate
