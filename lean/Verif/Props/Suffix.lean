import Verif.Props.Codes

/-!
# ANSI colours with an alpha value, and malformed ones (C46)
-/

namespace Slate
open Py

/-- The code in front of the last semicolon. -/
def beforeLast (s : Str) : Str := join [';'] (splitC ';' s).dropLast

/-- The colour space of a code that has an alpha value in the last of its parts. -/
def suffixSpace (s : Str) : ColorSpace :=
  if (s.filter (· == ';')).length = 1 then .standard
  else if (s.filter (· == ';')).length ≤ 3 then .eightBit
  else .trueColor

/-- What `from_ansi` remembers of a code with an alpha value. -/
theorem fromAnsi_suffix {s : Str} {al : Rat} {c : Color} (h : Color.fromAnsi s al = .ok c)
    (hal : '.' ∈ (splitC ';' s).getLastD []) :
    c.ctor = some (if suffixSpace s = .trueColor then beforeLast s else s) ∧ c.origin = suffixSpace s ∧
    (suffixSpace s = .trueColor → startsWith s ['#'] = false ∧ startsWith (beforeLast s) ['#'] = false) := by
  unfold Color.fromAnsi at h
  simp only at h
  rw [if_pos hal] at h
  have hlen := splitC_length ';' s
  have hj := join_splitC ';' s
  split at h
  · cases h
  rename_i a _
  have hdl : (splitC ';' s).dropLast.length = (s.filter (· == ';')).length := by
    rw [List.length_dropLast, hlen]; rfl
  have hsplit : splitC ';' s = (splitC ';' s).dropLast ++ [(splitC ';' s).getLastD []] := by
    have hne := splitC_ne_nil ';' s
    rw [List.getLastD_eq_getLast?, List.getLast?_eq_some_getLast hne]
    exact (List.dropLast_append_getLast hne).symm
  unfold Color.fromParts at h
  split at h
  · cases h
  rename_i p0 ps hp
  rw [hp] at hdl
  simp only [List.length_cons] at hdl
  unfold suffixSpace beforeLast
  rw [hp]
  split at h
  · rename_i h3
    rw [hp, List.length_cons] at h3
    have h1 : ¬ (s.filter (· == ';')).length = 1 := by omega
    have h2 : ¬ (s.filter (· == ';')).length ≤ 3 := by omega
    rw [if_neg h1, if_neg h2]
    split at h
    · rename_i ht
      obtain ⟨r, -, h⟩ := bind_ok' h
      obtain ⟨g, -, h⟩ := bind_ok' h
      obtain ⟨b, -, h⟩ := bind_ok' h
      obtain ⟨h1, h2, -, h4⟩ := make_fields h
      rw [hp] at h2 ht
      refine ⟨h2, h1, fun _ => ?_⟩
      cases ps with
      | nil => simp at h3
      | cons p1 ps =>
        have h0 : p0 = "38".toList ∨ p0 = "48".toList := by
          rcases ht with ht | ht
          · left; simpa using congrArg List.head? ht
          · right; simpa using congrArg List.head? ht
        constructor
        · rw [← hj, hsplit, hp]
          rcases h0 with rfl | rfl <;> rfl
        · rcases h0 with rfl | rfl <;> rfl
    · cases h
  · rename_i h3
    rw [hp, List.length_cons] at h3
    obtain ⟨i, -, h⟩ := bind_ok' h
    simp only at h
    split at h
    all_goals
      rename_i hl
      rw [hp, List.length_cons] at hl
      split at h
      · split at h
        · obtain ⟨h1, h2, -, h4⟩ := make_fields h
          rw [h1, h2]
          clear * - h3 hl hdl
          split_ifs <;> first | omega | contradiction | simp
        · cases h
      · cases h

/-- **C46** for codes with an alpha value: a true-colour code is emitted without it, any other code together with it. -/
theorem C46_suffix (env : Color.Env) (s : Str) (al : Rat) (c : Color) (h : Color.fromAnsi s al = .ok c)
    (hal : '.' ∈ (splitC ';' s).getLastD []) :
    c.ansi env = if startsWith s ['#'] = false ∧ spaceRank (suffixSpace s) ≤ spaceRank env.space then
        (if suffixSpace s = .trueColor then beforeLast s else s)
      else Color.convert env { c with ctor := none } := by
  obtain ⟨h1, h2, h3⟩ := fromAnsi_suffix h hal
  have hg : ColorSpace.geB env.space c.origin = decide (spaceRank (suffixSpace s) ≤ spaceRank env.space) := by
    rw [h2]; unfold ColorSpace.geB; rw [(C50_order env.space (suffixSpace s)).2.1]
  rw [Color.ansi, h1]
  simp only [hg]
  have hs : startsWith (if suffixSpace s = .trueColor then beforeLast s else s) ['#'] = startsWith s ['#'] := by
    split
    · rename_i ht
      rw [(h3 ht).1, (h3 ht).2]
    · rfl
  rw [hs]
  by_cases hr : spaceRank (suffixSpace s) ≤ spaceRank env.space <;> cases hd : startsWith s ['#'] <;> simp [hr] <;> rfl

/-- **C46 violated**: in a true-colour terminal no true-colour code with an alpha value is emitted as given. -/
theorem C46_suffix_violated (env : Color.Env) (henv : env.space = .trueColor) (s : Str) (al : Rat) (c : Color)
    (h : Color.fromAnsi s al = .ok c) (hal : '.' ∈ (splitC ';' s).getLastD []) (ht : 3 < (s.filter (· == ';')).length) :
    c.ansi env ≠ s ∧ (c.ansi env).length < s.length := by
  have hsp : suffixSpace s = .trueColor := by
    unfold suffixSpace
    rw [if_neg (by omega), if_neg (by omega)]
  have hlen : (beforeLast s).length < s.length := by
    have hj := join_splitC ';' s
    have hne := splitC_ne_nil ';' s
    have hsplit : splitC ';' s = (splitC ';' s).dropLast ++ [(splitC ';' s).getLastD []] := by
      rw [List.getLastD_eq_getLast?, List.getLast?_eq_some_getLast hne]
      exact (List.dropLast_append_getLast hne).symm
    have hpos : 0 < ((splitC ';' s).getLastD []).length := List.length_pos_of_mem hal
    have : ∀ (l : List Str) (x : Str), (join [';'] l).length + x.length ≤ (join [';'] (l ++ [x])).length := by
      intro l x
      induction l with
      | nil => simp [join]
      | cons a t ih =>
        cases t with
        | nil => simp [join]
        | cons b t =>
          simp only [List.cons_append, join, List.length_append] at ih ⊢
          omega
    have := this (splitC ';' s).dropLast ((splitC ';' s).getLastD [])
    rw [← hsplit, hj] at this
    unfold beforeLast
    omega
  have e := C46_suffix env s al c h hal
  have hh := ((fromAnsi_suffix h hal).2.2 hsp).1
  rw [if_pos ⟨hh, by rw [hsp, henv]⟩, if_pos hsp] at e
  rw [e]
  exact ⟨fun hc => by rw [hc] at hlen; omega, hlen⟩

/-- **C46 violated** for every code that starts with `#`, with or without an alpha value: it is always converted. -/
theorem C46_converted_violated (env : Color.Env) (s : Str) (al : Rat) (c : Color) (h : Color.fromAnsi s al = .ok c)
    (hh : startsWith s ['#'] = true) : c.ansi env = Color.convert env { c with ctor := none } := by
  by_cases hal : '.' ∈ (splitC ';' s).getLastD []
  · rw [C46_suffix env s al c h hal, hh]
    simp
  · rw [Color.ansi, (fromAnsi_ctor h hal).1]
    simp only [hh]
    simp
    rfl

/-- A true-colour and an 8-bit code with an alpha value, and a code that starts with `#`. -/
example : (∃ c, Color.fromAnsi "38;2;1;2;3;0.5".toList = .ok c ∧ c.ansi {} = "38;2;1;2;3".toList) ∧
    (∃ c, Color.fromAnsi "38;5;9;0.5".toList = .ok c ∧ c.ansi {} = "38;5;9;0.5".toList) ∧
    (∃ c, Color.fromAnsi "#;5;1".toList = .ok c ∧ c.ansi {} = "38;2;170;0;0".toList) :=
  ⟨⟨⟨1, 2, 3, false, 1/2, .trueColor, some "38;2;1;2;3".toList⟩, by decide +kernel, by decide +kernel⟩,
   ⟨⟨255, 85, 85, false, 1/2, .eightBit, some "38;5;9;0.5".toList⟩, by decide +kernel, by decide +kernel⟩,
   ⟨⟨170, 0, 0, false, 1, .eightBit, some "#;5;1".toList⟩, by decide +kernel, by decide +kernel⟩⟩

end Slate
