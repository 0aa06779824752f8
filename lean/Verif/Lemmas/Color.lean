import Verif.Spec.Display
import Verif.Lemmas.Display

/-! The codes emitted for colours and their meaning. -/

namespace Slate
open Py Term

/-- The palette entry or RGB value meant by the code emitted for a colour that has
no ANSI constructor, in each colour space. -/
def denOf (env : Color.Env) (c : Color) : TColor :=
  match env.space with
  | .trueColor => .rgb c.r c.g c.b
  | .noColor => .idx (env.grey c.r c.g c.b)
  | .eightBit => .idx c.cubeIndex
  | .standard => .idx (Color.nearestStd (c.r, c.g, c.b))

theorem argminGo_mem (key : Nat → Int) (is : List Nat) (best : Nat) :
    Color.argminGo key is best = best ∨ Color.argminGo key is best ∈ is := by
  induction is generalizing best with
  | nil => exact .inl rfl
  | cons i is ih =>
    unfold Color.argminGo
    split
    · rcases ih i with h | h
      · exact .inr (by rw [h]; simp)
      · exact .inr (by simp [h])
    · rcases ih best with h | h
      · exact .inl h
      · exact .inr (by simp [h])

theorem nearestStd_lt (rgb : Nat × Nat × Nat) : Color.nearestStd rgb < 16 := by
  unfold Color.nearestStd
  rcases argminGo_mem (fun i => Color.geoKey rgb (colorTable.getD i (0, 0, 0))) (List.range' 1 15) 0
    with h | h
  · rw [h]; decide
  · have := List.mem_range'_1.mp h; omega

theorem sgr_fg5 (n : Nat) (rest : List Nat) (a : Attr) :
    sgr (38 :: 5 :: n :: rest) a = sgr rest { a with fg := .idx n } := by rw [sgr]
theorem sgr_bg5 (n : Nat) (rest : List Nat) (a : Attr) :
    sgr (48 :: 5 :: n :: rest) a = sgr rest { a with bg := .idx n } := by rw [sgr]
theorem sgr_fg2 (r g b : Nat) (rest : List Nat) (a : Attr) :
    sgr (38 :: 2 :: r :: g :: b :: rest) a = sgr rest { a with fg := .rgb r g b } := by rw [sgr]
theorem sgr_bg2 (r g b : Nat) (rest : List Nat) (a : Attr) :
    sgr (48 :: 2 :: r :: g :: b :: rest) a = sgr rest { a with bg := .rgb r g b } := by rw [sgr]

theorem sgr1_stdCode {i : Nat} (h : i < 16) (isBg : Bool) (a : Attr) :
    sgr1 (Color.stdCode i isBg) a = paint isBg (.idx i) a ∧
    Color.stdCode i isBg ≠ 38 ∧ Color.stdCode i isBg ≠ 48 := by
  have : i = 0 ∨ i = 1 ∨ i = 2 ∨ i = 3 ∨ i = 4 ∨ i = 5 ∨ i = 6 ∨ i = 7 ∨ i = 8 ∨ i = 9 ∨ i = 10 ∨
    i = 11 ∨ i = 12 ∨ i = 13 ∨ i = 14 ∨ i = 15 := by omega
  cases isBg <;> rcases this with rfl | rfl | rfl | rfl | rfl | rfl | rfl | rfl | rfl | rfl | rfl |
    rfl | rfl | rfl | rfl | rfl <;> exact ⟨rfl, by decide, by decide⟩

theorem dec2 : dec 2 = "2".toList := by rfl
theorem dec5 : dec 5 = "5".toList := by rfl

/-- The converted code of a colour means `denOf`. -/
theorem convert_sendable (env : Color.Env) (c : Color) :
    ∃ n ns, Color.convert env c = join [';'] ((n :: ns).map dec) ∧
      ∀ rest a, sgr (n :: ns ++ rest) a = sgr rest (paint c.isBg (denOf env c) a) := by
  unfold Color.convert denOf Color.lead
  cases env.space with
  | trueColor =>
    refine ⟨if c.isBg then 48 else 38, [2, c.r, c.g, c.b], by simp [join, dec2], ?_⟩
    intro rest a
    cases c.isBg
    · exact sgr_fg2 ..
    · exact sgr_bg2 ..
  | noColor =>
    refine ⟨if c.isBg then 48 else 38, [5, env.grey c.r c.g c.b], by simp [join, dec5], ?_⟩
    intro rest a
    cases c.isBg
    · exact sgr_fg5 ..
    · exact sgr_bg5 ..
  | eightBit =>
    refine ⟨if c.isBg then 48 else 38, [5, c.cubeIndex], by simp [join, dec5], ?_⟩
    intro rest a
    cases c.isBg
    · exact sgr_fg5 ..
    · exact sgr_bg5 ..
  | standard =>
    refine ⟨Color.stdCode (Color.nearestStd (c.r, c.g, c.b)) c.isBg, [], by simp [join], ?_⟩
    intro rest a
    obtain ⟨h1, h2, h3⟩ := sgr1_stdCode (nearestStd_lt (c.r, c.g, c.b)) c.isBg a
    rw [← h1]
    exact sgr_cons h2 h3 rest a

theorem denOk (env : Color.Env) : DenOk env (denOf env) := by
  intro c hc
  obtain ⟨n, ns, h1, h2⟩ := convert_sendable env c
  exact ⟨n, ns, by rw [Color.ansi, hc]; exact h1, h2⟩

/-- Colours made directly or from a hex string are sendable in every colour space. -/
theorem sendable_of_hex (env : Color.Env) (c : Color)
    (h : c.ctor = none ∨ ∃ t, c.ctor = some ('#' :: t)) : Sendable env c (denOf env c) := by
  rcases h with h | ⟨t, h⟩
  · exact denOk env c h
  · obtain ⟨n, ns, h1, h2⟩ := convert_sendable env c
    refine ⟨n, ns, ?_, h2⟩
    rw [Color.ansi, h]
    simp only [startsWith]
    simpa using h1

theorem denOf_trueColor {env : Color.Env} (h : env.space = .trueColor) : denOf env = trueColor := by
  funext c; simp [denOf, trueColor, h]

end Slate
