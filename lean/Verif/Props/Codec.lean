import Verif.Model.Codec

/-!
# Streams that are not in UTF-8 (C104)
-/

namespace Slate
open Py Core

/-- What a byte gives in a single-byte encoding: the character it stands for, or its representation. -/
def unitOf (t : Nat → Option Char) (b : Nat) : Str := ((t b).map fun c => [c]).getD (byteRepr b)

theorem byteRepr_length (b : Nat) : ¬ (byteRepr b).length < 1 := by
  unfold byteRepr
  split_ifs <;> simp

theorem table_readOne (t : Nat → Option Char) (b : Nat) (bs : List Nat) :
    (Codec.table t).readOne (b :: bs) = some (.ok (unitOf t b), bs) := by
  have h : (Codec.table t).readByte b = .ok (unitOf t b) := by
    unfold Codec.readByte unitOf
    cases h : t b <;> simp [h]
  have hl : ¬ (unitOf t b).length < 1 := by
    unfold unitOf
    cases t b with
    | none => exact byteRepr_length b
    | some c => simp
  unfold Codec.readOne
  simp only [h, if_neg hl]

/-- The bytes that are taken once the first one was: as long as bytes are ready. -/
def takeReady (ready : List Nat → Bool) : List Nat → List Nat
  | [] => []
  | b :: bs => if ready (b :: bs) then b :: takeReady ready bs else []

theorem takeReady_spec (ready : List Nat → Bool) (h0 : ready [] = false) (bs : List Nat) :
    ∃ rest, bs = takeReady ready bs ++ rest ∧ ready rest = false := by
  induction bs with
  | nil => exact ⟨[], rfl, h0⟩
  | cons b bs ih =>
    obtain ⟨rest, e, hr⟩ := ih
    unfold takeReady
    split_ifs with h
    · exact ⟨rest, by rw [List.cons_append, ← e], hr⟩
    · exact ⟨b :: bs, rfl, by simpa using h⟩

theorem table_readWhile (t : Nat → Option Char) (ready : List Nat → Bool) (h0 : ready [] = false) :
    ∀ (fuel : Nat) (bs : List Nat) (buff : Str), bs.length ≤ fuel →
      (Codec.table t).readWhile ready fuel bs buff =
        some (.ok (buff ++ (takeReady ready bs).flatMap (unitOf t)), bs.drop (takeReady ready bs).length)
  | 0, bs, buff, h => by
    obtain rfl : bs = [] := List.length_eq_zero_iff.mp (by omega)
    simp [Codec.readWhile, h0, takeReady]
  | fuel + 1, [], buff, h => by simp [Codec.readWhile, h0, takeReady]
  | fuel + 1, b :: bs, buff, h => by
    unfold Codec.readWhile takeReady
    by_cases hr : ready (b :: bs) = true
    · rw [if_pos hr, if_pos hr, table_readOne]
      simp only
      rw [table_readWhile t ready h0 fuel bs _ (by simpa using h)]
      simp
    · rw [if_neg hr, if_neg hr]
      simp

/-- C104, single-byte encodings: whatever bytes arrive and whenever, the first byte and those that are ready after it are taken, each
of them gives exactly the character it stands for, or its representation if it stands for none, and the rest is left. -/
theorem C104_single_byte_partial (t : Nat → Option Char) (ready : List Nat → Bool) (h0 : ready [] = false) (b : Nat) (bs : List Nat) :
    ∃ used rest, bs = used ++ rest ∧ ready rest = false ∧
      (∀ a c, used = a ++ c → c ≠ [] → ready (c ++ rest) = true) ∧
      (Codec.table t).readText ready (b :: bs) = some (.ok ((b :: used).flatMap (unitOf t)), rest) := by
  obtain ⟨rest, e, hr⟩ := takeReady_spec ready h0 bs
  refine ⟨takeReady ready bs, rest, e, hr, ?_, ?_⟩
  · clear hr
    induction bs with
    | nil =>
      intro a c h hc
      rw [takeReady] at h
      simp at h
      exact absurd h.2 hc
    | cons x bs ih =>
      intro a c h hc
      unfold takeReady at h e
      split_ifs at h e with hx
      · have e' : bs = takeReady ready bs ++ rest := by simpa using e
        cases a with
        | nil =>
          have : c = x :: takeReady ready bs := by simpa using h.symm
          rw [this, List.cons_append, ← e']
          exact hx
        | cons y a =>
          have : takeReady ready bs = a ++ c := by
            have := h
            simp only [List.cons_append, List.cons.injEq] at this
            exact this.2
          exact ih e' a c this hc
      · have := h.symm
        simp at this
        exact absurd this.2 hc
  · unfold Codec.readText
    rw [table_readOne]
    simp only
    rw [table_readWhile t ready h0 _ _ _ (le_refl _)]
    have : bs.drop (takeReady ready bs).length = rest := by
      conv_lhs => rw [e]
      rw [List.drop_left' (by rw [← e])]
    rw [this]
    simp

/-- In latin-1 every text (of characters that it has, so that the numbers are bytes) is read as it was typed. -/
theorem C104_latin1_partial (s : Str) (hne : s ≠ []) :
    latin1.readText (fun bs => !bs.isEmpty) (s.map Char.toNat) = some (.ok s, []) := by
  obtain ⟨c, s, rfl⟩ := List.exists_cons_of_ne_nil hne
  obtain ⟨used, rest, e, hr, -, h⟩ :=
    C104_single_byte_partial (fun b => some (Char.ofNat b)) (fun bs => !bs.isEmpty) rfl c.toNat (s.map Char.toNat)
  have : rest = [] := by simpa using hr
  subst this
  rw [List.append_nil] at e
  subst e
  rw [latin1, List.map_cons, h]
  congr 3
  rw [← List.map_cons, List.flatMap_map]
  have : ∀ l : Str, (l.flatMap fun a => unitOf (fun b => some (Char.ofNat b)) a.toNat) = l := by
    intro l
    induction l with
    | nil => rfl
    | cons a l ih => rw [List.flatMap_cons, ih]; simp [unitOf, Char.ofNat_toNat]
  exact this _

/-- C104 fails: a stream without an encoding cannot be read at all. As soon as a byte arrives it is lost and `TypeError` raised. -/
theorem C104_no_encoding_violated (ready : List Nat → Bool) (b : Nat) (bs : List Nat) :
    Codec.noEncoding.readText ready (b :: bs) = some (.error .typeError, bs) := rfl

/-- Two bytes have arrived, two more arrive later. -/
example : ascii.readText (fun bs => decide (2 < bs.length)) [97, 0xE9, 98, 99] = some (.ok "ab'\\xe9'".toList, [98, 99]) ∧
    latin1.readText (fun bs => decide (2 < bs.length)) [97, 0xE9, 98, 99] = some (.ok "aé".toList, [98, 99]) := by
  decide +kernel

end Slate
