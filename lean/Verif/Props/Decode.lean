import Mathlib.Tactic.Ring
import Verif.Props.Mouse
import Verif.Model.Decode

/-!
# Bytes and keys (C71, C72, C73, C74, C75)
-/

namespace Slate
open Py Core

/-! ## Specification -/

/-- The UTF-8 encoding of a text, by Lean's own encoder of characters. -/
def utf8 (s : Str) : List Nat := s.flatMap fun c => (String.utf8EncodeChar c).map UInt8.toNat

/-! ## C71 -/

theorem char_bounds (c : Char) : c.toNat < 0xD800 ∨ (0xDFFF < c.toNat ∧ c.toNat < 0x110000) := by
  have := c.valid
  simp only [UInt32.isValidChar, Nat.isValidChar] at this
  exact this

theorem readOne_char (c : Char) (bs : List Nat) :
    readOne [] ((String.utf8EncodeChar c).map UInt8.toNat ++ bs) = some ([c], bs, []) := by
  have hb := char_bounds c
  have hc : Char.ofNat c.toNat = c := Char.ofNat_toNat c
  generalize hv : c.toNat = v at hb hc
  have hv' : c.val.toNat = v := hv
  unfold String.utf8EncodeChar
  simp only [hv']
  split_ifs with h1 h2 h3
  · have e0 : (UInt8.ofNat v).toNat = v := by simp; omega
    simp only [List.map_cons, List.map_nil, e0, List.cons_append, List.nil_append]
    have : v < 0x80 := by omega
    simp [readOne, readByte, utf8Decode, this, hc]
  · have e0 : (UInt8.ofNat (v / 64 % 0x20 + 0xc0)).toNat = v / 64 % 0x20 + 0xc0 := by simp; omega
    have e1 : (UInt8.ofNat (v % 0x40 + 0x80)).toNat = v % 0x40 + 0x80 := by simp; omega
    simp only [List.map_cons, List.map_nil, e0, e1, List.cons_append, List.nil_append]
    generalize ha : v / 64 % 0x20 + 0xc0 = a
    generalize hd : v % 0x40 + 0x80 = b
    have r0 : readByte [] a = ([], [a]) := by
      simp only [readByte, utf8Decode, List.nil_append]
      rw [if_neg (by omega), if_pos (by omega)]
    have r1 : readByte [a] b = ([c], []) := by
      have hcont : isCont b = true := by simp [isCont]; omega
      have hn : (a - 0xC0) * 64 + (b - 0x80) = v := by omega
      simp only [readByte, utf8Decode, List.cons_append, List.nil_append]
      rw [if_pos (by omega), if_pos hcont, hn, hc]
    simp [readOne, r0, r1]
  · have e0 : (UInt8.ofNat (v / 4096 % 0x10 + 0xe0)).toNat = v / 4096 % 0x10 + 0xe0 := by simp; omega
    have e1 : (UInt8.ofNat (v / 64 % 0x40 + 0x80)).toNat = v / 64 % 0x40 + 0x80 := by simp; omega
    have e2 : (UInt8.ofNat (v % 0x40 + 0x80)).toNat = v % 0x40 + 0x80 := by simp; omega
    simp only [List.map_cons, List.map_nil, e0, e1, e2, List.cons_append, List.nil_append]
    generalize ha : v / 4096 % 0x10 + 0xe0 = a
    generalize hd : v / 64 % 0x40 + 0x80 = b
    generalize hf : v % 0x40 + 0x80 = d
    have r0 : readByte [] a = ([], [a]) := by
      simp only [readByte, utf8Decode, List.nil_append]
      rw [if_neg (by omega), if_pos (by omega)]
    have hsec : isSecond a b = true := by
      simp [isSecond, isCont]; omega
    have hcont : isCont d = true := by simp [isCont]; omega
    have r1 : readByte [a] b = ([], [a, b]) := by
      simp only [readByte, utf8Decode, List.cons_append, List.nil_append]
      rw [if_neg (by omega), if_pos (by omega), if_pos (by simp [hsec])]
    have r2 : readByte [a, b] d = ([c], []) := by
      have hn : (a - 0xE0) * 4096 + (b - 0x80) * 64 + (d - 0x80) = v := by omega
      simp only [readByte, utf8Decode, List.cons_append, List.nil_append]
      rw [if_pos (by omega), hsec, hcont, if_pos (by rfl), hn, hc]
    simp [readOne, r0, r1, r2]
  · have e0 : (UInt8.ofNat (v / 262144 % 0x08 + 0xf0)).toNat = v / 262144 % 0x08 + 0xf0 := by simp; omega
    have e1 : (UInt8.ofNat (v / 4096 % 0x40 + 0x80)).toNat = v / 4096 % 0x40 + 0x80 := by simp; omega
    have e2 : (UInt8.ofNat (v / 64 % 0x40 + 0x80)).toNat = v / 64 % 0x40 + 0x80 := by simp; omega
    have e3 : (UInt8.ofNat (v % 0x40 + 0x80)).toNat = v % 0x40 + 0x80 := by simp; omega
    simp only [List.map_cons, List.map_nil, e0, e1, e2, e3, List.cons_append, List.nil_append]
    generalize ha : v / 262144 % 0x08 + 0xf0 = a
    generalize hd : v / 4096 % 0x40 + 0x80 = b
    generalize hf : v / 64 % 0x40 + 0x80 = d
    generalize hg : v % 0x40 + 0x80 = e
    have r0 : readByte [] a = ([], [a]) := by
      simp only [readByte, utf8Decode, List.nil_append]
      rw [if_neg (by omega), if_pos (by omega)]
    have hsec : isSecond a b = true := by
      simp [isSecond, isCont]; omega
    have hcont : isCont d = true := by simp [isCont]; omega
    have hcont' : isCont e = true := by simp [isCont]; omega
    have r1 : readByte [a] b = ([], [a, b]) := by
      simp only [readByte, utf8Decode, List.cons_append, List.nil_append]
      rw [if_neg (by omega), if_pos (by omega), if_pos (by simp [hsec])]
    have r2 : readByte [a, b] d = ([], [a, b, d]) := by
      simp only [readByte, utf8Decode, List.cons_append, List.nil_append]
      rw [if_neg (by omega), if_pos (by omega), hsec, hcont, if_pos (by rfl)]
    have r3 : readByte [a, b, d] e = ([c], []) := by
      have hn : (a - 0xF0) * 262144 + (b - 0x80) * 4096 + (d - 0x80) * 64 + (e - 0x80) = v := by omega
      simp only [readByte, utf8Decode, List.cons_append, List.nil_append]
      rw [if_pos (by omega), hsec, hcont, hcont', if_pos (by rfl), hn, hc]
    simp [readOne, r0, r1, r2, r3]

/-- Bytes that are read in one call of `_read(1)`, leaving nothing in the decoder. -/
def ReadsAs (u : List Nat × Str) : Prop := ∀ bs, readOne [] (u.1 ++ bs) = some (u.2, bs, [])

theorem readWhile_units (ready : List Nat → Bool) (h0 : ready [] = false) (us : List (List Nat × Str))
    (h : ∀ u ∈ us, ReadsAs u) (fuel : Nat) (hf : us.length ≤ fuel) (buff : Str) :
    ∃ a b : List (List Nat × Str), us = a ++ b ∧
      readWhile ready fuel [] (us.flatMap Prod.fst) buff = some (buff ++ a.flatMap Prod.snd, b.flatMap Prod.fst) ∧
      ready (b.flatMap Prod.fst) = false ∧
      ∀ x y, a = x ++ y → y ≠ [] → ready ((y ++ b).flatMap Prod.fst) = true := by
  induction us generalizing fuel buff with
  | nil =>
    refine ⟨[], [], rfl, ?_, by simpa using h0, ?_⟩
    · cases fuel <;> simp [readWhile, h0]
    · intro x y hxy hy
      simp at hxy; exact absurd hxy.2 hy
  | cons u us ih =>
    obtain ⟨fuel, rfl⟩ : ∃ k, fuel = k + 1 := ⟨fuel - 1, by simp at hf; omega⟩
    rw [readWhile]
    cases hr : ready ((u :: us).flatMap Prod.fst) with
    | false =>
      refine ⟨[], u :: us, rfl, by simp, hr, ?_⟩
      intro x y hxy hy
      simp at hxy; exact absurd hxy.2 hy
    | true =>
      obtain ⟨a, b, hab, h1, h2, h3⟩ := ih (fun v hv => h v (List.mem_cons_of_mem _ hv)) fuel
        (by simpa using hf) (buff ++ u.2)
      refine ⟨u :: a, b, by rw [hab]; rfl, ?_, h2, ?_⟩
      · rw [if_pos rfl, List.flatMap_cons, h u (List.mem_cons_self ..)]
        simp only [h1]
        simp
      · intro x y hxy hy
        cases x with
        | nil =>
          simp only [List.nil_append] at hxy
          rw [← hxy, List.cons_append, ← hab]
          exact hr
        | cons v x =>
          rw [List.cons_append] at hxy
          exact h3 x y (List.cons.inj hxy).2 hy

theorem readText_units (ready : List Nat → Bool) (h0 : ready [] = false) (u : List Nat × Str)
    (us : List (List Nat × Str)) (hl : ∀ v ∈ us, v.1 ≠ []) (h : ∀ v ∈ u :: us, ReadsAs v) :
    ∃ a b : List (List Nat × Str), us = a ++ b ∧
      readText ready ((u :: us).flatMap Prod.fst) = some (u.2 ++ a.flatMap Prod.snd, b.flatMap Prod.fst) ∧
      ready (b.flatMap Prod.fst) = false ∧
      ∀ x y, a = x ++ y → y ≠ [] → ready ((y ++ b).flatMap Prod.fst) = true := by
  have hlen : us.length ≤ (us.flatMap Prod.fst).length := by
    clear h
    induction us with
    | nil => simp
    | cons v us ih =>
      have := List.length_pos_iff.mpr (hl v (List.mem_cons_self ..))
      have := ih fun w hw => hl w (List.mem_cons_of_mem _ hw)
      simp only [List.flatMap_cons, List.length_cons, List.length_append]; omega
  obtain ⟨a, b, hab, h1, h2, h3⟩ := readWhile_units ready h0 us (fun v hv => h v (List.mem_cons_of_mem _ hv))
    _ hlen u.2
  refine ⟨a, b, hab, ?_, h2, h3⟩
  unfold readText
  rw [List.flatMap_cons, h u (List.mem_cons_self ..)]
  exact h1

/-- The unit of a character. -/
def charUnit (c : Char) : List Nat × Str := ((String.utf8EncodeChar c).map UInt8.toNat, [c])

theorem charUnit_reads (c : Char) : ReadsAs (charUnit c) := readOne_char c

theorem encode_ne_nil (c : Char) : (String.utf8EncodeChar c).map UInt8.toNat ≠ [] := by
  unfold String.utf8EncodeChar
  simp only
  split_ifs <;> simp

theorem charUnits_bytes (s : Str) : (s.map charUnit).flatMap Prod.fst = utf8 s := by
  simp [utf8, charUnit, List.flatMap_map]

theorem charUnits_text (s : Str) : (s.map charUnit).flatMap Prod.snd = s := by
  induction s with
  | nil => rfl
  | cons c s ih => rw [List.map_cons, List.flatMap_cons, ih]; rfl

/-- C71: from the bytes of any text, whenever and in whatever pieces they arrive, a read
returns a non-empty beginning of the text and leaves exactly the bytes of the rest; it ends at the first
character boundary behind which nothing has arrived. -/
theorem C71_characters (ready : List Nat → Bool) (h0 : ready [] = false) (s : Str) (hs : s ≠ []) :
    ∃ t u : Str, t ≠ [] ∧ s = t ++ u ∧ readText ready (utf8 s) = some (t, utf8 u) ∧ ready (utf8 u) = false ∧
      ∀ x y, t = x ++ y → x ≠ [] → y ≠ [] → ready (utf8 (y ++ u)) = true := by
  obtain ⟨c, s, rfl⟩ := List.exists_cons_of_ne_nil hs
  obtain ⟨a, b, hab, h1, h2, h3⟩ := readText_units ready h0 (charUnit c) (s.map charUnit)
    (by
      intro v hv
      obtain ⟨d, -, rfl⟩ := List.mem_map.mp hv
      exact encode_ne_nil d)
    (by
      intro v hv
      rw [← List.map_cons] at hv
      obtain ⟨d, -, rfl⟩ := List.mem_map.mp hv
      exact charUnit_reads d)
  obtain ⟨t, u, rfl, rfl, rfl⟩ := List.map_eq_append_iff.mp hab
  refine ⟨c :: t, u, by simp, rfl, ?_, ?_, ?_⟩
  · rw [← List.map_cons, charUnits_bytes, charUnits_bytes, charUnits_text] at h1
    exact h1
  · rw [charUnits_bytes] at h2; exact h2
  · intro x y hxy hx hy
    obtain ⟨d, x, rfl⟩ := List.exists_cons_of_ne_nil hx
    rw [List.cons_append] at hxy
    have := h3 (x.map charUnit) (y.map charUnit) (by rw [(List.cons.inj hxy).2, List.map_append])
      (by simpa using hy)
    rw [← List.map_append, charUnits_bytes] at this
    exact this

/-- C71: if all bytes have arrived, all of the text is returned. -/
theorem C71_whole_text (s : Str) (hs : s ≠ []) : readText (fun bs => !bs.isEmpty) (utf8 s) = some (s, []) := by
  obtain ⟨t, u, ht, hsu, h1, h2, -⟩ := C71_characters (fun bs => !bs.isEmpty) rfl s hs
  have hu : u = [] := by
    cases u with
    | nil => rfl
    | cons c u =>
      have : utf8 (c :: u) = [] := by simpa using h2
      unfold utf8 at this
      rw [List.flatMap_cons] at this
      exact absurd (List.append_eq_nil_iff.mp this).1 (encode_ne_nil c)
  subst hu
  rw [h1, hsu]
  simp [utf8]

/-- Bytes of one to four characters; the second `é` arrives later. -/
example : utf8 "aé€😀é".toList = [97, 195, 169, 226, 130, 172, 240, 159, 152, 128, 195, 169] ∧
    readText (fun bs => decide (2 < bs.length)) (utf8 "aé€😀é".toList) = some ("aé€😀".toList, [195, 169]) := by
  decide +kernel

/-! ## C72 -/

/-- A byte that cannot begin a character. -/
def Stray (b : Nat) : Prop := (0x80 ≤ b ∧ b < 0xC2) ∨ (0xF5 ≤ b ∧ b ≤ 0xFF)

theorem readOne_stray {b : Nat} (h : Stray b) (bs : List Nat) :
    readOne [] (b :: bs) = some (byteRepr b, bs, []) := by
  have hr : readByte [] b = (byteRepr b, []) := by
    unfold Stray at h
    simp only [readByte, utf8Decode, List.nil_append]
    rw [if_neg (by omega), if_neg (by omega)]
  have hl : ¬ (byteRepr b).length < 1 := by
    unfold byteRepr
    split_ifs <;> simp
  rw [readOne, hr]
  simp only [if_neg hl]

/-- What is typed: characters, and bytes that belong to none. -/
def typedUnit : Nat ⊕ Char → List Nat × Str
  | .inl b => ([b], byteRepr b)
  | .inr c => charUnit c

/-- C72, the part that holds: bytes that cannot begin a character do not disturb the characters between
them. Missing: sequences that are cut short. -/
theorem C72_stray_partial (items : List (Nat ⊕ Char)) (hne : items ≠ []) (h : ∀ b, .inl b ∈ items → Stray b) :
    readText (fun bs => !bs.isEmpty) (items.flatMap fun i => (typedUnit i).1) =
      some (items.flatMap fun i => (typedUnit i).2, []) := by
  obtain ⟨i, is, rfl⟩ := List.exists_cons_of_ne_nil hne
  have hn : ∀ v ∈ (is.map typedUnit), v.1 ≠ [] := by
    intro v hv
    obtain ⟨j, -, rfl⟩ := List.mem_map.mp hv
    cases j with
    | inl b => simp [typedUnit]
    | inr c => exact encode_ne_nil c
  obtain ⟨a, b, hab, h1, h2, -⟩ := readText_units (fun bs => !bs.isEmpty) rfl (typedUnit i) (is.map typedUnit) hn
    (by
      intro v hv
      rw [← List.map_cons] at hv
      obtain ⟨j, hj, rfl⟩ := List.mem_map.mp hv
      cases j with
      | inl b => exact readOne_stray (h b hj)
      | inr c => exact charUnit_reads c)
  have hb : b = [] := by
    cases b with
    | nil => rfl
    | cons v b =>
      have : (v :: b).flatMap Prod.fst = [] := by simpa using h2
      rw [List.flatMap_cons] at this
      exact absurd (List.append_eq_nil_iff.mp this).1 (hn v (by rw [hab]; simp))
  subst hb
  rw [List.append_nil] at hab
  rw [← hab] at h1
  simpa [List.flatMap_map] using h1

example : (∀ b, Sum.inl b ∈ [Sum.inr 'é', .inl 0xFF, .inr 'a', .inl 0x80, .inr '😀'] → Stray b) ∧
    readText (fun bs => !bs.isEmpty) [195, 169, 0xFF, 97, 0x80, 240, 159, 152, 128] =
      some ("éb'\\xff'ab'\\x80'😀".toList, []) := by
  refine ⟨?_, by decide +kernel⟩
  intro b hb
  simp only [List.mem_cons, reduceCtorEq, Sum.inl.injEq, List.not_mem_nil, or_false, false_or] at hb
  unfold Stray
  omega

theorem readOne_stuck {a b : Nat} (ha : 0xC2 ≤ a ∧ a ≤ 0xF4) (hb : b < 0x80) (bs : List Nat) :
    readOne [a] (b :: bs) = some (byteRepr b, bs, [a]) := by
  have hc : isCont b = false := by simp [isCont]; omega
  have hs : isSecond a b = false := by simp [isSecond, hc]
  have hh : isHalfSurrogate a b = false := by simp [isHalfSurrogate]; omega
  have hr : readByte [a] b = (byteRepr b, [a]) := by
    simp only [readByte, utf8Decode, List.cons_append, List.nil_append, hc, hs, hh]
    by_cases h : a ≤ 0xDF
    · rw [if_pos ⟨ha.1, h⟩]; rfl
    · rw [if_neg (by omega), if_pos (by omega)]; rfl
  have hl : ¬ (byteRepr b).length < 1 := by
    unfold byteRepr
    split_ifs <;> simp
  rw [readOne, hr]
  simp only [if_neg hl]

theorem readWhile_stuck {a : Nat} (ha : 0xC2 ≤ a ∧ a ≤ 0xF4) (bs : List Nat) (hb : ∀ b ∈ bs, b < 0x80) (fuel : Nat)
    (hf : bs.length ≤ fuel) (buff : Str) :
    readWhile (fun bs => !bs.isEmpty) fuel [a] bs buff = some (buff ++ bs.flatMap byteRepr, []) := by
  induction bs generalizing fuel buff with
  | nil => cases fuel <;> simp [readWhile]
  | cons b bs ih =>
    obtain ⟨fuel, rfl⟩ : ∃ k, fuel = k + 1 := ⟨fuel - 1, by simp at hf; omega⟩
    rw [readWhile, readOne_stuck ha (hb b (List.mem_cons_self ..))]
    simp only [List.isEmpty_cons, Bool.not_false, if_true]
    rw [ih (fun c hc => hb c (List.mem_cons_of_mem _ hc)) fuel (by simpa using hf)]
    simp

/-- C72 fails: after the first byte of a longer character that does not continue, every ASCII character of the
read comes back as the `repr` of its byte, because the decoder keeps the first byte. -/
theorem C72_cut_short_violated (a : Nat) (ha : 0xC2 ≤ a ∧ a ≤ 0xF4) (bs : List Nat) (hb : ∀ b ∈ bs, b < 0x80)
    (hne : bs ≠ []) : readText (fun bs => !bs.isEmpty) (a :: bs) = some (bs.flatMap byteRepr, []) := by
  obtain ⟨b, bs, rfl⟩ := List.exists_cons_of_ne_nil hne
  have h0 : readOne [] (a :: b :: bs) = readOne [a] (b :: bs) := by
    have hr : readByte [] a = ([], [a]) := by
      simp only [readByte, utf8Decode, List.nil_append]
      rw [if_neg (by omega), if_pos ha]
    rw [readOne, hr]
    simp
  unfold readText
  rw [h0, readOne_stuck ha (hb b (List.mem_cons_self ..))]
  simp only
  rw [readWhile_stuck ha bs (fun c hc => hb c (List.mem_cons_of_mem _ hc)) _ (le_refl _)]
  simp

/-- `Ã` cut short, then `yes`. -/
example : readText (fun bs => !bs.isEmpty) [0xC3, 121, 101, 115] = some ("b'y'b'e'b's'".toList, []) := by
  decide +kernel

theorem readOne_half {a : Nat} (ha : 0xA0 ≤ a ∧ a ≤ 0xBF) (b : Nat) (bs : List Nat) :
    readOne [0xED, a] (b :: bs) = some (byteRepr b, bs, [0xED, a]) := by
  have hs : isSecond 0xED a = false := by simp [isSecond]; omega
  have hr : readByte [0xED, a] b = (byteRepr b, [0xED, a]) := by
    simp only [readByte, utf8Decode, List.cons_append, List.nil_append, hs]
    rfl
  have hl : ¬ (byteRepr b).length < 1 := by
    unfold byteRepr
    split_ifs <;> simp
  rw [readOne, hr]
  simp only [if_neg hl]

theorem readWhile_half {a : Nat} (ha : 0xA0 ≤ a ∧ a ≤ 0xBF) (bs : List Nat) (fuel : Nat) (hf : bs.length ≤ fuel) (buff : Str) :
    readWhile (fun bs => !bs.isEmpty) fuel [0xED, a] bs buff = some (buff ++ bs.flatMap byteRepr, []) := by
  induction bs generalizing fuel buff with
  | nil => cases fuel <;> simp [readWhile]
  | cons b bs ih =>
    obtain ⟨fuel, rfl⟩ : ∃ k, fuel = k + 1 := ⟨fuel - 1, by simp at hf; omega⟩
    rw [readWhile, readOne_half ha]
    simp only [List.isEmpty_cons, Bool.not_false, if_true]
    rw [ih fuel (by simpa using hf)]
    simp

/-- C72 fails: after the first two bytes of a surrogate, which themselves leave no trace, nothing in the read is decoded any more:
every byte that follows, whatever it is, comes back as its `repr`. -/
theorem C72_surrogate_violated (a : Nat) (ha : 0xA0 ≤ a ∧ a ≤ 0xBF) (bs : List Nat) (hne : bs ≠ []) :
    readText (fun bs => !bs.isEmpty) (0xED :: a :: bs) = some (bs.flatMap byteRepr, []) := by
  obtain ⟨b, bs, rfl⟩ := List.exists_cons_of_ne_nil hne
  have h0 : readOne [] (0xED :: a :: b :: bs) = readOne [0xED, a] (b :: bs) := by
    have hr : readByte [] 0xED = ([], [0xED]) := by decide
    have hh : isHalfSurrogate 0xED a = true := by simp [isHalfSurrogate]; omega
    have hr' : readByte [0xED] a = ([], [0xED, a]) := by
      simp only [readByte, utf8Decode, List.cons_append, List.nil_append, hh, Bool.or_true]
      rfl
    rw [readOne, hr]
    simp only [List.length_nil, Nat.lt_one_iff, if_true]
    rw [readOne, hr']
    simp
  unfold readText
  rw [h0, readOne_half ha]
  simp only
  rw [readWhile_half ha bs _ (le_refl _)]
  simp

/-- Half a surrogate, then `yé`. -/
example : readText (fun bs => !bs.isEmpty) [0xED, 0xA5, 121, 195, 169] = some ("b'y'b'\\xc3'b'\\xa9'".toList, []) := by
  decide +kernel

/-! ## C73 -/

/-- C73 fails: when the input has ended, the loop of `_read` never ends. -/
theorem C73_end_violated (kept : List Nat) (n : Nat) : (Loop.after n { bytes := [], kept := kept }).running = true := by
  induction n with
  | zero => rfl
  | succ n ih =>
    rw [Loop.after]
    split
    · exact ih
    · rename_i h; exact absurd rfl h

/-- The loop and `_read(1)` agree while there are bytes. -/
theorem loop_readOne (bs kept : List Nat) (t : Str) (bs' kept' : List Nat)
    (h : readOne kept bs = some (t, bs', kept')) :
    ∃ n, Loop.after n { bytes := bs, kept := kept } = { bytes := bs', kept := kept', buff := t } ∧ 1 ≤ t.length := by
  induction bs generalizing kept with
  | nil => simp [readOne] at h
  | cons b bs ih =>
    rw [readOne] at h
    split at h
    · rename_i hl
      obtain ⟨n, hn, ht⟩ := ih _ h
      refine ⟨n + 1, ?_, ht⟩
      have hnil : (readByte kept b).1 = [] := List.eq_nil_of_length_eq_zero (by omega)
      rw [Loop.after, if_pos (by rfl)]
      simp only [Loop.body, List.nil_append, hnil]
      exact hn
    · rename_i hl
      injection h with h
      injection h with h1 h2
      injection h2 with h2 h3
      subst h1 h2 h3
      exact ⟨1, by simp [Loop.after, Loop.running, Loop.body], by omega⟩

/-- C73, the part that holds: if a character is there, the loop ends with it. -/
theorem C73_character_partial (c : Char) (s : Str) :
    ∃ n, Loop.after n { bytes := utf8 (c :: s) } = { bytes := utf8 s, buff := [c] } ∧
      (Loop.after n { bytes := utf8 (c :: s) }).running = false := by
  have h := readOne_char c (utf8 s)
  obtain ⟨n, hn, ht⟩ := loop_readOne _ _ _ _ _ h
  have he : utf8 (c :: s) = (String.utf8EncodeChar c).map UInt8.toNat ++ utf8 s := by
    unfold utf8; rw [List.flatMap_cons]
  rw [he]
  exact ⟨n, hn, by rw [hn]; rfl⟩

example : Loop.after 2 { bytes := utf8 "é!".toList } = { bytes := [33], buff := ['é'] } := by decide +kernel

/-! ## C74 -/

/-- The bytes that Windows delivers for the keys that have a name here (documentation of
`_getch`: a prefix of `0` or `0xE0` and the scan code). -/
def windowsKeys : List (List Nat × Str) :=
  [([27], "esc".toList), ([0xE0, 75], "left".toList), ([0xE0, 77], "right".toList), ([0xE0, 72], "up".toList),
   ([0xE0, 80], "down".toList), ([13], "return".toList), ([8], "backspace".toList), ([0, 59], "f1".toList),
   ([0, 60], "f2".toList), ([0, 61], "f3".toList), ([0, 62], "f4".toList), ([0, 63], "f5".toList),
   ([0, 64], "f6".toList), ([0, 65], "f7".toList), ([0, 66], "f8".toList), ([0, 67], "f9".toList),
   ([0, 68], "f10".toList), ([0xE0, 133], "f11".toList), ([0xE0, 134], "f12".toList)]

/-- C74, the part that holds: the keys are named, except the last two. -/
theorem C74_keys_partial : ∀ k ∈ windowsKeys, k.2 ≠ "f11".toList → k.2 ≠ "f12".toList →
    (getchOnNt true false k.1).map Key.names = .ok [k.2] := by
  decide +kernel

/-- C74 fails: F11 and F12 raise. -/
theorem C74_f11_f12_violated : ∀ k ∈ windowsKeys, k.2 = "f11".toList ∨ k.2 = "f12".toList →
    getchOnNt true false k.1 = .error .valueError := by
  decide +kernel

theorem ntMore_ok (bs : List Nat) (buff : Str) (h : ∀ b ∈ bs, b < 0x80) :
    ntMore bs buff = .ok (buff ++ bs.map Char.ofNat) := by
  induction bs generalizing buff with
  | nil => simp [ntMore]
  | cons b bs ih =>
    rw [ntMore, ensureStr, if_pos (h b (List.mem_cons_self ..))]
    show ntMore bs (buff ++ [Char.ofNat b]) = _
    rw [ih _ fun c hc => h c (List.mem_cons_of_mem _ hc)]
    simp

theorem ntMore_error (bs : List Nat) (buff : Str) (h : ∃ b ∈ bs, 0x80 ≤ b) : ntMore bs buff = .error .valueError := by
  induction bs generalizing buff with
  | nil => obtain ⟨b, hb, -⟩ := h; cases hb
  | cons b bs ih =>
    rw [ntMore, ensureStr]
    split
    · rename_i hb
      simp only [bind, Except.bind]
      apply ih
      obtain ⟨c, hc, h1⟩ := h
      rcases List.mem_cons.mp hc with rfl | hc
      · omega
      · exact ⟨c, hc, h1⟩
    · rfl

/-- C74, the part that holds: ASCII text that is not the sequence of a named key is returned as it is. -/
theorem C74_text_partial (bs : List Nat) (h : ∀ b ∈ bs, b < 0x80) (hn : ∀ p ∈ ntKeyNames, p.1 ≠ bs.map Char.ofNat) :
    getchOnNt true false bs = .ok ⟨[bs.map Char.ofNat]⟩ := by
  have h1 : getchNt bs = .ok (bs.map Char.ofNat) := by
    cases bs with
    | nil => rfl
    | cons b bs =>
      have hb := h b (List.mem_cons_self ..)
      rw [getchNt, if_neg (by omega), ensureStr, if_pos hb]
      simp only [bind, Except.bind]
      rw [ntMore_ok _ _ fun c hc => h c (List.mem_cons_of_mem _ hc)]
      rfl
  have h2 : dictGet ntKeyNames (bs.map Char.ofNat) = none := by
    unfold dictGet
    rw [List.lookup_eq_none_iff]
    intro p hp
    simpa using fun he => hn p (List.mem_reverse.mp hp) he.symm
  unfold getchOnNt
  rw [h1]
  simp [bind, Except.bind, h2]

example : (∀ b ∈ [104, 105], b < 0x80) ∧ (∀ p ∈ ntKeyNames, p.1 ≠ [104, 105].map Char.ofNat) ∧
    getchOnNt true false [104, 105] = .ok ⟨["hi".toList]⟩ := by decide +kernel

/-- C74 fails for every other text: a byte above 127 behind the first, or as the first unless it is `0xE0`,
raises `UnicodeDecodeError`. -/
theorem C74_not_ascii_violated (raw : Bool) (b : Nat) (bs : List Nat)
    (h : (∃ c ∈ bs, 0x80 ≤ c) ∨ (0x80 ≤ b ∧ b ≠ 0xE0)) : getchOnNt true raw (b :: bs) = .error .valueError := by
  have h1 : getchNt (b :: bs) = .error .valueError := by
    rw [getchNt]
    by_cases he : b = 0xE0
    · rw [if_pos he]
      simp only [bind, Except.bind]
      rcases h with h | h
      · exact ntMore_error _ _ h
      · exact absurd he h.2
    · rw [if_neg he, ensureStr]
      split
      · rename_i hb
        simp only [bind, Except.bind]
        rcases h with h | h
        · exact ntMore_error _ _ h
        · omega
      · rfl
  unfold getchOnNt
  rw [h1]
  rfl

/-- **C74**, exactly: what is returned for any bytes. They are read as ASCII, a leading `0xE0` as an escape; the text is looked up among the names unless
`raw` is given. Everything else raises. -/
theorem C74_exact (raw : Bool) (b : Nat) (bs : List Nat) :
    let text := (if b = 0xE0 then '\x1b' else Char.ofNat b) :: bs.map Char.ofNat
    getchOnNt true raw (b :: bs) =
      if (b < 0x80 ∨ b = 0xE0) ∧ ∀ c ∈ bs, c < 0x80 then .ok ⟨if raw then [text] else (dictGet ntKeyNames text).getD [text]⟩
      else .error .valueError := by
  intro text
  by_cases h : (b < 0x80 ∨ b = 0xE0) ∧ ∀ c ∈ bs, c < 0x80
  · rw [if_pos h]
    have h1 : getchNt (b :: bs) = .ok text := by
      rw [getchNt]
      by_cases he : b = 0xE0
      · rw [if_pos he]
        simp only [bind, Except.bind]
        rw [ntMore_ok _ _ h.2]
        simp [text, he]
      · rw [if_neg he, ensureStr, if_pos (h.1.resolve_right he)]
        simp only [bind, Except.bind]
        rw [ntMore_ok _ _ h.2]
        simp [text, he]
    unfold getchOnNt
    rw [h1]
    cases raw <;> rfl
  · rw [if_neg h]
    apply C74_not_ascii_violated
    by_cases hb : b < 0x80 ∨ b = 0xE0
    · left
      by_contra hc
      exact h ⟨hb, fun c hm => by
        by_contra hge
        exact hc ⟨c, hm, by omega⟩⟩
    · right
      omega

example : getchOnNt true true [0xE0, 72] = .ok ⟨["\x1bH".toList]⟩ ∧ getchOnNt true false [0xE0, 72] = .ok ⟨["up".toList]⟩ := by decide +kernel

/-- Two presses of the left arrow that wait together, and an `é` of code page 437. -/
example : getchOnNt true false [0xE0, 75, 0xE0, 75] = .error .valueError ∧
    getchOnNt true false [0x82] = .error .valueError :=
  ⟨C74_not_ascii_violated false _ _ (.inl ⟨0xE0, by simp, by omega⟩),
    C74_not_ascii_violated false _ _ (.inr (by omega))⟩

/-! ## C75 -/

/-- The replies that say that the terminal knows the mode (set or reset). -/
def syncReplies : List Str := ["\x1b[?2026;1$y".toList, "\x1b[?2026;2$y".toList]

theorem syncReply_key : ∀ s ∈ syncReplies, keyOf false s = .ok ⟨[s]⟩ := by decide +kernel

theorem posixNames_not_sync : ∀ p ∈ posixKeyNames, ∀ s ∈ syncReplies, p.2.head? ≠ some s := by decide +kernel

theorem syncReplies_head : ∀ s ∈ syncReplies, s.head? ≠ some 'm' := by decide

theorem mouse_head {code : Str} {ev : Str} (h : parseMouseEvent code = .ok (some ev)) : ev.head? = some 'm' := by
  unfold parseMouseEvent at h
  split at h
  · cases h
  · split at h
    · split at h
      · cases h
      · split at h
        · cases h
        · injection h with h; injection h with h
          rw [← h]; rfl
    · cases h

theorem keyOf_sync {key : Str} {k : Key} (h : keyOf false key = .ok k) (s : Str) (hs : s ∈ syncReplies)
    (hk : k.names.head? = some s) : key = s := by
  have table : ∀ k' : Key, k' = ⟨(dictGet posixKeyNames key).getD [key]⟩ → k'.names.head? = some s → key = s := by
    intro k' hk' hh
    rw [hk'] at hh
    cases hd : dictGet posixKeyNames key with
    | none => rw [hd] at hh; simpa using hh
    | some ns =>
      rw [hd] at hh
      exfalso
      have : (key, ns) ∈ posixKeyNames.reverse := by
        unfold dictGet at hd
        obtain ⟨l1, l2, hl, -⟩ := List.lookup_eq_some_iff.mp hd
        rw [hl]; simp
      exact posixNames_not_sync _ (List.mem_reverse.mp this) s hs (by simpa using hh)
  unfold keyOf at h
  rw [if_neg (by simp)] at h
  split at h
  · cases h
  · rename_i ev hev
    split at h
    · injection h with h
      exact table k h.symm hk
    · injection h with h
      subst h
      simp only [List.head?_cons, Option.some.injEq] at hk
      have := mouse_head hev
      rw [hk] at this
      exact absurd this (syncReplies_head s hs)
  · injection h with h
    exact table k h.symm hk

/-- C75: synchronised updates are reported as supported exactly if the terminal answers in time that it knows
the mode. -/
theorem C75_supported_iff (stdin : Bool) (reply : Option Input) :
    supportsSync stdin reply = .ok true ↔ stdin = true ∧ ∃ s ∈ syncReplies, reply = some (.text s) := by
  have key : ∀ key : Str, (∃ k : Key, keyOf false key = .ok k ∧ ∃ r, k.str = .ok r ∧ r ≠ [] ∧ r ∈ syncReplies) ↔
      key ∈ syncReplies := by
    intro key
    constructor
    · rintro ⟨k, hk, r, hr, -, hm⟩
      have : k.names.head? = some r := by
        unfold Key.str at hr
        split at hr
        · rename_i n l hn
          injection hr with hr
          rw [hn, ← hr]; rfl
        · cases hr
      rw [keyOf_sync hk r hm this]; exact hm
    · intro h
      refine ⟨_, syncReply_key key h, key, rfl, ?_, h⟩
      rintro rfl
      revert h
      decide
  have hacc : syncAccepted = syncReplies := rfl
  have run : ∀ t : Str, (do
      let response ← (do
        let k ← keyOf false t
        k.str)
      if response = [] then Except.ok false
      else .ok (decide (response ∈ syncAccepted)) : Except PyErr Bool)
        = .ok true ↔ t ∈ syncReplies := by
    intro t
    rw [← key t]
    cases hk : keyOf false t with
    | error e => simp [bind, Except.bind]
    | ok k =>
      cases hr : k.str with
      | error e => simp [bind, Except.bind, hr]
      | ok r =>
        simp only [bind, Except.bind, hr, Except.ok.injEq, exists_eq_left']
        by_cases hn : r = []
        · simp [hn]
        · rw [if_neg hn]
          simp only [Except.ok.injEq, hacc, decide_eq_true_eq]
          exact ⟨fun h => ⟨hn, h⟩, fun h => h.2⟩
  unfold supportsSync
  cases stdin with
  | false =>
    cases reply with
    | none => simp [bind, Except.bind]
    | some i => simp [getch, bind, Except.bind, Key.str]
  | true =>
    cases reply with
    | none =>
      simp only [if_true, true_and, reduceCtorEq, and_false, exists_false, iff_false]
      decide
    | some i =>
      cases i with
      | error e => simp [getch, bind, Except.bind]
      | interrupt =>
        have := run ['\x03']
        simp only [getch, Bool.not_true, Bool.false_eq_true, if_false, true_and, Option.some.injEq, reduceCtorEq,
          and_false, exists_false, iff_false]
        rw [this]
        decide
      | text t =>
        have := run t
        simp only [getch, Bool.not_true, Bool.false_eq_true, if_false, true_and, Option.some.injEq, Input.text.injEq,
          exists_eq_right']
        exact this

/-- C75: without an answer the result is `False`. -/
theorem C75_no_answer (stdin : Bool) : supportsSync stdin none = .ok false := by
  cases stdin <;> decide

example : supportsSync true (some (.text "\x1b[?2026;2$y".toList)) = .ok true ∧
    supportsSync true (some (.text "\x1b[?2026;0$y".toList)) = .ok false ∧
    supportsSync true (some (.text "x\x1b[?2026;2$y".toList)) = .ok false ∧
    supportsSync false (some (.text "\x1b[?2026;2$y".toList)) = .ok false := by decide +kernel

end Slate
