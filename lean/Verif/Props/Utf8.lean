import Verif.Props.Decode

/-!
# The text that is read is the text that was sent (C102)
-/

namespace Slate
open Py Core

/-! ## What the decoder accepts -/

/-- The bytes of one character. -/
abbrev encode (c : Char) : List Nat := (String.utf8EncodeChar c).map UInt8.toNat

theorem toNat_ofNat_valid {v : Nat} (h : v < 0xD800 ∨ (0xDFFF < v ∧ v < 0x110000)) : (Char.ofNat v).val.toNat = v := by
  have hv : v.isValidChar := h
  simp only [Char.ofNat, dif_pos hv]
  exact UInt32.toNat_ofNatLT

theorem encode_one {v : Nat} (h : v < 0x80) : encode (Char.ofNat v) = [v] := by
  unfold encode String.utf8EncodeChar
  simp only [toNat_ofNat_valid (v := v) (by omega)]
  rw [if_pos (by omega)]
  have e0 : (UInt8.ofNat v).toNat = v := by simp; omega
  simp only [List.map_cons, List.map_nil, e0]

theorem encode_two {a b : Nat} (ha : 0xC2 ≤ a ∧ a ≤ 0xDF) (hb : 0x80 ≤ b ∧ b ≤ 0xBF) :
    encode (Char.ofNat ((a - 0xC0) * 64 + (b - 0x80))) = [a, b] := by
  generalize hv : (a - 0xC0) * 64 + (b - 0x80) = v
  unfold encode String.utf8EncodeChar
  simp only [toNat_ofNat_valid (v := v) (by omega)]
  rw [if_neg (by omega), if_pos (by omega)]
  have e0 : (UInt8.ofNat (v / 64 % 0x20 + 0xc0)).toNat = a := by simp; omega
  have e1 : (UInt8.ofNat (v % 0x40 + 0x80)).toNat = b := by simp; omega
  simp only [List.map_cons, List.map_nil, e0, e1]

theorem encode_three {a b d : Nat} (ha : 0xE0 ≤ a ∧ a ≤ 0xEF) (hs : isSecond a b = true) (hd : 0x80 ≤ d ∧ d ≤ 0xBF) :
    encode (Char.ofNat ((a - 0xE0) * 4096 + (b - 0x80) * 64 + (d - 0x80))) = [a, b, d] := by
  simp [isSecond, isCont] at hs
  generalize hv : (a - 0xE0) * 4096 + (b - 0x80) * 64 + (d - 0x80) = v
  unfold encode String.utf8EncodeChar
  simp only [toNat_ofNat_valid (v := v) (by omega)]
  rw [if_neg (by omega), if_neg (by omega), if_pos (by omega)]
  have e0 : (UInt8.ofNat (v / 4096 % 0x10 + 0xe0)).toNat = a := by simp; omega
  have e1 : (UInt8.ofNat (v / 64 % 0x40 + 0x80)).toNat = b := by simp; omega
  have e2 : (UInt8.ofNat (v % 0x40 + 0x80)).toNat = d := by simp; omega
  simp only [List.map_cons, List.map_nil, e0, e1, e2]

theorem encode_four {a b d e : Nat} (ha : 0xF0 ≤ a ∧ a ≤ 0xF4) (hs : isSecond a b = true) (hd : 0x80 ≤ d ∧ d ≤ 0xBF)
    (he : 0x80 ≤ e ∧ e ≤ 0xBF) :
    encode (Char.ofNat ((a - 0xF0) * 262144 + (b - 0x80) * 4096 + (d - 0x80) * 64 + (e - 0x80))) = [a, b, d, e] := by
  simp [isSecond, isCont] at hs
  generalize hv : (a - 0xF0) * 262144 + (b - 0x80) * 4096 + (d - 0x80) * 64 + (e - 0x80) = v
  unfold encode String.utf8EncodeChar
  simp only [toNat_ofNat_valid (v := v) (by omega)]
  rw [if_neg (by omega), if_neg (by omega), if_neg (by omega)]
  have e0 : (UInt8.ofNat (v / 262144 % 0x08 + 0xf0)).toNat = a := by simp; omega
  have e1 : (UInt8.ofNat (v / 4096 % 0x40 + 0x80)).toNat = b := by simp; omega
  have e2 : (UInt8.ofNat (v / 64 % 0x40 + 0x80)).toNat = d := by simp; omega
  have e3 : (UInt8.ofNat (v % 0x40 + 0x80)).toNat = e := by simp; omega
  simp only [List.map_cons, List.map_nil, e0, e1, e2, e3]

theorem isCont_iff {b : Nat} : isCont b = true ↔ 0x80 ≤ b ∧ b ≤ 0xBF := by simp [isCont]

/-- A character the decoder gives is the one the bytes encode. -/
theorem decode_char {bs : List Nat} {c : Char} (h : utf8Decode bs = .char c) : encode c = bs := by
  unfold utf8Decode at h
  split at h
  · cases h
  · split_ifs at h with h1
    rw [← Dec.char.inj h]; exact encode_one h1
  · split_ifs at h with h1 h2
    rw [← Dec.char.inj h]; exact encode_two h1 (isCont_iff.mp h2)
  · split_ifs at h with h1 h2
    rw [← Dec.char.inj h]
    simp only [Bool.and_eq_true] at h2
    exact encode_three h1 h2.1 (isCont_iff.mp h2.2)
  · split_ifs at h with h1 h2
    rw [← Dec.char.inj h]
    simp only [Bool.and_eq_true] at h2
    exact encode_four h1 h2.1.1 (isCont_iff.mp h2.1.2) (isCont_iff.mp h2.2)
  · cases h

/-- There is a second byte for every first one. -/
theorem exists_second (a : Nat) : ∃ b, isSecond a b = true := by
  refine ⟨if a = 0xE0 then 0xA0 else if a = 0xF0 then 0x90 else 0x80, ?_⟩
  split_ifs with h1 h2 <;> simp [isSecond, isCont] <;> omega

/-- The first two bytes of a surrogate. -/
def Half (bs : List Nat) : Prop := ∃ b, (0xA0 ≤ b ∧ b ≤ 0xBF) ∧ bs = [0xED, b]

/-- When the decoder waits, there is a character that begins with the bytes and is longer, or they begin a surrogate. -/
theorem decode_more {bs : List Nat} (h : utf8Decode bs = .more) : (∃ c more, more ≠ [] ∧ encode c = bs ++ more) ∨ Half bs := by
  by_cases hh : Half bs
  · exact .inr hh
  left
  unfold utf8Decode at h
  split at h
  · exact ⟨_, [65], by simp, encode_one (v := 65) (by omega)⟩
  · split_ifs at h with h1 h2
    rename_i a
    rcases Nat.lt_or_ge a 0xE0 with h3 | h3
    · exact ⟨_, [0x80], by simp, encode_two ⟨h2.1, by omega⟩ (by omega)⟩
    · obtain ⟨b, hb⟩ := exists_second a
      rcases Nat.lt_or_ge a 0xF0 with h4 | h4
      · exact ⟨_, [b, 0x80], by simp, encode_three ⟨h3, by omega⟩ hb (by omega)⟩
      · exact ⟨_, [b, 0x80, 0x80], by simp, encode_four ⟨h4, h2.2⟩ hb (by omega) (by omega)⟩
  · split_ifs at h with h1 h2 h3 h4
    rename_i a b
    have h4 : isSecond a b = true := by
      simp only [Bool.or_eq_true] at h4
      rcases h4 with h4 | h4
      · exact h4
      · simp [isHalfSurrogate] at h4
        exact absurd ⟨b, ⟨h4.1.2, h4.2⟩, by rw [h4.1.1]⟩ hh
    rcases Nat.lt_or_ge a 0xF0 with h5 | h5
    · exact ⟨_, [0x80], by simp, encode_three ⟨h3.1, by omega⟩ h4 (by omega)⟩
    · exact ⟨_, [0x80, 0x80], by simp, encode_four ⟨h5, h3.2⟩ h4 (by omega) (by omega)⟩
  · split_ifs at h with h1 h2 h3 h4
    simp only [Bool.and_eq_true] at h4
    exact ⟨_, [0x80], by simp, encode_four h3 h4.1 (isCont_iff.mp h4.2) (by omega)⟩
  · split_ifs at h
  · cases h

/-- On the bytes of a character the decoder gives it, and on fewer of them it waits. -/
theorem decode_prefix (c : Char) {bs more : List Nat} (h : encode c = bs ++ more) :
    utf8Decode bs = if more = [] then .char c else .more := by
  have hb := char_bounds c
  have hc : Char.ofNat c.toNat = c := Char.ofNat_toNat c
  generalize hv : c.toNat = v at hb hc
  have hv' : c.val.toNat = v := hv
  unfold encode String.utf8EncodeChar at h
  simp only [hv'] at h
  split_ifs at h with h1 h2 h3
  · have e0 : (UInt8.ofNat v).toNat = v := by simp; omega
    simp only [List.map_cons, List.map_nil, e0] at h
    match bs, more, h with
    | [], [_], _ => simp [utf8Decode]
    | [a], [], h =>
      obtain rfl : v = a := by simpa using h
      simp [utf8Decode, show v < 0x80 by omega, hc]
  · have e0 : (UInt8.ofNat (v / 64 % 0x20 + 0xc0)).toNat = v / 64 % 0x20 + 0xc0 := by simp; omega
    have e1 : (UInt8.ofNat (v % 0x40 + 0x80)).toNat = v % 0x40 + 0x80 := by simp; omega
    simp only [List.map_cons, List.map_nil, e0, e1] at h
    generalize ha : v / 64 % 0x20 + 0xc0 = a at h
    generalize hd : v % 0x40 + 0x80 = b at h
    have r0 : utf8Decode [a] = .more := by
      simp only [utf8Decode]
      rw [if_neg (by omega), if_pos (by omega)]
    have r1 : utf8Decode [a, b] = .char c := by
      have hcont : isCont b = true := by simp [isCont]; omega
      have hn : (a - 0xC0) * 64 + (b - 0x80) = v := by omega
      simp only [utf8Decode]
      rw [if_pos (by omega), if_pos hcont, hn, hc]
    match bs, more, h with
    | [], [_, _], _ => simp [utf8Decode]
    | [_], [_], h => obtain ⟨rfl, rfl⟩ : a = _ ∧ b = _ := by simpa using h
                     simpa using r0
    | [_, _], [], h => obtain ⟨rfl, rfl⟩ : a = _ ∧ b = _ := by simpa using h
                       simpa using r1
  · have e0 : (UInt8.ofNat (v / 4096 % 0x10 + 0xe0)).toNat = v / 4096 % 0x10 + 0xe0 := by simp; omega
    have e1 : (UInt8.ofNat (v / 64 % 0x40 + 0x80)).toNat = v / 64 % 0x40 + 0x80 := by simp; omega
    have e2 : (UInt8.ofNat (v % 0x40 + 0x80)).toNat = v % 0x40 + 0x80 := by simp; omega
    simp only [List.map_cons, List.map_nil, e0, e1, e2] at h
    generalize ha : v / 4096 % 0x10 + 0xe0 = a at h
    generalize hd : v / 64 % 0x40 + 0x80 = b at h
    generalize hf : v % 0x40 + 0x80 = d at h
    have r0 : utf8Decode [a] = .more := by
      simp only [utf8Decode]
      rw [if_neg (by omega), if_pos (by omega)]
    have hsec : isSecond a b = true := by
      simp [isSecond, isCont]; omega
    have hcont : isCont d = true := by simp [isCont]; omega
    have r1 : utf8Decode [a, b] = .more := by
      simp only [utf8Decode]
      rw [if_neg (by omega), if_pos (by omega), if_pos (by simp [hsec])]
    have r2 : utf8Decode [a, b, d] = .char c := by
      have hn : (a - 0xE0) * 4096 + (b - 0x80) * 64 + (d - 0x80) = v := by omega
      simp only [utf8Decode]
      rw [if_pos (by omega), hsec, hcont, if_pos (by rfl), hn, hc]
    match bs, more, h with
    | [], [_, _, _], _ => simp [utf8Decode]
    | [_], [_, _], h => obtain ⟨rfl, rfl, rfl⟩ : a = _ ∧ b = _ ∧ d = _ := by simpa using h
                        simpa using r0
    | [_, _], [_], h => obtain ⟨rfl, rfl, rfl⟩ : a = _ ∧ b = _ ∧ d = _ := by simpa using h
                        simpa using r1
    | [_, _, _], [], h => obtain ⟨rfl, rfl, rfl⟩ : a = _ ∧ b = _ ∧ d = _ := by simpa using h
                          simpa using r2
  · have e0 : (UInt8.ofNat (v / 262144 % 0x08 + 0xf0)).toNat = v / 262144 % 0x08 + 0xf0 := by simp; omega
    have e1 : (UInt8.ofNat (v / 4096 % 0x40 + 0x80)).toNat = v / 4096 % 0x40 + 0x80 := by simp; omega
    have e2 : (UInt8.ofNat (v / 64 % 0x40 + 0x80)).toNat = v / 64 % 0x40 + 0x80 := by simp; omega
    have e3 : (UInt8.ofNat (v % 0x40 + 0x80)).toNat = v % 0x40 + 0x80 := by simp; omega
    simp only [List.map_cons, List.map_nil, e0, e1, e2, e3] at h
    generalize ha : v / 262144 % 0x08 + 0xf0 = a at h
    generalize hd : v / 4096 % 0x40 + 0x80 = b at h
    generalize hf : v / 64 % 0x40 + 0x80 = d at h
    generalize hg : v % 0x40 + 0x80 = e at h
    have r0 : utf8Decode [a] = .more := by
      simp only [utf8Decode]
      rw [if_neg (by omega), if_pos (by omega)]
    have hsec : isSecond a b = true := by
      simp [isSecond, isCont]; omega
    have hcont : isCont d = true := by simp [isCont]; omega
    have hcont' : isCont e = true := by simp [isCont]; omega
    have r1 : utf8Decode [a, b] = .more := by
      simp only [utf8Decode]
      rw [if_neg (by omega), if_pos (by omega), if_pos (by simp [hsec])]
    have r2 : utf8Decode [a, b, d] = .more := by
      simp only [utf8Decode]
      rw [if_neg (by omega), if_pos (by omega), hsec, hcont, if_pos (by rfl)]
    have r3 : utf8Decode [a, b, d, e] = .char c := by
      have hn : (a - 0xF0) * 262144 + (b - 0x80) * 4096 + (d - 0x80) * 64 + (e - 0x80) = v := by omega
      simp only [utf8Decode]
      rw [if_pos (by omega), hsec, hcont, hcont', if_pos (by rfl), hn, hc]
    match bs, more, h with
    | [], [_, _, _, _], _ => simp [utf8Decode]
    | [_], [_, _, _], h => obtain ⟨rfl, rfl, rfl, rfl⟩ : a = _ ∧ b = _ ∧ d = _ ∧ e = _ := by simpa using h
                           simpa using r0
    | [_, _], [_, _], h => obtain ⟨rfl, rfl, rfl, rfl⟩ : a = _ ∧ b = _ ∧ d = _ ∧ e = _ := by simpa using h
                           simpa using r1
    | [_, _, _], [_], h => obtain ⟨rfl, rfl, rfl, rfl⟩ : a = _ ∧ b = _ ∧ d = _ ∧ e = _ := by simpa using h
                           simpa using r2
    | [_, _, _, _], [], h => obtain ⟨rfl, rfl, rfl, rfl⟩ : a = _ ∧ b = _ ∧ d = _ ∧ e = _ := by simpa using h
                             simpa using r3

/-! ## C102 -/

/-- Some character begins with these bytes. -/
def Begins (bs : List Nat) : Prop := ∃ c more, encode c = bs ++ more

/-- No character begins with the first two bytes of a surrogate. -/
theorem Half.not_begins {bs : List Nat} (h : Half bs) : ¬ Begins bs := by
  obtain ⟨b, hb, rfl⟩ := h
  have hh : isHalfSurrogate 0xED b = true := by simp [isHalfSurrogate]; omega
  have hs : isSecond 0xED b = false := by simp [isSecond]; omega
  have h2 : utf8Decode [0xED, b] = .more := by
    simp only [utf8Decode, hh, Bool.or_true]; rfl
  have h3 : ∀ d, utf8Decode [0xED, b, d] = .bad := by
    intro d
    simp only [utf8Decode, hs]; rfl
  rintro ⟨c, more, e⟩
  cases more with
  | nil =>
    have := decode_prefix c e
    rw [h2] at this
    simp at this
  | cons d more =>
    have := decode_prefix c (bs := [0xED, b, d]) (more := more) (by simpa using e)
    rw [h3] at this
    split_ifs at this

theorem decode_half {bs : List Nat} (h : Half bs) : utf8Decode bs = .more := by
  obtain ⟨b, hb, rfl⟩ := h
  have hh : isHalfSurrogate 0xED b = true := by simp [isHalfSurrogate]; omega
  simp only [utf8Decode, hh, Bool.or_true]; rfl

theorem decode_bad {bs : List Nat} : utf8Decode bs = .bad ↔ ¬ Begins bs ∧ ¬ Half bs := by
  constructor
  · intro h
    constructor
    · rintro ⟨c, more, e⟩
      rw [decode_prefix c e] at h
      split_ifs at h
    · intro hh
      rw [decode_half hh] at h
      cases h
  · rintro ⟨h, hh⟩
    cases hd : utf8Decode bs with
    | char c => exact absurd ⟨c, [], by rw [decode_char hd, List.append_nil]⟩ h
    | more =>
      rcases decode_more hd with ⟨c, m, -, e⟩ | h'
      · exact absurd ⟨c, m, e⟩ h
      · exact absurd h' hh
    | bad => rfl

/-- The texts `_read` gives for bytes, starting with the bytes `kept`: the characters they encode, and for a byte that
cannot continue a character its representation; nothing for the first two bytes of a surrogate, which are kept. -/
inductive Spells : List Nat → List Nat → Str → List Nat → Prop
  | done (kept) : Spells kept [] [] kept
  | char {kept b bs c t k} (he : encode c = kept ++ [b]) (h : Spells [] bs t k) : Spells kept (b :: bs) (c :: t) k
  | wait {kept b bs t k} (c more) (hm : more ≠ []) (he : encode c = kept ++ [b] ++ more) (h : Spells (kept ++ [b]) bs t k) :
      Spells kept (b :: bs) t k
  | half {kept b bs t k} (hh : Half (kept ++ [b])) (h : Spells (kept ++ [b]) bs t k) : Spells kept (b :: bs) t k
  | stray {kept b bs t k} (hn : ¬ Begins (kept ++ [b]) ∧ ¬ Half (kept ++ [b])) (h : Spells kept bs t k) : Spells kept (b :: bs) (byteRepr b ++ t) k

theorem Spells.append {k1 k2 k3 : List Nat} {a b : List Nat} {s t : Str} (h1 : Spells k1 a s k2) (h2 : Spells k2 b t k3) :
    Spells k1 (a ++ b) (s ++ t) k3 := by
  induction h1 with
  | done kept => exact h2
  | char he _ ih => exact .char he (ih h2)
  | wait c more hm he _ ih => exact .wait c more hm he (ih h2)
  | half hh _ ih => exact .half hh (ih h2)
  | stray hn _ ih => rw [List.append_assoc]; exact .stray hn (ih h2)

/-- There is only one way to spell bytes. -/
theorem Spells.unique {k bs : List Nat} {s t : Str} {j l : List Nat} (h1 : Spells k bs s j) (h2 : Spells k bs t l) : s = t ∧ j = l := by
  induction h1 generalizing t l with
  | done kept => cases h2; exact ⟨rfl, rfl⟩
  | char he _ ih =>
    have hd := decode_prefix _ (more := []) (by simpa using he)
    cases h2 with
    | char he' h' =>
      have hd' := decode_prefix _ (more := []) (by simpa using he')
      rw [hd] at hd'
      simp only [if_true, Dec.char.injEq] at hd'
      obtain ⟨rfl, rfl⟩ := ih h'
      exact ⟨by rw [hd'], rfl⟩
    | wait c more hm he' h' =>
      have hd' := decode_prefix _ he'
      rw [hd, if_neg hm] at hd'
      simp at hd'
    | half hh h' => exact absurd ⟨_, [], by simpa using he⟩ hh.not_begins
    | stray hn h' => exact absurd ⟨_, [], by simpa using he⟩ hn.1
  | wait c more hm he _ ih =>
    have hd := decode_prefix _ he
    cases h2 with
    | char he' h' =>
      have hd' := decode_prefix _ (more := []) (by simpa using he')
      rw [hd, if_neg hm] at hd'
      simp at hd'
    | wait c more hm he' h' => exact ih h'
    | half hh h' => exact ih h'
    | stray hn h' => exact absurd ⟨_, _, he⟩ hn.1
  | half hh _ ih =>
    cases h2 with
    | char he' h' => exact absurd ⟨_, [], by simpa using he'⟩ hh.not_begins
    | wait c more hm he' h' => exact ih h'
    | half hh h' => exact ih h'
    | stray hn h' => exact absurd hh hn.2
  | stray hn _ ih =>
    cases h2 with
    | char he' h' => exact absurd ⟨_, [], by simpa using he'⟩ hn.1
    | wait c more hm he' h' => exact absurd ⟨_, _, he'⟩ hn.1
    | half hh h' => exact absurd hh hn.2
    | stray hn h' =>
      obtain ⟨rfl, rfl⟩ := ih h'
      exact ⟨rfl, rfl⟩

/-- One turn of the loop. -/
theorem readByte_spells (kept : List Nat) (b : Nat) : Spells kept [b] (readByte kept b).1 (readByte kept b).2 := by
  unfold readByte
  cases hd : utf8Decode (kept ++ [b]) with
  | char c => exact .char (decode_char hd) (.done [])
  | more =>
    rcases decode_more hd with ⟨c, m, hm, e⟩ | hh
    · exact .wait c m hm e (.done _)
    · exact .half hh (.done _)
  | bad =>
    have := Spells.stray (decode_bad.mp hd) (.done kept)
    simpa using this

theorem readOne_spells : ∀ (bs kept : List Nat) {t : Str} {rest k : List Nat}, readOne kept bs = some (t, rest, k) →
    ∃ used, bs = used ++ rest ∧ used ≠ [] ∧ Spells kept used t k
  | [], _, _, _, _, h => by simp [readOne] at h
  | b :: bs, kept, t, rest, k, h => by
    unfold readOne at h
    have h1 := readByte_spells kept b
    simp only at h
    split_ifs at h with hl
    · obtain ⟨used, e, -, hs⟩ := readOne_spells bs _ h
      have hn : (readByte kept b).1 = [] := List.length_eq_zero_iff.mp (by omega)
      rw [hn] at h1
      exact ⟨b :: used, by rw [e]; rfl, by simp, h1.append hs⟩
    · simp only [Option.some.injEq, Prod.mk.injEq] at h
      obtain ⟨rfl, rfl, rfl⟩ := h
      exact ⟨[b], rfl, by simp, h1⟩

theorem readWhile_spells (ready : List Nat → Bool) : ∀ (fuel : Nat) (kept bs : List Nat) (buff : Str) {t : Str} {rest : List Nat},
    readWhile ready fuel kept bs buff = some (t, rest) →
    ∃ used s k, bs = used ++ rest ∧ t = buff ++ s ∧ Spells kept used s k ∧ ready rest = false
  | 0, kept, bs, buff, t, rest, h => by
    unfold readWhile at h
    split_ifs at h with hr
    simp only [Option.some.injEq, Prod.mk.injEq] at h
    obtain ⟨rfl, rfl⟩ := h
    exact ⟨[], [], kept, rfl, by simp, .done kept, by simpa using hr⟩
  | fuel + 1, kept, bs, buff, t, rest, h => by
    unfold readWhile at h
    split_ifs at h with hr
    · split at h
      · cases h
      · rename_i t1 bs1 k1 h1
        obtain ⟨u1, e1, -, s1⟩ := readOne_spells _ _ h1
        obtain ⟨u2, s, k, e2, et, s2, hrr⟩ := readWhile_spells ready fuel _ _ _ h
        exact ⟨u1 ++ u2, t1 ++ s, k, by rw [e1, e2, List.append_assoc], by rw [et, List.append_assoc], s1.append s2, hrr⟩
    · simp only [Option.some.injEq, Prod.mk.injEq] at h
      obtain ⟨rfl, rfl⟩ := h
      exact ⟨[], [], kept, rfl, by simp, .done kept, by simpa using hr⟩

/-- **C102**. Whatever bytes arrive, and whenever: the text `getch` reads consists, in order, of the characters encoded by the bytes
it took and of the representations of those among them that cannot continue a character; at least one byte is taken, and
when it stops no further byte has arrived. -/
theorem C102_text (ready : List Nat → Bool) (bs : List Nat) (t : Str) (rest : List Nat) (h : readText ready bs = some (t, rest)) :
    ∃ used k, used ≠ [] ∧ bs = used ++ rest ∧ ready rest = false ∧ Spells [] used t k := by
  unfold readText at h
  split at h
  · cases h
  · rename_i t1 bs1 k1 h1
    obtain ⟨u1, e1, n1, s1⟩ := readOne_spells _ _ h1
    obtain ⟨u2, s, k, e2, et, s2, hr⟩ := readWhile_spells ready _ _ _ _ h
    exact ⟨u1 ++ u2, k, by simp [n1], by rw [e1, e2, List.append_assoc], hr, by rw [et]; exact s1.append s2⟩

/-- **C102**, the decoder: it gives a character exactly for the bytes that encode it, waits exactly while a longer character begins
with them or they are the first two bytes of a surrogate, and refuses them in all other cases (overlong forms, numbers that
are too large and the third byte of a surrogate included). -/
theorem C102_decoder (bs : List Nat) :
    (∀ c, utf8Decode bs = .char c ↔ encode c = bs) ∧
    (utf8Decode bs = .more ↔ (∃ c more, more ≠ [] ∧ encode c = bs ++ more) ∨ Half bs) ∧
    (utf8Decode bs = .bad ↔ (¬ ∃ c more, encode c = bs ++ more) ∧ ¬ Half bs) := by
  refine ⟨fun c => ⟨decode_char, fun h => ?_⟩, ⟨decode_more, ?_⟩, decode_bad⟩
  · rw [decode_prefix c (bs := bs) (more := []) (by simpa using h), if_pos rfl]
  · rintro (⟨c, more, hm, e⟩ | hh)
    · rw [decode_prefix c e, if_neg hm]
    · exact decode_half hh

/-- A text with a surrogate in it (`0xED 0xA5 0x80`): the first two bytes are kept, and nothing can follow them. An overlong
form (`0xE0 0x80 0x80`): the first byte is kept, and the others cannot follow it. -/
example : readText (fun bs => !bs.isEmpty) [0xED, 0xA5, 0x80, 97] = some ("b'\\x80'b'a'".toList, []) ∧
    readText (fun bs => !bs.isEmpty) [0xE0, 0x80, 0xA0, 0x80] = some ("b'\\x80'ࠀ".toList, []) ∧
    ¬ Begins [0xED, 0xA5] ∧ ¬ Begins [0xE0, 0x80] := by
  refine ⟨by decide +kernel, by decide +kernel, Half.not_begins ⟨0xA5, by omega, rfl⟩, ?_⟩
  exact (decode_bad.mp (by decide +kernel)).1

end Slate
