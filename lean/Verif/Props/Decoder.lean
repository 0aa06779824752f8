import Verif.Model.Decoder
import Verif.Props.Decode

/-!
# Reading with any encoding (C116)
-/

namespace Slate
open Py Core

/-! ## Specification -/

/-- What each byte gives: the text the decoder gives for it, or its representation if the decoder refuses it. -/
def Decoder.texts (d : Decoder) : d.State → List Nat → List Str
  | _, [] => []
  | s, b :: bs =>
    match d.feed s b with
    | .ok (t, s) => t :: texts d s bs
    | .error s => byteRepr b :: texts d s bs

/-- A read may end after `n` bytes: the last of them completes a text, and no other byte has arrived. -/
def Decoder.MayEnd (d : Decoder) (ready : List Nat → Bool) (s : d.State) (bs : List Nat) (n : Nat) : Prop :=
  0 < n ∧ (∃ t, (Decoder.texts d s bs)[n - 1]? = some t ∧ t ≠ []) ∧ ready (bs.drop n) = false

/-- The bytes `w` are how a character is sent: only the last of them gives a text, the character, and then the decoder is as it was. -/
inductive Decoder.Sends (d : Decoder) (c : Char) : d.State → List Nat → Prop
  | last {s : d.State} {b : Nat} : d.feed s b = .ok ([c], d.start) → Sends d c s [b]
  | next {s s' : d.State} {b : Nat} {bs : List Nat} : d.feed s b = .ok ([], s') → Sends d c s' bs → Sends d c s (b :: bs)

/-! ## Proofs -/

theorem Decoder.texts_cons (d : Decoder) (s : d.State) (b : Nat) (bs : List Nat) :
    Decoder.texts d s (b :: bs) = (d.readByte s b).1 :: Decoder.texts d (d.readByte s b).2 bs := by
  rw [Decoder.texts]
  unfold Core.Decoder.readByte
  cases d.feed s b with
  | ok r => rfl
  | error s => rfl

theorem Decoder.readOne_shorter (d : Decoder) : ∀ (bs : List Nat) (s : d.State) (t : Str) (bs' : List Nat) (s' : d.State),
    d.readOne s bs = some (t, bs', s') → bs'.length < bs.length := by
  intro bs
  induction bs with
  | nil => intro s t bs' s' h; cases h
  | cons b bs ih =>
    intro s t bs' s' h
    unfold Core.Decoder.readOne at h
    simp only at h
    split_ifs at h
    · have := ih _ _ _ _ h
      simp only [List.length_cons]; omega
    · simp only [Option.some.injEq, Prod.mk.injEq] at h
      rw [← h.2.1]; simp

/-- Reading from any state of the decoder. -/
def Decoder.go (d : Decoder) (ready : List Nat → Bool) (s : d.State) (bs : List Nat) : Option (Str × List Nat) :=
  match d.readOne s bs with
  | none => none
  | some (t, bs, s) => d.readWhile ready bs.length s bs t

theorem Decoder.readWhile_eq (d : Decoder) (ready : List Nat → Bool) : ∀ (n : Nat) (bs : List Nat) (s : d.State) (fuel : Nat) (buff : Str),
    bs.length ≤ n → bs.length ≤ fuel →
    d.readWhile ready fuel s bs buff =
      if ready bs then (Decoder.go d ready s bs).map fun r => (buff ++ r.1, r.2) else some (buff, bs) := by
  intro n
  induction n with
  | zero =>
    intro bs s fuel buff hn hf
    obtain rfl : bs = [] := List.length_eq_zero_iff.mp (by omega)
    cases fuel <;> simp [Core.Decoder.readWhile, Decoder.go, Core.Decoder.readOne]
  | succ n ih =>
    intro bs s fuel buff hn hf
    cases fuel with
    | zero =>
      obtain rfl : bs = [] := List.length_eq_zero_iff.mp (by omega)
      simp [Core.Decoder.readWhile, Decoder.go, Core.Decoder.readOne]
    | succ fuel =>
      unfold Core.Decoder.readWhile Decoder.go
      split_ifs with hr
      · cases h : d.readOne s bs with
        | none => rfl
        | some r =>
          obtain ⟨t, bs', s'⟩ := r
          have hl := Decoder.readOne_shorter d _ _ _ _ _ h
          simp only
          rw [ih bs' s' fuel _ (by omega) (by omega), ih bs' s' bs'.length t (by omega) (le_refl _)]
          split_ifs
          · rw [Option.map_map]
            congr 1
            funext r
            simp
          · simp
      · rfl

/-- Byte by byte. -/
theorem Decoder.go_cons (d : Decoder) (ready : List Nat → Bool) (s : d.State) (b : Nat) (bs : List Nat) :
    Decoder.go d ready s (b :: bs) =
      if (d.readByte s b).1 ≠ [] ∧ ready bs = false then some ((d.readByte s b).1, bs)
      else (Decoder.go d ready (d.readByte s b).2 bs).map fun r => ((d.readByte s b).1 ++ r.1, r.2) := by
  conv_lhs => unfold Decoder.go Core.Decoder.readOne
  simp only
  by_cases he : (d.readByte s b).1 = []
  · rw [if_pos (by rw [he]; simp), if_neg (by simp [he]), he]
    simp only [List.nil_append]
    show Decoder.go d ready _ bs = _
    cases Decoder.go d ready (d.readByte s b).2 bs <;> rfl
  · rw [if_neg (by have := List.length_pos_of_ne_nil he; omega)]
    simp only
    rw [Decoder.readWhile_eq d ready bs.length bs _ _ _ (le_refl _) (le_refl _)]
    by_cases hr : ready bs = true
    · rw [if_pos hr, if_neg (by simp [hr])]
    · rw [if_neg hr, if_pos ⟨he, by simpa using hr⟩]

theorem Decoder.mayEnd_one (d : Decoder) (ready : List Nat → Bool) (s : d.State) (b : Nat) (bs : List Nat) :
    Decoder.MayEnd d ready s (b :: bs) 1 ↔ (d.readByte s b).1 ≠ [] ∧ ready bs = false := by
  unfold Decoder.MayEnd
  rw [Decoder.texts_cons]
  simp

theorem Decoder.mayEnd_succ (d : Decoder) (ready : List Nat → Bool) (s : d.State) (b : Nat) (bs : List Nat) (n : Nat) :
    Decoder.MayEnd d ready s (b :: bs) (n + 2) ↔ Decoder.MayEnd d ready (d.readByte s b).2 bs (n + 1) := by
  unfold Decoder.MayEnd
  rw [Decoder.texts_cons]
  simp

theorem Decoder.go_iff (d : Decoder) (ready : List Nat → Bool) (bs : List Nat) : ∀ (s : d.State) (t : Str) (rest : List Nat),
    Decoder.go d ready s bs = some (t, rest) ↔
      ∃ n, Decoder.MayEnd d ready s bs n ∧ (∀ m, m < n → ¬ Decoder.MayEnd d ready s bs m) ∧
        t = ((Decoder.texts d s bs).take n).flatten ∧ rest = bs.drop n := by
  induction bs with
  | nil =>
    intro s t rest
    constructor
    · intro h; cases h
    · rintro ⟨n, ⟨-, ⟨t, ht, -⟩, -⟩, -⟩
      simp [Decoder.texts] at ht
  | cons b bs ih =>
    intro s t rest
    rw [Decoder.go_cons]
    split_ifs with h
    · constructor
      · intro e
        simp only [Option.some.injEq, Prod.mk.injEq] at e
        refine ⟨1, (Decoder.mayEnd_one d ready s b bs).mpr h, ?_, ?_, ?_⟩
        · intro m hm
          obtain rfl : m = 0 := by omega
          rintro ⟨h0, -⟩
          omega
        · rw [Decoder.texts_cons, ← e.1]; simp
        · simp [e.2]
      · rintro ⟨n, h1, h2, h3, h4⟩
        have hn : n = 1 := by
          have := h1.1
          by_contra hne
          exact h2 1 (by omega) ((Decoder.mayEnd_one d ready s b bs).mpr h)
        subst hn
        rw [Decoder.texts_cons] at h3
        simp at h3 h4
        rw [h3, h4]
    · constructor
      · intro e
        obtain ⟨⟨t', rest'⟩, e1, e2⟩ := Option.map_eq_some_iff.mp e
        obtain ⟨n, h1, h2, h3, h4⟩ := (ih _ t' rest').mp e1
        simp only [Prod.mk.injEq] at e2
        obtain ⟨k, rfl⟩ : ∃ k, n = k + 1 := ⟨n - 1, by have := h1.1; omega⟩
        refine ⟨k + 2, (Decoder.mayEnd_succ d ready s b bs k).mpr h1, ?_, ?_, ?_⟩
        · intro m hm hm'
          match m with
          | 0 => exact absurd hm'.1 (by omega)
          | 1 => exact h ((Decoder.mayEnd_one d ready s b bs).mp hm')
          | j + 2 => exact h2 (j + 1) (by omega) ((Decoder.mayEnd_succ d ready s b bs j).mp hm')
        · rw [Decoder.texts_cons, ← e2.1, h3]; simp
        · rw [← e2.2, h4]; simp
      · rintro ⟨n, h1, h2, h3, h4⟩
        match n with
        | 0 => exact absurd h1.1 (by omega)
        | 1 => exact absurd ((Decoder.mayEnd_one d ready s b bs).mp h1) h
        | k + 2 =>
          rw [(ih _ _ _).mpr ⟨k + 1, (Decoder.mayEnd_succ d ready s b bs k).mp h1, fun m hm hm' => ?_, rfl, rfl⟩]
          · rw [Decoder.texts_cons] at h3
            simp at h3 h4 ⊢
            exact ⟨h3.symm, h4.symm⟩
          · match m with
            | 0 => exact absurd hm'.1 (by omega)
            | j + 1 => exact h2 (j + 2) (by omega) ((Decoder.mayEnd_succ d ready s b bs j).mpr hm')

/-- **C116**, any encoding: whatever bytes arrive and whenever, a read ends at the first place where a text has been completed and no other
byte has arrived. It returns the texts of the bytes up to there, refused bytes as their representations, and leaves the others. -/
theorem C116_read (d : Decoder) (ready : List Nat → Bool) (bs : List Nat) (t : Str) (rest : List Nat) :
    d.readText ready bs = some (t, rest) ↔
      ∃ n, Decoder.MayEnd d ready d.start bs n ∧ (∀ m, m < n → ¬ Decoder.MayEnd d ready d.start bs m) ∧
        t = ((Decoder.texts d d.start bs).take n).flatten ∧ rest = bs.drop n :=
  Decoder.go_iff d ready bs d.start t rest

/-- **C116**: it waits for ever exactly if there is no such place. -/
theorem C116_waits (d : Decoder) (ready : List Nat → Bool) (bs : List Nat) :
    d.readText ready bs = none ↔ ∀ n, ¬ Decoder.MayEnd d ready d.start bs n := by
  classical
  constructor
  · intro h n hn
    have hex : ∃ n, Decoder.MayEnd d ready d.start bs n := ⟨n, hn⟩
    have := (C116_read d ready bs _ _).mpr ⟨Nat.find hex, Nat.find_spec hex, fun m hm => Nat.find_min hex hm, rfl, rfl⟩
    rw [h] at this
    cases this
  · intro h
    cases hr : d.readText ready bs with
    | none => rfl
    | some r =>
      obtain ⟨n, hn, -⟩ := (C116_read d ready bs r.1 r.2).mp hr
      exact absurd hn (h n)

theorem Decoder.Sends.go {d : Decoder} {c : Char} {s : d.State} {w : List Nat} (h : Decoder.Sends d c s w) (ready : List Nat → Bool)
    (rest : List Nat) : Decoder.go d ready s (w ++ rest) =
      if ready rest = false then some ([c], rest) else (Decoder.go d ready d.start rest).map fun r => (c :: r.1, r.2) := by
  induction h with
  | @last s b hf =>
    have hr : d.readByte s b = ([c], d.start) := by unfold Core.Decoder.readByte; rw [hf]
    rw [List.singleton_append, Decoder.go_cons, hr]
    simp
  | @next s s' b bs hf _ ih =>
    have hr : d.readByte s b = ([], s') := by unfold Core.Decoder.readByte; rw [hf]
    rw [List.cons_append, Decoder.go_cons, hr]
    simp only [ne_eq, not_true_eq_false, false_and, if_false, List.nil_append]
    rw [ih]
    split_ifs
    · rfl
    · rw [Option.map_map]; rfl

/-- **C116**, text: in any encoding, from the bytes of any text, arriving at any times and in any pieces, a read gives a non-empty prefix of
the text and leaves exactly the bytes of the rest. It stops at the first boundary of two characters behind which no byte has arrived. -/
theorem C116_text (d : Decoder) (enc : Char → List Nat) (ready : List Nat → Bool) (h0 : ready [] = false) (s : Str) (hs : s ≠ [])
    (henc : ∀ c ∈ s, Decoder.Sends d c d.start (enc c)) :
    ∃ t u : Str, t ≠ [] ∧ s = t ++ u ∧ d.readText ready (s.flatMap enc) = some (t, u.flatMap enc) ∧ ready (u.flatMap enc) = false ∧
      ∀ x y, t = x ++ y → x ≠ [] → y ≠ [] → ready ((y ++ u).flatMap enc) = true := by
  show ∃ t u : Str, t ≠ [] ∧ s = t ++ u ∧ Decoder.go d ready d.start (s.flatMap enc) = some (t, u.flatMap enc) ∧ _
  induction s with
  | nil => exact absurd rfl hs
  | cons c s ih =>
    rw [List.flatMap_cons, (henc c (by simp)).go ready]
    by_cases hr : ready (s.flatMap enc) = false
    · refine ⟨[c], s, by simp, rfl, by rw [if_pos hr], hr, ?_⟩
      intro x y hxy hx hy
      exfalso
      have := congrArg List.length hxy
      have := List.length_pos_of_ne_nil hx
      have := List.length_pos_of_ne_nil hy
      simp at *
      omega
    · have hne : s ≠ [] := by rintro rfl; exact hr h0
      obtain ⟨t, u, h1, h2, h3, h4, h5⟩ := ih hne fun c hc => henc c (by simp [hc])
      refine ⟨c :: t, u, by simp, by rw [h2]; rfl, by rw [if_neg hr, h3]; rfl, h4, ?_⟩
      intro x y hxy hx hy
      obtain ⟨a, x, rfl⟩ := List.exists_cons_of_ne_nil hx
      simp only [List.cons_append, List.cons.injEq] at hxy
      by_cases hx' : x = []
      · subst hx'
        simp only [List.nil_append] at hxy
        rw [← hxy.2, ← h2]
        simpa using hr
      · exact h5 x y hxy.2 hx' hy

/-! ## The encodings -/

theorem Decoder.readOne_cons (d : Decoder) (s : d.State) (b : Nat) (bs : List Nat) : d.readOne s (b :: bs) =
    if (d.readByte s b).1.length < 1 then d.readOne (d.readByte s b).2 bs else some ((d.readByte s b).1, bs, (d.readByte s b).2) := by
  rw [Core.Decoder.readOne]

theorem Decoder.readWhile_succ (d : Decoder) (ready : List Nat → Bool) (fuel : Nat) (s : d.State) (bs : List Nat) (buff : Str) :
    d.readWhile ready (fuel + 1) s bs buff =
      if ready bs then
        match d.readOne s bs with
        | none => none
        | some (t, bs, s) => d.readWhile ready fuel s bs (buff ++ t)
      else some (buff, bs) := by
  rw [Core.Decoder.readWhile]
  rfl

/-- A decoder whose states stand for kept bytes. -/
theorem Decoder.readOne_utf8 (d : Decoder) (φ : List Nat → d.State)
    (h : ∀ kept b, d.readByte (φ kept) b = ((readByte kept b).1, φ (readByte kept b).2)) (bs : List Nat) : ∀ kept : List Nat,
    d.readOne (φ kept) bs = (readOne kept bs).map fun r => (r.1, r.2.1, φ r.2.2) := by
  induction bs with
  | nil => intro kept; rfl
  | cons b bs ih =>
    intro kept
    rw [Decoder.readOne_cons, h, Core.readOne]
    simp only
    split_ifs
    · exact ih _
    · rfl

theorem Decoder.readWhile_utf8 (d : Decoder) (φ : List Nat → d.State)
    (h : ∀ kept b, d.readByte (φ kept) b = ((readByte kept b).1, φ (readByte kept b).2)) (ready : List Nat → Bool) (fuel : Nat) :
    ∀ (kept bs : List Nat) (buff : Str), d.readWhile ready fuel (φ kept) bs buff = readWhile ready fuel kept bs buff := by
  induction fuel with
  | zero => intro kept bs buff; rfl
  | succ fuel ih =>
    intro kept bs buff
    rw [Decoder.readWhile_succ, Decoder.readOne_utf8 d φ h, Core.readWhile]
    split_ifs
    · cases readOne kept bs with
      | none => rfl
      | some r => exact ih _ _ _
    · rfl

/-- UTF-8 is an instance: C71, C72 and C102 are about the same reads. -/
theorem C116_utf8 (ready : List Nat → Bool) (bs : List Nat) : utf8Decoder.readText ready bs = readText ready bs := by
  have h : ∀ (kept : List Nat) (b : Nat), utf8Decoder.readByte kept b = ((readByte kept b).1, (readByte kept b).2) := by
    intro kept b
    have hf : utf8Decoder.feed kept b = (match utf8Decode (kept ++ [b]) with
      | .char c => .ok ([c], ([] : List Nat))
      | .more => .ok ([], kept ++ [b])
      | .bad => .error kept : Except (List Nat) (Str × List Nat)) := rfl
    unfold Core.Decoder.readByte Core.readByte
    cases hu : utf8Decode (kept ++ [b]) <;> rw [hu] at hf <;> rw [hf]
    rfl
  unfold Core.Decoder.readText Core.readText
  have e := Decoder.readOne_utf8 utf8Decoder (fun kept => kept) h bs []
  have e' : utf8Decoder.readOne utf8Decoder.start bs = _ := e
  rw [e']
  cases readOne [] bs with
  | none => rfl
  | some r => exact Decoder.readWhile_utf8 utf8Decoder (fun kept => kept) h ready _ _ _ _

theorem byteRepr_head (b : Nat) : ∃ x t, byteRepr b = 'b' :: x :: t := by
  unfold byteRepr
  split_ifs <;> exact ⟨_, _, rfl⟩

theorem utf8Decoder_sends (c : Char) (w : List Nat) : ∀ kept : List Nat, readOne kept w = some ([c], [], []) →
    Decoder.Sends utf8Decoder c kept w := by
  induction w with
  | nil => intro kept h; cases h
  | cons b w ih =>
    intro kept h
    have hf : utf8Decoder.feed kept b = (match utf8Decode (kept ++ [b]) with
      | .char c => .ok ([c], ([] : List Nat))
      | .more => .ok ([], kept ++ [b])
      | .bad => .error kept : Except (List Nat) (Str × List Nat)) := rfl
    rw [Core.readOne] at h
    unfold Core.readByte at h
    cases hu : utf8Decode (kept ++ [b]) with
    | char c' =>
      rw [hu] at h hf
      simp only [List.length_singleton, lt_irrefl, if_false, Option.some.injEq, Prod.mk.injEq, List.cons.injEq, and_true] at h
      obtain ⟨rfl, rfl⟩ := h
      exact .last hf
    | more =>
      rw [hu] at h hf
      exact .next hf (ih _ h)
    | bad =>
      rw [hu] at h
      obtain ⟨x, t, ht⟩ := byteRepr_head b
      simp [ht] at h

/-- C71 is the case of `C116_text` for UTF-8: its characters are sent as the definition of UTF-8 says. -/
theorem C116_utf8_sends (c : Char) :
    Decoder.Sends utf8Decoder c utf8Decoder.start ((String.utf8EncodeChar c).map UInt8.toNat) := by
  have h := readOne_char c []
  rw [List.append_nil] at h
  exact utf8Decoder_sends c _ [] h

/-- Single-byte encodings are instances: C104 is about the same reads. -/
theorem C116_table (t : Nat → Option Char) (ready : List Nat → Bool) (bs : List Nat) :
    (Codec.table t).readText ready bs = ((tableDecoder t).readText ready bs).map fun r => (.ok r.1, r.2) := by
  have hb : ∀ b, (tableDecoder t).readByte () b = (((t b).map fun c => [c]).getD (byteRepr b), ()) := by
    intro b
    unfold Core.Decoder.readByte
    simp only [tableDecoder]
    cases t b <;> rfl
  have hb' : ∀ b, (Codec.table t).readByte b = .ok (((t b).map fun c => [c]).getD (byteRepr b)) := by
    intro b
    show (match t b with | some c => Except.ok [c] | none => .ok (byteRepr b)) = _
    cases t b <;> rfl
  have h1 : ∀ bs : List Nat, (Codec.table t).readOne bs = ((tableDecoder t).readOne () bs).map fun r => (.ok r.1, r.2.1) := by
    intro bs
    induction bs with
    | nil => rfl
    | cons b bs ih =>
      have e := Decoder.readOne_cons (tableDecoder t) () b bs
      rw [hb] at e
      rw [e, Codec.readOne, hb']
      simp only
      split_ifs
      · exact ih
      · rfl
  have h2 : ∀ (fuel : Nat) (bs : List Nat) (buff : Str), (Codec.table t).readWhile ready fuel bs buff =
      ((tableDecoder t).readWhile ready fuel () bs buff).map fun r => (.ok r.1, r.2) := by
    intro fuel
    induction fuel with
    | zero =>
      intro bs buff
      show (if ready bs then none else some (Except.ok buff, bs)) = Option.map _ (if ready bs then none else some (buff, bs))
      split_ifs <;> rfl
    | succ fuel ih =>
      intro bs buff
      have e := Decoder.readWhile_succ (tableDecoder t) ready fuel () bs buff
      rw [e, Codec.readWhile, h1]
      split_ifs
      · cases (tableDecoder t).readOne () bs with
        | none => rfl
        | some r => exact ih _ _
      · rfl
  unfold Codec.readText Core.Decoder.readText
  rw [h1]
  have hs : (tableDecoder t).readOne (tableDecoder t).start bs = (tableDecoder t).readOne () bs := rfl
  rw [hs]
  cases (tableDecoder t).readOne () bs with
  | none => rfl
  | some r => exact h2 _ _ _

/-- In an encoding with characters of one and two bytes, every character of the tables is sent by its bytes, and a broken pair disturbs
only itself: its first byte is dropped, its second is represented, and all that follows is read as if nothing had happened before. -/
theorem C116_pairs (lead : Nat → Bool) (one : Nat → Option Char) (two : Nat → Nat → Option Char) :
    let d := pairDecoder lead one two
    (∀ b c, lead b = false → one b = some c → Decoder.Sends d c d.start [b]) ∧
    (∀ a b c, lead a = true → two a b = some c → Decoder.Sends d c d.start [a, b]) ∧
    (∀ a b bs, lead a = true → two a b = none →
      Decoder.texts d d.start (a :: b :: bs) = [] :: byteRepr b :: Decoder.texts d d.start bs) ∧
    (∀ b bs, lead b = false → one b = none → Decoder.texts d d.start (b :: bs) = byteRepr b :: Decoder.texts d d.start bs) := by
  intro d
  refine ⟨?_, ?_, ?_, ?_⟩
  · intro b c h1 h2
    exact .last (by simp [d, pairDecoder, h1, h2])
  · intro a b c h1 h2
    exact .next (s' := some a) (by simp [d, pairDecoder, h1]) (.last (by simp [d, pairDecoder, h2]))
  · intro a b bs h1 h2
    have e1 : d.readByte d.start a = ([], some a) := by simp [Core.Decoder.readByte, d, pairDecoder, h1]
    have e2 : d.readByte (some a) b = (byteRepr b, none) := by simp [Core.Decoder.readByte, d, pairDecoder, h2]
    rw [Decoder.texts_cons, e1, Decoder.texts_cons, e2]
    rfl
  · intro b bs h1 h2
    have e1 : d.readByte d.start b = (byteRepr b, none) := by simp [Core.Decoder.readByte, d, pairDecoder, h1, h2]
    rw [Decoder.texts_cons, e1]
    rfl

/-! ## Cases that meet the hypotheses -/

/-- A part of EUC-KR: ASCII and 가. -/
def someEucKr : Decoder := pairDecoder (fun b => decide (0xA1 ≤ b) && decide (b ≤ 0xFE))
  (fun b => if b < 0x80 then some (Char.ofNat b) else none)
  (fun a b => if a = 0xB0 ∧ b = 0xA1 then some '가' else none)

/-- A text, a broken pair, and bytes that arrive later. -/
example : someEucKr.readText (fun bs => !bs.isEmpty) [97, 0xB0, 0xA1, 98] = some ("a가b".toList, []) ∧
    someEucKr.readText (fun bs => !bs.isEmpty) [0xB0, 97, 0xB0, 0xA1, 98] = some ("b'a'가b".toList, []) ∧
    someEucKr.readText (fun bs => decide (1 < bs.length)) [0xB0, 0xA1, 98] = some ("가".toList, [98]) ∧
    someEucKr.readText (fun bs => !bs.isEmpty) [97, 0xB0] = none := by
  decide +kernel

example : Decoder.Sends someEucKr '가' someEucKr.start [0xB0, 0xA1] ∧ Decoder.Sends someEucKr 'a' someEucKr.start [97] :=
  ⟨(C116_pairs _ _ _).2.1 _ _ _ (by decide) (by decide), (C116_pairs _ _ _).1 _ _ (by decide) (by decide)⟩

end Slate
