import Verif.Py.Str
import Mathlib.Tactic.Ring
import Mathlib.Tactic.IntervalCases

/-! Facts about decimal and hexadecimal notation and the string primitives. -/

namespace Slate.Py

theorem digitChar_toNat {n : Nat} (h : n < 10) : (digitChar n).toNat = 48 + n := by
  interval_cases n <;> rfl

theorem isDig_digitChar {n : Nat} (h : n < 10) : isDig (digitChar n) = true := by
  interval_cases n <;> rfl

/-- The value of a run of digits, continuing from `a`. -/
def decVal (a : Nat) (s : Str) : Nat := s.foldl (fun a c => a * 10 + (c.toNat - 48)) a

theorem decVal_append (a : Nat) (s t : Str) : decVal a (s ++ t) = decVal (decVal a s) t := by
  simp [decVal, List.foldl_append]

theorem decF_all (f n : Nat) : (decF f n).all isDig = true := by
  induction f generalizing n with
  | zero => simp [decF, isDig_digitChar (Nat.mod_lt n (by decide))]
  | succ f ih =>
    unfold decF
    split
    · rename_i h; simp [isDig_digitChar h]
    · simp only [List.all_append, ih, List.all_cons, List.all_nil,
        isDig_digitChar (Nat.mod_lt n (by decide : 0 < 10)), Bool.and_self]

theorem decF_ne_nil (f n : Nat) : decF f n ≠ [] := by
  cases f <;> simp [decF]; split <;> simp

theorem decF_val (f n : Nat) (h : n < 10 ^ (f + 1)) : decVal 0 (decF f n) = n := by
  induction f generalizing n with
  | zero =>
    have hn : n < 10 := by simpa using h
    simp [decF, decVal, Nat.mod_eq_of_lt hn, digitChar_toNat hn]
  | succ f ih =>
    unfold decF
    split
    · rename_i hn; simp [decVal, digitChar_toNat hn]
    · rw [decVal_append, ih]
      · simp [decVal, digitChar_toNat (Nat.mod_lt n (by decide : 0 < 10))]; omega
      · rw [Nat.div_lt_iff_lt_mul (by decide)]; rw [pow_succ] at h; exact h

theorem dec_all (n : Nat) : (dec n).all isDig = true := decF_all n n
theorem dec_ne_nil (n : Nat) : dec n ≠ [] := decF_ne_nil n n
theorem dec_val (n : Nat) : decVal 0 (dec n) = n :=
  decF_val n n (Nat.lt_of_lt_of_le (Nat.lt_pow_self (by decide : 1 < 10))
    (Nat.pow_le_pow_right (by decide) (Nat.le_succ n)))

theorem dec_inj {m n : Nat} (h : dec m = dec n) : m = n := by
  rw [← dec_val m, ← dec_val n, h]

theorem dec_isDig {n : Nat} {c : Char} (h : c ∈ dec n) : isDig c = true :=
  List.all_eq_true.mp (dec_all n) c h

theorem isDig_iff (c : Char) : isDig c = true ↔ 48 ≤ c.toNat ∧ c.toNat ≤ 57 := by
  simp [isDig]

theorem decimalVal_isDig {c : Char} (h : isDig c = true) : decimalVal c = some (c.toNat - 48) := by
  rw [isDig_iff] at h
  unfold decimalVal decimalZeros
  rw [List.find?_cons_of_pos (by simp only [Bool.and_eq_true, decide_eq_true_eq]; omega)]
  rfl

theorem isDecChar_of_isDig {c : Char} (h : isDig c = true) : isDecChar c = true := by
  rw [isDecChar, decimalVal_isDig h]; rfl

theorem isDigitChar_of_isDig {c : Char} (h : isDig c = true) : isDigitChar c = true := by
  rw [isDigitChar, isDecChar_of_isDig h, Bool.true_or]

theorem toAscii_isDig {c : Char} (h : isDig c = true) : toAscii c = c := by
  rw [isDig_iff] at h
  rw [toAscii, if_pos (by omega)]

theorem isDigit_of_all {s : Str} (h : s.all isDig = true) (hne : s ≠ []) : isDigit s = true := by
  rw [List.all_eq_true] at h
  rw [isDigit, Bool.and_eq_true]
  exact ⟨by simpa using hne, List.all_eq_true.mpr fun c hc => isDigitChar_of_isDig (h c hc)⟩

theorem isDigit_dec (n : Nat) : isDigit (dec n) = true := isDigit_of_all (dec_all n) (dec_ne_nil n)

theorem decF_length (f : Nat) : ∀ (n k : Nat), n < 10 ^ (k + 1) → (decF f n).length ≤ k + 1 := by
  induction f with
  | zero => intro n k _; simp [decF]
  | succ f ih =>
    intro n k h
    unfold decF
    split
    · simp
    · cases k with
      | zero => simp at h; omega
      | succ k =>
        have := ih (n / 10) k (by rw [Nat.div_lt_iff_lt_mul (by decide), ← pow_succ]; exact h)
        simp only [List.length_append, List.length_cons, List.length_nil]
        omega

/-- Numbers below `10 ^ (k + 1)` have at most `k + 1` digits. -/
theorem dec_length {n k : Nat} (h : n < 10 ^ (k + 1)) : (dec n).length ≤ k + 1 := decF_length n n k h

/-- Numbers from here on have more than 4300 digits, the limit of `int`. -/
def intLimit : Nat := 10 ^ 4300

theorem dec_limit {n : Nat} (h : n < intLimit) : (dec n).length ≤ 4300 := dec_length (k := 4299) h

/-- Small numbers are far from the limit of `int`. -/
theorem dec_short {n : Nat} (h : n < 1000) : (dec n).length ≤ 4300 := le_trans (dec_length (k := 2) h) (by decide)

theorem isDig_ne {c d : Char} (h : isDig c = true) (hd : isDig d = false) : c ≠ d := by
  rintro rfl; simp [h] at hd

end Slate.Py
