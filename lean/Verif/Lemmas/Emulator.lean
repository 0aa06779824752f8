import Verif.Spec.Emulator
import Verif.Lemmas.Str

/-! Facts about the terminal emulator. -/

namespace Term
open Slate Slate.Py

theorem run_append (s : State) (a b : List Char) : run s (a ++ b) = run (run s a) b := by
  simp [run, List.foldl_append]

@[simp] theorem run_nil (s : State) : run s [] = s := rfl
@[simp] theorem run_cons (s : State) (c : Char) (cs : List Char) :
    run s (c :: cs) = run (step s c) cs := rfl

theorem digit_iff (c : Char) : ('0' ≤ c ∧ c ≤ '9') ↔ isDig c = true := by
  rw [isDig_iff]; exact Iff.rfl

theorem params_digits (cur : Nat) (ds rest : List Char) (h : ds.all isDig = true) :
    params cur (ds ++ rest) = params (decVal cur ds) rest := by
  induction ds generalizing cur with
  | nil => rfl
  | cons d ds ih =>
    simp only [List.all_cons, Bool.and_eq_true] at h
    have hd : d ≠ ';' := isDig_ne h.1 (by decide)
    simp only [List.cons_append, params, hd, if_false, (digit_iff d).mpr h.1, and_self, if_true]
    rw [ih _ h.2]; rfl

theorem params_dec (n : Nat) : params 0 (dec n) = some [n] := by
  have := params_digits 0 (dec n) [] (dec_all n)
  simpa [params, dec_val] using this

theorem params_dec_cons (n : Nat) (rest : List Char) :
    params 0 (dec n ++ ';' :: rest) = (params 0 rest).map (n :: ·) := by
  rw [params_digits 0 (dec n) _ (dec_all n)]
  simp [params, dec_val]

/-- The parameter string of a list of numbers. -/
theorem params_join (n : Nat) (ns : List Nat) :
    params 0 (join [';'] ((n :: ns).map dec)) = some (n :: ns) := by
  induction ns generalizing n with
  | nil => simp [join, params_dec]
  | cons m ns ih =>
    have := ih m
    simp only [List.map_cons] at this ⊢
    rw [join, List.append_assoc, List.singleton_append, params_dec_cons, this]
    rfl

/-- Characters that may stand inside a control sequence. -/
def ParamChar (c : Char) : Prop := 32 ≤ c.toNat ∧ c.toNat < 64

theorem ParamChar.of_isDig {c : Char} (h : isDig c = true) : ParamChar c := by
  rw [isDig_iff] at h; exact ⟨by omega, by omega⟩

theorem run_csi_params (s : State) (ps qs rest : List Char) (hm : s.mode = .csi ps)
    (h : ∀ c ∈ qs, ParamChar c) :
    run s (qs ++ rest) = run { s with mode := .csi (ps ++ qs) } rest := by
  induction qs generalizing s ps with
  | nil => simp [← hm]
  | cons q qs ih =>
    have hq := h q (by simp)
    have h1 : q ≠ '\x1b' := by rintro rfl; exact absurd hq.1 (by decide)
    have h2 : ¬ (64 ≤ q.toNat ∧ q.toNat ≤ 126) := by have := hq.2; omega
    have hs : step s q = { s with mode := .csi (ps ++ [q]) } := by
      unfold step; rw [hm]; simp only [h1, h2, if_false]
    rw [List.cons_append, run_cons, hs, ih _ (ps ++ [q]) rfl (fun c hc => h c (by simp [hc]))]
    simp

/-- A complete control sequence. -/
theorem run_csi (s : State) (qs rest : List Char) (f : Char) (hm : s.mode = .ground)
    (h : ∀ c ∈ qs, ParamChar c) (hf : 64 ≤ f.toNat ∧ f.toNat ≤ 126) :
    run s ('\x1b' :: '[' :: (qs ++ f :: rest)) = run (dispatch qs f s) rest := by
  have e1 : step s '\x1b' = { s with mode := .esc } := by unfold step; rw [hm]; simp
  have e2 : step { s with mode := .esc } '[' = { s with mode := .csi [] } := by
    unfold step; simp
  rw [run_cons, e1, run_cons, e2, run_csi_params _ [] qs _ rfl h, run_cons]
  congr 1
  have hf1 : f ≠ '\x1b' := by rintro rfl; exact absurd hf.1 (by decide)
  unfold step
  simp only [List.nil_append, hf1, if_false, hf, and_self, if_true]
  unfold dispatch
  cases s
  simp only at hm
  subst hm
  split
  · rfl
  · split
    · rfl
    · split <;> rfl

theorem dispatch_mode (ps : List Char) (f : Char) (s : State) : (dispatch ps f s).mode = s.mode := by
  unfold dispatch; split
  · rfl
  · split
    · rfl
    · split <;> rfl

/-- A printable character in the ground mode. -/
theorem step_print (s : State) (c : Char) (hm : s.mode = .ground) (hc : Printable c) :
    step s c = { s with grid := setGrid s.grid s.row s.col { ch := c, attr := s.pen },
                        col := s.col + 1, log := s.log ++ [(s.row, s.col)] } := by
  have h1 : c ≠ '\x1b' := by rintro rfl; exact absurd hc.1 (by decide)
  have h2 : c ≠ '\n' := by rintro rfl; exact absurd hc.1 (by decide)
  have h3 : c ≠ '\r' := by rintro rfl; exact absurd hc.1 (by decide)
  unfold step; rw [hm]; simp only [h1, h2, h3, hc, if_false, if_true]

theorem dec_paramChar {n : Nat} {c : Char} (h : c ∈ dec n) : ParamChar c :=
  .of_isDig (dec_isDig h)

theorem join_paramChar {ss : List Str} (h : ∀ s ∈ ss, ∀ c ∈ s, ParamChar c) :
    ∀ c ∈ join [';'] ss, ParamChar c := by
  induction ss with
  | nil => simp [join]
  | cons a t ih =>
    cases t with
    | nil => simpa [join] using h a (by simp)
    | cons b t =>
      intro c hc
      rw [join, List.append_assoc] at hc
      simp only [List.mem_append, List.mem_singleton] at hc
      rcases hc with hc | rfl | hc
      · exact h a (by simp) c hc
      · exact ⟨by decide, by decide⟩
      · exact ih (fun s hs => h s (by simp [hs])) c hc

/-- An SGR sequence given by numbers. -/
theorem run_sgr (s : State) (n : Nat) (ns : List Nat) (rest : List Char) (hm : s.mode = .ground) :
    run s ('\x1b' :: '[' :: (join [';'] ((n :: ns).map dec) ++ 'm' :: rest)) =
      run { s with pen := sgr (n :: ns) s.pen } rest := by
  rw [run_csi s _ rest 'm' hm _ (by decide)]
  · rw [dispatch, params_join]; simp
  · apply join_paramChar
    intro s hs c hc
    obtain ⟨k, -, rfl⟩ := List.mem_map.mp hs
    exact dec_paramChar hc

theorem run_reset (s : State) (rest : List Char) (hm : s.mode = .ground) :
    run s (RESET ++ rest) = run { s with pen := Attr.clean } rest := by
  have := run_sgr s 0 [] rest hm
  simpa [RESET, join, dec, decF, digitChar, sgr, sgr1] using this

/-- A cursor move. -/
theorem run_cup (s : State) (r c : Nat) (rest : List Char) (hm : s.mode = .ground) :
    run s ('\x1b' :: '[' :: (dec r ++ ';' :: (dec c ++ 'H' :: rest))) =
      run { s with row := max 1 r, col := max 1 c } rest := by
  have := run_csi s (dec r ++ ';' :: dec c) rest 'H' hm (by
    intro x hx
    simp only [List.mem_append, List.mem_cons] at hx
    rcases hx with hx | rfl | hx
    · exact dec_paramChar hx
    · exact ⟨by decide, by decide⟩
    · exact dec_paramChar hx) (by decide)
  simp only [List.append_assoc, List.cons_append] at this
  rw [this, dispatch, params_dec_cons, params_dec]
  simp

end Term
