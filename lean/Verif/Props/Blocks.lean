import Verif.Props.Tty
import Verif.Props.Draw
import Verif.Lemmas.Quiet

/-!
# Context managers and titles: C61, C62
-/

namespace Slate
open Py Core Tty Prog

namespace Modes

/-! What the control sequences do to a terminal that is not inside a sequence. -/

variable (on : Nat → Bool) (ti : Str) (st : List Str)

theorem feed_startAlt : feed ⟨.ground, on, ti, st⟩ startAlt = setModes ⟨.ground, on, ti, st⟩ [1049] true := rfl
theorem feed_endAlt : feed ⟨.ground, on, ti, st⟩ endAlt = setModes ⟨.ground, on, ti, st⟩ [1049] false := rfl
theorem feed_showCursor : feed ⟨.ground, on, ti, st⟩ showCursor = setModes ⟨.ground, on, ti, st⟩ [25] true := rfl
theorem feed_hideCursor : feed ⟨.ground, on, ti, st⟩ hideCursor = setModes ⟨.ground, on, ti, st⟩ [25] false := rfl
theorem feed_mouseOn : feed ⟨.ground, on, ti, st⟩ mouseOn =
    setModes (setModes (setModes ⟨.ground, on, ti, st⟩ [1006] true) [1002] true) [1003] true := rfl
theorem feed_mouseOff : feed ⟨.ground, on, ti, st⟩ mouseOff =
    setModes (setModes (setModes ⟨.ground, on, ti, st⟩ [1006] false) [1002] false) [1003] false := rfl
/-- The sequences of the code for synchronized updates do nothing. -/
theorem feed_beginSync : feed ⟨.ground, on, ti, st⟩ beginSync = ⟨.ground, on, ti, st⟩ := rfl
theorem feed_endSync : feed ⟨.ground, on, ti, st⟩ endSync = ⟨.ground, on, ti, st⟩ := rfl
theorem feed_storeTitle : feed ⟨.ground, on, ti, st⟩ storeTitle = ⟨.ground, on, ti, ti :: st⟩ := rfl
theorem feed_restoreTitle_cons (t : Str) :
    feed ⟨.ground, on, ti, t :: st⟩ restoreTitle = ⟨.ground, on, t, st⟩ := rfl
theorem feed_restoreTitle_nil : feed ⟨.ground, on, ti, []⟩ restoreTitle = ⟨.ground, on, ti, []⟩ := rfl

/-- A title that a terminal takes verbatim. -/
def CleanTitle (t : Str) : Prop := ∀ c ∈ t, c ≠ '\x07' ∧ c ≠ '\x1b'

instance (t : Str) : Decidable (CleanTitle t) := by unfold CleanTitle; infer_instance

theorem feed_osc : ∀ (t buf : Str), CleanTitle t →
    feed ⟨.osc buf, on, ti, st⟩ t = ⟨.osc (buf ++ t), on, ti, st⟩
  | [], buf, _ => by simp [feed]
  | c :: cs, buf, h => by
    have hc := h c (by simp)
    have : step ⟨.osc buf, on, ti, st⟩ c = ⟨.osc (buf ++ [c]), on, ti, st⟩ := by
      simp [step, hc.1, hc.2]
    show feed (step _ c) cs = _
    rw [this, feed_osc cs _ (fun d hd => h d (by simp [hd]))]
    simp

theorem feed_setTitle (t : Str) (h : CleanTitle t) :
    feed ⟨.ground, on, ti, st⟩ (setTitleSeq t) = ⟨.ground, on, t, st⟩ := by
  unfold setTitleSeq
  rw [feed_append, feed_append]
  have : feed ⟨.ground, on, ti, st⟩ "\x1b]0;".toList = ⟨.osc ['0', ';'], on, ti, st⟩ := rfl
  rw [this, feed_osc _ _ _ _ _ h]
  rfl

theorem feed_restoreTitle_on (s : State) (h : s.phase = .ground) :
    (feed s restoreTitle).phase = .ground ∧ (feed s restoreTitle).on = s.on := by
  obtain ⟨ph, on, ti, st⟩ := s
  cases h
  cases st with
  | nil => rw [feed_restoreTitle_nil]; exact ⟨rfl, rfl⟩
  | cons t st => rw [feed_restoreTitle_cons]; exact ⟨rfl, rfl⟩

end Modes

open Modes (CleanTitle Quiet)

/-! ### C61 -/

/-- The terminal after what was written to it, if it was in state `m` at first. -/
def screenOf (m : Modes.State) (w : Console) : Modes.State := Modes.feed m w.out

/-- The flags that blocks change: `none` is the echo of the tty, `some n` is mode `n`. -/
def flag (m : Modes.State) (w : Console) : Option Nat → Bool
  | none => w.echo
  | some n => (screenOf m w).on n

/-- The flags of a terminal that is in its normal state: echo on, cursor visible, everything
else off. -/
def normal : Option Nat → Bool
  | none => true
  | some n => n == 25

/-- The flags a kind of block is about. -/
def flags : Kind → List (Option Nat)
  | .alt true => [some 1049, some 25]
  | .alt false => [some 1049]
  | .mouse => [some 1006, some 1002, some 1003]
  | .batch => [some 2026]
  | .echo => [none]

/-- The flags that the code can reach: all but that of synchronized updates. -/
def reached : Kind → List (Option Nat)
  | .batch => []
  | k => flags k

/-- A block is in force: all its flags have the value opposite to the normal one. -/
def InForce (k : Kind) (echo : Bool) (s : Modes.State) : Prop :=
  match k with
  | .alt hide => s.alt = true ∧ (hide = true → s.cursor = false)
  | .mouse => s.mouse = true
  | .batch => s.sync = true
  | .echo => echo = false

/-- What a user writes inside the blocks switches no modes, and the titles contain no control
characters. -/
def Block.Tame : Block → Prop
  | .write t => Quiet t
  | .title (some t) => CleanTitle t
  | .seq a b => Block.Tame a ∧ Block.Tame b
  | .catch a _ b => Block.Tame a ∧ Block.Tame b
  | .within _ b => Block.Tame b
  | _ => True

/-- Some block with flag `i` occurs in the program. -/
def Block.Touches (i : Option Nat) : Block → Prop
  | .seq a b => Block.Touches i a ∨ Block.Touches i b
  | .catch a _ b => Block.Touches i a ∨ Block.Touches i b
  | .within k b => i ∈ reached k ∨ Block.Touches i b
  | _ => False

variable {m : Modes.State}

theorem flag_write (w : Console) (t : Str) (n : Nat) :
    flag m (writeControl t w) (some n) = (Modes.feed (screenOf m w) t).on n := by
  show (Modes.feed m (w.out ++ t)).on n = _
  rw [Modes.feed_append]; rfl

theorem screenOf_write (w : Console) (t : Str) :
    screenOf m (writeControl t w) = Modes.feed (screenOf m w) t := by
  show Modes.feed m (w.out ++ t) = _
  rw [Modes.feed_append]; rfl

/-- A step that changes no flag. -/
def Still (m : Modes.State) (w w' : Console) : Prop :=
  (screenOf m w').phase = .ground ∧ ∀ i, flag m w' i = flag m w i

theorem Still.refl {w : Console} (h : (screenOf m w).phase = .ground) : Still m w w := ⟨h, fun _ => rfl⟩

theorem Still.trans {a b c : Console} (h₁ : Still m a b) (h₂ : Still m b c) : Still m a c :=
  ⟨h₂.1, fun i => (h₂.2 i).trans (h₁.2 i)⟩

theorem still_of_feed {w : Console} {t : Str} (h₁ : (Modes.feed (screenOf m w) t).phase = .ground)
    (h₂ : (Modes.feed (screenOf m w) t).on = (screenOf m w).on) : Still m w (writeControl t w) := by
  refine ⟨by rw [screenOf_write]; exact h₁, fun i => ?_⟩
  cases i with
  | none => rfl
  | some n => rw [flag_write, h₂]; rfl

theorem still_quiet {w : Console} {t : Str} (hq : Quiet t) (h : (screenOf m w).phase = .ground) :
    Still m w (writeControl t w) := by
  have := hq _ h
  exact still_of_feed (by rw [this]; exact h) (by rw [this])

theorem still_risky {w w' : Console} {o : Option PyErr} {f : Console → Console} (hw : (screenOf m w).phase = .ground)
    (hf : Still m w (f w)) (h : Exec (.risky f) w o w') : Still m w w' := by
  rcases exec_risky h with ⟨rfl, -⟩ | rfl
  · exact .refl hw
  · exact hf

theorem still_custom {w : Console} (c : Option Str) (hw : (screenOf m w).phase = .ground) :
    Still m w { w with custom := c } := by
  refine ⟨hw, fun i => ?_⟩
  cases i <;> rfl

theorem still_log {w : Console} (l) (hw : (screenOf m w).phase = .ground) : Still m w { w with log := l } := by
  refine ⟨hw, fun i => ?_⟩
  cases i <;> rfl

/-- Titles change no flag. -/
theorem still_title (new : Option Str) (hn : ∀ t, new = some t → CleanTitle t) {w w' : Console} {o : Option PyErr}
    (hw : (screenOf m w).phase = .ground) (h : Exec (titleProg new) w o w') : Still m w w' := by
  cases new with
  | none =>
    have h1 : ∀ {o} {u : Console}, Exec (.risky (writeControl restoreTitle)) w o u → Still m w u := fun hx =>
      still_risky hw (still_of_feed (Modes.feed_restoreTitle_on _ hw).1 (Modes.feed_restoreTitle_on _ hw).2) hx
    rcases exec_seq.mp h with ⟨u, h₁, h₂⟩ | ⟨-, h₁⟩
    · exact (h1 h₁).trans (still_risky (h1 h₁).1 (still_custom _ (h1 h₁).1) h₂)
    · exact h1 h₁
  | some t =>
    have h1 : ∀ {o} {u : Console}, Exec (.ite hasTitle .skip (.risky (writeControl storeTitle))) w o u →
        Still m w u := by
      intro o u hx
      rcases exec_ite.mp hx with ⟨-, h₃⟩ | ⟨-, h₃⟩
      · obtain ⟨-, rfl⟩ := exec_skip.mp h₃
        exact .refl hw
      · refine still_risky hw (still_of_feed ?_ ?_) h₃
        · revert hw; rcases screenOf m w with ⟨ph, on, ti, st⟩; rintro rfl; rfl
        · revert hw; rcases screenOf m w with ⟨ph, on, ti, st⟩; rintro rfl; rfl
    have h2 : ∀ {o} {u v : Console}, (screenOf m u).phase = .ground →
        Exec (.risky (writeControl (setTitleSeq t))) u o v → Still m u v := by
      intro o u v hu hx
      refine still_risky hu (still_of_feed ?_ ?_) hx
      · revert hu; rcases screenOf m u with ⟨ph, on, ti, st⟩; rintro rfl
        rw [Modes.feed_setTitle _ _ _ _ (hn t rfl)]
      · revert hu; rcases screenOf m u with ⟨ph, on, ti, st⟩; rintro rfl
        rw [Modes.feed_setTitle _ _ _ _ (hn t rfl)]
    rcases exec_seq.mp h with ⟨u, h₁, h₂⟩ | ⟨-, h₁⟩
    · have s1 := h1 h₁
      rcases exec_seq.mp h₂ with ⟨v, h₃, h₄⟩ | ⟨-, h₃⟩
      · have s2 := h2 s1.1 h₃
        exact s1.trans (s2.trans (still_risky s2.1 (still_custom _ s2.1) h₄))
      · exact s1.trans (h2 s1.1 h₃)
    · exact h1 h₁

/-- A step that changes at most the flags in a list. -/
def Only (m : Modes.State) (is : List (Option Nat)) (w w' : Console) : Prop :=
  (screenOf m w').phase = .ground ∧ ∀ i, i ∉ is → flag m w' i = flag m w i

theorem only_set {w : Console} {t : Str} {ns : List Nat} {v : Bool} {is : List (Option Nat)}
    (hw : (screenOf m w).phase = .ground)
    (ht : Modes.feed (screenOf m w) t = Modes.setModes (screenOf m w) ns v) (hs : ∀ n ∈ ns, some n ∈ is) :
    Only m is w (writeControl t w) := by
  refine ⟨by rw [screenOf_write, ht]; exact hw, fun i hi => ?_⟩
  cases i with
  | none => rfl
  | some n =>
    rw [flag_write, ht]
    have : n ∉ ns := fun hn => hi (hs n hn)
    show (if n ∈ ns then v else (screenOf m w).on n) = (screenOf m w).on n
    rw [if_neg this]

theorem ground_cases {P : Modes.State → Prop} (h : ∀ on ti st, P ⟨.ground, on, ti, st⟩) {s : Modes.State}
    (hs : s.phase = .ground) : P s := by
  rcases s with ⟨ph, on, ti, st⟩
  cases hs
  exact h on ti st

theorem only_mouse {w : Console} (v : Bool) (hw : (screenOf m w).phase = .ground) :
    Only m [some 1006, some 1002, some 1003] w (writeControl (if v then mouseOn else mouseOff) w) := by
  have ht : Modes.feed (screenOf m w) (if v then mouseOn else mouseOff) =
      Modes.setModes (Modes.setModes (Modes.setModes (screenOf m w) [1006] v) [1002] v) [1003] v := by
    revert hw
    intro hw
    exact ground_cases (P := fun s => Modes.feed s (if v then mouseOn else mouseOff) =
      Modes.setModes (Modes.setModes (Modes.setModes s [1006] v) [1002] v) [1003] v)
      (fun on ti st => by cases v <;> rfl) hw
  refine ⟨by rw [screenOf_write, ht]; exact hw, fun i hi => ?_⟩
  cases i with
  | none => rfl
  | some n =>
    rw [flag_write, ht]
    have h1 : n ≠ 1006 := by rintro rfl; simp at hi
    have h2 : n ≠ 1002 := by rintro rfl; simp at hi
    have h3 : n ≠ 1003 := by rintro rfl; simp at hi
    simp [Modes.setModes, h1, h2, h3, flag]

theorem flag_mouse {w : Console} (v : Bool) (hw : (screenOf m w).phase = .ground) (i : Option Nat)
    (hi : i ∈ [some 1006, some 1002, some 1003]) :
    flag m (writeControl (if v then mouseOn else mouseOff) w) i = v := by
  have ht : Modes.feed (screenOf m w) (if v then mouseOn else mouseOff) =
      Modes.setModes (Modes.setModes (Modes.setModes (screenOf m w) [1006] v) [1002] v) [1003] v :=
    ground_cases (P := fun s => Modes.feed s (if v then mouseOn else mouseOff) =
      Modes.setModes (Modes.setModes (Modes.setModes s [1006] v) [1002] v) [1003] v)
      (fun on ti st => by cases v <;> rfl) hw
  simp only [List.mem_cons, List.not_mem_nil, or_false] at hi
  rcases hi with rfl | rfl | rfl <;> rw [flag_write, ht] <;> simp [Modes.setModes]

theorem Only.mono {is js : List (Option Nat)} {w w' : Console} (h : Only m is w w') (hs : ∀ i ∈ is, i ∈ js) :
    Only m js w w' := ⟨h.1, fun i hi => h.2 i fun hm => hi (hs i hm)⟩

theorem Only.trans {is : List (Option Nat)} {a b c : Console} (h₁ : Only m is a b) (h₂ : Only m is b c) :
    Only m is a c := ⟨h₂.1, fun i hi => (h₂.2 i hi).trans (h₁.2 i hi)⟩

theorem Still.only {is : List (Option Nat)} {w w' : Console} (h : Still m w w') : Only m is w w' :=
  ⟨h.1, fun i _ => h.2 i⟩

theorem only_risky {is : List (Option Nat)} {w w' : Console} {o : Option PyErr} {f : Console → Console}
    (hw : (screenOf m w).phase = .ground) (hf : Only m is w (f w)) (h : Exec (.risky f) w o w') : Only m is w w' := by
  rcases exec_risky h with ⟨rfl, -⟩ | rfl
  · exact (Still.refl hw).only
  · exact hf

theorem only_startAlt {w : Console} (hw : (screenOf m w).phase = .ground) :
    Only m [some 1049] w (writeControl startAlt w) :=
  only_set (ns := [1049]) (v := true) hw
    (ground_cases (P := fun s => Modes.feed s startAlt = Modes.setModes s [1049] true) Modes.feed_startAlt hw) (by simp)

theorem only_endAlt {w : Console} (hw : (screenOf m w).phase = .ground) :
    Only m [some 1049] w (writeControl endAlt w) :=
  only_set (ns := [1049]) (v := false) hw
    (ground_cases (P := fun s => Modes.feed s endAlt = Modes.setModes s [1049] false) Modes.feed_endAlt hw) (by simp)

theorem only_hide {w : Console} (hw : (screenOf m w).phase = .ground) :
    Only m [some 25] w (writeControl hideCursor w) :=
  only_set (ns := [25]) (v := false) hw
    (ground_cases (P := fun s => Modes.feed s hideCursor = Modes.setModes s [25] false) Modes.feed_hideCursor hw) (by simp)

theorem only_show {w : Console} (hw : (screenOf m w).phase = .ground) :
    Only m [some 25] w (writeControl showCursor w) :=
  only_set (ns := [25]) (v := true) hw
    (ground_cases (P := fun s => Modes.feed s showCursor = Modes.setModes s [25] true) Modes.feed_showCursor hw) (by simp)

theorem flag_startAlt {w : Console} (hw : (screenOf m w).phase = .ground) :
    flag m (writeControl startAlt w) (some 1049) = true := by
  rw [flag_write]
  exact ground_cases (P := fun s => (Modes.feed s startAlt).on 1049 = true) (fun _ _ _ => rfl) hw

theorem flag_endAlt {w : Console} (hw : (screenOf m w).phase = .ground) :
    flag m (writeControl endAlt w) (some 1049) = false := by
  rw [flag_write]
  exact ground_cases (P := fun s => (Modes.feed s endAlt).on 1049 = false) (fun _ _ _ => rfl) hw

theorem flag_hide {w : Console} (hw : (screenOf m w).phase = .ground) :
    flag m (writeControl hideCursor w) (some 25) = false := by
  rw [flag_write]
  exact ground_cases (P := fun s => (Modes.feed s hideCursor).on 25 = false) (fun _ _ _ => rfl) hw

theorem flag_show {w : Console} (hw : (screenOf m w).phase = .ground) :
    flag m (writeControl showCursor w) (some 25) = true := by
  rw [flag_write]
  exact ground_cases (P := fun s => (Modes.feed s showCursor).on 25 = true) (fun _ _ _ => rfl) hw

theorem still_sync {w : Console} (v : Bool) (hw : (screenOf m w).phase = .ground) :
    Still m w (writeControl (if v then beginSync else endSync) w) :=
  still_quiet (fun s hs => ground_cases (P := fun s => Modes.feed s (if v then beginSync else endSync) = s)
    (fun _ _ _ => by cases v <;> rfl) hs) hw

theorem only_echo {w : Console} (v : Bool) (hw : (screenOf m w).phase = .ground) : Only m [none] w (setEcho v w) := by
  refine ⟨hw, fun i hi => ?_⟩
  cases i with
  | none => simp at hi
  | some n => rfl

/-- Entering a block changes at most its flags, and inverts them if nothing goes wrong. -/
theorem enter_only (k : Kind) {w w' : Console} {o : Option PyErr} (hw : (screenOf m w).phase = .ground)
    (h : Exec (enter k) w o w') :
    Only m (reached k) w w' ∧ (o = none → ∀ i ∈ reached k, flag m w' i = !normal i) := by
  cases k with
  | alt hide =>
    have h0 : ∀ {o} {u : Console}, Exec (.risky (writeControl startAlt)) w o u → Only m [some 1049] w u :=
      fun hx => only_risky hw (only_startAlt hw) hx
    have hv : ∀ {u : Console}, Exec (.risky (writeControl startAlt)) w none u → flag m u (some 1049) = true := by
      intro u hx
      rcases exec_risky hx with ⟨-, hn⟩ | rfl
      · exact absurd rfl hn
      · exact flag_startAlt hw
    cases hide with
    | false =>
      rcases exec_seq.mp h with ⟨u, h₁, h₂⟩ | ⟨ho, h₁⟩
      · obtain ⟨-, rfl⟩ := exec_skip.mp h₂
        refine ⟨h0 h₁, fun _ i hi => ?_⟩
        have : i = some 1049 := by simpa [reached, flags] using hi
        subst this
        exact hv h₁
      · exact ⟨h0 h₁, fun h => absurd h ho⟩
    | true =>
      have hsub : ∀ i ∈ [some 1049], i ∈ reached (.alt true) := by simp [reached, flags]
      have hsub' : ∀ i ∈ [some 25], i ∈ reached (.alt true) := by simp [reached, flags]
      rcases exec_seq.mp h with ⟨u, h₁, h₂⟩ | ⟨ho, h₁⟩
      · have s1 := h0 h₁
        have s2 : Only m [some 25] u w' := only_risky s1.1 (only_hide s1.1) h₂
        refine ⟨(s1.mono hsub).trans (s2.mono hsub'), fun ho i hi => ?_⟩
        subst ho
        have : i = some 1049 ∨ i = some 25 := by simpa [reached, flags] using hi
        rcases this with rfl | rfl
        · rw [s2.2 _ (by simp), hv h₁]; rfl
        · rcases exec_risky h₂ with ⟨-, hn⟩ | rfl
          · exact absurd rfl hn
          · exact flag_hide s1.1
      · exact ⟨(h0 h₁).mono hsub, fun h => absurd h ho⟩
  | mouse =>
    refine ⟨only_risky hw (only_mouse true hw) h, fun ho i hi => ?_⟩
    subst ho
    rcases exec_risky h with ⟨-, hn⟩ | rfl
    · exact absurd rfl hn
    · rw [show mouseOn = if true then mouseOn else mouseOff from rfl, flag_mouse true hw i hi]
      simp only [reached, flags, List.mem_cons, List.not_mem_nil, or_false] at hi
      rcases hi with rfl | rfl | rfl <;> rfl
  | batch =>
    refine ⟨(still_risky hw (still_sync true hw) h).only, fun _ i hi => ?_⟩
    simp [reached] at hi
  | echo =>
    refine ⟨only_risky hw (only_echo false hw) h, fun ho i hi => ?_⟩
    subst ho
    have : i = none := by simpa [reached, flags] using hi
    subst this
    rcases exec_risky h with ⟨-, hn⟩ | rfl
    · exact absurd rfl hn
    · rfl

/-- Leaving a block changes at most its flags, and sets them to their normal values. -/
theorem leave_only (k : Kind) {w w' : Console} {o : Option PyErr} (hw : (screenOf m w).phase = .ground)
    (h : Exec (leave k) w o w') :
    o = none ∧ Only m (reached k) w w' ∧ ∀ i ∈ reached k, flag m w' i = normal i := by
  cases k with
  | alt hide =>
    rcases exec_seq.mp h with ⟨u, h₁, h₂⟩ | ⟨ho, h₁⟩
    swap
    · exact absurd (exec_sure.mp h₁).1 ho
    obtain ⟨-, rfl⟩ := exec_sure.mp h₁
    rcases exec_seq.mp h₂ with ⟨v, h₃, h₄⟩ | ⟨ho, h₃⟩
    swap
    · exact absurd (exec_sure.mp h₃).1 ho
    obtain ⟨-, rfl⟩ := exec_sure.mp h₃
    have s1 := only_endAlt (m := m) hw
    have r := Modes.feed_restoreTitle_on _ s1.1
    have s2 : Still m _ (writeControl restoreTitle (writeControl endAlt w)) := still_of_feed r.1 r.2
    have f1 := flag_endAlt (m := m) hw
    cases hide with
    | false =>
      obtain ⟨rfl, rfl⟩ := exec_skip.mp h₄
      refine ⟨rfl, s1.trans s2.only, fun i hi => ?_⟩
      have : i = some 1049 := by simpa [reached, flags] using hi
      subst this
      rw [s2.2, f1]; rfl
    | true =>
      obtain ⟨rfl, rfl⟩ := exec_sure.mp h₄
      have s3 := only_show (m := m) s2.1
      refine ⟨rfl, ?_, fun i hi => ?_⟩
      · exact (s1.mono (by simp [reached, flags])).trans (s2.only.trans (s3.mono (by simp [reached, flags])))
      · have : i = some 1049 ∨ i = some 25 := by simpa [reached, flags] using hi
        rcases this with rfl | rfl
        · rw [s3.2 _ (by simp), s2.2, f1]; rfl
        · exact flag_show s2.1
  | mouse =>
    obtain ⟨rfl, rfl⟩ := exec_sure.mp h
    refine ⟨rfl, only_mouse false hw, fun i hi => ?_⟩
    rw [show mouseOff = if false then mouseOn else mouseOff from rfl, flag_mouse false hw i hi]
    simp only [reached, flags, List.mem_cons, List.not_mem_nil, or_false] at hi
    rcases hi with rfl | rfl | rfl <;> rfl
  | batch =>
    obtain ⟨rfl, rfl⟩ := exec_sure.mp h
    exact ⟨rfl, (still_sync false hw).only, fun i hi => by simp [reached] at hi⟩
  | echo =>
    obtain ⟨rfl, rfl⟩ := exec_sure.mp h
    refine ⟨rfl, only_echo true hw, fun i hi => ?_⟩
    have : i = none := by simpa [reached, flags] using hi
    subst this
    rfl

/-- A flag is left alone by a program, or set to its normal value by one of its blocks. -/
def BlockTidy (m : Modes.State) (b : Block) (w w' : Console) : Prop :=
  (screenOf m w').phase = .ground ∧
  ∀ i, flag m w' i = flag m w i ∨ (Block.Touches i b ∧ flag m w' i = normal i)

theorem Still.tidy {b : Block} {w w' : Console} (h : Still m w w') : BlockTidy m b w w' :=
  ⟨h.1, fun i => .inl (h.2 i)⟩

theorem prog_tidy : ∀ (b : Block) (ctx : List Kind) (w w' : Console) (o : Option PyErr), Block.Tame b →
    (screenOf m w).phase = .ground → Exec (prog ctx b) w o w' → BlockTidy m b w w'
  | .skip, _, w, w', _, _, hw, h => by
    obtain ⟨-, rfl⟩ := exec_skip.mp h
    exact (Still.refl hw).tidy
  | .write t, _, w, w', _, ht, hw, h => (still_risky hw (still_quiet ht hw) h).tidy
  | .raise e, _, w, w', _, _, hw, h => by
    cases h
    exact (Still.refl hw).tidy
  | .title new, _, w, w', _, ht, hw, h => (still_title new (by rintro t rfl; exact ht) hw h).tidy
  | .look, _, w, w', _, _, hw, h => (still_risky hw (still_log _ hw) h).tidy
  | .seq a b, ctx, w, w', o, ht, hw, h => by
    rcases exec_seq.mp h with ⟨u, h₁, h₂⟩ | ⟨-, h₁⟩
    · obtain ⟨g₁, t₁⟩ := prog_tidy a ctx w u _ ht.1 hw h₁
      obtain ⟨g₂, t₂⟩ := prog_tidy b ctx u w' _ ht.2 g₁ h₂
      refine ⟨g₂, fun i => ?_⟩
      rcases t₂ i with h | ⟨h, h'⟩
      · rcases t₁ i with k | ⟨k, k'⟩
        · exact .inl (h.trans k)
        · exact .inr ⟨.inl k, h.trans k'⟩
      · exact .inr ⟨.inr h, h'⟩
    · obtain ⟨g₁, t₁⟩ := prog_tidy a ctx w w' _ ht.1 hw h₁
      refine ⟨g₁, fun i => ?_⟩
      rcases t₁ i with k | ⟨k, k'⟩
      · exact .inl k
      · exact .inr ⟨.inl k, k'⟩
  | .catch a e b, ctx, w, w', o, ht, hw, h => by
    rcases exec_except.mp h with ⟨-, h₁⟩ | ⟨u, h₁, h₂⟩
    · obtain ⟨g₁, t₁⟩ := prog_tidy a ctx w w' _ ht.1 hw h₁
      refine ⟨g₁, fun i => ?_⟩
      rcases t₁ i with k | ⟨k, k'⟩
      · exact .inl k
      · exact .inr ⟨.inl k, k'⟩
    · obtain ⟨g₁, t₁⟩ := prog_tidy a ctx w u _ ht.1 hw h₁
      obtain ⟨g₂, t₂⟩ := prog_tidy b ctx u w' _ ht.2 g₁ h₂
      refine ⟨g₂, fun i => ?_⟩
      rcases t₂ i with h | ⟨h, h'⟩
      · rcases t₁ i with k | ⟨k, k'⟩
        · exact .inl (h.trans k)
        · exact .inr ⟨.inl k, h.trans k'⟩
      · exact .inr ⟨.inr h, h'⟩
  | .within k b, ctx, w, w', o, ht, hw, h => by
    obtain ⟨v, o', h₁, h₂⟩ := exec_finally.mp h
    -- what happened before the `finally`
    have hv : (screenOf m v).phase = .ground ∧ ∀ i, i ∉ reached k →
        (flag m v i = flag m w i ∨ (Block.Touches i b ∧ flag m v i = normal i)) := by
      rcases exec_seq.mp h₁ with ⟨u, h₃, h₄⟩ | ⟨-, h₃⟩
      · obtain ⟨⟨gu, su⟩, -⟩ := enter_only k hw h₃
        obtain ⟨gv, tv⟩ := prog_tidy b (k :: ctx) u v _ ht gu h₄
        refine ⟨gv, fun i hi => ?_⟩
        rcases tv i with h | h
        · exact .inl (h.trans (su i hi))
        · exact .inr h
      · obtain ⟨⟨gu, su⟩, -⟩ := enter_only k hw h₃
        exact ⟨gu, fun i hi => .inl (su i hi)⟩
    have hl : ∃ o'', Exec (leave k) v o'' w' := by
      rcases h₂ with ⟨-, h₂⟩ | ⟨e, -, h₂⟩
      · exact ⟨_, h₂⟩
      · exact ⟨_, h₂⟩
    obtain ⟨o'', h₅⟩ := hl
    obtain ⟨-, ⟨gw, sw⟩, fw⟩ := leave_only k hv.1 h₅
    refine ⟨gw, fun i => ?_⟩
    by_cases hi : i ∈ reached k
    · exact .inr ⟨.inl hi, fw i hi⟩
    · rw [sw i hi]
      rcases hv.2 i hi with h | ⟨h, h'⟩
      · exact .inl h
      · exact .inr ⟨.inr h, h'⟩

/-- A terminal in its normal state: normal buffer, cursor visible, no mouse reporting, no pending
synchronized update, echo on. -/
def Normal (m : Modes.State) (w : Console) : Prop :=
  (screenOf m w).alt = false ∧ (screenOf m w).cursor = true ∧ (screenOf m w).mouseOff = true ∧
  (screenOf m w).sync = false ∧ w.echo = true

/-- C61, first part: any program of nested blocks (of any kinds, also of the same kind), writes,
titles and `try`/`except`, ending in any way – normally or by an exception raised before, during or
after any step outside the `finally` clauses – leaves a terminal that was in its normal state in its
normal state. -/
theorem C61_modes_undone (m : Modes.State) (b : Block) (ctx : List Kind) (w w' : Console) (o : Option PyErr)
    (hb : Block.Tame b) (hg : (screenOf m w).phase = .ground) (hn : Normal m w) (h : Exec (prog ctx b) w o w') :
    Normal m w' := by
  obtain ⟨-, ht⟩ := prog_tidy b ctx w w' o hb hg h
  obtain ⟨h1, h2, h3, h4, h5⟩ := hn
  have key : ∀ i, flag m w i = normal i → flag m w' i = normal i := by
    intro i hi
    rcases ht i with h | ⟨-, h⟩
    · exact h.trans hi
    · exact h
  simp only [Modes.State.mouseOff, Bool.and_eq_true, Bool.not_eq_true'] at h3
  refine ⟨key (some 1049) h1, key (some 25) h2, ?_, key (some 2026) h4, key none h5⟩
  simp only [Modes.State.mouseOff, Bool.and_eq_true, Bool.not_eq_true']
  exact ⟨⟨key (some 1006) h3.1.1, key (some 1002) h3.1.2⟩, key (some 1003) h3.2⟩

/-- C61, first part, for any state of the terminal before: after a block, its own modes have their
normal values, however the block ends; modes that no block in the program is about are as
before. -/
theorem C61_block_undone (m : Modes.State) (k : Kind) (b : Block) (ctx : List Kind) (w w' : Console)
    (o : Option PyErr) (hb : Block.Tame b) (hg : (screenOf m w).phase = .ground)
    (h : Exec (prog ctx (.within k b)) w o w') :
    (match k with
      | .alt hide => (screenOf m w').alt = false ∧ (hide = true → (screenOf m w').cursor = true)
      | .mouse => (screenOf m w').mouseOff = true
      | .batch => (screenOf m w').sync = (screenOf m w).sync
      | .echo => w'.echo = true) := by
  obtain ⟨v, o', h₁, h₂⟩ := exec_finally.mp h
  have hv : (screenOf m v).phase = .ground ∧
      (k = .batch → (screenOf m v).sync = (screenOf m w).sync) := by
    rcases exec_seq.mp h₁ with ⟨u, h₃, h₄⟩ | ⟨-, h₃⟩
    · obtain ⟨⟨gu, su⟩, -⟩ := enter_only k hg h₃
      obtain ⟨gv, tv⟩ := prog_tidy b (k :: ctx) u v _ hb gu h₄
      refine ⟨gv, ?_⟩
      rintro rfl
      have : ∀ b : Block, ¬ Block.Touches (some 2026) b := by
        intro b
        induction b with
        | seq a b iha ihb => exact fun h => h.elim iha ihb
        | «catch» a e b iha ihb => exact fun h => h.elim iha ihb
        | within k b ih =>
          refine fun h => h.elim ?_ ih
          rcases k with (_ | _) | _ | _ | _ <;> simp [reached, flags]
        | _ => exact id
      rcases tv (some 2026) with h | h
      · exact h.trans (su _ (by simp [reached]))
      · exact absurd h.1 (this b)
    · obtain ⟨⟨gu, su⟩, -⟩ := enter_only k hg h₃
      refine ⟨gu, ?_⟩
      rintro rfl
      exact su (some 2026) (by simp [reached])
  have hl : ∃ o'', Exec (leave k) v o'' w' := by
    rcases h₂ with ⟨-, h₂⟩ | ⟨e, -, h₂⟩
    · exact ⟨_, h₂⟩
    · exact ⟨_, h₂⟩
  obtain ⟨o'', h₅⟩ := hl
  obtain ⟨-, ⟨gw, sw⟩, fw⟩ := leave_only k hv.1 h₅
  cases k with
  | alt hide =>
    refine ⟨?_, ?_⟩
    · exact fw (some 1049) (by cases hide <;> simp [reached, flags])
    · rintro rfl
      exact fw (some 25) (by simp [reached, flags])
  | mouse =>
    simp only [Modes.State.mouseOff, Bool.and_eq_true, Bool.not_eq_true']
    exact ⟨⟨fw (some 1006) (by simp [reached, flags]), fw (some 1002) (by simp [reached, flags])⟩,
      fw (some 1003) (by simp [reached, flags])⟩
  | batch => exact (sw (some 2026) (by simp [reached])).trans (hv.2 rfl)
  | echo => exact fw none (by simp [reached, flags])

/-! In force inside the blocks. -/

/-- The same kind, whatever the parameters. -/
def Kind.same : Kind → Kind → Bool
  | .alt _, .alt _ => true
  | .mouse, .mouse => true
  | .batch, .batch => true
  | .echo, .echo => true
  | _, _ => false

/-- No block of the kind occurs in the program. -/
def Block.Free (k : Kind) : Block → Prop
  | .seq a b => Block.Free k a ∧ Block.Free k b
  | .catch a _ b => Block.Free k a ∧ Block.Free k b
  | .within k' b => Kind.same k k' = false ∧ Block.Free k b
  | _ => True

/-- No block is nested in another of its kind. -/
def Block.Flat : Block → Prop
  | .seq a b => Block.Flat a ∧ Block.Flat b
  | .catch a _ b => Block.Flat a ∧ Block.Flat b
  | .within k b => Block.Free k b ∧ Block.Flat b
  | _ => True

theorem same_false_reached (k k' : Kind) (h : Kind.same k k' = false) (i : Option Nat) (hi : i ∈ reached k) :
    i ∉ reached k' := by
  revert h hi
  rcases k with (_ | _) | _ | _ | _ <;> rcases k' with (_ | _) | _ | _ | _ <;>
    simp [Kind.same, reached, flags] <;> aesop

theorem free_touches (k : Kind) (i : Option Nat) (hi : i ∈ reached k) : ∀ b : Block, Block.Free k b →
    ¬ Block.Touches i b
  | .skip, _ => id
  | .write _, _ => id
  | .raise _, _ => id
  | .title _, _ => id
  | .look, _ => id
  | .seq a b, h => fun ht => ht.elim (free_touches k i hi a h.1) (free_touches k i hi b h.2)
  | .catch a _ b, h => fun ht => ht.elim (free_touches k i hi a h.1) (free_touches k i hi b h.2)
  | .within k' b, h => fun ht => ht.elim (same_false_reached k k' h.1 i hi) (free_touches k i hi b h.2)

/-- All reachable flags of the kind are inverted. -/
def On (m : Modes.State) (w : Console) (k : Kind) : Prop := ∀ i ∈ reached k, flag m w i = !normal i

theorem On.inForce {w : Console} {k : Kind} (hk : k ≠ .batch) (h : On m w k) : InForce k w.echo (screenOf m w) := by
  cases k with
  | alt hide =>
    refine ⟨h (some 1049) (by cases hide <;> simp [reached, flags]), ?_⟩
    rintro rfl
    exact h (some 25) (by simp [reached, flags])
  | mouse =>
    show (_ && _ && _) = true
    simp only [Bool.and_eq_true]
    exact ⟨⟨h (some 1006) (by simp [reached, flags]), h (some 1002) (by simp [reached, flags])⟩,
      h (some 1003) (by simp [reached, flags])⟩
  | batch => exact absurd rfl hk
  | echo => exact h none (by simp [reached, flags])

/-- What was seen: at every observation, every enclosing block (but `batch`) was in force. -/
def Seen (m : Modes.State) (e : List Kind × Str × Bool) : Prop :=
  ∀ k ∈ e.1, k ≠ .batch → InForce k e.2.2 (Modes.feed m e.2.1)

theorem log_risky {w w' : Console} {o : Option PyErr} {f : Console → Console} (h : Exec (.risky f) w o w')
    (hf : ∀ w, (f w).log = w.log) : w'.log = w.log := by
  rcases exec_risky h with ⟨rfl, -⟩ | rfl
  · rfl
  · exact hf w

theorem log_title (new : Option Str) {w w' : Console} {o : Option PyErr} (h : Exec (titleProg new) w o w') :
    w'.log = w.log := by
  cases new with
  | none =>
    rcases exec_seq.mp h with ⟨u, h₁, h₂⟩ | ⟨-, h₁⟩
    · exact (log_risky h₂ (fun _ => rfl)).trans (log_risky h₁ (fun _ => rfl))
    · exact log_risky h₁ (fun _ => rfl)
  | some t =>
    have h1 : ∀ {o} {u : Console}, Exec (.ite hasTitle .skip (.risky (writeControl storeTitle))) w o u →
        u.log = w.log := by
      intro o u hx
      rcases exec_ite.mp hx with ⟨-, h₃⟩ | ⟨-, h₃⟩
      · obtain ⟨-, rfl⟩ := exec_skip.mp h₃
        rfl
      · exact log_risky h₃ (fun _ => rfl)
    rcases exec_seq.mp h with ⟨u, h₁, h₂⟩ | ⟨-, h₁⟩
    · rcases exec_seq.mp h₂ with ⟨v, h₃, h₄⟩ | ⟨-, h₃⟩
      · exact (log_risky h₄ (fun _ => rfl)).trans ((log_risky h₃ (fun _ => rfl)).trans (h1 h₁))
      · exact (log_risky h₃ (fun _ => rfl)).trans (h1 h₁)
    · exact h1 h₁

theorem log_enter (k : Kind) {w w' : Console} {o : Option PyErr} (h : Exec (enter k) w o w') : w'.log = w.log := by
  cases k with
  | alt hide =>
    rcases exec_seq.mp h with ⟨u, h₁, h₂⟩ | ⟨-, h₁⟩
    · have h1 := log_risky h₁ (fun _ => rfl)
      cases hide with
      | false => obtain ⟨-, rfl⟩ := exec_skip.mp h₂; exact h1
      | true => exact (log_risky h₂ (fun _ => rfl)).trans h1
    · exact log_risky h₁ (fun _ => rfl)
  | mouse => exact log_risky h (fun _ => rfl)
  | batch => exact log_risky h (fun _ => rfl)
  | echo => exact log_risky h (fun _ => rfl)

theorem log_leave (k : Kind) {w w' : Console} {o : Option PyErr} (h : Exec (leave k) w o w') : w'.log = w.log := by
  cases k with
  | alt hide =>
    rcases exec_seq.mp h with ⟨u, h₁, h₂⟩ | ⟨ho, h₁⟩
    swap
    · exact absurd (exec_sure.mp h₁).1 ho
    obtain ⟨-, rfl⟩ := exec_sure.mp h₁
    rcases exec_seq.mp h₂ with ⟨v, h₃, h₄⟩ | ⟨ho, h₃⟩
    swap
    · exact absurd (exec_sure.mp h₃).1 ho
    obtain ⟨-, rfl⟩ := exec_sure.mp h₃
    cases hide with
    | false => obtain ⟨-, rfl⟩ := exec_skip.mp h₄; rfl
    | true => obtain ⟨-, rfl⟩ := exec_sure.mp h₄; rfl
  | mouse => obtain ⟨-, rfl⟩ := exec_sure.mp h; rfl
  | batch => obtain ⟨-, rfl⟩ := exec_sure.mp h; rfl
  | echo => obtain ⟨-, rfl⟩ := exec_sure.mp h; rfl

/-- Programs keep the flags of kinds they are free of. -/
theorem On.keep {b : Block} {w w' : Console} {k : Kind} (ht : BlockTidy m b w w') (hf : Block.Free k b) (h : On m w k) :
    On m w' k := by
  intro i hi
  rcases ht.2 i with e | ⟨e, -⟩
  · rw [e]; exact h i hi
  · exact absurd e (free_touches k i hi b hf)

theorem prog_seen : ∀ (b : Block) (ctx : List Kind) (w w' : Console) (o : Option PyErr), Block.Tame b →
    (screenOf m w).phase = .ground → Block.Flat b → (∀ k ∈ ctx, Block.Free k b) → (∀ k ∈ ctx, On m w k) →
    Exec (prog ctx b) w o w' → ∀ e ∈ w'.log, e ∈ w.log ∨ Seen m e
  | .skip, _, w, w', _, _, _, _, _, _, h => by
    obtain ⟨-, rfl⟩ := exec_skip.mp h
    exact fun e he => .inl he
  | .write t, _, w, w', _, _, _, _, _, _, h => by
    have hl : w'.log = w.log := log_risky h (fun _ => rfl)
    rw [hl]
    exact fun e he => .inl he
  | .raise e, _, w, w', _, _, _, _, _, _, h => by
    cases h
    exact fun e he => .inl he
  | .title new, _, w, w', _, _, _, _, _, _, h => by
    rw [log_title new h]
    exact fun e he => .inl he
  | .look, ctx, w, w', _, _, hw, _, _, ho, h => by
    intro e he
    rcases exec_risky h with ⟨rfl, -⟩ | rfl
    · exact .inl he
    · rcases List.mem_append.mp he with he | he
      · exact .inl he
      · refine .inr ?_
        rw [List.mem_singleton.mp he]
        intro k hk hb
        exact (ho k hk).inForce hb
  | .seq a b, ctx, w, w', o, ht, hw, hf, hc, ho, h => by
    intro e he
    rcases exec_seq.mp h with ⟨u, h₁, h₂⟩ | ⟨-, h₁⟩
    · have ta := prog_tidy a ctx w u _ ht.1 hw h₁
      rcases prog_seen b ctx u w' _ ht.2 ta.1 hf.2 (fun k hk => (hc k hk).2)
          (fun k hk => (ho k hk).keep ta (hc k hk).1) h₂ e he with h | h
      · exact prog_seen a ctx w u _ ht.1 hw hf.1 (fun k hk => (hc k hk).1) ho h₁ e h
      · exact .inr h
    · exact prog_seen a ctx w w' _ ht.1 hw hf.1 (fun k hk => (hc k hk).1) ho h₁ e he
  | .catch a x b, ctx, w, w', o, ht, hw, hf, hc, ho, h => by
    intro e he
    rcases exec_except.mp h with ⟨-, h₁⟩ | ⟨u, h₁, h₂⟩
    · exact prog_seen a ctx w w' _ ht.1 hw hf.1 (fun k hk => (hc k hk).1) ho h₁ e he
    · have ta := prog_tidy a ctx w u _ ht.1 hw h₁
      rcases prog_seen b ctx u w' _ ht.2 ta.1 hf.2 (fun k hk => (hc k hk).2)
          (fun k hk => (ho k hk).keep ta (hc k hk).1) h₂ e he with h | h
      · exact prog_seen a ctx w u _ ht.1 hw hf.1 (fun k hk => (hc k hk).1) ho h₁ e h
      · exact .inr h
  | .within k b, ctx, w, w', o, ht, hw, hf, hc, ho, h => by
    intro e he
    obtain ⟨v, o', h₁, h₂⟩ := exec_finally.mp h
    have hlog : w'.log = v.log := by
      rcases h₂ with ⟨-, h₂⟩ | ⟨_, -, h₂⟩
      · exact log_leave k h₂
      · exact log_leave k h₂
    rw [hlog] at he
    rcases exec_seq.mp h₁ with ⟨u, h₃, h₄⟩ | ⟨-, h₃⟩
    · obtain ⟨hu, hon⟩ := enter_only k hw h₃
      have hon' : ∀ k' ∈ k :: ctx, On m u k' := by
        intro k' hk'
        rcases List.mem_cons.mp hk' with rfl | hk'
        · exact hon rfl
        · intro i hi
          rw [hu.2 i (same_false_reached k' k (hc k' hk').1 i hi)]
          exact ho k' hk' i hi
      have hfree : ∀ k' ∈ k :: ctx, Block.Free k' b := by
        intro k' hk'
        rcases List.mem_cons.mp hk' with rfl | hk'
        · exact hf.1
        · exact (hc k' hk').2
      rcases prog_seen b (k :: ctx) u v _ ht hu.1 hf.2 hfree hon' h₄ e he with h | h
      · rw [log_enter k h₃] at h
        exact .inl h
      · exact .inr h
    · rw [log_enter k h₃] at he
      exact .inl he

/-- C61, second part, in part: in every program in which no block is nested in another of its kind,
at every point inside the blocks – whatever was written, raised and caught before – the modes of
all enclosing blocks are in force. What is missing: `batch`, whose mode is never in force
(`C61_batch_violated`). -/
theorem C61_in_force_partial (m : Modes.State) (b : Block) (w w' : Console) (o : Option PyErr) (hb : Block.Tame b)
    (hg : (screenOf m w).phase = .ground) (hf : Block.Flat b) (hl : w.log = []) (h : Exec (prog [] b) w o w') :
    ∀ e ∈ w'.log, ∀ k ∈ e.1, k ≠ .batch → InForce k e.2.2 (Modes.feed m e.2.1) := by
  intro e he
  rcases prog_seen b [] w w' o hb hg hf (by simp) (by simp) h e he with h | h
  · rw [hl] at h; simp at h
  · exact h

/-- The execution of a program in which nothing fails. -/
def runProg {σ : Type} : Prog σ → σ → Option PyErr × σ
  | .skip, s => (none, s)
  | .act f _ _, s => (none, f s)
  | .raise e, s => (some e, s)
  | .seq p q, s =>
    match runProg p s with
    | (none, t) => runProg q t
    | r => r
  | .ite c p q, s => if c s then runProg p s else runProg q s
  | .tryFinally p q, s =>
    let r := runProg p s
    match runProg q r.2 with
    | (none, u) => (r.1, u)
    | r' => r'
  | .tryExcept p e h, s =>
    match runProg p s with
    | (some e', t) => if e' = e then runProg h t else (some e', t)
    | r => r

theorem exec_run {σ : Type} : ∀ (p : Prog σ) (s : σ), Exec p s (runProg p s).1 (runProg p s).2
  | .skip, s => .skip s
  | .act f b a, s => .act f b a s
  | .raise e, s => .raise e s
  | .seq p q, s => by
    have hp := exec_run p s
    unfold runProg
    rcases hr : runProg p s with ⟨_ | e, t⟩
    · rw [hr] at hp
      exact .seq _ _ _ t _ _ hp (exec_run q t)
    · rw [hr] at hp
      exact .seqErr _ _ _ _ _ hp
  | .ite c p q, s => by
    unfold runProg
    cases hc : c s with
    | true => exact .iteTrue _ _ _ _ _ _ hc (by simpa using exec_run p s)
    | false => exact .iteFalse _ _ _ _ _ _ hc (by simpa using exec_run q s)
  | .tryFinally p q, s => by
    have hp := exec_run p s
    have hq := exec_run q (runProg p s).2
    unfold runProg
    dsimp only
    rcases hr : runProg q (runProg p s).2 with ⟨_ | e, t⟩
    · rw [hr] at hq
      exact .fin _ _ _ _ _ _ hp hq
    · rw [hr] at hq
      exact .finErr _ _ _ _ _ _ _ hp hq
  | .tryExcept p e h, s => by
    have hp := exec_run p s
    unfold runProg
    rcases hr : runProg p s with ⟨_ | e', t⟩
    · rw [hr] at hp
      exact .tryOk _ _ _ _ _ hp
    · rw [hr] at hp
      dsimp only
      split
      · rename_i he
        subst he
        exact .tryCaught _ _ _ _ t _ _ hp (exec_run h t)
      · rename_i he
        exact .tryOther _ _ _ _ _ _ hp he

/-- A program with three kinds of blocks, a write, an exception that is caught and one that is not. -/
def sampleBlock : Block :=
  .within (.alt true) (.seq (.write "hi".toList) (.seq (.catch (.within .mouse (.seq .look (.raise (.user 1)))) (.user 1) .look)
    (.within .echo (.within .batch (.seq .look (.raise .keyError))))))

/-- It meets the hypotheses, ends with the exception, and was observed three times. -/
example : Block.Tame sampleBlock ∧ Block.Flat sampleBlock ∧
    (runProg (prog [] sampleBlock) {}).1 = some .keyError ∧
    ((runProg (prog [] sampleBlock) {}).2.log.map Prod.fst) =
      [[.mouse, .alt true], [.alt true], [.batch, .echo, .alt true]] := by
  refine ⟨?_, ?_, by decide +kernel, by decide +kernel⟩
  · exact ⟨Modes.quiet_plain _ (by decide), ⟨⟨trivial, trivial⟩, trivial⟩, trivial, trivial⟩
  · simp [sampleBlock, Block.Flat, Block.Free, Kind.same]

/-- C61 is violated for blocks nested in their own kind: in the outer `report_mouse`, after the inner
one, mouse reporting is off. (The property excepts only the inner block.) -/
theorem C61_nested_violated : ∃ (w' : Console) (e : List Kind × Str × Bool),
    Exec (prog [] (.within .mouse (.seq (.within .mouse .skip) .look))) {} none w' ∧ e ∈ w'.log ∧
    e.1 = [.mouse] ∧ (Modes.feed {} e.2.1).mouse = false := by
  refine ⟨(runProg (prog [] (.within .mouse (.seq (.within .mouse .skip) .look))) {}).2,
    ([.mouse], mouseOn ++ mouseOn ++ mouseOff, true), exec_run _ _, ?_, rfl, ?_⟩
  · decide +kernel
  · decide +kernel

/-- The same for every kind but `batch`, whatever happened before and whatever the inner block does: what is seen right after it, in a block
of the same kind around it, is seen with the mode switched off. -/
theorem C61_again_violated (m : Modes.State) (k : Kind) (hk : k ≠ .batch) (b : Block) (ctx : List Kind) (w w' : Console) (hb : Block.Tame b)
    (hg : (screenOf m w).phase = .ground) (h : Exec (prog (k :: ctx) (.seq (.within k b) .look)) w none w') :
    ∃ e ∈ w'.log, e.1 = k :: ctx ∧ ¬ InForce k e.2.2 (Modes.feed m e.2.1) := by
  rcases exec_seq.mp h with ⟨u, h₁, h₂⟩ | ⟨h, -⟩
  · have hu := C61_block_undone m k b (k :: ctx) w u none hb hg h₁
    rcases exec_risky h₂ with ⟨-, h⟩ | rfl
    · exact absurd rfl h
    · refine ⟨(k :: ctx, u.out, u.echo), by simp, rfl, ?_⟩
      cases k with
      | alt hide => exact fun hf => by simpa [screenOf, hu.1] using hf.1.symm.trans hu.1
      | mouse =>
        intro hf
        have h1 : (_ && _ && _) = true := hu
        have h2 : (_ && _ && _) = true := hf
        simp only [Bool.and_eq_true, Bool.not_eq_true'] at h1 h2
        simp [screenOf, h2.1.1] at h1
      | batch => exact absurd rfl hk
      | echo => exact fun hf => by simpa using (show u.echo = false from hf).symm.trans hu
  · exact absurd rfl h

/-- An `alt_buffer` in an `alt_buffer`: a normal execution. -/
example : ∃ w', Exec (prog [.alt true] (.seq (.within (.alt true) (.write "hi".toList)) .look)) {} none w' :=
  ⟨_, exec_run _ _⟩

/-- C61 is violated for `batch`: its control sequences are not those that switch synchronized updates,
so no update is ever pending inside a block (whatever the terminal and the program did before). -/
theorem C61_batch_violated (m : Modes.State) (b : Block) (ctx : List Kind) (w w' : Console) (o : Option PyErr)
    (hb : Block.Tame b) (hg : (screenOf m w).phase = .ground) (hn : (screenOf m w).sync = false)
    (h : Exec (.seq (enter .batch) (prog ctx b)) w o w') : (screenOf m w').sync = false := by
  have : ∀ b : Block, ¬ Block.Touches (some 2026) b := by
    intro b
    induction b with
    | seq a b iha ihb => exact fun h => h.elim iha ihb
    | «catch» a e b iha ihb => exact fun h => h.elim iha ihb
    | within k b ih =>
      refine fun h => h.elim ?_ ih
      rcases k with (_ | _) | _ | _ | _ <;> simp [reached, flags]
    | _ => exact id
  rcases exec_seq.mp h with ⟨u, h₁, h₂⟩ | ⟨-, h₁⟩
  · obtain ⟨hu, -⟩ := enter_only .batch hg h₁
    have tu := prog_tidy b ctx u w' _ hb hu.1 h₂
    rcases tu.2 (some 2026) with k | k
    · exact k.trans ((hu.2 _ (by simp [reached])).trans hn)
    · exact absurd k.1 (this b)
  · obtain ⟨hu, -⟩ := enter_only .batch hg h₁
    exact (hu.2 (some 2026) (by simp [reached])).trans hn

/-- The sequence of the standard, without the `$`, would do it. -/
example : (Modes.feed {} "\x1b[?2026h".toList).sync = true := by decide +kernel

/-! What `draw` writes is tame, so the theorems apply to programs that draw inside the blocks. -/

theorem quiet_cursorTo (x y : Int) : Quiet (cursorTo x y) := by
  have hd : ∀ (n : Int) (c : Char), c ∈ decInt n → Term.ParamChar c := by
    intro n c hc
    cases n with
    | ofNat n => exact Term.dec_paramChar (n := n) hc
    | negSucc n =>
      rcases List.mem_cons.mp hc with rfl | hc
      · exact ⟨by decide, by decide⟩
      · exact Term.dec_paramChar hc
  have e : cursorTo x y = '\x1b' :: '[' :: ((decInt y ++ [';'] ++ decInt x) ++ ['H']) := by
    simp [cursorTo]
  rw [e]
  refine Modes.quiet_csi _ 'H' ?_ (by decide) (by decide) (by decide) (by decide)
  intro c hc
  rcases List.mem_append.mp hc with hc | hc
  · rcases List.mem_append.mp hc with hc | hc
    · exact hd _ _ hc
    · rw [List.mem_singleton.mp hc]
      exact ⟨by decide, by decide⟩
  · exact hd _ _ hc

theorem quiet_renderGo (origin : Int × Int) : ∀ (l : Changes) (prev : Option (Int × Int)),
    (∀ e ∈ l, Quiet e.2) → Quiet (renderGo origin prev l)
  | [], _, _ => .nil
  | ((x, y), str) :: l, prev, h => by
    rw [renderGo_cons]
    refine Modes.Quiet.append (Modes.Quiet.append ?_ (h ((x, y), str) (by simp))) (quiet_renderGo origin l _ fun e he => h e (by simp [he]))
    unfold moveStr
    split
    · split
      · exact .nil
      · exact quiet_cursorTo _ _
    · exact quiet_cursorTo _ _

/-- Any render of pending changes that are tame is tame. -/
theorem quiet_render (s : Screen) (origin : Int × Int) (h : ∀ e ∈ s.changes, Quiet e.2) :
    Quiet (s.render origin).2 := by
  have hb := quiet_renderGo origin s.changes.gather none fun e he => h e ((mem_gather _ _).mp he)
  unfold Screen.render
  simp only [Bool.false_eq_true, if_false]
  split
  · exact hb
  · exact hb.append quiet_reset

/-- After any history of displayable operations on a screen, what `draw` sends switches no mode and
leaves the title alone, whatever the origin. -/
theorem C61_draws_are_tame (env : Color.Env) (den : Color → Term.TColor) (hden : DenOk env den) (w h : Nat)
    (cur : Int × Int) (fill : Char) (hfill : Term.Printable fill) (cache : CharCache) (hcache : CacheOk cache)
    (ops : List Op) (hops : ∀ op ∈ ops, OpOk (SpanOk env den) op) (origin : Int × Int) :
    let sys := execAll env (1, 1)
      { w := { scr := Screen.init w h cur [fill], cache := cache }, term := { grid := fun _ _ => ⟨' ', {}⟩ } } ops
    sys.w.scr.offset = 0 → Block.Tame (.write (sys.w.scr.render origin).2) := by
  intro sys ho
  have h0 := Sync.init den 1 1 w h cur hfill { grid := fun _ _ => ⟨' ', {}⟩ } rfl rfl
  obtain ⟨hs, -⟩ := Sync.execAll hden (by omega) (by omega) ops
    { w := { scr := Screen.init w h cur [fill], cache := cache }, term := { grid := fun _ _ => ⟨' ', {}⟩ } } h0 hcache hops ho
  refine quiet_render _ _ ?_
  rintro ⟨⟨x, y⟩, str⟩ he
  have hk : (x, y) ∈ sys.w.scr.changes.keys := List.mem_map_of_mem (f := (·.1)) he
  obtain ⟨b1, b2⟩ := hs.inside _ hk
  obtain ⟨cell, hcell⟩ := hs.shape.exists_cell b1 b2
  exact (hs.pend x y str cell ((Changes.lookup_eq_some_iff _ hs.nodup _ _).mpr he) hcell).quiet

/-! ### C62: the title -/

/-- What an application does to the title. -/
inductive TitleOp where
  | set (new : Option Str)
  | start (hide : Bool)
  | stop (hide : Bool)

/-- The effect on the world. -/
def TitleOp.run : TitleOp → Console → Console
  | .set new, w => setTitle w new
  | .start hide, w => altStart hide w
  | .stop hide, w => altEnd hide w

/-- A history. -/
def runTitles (w : Console) (ops : List TitleOp) : Console := ops.foldl (fun w op => op.run w) w

/-- These are the executions of the programs in which nothing fails. -/
theorem titleProg_none (new : Option Str) (w w' : Console) (h : Exec (titleProg new) w none w') :
    w' = setTitle w new := by
  have ok : ∀ {f : Console → Console} {a b : Console}, Exec (.risky f) a none b → b = f a := by
    intro f a b hx
    rcases exec_risky hx with ⟨-, hn⟩ | hb
    · exact absurd rfl hn
    · exact hb
  cases new with
  | none =>
    rcases exec_seq.mp h with ⟨u, h₁, h₂⟩ | ⟨hn, -⟩
    · rw [ok h₂, ok h₁]; rfl
    · exact absurd rfl hn
  | some t =>
    rcases exec_seq.mp h with ⟨u, h₁, h₂⟩ | ⟨hn, -⟩
    · rcases exec_seq.mp h₂ with ⟨v, h₃, h₄⟩ | ⟨hn, -⟩
      · rw [ok h₄, ok h₃]
        have hu : u = if hasTitle w then w else writeControl storeTitle w := by
          rcases exec_ite.mp h₁ with ⟨hc, h₅⟩ | ⟨hc, h₅⟩
          · rw [(exec_skip.mp h₅).2, if_pos hc]
          · rw [ok h₅, if_neg (by simp [hc])]
        rw [hu]; rfl
      · exact absurd rfl hn
    · exact absurd rfl hn

theorem leave_alt (hide : Bool) (w w' : Console) (o : Option PyErr) (h : Exec (leave (.alt hide)) w o w') :
    w' = altEnd hide w := by
  rcases exec_seq.mp h with ⟨u, h₁, h₂⟩ | ⟨ho, h₁⟩
  swap
  · exact absurd (exec_sure.mp h₁).1 ho
  obtain ⟨-, rfl⟩ := exec_sure.mp h₁
  rcases exec_seq.mp h₂ with ⟨v, h₃, h₄⟩ | ⟨ho, h₃⟩
  swap
  · exact absurd (exec_sure.mp h₃).1 ho
  obtain ⟨-, rfl⟩ := exec_sure.mp h₃
  cases hide with
  | false => obtain ⟨-, rfl⟩ := exec_skip.mp h₄; rfl
  | true => obtain ⟨-, rfl⟩ := exec_sure.mp h₄; rfl

/-- Histories in which titles are not empty and contain no control characters, and in which, after
an `alt_buffer` that ended while a title was set (`set`), no title is set again (`ended`) before
`set_title(None)`. -/
def Polite : Bool → Bool → List TitleOp → Prop
  | _, _, [] => True
  | _, _, .set none :: r => Polite false false r
  | _, e, .set (some t) :: r => t ≠ [] ∧ CleanTitle t ∧ e = false ∧ Polite true false r
  | s, e, .start _ :: r => Polite s e r
  | s, e, .stop _ :: r => Polite s (e || s) r

/-- The invariant: nothing set, or a title set and the original one stored, or restored. -/
def TitleInv (m : Modes.State) (orig : Str) (s e : Bool) (w : Console) : Prop :=
  (screenOf m w).phase = .ground ∧ (s = hasTitle w) ∧ (s = false → w.custom = none) ∧
  (s = false ∨ e = true → (screenOf m w).title = orig ∧ (screenOf m w).stack = []) ∧
  (s = true ∧ e = false → (screenOf m w).stack = [orig])

theorem titleInv_same {orig : Str} {s e : Bool} {w : Console} (t : Str) (hi : TitleInv m orig s e w)
    (ht : ∀ on ti st, ∃ on', Modes.feed ⟨.ground, on, ti, st⟩ t = ⟨.ground, on', ti, st⟩) :
    TitleInv m orig s e (writeControl t w) := by
  obtain ⟨h1, h2, h3, h4, h5⟩ := hi
  have hsc := screenOf_write (m := m) w t
  have : (screenOf m (writeControl t w)).phase = .ground ∧
      (screenOf m (writeControl t w)).title = (screenOf m w).title ∧
      (screenOf m (writeControl t w)).stack = (screenOf m w).stack := by
    rw [hsc]
    exact ground_cases (P := fun s => (Modes.feed s t).phase = .ground ∧ (Modes.feed s t).title = s.title ∧
      (Modes.feed s t).stack = s.stack) (fun on ti st => by
        obtain ⟨on', h⟩ := ht on ti st
        rw [h]; exact ⟨rfl, rfl, rfl⟩) h1
  obtain ⟨p1, p2, p3⟩ := this
  exact ⟨p1, h2, h3, fun h => by rw [p2, p3]; exact h4 h, fun h => by rw [p3]; exact h5 h⟩

theorem titleInv_start {orig : Str} {s e : Bool} {w : Console} (hide : Bool) (hi : TitleInv m orig s e w) :
    TitleInv m orig s e (altStart hide w) := by
  have h1 := titleInv_same startAlt hi (fun on ti st => ⟨_, Modes.feed_startAlt on ti st⟩)
  cases hide with
  | false => exact h1
  | true => exact titleInv_same hideCursor h1 (fun on ti st => ⟨_, Modes.feed_hideCursor on ti st⟩)

theorem restore_title {w : Console} (hg : (screenOf m w).phase = .ground) :
    (screenOf m (writeControl restoreTitle w)).phase = .ground ∧
    (screenOf m (writeControl restoreTitle w)).title = (screenOf m w).stack.headD (screenOf m w).title ∧
    (screenOf m (writeControl restoreTitle w)).stack = (screenOf m w).stack.tail := by
  rw [screenOf_write]
  refine ground_cases (P := fun s => (Modes.feed s restoreTitle).phase = .ground ∧
    (Modes.feed s restoreTitle).title = s.stack.headD s.title ∧ (Modes.feed s restoreTitle).stack = s.stack.tail)
    (fun on ti st => ?_) hg
  cases st with
  | nil => exact ⟨rfl, rfl, rfl⟩
  | cons t st => exact ⟨rfl, rfl, rfl⟩

theorem titleInv_stop {orig : Str} {s e : Bool} {w : Console} (hide : Bool) (hi : TitleInv m orig s e w) :
    TitleInv m orig s (e || s) (altEnd hide w) ∧ (screenOf m (altEnd hide w)).title = orig := by
  have h1 := titleInv_same endAlt hi (fun on ti st => ⟨_, Modes.feed_endAlt on ti st⟩)
  have h2 : TitleInv m orig s (e || s) (writeControl restoreTitle (writeControl endAlt w)) ∧
      (screenOf m (writeControl restoreTitle (writeControl endAlt w))).title = orig := by
    obtain ⟨g, a, b, c, d⟩ := h1
    obtain ⟨r1, r2, r3⟩ := restore_title (m := m) g
    by_cases hs : s = true ∧ e = false
    · have hst := d hs
      rw [hst] at r2 r3
      refine ⟨⟨r1, a, b, fun _ => ⟨r2, r3⟩, fun h => ?_⟩, r2⟩
      simp [hs.1] at h
    · have hs' : s = false ∨ e = true := by
        cases s <;> cases e <;> simp_all
      obtain ⟨c1, c2⟩ := c hs'
      rw [c2] at r2 r3
      have r2' := r2.trans c1
      refine ⟨⟨r1, a, b, fun _ => ⟨r2', r3⟩, fun h => ?_⟩, r2'⟩
      cases s <;> cases e <;> simp_all
  cases hide with
  | false => exact h2
  | true =>
    have h3 := titleInv_same showCursor h2.1 (fun on ti st => ⟨_, Modes.feed_showCursor on ti st⟩)
    refine ⟨h3, ?_⟩
    show (screenOf m (writeControl showCursor _)).title = orig
    rw [screenOf_write]
    exact ground_cases (P := fun s => s.title = orig → (Modes.feed s showCursor).title = orig)
      (fun _ _ _ h => h) h2.1.1 h2.2

theorem titleInv_none {orig : Str} {s e : Bool} {w : Console} (hi : TitleInv m orig s e w) :
    TitleInv m orig false false (setTitle w none) := by
  obtain ⟨g, a, b, c, d⟩ := hi
  obtain ⟨r1, r2, r3⟩ := restore_title (m := m) g
  have : (screenOf m (writeControl restoreTitle w)).title = orig ∧
      (screenOf m (writeControl restoreTitle w)).stack = [] := by
    by_cases hs : s = true ∧ e = false
    · have hst := d hs
      rw [hst] at r2 r3
      exact ⟨r2, r3⟩
    · have hs' : s = false ∨ e = true := by
        cases s <;> cases e <;> simp_all
      obtain ⟨c1, c2⟩ := c hs'
      rw [c2] at r2 r3
      exact ⟨r2.trans c1, r3⟩
  exact ⟨r1, rfl, fun _ => rfl, fun _ => this, fun h => by simp at h⟩

theorem titleInv_some {orig : Str} {s : Bool} {w : Console} {t : Str} (ht : t ≠ []) (hc : CleanTitle t)
    (hi : TitleInv m orig s false w) : TitleInv m orig true false (setTitle w (some t)) := by
  obtain ⟨g, a, b, c, d⟩ := hi
  have key : ∀ u : Console, (screenOf m u).phase = .ground → (screenOf m u).stack = [orig] →
      TitleInv m orig true false { writeControl (setTitleSeq t) u with custom := some t } := by
    intro u hu hst
    have hsc := screenOf_write (m := m) u (setTitleSeq t)
    have h2 : (screenOf m (writeControl (setTitleSeq t) u)).phase = .ground ∧
        (screenOf m (writeControl (setTitleSeq t) u)).stack = [orig] := by
      rw [hsc]
      exact ground_cases (P := fun s => s.stack = [orig] → (Modes.feed s (setTitleSeq t)).phase = .ground ∧
        (Modes.feed s (setTitleSeq t)).stack = [orig]) (fun on ti st h => by
          rw [Modes.feed_setTitle _ _ _ _ hc]; exact ⟨rfl, h⟩) hu hst
    refine ⟨h2.1, ?_, fun h => by simp at h, fun h => by simp at h, fun _ => h2.2⟩
    simp [hasTitle, ht]
  cases s with
  | true =>
    have : setTitle w (some t) = { writeControl (setTitleSeq t) w with custom := some t } := by
      simp [setTitle, ← a]
    rw [this]
    exact key w g (d ⟨rfl, rfl⟩)
  | false =>
    have : setTitle w (some t) =
        { writeControl (setTitleSeq t) (writeControl storeTitle w) with custom := some t } := by
      simp [setTitle, ← a]
    rw [this]
    obtain ⟨c1, c2⟩ := c (.inl rfl)
    have hsc := screenOf_write (m := m) w storeTitle
    have h2 : (screenOf m (writeControl storeTitle w)).phase = .ground ∧
        (screenOf m (writeControl storeTitle w)).stack = [orig] := by
      rw [hsc]
      exact ground_cases (P := fun s => s.title = orig → s.stack = [] →
        (Modes.feed s storeTitle).phase = .ground ∧ (Modes.feed s storeTitle).stack = [orig])
        (fun on ti st h h' => by
          rw [Modes.feed_storeTitle]
          cases h; cases h'
          exact ⟨rfl, rfl⟩) g c1 c2
    exact key _ h2.1 h2.2

theorem titles_inv {orig : Str} : ∀ (ops : List TitleOp) (s e : Bool) (w : Console), Polite s e ops →
    TitleInv m orig s e w → ∀ (pre post : List TitleOp) (hide : Bool), ops = pre ++ .stop hide :: post →
    (screenOf m (runTitles w (pre ++ [.stop hide]))).title = orig
  | [], _, _, _, _, _, pre, post, hide, h => by simp at h
  | op :: ops, s, e, w, hp, hi, pre, post, hide, h => by
    cases pre with
    | nil =>
      obtain ⟨rfl, rfl⟩ := List.cons.inj h
      exact (titleInv_stop hide hi).2
    | cons q pre =>
      obtain ⟨rfl, h'⟩ := List.cons.inj h
      show (screenOf m (runTitles (op.run w) (pre ++ [.stop hide]))).title = orig
      cases op with
      | set new =>
        cases new with
        | none => exact titles_inv ops _ _ _ hp (titleInv_none hi) pre post hide h'
        | some t =>
          obtain ⟨h1, h2, rfl, h4⟩ := hp
          exact titles_inv ops _ _ _ h4 (titleInv_some h1 h2 hi) pre post hide h'
      | start b => exact titles_inv ops _ _ _ hp (titleInv_start b hi) pre post hide h'
      | stop b => exact titles_inv ops _ _ _ hp (titleInv_stop b hi).1 pre post hide h'

/-- C62, in part: on a terminal with title `orig` and an empty title stack, after each end of
`alt_buffer` in a history of `set_title` calls and sessions, the title is `orig`. What is missing (the
code violates it): empty titles (`C62_empty_violated`), a second session with a title after one that
ended with a title set (`C62_second_session_violated`), and sessions without titles on a terminal whose
title stack is in use by another program (`C62_foreign_violated`). -/
theorem C62_title_restored_partial (m : Modes.State) (orig : Str) (ops : List TitleOp) (w : Console)
    (hp : Polite false false ops) (hg : (screenOf m w).phase = .ground) (ht : (screenOf m w).title = orig)
    (hs : (screenOf m w).stack = []) (hc : w.custom = none) (pre post : List TitleOp) (hide : Bool)
    (h : ops = pre ++ .stop hide :: post) :
    (screenOf m (runTitles w (pre ++ [.stop hide]))).title = orig :=
  titles_inv ops false false w hp
    ⟨hg, by simp [hasTitle, hc], fun _ => hc, fun _ => ⟨ht, hs⟩, fun h => by simp at h⟩ pre post hide h

/-- In one session any number of titles may be set and unset. -/
theorem C62_one_session (m : Modes.State) (orig : Str) (titles : List (Option Str)) (w : Console)
    (hn : ∀ t, some t ∈ titles → t ≠ [] ∧ CleanTitle t) (hg : (screenOf m w).phase = .ground)
    (ht : (screenOf m w).title = orig) (hs : (screenOf m w).stack = []) (hc : w.custom = none) (hide : Bool) :
    (screenOf m (runTitles w ((.start hide :: titles.map .set) ++ [.stop hide]))).title =
      orig := by
  have hp : ∀ (ts : List (Option Str)) (s : Bool), (∀ t, some t ∈ ts → t ≠ [] ∧ CleanTitle t) →
      Polite s false (ts.map .set ++ [.stop hide]) := by
    intro ts
    induction ts with
    | nil => exact fun s _ => trivial
    | cons t ts ih =>
      intro s h
      cases t with
      | none => exact ih false fun t ht => h t (by simp [ht])
      | some t => exact ⟨(h t (by simp)).1, (h t (by simp)).2, rfl, ih true fun t ht => h t (by simp [ht])⟩
  exact C62_title_restored_partial m orig ((.start hide :: titles.map .set) ++ [.stop hide]) w (hp titles false hn)
    hg ht hs hc _ [] hide rfl

example : (screenOf { title := "sh".toList } (runTitles {} ([.start true, .set (some "a".toList), .set none, .set (some "b".toList),
    .set (some "c".toList)] ++ [.stop true]))).title = "sh".toList := by
  decide +kernel

/-- C62 is violated in the second session: the first end of `alt_buffer` restores the title without
forgetting that one was set, so the second session does not store it. -/
theorem C62_second_session_violated :
    (screenOf { title := "sh".toList } (runTitles {} ([.start true, .set (some "a".toList), .stop true, .start true,
      .set (some "b".toList), .stop true]))).title = "b".toList := by
  decide +kernel

/-- C62 is violated for the empty title: it counts as no title, so it is stored as if it were the
original one. -/
theorem C62_empty_violated :
    (screenOf { title := "sh".toList } (runTitles {} ([.start true, .set (some []), .set (some "b".toList),
      .stop true]))).title = [] := by
  decide +kernel

/-- C62 is violated when the title stack is in use: a session that sets no title pops an entry
that it did not push. -/
theorem C62_foreign_violated :
    (screenOf { title := "sh".toList, stack := ["outer".toList] } (runTitles {} ([.start true, .stop true]))).title = "outer".toList := by
  decide +kernel

end Slate
