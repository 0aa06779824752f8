import Verif.Props.Poison
import Verif.Spec.Api

/-!
# C125: the memory of a screen
-/

namespace Slate
open Py

/-! ### Pending changes -/

/-- All pending changes lie in an area, each of them once. -/
structure Boxed (W H : Nat) (s : Screen) : Prop where
  width : s.width ≤ W
  height : s.height ≤ H
  nodup : s.changes.keys.Nodup
  inside : ∀ k ∈ s.changes.keys, k.1 < W ∧ k.2 < H

theorem keys_fold {W H : Nat} (v : Nat × Nat → Str) (ps : List (Nat × Nat)) (hp : ∀ p ∈ ps, p.1 < W ∧ p.2 < H) (ch : Changes)
    (h1 : ch.keys.Nodup) (h2 : ∀ k ∈ ch.keys, k.1 < W ∧ k.2 < H) :
    (ps.foldl (fun (ch : Changes) p => ch.insert p (v p)) ch).keys.Nodup ∧
    ∀ k ∈ (ps.foldl (fun (ch : Changes) p => ch.insert p (v p)) ch).keys, k.1 < W ∧ k.2 < H := by
  induction ps generalizing ch with
  | nil => exact ⟨h1, h2⟩
  | cons p ps ih =>
    refine ih (fun q hq => hp q (by simp [hq])) _ (Changes.nodup_insert _ _ _ h1) fun k hk => ?_
    rcases (Changes.mem_keys_insert _ _ _ _).mp hk with rfl | hk
    · exact hp _ (by simp)
    · exact h2 k hk

theorem Boxed.resize {W H : Nat} {s : Screen} (h : Boxed W H s) {a b : Nat} (ha : a ≤ W) (hb : b ≤ H) (fill : Str) (keep : Bool) :
    Boxed W H (s.resize (a, b) fill keep) := by
  obtain ⟨g1, g2⟩ := keys_fold (W := W) (H := H) (fun _ => fill) (positions a b)
    (fun p hp => ⟨lt_of_lt_of_le (mem_positions.mp hp).1 ha, lt_of_lt_of_le (mem_positions.mp hp).2 hb⟩) s.changes h.nodup h.inside
  exact ⟨ha, hb, g1, g2⟩

theorem Boxed.commitCell {W H : Nat} (env : Color.Env) (tb : Color) (m : Mats) (acc : Screen × Except PyErr Nat) (pos : Nat × Nat)
    (hp : pos.1 < W ∧ pos.2 < H) (h : Boxed W H acc.1) : Boxed W H (commitCell env tb m acc pos).1 := by
  obtain ⟨s, r⟩ := acc
  obtain ⟨x, y⟩ := pos
  unfold Slate.commitCell
  cases r with
  | error e => exact h
  | ok n =>
    simp only
    split
    · exact h
    · split
      · exact h
      · split
        · exact h
        · refine ⟨h.width, h.height, Changes.nodup_insert _ _ _ h.nodup, fun k hk => ?_⟩
          rcases (Changes.mem_keys_insert _ _ _ _).mp hk with rfl | hk
          · exact hp
          · exact h.inside k hk

theorem Boxed.commit {W H : Nat} (env : Color.Env) (tb : Color) (m : Mats) (s : Screen) (h : Boxed W H s) :
    Boxed W H (commit env tb m s).1 := by
  have go : ∀ (l : List (Nat × Nat)) (acc : Screen × Except PyErr Nat), (∀ p ∈ l, p.1 < W ∧ p.2 < H) → Boxed W H acc.1 →
      Boxed W H (l.foldl (Slate.commitCell env tb m) acc).1 := by
    intro l
    induction l with
    | nil => exact fun acc _ h => h
    | cons p l ih =>
      intro acc hl h
      exact ih _ (fun q hq => hl q (by simp [hq])) (Boxed.commitCell env tb m acc p (hl p (by simp)) h)
  exact go _ _ (fun p hp => ⟨lt_of_lt_of_le (mem_positions.mp hp).1 h.width, lt_of_lt_of_le (mem_positions.mp hp).2 h.height⟩) h

theorem putSpans_boxed {W H : Nat} (spans : List Span) (i : Nat) (p : Pen) (m : Mats) (w : World) (h : Boxed W H w.scr) :
    Boxed W H (putSpans spans i p m w).2.2.1.scr := by
  induction spans generalizing i p m w with
  | nil => exact h
  | cons s rest ih =>
    unfold putSpans
    simp only
    split
    · split
      · exact ⟨h.width, h.height, h.nodup, h.inside⟩
      · split
        · exact ⟨h.width, h.height, h.nodup, h.inside⟩
        · exact ih _ _ _ _ ⟨h.width, h.height, h.nodup, h.inside⟩
    · exact ih _ _ _ _ h

theorem putData_boxed {W H : Nat} (data : List Entry) (m : Mats) (w : World) (h : Boxed W H w.scr) :
    Boxed W H (putData data m w).2.1.scr := by
  induction data generalizing m w with
  | nil => exact h
  | cons e rest ih =>
    obtain ⟨pos, line⟩ := e
    cases pos with
    | none => exact h
    | some xy =>
      have h1 := putSpans_boxed line 0 { x := xy.1, y := xy.2, last := (line.length : Int) - 1 } m w h
      unfold putData
      revert h1
      rcases putSpans line 0 { x := xy.1, y := xy.2, last := (line.length : Int) - 1 } m w with ⟨p', m', w', e'⟩
      intro h1
      cases e' with
      | some e => exact h1
      | none => exact ih m' w' h1

theorem writeBulk_boxed {W H : Nat} (env : Color.Env) (data : List Entry) (tb : Color) (force : Bool) (w : World) (h : Boxed W H w.scr) :
    Boxed W H (writeBulk env data tb force w).1.scr := by
  have h1 := putData_boxed data Mats.blank w h
  unfold writeBulk
  revert h1
  rcases putData data Mats.blank w with ⟨m, w', e⟩
  intro h1
  cases e with
  | some e => exact h1
  | none => exact h1.commit env tb m _

/-- The sizes given to a call lie within an area. -/
def Api.Within (W H : Nat) : Api → Prop
  | .resize a b _ _ => a ≤ W ∧ b ≤ H
  | _ => True

theorem Api.run_boxed {W H : Nat} (env : Color.Env) (op : Api) (hop : op.Within W H) (w : World) (h : Boxed W H w.scr) :
    Boxed W H (op.run env w).scr := by
  cases op with
  | write spans cursor tb force => exact writeBulk_boxed env _ tb force w h
  | writeBulk data tb force => exact writeBulk_boxed env data tb force w h
  | clear fill =>
    have := h.resize h.width h.height fill false
    exact ⟨this.width, this.height, this.nodup, this.inside⟩
  | resize a b fill keep => exact h.resize hop.1 hop.2 fill keep
  | render origin redraw =>
    cases redraw <;> exact ⟨h.width, h.height, by simp [Api.run, Screen.render, Changes.keys], by simp [Api.run, Screen.render, Changes.keys]⟩
  | getCharacters s => exact h

theorem Boxed.length {W H : Nat} {s : Screen} (h : Boxed W H s) : s.changes.length ≤ W * H := by
  have hs : s.changes.keys ⊆ positions W H := fun k hk => mem_positions.mpr (h.inside k hk)
  have := (h.nodup.subperm hs).length_le
  rw [length_positions, Nat.mul_comm] at this
  simpa [Changes.keys] using this

/-! ### The cache -/

theorem CharCache.length_get (cache : CharCache) (s : Span) (h : cache.length ≤ 128) : (cache.get s).2.length ≤ 128 := by
  unfold CharCache.get
  cases hl : cache.lookup s with
  | none => simp only [List.length_take]; omega
  | some l =>
    have hm : (s, l) ∈ cache := mem_of_lookup hl
    have : (cache.filter fun e => decide (e.1 ≠ s)).length < cache.length := by
      refine List.length_filter_lt_length_iff_exists.mpr ⟨_, hm, by simp⟩
    simp only [List.length_cons]
    omega

theorem putSpans_cache128 (spans : List Span) (i : Nat) (p : Pen) (m : Mats) (w : World) (h : w.cache.length ≤ 128) :
    (putSpans spans i p m w).2.2.1.cache.length ≤ 128 := by
  induction spans generalizing i p m w with
  | nil => exact h
  | cons s rest ih =>
    have h1 := CharCache.length_get w.cache s h
    unfold putSpans
    simp only
    split
    · split
      · exact h1
      · split
        · simpa [CharCache.assign] using h1
        · exact ih _ _ _ _ (by simpa [CharCache.assign] using h1)
    · exact ih _ _ _ _ h1

theorem putData_cache128 (data : List Entry) (m : Mats) (w : World) (h : w.cache.length ≤ 128) :
    (putData data m w).2.1.cache.length ≤ 128 := by
  induction data generalizing m w with
  | nil => exact h
  | cons e rest ih =>
    obtain ⟨pos, line⟩ := e
    cases pos with
    | none => exact h
    | some xy =>
      have h1 := putSpans_cache128 line 0 { x := xy.1, y := xy.2, last := (line.length : Int) - 1 } m w h
      unfold putData
      revert h1
      rcases putSpans line 0 { x := xy.1, y := xy.2, last := (line.length : Int) - 1 } m w with ⟨p', m', w', e'⟩
      intro h1
      cases e' with
      | some e => exact h1
      | none => exact ih m' w' h1

theorem Api.run_cache128 (env : Color.Env) (op : Api) (w : World) (h : w.cache.length ≤ 128) : (op.run env w).cache.length ≤ 128 := by
  have hwb : ∀ data tb force, (Slate.writeBulk env data tb force w).1.cache.length ≤ 128 := by
    intro data tb force
    have h1 := putData_cache128 data Mats.blank w h
    unfold Slate.writeBulk
    revert h1
    rcases putData data Mats.blank w with ⟨m, w', e⟩
    intro h1
    cases e with
    | some e => exact h1
    | none => exact h1
  cases op with
  | write spans cursor tb force => exact hwb _ _ _
  | writeBulk data tb force => exact hwb _ _ _
  | clear fill => exact h
  | resize a b fill keep => exact h
  | render origin redraw => exact h
  | getCharacters s => exact CharCache.length_get w.cache s h

/-- **C125**, what is bounded: after every history of calls, scrolling and raising ones
included, on a screen that was never larger than `W` times `H`, at most one change per
place is pending, and at most 128 texts are cached. -/
theorem C125_counts_partial (env : Color.Env) (W H width height : Nat) (hw : width ≤ W) (hh : height ≤ H) (cursor : Int × Int) (fill : Str)
    (ops : List Api) (hops : ∀ op ∈ ops, op.Within W H) :
    let u := Api.runAll env { scr := Screen.init width height cursor fill } ops
    u.scr.changes.length ≤ W * H ∧ u.cache.length ≤ 128 := by
  have go : ∀ (ops : List Api) (w : World), (∀ op ∈ ops, op.Within W H) → Boxed W H w.scr → w.cache.length ≤ 128 →
      Boxed W H (Api.runAll env w ops).scr ∧ (Api.runAll env w ops).cache.length ≤ 128 := by
    intro ops
    induction ops with
    | nil => exact fun w _ h1 h2 => ⟨h1, h2⟩
    | cons op ops ih =>
      intro w hops h1 h2
      exact ih _ (fun o ho => hops o (by simp [ho])) (op.run_boxed env (hops op (by simp)) w h1) (op.run_cache128 env w h2)
  have h0 : Boxed W H (Screen.init width height cursor fill) :=
    Boxed.resize (s := { width := 0, height := 0, cells := [], changes := [], cursor := cursor, offset := 0 })
      ⟨Nat.zero_le _, Nat.zero_le _, by simp [Changes.keys], by simp [Changes.keys]⟩ hw hh fill _
  obtain ⟨g1, g2⟩ := go ops { scr := Screen.init width height cursor fill } hops h0 (by simp)
  exact ⟨g1.length, g2⟩

/-- The bounds are attained: a new screen has one change per place pending. -/
example : (Api.runAll {} { scr := Screen.init 4 3 } [.resize 2 5 ['.'] true, .clear ['x']]).scr.changes.length = 16 := by decide +kernel

/-! ### What grows -/

theorem CharCache.get_assign (cache : CharCache) (s : Span) (l : List Str) : List.lookup s ((cache.get s).2.assign s l) = some l := by
  unfold CharCache.get CharCache.assign
  cases hl : cache.lookup s with
  | none => simp [List.take_succ_cons]
  | some l' => simp

theorem log_step (env : Color.Env) (s : Span) (tb : Color) (force : Bool) (w : World) (y : Int)
    (hs : Shape w.scr.width w.scr.height w.scr.cells) (hh : 1 ≤ w.scr.height) (hy : y - w.scr.offset > (w.scr.height : Int) - 1)
    (hc : (w.cache.get s).1 ≠ []) :
    let u := (Slate.write env [s] (some (0, y)) tb force w).1
    Shape u.scr.width u.scr.height u.scr.cells ∧ u.scr.height = w.scr.height ∧ u.scr.offset = y - w.scr.height + 1 ∧
    List.lookup s u.cache = some (appendNewline (w.cache.get s).1) := by
  have hput := putData_frame [(some (0, y), [s])] Mats.blank w
  have hp : (putData [(some (0, y), [s])] Mats.blank w).2.2 = none ∧
      (putData [(some (0, y), [s])] Mats.blank w).2.1.scr.offset = y - w.scr.height + 1 ∧
      (putData [(some (0, y), [s])] Mats.blank w).2.1.cache = (w.cache.get s).2.assign s (appendNewline (w.cache.get s).1) := by
    have hcells : ∃ r rows, w.scr.cells = r :: rows := by
      cases hcs : w.scr.cells with
      | nil => have := hs.1; rw [hcs] at this; simp at this; omega
      | cons r rows => exact ⟨r, rows, rfl⟩
    obtain ⟨r, rows, hcells⟩ := hcells
    have hemp : (w.cache.get s).1.isEmpty = false := by
      cases h : (w.cache.get s).1 with
      | nil => exact absurd h hc
      | cons _ _ => rfl
    unfold putData putSpans
    simp [hy, hemp, hcells, putSpans, putData]
  obtain ⟨h1, h2, -, -, h5, -⟩ := writeBulk_frame env [(some (0, y), [s])] tb force w hs
  have hu : (Slate.write env [s] (some (0, y)) tb force w).1 = (Slate.writeBulk env [(some (0, y), [s])] tb force w).1 := rfl
  have hsh := hput.shape _ _ rfl hs
  obtain ⟨hp1, hp2, hp3⟩ := hp
  have hw1 := hput.width
  have hw2 := hput.height
  have key : (Slate.writeBulk env [(some (0, y), [s])] tb force w).1.scr.offset = y - w.scr.height + 1 ∧
      (Slate.writeBulk env [(some (0, y), [s])] tb force w).1.cache = (w.cache.get s).2.assign s (appendNewline (w.cache.get s).1) := by
    unfold Slate.writeBulk
    revert hp1 hp2 hp3 hsh hw1 hw2
    rcases putData [(some (0, y), [s])] Mats.blank w with ⟨m, w', e⟩
    intro hsh hp1 hp2 hp3 hw1 hw2
    simp only at hp1 hp2 hp3 hsh hw1 hw2
    subst hp1
    simp only
    rw [← hw1, ← hw2] at hsh
    constructor
    · obtain ⟨s', e, -, -, w3, -⟩ := commit_spec env tb m w'.scr hsh
      rw [e]
      exact w3.trans hp2
    · exact hp3
  rw [hu]
  refine ⟨?_, h2, key.1, ?_⟩
  · rw [h1, h2]; exact h5
  · rw [key.2]; exact CharCache.get_assign _ _ _

/-- A program that writes the same text again and again, each time in the next row, like a log. -/
def logging (s : Span) (height n : Nat) (tb : Color) (force : Bool) : List Api :=
  (List.range n).map fun k => .write [s] (some (0, (height : Int) + k)) tb force

theorem logging_state (env : Color.Env) (s : Span) (hs : s.cellChars ≠ []) (tb : Color) (force : Bool) (w : World) (hw : w.cache = [])
    (hsh : Shape w.scr.width w.scr.height w.scr.cells) (hh : 1 ≤ w.scr.height) (ho : w.scr.offset = 0) (n : Nat) :
    let u := Api.runAll env w (logging s w.scr.height n tb force)
    Shape u.scr.width u.scr.height u.scr.cells ∧ u.scr.height = w.scr.height ∧ u.scr.offset = n ∧
    (u.cache.get s).1 = lengthened s.cellChars n ∧ (0 < n → List.lookup s u.cache = some (lengthened s.cellChars n)) := by
  induction n with
  | zero => exact ⟨hsh, rfl, by simpa [logging, Api.runAll] using ho, by simp [logging, Api.runAll, hw, CharCache.get, lengthened_zero], by simp⟩
  | succ n ih =>
    have hrun : Api.runAll env w (logging s w.scr.height (n + 1) tb force) =
        (Slate.write env [s] (some (0, (w.scr.height : Int) + n)) tb force (Api.runAll env w (logging s w.scr.height n tb force))).1 := by
      simp [logging, List.range_succ, Api.runAll, List.foldl_append, Api.run]
    rw [hrun]
    generalize Api.runAll env w (logging s w.scr.height n tb force) = v at ih
    obtain ⟨i1, i2, i3, i4, -⟩ := ih
    have hne : (v.cache.get s).1 ≠ [] := by
      rw [i4]
      rcases List.eq_nil_or_concat s.cellChars with h | ⟨l', a, h⟩
      · exact absurd h hs
      · rw [h]; simp [lengthened]
    obtain ⟨g1, g2, g3, g4⟩ := log_step env s tb force v ((w.scr.height : Int) + n) i1 (by omega) (by omega) hne
    rw [i4, appendNewline_lengthened] at g4
    refine ⟨g1, g2.trans i2, by rw [g3, i2]; push_cast; omega, ?_, fun _ => g4⟩
    unfold CharCache.get
    rw [g4]

/-- **C125 is violated**: a program that logs the same text `n` times on a screen of any size, and never has a larger screen, ends
with a cached list for that text that is `n` characters longer than the text: each line that scrolls adds a character that is never
given back. So no bound on the size of the screen and on the texts bounds the memory. -/
theorem C125_leak_violated (env : Color.Env) (width height : Nat) (hh : 1 ≤ height) (cursor : Int × Int) (fill : Str) (s : Span)
    (hs : s.cellChars ≠ []) (tb : Color) (force : Bool) (n : Nat) (hn : 0 < n) :
    ∃ l, List.lookup s (Api.runAll env { scr := Screen.init width height cursor fill } (logging s height n tb force)).cache = some l ∧
      l.flatten.length = s.cellChars.flatten.length + n := by
  have h := (logging_state env s hs tb force { scr := Screen.init width height cursor fill } rfl (resize_shape _ _ _ _ _) hh rfl n).2.2.2.2 hn
  refine ⟨_, h, ?_⟩
  rcases List.eq_nil_or_concat s.cellChars with h | ⟨l', a, h⟩
  · exact absurd h hs
  · rw [h]; simp [lengthened]; omega

/-- The hypotheses are met by every text that is not empty; here are three rounds. -/
example : List.lookup { text := "ok".toList } (Api.runAll {} { scr := Screen.init 4 2 }
    (logging { text := "ok".toList } 2 3 Color.black false)).cache = some [['o'], ['k', '\n', '\n', '\n']] := by decide +kernel

end Slate
