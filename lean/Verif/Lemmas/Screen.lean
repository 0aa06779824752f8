import Verif.Model.Screen
import Mathlib.Data.List.Nodup
import Mathlib.Data.List.Basic
import Mathlib.Data.List.Range
import Mathlib.Data.List.Count

/-! Facts about the screen model: shape, cells, the change buffer, the commit loop. -/

namespace Slate
open Py

/-! ### Cells -/

/-- The matrix has the advertised size. -/
structure Shape (w h : Nat) (cells : List (List Cell)) : Prop where
  rows : cells.length = h
  cols : ∀ row ∈ cells, row.length = w

theorem Shape.cellAt_isSome {w h : Nat} {cells : List (List Cell)} (hs : Shape w h cells)
    {x y : Nat} : (cellAt cells x y).isSome ↔ x < w ∧ y < h := by
  unfold cellAt
  cases hy : cells[y]? with
  | none =>
    have := List.getElem?_eq_none_iff.mp hy
    have := hs.rows
    simp; omega
  | some row =>
    obtain ⟨hlt, rfl⟩ := List.getElem?_eq_some_iff.mp hy
    have hr := hs.cols _ (List.getElem_mem hlt)
    have := hs.rows
    simp only [isSome_getElem?, hr]
    omega

theorem Shape.exists_cell {w h : Nat} {cells : List (List Cell)} (hs : Shape w h cells)
    {x y : Nat} (hx : x < w) (hy : y < h) : ∃ c, cellAt cells x y = some c :=
  Option.isSome_iff_exists.mp (hs.cellAt_isSome.mpr ⟨hx, hy⟩)

theorem Shape.cellAt_none {w h : Nat} {cells : List (List Cell)} (hs : Shape w h cells)
    {x y : Nat} (hn : ¬ (x < w ∧ y < h)) : cellAt cells x y = none := by
  rw [← Option.not_isSome_iff_eq_none]; exact fun hh => hn (hs.cellAt_isSome.mp hh)

theorem cellAt_setCell {cells : List (List Cell)} {x y : Nat} {c : Cell} (x' y' : Nat)
    (h : (cellAt cells x y).isSome) :
    cellAt (setCell cells x y c) x' y' = if x' = x ∧ y' = y then some c else cellAt cells x' y' := by
  unfold cellAt setCell at *
  rw [List.getElem?_modify]
  by_cases hy : y' = y
  · subst hy
    cases hr : cells[y']? with
    | none => simp [hr] at h
    | some row =>
      simp only [hr] at h
      by_cases hx : x' = x
      · subst hx
        have : x' < row.length := by simpa using h
        simp [this]
      · have hx' : ¬ x = x' := fun e => hx e.symm
        simp [hx, hx']
  · have hy' : ¬ y = y' := fun e => hy e.symm
    simp only [hy, hy', and_false, if_false]
    cases cells[y']? <;> simp

theorem Shape.setCell {w h : Nat} {cells : List (List Cell)} (hs : Shape w h cells)
    (x y : Nat) (c : Cell) : Shape w h (Slate.setCell cells x y c) where
  rows := by simp [Slate.setCell, hs.rows]
  cols := by
    intro row hrow
    unfold Slate.setCell at hrow
    obtain ⟨i, hi, rfl⟩ := List.mem_iff_getElem.mp hrow
    simp only [List.length_modify] at hi
    rw [List.getElem_modify]
    split
    · simp [hs.cols _ (List.getElem_mem hi)]
    · exact hs.cols _ (List.getElem_mem hi)

/-- Two matrices of the same shape are equal if all their cells are. -/
theorem Shape.ext {w h : Nat} {a b : List (List Cell)} (ha : Shape w h a) (hb : Shape w h b)
    (he : ∀ x y, x < w → y < h → cellAt a x y = cellAt b x y) : a = b := by
  apply List.ext_getElem (by rw [ha.rows, hb.rows])
  intro y h1 h2
  have hla := ha.cols _ (List.getElem_mem h1)
  have hlb := hb.cols _ (List.getElem_mem h2)
  apply List.ext_getElem (by rw [hla, hlb])
  intro x h3 h4
  have := he x y (by omega) (by have := ha.rows; omega)
  simpa [cellAt, h1, h2, h3, h4] using this

/-! ### Positions -/

theorem mem_positions {w h : Nat} {p : Nat × Nat} : p ∈ positions w h ↔ p.1 < w ∧ p.2 < h := by
  obtain ⟨x, y⟩ := p
  simp [positions]
  exact and_comm

theorem nodup_positions (w h : Nat) : (positions w h).Nodup := by
  unfold positions
  rw [List.nodup_flatMap]
  constructor
  · intro y _
    exact List.Nodup.map (fun a b e => (Prod.mk.inj e).1) List.nodup_range
  · refine List.nodup_range.pairwise_of_forall_ne ?_
    intro a _ b _ hab
    rw [Function.onFun, List.disjoint_left]
    intro p hp hq
    obtain ⟨_, _, rfl⟩ := List.mem_map.mp hp
    obtain ⟨_, _, e⟩ := List.mem_map.mp hq
    exact hab (Prod.mk.inj e).2.symm

theorem length_positions (w h : Nat) : (positions w h).length = h * w := by
  simp [positions, List.length_flatMap]

/-! ### Change buffer -/

theorem Changes.lookup_insert (k k' : Nat × Nat) (v : Str) (ch : Changes) :
    List.lookup k' (ch.insert k v) = if k' = k then some v else List.lookup k' ch := by
  induction ch with
  | nil =>
    by_cases h : k' = k
    · simp [Changes.insert, h]
    · simp [Changes.insert, List.lookup_cons, h, beq_eq_false_iff_ne.mpr h]
  | cons e ch ih =>
    obtain ⟨k2, v2⟩ := e
    unfold Changes.insert
    split
    · rename_i h; subst h
      by_cases h : k' = k2
      · simp [h]
      · simp [List.lookup_cons, h, beq_eq_false_iff_ne.mpr h]
    · rename_i hne
      by_cases h : k' = k2
      · subst h; simp [hne]
      · simp only [List.lookup_cons, beq_eq_false_iff_ne.mpr h, ih]

/-- The keys of a change buffer. -/
def Changes.keys (ch : Changes) : List (Nat × Nat) := ch.map (·.1)

theorem Changes.mem_keys_insert (k k' : Nat × Nat) (v : Str) (ch : Changes) :
    k' ∈ (ch.insert k v).keys ↔ k' = k ∨ k' ∈ ch.keys := by
  induction ch with
  | nil => simp [Changes.insert, Changes.keys]
  | cons e ch ih =>
    obtain ⟨k2, v2⟩ := e
    unfold Changes.insert
    split
    · rename_i h; subst h; simp [Changes.keys]
    · simp only [Changes.keys, List.map_cons, List.mem_cons] at ih ⊢
      rw [ih]; tauto

theorem Changes.nodup_insert (k : Nat × Nat) (v : Str) (ch : Changes) (h : ch.keys.Nodup) :
    (ch.insert k v).keys.Nodup := by
  induction ch with
  | nil => simp [Changes.insert, Changes.keys]
  | cons e ch ih =>
    obtain ⟨k2, v2⟩ := e
    simp only [Changes.keys, List.map_cons, List.nodup_cons] at h
    unfold Changes.insert
    split
    · rename_i hk; subst hk
      simpa [Changes.keys] using h
    · rename_i hne
      have h1 := ih h.2
      simp only [Changes.keys, List.map_cons, List.nodup_cons]
      refine ⟨?_, h1⟩
      intro hm
      rcases (Changes.mem_keys_insert k k2 v ch).mp hm with rfl | hm
      · exact hne rfl
      · exact h.1 hm

theorem Changes.lookup_isSome (k : Nat × Nat) (ch : Changes) :
    (List.lookup k ch).isSome ↔ k ∈ ch.keys := by
  induction ch with
  | nil => simp [Changes.keys]
  | cons e ch ih =>
    obtain ⟨k2, v2⟩ := e
    by_cases h : k = k2
    · subst h; simp [Changes.keys]
    · simp only [List.lookup_cons, beq_eq_false_iff_ne.mpr h, ih, Changes.keys, List.map_cons,
        List.mem_cons]
      tauto

theorem Changes.lookup_eq_some_iff (ch : Changes) (h : ch.keys.Nodup) (k : Nat × Nat) (v : Str) :
    List.lookup k ch = some v ↔ (k, v) ∈ ch := by
  induction ch with
  | nil => simp
  | cons e ch ih =>
    obtain ⟨k2, v2⟩ := e
    simp only [Changes.keys, List.map_cons, List.nodup_cons] at h
    by_cases hk : k = k2
    · subst hk
      simp only [List.lookup_cons, beq_self_eq_true, List.mem_cons, Prod.mk.injEq, true_and,
        Option.some.injEq]
      constructor
      · rintro rfl; exact .inl rfl
      · rintro (rfl | hm)
        · rfl
        · exact absurd (List.mem_map_of_mem (f := (·.1)) hm) h.1
    · simp only [List.lookup_cons, beq_eq_false_iff_ne.mpr hk, ih h.2, List.mem_cons,
        Prod.mk.injEq, hk, false_and, false_or]

/-! ### The commit loop -/

/-- What the commit loop does at a position: the new cell and whether a newline is
to be emitted, or `none` if the position is not written or already equal. -/
def outcome (tb : Color) (m : Mats) (s : Screen) (p : Nat × Nat) : Option (Cell × Bool) :=
  match m.wm p.1 p.2 with
  | none => none
  | some c =>
    let new := resolveCell tb (m.am p.1 p.2) c
    match cellAt s.cells p.1 p.2 with
    | none => none
    | some old => if new.eq old then none else some (new, endsWith c.char ['\n'])

/-- The screen after one position of the commit loop. -/
def commitStep (env : Color.Env) (tb : Color) (m : Mats) (s : Screen) (p : Nat × Nat) : Screen :=
  match outcome tb m s p with
  | none => s
  | some (new, nl) =>
    { s with cells := setCell s.cells p.1 p.2 new
             changes := s.changes.insert p (changeStr env new nl) }

theorem commitCell_eq (env : Color.Env) (tb : Color) (m : Mats) (s : Screen) (n : Nat)
    (p : Nat × Nat) (h : (cellAt s.cells p.1 p.2).isSome) :
    commitCell env tb m (s, .ok n) p =
      (commitStep env tb m s p, .ok (n + if (outcome tb m s p).isSome then 1 else 0)) := by
  obtain ⟨old, hold⟩ := Option.isSome_iff_exists.mp h
  obtain ⟨x, y⟩ := p
  unfold commitCell commitStep outcome
  simp only at hold
  cases hw : m.wm x y with
  | none => simp [hw]
  | some c =>
    simp only [hw, hold]
    by_cases he : (resolveCell tb (m.am x y) c).eq old = true
    · simp [he]
    · simp [he]

theorem commitStep_frame (env : Color.Env) (tb : Color) (m : Mats) (s : Screen) (p : Nat × Nat) :
    (commitStep env tb m s p).width = s.width ∧ (commitStep env tb m s p).height = s.height ∧
    (commitStep env tb m s p).offset = s.offset ∧ (commitStep env tb m s p).cursor = s.cursor := by
  unfold commitStep; split <;> simp

theorem commitStep_shape (env : Color.Env) (tb : Color) (m : Mats) (s : Screen) (p : Nat × Nat)
    {w h : Nat} (hs : Shape w h s.cells) : Shape w h (commitStep env tb m s p).cells := by
  unfold commitStep; split
  · exact hs
  · exact hs.setCell _ _ _

theorem commitStep_cellAt (env : Color.Env) (tb : Color) (m : Mats) (s : Screen) (p : Nat × Nat)
    (h : (cellAt s.cells p.1 p.2).isSome) (x y : Nat) :
    cellAt (commitStep env tb m s p).cells x y =
      if (x, y) = p then ((outcome tb m s p).map (·.1)).or (cellAt s.cells x y)
      else cellAt s.cells x y := by
  unfold commitStep
  obtain ⟨px, py⟩ := p
  cases ho : outcome tb m s (px, py) with
  | none => simp
  | some r =>
    obtain ⟨new, nl⟩ := r
    simp only [cellAt_setCell x y h, Prod.mk.injEq]
    split <;> simp

theorem commitStep_lookup (env : Color.Env) (tb : Color) (m : Mats) (s : Screen)
    (p k : Nat × Nat) :
    List.lookup k (commitStep env tb m s p).changes =
      if k = p then ((outcome tb m s p).map fun r => changeStr env r.1 r.2).or
        (List.lookup k s.changes)
      else List.lookup k s.changes := by
  unfold commitStep
  cases ho : outcome tb m s p with
  | none => simp
  | some r =>
    obtain ⟨new, nl⟩ := r
    simp only [Changes.lookup_insert]
    split <;> simp

theorem commitStep_nodup (env : Color.Env) (tb : Color) (m : Mats) (s : Screen) (p : Nat × Nat)
    (h : s.changes.keys.Nodup) : (commitStep env tb m s p).changes.keys.Nodup := by
  unfold commitStep; split
  · exact h
  · exact Changes.nodup_insert _ _ _ h

theorem outcome_congr (tb : Color) (m : Mats) {s s' : Screen} {p : Nat × Nat}
    (h : cellAt s.cells p.1 p.2 = cellAt s'.cells p.1 p.2) :
    outcome tb m s p = outcome tb m s' p := by
  unfold outcome; rw [h]

/-- Everything there is to know about the commit loop. -/
theorem commit_fold (env : Color.Env) (tb : Color) (m : Mats) (ps : List (Nat × Nat))
    (s : Screen) (n : Nat) {w h : Nat} (hs : Shape w h s.cells)
    (hps : ∀ p ∈ ps, p.1 < w ∧ p.2 < h) (hnd : ps.Nodup) :
    ∃ s', ps.foldl (commitCell env tb m) (s, .ok n) =
        (s', .ok (n + ps.countP fun p => (outcome tb m s p).isSome)) ∧
      s'.width = s.width ∧ s'.height = s.height ∧ s'.offset = s.offset ∧ s'.cursor = s.cursor ∧
      Shape w h s'.cells ∧
      (∀ x y, cellAt s'.cells x y =
        if (x, y) ∈ ps then ((outcome tb m s (x, y)).map (·.1)).or (cellAt s.cells x y)
        else cellAt s.cells x y) ∧
      (∀ k, List.lookup k s'.changes =
        if k ∈ ps then ((outcome tb m s k).map fun r => changeStr env r.1 r.2).or
          (List.lookup k s.changes)
        else List.lookup k s.changes) ∧
      (s.changes.keys.Nodup → s'.changes.keys.Nodup) := by
  induction ps generalizing s n with
  | nil => exact ⟨s, by simp [hs]⟩
  | cons p ps ih =>
    have hp := hps p (by simp)
    have hsome : (cellAt s.cells p.1 p.2).isSome := hs.cellAt_isSome.mpr hp
    rw [List.nodup_cons] at hnd
    rw [List.foldl_cons, commitCell_eq env tb m s n p hsome]
    obtain ⟨f1, f2, f3, f4⟩ := commitStep_frame env tb m s p
    obtain ⟨s', e, w1, w2, w3, w4, sh, hc, hl, hk⟩ :=
      ih (commitStep env tb m s p) (n + if (outcome tb m s p).isSome then 1 else 0)
        (commitStep_shape env tb m s p hs) (fun q hq => hps q (by simp [hq])) hnd.2
    have hout : ∀ q ∈ ps, outcome tb m (commitStep env tb m s p) q = outcome tb m s q := by
      intro q hq
      apply outcome_congr
      rw [commitStep_cellAt env tb m s p hsome]
      have : q ≠ p := fun e => hnd.1 (e ▸ hq)
      rw [if_neg this]
    refine ⟨s', ?_, w1.trans f1, w2.trans f2, w3.trans f3, w4.trans f4, sh, ?_, ?_, ?_⟩
    · rw [e, List.countP_cons]
      have : List.countP (fun q => (outcome tb m (commitStep env tb m s p) q).isSome) ps =
          List.countP (fun q => (outcome tb m s q).isSome) ps :=
        List.countP_congr (fun q hq => by rw [hout q hq])
      rw [this]; congr 2; omega
    · intro x y
      rw [hc x y, commitStep_cellAt env tb m s p hsome]
      by_cases hm : (x, y) ∈ ps
      · have hne : (x, y) ≠ p := fun e => hnd.1 (e ▸ hm)
        simp only [hm, hne, if_true, if_false, hout _ hm, List.mem_cons, or_true]
      · by_cases he : (x, y) = p
        · subst he; simp [hm]
        · simp [hm, he]
    · intro k
      rw [hl k, commitStep_lookup env tb m s p]
      by_cases hm : k ∈ ps
      · have hne : k ≠ p := fun e => hnd.1 (e ▸ hm)
        simp only [hm, hne, if_true, if_false, hout _ hm, List.mem_cons, or_true]
      · by_cases he : k = p
        · subst he; simp [hm]
        · simp [hm, he]
    · exact fun h => hk (commitStep_nodup env tb m s p h)

/-- The commit loop on a whole screen. -/
theorem commit_spec (env : Color.Env) (tb : Color) (m : Mats) (s : Screen)
    (hs : Shape s.width s.height s.cells) :
    ∃ s', commit env tb m s =
        (s', .ok ((positions s.width s.height).countP fun p => (outcome tb m s p).isSome)) ∧
      s'.width = s.width ∧ s'.height = s.height ∧ s'.offset = s.offset ∧ s'.cursor = s.cursor ∧
      Shape s.width s.height s'.cells ∧
      (∀ x y, cellAt s'.cells x y =
        ((outcome tb m s (x, y)).map (·.1)).or (cellAt s.cells x y)) ∧
      (∀ k, List.lookup k s'.changes =
        ((outcome tb m s k).map fun r => changeStr env r.1 r.2).or (List.lookup k s.changes)) ∧
      (s.changes.keys.Nodup → s'.changes.keys.Nodup) := by
  obtain ⟨s', e, w1, w2, w3, w4, sh, hc, hl, hk⟩ :=
    commit_fold env tb m (positions s.width s.height) s 0 hs
      (fun p hp => mem_positions.mp hp) (nodup_positions _ _)
  have hnone : ∀ p, p ∉ positions s.width s.height → outcome tb m s p = none := by
    intro p hp
    rw [mem_positions] at hp
    have := hs.cellAt_none hp
    unfold outcome
    rw [this]
    split <;> rfl
  refine ⟨s', by rw [commit, e]; simp, w1, w2, w3, w4, sh, ?_, ?_, hk⟩
  · intro x y
    rw [hc]
    split
    · rfl
    · rename_i hn; rw [hnone _ hn]; simp
  · intro k
    rw [hl]
    split
    · rfl
    · rename_i hn; rw [hnone _ hn]; simp

end Slate
