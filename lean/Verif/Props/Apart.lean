import Verif.Props.Layers
import Verif.Props.Draw

/-!
# Texts that do not overlap (C111)
-/

namespace Slate
open Py

/-! ### The queue of changes -/

theorem lookup_of_mem {ch : Changes} (hnd : ch.keys.Nodup) {k : Nat × Nat} {v : Str} (h : (k, v) ∈ ch) :
    List.lookup k ch = some v := by
  induction ch with
  | nil => cases h
  | cons e rest ih =>
    obtain ⟨k', v'⟩ := e
    simp only [Changes.keys, List.map_cons, List.nodup_cons] at hnd
    rcases List.mem_cons.mp h with h | h
    · injection h with h1 h2
      subst h1; subst h2
      simp [List.lookup]
    · have hne : k ≠ k' := by
        rintro rfl
        rename_i h'
        exact hnd.1 (List.mem_map.mpr ⟨(k, v), h', rfl⟩)
      rw [List.lookup_cons, beq_eq_false_iff_ne.mpr hne]
      exact ih hnd.2 h

theorem mem_of_lookup' {ch : Changes} {k : Nat × Nat} {v : Str} (h : List.lookup k ch = some v) : (k, v) ∈ ch := by
  induction ch with
  | nil => cases h
  | cons e rest ih =>
    obtain ⟨k', v'⟩ := e
    rw [List.lookup_cons] at h
    by_cases hk : k = k'
    · subst hk
      simp only [beq_self_eq_true, Option.some.injEq] at h
      subst h
      simp
    · rw [beq_eq_false_iff_ne.mpr hk] at h
      exact List.mem_cons_of_mem _ (ih h)

/-- Two queues that answer every question alike are sent alike. -/
theorem gather_congr {a b : Changes} (ha : a.keys.Nodup) (hb : b.keys.Nodup)
    (h : ∀ k, List.lookup k a = List.lookup k b) : a.gather = b.gather := by
  have hp : a.Perm b := by
    refine (List.perm_ext_iff_of_nodup (List.Nodup.of_map _ ha) (List.Nodup.of_map _ hb)).mpr ?_
    rintro ⟨k, v⟩
    constructor
    · intro hm
      exact mem_of_lookup' ((h k).symm.trans (lookup_of_mem ha hm))
    · intro hm
      exact mem_of_lookup' ((h k).trans (lookup_of_mem hb hm))
  have hg : a.gather.Perm b.gather := ((gather_perm a).trans hp).trans (gather_perm b).symm
  have sa := gather_sorted a ha
  have sb := gather_sorted b hb
  unfold Changes.keys at sa sb
  rw [List.pairwise_map] at sa sb
  refine hg.eq_of_pairwise ?_ sa sb
  intro x y _ _ h1 h2
  unfold Before at h1 h2
  omega

/-! ### Screens that no one can tell apart -/

/-- Equal up to the order in which the pending changes were made. -/
structure Screen.Same (s s' : Screen) : Prop where
  width : s'.width = s.width
  height : s'.height = s.height
  cells : s'.cells = s.cells
  cursor : s'.cursor = s.cursor
  offset : s'.offset = s.offset
  queue : s'.changes.gather = s.changes.gather

theorem Screen.Same.symm {a b : Screen} (h : a.Same b) : b.Same a :=
  ⟨h.width.symm, h.height.symm, h.cells.symm, h.cursor.symm, h.offset.symm, h.queue.symm⟩

theorem Screen.Same.trans {a b c : Screen} (h : a.Same b) (h' : b.Same c) : a.Same c :=
  ⟨h'.width.trans h.width, h'.height.trans h.height, h'.cells.trans h.cells, h'.cursor.trans h.cursor,
    h'.offset.trans h.offset, h'.queue.trans h.queue⟩

/-- The same string is sent by the next draw, and then the screens are equal. -/
theorem Screen.Same.render {s s' : Screen} (h : s.Same s') (origin : Int × Int) (redraw : Bool) :
    s'.render origin redraw = s.render origin redraw := by
  obtain ⟨w, hh, cells, ch, cur, off⟩ := s
  obtain ⟨w', hh', cells', ch', cur', off'⟩ := s'
  obtain ⟨h1, h2, h3, h4, h5, h6⟩ := h
  simp only at h1 h2 h3 h4 h5 h6
  subst h1; subst h2; subst h3; subst h4; subst h5
  unfold Screen.render
  simp only [h6]

/-! ### What two texts do to a cell -/

/-- No cell gets a character of both. -/
def Apart (a b : List Hit) : Prop := ∀ t ∈ a, ∀ u ∈ b, ¬ (t.x = u.x ∧ t.y = u.y)

theorem Apart.symm {a b : List Hit} (h : Apart a b) : Apart b a := fun t ht u hu hh => h u hu t ht ⟨hh.1.symm, hh.2.symm⟩

/-- The entries of the two matrices for a cell. -/
def slotOf (hits : List Hit) (x y : Nat) : Slot := ((hits.foldl Hit.put Mats.blank).wm x y, (hits.foldl Hit.put Mats.blank).am x y)

theorem slotOf_eq (hits : List Hit) (x y : Nat) :
    slotOf hits x y = (hits.filter (Hit.isAt x y)).foldl (fun s t => Slot.put s t.span t.char) (none, []) :=
  foldl_put_slot hits Mats.blank x y

theorem isAt_iff (t : Hit) (x y : Nat) : t.isAt x y = true ↔ t.x = x ∧ t.y = y := by simp [Hit.isAt]

theorem Apart.filter {a b : List Hit} (h : Apart a b) (x y : Nat) :
    a.filter (Hit.isAt x y) = [] ∨ b.filter (Hit.isAt x y) = [] := by
  by_contra hc
  push Not at hc
  obtain ⟨t, ht⟩ := List.exists_mem_of_ne_nil _ hc.1
  obtain ⟨u, hu⟩ := List.exists_mem_of_ne_nil _ hc.2
  rw [List.mem_filter, isAt_iff] at ht hu
  exact h t ht.1 u hu.1 ⟨ht.2.1.trans hu.2.1.symm, ht.2.2.trans hu.2.2.symm⟩

/-- What the commit loop does with a slot at a cell. -/
def slotOutcome (tb : Color) (s : Slot) (old : Option Cell) : Option (Cell × Bool) :=
  match s.1, old with
  | some c, some old => if (resolveCell tb s.2 c).eq old then none else some (resolveCell tb s.2 c, endsWith c.char ['\n'])
  | _, _ => none

theorem outcome_slot (tb : Color) (hits : List Hit) (s : Screen) (x y : Nat) :
    outcome tb (hits.foldl Hit.put Mats.blank) s (x, y) = slotOutcome tb (slotOf hits x y) (cellAt s.cells x y) := by
  unfold outcome slotOutcome slotOf
  simp only
  cases (hits.foldl Hit.put Mats.blank).wm x y with
  | none => rfl
  | some c => cases cellAt s.cells x y <;> rfl

theorem slotOf_nil {hits : List Hit} {x y : Nat} (h : hits.filter (Hit.isAt x y) = []) : slotOf hits x y = (none, []) := by
  rw [slotOf_eq, h]; rfl

theorem Apart.slot {a b : List Hit} (h : Apart a b) (x y : Nat) :
    (slotOf a x y = (none, []) ∧ slotOf (a ++ b) x y = slotOf b x y) ∨
    (slotOf b x y = (none, []) ∧ slotOf (a ++ b) x y = slotOf a x y) := by
  rcases h.filter x y with h | h
  · exact .inl ⟨slotOf_nil h, by rw [slotOf_eq, slotOf_eq, List.filter_append, h, List.nil_append]⟩
  · exact .inr ⟨slotOf_nil h, by rw [slotOf_eq, slotOf_eq, List.filter_append, h, List.append_nil]⟩

/-! ### Calls that do not scroll -/

theorem putData_append (a b : List Entry) (m : Mats) (w : World) :
    putData (a ++ b) m w = match putData a m w with
      | (m, w, some e) => (m, w, some e)
      | (m, w, none) => putData b m w := by
  induction a generalizing m w with
  | nil => rfl
  | cons e rest ih =>
    obtain ⟨c, line⟩ := e
    cases c with
    | none => rfl
    | some xy =>
      have step : ∀ l : List Entry, putData ((some xy, line) :: l) m w =
          match putSpans line 0 { x := xy.1, y := xy.2, last := (line.length : Int) - 1 } m w with
          | (_, m, w, some e) => (m, w, some e)
          | (_, m, w, none) => putData l m w := fun l => by rw [putData]; rfl
      rw [List.cons_append, step, step]
      rcases putSpans line 0 { x := xy.1, y := xy.2, last := (line.length : Int) - 1 } m w with ⟨p1, m1, w1, e1⟩
      cases e1 with
      | some e => rfl
      | none => exact ih m1 w1

/-- If two calls do not scroll, they do not scroll together. -/
theorem still_append (env : Color.Env) (tb : Color) (force : Bool) (a b : Data) (w : World)
    (hs : Shape w.scr.width w.scr.height w.scr.cells) (hok : CacheOk w.cache)
    (ha : (writeBulk env a.entries tb force w).1.scr.offset = w.scr.offset)
    (hb : (writeBulk env b.entries tb force w).1.scr.offset = w.scr.offset) :
    (writeBulk env (Data.entries (a ++ b)) tb force w).1.scr.offset = w.scr.offset := by
  refine offset_zero_of_putData hs ?_
  have h1 := fill_still hs ha
  have h2 := fill_still hs hb
  have e : Data.entries (a ++ b) = a.entries ++ b.entries := List.map_append
  rw [e, putData_append]
  have hf := putData_frame a.entries Mats.blank w
  revert h1 hf
  rcases putData a.entries Mats.blank w with ⟨m1, w1, e1⟩
  intro h1 hf
  cases e1 with
  | some e => exact h1
  | none =>
    simp only at h1 hf ⊢
    obtain ⟨q1, q2⟩ := hf.still h1
    have := putData_still_congr b.entries Mats.blank m1 w w1 hok (q2 hok) (by rw [q1]) (by rw [q1]) (by rw [q1]) h2
    rw [this, h1]

/-- A call that does not scroll does not scroll after another one either. -/
theorem still_after (env : Color.Env) (tb : Color) (force : Bool) (a b : Data) (w : World)
    (hs : Shape w.scr.width w.scr.height w.scr.cells) (hok : CacheOk w.cache)
    (ha : (writeBulk env a.entries tb force w).1.scr.offset = w.scr.offset)
    (hb : (writeBulk env b.entries tb force w).1.scr.offset = w.scr.offset) :
    (writeBulk env b.entries tb force (writeBulk env a.entries tb force w).1).1.scr.offset = w.scr.offset := by
  obtain ⟨hok1, -, hw⟩ := wrote_of_still env a tb force w hs hok ha
  have hs1 : Shape (writeBulk env a.entries tb force w).1.scr.width (writeBulk env a.entries tb force w).1.scr.height
      (writeBulk env a.entries tb force w).1.scr.cells := by rw [hw.width, hw.height]; exact hw.shape
  have := putData_still_congr b.entries Mats.blank Mats.blank w _ hok hok1 hw.width hw.height hw.offset (fill_still hs hb)
  rw [offset_zero_of_putData hs1 this, hw.offset]

/-- Everything about a call that does not scroll, in terms of slots. -/
theorem wrote_slots (env : Color.Env) (d : Data) (tb : Color) (force : Bool) (w : World)
    (hs : Shape w.scr.width w.scr.height w.scr.cells) (hok : CacheOk w.cache)
    (ho : (writeBulk env d.entries tb force w).1.scr.offset = w.scr.offset) :
    (writeBulk env d.entries tb force w).2 = .ok ((positions w.scr.width w.scr.height).countP fun p =>
      (slotOutcome tb (slotOf (dataHits w.scr.width w.scr.height w.scr.offset d) p.1 p.2) (cellAt w.scr.cells p.1 p.2)).isSome) ∧
    (∀ x y, cellAt (writeBulk env d.entries tb force w).1.scr.cells x y =
      ((slotOutcome tb (slotOf (dataHits w.scr.width w.scr.height w.scr.offset d) x y) (cellAt w.scr.cells x y)).map (·.1)).or
        (cellAt w.scr.cells x y)) ∧
    (∀ x y, List.lookup (x, y) (writeBulk env d.entries tb force w).1.scr.changes =
      ((slotOutcome tb (slotOf (dataHits w.scr.width w.scr.height w.scr.offset d) x y) (cellAt w.scr.cells x y)).map
        fun r => changeStr env r.1 r.2).or (List.lookup (x, y) w.scr.changes)) := by
  obtain ⟨-, h2⟩ := writeBulk_still env d.entries tb force w hs hok ho
  rcases h2 with ⟨-, -, e, he, hn⟩ | ⟨d', hd, hr, h3⟩
  · obtain ⟨e', -, rfl⟩ := List.mem_map.mp he
    cases hn
  · have : d = d' := Data.entries_inj hd
    subst this
    rw [fillData_hits] at h3 hr
    refine ⟨?_, ?_, ?_⟩
    · rw [hr]
      congr 1
      refine List.countP_congr fun p _ => ?_
      rw [outcome_slot tb _ w.scr p.1 p.2]
    · intro x y
      rw [h3.cell, outcome_slot]
    · intro x y
      rw [h3.pending, outcome_slot]

theorem dataHits_append (w h : Nat) (off : Int) (a b : Data) :
    dataHits w h off (a ++ b) = dataHits w h off a ++ dataHits w h off b := by simp [dataHits]

theorem slotOutcome_none (tb : Color) (old : Option Cell) : slotOutcome tb (none, []) old = none := rfl

/-- Two screens written by calls that do not scroll, with the same slots and the same cells before. -/
theorem same_of {env : Color.Env} {tb : Color} {m m' : Mats} {s s1 a b : Screen} (hs : s.changes.keys.Nodup)
    (hs1 : s1.changes.keys.Nodup) (ha : Wrote env tb m s a) (hb : Wrote env tb m' s1 b) (hw : s1.width = s.width) (hh : s1.height = s.height)
    (ho : s1.offset = s.offset) (hcu : s1.cursor = s.cursor) (hc : ∀ x y, cellAt b.cells x y = cellAt a.cells x y)
    (hl : ∀ x y, List.lookup (x, y) b.changes = List.lookup (x, y) a.changes) : a.Same b := by
  refine ⟨by rw [hb.width, ha.width, hw], by rw [hb.height, ha.height, hh], ?_, by rw [hb.cursor, ha.cursor, hcu],
    by rw [hb.offset, ha.offset, ho], ?_⟩
  · have h1 := hb.shape
    rw [hw, hh] at h1
    exact Shape.ext h1 ha.shape fun x y _ _ => hc x y
  · exact gather_congr (hb.nodup hs1) (ha.nodup hs) fun k => hl k.1 k.2

/-- Two calls on cells of their own, in terms of the places where the characters fall: on any screen, with any spans. -/
theorem apart_calls (env : Color.Env) (tb : Color) (force : Bool) (a b : Data) (w : World)
    (hs : Shape w.scr.width w.scr.height w.scr.cells) (hok : CacheOk w.cache) (hnd : w.scr.changes.keys.Nodup)
    (ha : (writeBulk env a.entries tb force w).1.scr.offset = w.scr.offset)
    (hb : (writeBulk env b.entries tb force w).1.scr.offset = w.scr.offset)
    (hap : Apart (dataHits w.scr.width w.scr.height w.scr.offset a) (dataHits w.scr.width w.scr.height w.scr.offset b)) :
    (writeBulk env (Data.entries (a ++ b)) tb force w).1.scr.Same
      (writeBulk env b.entries tb force (writeBulk env a.entries tb force w).1).1.scr ∧
    ∃ n k, (writeBulk env a.entries tb force w).2 = .ok n ∧ (writeBulk env b.entries tb force w).2 = .ok k ∧
      (writeBulk env b.entries tb force (writeBulk env a.entries tb force w).1).2 = .ok k ∧
      (writeBulk env (Data.entries (a ++ b)) tb force w).2 = .ok (n + k) := by
  have hab := still_append env tb force a b w hs hok ha hb
  have hba := still_after env tb force a b w hs hok ha hb
  obtain ⟨hok1, -, hwa⟩ := wrote_of_still env a tb force w hs hok ha
  obtain ⟨-, -, hwab⟩ := wrote_of_still env (a ++ b) tb force w hs hok hab
  have hs1 : Shape (writeBulk env a.entries tb force w).1.scr.width (writeBulk env a.entries tb force w).1.scr.height
      (writeBulk env a.entries tb force w).1.scr.cells := by rw [hwa.width, hwa.height]; exact hwa.shape
  have hba' := hba.trans hwa.offset.symm
  obtain ⟨-, -, hwba⟩ := wrote_of_still env b tb force _ hs1 hok1 hba'
  obtain ⟨ra, ca, la⟩ := wrote_slots env a tb force w hs hok ha
  obtain ⟨rb, cb, lb⟩ := wrote_slots env b tb force w hs hok hb
  obtain ⟨rab, cab, lab⟩ := wrote_slots env (a ++ b) tb force w hs hok hab
  obtain ⟨rba, cba, lba⟩ := wrote_slots env b tb force _ hs1 hok1 hba'
  rw [hwa.width, hwa.height, hwa.offset] at rba cba lba
  rw [dataHits_append] at rab cab lab
  -- the second call finds its cells as they were
  have hsec : ∀ x y, slotOutcome tb (slotOf (dataHits w.scr.width w.scr.height w.scr.offset b) x y)
      (cellAt (writeBulk env a.entries tb force w).1.scr.cells x y) =
      slotOutcome tb (slotOf (dataHits w.scr.width w.scr.height w.scr.offset b) x y) (cellAt w.scr.cells x y) := by
    intro x y
    rcases hap.slot x y with ⟨h1, -⟩ | ⟨h1, -⟩
    · rw [ca x y, h1, slotOutcome_none]; rfl
    · rw [h1, slotOutcome_none, slotOutcome_none]
  have hboth : ∀ x y, slotOutcome tb (slotOf (dataHits w.scr.width w.scr.height w.scr.offset a ++
        dataHits w.scr.width w.scr.height w.scr.offset b) x y) (cellAt w.scr.cells x y) =
      (slotOutcome tb (slotOf (dataHits w.scr.width w.scr.height w.scr.offset b) x y) (cellAt w.scr.cells x y)).or
      (slotOutcome tb (slotOf (dataHits w.scr.width w.scr.height w.scr.offset a) x y) (cellAt w.scr.cells x y)) := by
    intro x y
    rcases hap.slot x y with ⟨h1, h2⟩ | ⟨h1, h2⟩
    · rw [h2, h1, slotOutcome_none, Option.or_none]
    · rw [h2, h1, slotOutcome_none, Option.none_or]
  have hone : ∀ x y, slotOutcome tb (slotOf (dataHits w.scr.width w.scr.height w.scr.offset b) x y) (cellAt w.scr.cells x y) = none ∨
      slotOutcome tb (slotOf (dataHits w.scr.width w.scr.height w.scr.offset a) x y) (cellAt w.scr.cells x y) = none := by
    intro x y
    rcases hap.slot x y with ⟨h1, -⟩ | ⟨h1, -⟩
    · exact .inr (by rw [h1, slotOutcome_none])
    · exact .inl (by rw [h1, slotOutcome_none])
  refine ⟨same_of hnd (hwa.nodup hnd) hwab hwba hwa.width hwa.height hwa.offset hwa.cursor ?_ ?_, _, _, ra, rb, ?_, ?_⟩
  · intro x y
    rw [cba, cab, hsec, ca x y, hboth]
    cases slotOutcome tb (slotOf (dataHits w.scr.width w.scr.height w.scr.offset b) x y) (cellAt w.scr.cells x y) <;> rfl
  · intro x y
    rw [lba, lab, hsec, la x y, hboth]
    cases slotOutcome tb (slotOf (dataHits w.scr.width w.scr.height w.scr.offset b) x y) (cellAt w.scr.cells x y) <;> rfl
  · rw [rba]
    simp only [hsec]
  · rw [rab]
    simp only [hboth]
    congr 1
    generalize positions w.scr.width w.scr.height = ps
    induction ps with
    | nil => rfl
    | cons p ps ih =>
      rw [List.countP_cons, List.countP_cons, List.countP_cons, ih]
      rcases hone p.1 p.2 with h | h
      · simp only [h, Option.none_or, Option.isSome_none, Bool.false_eq_true, if_false]; omega
      · simp only [h, Option.or_none, Option.isSome_none, Bool.false_eq_true, if_false]; omega

/-- Two calls that put the same characters on every cell, in the same order. -/
theorem same_calls (env : Color.Env) (tb : Color) (force : Bool) (d d' : Data) (w : World)
    (hs : Shape w.scr.width w.scr.height w.scr.cells) (hok : CacheOk w.cache) (hnd : w.scr.changes.keys.Nodup)
    (hd : (writeBulk env d.entries tb force w).1.scr.offset = w.scr.offset)
    (hd' : (writeBulk env d'.entries tb force w).1.scr.offset = w.scr.offset)
    (he : ∀ x y, (dataHits w.scr.width w.scr.height w.scr.offset d).filter (Hit.isAt x y) =
      (dataHits w.scr.width w.scr.height w.scr.offset d').filter (Hit.isAt x y)) :
    (writeBulk env d.entries tb force w).1.scr.Same (writeBulk env d'.entries tb force w).1.scr ∧
    (writeBulk env d'.entries tb force w).2 = (writeBulk env d.entries tb force w).2 := by
  obtain ⟨-, -, hw⟩ := wrote_of_still env d tb force w hs hok hd
  obtain ⟨-, -, hw'⟩ := wrote_of_still env d' tb force w hs hok hd'
  obtain ⟨r, c, l⟩ := wrote_slots env d tb force w hs hok hd
  obtain ⟨r', c', l'⟩ := wrote_slots env d' tb force w hs hok hd'
  have e : ∀ x y, slotOf (dataHits w.scr.width w.scr.height w.scr.offset d') x y =
      slotOf (dataHits w.scr.width w.scr.height w.scr.offset d) x y := fun x y => by rw [slotOf_eq, slotOf_eq, he x y]
  refine ⟨same_of hnd hnd hw hw' rfl rfl rfl rfl (fun x y => ?_) (fun x y => ?_), ?_⟩
  · rw [c', c, e]
  · rw [l', l, e]
  · rw [r', r]; simp only [e]

/-! ### Many lines -/

/-- Lists of which at most one is not empty may be joined in any order. -/
theorem flatMap_perm {α β : Type} (g : α → List β) {l l' : List α} (h : l.Perm l') (hp : l.Pairwise fun a b => g a = [] ∨ g b = []) :
    l.flatMap g = l'.flatMap g := by
  induction h with
  | nil => rfl
  | cons a _ ih => rw [List.flatMap_cons, List.flatMap_cons, ih (List.pairwise_cons.mp hp).2]
  | swap a b l =>
    rw [List.flatMap_cons, List.flatMap_cons, List.flatMap_cons, List.flatMap_cons]
    rcases (List.pairwise_cons.mp hp).1 a (by simp) with h | h <;> simp [h]
  | trans h1 _ ih1 ih2 =>
    rw [ih1 hp, ih2 ((h1.pairwise_iff fun h => h.symm).mp hp)]

theorem dataHits_flatMap (w h : Nat) (off : Int) (d : Data) (x y : Nat) :
    (dataHits w h off d).filter (Hit.isAt x y) = d.flatMap fun e => (dataHits w h off [e]).filter (Hit.isAt x y) := by
  induction d with
  | nil => rfl
  | cons e d ih =>
    rw [List.flatMap_cons, ← ih, ← List.filter_append, ← dataHits_append]
    rfl

/-- If a call does not scroll, the call without its first line does not either, nor the first line alone. -/
theorem still_split (env : Color.Env) (tb : Color) (force : Bool) (a b : Data) (w : World)
    (hs : Shape w.scr.width w.scr.height w.scr.cells) (hok : CacheOk w.cache)
    (h : (writeBulk env (Data.entries (a ++ b)) tb force w).1.scr.offset = w.scr.offset) :
    (writeBulk env a.entries tb force w).1.scr.offset = w.scr.offset ∧
    (writeBulk env b.entries tb force w).1.scr.offset = w.scr.offset := by
  have h1 := fill_still hs h
  have e : Data.entries (a ++ b) = a.entries ++ b.entries := List.map_append
  rw [e, putData_append] at h1
  have hf := putData_frame a.entries Mats.blank w
  have key : (putData a.entries Mats.blank w).2.1.scr.offset = w.scr.offset := by
    revert hf h1
    rcases putData a.entries Mats.blank w with ⟨m1, w1, e1⟩
    intro h1 hf
    cases e1 with
    | some e => exact h1
    | none =>
      simp only at h1 hf ⊢
      have := (putData_frame b.entries m1 w1).offset
      have := hf.offset
      omega
  have ha := offset_zero_of_putData (env := env) (tb := tb) (force := force) hs key
  refine ⟨ha, offset_zero_of_putData hs ?_⟩
  obtain ⟨-, ⟨n, hn⟩, -⟩ := wrote_of_still env a tb force w hs hok ha
  unfold writeBulk at hn
  revert hf h1 key hn
  rcases putData a.entries Mats.blank w with ⟨m1, w1, e1⟩
  intro h1 hf key hn
  cases e1 with
  | some e => cases hn
  | none =>
    simp only at h1 hf key
    obtain ⟨q1, q2⟩ := hf.still key
    exact putData_still_congr b.entries m1 Mats.blank w1 w (q2 hok) hok (by rw [q1]) (by rw [q1]) (by rw [q1]) (h1.trans key.symm)

theorem still_perm (env : Color.Env) (tb : Color) (force : Bool) {d d' : Data} (hp : d.Perm d') (w : World)
    (hs : Shape w.scr.width w.scr.height w.scr.cells) (hok : CacheOk w.cache)
    (h : (writeBulk env d.entries tb force w).1.scr.offset = w.scr.offset) :
    (writeBulk env d'.entries tb force w).1.scr.offset = w.scr.offset := by
  induction hp with
  | nil => exact h
  | cons e _ ih =>
    rename_i l l' _
    obtain ⟨h1, h2⟩ := still_split env tb force [e] l w hs hok h
    exact still_append env tb force [e] l' w hs hok h1 (ih h2)
  | swap a b l =>
    obtain ⟨h1, h2⟩ := still_split env tb force [b] (a :: l) w hs hok h
    obtain ⟨h3, h4⟩ := still_split env tb force [a] l w hs hok h2
    exact still_append env tb force [a] (b :: l) w hs hok h3 (still_append env tb force [b] l w hs hok h1 h4)
  | trans _ _ ih1 ih2 => exact ih2 (ih1 h)

/-- Single writes of lines that do not meet, in the order of a bulk write. -/
theorem each_same (env : Color.Env) (tb : Color) (force : Bool) (d : Data) (w : World)
    (hs : Shape w.scr.width w.scr.height w.scr.cells) (hok : CacheOk w.cache) (hnd : w.scr.changes.keys.Nodup)
    (ho : (writeBulk env d.entries tb force w).1.scr.offset = w.scr.offset)
    (hd : d.Pairwise fun e e' => Apart (dataHits w.scr.width w.scr.height w.scr.offset [e]) (dataHits w.scr.width w.scr.height w.scr.offset [e'])) :
    (writeBulk env d.entries tb force w).1.scr.Same (writeEach env tb force w d).scr := by
  induction d generalizing w with
  | nil =>
    obtain ⟨-, -, hw⟩ := wrote_of_still env [] tb force w hs hok ho
    have hc : ∀ x y, cellAt (writeBulk env (Data.entries []) tb force w).1.scr.cells x y = cellAt w.scr.cells x y := by
      intro x y; rw [hw.cell]; rfl
    exact ⟨hw.width.symm, hw.height.symm, Shape.ext hs hw.shape fun x y _ _ => (hc x y).symm, hw.cursor.symm, hw.offset.symm,
      gather_congr hnd (hw.nodup hnd) fun k => by rw [hw.pending]; rfl⟩
  | cons e rest ih =>
    obtain ⟨h1, h2⟩ := still_split env tb force [e] rest w hs hok ho
    obtain ⟨he, hr⟩ := List.pairwise_cons.mp hd
    obtain ⟨hok1, -, hw⟩ := wrote_of_still env [e] tb force w hs hok h1
    have hap : Apart (dataHits w.scr.width w.scr.height w.scr.offset [e]) (dataHits w.scr.width w.scr.height w.scr.offset rest) := by
      intro t ht u hu
      have : ∃ e' ∈ rest, u ∈ dataHits w.scr.width w.scr.height w.scr.offset [e'] := by
        have := List.mem_filter.mpr ⟨hu, (isAt_iff u u.x u.y).mpr ⟨rfl, rfl⟩⟩
        rw [dataHits_flatMap] at this
        obtain ⟨e', he', hm⟩ := List.mem_flatMap.mp this
        exact ⟨e', he', (List.mem_filter.mp hm).1⟩
      obtain ⟨e', he', hm⟩ := this
      exact he e' he' t ht u hm
    obtain ⟨s1, -⟩ := apart_calls env tb force [e] rest w hs hok hnd h1 h2 hap
    have ha := still_after env tb force [e] rest w hs hok h1 h2
    have i := ih (writeBulk env (Data.entries [e]) tb force w).1 (by rw [hw.width, hw.height]; exact hw.shape) hok1 (hw.nodup hnd)
      (ha.trans hw.offset.symm) (by rw [hw.width, hw.height, hw.offset]; exact hr)
    exact s1.trans i

/-! ## C111 -/

/-- No cell of the screen gets a character of both calls. -/
def NoOverlap (w h : Nat) (a b : Data) : Prop := ∀ x y, x < w → y < h → layersAt w h a x y = [] ∨ layersAt w h b x y = []

theorem NoOverlap.apart {w h : Nat} {off : Int} {a b : Data} (hd : NoOverlap w h (placed w h off a) (placed w h off b)) :
    Apart (dataHits w h off a) (dataHits w h off b) := by
  rintro t ht u hu ⟨hx, hy⟩
  obtain ⟨h1, h2, -⟩ := dataHits_mem w h off a t ht
  have none_of : ∀ (d : Data), layersAt w h (placed w h off d) t.x t.y = [] → (dataHits w h off d).filter (Hit.isAt t.x t.y) = [] := by
    intro d hl
    have := dataHits_layers (placed w h off d) h1 h2
    rw [hl, ← dataHits_placed w h off d] at this
    exact List.map_eq_nil_iff.mp this
  rcases hd t.x t.y h1 h2 with hl | hl
  · have hm : t ∈ (dataHits w h off a).filter (Hit.isAt t.x t.y) := List.mem_filter.mpr ⟨ht, (isAt_iff _ _ _).mpr ⟨rfl, rfl⟩⟩
    rw [none_of a hl] at hm
    cases hm
  · have hm : u ∈ (dataHits w h off b).filter (Hit.isAt t.x t.y) :=
      List.mem_filter.mpr ⟨hu, (isAt_iff _ _ _).mpr ⟨hx.symm, hy.symm⟩⟩
    rw [none_of b hl] at hm
    cases hm

/-- On a screen that has not scrolled, where each line is one running text, or of lines of one span. -/
theorem NoOverlap.flow {w h : Nat} {off : Int} {a b : Data} (h0 : off = 0 ∨ ∀ e ∈ a ++ b, e.2.length ≤ 1)
    (hd : NoOverlap w h (raised off a) (raised off b)) : NoOverlap w h (placed w h off a) (placed w h off b) := by
  intro x y hx hy
  rw [layersAt_placed hx hy off a (h0.imp id fun h e he => h e (by simp [he])), layersAt_placed hx hy off b (h0.imp id fun h e he => h e (by simp [he]))]
  exact hd x y hx hy

/-- `C111_two_partial` with a cache that is right about everything. -/
theorem two_calls (env : Color.Env) (tb : Color) (force : Bool) (a b : Data) (w : World)
    (hs : Shape w.scr.width w.scr.height w.scr.cells) (hok : CacheOk w.cache) (hnd : w.scr.changes.keys.Nodup)
    (ha : (writeBulk env a.entries tb force w).1.scr.offset = w.scr.offset) (hb : (writeBulk env b.entries tb force w).1.scr.offset = w.scr.offset)
    (hd : NoOverlap w.scr.width w.scr.height (placed w.scr.width w.scr.height w.scr.offset a) (placed w.scr.width w.scr.height w.scr.offset b)) :
    let both := writeBulk env (Data.entries (a ++ b)) tb force w
    let turned := writeBulk env (Data.entries (b ++ a)) tb force w
    let ab := writeBulk env b.entries tb force (writeBulk env a.entries tb force w).1
    let ba := writeBulk env a.entries tb force (writeBulk env b.entries tb force w).1
    both.1.scr.Same turned.1.scr ∧ both.1.scr.Same ab.1.scr ∧ both.1.scr.Same ba.1.scr ∧
    ∃ n k, (writeBulk env a.entries tb force w).2 = .ok n ∧ (writeBulk env b.entries tb force w).2 = .ok k ∧
      ab.2 = .ok k ∧ ba.2 = .ok n ∧ both.2 = .ok (n + k) ∧ turned.2 = .ok (n + k) := by
  have hap := hd.apart
  obtain ⟨s1, n, k, r1, r2, r3, r4⟩ := apart_calls env tb force a b w hs hok hnd ha hb hap
  obtain ⟨s2, k', n', q1, q2, q3, q4⟩ := apart_calls env tb force b a w hs hok hnd hb ha hap.symm
  have hk : k' = k := by rw [r2] at q1; injection q1 with e; exact e.symm
  have hn : n' = n := by rw [r1] at q2; injection q2 with e; exact e.symm
  subst hk; subst hn
  obtain ⟨s3, -⟩ := same_calls env tb force (a ++ b) (b ++ a) w hs hok hnd (still_append env tb force a b w hs hok ha hb)
    (still_append env tb force b a w hs hok hb ha) fun x y => by
      rw [dataHits_append, dataHits_append, List.filter_append, List.filter_append]
      rcases hap.filter x y with h | h <;> simp [h]
  exact ⟨s3, s1, s3.trans s2, n', k', r1, r2, r3, q3, r4, by rw [q4, Nat.add_comm]⟩

/-- `C111_many_partial` with a cache that is right about everything. -/
theorem many_calls (env : Color.Env) (tb : Color) (force : Bool) (d : Data) (w : World)
    (hs : Shape w.scr.width w.scr.height w.scr.cells) (hok : CacheOk w.cache) (hnd : w.scr.changes.keys.Nodup)
    (ho : (writeBulk env d.entries tb force w).1.scr.offset = w.scr.offset)
    (hd : d.Pairwise fun e e' => NoOverlap w.scr.width w.scr.height (placed w.scr.width w.scr.height w.scr.offset [e]) (placed w.scr.width w.scr.height w.scr.offset [e']))
    (d' : Data) (hp : d.Perm d') :
    (writeBulk env d.entries tb force w).1.scr.Same (writeBulk env d'.entries tb force w).1.scr ∧
    (writeBulk env d'.entries tb force w).2 = (writeBulk env d.entries tb force w).2 ∧
    (writeBulk env d.entries tb force w).1.scr.Same (writeEach env tb force w d').scr := by
  have ho' := still_perm env tb force hp w hs hok ho
  have hap : d.Pairwise fun e e' => Apart (dataHits w.scr.width w.scr.height w.scr.offset [e]) (dataHits w.scr.width w.scr.height w.scr.offset [e']) := by
    refine hd.imp_of_mem ?_
    intro e e' he he' h
    exact h.apart
  have hap' := (hp.pairwise_iff fun h => Apart.symm h).mp hap
  obtain ⟨s1, r1⟩ := same_calls env tb force d d' w hs hok hnd ho ho' fun x y => by
    rw [dataHits_flatMap, dataHits_flatMap]
    exact flatMap_perm _ hp (hap.imp fun h => h.filter x y)
  refine ⟨s1, r1, s1.trans ?_⟩
  exact each_same env tb force d' w hs hok hnd ho' hap'

/-- **C111**, what is seen: screens that are the same send the same string with the next draw, and are equal afterwards. -/
theorem C111_drawn {s s' : Screen} (h : s.Same s') (origin : Int × Int) (redraw : Bool) :
    s'.render origin redraw = s.render origin redraw := h.render origin redraw

/-- Single writes that do not scroll, with two caches that are right about the spans. -/
theorem writeEach_on {P : Span → Prop} (env : Color.Env) (tb : Color) (force : Bool) (d : Data) (w w' : World) (hscr : w'.scr = w.scr)
    (hs : Shape w.scr.width w.scr.height w.scr.cells) (hok : CacheOk w.cache) (hok' : CacheOkOn P w'.cache) (hd : ∀ e ∈ d, ∀ s ∈ e.2, P s)
    (ho : (writeBulk env d.entries tb force w).1.scr.offset = w.scr.offset) :
    (writeEach env tb force w' d).scr = (writeEach env tb force w d).scr := by
  induction d generalizing w w' with
  | nil => exact hscr
  | cons e rest ih =>
    obtain ⟨h1, h2⟩ := still_split env tb force [e] rest w hs hok ho
    obtain ⟨hok1, -, hw⟩ := wrote_of_still env [e] tb force w hs hok h1
    obtain ⟨q1, -, -, q4⟩ := writeBulk_on env [e] tb force w w' hscr hs (hok.on P) hok' (by simpa using hd e (by simp)) h1
    have i := ih (writeBulk env (Data.entries [e]) tb force w).1 (writeBulk env (Data.entries [e]) tb force w').1 q1
      (by rw [hw.width, hw.height]; exact hw.shape) hok1 q4 (fun e he => hd e (by simp [he])) ((still_after env tb force [e] rest w hs hok h1 h2).trans hw.offset.symm)
    exact i

/-- **C111**, two calls: if neither scrolls and no cell gets characters of both (`placed` says where they fall on a screen that has scrolled before), then it makes no difference which call is made first
and whether one call is made for both: the screen is the same, also for the next draw, and the numbers of changes add up. Each call
counts the same changes as if the other one had not been made. -/
theorem C111_two_partial (env : Color.Env) (tb : Color) (force : Bool) (a b : Data) (w : World)
    (hs : Shape w.scr.width w.scr.height w.scr.cells) (hok : CacheOkOn (Data.Has (a ++ b)) w.cache) (hnd : w.scr.changes.keys.Nodup)
    (ha : (writeBulk env a.entries tb force w).1.scr.offset = w.scr.offset) (hb : (writeBulk env b.entries tb force w).1.scr.offset = w.scr.offset)
    (hd : NoOverlap w.scr.width w.scr.height (placed w.scr.width w.scr.height w.scr.offset a) (placed w.scr.width w.scr.height w.scr.offset b)) :
    let both := writeBulk env (Data.entries (a ++ b)) tb force w
    let turned := writeBulk env (Data.entries (b ++ a)) tb force w
    let ab := writeBulk env b.entries tb force (writeBulk env a.entries tb force w).1
    let ba := writeBulk env a.entries tb force (writeBulk env b.entries tb force w).1
    both.1.scr.Same turned.1.scr ∧ both.1.scr.Same ab.1.scr ∧ both.1.scr.Same ba.1.scr ∧
    ∃ n k, (writeBulk env a.entries tb force w).2 = .ok n ∧ (writeBulk env b.entries tb force w).2 = .ok k ∧
      ab.2 = .ok k ∧ ba.2 = .ok n ∧ both.2 = .ok (n + k) ∧ turned.2 = .ok (n + k) := by
  obtain ⟨P, hP⟩ : ∃ P, P = Data.Has (a ++ b) := ⟨_, rfl⟩
  rw [← hP] at hok
  have pa : ∀ e ∈ a, ∀ s ∈ e.2, P s := fun e he s hs => hP ▸ ⟨e, by simp [he], hs⟩
  have pb : ∀ e ∈ b, ∀ s ∈ e.2, P s := fun e he s hs => hP ▸ ⟨e, by simp [he], hs⟩
  have pab : ∀ e ∈ a ++ b, ∀ s ∈ e.2, P s := fun e he s hs => hP ▸ ⟨e, he, hs⟩
  have pba : ∀ e ∈ b ++ a, ∀ s ∈ e.2, P s := fun e he s hs => hP ▸ ⟨e, by simpa [or_comm] using he, hs⟩
  obtain ⟨a1, a2, a3, a4⟩ := writeBulk_on env a tb force w w.fresh rfl hs hok (w.fresh_ok.on P) pa ha
  obtain ⟨b1, b2, b3, b4⟩ := writeBulk_on env b tb force w w.fresh rfl hs hok (w.fresh_ok.on P) pb hb
  have ha' := ha
  have hb' := hb
  rw [← a1] at ha'
  rw [← b1] at hb'
  have hab := still_append env tb force a b w.fresh hs w.fresh_ok ha' hb'
  have hba := still_append env tb force b a w.fresh hs w.fresh_ok hb' ha'
  have hthen := still_after env tb force a b w.fresh hs w.fresh_ok ha' hb'
  have hthen' := still_after env tb force b a w.fresh hs w.fresh_ok hb' ha'
  obtain ⟨-, -, wa⟩ := wrote_of_still env a tb force w.fresh hs w.fresh_ok ha'
  obtain ⟨-, -, wb⟩ := wrote_of_still env b tb force w.fresh hs w.fresh_ok hb'
  obtain ⟨c1, c2, -⟩ := writeBulk_on env (a ++ b) tb force w.fresh w rfl hs (w.fresh_ok.on P) hok pab hab
  obtain ⟨d1, d2, -⟩ := writeBulk_on env (b ++ a) tb force w.fresh w rfl hs (w.fresh_ok.on P) hok pba hba
  obtain ⟨e1, e2, -⟩ := writeBulk_on env b tb force _ _ a1.symm (by rw [wa.width, wa.height]; exact wa.shape) a4 a3 pb (hthen.trans wa.offset.symm)
  obtain ⟨f1, f2, -⟩ := writeBulk_on env a tb force _ _ b1.symm (by rw [wb.width, wb.height]; exact wb.shape) b4 b3 pa (hthen'.trans wb.offset.symm)
  have h := two_calls env tb force a b w.fresh hs w.fresh_ok hnd ha' hb' hd
  simp only [← c1, ← c2, ← d1, ← d2, ← e1, ← e2, ← f1, ← f2, a2, b2] at h
  exact h

/-- **C111**, any number of lines: a bulk write of lines of which no two meet, that does not scroll, may name its lines in any order
and may be replaced by single writes in any order. -/
theorem C111_many_partial (env : Color.Env) (tb : Color) (force : Bool) (d : Data) (w : World)
    (hs : Shape w.scr.width w.scr.height w.scr.cells) (hok : CacheOkOn d.Has w.cache) (hnd : w.scr.changes.keys.Nodup)
    (ho : (writeBulk env d.entries tb force w).1.scr.offset = w.scr.offset)
    (hd : d.Pairwise fun e e' => NoOverlap w.scr.width w.scr.height (placed w.scr.width w.scr.height w.scr.offset [e]) (placed w.scr.width w.scr.height w.scr.offset [e']))
    (d' : Data) (hp : d.Perm d') :
    (writeBulk env d.entries tb force w).1.scr.Same (writeBulk env d'.entries tb force w).1.scr ∧
    (writeBulk env d'.entries tb force w).2 = (writeBulk env d.entries tb force w).2 ∧
    (writeBulk env d.entries tb force w).1.scr.Same (writeEach env tb force w d').scr := by
  have p : ∀ e ∈ d, ∀ s ∈ e.2, d.Has s := fun e he s hs => ⟨e, he, hs⟩
  have p' : ∀ e ∈ d', ∀ s ∈ e.2, d.Has s := fun e he s hs => ⟨e, hp.mem_iff.mpr he, hs⟩
  obtain ⟨a1, a2, -⟩ := writeBulk_on env d tb force w w.fresh rfl hs hok (w.fresh_ok.on _) p ho
  rw [← a1] at ho
  have ho' := still_perm env tb force hp w.fresh hs w.fresh_ok ho
  obtain ⟨b1, b2, -⟩ := writeBulk_on env d' tb force w.fresh w rfl hs (w.fresh_ok.on _) hok p' ho'
  rw [← a1, ← a2, b1, b2, writeEach_on env tb force d' w.fresh w rfl hs w.fresh_ok hok p' ho']
  exact many_calls env tb force d w.fresh hs w.fresh_ok hnd ho hd d' hp

/-- Three texts on cells of their own, one of them translucent and one wrapping into the next row. -/
def C111ex.data : Data :=
  [((0, 0), [{ text := "ab".toList, bg := some { r := 200, g := 0, b := 0, isBg := true, alpha := 1 / 2 } }]),
   ((3, 0), [{ text := "cd".toList, style := { bold := true } }, { text := "e".toList }]),
   ((1, 2), [{ text := "f".toList }])]

/-- The hypotheses of `C111_many_partial` hold on a screen with other content, and the last line may come first. -/
example :
    let w : World := { scr := ((writeBulk {} [(some (0, 0), [{ text := "old text".toList }])] Color.black false
      { scr := Screen.init 4 3 }).1.scr.render).1 }
    w.scr.changes.keys.Nodup ∧ w.scr.offset = 0 ∧ (writeBulk {} C111ex.data.entries Color.black false w).1.scr.offset = 0 ∧
    ((List.range 3).map fun y => (List.range 4).map fun x => C111ex.data.map fun e => (layersAt 4 3 [e] x y).length) =
      [[[1, 0, 0], [1, 0, 0], [0, 0, 0], [0, 1, 0]], [[0, 1, 0], [0, 1, 0], [0, 0, 0], [0, 0, 0]],
       [[0, 0, 0], [0, 0, 1], [0, 0, 0], [0, 0, 0]]] ∧
    (writeBulk {} C111ex.data.entries Color.black false w).2 = .ok 5 ∧
    (writeEach {} Color.black false w C111ex.data.reverse).scr.changes ≠ (writeBulk {} C111ex.data.entries Color.black false w).1.scr.changes := by
  decide +kernel

/-- The hypotheses of `C111_two_partial` on a screen that has scrolled, with line breaks: the text "ab" and the "c" below and behind it, and an "x"
between them. -/
example :
    let w : World := (write {} [{ text := "hey".toList }] (some (0, 2)) Color.black false { scr := Screen.init 3 2 }).1
    let a : Data := [((0, 1), [{ text := "ab\nc".toList }])]
    let b : Data := [((0, 2), [{ text := "x".toList }])]
    w.scr.offset = 1 ∧ w.scr.changes.keys.Nodup ∧ (∀ e ∈ w.cache, ¬ ∃ l ∈ a ++ b, e.1 ∈ l.2) ∧
    (writeBulk {} a.entries Color.black false w).1.scr.offset = 1 ∧ (writeBulk {} b.entries Color.black false w).1.scr.offset = 1 ∧
    ((List.range 2).map fun y => (List.range 3).map fun x => ((layersAt 3 2 (raised 1 a) x y).map (·.char), (layersAt 3 2 (raised 1 b) x y).map (·.char))) =
      [[(['a'], []), (['b'], []), ([], [])], [([], ['x']), ([], []), (['c'], [])]] := by
  decide +kernel

/-- The hypotheses of `C111_two_partial` for lines of two spans on a screen that has scrolled: the second span of each is written above the first one. -/
example :
    let w : World := (write {} [{ text := "hey".toList }] (some (0, 2)) Color.black false { scr := Screen.init 3 2 }).1
    let a : Data := [((0, 2), [{ text := "a".toList }, { text := "b".toList }])]
    let b : Data := [((0, 1), [{ text := "x".toList }, { text := "y".toList }]), ((1, 2), [{ text := "zz".toList }])]
    w.scr.offset = 1 ∧ w.scr.changes.keys.Nodup ∧ (∀ e ∈ w.cache, ¬ ∃ l ∈ a ++ b, e.1 ∈ l.2) ∧
    (writeBulk {} a.entries Color.black false w).1.scr.offset = 1 ∧ (writeBulk {} b.entries Color.black false w).1.scr.offset = 1 ∧
    ((List.range 2).map fun y => (List.range 3).map fun x => ((layersAt 3 2 (placed 3 2 1 a) x y).map (·.char), (layersAt 3 2 (placed 3 2 1 b) x y).map (·.char))) =
      [[([], ['x']), (['b'], []), ([], [])], [(['a'], []), ([], ['z']), ([], ['z'])]] := by
  decide +kernel

/-- **C111 violated** by calls that scroll: a text in the second of two rows and one below it, which scrolls. One after the other they stand in two rows;
in one call the first is overwritten. -/
theorem C111_scroll_violated :
    let w : World := { scr := Screen.init 2 2 }
    let a : Data := [((0, 1), [{ text := "x".toList }])]
    let b : Data := [((0, 2), [{ text := "y".toList }])]
    let ab := writeBulk {} b.entries Color.black false (writeBulk {} a.entries Color.black false w).1
    let both := writeBulk {} (Data.entries (a ++ b)) Color.black false w
    (∀ x < 2, ∀ y < 2, (layersAt 2 2 a x y).length = 0 ∨ (layersAt 2 2 b x y).length = 0) ∧
    ((cellAt ab.1.scr.cells 0 0).map (·.char), (cellAt ab.1.scr.cells 0 1).map (·.char)) = (some ['x'], some ['y']) ∧
    ((cellAt both.1.scr.cells 0 0).map (·.char), (cellAt both.1.scr.cells 0 1).map (·.char)) = (some [' '], some ['y']) := by
  decide +kernel

end Slate
