import Verif.Lemmas.AnyCache
import Verif.Props.Draw

/-!
# C02, C03, C04, C08 whatever the cache of `Span.get_characters` holds

After a scroll the cache can hold wrong lists (C18). These theorems do not assume that it does not.
-/

namespace Slate
open Py Term

/-- A write that does not scroll either raises and leaves the screen as it was, or writes some matrices. -/
theorem writeBulk_some (env : Color.Env) (data : List Entry) (tb : Color) (force : Bool) (w : World)
    (hs : Shape w.scr.width w.scr.height w.scr.cells) (ho : (writeBulk env data tb force w).1.scr.offset = w.scr.offset) :
    ((writeBulk env data tb force w).2 = .error .typeError ∧ (writeBulk env data tb force w).1.scr = w.scr) ∨
    ∃ m, (writeBulk env data tb force w).2 = .ok ((positions w.scr.width w.scr.height).countP fun p => (outcome tb m w.scr p).isSome) ∧
      Wrote env tb m w.scr (writeBulk env data tb force w).1.scr := by
  rcases writeBulk_any_error env data tb force w hs ho with h | ⟨d, rfl⟩
  · exact .inl h
  · exact .inr ⟨_, (writeBulk_any env d tb force w hs ho).2⟩

/-- The screen after a line was written below it, which scrolls it: the cache is wrong for the span. -/
def C04ex.span : Span := { text := "a\n".toList }
def C04ex.world : World := (write {} [C04ex.span] (some (0, 2)) Color.black false { scr := Screen.init 3 2 }).1

/-- The list in the cache is not what `get_characters` computes: the scroll has put a line break before it. -/
example : (C04ex.world.cache.get C04ex.span).1 ≠ C04ex.span.cellChars := by decide +kernel

open Classical in
/-- **C03**: the number returned by a call that does not scroll is the number of positions whose cell differs afterwards. -/
theorem C03_any_cache (env : Color.Env) (data : List Entry) (tb : Color)
    (force : Bool) (w : World) (hs : Shape w.scr.width w.scr.height w.scr.cells)
    (n : Nat) (hr : (writeBulk env data tb force w).2 = .ok n)
    (ho : (writeBulk env data tb force w).1.scr.offset = w.scr.offset) :
    n = ((Finset.range w.scr.width ×ˢ Finset.range w.scr.height).filter
      (Differs w.scr (writeBulk env data tb force w).1.scr)).card ∧
    n ≤ w.scr.width * w.scr.height := by
  have key : n = ((Finset.range w.scr.width ×ˢ Finset.range w.scr.height).filter
      (Differs w.scr (writeBulk env data tb force w).1.scr)).card := by
    rcases writeBulk_some env data tb force w hs ho with ⟨h2, -⟩ | ⟨m, h2, h3⟩
    · rw [hr] at h2; cases h2
    · rw [hr] at h2
      injection h2 with h2
      rw [h2, List.countP_eq_length_filter,
        ← List.toFinset_card_of_nodup ((nodup_positions _ _).filter _)]
      congr 1
      ext p
      simp only [List.mem_toFinset, List.mem_filter, mem_positions, Finset.mem_filter,
        Finset.mem_product, Finset.mem_range, outcome_isSome_iff h3]
      rfl
  refine ⟨key, ?_⟩
  rw [key]
  refine (Finset.card_filter_le _ _).trans ?_
  simp

/-- A call that reads the wrong list: no scroll, two cells change. -/
example : let r := writeBulk {} [(some (0, 1), [C04ex.span, { text := "b".toList }])] Color.black false C04ex.world
    r.2 = .ok 2 ∧ r.1.scr.offset = C04ex.world.scr.offset := by decide +kernel

/-- **C14**, exactly which positions a forced write registers: those whose cell differs afterwards. A covered cell that stays as it is is
neither counted (C03) nor registered, which is what `force_overwrite` is for. -/
theorem C14_exact_partial (env : Color.Env) (data : List Entry) (tb : Color) (w : World)
    (hs : Shape w.scr.width w.scr.height w.scr.cells)
    (ho : (writeBulk env data tb true w).1.scr.offset = w.scr.offset) (x y : Nat) :
    (x, y) ∈ (writeBulk env data tb true w).1.scr.changes.keys ↔
      (x, y) ∈ w.scr.changes.keys ∨ Differs w.scr (writeBulk env data tb true w).1.scr (x, y) := by
  rcases writeBulk_some env data tb true w hs ho with ⟨-, h2⟩ | ⟨m, -, h3⟩
  · rw [h2]
    refine ⟨.inl, ?_⟩
    rintro (h | ⟨a, b, h1, h2, h4⟩)
    · exact h
    · simp only at h1 h2
      rw [h1] at h2
      injection h2 with h2
      subst h2
      simp [Cell.eq_refl] at h4
  · rw [← Changes.lookup_isSome, ← Changes.lookup_isSome, h3.pending,
      show Differs w.scr (writeBulk env data tb true w).1.scr (x, y) ↔ _ from (outcome_isSome_iff h3 (x, y)).symm]
    cases outcome tb m w.scr (x, y) with
    | none => simp
    | some r => simp

/-- One operation other than a draw. -/
theorem keys_exec_any (env : Color.Env) (o : Int × Int) (s : Sys) (op : Op) (hop : op ≠ .draw)
    (hs : Shape s.w.scr.width s.w.scr.height s.w.scr.cells)
    (ho : (exec env o s op).w.scr.offset = s.w.scr.offset) :
    ∀ k, k ∈ (exec env o s op).w.scr.changes.keys ↔
      k ∈ s.w.scr.changes.keys ∨ Touched env o s op k := by
  have hwb : ∀ data tb force, (writeBulk env data tb force s.w).1.scr.offset = s.w.scr.offset →
      ∀ k, k ∈ (writeBulk env data tb force s.w).1.scr.changes.keys ↔
      k ∈ s.w.scr.changes.keys ∨ ∃ a b, cellAt s.w.scr.cells k.1 k.2 = some a ∧
        cellAt (writeBulk env data tb force s.w).1.scr.cells k.1 k.2 = some b ∧
        b.eq a = false := by
    intro data tb force ho k
    rcases writeBulk_some env data tb force s.w hs ho with ⟨-, h2⟩ | ⟨m, -, h2⟩
    · rw [h2]
      constructor
      · exact .inl
      · rintro (h | ⟨a, b, e1, e2, e3⟩)
        · exact h
        · rw [e1] at e2; injection e2 with e2
          rw [e2, Cell.eq_refl] at e3; cases e3
    · rw [← outcome_isSome_iff h2, ← Changes.lookup_isSome, h2.pending, ← Changes.lookup_isSome]
      simp only [Option.isSome_or, Option.isSome_map, Bool.or_eq_true]
      exact or_comm
  intro k
  cases op with
  | write spans cursor tb force =>
    rw [show (exec env o s (.write spans cursor tb force)).w.scr.changes =
      (writeBulk env [(cursor, spans)] tb force s.w).1.scr.changes from rfl, hwb [(cursor, spans)] tb force ho]
    constructor
    · rintro (h | h)
      · exact .inl h
      · exact .inr (.inr h)
    · rintro (h | ⟨f, h, -⟩ | h)
      · exact .inl h
      · cases h
      · exact .inr h
  | writeBulk data tb force =>
    rw [show (exec env o s (.writeBulk data tb force)).w.scr.changes =
      (writeBulk env data tb force s.w).1.scr.changes from rfl, hwb data tb force ho]
    constructor
    · rintro (h | h)
      · exact .inl h
      · exact .inr (.inr h)
    · rintro (h | ⟨f, h, -⟩ | h)
      · exact .inl h
      · cases h
      · exact .inr h
  | clear f =>
    have := foldl_insert_keys (positions s.w.scr.width s.w.scr.height) [f] s.w.scr.changes k
    rw [show (exec env o s (.clear f)).w.scr.changes = (positions s.w.scr.width s.w.scr.height).foldl
      (fun (ch : Changes) p => ch.insert p [f]) s.w.scr.changes from rfl, this, mem_positions]
    constructor
    · rintro (h | h)
      · exact .inr (.inl ⟨f, rfl, h⟩)
      · exact .inl h
    · rintro (h | ⟨-, -, h⟩ | ⟨a, b, e1, -⟩)
      · exact .inr h
      · exact .inl h
      · exact .inl (hs.cellAt_isSome.mp (by rw [e1]; rfl))
  | draw => exact absurd rfl hop

/-- **C02** (pending set): in a history without draw and without scrolling, started with nothing pending, the pending positions are
exactly those changed by one of the operations. -/
theorem C02_any_cache (env : Color.Env) (o : Int × Int) (s : Sys) (ops : List Op)
    (hdraw : .draw ∉ ops) (hs : Shape s.w.scr.width s.w.scr.height s.w.scr.cells)
    (hpend : s.w.scr.changes = [])
    (ho : (execAll env o s ops).w.scr.offset = s.w.scr.offset) (k : Nat × Nat) :
    k ∈ (execAll env o s ops).w.scr.changes.keys ↔
      ∃ pre op post, ops = pre ++ op :: post ∧ Touched env o (execAll env o s pre) op k := by
  suffices H : ∀ (s : Sys), Shape s.w.scr.width s.w.scr.height s.w.scr.cells →
      (execAll env o s ops).w.scr.offset = s.w.scr.offset →
      (k ∈ (execAll env o s ops).w.scr.changes.keys ↔ k ∈ s.w.scr.changes.keys ∨
        ∃ pre op post, ops = pre ++ op :: post ∧ Touched env o (execAll env o s pre) op k) by
    rw [H s hs ho, hpend]
    simp [Changes.keys]
  clear hs hpend ho
  induction ops with
  | nil =>
    intro s _ _
    simp [execAll]
  | cons op ops ih =>
    intro s hs ho
    obtain ⟨f1, f2, f3, f4⟩ := exec_frame env o s op hs
    have hs' : Shape (exec env o s op).w.scr.width (exec env o s op).w.scr.height
        (exec env o s op).w.scr.cells := by rw [f1, f2]; exact f4
    obtain ⟨-, -, g3, -⟩ := execAll_frame env o (exec env o s op) ops hs'
    have ho' : (execAll env o (exec env o s op) ops).w.scr.offset = s.w.scr.offset := ho
    have e1 : (exec env o s op).w.scr.offset = s.w.scr.offset := by omega
    have hk := keys_exec_any env o s op (fun e => hdraw (by simp [e])) hs e1
    have := ih (fun h => hdraw (by simp [h])) (exec env o s op) hs' (by rw [ho', e1])
    rw [show execAll env o s (op :: ops) = execAll env o (exec env o s op) ops from rfl, this, hk]
    constructor
    · rintro ((h | h) | ⟨pre, op', post, e, h⟩)
      · exact .inl h
      · exact .inr ⟨[], op, ops, rfl, h⟩
      · exact .inr ⟨op :: pre, op', post, by simp [e], h⟩
    · rintro (h | ⟨pre, op', post, e, h⟩)
      · exact .inl (.inl h)
      · cases pre with
        | nil =>
          simp only [List.nil_append, List.cons.injEq] at e
          obtain ⟨rfl, rfl⟩ := e
          exact .inl (.inr h)
        | cons p pre =>
          simp only [List.cons_append, List.cons.injEq] at e
          obtain ⟨rfl, rfl⟩ := e
          exact .inr ⟨pre, op', post, rfl, h⟩

/-! ### C08 -/

/-- Nothing is pending after a draw, and a write with the wrong list touches the second position of the last row. -/
example : let s : Sys := { w := { C04ex.world with scr := C04ex.world.scr.render.1 }, term := { grid := fun _ _ => ⟨'?', {}⟩ } }
    s.w.scr.changes = [] ∧
    (0, 0) ∈ (execAll {} (1, 1) s [.write [C04ex.span, { text := "b".toList }] (some (0, 1)) Color.black false]).w.scr.changes.keys := by
  decide +kernel

theorem lineHitsR_mem (w h : Nat) (off : Int) (l : List (Span × List Str)) (p : Pen) :
    ∀ t ∈ lineHitsR w h off l p, t.span ∈ l.map (·.1) := by
  induction l generalizing p with
  | nil => simp [lineHitsR]
  | cons s rest ih =>
    obtain ⟨s, chars⟩ := s
    intro t ht
    rcases List.mem_append.mp ht with ht | ht
    · obtain ⟨-, -, rfl, -⟩ := charHits_inside _ _ _ _ _ _ t ht
      simp
    · simp only [List.map_cons, List.mem_cons]
      exact .inr (ih _ t ht)

theorem dataHitsR_mem (w h : Nat) (off : Int) (c : CharCache) (d : Data) :
    ∀ t ∈ dataHitsR w h off (resolve c d).1, ∃ e ∈ d, t.span ∈ e.2 := by
  induction d generalizing c with
  | nil => simp [resolve, dataHitsR]
  | cons e rest ih =>
    obtain ⟨xy, line⟩ := e
    intro t ht
    simp only [resolve, dataHitsR, List.flatMap_cons] at ht
    rcases List.mem_append.mp ht with ht | ht
    · have := lineHitsR_mem _ _ _ _ _ t ht
      rw [resolveSpans_fst] at this
      exact ⟨_, List.mem_cons_self .., this⟩
    · obtain ⟨e, he, hte⟩ := ih _ t ht
      exact ⟨e, by simp [he], hte⟩

theorem writeEach_any (env : Color.Env) (tb : Color) (force : Bool) (d : Data)
    (hop : ∀ e ∈ d, ∀ s ∈ e.2, ∀ b, s.bg = some b → b.alpha = 1) (w : World)
    (hs : Shape w.scr.width w.scr.height w.scr.cells)
    (ho : (putData d.entries Mats.blank w).2.1.scr.offset = w.scr.offset) :
    (writeEach env tb force w d).scr.offset = w.scr.offset ∧
    ∀ x y old, cellAt w.scr.cells x y = some old →
      ∃ c, cellAt (writeEach env tb force w d).scr.cells x y = some c ∧
        match lastHit (dataHitsR w.scr.width w.scr.height w.scr.offset (resolve w.cache d).1) x y with
        | none => c = old
        | some t => (storedCell t.span (rstrip (· == '\n') t.char)).eq c = true := by
  induction d generalizing w with
  | nil => exact ⟨rfl, fun x y old h => ⟨old, h, rfl⟩⟩
  | cons e rest ih =>
    obtain ⟨⟨px, py⟩, line⟩ := e
    -- the first line does not scroll, and neither do the others afterwards
    have hstep : putData (Data.entries (((px, py), line) :: rest)) Mats.blank w =
        match putSpans line 0 { x := px, y := py, last := (line.length : Int) - 1 } Mats.blank w with
        | (_, m, w, some e) => (m, w, some e)
        | (_, m, w, none) => putData (Data.entries rest) m w := by
      rw [show Data.entries (((px, py), line) :: rest) = (some (px, py), line) :: Data.entries rest from rfl, putData]
      rfl
    have h1 : (putSpans line 0 { x := px, y := py, last := (line.length : Int) - 1 } Mats.blank w).2.2.1.scr.offset = w.scr.offset := by
      have hf := putSpans_frame line 0 { x := px, y := py, last := (line.length : Int) - 1 } Mats.blank w
      rw [hstep] at ho
      revert hf ho
      rcases putSpans line 0 { x := px, y := py, last := (line.length : Int) - 1 } Mats.blank w with ⟨p1, m1, w1, e1⟩
      intro h hf
      simp only at h hf ⊢
      cases e1 with
      | some e => exact h
      | none =>
        have := (putData_frame (Data.entries rest) m1 w1).offset
        have := hf.offset
        simp only at h
        omega
    have h1' : (putData (Data.entries [((px, py), line)]) Mats.blank w).2.1.scr.offset = w.scr.offset :=
      (putData_singleton_offset px py line Mats.blank w).trans h1
    have ho1 : (writeBulk env (Data.entries [((px, py), line)]) tb force w).1.scr.offset = w.scr.offset :=
      offset_zero_of_putData hs h1'
    obtain ⟨hc1, -, hw1⟩ := writeBulk_any env [((px, py), line)] tb force w hs ho1
    have hs1 : Shape (writeBulk env (Data.entries [((px, py), line)]) tb force w).1.scr.width
        (writeBulk env (Data.entries [((px, py), line)]) tb force w).1.scr.height
        (writeBulk env (Data.entries [((px, py), line)]) tb force w).1.scr.cells := by
      rw [hw1.width, hw1.height]; exact hw1.shape
    have hc1' : (writeBulk env (Data.entries [((px, py), line)]) tb force w).1.cache = (resolveSpans w.cache line).2 := hc1
    rw [hstep, putSpans_any _ _ _ _ _ h1] at ho
    simp only at ho
    have h2 : (putData (Data.entries rest) Mats.blank (writeBulk env (Data.entries [((px, py), line)]) tb force w).1).2.1.scr.offset =
        (writeBulk env (Data.entries [((px, py), line)]) tb force w).1.scr.offset :=
      putData_any_congr rest _ _ { w with cache := (resolveSpans w.cache line).2 } _ hw1.width hw1.height hw1.offset
        (by rw [hc1']) ho
    obtain ⟨i1, i2⟩ := ih (fun e he => hop e (by simp [he])) _ hs1 h2
    have heq : writeEach env tb force w (((px, py), line) :: rest) =
        writeEach env tb force (writeBulk env (Data.entries [((px, py), line)]) tb force w).1 rest := rfl
    rw [heq]
    refine ⟨i1.trans hw1.offset, ?_⟩
    intro x y old hold
    have hopL : ∀ t ∈ dataHitsR w.scr.width w.scr.height w.scr.offset (resolve w.cache [((px, py), line)]).1,
        ∀ b, t.span.bg = some b → b.alpha = 1 := by
      intro t ht
      obtain ⟨e, he, hte⟩ := dataHitsR_mem _ _ _ _ _ t ht
      simp only [List.mem_singleton] at he
      subst he
      exact hop ((px, py), line) (by simp) t.span hte
    obtain ⟨a1, a2⟩ := wrote_opaque hw1 rfl hopL x y
    have happ : dataHitsR w.scr.width w.scr.height w.scr.offset (resolve w.cache (((px, py), line) :: rest)).1 =
        dataHitsR w.scr.width w.scr.height w.scr.offset (resolve w.cache [((px, py), line)]).1 ++
        dataHitsR w.scr.width w.scr.height w.scr.offset (resolve (resolveSpans w.cache line).2 rest).1 := by
      simp [dataHitsR, resolve]
    rw [happ, lastHit_append]
    rw [hw1.width, hw1.height, hw1.offset, hc1'] at i2
    cases hl1 : lastHit (dataHitsR w.scr.width w.scr.height w.scr.offset (resolve w.cache [((px, py), line)]).1) x y with
    | none =>
      obtain ⟨c, hc, hcm⟩ := i2 x y old ((a1 hl1).trans hold)
      refine ⟨c, hc, ?_⟩
      simpa using hcm
    | some t =>
      obtain ⟨c, hc, hcm⟩ := i2 x y _ (a2 t hl1 old hold)
      refine ⟨c, hc, ?_⟩
      cases hl2 : lastHit (dataHitsR w.scr.width w.scr.height w.scr.offset (resolve (resolveSpans w.cache line).2 rest).1) x y with
      | none =>
        rw [hl2] at hcm
        simp only [Option.none_or] at hcm ⊢
        rw [hcm]
        split
        · rename_i h; exact h
        · exact Cell.eq_refl _
      | some t' =>
        rw [hl2] at hcm
        simpa using hcm

/-- **C08**: a non-scrolling `write_bulk` of spans without translucent background leaves in every position a cell that is
(Python-)equal to the one left by writing the entries one by one. -/
theorem C08_any_cache (env : Color.Env) (tb : Color) (force : Bool) (d : Data)
    (hop : ∀ e ∈ d, ∀ s ∈ e.2, ∀ b, s.bg = some b → b.alpha = 1) (w : World)
    (hs : Shape w.scr.width w.scr.height w.scr.cells)
    (ho : (writeBulk env d.entries tb force w).1.scr.offset = w.scr.offset) :
    (writeEach env tb force w d).scr.offset = w.scr.offset ∧
    ∀ x y, x < w.scr.width → y < w.scr.height →
      ∃ a b, cellAt (writeBulk env d.entries tb force w).1.scr.cells x y = some a ∧
        cellAt (writeEach env tb force w d).scr.cells x y = some b ∧ a.eq b = true := by
  obtain ⟨h1, h2⟩ := writeEach_any env tb force d hop w hs (fill_still hs ho)
  refine ⟨h1, ?_⟩
  intro x y hx hy
  obtain ⟨old, hold⟩ := hs.exists_cell hx hy
  obtain ⟨b, hb, hbm⟩ := h2 x y old hold
  obtain ⟨-, -, hw⟩ := writeBulk_any env d tb force w hs ho
  have hop' : ∀ t ∈ dataHitsR w.scr.width w.scr.height w.scr.offset (resolve w.cache d).1,
      ∀ b, t.span.bg = some b → b.alpha = 1 := by
    intro t ht
    obtain ⟨e, he, hte⟩ := dataHitsR_mem _ _ _ _ _ t ht
    exact hop e he t.span hte
  obtain ⟨a1, a2⟩ := wrote_opaque hw rfl hop' x y
  cases hl : lastHit (dataHitsR w.scr.width w.scr.height w.scr.offset (resolve w.cache d).1) x y with
  | none =>
    rw [hl] at hbm
    exact ⟨old, b, (a1 hl).trans hold, hb, by rw [hbm]; exact Cell.eq_refl _⟩
  | some t =>
    rw [hl] at hbm
    refine ⟨_, b, a2 t hl old hold, hb, ?_⟩
    split
    · rename_i h; exact Cell.eq_trans (Cell.eq_symm h) hbm
    · exact hbm

/-- Two overlapping lines on the screen with the wrong list. -/
example : let d : Data := [((0, 1), [C04ex.span, { text := "b".toList }]), ((0, 1), [{ text := "x".toList }])]
    (writeBulk {} d.entries Color.black false C04ex.world).1.scr.offset = C04ex.world.scr.offset := by decide +kernel

/-! ### C04 -/

theorem resolveSpans_append (c : CharCache) (a b : List Span) :
    (resolveSpans c (a ++ b)).1 = (resolveSpans c a).1 ++ (resolveSpans (resolveSpans c a).2 b).1 ∧
    (resolveSpans c (a ++ b)).2 = (resolveSpans (resolveSpans c a).2 b).2 := by
  induction a generalizing c with
  | nil => exact ⟨rfl, rfl⟩
  | cons s a ih =>
    obtain ⟨h1, h2⟩ := ih (c.get s).2
    simp only [List.cons_append, resolveSpans, h1, h2]
    exact ⟨trivial, trivial⟩

/-- The spans of a bulk write, in order. -/
def Data.allSpans (d : Data) : List Span := d.flatMap (·.2)

theorem resolve_cache (c : CharCache) (d : Data) : (resolve c d).2 = (resolveSpans c d.allSpans).2 := by
  induction d generalizing c with
  | nil => rfl
  | cons e rest ih =>
    obtain ⟨xy, line⟩ := e
    rw [show Data.allSpans ((xy, line) :: rest) = line ++ Data.allSpans rest from rfl, (resolveSpans_append c _ _).2]
    exact ih _

theorem resolve_congr (c c' : CharCache) (d : Data) (h : (resolveSpans c d.allSpans).1 = (resolveSpans c' d.allSpans).1) :
    (resolve c d).1 = (resolve c' d).1 := by
  induction d generalizing c c' with
  | nil => rfl
  | cons e rest ih =>
    obtain ⟨xy, line⟩ := e
    rw [show Data.allSpans ((xy, line) :: rest) = line ++ Data.allSpans rest from rfl, (resolveSpans_append c _ _).1,
      (resolveSpans_append c' _ _).1] at h
    obtain ⟨h1, h2⟩ := List.append_inj h (by rw [resolveSpans_length, resolveSpans_length])
    simp only [resolve, h1, ih _ _ h2]

/-- A second call that reads the same lists changes nothing. -/
theorem write_again (env : Color.Env) (d : Data) (tb : Color) (force force' : Bool) (w : World)
    (hs : Shape w.scr.width w.scr.height w.scr.cells)
    (ho : (writeBulk env d.entries tb force w).1.scr.offset = w.scr.offset)
    (hsame : (resolve (resolve w.cache d).2 d).1 = (resolve w.cache d).1) :
    let w1 := (writeBulk env d.entries tb force w).1
    (writeBulk env d.entries tb force' w1).2 = .ok 0 ∧ (writeBulk env d.entries tb force' w1).1.scr = w1.scr := by
  intro w1
  obtain ⟨hc1, -, h3⟩ := writeBulk_any env d tb force w hs ho
  have hs1 : Shape w1.scr.width w1.scr.height w1.scr.cells := by
    rw [h3.width, h3.height]; exact h3.shape
  have hc1' : w1.cache = (resolve w.cache d).2 := hc1
  have hfill1 : (putData d.entries Mats.blank w1).2.1.scr.offset = w1.scr.offset :=
    putData_any_congr d Mats.blank Mats.blank w w1 h3.width h3.height h3.offset (by rw [hc1', hsame]) (fill_still hs ho)
  have hp := putData_any d Mats.blank w1 hfill1
  rw [hc1', hsame, h3.width, h3.height, h3.offset] at hp
  obtain ⟨m, hm⟩ : ∃ m, m = (dataHitsR w.scr.width w.scr.height w.scr.offset (resolve w.cache d).1).foldl Hit.put Mats.blank := ⟨_, rfl⟩
  rw [← hm] at hp h3
  have hout : ∀ p, outcome tb m w1.scr p = none := by
    intro p
    have hc := h3.cell p.1 p.2
    rw [show ((p.1, p.2) : Nat × Nat) = p from rfl] at hc
    cases ho1 : outcome tb m w.scr p with
    | none =>
      rw [ho1] at hc
      rw [← ho1]
      exact outcome_congr _ _ (by rw [show w1.scr = (writeBulk env d.entries tb force w).1.scr from rfl, hc]; simp)
    | some r =>
      rw [ho1] at hc
      simp only [Option.map_some, Option.some_or] at hc
      unfold outcome at ho1 ⊢
      split at ho1
      · simp at ho1
      · rename_i c hcw
        simp only at ho1
        have hc' : cellAt w1.scr.cells p.1 p.2 = some r.1 := hc
        simp only [hc']
        split at ho1
        · simp at ho1
        · split at ho1
          · simp at ho1
          · simp only [Option.some.injEq] at ho1
            rw [← ho1]
            simp [Cell.eq_refl]
  have hw : writeBulk env d.entries tb force' w1 =
      ({ w1 with cache := (resolve (resolve w.cache d).2 d).2, scr := (commit env tb m w1.scr).1 }, (commit env tb m w1.scr).2) := by
    unfold writeBulk
    rw [hp]
  rw [hw, commit_id env tb m w1.scr hs1 hout]
  exact ⟨rfl, rfl⟩

/-! The least recently used entries leave the cache first -/

theorem lookup_filter_ne {β : Type} (l : List (Span × β)) (s t : Span) (h : t ≠ s) :
    List.lookup t (l.filter fun e => decide (e.1 ≠ s)) = List.lookup t l := by
  induction l with
  | nil => rfl
  | cons e l ih =>
    obtain ⟨k, v⟩ := e
    by_cases hk : k = s
    · subst hk
      have : (t == k) = false := by simpa using h
      simpa [List.lookup_cons, this] using ih
    · by_cases ht : t = k
      · subst ht
        simp [hk]
      · have : (t == k) = false := by simpa using ht
        simpa [hk, List.lookup_cons, this] using ih

theorem lookup_append {β : Type} (a b : List (Span × β)) (s : Span) :
    List.lookup s (a ++ b) = (List.lookup s a).or (List.lookup s b) := by
  induction a with
  | nil => rfl
  | cons e a ih =>
    obtain ⟨k, v⟩ := e
    rw [List.cons_append, List.lookup_cons, List.lookup_cons]
    cases s == k <;> simp [ih]

theorem lookup_isSome_iff {β : Type} (a : List (Span × β)) (s : Span) : (List.lookup s a).isSome ↔ s ∈ a.map (·.1) := by
  induction a with
  | nil => simp
  | cons e a ih =>
    obtain ⟨k, v⟩ := e
    rw [List.lookup_cons]
    by_cases h : s = k
    · subst h; simp
    · have : (s == k) = false := by simpa using h
      rw [this]
      simp only [List.map_cons, List.mem_cons, h, false_or]
      exact ih

/-- One call with the recently used entries `F` in front. They stay in front, with the entry that is used now. -/
theorem get_front (F R : CharCache) (hF : (F.map (·.1)).Nodup) (s : Span) (hlen : s ∈ F.map (·.1) ∨ F.length < 128) :
    ∃ F' R', (CharCache.get (F ++ R) s).2 = F' ++ R' ∧ (F'.map (·.1)).Nodup ∧
      (∀ t, t ∈ F'.map (·.1) ↔ t = s ∨ t ∈ F.map (·.1)) ∧
      List.lookup s F' = some (CharCache.get (F ++ R) s).1 ∧
      ∀ t l, List.lookup t F = some l → List.lookup t F' = some l := by
  have hfil : ∀ l, List.lookup s F = some l ∨ List.lookup s F = none →
      ((((s, l) :: F.filter fun e => decide (e.1 ≠ s)).map (·.1)).Nodup ∧
      (∀ t, t ∈ ((s, l) :: F.filter fun e => decide (e.1 ≠ s)).map (·.1) ↔ t = s ∨ t ∈ F.map (·.1)) ∧
      List.lookup s ((s, l) :: F.filter fun e => decide (e.1 ≠ s)) = some l ∧
      ∀ t l', List.lookup t F = some l' → List.lookup t ((s, l) :: F.filter fun e => decide (e.1 ≠ s)) = some l') := by
    intro l hl
    refine ⟨?_, ?_, by simp, ?_⟩
    · rw [List.map_cons, List.nodup_cons]
      refine ⟨by simp, ?_⟩
      exact hF.sublist (List.filter_sublist.map _)
    · intro t
      simp only [List.map_cons, List.mem_cons, List.mem_map, List.mem_filter, decide_eq_true_eq]
      constructor
      · rintro (h | ⟨a, ⟨h1, -⟩, h2⟩)
        · exact .inl h
        · exact .inr ⟨a, h1, h2⟩
      · rintro (h | ⟨a, h1, h2⟩)
        · exact .inl h
        · by_cases h : t = s
          · exact .inl h
          · exact .inr ⟨a, ⟨h1, by rw [h2]; exact h⟩, h2⟩
    · intro t l' ht
      by_cases h : t = s
      · subst h
        rcases hl with hl | hl
        · rw [hl] at ht; rw [List.lookup_cons]; simpa using ht
        · rw [hl] at ht; cases ht
      · rw [List.lookup_cons, show (t == s) = false by simpa using h]
        simp only
        rw [lookup_filter_ne _ _ _ h]
        exact ht
  unfold CharCache.get
  rw [lookup_append]
  cases hl : List.lookup s F with
  | some l =>
    simp only [Option.some_or]
    refine ⟨(s, l) :: F.filter fun e => decide (e.1 ≠ s), R.filter fun e => decide (e.1 ≠ s), by simp, ?_⟩
    exact hfil l (.inl hl)
  | none =>
    simp only [Option.none_or]
    have hsF : s ∉ F.map (·.1) := by rw [← lookup_isSome_iff, hl]; simp
    cases hr : List.lookup s R with
    | some l =>
      simp only
      refine ⟨(s, l) :: F.filter fun e => decide (e.1 ≠ s), R.filter fun e => decide (e.1 ≠ s), by simp, ?_⟩
      exact hfil l (.inr hl)
    | none =>
      simp only
      have hfF : (F.filter fun e => decide (e.1 ≠ s)) = F := by
        rw [List.filter_eq_self]
        intro e he
        simp only [decide_eq_true_eq]
        rintro rfl
        exact hsF (List.mem_map_of_mem he)
      have h := hfil s.cellChars (.inr hl)
      rw [hfF] at h
      have hlt : F.length < 128 := hlen.resolve_left hsF
      refine ⟨(s, s.cellChars) :: F, R.take (128 - (F.length + 1)), ?_, h⟩
      rw [← List.cons_append, List.take_append]
      congr 1
      exact List.take_of_length_le (by simp; omega)

/-- A pass over spans of which at most 128 are different: the lists that were read are in the cache afterwards. -/
theorem resolveSpans_front (L : List Span) (F R : CharCache) (hF : (F.map (·.1)).Nodup) (K : List Span)
    (hK : K.length ≤ 128) (hFK : ∀ s ∈ F.map (·.1), s ∈ K) (hLK : ∀ s ∈ L, s ∈ K) :
    ∃ F' R', (resolveSpans (F ++ R) L).2 = F' ++ R' ∧ (F'.map (·.1)).Nodup ∧
      (∀ t l, List.lookup t F = some l → List.lookup t F' = some l) ∧
      ∀ e ∈ (resolveSpans (F ++ R) L).1, List.lookup e.1 F' = some e.2 := by
  induction L generalizing F R with
  | nil => exact ⟨F, R, rfl, hF, fun _ _ h => h, by simp [resolveSpans]⟩
  | cons s L ih =>
    have hlen : s ∈ F.map (·.1) ∨ F.length < 128 := by
      by_contra hc
      push Not at hc
      have hsub : (s :: F.map (·.1)) ⊆ K := by
        intro t ht
        rcases List.mem_cons.mp ht with rfl | ht
        · exact hLK _ (by simp)
        · exact hFK t ht
      have := (List.subperm_of_subset (List.nodup_cons.mpr ⟨hc.1, hF⟩) hsub).length_le
      simp at this
      omega
    obtain ⟨F1, R1, h1, h2, h3, h4, h5⟩ := get_front F R hF s hlen
    obtain ⟨F', R', g1, g2, g3, g4⟩ := ih F1 R1 h2
      (by
        intro t ht
        rcases (h3 t).mp ht with rfl | ht
        · exact hLK _ (by simp)
        · exact hFK t ht) (fun t ht => hLK t (by simp [ht]))
    refine ⟨F', R', ?_, g2, fun t l h => g3 t l (h5 t l h), ?_⟩
    · simp only [resolveSpans, h1, g1]
    · intro e he
      simp only [resolveSpans, h1] at he
      rcases List.mem_cons.mp he with rfl | he
      · exact g3 _ _ h4
      · exact g4 e he

/-- A pass over spans that are all in the front of the cache. -/
theorem resolveSpans_hits (L : List Span) (F R : CharCache) (hF : (F.map (·.1)).Nodup) (v : Span → List Str)
    (hv : ∀ s ∈ L, List.lookup s F = some (v s)) : (resolveSpans (F ++ R) L).1 = L.map fun s => (s, v s) := by
  induction L generalizing F R with
  | nil => rfl
  | cons s L ih =>
    have hs := hv s (by simp)
    have hm : s ∈ F.map (·.1) := by rw [← lookup_isSome_iff, hs]; rfl
    obtain ⟨F1, R1, h1, h2, -, h4, h5⟩ := get_front F R hF s (.inl hm)
    have hval : (CharCache.get (F ++ R) s).1 = v s := by
      have := h5 s _ hs
      rw [h4] at this
      injection this
    simp only [resolveSpans, h1, List.map_cons]
    rw [hval, ih F1 R1 h2 fun t ht => h5 t _ (hv t (by simp [ht]))]

theorem resolveSpans_again (c : CharCache) (L K : List Span) (hK : K.length ≤ 128) (hLK : ∀ s ∈ L, s ∈ K) :
    (resolveSpans (resolveSpans c L).2 L).1 = (resolveSpans c L).1 := by
  obtain ⟨F, R, h1, h2, -, h3⟩ := resolveSpans_front L [] c List.nodup_nil K hK (by simp) hLK
  simp only [List.nil_append] at h1 h3
  have hkey : (resolveSpans c L).1 = L.map fun s => (s, (List.lookup s F).getD []) := by
    have hfst := resolveSpans_fst c L
    conv_rhs => rw [← hfst]
    rw [List.map_map]
    conv_lhs => rw [← List.map_id (resolveSpans c L).1]
    refine List.map_congr_left fun e he => ?_
    simp [h3 e he]
  rw [h1, hkey]
  refine resolveSpans_hits L F R h2 _ fun s hs => ?_
  obtain ⟨e, he, rfl⟩ : ∃ e ∈ (resolveSpans c L).1, e.1 = s := by
    have : s ∈ (resolveSpans c L).1.map (·.1) := by rw [resolveSpans_fst]; exact hs
    obtain ⟨e, he, h⟩ := List.mem_map.mp this
    exact ⟨e, he, h⟩
  rw [h3 e he]; rfl

theorem resolveSpans_ok (c : CharCache) (hc : CacheOk c) (L : List Span) :
    (resolveSpans c L).1 = L.map (fun s => (s, s.cellChars)) ∧ CacheOk (resolveSpans c L).2 := by
  induction L generalizing c with
  | nil => exact ⟨rfl, hc⟩
  | cons s L ih =>
    obtain ⟨h1, h2⟩ := hc.get s
    obtain ⟨h3, h4⟩ := ih _ h2
    simp only [resolveSpans, List.map_cons, h1, h3]
    exact ⟨trivial, h4⟩

/-- **C04** (partial): repeating a successful non-scrolling call returns 0 and leaves the whole screen (cells, pending changes, cursor,
offset) as it was: for every screen and every cache if the call has at most 128 different spans, which is the size of the cache; for
any number of spans if the cache is right. -/
theorem C04_any_cache_partial (env : Color.Env) (d : Data) (tb : Color) (force force' : Bool) (w : World)
    (hs : Shape w.scr.width w.scr.height w.scr.cells)
    (ho : (writeBulk env d.entries tb force w).1.scr.offset = w.scr.offset)
    (hd : CacheOk w.cache ∨ ∃ K : List Span, K.length ≤ 128 ∧ ∀ e ∈ d, ∀ s ∈ e.2, s ∈ K) :
    let w1 := (writeBulk env d.entries tb force w).1
    (writeBulk env d.entries tb force' w1).2 = .ok 0 ∧ (writeBulk env d.entries tb force' w1).1.scr = w1.scr := by
  refine write_again env d tb force force' w hs ho ?_
  refine resolve_congr _ _ d ?_
  rw [resolve_cache]
  rcases hd with hc | ⟨K, hK, hd⟩
  · obtain ⟨h1, h2⟩ := resolveSpans_ok w.cache hc d.allSpans
    rw [h1, (resolveSpans_ok _ h2 d.allSpans).1]
  · refine resolveSpans_again _ _ K hK fun s hs => ?_
    obtain ⟨e, he, hse⟩ := List.mem_flatMap.mp hs
    exact hd e he s hse

/-- Two different spans, one of which has a wrong list. -/
example : let d : Data := [((0, 1), [C04ex.span, { text := "b".toList }])]
    (writeBulk {} d.entries Color.black false C04ex.world).1.scr.offset = C04ex.world.scr.offset ∧
    ∃ K : List Span, K.length ≤ 128 ∧ ∀ e ∈ d, ∀ s ∈ e.2, s ∈ K :=
  ⟨by decide +kernel, [C04ex.span, { text := "b".toList }], by decide, by simp⟩

/-- A line of that span and another one, and 127 further spans left of the screen. -/
def C04ex.data : Data :=
  [((0, 1), [C04ex.span, { text := "b".toList }]), ((-1, 1), (List.range 127).map fun n => { text := dec n })]

/-- **C04 violated**: with 129 different spans the entry of the first one has left the cache when the call is repeated. It is computed
anew, without the line break that the scroll had put there, and the second call changes a cell. -/
theorem C04_evicted_violated :
    let r := writeBulk {} C04ex.data.entries Color.black false C04ex.world
    let r' := writeBulk {} C04ex.data.entries Color.black false r.1
    r.2 = .ok 2 ∧ r.1.scr.offset = C04ex.world.scr.offset ∧ r'.2 = .ok 1 := by
  decide +kernel

end Slate
