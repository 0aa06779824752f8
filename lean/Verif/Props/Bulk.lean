import Verif.Props.Write

/-!
# C08, C19, C21: overlapping writes and translucent colours
-/

namespace Slate
open Py Term

/-! ### Python equality of cells -/

theorem Color.eq_iff (c d : Color) :
    c.eq d = true ↔ c.r = d.r ∧ c.g = d.g ∧ c.b = d.b ∧ c.alpha = d.alpha := by
  simp [Color.eq, and_assoc]

theorem Span.optEq_symm {a b : Option Color} (h : Span.optEq a b = true) :
    Span.optEq b a = true := by
  cases a <;> cases b <;> simp_all [Span.optEq, Color.eq_iff]

theorem Span.optEq_trans {a b c : Option Color} (h : Span.optEq a b = true)
    (h' : Span.optEq b c = true) : Span.optEq a c = true := by
  cases a <;> cases b <;> cases c <;> simp_all [Span.optEq, Color.eq_iff]

theorem Cell.eq_symm {a b : Cell} (h : a.eq b = true) : b.eq a = true := by
  simp only [Cell.eq, Bool.and_eq_true, decide_eq_true_eq] at h ⊢
  exact ⟨⟨h.1.1.symm, Span.optEq_symm h.1.2⟩, Span.optEq_symm h.2⟩

theorem Cell.eq_trans {a b c : Cell} (h : a.eq b = true) (h' : b.eq c = true) :
    a.eq c = true := by
  simp only [Cell.eq, Bool.and_eq_true, decide_eq_true_eq] at h h' ⊢
  exact ⟨⟨h.1.1.trans h'.1.1, Span.optEq_trans h.1.2 h'.1.2⟩, Span.optEq_trans h.2 h'.2⟩

/-! ### Reduction of a successful non-scrolling call -/

theorem fill_still {env : Color.Env} {data : List Entry} {tb : Color} {force : Bool} {w : World}
    (hs : Shape w.scr.width w.scr.height w.scr.cells)
    (ho : (writeBulk env data tb force w).1.scr.offset = w.scr.offset) :
    (putData data Mats.blank w).2.1.scr.offset = w.scr.offset := by
  have hf := putData_frame data Mats.blank w
  unfold writeBulk at ho
  revert hf ho
  rcases putData data Mats.blank w with ⟨m, w', e⟩
  intro ho hf
  cases e with
  | some e => exact ho
  | none =>
    simp only at ho
    obtain ⟨s', e, -, -, ho', -⟩ := commit_spec env tb m w'.scr
      (by rw [hf.width, hf.height]; exact hf.shape _ _ rfl hs)
    rw [e] at ho
    simp only [ho'] at ho
    exact ho

/-- Explicit positions. -/
abbrev Data := List ((Int × Int) × List Span)

/-- The argument of `write_bulk` for explicit positions. -/
def Data.entries (d : Data) : List Entry := d.map fun e => (some e.1, e.2)

theorem Data.entries_inj {d d' : Data} (h : d.entries = d'.entries) : d = d' := by
  refine List.map_injective_iff.mpr ?_ h
  rintro ⟨a, b⟩ ⟨a', b'⟩ h
  simpa using h

/-- A non-scrolling call with explicit positions. -/
theorem wrote_of_still (env : Color.Env) (d : Data) (tb : Color) (force : Bool) (w : World)
    (hs : Shape w.scr.width w.scr.height w.scr.cells) (hok : CacheOk w.cache)
    (ho : (writeBulk env d.entries tb force w).1.scr.offset = w.scr.offset) :
    CacheOk (writeBulk env d.entries tb force w).1.cache ∧
    (∃ n, (writeBulk env d.entries tb force w).2 = .ok n) ∧
    Wrote env tb ((dataHits w.scr.width w.scr.height w.scr.offset d).foldl Hit.put Mats.blank) w.scr
      (writeBulk env d.entries tb force w).1.scr := by
  obtain ⟨h1, h2⟩ := writeBulk_still env d.entries tb force w hs hok ho
  refine ⟨h1, ?_⟩
  rcases h2 with ⟨-, -, e, he, hn⟩ | ⟨d', hd, hr, h3⟩
  · obtain ⟨e', -, rfl⟩ := List.mem_map.mp he
    cases hn
  · have : d = d' := Data.entries_inj hd
    subst this
    rw [fillData_hits] at h3
    exact ⟨⟨_, hr⟩, h3⟩

/-! ## C08 A bulk write equals the sequential writes (opaque spans) -/

/-- Writing the entries one by one. -/
def writeEach (env : Color.Env) (tb : Color) (force : Bool) (w : World) (d : Data) : World :=
  d.foldl (fun w e => (write env e.2 (some e.1) tb force w).1) w

theorem lastHit_append (a b : List Hit) (x y : Nat) :
    lastHit (a ++ b) x y = (lastHit b x y).or (lastHit a x y) := by
  simp [lastHit, List.reverse_append, List.find?_append]

theorem writeEach_spec (env : Color.Env) (tb : Color) (force : Bool) (d : Data)
    (hop : ∀ e ∈ d, ∀ s ∈ e.2, ∀ b, s.bg = some b → b.alpha = 1) (w : World)
    (hs : Shape w.scr.width w.scr.height w.scr.cells) (hok : CacheOk w.cache)
    (ho : ∀ m, (putData d.entries m w).2.1.scr.offset = w.scr.offset) :
    (writeEach env tb force w d).scr.offset = w.scr.offset ∧
    ∀ x y old, cellAt w.scr.cells x y = some old →
      ∃ c, cellAt (writeEach env tb force w d).scr.cells x y = some c ∧
        match lastHit (dataHits w.scr.width w.scr.height w.scr.offset d) x y with
        | none => c = old
        | some t => (storedCell t.span (rstrip (· == '\n') t.char)).eq c = true := by
  induction d generalizing w with
  | nil => exact ⟨rfl, fun x y old h => ⟨old, h, rfl⟩⟩
  | cons e rest ih =>
    obtain ⟨xy, line⟩ := e
    have hm := ho Mats.blank
    have hsplit : ∀ m, (putData (Data.entries [(xy, line)]) m w).2.1.scr.offset = w.scr.offset ∧
        ∀ m', (putData (Data.entries rest) m' w).2.1.scr.offset = w.scr.offset := by
      intro m
      have hm := ho m
      simp only [Data.entries, List.map_cons, List.map_nil] at hm ⊢
      have hf := putSpans_frame line 0 { x := xy.1, y := xy.2, last := (line.length : Int) - 1 } m w
      have hst := putSpans_still line 0 { x := xy.1, y := xy.2, last := (line.length : Int) - 1 } m w hok
      unfold putData at hm
      have hone := putData_singleton_offset xy.1 xy.2 line m w
      revert hf hst hm hone
      rcases putSpans line 0 { x := xy.1, y := xy.2, last := (line.length : Int) - 1 } m w with
        ⟨p1, m1, w1, e1⟩
      intro hf hst hm hone
      simp only at hf hst hm hone
      have hw1 : w1.scr.offset = w.scr.offset := by
        cases e1 with
        | some e => exact hm
        | none =>
          have h1 : w1.scr.offset ≤ (putData (List.map (fun e => (some e.1, e.2)) rest) m1 w1).2.1.scr.offset :=
            (putData_frame (Data.entries rest) m1 w1).offset
          have h2 := hf.offset
          simp only at hm
          omega
      refine ⟨hone.trans hw1, fun m' => ?_⟩
      obtain ⟨he1, -⟩ := hst hw1
      subst he1
      simp only at hm
      obtain ⟨q1, q2⟩ := hf.still hw1
      exact putData_still_congr _ m1 m' w1 w (q2 hok) hok (by rw [q1]) (by rw [q1]) (by rw [q1])
        (by rw [hm, hw1])
    obtain ⟨h1, h2⟩ := hsplit Mats.blank
    have ho1 : (writeBulk env (Data.entries [(xy, line)]) tb force w).1.scr.offset = w.scr.offset :=
      offset_zero_of_putData hs h1
    obtain ⟨hok1, -, hw1⟩ := wrote_of_still env [(xy, line)] tb force w hs hok ho1
    have hs1 : Shape (writeBulk env (Data.entries [(xy, line)]) tb force w).1.scr.width
        (writeBulk env (Data.entries [(xy, line)]) tb force w).1.scr.height
        (writeBulk env (Data.entries [(xy, line)]) tb force w).1.scr.cells := by
      rw [hw1.width, hw1.height]; exact hw1.shape
    obtain ⟨i1, i2⟩ := ih (fun e he => hop e (by simp [he]))
      (writeBulk env (Data.entries [(xy, line)]) tb force w).1 hs1 hok1
      (fun m => putData_still_congr _ m m w _ hok hok1 hw1.width hw1.height hw1.offset (h2 m))
    have heq : writeEach env tb force w ((xy, line) :: rest) =
        writeEach env tb force (writeBulk env (Data.entries [(xy, line)]) tb force w).1 rest := rfl
    rw [heq]
    refine ⟨i1.trans hw1.offset, ?_⟩
    intro x y old hold
    have hopL : ∀ t ∈ dataHits w.scr.width w.scr.height w.scr.offset [(xy, line)],
        ∀ b, t.span.bg = some b → b.alpha = 1 := by
      intro t ht
      obtain ⟨-, -, ⟨e, he, hte⟩, -⟩ := dataHits_mem _ _ _ _ t ht
      simp only [List.mem_singleton] at he
      subst he
      exact hop (xy, line) (by simp) t.span hte
    obtain ⟨a1, a2⟩ := wrote_opaque hw1 rfl hopL x y
    have happ : dataHits w.scr.width w.scr.height w.scr.offset ((xy, line) :: rest) =
        dataHits w.scr.width w.scr.height w.scr.offset [(xy, line)] ++
        dataHits w.scr.width w.scr.height w.scr.offset rest := by
      simp [dataHits]
    rw [happ, lastHit_append]
    rw [hw1.width, hw1.height, hw1.offset] at i2
    cases hl1 : lastHit (dataHits w.scr.width w.scr.height w.scr.offset [(xy, line)]) x y with
    | none =>
      obtain ⟨c, hc, hcm⟩ := i2 x y old ((a1 hl1).trans hold)
      refine ⟨c, hc, ?_⟩
      simpa using hcm
    | some t =>
      obtain ⟨c, hc, hcm⟩ := i2 x y _ (a2 t hl1 old hold)
      refine ⟨c, hc, ?_⟩
      cases hl2 : lastHit (dataHits w.scr.width w.scr.height w.scr.offset rest) x y with
      | none =>
        rw [hl2] at hcm
        simp only [Option.none_or] at hcm ⊢
        rw [hcm]
        split
        · rename_i h; exact h
        · exact Cell.eq_refl _
      | some t' =>
        rw [hl2] at hcm
        simpa using hcm

/-- **C08**: a non-scrolling `write_bulk` of spans without translucent background
leaves in every position a cell that is (Python-)equal to the one left by writing
the entries one by one. -/
theorem C08_bulk_eq_sequential (env : Color.Env) (tb : Color) (force : Bool) (d : Data)
    (hop : ∀ e ∈ d, ∀ s ∈ e.2, ∀ b, s.bg = some b → b.alpha = 1) (w : World)
    (hs : Shape w.scr.width w.scr.height w.scr.cells) (hok : CacheOk w.cache)
    (ho : (writeBulk env d.entries tb force w).1.scr.offset = w.scr.offset) :
    (writeEach env tb force w d).scr.offset = w.scr.offset ∧
    ∀ x y, x < w.scr.width → y < w.scr.height →
      ∃ a b, cellAt (writeBulk env d.entries tb force w).1.scr.cells x y = some a ∧
        cellAt (writeEach env tb force w d).scr.cells x y = some b ∧ a.eq b = true := by
  have hfill := fill_still hs ho
  obtain ⟨h1, h2⟩ := writeEach_spec env tb force d hop w hs hok
    (fun m => putData_still_congr _ Mats.blank m w w hok hok rfl rfl rfl hfill)
  refine ⟨h1, ?_⟩
  intro x y hx hy
  obtain ⟨old, hold⟩ := hs.exists_cell hx hy
  obtain ⟨b, hb, hbm⟩ := h2 x y old hold
  obtain ⟨-, -, hw⟩ := wrote_of_still env d tb force w hs hok ho
  have hop' : ∀ t ∈ dataHits w.scr.width w.scr.height w.scr.offset d,
      ∀ b, t.span.bg = some b → b.alpha = 1 := by
    intro t ht
    obtain ⟨-, -, ⟨e, he, hte⟩, -⟩ := dataHits_mem _ _ _ _ t ht
    exact hop e he t.span hte
  obtain ⟨a1, a2⟩ := wrote_opaque hw rfl hop' x y
  cases hl : lastHit (dataHits w.scr.width w.scr.height w.scr.offset d) x y with
  | none =>
    rw [hl] at hbm
    exact ⟨old, b, (a1 hl).trans hold, hb, by rw [hbm]; exact Cell.eq_refl _⟩
  | some t =>
    rw [hl] at hbm
    refine ⟨_, b, a2 t hl old hold, hb, ?_⟩
    split
    · rename_i h; exact Cell.eq_trans (Cell.eq_symm h) hbm
    · exact hbm

example : let w : World := { scr := Screen.init 4 2 }
    let d : Data := [((1, 0), [{ text := "abcd".toList }]), ((2, 0), [{ text := "x".toList }])]
    (writeBulk {} d.entries Color.black false w).1.scr.offset = w.scr.offset ∧
    (writeBulk {} d.entries Color.black false w).2 = .ok 4 := by decide +kernel

/-! ## C19 Later opaque content hides what is below it -/

/-- A hit with a translucent background. -/
def Hit.translucent (t : Hit) : Prop := ∃ b, t.span.bg = some b ∧ b.alpha ≠ 1

theorem put_elsewhere (m : Mats) (t : Hit) (x y : Nat) (h : ¬ (t.x = x ∧ t.y = y)) :
    (t.put m).wm x y = m.wm x y ∧ (t.put m).am x y = m.am x y := by
  have h' : ¬ (x = t.x ∧ y = t.y) := fun hh => h ⟨hh.1.symm, hh.2.symm⟩
  unfold Hit.put putCell
  split
  · split <;> simp [upd, h']
  · simp [upd, h']

theorem foldl_put_elsewhere (hits : List Hit) (m : Mats) (x y : Nat)
    (h : ∀ t ∈ hits, ¬ (t.x = x ∧ t.y = y)) :
    (hits.foldl Hit.put m).wm x y = m.wm x y ∧ (hits.foldl Hit.put m).am x y = m.am x y := by
  induction hits generalizing m with
  | nil => exact ⟨rfl, rfl⟩
  | cons t rest ih =>
    obtain ⟨h1, h2⟩ := ih (t.put m) fun t ht => h t (by simp [ht])
    obtain ⟨h3, h4⟩ := put_elsewhere m t x y (h t (by simp))
    exact ⟨h1.trans h3, h2.trans h4⟩

/-- Opaque hits at a position leave its alpha stack alone. -/
theorem foldl_put_am (hits : List Hit) (m : Mats) (x y : Nat)
    (h : ∀ t ∈ hits, t.x = x → t.y = y → ¬ t.translucent) :
    (hits.foldl Hit.put m).am x y = m.am x y := by
  induction hits generalizing m with
  | nil => rfl
  | cons t rest ih =>
    refine (ih (t.put m) fun t ht => h t (by simp [ht])).trans ?_
    by_cases hat : t.x = x ∧ t.y = y
    · have hnt := h t (by simp) hat.1 hat.2
      have : bgHasAlpha t.span.bg = false := bgHasAlpha_false fun b hb => by
        by_contra hne; exact hnt ⟨b, hb, hne⟩
      rw [(Hit.put_opaque this x y).2]
    · exact (put_elsewhere m t x y hat).2

/-- **C19** (partial: fails if a translucent span was written over the cell earlier in
the same call, `C19_violated`). `before` are the characters put before the last
one, `t`, that falls on its cell; if none of those that fall on the cell has a
translucent background, the cell shows exactly `t`. -/
theorem C19_last_opaque_wins_partial (env : Color.Env) (tb : Color) (force : Bool) (d : Data)
    (w : World) (hs : Shape w.scr.width w.scr.height w.scr.cells) (hok : CacheOk w.cache)
    (ho : (writeBulk env d.entries tb force w).1.scr.offset = w.scr.offset)
    (before after : List Hit) (t : Hit)
    (hd : dataHits w.scr.width w.scr.height w.scr.offset d = before ++ t :: after)
    (hlast : ∀ u ∈ after, ¬ (u.x = t.x ∧ u.y = t.y))
    (hop : ¬ t.translucent)
    (hbelow : ∀ u ∈ before, u.x = t.x → u.y = t.y → ¬ u.translucent) :
    ∃ c, cellAt (writeBulk env d.entries tb force w).1.scr.cells t.x t.y = some c ∧
      (storedCell t.span (rstrip (· == '\n') t.char)).eq c = true := by
  obtain ⟨-, -, hw⟩ := wrote_of_still env d tb force w hs hok ho
  obtain ⟨hx, hy, -⟩ := dataHits_mem w.scr.width w.scr.height w.scr.offset d t (by rw [hd]; simp)
  obtain ⟨old, hold⟩ := hs.exists_cell hx hy
  have hb1 : ∀ b, t.span.bg = some b → b.alpha = 1 := fun b hb => by
    by_contra hne; exact hop ⟨b, hb, hne⟩
  rw [hd, List.foldl_append, List.foldl_cons] at hw
  have hc := hw.cell t.x t.y
  obtain ⟨e1, e2⟩ := foldl_put_elsewhere after (t.put (before.foldl Hit.put Mats.blank)) t.x t.y hlast
  obtain ⟨e3, e4⟩ := Hit.put_opaque (m := before.foldl Hit.put Mats.blank) (bgHasAlpha_false hb1) t.x t.y
  have e5 := foldl_put_am before Mats.blank t.x t.y hbelow
  have hat : t.isAt t.x t.y = true := by simp [Hit.isAt]
  rw [hat] at e3
  have hres : resolveCell tb [] t.wcell = storedCell t.span (rstrip (· == '\n') t.char) := by
    rw [resolveCell_opaque tb t.wcell hb1]; rfl
  unfold outcome at hc
  rw [e1, e3, e2, e4, e5] at hc
  simp only [if_true, Mats.blank, hres, hold] at hc
  split at hc
  · rename_i h
    exact ⟨old, by simpa using hc, h⟩
  · exact ⟨_, by simpa using hc, Cell.eq_refl _⟩

/-- **C19 violated**: an opaque span written over a translucent one in the same call is
tinted: the red background of the last entry is stored as a different colour. -/
theorem C19_violated :
    let red : Color := { r := 200, g := 0, b := 0, isBg := true }
    let blue : Color := { r := 0, g := 0, b := 200, isBg := true, alpha := 1 / 2 }
    let d : Data := [((0, 0), [{ text := "a".toList }]), ((0, 0), [{ text := "b".toList, bg := some blue }]),
      ((0, 0), [{ text := "c".toList, bg := some red }])]
    (cellAt (writeBulk {} d.entries Color.black false { scr := Screen.init 1 1 }).1.scr.cells 0 0).map (·.bg)
      ≠ some (some red) := by decide +kernel

/-- Hypotheses of the partial theorem: two opaque spans over each other and a translucent one
elsewhere. -/
example : let d : Data := [((0, 0), [{ text := "a".toList }]),
      ((1, 0), [{ text := "b".toList, bg := some { r := 0, g := 0, b := 9, alpha := 1 / 2 } }]),
      ((0, 0), [{ text := "c".toList }])]
    (dataHits 2 1 0 d).map (fun t => (t.x, t.y, t.char)) =
      [(0, 0, ['a']), (1, 0, ['b']), (0, 0, ['c'])] ∧
    (writeBulk {} d.entries Color.black false { scr := Screen.init 2 1 }).1.scr.offset = 0 := by
  decide +kernel

/-! ## C21 A translucent foreground is blended with its background -/

/-- **C21**, what is true: a translucent foreground over an opaque background is
replaced by that background colour, whatever its alpha; without a background it
is stored as it is. (`storedCell` is what a write stores by C05.) -/
theorem C21_translucent_foreground_partial (tb : Color) (c : WCell) (f : Color)
    (hf : c.fg = some f) (ha : f.alpha ≠ 1) :
    (∀ b, c.bg = some b → b.alpha = 1 → (resolveCell tb [] c).fg = some b) ∧
    (c.bg = none → (resolveCell tb [] c).fg = some f) := by
  constructor
  · intro b hb hb1
    rw [resolveCell_opaque tb c (by intro b' hb'; rw [hb] at hb'; injection hb' with e; rw [← e]; exact hb1)]
    simp [hf, ha, hb]
  · intro hb
    rw [resolveCell_opaque tb c (by intro b' hb'; rw [hb] at hb'; cases hb')]
    simp [hf, ha, hb]

/-- **C21 violated**: an almost opaque white text (alpha 9/10) on a black background is
stored with foreground black — the text disappears — and even as a background
colour. -/
theorem C21_violated :
    let w := write {} [{ text := "a".toList, fg := some { r := 255, g := 255, b := 255, alpha := 9 / 10 },
                         bg := some { r := 0, g := 0, b := 0, isBg := true } }]
      (some (0, 0)) Color.black false { scr := Screen.init 1 1 }
    (cellAt w.1.scr.cells 0 0).map (·.fg) = some (some { r := 0, g := 0, b := 0, isBg := true }) := by
  decide +kernel

end Slate
