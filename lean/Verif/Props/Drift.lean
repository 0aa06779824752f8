import Verif.Props.Scroll
import Verif.Lemmas.CacheOn

/-!
# Lines of several spans on a scrolled screen (C16)

`write_bulk` subtracts the offset once for every span of a line, not once for the line. So each span of a line is stored by the offset
higher than the one before it.
-/

namespace Slate
open Py

/-- The number of characters before span `k` of a line. -/
def lengthBefore (line : List Span) (k : Nat) : Nat := ((line.take k).map fun s => s.text.length).sum

theorem lengthBefore_zero (line : List Span) : lengthBefore line 0 = 0 := by simp [lengthBefore]

theorem lengthBefore_succ (s : Span) (rest : List Span) (k : Nat) : lengthBefore (s :: rest) (k + 1) = s.text.length + lengthBefore rest k := by
  simp [lengthBefore]

/-- Spans and characters are determined by the column. -/
theorem lengthBefore_inj (line : List Span) : ∀ {k k' j j' : Nat} {s s' : Span}, line[k]? = some s → line[k']? = some s' →
    j < s.text.length → j' < s'.text.length → lengthBefore line k + j = lengthBefore line k' + j' → k = k' ∧ j = j' := by
  induction line with
  | nil => intro k k' j j' s s' h; simp at h
  | cons a rest ih =>
    intro k k' j j' s s' h h' hj hj' e
    cases k with
    | zero =>
      cases k' with
      | zero => simp only [lengthBefore_zero] at e; omega
      | succ k' =>
        simp only [List.getElem?_cons_zero, Option.some.injEq] at h
        subst h
        rw [lengthBefore_zero, lengthBefore_succ] at e
        omega
    | succ k =>
      cases k' with
      | zero =>
        simp only [List.getElem?_cons_zero, Option.some.injEq] at h'
        subst h'
        rw [lengthBefore_zero, lengthBefore_succ] at e
        omega
      | succ k' =>
        rw [lengthBefore_succ, lengthBefore_succ] at e
        obtain ⟨h1, h2⟩ := ih (by simpa using h) (by simpa using h') hj hj' (by omega)
        exact ⟨by omega, h2⟩

theorem lengthBefore_le (line : List Span) : ∀ {k : Nat} {s : Span}, line[k]? = some s →
    lengthBefore line k + s.text.length ≤ (line.map fun s => s.text.length).sum := by
  induction line with
  | nil => intro k s h; simp at h
  | cons a rest ih =>
    intro k s h
    cases k with
    | zero =>
      simp only [List.getElem?_cons_zero, Option.some.injEq] at h
      subst h
      simp [lengthBefore]
    | succ k =>
      have := ih (k := k) (s := s) (by simpa using h)
      rw [lengthBefore_succ]
      simp only [List.map_cons, List.sum_cons]
      omega

/-- The fill phase for a line that fits into its row. -/
theorem putSpans_drift (spans : List Span) (hn : ∀ s ∈ spans, '\n' ∉ s.text ∧ s.text ≠ []) :
    ∀ (i x : Nat) (y last : Int) (m : Mats) (w : World), 0 ≤ w.scr.offset → x + (spans.map fun s => s.text.length).sum ≤ w.scr.width →
    y - w.scr.offset < w.scr.height → CacheRs w.cache →
    ∃ (p : Pen) (hits : List Hit) (c : CharCache), putSpans spans i { x := (x : Int), y := y, last := last } m w = (p, hits.foldl Hit.put m, { w with cache := c }, none) ∧
      (∀ t ∈ hits, ∃ (k : Nat) (s : Span) (j : Nat) (ch : Char), spans[k]? = some s ∧ s.text[j]? = some ch ∧ t.span = s ∧ stripNl t.char = styledChar s j ch ∧
        t.x = x + lengthBefore spans k + j ∧ (t.y : Int) = y - ((k : Int) + 1) * w.scr.offset) ∧
      (∀ (k : Nat) (s : Span) (j : Nat) (ch : Char), spans[k]? = some s → s.text[j]? = some ch → 0 ≤ y - ((k : Int) + 1) * w.scr.offset →
        ∃ t ∈ hits, t.x = x + lengthBefore spans k + j ∧ (t.y : Int) = y - ((k : Int) + 1) * w.scr.offset) := by
  induction spans with
  | nil =>
    intro i x y last m w _ _ _ _
    exact ⟨_, [], w.cache, rfl, by simp, by simp⟩
  | cons s rest ih =>
    intro i x y last m w ho hfit hy hrs
    obtain ⟨hget, hrs'⟩ := hrs.get s
    obtain ⟨hnl, hne⟩ := hn s (by simp)
    have hget := hget hnl
    have hlen : (w.cache.get s).1.length = s.text.length := by
      rw [← length_cellChars, ← hget, List.length_map]
    have hlpos : 0 < s.text.length := List.length_pos_of_ne_nil hne
    simp only [List.map_cons, List.sum_cons] at hfit
    have hrest := ih fun t ht => hn t (by simp [ht])
    have hstep : putSpans (s :: rest) i { x := (x : Int), y := y, last := last } m w =
        putSpans rest (i + 1)
          (putChars w.scr.width w.scr.height s (w.cache.get s).1 { x := (x : Int), y := y - w.scr.offset, last := last } m).1
          (putChars w.scr.width w.scr.height s (w.cache.get s).1 { x := (x : Int), y := y - w.scr.offset, last := last } m).2
          { w with cache := (w.cache.get s).2 } := by
      rw [putSpans]
      simp only
      rw [if_neg (by omega)]
    rw [hstep]
    by_cases hneg : y - w.scr.offset < 0
    · -- above the window: nothing is stored any more
      have hput : putChars w.scr.width w.scr.height s (w.cache.get s).1 { x := (x : Int), y := y - w.scr.offset, last := last } m =
          ({ x := (x : Int), y := y - w.scr.offset, last := last }, m) := by
        cases (w.cache.get s).1 with
        | nil => rfl
        | cons c cs => unfold putChars; rw [if_pos (by simp only; omega)]
      rw [hput]
      obtain ⟨p, hits, c, e, h1, -⟩ := hrest (i + 1) x (y - w.scr.offset) last m { w with cache := (w.cache.get s).2 } ho
        (by simp only; omega) (by simp only; omega) hrs'
      have hmul : ∀ k : Nat, 0 ≤ (k : Int) * w.scr.offset := fun k => mul_nonneg (by omega) ho
      have hnone : ∀ t ∈ hits, False := by
        intro t ht
        obtain ⟨k, s', j, ch, -, -, -, -, -, h2⟩ := h1 t ht
        have := hmul k
        rw [add_mul] at h2
        simp only at h2
        omega
      refine ⟨p, hits, c, e, fun t ht => (hnone t ht).elim, ?_⟩
      intro k s' j ch _ _ h2
      have := hmul k
      rw [add_mul] at h2
      omega
    · -- in the window
      obtain ⟨row, hrow⟩ : ∃ row : Nat, y - w.scr.offset = (row : Int) := ⟨(y - w.scr.offset).toNat, by omega⟩
      rw [hrow]
      have hw : 0 < w.scr.width := by omega
      have hx : x < w.scr.width := by omega
      have hrowh : row < w.scr.height := by omega
      have hmod : ∀ k, k < w.scr.width → (row * w.scr.width + k) % w.scr.width = k := fun k hk => by
        rw [Nat.mul_comm, Nat.mul_add_mod, Nat.mod_eq_of_lt hk]
      have hdiv : ∀ k, k < w.scr.width → (row * w.scr.width + k) / w.scr.width = row := fun k hk => by
        rw [Nat.mul_comm, Nat.mul_add_div hw, Nat.div_eq_of_lt hk]; rfl
      have hgetj : ∀ (j : Nat) (c : Str), (w.cache.get s).1[j]? = some c → s.cellChars[j]? = some (stripNl c) := by
        intro j c h; rw [← hget, List.getElem?_map, h]; rfl
      have hnn : ∀ c ∈ (w.cache.get s).1, c ≠ ['\n'] := by
        intro c hc e
        obtain ⟨j, hj⟩ := List.mem_iff_getElem?.mp hc
        have := hgetj j c hj
        rw [cellChars_getElem?] at this
        obtain ⟨ch, -, hst⟩ := Option.map_eq_some_iff.mp this
        rw [e, show stripNl ['\n'] = [] from rfl] at hst
        unfold styledChar at hst
        simp only at hst
        split at hst
        · simp at hst
        · split at hst <;> simp at hst
      have hend : (row + 1) * w.scr.width ≤ w.scr.height * w.scr.width := Nat.mul_le_mul_right _ hrowh
      rw [Nat.add_mul, Nat.one_mul] at hend
      have hpen0 : ({ x := (x : Int), y := (row : Int), last := last } : Pen) = penAt w.scr.width (row * w.scr.width + x) last := by
        unfold penAt; rw [hmod x hx, hdiv x hx]
      have hpen := putChars_index hw w.scr.height s (w.cache.get s).1 hnn (row * w.scr.width + x) (by omega) last m
      have hhits := charHits_index hw w.scr.height s (w.cache.get s).1 hnn (row * w.scr.width + x)
      rw [hmod x hx, hdiv x hx, List.take_of_length_le (by rw [hlen]; omega)] at hhits
      have hm := putChars_hits w.scr.width w.scr.height s (w.cache.get s).1 { x := (x : Int), y := (row : Int), last := last } m
      simp only at hm
      rw [hhits] at hm
      rw [hm, hpen0, hpen, hlen, min_eq_left (by omega)]
      generalize hlast : (if s.text.length = 0 ∨ row * w.scr.width + x = w.scr.height * w.scr.width then last
         else if row * w.scr.width + x + s.text.length ≤ w.scr.height * w.scr.width then (1 : Int) else 0) = last'
      -- the characters of this span
      have hmine : ∀ t ∈ (w.cache.get s).1.mapIdx (fun k c => hitAt w.scr.width s (row * w.scr.width + x + k) c),
          ∃ j ch, s.text[j]? = some ch ∧ t.span = s ∧ stripNl t.char = styledChar s j ch ∧ t.x = x + j ∧ t.y = row := by
        intro t ht
        obtain ⟨j, hj, rfl⟩ := List.mem_mapIdx.mp ht
        have hjl : j < s.text.length := by rw [← hlen]; exact hj
        refine ⟨j, s.text[j], List.getElem?_eq_getElem hjl, rfl, ?_, ?_, ?_⟩
        · have := hgetj j _ (List.getElem?_eq_getElem hj)
          rw [cellChars_getElem?, List.getElem?_eq_getElem hjl] at this
          simp only [Option.map_some, Option.some.injEq] at this
          exact this.symm
        · show (row * w.scr.width + x + j) % w.scr.width = x + j
          rw [Nat.add_assoc, hmod _ (by omega)]
        · show (row * w.scr.width + x + j) / w.scr.width = row
          rw [Nat.add_assoc, hdiv _ (by omega)]
      have hall : ∀ (j : Nat) (ch : Char), s.text[j]? = some ch →
          ∃ t ∈ (w.cache.get s).1.mapIdx (fun k c => hitAt w.scr.width s (row * w.scr.width + x + k) c), t.x = x + j ∧ t.y = row := by
        intro j ch hj
        have hjl : j < s.text.length := (List.getElem?_eq_some_iff.mp hj).1
        refine ⟨hitAt w.scr.width s (row * w.scr.width + x + j) ((w.cache.get s).1[j]'(by omega)), List.mem_mapIdx.mpr ⟨j, by omega, rfl⟩, ?_, ?_⟩
        · show (row * w.scr.width + x + j) % w.scr.width = x + j
          rw [Nat.add_assoc, hmod _ (by omega)]
        · show (row * w.scr.width + x + j) / w.scr.width = row
          rw [Nat.add_assoc, hdiv _ (by omega)]
      have fin : ∀ (p : Pen) (hits : List Hit) (c : CharCache) (r : Pen × Mats × World × Option PyErr),
          r = (p, hits.foldl Hit.put (((w.cache.get s).1.mapIdx fun k c => hitAt w.scr.width s (row * w.scr.width + x + k) c).foldl Hit.put m),
            { w with cache := c }, none) →
          (∀ t ∈ hits, ∃ (k : Nat) (s' : Span) (j : Nat) (ch : Char), rest[k]? = some s' ∧ s'.text[j]? = some ch ∧ t.span = s' ∧ stripNl t.char = styledChar s' j ch ∧
            t.x = x + s.text.length + lengthBefore rest k + j ∧ (t.y : Int) = row - ((k : Int) + 1) * w.scr.offset) →
          (∀ (k : Nat) (s' : Span) (j : Nat) (ch : Char), rest[k]? = some s' → s'.text[j]? = some ch → 0 ≤ (row : Int) - ((k : Int) + 1) * w.scr.offset →
            ∃ t ∈ hits, t.x = x + s.text.length + lengthBefore rest k + j ∧ (t.y : Int) = row - ((k : Int) + 1) * w.scr.offset) →
          ∃ (p : Pen) (hits : List Hit) (c : CharCache), r = (p, hits.foldl Hit.put m, { w with cache := c }, none) ∧
            (∀ t ∈ hits, ∃ (k : Nat) (s' : Span) (j : Nat) (ch : Char), (s :: rest)[k]? = some s' ∧ s'.text[j]? = some ch ∧ t.span = s' ∧ stripNl t.char = styledChar s' j ch ∧
              t.x = x + lengthBefore (s :: rest) k + j ∧ (t.y : Int) = y - ((k : Int) + 1) * w.scr.offset) ∧
            (∀ (k : Nat) (s' : Span) (j : Nat) (ch : Char), (s :: rest)[k]? = some s' → s'.text[j]? = some ch → 0 ≤ y - ((k : Int) + 1) * w.scr.offset →
              ∃ t ∈ hits, t.x = x + lengthBefore (s :: rest) k + j ∧ (t.y : Int) = y - ((k : Int) + 1) * w.scr.offset) := by
        intro p hits c r hr h1 h2
        have hshift : ∀ k : Nat, (row : Int) - ((k : Int) + 1) * w.scr.offset = y - ((k + 1 : Nat) + 1) * w.scr.offset := by
          intro k; rw [← hrow]; push_cast; ring
        have hzero : (row : Int) = y - ((0 : Nat) + 1) * w.scr.offset := by rw [← hrow]; push_cast; ring
        refine ⟨p, ((w.cache.get s).1.mapIdx fun k c => hitAt w.scr.width s (row * w.scr.width + x + k) c) ++ hits, c, ?_, ?_, ?_⟩
        · rw [hr, List.foldl_append]
        · intro t ht
          rcases List.mem_append.mp ht with ht | ht
          · obtain ⟨j, ch, g1, g2, g3, g4, g5⟩ := hmine t ht
            exact ⟨0, s, j, ch, rfl, g1, g2, g3, by rw [lengthBefore_zero]; omega, by rw [g5, ← hzero]⟩
          · obtain ⟨k, s', j, ch, g1, g2, g3, g4, g5, g6⟩ := h1 t ht
            exact ⟨k + 1, s', j, ch, by simpa using g1, g2, g3, g4, by rw [lengthBefore_succ]; omega, by rw [g6, hshift]⟩
        · intro k s' j ch hk hj hpos
          cases k with
          | zero =>
            simp only [List.getElem?_cons_zero, Option.some.injEq] at hk
            subst hk
            obtain ⟨t, ht, g1, g2⟩ := hall j ch hj
            exact ⟨t, List.mem_append_left _ ht, by rw [lengthBefore_zero]; omega, by rw [g2, ← hzero]⟩
          | succ k =>
            rw [← hshift] at hpos
            obtain ⟨t, ht, g1, g2⟩ := h2 k s' j ch (by simpa using hk) hj hpos
            exact ⟨t, List.mem_append_right _ ht, by rw [lengthBefore_succ]; omega, by rw [g2, hshift]⟩
      cases hr : rest with
      | nil =>
        subst hr
        exact fin _ [] (w.cache.get s).2 _ rfl (by simp) (by simp)
      | cons s2 rest2 =>
        rw [← hr]
        have h2 : 0 < s2.text.length := List.length_pos_of_ne_nil (hn s2 (by simp [hr])).2
        have hlt : x + s.text.length < w.scr.width := by rw [hr] at hfit; simp only [List.map_cons, List.sum_cons] at hfit; omega
        have hp : penAt w.scr.width (row * w.scr.width + x + s.text.length) last' =
            { x := ((x + s.text.length : Nat) : Int), y := (row : Int), last := last' } := by
          unfold penAt
          rw [Nat.add_assoc, hmod _ hlt, hdiv _ hlt]
        rw [hp]
        obtain ⟨p, hits, c, e, h1, h2⟩ := hrest (i + 1) (x + s.text.length) (row : Int) last'
          (((w.cache.get s).1.mapIdx fun k c => hitAt w.scr.width s (row * w.scr.width + x + k) c).foldl Hit.put m)
          { w with cache := (w.cache.get s).2 } ho (by simp only; omega) (by simp only; omega) hrs'
        exact fin p hits c _ e h1 h2

/-- **C16**, lines of several spans, exactly: on every screen reached by any history, a line of opaque spans without line breaks that fits into its row is
written in a row of the window. Nothing scrolls, span `k` of the line is stored `k` times the offset above the first one (or not at all, if that is above
the screen), and nothing else changes. -/
theorem C16_drift_partial (env : Color.Env) (width height : Nat) (cur : Int × Int) (fill : Str) (ops : List Api) (line : List Span)
    (hn : ∀ s ∈ line, '\n' ∉ s.text ∧ s.text ≠ []) (hop : ∀ s ∈ line, ∀ b, s.bg = some b → b.alpha = 1) (tb : Color) (force : Bool) (x : Nat) (y : Int) :
    let w := Api.runAll env { scr := Screen.init width height cur fill } ops
    let r := write env line (some ((x : Int), y)) tb force w
    x + (line.map fun s => s.text.length).sum ≤ w.scr.width → w.scr.offset ≤ y → y < w.scr.offset + w.scr.height →
    (∃ n, r.2 = .ok n) ∧ r.1.scr.offset = w.scr.offset ∧
    (∀ (k : Nat) (s : Span) (j : Nat) (c : Char) (row : Nat), line[k]? = some s → s.text[j]? = some c → (row : Int) = y - w.scr.offset - k * w.scr.offset →
      ∃ old, cellAt w.scr.cells (x + lengthBefore line k + j) row = some old ∧
        cellAt r.1.scr.cells (x + lengthBefore line k + j) row =
          some (if (storedCell s (styledChar s j c)).eq old then old else storedCell s (styledChar s j c))) ∧
    (∀ a b : Nat, (∀ (k : Nat) (s : Span) (j : Nat), line[k]? = some s → j < s.text.length → a = x + lengthBefore line k + j → (b : Int) ≠ y - w.scr.offset - k * w.scr.offset) →
      cellAt r.1.scr.cells a b = cellAt w.scr.cells a b) := by
  intro w r hfit hy1 hy2
  have hs : Shape w.scr.width w.scr.height w.scr.cells := runAll_shape env ops _ (resize_shape _ _ _ _ _)
  have hrs : CacheRs w.cache := runAll_cacheRs env ops _ (by intro e he; simp at he)
  have ho : 0 ≤ w.scr.offset := runAll_offset_mono env ops { scr := Screen.init width height cur fill } (resize_shape _ _ _ _ _)
  obtain ⟨p, hits, c, e, h1, h2⟩ := putSpans_drift line hn 0 x y ((line.length : Int) - 1) Mats.blank w ho hfit (by omega) hrs
  have hput : putData [(some ((x : Int), y), line)] Mats.blank w = (hits.foldl Hit.put Mats.blank, { w with cache := c }, none) := by
    simp only [putData, e]
  have hr : r = ({ scr := (commit env tb (hits.foldl Hit.put Mats.blank) w.scr).1, cache := c },
      (commit env tb (hits.foldl Hit.put Mats.blank) w.scr).2) := by
    simp only [r, write, writeBulk, hput]
  obtain ⟨n, hn', hwr⟩ := commit_wrote env tb (hits.foldl Hit.put Mats.blank) w.scr hs
  have hop' : ∀ t ∈ hits, ∀ b, t.span.bg = some b → b.alpha = 1 := by
    intro t ht
    obtain ⟨k, s, j, ch, g1, -, g3, -⟩ := h1 t ht
    rw [g3]
    exact hop s (List.mem_of_getElem? g1)
  have hrow : ∀ k : Nat, y - ((k : Int) + 1) * w.scr.offset = y - w.scr.offset - k * w.scr.offset := fun k => by ring
  refine ⟨⟨n, by rw [hr]; exact hn'⟩, by rw [hr]; exact hwr.offset, ?_, ?_⟩
  · intro k s j ch row hk hj hrow'
    have hjl : j < s.text.length := (List.getElem?_eq_some_iff.mp hj).1
    have hle := lengthBefore_le line hk
    have hkpos : 0 ≤ (k : Int) * w.scr.offset := mul_nonneg (by omega) ho
    obtain ⟨old, hold⟩ := hs.exists_cell (x := x + lengthBefore line k + j) (y := row) (by omega) (by omega)
    refine ⟨old, hold, ?_⟩
    obtain ⟨t, ht, g1, g2⟩ := h2 k s j ch hk hj (by rw [hrow]; omega)
    have hty : t.y = row := by rw [hrow] at g2; omega
    -- every hit there is this character
    have hsome : ∃ t', lastHit hits (x + lengthBefore line k + j) row = some t' := by
      refine Option.isSome_iff_exists.mp ?_
      unfold lastHit
      rw [List.find?_isSome]
      exact ⟨t, by simpa using ht, by simp [Hit.isAt, g1, hty]⟩
    obtain ⟨t', ht'⟩ := hsome
    have hm := List.mem_of_find?_eq_some ht'
    have hat := List.find?_some ht'
    simp only [Hit.isAt, Bool.and_eq_true, decide_eq_true_eq] at hat
    obtain ⟨k', s', j', ch', f1, f2, f3, f4, f5, -⟩ := h1 t' (by simpa using hm)
    obtain ⟨e1, e2⟩ := lengthBefore_inj line hk f1 hjl (List.getElem?_eq_some_iff.mp f2).1 (by omega)
    subst e1 e2
    rw [hk] at f1
    cases f1
    rw [hj] at f2
    cases f2
    have := (wrote_opaque hwr rfl hop' (x + lengthBefore line k + j) row).2 _ ht' old hold
    rw [show rstrip (· == '\n') t'.char = styledChar s j ch from f4, f3] at this
    rw [hr]
    exact this
  · intro a b hout
    rw [hr]
    apply (wrote_opaque hwr rfl hop' a b).1
    apply lastHit_none
    rintro t ht ⟨g1, g2⟩
    obtain ⟨k, s, j, ch, f1, f2, -, -, f5, f6⟩ := h1 t ht
    refine hout k s j f1 (List.getElem?_eq_some_iff.mp f2).1 (by omega) ?_
    rw [← g2, f6, hrow]

/-- C16 is violated on every scrolled screen by every line of at least two spans that fits: nothing of the spans after the first one is stored in the row
of the line. -/
theorem C16_lines_violated (env : Color.Env) (width height : Nat) (cur : Int × Int) (fill : Str) (ops : List Api) (line : List Span)
    (hn : ∀ s ∈ line, '\n' ∉ s.text ∧ s.text ≠ []) (hop : ∀ s ∈ line, ∀ b, s.bg = some b → b.alpha = 1) (tb : Color) (force : Bool) (x : Nat) (y : Int)
    (k : Nat) (s : Span) (j : Nat) (hk : line[k]? = some s) (hk0 : 0 < k) (hj : j < s.text.length) :
    let w := Api.runAll env { scr := Screen.init width height cur fill } ops
    let r := write env line (some ((x : Int), y)) tb force w
    x + (line.map fun s => s.text.length).sum ≤ w.scr.width → w.scr.offset ≤ y → y < w.scr.offset + w.scr.height → 0 < w.scr.offset →
    cellAt r.1.scr.cells (x + lengthBefore line k + j) (y - w.scr.offset).toNat = cellAt w.scr.cells (x + lengthBefore line k + j) (y - w.scr.offset).toNat := by
  intro w r hfit hy1 hy2 ho
  obtain ⟨-, -, -, h⟩ := C16_drift_partial env width height cur fill ops line hn hop tb force x y hfit hy1 hy2
  apply h
  intro k' s' j' hk' hj' e he
  obtain ⟨e1, -⟩ := lengthBefore_inj line hk hk' hj hj' (by omega)
  subst e1
  have hp : (0 : Int) < k * w.scr.offset := mul_pos (by omega) ho
  have he : ((y - w.scr.offset).toNat : Int) = y - w.scr.offset - k * w.scr.offset := he
  omega

/-- Both hypotheses hold after a scrolling write: the second span of a line in the last row of the window goes to the row above. -/
example :
    let w := Api.runAll {} { scr := Screen.init 4 2 } [.write [{ text := ['x'] }] (some (0, 2)) Color.black false]
    let line : List Span := [{ text := ['a', 'b'] }, { text := ['c'], style := { bold := true } }]
    w.scr.offset = 1 ∧ 1 + (line.map fun s => s.text.length).sum ≤ w.scr.width ∧ (w.scr.offset ≤ 2 ∧ 2 < w.scr.offset + w.scr.height) ∧
    (cellAt (write {} line (some (1, 2)) Color.black false w).1.scr.cells 3 0).map (·.char) = some "\x1b[1mc\x1b[0m".toList := by
  decide +kernel

/-! ## Lines of several spans below the window -/

/-- The number of the last span does not matter for what is written. -/
theorem putChars_last (width height : Nat) (span : Span) (chars : List Str) : ∀ (p : Pen) (m : Mats) (l : Int),
    (putChars width height span chars { p with last := l } m).2 = (putChars width height span chars p m).2 := by
  induction chars with
  | nil => intro p m l; rfl
  | cons c cs ih =>
    intro p m l
    unfold putChars
    simp only
    split
    · rfl
    · split
      · exact ih { p with y := p.y + 1 } m l
      · rfl

/-- All spans but the last one of a line that stays below the window. -/
theorem putSpans_below (ss : List Span) (s : Span) : ∀ (i : Nat) (p : Pen) (m : Mats) (w : World), p.last = ((i + ss.length : Nat) : Int) →
    0 ≤ w.scr.offset → (w.scr.height : Int) ≤ p.y - ss.length * w.scr.offset → CacheOkOn (· ∈ ss ++ [s]) w.cache →
    ∃ cache, CacheOkOn (· ∈ [s]) cache ∧ putSpans (ss ++ [s]) i p m w =
      putSpans [s] (i + ss.length) { p with y := p.y - ss.length * w.scr.offset } m { w with cache := cache } := by
  induction ss with
  | nil =>
    intro i p m w _ _ _ hc
    exact ⟨w.cache, hc, by simp⟩
  | cons t ss ih =>
    intro i p m w hl ho hy hc
    obtain ⟨-, hg⟩ := hc.get t (by simp)
    have hy' : (w.scr.height : Int) ≤ p.y - w.scr.offset - ss.length * w.scr.offset := by
      rw [List.length_cons] at hy
      push_cast at hy
      linarith
    have hnn : 0 ≤ (ss.length : Int) * w.scr.offset := mul_nonneg (by omega) ho
    obtain ⟨cache, h1, h2⟩ := ih (i + 1) { p with y := p.y - w.scr.offset } m { w with cache := (w.cache.get t).2 }
      (by rw [hl, List.length_cons]; congr 1; omega) ho hy' (fun e he h => hg e he (by simp at h ⊢; tauto))
    refine ⟨cache, h1, ?_⟩
    rw [List.cons_append, putSpans]
    simp only
    rw [if_neg (by
      rintro ⟨e, -⟩
      rw [hl, List.length_cons] at e
      omega)]
    have hp : ∀ chars : List Str, putChars w.scr.width w.scr.height t chars { p with y := p.y - w.scr.offset } m = ({ p with y := p.y - w.scr.offset }, m) := by
      intro chars
      cases chars with
      | nil => rfl
      | cons c cs =>
        unfold putChars
        rw [if_pos (by simp only; omega)]
    rw [hp]
    simp only
    rw [h2]
    simp only [List.length_cons]
    rw [show i + 1 + ss.length = i + (ss.length + 1) by omega]
    push_cast
    rw [show p.y - w.scr.offset - (ss.length : Int) * w.scr.offset = p.y - ((ss.length : Int) + 1) * w.scr.offset by ring]

/-- The last span of a line that scrolls: what happens depends only on the screen, the characters and the position. -/
theorem putSpans_scrolls (s : Span) (i i' : Nat) (x y l l' : Int) (m : Mats) (scr : Screen) (c c' : CharCache) (hl : (i : Int) = l) (hl' : (i' : Int) = l')
    (hy : y - scr.offset > (scr.height : Int) - 1) (hc : (c.get s).1 = (c'.get s).1) :
    let a := putSpans [s] i { x := x, y := y, last := l } m { scr := scr, cache := c }
    let b := putSpans [s] i' { x := x, y := y, last := l' } m { scr := scr, cache := c' }
    a.2.1 = b.2.1 ∧ a.2.2.1.scr = b.2.2.1.scr ∧ a.2.2.2 = b.2.2.2 := by
  intro a b
  simp only [a, b]
  unfold putSpans
  simp only
  have h1 : (i : Int) = l ∧ y - scr.offset > (scr.height : Int) - 1 := ⟨hl, hy⟩
  have h2 : (i' : Int) = l' ∧ y - scr.offset > (scr.height : Int) - 1 := ⟨hl', hy⟩
  simp only [if_pos h1, if_pos h2, hc]
  cases hch : (c'.get s).1 with
  | nil => simp
  | cons d ds =>
    simp only [List.isEmpty_cons, Bool.false_eq_true, if_false]
    cases hcl : scr.cells with
    | nil => simp
    | cons row rows =>
      simp only [putSpans]
      refine ⟨?_, trivial, trivial⟩
      exact (putChars_last scr.width scr.height s (appendNewline (d :: ds)) { x := x, y := y - (y - scr.height + 1), last := l' } m l)

/-- **C16 violated** by every line of at least two spans that scrolls (on a screen that has not scrolled before: by every such line in a row below
the screen): only its last span is written, and at the start of the line; the others have no effect at all. The offset becomes smaller than it
should by as much as the spans are moved up. -/
theorem C16_lost_violated (env : Color.Env) (ss : List Span) (s : Span) (tb : Color) (force : Bool) (x y : Int) (w : World)
    (ho : 0 ≤ w.scr.offset) (hy : (w.scr.height : Int) ≤ y - (ss.length + 1) * w.scr.offset) (hc : CacheOkOn (· ∈ ss ++ [s]) w.cache) :
    let r := write env (ss ++ [s]) (some (x, y)) tb force w
    let r' := write env [s] (some (x, y - ss.length * w.scr.offset)) tb force w
    r.1.scr = r'.1.scr ∧ r.2 = r'.2 := by
  intro r r'
  obtain ⟨cache, h1, h2⟩ := putSpans_below ss s 0 { x := x, y := y, last := ((ss ++ [s]).length : Int) - 1 } Mats.blank w
    (by simp) ho (by simp only; linarith) hc
  have hcs : (cache.get s).1 = (w.cache.get s).1 :=
    (h1.get s (by simp)).1.trans (hc.get s (by simp)).1.symm
  have key : putSpans (ss ++ [s]) 0 { x := x, y := y, last := ((ss ++ [s]).length : Int) - 1 } Mats.blank w = _ := h2
  have hcond : y - (ss.length : Int) * w.scr.offset - w.scr.offset > (w.scr.height : Int) - 1 := by linarith
  show (writeBulk env [(some (x, y), ss ++ [s])] tb force w).1.scr = (writeBulk env [(some (x, y - ss.length * w.scr.offset), [s])] tb force w).1.scr ∧
    (writeBulk env [(some (x, y), ss ++ [s])] tb force w).2 = (writeBulk env [(some (x, y - ss.length * w.scr.offset), [s])] tb force w).2
  have hl1 : ((0 + ss.length : Nat) : Int) = ((ss ++ [s]).length : Int) - 1 := by simp
  have hl2 : ((0 : Nat) : Int) = (([s] : List Span).length : Int) - 1 := by simp
  obtain ⟨e1, e2, e3⟩ := putSpans_scrolls s (0 + ss.length) 0 x (y - ss.length * w.scr.offset) _ _ Mats.blank w.scr cache w.cache hl1 hl2 hcond hcs
  unfold writeBulk putData
  rw [key]
  simp only
  revert e1 e2 e3
  generalize putSpans [s] (0 + ss.length) { x := x, y := y - ss.length * w.scr.offset, last := ((ss ++ [s]).length : Int) - 1 } Mats.blank
    { scr := w.scr, cache := cache } = a
  generalize putSpans [s] 0 { x := x, y := y - ss.length * w.scr.offset, last := (([s] : List Span).length : Int) - 1 } Mats.blank w = b
  obtain ⟨pa, ma, wa, ea⟩ := a
  obtain ⟨pb, mb, wb, eb⟩ := b
  rintro rfl e2 rfl
  simp only at e2
  cases ea with
  | none => simp [putData, e2]
  | some e => exact ⟨e2, rfl⟩

/-- The hypotheses are met by a line of two spans on a fresh screen: the first span is lost, the second one is at the start of the line. -/
example :
    let w : World := { scr := Screen.init 4 2 }
    let r := write {} [{ text := ['a', 'b'] }, { text := ['c'], style := { bold := true } }] (some (0, 2)) Color.black false w
    (0 ≤ w.scr.offset ∧ (w.scr.height : Int) ≤ 2 - (1 + 1) * w.scr.offset) ∧
    r.1.scr.cells.map (·.map (·.char)) = [[[' '], [' '], [' '], [' ']], ["\x1b[1mc\x1b[0m".toList, [], [], []]] := by
  decide +kernel

/-! ## Jumps -/

/-- **C16 violated** by every line that is written more than one row below the window: each row that stays on the screen is then shown below the row
that belongs to its logical row, by the number of rows that were skipped. -/
theorem C16_jump_violated (env : Color.Env) (width height : Nat) (cur : Int × Int) (fill : Str) (ops : List Api) (s : Span) (hnl : '\n' ∉ s.text)
    (hne : s.text ≠ []) (hop : ∀ b, s.bg = some b → b.alpha = 1) (tb : Color) (force : Bool) (x : Nat) (y : Int) (skip : Nat) :
    let w := Api.runAll env { scr := Screen.init width height cur fill } ops
    let r := write env [s] (some ((x : Int), y)) tb force w
    x < w.scr.width → 0 < w.scr.height → y = w.scr.offset + w.scr.height + skip →
    ∀ (logical : Int) (before after x' : Nat), x' < w.scr.width → (before : Int) = logical - w.scr.offset → before < w.scr.height → (after : Int) = logical - r.1.scr.offset + skip →
      cellAt r.1.scr.cells x' after = cellAt w.scr.cells x' before := by
  intro w r hx hh hy logical before after x' hx' hb hbh ha
  obtain ⟨-, h2, h3, -⟩ := C16_scroll_partial env width height cur fill ops s hnl hne hop tb force x y hx hh (by
    show w.scr.offset + w.scr.height ≤ y
    omega)
  have e : before = after + 1 := by
    have h2 : r.1.scr.offset = y - w.scr.height + 1 := h2
    omega
  rw [e]
  exact h3 x' after hx' (show after + 1 < w.scr.height by omega)

/-- The hypotheses are met by a line that skips three rows: logical row 2 is then shown in row 1 of the screen, where logical row 5 belongs. -/
example :
    let w := Api.runAll {} { scr := Screen.init 1 3 } [.write [{ text := ['b'] }] (some (0, 2)) Color.black false]
    let r := write {} [{ text := ['c'] }] (some (0, 6)) Color.black false w
    (6 : Int) = w.scr.offset + w.scr.height + 3 ∧ ((2 : Nat) : Int) = 2 - w.scr.offset ∧ ((1 : Nat) : Int) = 2 - r.1.scr.offset + 3 ∧
    (cellAt r.1.scr.cells 0 1).map (·.char) = some ['b'] := by
  decide +kernel

end Slate
