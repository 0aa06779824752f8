import Verif.Lemmas.Bounded
import Verif.Lemmas.Scroll
import Verif.Props.Poison
import Verif.Props.Apart
import Verif.Props.Scroll

/-!
# Drawing one line that fits into a row, with or without a line break at its end
-/

namespace Slate
open Py Term

/-- The queue after a line was written to an empty row. -/
def lineChanges (env : Color.Env) (s : Span) (row : Nat) (nl : Bool) : Changes :=
  s.text.mapIdx fun j c => ((j, row), changeStr env (storedCell s (styledChar s j c)) (nl && decide (j + 1 = s.text.length)))

theorem lineChanges_length (env : Color.Env) (s : Span) (row : Nat) (nl : Bool) : (lineChanges env s row nl).length = s.text.length := by
  simp [lineChanges]

theorem lineChanges_getElem? (env : Color.Env) (s : Span) (row : Nat) (nl : Bool) (j : Nat) :
    (lineChanges env s row nl)[j]? =
      s.text[j]?.map fun c => ((j, row), changeStr env (storedCell s (styledChar s j c)) (nl && decide (j + 1 = s.text.length))) := by
  simp [lineChanges]

theorem lineChanges_keys (env : Color.Env) (s : Span) (row : Nat) (nl : Bool) :
    (lineChanges env s row nl).keys = (List.range s.text.length).map fun j => (j, row) := by
  apply List.ext_getElem?
  intro j
  simp only [Changes.keys, List.getElem?_map, lineChanges_getElem?]
  by_cases hj : j < s.text.length
  · simp [hj]
  · simp [hj]

theorem lineChanges_nodup (env : Color.Env) (s : Span) (row : Nat) (nl : Bool) : (lineChanges env s row nl).keys.Nodup := by
  rw [lineChanges_keys]
  exact List.Nodup.map (fun a b h => (Prod.mk.inj h).1) List.nodup_range

theorem lineChanges_gather (env : Color.Env) (s : Span) (row : Nat) (nl : Bool) :
    (lineChanges env s row nl).gather = lineChanges env s row nl := by
  unfold Changes.gather
  apply List.Pairwise.insertionSort_eq
  rw [List.pairwise_iff_getElem]
  intro i j hi hj hij
  have h1 := lineChanges_getElem? env s row nl i
  have h2 := lineChanges_getElem? env s row nl j
  rw [lineChanges_length] at hi hj
  rw [List.getElem?_eq_getElem (by rw [lineChanges_length]; exact hi), List.getElem?_eq_getElem (by exact hi)] at h1
  rw [List.getElem?_eq_getElem (by rw [lineChanges_length]; exact hj), List.getElem?_eq_getElem (by exact hj)] at h2
  simp only [Option.map_some, Option.some.injEq] at h1 h2
  rw [h1, h2]
  simp [Changes.le]
  omega

theorem lineChanges_lookup (env : Color.Env) (s : Span) (row : Nat) (nl : Bool) (k : Nat × Nat) :
    List.lookup k (lineChanges env s row nl) = if k.2 = row then
      s.text[k.1]?.map fun c => changeStr env (storedCell s (styledChar s k.1 c)) (nl && decide (k.1 + 1 = s.text.length)) else none := by
  obtain ⟨x, y⟩ := k
  have hmem : ∀ v, List.lookup (x, y) (lineChanges env s row nl) = some v ↔ ((x, y), v) ∈ lineChanges env s row nl := fun v =>
    Changes.lookup_eq_some_iff _ (lineChanges_nodup env s row nl) _ _
  have hm' : ∀ v, ((x, y), v) ∈ lineChanges env s row nl ↔ y = row ∧ ∃ c, s.text[x]? = some c ∧
      v = changeStr env (storedCell s (styledChar s x c)) (nl && decide (x + 1 = s.text.length)) := by
    intro v
    rw [List.mem_iff_getElem?]
    constructor
    · rintro ⟨j, hj⟩
      rw [lineChanges_getElem?] at hj
      obtain ⟨c, hc, he⟩ := Option.map_eq_some_iff.mp hj
      injection he with e1 e2
      injection e1 with e3 e4
      subst e3
      exact ⟨e4.symm, c, hc, e2.symm⟩
    · rintro ⟨rfl, c, hc, rfl⟩
      exact ⟨x, by rw [lineChanges_getElem?, hc]; rfl⟩
  cases hl : List.lookup (x, y) (lineChanges env s row nl) with
  | some v =>
    obtain ⟨rfl, c, hc, rfl⟩ := (hm' v).mp ((hmem v).mp hl)
    simp [hc]
  | none =>
    simp only
    split_ifs with h
    · cases hc : s.text[x]? with
      | none => rfl
      | some c =>
        have := (hmem _).mpr ((hm' _).mpr ⟨h, c, hc, rfl⟩)
        rw [hl] at this
        cases this
    · rfl

theorem lengthened_getElem? (l : List Str) (n j : Nat) :
    (lengthened l n)[j]? = l[j]?.map fun c => c ++ (if j + 1 = l.length then List.replicate n '\n' else []) := by
  rcases List.eq_nil_or_concat l with rfl | ⟨l', a, rfl⟩
  · simp [lengthened]
  · simp only [lengthened, List.concat_eq_append, List.dropLast_concat, List.getLast?_concat, Option.toList_some, List.map_cons, List.map_nil, List.length_append,
      List.length_cons, List.length_nil, Nat.add_right_cancel_iff]
    by_cases h : j < l'.length
    · rw [List.getElem?_append_left h, List.getElem?_append_left h]
      have : j ≠ l'.length := by omega
      simp [this]
    · rw [List.getElem?_append_right (by omega), List.getElem?_append_right (by omega)]
      by_cases e : j = l'.length
      · simp [e]
      · have : j - l'.length ≠ 0 := by omega
        obtain ⟨m, hm⟩ : ∃ m, j - l'.length = m + 1 := ⟨j - l'.length - 1, by omega⟩
        simp [hm]

/-- A line that fits, written to an empty row: the queue and the cells. -/
theorem line_wrote {env : Color.Env} {den : Color → TColor} {tb : Color} {scr scr' : Screen} {s : Span} {n row : Nat}
    (hwr : Wrote env tb ((charHits scr.width scr.height s (lengthened s.cellChars n) (0 : Int) (row : Int)).foldl Hit.put Mats.blank) scr scr')
    (hok : SpanOk env den s) (hnl : '\n' ∉ s.text) (hop : ∀ b, s.bg = some b → b.alpha = 1) (hlen : s.text.length ≤ scr.width)
    (hw : 0 < scr.width) (hrow : row < scr.height) (hold : ∀ j, j < s.text.length → ∃ c, cellAt scr.cells j row = some c ∧ c.fg = none)
    (hch : scr.changes = []) :
    scr'.changes.gather = lineChanges env s row (decide (0 < n)) ∧
    (∀ x y, y ≠ row → cellAt scr'.cells x y = cellAt scr.cells x y) ∧
    ∀ j c, s.text[j]? = some c → cellAt scr'.cells j row = some (storedCell s (styledChar s j c)) := by
  have hrw : row * scr.width + scr.width ≤ scr.height * scr.width := by
    have := Nat.mul_le_mul_right scr.width (show row + 1 ≤ scr.height by omega)
    rwa [Nat.add_mul, Nat.one_mul] at this
  have hcs : ∀ j c, s.text[j]? = some c → ∃ st d r, CellStr (styledChar s j c) st d r := by
    intro j c hc
    have hm : styledChar s j c ∈ s.cellChars := by
      apply List.mem_of_getElem? (i := j)
      rw [cellChars_getElem?, hc]; rfl
    refine hok.cellStr hm ?_
    intro e
    have := rstrip_styledChar hnl hc
    rw [e] at this
    simp [rstrip] at this
  have hne : ∀ c ∈ lengthened s.cellChars n, c ≠ ['\n'] := by
    intro c hc e
    obtain ⟨j, hj⟩ := List.mem_iff_getElem?.mp hc
    rw [lengthened_getElem?, cellChars_getElem?] at hj
    obtain ⟨a, ha, he⟩ := Option.map_eq_some_iff.mp hj
    obtain ⟨d, hd, rfl⟩ := Option.map_eq_some_iff.mp ha
    obtain ⟨st, d', r, h⟩ := hcs j d hd
    have hl : d' ∈ c := by rw [← he, h.eq]; simp
    rw [e] at hl
    rw [List.mem_singleton.mp hl] at h
    exact absurd h.printable.1 (by decide)
  have hidx := charHits_index hw scr.height s (lengthened s.cellChars n) hne (row * scr.width)
  rw [Nat.mul_mod_left, Nat.mul_div_cancel _ hw] at hidx
  have hll : (lengthened s.cellChars n).length = s.text.length := by
    rw [← length_cellChars]
    rcases List.eq_nil_or_concat s.cellChars with h | ⟨l', a, h⟩ <;> rw [h] <;> simp [lengthened]
  rw [List.take_of_length_le (by rw [hll]; omega)] at hidx
  obtain ⟨hits, hhits⟩ : ∃ hits, hits = charHits scr.width scr.height s (lengthened s.cellChars n) (0 : Int) (row : Int) := ⟨_, rfl⟩
  rw [← hhits] at hwr
  replace hhits : hits = (lengthened s.cellChars n).mapIdx fun k c => hitAt scr.width s (row * scr.width + k) c := hhits.trans hidx
  have hmem : ∀ t ∈ hits, ∃ k c, k < s.text.length ∧ (lengthened s.cellChars n)[k]? = some c ∧ t = { x := k, y := row, span := s, char := c } := by
    intro t ht
    rw [hhits] at ht
    obtain ⟨k, hk, rfl⟩ := List.mem_mapIdx.mp ht
    rw [hll] at hk
    refine ⟨k, _, hk, List.getElem?_eq_getElem (by rw [hll]; exact hk), ?_⟩
    simp only [hitAt, Hit.mk.injEq, and_true]
    constructor
    · rw [Nat.mul_comm, Nat.mul_add_mod, Nat.mod_eq_of_lt (by omega)]
    · rw [Nat.mul_comm, Nat.mul_add_div hw, Nat.div_eq_of_lt (by omega)]; rfl
  have hslot := fun x y => foldl_put_opaque hits (fun t ht => by
    obtain ⟨k, c, -, -, rfl⟩ := hmem t ht
    exact bgHasAlpha_false hop) Mats.blank x y
  have hnone : ∀ x y, (y ≠ row ∨ s.text.length ≤ x) → lastHit hits x y = none := by
    intro x y h
    apply lastHit_none
    rintro t ht ⟨h1, h2⟩
    obtain ⟨k, c, hk, -, rfl⟩ := hmem t ht
    simp only at h1 h2
    omega
  have hsome : ∀ j c, (lengthened s.cellChars n)[j]? = some c → lastHit hits j row = some { x := j, y := row, span := s, char := c } := by
    intro j c hc
    have hj : j < s.text.length := by rw [← hll]; exact (List.getElem?_eq_some_iff.mp hc).1
    apply lastHit_unique
    · rw [hhits, List.mem_mapIdx]
      refine ⟨j, by rw [hll]; exact hj, ?_⟩
      rw [(List.getElem?_eq_some_iff.mp hc).2]
      simp only [hitAt, Hit.mk.injEq, and_true]
      constructor
      · rw [Nat.mul_comm, Nat.mul_add_mod, Nat.mod_eq_of_lt (by omega)]
      · rw [Nat.mul_comm, Nat.mul_add_div hw, Nat.div_eq_of_lt (by omega)]; rfl
    · exact ⟨rfl, rfl⟩
    · intro t ht h1 h2
      obtain ⟨k, c', -, hk, rfl⟩ := hmem t ht
      simp only at h1
      subst h1
      rw [hk] at hc
      injection hc with hc
      rw [hc]
  have hout0 : ∀ x y, lastHit hits x y = none → outcome tb (hits.foldl Hit.put Mats.blank) scr (x, y) = none := by
    intro x y h
    unfold outcome
    have := (hslot x y).1
    rw [h] at this
    simp only [this]
    rfl
  have hout1 : ∀ x c, s.text[x]? = some c → outcome tb (hits.foldl Hit.put Mats.blank) scr (x, row) =
      some (storedCell s (styledChar s x c), decide (0 < n) && decide (x + 1 = s.text.length)) := by
    intro x c hc
    have hx : x < s.text.length := (List.getElem?_eq_some_iff.mp hc).1
    have hcc : (lengthened s.cellChars n)[x]? =
        some (styledChar s x c ++ (if x + 1 = s.text.length then List.replicate n '\n' else [])) := by
      rw [lengthened_getElem?, cellChars_getElem?, hc, length_cellChars]; rfl
    obtain ⟨old, ho1, ho2⟩ := hold x hx
    obtain ⟨st, d, r, hcell⟩ := hcs x c hc
    have hl := hsome x _ hcc
    have h1 := (hslot x row).1
    have h2 := (hslot x row).2
    rw [hl] at h1
    simp only [Option.map_some, Option.some_or] at h1
    have hstr : rstrip (· == '\n') (styledChar s x c ++ (if x + 1 = s.text.length then List.replicate n '\n' else [])) = styledChar s x c := by
      split_ifs
      · clear * - hcell
        induction n with
        | zero => rw [List.replicate_zero, List.append_nil]; exact hcell.rstrip
        | succ n ih => rw [List.replicate_succ', ← List.append_assoc, rstrip_append_singleton (by rfl)]; exact ih
      · rw [List.append_nil]; exact hcell.rstrip
    have hend : endsWith (styledChar s x c ++ (if x + 1 = s.text.length then List.replicate n '\n' else [])) ['\n'] =
        (decide (0 < n) && decide (x + 1 = s.text.length)) := by
      by_cases hlast : x + 1 = s.text.length
      · simp only [hlast, if_true, decide_true, Bool.and_true]
        cases n with
        | zero => simpa using hcell.endsWith
        | succ n =>
          simp only [Nat.zero_lt_succ, decide_true, List.replicate_succ']
          unfold endsWith
          rw [List.isSuffixOf_iff_suffix, ← List.append_assoc]
          exact ⟨_, rfl⟩
      · simp only [hlast, if_false, List.append_nil, decide_false, Bool.and_false]
        exact hcell.endsWith
    generalize styledChar s x c ++ (if x + 1 = s.text.length then List.replicate n '\n' else []) = str at *
    have hres' : resolveCell tb [] (Hit.wcell { x := x, y := row, span := s, char := str }) = storedCell s (styledChar s x c) := by
      rw [resolveCell_opaque tb (Hit.wcell { x := x, y := row, span := s, char := str }) hop]
      simp only [Hit.wcell, hstr]
      rfl
    obtain ⟨f, hf⟩ := storedCell_fg s (styledChar s x c)
    have hne' : (storedCell s (styledChar s x c)).eq old = false := by
      simp [Cell.eq, hf, ho2, Span.optEq]
    have h2' : (hits.foldl Hit.put Mats.blank).am x row = [] := by rw [h2]; rfl
    unfold outcome
    simp only [h1, h2', ho1, hres', hne', Bool.false_eq_true, if_false]
    rw [show (Hit.wcell { x := x, y := row, span := s, char := str }).char = str from rfl, hend]
  refine ⟨?_, ?_, ?_⟩
  · rw [← lineChanges_gather]
    apply gather_congr (hwr.nodup (by rw [hch]; simp [Changes.keys])) (lineChanges_nodup env s row _)
    rintro ⟨x, y⟩
    rw [hwr.pending, lineChanges_lookup, hch]
    simp only [List.lookup_nil, Option.or_none]
    by_cases hy : y = row
    · subst hy
      rw [if_pos rfl]
      cases hc : s.text[x]? with
      | none =>
        rw [hout0 x y (hnone x y (.inr (List.getElem?_eq_none_iff.mp hc)))]
        rfl
      | some c =>
        rw [hout1 x c hc]
        rfl
    · rw [if_neg hy, hout0 x y (hnone x y (.inl hy))]
      rfl
  · intro x y hy
    rw [hwr.cell, hout0 x y (hnone x y (.inl hy))]
    rfl
  · intro j c hc
    rw [hwr.cell, hout1 j c hc]
    rfl

theorem prints_storedCell {env : Color.Env} {den : Color → TColor} (hden : DenOk env den) {s : Span} (hok : SpanOk env den s)
    (hnl : '\n' ∉ s.text) {j : Nat} {c : Char} (hc : s.text[j]? = some c) :
    Prints (changeStr env (storedCell s (styledChar s j c)) false) (cellGlyph den (storedCell s (styledChar s j c))) := by
  have hm : styledChar s j c ∈ s.cellChars := by
    apply List.mem_of_getElem? (i := j)
    rw [cellChars_getElem?, hc]; rfl
  obtain ⟨st, d, r, h⟩ := hok.cellStr hm (by
    intro e
    have := rstrip_styledChar hnl hc
    rw [e] at this
    simp [rstrip] at this)
  refine prints_changeStr (st := st) (c := d) (reset := r) h ?_ hok.bg
  unfold storedCell
  simp only
  cases hf : s.fg with
  | none => exact ⟨_, rfl, hden _ rfl⟩
  | some f =>
    simp only
    split_ifs
    · exact ⟨_, rfl, hok.fg f hf⟩
    · cases hb : s.bg with
      | none => exact ⟨_, rfl, hok.fg f hf⟩
      | some b => exact ⟨_, rfl, hok.bg b hb⟩

/-! ### Sending the line -/

theorem run_renderGo_row (ox oy : Nat) (hx : 1 ≤ ox) (hy : 1 ≤ oy) (G : Nat × Nat → Glyph) (l : Changes)
    (hl : ∀ e ∈ l, Prints e.2 (G e.1)) (row : Nat) (hrow : ∀ e ∈ l, e.1.2 = row) (prev : Option (Int × Int)) (T : State)
    (hm : T.mode = .ground) (hp : T.pen = Attr.clean)
    (hprev : ∀ px py, prev = some (px, py) → (T.row : Int) = py ∧ (T.col : Int) = px + 1)
    (hne : l ≠ [] ∨ T.row = row + oy) :
    (run T (renderGo (ox, oy) prev l)).row = row + oy := by
  induction l generalizing prev T with
  | nil =>
    rcases hne with h | h
    · exact absurd rfl h
    · simpa [renderGo] using h
  | cons e l ih =>
    obtain ⟨⟨x, y⟩, str⟩ := e
    have hstr := hl _ (List.mem_cons_self ..)
    have hyr : y = row := hrow _ (List.mem_cons_self ..)
    have key : ∀ rest, ∃ T1 : State, T1.mode = .ground ∧ T1.pen = Attr.clean ∧
        T1.row = y + oy ∧ T1.col = x + ox ∧
        run T (moveStr prev ((x : Int) + ox) ((y : Int) + oy) ++ rest) = run T1 rest := by
      intro rest
      have hmove : ∃ T1 : State, T1.mode = .ground ∧ T1.pen = Attr.clean ∧
          T1.row = y + oy ∧ T1.col = x + ox ∧
          run T (cursorTo ((x : Int) + ox) ((y : Int) + oy) ++ rest) = run T1 rest := by
        refine ⟨{ T with row := max 1 (y + oy), col := max 1 (x + ox) }, hm, hp, ?_, ?_, ?_⟩
        · simp only; omega
        · simp only; omega
        · have := cursorTo_nat (x + ox) (y + oy) rest
          push_cast at this
          rw [this, run_cup _ _ _ _ hm]
      cases prev with
      | none => exact hmove
      | some pr =>
        obtain ⟨px, py⟩ := pr
        obtain ⟨p1, p2⟩ := hprev px py rfl
        simp only [moveStr]
        split
        · exact ⟨T, hm, hp, by omega, by omega, rfl⟩
        · exact hmove
    rw [renderGo_cons]
    simp only [List.append_assoc]
    obtain ⟨T1, t1, t2, t4, t5, t6⟩ := key (str ++ renderGo (ox, oy) (some ((x : Int) + ox, (y : Int) + oy)) l)
    rw [t6, run_append, hstr.run T1 t1 t2]
    exact ih (fun e he => hl e (by simp [he])) (fun e he => hrow e (by simp [he])) (some ((x : Int) + ox, (y : Int) + oy))
      { T1 with grid := setGrid T1.grid T1.row T1.col (G (x, y)), col := T1.col + 1
                log := T1.log ++ [(T1.row, T1.col)] } t1 t2 (by
        intro px py hh
        simp only [Option.some.injEq, Prod.mk.injEq] at hh
        simp only [t4, t5]
        omega) (.inr (by simp only [t4, hyr]))

theorem renderGo_snoc (o : Int × Int) (l : Changes) (k : Nat × Nat) (str t : Str) (prev : Option (Int × Int)) :
    renderGo o prev (l ++ [(k, str ++ t)]) = renderGo o prev (l ++ [(k, str)]) ++ t := by
  induction l generalizing prev with
  | nil =>
    obtain ⟨x, y⟩ := k
    simp only [List.nil_append]
    rw [renderGo_cons, renderGo_cons]
    simp [renderGo]
  | cons e l ih =>
    obtain ⟨⟨x, y⟩, s⟩ := e
    simp only [List.cons_append]
    rw [renderGo_cons, renderGo_cons, ih]
    simp

theorem renderGo_lineChanges (env : Color.Env) (s : Span) (hne : s.text ≠ []) (row : Nat) (nl : Bool) (o : Int × Int) :
    renderGo o none (lineChanges env s row nl) = renderGo o none (lineChanges env s row false) ++ (if nl then ['\n'] else []) := by
  cases nl with
  | false => simp
  | true =>
    rcases List.eq_nil_or_concat s.text with h | ⟨l', a, h⟩
    · exact absurd h hne
    · rw [List.concat_eq_append] at h
      unfold lineChanges
      have key : ∀ f g : Nat → Char → (Nat × Nat) × Str, (∀ j, j < l'.length → ∀ c, f j c = g j c) → (f l'.length a).1 = (g l'.length a).1 →
          (f l'.length a).2 = (g l'.length a).2 ++ ['\n'] →
          renderGo o none (s.text.mapIdx f) = renderGo o none (s.text.mapIdx g) ++ ['\n'] := by
        intro f g h1 h2 h3
        rw [h, List.mapIdx_append, List.mapIdx_append]
        have e : l'.mapIdx f = l'.mapIdx g := by
          apply List.ext_getElem?
          intro j
          rw [List.getElem?_mapIdx, List.getElem?_mapIdx]
          by_cases hj : j < l'.length
          · rw [List.getElem?_eq_getElem hj]; simp [h1 j hj]
          · rw [List.getElem?_eq_none (by omega)]; rfl
        rw [e]
        simp only [List.mapIdx_cons, List.mapIdx_nil, Nat.zero_add]
        rw [show f l'.length a = ((g l'.length a).1, (g l'.length a).2 ++ ['\n']) from Prod.ext h2 h3]
        exact renderGo_snoc o _ _ _ _ none
      simp only [if_true]
      apply key
      · intro j hj c
        have : ¬ j + 1 = s.text.length := by rw [h]; simp; omega
        simp [this]
      · rfl
      · have : l'.length + 1 = s.text.length := by rw [h]; simp
        simp [this, changeStr]

theorem boundedRun_append (W H : Nat) (T : State) (a b : List Char) : boundedRun W H T (a ++ b) = boundedRun W H (boundedRun W H T a) b :=
  List.foldl_append

theorem boundedRun_reset (W H : Nat) (T : State) (hm : T.mode = .ground) (hp : T.pen = Attr.clean) : boundedRun W H T RESET = T := by
  have h := run_reset T [] hm
  rw [List.append_nil] at h
  have h' : run { T with pen := Attr.clean } [] = T := by rw [← hp]; rfl
  rw [h'] at h
  have : boundedRun W H T RESET = run T RESET := by
    have e1 : step T '\x1b' = { T with mode := .esc } := by unfold step; rw [hm]; simp
    have e2 : ∀ S : State, S.mode = .esc → step S '[' = { S with mode := .csi [] } := by
      intro S hS; unfold step; rw [hS]; simp
    have e3 : ∀ S : State, S.mode = .csi [] → ∃ ps, (step S '0').mode = .csi ps := by
      intro S hS; unfold step; rw [hS]; exact ⟨['0'], by simp⟩
    unfold boundedRun run
    simp only [RESET, List.foldl_cons, List.foldl_nil]
    have b1 : boundedStep W H T '\x1b' = step T '\x1b' := by
      unfold boundedStep; rw [hm]; simp
    have b2 : boundedStep W H (step T '\x1b') '[' = step (step T '\x1b') '[' := by
      rw [e1]; rfl
    obtain ⟨ps, hps⟩ := e3 (step (step T '\x1b') '[') (by rw [e1, e2 _ rfl])
    have b3 : boundedStep W H (step (step T '\x1b') '[') '0' = step (step (step T '\x1b') '[') '0' := by
      rw [e1, e2 _ rfl]; rfl
    have b4 : boundedStep W H (step (step (step T '\x1b') '[') '0') 'm' = step (step (step (step T '\x1b') '[') '0') 'm' := by
      unfold boundedStep; rw [hps]; simp
    rw [b1, b2, b3, b4]
  rw [this, h]

end Slate
