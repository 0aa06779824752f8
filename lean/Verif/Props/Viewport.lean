import Verif.Spec.Viewport
import Verif.Props.Flow

/-!
# C120: a drawing does not depend on the size of the screen and its place on it
-/

namespace Slate
open Py

theorem letter_ne_break {l : Layer} (h : l.char ≠ '\n') : l.letter ≠ ['\n'] := by
  unfold Layer.letter
  simp only
  split
  · intro e
    have := congrArg List.getLast? e
    simp at this
    exact h this
  · split
    · intro e
      have := congrArg List.getLast? e
      simp at this
    · intro e
      exact h (by simpa using e)

theorem covering_unbroken {w : Nat} {ls : List Layer} (h : ∀ l ∈ ls, l.char ≠ '\n') (k : Nat) : covering w ls k = ls[k]? := by
  induction ls generalizing k with
  | nil => simp [covering]
  | cons l ls ih =>
    rw [covering, if_neg (letter_ne_break (h l (by simp)))]
    cases k with
    | zero => simp
    | succ k => rw [if_neg (by omega), Nat.add_sub_cancel, ih (fun l hl => h l (by simp [hl]))]; simp

theorem lineLayers_unbroken {line : List Span} (h : ∀ s ∈ line, '\n' ∉ s.text) : ∀ l ∈ lineLayers line, l.char ≠ '\n' := by
  intro l hl
  unfold lineLayers at hl
  simp only [List.mem_flatMap, List.mem_mapIdx] at hl
  obtain ⟨s, hs, i, hi, rfl⟩ := hl
  intro e
  exact h s hs (e ▸ List.getElem_mem hi)

theorem lineLayers_length (line : List Span) : (lineLayers line).length = (line.map fun s => s.text.length).sum := by
  unfold lineLayers
  rw [List.length_flatMap]
  simp

/-- The same texts, moved. -/
def movedData (dx dy : Int) (d : Data) : Data := d.map fun e => ((e.1.1 + dx, e.1.2 + dy), e.2)

/-- The pile on a cell, if all texts stay in their rows. -/
theorem layersAt_stays (w h dx dy : Nat) (d : Data) (hd : ∀ e ∈ d, StaysIn w h dx dy e) (x y : Nat) (hx : x + dx < w) :
    layersAt w h (movedData dx dy d) (x + dx) (y + dy) =
      d.filterMap fun e => if e.1.2 = (y : Int) ∧ e.1.1 ≤ (x : Int) then (lineLayers e.2)[((x : Int) - e.1.1).toNat]? else none := by
  unfold layersAt movedData
  rw [List.filterMap_map]
  apply List.filterMap_congr
  intro e he
  obtain ⟨h1, h2, h3, h4⟩ := hd e he
  obtain ⟨⟨ex, ey⟩, line⟩ := e
  simp only [Function.comp] at h1 h2 h3 h4 ⊢
  have hlen := lineLayers_length line
  rw [← hlen] at h2
  rw [covering_unbroken (lineLayers_unbroken fun s hs => (h4 s hs).2)]
  rcases lt_trichotomy ey (y : Int) with hlt | heq | hgt
  · -- an earlier row
    rw [if_neg (by omega : ¬ (ey = (y : Int) ∧ ex ≤ (x : Int)))]
    split
    · rename_i hc
      obtain ⟨c1, c2, c3, c4, c5⟩ := hc
      obtain ⟨r, hr⟩ : ∃ r : Nat, ey + dy = r := ⟨(ey + dy).toNat, by omega⟩
      obtain ⟨c, hcc⟩ : ∃ c : Nat, ex + dx = c := ⟨(ex + dx).toNat, by omega⟩
      rw [hr, hcc] at c5 ⊢
      rw [List.getElem?_eq_none]
      have hle : r + 1 ≤ y + dy := by omega
      have hmul : (r + 1) * w ≤ (y + dy) * w := Nat.mul_le_mul_right w hle
      have e1 : ((r : Int) * (w : Int) + (c : Int)).toNat = r * w + c := by
        have : (r : Int) * (w : Int) + (c : Int) = ((r * w + c : Nat) : Int) := by push_cast; rfl
        rw [this, Int.toNat_natCast]
      rw [e1]
      have e2 : (r + 1) * w = r * w + w := by ring
      omega
    · rfl
  · subst heq
    by_cases hex : ex ≤ (x : Int)
    · rw [if_pos (⟨rfl, hex⟩ : (y : Int) = (y : Int) ∧ ex ≤ (x : Int))]
      obtain ⟨c, hcc⟩ : ∃ c : Nat, ex + dx = c := ⟨(ex + dx).toNat, by omega⟩
      have hcx : c ≤ x + dx := by omega
      have e0 : ((y : Int) + (dy : Int)) * (w : Int) + (ex + dx) = (((y + dy) * w + c : Nat) : Int) := by rw [hcc]; push_cast; rfl
      rw [e0, if_pos, Int.toNat_natCast]
      · congr 1
        omega
      · refine ⟨by omega, by omega, by omega, by omega, ?_⟩
        push_cast
        omega
    · rw [if_neg (by omega : ¬ ((y : Int) = (y : Int) ∧ ex ≤ (x : Int))), if_neg]
      rintro ⟨-, -, -, -, c5⟩
      have e0 : ((y : Int) + (dy : Int)) * (w : Int) = (((y + dy) * w : Nat) : Int) := by push_cast; rfl
      rw [e0] at c5
      push_cast at c5
      omega
  · rw [if_neg (by omega : ¬ (ey = (y : Int) ∧ ex ≤ (x : Int))), if_neg]
    rintro ⟨c1, -, c3, -, c5⟩
    obtain ⟨r, hr⟩ : ∃ r : Nat, ey + dy = r := ⟨(ey + dy).toNat, by omega⟩
    obtain ⟨c, hcc⟩ : ∃ c : Nat, ex + dx = c := ⟨(ex + dx).toNat, by omega⟩
    rw [hr, hcc] at c5
    have c5' : r * w + c ≤ (y + dy) * w + (x + dx) := by exact_mod_cast c5
    have hle : y + dy + 1 ≤ r := by omega
    have hmul : (y + dy + 1) * w ≤ r * w := Nat.mul_le_mul_right w hle
    have e2 : (y + dy + 1) * w = (y + dy) * w + w := by ring
    omega

/-- A line that stays in its row does not scroll. -/
theorem flowLine_stays (w h : Nat) : ∀ (line : List Span) (k : Nat) (mark x y : Int), 0 ≤ x → y < h →
    x + ((line.map fun s => s.text.length).sum : Nat) ≤ w → (∀ s ∈ line, s.text ≠ []) → (flowLine w h k mark 0 (x, y) line).2.1 = 0 := by
  intro line
  induction line with
  | nil => intros; rfl
  | cons s ss ih =>
    intro k mark x y hx hy hlen hne
    have hs : 0 < s.text.length := List.length_pos_of_ne_nil (hne s (by simp))
    simp only [List.map_cons, List.sum_cons] at hlen
    rw [flowLine]
    have hsc : ¬ ((k : Int) = mark ∧ 0 + (h : Int) ≤ y) := by omega
    simp only [hsc, if_false, sub_zero]
    unfold behind
    split
    · rename_i hc
      obtain ⟨c, rfl⟩ : ∃ c : Nat, x = c := ⟨x.toNat, by omega⟩
      obtain ⟨r, rfl⟩ : ∃ r : Nat, y = r := ⟨y.toNat, by omega⟩
      have e1 : ((r : Int) * (w : Int) + (c : Int)).toNat = r * w + c := by
        have : (r : Int) * (w : Int) + (c : Int) = ((r * w + c : Nat) : Int) := by push_cast; rfl
        rw [this, Int.toNat_natCast]
      have hr : (r + 1) * w ≤ h * w := Nat.mul_le_mul_right w (by omega)
      have e2 : (r + 1) * w = r * w + w := by ring
      simp only [e1]
      rw [if_pos (by omega)]
      simp only
      by_cases hend : c + s.text.length = w
      · cases ss with
        | nil => rfl
        | cons t ss =>
          have := List.length_pos_of_ne_nil (hne t (by simp))
          simp only [List.map_cons, List.sum_cons] at hlen
          omega
      · have hm : (r * w + c + s.text.length) % w = c + s.text.length := by
          rw [Nat.add_assoc, Nat.mul_comm, Nat.mul_add_mod, Nat.mod_eq_of_lt (by omega)]
        have hdv : (r * w + c + s.text.length) / w = r := by
          rw [Nat.add_assoc, Nat.mul_comm, Nat.mul_add_div (by omega), Nat.div_eq_of_lt (by omega), Nat.add_zero]
        rw [hm, hdv]
        exact ih _ _ _ _ (by omega) (by omega) (by push_cast at hlen ⊢; omega) (fun t ht => hne t (by simp [ht]))
    · simp only
      exact ih _ _ _ _ hx hy (by push_cast at hlen ⊢; omega) (fun t ht => hne t (by simp [ht]))

theorem flow_stays (w h : Nat) (dx dy : Int) (d : Data) (hd : ∀ e ∈ d, StaysIn w h dx dy e) : (flow w h 0 (movedData dx dy d)).2.1 = 0 := by
  induction d with
  | nil => rfl
  | cons e d ih =>
    obtain ⟨h1, h2, h3, h4⟩ := hd e (by simp)
    show (flow w h 0 (((e.1.1 + dx, e.1.2 + dy), e.2) :: movedData dx dy d)).2.1 = 0
    rw [flow]
    simp only
    rw [flowLine_stays w h e.2 0 _ _ _ h1 h3 h2 (fun s hs => (h4 s hs).1)]
    exact ih fun e he => hd e (by simp [he])

/-- The drawing on a new screen. -/
def page (env : Color.Env) (w h : Nat) (cur : Int × Int) (fill : Str) (dx dy : Int) (ops : List Stroke) : World :=
  Api.runAll env { scr := Screen.init w h cur fill } (ops.map (Stroke.moved dx dy))

theorem page_snoc (env : Color.Env) (w h : Nat) (cur : Int × Int) (fill : Str) (dx dy : Int) (ops : List Stroke) (op : Stroke) :
    page env w h cur fill dx dy (ops ++ [op]) = (op.moved dx dy).run env (page env w h cur fill dx dy ops) := by
  unfold page Api.runAll
  simp

theorem moved_entries (dx dy : Int) (d : Data) : (d.map fun e => ((some (e.1.1 + dx, e.1.2 + dy), e.2) : Entry)) = (movedData dx dy d).entries := by
  unfold Data.entries movedData
  simp

/-- A drawing whose texts stay in their rows does not scroll the screen. -/
theorem page_good (env : Color.Env) (w h : Nat) (hh : 0 < h) (cur : Int × Int) (fill : Str) (dx dy : Int) (ops : List Stroke)
    (hops : ∀ op ∈ ops, op.StaysIn w h dx dy) :
    let p := page env w h cur fill dx dy ops
    p.scr.width = w ∧ p.scr.height = h ∧ p.scr.offset = 0 ∧ CacheOk p.cache ∧ Shape w h p.scr.cells := by
  induction ops using List.reverseRecOn with
  | nil => exact ⟨rfl, rfl, rfl, (by intro e he; cases he), resize_shape _ w h fill true⟩
  | append_singleton ops op ih =>
    obtain ⟨h1, h2, h3, h4, h5⟩ := ih fun o ho => hops o (by simp [ho])
    have hop := hops op (by simp)
    intro p
    have hp : p = (op.moved dx dy).run env (page env w h cur fill dx dy ops) := page_snoc env w h cur fill dx dy ops op
    have hs : Shape (page env w h cur fill dx dy ops).scr.width (page env w h cur fill dx dy ops).scr.height (page env w h cur fill dx dy ops).scr.cells := by
      rw [h1, h2]; exact h5
    have hoff : p.scr.offset = 0 ∧ p.scr.width = w ∧ p.scr.height = h := by
      cases op with
      | clear f => rw [hp]; exact ⟨h3, h1, h2⟩
      | draw o r => rw [hp]; cases r <;> exact ⟨h3, h1, h2⟩
      | bulk d tb force =>
        have hfl := C103_scroll_partial env w h cur fill (ops.map (Stroke.moved dx dy)) (movedData dx dy d) (by
          intro e he s hs
          obtain ⟨e', he', rfl⟩ := List.mem_map.mp he
          exact ((hop e' he').2.2.2 s hs).symm) tb force
        have hpos : 0 < (page env w h cur fill dx dy ops).scr.height := by rw [h2]; exact hh
        obtain ⟨-, h6, -⟩ := hfl hpos
        have hsz := writeBulk_frame env (movedData dx dy d).entries tb force (page env w h cur fill dx dy ops) hs
        have hrun : p = (writeBulk env (movedData dx dy d).entries tb force (page env w h cur fill dx dy ops)).1 := by
          rw [hp, ← moved_entries]; rfl
        rw [hrun]
        refine ⟨?_, hsz.1.trans h1, hsz.2.1.trans h2⟩
        refine h6.trans ?_
        show (flow (page env w h cur fill dx dy ops).scr.width (page env w h cur fill dx dy ops).scr.height
          (page env w h cur fill dx dy ops).scr.offset _).2.1 = 0
        rw [h1, h2, h3]
        exact flow_stays w h dx dy d hop
    obtain ⟨g1, g2, g3⟩ := hoff
    refine ⟨g2, g3, g1, ?_, ?_⟩
    · have := (run_still env (page env w h cur fill dx dy ops) (op.moved dx dy) hs).2 (by rw [← hp, g1, h3]) h4
      rw [hp]; exact this
    · have := run_shape env (page env w h cur fill dx dy ops) (op.moved dx dy) hs
      rw [← hp, g2, g3] at this
      exact this

/-- What a call does to the cell at `(x + dx, y + dy)` of a screen. It does not depend on `dx` and `dy`. -/
def Stroke.mark (x y : Nat) (old : Cell) : Stroke → Cell
  | .clear fill => { char := fill }
  | .draw _ _ => old
  | .bulk d tb _ =>
    match d.filterMap fun e => if e.1.2 = (y : Int) ∧ e.1.1 ≤ (x : Int) then (lineLayers e.2)[((x : Int) - e.1.1).toNat]? else none with
    | [] => old
    | first :: above => if (Pile.cell tb first above).eq old then old else Pile.cell tb first above

/-- Every cell of a drawing, given by the calls alone. -/
theorem page_cell (env : Color.Env) (w h : Nat) (cur : Int × Int) (fill : Str) (dx dy : Nat) (ops : List Stroke)
    (hops : ∀ op ∈ ops, op.StaysIn w h dx dy) (x y : Nat) (hx : x + dx < w) (hy : y + dy < h) :
    cellAt (page env w h cur fill dx dy ops).scr.cells (x + dx) (y + dy) = some (ops.foldl (fun c op => op.mark x y c) { char := fill }) := by
  induction ops using List.reverseRecOn with
  | nil => exact init_cellAt w h cur fill _ _ hx hy
  | append_singleton ops op ih =>
    have hops' : ∀ o ∈ ops, o.StaysIn w h dx dy := fun o ho => hops o (by simp [ho])
    have ih := ih hops'
    obtain ⟨h1, h2, h3, h4, h5⟩ := page_good env w h (by omega) cur fill dx dy ops hops'
    obtain ⟨g1, g2, g3, -, -⟩ := page_good env w h (by omega) cur fill dx dy (ops ++ [op]) hops
    have hs : Shape (page env w h cur fill dx dy ops).scr.width (page env w h cur fill dx dy ops).scr.height (page env w h cur fill dx dy ops).scr.cells := by
      rw [h1, h2]; exact h5
    rw [page_snoc] at g1 g2 g3 ⊢
    rw [List.foldl_append]
    simp only [List.foldl_cons, List.foldl_nil]
    generalize ops.foldl (fun c op => op.mark x y c) { char := fill } = old at ih ⊢
    cases op with
    | clear f =>
      exact clear_cellAt _ f _ _ (by rw [h1]; exact hx) (by rw [h2]; exact hy)
    | draw o r => cases r <;> exact ih
    | bulk d tb force =>
      have hd : ∀ e ∈ d, Slate.StaysIn w h dx dy e := hops (.bulk d tb force) (by simp)
      have hrun : (Stroke.moved dx dy (.bulk d tb force)).run env (page env w h cur fill dx dy ops) =
          (writeBulk env (movedData dx dy d).entries tb force (page env w h cur fill dx dy ops)).1 := by
        rw [← moved_entries]; rfl
      rw [hrun] at g3 ⊢
      obtain ⟨old', ho1, ho2⟩ := C103_flow_partial env tb force (movedData dx dy d) (page env w h cur fill dx dy ops) hs (h4.on _)
        (.inl h3) (by rw [g3, h3]) (x + dx) (y + dy) (by rw [h1]; exact hx) (by rw [h2]; exact hy)
      rw [ih] at ho1
      cases ho1
      rw [ho2, h1, h2, h3]
      have hr : raised 0 (movedData dx dy d) = movedData dx dy d := by
        unfold raised
        simp
      rw [hr, layersAt_stays w h dx dy d hd x y hx]
      rfl

/-- **C120**: a drawing whose texts stay in their rows leaves the same cells on a screen of any other size, at any other place of it,
and neither screen scrolls. -/
theorem C120_cells (env : Color.Env) (w h W H : Nat) (cur cur' : Int × Int) (fill : Str) (dx dy : Nat) (ops : List Stroke)
    (hops : ∀ op ∈ ops, op.StaysIn w h 0 0 ∧ op.StaysIn W H dx dy) (x y : Nat) (hx : x < w) (hy : y < h) (hX : x + dx < W) (hY : y + dy < H) :
    let a := Api.runAll env { scr := Screen.init w h cur fill } (ops.map (Stroke.moved 0 0))
    let b := Api.runAll env { scr := Screen.init W H cur' fill } (ops.map (Stroke.moved dx dy))
    cellAt b.scr.cells (x + dx) (y + dy) = cellAt a.scr.cells x y ∧ a.scr.offset = 0 ∧ b.scr.offset = 0 := by
  intro a b
  have h1 := page_cell env w h cur fill 0 0 ops (fun op ho => (hops op ho).1) x y hx hy
  have h2 := page_cell env W H cur' fill dx dy ops (fun op ho => (hops op ho).2) x y hX hY
  exact ⟨h2.trans h1.symm, (page_good env w h (by omega) cur fill 0 0 ops fun op ho => (hops op ho).1).2.2.1,
    (page_good env W H (by omega) cur' fill dx dy ops fun op ho => (hops op ho).2).2.2.1⟩

/-- A drawing with a translucent text over another one, on a screen of 3 x 2 and at column 2, row 1 of one of 6 x 4. -/
example :
    let tint : Color := { Color.white with alpha := 1 / 2 }
    let d : Data := [((0, 0), [{ text := ['a', 'b'], fg := some Color.white }, { text := ['c'] }]), ((1, 0), [{ text := [' '], bg := some tint }]),
      ((2, 1), [{ text := ['d'] }])]
    let ops : List Stroke := [.clear ['.'], .bulk d Color.black false, .draw (1, 1) false]
    let a := Api.runAll {} { scr := Screen.init 3 2 } (ops.map (Stroke.moved 0 0))
    let b := Api.runAll {} { scr := Screen.init 6 4 } (ops.map (Stroke.moved 2 1))
    (∀ e ∈ d, StaysIn 3 2 0 0 e ∧ StaysIn 6 4 2 1 e) ∧
    a.scr.cells.map (·.map (·.char)) = [[['a'], ['b'], ['c']], [['.'], ['.'], ['d']]] ∧
    b.scr.cells.map (·.map (·.char)) = [[['.'], ['.'], ['.'], ['.'], ['.'], ['.']], [['.'], ['.'], ['a'], ['b'], ['c'], ['.']],
      [['.'], ['.'], ['.'], ['.'], ['d'], ['.']], [['.'], ['.'], ['.'], ['.'], ['.'], ['.']]] := by
  unfold StaysIn
  decide +kernel

end Slate
