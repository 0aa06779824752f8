import Verif.Lemmas.Cells

/-! `write_bulk` and `render` as a whole. -/

namespace Slate
open Py Term

/-- The result of a successful, non-scrolling write. -/
structure Wrote (env : Color.Env) (tb : Color) (m : Mats) (s s' : Screen) : Prop where
  width : s'.width = s.width
  height : s'.height = s.height
  offset : s'.offset = s.offset
  cursor : s'.cursor = s.cursor
  shape : Shape s.width s.height s'.cells
  cell : ∀ x y, cellAt s'.cells x y =
    ((outcome tb m s (x, y)).map (·.1)).or (cellAt s.cells x y)
  pending : ∀ k, List.lookup k s'.changes =
    ((outcome tb m s k).map fun r => changeStr env r.1 r.2).or (List.lookup k s.changes)
  nodup : s.changes.keys.Nodup → s'.changes.keys.Nodup

theorem writeBulk_offset_mono (env : Color.Env) (data : List Entry) (tb : Color) (force : Bool)
    (w : World) (hs : Shape w.scr.width w.scr.height w.scr.cells) :
    w.scr.offset ≤ (writeBulk env data tb force w).1.scr.offset := by
  have hf := putData_frame data Mats.blank w
  unfold writeBulk
  revert hf
  rcases putData data Mats.blank w with ⟨m, w', e⟩
  intro hf
  cases e with
  | some e => exact hf.offset
  | none =>
    simp only
    obtain ⟨s', e, -, -, ho, -⟩ := commit_spec env tb m w'.scr
      (by rw [hf.width, hf.height]; exact hf.shape _ _ rfl hs)
    rw [e]; simp only [ho]; exact hf.offset

/-- A write that does not scroll. -/
theorem writeBulk_still (env : Color.Env) (data : List Entry) (tb : Color) (force : Bool)
    (w : World) (hs : Shape w.scr.width w.scr.height w.scr.cells) (hok : CacheOk w.cache)
    (h : (writeBulk env data tb force w).1.scr.offset = w.scr.offset) :
    CacheOk (writeBulk env data tb force w).1.cache ∧
    (((writeBulk env data tb force w).2 = .error .typeError ∧
        (writeBulk env data tb force w).1.scr = w.scr ∧ ∃ e ∈ data, e.1 = none) ∨
     (∃ d : List ((Int × Int) × List Span), data = d.map (fun e => (some e.1, e.2)) ∧
        (writeBulk env data tb force w).2 = .ok ((positions w.scr.width w.scr.height).countP
          fun p => (outcome tb (fillData w.scr.width w.scr.height w.scr.offset d Mats.blank)
            w.scr p).isSome) ∧
        Wrote env tb (fillData w.scr.width w.scr.height w.scr.offset d Mats.blank) w.scr
          (writeBulk env data tb force w).1.scr)) := by
  have hf := putData_frame data Mats.blank w
  have hstill := putData_still data Mats.blank w hok
  unfold writeBulk at h ⊢
  revert hf h hstill
  rcases putData data Mats.blank w with ⟨m, w', e⟩
  intro h hf hstill
  simp only at hf hstill
  cases e with
  | some e =>
    simp only at h ⊢
    obtain ⟨h1, h2⟩ := hf.still h
    refine ⟨h2 hok, .inl ?_⟩
    rcases hstill h with ⟨h3, h4⟩ | ⟨h3, -⟩
    · injection h3 with h3; subst h3
      exact ⟨rfl, h1, h4⟩
    · simp at h3
  | none =>
    simp only at h ⊢
    have hsh : Shape w'.scr.width w'.scr.height w'.scr.cells := by
      rw [hf.width, hf.height]; exact hf.shape _ _ rfl hs
    obtain ⟨s', e, c1, c2, c3, c4, c5, c6, c7, c8⟩ := commit_spec env tb m w'.scr hsh
    rw [e] at h ⊢
    simp only at h ⊢
    have ho : w'.scr.offset = w.scr.offset := by rw [← c3, h]
    obtain ⟨h1, h2⟩ := hf.still ho
    refine ⟨h2 hok, .inr ?_⟩
    rcases hstill ho with ⟨h3, -⟩ | ⟨-, d, hd, hm⟩
    · simp at h3
    · rw [h1] at c1 c2 c3 c4 c5 c6 c7 c8 ⊢
      subst hm
      exact ⟨d, hd, rfl, c1, c2, c3, c4, c5, c6, c7, c8⟩

/-! ### Rendering -/

theorem decInt_ofNat (n : Nat) : decInt (n : Int) = dec n := rfl

theorem cursorTo_nat (x y : Nat) (rest : Str) :
    cursorTo (x : Int) (y : Int) ++ rest =
      '\x1b' :: '[' :: (dec y ++ ';' :: (dec x ++ 'H' :: rest)) := by
  simp [cursorTo, decInt_ofNat]

/-- The cursor movement emitted before a cell. -/
def moveStr (prev : Option (Int × Int)) (x y : Int) : Str :=
  match prev with
  | some (px, py) => if x = px + 1 ∧ y = py then [] else cursorTo x y
  | none => cursorTo x y

theorem renderGo_cons (origin : Int × Int) (prev : Option (Int × Int)) (x y : Nat) (str : Str)
    (l : Changes) :
    renderGo origin prev (((x, y), str) :: l) =
      moveStr prev ((x : Int) + origin.1) ((y : Int) + origin.2) ++ str ++
      renderGo origin (some ((x : Int) + origin.1, (y : Int) + origin.2)) l := by
  rfl

/-- The effect of the differential render on a terminal. -/
theorem run_renderGo (ox oy : Nat) (hx : 1 ≤ ox) (hy : 1 ≤ oy) (G : Nat × Nat → Glyph)
    (l : Changes) (hl : ∀ e ∈ l, Prints e.2 (G e.1)) (prev : Option (Int × Int)) (T : State)
    (hm : T.mode = .ground) (hp : T.pen = Attr.clean)
    (hprev : ∀ px py, prev = some (px, py) → (T.row : Int) = py ∧ (T.col : Int) = px + 1) :
    (run T (renderGo (ox, oy) prev l)).mode = .ground ∧
    (run T (renderGo (ox, oy) prev l)).pen = Attr.clean ∧
    (∀ k ∈ l.keys, (run T (renderGo (ox, oy) prev l)).grid (k.2 + oy) (k.1 + ox) = G k) ∧
    (∀ r c, (∀ k ∈ l.keys, ¬ (r = k.2 + oy ∧ c = k.1 + ox)) →
      (run T (renderGo (ox, oy) prev l)).grid r c = T.grid r c) ∧
    (run T (renderGo (ox, oy) prev l)).log =
      T.log ++ l.keys.map fun k => (k.2 + oy, k.1 + ox) := by
  induction l generalizing prev T with
  | nil => simp [renderGo, hm, hp, Changes.keys]
  | cons e l ih =>
    obtain ⟨⟨x, y⟩, str⟩ := e
    have hstr := hl _ (List.mem_cons_self ..)
    have hl' : ∀ e ∈ l, Prints e.2 (G e.1) := fun e he => hl e (by simp [he])
    -- position the cursor
    have key : ∀ rest, ∃ T1 : State, T1.mode = .ground ∧ T1.pen = Attr.clean ∧ T1.grid = T.grid ∧
        T1.row = y + oy ∧ T1.col = x + ox ∧ T1.log = T.log ∧
        run T (moveStr prev ((x : Int) + ox) ((y : Int) + oy) ++ rest) = run T1 rest := by
      intro rest
      have hmove : ∃ T1 : State, T1.mode = .ground ∧ T1.pen = Attr.clean ∧ T1.grid = T.grid ∧
          T1.row = y + oy ∧ T1.col = x + ox ∧ T1.log = T.log ∧
          run T (cursorTo ((x : Int) + ox) ((y : Int) + oy) ++ rest) = run T1 rest := by
        refine ⟨{ T with row := max 1 (y + oy), col := max 1 (x + ox) }, hm, hp, rfl, ?_, ?_, rfl, ?_⟩
        · simp only; omega
        · simp only; omega
        · have := cursorTo_nat (x + ox) (y + oy) rest
          push_cast at this
          rw [this, run_cup _ _ _ _ hm]
      cases prev with
      | none => exact hmove
      | some pr =>
        obtain ⟨px, py⟩ := pr
        obtain ⟨p1, p2⟩ := hprev px py rfl
        simp only [moveStr]
        split
        · rename_i hc
          exact ⟨T, hm, hp, rfl, by omega, by omega, rfl, rfl⟩
        · exact hmove
    rw [renderGo_cons]
    simp only [List.append_assoc]
    obtain ⟨T1, t1, t2, t3, t4, t5, t7, t6⟩ := key (str ++ renderGo (ox, oy) (some ((x : Int) + ox, (y : Int) + oy)) l)
    rw [t6, run_append, hstr.run T1 t1 t2]
    obtain ⟨i1, i2, i3, i4, i5⟩ := ih hl' (some ((x : Int) + ox, (y : Int) + oy))
      { T1 with grid := setGrid T1.grid T1.row T1.col (G (x, y)), col := T1.col + 1
                log := T1.log ++ [(T1.row, T1.col)] } t1 t2 (by
        intro px py hh
        simp only [Option.some.injEq, Prod.mk.injEq] at hh
        simp only [t4, t5]
        omega)
    refine ⟨i1, i2, ?_, ?_, ?_⟩
    · intro k hk
      by_cases hkl : k ∈ Changes.keys l
      · exact i3 k hkl
      · have hkx : k = (x, y) := by
          simp only [Changes.keys, List.map_cons, List.mem_cons] at hk
          rcases hk with hk | hk
          · exact hk
          · exact absurd hk hkl
        subst hkx
        rw [i4]
        · simp [setGrid, t4, t5]
        · intro k' hk' ⟨e1, e2⟩
          apply hkl
          have : k' = (x, y) := by ext <;> simp only at e1 e2 ⊢ <;> omega
          rwa [this] at hk'
    · intro r c hn
      rw [i4]
      · have := hn (x, y) (by simp [Changes.keys])
        simp only [setGrid, t4, t5, t3]
        rw [if_neg this]
      · intro k hk
        exact hn k (by simp only [Changes.keys, List.map_cons, List.mem_cons]; exact .inr hk)
    · rw [i5]; simp [t7, t4, t5, Changes.keys]

theorem gather_perm (ch : Changes) : ch.gather.Perm ch := List.perm_insertionSort ..

theorem mem_gather (ch : Changes) (e) : e ∈ ch.gather ↔ e ∈ ch := (gather_perm ch).mem_iff

theorem mem_gather_keys (ch : Changes) (k) : k ∈ Changes.keys ch.gather ↔ k ∈ ch.keys := by
  unfold Changes.keys
  exact ((gather_perm ch).map _).mem_iff

/-- The effect of a draw on a terminal. -/
theorem run_render (ox oy : Nat) (hx : 1 ≤ ox) (hy : 1 ≤ oy) (G : Nat × Nat → Glyph) (s : Screen)
    (hl : ∀ e ∈ s.changes, Prints e.2 (G e.1)) (T : State)
    (hm : T.mode = .ground) (hp : T.pen = Attr.clean) :
    (run T (s.render (ox, oy)).2).mode = .ground ∧
    (run T (s.render (ox, oy)).2).pen = Attr.clean ∧
    (∀ k ∈ s.changes.keys, (run T (s.render (ox, oy)).2).grid (k.2 + oy) (k.1 + ox) = G k) ∧
    (∀ r c, (∀ k ∈ s.changes.keys, ¬ (r = k.2 + oy ∧ c = k.1 + ox)) →
      (run T (s.render (ox, oy)).2).grid r c = T.grid r c) ∧
    (run T (s.render (ox, oy)).2).log =
      T.log ++ (Changes.keys s.changes.gather).map fun k => (k.2 + oy, k.1 + ox) := by
  obtain ⟨h1, h2, h3, h4, h5⟩ := run_renderGo ox oy hx hy G s.changes.gather
    (fun e he => hl e ((mem_gather _ _).mp he)) none T hm hp (by simp)
  have hrun : run T (s.render (ox, oy)).2 = run T (renderGo (ox, oy) none s.changes.gather) := by
    unfold Screen.render
    simp only [Bool.false_eq_true, if_false]
    split
    · rfl
    · rw [run_append]
      have := run_reset (run T (renderGo (ox, oy) none s.changes.gather)) [] h1
      rw [List.append_nil] at this
      rw [this, ← h2]; rfl
  rw [hrun]
  exact ⟨h1, h2, fun k hk => h3 k ((mem_gather_keys _ _).mpr hk),
    fun r c hn => h4 r c fun k hk => hn k ((mem_gather_keys _ _).mp hk), h5⟩

end Slate
