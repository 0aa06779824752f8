import Verif.Model.Resize
import Verif.Lemmas.Float
import Verif.Props.Leak
import Verif.Props.Cache
import Verif.Props.Terminal

/-!
# The resize experiment
-/

namespace Slate
open Py Term

namespace Resize

/-- The rounded `val / limit * 256` is the exact one, rounded down. -/
theorem normalize_exact (a b : Nat) (hab : a < b) (hb : b ≤ 2 ^ 45) : normalize ((a : ℚ) / b) = ((256 * a / b : ℕ) : ℤ) := by
  have hb0 : (0 : ℚ) < b := by exact_mod_cast (by omega : 0 < b)
  obtain ⟨k, hk⟩ : ∃ k, k = 256 * a / b := ⟨_, rfl⟩
  rw [← hk]
  have hkb : k * b ≤ 256 * a := hk ▸ Nat.div_mul_le_self _ _
  have hkl : 256 * a < (k + 1) * b := by
    rw [hk, Nat.mul_comm (256 * a / b + 1)]
    exact Nat.lt_mul_div_succ (256 * a) (Nat.zero_lt_of_lt hab)
  have hk256 : k < 256 := by
    rw [hk, Nat.div_lt_iff_lt_mul (by omega)]; omega
  clear hk
  -- below
  have lo : (k : ℚ) / 256 ≤ fl ((a : ℚ) / b) := by
    have e : (k : ℚ) / 256 = ((k : ℤ) : ℚ) * 2 ^ (-8 : ℤ) := by norm_num [div_eq_mul_inv]
    rw [e, ← fl_repr (k : ℤ) (-8) (by rw [abs_of_nonneg (by omega)]; omega) (by omega), ← e]
    apply fl_mono
    rw [div_le_div_iff₀ (by norm_num) hb0]
    rw [mul_comm (a : ℚ)]
    exact_mod_cast hkb
  -- above
  have hi : fl ((a : ℚ) / b) ≤ ((k + 1) * 2 ^ 45 - 1 : ℤ) * 2 ^ (-53 : ℤ) := by
    rw [← fl_repr ((k + 1) * 2 ^ 45 - 1) (-53) (by rw [abs_of_nonneg (by omega)]; omega) (by omega)]
    apply fl_mono
    have h1 : 256 * a + 1 ≤ (k + 1) * b := hkl
    have h2 : (a : ℚ) * (256 * 2 ^ 45) + b ≤ (k + 1) * b * 2 ^ 45 := by
      have h3 : ((256 * a + 1 : ℕ) : ℚ) ≤ (((k + 1) * b : ℕ) : ℚ) := by exact_mod_cast h1
      have h4 : (b : ℚ) ≤ 2 ^ 45 := by exact_mod_cast hb
      push_cast at h3
      nlinarith
    rw [div_le_iff₀ hb0]
    have e : (2 : ℚ) ^ (-53 : ℤ) = 1 / (256 * 2 ^ 45) := by norm_num
    rw [e]
    push_cast
    rw [mul_one_div, div_mul_eq_mul_div, le_div_iff₀ (by norm_num)]
    linarith
  have hprod : fl (fl ((a : ℚ) / b) * 256) < k + 1 ∧ (k : ℚ) ≤ fl (fl ((a : ℚ) / b) * 256) := by
    constructor
    · have h1 : fl ((a : ℚ) / b) * 256 ≤ ((k + 1) * 2 ^ 45 - 1 : ℤ) * 2 ^ (-45 : ℤ) := by
        have e : (2 : ℚ) ^ (-45 : ℤ) = 2 ^ (-53 : ℤ) * 256 := by norm_num
        rw [e, ← mul_assoc]
        exact mul_le_mul_of_nonneg_right hi (by norm_num)
      have h2 := fl_mono h1
      rw [fl_repr ((k + 1) * 2 ^ 45 - 1) (-45) (by rw [abs_of_nonneg (by omega)]; omega) (by omega)] at h2
      refine lt_of_le_of_lt h2 ?_
      have e : (2 : ℚ) ^ (-45 : ℤ) = 1 / 2 ^ 45 := by norm_num
      rw [e, mul_one_div, div_lt_iff₀ (by norm_num)]
      push_cast
      linarith
    · have h1 : (k : ℚ) ≤ fl ((a : ℚ) / b) * 256 := by
        rw [div_le_iff₀ (by norm_num)] at lo; exact lo
      have h2 := fl_mono h1
      have h3 := fl_int (k : ℤ) (by rw [abs_of_nonneg (by omega)]; omega)
      push_cast at h3
      rwa [h3] at h2
  unfold normalize
  rw [truncate_of_nonneg (le_trans (by positivity) hprod.2), Int.floor_eq_iff]
  push_cast
  exact ⟨hprod.2, hprod.1⟩

/-- The colours of the upper and of the lower half of a cell (`experiments/resize.py:15-29`): red grows with the column, green with the row, in
half rows. -/
def upper (width height x y : Nat) : Color := { r := 256 * x / width, g := 256 * y / height, b := 0, isBg := true }
@[inherit_doc upper]
def lower (width height x y : Nat) : Color := { r := 256 * x / width, g := 256 * (2 * y + 1) / (2 * height), b := 0 }

theorem tint_ok (r g : Nat) (hr : r < 256) (hg : g < 256) : tint (r : ℤ) (g : ℤ) = .ok { r := r, g := g, b := 0 } := by
  unfold tint Color.make Color.chanOk
  simp only [Bool.and_eq_true, decide_eq_true_eq]
  rw [if_pos (by omega)]
  rfl

/-- The span of a cell. -/
def block (width height x y : Nat) : Span :=
  { text := ['▄'], fg := some (lower width height x y), bg := some (upper width height x y) }

theorem shade_ok (width height x y : Nat) (hw : width ≤ 2 ^ 44) (hh : height ≤ 2 ^ 44) (hx : x < width) (hy : y < height) :
    shade width height x y = .ok (block width height x y) := by
  have e1 := normalize_exact x width hx (by omega)
  have e2 := normalize_exact y height hy (by omega)
  have e3 := normalize_exact (2 * y + 1) (2 * height) (by omega) (by omega)
  have f1 : fl ((y : ℚ) + 1 / 2) = ((2 * y + 1 : ℕ) : ℚ) / 2 := by
    have := fl_repr (2 * y + 1) (-1) (by rw [abs_of_nonneg (by omega)]; omega) (by omega)
    have e : (((2 * y + 1 : ℤ)) : ℚ) * 2 ^ (-1 : ℤ) = (y : ℚ) + 1 / 2 := by push_cast; ring
    rw [e] at this
    rw [this]; push_cast; ring
  have f2 : fl (height : ℚ) = height := by
    have := fl_int (height : ℤ) (by rw [abs_of_nonneg (by omega)]; omega)
    exact_mod_cast this
  have e4 : ((2 * y + 1 : ℕ) : ℚ) / 2 / (height : ℚ) = ((2 * y + 1 : ℕ) : ℚ) / ((2 * height : ℕ) : ℚ) := by
    rw [div_div]; push_cast; rfl
  have r1 : 256 * x / width < 256 := by rw [Nat.div_lt_iff_lt_mul (by omega)]; omega
  have r2 : 256 * y / height < 256 := by rw [Nat.div_lt_iff_lt_mul (by omega)]; omega
  have r3 : 256 * (2 * y + 1) / (2 * height) < 256 := by rw [Nat.div_lt_iff_lt_mul (by omega)]; omega
  unfold shade
  rw [f1, f2, e4, e1, e2, e3, tint_ok _ _ r1 r2, tint_ok _ _ r1 r3]
  rfl

/-- What the experiment means to show in a cell. -/
def glyph (env : Color.Env) (width height x y : Nat) : Glyph :=
  { ch := '▄', attr := { fg := denOf env (lower width height x y), bg := denOf env (upper width height x y) } }

/-- The cell with the block in it. -/
def blockCell (width height x y : Nat) : Cell :=
  { char := ['▄'], fg := some (lower width height x y), bg := some (upper width height x y) }

theorem block_ok (env : Color.Env) (width height x y : Nat) : SpanOk env (denOf env) (block width height x y) where
  text := by
    intro c hc
    simp only [block, List.mem_singleton] at hc
    subst hc
    exact .inl (by decide)
  fg := by
    intro c hc
    simp only [block, Option.some.injEq] at hc
    subst hc
    exact denOk env _ rfl
  bg := by
    intro c hc
    simp only [block, Option.some.injEq] at hc
    subst hc
    exact denOk env _ rfl

theorem write_block (env : Color.Env) (bg : Color) (width height x y : Nat) (pos : Int × Int) (w : World) :
    Terminal.write env (.span (block width height x y)) (some pos) bg w =
      Slate.write env [block width height x y] (some pos) bg false w := by
  rw [← terminal_write_spans env [block width height x y] (some pos) bg false w]
  rfl

/-- One character. -/
theorem write_char_spec (env : Color.Env) (bg : Color) (width height x y : Nat) (s : Span) (c : Char) (hc : s.text = [c]) (hcn : c ≠ '\n')
    (hso : SpanOk env (denOf env) s) (hop : ∀ b, s.bg = some b → b.alpha = 1) (w : World)
    (hw : w.scr.width = width) (hh : w.scr.height = height) (hs : Shape width height w.scr.cells) (hok : CacheOk w.cache)
    (h0 : w.scr.offset = 0) (hx : x < width) (hy : y < height) :
    ∃ w' n, Slate.write env [s] (some ((x : Int), (y : Int))) bg false w = (w', .ok n) ∧
      w'.scr.width = width ∧ w'.scr.height = height ∧ w'.scr.offset = 0 ∧ Shape width height w'.scr.cells ∧ CacheOk w'.cache ∧
      (∃ old, cellAt w.scr.cells x y = some old ∧ cellAt w'.scr.cells x y =
        some (if (storedCell s (styledChar s 0 c)).eq old then old else storedCell s (styledChar s 0 c))) ∧
      (∀ x' y', x' < width → (x', y') ≠ (x, y) → cellAt w'.scr.cells x' y' = cellAt w.scr.cells x' y') ∧
      (∀ T : State, Sync (denOf env) 1 1 w.scr T → Sync (denOf env) 1 1 w'.scr T) := by
  subst hw hh
  have hnl : ∀ t ∈ [s], '\n' ∉ t.text := by
    intro t ht
    simp only [List.mem_singleton] at ht
    subst ht
    rw [hc]
    simpa using hcn.symm
  obtain ⟨⟨n, hn⟩, ho, hcell, hrest⟩ := C05_placement_partial env bg false w hs hok h0 x y hx hy
    [s] hnl (by
      intro t ht b hb
      simp only [List.mem_singleton] at ht
      subst ht
      exact hop b hb) (by intro s t rest h; simp at h)
  obtain ⟨f1, f2, -, -, f5, -⟩ := writeBulk_frame env [(some ((x : Int), (y : Int)), [s])] bg false w hs
  obtain ⟨g1, -⟩ := writeBulk_still env [(some ((x : Int), (y : Int)), [s])] bg false w hs hok
    (ho.trans h0.symm)
  have hi : y * w.scr.width + x < w.scr.height * w.scr.width := by
    calc y * w.scr.width + x < y * w.scr.width + w.scr.width := by omega
      _ = (y + 1) * w.scr.width := by rw [Nat.add_mul]; omega
      _ ≤ w.scr.height * w.scr.width := Nat.mul_le_mul_right _ hy
  have hmod : (y * w.scr.width + x) % w.scr.width = x := by
    rw [Nat.mul_comm, Nat.mul_add_mod, Nat.mod_eq_of_lt hx]
  have hdiv : (y * w.scr.width + x) / w.scr.width = y := by
    rw [Nat.mul_comm, Nat.mul_add_div (by omega), Nat.div_eq_of_lt hx, Nat.add_zero]
  refine ⟨_, n, Prod.ext rfl hn, f1, f2, ho, f5, g1, ?_, ?_, ?_⟩
  · have h := hcell [] _ [] rfl 0 c (by rw [hc]; rfl)
    simp only [List.map_nil, List.sum_nil, Nat.add_zero] at h
    rw [hmod, hdiv] at h
    exact h hi
  · intro x' y' hx' hne
    refine hrest x' y' hx' ?_
    simp only [List.map_cons, List.map_nil, List.sum_cons, List.sum_nil, Nat.add_zero]
    have hlen : s.len = 1 := by rw [Span.len, hc]; rfl
    rw [hlen]
    by_contra hcon
    have e : y' * w.scr.width + x' = y * w.scr.width + x := by omega
    apply hne
    have h1 : (y' * w.scr.width + x') % w.scr.width = x' := by
      rw [Nat.mul_comm, Nat.mul_add_mod, Nat.mod_eq_of_lt hx']
    have h2 : (y' * w.scr.width + x') / w.scr.width = y' := by
      rw [Nat.mul_comm, Nat.mul_add_div (by omega), Nat.div_eq_of_lt hx', Nat.add_zero]
    rw [e] at h1 h2
    exact Prod.ext (h1.symm.trans hmod) (h2.symm.trans hdiv)
  · intro T hT
    exact (Sync.exec (denOk env) le_rfl le_rfl (s := { w := w, term := T }) hT hok
      (op := .write [s] (some ((x : Int), (y : Int))) bg false)
      (by
        intro t ht
        simp only [List.mem_singleton] at ht
        subst ht
        exact hso) (ho.trans h0.symm)).1

/-- One block. -/
theorem write_block_spec (env : Color.Env) (bg : Color) (width height x y : Nat) (w : World)
    (hw : w.scr.width = width) (hh : w.scr.height = height) (hs : Shape width height w.scr.cells) (hok : CacheOk w.cache)
    (h0 : w.scr.offset = 0) (hx : x < width) (hy : y < height) :
    ∃ w' n, Terminal.write env (.span (block width height x y)) (some ((x : Int), (y : Int))) bg w = (w', .ok n) ∧
      w'.scr.width = width ∧ w'.scr.height = height ∧ w'.scr.offset = 0 ∧ Shape width height w'.scr.cells ∧ CacheOk w'.cache ∧
      (∃ old, cellAt w.scr.cells x y = some old ∧ cellAt w'.scr.cells x y =
        some (if (blockCell width height x y).eq old then old else blockCell width height x y)) ∧
      (∀ x' y', x' < width → (x', y') ≠ (x, y) → cellAt w'.scr.cells x' y' = cellAt w.scr.cells x' y') ∧
      (∀ T : State, Sync (denOf env) 1 1 w.scr T → Sync (denOf env) 1 1 w'.scr T) := by
  rw [write_block]
  exact write_char_spec env bg width height x y (block width height x y) '▄' rfl (by decide) (block_ok env _ _ _ _)
    (by
      intro b hb
      simp only [block, Option.some.injEq] at hb
      subst hb
      rfl) w hw hh hs hok h0 hx hy

/-- All blocks. -/
theorem paint_spec (env : Color.Env) (bg : Color) (width height : Nat) (hW : width ≤ 2 ^ 44) (hH : height ≤ 2 ^ 44)
    (ps : List (Nat × Nat)) (hnd : ps.Nodup) (hps : ∀ p ∈ ps, p.1 < width ∧ p.2 < height) (w : World)
    (hw : w.scr.width = width) (hh : w.scr.height = height) (hs : Shape width height w.scr.cells) (hok : CacheOk w.cache)
    (h0 : w.scr.offset = 0) :
    ∃ w', paint env bg width height ps w = (w', .ok ()) ∧
      w'.scr.width = width ∧ w'.scr.height = height ∧ w'.scr.offset = 0 ∧ Shape width height w'.scr.cells ∧ CacheOk w'.cache ∧
      (∀ x y, (x, y) ∈ ps → ∃ old, cellAt w.scr.cells x y = some old ∧ cellAt w'.scr.cells x y =
        some (if (blockCell width height x y).eq old then old else blockCell width height x y)) ∧
      (∀ x y, x < width → (x, y) ∉ ps → cellAt w'.scr.cells x y = cellAt w.scr.cells x y) ∧
      (∀ T : State, Sync (denOf env) 1 1 w.scr T → Sync (denOf env) 1 1 w'.scr T) := by
  induction ps generalizing w with
  | nil => exact ⟨w, rfl, hw, hh, h0, hs, hok, by simp, fun _ _ _ _ => rfl, fun _ h => h⟩
  | cons p ps ih =>
    obtain ⟨x, y⟩ := p
    obtain ⟨hx, hy⟩ := hps (x, y) (by simp)
    obtain ⟨w1, n, e1, a1, a2, a3, a4, a5, a6, a7, a8⟩ := write_block_spec env bg width height x y w hw hh hs hok h0 hx hy
    rw [List.nodup_cons] at hnd
    obtain ⟨w2, e2, b1, b2, b3, b4, b5, b6, b7, b8⟩ := ih hnd.2 (fun q hq => hps q (by simp [hq])) w1 a1 a2 a4 a5 a3
    refine ⟨w2, ?_, b1, b2, b3, b4, b5, ?_, ?_, fun T hT => b8 T (a8 T hT)⟩
    · rw [paint, shade_ok width height x y hW hH hx hy]
      simp only [e1, e2]
    · intro x' y' hmem
      rcases List.mem_cons.mp hmem with h | h
      · cases h
        rw [b7 x y hx hnd.1]
        exact a6
      · obtain ⟨old, h1, h2⟩ := b6 x' y' h
        have hne : (x', y') ≠ (x, y) := by
          intro e; rw [e] at h; exact hnd.1 h
        rw [a7 x' y' (hps _ hmem).1 hne] at h1
        exact ⟨old, h1, h2⟩
    · intro x' y' hx' hn
      rw [List.mem_cons, not_or] at hn
      rw [b7 x' y' hx' hn.2, a7 x' y' hx' hn.1]

theorem mem_order (width height x y : Nat) : (x, y) ∈ order width height ↔ x < width ∧ y < height := by
  simp [order]

theorem nodup_order (width height : Nat) : (order width height).Nodup := by
  unfold order
  rw [List.nodup_flatMap]
  refine ⟨fun x _ => (List.nodup_range).map fun a b h => by simpa using h, ?_⟩
  refine List.Pairwise.imp ?_ (List.nodup_range (n := width))
  intro a b hab p hp hq
  simp only [List.mem_map, List.mem_range] at hp hq
  obtain ⟨_, _, rfl⟩ := hp
  obtain ⟨_, _, h⟩ := hq
  exact hab (by simpa using (congrArg Prod.fst h).symm)

/-- **C107**, what is stored: on every screen of the size passed that has not scrolled, whatever is on it, `print_uv` paints every cell and
raises nothing. (A cell that already was Python-equal to the new one is kept.) -/
theorem C107_stored (env : Color.Env) (bg : Color) (redraw : Bool) (w : World) (hs : Shape w.scr.width w.scr.height w.scr.cells)
    (hok : CacheOk w.cache) (h0 : w.scr.offset = 0) (hW : w.scr.width ≤ 2 ^ 44) (hH : w.scr.height ≤ 2 ^ 44) :
    ∃ w' out, printUv env bg redraw w.scr.width w.scr.height w = (w', .ok out) ∧
      ∀ x y, x < w.scr.width → y < w.scr.height → ∃ cell, cellAt w'.scr.cells x y = some cell ∧
        (blockCell w.scr.width w.scr.height x y).eq cell = true := by
  obtain ⟨w1, e, -, -, -, -, -, b6, -, -⟩ := paint_spec env bg _ _ hW hH (order w.scr.width w.scr.height) (nodup_order _ _)
    (fun p hp => (mem_order _ _ p.1 p.2).mp hp) w rfl rfl hs hok h0
  unfold printUv
  rw [e]
  refine ⟨_, _, rfl, ?_⟩
  intro x y hx hy
  obtain ⟨old, -, h⟩ := b6 x y ((mem_order _ _ x y).mpr ⟨hx, hy⟩)
  have hcells : ∀ r : Bool, (w1.scr.render (1, 1) r).1.cells = w1.scr.cells := by
    intro r; cases r <;> rfl
  refine ⟨_, by rw [hcells]; exact h, ?_⟩
  split
  · assumption
  · simp [Cell.eq, Span.optEq, Color.eq, blockCell]

theorem blockCell_glyph (env : Color.Env) (width height x y : Nat) :
    cellGlyph (denOf env) (blockCell width height x y) = glyph env width height x y := by
  rfl

/-- A draw that has nothing to draw changes no cell. -/
theorem idle_draws (env : Color.Env) (n : Nat) (sys : Sys) (hc : sys.w.scr.changes = []) (hm : sys.term.mode = .ground) :
    (execAll env (1, 1) sys (List.replicate n .draw)).term.grid = sys.term.grid := by
  induction n generalizing sys with
  | zero => rfl
  | succ n ih =>
    rw [List.replicate_succ]
    have hstep : execAll env (1, 1) sys (.draw :: List.replicate n .draw) =
        execAll env (1, 1) (exec env (1, 1) sys .draw) (List.replicate n .draw) := rfl
    have hr : (sys.w.scr.render (1, 1) false).2 = '\x1b' :: "[0m".toList := by
      unfold Screen.render
      rw [hc]
      rfl
    have ht : (exec env (1, 1) sys .draw).term = run sys.term ('\x1b' :: "[0m".toList) := by
      rw [← hr]; rfl
    have hrun : run sys.term ('\x1b' :: "[0m".toList) = { sys.term with pen := Attr.clean } := run_reset sys.term [] hm
    rw [hstep, ih]
    · rw [ht]; rw [hrun]
    · rfl
    · rw [ht]
      rw [hrun]
      exact hm

/-- **C107** (partial: this is what `terminal.draw()` would show; the experiment says `terminal.draw(redraw=True)`,
`C107_redraw_violated`). After any history that has not scrolled, on a screen of the size passed: every cell shows the gradient, provided
the colours stored before are in their roles. -/
theorem C107_draw_partial (env : Color.Env) (bg : Color) (width height : Nat) (hW : width ≤ 2 ^ 44) (hH : height ≤ 2 ^ 44)
    (cur : Int × Int) (fill : Char) (hfill : Printable fill) (T : State) (hT : T.mode = .ground) (hpen : T.pen = Attr.clean)
    (ops : List Op) (hops : ∀ op ∈ ops, OpOk (SpanOk env (denOf env)) op) :
    let sys := execAll env (1, 1) { w := { scr := Screen.init width height cur [fill] }, term := T } ops
    sys.w.scr.offset = 0 →
    (∀ x y old, cellAt sys.w.scr.cells x y = some old → RolesAgree (blockCell width height x y) old) →
    ∃ w' out, printUv env bg false width height sys.w = (w', .ok out) ∧
      ∀ x y, x < width → y < height → (run sys.term out).grid (y + 1) (x + 1) = glyph env width height x y := by
  intro sys ho hroles
  have h0 := Sync.init (denOf env) 1 1 width height cur hfill T hT hpen
  obtain ⟨f1, f2, -, f4⟩ := execAll_frame env (1, 1)
    { w := { scr := Screen.init width height cur [fill] }, term := T } ops h0.shape
  obtain ⟨hsync, hcache⟩ := Sync.execAll (denOk env) le_rfl le_rfl ops
    { w := { scr := Screen.init width height cur [fill] }, term := T } h0 (by intro e he; simp at he) hops ho
  obtain ⟨w1, e, -, -, -, b4, -, b6, -, b8⟩ := paint_spec env bg width height hW hH (order width height) (nodup_order _ _)
    (fun p hp => (mem_order _ _ p.1 p.2).mp hp) sys.w f1 f2 f4 hcache ho
  have hs := (b8 sys.term hsync).draw le_rfl le_rfl
  unfold printUv
  rw [e]
  refine ⟨_, _, rfl, ?_⟩
  intro x y hx hy
  obtain ⟨old, hold, hnew⟩ := b6 x y ((mem_order _ _ x y).mpr ⟨hx, hy⟩)
  have := hs.shown x y _ (by rfl) hnew
  rw [show ((1 : Int), (1 : Int)) = (((1 : ℕ) : Int), ((1 : ℕ) : Int)) from rfl]
  refine this.trans ?_
  rw [← blockCell_glyph]
  split
  · rename_i heq
    exact (cellGlyph_eq heq (hroles x y old hold)).symm
  · rfl

/-- **C107 violated**, at every size: after any history that has not scrolled, `print_uv` leaves every cell a block in the default
colours, and however often `terminal.draw()` is called after it, that does not change. -/
theorem C107_redraw_violated (env : Color.Env) (bg : Color) (width height : Nat) (hW : width ≤ 2 ^ 44) (hH : height ≤ 2 ^ 44)
    (cur : Int × Int) (fill : Char) (hfill : Printable fill) (T : State) (hT : T.mode = .ground) (hpen : T.pen = Attr.clean)
    (ops : List Op) (hops : ∀ op ∈ ops, OpOk (SpanOk env (denOf env)) op) (n : Nat) :
    let sys := execAll env (1, 1) { w := { scr := Screen.init width height cur [fill] }, term := T } ops
    sys.w.scr.offset = 0 →
    ∃ w' out, printUv env bg true width height sys.w = (w', .ok out) ∧
      ∀ x y, x < width → y < height →
        let shown := (execAll env (1, 1) { w := w', term := run sys.term out } (List.replicate n .draw)).term.grid (y + 1) (x + 1)
        shown = { ch := '▄', attr := Attr.clean } ∧ shown ≠ glyph env width height x y := by
  intro sys ho
  have h0 := Sync.init (denOf env) 1 1 width height cur hfill T hT hpen
  obtain ⟨f1, f2, -, f4⟩ := execAll_frame env (1, 1)
    { w := { scr := Screen.init width height cur [fill] }, term := T } ops h0.shape
  obtain ⟨hsync, hcache⟩ := Sync.execAll (denOk env) le_rfl le_rfl ops
    { w := { scr := Screen.init width height cur [fill] }, term := T } h0 (by intro e he; simp at he) hops ho
  obtain ⟨w1, e, b1, b2, -, b4, -, b6, -, -⟩ := paint_spec env bg width height hW hH (order width height) (nodup_order _ _)
    (fun p hp => (mem_order _ _ p.1 p.2).mp hp) sys.w f1 f2 f4 hcache ho
  have hclean : sys.term.pen = Attr.clean := hsync.clean
  have hstr : ∀ x y cell, cellAt w1.scr.cells x y = some cell → CellStr cell.char {} '▄' false := by
    intro x y cell hc
    have hxy := b4.cellAt_isSome.mp (by rw [hc]; rfl)
    obtain ⟨old, -, hnew⟩ := b6 x y ((mem_order _ _ x y).mpr hxy)
    rw [hnew, Option.some.injEq] at hc
    have hch : cell.char = ['▄'] := by
      rw [← hc]
      split
      · rename_i heq
        simp only [Cell.eq, Bool.and_eq_true, decide_eq_true_eq] at heq
        exact heq.1.1.symm
      · rfl
    rw [hch]
    exact ⟨by rw [wrapSgr_empty]; rfl, by decide⟩
  have hex := C15_exact_partial 1 1 le_rfl le_rfl w1.scr (by rw [b1, b2]; exact b4) (fun _ => {}) (fun _ => '▄') (fun _ => false) hstr
    sys.term hsync.ground
  have hmode : (run sys.term (w1.scr.render (1, 1) true).2).mode = .ground := by
    refine (run_redrawGo (denOf env) 1 1 le_rfl le_rfl w1.scr.cells width b4.cols sys.term hsync.ground ?_).1
    intro row hrow cell hc
    obtain ⟨y, hy⟩ := List.mem_iff_getElem?.mp hrow
    obtain ⟨x, hx⟩ := List.mem_iff_getElem?.mp hc
    exact ⟨_, _, _, hstr x y cell (by simp [cellAt, hy, hx])⟩
  unfold printUv
  rw [e]
  refine ⟨_, _, rfl, ?_⟩
  intro x y hx hy
  have hidle := idle_draws env n { w := { w1 with scr := (w1.scr.render (1, 1) true).1 }, term := run sys.term (w1.scr.render (1, 1) true).2 }
    rfl hmode
  simp only
  rw [hidle]
  obtain ⟨h1, h2, h3⟩ := hex.1 x y (by rw [b1]; exact hx) (by rw [b2]; exact hy)
  obtain ⟨h4, h5⟩ := h3 (by rw [hclean]; exact ⟨rfl, rfl⟩)
  have hflag : ∀ f ∈ textFlags, f.1 ((run sys.term (w1.scr.render (1, 1) true).2).grid (y + 1) (x + 1)).attr = false := by
    intro f hf
    rw [← Bool.not_eq_true]
    intro ht
    rcases (h2 f hf).mp ht with ⟨_, -, h, -⟩ | ⟨h, -⟩
    · simp only [textFlags, List.mem_cons, List.not_mem_nil, or_false] at hf
      rcases hf with rfl | rfl | rfl | rfl | rfl | rfl | rfl | rfl | rfl <;> cases h
    · rw [hclean] at h
      simp only [textFlags, List.mem_cons, List.not_mem_nil, or_false] at hf
      rcases hf with rfl | rfl | rfl | rfl | rfl | rfl | rfl | rfl | rfl <;> cases h
  have hshown : (run sys.term (w1.scr.render (1, 1) true).2).grid (y + 1) (x + 1) = { ch := '▄', attr := Attr.clean } := by
    generalize (run sys.term (w1.scr.render (1, 1) true).2).grid (y + 1) (x + 1) = g at h1 h4 h5 hflag
    obtain ⟨ch, a⟩ := g
    simp only at h1 h4 h5 hflag
    simp only [textFlags, List.mem_cons, List.not_mem_nil, or_false, forall_eq_or_imp, forall_eq] at hflag
    obtain ⟨k1, k2, k3, k4, k5, k6, k7, k8, k9⟩ := hflag
    rw [h1]
    congr 1
    cases a
    simp_all [Attr.clean]
  refine ⟨hshown, ?_⟩
  rw [hshown]
  intro h
  have hfg := congrArg (fun g : Glyph => g.attr.fg) h
  simp only [glyph, Attr.clean] at hfg
  unfold denOf at hfg
  split at hfg <;> cases hfg

/-- A small terminal: the hypotheses hold on a fresh screen, and the cells are of different colours. -/
example :
    let env : Color.Env := { space := .trueColor, grey := fun _ _ _ => 0 }
    let sys := execAll env (1, 1) { w := { scr := Screen.init 2 2 (0, 0) [' '] }, term := { grid := fun _ _ => ⟨' ', Attr.clean⟩ } } []
    sys.w.scr.offset = 0 ∧ (∀ x y old, cellAt sys.w.scr.cells x y = some old → RolesAgree (blockCell 2 2 x y) old) ∧
      glyph env 2 2 1 1 = { ch := '▄', attr := { fg := .rgb 128 192 0, bg := .rgb 128 128 0 } } ∧
      glyph env 2 2 0 0 = { ch := '▄', attr := { fg := .rgb 0 64 0, bg := .rgb 0 0 0 } } := by
  refine ⟨by decide +kernel, ?_, by decide +kernel, by decide +kernel⟩
  intro x y old h
  have : old.fg = none ∧ old.bg = none := by
    have hall : ∀ row ∈ (Screen.init 2 2 (0, 0) [' ']).cells, ∀ cell ∈ row, cell.fg = none ∧ cell.bg = none := by decide +kernel
    have h' : cellAt (Screen.init 2 2 (0, 0) [' ']).cells x y = some old := h
    unfold cellAt at h'
    cases hr : (Screen.init 2 2 (0, 0) [' ']).cells[y]? with
    | none => rw [hr] at h'; cases h'
    | some row =>
      rw [hr] at h'
      exact hall row (List.mem_of_getElem? hr) old (List.mem_of_getElem? h')
  constructor
  · intro c d _ hd; rw [this.1] at hd; cases hd
  · intro c d _ hd; rw [this.2] at hd; cases hd

end Resize
end Slate
