import Verif.Lemmas.Scroll

/-!
# C16, C17: scrolling
-/

namespace Slate
open Py Term

/-! ## C16 Scrolling places a logical row at row minus offset -/

/-- **C16** (monotonicity, in full): no call ever decreases the scrollback offset. -/
theorem C16_offset_monotone (env : Color.Env) (width height : Nat) (cur : Int × Int) (fill : Str)
    (cache : CharCache) (ops more : List Api) :
    (Api.runAll env { scr := Screen.init width height cur fill, cache := cache } ops).scr.offset ≤
    (Api.runAll env { scr := Screen.init width height cur fill, cache := cache } (ops ++ more)).scr.offset := by
  have e : Api.runAll env { scr := Screen.init width height cur fill, cache := cache } (ops ++ more) =
      Api.runAll env (Api.runAll env { scr := Screen.init width height cur fill, cache := cache } ops) more :=
    List.foldl_append
  rw [e]
  exact runAll_offset_mono env more _ (runAll_shape env ops _ (resize_shape _ _ _ _ _))

theorem cellAt_scroll {width height : Nat} {r : List Cell} {rows : List (List Cell)}
    (hs : Shape width height (r :: rows)) (c : Cell) (x y : Nat) (hx : x < width) :
    cellAt (rows ++ [List.replicate width c]) x y =
      if y + 1 = height then some c else cellAt (r :: rows) x (y + 1) := by
  have hl : rows.length + 1 = height := by simpa using hs.rows
  unfold cellAt
  by_cases hy : y + 1 = height
  · rw [if_pos hy, List.getElem?_append_right (by omega)]
    have : y - rows.length = 0 := by omega
    simp [this, hx]
  · rw [if_neg hy]
    by_cases hlt : y < rows.length
    · rw [List.getElem?_append_left hlt]; simp
    · rw [List.getElem?_eq_none (by simp; omega), List.getElem?_eq_none (by simp; omega)]

/-- **C16** (partial: lines of one span; with several spans per line or larger jumps the
full statement fails, see below). On every screen reached by any history, a
newline-free non-empty opaque line written at logical row `y ≥ offset + height`
succeeds, moves the offset to `y - height + 1`, moves every row up by one and
stores the line in the bottom row, which is otherwise empty. -/
theorem C16_scroll_partial (env : Color.Env) (width height : Nat) (cur : Int × Int) (fill : Str)
    (ops : List Api) (s : Span) (hnl : '\n' ∉ s.text) (hne : s.text ≠ [])
    (hop : ∀ b, s.bg = some b → b.alpha = 1) (tb : Color) (force : Bool) (x : Nat) (y : Int) :
    let w := Api.runAll env { scr := Screen.init width height cur fill } ops
    let r := write env [s] (some ((x : Int), y)) tb force w
    x < w.scr.width → 0 < w.scr.height → w.scr.offset + w.scr.height ≤ y →
    (∃ n, r.2 = .ok n) ∧ r.1.scr.offset = y - w.scr.height + 1 ∧
    (∀ x' y', x' < w.scr.width → y' + 1 < w.scr.height →
      cellAt r.1.scr.cells x' y' = cellAt w.scr.cells x' (y' + 1)) ∧
    (∀ j c, s.text[j]? = some c → x + j < w.scr.width →
      cellAt r.1.scr.cells (x + j) (w.scr.height - 1) = some (storedCell s (styledChar s j c))) ∧
    (∀ x', x' < w.scr.width → (x' < x ∨ x + s.text.length ≤ x') →
      cellAt r.1.scr.cells x' (w.scr.height - 1) = some { char := [] }) := by
  intro w r hx hh hy
  have hs : Shape w.scr.width w.scr.height w.scr.cells :=
    runAll_shape env ops _ (resize_shape _ _ _ _ _)
  have hrs : CacheRs w.cache := runAll_cacheRs env ops _ (by intro e he; simp at he)
  obtain ⟨hget, -⟩ := hrs.get s
  have hget := hget hnl
  -- the state after scrolling
  obtain ⟨row0, rows, hcells⟩ : ∃ row0 rows, w.scr.cells = row0 :: rows := by
    cases hc : w.scr.cells with
    | nil => have := hs.rows; rw [hc] at this; simp at this; omega
    | cons a l => exact ⟨a, l, rfl⟩
  have hs2 : Shape w.scr.width w.scr.height (rows ++ [List.replicate w.scr.width { char := [] }]) := by
    rw [hcells] at hs; exact hs.scroll _
  let chars := appendNewline (w.cache.get s).1
  let scr2 : Screen := { w.scr with offset := y - w.scr.height + 1,
                                    cells := rows ++ [List.replicate w.scr.width { char := [] }] }
  let m := (putChars w.scr.width w.scr.height s chars
    { x := (x : Int), y := ((w.scr.height - 1 : Nat) : Int), last := 0 } Mats.blank).2
  have hlenpos : (w.cache.get s).1.isEmpty = false := by
    have h1 : ((w.cache.get s).1.map stripNl).length = s.text.length := by
      rw [hget, length_cellChars]
    rw [List.length_map] at h1
    have := List.length_pos_of_ne_nil hne
    rw [List.isEmpty_eq_false_iff]
    intro hh; rw [hh] at h1; simp at h1; omega
  have hput : putData [(some ((x : Int), y), [s])] Mats.blank w =
      (m, { scr := scr2, cache := (w.cache.get s).2.assign s chars }, none) := by
    have e1 : (y - (y - (w.scr.height : Int) + 1)) = ((w.scr.height - 1 : Nat) : Int) := by omega
    simp only [putData, putSpans, List.length_cons, List.length_nil]
    rw [if_pos (by constructor <;> simp <;> omega)]
    simp only [hlenpos, Bool.false_eq_true, if_false, hcells, e1]
    rfl
  have hr : r = ({ scr := (commit env tb m scr2).1, cache := (w.cache.get s).2.assign s chars },
      (commit env tb m scr2).2) := by
    simp only [r, write, writeBulk, hput]
  obtain ⟨n, hn, hwr⟩ := commit_wrote env tb m scr2 hs2
  obtain ⟨p1, p2⟩ := place_one hwr hs2 s hnl hop chars
    (by rw [appendNewline_strip]; exact hget) x (w.scr.height - 1) hx 0 rfl
  have hold : ∀ x' y', x' < w.scr.width → cellAt scr2.cells x' y' =
      if y' + 1 = w.scr.height then some { char := [] } else cellAt w.scr.cells x' (y' + 1) := by
    intro x' y' hx'
    rw [hcells]
    exact cellAt_scroll (hcells ▸ hs) _ x' y' hx'
  have hbot : (w.scr.height - 1) * w.scr.width + w.scr.width = w.scr.height * w.scr.width := by
    have : w.scr.height = (w.scr.height - 1) + 1 := by omega
    conv_rhs => rw [this, Nat.add_mul, Nat.one_mul]
  have hmodd : ∀ k, k < w.scr.width → ((w.scr.height - 1) * w.scr.width + k) % w.scr.width = k ∧
      ((w.scr.height - 1) * w.scr.width + k) / w.scr.width = w.scr.height - 1 := by
    intro k hk
    have hw : 0 < w.scr.width := by omega
    constructor
    · rw [Nat.mul_comm, Nat.mul_add_mod, Nat.mod_eq_of_lt hk]
    · rw [Nat.mul_comm, Nat.mul_add_div hw, Nat.div_eq_of_lt hk]; rfl
  refine ⟨⟨n, by rw [hr]; exact hn⟩, by rw [hr]; exact hwr.offset, ?_, ?_, ?_⟩
  · intro x' y' hx' hy'
    rw [hr]
    rw [p2 x' y' hx' ?_, hold x' y' hx', if_neg (by omega)]
    left
    have : (y' + 1) * w.scr.width ≤ (w.scr.height - 1) * w.scr.width :=
      Nat.mul_le_mul_right _ (by omega)
    rw [Nat.add_mul, Nat.one_mul] at this
    show y' * w.scr.width + x' < (w.scr.height - 1) * w.scr.width + x
    omega
  · intro j c hj hlt
    obtain ⟨old, ho1, ho2⟩ := p1 j c hj (by
      show (w.scr.height - 1) * w.scr.width + x + j < w.scr.height * w.scr.width
      omega)
    have hmd := hmodd (x + j) hlt
    have e : (w.scr.height - 1) * scr2.width + x + j = (w.scr.height - 1) * w.scr.width + (x + j) := by
      show (w.scr.height - 1) * w.scr.width + x + j = _
      omega
    rw [e] at ho1 ho2
    have e2 : scr2.width = w.scr.width := rfl
    rw [e2, hmd.1, hmd.2] at ho1 ho2
    rw [hold _ _ hlt, if_pos (by omega)] at ho1
    injection ho1 with ho1
    rw [hr]
    rw [ho2, if_neg]
    rw [← ho1]
    have : ∃ f, (storedCell s (styledChar s j c)).fg = some f := by
      unfold storedCell
      simp only
      split
      · exact ⟨_, rfl⟩
      · split
        · exact ⟨_, rfl⟩
        · cases s.bg <;> exact ⟨_, rfl⟩
    obtain ⟨f, hf⟩ := this
    simp [Cell.eq, hf, Span.optEq]
  · intro x' hx' hout
    rw [hr]
    rw [p2 x' (w.scr.height - 1) hx' ?_, hold x' _ hx', if_pos (by omega)]
    show (w.scr.height - 1) * w.scr.width + x' < (w.scr.height - 1) * w.scr.width + x ∨ _
    rcases hout with h | h
    · left; omega
    · right
      show (w.scr.height - 1) * w.scr.width + x + s.text.length ≤ (w.scr.height - 1) * w.scr.width + x'
      omega

/-- **C16** (partial: lines of one span). On every screen reached by any history a
newline-free opaque line written at a logical row in the window is stored at
screen row `y - offset` (wrapping as in C05) and nothing scrolls. -/
theorem C16_window_partial (env : Color.Env) (width height : Nat) (cur : Int × Int) (fill : Str)
    (ops : List Api) (s : Span) (hnl : '\n' ∉ s.text)
    (hop : ∀ b, s.bg = some b → b.alpha = 1) (tb : Color) (force : Bool) (x : Nat) (y : Int) :
    let w := Api.runAll env { scr := Screen.init width height cur fill } ops
    let r := write env [s] (some ((x : Int), y)) tb force w
    let row := (y - w.scr.offset).toNat
    x < w.scr.width → w.scr.offset ≤ y → y < w.scr.offset + w.scr.height →
    (∃ n, r.2 = .ok n) ∧ r.1.scr.offset = w.scr.offset ∧
    (∀ j c, s.text[j]? = some c →
      let i := row * w.scr.width + x + j
      i < w.scr.height * w.scr.width →
      ∃ old, cellAt w.scr.cells (i % w.scr.width) (i / w.scr.width) = some old ∧
        cellAt r.1.scr.cells (i % w.scr.width) (i / w.scr.width) =
          some (if (storedCell s (styledChar s j c)).eq old then old
            else storedCell s (styledChar s j c))) ∧
    (∀ x' y', x' < w.scr.width →
      (y' * w.scr.width + x' < row * w.scr.width + x ∨
        row * w.scr.width + x + s.text.length ≤ y' * w.scr.width + x') →
      cellAt r.1.scr.cells x' y' = cellAt w.scr.cells x' y') := by
  intro w r row hx hy hy2
  have hs : Shape w.scr.width w.scr.height w.scr.cells :=
    runAll_shape env ops _ (resize_shape _ _ _ _ _)
  have hrs : CacheRs w.cache := runAll_cacheRs env ops _ (by intro e he; simp at he)
  have hget := (hrs.get s).1 hnl
  let m := (putChars w.scr.width w.scr.height s (w.cache.get s).1
    { x := (x : Int), y := (row : Int), last := 0 } Mats.blank).2
  have hput : putData [(some ((x : Int), y), [s])] Mats.blank w =
      (m, { scr := w.scr, cache := (w.cache.get s).2 }, none) := by
    have e1 : y - w.scr.offset = (row : Int) := by omega
    simp only [putData, putSpans, List.length_cons, List.length_nil]
    rw [if_neg (by omega)]
    simp only [e1]
    rfl
  have hr : r = ({ scr := (commit env tb m w.scr).1, cache := (w.cache.get s).2 },
      (commit env tb m w.scr).2) := by
    simp only [r, write, writeBulk, hput]
  obtain ⟨n, hn, hwr⟩ := commit_wrote env tb m w.scr hs
  obtain ⟨p1, p2⟩ := place_one hwr hs s hnl hop (w.cache.get s).1 hget x row hx 0 rfl
  exact ⟨⟨n, by rw [hr]; exact hn⟩, by rw [hr]; exact hwr.offset, by rw [hr]; exact p1,
    by rw [hr]; exact p2⟩

theorem storedCell_fg (s : Span) (str : Str) : ∃ f, (storedCell s str).fg = some f := by
  unfold storedCell
  simp only
  split
  · exact ⟨_, rfl⟩
  · split
    · exact ⟨_, rfl⟩
    · cases s.bg <;> exact ⟨_, rfl⟩

/-- The history of a log: line `k` is written at logical row `k`. -/
def logHistory (tb : Color) (force : Bool) (ls : List Span) : List Api :=
  ls.mapIdx fun k s => .write [s] (some (0, (k : Int))) tb force

/-- **C16** (partial: lines of one span that fit into a row). Writing the lines of a log
of any length one after the other, line `k` at logical row `k`, leaves the offset
at `len - height` (at least 0), and each of the last `height` lines is stored, in
order, in the row `k - offset`. -/
theorem C16_log_partial (env : Color.Env) (width height : Nat) (hw : 0 < width) (hh : 0 < height)
    (cur : Int × Int) (fill : Str) (tb : Color) (force : Bool) (ls : List Span)
    (hls : ∀ s ∈ ls, '\n' ∉ s.text ∧ s.text ≠ [] ∧ s.text.length ≤ width ∧
      ∀ b, s.bg = some b → b.alpha = 1) :
    let w := Api.runAll env { scr := Screen.init width height cur fill } (logHistory tb force ls)
    w.scr.width = width ∧ w.scr.height = height ∧
    w.scr.offset = ((ls.length - height : Nat) : Int) ∧
    (∀ k s j c, ls[k]? = some s → ls.length - height ≤ k → s.text[j]? = some c →
      cellAt w.scr.cells j (k - (ls.length - height)) = some (storedCell s (styledChar s j c))) ∧
    (∀ x y, x < width → ls.length ≤ y → y < height →
      cellAt w.scr.cells x y = some { char := fill }) := by
  induction ls using List.reverseRecOn with
  | nil =>
    refine ⟨rfl, rfl, by simp [logHistory, Api.runAll, Screen.init, Screen.resize], by simp, ?_⟩
    intro x y hx _ hy
    exact init_cellAt width height cur fill x y hx hy
  | append_singleton ls s ih =>
    obtain ⟨i1, i2, i3, i4, i5⟩ := ih fun s hs => hls s (by simp [hs])
    obtain ⟨hnl, hne, hlen, hop⟩ := hls s (by simp)
    have hlog : logHistory tb force (ls ++ [s]) =
        logHistory tb force ls ++ [.write [s] (some (0, (ls.length : Int))) tb force] := by
      simp [logHistory, List.mapIdx_append]
    intro w
    have ew : w = (write env [s] (some (((0 : Nat) : Int), (ls.length : Int))) tb force
        (Api.runAll env { scr := Screen.init width height cur fill } (logHistory tb force ls))).1 := by
      simp only [w, hlog, Api.runAll, List.foldl_append]
      rfl
    have hs := runAll_shape env (logHistory tb force ls) { scr := Screen.init width height cur fill }
      (resize_shape _ _ _ _ _)
    have hfr := writeBulk_frame env [(some (((0 : Nat) : Int), (ls.length : Int)), [s])] tb force _ hs
    have hwid : w.scr.width = width := by rw [ew]; exact hfr.1.trans i1
    have hhei : w.scr.height = height := by rw [ew]; exact hfr.2.1.trans i2
    refine ⟨hwid, hhei, ?_⟩
    simp only [List.length_append, List.length_singleton]
    by_cases hfull : height ≤ ls.length
    · -- the screen is full
      obtain ⟨-, h2, h3, h4, -⟩ := C16_scroll_partial env width height cur fill
        (logHistory tb force ls) s hnl hne hop tb force 0 (ls.length : Int)
        (by rw [i1]; exact hw) (by rw [i2]; exact hh) (by rw [i2, i3]; omega)
      rw [i2] at h2 h3 h4
      rw [i1] at h3 h4
      rw [← ew] at h2 h3 h4
      refine ⟨by rw [h2]; omega, ?_, by intro x y _ _ _; omega⟩
      intro k sp j c hk hge hj
      by_cases hlast : k = ls.length
      · subst hlast
        have hsp : sp = s := by simpa using hk.symm
        subst hsp
        have hjl := (List.getElem?_eq_some_iff.mp hj).1
        have := h4 j c hj (by omega)
        rw [Nat.zero_add] at this
        rw [← this]
        congr 1
        omega
      · have hkl : k < ls.length := by
          have := (List.getElem?_eq_some_iff.mp hk).1
          simp at this; omega
        rw [List.getElem?_append_left hkl] at hk
        have hjl := (List.getElem?_eq_some_iff.mp hj).1
        have hlsp := (hls sp (by simp [List.mem_of_getElem? hk])).2.2.1
        have hold := i4 k sp j c hk (by omega) hj
        rw [h3 j (k - (ls.length + 1 - height)) (by omega) (by omega), ← hold]
        congr 1
        omega
    · -- there is room
      obtain ⟨-, h2, h3, h4⟩ := C16_window_partial env width height cur fill
        (logHistory tb force ls) s hnl hop tb force 0 (ls.length : Int)
        (by rw [i1]; exact hw) (by rw [i3]; omega) (by rw [i2, i3]; omega)
      have hoff : ((ls.length : Int) - (Api.runAll env { scr := Screen.init width height cur fill }
          (logHistory tb force ls)).scr.offset).toNat = ls.length := by rw [i3]; omega
      rw [i1, hoff] at h3 h4
      rw [i2] at h3
      rw [← ew] at h2 h3 h4
      have hrow : ls.length * width + width ≤ height * width := by
        have := Nat.mul_le_mul_right width (show ls.length + 1 ≤ height by omega)
        rwa [Nat.add_mul, Nat.one_mul] at this
      refine ⟨by rw [h2, i3]; omega, ?_, ?_⟩
      · intro k sp j c hk hge hj
        have hjl := (List.getElem?_eq_some_iff.mp hj).1
        have e0 : ls.length + 1 - height = 0 := by omega
        rw [e0, Nat.sub_zero]
        by_cases hlast : k = ls.length
        · subst hlast
          have hsp : sp = s := by simpa using hk.symm
          subst hsp
          obtain ⟨old, o1, o2⟩ := h3 j c hj (by omega)
          have hjw : j < width := by omega
          have e1 : (ls.length * width + 0 + j) % width = j := by
            rw [Nat.add_zero, Nat.mul_comm, Nat.mul_add_mod, Nat.mod_eq_of_lt hjw]
          have e2 : (ls.length * width + 0 + j) / width = ls.length := by
            rw [Nat.add_zero, Nat.mul_comm, Nat.mul_add_div hw, Nat.div_eq_of_lt hjw]; rfl
          rw [e1, e2] at o1 o2
          rw [i5 j ls.length hjw (le_refl _) (by omega)] at o1
          injection o1 with o1
          rw [o2, if_neg]
          obtain ⟨f, hf⟩ := storedCell_fg sp (styledChar sp j c)
          rw [← o1]
          simp [Cell.eq, hf, Span.optEq]
        · have hkl : k < ls.length := by
            have := (List.getElem?_eq_some_iff.mp hk).1
            simp at this; omega
          rw [List.getElem?_append_left hkl] at hk
          have hlsp := (hls sp (by simp [List.mem_of_getElem? hk])).2.2.1
          have hold := i4 k sp j c hk (by omega) hj
          rw [h4 j k (by omega) ?_, ← hold]
          · congr 1; omega
          · left
            have := Nat.mul_le_mul_right width (show k + 1 ≤ ls.length by omega)
            rw [Nat.add_mul, Nat.one_mul] at this
            omega
      · intro x y hx hy hyh
        rw [h4 x y hx ?_]
        · exact i5 x y hx (by omega) hyh
        · right
          have := Nat.mul_le_mul_right width (show ls.length + 1 ≤ y by omega)
          rw [Nat.add_mul, Nat.one_mul] at this
          omega

example : let w : World := { scr := Screen.init 2 2 }
    let l (c : Char) (y : Int) : Api := .write [{ text := [c] }] (some (0, y)) Color.black false
    let s := (Api.runAll {} w [l 'a' 0, l 'b' 1, l 'c' 2, l 'd' 3]).scr
    s.offset = 2 ∧ (cellAt s.cells 0 0).map (·.char) = some ['c'] ∧
    (cellAt s.cells 0 1).map (·.char) = some ['d'] := by decide +kernel

/-- **C16 violated** (several spans per line): on a 4x2 screen whose offset is 1, the line
"a", "b" at logical row 2 (screen row 1) puts "a" into row 1 and drops "b" into
row 0: the offset is subtracted once per span. -/
theorem C16_violated_spans :
    let w := Api.runAll {} { scr := Screen.init 4 2 }
      [.write [{ text := ['x'] }] (some (0, 2)) Color.black false]
    let s := (write {} [{ text := ['a'] }, { text := ['b'] }] (some (0, 2)) Color.black false w).1.scr
    w.scr.offset = 1 ∧ (cellAt s.cells 0 1).map (·.char) = some ['a'] ∧
    (cellAt s.cells 1 1).map (·.char) = some [] ∧ (cellAt s.cells 1 0).map (·.char) = some ['b'] := by
  decide +kernel

/-- **C16 violated** (jumps): "a" in logical row 0 of a 1x2 screen; a line at logical row
5 moves the offset to 4 but the rows by one only, so the row at the top of the
screen (logical row 4, never written) shows the blank of logical row 1, and if "b"
was in logical row 1, "b". -/
theorem C16_violated_jump :
    let w := Api.runAll {} { scr := Screen.init 1 2 }
      [.write [{ text := ['b'] }] (some (0, 1)) Color.black false,
       .write [{ text := ['c'] }] (some (0, 5)) Color.black false]
    w.scr.offset = 4 ∧ (cellAt w.scr.cells 0 0).map (·.char) = some ['b'] := by decide +kernel

/-! ## C17 After a clear the top-left cell is addressed by (0, 0) -/

/-- **C17** (partial: histories that did not scroll). After a clear, a character written
at (0, 0) is stored in the top left cell. -/
theorem C17_clear_origin_partial (env : Color.Env) (width height : Nat) (cur : Int × Int)
    (fill : Str) (ops : List Api) (c : Char) (hc : c ≠ '\n') (fill' : Str) (tb : Color) (force : Bool) :
    let w := Api.runAll env { scr := Screen.init width height cur fill } ops
    0 < w.scr.width → 0 < w.scr.height → w.scr.offset = 0 →
    cellAt (write env [{ text := [c] }] (some (0, 0)) tb force
      { w with scr := w.scr.clear fill' }).1.scr.cells 0 0 =
      some { char := [c], fg := some Color.white, bg := none } := by
  intro w hw hh ho
  have h := C16_window_partial env width height cur fill (ops ++ [.clear fill']) { text := [c] }
    (by simpa using hc.symm) (by simp) tb force 0 0
  have e : Api.runAll env { scr := Screen.init width height cur fill } (ops ++ [.clear fill']) =
      { w with scr := w.scr.clear fill' } := by
    rw [Api.runAll, List.foldl_append]; rfl
  simp only [e] at h
  have ho' : (w.scr.clear fill').offset = 0 := ho
  rw [ho'] at h
  obtain ⟨-, -, h3, -⟩ := h hw (le_refl _) (by
    show (0 : Int) < 0 + ((w.scr.clear fill').height : Int)
    have : (w.scr.clear fill').height = w.scr.height := rfl
    rw [this]; omega)
  have hpos : 0 < (w.scr.clear fill').height * (w.scr.clear fill').width := Nat.mul_pos hh hw
  obtain ⟨old, h4, h5⟩ := h3 0 c rfl (by simpa using hpos)
  simp only [Int.sub_zero, Int.toNat_zero, Nat.zero_mul, Nat.add_zero, Nat.zero_mod, Nat.zero_div] at h4 h5
  rw [clear_cellAt w.scr fill' 0 0 hw hh] at h4
  injection h4 with h4
  have hst : styledChar { text := [c] } 0 c = [c] := by
    simp [styledChar, wrapSgr_empty]
  rw [hst, ← h4, if_neg (by simp [Cell.eq, storedCell, Span.optEq])] at h5
  exact h5

/-- **C17 violated**, for every screen that has ever scrolled: after a clear, whatever is
written at (0, 0) is lost - nothing is stored, 0 is returned. -/
theorem C17_violated (env : Color.Env) (w : World)
    (hpos : 0 < w.scr.offset) (fill : Str)
    (spans : List Span) (tb : Color) (force : Bool) :
    let w1 : World := { w with scr := w.scr.clear fill }
    (write env spans (some (0, 0)) tb force w1).2 = .ok 0 ∧
    (write env spans (some (0, 0)) tb force w1).1.scr = w1.scr := by
  intro w1
  have key : ∀ (spans : List Span) (k : Nat) (y last : Int) (c : CharCache), y ≤ 0 →
      ∃ c' p', putSpans spans k { x := 0, y := y, last := last } Mats.blank
        { scr := w1.scr, cache := c } = (p', Mats.blank, { scr := w1.scr, cache := c' }, none) := by
    intro spans
    induction spans with
    | nil => intro k y last c _; exact ⟨c, _, rfl⟩
    | cons s rest ih =>
      intro k y last c hy
      have ho : w1.scr.offset = w.scr.offset := rfl
      unfold putSpans
      simp only
      rw [if_neg (by rw [ho]; omega)]
      have hput : ∀ l, putChars w1.scr.width w1.scr.height s l
          { x := 0, y := y - w1.scr.offset, last := last } Mats.blank =
          ({ x := 0, y := y - w1.scr.offset, last := last }, Mats.blank) := by
        intro l
        cases l with
        | nil => simp [putChars]
        | cons a l => unfold putChars; rw [if_pos (by simp only; omega)]
      rw [hput]
      exact ih _ _ _ _ (by omega)
  obtain ⟨c', p', hp⟩ := key spans 0 0 ((spans.length : Int) - 1) w1.cache (le_refl _)
  have hd : putData [(some (0, 0), spans)] Mats.blank w1 =
      (Mats.blank, { scr := w1.scr, cache := c' }, none) := by
    unfold putData
    rw [show w1 = { scr := w1.scr, cache := w1.cache } from rfl, hp]
    rfl
  have : write env spans (some (0, 0)) tb force w1 = ({ scr := w1.scr, cache := c' }, .ok 0) := by
    simp only [write, writeBulk, hd]
    rw [commit_id env tb Mats.blank w1.scr (resize_shape _ _ _ _ _) (fun p => by simp [outcome, Mats.blank])]
  rw [this]
  exact ⟨rfl, rfl⟩

/-- Such screens exist. -/
theorem C17_violated_example :
    let w := Api.runAll {} { scr := Screen.init 2 1 }
      [.write [{ text := ['a'] }] (some (0, 1)) Color.black false]
    let w1 : World := ({ w with scr := w.scr.clear })
    0 < w.scr.offset ∧
    cellAt (write {} [{ text := ['b'] }] (some (0, 0)) Color.black false w1).1.scr.cells 0 0 =
      some { char := [' '] } := by decide +kernel

-- a history meeting the hypotheses of the partial theorems
example : let w := (Api.runAll {} { scr := Screen.init 3 2 }
      [.write [{ text := "ab".toList }] (some (2, 0)) Color.black false, .clear [' ']])
    0 < w.scr.width ∧ 0 < w.scr.height ∧ w.scr.offset = 0 := by decide +kernel

end Slate
