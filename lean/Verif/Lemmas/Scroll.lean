import Verif.Props.Shape

/-! Single lines on a scrolled screen. -/

namespace Slate
open Py Term

/-- `rstrip("\n")`. -/
abbrev stripNl (c : Str) : Str := rstrip (· == '\n') c

/-- Up to trailing newlines the cached lists are right (for spans without newlines). -/
def CacheRs (cache : CharCache) : Prop :=
  ∀ e ∈ cache, '\n' ∉ e.1.text → e.2.map stripNl = e.1.cellChars

theorem cellChars_strip {s : Span} (hnl : '\n' ∉ s.text) : s.cellChars.map stripNl = s.cellChars := by
  apply List.ext_getElem?
  intro j
  rw [List.getElem?_map, cellChars_getElem?]
  cases h : s.text[j]? with
  | none => rfl
  | some c => simp only [Option.map_some]; rw [stripNl, rstrip_styledChar hnl h]

theorem appendNewline_strip (l : List Str) : (appendNewline l).map stripNl = l.map stripNl := by
  unfold appendNewline
  rcases List.eq_nil_or_concat l with rfl | ⟨l', c, rfl⟩
  · rfl
  · simp [stripNl, rstrip]

theorem CacheRs.get {cache : CharCache} (h : CacheRs cache) (s : Span) :
    ('\n' ∉ s.text → (cache.get s).1.map stripNl = s.cellChars) ∧ CacheRs (cache.get s).2 := by
  unfold CharCache.get
  cases hl : cache.lookup s with
  | none =>
    refine ⟨cellChars_strip, ?_⟩
    intro e he
    rcases List.mem_cons.mp (List.mem_of_mem_take he) with rfl | hm
    · exact cellChars_strip
    · exact h e hm
  | some l =>
    have hm := mem_of_lookup hl
    refine ⟨h _ hm, ?_⟩
    intro e he
    rcases List.mem_cons.mp he with rfl | hm'
    · exact h _ hm
    · exact h e (List.mem_of_mem_filter hm')

theorem CacheRs.assign {cache : CharCache} (h : CacheRs cache) (s : Span) (l : List Str)
    (hl : '\n' ∉ s.text → l.map stripNl = s.cellChars) : CacheRs (cache.assign s l) := by
  intro e he
  obtain ⟨e', he', rfl⟩ := List.mem_map.mp he
  split
  · exact hl
  · exact h e' he'

theorem putSpans_cacheRs (spans : List Span) (i : Nat) (p : Pen) (m : Mats) (w : World)
    (h : CacheRs w.cache) : CacheRs (putSpans spans i p m w).2.2.1.cache := by
  induction spans generalizing i p m w with
  | nil => exact h
  | cons span rest ih =>
    obtain ⟨h1, h2⟩ := h.get span
    unfold putSpans
    simp only
    split
    · split
      · exact h2
      · have h3 := h2.assign span (appendNewline (w.cache.get span).1)
          (fun hn => by rw [appendNewline_strip]; exact h1 hn)
        split
        · exact h3
        · exact ih _ _ _ _ h3
    · exact ih _ _ _ _ h2

theorem putData_cacheRs (data : List Entry) (m : Mats) (w : World) (h : CacheRs w.cache) :
    CacheRs (putData data m w).2.1.cache := by
  induction data generalizing m w with
  | nil => exact h
  | cons e rest ih =>
    obtain ⟨c, line⟩ := e
    cases c with
    | none => exact h
    | some xy =>
      have h1 := putSpans_cacheRs line 0 { x := xy.1, y := xy.2, last := (line.length : Int) - 1 } m w h
      unfold putData
      revert h1
      rcases putSpans line 0 { x := xy.1, y := xy.2, last := (line.length : Int) - 1 } m w with
        ⟨p', m', w', e'⟩
      intro h1
      cases e' with
      | some e => exact h1
      | none => exact ih m' w' h1

theorem run_cacheRs (env : Color.Env) (w : World) (op : Api) (h : CacheRs w.cache) :
    CacheRs (op.run env w).cache := by
  have hwb : ∀ data tb force, CacheRs (writeBulk env data tb force w).1.cache := by
    intro data tb force
    have h1 := putData_cacheRs data Mats.blank w h
    unfold writeBulk
    revert h1
    rcases putData data Mats.blank w with ⟨m, w', e⟩
    intro h1
    cases e with
    | some e => exact h1
    | none => exact h1
  cases op with
  | write spans cursor tb force => exact hwb _ _ _
  | writeBulk data tb force => exact hwb _ _ _
  | clear fill => exact h
  | resize a b fill keep => exact h
  | render origin redraw => exact h
  | getCharacters s => exact (h.get s).2

theorem runAll_cacheRs (env : Color.Env) (ops : List Api) (w : World) (h : CacheRs w.cache) :
    CacheRs (Api.runAll env w ops).cache := by
  induction ops generalizing w with
  | nil => exact h
  | cons op ops ih => exact ih _ (run_cacheRs env w op h)

/-- What the commit of one span does. -/
theorem place_one {env : Color.Env} {tb : Color} {scr scr' : Screen} {m : Mats}
    (hwr : Wrote env tb m scr scr') (hs : Shape scr.width scr.height scr.cells)
    (s : Span) (hnl : '\n' ∉ s.text) (hop : ∀ b, s.bg = some b → b.alpha = 1)
    (chars : List Str) (hch : chars.map stripNl = s.cellChars) (x y : Nat) (hx : x < scr.width)
    (last : Int)
    (hm : m = (putChars scr.width scr.height s chars
      { x := (x : Int), y := (y : Int), last := last } Mats.blank).2) :
    (∀ j c, s.text[j]? = some c →
      let i := y * scr.width + x + j
      i < scr.height * scr.width →
      ∃ old, cellAt scr.cells (i % scr.width) (i / scr.width) = some old ∧
        cellAt scr'.cells (i % scr.width) (i / scr.width) =
          some (if (storedCell s (styledChar s j c)).eq old then old
            else storedCell s (styledChar s j c))) ∧
    (∀ x' y', x' < scr.width →
      (y' * scr.width + x' < y * scr.width + x ∨
        y * scr.width + x + s.text.length ≤ y' * scr.width + x') →
      cellAt scr'.cells x' y' = cellAt scr.cells x' y') := by
  have hw : 0 < scr.width := by omega
  have hmod : (y * scr.width + x) % scr.width = x := by
    rw [Nat.mul_comm, Nat.mul_add_mod, Nat.mod_eq_of_lt hx]
  have hdiv : (y * scr.width + x) / scr.width = y := by
    rw [Nat.mul_comm, Nat.mul_add_div hw, Nat.div_eq_of_lt hx]; rfl
  have hlen : chars.length = s.text.length := by
    rw [← length_cellChars, ← hch, List.length_map]
  have hget : ∀ (j : Nat) (c : Str), chars[j]? = some c → s.cellChars[j]? = some (stripNl c) := by
    intro j c h; rw [← hch, List.getElem?_map, h]; rfl
  have hne : ∀ c ∈ chars, c ≠ ['\n'] := by
    intro c hc e
    obtain ⟨j, hj⟩ := List.mem_iff_getElem?.mp hc
    have := hget j c hj
    rw [cellChars_getElem?] at this
    obtain ⟨ch, -, hst⟩ := Option.map_eq_some_iff.mp this
    rw [e, show stripNl ['\n'] = [] from rfl] at hst
    unfold styledChar at hst
    simp only at hst
    split at hst
    · simp at hst
    · split at hst
      · simp at hst
      · simp at hst
  have hm' : m = ((chars.take (scr.height * scr.width - (y * scr.width + x))).mapIdx
      fun k c => hitAt scr.width s (y * scr.width + x + k) c).foldl Hit.put Mats.blank := by
    rw [hm, putChars_hits]
    have := charHits_index hw scr.height s chars hne (y * scr.width + x)
    rw [hmod, hdiv] at this
    rw [this]
  have hmem : ∀ t ∈ (chars.take (scr.height * scr.width - (y * scr.width + x))).mapIdx
        (fun k c => hitAt scr.width s (y * scr.width + x + k) c),
      ∃ k c, chars[k]? = some c ∧ t = hitAt scr.width s (y * scr.width + x + k) c := by
    intro t ht
    obtain ⟨k, hk, rfl⟩ := List.mem_mapIdx.mp ht
    refine ⟨k, _, ?_, rfl⟩
    rw [List.getElem_take]
    simp only [List.length_take] at hk
    exact List.getElem?_eq_getElem (by omega)
  have hop' : ∀ t ∈ (chars.take (scr.height * scr.width - (y * scr.width + x))).mapIdx
        (fun k c => hitAt scr.width s (y * scr.width + x + k) c),
      ∀ b, t.span.bg = some b → b.alpha = 1 := by
    intro t ht
    obtain ⟨k, c, hk, rfl⟩ := hmem t ht
    exact hop
  constructor
  · intro j c hj i hi
    have hjl : j < chars.length := by rw [hlen]; exact (List.getElem?_eq_some_iff.mp hj).1
    obtain ⟨ch, hchj⟩ : ∃ ch, chars[j]? = some ch := ⟨_, List.getElem?_eq_getElem hjl⟩
    have hstrip : stripNl ch = styledChar s j c := by
      have := hget j ch hchj
      rw [cellChars_getElem?, hj] at this
      simpa using this.symm
    have hin : i / scr.width < scr.height := by
      rw [Nat.div_lt_iff_lt_mul hw]; exact hi
    obtain ⟨old, hold⟩ := hs.exists_cell (Nat.mod_lt i hw) hin
    refine ⟨old, hold, ?_⟩
    have hl : lastHit ((chars.take (scr.height * scr.width - (y * scr.width + x))).mapIdx
        fun k c => hitAt scr.width s (y * scr.width + x + k) c) (i % scr.width) (i / scr.width) =
        some (hitAt scr.width s i ch) := by
      apply lastHit_unique
      · rw [List.mem_mapIdx]
        refine ⟨j, by simp only [List.length_take]; omega, ?_⟩
        rw [List.getElem_take]
        have := (List.getElem?_eq_some_iff.mp hchj).2
        rw [this]
      · exact ⟨rfl, rfl⟩
      · intro t ht h1 h2
        obtain ⟨k, c', hk, rfl⟩ := hmem t ht
        simp only [hitAt] at h1 h2
        have e := index_inj h1 h2
        have hk' : k = j := by omega
        subst hk'
        rw [hk] at hchj
        injection hchj with hchj
        subst hchj
        rw [e]
    have := (wrote_opaque hwr hm' hop' (i % scr.width) (i / scr.width)).2 _ hl old hold
    rw [show rstrip (· == '\n') (hitAt scr.width s i ch).char = styledChar s j c from hstrip] at this
    exact this
  · intro x' y' hx' hout
    apply (wrote_opaque hwr hm' hop' x' y').1
    apply lastHit_none
    rintro t ht ⟨h1, h2⟩
    obtain ⟨k, c, hk, rfl⟩ := hmem t ht
    have hkl : k < s.text.length := by
      have := (List.getElem?_eq_some_iff.mp hk).1
      rwa [hlen] at this
    simp only [hitAt] at h1 h2
    have e : y * scr.width + x + k = y' * scr.width + x' := by
      rw [← Nat.div_add_mod (y * scr.width + x + k) scr.width, h1, h2, Nat.mul_comm]
    omega

theorem commit_wrote (env : Color.Env) (tb : Color) (m : Mats) (s : Screen)
    (hs : Shape s.width s.height s.cells) :
    ∃ n, (commit env tb m s).2 = .ok n ∧ Wrote env tb m s (commit env tb m s).1 := by
  obtain ⟨s', e, c1, c2, c3, c4, c5, c6, c7, c8⟩ := commit_spec env tb m s hs
  rw [e]
  exact ⟨_, rfl, c1, c2, c3, c4, c5, c6, c7, c8⟩

end Slate
