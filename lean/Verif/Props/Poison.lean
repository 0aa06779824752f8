import Verif.Props.Shape

/-!
# What scrolling does to the cache of `Span.get_characters` (C18)

`C18_get_characters_partial` covers the histories that do not scroll. Here are all histories: which lists `get_characters` can return,
for which spans they are still right, and when exactly a line break is added.
-/

namespace Slate
open Py

/-- The list with `k` line breaks at the end of its last string. -/
def lengthened (l : List Str) (k : Nat) : List Str :=
  l.dropLast ++ l.getLast?.toList.map (· ++ List.replicate k '\n')

/-- How often a call is given the span. -/
def Api.occurrences (s : Span) : Api → Nat
  | .write spans _ _ _ => spans.count s
  | .writeBulk data _ _ => (data.map fun e => e.2.count s).sum
  | _ => 0

theorem lengthened_zero (l : List Str) : lengthened l 0 = l := by
  rcases List.eq_nil_or_concat l with rfl | ⟨l', a, rfl⟩
  · rfl
  · simp [lengthened]

theorem appendNewline_lengthened (l : List Str) (k : Nat) : appendNewline (lengthened l k) = lengthened l (k + 1) := by
  rcases List.eq_nil_or_concat l with rfl | ⟨l', a, rfl⟩
  · rfl
  · simp [lengthened, appendNewline, List.replicate_succ']

/-- Every list of the cache is right up to a bounded number of line breaks. -/
def CacheWithin (cache : CharCache) (B : Span → Nat) : Prop := ∀ e ∈ cache, ∃ k ≤ B e.1, e.2 = lengthened e.1.cellChars k

theorem CacheWithin.mono {cache : CharCache} {B C : Span → Nat} (h : CacheWithin cache B) (hBC : ∀ s, B s ≤ C s) : CacheWithin cache C :=
  fun e he => let ⟨k, hk, hl⟩ := h e he; ⟨k, le_trans hk (hBC _), hl⟩

theorem CacheWithin.get {cache : CharCache} {B : Span → Nat} (h : CacheWithin cache B) (s : Span) :
    (∃ k ≤ B s, (cache.get s).1 = lengthened s.cellChars k) ∧ CacheWithin (cache.get s).2 B := by
  unfold CharCache.get
  cases hl : cache.lookup s with
  | none =>
    refine ⟨⟨0, Nat.zero_le _, (lengthened_zero _).symm⟩, fun e he => ?_⟩
    rcases List.mem_cons.mp (List.mem_of_mem_take he) with rfl | hm
    · exact ⟨0, Nat.zero_le _, (lengthened_zero _).symm⟩
    · exact h e hm
  | some l =>
    have hm := h _ (mem_of_lookup hl)
    refine ⟨hm, fun e he => ?_⟩
    rcases List.mem_cons.mp he with rfl | hm'
    · exact hm
    · exact h e (List.mem_of_mem_filter hm')

theorem CacheWithin.assign {cache : CharCache} {B : Span → Nat} (h : CacheWithin cache B) {s : Span} {l : List Str}
    (hl : ∃ k ≤ B s, l = lengthened s.cellChars k) : CacheWithin (cache.assign s l) B := by
  intro e he
  obtain ⟨f, hf, rfl⟩ := List.mem_map.mp he
  split_ifs
  · exact hl
  · exact h f hf

theorem putSpans_within (spans : List Span) : ∀ (i : Nat) (p : Pen) (m : Mats) (w : World) (B : Span → Nat), CacheWithin w.cache B →
    CacheWithin (putSpans spans i p m w).2.2.1.cache fun s => B s + spans.count s := by
  induction spans with
  | nil => intro i p m w B h; simpa [putSpans] using h
  | cons s rest ih =>
    intro i p m w B h
    obtain ⟨⟨k, hk, hl⟩, h2⟩ := h.get s
    have hle : ∀ t, B t ≤ B t + (s :: rest).count t := fun t => Nat.le_add_right _ _
    have hC : ∀ t, (B t + if s = t then 1 else 0) + rest.count t = B t + (s :: rest).count t := by
      intro t
      rw [List.count_cons]
      by_cases e : s = t
      · simp [e]; omega
      · simp [e]
    have h3 : CacheWithin ((w.cache.get s).2.assign s (appendNewline (w.cache.get s).1)) fun t => B t + if s = t then 1 else 0 := by
      refine (h2.mono fun t => Nat.le_add_right _ _).assign ⟨k + 1, by simpa using hk, ?_⟩
      rw [hl, appendNewline_lengthened]
    unfold putSpans
    simp only
    split_ifs with h1 h4
    · exact h2.mono hle
    · split
      · exact h3.mono fun t => by rw [← hC]; omega
      · exact (ih _ _ _ _ _ (by exact h3)).mono fun t => (hC t).le
    · exact (ih _ _ _ _ _ (by exact h2)).mono fun t => by rw [← hC]; omega

theorem putData_within (data : List Entry) : ∀ (m : Mats) (w : World) (B : Span → Nat), CacheWithin w.cache B →
    CacheWithin (putData data m w).2.1.cache fun s => B s + (data.map fun e => e.2.count s).sum := by
  induction data with
  | nil => intro m w B h; simpa [putData] using h
  | cons e rest ih =>
    intro m w B h
    obtain ⟨c, line⟩ := e
    cases c with
    | none => exact h.mono fun s => Nat.le_add_right _ _
    | some xy =>
      have h1 := putSpans_within line 0 { x := xy.1, y := xy.2, last := (line.length : Int) - 1 } m w B h
      unfold putData
      cases hr : putSpans line 0 { x := xy.1, y := xy.2, last := (line.length : Int) - 1 } m w with
      | mk p r => obtain ⟨m', w', o⟩ := r; rw [hr] at h1; cases o with
        | some err => exact h1.mono fun s => by simp
        | none => exact (ih m' w' _ h1).mono fun s => by simp; omega

theorem writeBulk_within (env : Color.Env) (data : List Entry) (tb : Color) (force : Bool) (w : World) (B : Span → Nat)
    (h : CacheWithin w.cache B) :
    CacheWithin (writeBulk env data tb force w).1.cache fun s => B s + (data.map fun e => e.2.count s).sum := by
  have h1 := putData_within data Mats.blank w B h
  unfold writeBulk
  cases hr : putData data Mats.blank w with
  | mk m r => obtain ⟨w', o⟩ := r; rw [hr] at h1; cases o with
    | some err => exact h1
    | none => exact h1

theorem runAll_within (env : Color.Env) (ops : List Api) : ∀ (w : World) (B : Span → Nat), CacheWithin w.cache B →
    CacheWithin (Api.runAll env w ops).cache fun s => B s + (ops.map (Api.occurrences s)).sum := by
  induction ops with
  | nil => intro w B h; simpa [Api.runAll] using h
  | cons op ops ih =>
    intro w B h
    have h1 : CacheWithin (op.run env w).cache fun s => B s + op.occurrences s := by
      cases op with
      | write spans cursor tb force =>
        exact (writeBulk_within env [(cursor, spans)] tb force w B h).mono fun s => by simp [Api.occurrences]
      | writeBulk data tb force => exact writeBulk_within env data tb force w B h
      | getCharacters s => exact (h.get s).2
      | clear fill => exact h
      | resize a b fill keep => exact h
      | render origin redraw => exact h
    exact (ih _ _ h1).mono fun s => by simp; omega

/-- **C18**, for all histories, with or without scrolling and with or without exceptions: the list that `get_characters` returns is right
except for line breaks at the end of its last string, and there are at most as many of them as the span was given to
write calls. In particular it is right for every span that was not written. -/
theorem C18_lengthened_partial (env : Color.Env) (width height : Nat) (cur : Int × Int) (fill : Str) (ops : List Api) (s : Span) :
    ∃ k ≤ (ops.map (Api.occurrences s)).sum,
      getCharacters (Api.runAll env { scr := Screen.init width height cur fill } ops) s = lengthened s.cellChars k := by
  have h := runAll_within env ops { scr := Screen.init width height cur fill } (fun _ => 0) (by simp [CacheWithin])
  obtain ⟨⟨k, hk, e⟩, -⟩ := h.get s
  exact ⟨k, by simpa using hk, e⟩

/-- C18 is violated by every span with text on every screen: writing it in a row below the window adds a line break to what `get_characters`
returns from then on. -/
theorem C18_scroll_violated (env : Color.Env) (w : World) (s : Span) (hs : getCharacters w s ≠ []) (tb : Color) (force : Bool) (x y : Int)
    (hy : w.scr.offset + w.scr.height ≤ y) :
    getCharacters (write env [s] (some (x, y)) tb force w).1 s = appendNewline (getCharacters w s) ∧
    getCharacters (write env [s] (some (x, y)) tb force w).1 s ≠ getCharacters w s := by
  have key : getCharacters (write env [s] (some (x, y)) tb force w).1 s = appendNewline (getCharacters w s) := by
    have hcache : (write env [s] (some (x, y)) tb force w).1.cache = (w.cache.get s).2.assign s (appendNewline (w.cache.get s).1) := by
      have hne : (w.cache.get s).1.isEmpty = false := by
        cases h : (w.cache.get s).1 with
        | nil => exact absurd h hs
        | cons a l => rfl
      have hc : ((0 : Nat) : Int) = ([s].length : Int) - 1 ∧ y - w.scr.offset > (w.scr.height : Int) - 1 := by
        refine ⟨by simp, by omega⟩
      unfold write writeBulk putData putSpans
      simp only [eq_true hc, if_true, hne]
      cases hcells : w.scr.cells with
      | nil => simp
      | cons r rows => simp [putSpans, putData]
    have hhead : ∃ l rest, (w.cache.get s).2 = (s, l) :: rest := by
      unfold CharCache.get
      split
      · exact ⟨_, _, rfl⟩
      · exact ⟨_, _, rfl⟩
    obtain ⟨l, rest, hl⟩ := hhead
    show (CharCache.get _ s).1 = _
    rw [hcache, hl]
    simp [CharCache.assign, CharCache.get, getCharacters]
  refine ⟨key, ?_⟩
  rw [key]
  intro h
  have := congrArg (fun l => (l.map List.length).sum) h
  rcases List.eq_nil_or_concat (getCharacters w s) with h0 | ⟨l, a, h0⟩
  · exact hs h0
  · rw [h0] at this; simp [appendNewline] at this

/-- A span written five times in a log on a screen of two rows has got three line breaks too many. -/
example :
    let s : Span := { text := ['o', 'k'], style := { bold := true } }
    let w := Api.runAll {} { scr := Screen.init 4 2 } ((List.range 5).map fun (k : Nat) => .write [s] (some (0, (k : Int))) Color.black false)
    ((List.range 5).map fun (k : Nat) => Api.occurrences s (.write [s] (some (0, (k : Int))) Color.black false)).sum = 5 ∧
    getCharacters w s = lengthened s.cellChars 3 ∧ getCharacters w { s with text := ['n', 'o'] } = Span.cellChars { s with text := ['n', 'o'] } := by
  decide +kernel

/-- The hypotheses of the violation hold on a fresh screen. -/
example : getCharacters { scr := Screen.init 3 1 } { text := ['a'] } ≠ [] := by decide +kernel

end Slate
