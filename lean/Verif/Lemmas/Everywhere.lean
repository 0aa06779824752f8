import Verif.Lemmas.Write
import Verif.Spec.Api

/-!
What holds of every string and colour that is put into a screen holds of everything it keeps and sends, if the operations of the
screen on strings and colours preserve it. Unlike `Lemmas/Sync.lean`, this covers scrolling, exceptions and all calls.
-/

namespace Slate
open Py Term

/-- Properties of strings (`T`), of foregrounds (`F`), backgrounds (`B`) and terminal backgrounds (`G`) which the operations of a screen
preserve. -/
structure Closed (env : Color.Env) (T : Str → Prop) (F B G : Color → Prop) : Prop where
  nil : T []
  strip : ∀ s, T s → T (rstrip (· == '\n') s)
  feed : ∀ s, T s → T (s ++ ['\n'])
  change : ∀ cell n, T cell.char → (∀ c, cell.fg = some c → F c) → (∀ c, cell.bg = some c → B c) → T (changeStr env cell n)
  white : F Color.white
  sub : ∀ a b, F a → a.alpha ≠ 1 → B b → b.alpha = 1 → F b
  mixF : ∀ a b t, F a → B b → t = 0 ∨ t = fl (1 / 10) → F (a.blend b (min (fl (b.alpha + t)) 1))
  mixB : ∀ a b t, B a → B b → t = 0 ∨ t = fl (1 / 10) → B (a.blend b (min (fl (b.alpha + t)) 1))
  mixG : ∀ a b t, G a → B b → t = 0 ∨ t = fl (1 / 10) → B (a.blend b (min (fl (b.alpha + t)) 1))

/-- The spans whose cells and colours have the properties. -/
structure SpanIn (T : Str → Prop) (F B : Color → Prop) (s : Span) : Prop where
  chars : ∀ t ∈ s.cellChars, T t
  fg : ∀ c, s.fg = some c → F c
  bg : ∀ c, s.bg = some c → B c

/-- A cell with the properties. -/
structure CellIn (T : Str → Prop) (F B : Color → Prop) (c : Cell) : Prop where
  char : T c.char
  fg : ∀ d, c.fg = some d → F d
  bg : ∀ d, c.bg = some d → B d

/-- Everything in a screen has the properties. -/
structure ScreenIn (T : Str → Prop) (F B : Color → Prop) (s : Screen) : Prop where
  cells : ∀ row ∈ s.cells, ∀ c ∈ row, CellIn T F B c
  changes : ∀ e ∈ s.changes, T e.2

/-- The cached lists of good spans are good. -/
def CacheIn (T : Str → Prop) (F B : Color → Prop) (cache : CharCache) : Prop :=
  ∀ e ∈ cache, SpanIn T F B e.1 → ∀ t ∈ e.2, T t

/-- Everything in the matrices has the properties. -/
structure MatsIn (T : Str → Prop) (F B : Color → Prop) (m : Mats) : Prop where
  char : ∀ x y c, m.wm x y = some c → T c.char
  fg : ∀ x y c f, m.wm x y = some c → c.fg = some f → F f
  bg : ∀ x y c f, m.wm x y = some c → c.bg = some f → B f
  am : ∀ x y c, c ∈ m.am x y → B c ∧ c.alpha ≠ 1

variable {env : Color.Env} {T : Str → Prop} {F B G : Color → Prop}

theorem MatsIn.blank : MatsIn T F B Mats.blank :=
  ⟨by simp [Mats.blank], by simp [Mats.blank], by simp [Mats.blank], by simp [Mats.blank]⟩

theorem MatsIn.setWm {m : Mats} (h : MatsIn T F B m) (x y : Nat) (c : WCell) (hc : T c.char)
    (hf : ∀ f, c.fg = some f → F f) (hb : ∀ f, c.bg = some f → B f) : MatsIn T F B { m with wm := upd m.wm x y (some c) } where
  char x' y' d hd := by
    simp only [upd] at hd
    split at hd
    · injection hd with e; subst e; exact hc
    · exact h.char _ _ _ hd
  fg x' y' d f hd hf' := by
    simp only [upd] at hd
    split at hd
    · injection hd with e; subst e; exact hf f hf'
    · exact h.fg _ _ _ _ hd hf'
  bg x' y' d f hd hf' := by
    simp only [upd] at hd
    split at hd
    · injection hd with e; subst e; exact hb f hf'
    · exact h.bg _ _ _ _ hd hf'
  am := h.am

theorem MatsIn.setAm {m : Mats} (h : MatsIn T F B m) (x y : Nat) (l : List Color) (hl : ∀ c ∈ l, B c ∧ c.alpha ≠ 1) :
    MatsIn T F B { m with am := upd m.am x y l } where
  char := h.char
  fg := h.fg
  bg := h.bg
  am x' y' c hc := by
    simp only [upd] at hc
    split at hc
    · exact hl c hc
    · exact h.am _ _ _ hc

theorem MatsIn.putCell {m : Mats} (h : MatsIn T F B m) {s : Span} (hs : SpanIn T F B s) {ch : Str} (hc : T ch) (x y : Nat) :
    MatsIn T F B (putCell m s ch x y) := by
  unfold Slate.putCell
  split
  · rename_i old hold
    split
    · rename_i halpha
      simp only
      have h1 := h.setWm x y
        { char := if isEmptyChar ch s.style then old.char else ch
          fg := if isEmptyChar ch s.style then old.fg else s.fg
          bg := old.bg
          bleed := decide (ch ≠ if isEmptyChar ch s.style then old.char else ch) }
        (by simp only; split
            · exact h.char _ _ _ hold
            · exact hc)
        (by simp only; intro f; split
            · exact h.fg _ _ _ _ hold
            · exact hs.fg f)
        (by simp only; intro f; exact h.bg _ _ _ _ hold)
      refine h1.setAm x y (m.am x y ++ s.bg.toList) ?_
      intro c hc
      rcases List.mem_append.mp hc with hc | hc
      · exact h.am _ _ _ hc
      · have hc' : s.bg = some c := by simpa using hc
        exact ⟨hs.bg c hc', by simpa [bgHasAlpha, hc'] using halpha⟩
    · exact h.setWm x y _ hc hs.fg hs.bg
  · exact h.setWm x y _ hc hs.fg hs.bg

theorem MatsIn.putChars (w h : Nat) {s : Span} (hs : SpanIn T F B s) : ∀ (l : List Str) (p : Pen) (m : Mats), (∀ t ∈ l, T t) →
    MatsIn T F B m → MatsIn T F B (putChars w h s l p m).2
  | [], _, _, _, hm => hm
  | c :: l, p, m, hl, hm => by
    unfold Slate.putChars
    split
    · exact hm
    · split
      · exact MatsIn.putChars w h hs l _ _ (fun t ht => hl t (by simp [ht])) hm
      · exact MatsIn.putChars w h hs l _ _ (fun t ht => hl t (by simp [ht])) (hm.putCell hs (hl c (by simp)) _ _)

theorem CacheIn.get {cache : CharCache} (h : CacheIn T F B cache) (s : Span) :
    (SpanIn T F B s → ∀ t ∈ (cache.get s).1, T t) ∧ CacheIn T F B (cache.get s).2 := by
  unfold CharCache.get
  cases hl : cache.lookup s with
  | none =>
    refine ⟨fun hs => hs.chars, ?_⟩
    intro e he
    rcases List.mem_cons.mp (List.mem_of_mem_take he) with rfl | hm
    · exact fun hs => hs.chars
    · exact h e hm
  | some l =>
    have hm := mem_of_lookup hl
    refine ⟨h _ hm, ?_⟩
    intro e he
    rcases List.mem_cons.mp he with rfl | hm'
    · exact h _ hm
    · exact h e (List.mem_of_mem_filter hm')

theorem CacheIn.assign {cache : CharCache} (h : CacheIn T F B cache) (s : Span) (l : List Str) (hl : ∀ t ∈ l, T t) :
    CacheIn T F B (cache.assign s l) := by
  intro e he
  unfold CharCache.assign at he
  obtain ⟨d, hd, rfl⟩ := List.mem_map.mp he
  split
  · exact fun _ => hl
  · exact h d hd

theorem mem_appendNewline (hT : ∀ s, T s → T (s ++ ['\n'])) {l : List Str} (hl : ∀ t ∈ l, T t) : ∀ t ∈ appendNewline l, T t := by
  intro t ht
  unfold appendNewline at ht
  split at ht
  · rename_i c hc
    rcases List.mem_append.mp ht with ht | ht
    · exact hl t (List.dropLast_subset l ht)
    · rw [List.mem_singleton.mp ht]
      exact hT c (hl c (List.mem_of_getLast? hc))
  · simp at ht

theorem putSpans_in (hC : Closed env T F B G) : ∀ (spans : List Span) (i : Nat) (p : Pen) (m : Mats) (w : World),
    (∀ s ∈ spans, SpanIn T F B s) → MatsIn T F B m → ScreenIn T F B w.scr → CacheIn T F B w.cache →
    MatsIn T F B (putSpans spans i p m w).2.1 ∧ ScreenIn T F B (putSpans spans i p m w).2.2.1.scr ∧
      CacheIn T F B (putSpans spans i p m w).2.2.1.cache
  | [], _, _, _, _, _, hm, hs, hc => ⟨hm, hs, hc⟩
  | span :: rest, i, p, m, w, hsp, hm, hs, hc => by
    have hsp0 := hsp span (by simp)
    obtain ⟨g1, g2⟩ := hc.get span
    have hrest : ∀ s ∈ rest, SpanIn T F B s := fun s h => hsp s (by simp [h])
    unfold putSpans
    simp only
    split
    · split
      · exact ⟨hm, ⟨hs.cells, hs.changes⟩, g2⟩
      · have hl := mem_appendNewline hC.feed (g1 hsp0)
        split
        · exact ⟨hm, ⟨hs.cells, hs.changes⟩, g2.assign _ _ hl⟩
        · rename_i r rows hcells
          refine putSpans_in hC rest _ _ _ _ hrest (hm.putChars _ _ hsp0 _ _ _ hl) ⟨?_, hs.changes⟩ (g2.assign _ _ hl)
          intro row hrow c hcr
          rcases List.mem_append.mp hrow with h1 | h1
          · refine hs.cells row ?_ c hcr
            rw [hcells]
            simp [h1]
          · rw [List.mem_singleton.mp h1] at hcr
            rw [List.eq_of_mem_replicate hcr]
            exact ⟨hC.nil, by simp, by simp⟩
    · exact putSpans_in hC rest _ _ _ _ hrest (hm.putChars _ _ hsp0 _ _ _ (g1 hsp0)) hs g2

theorem putData_in (hC : Closed env T F B G) : ∀ (data : List Entry) (m : Mats) (w : World),
    (∀ e ∈ data, ∀ s ∈ e.2, SpanIn T F B s) → MatsIn T F B m → ScreenIn T F B w.scr → CacheIn T F B w.cache →
    MatsIn T F B (putData data m w).1 ∧ ScreenIn T F B (putData data m w).2.1.scr ∧ CacheIn T F B (putData data m w).2.1.cache
  | [], _, _, _, hm, hs, hc => ⟨hm, hs, hc⟩
  | (none, _) :: _, _, _, _, hm, hs, hc => ⟨hm, hs, hc⟩
  | (some (x, y), line) :: rest, m, w, hd, hm, hs, hc => by
    have key := putSpans_in hC line 0 { x := x, y := y, last := (line.length : Int) - 1 } m w (hd (some (x, y), line) (by simp)) hm hs hc
    unfold putData
    split
    · rename_i m' w' e he
      rw [he] at key
      exact key
    · rename_i m' w' he
      rw [he] at key
      exact putData_in hC rest m' w' (fun e h => hd e (by simp [h])) key.1 key.2.1 key.2.2

/-! ### Colours -/

theorem getBlended_in {P Q R : Color → Prop} {a b : Option Color} {t : Rat} (hP : ∀ c, P c → R c) (hQ : ∀ c, Q c → R c)
    (hm : ∀ a b, P a → Q b → R (a.blend b (min (fl (b.alpha + t)) 1))) (ha : ∀ c, a = some c → P c)
    (hb : ∀ c, b = some c → Q c) : ∀ c, getBlended a b t = some c → R c := by
  intro c hc
  unfold getBlended at hc
  split at hc
  · simp at hc
  · exact hP c (ha c hc)
  · exact hQ c (hb c hc)
  · rename_i x y
    split at hc
    · exact hQ c (hb c hc)
    · injection hc with e
      rw [← e]
      exact hm x y (ha x rfl) (hb y rfl)

theorem fg_blended_in (hC : Closed env T F B G) {f : Color} (hF : F f) (ha : f.alpha ≠ 1) {bg : Option Color}
    (hbg : ∀ d, bg = some d → B d) : ∀ d, getBlended (some f) bg 0 = some d → F d := by
  intro d hd
  unfold getBlended at hd
  cases bg with
  | none =>
    simp only [Option.some.injEq] at hd
    exact hd ▸ hF
  | some b =>
    simp only at hd
    split at hd
    · rename_i hb1
      injection hd with e
      exact e ▸ hC.sub f b hF ha (hbg b rfl) hb1
    · injection hd with e
      exact e ▸ hC.mixF f b _ hF (hbg b rfl) (.inl rfl)

theorem blend_fold_in (hC : Closed env T F B G) (bleed : Bool) (stack : List Color) (s : Blend)
    (hst : ∀ c ∈ stack, B c ∧ c.alpha ≠ 1) (hf : ∃ f, s.fg = some f ∧ F f) (hb : ∀ c, s.blent = some c → B c) :
    (∃ f, (stack.foldl (blendStep bleed) s).fg = some f ∧ F f) ∧
    (∀ c, (stack.foldl (blendStep bleed) s).blent = some c → B c) := by
  induction stack generalizing s with
  | nil => exact ⟨hf, hb⟩
  | cons c t ih =>
    obtain ⟨hcB, hcA⟩ := hst c (by simp)
    have hc : ∀ d, some c = some d → B d := by
      intro d hd; injection hd with e; subst e; exact hcB
    have h1 : ∀ d, getBlended s.blent (some c) (fl (1 / 10)) = some d → B d :=
      getBlended_in (fun _ h => h) (fun _ h => h) (fun a b ha hb => hC.mixB a b _ ha hb (.inr rfl)) hb hc
    have h3 : ∃ f, (if bleed then getBlended s.fg (some c) (fl (1 / 10)) else s.fg) = some f ∧ F f := by
      split
      · obtain ⟨f, hf, hF⟩ := hf
        rw [hf]
        simp only [getBlended, if_neg hcA]
        exact ⟨_, rfl, hC.mixF f c _ hF hcB (.inr rfl)⟩
      · exact hf
    have key : (∃ f, (blendStep bleed s c).fg = some f ∧ F f) ∧ (∀ d, (blendStep bleed s c).blent = some d → B d) := by
      unfold blendStep
      split
      · split
        · exact ⟨hf, hb⟩
        · exact ⟨h3, h1⟩
      · exact ⟨h3, h1⟩
    exact ih _ (fun d hd => hst d (by simp [hd])) key.1 key.2

theorem resolve_in (hC : Closed env T F B G) (tb : Color) (htb : G tb) (stack : List Color) (c : WCell)
    (hst : ∀ c ∈ stack, B c ∧ c.alpha ≠ 1) (hf : ∀ f, c.fg = some f → F f) (hb : ∀ f, c.bg = some f → B f) :
    (∀ d, (resolveColors tb stack c).1 = some d → F d) ∧ (∀ d, (resolveColors tb stack c).2 = some d → B d) := by
  have h := blend_fold_in hC c.bleed stack
    { blent := c.bg, fg := some (c.fg.getD Color.white), last := c.bg } hst
    ⟨_, rfl, by
      cases hcf : c.fg with
      | none => exact hC.white
      | some f => exact hf f hcf⟩ hb
  have hbg : ∀ d, (resolveColors tb stack c).2 = some d → B d := by
    unfold resolveColors
    simp only
    intro d
    split
    · rename_i b hbl
      split
      · rename_i ha
        intro hd
        unfold getBlended at hd
        simp only at hd
        rw [if_neg ha] at hd
        injection hd with e
        rw [← e]
        exact hC.mixG tb b _ htb (h.2 b hbl) (.inr rfl)
      · intro hd; exact h.2 d (hbl.trans hd)
    · simp
  refine ⟨?_, hbg⟩
  obtain ⟨⟨f, hfl, hF⟩, -⟩ := h
  revert hbg
  unfold resolveColors
  simp only
  rw [hfl]
  simp only
  intro hbg d
  split
  · rename_i ha
    exact fg_blended_in hC hF ha hbg d
  · intro hd
    injection hd with e
    exact e ▸ hF

/-! ### The commit loop -/

theorem mem_insert_change {k : Nat × Nat} {v : Str} : ∀ {ch : Changes} {e : (Nat × Nat) × Str}, e ∈ ch.insert k v → e.2 = v ∨ e ∈ ch
  | [], e, h => by
    rw [Changes.insert, List.mem_singleton] at h
    exact .inl (by rw [h])
  | (k', v') :: rest, e, h => by
    unfold Changes.insert at h
    split at h
    · rcases List.mem_cons.mp h with rfl | h
      · exact .inl rfl
      · exact .inr (by simp [h])
    · rcases List.mem_cons.mp h with rfl | h
      · exact .inr (by simp)
      · rcases mem_insert_change h with h | h
        · exact .inl h
        · exact .inr (by simp [h])

theorem mem_setCell {cells : List (List Cell)} {x y : Nat} {c : Cell} {row : List Cell} (h : row ∈ setCell cells x y c) :
    ∀ d ∈ row, d = c ∨ ∃ r ∈ cells, d ∈ r := by
  intro d hd
  unfold setCell at h
  obtain ⟨k, hk⟩ := List.mem_iff_getElem?.mp h
  rw [List.getElem?_modify] at hk
  obtain ⟨r, hr, hk⟩ := Option.map_eq_some_iff.mp hk
  have hr' := List.mem_of_getElem? hr
  split at hk
  · rw [← hk] at hd
    rcases List.mem_or_eq_of_mem_set hd with h | h
    · exact .inr ⟨r, hr', h⟩
    · exact .inl h
  · rw [← hk] at hd
    exact .inr ⟨r, hr', hd⟩

theorem commitCell_in (hC : Closed env T F B G) (tb : Color) (htb : G tb) {m : Mats} (hm : MatsIn T F B m) (acc : Screen × Except PyErr Nat)
    (pos : Nat × Nat) (hs : ScreenIn T F B acc.1) : ScreenIn T F B (commitCell env tb m acc pos).1 := by
  obtain ⟨x, y⟩ := pos
  obtain ⟨s, r⟩ := acc
  cases r with
  | error e => exact hs
  | ok n =>
    unfold commitCell
    simp only
    split
    · exact hs
    · rename_i c hc
      split
      · exact hs
      · split
        · exact hs
        · obtain ⟨q1, q2⟩ := resolve_in hC tb htb (m.am x y) c (hm.am x y) (fun f => hm.fg x y c f hc) (fun f => hm.bg x y c f hc)
          have ht : T (resolveCell tb (m.am x y) c).char := hC.strip _ (hm.char x y c hc)
          refine ⟨?_, ?_⟩
          · intro row hrow d hd
            rcases mem_setCell hrow d hd with rfl | ⟨r, hr, hd⟩
            · exact ⟨ht, q1, q2⟩
            · exact hs.cells r hr d hd
          · intro e he
            rcases mem_insert_change he with h | h
            · rw [h]
              exact hC.change _ _ ht q1 q2
            · exact hs.changes e h

theorem commit_in (hC : Closed env T F B G) (tb : Color) (htb : G tb) {m : Mats} (hm : MatsIn T F B m) (s : Screen) (hs : ScreenIn T F B s) :
    ScreenIn T F B (commit env tb m s).1 := by
  unfold commit
  generalize positions s.width s.height = l
  generalize (Except.ok 0 : Except PyErr Nat) = r
  induction l generalizing s r with
  | nil => exact hs
  | cons p l ih =>
    rw [List.foldl_cons]
    exact ih _ (commitCell_in hC tb htb hm (s, r) p hs) _

/-! ### Calls -/

/-- Everything in the world has the properties. -/
structure WorldIn (T : Str → Prop) (F B : Color → Prop) (w : World) : Prop where
  scr : ScreenIn T F B w.scr
  cache : CacheIn T F B w.cache

theorem writeBulk_in (hC : Closed env T F B G) (data : List Entry) (tb : Color) (htb : G tb) (force : Bool) (w : World)
    (hd : ∀ e ∈ data, ∀ s ∈ e.2, SpanIn T F B s) (hw : WorldIn T F B w) : WorldIn T F B (writeBulk env data tb force w).1 := by
  have key := putData_in hC data Mats.blank w hd .blank hw.scr hw.cache
  unfold writeBulk
  split
  · rename_i m w' e he
    rw [he] at key
    exact ⟨key.2.1, key.2.2⟩
  · rename_i m w' he
    rw [he] at key
    exact ⟨commit_in hC tb htb key.1 _ key.2.1, key.2.2⟩

theorem resize_in (s : Screen) (size : Nat × Nat) (fill : Str) (keep : Bool) (hf : T fill) (hs : ScreenIn T F B s) :
    ScreenIn T F B (s.resize size fill keep) := by
  obtain ⟨a, b⟩ := size
  unfold Screen.resize
  simp only
  refine ⟨?_, ?_⟩
  · intro row hrow c hc
    obtain ⟨y, -, rfl⟩ := List.mem_map.mp hrow
    obtain ⟨x, -, rfl⟩ := List.mem_map.mp hc
    split
    · cases h : cellAt s.cells x y with
      | none => exact ⟨hf, by simp, by simp⟩
      | some d =>
        unfold cellAt at h
        split at h
        · rename_i r hr
          exact hs.cells r (List.mem_of_getElem? hr) d (List.mem_of_getElem? h)
        · simp at h
    · exact ⟨hf, by simp, by simp⟩
  · have : ∀ (l : List (Nat × Nat)) (ch : Changes), (∀ e ∈ ch, T e.2) →
        ∀ e ∈ l.foldl (fun ch p => ch.insert p fill) ch, T e.2 := by
      intro l
      induction l with
      | nil => exact fun ch h => h
      | cons p l ih =>
        intro ch h
        refine ih _ fun e he => ?_
        rcases mem_insert_change he with h' | h'
        · rw [h']; exact hf
        · exact h e h'
    exact this _ _ hs.changes

theorem run_in (hC : Closed env T F B G) (op : Api) (w : World) (hu : op.Uses (SpanIn T F B) G) (hf : op.Fills T)
    (hw : WorldIn T F B w) : WorldIn T F B (op.run env w) := by
  cases op with
  | write spans cursor tb force =>
    refine writeBulk_in hC _ tb hu.2 force w ?_ hw
    intro e he
    rw [List.mem_singleton.mp he]
    exact hu.1
  | writeBulk data tb force => exact writeBulk_in hC _ tb hu.2 force w hu.1 hw
  | clear fill =>
    have h := resize_in w.scr (w.scr.width, w.scr.height) fill false hf hw.scr
    exact ⟨⟨h.cells, h.changes⟩, hw.cache⟩
  | resize a b fill keep => exact ⟨resize_in w.scr (a, b) fill keep hf hw.scr, hw.cache⟩
  | render origin redraw =>
    refine ⟨⟨?_, ?_⟩, hw.cache⟩ <;> (simp only [Api.run, Screen.render]; split)
    · exact hw.scr.cells
    · exact hw.scr.cells
    · simp
    · simp
  | getCharacters s => exact ⟨hw.scr, (hw.cache.get s).2⟩

/-- All histories. -/
theorem runAll_in (hC : Closed env T F B G) (ops : List Api) (w : World) (hu : ∀ op ∈ ops, op.Uses (SpanIn T F B) G)
    (hf : ∀ op ∈ ops, op.Fills T) (hw : WorldIn T F B w) : WorldIn T F B (Api.runAll env w ops) := by
  unfold Api.runAll
  induction ops generalizing w with
  | nil => exact hw
  | cons op ops ih =>
    rw [List.foldl_cons]
    exact ih _ (fun o h => hu o (by simp [h])) (fun o h => hf o (by simp [h])) (run_in hC op w (hu op (by simp)) (hf op (by simp)) hw)

theorem init_in (w h : Nat) (cursor : Int × Int) (fill : Str) (hf : T fill) : ScreenIn T F B (Screen.init w h cursor fill) :=
  resize_in _ _ _ _ hf ⟨by simp, by simp⟩

end Slate
