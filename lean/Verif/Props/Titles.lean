import Verif.Props.Blocks

/-!
# What the title is after any history (C62)
-/

namespace Slate
open Py Modes Tty

variable {m : Modes.State}

/-- What a history does to the title: the title shown, the titles stored by the terminal, and whether the application remembers
a title of its own. -/
structure Naming where
  title : Str
  stored : List Str
  named : Bool
  deriving DecidableEq

/-- The last title stored comes back, if there is one. -/
def Naming.back (n : Naming) : Naming :=
  match n.stored with
  | [] => n
  | t :: ts => { n with title := t, stored := ts }

/-- One call. -/
def Naming.step (n : Naming) : TitleOp → Naming
  | .start _ => n
  | .stop _ => n.back
  | .set none => { n.back with named := false }
  | .set (some t) => { title := t, stored := if n.named then n.stored else n.title :: n.stored, named := !t.isEmpty }

/-- The terminal and the application are in the state `n`. -/
def Named (m : Modes.State) (w : Console) (n : Naming) : Prop :=
  (screenOf m w).phase = .ground ∧ (screenOf m w).title = n.title ∧ (screenOf m w).stack = n.stored ∧ hasTitle w = n.named

theorem named_same {w : Console} {n : Naming} (t : Str) (h : Named m w n)
    (ht : ∀ on ti st, ∃ on', Modes.feed ⟨.ground, on, ti, st⟩ t = ⟨.ground, on', ti, st⟩) : Named m (writeControl t w) n := by
  obtain ⟨h1, h2, h3, h4⟩ := h
  have hsc := screenOf_write (m := m) w t
  have : (screenOf m (writeControl t w)).phase = .ground ∧
      (screenOf m (writeControl t w)).title = (screenOf m w).title ∧
      (screenOf m (writeControl t w)).stack = (screenOf m w).stack := by
    rw [hsc]
    exact ground_cases (P := fun s => (Modes.feed s t).phase = .ground ∧ (Modes.feed s t).title = s.title ∧
      (Modes.feed s t).stack = s.stack) (fun on ti st => by
        obtain ⟨on', h⟩ := ht on ti st
        rw [h]; exact ⟨rfl, rfl, rfl⟩) h1
  obtain ⟨p1, p2, p3⟩ := this
  exact ⟨p1, p2.trans h2, p3.trans h3, h4⟩

theorem named_back {w : Console} {n : Naming} (h : Named m w n) : Named m (writeControl restoreTitle w) n.back := by
  obtain ⟨h1, h2, h3, h4⟩ := h
  obtain ⟨r1, r2, r3⟩ := restore_title (m := m) h1
  rw [h3, h2] at r2
  rw [h3] at r3
  obtain ⟨title, stored, named⟩ := n
  cases stored with
  | nil => exact ⟨r1, r2, r3, h4⟩
  | cons t ts => exact ⟨r1, r2, r3, h4⟩

theorem named_set {w : Console} {n : Naming} {t : Str} (hc : CleanTitle t) (h : Named m w n) :
    Named m (setTitle w (some t)) (n.step (.set (some t))) := by
  have key : ∀ (u : Console) (st : List Str), (screenOf m u).phase = .ground → (screenOf m u).stack = st →
      Named m { writeControl (setTitleSeq t) u with custom := some t } { title := t, stored := st, named := !t.isEmpty } := by
    intro u st hu hst
    have hsc := screenOf_write (m := m) u (setTitleSeq t)
    have h2 : (screenOf m (writeControl (setTitleSeq t) u)).phase = .ground ∧
        (screenOf m (writeControl (setTitleSeq t) u)).title = t ∧ (screenOf m (writeControl (setTitleSeq t) u)).stack = st := by
      rw [hsc]
      exact ground_cases (P := fun s => s.stack = st → (Modes.feed s (setTitleSeq t)).phase = .ground ∧
        (Modes.feed s (setTitleSeq t)).title = t ∧ (Modes.feed s (setTitleSeq t)).stack = st) (fun on ti st h => by
          rw [Modes.feed_setTitle _ _ _ _ hc]; exact ⟨rfl, rfl, h⟩) hu hst
    refine ⟨h2.1, h2.2.1, h2.2.2, ?_⟩
    cases t <;> simp [hasTitle]
  obtain ⟨h1, h2, h3, h4⟩ := h
  cases hn : n.named with
  | true =>
    have : setTitle w (some t) = { writeControl (setTitleSeq t) w with custom := some t } := by
      simp [setTitle, h4, hn]
    rw [this]
    have := key w n.stored h1 h3
    simpa [Naming.step, hn] using this
  | false =>
    have : setTitle w (some t) = { writeControl (setTitleSeq t) (writeControl storeTitle w) with custom := some t } := by
      simp [setTitle, h4, hn]
    rw [this]
    have hsc := screenOf_write (m := m) w storeTitle
    have h5 : (screenOf m (writeControl storeTitle w)).phase = .ground ∧
        (screenOf m (writeControl storeTitle w)).stack = n.title :: n.stored := by
      rw [hsc]
      exact ground_cases (P := fun s => s.title = n.title → s.stack = n.stored →
        (Modes.feed s storeTitle).phase = .ground ∧ (Modes.feed s storeTitle).stack = n.title :: n.stored)
        (fun on ti st h h' => by
          rw [Modes.feed_storeTitle]
          cases h; cases h'
          exact ⟨rfl, rfl⟩) h1 h2 h3
    have := key _ _ h5.1 h5.2
    simpa [Naming.step, hn] using this

/-- **C62**, exactly: the title and the stored titles after any history of calls whose titles hold no control characters. -/
theorem C62_exact (m : Modes.State) (ops : List TitleOp) (w : Console) (hc : ∀ t, .set (some t) ∈ ops → CleanTitle t)
    (hg : (screenOf m w).phase = .ground) :
    let n := ops.foldl Naming.step { title := (screenOf m w).title, stored := (screenOf m w).stack, named := hasTitle w }
    (screenOf m (runTitles w ops)).title = n.title ∧ (screenOf m (runTitles w ops)).stack = n.stored := by
  have key : ∀ (ops : List TitleOp) (w : Console) (n : Naming), (∀ t, .set (some t) ∈ ops → CleanTitle t) → Named m w n →
      Named m (runTitles w ops) (ops.foldl Naming.step n) := by
    intro ops
    induction ops with
    | nil => exact fun w n _ h => h
    | cons op ops ih =>
      intro w n hc h
      refine ih _ _ (fun t ht => hc t (List.mem_cons_of_mem _ ht)) ?_
      cases op with
      | set new =>
        cases new with
        | none =>
          obtain ⟨h1, h2, h3, -⟩ := named_back h
          exact ⟨h1, h2, h3, rfl⟩
        | some t => exact named_set (hc t List.mem_cons_self) h
      | start hide =>
        have h1 := named_same startAlt h (fun on ti st => ⟨_, Modes.feed_startAlt on ti st⟩)
        cases hide with
        | false => exact h1
        | true => exact named_same hideCursor h1 (fun on ti st => ⟨_, Modes.feed_hideCursor on ti st⟩)
      | stop hide =>
        have h1 := named_back (named_same endAlt h (fun on ti st => ⟨_, Modes.feed_endAlt on ti st⟩))
        cases hide with
        | false => exact h1
        | true => exact named_same showCursor h1 (fun on ti st => ⟨_, Modes.feed_showCursor on ti st⟩)
  obtain ⟨-, h1, h2, -⟩ := key ops w { title := (screenOf m w).title, stored := (screenOf m w).stack, named := hasTitle w } hc
    ⟨hg, rfl, rfl, rfl⟩
  exact ⟨h1, h2⟩

/-- The titles set in a session, and the session. -/
def session (hide : Bool) (titles : List Str) : List TitleOp :=
  .start hide :: titles.map (fun t => .set (some t)) ++ [.stop hide]

theorem step_titles (titles : List Str) (hne : ∀ t ∈ titles, t ≠ []) (n : Naming) :
    titles.foldl (fun n t => n.step (.set (some t))) n =
      match titles.getLast? with
      | none => n
      | some t => { title := t, stored := if n.named then n.stored else n.title :: n.stored, named := true } := by
  induction titles generalizing n with
  | nil => rfl
  | cons t ts ih =>
    have ht : t.isEmpty = false := by simpa using hne t List.mem_cons_self
    rw [List.foldl_cons, ih (fun x hx => hne x (List.mem_cons_of_mem _ hx))]
    cases ts with
    | nil => simp [Naming.step, ht]
    | cons u us => simp [Naming.step, ht, List.getLast?_cons]

theorem fold_session (hide : Bool) (titles : List Str) (hne : ∀ t ∈ titles, t ≠ []) (n : Naming) :
    (session hide titles).foldl Naming.step n =
      (match titles.getLast? with
      | none => n
      | some t => { title := t, stored := if n.named then n.stored else n.title :: n.stored, named := true } : Naming).back := by
  rw [session, List.cons_append, List.foldl_cons, List.foldl_append, List.foldl_map, List.foldl_cons, List.foldl_nil, Naming.step, step_titles titles hne]
  rfl

/-- C62 is violated by every second session: of any number of sessions that set titles, the first gives the title back, and
every later one leaves the last title that it has set. -/
theorem C62_sessions_violated (m : Modes.State) (w : Console) (hg : (screenOf m w).phase = .ground) (hs : (screenOf m w).stack = [])
    (hw : hasTitle w = false) (hide : Bool) (first : List Str) (more : List (List Str)) (titles : List Str) (last : Str)
    (hne : ∀ ts ∈ first :: more ++ [titles], ts ≠ [] ∧ ∀ t ∈ ts, t ≠ [] ∧ CleanTitle t) (hl : titles.getLast? = some last) :
    (screenOf m (runTitles w (session hide first))).title = (screenOf m w).title ∧
    (screenOf m (runTitles w ((first :: more ++ [titles]).flatMap (session hide)))).title = last := by
  have hclean : ∀ (l : List (List Str)), (∀ ts ∈ l, ts ∈ first :: more ++ [titles]) → ∀ t, .set (some t) ∈ l.flatMap (session hide) → CleanTitle t := by
    intro l hsub t ht
    obtain ⟨ts, h1, h2⟩ := List.mem_flatMap.mp ht
    have : t ∈ ts := by simpa [session] using h2
    exact ((hne ts (hsub ts h1)).2 t this).2
  have hfirst : ∀ n : Naming, n.named = false → n.stored = [] →
      (session hide first).foldl Naming.step n = { title := n.title, stored := [], named := true } := by
    intro n h1 h2
    rw [fold_session hide first (fun t ht => ((hne first (by simp)).2 t ht).1)]
    obtain ⟨z, hz⟩ := Option.ne_none_iff_exists'.mp (fun e => (hne first (by simp)).1 (List.getLast?_eq_none_iff.mp e))
    rw [hz]
    simp [h1, h2, Naming.back]
  have hlater : ∀ (ts : List Str) (z : Str), ts ∈ first :: more ++ [titles] → ts.getLast? = some z → ∀ n : Naming, n.named = true → n.stored = [] →
      (session hide ts).foldl Naming.step n = { title := z, stored := [], named := true } := by
    intro ts z hts hz n h1 h2
    rw [fold_session hide ts (fun t ht => ((hne ts hts).2 t ht).1), hz]
    simp [h1, h2, Naming.back]
  constructor
  · have h := (C62_exact m (session hide first) w (fun t ht => hclean [first] (by simp) t (by simpa using ht)) hg).1
    rw [h, hfirst _ hw hs]
  · have h := (C62_exact m ((first :: more ++ [titles]).flatMap (session hide)) w (hclean _ fun _ h => h) hg).1
    rw [h, List.cons_append, List.flatMap_cons, List.flatMap_append, List.foldl_append, List.foldl_append, hfirst _ hw hs]
    have hmore : ∀ (l : List (List Str)), (∀ ts ∈ l, ts ∈ first :: more ++ [titles]) → ∀ n : Naming, n.named = true → n.stored = [] →
        ((l.flatMap (session hide)).foldl Naming.step n).named = true ∧ ((l.flatMap (session hide)).foldl Naming.step n).stored = [] := by
      intro l
      induction l with
      | nil => exact fun _ n h1 h2 => ⟨h1, h2⟩
      | cons ts l ih =>
        intro hsub n h1 h2
        obtain ⟨z, hz⟩ := Option.ne_none_iff_exists'.mp (fun e => (hne ts (hsub ts (by simp))).1 (List.getLast?_eq_none_iff.mp e))
        rw [List.flatMap_cons, List.foldl_append, hlater ts z (hsub ts (by simp)) hz n h1 h2]
        exact ih (fun x hx => hsub x (List.mem_cons_of_mem _ hx)) _ rfl rfl
    obtain ⟨m1, m2⟩ := hmore more (fun ts hts => by simp [hts]) { title := (screenOf m w).title, stored := [], named := true } rfl rfl
    rw [List.flatMap_cons, List.flatMap_nil, List.append_nil, hlater titles last (by simp) hl _ m1 m2]

/-- Three sessions. -/
example : let w := runTitles {} (["a", "b", "c"].flatMap fun t => session true [t.toList])
    (screenOf { title := "sh".toList } w).title = "c".toList := by decide +kernel

/-- C62 is violated whenever another program has stored a title: a session without titles takes it. -/
theorem C62_taken_violated (m : Modes.State) (w : Console) (hg : (screenOf m w).phase = .ground) (t : Str) (ts : List Str)
    (hs : (screenOf m w).stack = t :: ts) (hide : Bool) :
    (screenOf m (runTitles w (session hide []))).title = t ∧ (screenOf m (runTitles w (session hide []))).stack = ts := by
  have h := C62_exact m (session hide []) w (by simp [session]) hg
  rw [hs, fold_session hide [] (by simp)] at h
  exact h

end Slate
