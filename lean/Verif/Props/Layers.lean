import Verif.Spec.Layers
import Verif.Props.Bulk
import Verif.Lemmas.Breaks
import Verif.Lemmas.SpanText
import Verif.Props.Breaks
import Verif.Lemmas.CacheOn

/-!
# A bulk write as layers of text (C103)
-/

namespace Slate
open Py

/-! ### One cell -/

/-- What the two matrices hold for a cell. -/
abbrev Slot := Option WCell × List Color

/-- A character put on a cell. -/
def Slot.put (s : Slot) (span : Span) (char : Str) : Slot :=
  match s.1 with
  | some old =>
    if bgHasAlpha span.bg then
      (some { char := if isEmptyChar char span.style then old.char else char
              fg := if isEmptyChar char span.style then old.fg else span.fg
              bg := old.bg
              bleed := decide (char ≠ if isEmptyChar char span.style then old.char else char) }, s.2 ++ span.bg.toList)
    else (some { char := char, fg := span.fg, bg := span.bg, bleed := false }, s.2)
  | none => (some { char := char, fg := span.fg, bg := span.bg, bleed := false }, s.2)

theorem put_slot (m : Mats) (t : Hit) (x y : Nat) :
    ((t.put m).wm x y, (t.put m).am x y) =
      if t.isAt x y then Slot.put (m.wm x y, m.am x y) t.span t.char else (m.wm x y, m.am x y) := by
  by_cases h : t.x = x ∧ t.y = y
  · have ha : t.isAt x y = true := by simp [Hit.isAt, h]
    obtain ⟨rfl, rfl⟩ := h
    rw [ha, if_pos rfl]
    unfold Hit.put putCell Slot.put
    cases hw : m.wm t.x t.y with
    | none => simp [upd]
    | some old =>
      simp only
      split <;> simp [upd]
  · have ha : t.isAt x y = false := by simp [Hit.isAt]; tauto
    rw [ha]
    obtain ⟨h1, h2⟩ := put_elsewhere m t x y h
    simp [h1, h2]

theorem foldl_put_slot (hits : List Hit) (m : Mats) (x y : Nat) :
    ((hits.foldl Hit.put m).wm x y, (hits.foldl Hit.put m).am x y) =
      (hits.filter (Hit.isAt x y)).foldl (fun s t => Slot.put s t.span t.char) (m.wm x y, m.am x y) := by
  induction hits generalizing m with
  | nil => rfl
  | cons t rest ih =>
    rw [List.foldl_cons, ih, List.filter_cons]
    have := put_slot m t x y
    by_cases ha : t.isAt x y = true
    · rw [ha, if_pos rfl] at this
      rw [if_pos ha, List.foldl_cons, this]
    · rw [if_neg ha] at this
      rw [if_neg ha, this]

/-! ### The pile -/

theorem translucent_eq (l : Layer) : bgHasAlpha l.span.bg = l.translucent := by
  unfold bgHasAlpha Layer.translucent
  cases l.span.bg <;> rfl

theorem letter_empty {l : Layer} (ht : l.translucent = true) :
    isEmptyChar l.letter l.span.style = l.unseen := by
  have hs : subAnsi l.letter = [l.char] := by
    have ht : ∀ rest, rest = [] ∨ rest = RESET → subAnsi ([l.char] ++ rest) = [l.char] ++ subAnsi rest := by
      intro rest hr
      by_cases h : l.char = '\x1b'
      · rw [h]
        rcases hr with rfl | rfl <;> decide +kernel
      · exact subAnsi_text rest (by simpa using h)
    have hb : ∀ c ∈ l.span.style.colorless, BodyChar c := colorless_bodyChar _
    have hw := fun rest => subAnsi_wrapSgr (body := l.span.style.colorless) rest hb
    unfold Layer.letter
    simp only
    split_ifs
    · rw [hw]; simpa using ht [] (.inl rfl)
    · rw [List.append_assoc, hw, show "\x1b[0m".toList = RESET from rfl, ht _ (.inr rfl)]
      have := subAnsi_reset []
      rw [List.append_nil, subAnsi_nil] at this
      rw [this, List.append_nil]
    · simpa using ht [] (.inl rfl)
  unfold isEmptyChar Layer.unseen
  rw [hs, ht]
  by_cases hc : isSpace l.char = true
  · simp [strip, lstrip, rstrip, hc]
  · simp [strip, lstrip, rstrip, hc]


/-- What the matrices hold after a pile. -/
theorem pile_slot (first : Layer) (above : List Layer) :
    (first :: above).foldl (fun (s : Slot) l => s.put l.span l.letter) (none, []) =
      (some { char := (Pile.text first (first :: above)).letter
              fg := (Pile.text first (first :: above)).span.fg
              bg := (Pile.ground first (first :: above)).span.bg
              bleed := decide ((above.getLastD first).letter ≠ (Pile.text first (first :: above)).letter) },
        Pile.tints above) := by
  induction above using List.reverseRecOn with
  | nil =>
    have h1 : Pile.text first [first] = first := by
      unfold Pile.text; by_cases h : first.unseen <;> simp [h]
    have h2 : Pile.ground first [first] = first := by
      unfold Pile.ground; by_cases h : first.translucent <;> simp [h]
    simp [h1, h2, Slot.put, Pile.tints]
  | append_singleton above l ih =>
    have e : ∀ (P : Layer → Bool), ((first :: (above ++ [l])).reverse.find? P) =
        if P l then some l else (first :: above).reverse.find? P := by
      intro P
      rw [← List.cons_append, List.reverse_append, List.reverse_singleton, List.singleton_append, List.find?_cons]
      cases P l <;> rfl
    have hf : (first :: (above ++ [l])).foldl (fun (s : Slot) l => s.put l.span l.letter) (none, []) =
        Slot.put ((first :: above).foldl (fun (s : Slot) l => s.put l.span l.letter) (none, [])) l.span l.letter := by
      rw [← List.cons_append, List.foldl_append]; rfl
    rw [hf, ih]
    have hlast : (above ++ [l]).getLastD first = l := by simp
    rw [hlast]
    unfold Slot.put
    simp only [translucent_eq]
    by_cases ht : l.translucent = true
    · have hle := letter_empty ht
      rw [if_pos ht, hle]
      have hg : Pile.ground first (first :: (above ++ [l])) = Pile.ground first (first :: above) := by
        unfold Pile.ground; rw [e]; simp [ht]
      have htn : Pile.tints (above ++ [l]) = Pile.tints above ++ l.span.bg.toList := by
        unfold Pile.tints
        rw [List.filter_append, List.filterMap_append]
        congr 1
        rw [List.filter_cons, if_pos ht]
        cases hb : l.span.bg <;> simp [hb]
      rw [hg, htn]
      by_cases hu : l.unseen = true
      · have htx : Pile.text first (first :: (above ++ [l])) = Pile.text first (first :: above) := by
          unfold Pile.text; rw [e]; simp [hu]
        simp only [hu, if_true, htx]
      · have htx : Pile.text first (first :: (above ++ [l])) = l := by
          unfold Pile.text; rw [e]; simp [hu]
        simp only [hu, htx]
        simp
    · have hu : l.unseen = false := by simp [Layer.unseen, ht]
      have hg : Pile.ground first (first :: (above ++ [l])) = l := by
        unfold Pile.ground; rw [e]; simp [ht]
      have htx : Pile.text first (first :: (above ++ [l])) = l := by
        unfold Pile.text; rw [e]; simp [hu]
      have htn : Pile.tints (above ++ [l]) = Pile.tints above := by
        unfold Pile.tints
        rw [List.filter_append]
        simp [ht]
      rw [if_neg ht, hg, htx, htn]
      simp

/-! ### The colours -/

theorem tints_alpha (above : List Layer) : ∀ c ∈ Pile.tints above, c.alpha ≠ 1 := by
  intro c hc
  obtain ⟨l, hl, hb⟩ := List.mem_filterMap.mp hc
  have := (List.mem_filter.mp hl).2
  unfold Layer.translucent at this
  rw [hb] at this
  simpa using this

theorem getBlended_over {b : Option Color} {c : Color} (hc : c.alpha ≠ 1) :
    getBlended b (some c) (fl (1 / 10)) = some (Pile.over b c) := by
  unfold getBlended Pile.over
  cases b with
  | none => rfl
  | some b => simp only [if_neg hc]

theorem blend_fold (bleed : Bool) (cs : List Color) (hcs : ∀ c ∈ cs, c.alpha ≠ 1) (b : Option Color) (f : Color) (last : Option Color) :
    ∃ last', cs.foldl (blendStep bleed) { blent := b, fg := some f, last := last } =
      { blent := (Pile.fresh last cs).foldl (fun b c => some (Pile.over b c)) b
        fg := some (if bleed then (Pile.fresh last cs).foldl (fun b c => Pile.over (some b) c) f else f)
        last := last' } := by
  induction cs generalizing b f last with
  | nil => exact ⟨last, by simp [Pile.fresh]⟩
  | cons c cs ih =>
    have hc := hcs c (by simp)
    have ih' := ih fun c hc => hcs c (by simp [hc])
    rw [List.foldl_cons]
    have step : blendStep bleed { blent := b, fg := some f, last := last } c =
        if (match last with | some l => c.eq l | none => false) = true then { blent := b, fg := some f, last := last }
        else { blent := some (Pile.over b c), fg := some (if bleed then Pile.over (some f) c else f), last := some c } := by
      unfold blendStep
      simp only [getBlended_over hc]
      cases last with
      | none => cases bleed <;> simp
      | some l => cases bleed <;> simp
    rw [step]
    cases last with
    | none =>
      obtain ⟨l', h⟩ := ih' (some (Pile.over b c)) (if bleed then Pile.over (some f) c else f) (some c)
      refine ⟨l', ?_⟩
      simp only [Bool.false_eq_true, if_false]
      rw [h]
      cases bleed <;> simp [Pile.fresh]
    | some l =>
      by_cases he : c.eq l = true
      · obtain ⟨l', h⟩ := ih' b f (some l)
        refine ⟨l', ?_⟩
        simp only [he, if_true]
        rw [h]
        simp [Pile.fresh, he]
      · obtain ⟨l', h⟩ := ih' (some (Pile.over b c)) (if bleed then Pile.over (some f) c else f) (some c)
        refine ⟨l', ?_⟩
        simp only [he]
        rw [if_neg (by simp), h]
        cases bleed <;> simp [Pile.fresh, he]


theorem rstrip_letter (l : Layer) : rstrip (· == '\n') l.letter = l.shown := by
  have hseq : ∀ body : Str, rstrip (· == '\n') (wrapSgr body) = wrapSgr body := by
    intro body
    unfold wrapSgr
    split_ifs
    · rfl
    · simp [rstrip]
  unfold Layer.shown
  by_cases h : l.char = '\n'
  · unfold Layer.letter
    simp only [h]
    split_ifs with h1 h2 h3 h4 h5
    · have e : rstrip (· == '\n') (wrapSgr l.span.style.colorless ++ ['\n']) = rstrip (· == '\n') (wrapSgr l.span.style.colorless) := by
        simp [rstrip]
      rw [e, hseq]
      simp
    · exact absurd (by simp) h2
    · simp at h4
    · simp [rstrip]
    · rfl
    all_goals simp_all
  · rw [show rstrip (· == '\n') l.letter = l.letter from rstrip_styledChar_ne (s := l.span) (j := l.nth) h]
    rw [if_neg]
    unfold Layer.letter
    simp only
    split_ifs
    · simpa using h
    · simp
    · simpa using h

theorem text_mem (first : Layer) (above : List Layer) : Pile.text first (first :: above) ∈ first :: above := by
  unfold Pile.text
  cases h : (first :: above).reverse.find? fun l => !l.unseen with
  | none => simp
  | some l => exact List.mem_reverse.mp (List.mem_of_find?_eq_some h)

theorem pile_cell (tb : Color) (first : Layer) (above : List Layer) :
    resolveCell tb (Pile.tints above)
      { char := (Pile.text first (first :: above)).letter
        fg := (Pile.text first (first :: above)).span.fg
        bg := (Pile.ground first (first :: above)).span.bg
        bleed := decide ((above.getLastD first).letter ≠ (Pile.text first (first :: above)).letter) } =
      Pile.cell tb first above := by
  unfold resolveCell resolveColors Pile.cell
  obtain ⟨last', h⟩ := blend_fold (decide ((above.getLastD first).letter ≠ (Pile.text first (first :: above)).letter))
    (Pile.tints above) (tints_alpha above) (Pile.ground first (first :: above)).span.bg
    ((Pile.text first (first :: above)).span.fg.getD Color.white) (Pile.ground first (first :: above)).span.bg
  simp only [h]
  rw [rstrip_letter]
  unfold Pile.back Pile.ink
  simp only
  generalize (Pile.fresh (Pile.ground first (first :: above)).span.bg (Pile.tints above)).foldl
    (fun b c => some (Pile.over b c)) (Pile.ground first (first :: above)).span.bg = B
  have hF : (if decide ((above.getLastD first).letter ≠ (Pile.text first (first :: above)).letter) = true then
      (Pile.fresh (Pile.ground first (first :: above)).span.bg (Pile.tints above)).foldl (fun b c => Pile.over (some b) c)
        ((Pile.text first (first :: above)).span.fg.getD Color.white)
      else (Pile.text first (first :: above)).span.fg.getD Color.white) =
      if (above.getLastD first).letter = (Pile.text first (first :: above)).letter then
        (Pile.text first (first :: above)).span.fg.getD Color.white
      else (Pile.fresh (Pile.ground first (first :: above)).span.bg (Pile.tints above)).foldl (fun b c => Pile.over (some b) c)
        ((Pile.text first (first :: above)).span.fg.getD Color.white) := by
    by_cases he : (above.getLastD first).letter = (Pile.text first (first :: above)).letter
    · simp
    · simp
  rw [hF]
  generalize (if (above.getLastD first).letter = (Pile.text first (first :: above)).letter then
        (Pile.text first (first :: above)).span.fg.getD Color.white
      else (Pile.fresh (Pile.ground first (first :: above)).span.bg (Pile.tints above)).foldl (fun b c => Pile.over (some b) c)
        ((Pile.text first (first :: above)).span.fg.getD Color.white)) = F
  cases B with
  | none => by_cases ha : F.alpha = 1 <;> simp [ha, getBlended]
  | some b =>
    by_cases hb : b.alpha = 1
    · by_cases ha : F.alpha = 1 <;> simp [ha, hb, getBlended]
    · have e : getBlended (some tb) (some b) (fl (1 / 10)) = some (Pile.over (some tb) b) := getBlended_over hb
      simp only [hb, ne_eq, not_false_eq_true, if_true, if_false, e, Option.map_some]
      by_cases ha : F.alpha = 1
      · simp [ha]
      · by_cases hc : (Pile.over (some tb) b).alpha = 1 <;> simp [ha, hc, getBlended]

/-! ### Which characters fall on a cell -/

theorem lineChars_layers (line : List Span) : lineChars line = (lineLayers line).map fun l => (l.span, l.letter) := by
  unfold lineChars lineLayers
  rw [List.map_flatMap]
  congr 1
  funext s
  apply List.ext_getElem?
  intro j
  rw [List.getElem?_map, cellChars_getElem?, List.getElem?_map, List.getElem?_mapIdx]
  cases s.text[j]? <;> rfl

theorem walk_filter {w h x y : Nat} (hx : x < w) (hy : y < h) (ls : List Layer) (i : Nat) :
    ((walkHits w h i (ls.map fun l => (l.span, l.letter))).filter (Hit.isAt x y)).map (fun t => (t.span, t.char)) =
      if i ≤ y * w + x then ((covering w ls (y * w + x - i)).map fun l => (l.span, l.letter)).toList else [] := by
  have hw : 0 < w := by omega
  have hlt : y * w + x < h * w := by
    calc y * w + x < y * w + w := by omega
      _ = (y + 1) * w := by rw [Nat.add_mul]; omega
      _ ≤ h * w := Nat.mul_le_mul_right _ hy
  have at_iff : ∀ (s : Span) (j : Nat) (c : Str), (hitAt w s j c).isAt x y = true ↔ j = y * w + x := by
    intro s j c
    unfold Hit.isAt
    rw [Bool.and_eq_true, decide_eq_true_iff, decide_eq_true_iff]
    show (j % w = x ∧ j / w = y) ↔ _
    constructor
    · rintro ⟨h1, h2⟩
      have := Nat.div_add_mod j w
      rw [h1, h2, Nat.mul_comm] at this
      exact this.symm
    · rintro rfl
      constructor
      · rw [Nat.mul_comm, Nat.mul_add_mod, Nat.mod_eq_of_lt hx]
      · rw [Nat.mul_comm, Nat.mul_add_div hw, Nat.div_eq_of_lt hx]; rfl
  induction ls generalizing i with
  | nil => simp [walkHits, covering]
  | cons l rest ih =>
    rw [List.map_cons, walkHits, covering]
    by_cases hge : h * w ≤ i
    · rw [if_pos hge, if_neg (by omega)]; rfl
    · rw [if_neg hge]
      by_cases hc : l.letter = ['\n']
      · rw [if_pos hc, if_pos hc, ih (i + w)]
        by_cases h1 : i + w ≤ y * w + x
        · rw [if_pos h1, if_pos (by omega), if_neg (by omega), show y * w + x - (i + w) = y * w + x - i - w by omega]
        · rw [if_neg h1]
          split_ifs <;> first | rfl | omega
      · rw [if_neg hc, if_neg hc, List.filter_cons]
        have ih' := ih (i + 1)
        by_cases hi : i = y * w + x
        · rw [if_pos ((at_iff _ _ _).mpr hi), List.map_cons, ih', if_neg (by omega), if_pos (by omega), if_pos (by omega)]
          rfl
        · rw [if_neg fun h => hi ((at_iff _ _ _).mp h), ih']
          by_cases hle : i ≤ y * w + x
          · rw [if_pos hle, if_pos (by omega), if_neg (by omega), show y * w + x - (i + 1) = y * w + x - i - 1 by omega]
          · rw [if_neg hle, if_neg (by omega)]

theorem lineHits_outside (w h : Nat) (line : List Span) (p : Pen)
    (ho : (w : Int) ≤ p.x ∨ p.x < 0 ∨ (h : Int) ≤ p.y ∨ p.y < 0) : lineHits w h 0 line p = [] := by
  induction line generalizing p with
  | nil => rfl
  | cons s rest ih =>
    unfold lineHits
    have h1 : charHits w h s s.cellChars p.x (p.y - 0) = [] := by
      rw [Int.sub_zero]
      cases s.cellChars with
      | nil => rfl
      | cons c cs => unfold charHits; rw [if_pos ho]
    have h2 : (putChars w h s s.cellChars { p with y := p.y - 0 } Mats.blank).1 = p := by
      rw [Int.sub_zero]
      cases s.cellChars with
      | nil => rfl
      | cons c cs => unfold putChars; rw [if_pos ho]
    rw [h1, h2, ih p ho]
    rfl

theorem dataHits_layers {w h : Nat} (d : Data) {x y : Nat} (hx : x < w) (hy : y < h) :
    ((dataHits w h 0 d).filter (Hit.isAt x y)).map (fun t => (t.span, t.char)) =
      (layersAt w h d x y).map fun l => (l.span, l.letter) := by
  have hw : 0 < w := by omega
  induction d with
  | nil => rfl
  | cons e d ih =>
    have hd : dataHits w h 0 (e :: d) = lineHits w h 0 e.2 (startPen e) ++ dataHits w h 0 d := by simp [dataHits]
    rw [hd, List.filter_append, List.map_append, ih]
    have hcons : ∀ (f : (Int × Int) × List Span → Option Layer), (e :: d).filterMap f = (f e).toList ++ d.filterMap f := by
      intro f
      rw [List.filterMap_cons]
      cases f e <;> rfl
    unfold layersAt
    rw [hcons, List.map_append]
    congr 1
    obtain ⟨⟨px, py⟩, line⟩ := e
    simp only
    by_cases hin : 0 ≤ px ∧ px < (w : Int) ∧ 0 ≤ py ∧ py < (h : Int)
    · obtain ⟨h1, h2, h3, h4⟩ := hin
      obtain ⟨a, rfl⟩ := Int.eq_ofNat_of_zero_le h1
      obtain ⟨b, rfl⟩ := Int.eq_ofNat_of_zero_le h3
      have ha : a < w := by omega
      have hb : b < h := by omega
      have hmod : (b * w + a) % w = a := by rw [Nat.mul_comm, Nat.mul_add_mod, Nat.mod_eq_of_lt ha]
      have hdiv : (b * w + a) / w = b := by rw [Nat.mul_comm, Nat.mul_add_div hw, Nat.div_eq_of_lt ha]; rfl
      have hpen : startPen (((a : Int), (b : Int)), line) = penAt w (b * w + a) ((line.length : Int) - 1) := by
        simp [startPen, penAt, hmod, hdiv]
      have hlt : b * w + a < h * w := by
        calc b * w + a < b * w + w := by omega
          _ = (b + 1) * w := by rw [Nat.add_mul]; omega
          _ ≤ h * w := Nat.mul_le_mul_right _ hb
      have hlt' : y * w + x < h * w := by
        calc y * w + x < y * w + w := by omega
          _ = (y + 1) * w := by rw [Nat.add_mul]; omega
          _ ≤ h * w := Nat.mul_le_mul_right _ hy
      rw [hpen, lineHits_walk hw, lineChars_layers, walk_filter hx hy]
      have hto : ((b : Int) * (w : Int) + (a : Int)).toNat = b * w + a := by
        rw [show (b : Int) * (w : Int) + (a : Int) = ((b * w + a : Nat) : Int) by push_cast; rfl]; exact Int.toNat_natCast _
      have hle : ((b : Int) * (w : Int) + (a : Int) ≤ ((y * w + x : Nat) : Int)) ↔ b * w + a ≤ y * w + x := by
        rw [show (b : Int) * (w : Int) + (a : Int) = ((b * w + a : Nat) : Int) by push_cast; rfl]; exact Int.ofNat_le
      by_cases hc : b * w + a ≤ y * w + x
      · rw [if_pos hc, if_pos ⟨h1, h2, h3, h4, hle.mpr hc⟩, hto]
        cases covering w (lineLayers line) (y * w + x - (b * w + a)) <;> rfl
      · rw [if_neg hc, if_neg fun hh => hc (hle.mp hh.2.2.2.2)]
        rfl
    · rw [lineHits_outside w h line (startPen ((px, py), line)) (by simp only [startPen]; omega),
        if_neg fun hh => hin ⟨hh.1, hh.2.1, hh.2.2.1, hh.2.2.2.1⟩]
      rfl

theorem stopOf_walkEnd (w h : Nat) (ls : List Layer) (i : Nat) : stopOf w h ls i = walkEnd w h i (ls.map Layer.letter) := by
  induction ls generalizing i with
  | nil => rfl
  | cons l ls ih =>
    rw [List.map_cons, stopOf, walkEnd, ih]
    rfl

theorem cellChars_letters (s : Span) : s.cellChars = (lineLayers [s]).map Layer.letter := by
  have h := congrArg (List.map Prod.snd) (lineChars_layers [s])
  simp only [lineChars, List.flatMap_cons, List.flatMap_nil, List.append_nil, List.map_map] at h
  have e : s.cellChars.map (Prod.snd ∘ fun c => (s, c)) = s.cellChars := by
    conv_rhs => rw [← List.map_id s.cellChars]
    rfl
  rw [e] at h
  exact h

theorem lineHits_pieces (w h : Nat) (off : Int) (ss : List Span) (p : Pen) :
    lineHits w h off ss p = dataHits w h 0 (pieces w h off (p.x, p.y) ss) := by
  induction ss generalizing p with
  | nil => rfl
  | cons s ss ih =>
    have h1 : ∀ d : Data, dataHits w h 0 (((p.x, p.y - off), [s]) :: d) = charHits w h s s.cellChars p.x (p.y - off) ++ dataHits w h 0 d := by
      intro d
      simp [dataHits, lineHits, startPen]
    rw [lineHits, ih, pieces, h1]
    congr 1
    by_cases hin : 0 ≤ p.x ∧ p.x < (w : Int) ∧ 0 ≤ p.y - off ∧ p.y - off < (h : Int)
    · rw [if_pos hin]
      obtain ⟨h1, h2, h3, h4⟩ := hin
      obtain ⟨a, ha⟩ := Int.eq_ofNat_of_zero_le h1
      obtain ⟨b, hb⟩ := Int.eq_ofNat_of_zero_le h3
      have haw : a < w := by omega
      have hw : 0 < w := by omega
      have hmod : (b * w + a) % w = a := by rw [Nat.mul_comm, Nat.mul_add_mod, Nat.mod_eq_of_lt haw]
      have hdiv : (b * w + a) / w = b := by rw [Nat.mul_comm, Nat.mul_add_div hw, Nat.div_eq_of_lt haw]; rfl
      have hto : ((p.y - off) * (w : Int) + p.x).toNat = b * w + a := by
        rw [ha, hb, show (b : Int) * (w : Int) + (a : Int) = ((b * w + a : Nat) : Int) by push_cast; rfl]; exact Int.toNat_natCast _
      have hpen : ({ p with y := p.y - off } : Pen) = penAt w (b * w + a) p.last := by
        simp [penAt, hmod, hdiv, ha, hb]
      obtain ⟨last', e1⟩ := putChars_walk hw h s s.cellChars (b * w + a) p.last Mats.blank
      rw [hpen, e1, hto, stopOf_walkEnd, ← cellChars_letters]
      rfl
    · rw [if_neg hin]
      have h2 : (putChars w h s s.cellChars { p with y := p.y - off } Mats.blank).1 = { p with y := p.y - off } := by
        cases s.cellChars with
        | nil => rfl
        | cons c cs =>
          unfold putChars
          rw [if_pos (by simp only; omega)]
      rw [h2]

/-- On any screen the characters fall where the spans of the lines are placed. -/
theorem dataHits_placed (w h : Nat) (off : Int) (d : Data) : dataHits w h off d = dataHits w h 0 (placed w h off d) := by
  induction d with
  | nil => rfl
  | cons e d ih =>
    have h1 : dataHits w h off (e :: d) = lineHits w h off e.2 (startPen e) ++ dataHits w h off d := by simp [dataHits]
    have h2 : dataHits w h 0 (placed w h off (e :: d)) = dataHits w h 0 (pieces w h off e.1 e.2) ++ dataHits w h 0 (placed w h off d) := by
      simp [dataHits, placed]
    rw [h1, h2, ih, lineHits_pieces]
    rfl

theorem pieces_one (w h : Nat) (off : Int) (p : Int × Int) (s : Span) : pieces w h off p [s] = [((p.1, p.2 - off), [s])] := by
  obtain ⟨x, y⟩ := p
  simp [pieces]

theorem pieces_span {w h : Nat} {off : Int} {p : Int × Int} {ss : List Span} {e : (Int × Int) × List Span}
    (he : e ∈ pieces w h off p ss) : ∃ s ∈ ss, e.2 = [s] := by
  induction ss generalizing p with
  | nil => cases he
  | cons s ss ih =>
    obtain ⟨x, y⟩ := p
    rw [pieces] at he
    rcases List.mem_cons.mp he with rfl | he
    · exact ⟨s, by simp, rfl⟩
    · split_ifs at he
      · obtain ⟨s', h1, h2⟩ := ih he
        exact ⟨s', by simp [h1], h2⟩
      · obtain ⟨s', h1, h2⟩ := ih he
        exact ⟨s', by simp [h1], h2⟩

theorem layer_placed_span {w h : Nat} {off : Int} {d : Data} {e : (Int × Int) × List Span} (he : e ∈ placed w h off d) :
    ∃ e' ∈ d, ∃ s ∈ e'.2, e.2 = [s] := by
  obtain ⟨e', h1, h2⟩ := List.mem_flatMap.mp he
  obtain ⟨s, h3, h4⟩ := pieces_span h2
  exact ⟨e', h1, s, h3, h4⟩

/-- All the room that a text takes. -/
def roomOf (w : Nat) (ls : List Layer) : Nat := (ls.map (Layer.room w)).sum

theorem covering_append (w : Nat) (as bs : List Layer) (k : Nat) : covering w (as ++ bs) k =
    (covering w as k).or (if roomOf w as ≤ k then covering w bs (k - roomOf w as) else none) := by
  induction as generalizing k with
  | nil => simp [covering, roomOf]
  | cons l as ih =>
    have hr : roomOf w (l :: as) = l.room w + roomOf w as := by simp [roomOf]
    rw [List.cons_append, covering, covering, hr]
    unfold Layer.room
    by_cases h1 : l.letter = ['\n']
    · simp only [if_pos h1]
      by_cases h2 : k < w
      · rw [if_pos h2, if_pos h2, if_neg (by omega)]; rfl
      · rw [if_neg h2, if_neg h2, ih, Nat.sub_sub]
        congr 1
        split_ifs <;> first | rfl | omega
    · simp only [if_neg h1]
      by_cases h2 : k = 0
      · rw [if_pos h2, if_pos h2]; rfl
      · rw [if_neg h2, if_neg h2, ih, Nat.sub_sub]
        congr 1
        split_ifs <;> first | rfl | omega

theorem covering_room {w : Nat} {ls : List Layer} {k : Nat} {l : Layer} (h : covering w ls k = some l) : k < roomOf w ls := by
  induction ls generalizing k with
  | nil => cases h
  | cons a ls ih =>
    have hr : roomOf w (a :: ls) = a.room w + roomOf w ls := by simp [roomOf]
    rw [hr]
    unfold covering at h
    unfold Layer.room
    split_ifs at h ⊢ with h1 h2 h3
    · have := ih h; omega
    · omega
    · have := ih h; omega

theorem stopOf_le {w h : Nat} (ls : List Layer) (i : Nat) : stopOf w h ls i = i + roomOf w ls ∨
    h * w ≤ stopOf w h ls i ∧ stopOf w h ls i ≤ i + roomOf w ls := by
  induction ls generalizing i with
  | nil => exact .inl rfl
  | cons l ls ih =>
    have hr : roomOf w (l :: ls) = l.room w + roomOf w ls := by simp [roomOf]
    rw [stopOf, hr]
    split_ifs with h1
    · exact .inr ⟨h1, by omega⟩
    · rcases ih (i + l.room w) with h | h
      · left; omega
      · right; omega

theorem layersAt_append (w h : Nat) (a b : Data) (x y : Nat) : layersAt w h (a ++ b) x y = layersAt w h a x y ++ layersAt w h b x y := by
  unfold layersAt
  rw [List.filterMap_append]

theorem layersAt_one (w h : Nat) (p : Int × Int) (ss : List Span) (x y : Nat) : layersAt w h [(p, ss)] x y =
    (if 0 ≤ p.1 ∧ p.1 < (w : Int) ∧ 0 ≤ p.2 ∧ p.2 < (h : Int) ∧ p.2 * (w : Int) + p.1 ≤ ((y * w + x : Nat) : Int) then
      covering w (lineLayers ss) (y * w + x - (p.2 * (w : Int) + p.1).toNat)
    else none).toList := by
  unfold layersAt
  rw [List.filterMap_cons, List.filterMap_nil]
  cases (if 0 ≤ p.1 ∧ p.1 < (w : Int) ∧ 0 ≤ p.2 ∧ p.2 < (h : Int) ∧ p.2 * (w : Int) + p.1 ≤ ((y * w + x : Nat) : Int) then
      covering w (lineLayers ss) (y * w + x - (p.2 * (w : Int) + p.1).toNat)
    else none) <;> rfl

/-- A line that starts `i` cells behind the first one. -/
theorem layersAt_index {w h : Nat} {x y : Nat} (hx : x < w) (hy : y < h) (i : Nat) (ss : List Span) :
    layersAt w h [((((i % w : Nat) : Int), ((i / w : Nat) : Int)), ss)] x y =
      (if i ≤ y * w + x then covering w (lineLayers ss) (y * w + x - i) else none).toList := by
  have hw : 0 < w := by omega
  have hlt : y * w + x < h * w := by
    calc y * w + x < y * w + w := by omega
      _ = (y + 1) * w := by rw [Nat.add_mul]; omega
      _ ≤ h * w := Nat.mul_le_mul_right _ hy
  rw [layersAt_one]
  have hi : ((i / w : Nat) : Int) * (w : Int) + ((i % w : Nat) : Int) = (i : Int) := by
    have := Nat.div_add_mod' i w
    exact_mod_cast this
  simp only [hi, Int.toNat_natCast]
  have hm := Nat.mod_lt i hw
  by_cases hc : i ≤ y * w + x
  · have hd : i / w < h := Nat.div_lt_of_lt_mul (by rw [Nat.mul_comm]; omega)
    rw [if_pos hc, if_pos ⟨Int.natCast_nonneg _, Int.ofNat_lt.mpr hm, Int.natCast_nonneg _, Int.ofNat_lt.mpr hd, Int.ofNat_le.mpr hc⟩]
  · rw [if_neg hc, if_neg fun hh => hc (Int.ofNat_le.mp hh.2.2.2.2)]

theorem layersAt_pieces {w h : Nat} {x y : Nat} (hx : x < w) (hy : y < h) (ss : List Span) (p : Int × Int) :
    layersAt w h (pieces w h 0 p ss) x y = layersAt w h [(p, ss)] x y := by
  have hw : 0 < w := by omega
  have hlt : y * w + x < h * w := by
    calc y * w + x < y * w + w := by omega
      _ = (y + 1) * w := by rw [Nat.add_mul]; omega
      _ ≤ h * w := Nat.mul_le_mul_right _ hy
  induction ss generalizing p with
  | nil =>
    rw [layersAt_one]
    split_ifs <;> rfl
  | cons s ss ih =>
    obtain ⟨px, py⟩ := p
    rw [pieces]
    simp only [Int.sub_zero]
    have hcat : ∀ (e : (Int × Int) × List Span) (d : Data), layersAt w h (e :: d) x y = layersAt w h [e] x y ++ layersAt w h d x y :=
      fun e d => layersAt_append w h [e] d x y
    rw [hcat]
    by_cases hin : 0 ≤ px ∧ px < (w : Int) ∧ 0 ≤ py ∧ py < (h : Int)
    · rw [if_pos hin, ih]
      obtain ⟨h1, h2, h3, h4⟩ := hin
      obtain ⟨a, rfl⟩ := Int.eq_ofNat_of_zero_le h1
      obtain ⟨b, rfl⟩ := Int.eq_ofNat_of_zero_le h3
      have ha : a < w := by omega
      have hmod : (b * w + a) % w = a := by rw [Nat.mul_comm, Nat.mul_add_mod, Nat.mod_eq_of_lt ha]
      have hdiv : (b * w + a) / w = b := by rw [Nat.mul_comm, Nat.mul_add_div hw, Nat.div_eq_of_lt ha]; rfl
      have hto : ((b : Int) * (w : Int) + (a : Int)).toNat = b * w + a := by
        rw [show (b : Int) * (w : Int) + (a : Int) = ((b * w + a : Nat) : Int) by push_cast; rfl]; exact Int.toNat_natCast _
      have hp : (((a : Nat) : Int), ((b : Nat) : Int)) = ((((b * w + a) % w : Nat) : Int), (((b * w + a) / w : Nat) : Int)) := by
        rw [hmod, hdiv]
      rw [hto, hp]
      generalize b * w + a = i
      rw [layersAt_index hx hy, layersAt_index hx hy, layersAt_index hx hy]
      have hl : lineLayers (s :: ss) = lineLayers [s] ++ lineLayers ss := by simp [lineLayers]
      rw [hl]
      generalize lineLayers [s] = A
      generalize lineLayers ss = B
      rw [covering_append]
      have hst := stopOf_le (w := w) (h := h) A i
      by_cases hc : i ≤ y * w + x
      · rw [if_pos hc, if_pos hc]
        cases hA : covering w A (y * w + x - i) with
        | some l =>
          have := covering_room hA
          rw [if_neg (by omega)]
          rfl
        | none =>
          simp only [Option.toList_none, List.nil_append, Option.none_or]
          by_cases hr : roomOf w A ≤ y * w + x - i
          · have : stopOf w h A i = i + roomOf w A := by omega
            rw [if_pos hr, this, if_pos (by omega), Nat.sub_sub]
          · rw [if_neg hr, if_neg (by omega)]
      · rw [if_neg hc, if_neg hc, if_neg (by omega)]
        rfl
    · rw [if_neg hin, ih, layersAt_one, layersAt_one, layersAt_one, if_neg fun hh => hin ⟨hh.1, hh.2.1, hh.2.2.1, hh.2.2.2.1⟩,
        if_neg fun hh => hin ⟨hh.1, hh.2.1, hh.2.2.1, hh.2.2.2.1⟩, if_neg fun hh => hin ⟨hh.1, hh.2.1, hh.2.2.1, hh.2.2.2.1⟩]
      rfl

/-- On a screen that has not scrolled the spans of a line are one running text, and a line of one span is only moved up. -/
theorem layersAt_placed {w h : Nat} {x y : Nat} (hx : x < w) (hy : y < h) (off : Int) (d : Data)
    (hd : off = 0 ∨ ∀ e ∈ d, e.2.length ≤ 1) : layersAt w h (placed w h off d) x y = layersAt w h (raised off d) x y := by
  induction d with
  | nil => rfl
  | cons e d ih =>
    have h1 : placed w h off (e :: d) = pieces w h off e.1 e.2 ++ placed w h off d := by simp [placed]
    have h2 : raised off (e :: d) = raised off [e] ++ raised off d := by simp [raised]
    rw [h1, h2, layersAt_append, layersAt_append, ih (hd.imp id fun h e he => h e (by simp [he]))]
    congr 1
    obtain ⟨p, ss⟩ := e
    rcases hd with rfl | hd
    · rw [layersAt_pieces hx hy]
      simp [raised]
    · have hl := hd _ (List.mem_cons_self)
      simp only at hl
      match ss with
      | [] =>
        simp only [raised, List.map_cons, List.map_nil, pieces]
        rw [layersAt_one]
        split_ifs <;> rfl
      | [s] => rw [pieces_one]; rfl
      | _ :: _ :: _ => simp at hl

/-! ## C103 -/

theorem covering_mem {w : Nat} {ls : List Layer} {k : Nat} {l : Layer} (h : covering w ls k = some l) : l ∈ ls ∧ l.letter ≠ ['\n'] := by
  induction ls generalizing k with
  | nil => cases h
  | cons a ls ih =>
    unfold covering at h
    split_ifs at h with h1 h2 h3
    · exact ⟨List.mem_cons_of_mem _ (ih h).1, (ih h).2⟩
    · cases h; exact ⟨List.mem_cons_self, h1⟩
    · exact ⟨List.mem_cons_of_mem _ (ih h).1, (ih h).2⟩

theorem mem_layersAt {w h : Nat} {d : Data} {x y : Nat} {l : Layer} (hl : l ∈ layersAt w h d x y) :
    ∃ e ∈ d, l.span ∈ e.2 ∧ l.span.text[l.nth]? = some l.char ∧ l.letter ≠ ['\n'] := by
  obtain ⟨e, he, h1⟩ := List.mem_filterMap.mp hl
  split_ifs at h1
  obtain ⟨this, hb⟩ := covering_mem h1
  obtain ⟨s, hs, hm⟩ := List.mem_flatMap.mp this
  obtain ⟨j, hj, rfl⟩ := List.mem_mapIdx.mp hm
  exact ⟨e, he, hs, List.getElem?_eq_getElem hj, hb⟩

/-- **C103**: a bulk write that does not scroll, of any text: the cells on which no character falls are kept, and every other cell is exactly what `Pile.cell` says of the
characters that fall on it, unless it is equal to that already. Where they fall on a screen that has scrolled before is said by `placed`. -/
theorem C103_cells_partial (env : Color.Env) (tb : Color) (force : Bool) (d : Data) (w : World)
    (hs : Shape w.scr.width w.scr.height w.scr.cells) (hok : CacheOkOn d.Has w.cache)
    (ho : (writeBulk env d.entries tb force w).1.scr.offset = w.scr.offset) (x y : Nat) (hx : x < w.scr.width) (hy : y < w.scr.height) :
    ∃ old, cellAt w.scr.cells x y = some old ∧
      cellAt (writeBulk env d.entries tb force w).1.scr.cells x y =
        some (match layersAt w.scr.width w.scr.height (placed w.scr.width w.scr.height w.scr.offset d) x y with
          | [] => old
          | first :: above => if (Pile.cell tb first above).eq old then old else Pile.cell tb first above) := by
  obtain ⟨hf, -⟩ := writeBulk_fresh env d tb force w hs hok ho
  rw [hf] at ho ⊢
  obtain ⟨-, -, hw⟩ := wrote_of_still env d tb force w.fresh hs w.fresh_ok ho
  rw [w.fresh_scr] at hw
  obtain ⟨old, hold⟩ := hs.exists_cell hx hy
  refine ⟨old, hold, ?_⟩
  have hc := hw.cell x y
  rw [dataHits_placed] at hc
  have hslot := foldl_put_slot (dataHits w.scr.width w.scr.height 0 (placed w.scr.width w.scr.height w.scr.offset d)) Mats.blank x y
  have hmap : ∀ (hits : List Hit) (s : Slot), hits.foldl (fun s t => Slot.put s t.span t.char) s =
      (hits.map fun t => (t.span, t.char)).foldl (fun s p => Slot.put s p.1 p.2) s := by
    intro hits s; rw [List.foldl_map]
  rw [hmap, dataHits_layers _ hx hy, List.foldl_map] at hslot
  unfold outcome at hc
  cases hl : layersAt w.scr.width w.scr.height (placed w.scr.width w.scr.height w.scr.offset d) x y with
  | nil =>
    rw [hl] at hslot
    have := (Prod.mk.inj hslot).1
    simp only [Mats.blank] at this hc
    rw [this] at hc
    rw [hc]
    simpa using hold
  | cons first above =>
    rw [hl] at hslot
    have hb : ((Mats.blank.wm x y, Mats.blank.am x y) : Slot) = (none, []) := rfl
    rw [hb, pile_slot first above] at hslot
    obtain ⟨e1, e2⟩ := Prod.mk.inj hslot
    simp only [e1, e2, hold, pile_cell tb first above] at hc
    rw [hc]
    simp only
    split_ifs <;> simp

/-- **C103** on a screen that has not scrolled, where each line is one running text, or of lines of one span. -/
theorem C103_flow_partial (env : Color.Env) (tb : Color) (force : Bool) (d : Data) (w : World)
    (hs : Shape w.scr.width w.scr.height w.scr.cells) (hok : CacheOkOn d.Has w.cache) (h0 : w.scr.offset = 0 ∨ ∀ e ∈ d, e.2.length ≤ 1)
    (ho : (writeBulk env d.entries tb force w).1.scr.offset = w.scr.offset) (x y : Nat) (hx : x < w.scr.width) (hy : y < w.scr.height) :
    ∃ old, cellAt w.scr.cells x y = some old ∧
      cellAt (writeBulk env d.entries tb force w).1.scr.cells x y =
        some (match layersAt w.scr.width w.scr.height (raised w.scr.offset d) x y with
          | [] => old
          | first :: above => if (Pile.cell tb first above).eq old then old else Pile.cell tb first above) := by
  rw [← layersAt_placed hx hy _ _ h0]
  exact C103_cells_partial env tb force d w hs hok ho x y hx hy

/-- A pile without translucent layers above the first shows its last layer alone. -/
theorem C103_opaque (tb : Color) (first : Layer) (above : List Layer) (hop : ∀ l ∈ above, l.translucent = false) :
    let top := above.getLastD first
    (Pile.cell tb first above).char = top.shown ∧
    Pile.back tb first above = top.span.bg.map fun b => if b.alpha = 1 then b else Pile.over (some tb) b := by
  have ht : Pile.tints above = [] := by
    unfold Pile.tints
    rw [List.filter_eq_nil_iff.mpr (by simpa using hop)]
    rfl
  have hpick : ∀ (P : Layer → Bool), (∀ l ∈ above, P l = true) →
      ((first :: above).reverse.find? P).getD first = above.getLastD first := by
    intro P hP
    rcases List.eq_nil_or_concat above with rfl | ⟨l', o, rfl⟩
    · cases hf : P first <;> simp [hf]
    · have : P o = true := hP o (by simp)
      simp [this]
  have hg : Pile.ground first (first :: above) = above.getLastD first := hpick _ fun l hl => by simp [hop l hl]
  have hx : Pile.text first (first :: above) = above.getLastD first := hpick _ fun l hl => by simp [Layer.unseen, hop l hl]
  refine ⟨by simp [Pile.cell, hx], ?_⟩
  unfold Pile.back
  simp [hg, ht, Pile.fresh]

/-- The opposite of what one expects: a tint below an opaque layer is not hidden by it. The background is that of the opaque layer
with the tint over it, for all layers (unless the two backgrounds are equal). -/
theorem C103_hidden_violated (tb : Color) (first tint top : Layer) (t b : Color) (ht : tint.span.bg = some t) (hta : t.alpha ≠ 1)
    (hb : top.span.bg = some b) (hba : b.alpha = 1) (hne : t.eq b = false) :
    Pile.back tb first [tint, top] =
      some (if (Pile.over (some b) t).alpha = 1 then Pile.over (some b) t else Pile.over (some tb) (Pile.over (some b) t)) := by
  have h1 : tint.translucent = true := by simp [Layer.translucent, ht, hta]
  have h2 : top.translucent = false := by simp [Layer.translucent, hb, hba]
  have hg : Pile.ground first [first, tint, top] = top := by simp [Pile.ground, h2]
  have hti : Pile.tints [tint, top] = [t] := by simp [Pile.tints, h1, h2, ht]
  unfold Pile.back
  simp [hg, hti, hb, Pile.fresh, hne]

/-- A tint directly on an equal one adds nothing: a translucent window drawn twice looks as if it was drawn once. -/
theorem C103_twice (tb : Color) (first : Layer) (above : List Layer) (l : Layer) (hl : l.translucent = true) :
    Pile.back tb first (above ++ [l, l]) = Pile.back tb first (above ++ [l]) := by
  obtain ⟨b, hb⟩ : ∃ b, l.span.bg = some b := by
    unfold Layer.translucent at hl
    cases h : l.span.bg with
    | none => rw [h] at hl; cases hl
    | some b => exact ⟨b, rfl⟩
  have hr : b.eq b = true := by simp [Color.eq]
  have hg : Pile.ground first (first :: (above ++ [l, l])) = Pile.ground first (first :: (above ++ [l])) := by
    simp [Pile.ground, hl]
  have ht : ∀ k : List Layer, Pile.tints (above ++ l :: k) = Pile.tints above ++ b :: Pile.tints k := by
    intro k
    simp [Pile.tints, hl, hb]
  have hfresh : ∀ (cs : List Color) (g : Option Color), Pile.fresh g (cs ++ [b, b]) = Pile.fresh g (cs ++ [b]) := by
    intro cs
    induction cs with
    | nil =>
      intro g
      cases g with
      | none => simp [Pile.fresh, hr]
      | some g => by_cases h : b.eq g = true <;> simp [Pile.fresh, h, hr]
    | cons c cs ih =>
      intro g
      cases g with
      | none => simp [Pile.fresh, ih]
      | some g => by_cases h : c.eq g = true <;> simp [Pile.fresh, h, ih]
  unfold Pile.back
  have e1 := ht [l]
  have e2 := ht []
  simp only [show Pile.tints [l] = [b] by simp [Pile.tints, hl, hb], show Pile.tints [] = [] from rfl] at e1 e2
  rw [hg, e1, e2]
  simp only [hfresh]

/-- Three lines over each other: text on red, a tint without text, and a tint with text that wraps; one below a line break; one line that starts outside. -/
def C103ex.data : Data :=
  [((0, 0), [{ text := "ab".toList, bg := some { r := 200, g := 0, b := 0, isBg := true } }, { text := "cd".toList, style := { bold := true } }]),
   ((1, 0), [{ text := "  ".toList, bg := some { r := 0, g := 0, b := 200, isBg := true, alpha := 1 / 2 } }]),
   ((2, 0), [{ text := "xy".toList, bg := some { r := 0, g := 100, b := 0, isBg := true, alpha := 1 / 4 } }]),
   ((0, 0), [{ text := "\nz".toList, bg := some { r := 0, g := 0, b := 9, isBg := true, alpha := 1 / 3 } }]),
   ((7, 0), [{ text := "out".toList }])]

/-- The hypotheses of `C103_cells_partial` hold, the piles are not trivial, and the character of the second cell shines through. -/
example :
    (writeBulk {} C103ex.data.entries Color.black false { scr := Screen.init 3 2 }).1.scr.offset = 0 ∧
    ((List.range 2).map fun y => (List.range 3).map fun x => (layersAt 3 2 C103ex.data x y).map (·.char)) =
      [[['a'], ['b', ' '], ['c', ' ', 'x']], [['d', 'y', 'z'], [], []]] ∧
    (cellAt (writeBulk {} C103ex.data.entries Color.black false { scr := Screen.init 3 2 }).1.scr.cells 1 0).map (·.char) = some ['b'] := by
  refine ⟨by decide +kernel, by decide +kernel, by decide +kernel⟩

/-- On a screen that has scrolled: the second span of the line is written above the first one. -/
example :
    let w : World := (write {} [{ text := "hey".toList }] (some (0, 2)) Color.black false { scr := Screen.init 3 2 }).1
    let d : Data := [((0, 2), [{ text := "ab".toList }, { text := "c".toList }]), ((1, 2), [{ text := "d\ne".toList, style := { bold := true } }])]
    w.scr.offset = 1 ∧ (∀ e ∈ w.cache, ¬ ∃ l ∈ d, e.1 ∈ l.2) ∧ (writeBulk {} d.entries Color.black false w).1.scr.offset = 1 ∧
    ((List.range 2).map fun y => (List.range 3).map fun x => (layersAt 3 2 (placed 3 2 1 d) x y).map (·.char)) =
      [[[], [], ['c']], [['a'], ['b', 'd'], ['\n']]] := by
  decide +kernel

end Slate
