import Mathlib.Data.List.Nodup
import Verif.Model.Cli

/-!
# C114: which command lines run which command
-/

namespace Slate
open Py Cli

/-- The command lines that name a command: nothing before it, and behind it nothing but `--raw` or abbreviations of it, for `getch`. -/
inductive Names : List Str → Cmd → Prop
  | size : Names ["size".toList] .size
  | debug : Names ["debug".toList] .debug
  | getch (flags : List Str) (h : ∀ a ∈ flags, a = "--raw".toList ∨ a = "--ra".toList ∨ a = "--r".toList) :
    Names ("getch".toList :: flags) (.getch (!flags.isEmpty))

theorem mem_of_lookup_str {opts : Cli.Opts} {k : Str} {v : Act} (h : opts.lookup k = some v) : (k, v) ∈ opts := by
  induction opts with
  | nil => simp at h
  | cons e l ih =>
    obtain ⟨a, b⟩ := e
    rw [List.lookup_cons] at h
    split at h
    · rename_i he
      rw [beq_iff_eq] at he
      cases h; subst he
      exact List.mem_cons_self
    · exact List.mem_cons_of_mem _ (ih h)

theorem partitionEq_none {s : Str} (h : (partitionEq s).2 = none) : (partitionEq s).1 = s := by
  unfold partitionEq at *
  split at h
  · rename_i hd; simp
  · cases h

/-- What is known of an option that is not unknown. -/
theorem parseOptional_known {opts : Cli.Opts} {a : Str} {act : Act} {name : Str} {sep : Bool} {e : Option Str}
    (h : parseOptional opts a = some (.opt (.known act name sep e))) :
    (name, act) ∈ opts ∧ (e = none → startsWith name a = true) := by
  unfold parseOptional at h
  split at h
  · cases h
  split at h
  · rename_i x hl
    cases h
    exact ⟨mem_of_lookup_str hl, fun _ => by simp [startsWith]⟩
  split at h
  · cases h
  simp only at h
  split at h
  · rename_i x hl
    cases h
    split at hl
    · rename_i hs
      exact ⟨mem_of_lookup_str hl, fun hn => by rw [hn] at hs; cases hs⟩
    · cases hl
  split at h
  · cases h
  · rename_i m hm
    cases h
    have hmem : Meaning.known act name sep e ∈ optionTuples opts a := by rw [hm]; exact List.mem_singleton.mpr rfl
    unfold optionTuples at hmem
    split at hmem
    · simp only [List.mem_map, List.mem_filter] at hmem
      obtain ⟨o, ⟨ho, hp⟩, he⟩ := hmem
      cases he
      exact ⟨ho, fun hn => by rw [partitionEq_none hn] at hp; exact hp⟩
    · simp only [List.mem_filterMap] at hmem
      obtain ⟨o, ho, he⟩ := hmem
      split at he
      · cases he
        exact ⟨ho, by simp⟩
      · split at he
        · cases he
          rename_i hs
          exact ⟨ho, fun _ => hs⟩
        · cases he
  · split at h
    · cases h
    split at h <;> cases h

theorem bundle_head {opts : Cli.Opts} {act : Act} {sep : Bool} {e : Str} {r : List Act × Bool} (h : bundle opts act sep e = some r) :
    ∃ t, r.1 = act :: t := by
  cases e with
  | nil => cases h
  | cons c t =>
    unfold bundle at h
    split at h
    · cases h
    split at h
    · cases h; exact ⟨_, rfl⟩
    · split at h
      · cases h; exact ⟨_, rfl⟩
      · simp only [Option.map_eq_some_iff] at h
        obtain ⟨q, -, rfl⟩ := h
        exact ⟨_, rfl⟩
      · simp only [Option.map_eq_some_iff] at h
        obtain ⟨q, -, rfl⟩ := h
        exact ⟨_, rfl⟩

/-- An option is unknown, or its first action is one of the options'. -/
theorem consume_cases {opts : Cli.Opts} {a : Str} {m : Meaning} {r : List Act × Bool} (hp : parseOptional opts a = some (.opt m))
    (h : consume opts m = some r) :
    (m = .unknown ∧ r = ([], true)) ∨
    ∃ act name t, (name, act) ∈ opts ∧ r.1 = act :: t ∧ ((name[1]? = some '-') → startsWith name a = true ∧ r = ([act], false)) := by
  cases m with
  | unknown => left; cases h; exact ⟨rfl, rfl⟩
  | known act name sep e =>
    obtain ⟨h1, h2⟩ := parseOptional_known hp
    right
    cases e with
    | none =>
      cases h
      exact ⟨act, name, [], h1, rfl, fun _ => ⟨h2 rfl, rfl⟩⟩
    | some e =>
      simp only [consume] at h
      split at h
      · cases h
      · rename_i hn
        obtain ⟨t, ht⟩ := bundle_head h
        exact ⟨act, name, t, h1, ht, fun hc => absurd hc hn⟩

/-- Options that have no `--raw`: an option that is taken without leaving is unknown. -/
theorem takeOpt_noRaw {opts : Cli.Opts} (hraw : ∀ o ∈ opts, o.2 ≠ .raw) {command : Option Str} {a : Str} {m : Meaning} {f g : Found}
    (hp : parseOptional opts a = some (.opt m)) (h : takeOpt opts command m f = .ok g) : g = { f with extras := true } := by
  unfold takeOpt at h
  split at h
  · cases h
  · rename_i acts extra hc
    rcases consume_cases hp hc with ⟨-, he⟩ | ⟨act, name, t, h1, h2, -⟩
    · cases he
      simp only [takeActs] at h
      cases h
      simp
    · simp only at h2
      subst h2
      have := hraw _ h1
      cases act with
      | help => cases h
      | version => cases h
      | raw => exact absurd rfl this

/-- The option of `getch`. -/
theorem takeOpt_getch {command : Option Str} {a : Str} {m : Meaning} {f g : Found} (hne : a ≠ "--".toList)
    (hp : parseOptional getchOpts a = some (.opt m)) (h : takeOpt getchOpts command m f = .ok g) :
    g.extras = true ∨
    (g = { f with raw := true } ∧ (a = "--raw".toList ∨ a = "--ra".toList ∨ a = "--r".toList)) := by
  unfold takeOpt at h
  split at h
  · cases h
  · rename_i acts extra hc
    rcases consume_cases hp hc with ⟨-, he⟩ | ⟨act, name, t, h1, h2, h3⟩
    · cases he
      simp only [takeActs] at h
      cases h
      simp
    · simp only at h2
      subst h2
      simp only [getchOpts, plainOpts, List.cons_append, List.nil_append, List.mem_cons, Prod.mk.injEq, List.not_mem_nil, or_false] at h1
      rcases h1 with ⟨-, rfl⟩ | ⟨-, rfl⟩ | ⟨rfl, rfl⟩
      · cases h
      · cases h
      · obtain ⟨h4, h5⟩ := h3 rfl
        cases h5
        simp only [takeActs, Bool.or_false] at h
        cases h
        right
        refine ⟨rfl, ?_⟩
        have hd : startsWith a ['-'] = true := by
          by_contra hn
          have hn : startsWith a ['-'] = false := by simpa using hn
          unfold parseOptional at hp
          rw [if_pos hn] at hp
          cases hp
        have hlen : a ≠ "-".toList := by
          rintro rfl
          rw [show parseOptional getchOpts "-".toList = some .arg by decide] at hp
          cases hp
        simp only [startsWith, List.isPrefixOf_iff_prefix] at h4 hd
        obtain ⟨u, hu⟩ := h4
        obtain ⟨v, rfl⟩ := hd
        clear hp hc
        match v, hu with
        | [], _ => exact absurd rfl hlen
        | [b], hu => simp at hu; exact absurd (by simp [hu.1]) hne
        | [b, c], hu => simp at hu; right; right; simp [hu]
        | [b, c, d], hu => simp at hu; right; left; simp [hu]
        | [b, c, d, e], hu => simp at hu; left; simp [hu]
        | b :: c :: d :: e :: _ :: _, hu => simp at hu

theorem walkSub_extras {opts : Cli.Opts} {command : Str} (ks : List (Str × Kind)) (f g : Found) (hf : f.extras = true)
    (h : walkSub opts command ks f = .ok g) : g.extras = true := by
  have hacts : ∀ (acts : List Act) (f g : Found), f.extras = true → takeActs (some command) acts f = .ok g → g.extras = true := by
    intro acts
    induction acts with
    | nil => intro f g hf h; cases h; exact hf
    | cons a acts ih =>
      intro f g hf h
      cases a with
      | help => cases h
      | version => cases h
      | raw => exact ih _ _ (by exact hf) h
  induction ks generalizing f with
  | nil => cases h; exact hf
  | cons k ks ih =>
    obtain ⟨a, k⟩ := k
    cases k with
    | arg => exact ih _ rfl h
    | dashes => exact ih _ rfl h
    | opt m =>
      simp only [walkSub, takeOpt] at h
      split at h
      · cases h
      · rename_i acts extra hf'
        cases ht : takeActs (some command) acts { raw := f.raw, extras := f.extras || extra } with
        | error e => rw [ht] at h; cases h
        | ok f' =>
          rw [ht] at h
          exact ih f' (hacts _ _ _ (by simp [hf]) ht) h

theorem walkSub_other {opts : Cli.Opts} {command : Str} {a : Str} {k : Kind} {ks : List (Str × Kind)} {f g : Found} (hk : ∀ m, k ≠ .opt m)
    (h : walkSub opts command ((a, k) :: ks) f = .ok g) : g.extras = true := by
  cases k with
  | opt m => exact absurd rfl (hk m)
  | arg => exact walkSub_extras ks { f with extras := true } g rfl h
  | dashes => exact walkSub_extras ks { f with extras := true } g rfl h

theorem kinds_cons {opts : Cli.Opts} {a : Str} {rest : List Str} {ks : List (Str × Kind)} (h : kinds opts (a :: rest) = some ks) :
    (a = "--".toList ∧ ks = (a, .dashes) :: rest.map fun b => (b, .arg)) ∨
    ∃ k ks', a ≠ "--".toList ∧ parseOptional opts a = some k ∧ kinds opts rest = some ks' ∧ ks = (a, k) :: ks' := by
  rw [kinds] at h
  split at h
  · rename_i he
    cases h
    exact .inl ⟨he, rfl⟩
  · rename_i hne
    simp only [Option.bind_eq_bind, Option.bind_eq_some_iff] at h
    obtain ⟨k, hk, ks', hks, he⟩ := h
    cases he
    exact .inr ⟨k, ks', hne, hk, hks, rfl⟩

theorem kinds_fst {opts : Cli.Opts} (args : List Str) {ks : List (Str × Kind)} (h : kinds opts args = some ks) : ks.map (·.1) = args := by
  induction args generalizing ks with
  | nil => cases h; rfl
  | cons a rest ih =>
    rcases kinds_cons h with ⟨-, rfl⟩ | ⟨k, ks', -, -, h3, rfl⟩
    · simp [Function.comp_def]
    · simp [ih h3]

theorem parseSub_plain {opts : Cli.Opts} (hraw : ∀ o ∈ opts, o.2 ≠ .raw) {command : Str} {args : List Str} {f : Found}
    (h : parseSub opts command args = .ok f) (he : f.extras = false) : args = [] := by
  unfold parseSub at h
  split at h
  · cases h
  · rename_i ks hk
    cases args with
    | nil => rfl
    | cons a rest =>
      exfalso
      rcases kinds_cons hk with ⟨-, rfl⟩ | ⟨k, ks', h1, h2, h3, rfl⟩
      · rw [walkSub_other (by simp) h] at he; cases he
      · cases k with
        | arg => rw [walkSub_other (by simp) h] at he; cases he
        | dashes => rw [walkSub_other (by simp) h] at he; cases he
        | opt m =>
          simp only [walkSub] at h
          cases ht : takeOpt opts (some command) m {} with
          | error e => rw [ht] at h; cases h
          | ok g =>
            rw [ht] at h
            rw [walkSub_extras _ g _ (by rw [takeOpt_noRaw hraw h2 ht]) h] at he
            cases he

theorem walkSub_getch {command : Str} (args : List Str) {ks : List (Str × Kind)} (hk : kinds getchOpts args = some ks) (f g : Found)
    (h : walkSub getchOpts command ks f = .ok g) (he : g.extras = false) :
    (∀ a ∈ args, a = "--raw".toList ∨ a = "--ra".toList ∨ a = "--r".toList) ∧ g.raw = (f.raw || !args.isEmpty) := by
  induction args generalizing ks f with
  | nil => cases hk; cases h; simp
  | cons a rest ih =>
    rcases kinds_cons hk with ⟨-, rfl⟩ | ⟨k, ks', h1, h2, h3, rfl⟩
    · rw [walkSub_other (by simp) h] at he; cases he
    · cases k with
      | arg => rw [walkSub_other (by simp) h] at he; cases he
      | dashes => rw [walkSub_other (by simp) h] at he; cases he
      | opt m =>
        simp only [walkSub] at h
        cases ht : takeOpt getchOpts (some command) m f with
        | error e => rw [ht] at h; cases h
        | ok f' =>
          rw [ht] at h
          rcases takeOpt_getch h1 h2 ht with hx | ⟨hx, hn⟩
          · rw [walkSub_extras _ f' _ hx h] at he; cases he
          · obtain ⟨i1, i2⟩ := ih h3 f' h
            refine ⟨?_, ?_⟩
            · intro b hb
              rcases List.mem_cons.mp hb with rfl | hb
              · exact hn
              · exact i1 b hb
            · rw [i2, hx]; simp

theorem runSub_names {a : Str} {args : List Str} {c : Cmd} (h : runSub a args = .ok (c, false)) : Names (a :: args) c := by
  unfold runSub at h
  split at h
  · rename_i ha
    subst ha
    cases hp : parseSub getchOpts "getch".toList args with
    | error e => rw [hp] at h; cases h
    | ok f =>
      rw [hp] at h
      injection h with h
      injection h with h1 h2
      subst h1
      unfold parseSub at hp
      split at hp
      · cases hp
      · rename_i ks hk
        obtain ⟨i1, i2⟩ := walkSub_getch args hk _ _ hp h2
        rw [i2]
        exact .getch args i1
  split at h
  · rename_i ha
    subst ha
    cases hp : parseSub plainOpts "size".toList args with
    | error e => rw [hp] at h; cases h
    | ok f =>
      rw [hp] at h
      injection h with h
      injection h with h1 h2
      subst h1
      rw [parseSub_plain (by decide) hp h2]
      exact .size
  split at h
  · rename_i ha
    subst ha
    cases hp : parseSub plainOpts "debug".toList args with
    | error e => rw [hp] at h; cases h
    | ok f =>
      rw [hp] at h
      injection h with h
      injection h with h1 h2
      subst h1
      rw [parseSub_plain (by decide) hp h2]
      exact .debug
  · cases h

theorem walkTop_extras (args : List Str) {ks : List (Str × Kind)} (hk : kinds topOpts args = some ks) (f : Found) (hf : f.extras = true)
    {c : Cmd} {b : Bool} (h : walkTop ks f = .ok (c, b)) : b = true := by
  induction args generalizing ks f with
  | nil => cases hk; cases h
  | cons a rest ih =>
    rcases kinds_cons hk with ⟨-, rfl⟩ | ⟨k, ks', h1, h2, h3, rfl⟩
    · cases h
    · cases k with
      | arg =>
        simp only [walkTop] at h
        cases hr : runSub a (ks'.map (·.1)) with
        | error e => rw [hr] at h; cases h
        | ok r =>
          rw [hr] at h
          injection h with h
          injection h with h4 h5
          rw [← h5, hf]; rfl
      | dashes => cases h
      | opt m =>
        simp only [walkTop] at h
        cases ht : takeOpt topOpts none m f with
        | error e => rw [ht] at h; cases h
        | ok g =>
          rw [ht] at h
          exact ih h3 g (by rw [takeOpt_noRaw (by decide) h2 ht]) h

/-- **C114**: a command is run exactly for the command lines that name it. -/
theorem C114_runs (args : List Str) (c : Cmd) : parseArgs args = .ok c ↔ Names args c := by
  constructor
  · intro h
    unfold parseArgs at h
    split at h
    · cases h
    rename_i ks hk
    split at h
    · cases h
    · cases h
    · rename_i c' hw
      cases h
      cases args with
      | nil => cases hk; cases hw
      | cons a rest =>
        rcases kinds_cons hk with ⟨-, rfl⟩ | ⟨k, ks', h1, h2, h3, rfl⟩
        · cases hw
        · cases k with
          | arg =>
            simp only [walkTop] at hw
            cases hr : runSub a (ks'.map (·.1)) with
            | error e => rw [hr] at hw; cases hw
            | ok r =>
              rw [hr] at hw
              obtain ⟨c', b⟩ := r
              injection hw with hw
              injection hw with h4 h5
              simp only [Bool.false_or] at h5
              subst h4 h5
              rw [kinds_fst rest h3] at hr
              exact runSub_names hr
          | dashes => cases hw
          | opt m =>
            simp only [walkTop] at hw
            cases ht : takeOpt topOpts none m {} with
            | error e => rw [ht] at hw; cases hw
            | ok g =>
              rw [ht] at hw
              have := walkTop_extras rest h3 g (by rw [takeOpt_noRaw (by decide) h2 ht]) hw
              cases this
  · intro h
    cases h with
    | size => decide +kernel
    | debug => decide +kernel
    | getch flags hfl =>
      have h1 : ∃ ks, kinds topOpts flags = some ks := by
        induction flags with
        | nil => exact ⟨[], rfl⟩
        | cons a rest ih =>
          obtain ⟨ks, hks⟩ := ih fun b hb => hfl b (List.mem_cons_of_mem _ hb)
          rw [kinds, hks]
          rcases hfl a List.mem_cons_self with rfl | rfl | rfl
          · exact ⟨(_, .opt .unknown) :: ks, by rw [if_neg (by decide), show parseOptional topOpts _ = some (.opt .unknown) by decide +kernel]; rfl⟩
          · exact ⟨(_, .opt .unknown) :: ks, by rw [if_neg (by decide), show parseOptional topOpts _ = some (.opt .unknown) by decide +kernel]; rfl⟩
          · exact ⟨(_, .opt .unknown) :: ks, by rw [if_neg (by decide), show parseOptional topOpts _ = some (.opt .unknown) by decide +kernel]; rfl⟩
      have h2 : kinds getchOpts flags = some (flags.map fun a => (a, .opt (.known .raw "--raw".toList false none))) := by
        clear h1
        induction flags with
        | nil => rfl
        | cons a rest ih =>
          rw [kinds, ih fun b hb => hfl b (List.mem_cons_of_mem _ hb)]
          rcases hfl a List.mem_cons_self with rfl | rfl | rfl
          · rw [if_neg (by decide), show parseOptional getchOpts _ = some (.opt (.known .raw "--raw".toList false none)) by decide +kernel]; rfl
          · rw [if_neg (by decide), show parseOptional getchOpts _ = some (.opt (.known .raw "--raw".toList false none)) by decide +kernel]; rfl
          · rw [if_neg (by decide), show parseOptional getchOpts _ = some (.opt (.known .raw "--raw".toList false none)) by decide +kernel]; rfl
      have h3 : ∀ (l : List Str) (f : Found), walkSub getchOpts "getch".toList
          (l.map fun a => (a, .opt (.known .raw "--raw".toList false none))) f = .ok { f with raw := f.raw || !l.isEmpty } := by
        intro l
        induction l with
        | nil => intro f; simp [walkSub]
        | cons a l ih =>
          intro f
          rw [List.map_cons, walkSub]
          have : takeOpt getchOpts (some "getch".toList) (.known .raw "--raw".toList false none) f = .ok { f with raw := true } := by
            simp [takeOpt, consume, takeActs]
          rw [this]
          exact (ih _).trans (by simp)
      obtain ⟨ks, hks⟩ := h1
      have h4 : kinds topOpts ("getch".toList :: flags) = some (("getch".toList, .arg) :: ks) := by
        rw [kinds, hks, if_neg (by decide)]; rfl
      have h5 : runSub "getch".toList flags = .ok (.getch (!flags.isEmpty), false) := by
        unfold runSub parseSub
        rw [if_pos rfl, h2]
        simp only [h3]
        simp; rfl
      unfold parseArgs
      rw [h4]
      simp only [walkTop, kinds_fst flags hks, h5]
      rfl

/-- A command line that runs a command: `slate getch --raw --ra`. -/
example : Names ["getch".toList, "--raw".toList, "--ra".toList] (.getch true) := .getch ["--raw".toList, "--ra".toList] (by decide)

/-- **C114**: what is printed is what the command prints, between two empty lines. -/
theorem C114_printed (run : Cmd → Str) (args : List Str) (out : Str) :
    Cli.main run args = .ok out ↔ ∃ c, Names args c ∧ out = "\n".toList ++ run c ++ "\n".toList := by
  unfold Cli.main
  constructor
  · intro h
    cases hp : parseArgs args with
    | error e => rw [hp] at h; cases h
    | ok c =>
      rw [hp] at h
      injection h with h
      exact ⟨c, (C114_runs args c).mp hp, h.symm⟩
  · rintro ⟨c, hc, rfl⟩
    rw [(C114_runs args c).mpr hc]
    rfl

theorem Names.unique {args : List Str} {c d : Cmd} (h : Names args c) (h' : Names args d) : c = d := by
  have := (C114_runs args c).mpr h
  rw [(C114_runs args d).mpr h'] at this
  injection this with this
  exact this.symm

/-! ### Which abbreviations are ambiguous -/

theorem partitionEq_head (c d e : Char) (u : Str) (hc : c ≠ '=') (hd : d ≠ '=') (he : e ≠ '=') :
    ∃ q, (partitionEq (c :: d :: e :: u)).1 = c :: d :: e :: q := by
  unfold partitionEq
  split
  · exact ⟨u, rfl⟩
  · simp only [List.takeWhile_cons, bne_iff_ne, ne_eq, hc, not_false_eq_true, hd, he, if_true]
    exact ⟨_, rfl⟩

/-- Only texts that begin with `--=` are ambiguous. -/
theorem parseOptional_top {a : Str} (hne : a ≠ "--".toList) (h : parseOptional topOpts a = none) : startsWith a "--=".toList = true := by
  unfold parseOptional at h
  split at h
  · cases h
  rename_i hd
  split at h
  · cases h
  split at h
  · cases h
  rename_i hlen
  simp only at h
  split at h
  · cases h
  split at h
  · rename_i x y l hx
    clear h
    match a, hd, hlen with
    | [], hd, _ => exact absurd rfl hd
    | [_], _, hlen => exact absurd rfl hlen
    | c :: b :: t, hd, _ =>
      have hc : c = '-' := by
        by_contra hn
        apply hd
        simp only [startsWith, List.isPrefixOf_cons_cons, Bool.and_eq_false_imp, beq_iff_eq]
        intro hh
        exact absurd hh.symm hn
      subst hc
      unfold optionTuples at hx
      split at hx
      · rename_i h1
        simp only [List.getElem?_cons_succ, List.getElem?_cons_zero, Option.some.injEq] at h1
        subst h1
        match t with
        | [] => exact absurd rfl hne
        | e :: u =>
          by_cases he : e = '='
          · subst he; rfl
          · exfalso
            obtain ⟨q, hq⟩ := partitionEq_head '-' '-' e u (by decide) (by decide) he
            have hl := congrArg List.length hx
            rw [List.length_map, ← List.countP_eq_length_filter] at hl
            simp only [hq] at hl
            have e1 : startsWith "-h".toList ('-' :: '-' :: e :: q) = false := rfl
            have e2 : startsWith "--help".toList ('-' :: '-' :: e :: q) = (e == 'h' && q.isPrefixOf "elp".toList) := rfl
            have e3 : startsWith "-v".toList ('-' :: '-' :: e :: q) = false := rfl
            have e4 : startsWith "--version".toList ('-' :: '-' :: e :: q) = (e == 'v' && q.isPrefixOf "ersion".toList) := rfl
            simp only [topOpts, List.countP_cons, List.countP_nil, e1, e2, e3, e4, List.length_cons] at hl
            by_cases h1 : e = 'h'
            · have h2 : (e == 'v') = false := by rw [h1]; rfl
              rw [h2] at hl
              simp only [Bool.false_and, Bool.false_eq_true, if_false] at hl
              split at hl <;> omega
            · have h2 : (e == 'h') = false := by simpa using h1
              rw [h2] at hl
              simp only [Bool.false_and, Bool.false_eq_true, if_false] at hl
              split at hl <;> omega
      · rename_i h1
        exfalso
        simp only [List.getElem?_cons_succ, List.getElem?_cons_zero, Option.some.injEq] at h1
        have e1 : startsWith "--help".toList ('-' :: b :: t) = false := by
          have : startsWith "--help".toList ('-' :: b :: t) = (b == '-' && t.isPrefixOf "help".toList) := rfl
          rw [this]; simp [h1]
        have e2 : startsWith "--version".toList ('-' :: b :: t) = false := by
          have : startsWith "--version".toList ('-' :: b :: t) = (b == '-' && t.isPrefixOf "version".toList) := rfl
          rw [this]; simp [h1]
        have hl := congrArg List.length hx
        rw [List.length_filterMap_eq_countP] at hl
        have hle := List.countP_mono_left (l := topOpts)
          (p := fun o => (if o.1 = List.take 2 ('-' :: b :: t) then some (Meaning.known o.2 o.1 false (some (List.drop 2 ('-' :: b :: t))))
            else if startsWith o.1 ('-' :: b :: t) then some (.known o.2 o.1 false none) else none).isSome)
          (q := fun o => o.1 == '-' :: b :: []) (by
            intro o ho hf
            split at hf
            · rename_i h2; exact beq_iff_eq.mpr h2
            · split at hf
              · rename_i h2 h3
                exfalso
                simp only [topOpts, List.mem_cons, List.not_mem_nil, or_false] at ho
                rcases ho with rfl | rfl | rfl | rfl
                · have p1 : startsWith "-h".toList ('-' :: b :: t) = (b == 'h' && t.isPrefixOf []) := rfl
                  rw [p1] at h3
                  simp only [Bool.and_eq_true, beq_iff_eq] at h3
                  exact h2 (by rw [h3.1]; rfl)
                · rw [e1] at h3; cases h3
                · have p1 : startsWith "-v".toList ('-' :: b :: t) = (b == 'v' && t.isPrefixOf []) := rfl
                  rw [p1] at h3
                  simp only [Bool.and_eq_true, beq_iff_eq] at h3
                  exact h2 (by rw [h3.1]; rfl)
                · rw [e2] at h3; cases h3
              · cases hf)
        have hone : topOpts.countP (fun o => o.1 == '-' :: b :: []) ≤ 1 := by
          have : (topOpts.map (·.1)).count ('-' :: b :: []) ≤ 1 :=
            List.nodup_iff_count_le_one.mp (by decide) _
          rw [List.count, List.countP_map] at this
          exact this
        simp only [List.length_cons] at hl
        omega
  · cases h
  · split at h
    · cases h
    split at h <;> cases h

theorem kinds_top (args : List Str) (h : ∀ a ∈ args, startsWith a "--=".toList = false) : ∃ ks, kinds topOpts args = some ks := by
  induction args with
  | nil => exact ⟨[], rfl⟩
  | cons a rest ih =>
    obtain ⟨ks, hks⟩ := ih fun b hb => h b (List.mem_cons_of_mem _ hb)
    rw [kinds]
    split
    · exact ⟨_, rfl⟩
    · rename_i hne
      cases hp : parseOptional topOpts a with
      | none =>
        have := h a List.mem_cons_self
        rw [parseOptional_top hne hp] at this
        cases this
      | some k => exact ⟨(a, k) :: ks, by rw [hks]; rfl⟩

/-- **C114**: the help, or the version, is shown if it is asked for first, whatever follows; only texts that begin with `--=` are refused before
anything else is done. -/
theorem C114_asked (args : List Str) (h : ∀ a ∈ args, startsWith a "--=".toList = false) (a : Str) :
    (a = "-h".toList ∨ a = "--help".toList → parseArgs (a :: args) = .error (.help none)) ∧
    (a = "-v".toList ∨ a = "--version".toList → parseArgs (a :: args) = .error .version) := by
  obtain ⟨ks, hks⟩ := kinds_top args h
  constructor
  · rintro (rfl | rfl)
    · unfold parseArgs
      rw [kinds, hks, if_neg (by decide), show parseOptional topOpts "-h".toList = some (.opt (.known .help "-h".toList false none)) by decide]
      rfl
    · unfold parseArgs
      rw [kinds, hks, if_neg (by decide), show parseOptional topOpts "--help".toList = some (.opt (.known .help "--help".toList false none)) by decide]
      rfl
  · rintro (rfl | rfl)
    · unfold parseArgs
      rw [kinds, hks, if_neg (by decide), show parseOptional topOpts "-v".toList = some (.opt (.known .version "-v".toList false none)) by decide]
      rfl
    · unfold parseArgs
      rw [kinds, hks, if_neg (by decide), show parseOptional topOpts "--version".toList = some (.opt (.known .version "--version".toList false none)) by decide]
      rfl

theorem kinds_plain {opts : Cli.Opts} (args : List Str) (h : ∀ a ∈ args, startsWith a ['-'] = false) :
    kinds opts args = some (args.map fun a => (a, .arg)) := by
  induction args with
  | nil => rfl
  | cons a rest ih =>
    have ha := h a List.mem_cons_self
    rw [kinds, ih fun b hb => h b (List.mem_cons_of_mem _ hb), if_neg (by rintro rfl; exact absurd ha (by decide))]
    unfold parseOptional
    rw [if_pos ha]
    rfl

theorem parseSub_words {opts : Cli.Opts} {command : Str} (args : List Str) (h : ∀ a ∈ args, startsWith a ['-'] = false) :
    ∃ f, parseSub opts command args = .ok f := by
  unfold parseSub
  rw [kinds_plain args h]
  simp only
  have : ∀ (l : List Str) (f : Found), ∃ g, walkSub opts command (l.map fun a => (a, .arg)) f = .ok g := by
    intro l
    induction l with
    | nil => intro f; exact ⟨f, rfl⟩
    | cons a l ih => intro f; exact ih _
  exact this args {}

/-- **C114**: without an argument that begins with a dash, either a command is run or the command line is refused. -/
theorem C114_words (args : List Str) (h : ∀ a ∈ args, startsWith a ['-'] = false) :
    parseArgs args = .error .usage ∨ args = ["getch".toList] ∨ args = ["size".toList] ∨ args = ["debug".toList] := by
  cases hp : parseArgs args with
  | ok c =>
    right
    cases (C114_runs args c).mp hp with
    | size => simp
    | debug => simp
    | getch flags hfl =>
      left
      cases flags with
      | nil => rfl
      | cons a rest =>
        have := h a (by simp)
        rcases hfl a List.mem_cons_self with rfl | rfl | rfl <;> exact absurd this (by decide)
  | error e =>
    left
    unfold parseArgs at hp
    rw [kinds_plain args h] at hp
    simp only at hp
    cases args with
    | nil => exact hp.symm
    | cons a rest =>
      have hrest : ∀ b ∈ rest, startsWith b ['-'] = false := fun b hb => h b (List.mem_cons_of_mem _ hb)
      simp only [List.map_cons, walkTop, List.map_map, Function.comp_def, List.map_id'] at hp
      cases hr : runSub a rest with
      | ok r =>
        rw [hr] at hp
        obtain ⟨c, b⟩ := r
        cases b
        · cases hp
        · exact hp.symm
      | error e' =>
        have : e' = .usage := by
          unfold runSub at hr
          split at hr
          · obtain ⟨f, hf⟩ := parseSub_words (opts := getchOpts) (command := a) rest hrest
            rw [hf] at hr; cases hr
          split at hr
          · obtain ⟨f, hf⟩ := parseSub_words (opts := plainOpts) (command := a) rest hrest
            rw [hf] at hr; cases hr
          split at hr
          · obtain ⟨f, hf⟩ := parseSub_words (opts := plainOpts) (command := a) rest hrest
            rw [hf] at hr; cases hr
          · cases hr; rfl
        rw [hr] at hp
        rw [this] at hp
        exact hp.symm

/-- A command line of words that is refused, and one that is not. -/
example : parseArgs ["size".toList, "x".toList] = .error .usage ∧ parseArgs ["size".toList] = .ok .size := by decide +kernel

end Slate
