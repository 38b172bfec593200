import Verif.Model.Cli
import Mathlib.Data.List.Infix

/-!
# Properties C64, C84: command line and aircraft database
-/

namespace Verif

/-! ## Specification -/

/-- The option as it is typed, without its argument. -/
def Opt.flag : Opt → String
  | .run _ => "--run"
  | .cpacs2json _ => "--cpacs2json"
  | .makeExample => "--make-example"
  | .listDb => "--list-example-from-db"
  | .makeFromDb _ => "--make-example-from-db"
  | .verbose => "--verbose"
  | .debug => "--debug"
  | .quiet => "--quiet"
  | .clean => "--clean"
  | .cleanOnly => "--clean-only"

/-- The options of which only one can be given: what to do. -/
def mainFlags : List String :=
  ["--run", "--cpacs2json", "--make-example", "--list-example-from-db", "--make-example-from-db"]

/-- All lists of options of which only one can be given. -/
def exclusiveFlags : List (List String) :=
  [mainFlags, ["--verbose", "--debug", "--quiet"], ["--clean", "--clean-only"]]

/-- Two options which exclude each other. -/
def Conflict (opts : List Opt) : Prop :=
  ∃ g ∈ exclusiveFlags, ∃ o ∈ opts, ∃ p ∈ opts, o.flag ∈ g ∧ p.flag ∈ g ∧ o.flag ≠ p.flag

/-- The main option on the command line; if it is repeated, the last one counts. -/
def mainOpt (opts : List Opt) : Option Opt := (opts.filter fun o => o.flag ∈ mainFlags).getLast?

/-- The main action that belongs to the main option. -/
def Requested (files : List Name) (opts : List Opt) : Action → Prop
  | .clean _ => False
  | .run f => mainOpt opts = some (.run f)
  | .convert f => mainOpt opts = some (.cpacs2json f)
  | .makeExample => mainOpt opts = some .makeExample
  | .makeExampleFrom f => ∃ n, mainOpt opts = some (.makeFromDb n) ∧ f ∈ files
  | .list => mainOpt opts = some .listDb
  | .help => mainOpt opts = none ∨ mainOpt opts = some (.run []) ∨
      mainOpt opts = some (.cpacs2json [])

/-- A flag for cleaning is given. -/
def CleanGiven (opts : List Opt) : Prop := .clean ∈ opts ∨ .cleanOnly ∈ opts

/-- Removal of old result files. -/
def Action.isClean : Action → Bool
  | .clean _ => true
  | _ => false

/-! ## Parsing -/

theorem flag_main (o : Opt) : (decide (o.flag ∈ mainFlags)) = (o.group == 0) := by
  cases o <;> rfl

theorem flag_exclusive (o p : Opt) :
    (∃ g ∈ exclusiveFlags, o.flag ∈ g ∧ p.flag ∈ g ∧ o.flag ≠ p.flag) ↔
      o.group = p.group ∧ o.kind ≠ p.kind := by
  cases o <;> cases p <;> simp [exclusiveFlags, mainFlags, Opt.flag, Opt.group, Opt.kind]

theorem conflict_iff (opts : List Opt) :
    Conflict opts ↔ ∃ o ∈ opts, ∃ p ∈ opts, o.group = p.group ∧ o.kind ≠ p.kind := by
  constructor
  · rintro ⟨g, hg, o, ho, p, hp, h⟩
    exact ⟨o, ho, p, hp, (flag_exclusive o p).1 ⟨g, hg, h⟩⟩
  · rintro ⟨o, ho, p, hp, h⟩
    obtain ⟨g, hg, h'⟩ := (flag_exclusive o p).2 h
    exact ⟨g, hg, o, ho, p, hp, h'⟩

/-- Argument of `--run`. -/
def Opt.run? : Opt → Option Name
  | .run f => some f
  | _ => none

/-- Argument of `--cpacs2json`. -/
def Opt.conv? : Opt → Option Name
  | .cpacs2json f => some f
  | _ => none

/-- Argument of `--make-example-from-db`. -/
def Opt.db? : Opt → Option Name
  | .makeFromDb f => some f
  | _ => none

/-- The stored arguments are those given (latest first). -/
structure Stored (seen : List Opt) (a : CliArgs) : Prop where
  run : a.run = seen.findSome? Opt.run?
  conv : a.cpacs2json = seen.findSome? Opt.conv?
  db : a.makeFromDb = seen.findSome? Opt.db?
  make : a.makeExample = true ↔ .makeExample ∈ seen
  list : a.listDb = true ↔ .listDb ∈ seen
  clean : a.clean = true ↔ .clean ∈ seen
  only : a.cleanOnly = true ↔ .cleanOnly ∈ seen

theorem Stored.store {seen : List Opt} {a : CliArgs} (h : Stored seen a) (o : Opt) :
    Stored (o :: seen) (a.store o) := by
  obtain ⟨h1, h2, h3, h4, h5, h6, h7⟩ := h
  cases o <;> constructor <;>
    first
    | rfl
    | assumption
    | simp_all [CliArgs.store]

theorem parseArgs_some {opts : List Opt} : ∀ {seen : List Opt} {a b : CliArgs}, Stored seen a →
    ¬ Conflict seen → parseArgs seen a opts = some b →
    Stored (opts.reverse ++ seen) b ∧ ¬ Conflict (opts.reverse ++ seen) := by
  induction opts with
  | nil =>
    intro seen a b h hc hp
    simp only [parseArgs, Option.some.injEq] at hp
    subst hp
    exact ⟨h, hc⟩
  | cons o os ih =>
    intro seen a b h hc hp
    simp only [parseArgs] at hp
    split_ifs at hp with hs
    have hc' : ¬ Conflict (o :: seen) := by
      intro hcc
      obtain ⟨p, hp1, q, hq1, e, ne⟩ := (conflict_iff _).1 hcc
      simp only [List.any_eq_true, Bool.and_eq_true, beq_iff_eq, bne_iff_ne, not_exists, not_and,
        not_not] at hs
      rcases List.mem_cons.1 hp1 with rfl | hp2 <;> rcases List.mem_cons.1 hq1 with rfl | hq2
      · exact ne rfl
      · exact ne (hs q hq2 e.symm).symm
      · exact ne (hs p hp2 e)
      · exact hc ((conflict_iff _).2 ⟨p, hp2, q, hq2, e, ne⟩)
    have := ih (h.store o) hc' hp
    simpa using this

theorem parseArgs_none {opts : List Opt} : ∀ {seen : List Opt} {a : CliArgs},
    parseArgs seen a opts = none → Conflict (opts.reverse ++ seen) := by
  induction opts with
  | nil =>
    intro seen a hp
    simp [parseArgs] at hp
  | cons o os ih =>
    intro seen a hp
    simp only [parseArgs] at hp
    split_ifs at hp with hs
    · simp only [List.any_eq_true, Bool.and_eq_true, beq_iff_eq, bne_iff_ne] at hs
      obtain ⟨p, hp1, e, ne⟩ := hs
      exact (conflict_iff _).2 ⟨p, by simp [hp1], o, by simp, e, ne⟩
    · simpa using ih hp

theorem stored_nil : Stored [] {} := by
  constructor <;> simp

theorem conflict_reverse {opts : List Opt} : Conflict opts.reverse ↔ Conflict opts := by
  simp [Conflict]

/-- Either the parser gives up because of a conflict, or the arguments are those given. -/
theorem parse_cases (opts : List Opt) :
    (parseArgs [] {} opts = none ∧ Conflict opts) ∨
    ∃ a, parseArgs [] {} opts = some a ∧ Stored opts.reverse a ∧ ¬ Conflict opts := by
  cases h : parseArgs [] {} opts with
  | none =>
    have := parseArgs_none h
    rw [List.append_nil, conflict_reverse] at this
    exact .inl ⟨rfl, this⟩
  | some a =>
    obtain ⟨h1, h2⟩ := parseArgs_some stored_nil (by simp [Conflict]) h
    rw [List.append_nil] at h1 h2
    rw [conflict_reverse] at h2
    exact .inr ⟨a, rfl, h1, h2⟩

theorem mainOpt_eq (opts : List Opt) :
    mainOpt opts = opts.reverse.find? fun o => o.group == 0 := by
  unfold mainOpt
  simp only [flag_main]
  rw [← List.head?_reverse, ← List.filter_reverse, List.head?_filter]

/-- What the stored arguments say about the main option. -/
theorem main_cases {seen : List Opt} {a : CliArgs} (h : Stored seen a) (hc : ¬ Conflict seen) :
    match seen.find? fun o => o.group == 0 with
    | none => a.run = none ∧ a.cpacs2json = none ∧ a.makeExample = false ∧ a.makeFromDb = none ∧
        a.listDb = false
    | some (.run f) => a.run = some f ∧ a.cpacs2json = none ∧ a.makeExample = false ∧
        a.makeFromDb = none ∧ a.listDb = false
    | some (.cpacs2json f) => a.run = none ∧ a.cpacs2json = some f ∧ a.makeExample = false ∧
        a.makeFromDb = none ∧ a.listDb = false
    | some .makeExample => a.run = none ∧ a.cpacs2json = none ∧ a.makeExample = true
    | some (.makeFromDb n) => a.run = none ∧ a.cpacs2json = none ∧ a.makeExample = false ∧
        a.makeFromDb = some n
    | some .listDb => a.run = none ∧ a.cpacs2json = none ∧ a.makeExample = false ∧
        a.makeFromDb = none ∧ a.listDb = true
    | some _ => False := by
  have key : ∀ {β : Type} (g : Opt → Option β) (seen : List Opt) (o : Opt),
      (∀ p, (g p).isSome = true → p.group = 0) → (seen.find? fun o => o.group == 0) = some o →
      (g o).isSome = true → seen.findSome? g = g o := by
    intro β g seen o hg
    induction seen with
    | nil => simp
    | cons p ps ih =>
      intro hf ho
      rw [List.find?_cons] at hf
      rw [List.findSome?_cons]
      by_cases hp : p.group = 0
      · simp only [hp, beq_self_eq_true, Option.some.injEq] at hf
        subst hf
        cases e : g p with
        | none => rw [e] at ho; cases ho
        | some x => rfl
      · have e0 : (p.group == 0) = false := by simpa using hp
        rw [e0] at hf
        cases e : g p with
        | none => exact ih hf ho
        | some x => exact absurd (hg p (by rw [e]; rfl)) hp
  have hex : ∀ o ∈ seen, ∀ p ∈ seen, o.group = p.group → o.kind = p.kind := by
    intro o h1 p h2 e
    by_contra hne
    exact hc ((conflict_iff _).2 ⟨o, h1, p, h2, e, hne⟩)
  have hno : ∀ {β : Type} (g : Opt → Option β), (∀ p ∈ seen, g p = none) →
      seen.findSome? g = none := by
    intro β g hg
    rw [List.findSome?_eq_none_iff]
    exact hg
  cases hf : seen.find? fun o => o.group == 0 with
  | none =>
    simp only []
    rw [List.find?_eq_none] at hf
    have hf' : ∀ p ∈ seen, p.group ≠ 0 := fun p hp => by simpa using hf p hp
    refine ⟨?_, ?_, ?_, ?_, ?_⟩
    · rw [h.run]
      apply hno
      intro p hp
      cases p <;> first | rfl | exact absurd rfl (hf' _ hp)
    · rw [h.conv]
      apply hno
      intro p hp
      cases p <;> first | rfl | exact absurd rfl (hf' _ hp)
    · by_contra hm
      rw [Bool.not_eq_false, h.make] at hm
      exact hf' _ hm rfl
    · rw [h.db]
      apply hno
      intro p hp
      cases p <;> first | rfl | exact absurd rfl (hf' _ hp)
    · by_contra hm
      rw [Bool.not_eq_false, h.list] at hm
      exact hf' _ hm rfl
  | some o =>
    have hm := List.mem_of_find?_eq_some hf
    have hg : o.group = 0 := by simpa using List.find?_some hf
    have hk : ∀ p ∈ seen, p.group = 0 → p.kind = o.kind := fun p hp e => hex p hp o hm (by rw [e, hg])
    have n1 : o.kind ≠ 0 → a.run = none := by
      intro hne
      rw [h.run]
      apply hno
      intro p hp
      cases p <;> first | rfl | exact absurd (hk _ hp rfl).symm hne
    have n2 : o.kind ≠ 1 → a.cpacs2json = none := by
      intro hne
      rw [h.conv]
      apply hno
      intro p hp
      cases p <;> first | rfl | exact absurd (hk _ hp rfl).symm hne
    have n3 : o.kind ≠ 2 → a.makeExample = false := by
      intro hne
      by_contra hx
      rw [Bool.not_eq_false, h.make] at hx
      exact hne (hk _ hx rfl).symm
    have n4 : o.kind ≠ 4 → a.makeFromDb = none := by
      intro hne
      rw [h.db]
      apply hno
      intro p hp
      cases p <;> first | rfl | exact absurd (hk _ hp rfl).symm hne
    have n5 : o.kind ≠ 3 → a.listDb = false := by
      intro hne
      by_contra hx
      rw [Bool.not_eq_false, h.list] at hx
      exact hne (hk _ hx rfl).symm
    cases o with
    | run f =>
      refine ⟨?_, n2 (by simp [Opt.kind]), n3 (by simp [Opt.kind]), n4 (by simp [Opt.kind]), n5 (by simp [Opt.kind])⟩
      rw [h.run]
      exact key Opt.run? seen _ (fun p hp => by cases p <;> first | rfl | cases hp) hf rfl
    | cpacs2json f =>
      refine ⟨n1 (by simp [Opt.kind]), ?_, n3 (by simp [Opt.kind]), n4 (by simp [Opt.kind]), n5 (by simp [Opt.kind])⟩
      rw [h.conv]
      exact key Opt.conv? seen _ (fun p hp => by cases p <;> first | rfl | cases hp) hf rfl
    | makeExample => exact ⟨n1 (by simp [Opt.kind]), n2 (by simp [Opt.kind]), h.make.2 hm⟩
    | listDb =>
      exact ⟨n1 (by simp [Opt.kind]), n2 (by simp [Opt.kind]), n3 (by simp [Opt.kind]), n4 (by simp [Opt.kind]), h.list.2 hm⟩
    | makeFromDb n =>
      refine ⟨n1 (by simp [Opt.kind]), n2 (by simp [Opt.kind]), n3 (by simp [Opt.kind]), ?_⟩
      rw [h.db]
      exact key Opt.db? seen _ (fun p hp => by cases p <;> first | rfl | cases hp) hf rfl
    | verbose => cases hg
    | debug => cases hg
    | quiet => cases hg
    | clean => cases hg
    | cleanOnly => cases hg

theorem getAircraftFile_mem {files : List Name} {n f : Name} (h : getAircraftFile files n = some f) :
    f ∈ files := List.mem_of_mem_filter (List.mem_of_find?_eq_some h)

/-- The last part of the program: the requested action, and no other. -/
theorem cliAction_spec (env : CliEnv) {opts : List Opt} {a : CliArgs} (h : Stored opts.reverse a)
    (hc : ¬ Conflict opts) :
    (∃ n, mainOpt opts = some (.makeFromDb n) ∧ getAircraftFile env.files (pathStem n) = none ∧
      cliAction env a = ([], .exit 1)) ∨
    ∃ act : Action, cliAction env a = env.act act ∧ Requested env.files opts act := by
  have hm := main_cases h (fun hr => hc (conflict_reverse.1 hr))
  rw [← mainOpt_eq] at hm
  unfold cliAction
  cases ho : mainOpt opts with
  | none =>
    rw [ho] at hm
    obtain ⟨e1, e2, e3, e4, e5⟩ := hm
    rw [e1, e2, e3, e4, e5]
    exact .inr ⟨.help, rfl, .inl ho⟩
  | some o =>
    rw [ho] at hm
    cases o with
    | run f =>
      obtain ⟨e1, e2, e3, e4, e5⟩ := hm
      rw [e1, e2, e3, e4, e5]
      cases f with
      | nil => exact .inr ⟨.help, rfl, .inr (.inl ho)⟩
      | cons c f => exact .inr ⟨.run (c :: f), rfl, ho⟩
    | cpacs2json f =>
      obtain ⟨e1, e2, e3, e4, e5⟩ := hm
      rw [e1, e2, e3, e4, e5]
      cases f with
      | nil => exact .inr ⟨.help, rfl, .inr (.inr ho)⟩
      | cons c f => exact .inr ⟨.convert (c :: f), rfl, ho⟩
    | makeExample =>
      obtain ⟨e1, e2, e3⟩ := hm
      rw [e1, e2, e3]
      exact .inr ⟨.makeExample, rfl, ho⟩
    | listDb =>
      obtain ⟨e1, e2, e3, e4, e5⟩ := hm
      rw [e1, e2, e3, e4, e5]
      exact .inr ⟨.list, rfl, ho⟩
    | makeFromDb n =>
      obtain ⟨e1, e2, e3, e4⟩ := hm
      rw [e1, e2, e3, e4]
      simp only [truthy, Bool.false_eq_true, if_false]
      cases hg : getAircraftFile env.files (pathStem n) with
      | none => exact .inl ⟨n, rfl, hg, rfl⟩
      | some f => exact .inr ⟨.makeExampleFrom f, rfl, n, ho, getAircraftFile_mem hg⟩
    | verbose => exact hm.elim
    | debug => exact hm.elim
    | quiet => exact hm.elim
    | clean => exact hm.elim
    | cleanOnly => exact hm.elim

theorem findSome_run {opts : List Opt} (hc : ¬ Conflict opts) {a : CliArgs}
    (h : Stored opts.reverse a) (f : Name) : a.run = some f ↔ mainOpt opts = some (.run f) := by
  have hm := main_cases h (fun hr => hc (conflict_reverse.1 hr))
  rw [← mainOpt_eq] at hm
  constructor
  · intro hf
    cases ho : mainOpt opts with
    | none => rw [ho] at hm; rw [hm.1] at hf; cases hf
    | some o =>
      rw [ho] at hm
      cases o with
      | run g => rw [hm.1] at hf; cases hf; rfl
      | cpacs2json g => rw [hm.1] at hf; cases hf
      | makeExample => rw [hm.1] at hf; cases hf
      | listDb => rw [hm.1] at hf; cases hf
      | makeFromDb n => rw [hm.1] at hf; cases hf
      | verbose => exact hm.elim
      | debug => exact hm.elim
      | quiet => exact hm.elim
      | clean => exact hm.elim
      | cleanOnly => exact hm.elim
  · intro ho
    rw [ho] at hm
    exact hm.1

/-! ## C64 -/

/-- **C64**: options that exclude each other end the program before it does anything. -/
theorem C64_conflict (env : CliEnv) (opts : List Opt) (h : Conflict opts) :
    cli env opts = ([], .exit 2) := by
  rcases parse_cases opts with ⟨h1, -⟩ | ⟨a, -, -, h3⟩
  · unfold cli
    rw [h1]
  · exact absurd h h3

/-- **C64**: without conflict the program does at most one main action, the requested one; a clean
precedes it exactly if a flag for cleaning is given, and belongs to the same settings file. -/
theorem C64_one_action (env : CliEnv) (opts : List Opt) (h : ¬ Conflict opts) :
    ∃ cleans mains : List Action, (cli env opts).1 = cleans ++ mains ∧
      (mains = [] ∨ ∃ act, mains = [act] ∧ Requested env.files opts act) ∧
      (cleans = [] ∨ ∃ f, cleans = [.clean f] ∧ mainOpt opts = some (.run f)) ∧
      (cleans ≠ [] → CleanGiven opts) ∧ (CleanGiven opts → mains ≠ [] → cleans ≠ []) := by
  rcases parse_cases opts with ⟨-, h2⟩ | ⟨a, h1, h2, -⟩
  · exact absurd h2 h
  unfold cli
  rw [h1]
  simp only []
  unfold cliMain
  have hact := cliAction_spec env h2 h
  have hgiven : CleanGiven opts ↔ (a.clean || a.cleanOnly) = true := by
    unfold CleanGiven
    rw [Bool.or_eq_true, h2.clean, h2.only]
    simp
  by_cases hg : (a.clean || a.cleanOnly) = true
  · rw [if_pos hg]
    cases hr : a.run with
    | none => exact ⟨[], [], rfl, .inl rfl, .inl rfl, fun hx => absurd rfl hx, fun _ hx => absurd rfl hx⟩
    | some f =>
      have hf := (findSome_run h h2 f).1 hr
      simp only []
      cases hfail : env.fails (.clean f) with
      | some e =>
        exact ⟨[.clean f], [], rfl, .inl rfl, .inr ⟨f, rfl, hf⟩, fun _ => hgiven.2 hg,
          fun _ hx => absurd rfl hx⟩
      | none =>
        simp only []
        split_ifs with hco
        · exact ⟨[.clean f], [], rfl, .inl rfl, .inr ⟨f, rfl, hf⟩, fun _ => hgiven.2 hg,
            fun _ hx => absurd rfl hx⟩
        · refine ⟨[.clean f], (cliAction env a).1, rfl, ?_, .inr ⟨f, rfl, hf⟩, fun _ => hgiven.2 hg,
            fun _ _ => by simp⟩
          rcases hact with ⟨n, -, -, e⟩ | ⟨act, e, hq⟩
          · rw [e]; exact .inl rfl
          · rw [e]; exact .inr ⟨act, rfl, hq⟩
  · rw [if_neg hg]
    refine ⟨[], (cliAction env a).1, rfl, ?_, .inl rfl, fun hx => absurd rfl hx,
      fun hx => absurd (hgiven.1 hx) hg⟩
    rcases hact with ⟨n, -, -, e⟩ | ⟨act, e, hq⟩
    · rw [e]; exact .inl rfl
    · rw [e]; exact .inr ⟨act, rfl, hq⟩

/-- **C64**: a flag for cleaning without a settings file raises, and nothing is done. -/
theorem C64_clean_needs_run (env : CliEnv) (opts : List Opt) (h : ¬ Conflict opts)
    (hc : CleanGiven opts) (hr : ∀ f, .run f ∉ opts) :
    cli env opts = ([], .raised .runtimeError) := by
  rcases parse_cases opts with ⟨-, h2⟩ | ⟨a, h1, h2, -⟩
  · exact absurd h2 h
  have hg : (a.clean || a.cleanOnly) = true := by
    rw [Bool.or_eq_true, h2.clean, h2.only]
    simpa [CleanGiven] using hc
  have hn : a.run = none := by
    rw [h2.run, List.findSome?_eq_none_iff]
    intro p hp
    cases p <;> first | rfl | exact absurd (List.mem_reverse.1 hp) (hr _)
  unfold cli
  rw [h1]
  simp only [cliMain, hg, if_true, hn]

/-- **C64**: with `--clean-only` nothing but cleaning is done, whatever else is given. -/
theorem C64_clean_only (env : CliEnv) (opts : List Opt) (hc : .cleanOnly ∈ opts) :
    ∀ act ∈ (cli env opts).1, act.isClean = true := by
  rcases parse_cases opts with ⟨h1, -⟩ | ⟨a, h1, h2, -⟩
  · unfold cli
    rw [h1]
    simp
  have ho : a.cleanOnly = true := h2.only.2 (List.mem_reverse.2 hc)
  unfold cli
  rw [h1]
  simp only [cliMain, ho, Bool.or_true, if_true]
  cases hr : a.run with
  | none => simp
  | some f =>
    simp only []
    cases env.fails (.clean f) with
    | some e => simp [Action.isClean]
    | none => simp [Action.isClean]

/-- **C64**: a settings file that is given is analysed, unless cleaning was asked for and is all that
was asked for or raised. -/
theorem C64_run (env : CliEnv) (opts : List Opt) (h : ¬ Conflict opts) (f : Name) (hf : f ≠ [])
    (hm : mainOpt opts = some (.run f)) (ho : .cleanOnly ∉ opts)
    (hc : .clean ∈ opts → env.fails (.clean f) = none) :
    Action.run f ∈ (cli env opts).1 ∧
    (cli env opts).2 = (match env.fails (.run f) with | none => CliEnd.ok | some e => .raised e) := by
  rcases parse_cases opts with ⟨-, h2⟩ | ⟨a, h1, h2, -⟩
  · exact absurd h2 h
  have ho' : a.cleanOnly = false := by
    by_contra hx
    rw [Bool.not_eq_false, h2.only, List.mem_reverse] at hx
    exact ho hx
  have hr := (findSome_run h h2 f).2 hm
  have ha : cliAction env a = env.act (.run f) := by
    unfold cliAction
    rw [hr]
    cases f with
    | nil => exact absurd rfl hf
    | cons c f => rfl
  unfold cli
  rw [h1]
  simp only [cliMain, hr, ha, ho', Bool.or_false, Bool.false_eq_true, if_false]
  by_cases hcl : a.clean = true
  · rw [if_pos hcl, hc (List.mem_reverse.1 (h2.clean.1 hcl))]
    exact ⟨by simp [CliEnv.act], by cases he : env.fails (.run f) <;> simp [CliEnv.act, he]⟩
  · rw [if_neg hcl]
    exact ⟨by simp [CliEnv.act], by cases he : env.fails (.run f) <;> simp [CliEnv.act, he]⟩

/-! ## Cases for C64 -/

section
open Opt

/-- A database with two files, in which nothing fails. -/
def cliEnv : CliEnv := ⟨["B747.json".toList, "readme.txt".toList, "a.b.json".toList], fun _ => none⟩

-- settings file and `--clean`: first cleaned, then analysed
example : cli cliEnv [clean, run "s.json".toList, verbose] =
    ([.clean "s.json".toList, .run "s.json".toList], .ok) := by decide

example : ¬ Conflict [clean, run "s.json".toList, verbose] := by
  intro h
  have := C64_conflict cliEnv _ h
  revert this
  decide

-- conflict between two main options
example : Conflict [makeExample, quiet, listDb] :=
  ⟨mainFlags, by decide, makeExample, by decide, listDb, by decide, by decide, by decide, by decide⟩

-- conflict between `--clean` and `--clean-only`
example : Conflict [clean, run "s.json".toList, cleanOnly] :=
  ⟨["--clean", "--clean-only"], by decide, clean, by decide, cleanOnly, by decide, by decide, by decide,
    by decide⟩

-- the repeated option counts once, with its last value
example : cli cliEnv [run "a.json".toList, run "b.json".toList] = ([.run "b.json".toList], .ok) := by
  decide

example : cli cliEnv [cleanOnly, run "b.json".toList] = ([.clean "b.json".toList], .ok) := by decide

example : cli cliEnv [clean, listDb] = ([], .raised .runtimeError) := by decide

-- a failing clean stops the program before the analysis
example : cli { cliEnv with fails := fun a => if a.isClean then some .ioError else none }
    [clean, run "b.json".toList] = ([.clean "b.json".toList], .raised .ioError) := by decide

end

/-! ## C84 -/

/-- The aircraft `n` is in the database: its file `n.json` is there, and is not hidden. -/
def InDatabase (files : List Name) (n : Name) : Prop :=
  n ++ ".json".toList ∈ files ∧ n ≠ [] ∧ n.head? ≠ some '.'

theorem dotJson_eq : ".json".toList = dotJson := rfl

theorem rfindDot_json (n : Name) : rfindDot (n ++ dotJson) = some n.length := by
  have h : (n ++ dotJson).reverse = 'n' :: 'o' :: 's' :: 'j' :: '.' :: n.reverse := by
    simp [dotJson]
  unfold rfindDot
  rw [h]
  simp [List.findIdx?_cons, dotJson]

theorem nameStem_json {n : Name} (h : n ≠ []) : nameStem (n ++ dotJson) = n := by
  unfold nameStem
  rw [rfindDot_json]
  have : 0 < n.length := List.length_pos_iff.2 h
  have h2 : n.length < (n ++ dotJson).length - 1 := by
    simp [dotJson]
  simp only [this, h2, and_self, if_true]
  simp

theorem mem_listAircraftFiles {files : List Name} {f : Name} :
    f ∈ listAircraftFiles files ↔ ∃ n, f = n ++ dotJson ∧ InDatabase files n := by
  unfold listAircraftFiles InDatabase
  rw [dotJson_eq]
  constructor
  · intro h
    rw [List.mem_filter, Bool.and_eq_true, List.isSuffixOf_iff_suffix] at h
    obtain ⟨hf, ⟨n, rfl⟩, hh⟩ := h
    have hn : n ≠ [] := by
      rintro rfl
      exact absurd hh (by decide)
    refine ⟨n, rfl, hf, hn, ?_⟩
    cases n with
    | nil => exact absurd rfl hn
    | cons c n => simpa using hh
  · rintro ⟨n, rfl, hf, hn, hh⟩
    rw [List.mem_filter, Bool.and_eq_true, List.isSuffixOf_iff_suffix]
    refine ⟨hf, List.suffix_append _ _, ?_⟩
    cases n with
    | nil => exact absurd rfl hn
    | cons c n => simpa using hh

/-- **C84**: the names listed are those of the aircraft in the database. -/
theorem C84_listed (files : List Name) (n : Name) :
    n ∈ listAircraftNames files ↔ InDatabase files n := by
  unfold listAircraftNames
  rw [List.mem_map]
  constructor
  · rintro ⟨f, hf, rfl⟩
    obtain ⟨m, rfl, hm⟩ := mem_listAircraftFiles.1 hf
    rw [nameStem_json hm.2.1]
    exact hm
  · intro h
    exact ⟨n ++ dotJson, mem_listAircraftFiles.2 ⟨n, rfl, h⟩, nameStem_json h.2.1⟩

/-- **C84**: a name gives the file of that aircraft; a name that is not listed gives none. -/
theorem C84_file (files : List Name) (n f : Name) :
    getAircraftFile files n = some f ↔ f = n ++ ".json".toList ∧ InDatabase files n := by
  rw [dotJson_eq]
  have key : ∀ g, getAircraftFile files n = some g → g = n ++ dotJson ∧ InDatabase files n := by
    intro g hg
    obtain ⟨m, rfl, hm⟩ := mem_listAircraftFiles.1 (List.mem_of_find?_eq_some hg)
    have e := List.find?_some hg
    simp only [beq_iff_eq] at e
    rw [nameStem_json hm.2.1] at e
    subst e
    exact ⟨rfl, hm⟩
  constructor
  · exact key f
  · rintro ⟨rfl, h⟩
    cases hg : getAircraftFile files n with
    | some g => rw [(key g hg).1]
    | none =>
      have := List.find?_eq_none.1 hg _ (mem_listAircraftFiles.2 ⟨n, rfl, h⟩)
      simp [nameStem_json h.2.1] at this

theorem splitOn_no {n : Name} (h : '/' ∉ n) : n.splitOn '/' = [n] := by
  refine List.splitOnP_eq_singleton (p := (· == '/')) ?_
  intro x hx
  by_contra e
  simp at e
  exact h (e ▸ hx)

theorem pathName_plain {n : Name} (h : '/' ∉ n) (h0 : n ≠ []) (h1 : n ≠ ['.']) : pathName n = n := by
  unfold pathName
  rw [splitOn_no h]
  have : (!n.isEmpty && n != ['.']) = true := by
    simp [h0, h1]
  simp [this]

theorem nameStem_noDot {n : Name} (h : '.' ∉ n) : nameStem n = n := by
  unfold nameStem rfindDot
  have : n.reverse.findIdx? (· == '.') = none := by
    rw [List.findIdx?_eq_none_iff]
    intro x hx
    simp only [beq_eq_false_iff_ne]
    rintro rfl
    exact h (List.mem_reverse.1 hx)
  rw [this]

/-- With `--make-example-from-db n` alone, the file of the aircraft `pathStem n` is used. -/
theorem cli_make (env : CliEnv) {opts : List Opt} {n : Name} (h : ¬ Conflict opts)
    (hm : mainOpt opts = some (.makeFromDb n)) (hc : ¬ CleanGiven opts) :
    cli env opts = match getAircraftFile env.files (pathStem n) with
      | none => ([], .exit 1)
      | some f => env.act (.makeExampleFrom f) := by
  rcases parse_cases opts with ⟨-, h2⟩ | ⟨a, h1, h2, -⟩
  · exact absurd h2 h
  have hg : (a.clean || a.cleanOnly) = false := by
    by_contra hx
    rw [Bool.not_eq_false, Bool.or_eq_true, h2.clean, h2.only, List.mem_reverse,
      List.mem_reverse] at hx
    exact hc hx
  have hma := main_cases h2 (fun hr => h (conflict_reverse.1 hr))
  rw [← mainOpt_eq, hm] at hma
  obtain ⟨e1, e2, e3, e4⟩ := hma
  unfold cli
  rw [h1]
  simp only [cliMain, hg, Bool.false_eq_true, if_false]
  unfold cliAction
  rw [e1, e2, e3, e4]
  rfl

/-- **C84** (in part): the aircraft listed are made by their names, and any other name is refused
without effect.  Missing: names that contain a dot (see `C84_make_false`); a name on the command line
with slashes is a path, of which the last component counts. -/
theorem C84_make_partial (env : CliEnv) (opts : List Opt) (n : Name) (h : ¬ Conflict opts)
    (hm : mainOpt opts = some (.makeFromDb n)) (hc : ¬ CleanGiven opts) (h0 : n ≠ [])
    (hd : '.' ∉ n) (hs : '/' ∉ n) :
    (n ∈ listAircraftNames env.files →
      cli env opts = env.act (.makeExampleFrom (n ++ ".json".toList))) ∧
    (n ∉ listAircraftNames env.files → cli env opts = ([], .exit 1)) := by
  have hp : pathStem n = n := by
    unfold pathStem
    rw [pathName_plain hs h0 (by rintro rfl; exact hd (by decide)), nameStem_noDot hd]
  rw [cli_make env h hm hc, hp, C84_listed]
  constructor
  · intro hin
    rw [(C84_file env.files n _).2 ⟨rfl, hin⟩]
  · intro hin
    cases hg : getAircraftFile env.files n with
    | none => rfl
    | some f => exact absurd ((C84_file env.files n f).1 hg).2 hin

/-- **C84**: the name may be given with the extension; then dots are allowed. -/
theorem C84_make_json (env : CliEnv) (opts : List Opt) (n : Name) (h : ¬ Conflict opts)
    (hm : mainOpt opts = some (.makeFromDb (n ++ ".json".toList))) (hc : ¬ CleanGiven opts)
    (hs : '/' ∉ n) (hin : n ∈ listAircraftNames env.files) :
    cli env opts = env.act (.makeExampleFrom (n ++ ".json".toList)) := by
  rw [C84_listed] at hin
  have hp : pathStem (n ++ ".json".toList) = n := by
    unfold pathStem
    rw [pathName_plain, dotJson_eq, nameStem_json hin.2.1]
    · rw [List.mem_append]
      rintro (hx | hx)
      · exact hs hx
      · exact absurd hx (by decide)
    · simp
    · intro e
      have := congrArg List.length e
      simp at this
  rw [cli_make env h hm hc, hp, (C84_file env.files n _).2 ⟨rfl, hin⟩]

/-- **C84** fails for names with a dot: the aircraft in `a.b.json` is listed as `a.b`, but making it by
that name fails. -/
theorem C84_make_false :
    "a.b".toList ∈ listAircraftNames cliEnv.files ∧
    cli cliEnv [.makeFromDb "a.b".toList] = ([], .exit 1) := by decide

/-! ## Cases for C84 -/

example : listAircraftNames cliEnv.files = ["B747".toList, "a.b".toList] := by decide

example : cli cliEnv [.quiet, .makeFromDb "B747".toList] =
    ([.makeExampleFrom "B747.json".toList], .ok) := by decide

example : cli cliEnv [.makeFromDb "a.b.json".toList] =
    ([.makeExampleFrom "a.b.json".toList], .ok) := by decide

-- the hypotheses of `C84_make_partial` are met
example : mainOpt [.quiet, .makeFromDb "B747".toList] = some (.makeFromDb "B747".toList) ∧
    ¬ CleanGiven [.quiet, .makeFromDb "B747".toList] ∧ '.' ∉ "B747".toList ∧ '/' ∉ "B747".toList := by
  unfold CleanGiven
  decide

end Verif
