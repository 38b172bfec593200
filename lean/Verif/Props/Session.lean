import Verif.Model.Session
import Verif.Props.Cli
import Verif.Props.ProgramFiles

/-!
# Property C122: the results on disk belong to the latest run of their settings file
-/

namespace Verif

/-! ## Specification -/

/-- A result file that belongs to the settings file with this base name. -/
def OwnFile (base : String) (p : FilePath) : Prop :=
  (∃ i name, p = ["_results", base ++ "_" ++ fmt03 i, name]) ∨
    p = ["_results", base ++ "_aeroperformance.json"]

/-- A path outside the output directories; `["aircraft"]` stands for the CPACS file, to which results
are added if the aircraft was read from it. -/
def InputPath (p : FilePath) : Prop :=
  p.head? ≠ some "_results" ∧ p.head? ≠ some "_plots" ∧ p ≠ ["aircraft"]

/-- The content last written to a path. -/
def lastWritten (files : Files) (p : FilePath) : Option FileContent :=
  ((files.filter fun x => x.1 = p).getLast?).map Prod.snd

/-- The files that a run of a project writes, whether it finishes or not. -/
def Writes (W : World) (P : Project) (files : Files) : Prop :=
  (∃ out, runProject W P = .ok out ∧ out.files = files) ∨
    ∃ x, runProject W P = .error (x, files)

/-- A step that leaves the results of a base name alone: input files are changed, or the program is
started without cleaning and not for a settings file with this base name. -/
def Leaves (base : String) : UserStep → Prop
  | .edit p _ => p.head? ≠ some "_results"
  | .start opts => ¬ CleanGiven opts ∧ ∀ g n, .run g ∈ opts →
      settingsName (cliPath g) = some n → baseOf n ≠ base

/-- Changes by the user. -/
def UserStep.isEdit : UserStep → Bool
  | .edit .. => true
  | .start _ => false

/-! ## Paths -/

theorem saveIf_paths {flag : Bool} {path : FilePath} {c : Except PyErr FileContent} {fs : Files}
    (h : saveIf flag path c = .ok fs) : ∀ x ∈ fs, x.1 = path := by
  unfold saveIf at h
  split_ifs at h
  · cases c with
    | error e => cases h
    | ok c => cases h; simp
  · cases h; simp

theorem saveAll_paths {env : RunEnv} {i : ℕ} {cur : CurSt ℝ} {v : VlmData} {fs : Files}
    (h : saveAll env i cur v = .ok fs) : ∀ x ∈ fs, OwnFile env.base x.1 := by
  unfold saveAll at h
  split at h
  · cases h
  rename_i f1 h1
  split at h
  · cases h
  rename_i f2 h2
  split at h
  · cases h
  rename_i f3 h3
  cases h
  intro x hx
  rw [List.mem_append, List.mem_append] at hx
  rcases hx with (hx | hx) | hx
  · exact .inl ⟨i, _, saveIf_paths h1 x hx⟩
  · exact .inl ⟨i, _, saveIf_paths h2 x hx⟩
  · exact .inl ⟨i, _, saveIf_paths h3 x hx⟩

theorem orStop_ok {α : Type} {x : Except PyErr α} {a : α} (h : orStop x = .ok a) : x = .ok a := by
  cases x with
  | error e => cases h
  | ok b => cases h; rfl

theorem runStep_paths {env : RunEnv} {st : FlightSt ℝ} {i : ℕ} {x y : LoopSt}
    (h : runStep env st i x = .ok y) : ∃ fs, y.files = x.files ++ fs ∧
      ∀ z ∈ fs, OwnFile env.base z.1 := by
  unfold runStep at h
  split at h
  · cases h
  split at h
  · cases h
  split at h
  · cases h
  split at h
  · cases h
  split at h
  · cases h
  rename_i fs hfs
  split at h
  · cases h
  split at h
  · cases h
  cases h
  exact ⟨fs, rfl, saveAll_paths (orStop_ok hfs)⟩

theorem runLoop_paths {env : RunEnv} {st : FlightSt ℝ} : ∀ {k i : ℕ} {x : LoopSt},
    (∀ z ∈ x.files, OwnFile env.base z.1) →
    (∀ y, runLoop env st k i x = .ok y → ∀ z ∈ y.files, OwnFile env.base z.1) ∧
    ∀ e, runLoop env st k i x = .error e → ∀ z ∈ e.2, OwnFile env.base z.1
  | 0, i, x, hx => ⟨fun y h => by cases h; exact hx, fun e h => by cases h⟩
  | k + 1, i, x, hx => by
    unfold runLoop
    cases h : runStep env st i x with
    | error e => exact ⟨fun y h => (by cases h), fun e h => by cases h; exact hx⟩
    | ok x' =>
      obtain ⟨fs, e, hfs⟩ := runStep_paths h
      refine runLoop_paths (k := k) (i := i + 1) (x := x') ?_
      intro z hz
      rw [e, List.mem_append] at hz
      exact hz.elim (hx z) (hfs z)

theorem saveCpacsMap_paths {env : RunEnv} {t : Table} {fs : Files}
    (h : saveCpacsMap env t = .ok fs) : ∀ x ∈ fs, x.1 = ["aircraft"] := by
  unfold saveCpacsMap at h
  split_ifs at h
  · split at h
    · cases h
    · cases h; simp
  · cases h; simp

theorem saveNativeMap_paths {env : RunEnv} {σ : Store ℝ} {t : Table} :
    ∀ x ∈ saveNativeMap env σ t, OwnFile env.base x.1 := by
  unfold saveNativeMap
  split_ifs
  · intro x hx
    rw [List.mem_singleton.1 hx]
    exact .inr rfl
  · simp

theorem standardRun_paths {env : RunEnv} {ac : PAircraft ℝ} {st : FlightSt ℝ} :
    (∀ out, standardRun env ac st = .ok out → ∀ z ∈ out.files,
      OwnFile env.base z.1 ∨ z.1 = ["aircraft"]) ∧
    ∀ e, standardRun env ac st = .error e → ∀ z ∈ e.2,
      OwnFile env.base z.1 ∨ z.1 = ["aircraft"] := by
  unfold standardRun
  cases h1 : setAutopanels env.autoC env.autoS ac with
  | error e => exact ⟨fun y h => (by cases h), fun e h => by cases h; simp⟩
  | ok ac1 =>
    simp only
    obtain ⟨k1, k2⟩ := runLoop_paths (env := env) (st := st) (k := st.num) (i := 0)
      (x := ⟨ac1, VlmData.fresh, Table.fresh, [], none⟩) (by simp)
    cases h2 : runLoop env st st.num 0 ⟨ac1, VlmData.fresh, Table.fresh, [], none⟩ with
    | error e =>
      exact ⟨fun y h => (by cases h), fun e' h => by cases h; exact fun z hz => .inl (k2 _ h2 z hz)⟩
    | ok x =>
      simp only
      cases h3 : saveCpacsMap env x.table with
      | error e =>
        refine ⟨fun y h => (by cases h), fun e' h => ?_⟩
        cases h
        exact fun z hz => .inl (k1 _ h2 z hz)
      | ok fs =>
        simp only
        have key : ∀ z ∈ x.files ++ fs ++ saveNativeMap env st.aero x.table,
            OwnFile env.base z.1 ∨ z.1 = ["aircraft"] := by
          intro z hz
          rw [List.mem_append, List.mem_append] at hz
          rcases hz with (hz | hz) | hz
          · exact .inl (k1 _ h2 z hz)
          · exact .inr (saveCpacsMap_paths h3 z hz)
          · exact .inl (saveNativeMap_paths z hz)
        cases h4 : x.lattice with
        | none => exact ⟨fun y h => (by cases h), fun e' h => by cases h; exact key⟩
        | some l => exact ⟨fun y h => (by cases h; exact key), fun e' h => by cases h⟩

theorem writes_paths {W : World} {P : Project} {files : Files} (h : Writes W P files) :
    ∀ z ∈ files, OwnFile P.base z.1 ∨ z.1 = ["aircraft"] := by
  unfold Writes runProject at h
  cases hx : loadProject W P with
  | error e =>
    simp only [hx, reduceCtorEq, false_and, exists_false, false_or, Except.error.injEq,
      Prod.mk.injEq, exists_eq_left'] at h
    subst h
    simp
  | ok x =>
    simp only [hx] at h
    obtain ⟨k1, k2⟩ := standardRun_paths (env := x.env W P) (ac := x.aircraft.toP) (st := x.state)
    rcases h with ⟨out, h, rfl⟩ | ⟨e, h⟩
    · exact k1 _ h
    · exact k2 _ h

theorem exists_writes (W : World) (P : Project) : ∃ files, Writes W P files := by
  unfold Writes
  cases h : runProject W P with
  | error e => exact ⟨e.2, .inr ⟨e.1, rfl⟩⟩
  | ok out => exact ⟨out.files, .inl ⟨out, rfl, rfl⟩⟩

/-! ## Names -/

theorem fmt03_digits (i : ℕ) : ∀ c ∈ (fmt03 i).toList, c ≠ '_' := by
  unfold fmt03
  rw [String.toList_ofList]
  intro c hc
  rw [List.mem_append] at hc
  rcases hc with hc | hc
  · rw [(List.mem_replicate.1 hc).2]
    decide
  · rw [List.mem_reverse, List.mem_map] at hc
    obtain ⟨d, hd, rfl⟩ := hc
    have : ∀ d < 10, Nat.digitChar d ≠ '_' := by decide
    exact this d (Nat.digits_lt_base (by norm_num) hd)

theorem split_last {a b x y : List Char} (hx : ∀ c ∈ x, c ≠ '_') (hy : ∀ c ∈ y, c ≠ '_')
    (h : a ++ '_' :: x = b ++ '_' :: y) : a = b ∧ x = y := by
  have h' := congrArg List.reverse h
  simp only [List.reverse_append, List.reverse_cons, List.append_assoc, List.singleton_append] at h'
  have key : ∀ (u v s t : List Char), (∀ c ∈ u, c ≠ '_') → (∀ c ∈ v, c ≠ '_') →
      u ++ '_' :: s = v ++ '_' :: t → u = v ∧ s = t := by
    intro u
    induction u with
    | nil =>
      intro v s t _ hv h
      cases v with
      | nil => exact ⟨rfl, by simpa using h⟩
      | cons c v =>
        simp only [List.nil_append, List.cons_append, List.cons.injEq] at h
        exact absurd h.1.symm (hv c (by simp))
    | cons c u ih =>
      intro v s t hu hv h
      cases v with
      | nil =>
        simp only [List.nil_append, List.cons_append, List.cons.injEq] at h
        exact absurd h.1 (hu c (by simp))
      | cons d v =>
        simp only [List.cons_append, List.cons.injEq] at h
        obtain ⟨e1, e2⟩ := ih v s t (fun c hc => hu c (by simp [hc]))
          (fun c hc => hv c (by simp [hc])) h.2
        exact ⟨by rw [h.1, e1], e2⟩
  obtain ⟨e1, e2⟩ := key _ _ _ _ (fun c hc => hx c (List.mem_reverse.1 hc))
    (fun c hc => hy c (List.mem_reverse.1 hc)) h'
  exact ⟨List.reverse_injective e2, List.reverse_injective e1⟩

theorem stateName_injective {a b : String} {i j : ℕ}
    (h : a ++ "_" ++ fmt03 i = b ++ "_" ++ fmt03 j) : a = b ∧ i = j := by
  have h' := congrArg String.toList h
  simp only [String.toList_append] at h'
  have e : "_".toList = ['_'] := rfl
  rw [e, List.append_assoc, List.append_assoc] at h'
  obtain ⟨e1, e2⟩ := split_last (fmt03_digits i) (fmt03_digits j) h'
  exact ⟨String.toList_injective e1, fmt03_injective (String.toList_injective e2)⟩

theorem mapName_injective {a b : String}
    (h : a ++ "_aeroperformance.json" = b ++ "_aeroperformance.json") : a = b := by
  have h' := congrArg String.toList h
  simp only [String.toList_append] at h'
  exact String.toList_injective (List.append_cancel_right h')

theorem OwnFile.unique {a b : String} {p : FilePath} (h1 : OwnFile a p) (h2 : OwnFile b p) :
    a = b := by
  rcases h1 with ⟨i, n, rfl⟩ | rfl <;> rcases h2 with ⟨j, m, e⟩ | e
  · simp only [List.cons.injEq, true_and] at e
    exact (stateName_injective e.1).1
  · simp at e
  · simp at e
  · simp only [List.cons.injEq, true_and, and_true] at e
    exact mapName_injective e

theorem OwnFile.head {a : String} {p : FilePath} (h : OwnFile a p) : p.head? = some "_results" := by
  rcases h with ⟨i, n, rfl⟩ | rfl <;> rfl

theorem OwnFile.ne_aircraft {a : String} {p : FilePath} (h : OwnFile a p) : p ≠ ["aircraft"] := by
  rintro rfl
  simpa using h.head

/-! ## Writing -/

theorem write_apply (files : Files) : ∀ (disk : PDisk) (p : FilePath),
    disk.write files p = match lastWritten files p with
      | some c => some (.result c)
      | none => disk p := by
  induction files with
  | nil => intro disk p; rfl
  | cons x rest ih =>
    intro disk p
    rw [PDisk.write, ih]
    unfold lastWritten
    by_cases h : x.1 = p
    · subst h
      rw [List.filter_cons_of_pos (by simp)]
      cases hr : (rest.filter fun y => y.1 = x.1).getLast? with
      | none =>
        rw [List.getLast?_eq_none_iff] at hr
        rw [hr]
        simp
      | some y =>
        rw [List.getLast?_cons, hr]
        simp
    · rw [List.filter_cons_of_neg (by simpa using h), Function.update_of_ne (Ne.symm h)]

theorem lastWritten_mem {files : Files} {p : FilePath} {c : FileContent}
    (h : lastWritten files p = some c) : (p, c) ∈ files := by
  unfold lastWritten at h
  rw [Option.map_eq_some_iff] at h
  obtain ⟨x, hx, rfl⟩ := h
  have := List.mem_of_mem_getLast? hx
  rw [List.mem_filter] at this
  obtain ⟨h1, h2⟩ := this
  have : x.1 = p := by simpa using h2
  rw [← this]
  exact h1

theorem lastWritten_ne_none {files : Files} {p : FilePath} :
    lastWritten files p ≠ none ↔ p ∈ files.map Prod.fst := by
  unfold lastWritten
  rw [ne_eq, Option.map_eq_none_iff, List.getLast?_eq_none_iff, List.filter_eq_nil_iff]
  simp [List.mem_map]

theorem runOn_apply {W : World} {root : String} {disk : PDisk} {f : Name} {P : Project}
    {files : Files} (hP : disk.project root f = some P) (h : Writes W P files) :
    (runOn W root disk f).1 = disk.write files := by
  unfold runOn
  rw [hP]
  rcases h with ⟨out, h, rfl⟩ | ⟨e, h⟩ <;> simp only [h]

/-- A run either does not find its settings, or writes its files. -/
theorem runOn_cases (W : World) (root : String) (disk : PDisk) (f : Name) :
    (disk.project root f = none ∧ (runOn W root disk f).1 = disk) ∨
    ∃ P files, disk.project root f = some P ∧ Writes W P files ∧
      (runOn W root disk f).1 = disk.write files := by
  cases hP : disk.project root f with
  | none =>
    left
    unfold runOn
    rw [hP]
    exact ⟨rfl, rfl⟩
  | some P =>
    obtain ⟨files, h⟩ := exists_writes W P
    exact .inr ⟨P, files, rfl, h, runOn_apply hP h⟩

theorem project_base {disk : PDisk} {root : String} {f : Name} {P : Project}
    (h : disk.project root f = some P) :
    ∃ n, settingsName (cliPath f) = some n ∧ P.base = baseOf n := by
  unfold PDisk.project at h
  split at h
  · rename_i n v h1 h2
    cases h
    exact ⟨n, h1, rfl⟩
  · cases h

theorem not_written {W : World} {P : Project} {files : Files} (h : Writes W P files) {p : FilePath}
    (hp : ¬ OwnFile P.base p) (ha : p ≠ ["aircraft"]) : lastWritten files p = none := by
  cases hc : lastWritten files p with
  | none => rfl
  | some c =>
    rcases writes_paths h _ (lastWritten_mem hc) with h | h
    · exact absurd h hp
    · exact absurd h ha

/-! ## Which files a project reads -/

theorem settingsName_input {p : FilePath} {n : String} (h : settingsName p = some n) :
    InputPath p := by
  unfold settingsName at h
  split at h
  · rename_i m
    split_ifs at h with hm
    simp only [projectDirs, List.mem_cons, List.not_mem_nil, or_false, not_or] at hm
    obtain ⟨h1, -, -, -, -, h6, h7⟩ := hm
    exact ⟨by simpa using h7, by simpa using h6, by simpa using h1⟩
  · rename_i d m
    split_ifs at h with hd
    subst hd
    exact ⟨by simp, by simp, by simp⟩
  · cases h

/-- Disks with the same input files. -/
def SameInputs (d d' : PDisk) : Prop := ∀ p, InputPath p → d p = d' p

theorem project_congr {d d' : PDisk} (h : SameInputs d d') (root : String) (f : Name) :
    d.project root f = d'.project root f := by
  unfold PDisk.project PDisk.settings
  have hin : ∀ a b : String, a ≠ "_results" → a ≠ "_plots" → d [a, b] = d' [a, b] :=
    fun a b h1 h2 => h _ ⟨by simpa using h1, by simpa using h2, by simp⟩
  cases hn : settingsName (cliPath f) with
  | none => rfl
  | some n =>
    rw [h _ (settingsName_input hn)]
    simp only [hin "aircraft" _ (by decide) (by decide), hin "state" _ (by decide) (by decide),
      hin "deformation" _ (by decide) (by decide)]

theorem isOutput_iff {p : FilePath} :
    isOutput p = true ↔ p.head? = some "_results" ∨ p.head? = some "_plots" := by
  simp [isOutput]

theorem perform_input {W : World} {root : String} {disk : PDisk} (act : Action) {p : FilePath}
    (hp : InputPath p) : perform W root disk act p = disk p := by
  cases act with
  | clean f =>
    show (cleanOn W root disk f).1 p = disk p
    unfold cleanOn
    split
    · rfl
    · split
      · rfl
      · have : ¬ (isOutput p = true) := by
          rw [isOutput_iff]
          exact fun h => h.elim hp.1 hp.2.1
        simp only [if_neg this]
  | run f =>
    show (runOn W root disk f).1 p = disk p
    rcases runOn_cases W root disk f with ⟨-, h⟩ | ⟨P, files, -, hw, h⟩
    · rw [h]
    · rw [h, write_apply, not_written hw (fun ho => hp.1 ho.head) hp.2.2]
  | convert f => rfl
  | makeExample => rfl
  | makeExampleFrom f => rfl
  | list => rfl
  | help => rfl

theorem perform_foldl_input {W : World} {root : String} (acts : List Action) {p : FilePath}
    (hp : InputPath p) : ∀ {disk : PDisk}, acts.foldl (perform W root) disk p = disk p := by
  induction acts with
  | nil => intro disk; rfl
  | cons a rest ih =>
    intro disk
    rw [List.foldl_cons, ih, perform_input a hp]

theorem start_input {W : World} {root : String} {disk : PDisk} {opts : List Opt} :
    SameInputs (disk.step W root (.start opts)) disk :=
  fun _ hp => perform_foldl_input _ hp

theorem actionFails_congr {W : World} {root : String} {d d' : PDisk} (h : SameInputs d d') :
    actionFails W root d = actionFails W root d' := by
  funext act
  cases act with
  | clean f =>
    show (cleanOn W root d f).2 = (cleanOn W root d' f).2
    unfold cleanOn
    rw [project_congr h root f]
    cases d'.project root f with
    | none => rfl
    | some P => simp only; cases loadSettings W.suffix P.settings <;> rfl
  | run f =>
    have : (runOn W root d f).2 = (runOn W root d' f).2 := by
      unfold runOn
      rw [project_congr h root f]
      cases d'.project root f with
      | none => rfl
      | some P => simp only; cases runProject W P <;> rfl
    unfold actionFails
    simp only [this]
  | convert f => rfl
  | makeExample => rfl
  | makeExampleFrom f => rfl
  | list => rfl
  | help => rfl

/-! ## Starts -/

theorem mainOpt_mem {opts : List Opt} {o : Opt} (h : mainOpt opts = some o) : o ∈ opts := by
  unfold mainOpt at h
  exact (List.mem_filter.1 (List.mem_of_mem_getLast? h)).1

/-- The effect of a start without cleaning depends on the input files only: nothing is written, or the
files of a run. -/
theorem start_writes {W : World} {root : String} {opts : List Opt} (hc : ¬ CleanGiven opts)
    (disk : PDisk) : ∃ files : Files, (∀ d, SameInputs d disk →
        d.step W root (.start opts) = d.write files) ∧
      (files = [] ∨ ∃ f P, .run f ∈ opts ∧ disk.project root f = some P ∧ Writes W P files) := by
  by_cases hx : Conflict opts
  · refine ⟨[], fun d _ => ?_, .inl rfl⟩
    simp only [PDisk.step]
    rw [C64_conflict _ _ hx]
    rfl
  · obtain ⟨cs, ms, h1, h2, h3, h4, h5⟩ := C64_one_action ⟨[], actionFails W root disk⟩ opts hx
    have hcs : cs = [] := by
      by_contra hne
      exact hc (h4 hne)
    rw [hcs, List.nil_append] at h1
    have hd : ∀ d, SameInputs d disk →
        d.step W root (.start opts) = ms.foldl (perform W root) d := by
      intro d hd
      simp only [PDisk.step]
      rw [actionFails_congr hd, h1]
    rcases h2 with rfl | ⟨act, rfl, hr⟩
    · exact ⟨[], hd, .inl rfl⟩
    · cases act with
      | run f =>
        cases hP : disk.project root f with
        | none =>
          refine ⟨[], fun d h => ?_, .inl rfl⟩
          rw [hd d h]
          show (runOn W root d f).1 = d
          rcases runOn_cases W root d f with ⟨-, h'⟩ | ⟨P, files, hP', -⟩
          · exact h'
          · rw [project_congr h, hP] at hP'
            cases hP'
        | some P =>
          obtain ⟨files, hw⟩ := exists_writes W P
          refine ⟨files, fun d h => ?_, .inr ⟨f, P, mainOpt_mem hr, hP, hw⟩⟩
          rw [hd d h]
          exact runOn_apply (by rw [project_congr h, hP]) hw
      | clean f => exact hr.elim
      | convert f => exact ⟨[], hd, .inl rfl⟩
      | makeExample => exact ⟨[], hd, .inl rfl⟩
      | makeExampleFrom f => exact ⟨[], hd, .inl rfl⟩
      | list => exact ⟨[], hd, .inl rfl⟩
      | help => exact ⟨[], hd, .inl rfl⟩

/-- A start without cleaning does nothing to the files, or runs a settings file. -/
theorem start_plain {W : World} {root : String} {disk : PDisk} {opts : List Opt}
    (hc : ¬ CleanGiven opts) : disk.step W root (.start opts) = disk ∨
      ∃ f, .run f ∈ opts ∧ disk.step W root (.start opts) = (runOn W root disk f).1 := by
  simp only [PDisk.step]
  by_cases hx : Conflict opts
  · left
    rw [C64_conflict _ _ hx]
    rfl
  · obtain ⟨cs, ms, h1, h2, h3, h4, h5⟩ := C64_one_action ⟨[], actionFails W root disk⟩ opts hx
    have hcs : cs = [] := by
      by_contra hne
      exact hc (h4 hne)
    simp only [h1, hcs, List.nil_append]
    rcases h2 with rfl | ⟨act, rfl, hr⟩
    · exact .inl rfl
    · cases act with
      | run f => exact .inr ⟨f, mainOpt_mem hr, rfl⟩
      | clean f => exact hr.elim
      | convert f => exact .inl rfl
      | makeExample => exact .inl rfl
      | makeExampleFrom f => exact .inl rfl
      | list => exact .inl rfl
      | help => exact .inl rfl

/-- A start that runs a settings file, possibly after cleaning. -/
theorem start_run {W : World} {root : String} {disk : PDisk} {opts : List Opt} {f : Name}
    (hx : ¬ Conflict opts) (hf : f ≠ []) (hm : mainOpt opts = some (.run f))
    (ho : .cleanOnly ∉ opts) :
    (.clean ∉ opts ∧ disk.step W root (.start opts) = (runOn W root disk f).1) ∨
    (.clean ∈ opts ∧ (∃ e, (cleanOn W root disk f).2 = some e) ∧
      disk.step W root (.start opts) = (cleanOn W root disk f).1) ∨
    (.clean ∈ opts ∧ (cleanOn W root disk f).2 = none ∧
      disk.step W root (.start opts) = (runOn W root (cleanOn W root disk f).1 f).1) := by
  have hreq : ∀ {act}, Requested [] opts act → act = .run f := by
    intro act h
    cases act with
    | clean g => exact h.elim
    | run g =>
      have : mainOpt opts = some (.run g) := h
      rw [hm] at this
      cases this
      rfl
    | convert g => have : mainOpt opts = _ := h; rw [hm] at this; cases this
    | makeExample => have : mainOpt opts = _ := h; rw [hm] at this; cases this
    | makeExampleFrom g => obtain ⟨n, h, -⟩ := h; rw [hm] at h; cases h
    | list => have : mainOpt opts = _ := h; rw [hm] at this; cases this
    | help =>
      rcases h with h | h | h <;> rw [hm] at h
      · cases h
      · simp only [Option.some.injEq, Opt.run.injEq] at h
        exact absurd h hf
      · cases h
  obtain ⟨cs, ms, h1, h2, h3, h4, h5⟩ := C64_one_action ⟨[], actionFails W root disk⟩ opts hx
  have hcl : ∀ g, cs = [.clean g] → g = f := by
    intro g hg
    rcases h3 with h3 | ⟨g', h3, h3'⟩
    · rw [h3] at hg; cases hg
    · rw [h3] at hg
      rw [hm] at h3'
      cases hg
      cases h3'
      rfl
  simp only [PDisk.step]
  by_cases hc : .clean ∈ opts
  · right
    cases hfail : (cleanOn W root disk f).2 with
    | none =>
      right
      have hrun := (C64_run ⟨[], actionFails W root disk⟩ opts hx f hf hm ho (fun _ => hfail)).1
      have hms : ms ≠ [] := by
        rintro rfl
        rw [h1, List.append_nil] at hrun
        rcases h3 with rfl | ⟨g, rfl, -⟩ <;> simp at hrun
      have hcs := h5 (.inl hc) hms
      rcases h2 with rfl | ⟨act, rfl, hr⟩
      · exact absurd rfl hms
      rcases h3 with rfl | ⟨g, rfl, -⟩
      · exact absurd rfl hcs
      rw [hcl g rfl, hreq hr] at h1
      simp only [h1]
      exact ⟨hc, trivial, rfl⟩
    | some e =>
      left
      refine ⟨hc, ⟨e, rfl⟩, ?_⟩
      have : (cli ⟨[], actionFails W root disk⟩ opts).1 = [.clean f] := by
        rcases parse_cases opts with ⟨-, h⟩ | ⟨a, p1, p2, -⟩
        · exact absurd h hx
        have q1 : a.clean = true := p2.clean.2 (List.mem_reverse.2 hc)
        have q2 : a.run = some f := (findSome_run hx p2 f).2 hm
        have q3 : actionFails W root disk (.clean f) = some e := hfail
        unfold cli
        simp only [p1, cliMain, q1, Bool.true_or, if_true, q2, q3]
      simp only [this]
      rfl
  · left
    refine ⟨hc, ?_⟩
    have hng : ¬ CleanGiven opts := fun h => h.elim hc ho
    have hrun := (C64_run ⟨[], actionFails W root disk⟩ opts hx f hf hm ho (fun h => absurd h hc)).1
    have hcs : cs = [] := by
      by_contra hne
      exact hng (h4 hne)
    subst hcs
    rcases h2 with rfl | ⟨act, rfl, hr⟩
    · rw [h1] at hrun
      simp at hrun
    · rw [hreq hr] at h1
      simp only [h1]
      rfl

theorem cleanOn_none {W : World} {root : String} {disk : PDisk} {f : Name}
    (h : (cleanOn W root disk f).2 = none) :
    (cleanOn W root disk f).1 = fun p => if isOutput p then none else disk p := by
  unfold cleanOn at h ⊢
  cases hP : disk.project root f with
  | none => rw [hP] at h; cases h
  | some P =>
    rw [hP] at h
    simp only at h ⊢
    cases hl : loadSettings W.suffix P.settings with
    | error e => rw [hl] at h; cases h
    | ok s => rfl

theorem cleanOn_some {W : World} {root : String} {disk : PDisk} {f : Name} {e : PyErr}
    (h : (cleanOn W root disk f).2 = some e) : (cleanOn W root disk f).1 = disk ∧
      ∀ P, disk.project root f = some P → ∀ files, Writes W P files → files = [] := by
  unfold cleanOn at h ⊢
  cases hP : disk.project root f with
  | none => exact ⟨rfl, fun P h => by cases h⟩
  | some P =>
    rw [hP] at h
    simp only at h ⊢
    cases hl : loadSettings W.suffix P.settings with
    | ok s => rw [hl] at h; cases h
    | error e' =>
      refine ⟨rfl, ?_⟩
      rintro P' hP' files hw
      cases hP'
      have : runProject W P = .error (.raised e', []) := by
        unfold runProject loadProject
        simp only [hl]
      rcases hw with ⟨out, hw, -⟩ | ⟨x, hw⟩
      · rw [this] at hw; cases hw
      · rw [this] at hw; cases hw; rfl

theorem clean_inputs {W : World} {root : String} {disk : PDisk} {f : Name} :
    SameInputs (cleanOn W root disk f).1 disk :=
  fun _ hp => perform_input (W := W) (root := root) (disk := disk) (.clean f) hp

/-! ## C122 -/

/-- **C122**: the program does not touch input files: after any session they hold what the user put
there, and the results of the runs do not influence each other. -/
theorem C122_inputs (W : World) (root : String) (disk : PDisk) (l : List UserStep) (p : FilePath)
    (hp : InputPath p) :
    session W root disk l p = session W root disk (l.filter UserStep.isEdit) p := by
  have key : ∀ (l : List UserStep) (d d' : PDisk), d p = d' p →
      session W root d l p = session W root d' (l.filter UserStep.isEdit) p := by
    intro l
    induction l with
    | nil => intro d d' h; exact h
    | cons s rest ih =>
      intro d d' h
      cases s with
      | edit q c =>
        rw [List.filter_cons_of_pos rfl]
        refine ih _ _ ?_
        show Function.update d q c p = Function.update d' q c p
        by_cases hq : p = q
        · subst hq; simp
        · rw [Function.update_of_ne hq, Function.update_of_ne hq, h]
      | start opts =>
        rw [List.filter_cons_of_neg (by simp [UserStep.isEdit])]
        refine ih _ _ ?_
        rw [← h]
        exact start_input p hp
  exact key l disk disk rfl

/-- **C122**: results of a settings file stay as they are while input files are changed and settings
files with other base names are run. -/
theorem C122_kept (W : World) (root : String) (base : String) (p : FilePath)
    (hp : OwnFile base p) (l : List UserStep) (hl : ∀ s ∈ l, Leaves base s) (disk : PDisk) :
    session W root disk l p = disk p := by
  induction l generalizing disk with
  | nil => rfl
  | cons s rest ih =>
    have hs := hl s (by simp)
    show session W root (disk.step W root s) rest p = disk p
    rw [ih (fun t ht => hl t (by simp [ht]))]
    cases s with
    | edit q c =>
      show Function.update disk q c p = disk p
      rw [Function.update_of_ne]
      rintro rfl
      exact hs hp.head
    | start opts =>
      obtain ⟨h1, h2⟩ := hs
      rcases start_plain (W := W) (root := root) (disk := disk) h1 with h | ⟨f, hf, h⟩
      · rw [h]
      rw [h]
      rcases runOn_cases W root disk f with ⟨-, h⟩ | ⟨P, files, hP, hw, h⟩
      · rw [h]
      · rw [h, write_apply]
        obtain ⟨n, hn, hb⟩ := project_base hP
        have := h2 f n hf hn
        rw [not_written hw (fun ho => this (by rw [← hb]; exact ho.unique hp)) hp.ne_aircraft]

/-- What is on disk after a start that runs a settings file: what this run wrote, and what was there
before unless it was cleaned. -/
theorem start_result {W : World} {root : String} {disk : PDisk} {opts : List Opt} {f : Name}
    (hx : ¬ Conflict opts) (hf : f ≠ []) (hm : mainOpt opts = some (.run f))
    (ho : .cleanOnly ∉ opts) {P : Project} (hP : disk.project root f = some P) {files : Files}
    (hw : Writes W P files) (p : FilePath) :
    disk.step W root (.start opts) p = match lastWritten files p with
      | some c => some (.result c)
      | none => if .clean ∈ opts ∧ (cleanOn W root disk f).2 = none ∧ isOutput p = true then none
          else disk p := by
  rcases start_run (W := W) (root := root) (disk := disk) hx hf hm ho with
    ⟨hc, h⟩ | ⟨hc, ⟨e, he⟩, h⟩ | ⟨hc, he, h⟩
  · rw [h, runOn_apply hP hw, write_apply]
    simp only [hc, false_and, if_false]
  · obtain ⟨h1, h2⟩ := cleanOn_some he
    rw [h, h1, h2 P hP files hw]
    simp [lastWritten, he]
  · have hP' : (cleanOn W root disk f).1.project root f = some P := by
      rw [project_congr clean_inputs, hP]
    rw [h, runOn_apply hP' hw, write_apply, cleanOn_none he]
    simp only [hc, he, true_and]

/-- **C122**: the results on disk are those of the latest run of their settings file: whatever a run
writes (complete or not) is there after it, and after any further steps that only change input files
or run settings files with other base names. -/
theorem C122_latest (W : World) (root : String) (disk : PDisk) (opts : List Opt) (f : Name)
    (hx : ¬ Conflict opts) (hf : f ≠ []) (hm : mainOpt opts = some (.run f))
    (ho : .cleanOnly ∉ opts) (P : Project) (hP : disk.project root f = some P) (files : Files)
    (hw : Writes W P files) (l : List UserStep) (hl : ∀ s ∈ l, Leaves P.base s) (p : FilePath)
    (c : FileContent) (hp : p ≠ ["aircraft"]) (hc : lastWritten files p = some c) :
    session W root disk (.start opts :: l) p = some (.result c) := by
  have hown : OwnFile P.base p := (writes_paths hw _ (lastWritten_mem hc)).resolve_right hp
  show session W root (disk.step W root (.start opts)) l p = _
  rw [C122_kept W root P.base p hown l hl, start_result hx hf hm ho hP hw, hc]

/-- **C122**: with `--clean` the results directory afterwards holds what this run wrote, and nothing
else. -/
theorem C122_clean_run (W : World) (root : String) (disk : PDisk) (opts : List Opt) (f : Name)
    (hx : ¬ Conflict opts) (hf : f ≠ []) (hm : mainOpt opts = some (.run f))
    (hcl : .clean ∈ opts) (P : Project) (hP : disk.project root f = some P)
    (hs : ∃ s, loadSettings W.suffix P.settings = .ok s) (files : Files) (hw : Writes W P files)
    (p : FilePath) (hp : p.head? = some "_results") :
    disk.step W root (.start opts) p = (lastWritten files p).map .result := by
  have ho : .cleanOnly ∉ opts := by
    intro h
    exact hx ((conflict_iff _).2 ⟨_, hcl, _, h, rfl, by decide⟩)
  obtain ⟨s, hs⟩ := hs
  have he : (cleanOn W root disk f).2 = none := by
    unfold cleanOn
    simp only [hP, hs]
  rw [start_result hx hf hm ho hP hw]
  cases lastWritten files p with
  | some c => rfl
  | none => simp [hcl, he, isOutput_iff.2 (.inl hp)]

/-- **C122**: if a run with `--clean` finishes, the files in the results directory are exactly those
for which the settings ask. -/
theorem C122_clean_finished (W : World) (hW : Lapack W.dgesv) (root : String) (disk : PDisk)
    (opts : List Opt) (f : Name) (hx : ¬ Conflict opts) (hf : f ≠ [])
    (hm : mainOpt opts = some (.run f)) (hcl : .clean ∈ opts) (P : Project)
    (hP : disk.project root f = some P) (d : PyDict) (a b : String) (hn : NativeProject W P d a b)
    (out : RunOut) (h : runProject W P = .ok out) :
    ∃ (sd : List (String × Arg ℝ)) (st : FlightSt ℝ), P.state b = some sd ∧
      updateFromDict W.atm Store.fresh sd = .ok st ∧
      ∀ p, p.head? = some "_results" →
        (disk.step W root (.start opts) p ≠ none ↔ WantedFile d P.base st.num p) := by
  obtain ⟨fa, sd, st, -, -, -, -, -, h2, h3, -, -, -, -, -, h4, -⟩ :=
    C105_files_of_project W hW P d a b hn out h
  have hs : ∃ s, loadSettings W.suffix P.settings = .ok s := by
    cases hl : loadSettings W.suffix P.settings with
    | ok s => exact ⟨s, rfl⟩
    | error e =>
      unfold runProject loadProject at h
      simp only [hl] at h
      cases h
  refine ⟨sd, st, h2, h3, fun p hp => ?_⟩
  rw [C122_clean_run W root disk opts f hx hf hm hcl P hP hs out.files (.inl ⟨out, h, rfl⟩) p hp,
    ← h4, ← lastWritten_ne_none, ne_eq, Option.map_eq_none_iff]

theorem write_agree {files : Files} {d d' : PDisk}
    (h : ∀ p, lastWritten files p = none → d p = d' p) : d.write files = d'.write files := by
  funext p
  rw [write_apply, write_apply]
  cases hp : lastWritten files p with
  | some c => rfl
  | none => exact h p hp

/-- A list of actions of one start, done twice. -/
theorem perform_twice {W : World} {root : String} {disk : PDisk} {acts : List Action}
    (h : acts = [] ∨ (∃ a, acts = [a]) ∨
      ∃ f a, acts = [.clean f, a] ∧ ∀ g, a ≠ .clean g) :
    acts.foldl (perform W root) (acts.foldl (perform W root) disk) =
      acts.foldl (perform W root) disk := by
  have key : ∀ (d : PDisk) f, (runOn W root (runOn W root d f).1 f).1 = (runOn W root d f).1 := by
    intro d f
    rcases runOn_cases W root d f with ⟨-, h⟩ | ⟨P, files, hP, hw, h⟩
    · rw [h, h]
    · have hs : SameInputs (runOn W root d f).1 d :=
        fun p hp => perform_input (W := W) (root := root) (disk := d) (.run f) hp
      rw [runOn_apply (by rw [project_congr hs, hP]) hw, h]
      refine write_agree fun p hp => ?_
      rw [write_apply, hp]
  have clean2 : ∀ (d : PDisk) f,
      (cleanOn W root (cleanOn W root d f).1 f).1 = (cleanOn W root d f).1 := by
    intro d f
    have e := actionFails_congr (W := W) (root := root) (clean_inputs (W := W) (root := root)
      (disk := d) (f := f))
    have e' : (cleanOn W root (cleanOn W root d f).1 f).2 = (cleanOn W root d f).2 :=
      congrFun e (.clean f)
    cases hc : (cleanOn W root d f).2 with
    | some x => rw [(cleanOn_some (e'.trans hc)).1]
    | none =>
      rw [cleanOn_none (e'.trans hc), cleanOn_none hc]
      funext p
      by_cases hp : isOutput p = true <;> simp [hp]
  have cleanrun : ∀ (d : PDisk) f g,
      (runOn W root (cleanOn W root (runOn W root (cleanOn W root d f).1 g).1 f).1 g).1 =
        (runOn W root (cleanOn W root d f).1 g).1 := by
    intro d f g
    have s1 : SameInputs (cleanOn W root d f).1 d := clean_inputs
    have s2 : SameInputs (runOn W root (cleanOn W root d f).1 g).1 (cleanOn W root d f).1 :=
      fun p hp => perform_input (W := W) (root := root) (.run g) hp
    have s3 : SameInputs (cleanOn W root (runOn W root (cleanOn W root d f).1 g).1 f).1
        (runOn W root (cleanOn W root d f).1 g).1 := clean_inputs
    have e' : (cleanOn W root (runOn W root (cleanOn W root d f).1 g).1 f).2 =
        (cleanOn W root d f).2 :=
      congrFun (actionFails_congr (W := W) (root := root)
        (fun p hp => (s2 p hp).trans (s1 p hp))) (.clean f)
    cases hc : (cleanOn W root d f).2 with
    | some x => rw [(cleanOn_some (e'.trans hc)).1, (cleanOn_some hc).1, key]
    | none =>
      rcases runOn_cases W root (cleanOn W root d f).1 g with ⟨hn, h⟩ | ⟨P, files, hP, hw, h⟩
      · rw [h, clean2, h]
      · rw [runOn_apply (by rw [project_congr s3, project_congr s2, hP]) hw, h]
        refine write_agree fun p hp => ?_
        rw [← h, cleanOn_none (e'.trans hc)]
        rw [h, cleanOn_none hc]
        by_cases ho : isOutput p = true
        · simp [ho]
        · simp only [Bool.not_eq_true] at ho
          simp [ho, write_apply, hp]
  rcases h with rfl | ⟨a, rfl⟩ | ⟨f, a, rfl, ha⟩
  · rfl
  · cases a with
    | clean f => exact clean2 disk f
    | run f => exact key disk f
    | convert f => rfl
    | makeExample => rfl
    | makeExampleFrom f => rfl
    | list => rfl
    | help => rfl
  · cases a with
    | clean g => exact absurd rfl (ha g)
    | run g => exact cleanrun disk f g
    | convert g => exact clean2 disk f
    | makeExample => exact clean2 disk f
    | makeExampleFrom g => exact clean2 disk f
    | list => exact clean2 disk f
    | help => exact clean2 disk f

/-- **C122**: to start the program twice with the same options is the same as to start it once. -/
theorem C122_again (W : World) (root : String) (disk : PDisk) (opts : List Opt) :
    session W root disk [.start opts, .start opts] = session W root disk [.start opts] := by
  show (disk.step W root (.start opts)).step W root (.start opts) = disk.step W root (.start opts)
  have e := actionFails_congr (W := W) (start_input (W := W) (root := root) (disk := disk)
    (opts := opts)) (root := root)
  simp only [PDisk.step] at e ⊢
  rw [e]
  apply perform_twice
  by_cases hx : Conflict opts
  · left
    rw [C64_conflict _ _ hx]
  · obtain ⟨cs, ms, h1, h2, h3, h4, h5⟩ := C64_one_action ⟨[], actionFails W root disk⟩ opts hx
    rw [h1]
    rcases h3 with rfl | ⟨f, rfl, -⟩ <;> rcases h2 with rfl | ⟨act, rfl, hr⟩
    · exact .inl rfl
    · exact .inr (.inl ⟨act, rfl⟩)
    · exact .inr (.inl ⟨_, rfl⟩)
    · exact .inr (.inr ⟨f, act, rfl, by rintro g rfl; exact hr⟩)

/-- **C122**: settings files with different base names can be run in any order. -/
theorem C122_order (W : World) (root : String) (disk : PDisk) (o1 o2 : List Opt)
    (h1 : ¬ CleanGiven o1) (h2 : ¬ CleanGiven o2)
    (hb : ∀ f g n m, .run f ∈ o1 → .run g ∈ o2 → settingsName (cliPath f) = some n →
      settingsName (cliPath g) = some m → baseOf n ≠ baseOf m) (p : FilePath)
    (hp : p ≠ ["aircraft"]) :
    session W root disk [.start o1, .start o2] p = session W root disk [.start o2, .start o1] p := by
  show (disk.step W root (.start o1)).step W root (.start o2) p =
    (disk.step W root (.start o2)).step W root (.start o1) p
  obtain ⟨f1, k1, q1⟩ := start_writes (W := W) (root := root) h1 disk
  obtain ⟨f2, k2, q2⟩ := start_writes (W := W) (root := root) h2 disk
  have r : ∀ d : PDisk, SameInputs d d := fun d p _ => rfl
  rw [k2 _ start_input, k1 _ start_input, k1 _ (r disk), k2 _ (r disk)]
  simp only [write_apply]
  cases c1 : lastWritten f1 p with
  | none => cases c2 : lastWritten f2 p <;> rfl
  | some c =>
    cases c2 : lastWritten f2 p with
    | none => rfl
    | some c' =>
      exfalso
      rcases q1 with rfl | ⟨f, P, hf, hP, hw⟩
      · simp [lastWritten] at c1
      rcases q2 with rfl | ⟨g, Q, hg, hQ, hw'⟩
      · simp [lastWritten] at c2
      have o1 := (writes_paths hw _ (lastWritten_mem c1)).resolve_right hp
      have o2 := (writes_paths hw' _ (lastWritten_mem c2)).resolve_right hp
      obtain ⟨n, hn, e1⟩ := project_base hP
      obtain ⟨m, hm, e2⟩ := project_base hQ
      exact hb f g n m hf hg hn hm (by rw [← e1, ← e2]; exact o1.unique o2)

/-! ## Examples -/

/-- A project folder with two settings files of the same name, one that asks for all results and one
that asks for none, and a third settings file. -/
noncomputable def flatDisk : PDisk := fun p =>
  if p = ["flat.json"] then some (.settings (.dict savingSettings))
  else if p = ["settings", "flat.json"] then some (.settings (.dict exampleSettings))
  else if p = ["settings", "other.json"] then some (.settings (.dict exampleSettings))
  else if p = ["aircraft", "plane.json"] then some (.aircraft rectFile)
  else if p = ["state", "cruise.json"] then some (.state (oneState 10 1 5 0))
  else none

/-- The settings file in the folder. -/
def flatArg : Name := "flat.json".toList

/-- The settings file of the same name in the directory `settings`. -/
def flatArg' : Name := "settings/flat.json".toList

/-- The third settings file. -/
def otherArg : Name := "settings/other.json".toList

theorem flat_path : cliPath flatArg = ["flat.json"] := by decide +kernel

theorem flat_path' : cliPath flatArg' = ["settings", "flat.json"] := by decide +kernel

theorem other_path : cliPath otherArg = ["settings", "other.json"] := by decide +kernel

theorem flat_base : baseOf "flat.json" = "flat" := by decide +kernel

theorem other_base : baseOf "other.json" = "other" := by decide +kernel

/-- The project read from a disk with the aircraft and the state of `flatDisk`. -/
theorem flat_project {d : PDisk} (hd : ∀ a b, a ∈ ["aircraft", "state", "deformation"] →
    d [a, b] = flatDisk [a, b]) {f : Name} {n base : String} {v : PyDict}
    (h1 : settingsName (cliPath f) = some n) (h2 : d (cliPath f) = some (.settings (.dict v)))
    (h3 : baseOf n = base) : d.project "/home" f = some { exampleProject rectFile with
      base := base, settings := .dict v } := by
  unfold PDisk.project PDisk.settings
  simp only [h1, h2, h3, Option.some.injEq, Project.mk.injEq, exampleProject, true_and]
  refine ⟨?_, ?_, ?_⟩ <;> funext a
  · rw [hd _ _ (by simp)]
    by_cases ha : a = "plane.json" <;> simp [flatDisk, ha]
  · rw [hd _ _ (by simp)]
    by_cases ha : a = "cruise.json" <;> simp [flatDisk, ha]
  · rw [hd _ _ (by simp)]
    simp [flatDisk]

theorem flat_native (base : String) : NativeProject exampleWorld { exampleProject rectFile with
    base := base, settings := .dict savingSettings } savingSettings "plane.json" "cruise.json" :=
  ⟨rfl, by simp [savingSettings, exampleSettings], by simp [savingSettings, exampleSettings], rfl,
    by simp [savingSettings, exampleSettings], (example_native rectFile).notCpacs⟩

theorem flat_finishes (base : String) : ∃ out, runProject exampleWorld
    { exampleProject rectFile with base := base, settings := .dict savingSettings } = .ok out :=
  (C104_output_settings exampleWorld exactDgesv_lapack _ exampleSettings savingSettings
    "plane.json" "cruise.json" (example_native rectFile) (by simp [savingSettings, exampleSettings])
    (by intro k v h1 h2; simp [savingSettings, exampleSettings, h1]) example_settings saving_ok
    base).finish.1 rect_finishes

theorem quiet_finishes (base : String) : ∃ out, runProject exampleWorld
    { exampleProject rectFile with base := base } = .ok out :=
  (C104_output_settings exampleWorld exactDgesv_lapack _ exampleSettings exampleSettings
    "plane.json" "cruise.json" (example_native rectFile) (by simp [exampleSettings])
    (by intro k v h1 h2; rfl) example_settings example_settings base).finish.1 rect_finishes

/-- The run with all results leaves the map of the aerodynamic coefficients. -/
theorem flat_map {base : String} {out : RunOut} (h : runProject exampleWorld
    { exampleProject rectFile with base := base, settings := .dict savingSettings } = .ok out) :
    ∃ c, lastWritten out.files ["_results", base ++ "_aeroperformance.json"] = some c := by
  obtain ⟨-, -, st, -, -, -, -, -, -, -, -, h0, -, -, -, h1, -⟩ :=
    C105_files_of_project _ exactDgesv_lapack _ _ _ _ (flat_native base) out h
  have := lastWritten_ne_none.2 ((h1 _).2 (.map (saving_wanted _ (by simp))))
  exact Option.ne_none_iff_exists'.1 this

/-- The run without results leaves nothing. -/
theorem quiet_files {base : String} {out : RunOut} (h : runProject exampleWorld
    { exampleProject rectFile with base := base } = .ok out) : out.files = [] := by
  have hn : NativeProject exampleWorld { exampleProject rectFile with base := base }
      exampleSettings "plane.json" "cruise.json" :=
    ⟨rfl, (example_native rectFile).keys, by simp [exampleSettings], rfl,
      by simp [exampleSettings], (example_native rectFile).notCpacs⟩
  obtain ⟨-, -, st, -, -, -, -, -, -, -, -, -, -, -, -, h1, -⟩ :=
    C105_files_of_project _ exactDgesv_lapack _ _ _ _ hn out h
  rw [← List.map_eq_nil_iff (f := Prod.fst), List.eq_nil_iff_forall_not_mem]
  intro path hp
  have no : ∀ key, ¬ SaveWanted exampleSettings key := by
    rintro key ⟨g, hg, -⟩
    simp [exampleSettings] at hg
  cases (h1 path).1 hp with
  | state i key name _ _ hs => exact no _ hs
  | map hs => exact no _ hs

theorem run_only (f : Name) : ¬ Conflict [.run f] ∧ mainOpt [.run f] = some (.run f) ∧
    .cleanOnly ∉ [Opt.run f] ∧ ¬ CleanGiven [.run f] := by
  refine ⟨?_, rfl, by simp, by simp [CleanGiven]⟩
  rw [conflict_iff]
  rintro ⟨o, ho, p, hp, -, hne⟩
  rw [List.mem_singleton.1 ho, List.mem_singleton.1 hp] at hne
  exact hne rfl

theorem clean_and_run (f : Name) : ¬ Conflict [.clean, .run f] ∧
    mainOpt [.clean, .run f] = some (.run f) := by
  refine ⟨?_, rfl⟩
  rw [conflict_iff]
  rintro ⟨o, ho, p, hp, hg, hne⟩
  simp only [List.mem_cons, List.not_mem_nil, or_false] at ho hp
  rcases ho with rfl | rfl <;> rcases hp with rfl | rfl <;> simp [Opt.group, Opt.kind] at hg hne

theorem flat_has : flatDisk.project "/home" flatArg = some { exampleProject rectFile with
    base := "flat", settings := .dict savingSettings } :=
  flat_project (fun _ _ _ => rfl) (n := "flat.json") (by rw [flat_path]; decide)
    (by rw [flat_path]; simp [flatDisk]) flat_base

/-- Example for C122: the map of the first settings file is there after the second and third
settings file have changed and the third has been run. -/
example : ∃ c, session exampleWorld "/home" flatDisk [.start [.run flatArg],
      .edit ["settings", "other.json"] (some (.settings (.dict savingSettings))),
      .start [.run otherArg]] ["_results", "flat" ++ "_aeroperformance.json"] = some (.result c) := by
  obtain ⟨out, h⟩ := flat_finishes "flat"
  obtain ⟨c, hc⟩ := flat_map h
  obtain ⟨k1, k2, k3, -⟩ := run_only flatArg
  refine ⟨c, C122_latest exampleWorld "/home" flatDisk [.run flatArg] flatArg k1 (by decide) k2 k3 _
    flat_has out.files (.inl ⟨out, h, rfl⟩) _ ?_ _ c (by decide) hc⟩
  intro s hs
  simp only [List.mem_cons, List.not_mem_nil, or_false] at hs
  rcases hs with rfl | rfl
  · show List.head? ["settings", "other.json"] ≠ some "_results"
    decide
  · refine ⟨(run_only otherArg).2.2.2, ?_⟩
    intro g n hg hn
    rw [List.mem_singleton] at hg
    cases hg
    rw [other_path] at hn
    have : n = "other.json" := by
      have e : settingsName ["settings", "other.json"] = some "other.json" := by decide
      rw [e] at hn
      exact (Option.some.inj hn).symm
    subst this
    rw [other_base]
    decide

/-- Example for C122: a run with `--clean` leaves the map and nothing of other settings files. -/
example : (flatDisk.step exampleWorld "/home" (.start [.clean, .run flatArg])
      ["_results", "flat" ++ "_aeroperformance.json"]) ≠ none ∧
    flatDisk.step exampleWorld "/home" (.start [.clean, .run flatArg])
      ["_results", "other" ++ "_aeroperformance.json"] = none := by
  obtain ⟨out, h⟩ := flat_finishes "flat"
  obtain ⟨k1, k2⟩ := clean_and_run flatArg
  obtain ⟨sd, st, -, -, h1⟩ := C122_clean_finished exampleWorld exactDgesv_lapack "/home" flatDisk
    [.clean, .run flatArg] flatArg k1 (by decide) k2 (by simp) _ flat_has _ _ _
    (flat_native "flat") out h
  refine ⟨(h1 _ rfl).2 (.map (saving_wanted _ (by simp))), ?_⟩
  by_contra hne
  have := (h1 _ rfl).1 hne
  generalize hp : ["_results", "other" ++ "_aeroperformance.json"] = p at this
  cases this with
  | state i key name _ _ _ => simp at hp
  | map _ => exact absurd hp (by decide)

/-! ## What does not hold -/

/-- **C122**: it is not true that the results of a settings file are those of its latest run:
without `--clean` files of earlier runs stay.  Witness: all results are saved, then the settings are
changed so that none are, and the project is run again. -/
theorem C122_stale_false :
    ¬ ∀ (W : World) (_ : Lapack W.dgesv) (root : String) (disk : PDisk)
      (_ : ∀ p, p.head? = some "_results" → disk p = none) (l : List UserStep) (f : Name)
      (_ : f ≠ []) (P : Project) (out : RunOut) (_ : (session W root disk l).project root f = some P)
      (_ : runProject W P = .ok out) (p : FilePath), OwnFile P.base p →
      session W root disk (l ++ [.start [.run f]]) p ≠ none → p ∈ out.files.map Prod.fst := by
  intro H
  obtain ⟨out, h⟩ := flat_finishes "flat"
  obtain ⟨out', h'⟩ := quiet_finishes "flat"
  obtain ⟨c, hc⟩ := flat_map h
  obtain ⟨k1, k2, k3, k4⟩ := run_only flatArg
  let p : FilePath := ["_results", "flat" ++ "_aeroperformance.json"]
  let l : List UserStep := [.start [.run flatArg],
    .edit ["flat.json"] (some (.settings (.dict exampleSettings)))]
  have hin : ∀ q, InputPath q → session exampleWorld "/home" flatDisk l q =
      Function.update flatDisk ["flat.json"] (some (.settings (.dict exampleSettings))) q :=
    fun q hq => C122_inputs exampleWorld "/home" flatDisk l q hq
  have hP : (session exampleWorld "/home" flatDisk l).project "/home" flatArg =
      some { exampleProject rectFile with base := "flat" } := by
    refine flat_project (n := "flat.json") (v := exampleSettings) ?_
      (by rw [flat_path]; decide) ?_ flat_base
    · intro a b hab
      rw [hin]
      · rw [Function.update_of_ne (by simp)]
      · simp only [List.mem_cons, List.not_mem_nil, or_false] at hab
        rcases hab with rfl | rfl | rfl <;> exact ⟨by simp, by simp, by simp⟩
    · rw [flat_path, hin _ ⟨by decide, by decide, by decide⟩, Function.update_self]
  have hown : OwnFile "flat" p := .inr rfl
  have h1 : session exampleWorld "/home" flatDisk l p = some (.result c) :=
    C122_latest exampleWorld "/home" flatDisk [.run flatArg] flatArg k1 (by decide) k2 k3 _
      flat_has out.files (.inl ⟨out, h, rfl⟩) _ (by
        intro s hs
        rw [List.mem_singleton.1 hs]
        show List.head? ["flat.json"] ≠ some "_results"
        decide) _ c (by decide) hc
  have h2 : session exampleWorld "/home" flatDisk (l ++ [.start [.run flatArg]]) p =
      some (.result c) := by
    rw [session, List.foldl_append]
    change (session exampleWorld "/home" flatDisk l).step exampleWorld "/home"
      (.start [.run flatArg]) p = some (.result c)
    rw [start_result k1 (by decide) k2 k3 hP (.inl ⟨out', h', rfl⟩), quiet_files h']
    simpa [lastWritten] using h1
  have := H exampleWorld exactDgesv_lapack "/home" flatDisk ?_ l flatArg (by decide) _ out' hP h' p
    hown (by rw [h2]; simp)
  · rw [quiet_files h'] at this
    simp at this
  · intro q hq
    unfold flatDisk
    have : ∀ a rest, a ≠ "_results" → q ≠ a :: rest := by
      rintro a rest ha rfl
      exact ha (Option.some.inj hq)
    rw [if_neg (this _ _ (by decide)), if_neg (this _ _ (by decide)), if_neg (this _ _ (by decide)),
      if_neg (this _ _ (by decide)), if_neg (this _ _ (by decide))]

/-- **C122**: it is not true that different settings files have different results: files with the
same name up to the extension share them.  Witness: `flat.json` and `settings/flat.json`. -/
theorem C122_same_name_false :
    ¬ ∀ (W : World) (_ : Lapack W.dgesv) (root : String) (disk : PDisk) (f g : Name)
      (_ : cliPath f ≠ cliPath g) (P Q : Project) (_ : disk.project root f = some P)
      (_ : disk.project root g = some Q) (p : FilePath), OwnFile Q.base p →
      disk.step W root (.start [.run f]) p = disk p := by
  intro H
  obtain ⟨out, h⟩ := flat_finishes "flat"
  obtain ⟨c, hc⟩ := flat_map h
  obtain ⟨k1, k2, k3, k4⟩ := run_only flatArg
  have hQ : flatDisk.project "/home" flatArg' = some { exampleProject rectFile with
      base := "flat", settings := .dict exampleSettings } :=
    flat_project (fun _ _ _ => rfl) (n := "flat.json") (by rw [flat_path']; decide)
      (by rw [flat_path']; simp [flatDisk]) flat_base
  have := H exampleWorld exactDgesv_lapack "/home" flatDisk flatArg flatArg'
    (by rw [flat_path, flat_path']; decide) _ _ flat_has hQ
    ["_results", "flat" ++ "_aeroperformance.json"] (.inr rfl)
  rw [start_result k1 (by decide) k2 k3 flat_has (.inl ⟨out, h, rfl⟩), hc] at this
  simp [flatDisk] at this

/-- **C122**: it is not true that `--clean` concerns the results of the given settings file only: it
removes those of all settings files of the project. -/
theorem C122_clean_false :
    ¬ ∀ (W : World) (_ : Lapack W.dgesv) (root : String) (disk : PDisk) (f g : Name) (P Q : Project)
      (_ : disk.project root f = some P) (_ : disk.project root g = some Q) (_ : P.base ≠ Q.base)
      (p : FilePath), OwnFile Q.base p →
      disk.step W root (.start [.clean, .run f]) p = disk p := by
  intro H
  obtain ⟨out, h⟩ := flat_finishes "flat"
  obtain ⟨out', h'⟩ := quiet_finishes "other"
  obtain ⟨c, hc⟩ := flat_map h
  obtain ⟨k1, k2, k3, k4⟩ := run_only flatArg
  obtain ⟨q1, q2⟩ := clean_and_run otherArg
  let d := flatDisk.step exampleWorld "/home" (.start [.run flatArg])
  have hd : SameInputs d flatDisk := start_input
  have hP : d.project "/home" flatArg = some _ := (project_congr hd _ _).trans flat_has
  have hQ : d.project "/home" otherArg = some { exampleProject rectFile with
      base := "other", settings := .dict exampleSettings } :=
    (project_congr hd _ _).trans
      (flat_project (fun _ _ _ => rfl) (n := "other.json") (by rw [other_path]; decide)
        (by rw [other_path]; simp [flatDisk]) other_base)
  have := H exampleWorld exactDgesv_lapack "/home" d otherArg flatArg _ _ hQ hP (by decide)
    ["_results", "flat" ++ "_aeroperformance.json"] (.inr rfl)
  rw [C122_clean_run exampleWorld "/home" d _ otherArg q1 (by decide) q2 (by simp) _ hQ ?_
    out'.files (.inl ⟨out', h', rfl⟩) _ rfl, quiet_files h'] at this
  · rw [show d ["_results", "flat" ++ "_aeroperformance.json"] = some (.result c) from by
      show flatDisk.step exampleWorld "/home" (.start [.run flatArg]) _ = _
      rw [start_result k1 (by decide) k2 k3 flat_has (.inl ⟨out, h, rfl⟩), hc]] at this
    simp [lastWritten] at this
  · cases hl : loadSettings exampleWorld.suffix (.dict exampleSettings) with
    | ok s => exact ⟨s, rfl⟩
    | error e =>
      exfalso
      unfold runProject loadProject at h'
      simp only [exampleProject, hl] at h'
      cases h'

end Verif
