import Verif.Lemmas.Settings
import Mathlib.Tactic.NormNum

/-!
# Properties C46–C50: settings
-/

namespace Verif

/-! ## C46 -/

/-- A value has the type a template asks for: leaves have one of the listed types (`None` being a
value of type `None`), groups are dictionaries with a value of the right type for each key. -/
inductive WellTyped : Tmpl → PyVal → Prop
  | leaf {v : PyVal} {ts : List (Option PyType)} {x : PyVal} (t : PyType) :
    some t ∈ ts → x.isInst t = true → WellTyped (.leaf v ts) x
  | none {v : PyVal} {ts : List (Option PyType)} : none ∈ ts → WellTyped (.leaf v ts) .none
  | group {es : List (String × Tmpl)} {d : PyDict} (f : String → PyVal) :
    (∀ x ∈ es, d.lookup x.1 = some (f x.1)) → (∀ x ∈ es, WellTyped x.2 (f x.1)) →
    WellTyped (.group es) (.dict d)

/-- No entry of the template admits `None`. -/
inductive NoneFree : Tmpl → Prop
  | leaf {v : PyVal} {ts : List (Option PyType)} : none ∉ ts → NoneFree (.leaf v ts)
  | group {es : List (String × Tmpl)} : (∀ x ∈ es, NoneFree x.2) → NoneFree (.group es)

theorem wellTyped_leaf {v : PyVal} {ts : List (Option PyType)} (h : none ∉ ts) (x : PyVal) :
    WellTyped (.leaf v ts) x ↔ checkEntry (.leaf v ts) (some x) = .ok () := by
  simp only [checkEntry, if_neg h]
  constructor
  · intro hw
    cases hw with
    | leaf t ht hx =>
      rw [if_pos]
      rw [List.any_eq_true]
      exact ⟨some t, ht, hx⟩
    | none hn => exact absurd hn h
  · intro hc
    split_ifs at hc with hany
    rw [List.any_eq_true] at hany
    obtain ⟨t, ht, hx⟩ := hany
    cases t with
    | none => exact absurd ht h
    | some t => exact .leaf t ht hx

/-- **C46** for templates without optional entries: validation succeeds exactly for well-typed
values, whatever other keys there are.  (Missing: entries which admit `None` are not checked at all,
`C46_optional_false`, `C46_optional_ignored`.) -/
theorem C46_check_partial (t : Tmpl) (ht : NoneFree t) (x : PyVal) :
    checkEntry t (some x) = .ok () ↔ WellTyped t x := by
  induction ht generalizing x with
  | leaf h => exact (wellTyped_leaf h x).symm
  | group _ ih =>
    rename_i es _
    rw [checkEntry_group_ok]
    constructor
    · rintro ⟨d, hx, hd⟩
      cases hx
      rw [checkDict_iff] at hd
      have hsome : ∀ y ∈ es, ∃ v, d.lookup y.1 = some v := by
        intro y hy
        cases hl : d.lookup y.1 with
        | some v => exact ⟨v, rfl⟩
        | none =>
          have := hd y hy
          rw [hl] at this
          obtain ⟨k, t⟩ := y
          cases t with
          | leaf v ts =>
            rename_i hnf
            have hn := hnf _ hy
            cases hn with
            | leaf hn => simp [checkEntry, hn] at this
          | group es' => simp [checkEntry] at this
      refine .group (fun k => (d.lookup k).getD .none) ?_ ?_
      · intro y hy
        obtain ⟨v, hv⟩ := hsome y hy
        simp [hv]
      · intro y hy
        obtain ⟨v, hv⟩ := hsome y hy
        have := hd y hy
        rw [hv] at this
        simp only [hv, Option.getD_some]
        exact (ih y hy v).1 this
    · intro hw
      cases hw with
      | group f h1 h2 =>
        rename_i d
        refine ⟨d, rfl, ?_⟩
        rw [checkDict_iff]
        intro y hy
        rw [h1 y hy]
        exact (ih y hy _).2 (h2 y hy)

/-- **C46**: a failing validation raises KeyError or TypeError. -/
theorem C46_errors (es : List (String × Tmpl)) (d : PyDict) (e : PyErr)
    (h : checkDict es d = .error e) : e = .keyError ∨ e = .typeError :=
  checkDict_error es d e h

/-- An entry which admits `None`. -/
def Tmpl.optional : Tmpl → Bool
  | .leaf _ ts => none ∈ ts
  | .group _ => false

mutual
/-- The template without the entries which admit `None`. -/
def Tmpl.strict : Tmpl → Tmpl
  | .leaf v ts => .leaf v ts
  | .group es => .group (strictEntries es)
termination_by structural t => t
/-- The entries which do not admit `None`. -/
def strictEntries : List (String × Tmpl) → List (String × Tmpl)
  | [] => []
  | (k, t) :: rest => if t.optional then strictEntries rest else (k, t.strict) :: strictEntries rest
termination_by structural es => es
end

mutual
theorem check_strict : ∀ (t : Tmpl) (v : Option PyVal), t.optional = false →
    checkEntry t v = checkEntry t.strict v
  | .leaf _ _, _, _ => by rw [Tmpl.strict]
  | .group es, none, _ => by simp [checkEntry, Tmpl.strict]
  | .group es, some (.dict d), _ => by
    rw [Tmpl.strict, checkEntry, checkEntry]
    exact C46_optional_ignored es d
  | .group es, some .none, _ => by simp [checkEntry, Tmpl.strict]
  | .group es, some (.bool _), _ => by simp [checkEntry, Tmpl.strict]
  | .group es, some (.int _), _ => by simp [checkEntry, Tmpl.strict]
  | .group es, some (.float _), _ => by simp [checkEntry, Tmpl.strict]
  | .group es, some (.str _), _ => by simp [checkEntry, Tmpl.strict]
  | .group es, some (.list _), _ => by simp [checkEntry, Tmpl.strict]
/-- **C46**: entries which admit `None` are ignored: neither their type nor their presence is
checked. -/
theorem C46_optional_ignored : ∀ (es : List (String × Tmpl)) (d : PyDict),
    checkDict es d = checkDict (strictEntries es) d
  | [], d => by rw [strictEntries]
  | (k, t) :: rest, d => by
    rw [strictEntries]
    by_cases h : t.optional = true
    · rw [if_pos h, checkDict, ← C46_optional_ignored rest d]
      cases t with
      | group es => cases h
      | leaf v ts =>
        have h' : none ∈ ts := by simpa [Tmpl.optional] using h
        cases d.lookup k <;> simp [checkEntry, h']
    · rw [if_neg h, checkDict, checkDict, ← C46_optional_ignored rest d,
        check_strict t _ (by simpa using h)]
end

mutual
theorem noneFree_strict : ∀ t : Tmpl, t.optional = false → NoneFree t.strict
  | .leaf v ts, h => by
    rw [Tmpl.strict]
    exact .leaf (by simpa [Tmpl.optional] using h)
  | .group es, _ => by
    rw [Tmpl.strict]
    exact .group (noneFree_entries es)
theorem noneFree_entries : ∀ es : List (String × Tmpl), ∀ x ∈ strictEntries es, NoneFree x.2
  | [], x, hx => by
    rw [strictEntries] at hx
    cases hx
  | (k, t) :: rest, x, hx => by
    rw [strictEntries] at hx
    by_cases h : t.optional = true
    · rw [if_pos h] at hx
      exact noneFree_entries rest x hx
    · rw [if_neg h] at hx
      rcases List.mem_cons.1 hx with rfl | hx
      · exact noneFree_strict t (by simpa using h)
      · exact noneFree_entries rest x hx
end

/-- **C46**, complete description of what the code accepts: dictionaries well typed for the template
without its optional entries. -/
theorem C46_accepted_iff (es : List (String × Tmpl)) (d : PyDict) :
    checkDict es d = .ok () ↔ WellTyped (.group (strictEntries es)) (.dict d) := by
  rw [C46_optional_ignored,
    ← C46_check_partial (.group (strictEntries es)) (.group (noneFree_entries es)), checkEntry]

/-- All defaults of a template have their types, and its keys are distinct. -/
inductive DefaultsTyped : Tmpl → Prop
  | leaf {v : PyVal} {ts : List (Option PyType)} (t : PyType) :
    some t ∈ ts → v.isInst t = true → DefaultsTyped (.leaf v ts)
  | optional {ts : List (Option PyType)} : none ∈ ts → DefaultsTyped (.leaf .none ts)
  | group {es : List (String × Tmpl)} : (es.map Prod.fst).Nodup →
    (∀ x ∈ es, DefaultsTyped x.2) → DefaultsTyped (.group es)

/-- **C46**: the defaults of a template pass its own check. -/
theorem C46_defaults (es : List (String × Tmpl)) (h : DefaultsTyped (.group es)) :
    checkDict es (defaultDict es) = .ok () := by
  have main : ∀ t, DefaultsTyped t → checkEntry t (some t.default) = .ok () := by
    intro t ht
    induction ht with
    | leaf t hm hi =>
      rw [Tmpl.default]
      simp only [checkEntry]
      split_ifs with h1 h2
      · rfl
      · rfl
      · exfalso
        apply h2
        rw [List.any_eq_true]
        exact ⟨some t, hm, hi⟩
    | optional hm => simp [checkEntry, hm]
    | group hnd _ ih =>
      rename_i es _
      rw [Tmpl.default, checkEntry, checkDict_iff]
      intro x hx
      rw [lookup_default, lookup_of_mem hnd hx]
      exact ih x hx
  have := main _ h
  rwa [Tmpl.default, checkEntry] at this

/-- **C46** does not hold for entries which admit `None`: the template of the settings asks for
`None` or a string, yet any value passes. -/
theorem C46_optional_false :
    ∃ d : PyDict, checkDict defaultSettings d = .ok () ∧
      d.lookup "deformation" = some (.int 5) ∧
      ¬ WellTyped (.leaf .none [none, some .str]) (.int 5) := by
  refine ⟨[("aircraft", .str "a.json"), ("state", .str "s.json"), ("deformation", .int 5)] ++
    (defaultDict defaultSettings).drop 3, rfl, rfl, ?_⟩
  intro h
  cases h with
  | leaf t ht hi =>
    simp only [List.mem_cons, reduceCtorEq, Option.some.injEq, List.not_mem_nil, or_false,
      false_or] at ht
    subst ht
    cases hi

/-! ## C47 -/

theorem load_cases {suffix : String → String} {file : PyVal} {s : SettingsObj}
    (h : loadSettings suffix file = .ok s) :
    (file = .none ∧ s.settings = defaultDict defaultSettings ∨
      ∃ d, file = .dict d ∧ updateSettings (defaultDict defaultSettings) d = .ok s.settings) ∧
    aircraftFileType suffix s.settings = .ok s.aircraftIsCpacs := by
  have init : ∀ d, initSettings suffix d = .ok s →
      (match d with
        | none => .ok (defaultDict defaultSettings)
        | some d => updateSettings (defaultDict defaultSettings) d) = Except.ok s.settings ∧
      aircraftFileType suffix s.settings = .ok s.aircraftIsCpacs := by
    intro d h
    unfold initSettings at h
    simp only at h
    split at h
    · cases h
    · rename_i s' hs'
      split at h
      · cases h
      · rename_i b hb
        cases h
        exact ⟨hs', hb⟩
  cases file <;> simp only [loadSettings] at h
  · obtain ⟨h1, h2⟩ := init _ h
    simp only [Except.ok.injEq] at h1
    exact ⟨Or.inl ⟨rfl, h1.symm⟩, h2⟩
  all_goals try cases h
  rename_i d
  obtain ⟨h1, h2⟩ := init _ h
  exact ⟨Or.inr ⟨d, rfl, h1⟩, h2⟩

theorem updateSettings_ok {s0 d s : PyDict} (h : updateSettings s0 d = .ok s) :
    plotDefault (updateAll s0 d) = .ok s ∧ checkDict defaultSettings s = .ok () ∧
      ∃ x, s.lookup "_epsilon" = some (.float (.fin x)) ∧ 0 < x ∧ x < 1 := by
  unfold updateSettings at h
  split at h
  · cases h
  · rename_i s' hs'
    split at h
    · cases h
    · rename_i u hu
      cases h
      refine ⟨hs', ?_⟩
      unfold checkSettings at hu
      split at hu
      · cases hu
      · rename_i u' hu'
        refine ⟨hu', ?_⟩
        split at hu
        · rename_i x hx
          split_ifs at hu with hlt
          exact ⟨x, hx, hlt⟩
        · cases hu

/-- **C47** -/
theorem C47_epsilon (suffix : String → String) (file : PyVal) (s : SettingsObj)
    (h : loadSettings suffix file = .ok s) :
    ∃ x, s.settings.lookup "_epsilon" = some (.float (.fin x)) ∧ 0 < x ∧ x < 1 := by
  obtain ⟨⟨-, h⟩ | ⟨d, -, h⟩, -⟩ := load_cases h
  · rw [h]
    exact ⟨1 / 1000000, rfl, by norm_num, by norm_num⟩
  · exact (updateSettings_ok h).2.2

/-! ## C48 -/

/-- The value at a path of keys. -/
def PyVal.at : List String → PyVal → Option PyVal
  | [], v => some v
  | k :: ks, .dict d => (d.lookup k).bind (PyVal.at ks)
  | _ :: _, _ => Option.none

/-- Not a dictionary. -/
def PyVal.IsLeaf (v : PyVal) : Prop := ∀ d, v ≠ .dict d

theorem item_ok {v x : PyVal} {k : String} (h : v.item k = .ok x) :
    ∃ d, v = .dict d ∧ d.lookup k = some x := by
  cases v <;> simp only [PyVal.item] at h <;> try cases h
  rename_i d
  refine ⟨d, rfl, ?_⟩
  cases hl : d.lookup k with
  | none => simp [hl] at h
  | some y =>
    simp only [hl, Except.ok.injEq] at h
    rw [h]

theorem plotDefault_ok {s s' : PyDict} (h : plotDefault s = .ok s') :
    ∃ p r o, s.lookup "plot" = some (.dict p) ∧ p.lookup "results" = some (.dict r) ∧
      r.lookup "opt" = some o ∧
      ((o.truthy = true ∧ s' = s) ∨ (o.truthy = false ∧
        s' = PyDict.set s "plot" (.dict (PyDict.set p "results"
          (.dict (PyDict.set r "opt" (.list [.str "cp"]))))))) := by
  unfold plotDefault at h
  split at h
  · cases h
  rename_i plot hp
  split at h
  · cases h
  rename_i results hr
  split at h
  · cases h
  rename_i o ho
  obtain ⟨d, hd, hp⟩ := item_ok hp
  cases hd
  obtain ⟨p, rfl, hr'⟩ := item_ok hr
  obtain ⟨r, rfl, ho'⟩ := item_ok ho
  refine ⟨p, r, o, hp, hr', ho', ?_⟩
  split_ifs at h with ht
  · cases h
    exact Or.inl ⟨ht, rfl⟩
  · cases h
    exact Or.inr ⟨by simpa using ht, rfl⟩

/-- The default of the group 'plot' after loading: lift coefficients are replaced by "cp" only in
the group 'results'. -/
def loadedPlot : PyVal :=
  let off (opt : List PyVal) : PyVal :=
    .dict [("opt", .list opt), ("show", .bool false), ("save", .bool false)]
  .dict [("geometry", off []), ("lattice", off []), ("matrix_downwash", off []),
    ("results", off [.str "cp"])]

/-- **C48** for top-level settings: what the user leaves out has its default, what the user gives
is kept.  In the group 'plot' an empty list of result plots becomes `['cp']`.  (Missing: groups
given in part are rejected, `C48_nested_false`.) -/
theorem C48_defaults_partial (suffix : String → String) (d : PyDict)
    (hd : (d.map Prod.fst).Nodup) (s : SettingsObj)
    (h : loadSettings suffix (.dict d) = .ok s) :
    (∀ k t, (k, t) ∈ defaultSettings → k ≠ "plot" → (∀ v, (k, v) ∉ d) →
      s.settings.lookup k = some t.default) ∧
    (∀ k v, (k, v) ∈ d → k ≠ "plot" → s.settings.lookup k = some v) ∧
    ((∀ v, ("plot", v) ∉ d) → s.settings.lookup "plot" = some loadedPlot) ∧
    ∀ v, ("plot", v) ∈ d → ∃ o, v.at ["results", "opt"] = some o ∧
      (PyVal.dict s.settings).at ["plot", "results", "opt"] =
        some (if o.truthy then o else .list [.str "cp"]) ∧
      ∀ path x, ¬ ["results", "opt"] <+: path → x.IsLeaf →
        ((PyVal.dict s.settings).at ("plot" :: path) = some x ↔ v.at path = some x) := by
  obtain ⟨h | ⟨d', hd', hu⟩, -⟩ := load_cases h
  · cases h.1
  cases hd'
  obtain ⟨hp, -, -⟩ := updateSettings_ok hu
  obtain ⟨p, r, o, h1, h2, h3, hs⟩ := plotDefault_ok hp
  have hother : ∀ k, k ≠ "plot" →
      s.settings.lookup k = (d.lookup k).or ((defaultDict defaultSettings).lookup k) := by
    intro k hk
    rw [← lookup_updateAll _ _ hd]
    rcases hs with ⟨-, e⟩ | ⟨-, e⟩
    · rw [e]
    · rw [e, lookup_set, if_neg hk]
  have hnd : (defaultSettings.map Prod.fst).Nodup := by decide
  have hplot : s.settings.lookup "plot" = some (if o.truthy then .dict p else
      .dict (PyDict.set p "results" (.dict (PyDict.set r "opt" (.list [.str "cp"]))))) := by
    rcases hs with ⟨ht, e⟩ | ⟨ht, e⟩
    · rw [e, h1, if_pos ht]
    · rw [e, lookup_set, if_pos rfl, ht]
      rfl
  rw [lookup_updateAll _ _ hd] at h1
  refine ⟨?_, ?_, ?_, ?_⟩
  · intro k t hk hne hno
    rw [hother k hne, lookup_none.2 hno, Option.none_or, lookup_default, lookup_of_mem hnd hk]
    rfl
  · intro k v hk hne
    rw [hother k hne, lookup_of_mem hd hk, Option.some_or]
  · intro hno
    rw [lookup_none.2 hno, Option.none_or] at h1
    cases h1
    cases h2
    cases h3
    rw [hplot]
    rfl
  · intro v hv
    rw [lookup_of_mem hd hv, Option.some_or] at h1
    cases h1
    refine ⟨o, ?_, ?_, ?_⟩
    · simp only [PyVal.at, h2, Option.bind_some, h3]
    · rw [PyVal.at, hplot, Option.bind_some]
      by_cases ht : o.truthy = true
      · rw [if_pos ht, if_pos ht]
        simp only [PyVal.at, h2, Option.bind_some, h3]
      · rw [if_neg ht, if_neg ht]
        simp only [PyVal.at, lookup_set, if_true, Option.bind_some]
    · intro path x hpath hx
      rw [PyVal.at, hplot, Option.bind_some]
      by_cases ht : o.truthy = true
      · rw [if_pos ht]
      rw [if_neg ht]
      cases path with
      | nil =>
        simp only [PyVal.at, Option.some.injEq]
        exact ⟨fun e => absurd e.symm (hx _), fun e => absurd e.symm (hx _)⟩
      | cons k path =>
        rw [PyVal.at, PyVal.at, lookup_set]
        by_cases hk : k = "results"
        · subst hk
          rw [if_pos rfl, h2, Option.bind_some, Option.bind_some]
          cases path with
          | nil =>
            simp only [PyVal.at, Option.some.injEq]
            exact ⟨fun e => absurd e.symm (hx _), fun e => absurd e.symm (hx _)⟩
          | cons k path =>
            rw [PyVal.at, PyVal.at, lookup_set, if_neg]
            rintro rfl
            exact hpath ⟨path, rfl⟩
        · rw [if_neg hk]

/-- **C48** does not hold inside the groups: a group given in part is rejected with KeyError. -/
theorem C48_nested_false (suffix : String → String) :
    loadSettings suffix (.dict [("aircraft", .str "a.json"), ("state", .str "s.json"),
      ("save_results", .dict [("global", .bool true)])]) = .error .keyError ∧
    loadSettings suffix (.dict [("aircraft", .str "a.json"), ("state", .str "s.json"),
      ("plot", .dict [("results", .dict [("opt", .list [.str "cp"]), ("show", .bool true),
        ("save", .bool false)])])]) = .error .keyError :=
  ⟨rfl, rfl⟩

/-! ## C49 -/

theorem at_clean : ∀ (path : List String) (v x : PyVal),
    (PyVal.at path (cleanVal v) = some x ↔ (∀ k ∈ path, hidden k = false) ∧
      ∃ y, PyVal.at path v = some y ∧ x = cleanVal y)
  | [], v, x => by
    simp only [PyVal.at, Option.some.injEq, List.not_mem_nil, false_imp_iff, implies_true, true_and]
    constructor
    · rintro rfl
      exact ⟨v, rfl, rfl⟩
    · rintro ⟨y, rfl, rfl⟩
      rfl
  | k :: path, v, x => by
    cases v
    case dict d =>
      simp only [cleanVal, PyVal.at, lookup_clean, List.forall_mem_cons]
      cases hk : hidden k with
      | true => simp
      | false =>
        cases hl : d.lookup k with
        | none => simp
        | some w =>
          simp only [Bool.false_eq_true, if_false, Option.map_some, Option.bind_some, true_and]
          exact at_clean path w x
    all_goals simp [cleanVal, PyVal.at]

theorem cleanVal_leaf {v : PyVal} (h : v.IsLeaf) : cleanVal v = v := by
  cases v <;> try rfl
  exact absurd rfl (h _)

theorem cleanVal_isLeaf {v : PyVal} (h : (cleanVal v).IsLeaf) : v.IsLeaf := by
  rintro d rfl
  exact h (cleanDict d) (by rw [cleanVal])

/-- **C49**, the file: it contains exactly the settings whose keys do not start with an underscore,
at every level. -/
theorem C49_file (s : SettingsObj) (path : List String) :
    (∀ x : PyVal, x.IsLeaf → ((saveSettings s).2.at path = some x ↔
      (∀ k ∈ path, hidden k = false) ∧ (PyVal.dict s.settings).at path = some x)) ∧
    ((∃ d, (saveSettings s).2.at path = some (.dict d)) ↔
      (∀ k ∈ path, hidden k = false) ∧ ∃ d, (PyVal.dict s.settings).at path = some (.dict d)) := by
  have e : (saveSettings s).2 = cleanVal (.dict s.settings) := by
    simp only [saveSettings, cleanVal]
  rw [e]
  constructor
  · intro x hx
    rw [at_clean]
    constructor
    · rintro ⟨h, y, hy, rfl⟩
      rw [cleanVal_leaf (cleanVal_isLeaf hx)]
      exact ⟨h, hy⟩
    · rintro ⟨h, hy⟩
      exact ⟨h, x, hy, (cleanVal_leaf hx).symm⟩
  · constructor
    · rintro ⟨d, hd⟩
      obtain ⟨h, y, hy, e⟩ := (at_clean _ _ _).1 hd
      refine ⟨h, ?_⟩
      cases y <;> simp only [cleanVal] at e <;> try cases e
      exact ⟨_, hy⟩
    · rintro ⟨h, d, hd⟩
      exact ⟨cleanDict d, (at_clean _ _ _).2 ⟨h, _, hd, by rw [cleanVal]⟩⟩

/-- **C49** does not hold for the settings in memory: saving removes the hidden settings from every
loaded settings object. -/
theorem C49_memory_false (suffix : String → String) (file : PyVal) (s : SettingsObj)
    (h : loadSettings suffix file = .ok s) :
    (∃ v, s.settings.lookup "_epsilon" = some v) ∧
      (saveSettings s).1.settings.lookup "_epsilon" = none := by
  obtain ⟨x, hx, -⟩ := C47_epsilon suffix file s h
  refine ⟨⟨_, hx⟩, ?_⟩
  simp only [saveSettings, lookup_clean]
  rfl

/-- **C49**, what does hold in memory: settings at paths without leading underscores are unchanged.
(Missing: the hidden settings, `C49_memory_false`.) -/
theorem C49_memory_partial (s : SettingsObj) (path : List String)
    (hp : ∀ k ∈ path, hidden k = false) (x : PyVal) (hx : x.IsLeaf) :
    ((PyVal.dict (saveSettings s).1.settings).at path = some x ↔
      (PyVal.dict s.settings).at path = some x) ∧
    (saveSettings s).1.aircraftIsCpacs = s.aircraftIsCpacs := by
  have := (C49_file s path).1 x hx
  refine ⟨?_, rfl⟩
  rw [show PyVal.dict (saveSettings s).1.settings = (saveSettings s).2 from rfl, this]
  exact ⟨fun h => h.2, fun h => ⟨hp, h⟩⟩

/-! ## C50 -/

theorem set_nodup {d : PyDict} (hd : (d.map Prod.fst).Nodup) (key : String) (v : PyVal) :
    ((PyDict.set d key v).map Prod.fst).Nodup ∧
      ∀ k, k ∈ (PyDict.set d key v).map Prod.fst → k = key ∨ k ∈ d.map Prod.fst := by
  induction d with
  | nil => simp [PyDict.set]
  | cons x d ih =>
    obtain ⟨k', v'⟩ := x
    rw [List.map_cons, List.nodup_cons] at hd
    rw [PyDict.set]
    split_ifs with h
    · refine ⟨?_, ?_⟩
      · rw [List.map_cons, List.nodup_cons]
        exact hd
      · intro k hk
        exact Or.inr hk
    · obtain ⟨h1, h2⟩ := ih hd.2
      refine ⟨?_, ?_⟩
      · rw [List.map_cons, List.nodup_cons]
        refine ⟨fun hm => ?_, h1⟩
        rcases h2 _ hm with e | e
        · exact h e
        · exact hd.1 e
      · intro k hk
        rw [List.map_cons, List.mem_cons] at hk
        rcases hk with rfl | hk
        · exact Or.inr (by simp)
        · rcases h2 k hk with e | e
          · exact Or.inl e
          · exact Or.inr (List.mem_cons_of_mem _ e)

theorem updateAll_nodup {s : PyDict} (hs : (s.map Prod.fst).Nodup) (d : PyDict) :
    ((updateAll s d).map Prod.fst).Nodup := by
  induction d generalizing s with
  | nil => exact hs
  | cons x d ih =>
    obtain ⟨k, v⟩ := x
    rw [updateAll]
    exact ih (set_nodup hs k v).1

theorem lookup_updateAll_isSome (s d : PyDict) (k : String) (h : (s.lookup k).isSome = true) :
    ((updateAll s d).lookup k).isSome = true := by
  induction d generalizing s with
  | nil => exact h
  | cons x d ih =>
    obtain ⟨k', v'⟩ := x
    rw [updateAll]
    apply ih
    rw [lookup_set]
    split_ifs
    · rfl
    · exact h

/-- The facts about a loaded settings dictionary used below. -/
theorem loaded_facts {d s : PyDict} (h : updateSettings (defaultDict defaultSettings) d = .ok s) :
    (s.map Prod.fst).Nodup ∧ checkDict defaultSettings s = .ok () ∧
    (∀ x ∈ defaultSettings, (s.lookup x.1).isSome = true) ∧
    ∃ p r l, s.lookup "plot" = some (.dict p) ∧ p.lookup "results" = some (.dict r) ∧
      r.lookup "opt" = some (.list l) ∧ l ≠ [] := by
  obtain ⟨hp, hc, -⟩ := updateSettings_ok h
  have hnd0 : ((defaultDict defaultSettings).map Prod.fst).Nodup := by
    show (["aircraft", "state", "deformation", "vlm_autopanels_c", "vlm_autopanels_s",
      "save_results", "plot", "_do_normal_rotations", "_deformation_check", "_epsilon"]).Nodup
    decide
  have hnd1 := updateAll_nodup hnd0 d
  obtain ⟨p, r, o, h1, h2, h3, hs⟩ := plotDefault_ok hp
  have hsome : ∀ x ∈ defaultSettings,
      ((updateAll (defaultDict defaultSettings) d).lookup x.1).isSome = true := by
    intro x hx
    apply lookup_updateAll_isSome
    rw [lookup_default, lookup_of_mem (by decide) hx]
    rfl
  have hplot : ∃ p r o, s.lookup "plot" = some (.dict p) ∧ p.lookup "results" = some (.dict r) ∧
      r.lookup "opt" = some o ∧ o.truthy = true := by
    rcases hs with ⟨ht, rfl⟩ | ⟨ht, rfl⟩
    · exact ⟨p, r, o, h1, h2, h3, ht⟩
    · refine ⟨_, _, _, by rw [lookup_set, if_pos rfl], by rw [lookup_set, if_pos rfl],
        by rw [lookup_set, if_pos rfl], rfl⟩
  refine ⟨?_, hc, ?_, ?_⟩
  · rcases hs with ⟨ht, rfl⟩ | ⟨ht, rfl⟩
    · exact hnd1
    · exact (set_nodup hnd1 _ _).1
  · intro x hx
    rcases hs with ⟨ht, rfl⟩ | ⟨ht, rfl⟩
    · exact hsome x hx
    · rw [lookup_set]
      split_ifs
      · rfl
      · exact hsome x hx
  · obtain ⟨p, r, o, h1, h2, h3, ht⟩ := hplot
    rw [checkDict_iff] at hc
    obtain ⟨p', e1, c1⟩ := checkEntry_group_ok.1
      (hc ("plot", .group defaultPlotDict) (by simp [defaultSettings]))
    simp only [h1] at e1
    cases e1
    rw [checkDict_iff] at c1
    obtain ⟨r', e2, c2⟩ := checkEntry_group_ok.1
      (c1 ("results", .group plotOptions) (by simp [defaultPlotDict]))
    simp only [h2] at e2
    cases e2
    rw [checkDict_iff] at c2
    have c3 := c2 ("opt", .leaf (.list []) [some .list]) (by simp [plotOptions])
    rw [h3] at c3
    cases o <;> simp [checkEntry, PyVal.hasType, PyVal.isInst] at c3
    rename_i l
    refine ⟨p, r, l, h1, h2, h3, ?_⟩
    rintro rfl
    simp [PyVal.truthy] at ht

/-- **C50**: reading a saved settings file gives the visible settings back, hidden ones at their
defaults.  (`suffix "None"` is the file extension of the string `None`.) -/
theorem C50_round_trip (suffix : String → String) (hsuf : suffix "None" = "") (file : PyVal)
    (s : SettingsObj) (h : loadSettings suffix file = .ok s) :
    ∃ s', loadSettings suffix (saveSettings s).2 = .ok s' ∧
      s'.aircraftIsCpacs = s.aircraftIsCpacs ∧
      (∀ path x, (∀ k ∈ path, hidden k = false) → x.IsLeaf →
        ((PyVal.dict s'.settings).at path = some x ↔ (PyVal.dict s.settings).at path = some x)) ∧
      ∀ k t, (k, t) ∈ defaultSettings → hidden k = true →
        s'.settings.lookup k = some t.default := by
  obtain ⟨⟨-, hs⟩ | ⟨d, -, hu⟩, hft⟩ := load_cases h
  · exfalso
    rw [hs] at hft
    unfold aircraftFileType at hft
    have : PyVal.format ((defaultDict defaultSettings).lookup "aircraft") = "None" := rfl
    rw [this, hsuf] at hft
    simp at hft
  obtain ⟨hnd, hc, hsome, p, r, l, h1, h2, h3, hl⟩ := loaded_facts hu
  have hndd : (defaultSettings.map Prod.fst).Nodup := by decide
  have hhid : ∀ x ∈ defaultSettings, hidden x.1 = true → x.1 = "_do_normal_rotations" ∨
      x.1 = "_deformation_check" ∨ x.1 = "_epsilon" := by
    intro x hx
    simp only [defaultSettings, List.mem_cons, List.not_mem_nil, or_false] at hx
    rcases hx with rfl | rfl | rfl | rfl | rfl | rfl | rfl | rfl | rfl | rfl <;> decide
  set u := updateAll (defaultDict defaultSettings) (cleanDict s.settings) with hudef
  have hlook : ∀ k, u.lookup k = if hidden k = true then (defaultDict defaultSettings).lookup k
      else ((s.settings.lookup k).map cleanVal).or ((defaultDict defaultSettings).lookup k) := by
    intro k
    rw [hudef, lookup_updateAll _ _ (clean_nodup hnd), lookup_clean]
    cases hidden k <;> simp
  have hvis : ∀ k, hidden k = false → u.lookup k = (s.settings.lookup k).map cleanVal := by
    intro k hk
    rw [hlook k, hk]
    simp only [Bool.false_eq_true, if_false]
    cases hsk : s.settings.lookup k with
    | some v => simp
    | none =>
      simp only [Option.map_none, Option.none_or]
      rw [lookup_default]
      cases hdk : defaultSettings.lookup k with
      | none => rfl
      | some t =>
        have := hsome _ (lookup_mem hdk)
        rw [hsk] at this
        cases this
  have hplot : plotDefault u = .ok u := by
    unfold plotDefault
    have e1 : (PyVal.dict u).item "plot" = .ok (.dict (cleanDict p)) := by
      simp only [PyVal.item]
      rw [hvis "plot" rfl, h1]
      simp only [Option.map_some, cleanVal]
    have e2 : (PyVal.dict (cleanDict p)).item "results" = .ok (.dict (cleanDict r)) := by
      simp only [PyVal.item]
      rw [lookup_clean, h2]
      rfl
    have e3 : (PyVal.dict (cleanDict r)).item "opt" = .ok (.list l) := by
      simp only [PyVal.item]
      rw [lookup_clean, h3]
      rfl
    have e4 : (PyVal.list l).truthy = true := by
      cases l with
      | nil => exact absurd rfl hl
      | cons a l => rfl
    simp only [e1, e2, e3, e4, if_true]
  have visG : ∀ x ∈ defaultSettings, Visible x.2 := by
    have vp : Visible (.group plotOptions) := by
      refine .group _ (by simp only [plotOptions]; decide +revert) ?_
      intro x hx
      simp only [plotOptions, List.mem_cons, List.not_mem_nil, or_false] at hx
      rcases hx with rfl | rfl | rfl <;> exact .leaf _ _
    intro x hx
    simp only [defaultSettings, List.mem_cons, List.not_mem_nil, or_false] at hx
    rcases hx with rfl | rfl | rfl | rfl | rfl | rfl | rfl | rfl | rfl | rfl <;>
      try exact .leaf _ _
    · refine .group _ ?_ ?_ <;> intro x hx <;>
        simp only [defaultSaveDict, List.mem_cons, List.not_mem_nil, or_false] at hx <;>
        rcases hx with rfl | rfl | rfl | rfl
      all_goals first | rfl | exact .leaf _ _
    · refine .group _ ?_ ?_ <;> intro x hx <;>
        simp only [defaultPlotDict, List.mem_cons, List.not_mem_nil, or_false] at hx <;>
        rcases hx with rfl | rfl | rfl | rfl
      all_goals first | rfl | exact vp
  have hcheck : checkDict defaultSettings u = .ok () := by
    rw [checkDict_iff] at hc ⊢
    intro x hx
    cases hh : hidden x.1 with
    | false =>
      rw [hvis _ hh]
      exact check_clean (visG x hx) _ (hc x hx)
    | true =>
      rw [hlook, if_pos hh]
      simp only [defaultSettings, List.mem_cons, List.not_mem_nil, or_false] at hx
      rcases hx with rfl | rfl | rfl | rfl | rfl | rfl | rfl | rfl | rfl | rfl <;>
        first | rfl | (exfalso; revert hh; decide)
  have heps : u.lookup "_epsilon" = some (.float (.fin (1 / 1000000))) := by
    rw [hlook, if_pos (by decide)]
    rfl
  have hupd : updateSettings (defaultDict defaultSettings) (cleanDict s.settings) = .ok u := by
    unfold updateSettings checkSettings
    rw [hplot]
    simp only [hcheck, heps]
    rw [if_pos (by norm_num)]
  have hair : aircraftFileType suffix u = .ok s.aircraftIsCpacs := by
    rw [← hft]
    unfold aircraftFileType
    have : PyVal.format (u.lookup "aircraft") = PyVal.format (s.settings.lookup "aircraft") := by
      rw [hvis "aircraft" rfl]
      cases s.settings.lookup "aircraft" with
      | none => rfl
      | some v => cases v <;> simp [cleanVal, PyVal.format]
    rw [this]
  refine ⟨⟨u, s.aircraftIsCpacs⟩, ?_, rfl, ?_, ?_⟩
  · simp only [saveSettings, loadSettings, initSettings, hupd, hair]
  · intro path x hp hx
    cases path with
    | nil =>
      simp only [PyVal.at, Option.some.injEq]
      exact ⟨fun e => absurd e.symm (hx _), fun e => absurd e.symm (hx _)⟩
    | cons k path =>
      rw [List.forall_mem_cons] at hp
      simp only [PyVal.at]
      rw [hvis k hp.1]
      cases s.settings.lookup k with
      | none => simp
      | some v =>
        simp only [Option.map_some, Option.bind_some]
        rw [at_clean]
        constructor
        · rintro ⟨-, y, hy, rfl⟩
          rw [cleanVal_leaf (cleanVal_isLeaf hx)]
          exact hy
        · intro hy
          exact ⟨hp.2, x, hy, (cleanVal_leaf hx).symm⟩
  · intro k t hk hh
    simp only
    rw [hlook, if_pos hh, lookup_default, lookup_of_mem hndd hk]
    rfl

/-! ## Non-vacuity -/

/-- A settings file. -/
def demoDict : PyDict := [("aircraft", .str "a.json"), ("state", .str "s.json"),
  ("_do_normal_rotations", .bool false), ("remark", .dict [("_x", .int 1), ("y", .int 2)]),
  ("plot", .dict [
    ("geometry", .dict [("opt", .list []), ("show", .bool true), ("save", .bool false)]),
    ("lattice", .dict [("opt", .list []), ("show", .bool false), ("save", .bool false)]),
    ("matrix_downwash", .dict [("opt", .list []), ("show", .bool false), ("save", .bool false)]),
    ("results", .dict [("opt", .list []), ("show", .bool true), ("save", .bool false)])])]

/-- A file extension function. -/
def demoSuffix (s : String) : String := if s = "a.json" then ".json" else ""

/-- The settings read from the file. -/
def demoSettings : PyDict :=
  match plotDefault (updateAll (defaultDict defaultSettings) demoDict) with
  | .ok s => s
  | .error _ => []

/-- C47, C48, C49, C50: the file is accepted. -/
example : (demoDict.map Prod.fst).Nodup ∧
    loadSettings demoSuffix (.dict demoDict) = .ok ⟨demoSettings, false⟩ ∧
    demoSettings.lookup "vlm_autopanels_c" = some (.int 4) ∧
    (PyVal.dict demoSettings).at ["plot", "results", "opt"] = some (.list [.str "cp"]) ∧
    (saveSettings ⟨demoSettings, false⟩).2.at ["remark", "y"] = some (.int 2) ∧
    (saveSettings ⟨demoSettings, false⟩).2.at ["remark", "_x"] = none ∧ demoSuffix "None" = "" := by
  refine ⟨by decide, ?_, rfl, rfl, rfl, rfl, rfl⟩
  have h1 : plotDefault (updateAll (defaultDict defaultSettings) demoDict) = .ok demoSettings := rfl
  have h2 : checkSettings demoSettings = .ok () := by
    unfold checkSettings
    rw [show checkDict defaultSettings demoSettings = .ok () from rfl,
      show demoSettings.lookup "_epsilon" = some (.float (.fin (1 / 1000000))) from rfl]
    simp only
    rw [if_pos (by norm_num)]
  have h3 : aircraftFileType demoSuffix demoSettings = .ok false := rfl
  simp only [loadSettings, initSettings, updateSettings, h1, h2, h3]

/-- C46: the templates of the groups meet the hypotheses. -/
example : NoneFree (.group plotOptions) ∧ DefaultsTyped (.group plotOptions) := by
  constructor
  · refine .group ?_
    intro x hx
    simp only [plotOptions, List.mem_cons, List.not_mem_nil, or_false] at hx
    rcases hx with rfl | rfl | rfl <;> exact .leaf (by decide)
  · refine .group (by decide) ?_
    intro x hx
    simp only [plotOptions, List.mem_cons, List.not_mem_nil, or_false] at hx
    rcases hx with rfl | rfl | rfl
    · exact .leaf .list (by decide) rfl
    · exact .leaf .bool (by decide) rfl
    · exact .leaf .bool (by decide) rfl

end Verif
