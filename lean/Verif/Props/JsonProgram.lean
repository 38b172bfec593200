import Verif.Model.JsonProgram
import Verif.Props.JsonSaved
import Verif.Props.Setup

/-!
# Properties C134–C136: state files and projects as JSON data
-/

namespace Verif

/-! ## Specification -/

/-- The data of one flight state in a list. -/
def IsStateVal (parse : String → Option (Flt ℝ)) (v : Json) (x : Val ℝ) : Prop :=
  (v = .null ∧ x = .none) ∨ (∃ r, IsDecimal v r ∧ x = .num (.fin r)) ∨
  (∃ z : ℤ, v = .int z ∧ x = .num (.fin z)) ∨ (v = .bool true ∧ x = .num (.fin 1)) ∨
  (v = .bool false ∧ x = .num (.fin 0)) ∨ (∃ s, v = .str s ∧ x = .text (parse s)) ∨
  (((∃ l, v = .arr l) ∨ ∃ d, v = .obj d) ∧ x = .obj)

/-- A list of values, or one value. -/
def IsStateArg (parse : String → Option (Flt ℝ)) (v : Json) (a : Arg ℝ) : Prop :=
  (∃ l l', v = .arr l ∧ List.Forall₂ (IsStateVal parse) l l' ∧ a = .list l') ∨
  ((∀ l, v ≠ .arr l) ∧ ∃ x, IsStateVal parse v x ∧ a = .scalar x)

/-- `aero` is the only key. -/
def Json.OnlyAero (j : Json) (v : Json) : Prop := j.Has "aero" v ∧ ∃ d, j = .obj d ∧ ∀ e ∈ d, e.1 = "aero"

/-- The JSON data of a state file. -/
def StateJson (parse : String → Option (Flt ℝ)) (j : Json) (sd : List (String × Arg ℝ)) : Prop :=
  ∃ d, j.OnlyAero (.obj d) ∧ List.Forall₂ (fun e x => e.1 = x.1 ∧ IsStateArg parse e.2 x.2) d sd

/-- The project is the meaning of the JSON data; files without meaning are left out. -/
structure JsonProject.Describes (W : JsonWorld) (J : JsonProject) (P : Project) : Prop where
  base : P.base = J.base
  root : P.root = J.root
  settings : P.settings = J.settings
  deformation : P.deformation = J.deformation
  aircraft : ∀ a f, P.aircraft a = some f → ∃ j, J.aircraft a = some j ∧ AircraftJson W.env j f
  state : ∀ b sd, P.state b = some sd → ∃ j, J.state b = some j ∧ StateJson W.parse j sd

/-- The values in a list, or the one value. -/
def Json.Values (v : Json) (l : List Json) : Prop := v = .arr l ∨ (∀ m, v ≠ .arr m) ∧ l = [v]

/-- The same value, or the same whole number written with and without decimal point. -/
def SameValue (v v' : Json) : Prop :=
  v = v' ∨ ∃ z : ℤ, v = .int z ∧ v' = .num z ∨ v = .num z ∧ v' = .int z

/-- Two ways of writing the same entry. -/
def SameEntry : Option Json → Option Json → Prop
  | none, none => True
  | some v, some v' => ∃ l l', v.Values l ∧ v'.Values l' ∧ List.Forall₂ SameValue l l'
  | _, _ => False

/-! ## State files -/

theorem stateVal_iff {parse : String → Option (Flt ℝ)} {v : Json} {x : Val ℝ} :
    IsStateVal parse v x ↔ x = stateVal parse v := by
  unfold IsStateVal IsDecimal stateVal
  cases v with
  | null => simp
  | bool b => cases b <;> simp
  | int z => simp
  | num q => simp
  | str s => simp
  | arr l => simp
  | obj d => simp

theorem stateVals_iff {parse : String → Option (Flt ℝ)} {l : List Json} {l' : List (Val ℝ)} :
    List.Forall₂ (IsStateVal parse) l l' ↔ l' = l.map (stateVal parse) := by
  induction l generalizing l' with
  | nil => simp
  | cons v l ih =>
    cases l' with
    | nil => simp
    | cons x l' => simp [List.forall₂_cons, stateVal_iff, ih]

theorem stateArg_iff {parse : String → Option (Flt ℝ)} {v : Json} {a : Arg ℝ} :
    IsStateArg parse v a ↔ a = stateArg parse v := by
  unfold IsStateArg
  simp only [stateVals_iff, stateVal_iff]
  cases v <;> simp [stateArg]

theorem stateArgs_iff {parse : String → Option (Flt ℝ)} {d : JDict} {sd : List (String × Arg ℝ)} :
    List.Forall₂ (fun e x => e.1 = x.1 ∧ IsStateArg parse e.2 x.2) d sd ↔
      sd = d.map fun e => (e.1, stateArg parse e.2) := by
  induction d generalizing sd with
  | nil => simp
  | cons e d ih =>
    cases sd with
    | nil => simp
    | cons x sd =>
      obtain ⟨k, a⟩ := x
      rw [List.forall₂_cons, ih, stateArg_iff]
      simp [eq_comm (a := e.1)]

theorem onlyAero_iff {j v : Json} :
    j.OnlyAero v ↔ ∃ kw, j = .obj kw ∧ (kw.any fun e => e.1 != "aero") = false ∧ kw.lookup "aero" = some v := by
  constructor
  · rintro ⟨⟨d, rfl, h⟩, d', e, h'⟩
    cases e
    exact ⟨_, rfl, by simpa using h', h⟩
  · rintro ⟨kw, rfl, h, h'⟩
    exact ⟨⟨_, rfl, h'⟩, _, rfl, by simpa using h⟩

theorem loadState_ok {parse : String → Option (Flt ℝ)} {atm : Atm ℝ} {j : Json} {d : JDict}
    (h : j.OnlyAero (.obj d)) : loadStateJson parse atm j =
      updateFromDict atm Store.fresh (d.map fun e => (e.1, stateArg parse e.2)) := by
  obtain ⟨kw, rfl, h1, h2⟩ := onlyAero_iff.1 h
  simp only [loadStateJson, h1, h2, Json.items]
  rfl

/-- **C134.** JSON data are loaded as flight states exactly if `aero` is their only key, with an object as
value; a whole number, a truth value or a string denoting a number counts as number, and one value counts as a
list of one. -/
theorem C134_loaded_iff (parse : String → Option (Flt ℝ)) (atm : Atm ℝ) (j : Json) (s : FlightSt ℝ) :
    loadStateJson parse atm j = .ok s ↔
      ∃ sd, StateJson parse j sd ∧ updateFromDict atm Store.fresh sd = .ok s := by
  constructor
  · intro h
    cases j with
    | obj kw =>
      simp only [loadStateJson] at h
      split_ifs at h with hk
      cases hl : kw.lookup "aero" with
      | none => simp [hl] at h
      | some a =>
        cases a with
        | obj d =>
          simp only [hl, Json.items] at h
          exact ⟨_, ⟨d, onlyAero_iff.2 ⟨_, rfl, by simpa using hk, hl⟩, stateArgs_iff.2 rfl⟩, h⟩
        | _ => simp [hl, Json.items] at h
    | _ => simp [loadStateJson] at h
  · rintro ⟨sd, ⟨d, h1, h2⟩, h⟩
    rw [loadState_ok h1, ← stateArgs_iff.1 h2]
    exact h

/-- **C134.** The data have at most one meaning. -/
theorem C134_one_meaning (parse : String → Option (Flt ℝ)) (j : Json) (sd sd' : List (String × Arg ℝ))
    (h : StateJson parse j sd) (h' : StateJson parse j sd') : sd = sd' := by
  obtain ⟨d, h1, h2⟩ := h
  obtain ⟨d', h1', h2'⟩ := h'
  obtain rfl := has_obj_unique h1.1 h1'.1
  rw [stateArgs_iff.1 h2, stateArgs_iff.1 h2']

/-- **C134.** Which exception is raised for data of the wrong form. -/
theorem C134_fault (parse : String → Option (Flt ℝ)) (atm : Atm ℝ) (j : Json) :
    ((∀ v, ¬ j.OnlyAero v) → loadStateJson parse atm j = .error .typeError) ∧
    (∀ v, j.OnlyAero v → (∀ d, v ≠ .obj d) → loadStateJson parse atm j = .error .attributeError) ∧
    (j.OnlyAero (.obj []) → loadStateJson parse atm j = .error .indexError) := by
  refine ⟨?_, ?_, ?_⟩
  · intro h
    cases j with
    | obj kw =>
      simp only [loadStateJson]
      split_ifs with hk
      · rfl
      · cases hl : kw.lookup "aero" with
        | none => rfl
        | some a => exact absurd (onlyAero_iff.2 ⟨_, rfl, by simpa using hk, hl⟩) (h a)
    | _ => rfl
  · intro v h hv
    obtain ⟨kw, rfl, h1, h2⟩ := onlyAero_iff.1 h
    simp only [loadStateJson, h1, h2]
    cases v with
    | obj d => exact absurd rfl (hv d)
    | _ => rfl
  · intro h
    rw [loadState_ok h]
    rfl

/-! ## Two ways of writing a state file -/

theorem updateFromDict_congr {atm : Atm ℝ} {d d' : List (String × Arg ℝ)}
    (h1 : (storeItems Store.fresh [] d).1 = (storeItems Store.fresh [] d').1)
    (h2 : ∀ n, n ∈ (storeItems Store.fresh [] d).2 ↔ n ∈ (storeItems Store.fresh [] d').2) :
    updateFromDict atm Store.fresh d = updateFromDict atm Store.fresh d' := by
  unfold updateFromDict
  generalize storeItems Store.fresh [] d = x at h1 h2
  generalize storeItems Store.fresh [] d' = y at h1 h2
  obtain ⟨σ, l⟩ := x
  obtain ⟨σ', l'⟩ := y
  simp only at h1 h2 ⊢
  subst h1
  have hp : l.dedup.Perm l'.dedup := by
    rw [List.perm_ext_iff_of_nodup (List.nodup_dedup _) (List.nodup_dedup _)]
    simpa using h2
  generalize l.dedup = m at hp
  generalize l'.dedup = m' at hp
  cases m with
  | nil => rw [List.nil_perm.1 hp]
  | cons a m =>
    cases m with
    | nil => rw [List.singleton_perm.1 hp]
    | cons b m =>
      have := hp.length_eq
      match m' with
      | [] => simp at this
      | [_] => simp at this
      | _ :: _ :: _ => rfl

theorem values_toList {parse : String → Option (Flt ℝ)} {v : Json} {l : List Json} (h : v.Values l) :
    (stateArg parse v).toList = l.map (stateVal parse) := by
  rcases h with rfl | ⟨h, rfl⟩
  · rfl
  · cases v with
    | arr m => exact absurd rfl (h m)
    | _ => rfl

theorem sameValue_val {parse : String → Option (Flt ℝ)} {v v' : Json} (h : SameValue v v') :
    stateVal parse v = stateVal parse v' := by
  rcases h with rfl | ⟨z, ⟨rfl, rfl⟩ | ⟨rfl, rfl⟩⟩ <;> rfl

theorem sameEntry_list {parse : String → Option (Flt ℝ)} {v v' : Json} (h : SameEntry (some v) (some v')) :
    (stateArg parse v).toList = (stateArg parse v').toList := by
  obtain ⟨l, l', h1, h2, h3⟩ := h
  rw [values_toList h1, values_toList h2]
  induction h3 generalizing v v' with
  | nil => rfl
  | @cons a b l l' hx _ ih =>
    rw [List.map_cons, List.map_cons, sameValue_val hx]
    congr 1
    exact ih (v := .arr l) (v' := .arr l') (.inl rfl) (.inl rfl)

theorem storeItems_json {parse : String → Option (Flt ℝ)} {d : JDict} (hd : (d.map Prod.fst).Nodup) (p : String) :
    (storeItems Store.fresh [] (d.map fun e => (e.1, stateArg parse e.2))).1 p =
      (d.lookup p).map fun v => (stateArg parse v).toList := by
  have hk : ((d.map fun e => (e.1, stateArg parse e.2)).map Prod.fst) = d.map Prod.fst := by
    rw [List.map_map]; rfl
  cases hl : d.lookup p with
  | none =>
    rw [storeItems_notMem _ _ _ _ (by
      rw [hk]
      intro hm
      obtain ⟨e, he, rfl⟩ := List.mem_map.1 hm
      rw [List.lookup_eq_none_iff] at hl
      simpa using hl e he)]
    rfl
  | some v =>
    have hm : (p, v) ∈ d := by
      rw [List.lookup_eq_some_iff] at hl
      obtain ⟨l1, l2, rfl, -⟩ := hl
      simp
    rw [storeItems_mem _ _ _ (by rw [hk]; exact hd)
      (List.mem_map.2 ⟨(p, v), hm, rfl⟩ : (p, stateArg parse v) ∈ d.map fun e => (e.1, stateArg parse e.2))]
    rfl

theorem lens_json {parse : String → Option (Flt ℝ)} {d : JDict} (hd : (d.map Prod.fst).Nodup) (n : ℕ) :
    n ∈ (storeItems (K := ℝ) Store.fresh [] (d.map fun e => (e.1, stateArg parse e.2))).2 ↔
      ∃ p v, d.lookup p = some v ∧ (stateArg parse v).toList.length = n := by
  rw [storeItems_snd]
  simp only [List.map_map, List.append_nil, List.mem_reverse, List.mem_map, Function.comp_def]
  constructor
  · rintro ⟨⟨p, v⟩, hm, h⟩
    exact ⟨p, v, lookup_of_mem hd hm, h⟩
  · rintro ⟨p, v, h, h'⟩
    refine ⟨(p, v), ?_, h'⟩
    rw [List.lookup_eq_some_iff] at h
    obtain ⟨l1, l2, rfl, -⟩ := h
    simp

/-- **C134.** It does not matter in which order the parameters are written, whether one value is written as a
list or not, and whether a whole number has a decimal point: the states and also the exceptions are the
same. -/
theorem C134_same (parse : String → Option (Flt ℝ)) (atm : Atm ℝ) (j j' : Json) (d d' : JDict)
    (h : j.OnlyAero (.obj d)) (h' : j'.OnlyAero (.obj d')) (hd : (d.map Prod.fst).Nodup)
    (hd' : (d'.map Prod.fst).Nodup) (he : ∀ key, SameEntry (d.lookup key) (d'.lookup key)) :
    loadStateJson parse atm j = loadStateJson parse atm j' := by
  have key : ∀ p, (d.lookup p).map (fun v => (stateArg parse v).toList) =
      (d'.lookup p).map fun v => (stateArg parse v).toList := by
    intro p
    have := he p
    cases h1 : d.lookup p with
    | none => cases h2 : d'.lookup p with
      | none => rfl
      | some v' => rw [h1, h2] at this; exact this.elim
    | some v => cases h2 : d'.lookup p with
      | none => rw [h1, h2] at this; exact this.elim
      | some v' =>
        rw [h1, h2] at this
        simp only [Option.map_some, sameEntry_list this]
  rw [loadState_ok h, loadState_ok h']
  apply updateFromDict_congr
  · funext p
    rw [storeItems_json hd, storeItems_json hd', key]
  · intro n
    rw [lens_json hd, lens_json hd']
    constructor
    · rintro ⟨p, v, h1, h2⟩
      have := key p
      rw [h1] at this
      cases h3 : d'.lookup p with
      | none => simp [h3] at this
      | some v' => exact ⟨p, v', h3, by rw [h3] at this; simp at this; rw [← this]; exact h2⟩
    · rintro ⟨p, v, h1, h2⟩
      have := key p
      rw [h1] at this
      cases h3 : d.lookup p with
      | none => simp [h3] at this
      | some v' => exact ⟨p, v', h3, by rw [h3] at this; simp at this; rw [this]; exact h2⟩

/-! ## Projects -/

theorem rest_deformation {W : JsonWorld} {J : JsonProject} {P : Project} (hP : J.Describes W P) (s : SettingsObj)
    (ac : LoadedAircraft) : loadDeformationFrom P s ac = loadDeformationFrom J.rest s ac := by
  unfold loadDeformationFrom
  rw [hP.deformation]
  rfl

theorem rest_env {W : JsonWorld} {J : JsonProject} {P : Project} (hP : J.Describes W P) (x : Loaded) :
    x.env W.toWorld P = x.env W.toWorld J.rest := by
  unfold Loaded.env
  rw [hP.base]
  rfl

theorem loadProject_ok {W : World} {P : Project} {x : Loaded} :
    loadProject W P = .ok x ↔ loadSettings W.suffix P.settings = .ok x.settings ∧
      loadAircraftFrom W P x.settings = .ok x.aircraft ∧ x.settings.stateIsCpacs W.upper = .ok x.stateIsCpacs ∧
      loadStateFrom W P x.settings x.stateIsCpacs = .ok x.state ∧
      loadDeformationFrom P x.settings x.aircraft = .ok x.defs := by
  constructor
  · intro h
    unfold loadProject at h
    cases h1 : loadSettings W.suffix P.settings with
    | error e => simp [h1] at h
    | ok s =>
    simp only [h1] at h
    cases h2 : loadAircraftFrom W P s with
    | error e => simp [h2] at h
    | ok ac =>
    simp only [h2] at h
    cases h3 : s.stateIsCpacs W.upper with
    | error e => simp [h3] at h
    | ok cp =>
    simp only [h3] at h
    cases h4 : loadStateFrom W P s cp with
    | error e => simp [h4] at h
    | ok st =>
    simp only [h4] at h
    cases h5 : loadDeformationFrom P s ac with
    | error e => simp [h5] at h
    | ok defs =>
    simp only [h5, Except.ok.injEq] at h
    subst h
    exact ⟨rfl, h2, h3, h4, h5⟩
  · rintro ⟨h1, h2, h3, h4, h5⟩
    unfold loadProject
    simp only [h1, h2, h3, h4, h5]

theorem loadJsonProject_ok {W : JsonWorld} {J : JsonProject} {x : Loaded} :
    loadJsonProject W J = .ok x ↔ loadSettings W.suffix J.settings = .ok x.settings ∧
      loadAircraftJson W J x.settings = .ok x.aircraft ∧ x.settings.stateIsCpacs W.upper = .ok x.stateIsCpacs ∧
      loadStatesJson W J x.settings x.stateIsCpacs = .ok x.state ∧
      loadDeformationFrom J.rest x.settings x.aircraft = .ok x.defs := by
  unfold loadJsonProject
  simp only [except_bind_ok, Except.ok.injEq]
  constructor
  · rintro ⟨s, h1, ac, h2, cp, h3, st, h4, defs, h5, rfl⟩
    exact ⟨h1, h2, h3, h4, h5⟩
  · rintro ⟨h1, h2, h3, h4, h5⟩
    exact ⟨_, h1, _, h2, _, h3, _, h4, _, h5, rfl⟩

open Classical in
/-- The meaning of all files that have one. -/
noncomputable def JsonProject.meaning (W : JsonWorld) (J : JsonProject) : Project where
  base := J.base
  root := J.root
  settings := J.settings
  aircraft := fun a => match J.aircraft a with
    | none => none
    | some j => if h : ∃ f, AircraftJson W.env j f then some h.choose else none
  state := fun b => match J.state b with
    | none => none
    | some j => if h : ∃ sd, StateJson W.parse j sd then some h.choose else none
  deformation := J.deformation

theorem JsonProject.describes_meaning (W : JsonWorld) (J : JsonProject) : J.Describes W (J.meaning W) where
  base := rfl
  root := rfl
  settings := rfl
  deformation := rfl
  aircraft := by
    intro a f h
    simp only [JsonProject.meaning] at h
    cases hj : J.aircraft a with
    | none => simp [hj] at h
    | some j =>
      simp only [hj] at h
      split_ifs at h with hx
      cases h
      exact ⟨j, rfl, hx.choose_spec⟩
  state := by
    intro b sd h
    simp only [JsonProject.meaning] at h
    cases hj : J.state b with
    | none => simp [hj] at h
    | some j =>
      simp only [hj] at h
      split_ifs at h with hx
      cases h
      exact ⟨j, rfl, hx.choose_spec⟩

theorem meaning_aircraft {W : JsonWorld} {J : JsonProject} {a : String} {j : Json} {f : FileAircraft}
    (hj : J.aircraft a = some j) (hf : AircraftJson W.env j f) : (J.meaning W).aircraft a = some f := by
  simp only [JsonProject.meaning, hj]
  rw [dif_pos ⟨f, hf⟩]
  exact congrArg some (C130_one_meaning _ _ _ _ (Exists.choose_spec (⟨f, hf⟩ : ∃ f, AircraftJson W.env j f)) hf)

theorem meaning_state {W : JsonWorld} {J : JsonProject} {b : String} {j : Json} {sd : List (String × Arg ℝ)}
    (hj : J.state b = some j) (hf : StateJson W.parse j sd) : (J.meaning W).state b = some sd := by
  simp only [JsonProject.meaning, hj]
  rw [dif_pos ⟨sd, hf⟩]
  exact congrArg some (C134_one_meaning _ _ _ _ (Exists.choose_spec (⟨sd, hf⟩ : ∃ sd, StateJson W.parse j sd)) hf)

/-- Loading the meaning gives what loading the data gives. -/
theorem load_of_described {W : JsonWorld} {J : JsonProject} {P : Project} (hP : J.Describes W P) {x : Loaded}
    (h : loadProject W.toWorld P = .ok x) : loadJsonProject W J = .ok x := by
  obtain ⟨h1, h2, h3, h4, h5⟩ := loadProject_ok.1 h
  rw [hP.settings] at h1
  rw [rest_deformation hP] at h5
  refine loadJsonProject_ok.2 ⟨h1, ?_, h3, ?_, h5⟩
  · unfold loadAircraftFrom at h2
    unfold loadAircraftJson
    split_ifs at h2 ⊢
    · exact h2
    · cases hf : P.aircraft (x.settings.name "aircraft") with
      | none => simp [hf] at h2
      | some f =>
        simp only [hf] at h2
        obtain ⟨j, hj, hm⟩ := hP.aircraft _ _ hf
        simp only [hj]
        rw [hP.root] at h2
        exact (C130_loaded_iff _ _ _ _ _).2 ⟨f, hm, h2⟩
  · unfold loadStateFrom at h4
    unfold loadStatesJson
    split_ifs at h4 ⊢
    · exact h4
    · cases hf : P.state (x.settings.name "state") with
      | none => simp [hf] at h4
      | some sd =>
        simp only [hf] at h4
        obtain ⟨j, hj, hm⟩ := hP.state _ _ hf
        simp only [hj]
        exact (C134_loaded_iff _ _ _ _).2 ⟨sd, hm, h4⟩

theorem load_meaning {W : JsonWorld} {J : JsonProject} {x : Loaded} (h : loadJsonProject W J = .ok x) :
    loadProject W.toWorld (J.meaning W) = .ok x := by
  obtain ⟨h1, h2, h3, h4, h5⟩ := loadJsonProject_ok.1 h
  have hP := J.describes_meaning W
  rw [← rest_deformation hP] at h5
  refine loadProject_ok.2 ⟨h1, ?_, h3, ?_, h5⟩
  · unfold loadAircraftJson at h2
    unfold loadAircraftFrom
    split_ifs at h2 ⊢
    · exact h2
    · cases hj : J.aircraft (x.settings.name "aircraft") with
      | none => simp [hj] at h2
      | some j =>
        simp only [hj] at h2
        obtain ⟨f, hf, hl⟩ := (C130_loaded_iff _ _ _ _ _).1 h2
        rw [meaning_aircraft hj hf]
        exact hl
  · unfold loadStatesJson at h4
    unfold loadStateFrom
    split_ifs at h4 ⊢
    · exact h4
    · cases hj : J.state (x.settings.name "state") with
      | none => simp [hj] at h4
      | some j =>
        simp only [hj] at h4
        obtain ⟨sd, hf, hl⟩ := (C134_loaded_iff _ _ _ _).1 h4
        rw [meaning_state hj hf]
        exact hl

/-- **C135.** A project of JSON data is loaded exactly if its files describe a project that is loaded, with the
same result. -/
theorem C135_loaded_iff (W : JsonWorld) (J : JsonProject) (x : Loaded) :
    loadJsonProject W J = .ok x ↔ ∃ P, J.Describes W P ∧ loadProject W.toWorld P = .ok x :=
  ⟨fun h => ⟨_, J.describes_meaning W, load_meaning h⟩, fun ⟨_, hP, h⟩ => load_of_described hP h⟩

/-- **C135.** If the files describe a project that is loaded, the run on the JSON data is the run of this
project, with all results, files and exceptions.  If not, an exception is raised and there is no result and no
result file. -/
theorem C135_run (W : JsonWorld) (J : JsonProject) :
    (∀ P x, J.Describes W P → loadProject W.toWorld P = .ok x →
      runJsonProject W J = runProject W.toWorld P) ∧
    ((¬ ∃ P x, J.Describes W P ∧ loadProject W.toWorld P = .ok x) →
      ∃ e, runJsonProject W J = .error (.raised e, [])) := by
  constructor
  · intro P x hP h
    unfold runJsonProject runProject
    rw [load_of_described hP h, h]
    simp only [rest_env hP]
  · intro hn
    unfold runJsonProject
    cases h : loadJsonProject W J with
    | error e => exact ⟨e, rfl⟩
    | ok x => exact absurd ⟨_, x, J.describes_meaning W, load_meaning h⟩ hn

/-! ## New projects -/

theorem template_json (E : JsonEnv) : AircraftJson E templateJson templateAircraft := by
  have hz : ∀ x y z : ℤ, IsPoint E (.arr [.int x, .int y, .int z]) ⟨x, y, z⟩ := fun x y z =>
    ⟨_, _, _, rfl, .inr (.inl ⟨_, rfl, rfl⟩), .inr (.inl ⟨_, rfl, rfl⟩), .inr (.inl ⟨_, rfl, rfl⟩)⟩
  have h000 := hz 0 0 0
  have h050 := hz 0 5 0
  have h250 := hz 2 5 0
  have h200 := hz 2 0 0
  norm_num at h000 h050 h250 h200
  have hn : ∀ {α : Type} {R : Json → α → Prop} {d : JDict} {key : String},
      d.lookup key = some .null → GivenAt R d key none := fun h => .inl ⟨rfl, .inr h⟩
  have hg : ∀ {d : JDict} {key : String}, d.lookup key = some .null → GeoAt d key none :=
    fun h => .inl ⟨rfl, .inr h⟩
  have hf : ∀ z : ℤ, IsFloatable E (.int z) z := fun z => .inr (.inl ⟨z, rfl, rfl⟩)
  have h10 := hf 10
  have h5 := hf 5
  have h2 := hf 2
  norm_num at h10 h5 h2
  refine ⟨has_intro rfl, ⟨_, has_intro rfl, ⟨_, rfl, h10⟩, ⟨_, rfl, h2⟩, ⟨_, rfl, h5⟩, ⟨_, rfl, h000⟩,
    ⟨_, rfl, h000⟩, hn rfl, .inr (by simp)⟩, _, _, has_intro rfl, .inl rfl, .cons ⟨has_intro rfl,
    ⟨_, has_intro rfl, .inl rfl⟩, ⟨_, _, has_intro rfl, .inl rfl, .cons ⟨has_intro rfl, ?_, ?_, ?_, ?_⟩ .nil⟩,
    .inl ⟨_, _, has_intro rfl, .inl rfl, .cons ⟨has_intro rfl, ⟨_, has_intro rfl, rfl⟩, ?_, ?_, ?_, ?_, ?_, ?_⟩
      .nil⟩⟩ .nil⟩
  · exact ⟨_, has_intro rfl, .inr ⟨_, _, rfl, h000, rfl⟩, .inr ⟨_, _, rfl, h050, rfl⟩,
      .inr ⟨_, _, rfl, h250, rfl⟩, .inr ⟨_, _, rfl, h200, rfl⟩, .inr (by simp), by simp⟩
  · exact ⟨_, .inl (has_intro rfl), hg rfl, hg rfl, hg rfl, hg rfl, hg rfl, hg rfl, hg rfl, hg rfl, hg rfl,
      hg rfl, hg rfl, .inr (by simp)⟩
  · exact ⟨_, has_intro rfl, by simp, rfl, rfl, .inr (by simp)⟩
  · exact ⟨_, .inl (has_intro rfl), hn rfl, hn rfl, .inr (by simp)⟩
  · exact ⟨_, has_intro rfl, .inr (.inr (.inl ⟨5, rfl, by norm_num⟩))⟩
  · exact .inl ⟨_, has_intro rfl, .inr (.inr (.inl ⟨-5, rfl, by norm_num⟩))⟩
  · exact ⟨_, has_intro rfl, rfl, rfl, .inr (by simp)⟩
  · exact ⟨_, has_intro rfl, ⟨_, rfl, rfl⟩, ⟨_, rfl, rfl⟩, ⟨_, rfl, rfl⟩, ⟨_, rfl, rfl⟩, .inr (by simp)⟩
  · exact ⟨_, has_intro rfl, ⟨_, rfl, rfl⟩, ⟨_, rfl, rfl⟩, .inr (by simp)⟩
  · exact ⟨_, _, has_intro rfl, has_intro rfl, .inl ⟨rfl, rfl⟩⟩

theorem setupState_json (parse : String → Option (Flt ℝ)) : StateJson parse setupStateJson setupState := by
  refine ⟨_, ⟨has_intro rfl, _, rfl, by simp⟩, stateArgs_iff.2 ?_⟩
  simp [setupState, stateArg, stateVal]

/-- The project in a folder that has just been saved. -/
theorem setup_json (root sf a b : String) (ac : Json) (folder : JsonFolder) :
    ∃ J, (setupSaveJson sf a b ac folder).project root sf = some J ∧ J.root = root ∧
      J.settings = .dict (newSettings a b) ∧ J.aircraft a = some ac ∧ J.state b = some setupStateJson ∧
      J.deformation = (fun _ => none) ∧ J.base = String.ofList (splitExt sf.toList) := by
  refine ⟨⟨String.ofList (splitExt sf.toList), root, (saveSettings ⟨setupSettings a b, false⟩).2,
    fun x => (writeFile a ac folder.aircraft).lookup x,
    fun x => (writeFile b setupStateJson folder.state).lookup x, fun _ => none⟩, ?_, rfl,
    newSettings_eq a b, by simp [writeFile], by simp [writeFile], rfl, rfl⟩
  unfold JsonFolder.project setupSaveJson writeFile
  simp only [List.lookup_cons, beq_self_eq_true]

/-- The template project on JSON data describes the template project. -/
theorem template_described (W : JsonWorld) (root : String) {folder : Folder} {P : Project}
    (h1 : setupWkdir W.toWorld root none none = (some folder, .made))
    (h2 : folder.project root "template.json" = some P) :
    ∃ J, (setupSaveJson "template.json" "template_aircraft.json" "template.json" templateJson
      ⟨[], [], []⟩).project root "template.json" = some J ∧ J.Describes W P := by
  obtain ⟨J, hJ, j1, j2, j3, j4, j5, j6⟩ := setup_json root "template.json" "template_aircraft.json"
    "template.json" templateJson ⟨[], [], []⟩
  refine ⟨J, hJ, ?_⟩
  have e : folder = setupSave "template.json" "template_aircraft.json" "template.json"
      templateAircraft ⟨[], [], []⟩ := by
    have := congrArg Prod.fst h1
    exact (Option.some.inj this).symm
  subst e
  have e : P = ⟨String.ofList (splitExt "template.json".toList), root,
      (saveSettings ⟨setupSettings "template_aircraft.json" "template.json", false⟩).2,
      fun x => (writeFile "template_aircraft.json" templateAircraft []).lookup x,
      fun x => (writeFile "template.json" setupState []).lookup x, fun _ => none⟩ := by
    unfold Folder.project setupSave at h2
    simp only [writeFile, List.lookup_cons, beq_self_eq_true, Option.some.injEq] at h2
    exact h2.symm
  subst e
  refine ⟨j6.symm, j1.symm, j2.symm, j5.symm, ?_, ?_⟩
  · intro a f hf
    simp only [writeFile, List.filter_nil, List.lookup_cons, List.lookup_nil] at hf
    split at hf
    · next hx =>
      cases hf
      obtain rfl := eq_of_beq hx
      exact ⟨_, j3, template_json _⟩
    · cases hf
  · intro b sd hf
    simp only [writeFile, List.filter_nil, List.lookup_cons, List.lookup_nil] at hf
    split at hf
    · next hx =>
      cases hf
      obtain rfl := eq_of_beq hx
      exact ⟨_, j4, setupState_json _⟩
    · cases hf

/-- **C136.** The template project as it is written, with whole numbers, `null` and all, can be read: loading it
gives the template aircraft at the default flight state, and its analysis never ends in an exception. -/
theorem C136_template (W : JsonWorld) (hW : Lapack W.dgesv) (root : String)
    (ha : W.airfoilOk "NACA0000" = true) (hsuf : W.suffix "template_aircraft.json" = ".json")
    (hup : W.upper "template.json" ≠ "__CPACS") :
    ∃ folder J x, setupWkdirJson W root none none = (some folder, .made) ∧
      folder.project root "template.json" = some J ∧ loadJsonProject W J = .ok x ∧
      IsDefaultState x.state ∧
      (∃ w s c, x.aircraft.wings = [w] ∧ w.segments = [s] ∧ w.controls = [c] ∧ w.symmetry = 2 ∧
        s.gen.vertices = ⟨⟨0, 0, 0⟩, ⟨0, 5, 0⟩, ⟨2, 5, 0⟩, ⟨2, 0, 0⟩⟩ ∧
        c.data.deviceType = some "flap" ∧ c.data.deflection = .num (.fin 5) ∧
        c.data.deflectionMirror = .num (.fin (-5))) ∧
      ((∃ out, runJsonProject W J = .ok out) ∨ ∃ files, runJsonProject W J = .error (.notFinite, files)) := by
  obtain ⟨folder, P, x, h1, h2, h3, h4, h5, h6⟩ := C102_template W.toWorld hW root ha hsuf hup
  obtain ⟨J, hJ, hD⟩ := template_described W root h1 h2
  refine ⟨_, J, x, rfl, hJ, load_of_described hD h3, h4, h5, ?_⟩
  rw [(C135_run W J).1 P x hD h3]
  exact h6

/-- **C136.** A project is made from exactly the aircraft files that can be loaded. It analyses the aircraft of
the file exactly if no wing segment of it is changed by saving. -/
theorem C136_from_file (W : JsonWorld) (root : String) (hr : ['/'] <+: root.toList)
    (path n : Name) (hn : JsonFile path n)
    (hsuf : W.suffix (String.ofList (n ++ ".json".toList)) = ".json")
    (hup : W.upper (String.ofList (n ++ ".json".toList)) ≠ "__CPACS") (j : Json) :
    (∀ e, loadJson W.env root W.airfoilOk j = .error e →
      (setupWkdirJson W root (some (path, some j)) none).2 = .raised e) ∧
    ∀ ac, loadJson W.env root W.airfoilOk j = .ok ac →
      ∃ folder J, setupWkdirJson W root (some (path, some j)) none = (some folder, .made) ∧
        folder.project root (String.ofList (n ++ ".json".toList)) = some J ∧
        ((∃ x, loadJsonProject W J = .ok x ∧ x.aircraft = ac) ↔
          ∀ w ∈ ac.wings, ∀ s ∈ w.segments, Survives root s) ∧
        ∀ x, loadJsonProject W J = .ok x → IsDefaultState x.state := by
  obtain ⟨e1, e2, e3⟩ := hn.names
  set file := String.ofList (n ++ ".json".toList) with hfile
  have hlook : (writeFile file j []).lookup file = some j := by simp [writeFile]
  constructor
  · intro e he
    unfold setupWkdirJson
    simp only [e1, e2, hlook, he]
  · intro ac h
    obtain ⟨J, hJ, j1, j2, j3, j4, j5, j6⟩ := setup_json root file file file (saveJson ac)
      ⟨[], writeFile file j [], []⟩
    refine ⟨_, J, ?_, hJ, ?_⟩
    · unfold setupWkdirJson
      simp only [e1, e2, e3, hlook, h]
    obtain ⟨s, hs⟩ := (C98_accepted_iff W.suffix _ (newSettings_keys file file)).2
      (newSettings_ok _ _ _ hsuf)
    have hnat : NativeProject W.toWorld (J.meaning W) (newSettings file file) file file :=
      setup_native j2 hsuf hup
    obtain ⟨n1, n2, n3, n4, -⟩ := loadProject_native hnat hs
    obtain ⟨k1, -, -, -⟩ := C98_content _ _ (newSettings_keys file file) s hs
    obtain ⟨st, hst⟩ := (C41_accepted_iff W.atm _ setupState_keys).2 (setupState_acceptable W.atm)
    have hdef : ∀ ac', loadDeformationFrom J.rest s ac' = .ok ac'.undeformed := by
      intro ac'
      unfold loadDeformationFrom
      rw [k1 "deformation" .none (by decide) (by simp [newSettings])]
      rfl
    have hload : ∀ x, loadJsonProject W J = .ok x ↔
        ∃ ac', loadJson W.env root W.airfoilOk (saveJson ac) = .ok ac' ∧
          x = ⟨s, false, ac', st, ac'.undeformed⟩ := by
      intro x
      have hl : loadStateJson W.parse W.atm setupStateJson = .ok st :=
        (C134_loaded_iff _ _ _ _).2 ⟨_, setupState_json _, hst⟩
      rw [loadJsonProject_ok, j2, hs]
      constructor
      · rintro ⟨h1, h2, h3, h4, h5⟩
        obtain rfl := Except.ok.inj h1
        rw [n2] at h3
        have hc := Except.ok.inj h3
        rw [← hc] at h4
        simp only [loadStatesJson, n4, j4, hl, Bool.false_eq_true, if_false, Except.ok.injEq] at h4
        simp only [loadAircraftJson, n1, n3, j3, j1, Bool.false_eq_true, if_false] at h2
        rw [hdef] at h5
        refine ⟨_, h2, ?_⟩
        obtain ⟨xs, xc, xa, xst, xd⟩ := x
        simp only at hc h4 h5 ⊢
        rw [← hc, ← h4, Except.ok.inj h5]
      · rintro ⟨ac', h1, rfl⟩
        refine ⟨rfl, ?_, n2, ?_, hdef _⟩
        · simp only [loadAircraftJson, n1, n3, j3, j1, Bool.false_eq_true, if_false]
          exact h1
        · simp only [loadStatesJson, n4, j4, hl, Bool.false_eq_true, if_false]
    refine ⟨?_, ?_⟩
    · rw [← C133_reload_iff W.env root W.airfoilOk j ac hr h]
      constructor
      · rintro ⟨x, hx, rfl⟩
        obtain ⟨ac', h1, rfl⟩ := (hload x).1 hx
        exact h1
      · intro h1
        exact ⟨_, (hload _).2 ⟨_, h1, rfl⟩, rfl⟩
    · intro x hx
      obtain ⟨ac', h1, rfl⟩ := (hload x).1 hx
      exact setupState_default hst

/-! ## Examples -/

/-- Example for C134: another order, a list of one value instead of the value, and `100.0` instead of `100`. -/
example (parse : String → Option (Flt ℝ)) (atm : Atm ℝ) :
    loadStateJson parse atm (.obj [("aero", .obj [("alpha", .arr [.int 2]), ("airspeed", .int 100)])]) =
    loadStateJson parse atm (.obj [("aero", .obj [("airspeed", .num 100), ("alpha", .int 2)])]) := by
  refine C134_same parse atm _ _ _ _ ⟨has_intro rfl, _, rfl, by simp⟩ ⟨has_intro rfl, _, rfl, by simp⟩
    (by simp) (by simp) fun key => ?_
  by_cases h1 : key = "alpha"
  · subst h1
    exact ⟨[.int 2], [.int 2], .inl rfl, .inr ⟨by simp, rfl⟩, .cons (.inl rfl) .nil⟩
  · by_cases h2 : key = "airspeed"
    · subst h2
      exact ⟨[.int 100], [.num 100], .inr ⟨by simp, rfl⟩, .inr ⟨by simp, rfl⟩,
        .cons (.inr ⟨100, .inl ⟨rfl, by norm_num⟩⟩) .nil⟩
    · have e1 : (key == "alpha") = false := by simpa using h1
      have e2 : (key == "airspeed") = false := by simpa using h2
      simp only [List.lookup, e1, e2]
      trivial

/-- Example for C134: the data of a new project are flight states. -/
example (parse : String → Option (Flt ℝ)) (atm : Atm ℝ) :
    ∃ s, loadStateJson parse atm setupStateJson = .ok s ∧ IsDefaultState s := by
  obtain ⟨st, hst⟩ := (C41_accepted_iff atm _ setupState_keys).2 (setupState_acceptable atm)
  exact ⟨st, (C134_loaded_iff _ _ _ _).2 ⟨_, setupState_json _, hst⟩, setupState_default hst⟩

/-- Examples for `C134_fault`. -/
example (parse : String → Option (Flt ℝ)) (atm : Atm ℝ) :
    loadStateJson parse atm (.obj [("aero", .obj [("alpha", .int 2)]), ("comment", .str "cruise")]) =
      .error .typeError ∧
    loadStateJson parse atm (.obj [("aero", .arr [.int 2])]) = .error .attributeError ∧
    loadStateJson parse atm (.obj [("aero", .obj [])]) = .error .indexError := by
  refine ⟨(C134_fault parse atm _).1 ?_, (C134_fault parse atm _).2.1 _ ⟨has_intro rfl, _, rfl, by simp⟩
    (by simp), (C134_fault parse atm _).2.2 ⟨has_intro rfl, _, rfl, by simp⟩⟩
  rintro v ⟨-, d, e, h⟩
  cases e
  simpa using h ("comment", .str "cruise") (by simp)

/-- Example for C135: a project in whose aircraft file the list of wings is missing raises an exception and
leaves no files. -/
example (W : JsonWorld) (hs : W.suffix "a.json" = ".json") (hu : W.upper "b.json" ≠ "__CPACS") :
    ∃ e, runJsonProject W ⟨"p", "/home", .dict (newSettings "a.json" "b.json"),
      fun _ => some (.obj [("uid", .str "x"), ("refs", .obj [])]), fun _ => some setupStateJson, fun _ => none⟩ =
      .error (.raised e, []) := by
  refine (C135_run W _).2 ?_
  rintro ⟨P, x, hP, hx⟩
  have hx' := load_of_described hP hx
  obtain ⟨h1, h2, -, -, -⟩ := loadJsonProject_ok.1 hx'
  have hnat : NativeProject W.toWorld P (newSettings "a.json" "b.json") "a.json" "b.json" :=
    setup_native hP.settings hs hu
  obtain ⟨n1, -, -, -, -⟩ := loadProject_native hnat h1
  simp only [loadAircraftJson, n1, Bool.false_eq_true, if_false] at h2
  obtain ⟨f, hf, -⟩ := (C130_loaded_iff _ _ _ _ _).1 h2
  obtain ⟨v, l, ⟨d, e, hd⟩, -⟩ := hf.wings
  cases e
  simp [List.lookup] at hd

/-- Example for C136: a project made from the file of an aircraft with a flapped wing. -/
example (W : JsonWorld) (ha : W.airfoilOk = fun _ => true)
    (hsuf : W.suffix (String.ofList ("plane".toList ++ ".json".toList)) = ".json")
    (hup : W.upper (String.ofList ("plane".toList ++ ".json".toList)) ≠ "__CPACS") :
    ∃ folder, setupWkdirJson W "/home" (some ("plane.json".toList, some flapJson)) none = (some folder, .made) := by
  obtain ⟨ac, h⟩ := flapJson_loaded W.env
  obtain ⟨folder, J, h1, -⟩ := (C136_from_file W "/home" ⟨_, rfl⟩ "plane.json".toList "plane".toList
    ⟨by decide, ⟨'p', by decide, by decide⟩⟩ hsuf hup flapJson).2 ac (by rw [ha]; exact h)
  exact ⟨folder, h1⟩

end Verif
