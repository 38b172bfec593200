import Verif.Model.AircraftJson
import Verif.Props.AircraftAccept
import Verif.Props.Surfaces

/-!
# Property C130: which JSON data are an aircraft file
-/

namespace Verif

/-! ## Specification -/

/-- The object has the value under the key. -/
def Json.Has (j : Json) (key : String) (v : Json) : Prop := ∃ d, j = .obj d ∧ d.lookup key = some v

/-- The object does not have the key. -/
def Json.Lacks (j : Json) (key : String) : Prop := ∃ d, j = .obj d ∧ d.lookup key = none

/-- Data without content. -/
def Json.Empty (v : Json) : Prop :=
  v = .null ∨ v = .bool false ∨ v = .int 0 ∨ v = .num 0 ∨ v = .str "" ∨ v = .arr [] ∨ v = .obj []

/-- A list; the empty list may also be written as an empty object or string. -/
def Json.IsList (v : Json) (l : List Json) : Prop :=
  v = .arr l ∨ (l = [] ∧ (v = .obj [] ∨ v = .str ""))

/-- A number written with a decimal point or exponent. -/
def IsDecimal (v : Json) (x : ℝ) : Prop := v = .num x

/-- A number. -/
def IsNumber (E : JsonEnv) (v : Json) (x : ℝ) : Prop :=
  IsDecimal v x ∨ (∃ z : ℤ, v = .int z ∧ x = z) ∨
  (E.boolNumbers = true ∧ (v = .bool true ∧ x = 1 ∨ v = .bool false ∧ x = 0))

/-- Anything that `float` turns into a number. -/
def IsFloatable (E : JsonEnv) (v : Json) (x : ℝ) : Prop :=
  IsDecimal v x ∨ (∃ z : ℤ, v = .int z ∧ x = z) ∨ (v = .bool true ∧ x = 1) ∨ (v = .bool false ∧ x = 0) ∨
  ∃ s, v = .str s ∧ E.parseFloat s = some x

/-- Three numbers. -/
def IsPoint (E : JsonEnv) (v : Json) (p : V3 ℝ) : Prop :=
  ∃ x y z, v = .arr [x, y, z] ∧ IsNumber E x p.x ∧ IsNumber E y p.y ∧ IsNumber E z p.z

/-- A whole number. -/
def IsCount (E : JsonEnv) (v : Json) (n : ℤ) : Prop :=
  v = .int n ∨ (E.boolNumbers = true ∧ (v = .bool true ∧ n = 1 ∨ v = .bool false ∧ n = 0))

/-- A value that may be missing or `null`. -/
def GivenAt {α : Type} (R : Json → α → Prop) (d : JDict) (key : String) (x : Option α) : Prop :=
  (x = none ∧ (d.lookup key = none ∨ d.lookup key = some .null)) ∨
  ∃ v y, d.lookup key = some v ∧ R v y ∧ x = some y

/-- A number of the geometry, which must be written with a decimal point. -/
def GeoAt (d : JDict) (key : String) (x : Option (Flt ℝ)) : Prop :=
  GivenAt (fun v (y : Flt ℝ) => ∃ r, IsDecimal v r ∧ y = .fin r) d key x

/-- All keys are known, unless further ones are admitted. -/
def KnownKeys (E : JsonEnv) (known : List String) (d : JDict) : Prop :=
  E.extraKeys = true ∨ ∀ e ∈ d, e.1 ∈ known

/-- An optional group of values. -/
def Group (e : Json) (key : String) (d : JDict) : Prop :=
  e.Has key (.obj d) ∨ (d = [] ∧ (e.Lacks key ∨ ∃ v, e.Has key v ∧ v.Empty))

/-- The JSON data of a segment. -/
structure SegmentJson (E : JsonEnv) (e : Json) (s : FileSegment) : Prop where
  uid : e.Has "uid" (.str s.uid)
  vertices : ∃ d, e.Has "vertices" (.obj d) ∧
    GivenAt (IsPoint E) d "a" s.vertices.a ∧ GivenAt (IsPoint E) d "b" s.vertices.b ∧
    GivenAt (IsPoint E) d "c" s.vertices.c ∧ GivenAt (IsPoint E) d "d" s.vertices.d ∧
    KnownKeys E ["a", "b", "c", "d"] d ∧ ∀ x ∈ d, x.2 ≠ .null → x.1 ∈ ["a", "b", "c", "d", ""]
  geometry : ∃ d, Group e "geometry" d ∧
    GeoAt d "inner_chord" s.geometry.innerChord ∧ GeoAt d "inner_alpha" s.geometry.innerAlpha ∧
    GeoAt d "inner_beta" s.geometry.innerBeta ∧ GeoAt d "inner_axis" s.geometry.innerAxis ∧
    GeoAt d "outer_chord" s.geometry.outerChord ∧ GeoAt d "outer_alpha" s.geometry.outerAlpha ∧
    GeoAt d "outer_beta" s.geometry.outerBeta ∧ GeoAt d "outer_axis" s.geometry.outerAxis ∧
    GeoAt d "span" s.geometry.span ∧ GeoAt d "sweep" s.geometry.sweep ∧
    GeoAt d "dihedral" s.geometry.dihedral ∧
    KnownKeys E ["inner_chord", "outer_chord", "inner_alpha", "outer_alpha", "inner_beta", "outer_beta",
      "inner_axis", "outer_axis", "span", "sweep", "dihedral"] d
  airfoils : ∃ d, e.Has "airfoils" (.obj d) ∧ (∀ x ∈ d, ∃ t, x.2 = .str t) ∧
    d.lookup "inner" = some (.str s.airfoilInner) ∧ d.lookup "outer" = some (.str s.airfoilOuter) ∧
    KnownKeys E ["inner", "outer"] d
  panels : ∃ d, Group e "panels" d ∧ GivenAt (IsCount E) d "num_c" s.numC ∧
    GivenAt (IsCount E) d "num_s" s.numS ∧ KnownKeys E ["num_c", "num_s"] d

/-- An angle: `null`, a number, or something else. -/
def IsAngle (v : Json) (x : Val ℝ) : Prop :=
  (v = .null ∧ x = .none) ∨ (∃ r, IsDecimal v r ∧ x = .num (.fin r)) ∨
  (∃ z : ℤ, v = .int z ∧ x = .num (.fin z)) ∨ (v = .bool true ∧ x = .num (.fin 1)) ∨
  (v = .bool false ∧ x = .num (.fin 0)) ∨ (∃ s, v = .str s ∧ x = .text none) ∨
  (((∃ l, v = .arr l) ∨ ∃ d, v = .obj d) ∧ x = .obj)

/-- A number under a key, written with a decimal point. -/
def DecimalAt (d : JDict) (key : String) (x : ℝ) : Prop := ∃ v, d.lookup key = some v ∧ IsDecimal v x

/-- The JSON data of a control. -/
structure ControlJson (E : JsonEnv) (e : Json) (c : FileControl) : Prop where
  uid : e.Has "uid" (.str c.uid)
  deviceType : ∃ t, e.Has "device_type" (.str t) ∧ c.data.deviceType = some t
  deflection : ∃ v, e.Has "deflection" v ∧ IsAngle v c.data.deflection
  mirror : (∃ v, e.Has "deflection_mirror" v ∧ IsAngle v c.data.deflectionMirror) ∨
    (e.Lacks "deflection_mirror" ∧ c.data.deflectionMirror = .none)
  segment : ∃ d, e.Has "segment_uid" (.obj d) ∧ d.lookup "inner" = some (.str c.data.segInner) ∧
    d.lookup "outer" = some (.str c.data.segOuter) ∧ KnownKeys E ["inner", "outer"] d
  rel : ∃ d, e.Has "rel_vertices" (.obj d) ∧ DecimalAt d "eta_inner" c.data.etaInner ∧
    DecimalAt d "eta_outer" c.data.etaOuter ∧ DecimalAt d "xsi_inner" c.data.xsiInner ∧
    DecimalAt d "xsi_outer" c.data.xsiOuter ∧
    KnownKeys E ["eta_inner", "eta_outer", "xsi_inner", "xsi_outer"] d
  hinge : ∃ d, e.Has "rel_hinge_vertices" (.obj d) ∧ DecimalAt d "xsi_inner" c.data.hingeInner ∧
    DecimalAt d "xsi_outer" c.data.hingeOuter ∧ KnownKeys E ["xsi_inner", "xsi_outer"] d
  panels : ∃ p v, e.Has "panels" p ∧ p.Has "num_c" v ∧
    (v = .null ∧ c.data.numC = none ∨ ∃ n, IsCount E v n ∧ c.data.numC = some n)

/-- A number of a symmetry, also `true` for 1 and `2.0` for 2. -/
def IsSymmetry (v : Json) (n : ℕ) : Prop :=
  v = .int n ∨ v = .num n ∨ (v = .bool true ∧ n = 1) ∨ (v = .bool false ∧ n = 0)

/-- The JSON data of a wing. -/
structure WingJson (E : JsonEnv) (e : Json) (w : FileWing) : Prop where
  uid : e.Has "uid" (.str w.uid)
  symmetry : ∃ v, e.Has "symmetry" v ∧ IsSymmetry v w.symmetry
  segments : ∃ v l, e.Has "segments" v ∧ v.IsList l ∧ List.Forall₂ (SegmentJson E) l w.segments
  controls : (∃ v l, e.Has "controls" v ∧ v.IsList l ∧ List.Forall₂ (ControlJson E) l w.controls) ∨
    (e.Lacks "controls" ∧ w.controls = [])

/-- The JSON data of an aircraft file. -/
structure AircraftJson (E : JsonEnv) (j : Json) (f : FileAircraft) : Prop where
  uid : j.Has "uid" (.str f.uid)
  refs : ∃ d, j.Has "refs" (.obj d) ∧
    (∃ v, d.lookup "area" = some v ∧ IsFloatable E v f.refs.area) ∧
    (∃ v, d.lookup "chord" = some v ∧ IsFloatable E v f.refs.chord) ∧
    (∃ v, d.lookup "span" = some v ∧ IsFloatable E v f.refs.span) ∧
    (∃ v, d.lookup "gcenter" = some v ∧ IsPoint E v f.refs.gcenter) ∧
    (∃ v, d.lookup "rcenter" = some v ∧ IsPoint E v f.refs.rcenter) ∧
    GivenAt (fun v s => v = .str s) d "comment" f.refs.comment ∧
    KnownKeys E ["gcenter", "rcenter", "area", "chord", "span", "comment"] d
  wings : ∃ v l, j.Has "wings" v ∧ v.IsList l ∧ List.Forall₂ (WingJson E) l f.wings

/-! ## Lemmas -/

theorem except_bind_ok {α β : Type} {x : Except PyErr α} {f : α → Except PyErr β} {b : β} :
    (x >>= f) = .ok b ↔ ∃ a, x = .ok a ∧ f a = .ok b := by
  cases x with
  | error e => simp [bind, Except.bind]
  | ok a => simp [bind, Except.bind]

theorem jsonItem_ok {j : Json} {k : String} {v : Json} : j.item k = .ok v ↔ j.Has k v := by
  unfold Json.Has
  cases j <;> simp only [Json.item, reduceCtorEq, false_and, exists_false, Json.obj.injEq, exists_eq_left']
  split <;> rename_i h <;> simp [h]

theorem items_ok {j : Json} {d : JDict} : j.items = .ok d ↔ j = .obj d := by
  cases j <;> simp [Json.items]

theorem get_ok {j : Json} {k : String} {v dflt : Json} :
    j.get k dflt = .ok v ↔ j.Has k v ∨ (j.Lacks k ∧ v = dflt) := by
  unfold Json.Has Json.Lacks
  cases j <;> simp only [Json.get, reduceCtorEq, false_and, exists_false, Json.obj.injEq, exists_eq_left',
    or_self, Except.ok.injEq]
  rename_i d
  cases d.lookup k <;> simp [eq_comm]

theorem truthy_false {v : Json} : v.truthy = false ↔ v.Empty := by
  unfold Json.Empty
  cases v <;> simp [Json.truthy]

theorem empty_str {s : String} (h : ¬ (Json.str s).Empty) : s ≠ "" := by
  rintro rfl; exact h (by simp [Json.Empty])

theorem newName_ok {seen : List String} {j : Json} {s : String} :
    newName seen j = .ok s ↔ j = .str s ∧ s ≠ "" ∧ s ∉ seen := by
  unfold newName
  cases ht : j.truthy with
  | false =>
    simp only [Bool.not_false, if_true, reduceCtorEq, false_iff]
    rintro ⟨rfl, h, -⟩
    simp [Json.truthy, h] at ht
  | true =>
    simp only [Bool.not_true, Bool.false_eq_true, if_false]
    cases j <;> simp only [reduceCtorEq, false_and, Json.str.injEq]
    rename_i t
    simp only [Json.truthy, decide_eq_true_eq] at ht
    split_ifs with h
    · simp only [false_iff]; rintro ⟨rfl, -, h'⟩; exact h' h
    · simp only [Except.ok.injEq]
      exact ⟨fun e => ⟨e, e ▸ ht, e ▸ h⟩, fun e => e.1⟩

theorem makeEach_ok {α : Type} {make : List String → Json → Except PyErr α} {uid : α → String}
    {R : Json → α → Prop}
    (h : ∀ seen e a, make seen e = .ok a ↔ R e a ∧ uid a ≠ "" ∧ uid a ∉ seen) :
    ∀ {seen : List String} {l : List Json} {as : List α}, makeEach make uid seen l = .ok as ↔
      List.Forall₂ R l as ∧ checkNames seen (as.map uid) = .ok () := by
  intro seen l
  induction l generalizing seen with
  | nil =>
    intro as
    cases as <;> simp [makeEach, checkNames]
  | cons e rest ih =>
    intro as
    simp only [makeEach, except_bind_ok, Except.ok.injEq]
    constructor
    · rintro ⟨a, ha, bs, hb, rfl⟩
      obtain ⟨h1, h2, h3⟩ := (h _ _ _).1 ha
      obtain ⟨h4, h5⟩ := ih.1 hb
      exact ⟨.cons h1 h4, by simp only [List.map_cons, checkNames]; rw [if_neg h2, if_neg h3]; exact h5⟩
    · rintro ⟨hf, hc⟩
      cases hf with
      | cons h1 h4 =>
        rename_i a bs
        simp only [List.map_cons, checkNames] at hc
        split_ifs at hc with h2 h3
        exact ⟨a, (h _ _ _).2 ⟨h1, h2, h3⟩, bs, ih.2 ⟨h4, hc⟩, rfl⟩

theorem elements_ok {j : Json} {l : List Json} (hl : ∀ e ∈ l, ∀ s, e ≠ .str s) :
    j.elements = .ok l ↔ j.IsList l := by
  unfold Json.IsList
  cases j with
  | arr m => simp [Json.elements]
  | obj d =>
    cases d with
    | nil => simp [Json.elements, eq_comm]
    | cons x d =>
      simp only [Json.elements, List.map_cons, Except.ok.injEq, reduceCtorEq, Json.obj.injEq,
        or_self, and_false, iff_false]
      rintro rfl
      exact hl _ (List.mem_cons_self) _ rfl
  | str s =>
    by_cases hs : s = ""
    · subst hs; simp [Json.elements, eq_comm]
    · simp only [Json.elements, Except.ok.injEq, reduceCtorEq, false_or, Json.str.injEq, hs, and_false, iff_false]
      rintro rfl
      cases ht : s.toList with
      | nil => exact hs (by rw [← String.ofList_toList (s := s), ht])
      | cons c r => rw [ht] at hl; exact hl _ (List.mem_cons_self) _ rfl
  | _ => simp [Json.elements]

theorem forall₂_not_str {α : Type} {R : Json → α → Prop} (hR : ∀ s a, ¬ R (.str s) a) {l : List Json}
    {as : List α} (h : List.Forall₂ R l as) : ∀ e ∈ l, ∀ s, e ≠ .str s := by
  rintro e he s rfl
  obtain ⟨a, -, ha⟩ := forall₂_mem_left h he
  exact hR s a ha

theorem optField_ok {α : Type} {E : JsonEnv} {conv : Json → Option α} {R : Json → α → Prop} {d : JDict}
    {key : String} {x : Option α} (hc : ∀ v y, conv v = some y ↔ R v y) (hn : conv .null = none) :
    optField E conv d key = .ok x ↔ GivenAt R d key x := by
  unfold optField GivenAt JDict.value
  cases h : d.lookup key with
  | none => simp [eq_comm]
  | some v =>
    simp only [Option.getD_some, reduceCtorEq, false_or, Option.some.injEq]
    have hR : ∀ y, ¬ R .null y := fun y hy => by rw [← hc, hn] at hy; cases hy
    have key : ∀ w : Json, w ≠ .null → ((match conv w with
        | some x => (.ok (some x) : Except PyErr (Option α))
        | none => .error E.schemaErr) = .ok x ↔
        (x = none ∧ w = .null) ∨ ∃ v y, w = v ∧ R v y ∧ x = some y) := by
      intro w hw
      cases hv : conv w with
      | none =>
        simp only [reduceCtorEq, hw, and_false, false_or, false_iff]
        rintro ⟨v, y, rfl, hy, -⟩
        rw [← hc, hv] at hy; cases hy
      | some z =>
        simp only [Except.ok.injEq, hw, and_false, false_or]
        constructor
        · rintro rfl; exact ⟨w, z, rfl, (hc _ _).1 hv, rfl⟩
        · rintro ⟨v, y, rfl, hy, rfl⟩; rw [← hc, hv] at hy; exact hy
    cases v with
    | null =>
      simp only [Except.ok.injEq, and_true]
      constructor
      · rintro rfl; exact .inl rfl
      · rintro (rfl | ⟨v, y, rfl, hy, -⟩)
        · rfl
        · exact absurd hy (hR y)
    | _ => exact key _ (by simp)

theorem reqField_ok {α : Type} {E : JsonEnv} {conv : Json → Option α} {R : Json → α → Prop} {d : JDict}
    {key : String} {x : α} (hc : ∀ v y, conv v = some y ↔ R v y) (hn : conv .null = none) :
    reqField E conv d key = .ok x ↔ ∃ v, d.lookup key = some v ∧ R v x := by
  unfold reqField JDict.value
  cases h : d.lookup key with
  | none => simp [hn]
  | some v =>
    simp only [Option.getD_some, Option.some.injEq, exists_eq_left', ← hc]
    cases conv v <;> simp

theorem floatOf_iff (v : Json) (x : ℝ) : floatOf v = some x ↔ IsDecimal v x := by
  unfold IsDecimal
  cases v <;> simp [floatOf]

theorem floatIn_iff (lo hi : ℝ) (v : Json) (x : ℝ) :
    floatIn lo hi v = some x ↔ IsDecimal v x ∧ lo ≤ x ∧ x ≤ hi := by
  rw [← floatOf_iff]
  unfold floatIn
  cases h : floatOf v with
  | none => simp
  | some y =>
    simp only [Option.bind_some, Option.some.injEq]
    split_ifs with hr
    · simp only [Option.some.injEq]; exact ⟨fun e => ⟨e, e ▸ hr⟩, fun e => e.1⟩
    · simp only [false_iff]; rintro ⟨rfl, h'⟩; exact hr h'

theorem posInt_iff (E : JsonEnv) (v : Json) (n : ℤ) : posInt E v = some n ↔ IsCount E v n ∧ 0 < n := by
  unfold IsCount
  cases v with
  | int z =>
    simp only [posInt, Json.int.injEq, reduceCtorEq, false_and, or_self, and_false, or_false]
    split_ifs with h
    · simp only [Option.some.injEq]; exact ⟨fun e => ⟨e, e ▸ h⟩, fun e => e.1⟩
    · simp only [false_iff]; rintro ⟨rfl, h'⟩; exact h h'
  | bool b =>
    cases b
    · simp only [posInt, reduceCtorEq, Json.bool.injEq, false_and, false_or, true_and, Bool.false_eq_true]
      simp only [false_iff]
      rintro ⟨⟨-, rfl⟩, h⟩
      exact absurd h (lt_irrefl _)
    · cases hb : E.boolNumbers
      · simp [posInt, hb]
      · simp only [posInt, hb, if_true, Option.some.injEq, reduceCtorEq, true_and, Json.bool.injEq, false_and,
          or_false, false_or]
        constructor
        · rintro rfl; exact ⟨rfl, one_pos⟩
        · rintro ⟨rfl, -⟩; rfl
  | _ => simp [posInt]

theorem strOf_iff (v : Json) (s : String) : strOf v = some s ↔ v = .str s := by
  cases v <;> simp [strOf]

theorem numberOf_iff (E : JsonEnv) (v : Json) (x : ℝ) : numberOf E v = some x ↔ IsNumber E v x := by
  unfold IsNumber IsDecimal
  cases v with
  | bool b =>
    cases hb : E.boolNumbers <;> cases b <;> simp [numberOf, hb] <;> exact eq_comm
  | int z => simp [numberOf]; exact eq_comm
  | _ => simp [numberOf]

theorem xyzOf_iff (E : JsonEnv) (v : Json) (p : V3 ℝ) : xyzOf E v = some p ↔ IsPoint E v p := by
  unfold IsPoint
  simp only [← numberOf_iff]
  constructor
  · intro h
    unfold xyzOf at h
    split at h
    · rename_i x y z
      split at h
      · rename_i a b c ha hb hc
        cases h
        exact ⟨x, y, z, rfl, ha, hb, hc⟩
      · cases h
    · cases h
  · rintro ⟨x, y, z, rfl, h1, h2, h3⟩
    simp only [xyzOf, h1, h2, h3]

theorem checkKeys_ok {E : JsonEnv} {known : List String} {d : JDict} {u : Unit} :
    checkKeys E known d = .ok u ↔ KnownKeys E known d := by
  unfold checkKeys KnownKeys
  split_ifs with h
  · simp only [Bool.or_eq_true, List.all_eq_true, decide_eq_true_eq] at h
    exact ⟨fun _ => h, fun _ => rfl⟩
  · simp only [Bool.or_eq_true, List.all_eq_true, decide_eq_true_eq] at h
    simp only [false_iff]
    exact h

theorem group_ok {e : Json} {key : String} {d : JDict} : readGroup e key = .ok d ↔ Group e key d := by
  unfold readGroup Group
  simp only [except_bind_ok, get_ok]
  constructor
  · rintro ⟨v, h | ⟨h, rfl⟩, hv⟩
    · by_cases ht : v.truthy = true
      · rw [if_pos ht, items_ok] at hv
        subst hv
        exact .inl h
      · rw [if_neg ht, Except.ok.injEq] at hv
        exact .inr ⟨hv.symm, .inr ⟨v, h, truthy_false.1 (by simpa using ht)⟩⟩
    · rw [if_neg (by simp [Json.truthy]), Except.ok.injEq] at hv
      exact .inr ⟨hv.symm, .inl h⟩
  · rintro (h | ⟨rfl, h | ⟨v, h, he⟩⟩)
    · refine ⟨.obj d, .inl h, ?_⟩
      cases d <;> simp [Json.truthy, Json.items]
    · exact ⟨.null, .inr ⟨h, rfl⟩, by simp [Json.truthy]⟩
    · refine ⟨v, .inl h, ?_⟩
      rw [truthy_false.2 he]; simp

/-- The path of an airfoil. -/
def joined (root : String) : Json → Json
  | .str s => .str (loadAirfoil root s)
  | v => v

theorem lookup_map {f : Json → Json} {d : JDict} {key : String} :
    (d.map fun e => (e.1, f e.2)).lookup key = (d.lookup key).map f := by
  induction d with
  | nil => rfl
  | cons e rest ih =>
    obtain ⟨k, v⟩ := e
    simp only [List.map_cons, List.lookup_cons]
    cases key == k <;> simp [ih]

theorem readAirfoils_ok {root : String} {as bs : JDict} : mapE (readAirfoil root) as = .ok bs ↔
    (∀ x ∈ as, ∃ t, x.2 = .str t) ∧ bs = as.map fun e => (e.1, joined root e.2) := by
  have one : ∀ x y, readAirfoil root x = .ok y ↔ (∃ t, x.2 = .str t) ∧ y = (x.1, joined root x.2) := by
    rintro ⟨k, v⟩ y
    cases v <;> simp [readAirfoil, joined, eq_comm]
  rw [mapE_ok_iff]
  constructor
  · intro h
    induction h with
    | nil => simp
    | cons h1 _ ih =>
      obtain ⟨h2, rfl⟩ := (one _ _).1 h1
      obtain ⟨h3, rfl⟩ := ih
      refine ⟨?_, rfl⟩
      intro x hx
      rcases List.mem_cons.1 hx with rfl | hx
      · exact h2
      · exact h3 x hx
  · rintro ⟨h, rfl⟩
    induction as with
    | nil => exact .nil
    | cons x rest ih =>
      exact .cons ((one _ _).2 ⟨h x (by simp), rfl⟩) (ih fun y hy => h y (by simp [hy]))

theorem joined_str {root : String} {v : Json} {t : String} (h : joined root v = .str t) :
    ∃ s, v = .str s ∧ t = loadAirfoil root s := by
  cases v <;> simp only [joined, Json.str.injEq, reduceCtorEq] at h
  exact ⟨_, rfl, h.symm⟩

theorem geoAt_iff {d : JDict} {key : String} {x : Option (Flt ℝ)} :
    GeoAt d key x ↔ ∃ y, x = someFin y ∧ GivenAt IsDecimal d key y := by
  unfold GeoAt GivenAt someFin
  constructor
  · rintro (⟨rfl, h⟩ | ⟨v, y, h, ⟨r, hr, rfl⟩, rfl⟩)
    · exact ⟨none, rfl, .inl ⟨rfl, h⟩⟩
    · exact ⟨some r, rfl, .inr ⟨v, r, h, hr, rfl⟩⟩
  · rintro ⟨y, rfl, ⟨rfl, h⟩ | ⟨v, r, h, hr, rfl⟩⟩
    · exact .inl ⟨rfl, h⟩
    · exact .inr ⟨v, .fin r, h, ⟨r, hr, rfl⟩, rfl⟩

theorem optFloat_ok {E : JsonEnv} {d : JDict} {key : String} {x : Option ℝ} :
    optField E floatOf d key = .ok x ↔ GeoAt d key (someFin x) := by
  rw [optField_ok floatOf_iff rfl, geoAt_iff]
  constructor
  · exact fun h => ⟨x, rfl, h⟩
  · rintro ⟨y, h, hy⟩
    have : x = y := by
      unfold someFin at h
      cases x <;> cases y <;> simp_all
    rw [this]; exact hy

theorem optIn_ok {E : JsonEnv} {lo hi : ℝ} {d : JDict} {key : String} {x : Option ℝ} :
    optField E (floatIn lo hi) d key = .ok x ↔
      GeoAt d key (someFin x) ∧ Between lo hi (someFin x) := by
  rw [optField_ok (floatIn_iff lo hi) rfl, ← optFloat_ok (E := E), optField_ok floatOf_iff rfl]
  unfold GivenAt Between someFin
  constructor
  · rintro (⟨rfl, h⟩ | ⟨v, y, h, ⟨hr, hb⟩, rfl⟩)
    · exact ⟨.inl ⟨rfl, h⟩, by simp⟩
    · exact ⟨.inr ⟨v, y, h, hr, rfl⟩, by simpa using hb⟩
  · rintro ⟨⟨rfl, h⟩ | ⟨v, y, h, hr, rfl⟩, hb⟩
    · exact .inl ⟨rfl, h⟩
    · exact .inr ⟨v, y, h, ⟨hr, by simpa using hb⟩, rfl⟩

theorem checkGeometry_ok {E : JsonEnv} {d : JDict} {g : SegGeo} : checkGeometry E d = .ok g ↔
    GeoAt d "inner_chord" g.innerChord ∧ GeoAt d "inner_alpha" g.innerAlpha ∧
    GeoAt d "inner_beta" g.innerBeta ∧ GeoAt d "inner_axis" g.innerAxis ∧
    GeoAt d "outer_chord" g.outerChord ∧ GeoAt d "outer_alpha" g.outerAlpha ∧
    GeoAt d "outer_beta" g.outerBeta ∧ GeoAt d "outer_axis" g.outerAxis ∧
    GeoAt d "span" g.span ∧ GeoAt d "sweep" g.sweep ∧ GeoAt d "dihedral" g.dihedral ∧
    KnownKeys E ["inner_chord", "outer_chord", "inner_alpha", "outer_alpha", "inner_beta", "outer_beta",
      "inner_axis", "outer_axis", "span", "sweep", "dihedral"] d ∧ GeoOk g := by
  unfold checkGeometry
  simp only [except_bind_ok, optFloat_ok, optIn_ok, checkKeys_ok, Except.ok.injEq]
  constructor
  · rintro ⟨ic, h1, ia, ⟨h2, r2⟩, ib, ⟨h3, r3⟩, ix, ⟨h4, r4⟩, oc, h5, oa, ⟨h6, r6⟩, ob, ⟨h7, r7⟩, ox,
      ⟨h8, r8⟩, sp, h9, sw, ⟨h10, r10⟩, dh, ⟨h11, r11⟩, -, hk, rfl⟩
    exact ⟨h1, h2, h3, h4, h5, h6, h7, h8, h9, h10, h11, hk, ⟨r2, r6, r3, r7, r4, r8, r10, r11⟩⟩
  · rintro ⟨h1, h2, h3, h4, h5, h6, h7, h8, h9, h10, h11, hk, ⟨r2, r6, r3, r7, r4, r8, r10, r11⟩⟩
    obtain ⟨ic, e1, -⟩ := geoAt_iff.1 h1
    obtain ⟨ia, e2, -⟩ := geoAt_iff.1 h2
    obtain ⟨ib, e3, -⟩ := geoAt_iff.1 h3
    obtain ⟨ix, e4, -⟩ := geoAt_iff.1 h4
    obtain ⟨oc, e5, -⟩ := geoAt_iff.1 h5
    obtain ⟨oa, e6, -⟩ := geoAt_iff.1 h6
    obtain ⟨ob, e7, -⟩ := geoAt_iff.1 h7
    obtain ⟨ox, e8, -⟩ := geoAt_iff.1 h8
    obtain ⟨sp, e9, -⟩ := geoAt_iff.1 h9
    obtain ⟨sw, e10, -⟩ := geoAt_iff.1 h10
    obtain ⟨dh, e11, -⟩ := geoAt_iff.1 h11
    rw [e1] at h1; rw [e2] at h2 r2; rw [e3] at h3 r3; rw [e4] at h4 r4; rw [e5] at h5
    rw [e6] at h6 r6; rw [e7] at h7 r7; rw [e8] at h8 r8; rw [e9] at h9; rw [e10] at h10 r10
    rw [e11] at h11 r11
    refine ⟨ic, h1, ia, ⟨h2, r2⟩, ib, ⟨h3, r3⟩, ix, ⟨h4, r4⟩, oc, h5, oa, ⟨h6, r6⟩, ob, ⟨h7, r7⟩, ox,
      ⟨h8, r8⟩, sp, h9, sw, ⟨h10, r10⟩, dh, ⟨h11, r11⟩, (), hk, ?_⟩
    cases g
    simp_all

theorem checkVertices_ok {E : JsonEnv} {d : JDict} {v : Corners (Option (V3 ℝ))} :
    checkVertices E d = .ok v ↔ GivenAt (IsPoint E) d "a" v.a ∧ GivenAt (IsPoint E) d "b" v.b ∧
      GivenAt (IsPoint E) d "c" v.c ∧ GivenAt (IsPoint E) d "d" v.d ∧ KnownKeys E ["a", "b", "c", "d"] d := by
  unfold checkVertices
  have hx : ∀ k x, optField E (xyzOf E) d k = .ok x ↔ GivenAt (IsPoint E) d k x :=
    fun k x => optField_ok (xyzOf_iff E) rfl
  simp only [except_bind_ok, hx, checkKeys_ok, Except.ok.injEq]
  constructor
  · rintro ⟨a, h1, b, h2, c, h3, e, h4, -, hk, rfl⟩
    exact ⟨h1, h2, h3, h4, hk⟩
  · rintro ⟨h1, h2, h3, h4, hk⟩
    exact ⟨_, h1, _, h2, _, h3, _, h4, (), hk, rfl⟩

theorem checkFurther_ok {d : JDict} {u : Unit} : checkFurther d = .ok u ↔
    ∀ x ∈ d, x.2 ≠ .null → x.1 ∈ ["a", "b", "c", "d", ""] := by
  unfold checkFurther
  have one : ∀ x : String × Json, (decide (x.1 ∈ ["a", "b", "c", "d", ""]) ||
      (match x.2 with | .null => true | _ => false)) = true ↔
      (x.2 ≠ .null → x.1 ∈ ["a", "b", "c", "d", ""]) := by
    rintro ⟨k, v⟩
    cases v <;> simp only [Bool.or_true, Bool.or_false, decide_eq_true_eq, ne_eq, not_true_eq_false,
      reduceCtorEq, not_false_eq_true, false_implies, forall_const]
  split_ifs with h
  · rw [List.all_eq_true] at h
    exact ⟨fun _ x hx => (one x).1 (h x hx), fun _ => rfl⟩
  · rw [List.all_eq_true] at h
    simp only [false_iff]
    exact fun h' => h fun x hx => (one x).2 (h' x hx)

theorem count_ok {E : JsonEnv} {d : JDict} {key : String} {n : Option ℤ} :
    optField E (posInt E) d key = .ok n ↔ GivenAt (IsCount E) d key n ∧ panelsOk n = true := by
  rw [optField_ok (posInt_iff E) rfl, panelsOk_iff]
  unfold GivenAt
  constructor
  · rintro (⟨rfl, h⟩ | ⟨v, y, h, ⟨hr, hb⟩, rfl⟩)
    · exact ⟨.inl ⟨rfl, h⟩, by simp⟩
    · exact ⟨.inr ⟨v, y, h, hr, rfl⟩, by simpa using hb⟩
  · rintro ⟨⟨rfl, h⟩ | ⟨v, y, h, hr, rfl⟩, hb⟩
    · exact .inl ⟨rfl, h⟩
    · exact .inr ⟨v, y, h, ⟨hr, hb _ rfl⟩, rfl⟩

/-- What the loop of `load` takes from the data of a segment. -/
structure RawSegmentJson (root : String) (e : Json) (r : RawSegment) : Prop where
  uid : e.Has "uid" (.str r.uid)
  vertices : e.Has "vertices" (.obj r.vertices)
  geometry : Group e "geometry" r.geometry
  airfoils : ∃ as, e.Has "airfoils" (.obj as) ∧ (∀ x ∈ as, ∃ t, x.2 = .str t) ∧
    r.airfoils = as.map fun x => (x.1, joined root x.2)
  panels : Group e "panels" r.panels

theorem readSegment_ok {root : String} (seen : List String) (e : Json) (r : RawSegment) :
    readSegment root seen e = .ok r ↔ RawSegmentJson root e r ∧ r.uid ≠ "" ∧ r.uid ∉ seen := by
  unfold readSegment
  simp only [except_bind_ok, jsonItem_ok, items_ok, newName_ok, group_ok, readAirfoils_ok, Except.ok.injEq]
  constructor
  · rintro ⟨_, h1, uid, ⟨rfl, h2, h3⟩, _, h4, v, rfl, g, h5, _, h6, as, rfl, bs, ⟨h7, rfl⟩, p, h8, rfl⟩
    exact ⟨⟨h1, h4, h5, ⟨as, h6, h7, rfl⟩, h8⟩, h2, h3⟩
  · rintro ⟨⟨h1, h4, h5, ⟨as, h6, h7, h7'⟩, h8⟩, h2, h3⟩
    refine ⟨_, h1, _, ⟨rfl, h2, h3⟩, _, h4, _, rfl, _, h5, _, h6, as, rfl, _, ⟨h7, h7'⟩, _, h8, rfl⟩

theorem knownKeys_map {E : JsonEnv} {known : List String} {d : JDict} {f : Json → Json} :
    KnownKeys E known (d.map fun e => (e.1, f e.2)) ↔ KnownKeys E known d := by
  unfold KnownKeys
  rw [List.forall_mem_map]

theorem airfoil_field {E : JsonEnv} {root : String} {as : JDict} {key t : String} :
    reqField E strOf (as.map fun e => (e.1, joined root e.2)) key = .ok t ↔
      ∃ s, as.lookup key = some (.str s) ∧ t = loadAirfoil root s := by
  rw [reqField_ok strOf_iff rfl, lookup_map]
  constructor
  · rintro ⟨v, h, rfl⟩
    rw [Option.map_eq_some_iff] at h
    obtain ⟨w, hw, hj⟩ := h
    obtain ⟨s, rfl, rfl⟩ := joined_str hj
    exact ⟨s, hw, rfl⟩
  · rintro ⟨s, h, rfl⟩
    exact ⟨_, by rw [h]; rfl, rfl⟩

/-- The segment that is loaded. -/
def bareSegment (x : FileSegment × GenSegment) : LoadedSegment := LoadedSegment.of (x, (0, 0))

theorem segment_forward {E : JsonEnv} {root : String} {airfoilOk : String → Bool} {e : Json} {r : RawSegment}
    {g : LoadedSegment} (h : RawSegmentJson root e r) (hg : generateRawSegment E airfoilOk r = .ok g) :
    ∃ s x, SegmentJson E e s ∧ loadSegment root airfoilOk s = .ok x ∧ r.uid = s.uid ∧ g = bareSegment x := by
  obtain ⟨h1, h2, h3, ⟨as, h4, h4', h4''⟩, h5⟩ := h
  unfold generateRawSegment at hg
  rw [h4''] at hg
  simp only [except_bind_ok, checkVertices_ok, checkGeometry_ok, airfoil_field, checkKeys_ok, count_ok,
    checkFurther_ok, knownKeys_map] at hg
  obtain ⟨v, hv, geo, hgeo, _, ⟨i, hi, rfl⟩, _, ⟨o, ho, rfl⟩, -, hk, nc, ⟨hnc, pnc⟩, ns, ⟨hns, pns⟩, -, hkp,
    -, hf, gen, hgen, hfin⟩ := hg
  split_ifs at hfin with ha
  cases hfin
  obtain ⟨v1, v2, v3, v4, v5⟩ := hv
  obtain ⟨g1, g2, g3, g4, g5, g6, g7, g8, g9, g10, g11, g12, -⟩ := hgeo
  refine ⟨⟨r.uid, v, geo, i, o, nc, ns⟩,
    (⟨r.uid, v, geo, loadAirfoil root i, loadAirfoil root o, nc, ns⟩, gen), ⟨h1, ⟨_, h2, v1, v2, v3, v4, v5, hf⟩,
    ⟨_, h3, g1, g2, g3, g4, g5, g6, g7, g8, g9, g10, g11, g12⟩, ⟨as, h4, h4', hi, ho, hk⟩,
    ⟨_, h5, hnc, hns, hkp⟩⟩, ?_, rfl, rfl⟩
  unfold loadSegment
  simp only [pnc, pns, hgen]
  rw [if_neg (by simp), if_neg ha]

theorem segment_backward {E : JsonEnv} {root : String} {airfoilOk : String → Bool} {e : Json}
    {s : FileSegment} {x : FileSegment × GenSegment} (h : SegmentJson E e s)
    (hx : loadSegment root airfoilOk s = .ok x) :
    ∃ r g, RawSegmentJson root e r ∧ generateRawSegment E airfoilOk r = .ok g ∧ s.uid = r.uid ∧
      bareSegment x = g := by
  have hok := (loadSegment_iff _ _ _).1 ⟨x, hx⟩
  obtain ⟨h1, ⟨dv, h2, v1, v2, v3, v4, v5, hf⟩,
    ⟨dg, h3, g1, g2, g3, g4, g5, g6, g7, g8, g9, g10, g11, g12⟩, ⟨as, h4, h4', hi, ho, hk⟩,
    ⟨dp, h5, hnc, hns, hkp⟩⟩ := h
  unfold loadSegment at hx
  simp only [] at hx
  split_ifs at hx with hp ha
  · split at hx <;> cases hx
  split at hx
  · cases hx
  rename_i gen hgen
  cases hx
  refine ⟨⟨s.uid, dv, dg, as.map fun x => (x.1, joined root x.2), dp⟩, _,
    ⟨h1, h2, h3, ⟨as, h4, h4', rfl⟩, h5⟩, ?_, rfl, rfl⟩
  unfold generateRawSegment
  simp only [except_bind_ok, checkVertices_ok, checkGeometry_ok, airfoil_field, checkKeys_ok, count_ok,
    checkFurther_ok, knownKeys_map]
  simp only [Bool.not_eq_true', Bool.not_eq_false, Bool.and_eq_true] at hp
  refine ⟨s.vertices, ⟨v1, v2, v3, v4, v5⟩, s.geometry,
    ⟨g1, g2, g3, g4, g5, g6, g7, g8, g9, g10, g11, g12, hok.geometry⟩, _, ⟨_, hi, rfl⟩, _, ⟨_, ho, rfl⟩, (),
    hk, _, ⟨hnc, hp.1⟩, _, ⟨hns, hp.2⟩, (), hkp, (), hf, gen, hgen, ?_⟩
  rw [if_neg ha]
  rfl

theorem angle_iff (v : Json) (x : Val ℝ) : jsonVal v = x ↔ IsAngle v x := by
  unfold IsAngle IsDecimal
  cases v with
  | bool b => cases b <;> simp [jsonVal, eq_comm]
  | num q =>
    simp only [jsonVal, reduceCtorEq, false_and, exists_false, or_self, or_false, false_or, Json.num.injEq]
    constructor
    · rintro rfl; exact ⟨_, rfl, rfl⟩
    · rintro ⟨r, rfl, rfl⟩; rfl
  | _ => simp [jsonVal, eq_comm]

theorem readDeviceType_ok {v : Json} {t : String} :
    readDeviceType v = .ok t ↔ v = .str t ∧ t ∈ ["slat", "flap"] := by
  cases v <;> simp only [readDeviceType, reduceCtorEq, false_and, Json.str.injEq]
  rename_i s
  by_cases h : s ∈ ["slat", "flap"]
  · rw [if_neg (not_not.2 h), Except.ok.injEq]; exact ⟨fun e => ⟨e, e ▸ h⟩, fun e => e.1⟩
  · rw [if_pos h]; simp only [reduceCtorEq, false_iff]; rintro ⟨rfl, h'⟩; exact h h'

theorem in01_iff (x : ℝ) : in01 x = true ↔ 0 ≤ x ∧ x ≤ 1 := by simp [in01]

theorem decimal01_ok {E : JsonEnv} {d : JDict} {key : String} {x : ℝ} :
    reqField E (floatIn 0 1) d key = .ok x ↔ DecimalAt d key x ∧ in01 x = true := by
  rw [reqField_ok (floatIn_iff 0 1) (by rfl), in01_iff]
  unfold DecimalAt
  constructor
  · rintro ⟨v, h1, h2, h3⟩; exact ⟨⟨v, h1, h2⟩, h3⟩
  · rintro ⟨⟨v, h1, h2⟩, h3⟩; exact ⟨v, h1, h2, h3⟩

theorem name_ok {E : JsonEnv} {d : JDict} {key s : String} :
    reqField E strOf d key = .ok s ↔ d.lookup key = some (.str s) := by
  rw [reqField_ok strOf_iff rfl]
  simp

theorem given_one {E : JsonEnv} {v : Json} {n : Option ℤ} : GivenAt (IsCount E) [("num_c", v)] "num_c" n ↔
    (v = .null ∧ n = none ∨ ∃ k, IsCount E v k ∧ n = some k) := by
  unfold GivenAt
  have : List.lookup "num_c" [("num_c", v)] = some v := by simp [List.lookup]
  rw [this]
  simp only [reduceCtorEq, false_or, Option.some.injEq]
  constructor
  · rintro (⟨h1, h2⟩ | ⟨w, k, rfl, h1, h2⟩)
    · exact .inl ⟨h2, h1⟩
    · exact .inr ⟨k, h1, h2⟩
  · rintro (⟨h1, h2⟩ | ⟨k, h1, h2⟩)
    · exact .inl ⟨h2, h1⟩
    · exact .inr ⟨v, k, rfl, h1, h2⟩

/-- A control that has passed its schemas. -/
def ControlDef.inSchema (c : ControlDef ℝ) : Prop :=
  panelsOk c.numC = true ∧ in01 c.etaInner = true ∧ in01 c.etaOuter = true ∧ in01 c.xsiInner = true ∧
  in01 c.xsiOuter = true ∧ in01 c.hingeInner = true ∧ in01 c.hingeOuter = true

theorem check_inSchema {c d : ControlDef ℝ} {sym : ℕ} (h : c.check sym = .ok d) : c.inSchema := by
  unfold ControlDef.check at h
  split at h
  · cases h
  · rename_i hs
    simp only [Bool.not_eq_true', Bool.not_eq_false, Bool.and_eq_true] at hs
    obtain ⟨⟨⟨⟨⟨⟨h1, h2⟩, h3⟩, h4⟩, h5⟩, h6⟩, h7⟩ := hs
    exact ⟨h1, h2, h3, h4, h5, h6, h7⟩

theorem loadControl_ok {sym : ℕ} {c d : FileControl} : loadControl sym c = .ok d ↔
    ∃ t x, c.data.deviceType = some t ∧ t ∈ ["slat", "flap"] ∧ c.data.check sym = .ok x ∧ d = ⟨c.uid, x⟩ := by
  unfold loadControl
  cases hd : c.data.deviceType with
  | none => simp
  | some t =>
    have he : { c.data with deviceType := some t } = c.data := by rw [← hd]
    simp only [ControlDef.setDeviceType, Option.some.injEq]
    by_cases ht : t ∈ ["slat", "flap"]
    · rw [if_neg (not_not.2 ht), he]
      simp only []
      cases hc : c.data.check sym with
      | error e => simp
      | ok x =>
        simp only [Except.ok.injEq]
        constructor
        · rintro rfl; exact ⟨t, x, rfl, ht, rfl, rfl⟩
        · rintro ⟨_, _, -, -, rfl, rfl⟩; rfl
    · rw [if_pos ht]
      simp only [reduceCtorEq, false_iff]
      rintro ⟨_, _, rfl, h, -⟩
      exact ht h

theorem readControl_ok {E : JsonEnv} {sym : ℕ} (seen : List String) (e : Json) (c : FileControl) :
    readControl E sym seen e = .ok c ↔
      (∃ c0, ControlJson E e c0 ∧ loadControl sym c0 = .ok c) ∧ c.uid ≠ "" ∧ c.uid ∉ seen := by
  unfold readControl checkControl
  simp only [except_bind_ok, jsonItem_ok, items_ok, newName_ok, readDeviceType_ok, get_ok, decimal01_ok, name_ok,
    checkKeys_ok, count_ok, given_one, Except.ok.injEq]
  constructor
  · rintro ⟨_, h1, uid, ⟨rfl, n1, n2⟩, _, h2, t, ⟨rfl, ht⟩, df, h3, mi, h4, _, h5, seg, rfl, _, h6, rel, rfl,
      _, h7, hi, rfl, p, h8, nc, h9, _, ⟨s1, hs1, s2, hs2, -, ks, n, ⟨hn, pn⟩, e1, ⟨he1, r1⟩, e2, ⟨he2, r2⟩,
      x1, ⟨hx1, r3⟩, x2, ⟨hx2, r4⟩, -, kr, g1, ⟨hg1, r5⟩, g2, ⟨hg2, r6⟩, -, kh, rfl⟩, d, hd, rfl⟩
    refine ⟨⟨⟨uid, ⟨s1, s2, e1, e2, x1, x2, g1, g2, n, some t, jsonVal df, jsonVal mi⟩⟩, ⟨h1, ⟨t, h2, rfl⟩,
      ⟨df, h3, (angle_iff _ _).1 rfl⟩, ?_, ⟨seg, h5, hs1, hs2, ks⟩, ⟨rel, h6, he1, he2, hx1, hx2, kr⟩,
      ⟨hi, h7, hg1, hg2, kh⟩, ⟨p, nc, h8, h9, hn⟩⟩, ?_⟩, n1, n2⟩
    · rcases h4 with h4 | ⟨h4, rfl⟩
      · exact .inl ⟨mi, h4, (angle_iff _ _).1 rfl⟩
      · exact .inr ⟨h4, rfl⟩
    · exact loadControl_ok.2 ⟨t, d, rfl, ht, hd, rfl⟩
  · rintro ⟨⟨c0, ⟨h1, ⟨t, h2, h2'⟩, ⟨df, h3, h3'⟩, h4, ⟨seg, h5, hs1, hs2, ks⟩,
      ⟨rel, h6, he1, he2, hx1, hx2, kr⟩, ⟨hi, h7, hg1, hg2, kh⟩, ⟨p, nc, h8, h9, hn⟩⟩, hl⟩, n1, n2⟩
    obtain ⟨t', x, ht', ht, hx, rfl⟩ := loadControl_ok.1 hl
    obtain ⟨pn, r1, r2, r3, r4, r5, r6⟩ := check_inSchema hx
    obtain ⟨mi, hmi, hmi'⟩ : ∃ mi, (e.Has "deflection_mirror" mi ∨ (e.Lacks "deflection_mirror" ∧ mi = .null)) ∧
        jsonVal mi = c0.data.deflectionMirror := by
      rcases h4 with ⟨v, hv, ha⟩ | ⟨hv, ha⟩
      · exact ⟨v, .inl hv, (angle_iff _ _).2 ha⟩
      · exact ⟨.null, .inr ⟨hv, rfl⟩, ha.symm⟩
    rw [h2', Option.some.injEq] at ht'
    subst ht'
    refine ⟨_, h1, c0.uid, ⟨rfl, n1, n2⟩, _, h2, t, ⟨rfl, ht⟩, df, h3, mi, hmi, _, h5, seg, rfl, _, h6, rel,
      rfl, _, h7, hi, rfl, p, h8, nc, h9, _, ⟨_, hs1, _, hs2, (), ks, _, ⟨hn, pn⟩, _, ⟨he1, r1⟩, _, ⟨he2, r2⟩,
      _, ⟨hx1, r3⟩, _, ⟨hx2, r4⟩, (), kr, _, ⟨hg1, r5⟩, _, ⟨hg2, r6⟩, (), kh, rfl⟩, x, ?_, rfl⟩
    rw [← hx, (angle_iff _ _).2 h3', hmi', ← h2']

theorem pipe {E' R G S X P A : Type} {A' : E' → R → Prop} {F : R → G → Prop} {B : E' → S → Prop}
    {H : S → X → Prop} {p : R → P} {q : S → P} {a : G → A} {b : X → A}
    (h : ∀ {e r g}, A' e r → F r g → ∃ s x, B e s ∧ H s x ∧ p r = q s ∧ a g = b x) {l : List E'}
    {rs : List R} {gs : List G} (hA : List.Forall₂ A' l rs) (hF : List.Forall₂ F rs gs) :
    ∃ ss xs, List.Forall₂ B l ss ∧ List.Forall₂ H ss xs ∧ rs.map p = ss.map q ∧ gs.map a = xs.map b := by
  induction hA generalizing gs with
  | nil =>
    cases hF
    exact ⟨[], [], .nil, .nil, rfl, rfl⟩
  | cons h1 _ ih =>
    cases hF with
    | cons h2 h3 =>
      obtain ⟨s, x, k1, k2, k3, k4⟩ := h h1 h2
      obtain ⟨ss, xs, j1, j2, j3, j4⟩ := ih h3
      exact ⟨s :: ss, x :: xs, .cons k1 j1, .cons k2 j2, by simp [k3, j3], by simp [k4, j4]⟩

theorem readSymmetry_ok {v : Json} {n : ℕ} : readSymmetry v = .ok n ↔ IsSymmetry v n ∧ n ≤ 3 := by
  unfold IsSymmetry
  cases v with
  | int z =>
    simp only [readSymmetry, Json.int.injEq, reduceCtorEq, false_and, or_self, or_false]
    split_ifs with h
    · simp only [Except.ok.injEq]; omega
    · simp only [false_iff]; omega
  | num q =>
    simp only [readSymmetry, Json.num.injEq, reduceCtorEq, false_and, or_self, or_false, false_or]
    constructor
    · intro h
      split_ifs at h with h0 h1 h2 h3
      all_goals cases h
      · exact ⟨by rw [h0]; norm_num, by norm_num⟩
      · exact ⟨by rw [h1]; norm_num, by norm_num⟩
      · exact ⟨by rw [h2]; norm_num, by norm_num⟩
      · exact ⟨by rw [h3]; norm_num, by norm_num⟩
    · rintro ⟨rfl, hn⟩
      interval_cases n <;> norm_num
  | bool b =>
    cases b
    · simp only [readSymmetry, Bool.false_eq_true, if_false, Except.ok.injEq, reduceCtorEq, Json.bool.injEq,
        false_and, false_or, true_and]
      omega
    · simp only [readSymmetry, if_true, Except.ok.injEq, reduceCtorEq, Json.bool.injEq,
        false_and, false_or, true_and, or_false]
      omega
  | _ => simp [readSymmetry]

theorem readSegments_ok {root : String} {seen : List String} {l : List Json} {rs : List RawSegment} :
    makeEach (readSegment root) RawSegment.uid seen l = .ok rs ↔
      List.Forall₂ (RawSegmentJson root) l rs ∧ checkNames seen (rs.map RawSegment.uid) = .ok () :=
  makeEach_ok readSegment_ok

theorem readControls_ok {E : JsonEnv} {sym : ℕ} {seen : List String} {l : List Json} {cs : List FileControl} :
    makeEach (readControl E sym) FileControl.uid seen l = .ok cs ↔
      List.Forall₂ (fun e c => ∃ c0, ControlJson E e c0 ∧ loadControl sym c0 = .ok c) l cs ∧
      checkNames seen (cs.map FileControl.uid) = .ok () :=
  makeEach_ok readControl_ok

theorem controls_iff {E : JsonEnv} {sym : ℕ} {l : List Json} {cs : List FileControl} :
    List.Forall₂ (fun e c => ∃ c0, ControlJson E e c0 ∧ loadControl sym c0 = .ok c) l cs ↔
      ∃ c0s, List.Forall₂ (ControlJson E) l c0s ∧ mapE (loadControl sym) c0s = .ok cs := by
  simp only [mapE_ok_iff]
  constructor
  · intro h
    induction h with
    | nil => exact ⟨[], .nil, .nil⟩
    | cons h1 _ ih =>
      obtain ⟨c0, k1, k2⟩ := h1
      obtain ⟨c0s, k3, k4⟩ := ih
      exact ⟨c0 :: c0s, .cons k1 k3, .cons k2 k4⟩
  · rintro ⟨c0s, h1, h2⟩
    induction h1 generalizing cs with
    | nil => cases h2; exact .nil
    | cons k1 _ ih =>
      cases h2 with
      | cons k2 k3 => exact .cons ⟨_, k1, k2⟩ (ih k3)

theorem loadControls_uid {sym : ℕ} {c0s cs : List FileControl} (h : mapE (loadControl sym) c0s = .ok cs) :
    c0s.map (·.uid) = cs.map (·.uid) := by
  have := mapE_ok h
  clear h
  induction this with
  | nil => rfl
  | cons h1 _ ih =>
    obtain ⟨_, _, -, -, -, rfl⟩ := loadControl_ok.1 h1
    simp [ih]

theorem has_not_str {s key : String} {v : Json} : ¬ (Json.str s).Has key v := by
  rintro ⟨d, h, -⟩; cases h

theorem loadWing_ok {root : String} {airfoilOk : String → Bool} {w : FileWing} {lw : LoadedWing} :
    loadWing root airfoilOk w = .ok lw ↔ w.symmetry ≤ 3 ∧ checkNames [] (w.segments.map (·.uid)) = .ok () ∧
      checkNames [] (w.controls.map (·.uid)) = .ok () ∧ ∃ cs gs ps,
        mapE (loadControl w.symmetry) w.controls = .ok cs ∧
        mapE (loadSegment root airfoilOk) w.segments = .ok gs ∧
        positions (gs.map fun g => fltVal g.2.geometry.span) = .ok ps ∧
        lw = ⟨w.uid, w.symmetry, (gs.zip ps).map LoadedSegment.of, cs⟩ := by
  have hsym : w.symmetry ∈ [0, 1, 2, 3] ↔ w.symmetry ≤ 3 := by
    simp only [List.mem_cons, List.not_mem_nil, or_false]; omega
  unfold loadWing
  by_cases hs : w.symmetry ≤ 3
  · rw [if_neg (not_not.2 (hsym.2 hs))]
    cases h1 : checkNames [] (w.segments.map (·.uid)) with
    | error e => simp
    | ok u1 =>
    cases h2 : checkNames [] (w.controls.map (·.uid)) with
    | error e => simp
    | ok u2 =>
    cases h3 : mapE (loadControl w.symmetry) w.controls with
    | error e => simp
    | ok cs =>
    cases h4 : mapE (loadSegment root airfoilOk) w.segments with
    | error e => simp
    | ok gs =>
    simp only []
    cases h5 : positions (gs.map fun g => fltVal g.2.geometry.span) with
    | error e => simp [h5]
    | ok ps => simp [hs, h5, eq_comm]
  · rw [if_pos (fun h => hs (hsym.1 h))]
    simp [hs]

/-- What the loop of `load` takes from the data of a wing. -/
structure RawWingJson (E : JsonEnv) (root : String) (e : Json) (r : RawWing) : Prop where
  uid : e.Has "uid" (.str r.uid)
  symmetry : ∃ v, e.Has "symmetry" v ∧ IsSymmetry v r.symmetry ∧ r.symmetry ≤ 3
  segments : ∃ v l, e.Has "segments" v ∧ v.IsList l ∧ List.Forall₂ (RawSegmentJson root) l r.segments ∧
    checkNames [] (r.segments.map RawSegment.uid) = .ok ()
  controls : ∃ l, ((∃ v, e.Has "controls" v ∧ v.IsList l) ∨ (e.Lacks "controls" ∧ l = [])) ∧
    List.Forall₂ (fun e c => ∃ c0, ControlJson E e c0 ∧ loadControl r.symmetry c0 = .ok c) l r.controls ∧
    checkNames [] (r.controls.map FileControl.uid) = .ok ()

theorem readWing_ok {E : JsonEnv} {root : String} (seen : List String) (e : Json) (r : RawWing) :
    readWing E root seen e = .ok r ↔ RawWingJson E root e r ∧ r.uid ≠ "" ∧ r.uid ∉ seen := by
  have hR : ∀ s a, ¬ RawSegmentJson root (.str s) a := fun s a h => has_not_str h.uid
  have hC : ∀ sym s (a : FileControl),
      ¬ (fun e c => ∃ c0, ControlJson E e c0 ∧ loadControl sym c0 = .ok c) (.str s) a :=
    fun sym s a ⟨c0, h, _⟩ => has_not_str h.uid
  unfold readWing
  simp only [except_bind_ok, jsonItem_ok, newName_ok, readSymmetry_ok, get_ok, readSegments_ok, readControls_ok,
    Except.ok.injEq]
  constructor
  · rintro ⟨_, h1, uid, ⟨rfl, n1, n2⟩, y, h2, sym, h2', v, h3, l, h3', rs, ⟨h4, h5⟩, c, h6, m, h6', cs,
      ⟨h7, h8⟩, rfl⟩
    refine ⟨⟨h1, ⟨y, h2, h2'⟩, ⟨v, l, h3, (elements_ok (forall₂_not_str hR h4)).1 h3', h4, h5⟩,
      ⟨m, ?_, h7, h8⟩⟩, n1, n2⟩
    rcases h6 with h6 | ⟨h6, rfl⟩
    · exact .inl ⟨c, h6, (elements_ok (forall₂_not_str (hC sym) h7)).1 h6'⟩
    · simp only [Json.elements, Except.ok.injEq] at h6'
      exact .inr ⟨h6, h6'.symm⟩
  · rintro ⟨⟨h1, ⟨y, h2, h2'⟩, ⟨v, l, h3, h3', h4, h5⟩, ⟨m, hm, h7, h8⟩⟩, n1, n2⟩
    have hv := (elements_ok (forall₂_not_str hR h4)).2 h3'
    rcases hm with ⟨c, hc, hc'⟩ | ⟨hc, rfl⟩
    · have hm' := (elements_ok (forall₂_not_str (hC r.symmetry) h7)).2 hc'
      exact ⟨_, h1, _, ⟨rfl, n1, n2⟩, y, h2, _, h2', v, h3, l, hv, _, ⟨h4, h5⟩, c, .inl hc, m, hm', _, ⟨h7, h8⟩,
        rfl⟩
    · exact ⟨_, h1, _, ⟨rfl, n1, n2⟩, y, h2, _, h2', v, h3, l, hv, _, ⟨h4, h5⟩, .arr [], .inr ⟨hc, rfl⟩, [], rfl,
        _, ⟨h7, h8⟩, rfl⟩

theorem placed {gs : List (FileSegment × GenSegment)} {ps : List (ℝ × ℝ)} :
    ((gs.map bareSegment).zip ps).map (fun x => { x.1 with position := x.2 }) =
      (gs.zip ps).map LoadedSegment.of := by
  induction gs generalizing ps with
  | nil => rfl
  | cons g gs ih =>
    cases ps with
    | nil => rfl
    | cons p ps => simp only [List.map_cons, List.zip_cons_cons, ih]; rfl

theorem wing_forward {E : JsonEnv} {root : String} {airfoilOk : String → Bool} {e : Json} {r : RawWing}
    {lw : LoadedWing} (h : RawWingJson E root e r) (hg : generateRawWing E airfoilOk r = .ok lw) :
    ∃ w lw', WingJson E e w ∧ loadWing root airfoilOk w = .ok lw' ∧ r.uid = w.uid ∧ lw = lw' := by
  obtain ⟨h1, ⟨y, h2, h2', h2''⟩, ⟨v, l, h3, h3', h4, h5⟩, ⟨m, hm, h7, h8⟩⟩ := h
  unfold generateRawWing at hg
  simp only [except_bind_ok, Except.ok.injEq] at hg
  obtain ⟨gs, hgs, ps, hps, rfl⟩ := hg
  obtain ⟨ss, xs, k1, k2, k3, k4⟩ := pipe (p := RawSegment.uid) (q := FileSegment.uid) (a := id)
    (b := bareSegment) (fun hA hF => segment_forward hA hF) h4 (mapE_ok hgs)
  rw [List.map_id] at k4
  subst k4
  obtain ⟨c0s, c1, c2⟩ := controls_iff.1 h7
  refine ⟨⟨r.uid, r.symmetry, ss, c0s⟩, _, ⟨h1, ⟨y, h2, h2'⟩, ⟨v, l, h3, h3', k1⟩, ?_⟩, ?_, rfl, rfl⟩
  · rcases hm with ⟨c, hc, hc'⟩ | ⟨hc, rfl⟩
    · exact .inl ⟨c, m, hc, hc', c1⟩
    · cases c1
      exact .inr ⟨hc, rfl⟩
  · rw [loadWing_ok]
    refine ⟨h2'', k3 ▸ h5, ?_, r.controls, xs, ps, c2, mapE_ok_iff.2 k2, ?_, ?_⟩
    · have := loadControls_uid c2
      simp only [this]
      exact h8
    · rw [← hps, List.map_map]
      rfl
    · rw [placed]

theorem wing_backward {E : JsonEnv} {root : String} {airfoilOk : String → Bool} {e : Json} {w : FileWing}
    {lw : LoadedWing} (h : WingJson E e w) (hw : loadWing root airfoilOk w = .ok lw) :
    ∃ r lw', RawWingJson E root e r ∧ generateRawWing E airfoilOk r = .ok lw' ∧ w.uid = r.uid ∧ lw = lw' := by
  obtain ⟨h1, ⟨y, h2, h2'⟩, ⟨v, l, h3, h3', h4⟩, hc⟩ := h
  obtain ⟨w1, w2, w3, cs, gs, ps, w4, w5, w6, rfl⟩ := loadWing_ok.1 hw
  obtain ⟨rs, xs, k1, k2, k3, k4⟩ := pipe (p := FileSegment.uid) (q := RawSegment.uid) (a := bareSegment)
    (b := id) (fun hA hF => segment_backward (root := root) (airfoilOk := airfoilOk) hA hF) h4 (mapE_ok w5)
  rw [List.map_id] at k4
  subst k4
  refine ⟨⟨w.uid, w.symmetry, rs, cs⟩, _, ⟨h1, ⟨y, h2, h2', w1⟩, ⟨v, l, h3, h3', k1, k3 ▸ w2⟩, ?_⟩, ?_, rfl, rfl⟩
  · have hn : checkNames [] (cs.map FileControl.uid) = .ok () := by
      have := loadControls_uid w4
      rw [← this]
      exact w3
    rcases hc with ⟨c, m, hc, hc', hf⟩ | ⟨hc, hnil⟩
    · exact ⟨m, .inl ⟨c, hc, hc'⟩, controls_iff.2 ⟨_, hf, w4⟩, hn⟩
    · rw [hnil] at w4
      simp only [mapE, Except.ok.injEq] at w4
      subst w4
      exact ⟨[], .inr ⟨hc, rfl⟩, .nil, hn⟩
  · unfold generateRawWing
    simp only [except_bind_ok, Except.ok.injEq]
    refine ⟨_, mapE_ok_iff.2 k2, ps, ?_, ?_⟩
    · rw [← w6, List.map_map]
      rfl
    · rw [placed]

theorem jsonFloat_ok {E : JsonEnv} {v : Json} {x : ℝ} : toFloat E v = .ok x ↔ IsFloatable E v x := by
  unfold IsFloatable IsDecimal
  cases v with
  | bool b => cases b <;> simp [toFloat] <;> exact eq_comm
  | int z => simp [toFloat]; exact eq_comm
  | str s =>
    simp only [toFloat, reduceCtorEq, false_and, exists_false, false_or, Json.str.injEq]
    cases h : E.parseFloat s with
    | none => simp only [reduceCtorEq, false_iff]; rintro ⟨_, rfl, h'⟩; rw [h] at h'; cases h'
    | some q =>
      simp only [Except.ok.injEq]
      constructor
      · rintro rfl; exact ⟨s, rfl, h⟩
      · rintro ⟨_, rfl, h'⟩; rw [h] at h'; cases h'; rfl
  | _ => simp [toFloat]

theorem value_floatable {E : JsonEnv} {d : JDict} {key : String} {x : ℝ} :
    IsFloatable E (d.value key) x ↔ ∃ v, d.lookup key = some v ∧ IsFloatable E v x := by
  unfold JDict.value
  cases d.lookup key with
  | none => simp [IsFloatable, IsDecimal]
  | some v => simp

theorem checkComment_ok {E : JsonEnv} {d : JDict} {c : Option String} :
    checkComment E (d.value "comment") = .ok c ↔ GivenAt (fun v s => v = .str s) d "comment" c := by
  unfold GivenAt JDict.value
  cases d.lookup "comment" with
  | none => simp [checkComment, eq_comm]
  | some v => cases v <;> simp [checkComment, eq_comm]

theorem center_ok {E : JsonEnv} {d : JDict} {key : String} {p : V3 ℝ} :
    (∃ l, (d.value key).elements = .ok l ∧ reqField E (xyzOf E) [(key, .arr l)] key = .ok p) ↔
      ∃ v, d.lookup key = some v ∧ IsPoint E v p := by
  have h1 : ∀ l, reqField E (xyzOf E) [(key, .arr l)] key = .ok p ↔ IsPoint E (.arr l) p := by
    intro l
    rw [reqField_ok (xyzOf_iff E) rfl]
    simp [List.lookup]
  simp only [h1]
  unfold JDict.value
  cases d.lookup key with
  | none => simp [Json.elements]
  | some v =>
    simp only [Option.getD_some, Option.some.injEq, exists_eq_left']
    have hs : ∀ l, IsPoint E (.arr l) p → ∀ e ∈ l, ∀ s, e ≠ Json.str s := by
      rintro l ⟨x, y, z, hl, a, b, c⟩ e he s rfl
      cases hl
      have : ∀ r, ¬ IsNumber E (.str s) r := by simp [IsNumber, IsDecimal]
      simp only [List.mem_cons, List.not_mem_nil, or_false] at he
      rcases he with rfl | rfl | rfl
      · exact this _ a
      · exact this _ b
      · exact this _ c
    constructor
    · rintro ⟨l, hl, hp⟩
      rcases (elements_ok (hs l hp)).1 hl with rfl | ⟨rfl, -⟩
      · exact hp
      · obtain ⟨x, y, z, h, -⟩ := hp
        cases h
    · intro hp
      obtain ⟨x, y, z, rfl, hq⟩ := id hp
      exact ⟨_, rfl, hp⟩

theorem generateRefs_ok {E : JsonEnv} {d : JDict} {r : AcRefs} : generateRefs E d = .ok r ↔
    (∃ v, d.lookup "area" = some v ∧ IsFloatable E v r.area) ∧
    (∃ v, d.lookup "chord" = some v ∧ IsFloatable E v r.chord) ∧
    (∃ v, d.lookup "span" = some v ∧ IsFloatable E v r.span) ∧
    (∃ v, d.lookup "gcenter" = some v ∧ IsPoint E v r.gcenter) ∧
    (∃ v, d.lookup "rcenter" = some v ∧ IsPoint E v r.rcenter) ∧
    GivenAt (fun v s => v = .str s) d "comment" r.comment ∧
    KnownKeys E ["gcenter", "rcenter", "area", "chord", "span", "comment"] d ∧
    0 < r.area ∧ 0 < r.span ∧ 0 < r.chord := by
  unfold generateRefs
  simp only [except_bind_ok, jsonFloat_ok, value_floatable]
  constructor
  · rintro ⟨a, ha, c, hc, s, hs, gl, hgl, rl, hrl, g, hg, r', hr', h⟩
    split_ifs at h with hpos
    simp only [except_bind_ok, checkComment_ok, checkKeys_ok, Except.ok.injEq] at h
    obtain ⟨cm, hcm, -, hk, rfl⟩ := h
    exact ⟨ha, hc, hs, center_ok.1 ⟨gl, hgl, hg⟩, center_ok.1 ⟨rl, hrl, hr'⟩, hcm, hk, hpos⟩
  · rintro ⟨ha, hc, hs, hg, hr, hcm, hk, hpos⟩
    obtain ⟨gl, hgl, hg⟩ := center_ok.2 hg
    obtain ⟨rl, hrl, hr⟩ := center_ok.2 hr
    refine ⟨_, ha, _, hc, _, hs, gl, hgl, rl, hrl, _, hg, _, hr, ?_⟩
    rw [if_neg (not_not.2 hpos)]
    simp only [except_bind_ok, checkComment_ok, checkKeys_ok, Except.ok.injEq]
    exact ⟨_, hcm, (), hk, rfl⟩

theorem loadAircraft_ok {root : String} {airfoilOk : String → Bool} {f : FileAircraft} {ac : LoadedAircraft} :
    loadAircraft root airfoilOk f = .ok ac ↔ checkNames [] (f.wings.map (·.uid)) = .ok () ∧
      (0 < f.refs.area ∧ 0 < f.refs.span ∧ 0 < f.refs.chord) ∧
      ∃ ws, mapE (loadWing root airfoilOk) f.wings = .ok ws ∧ ac = ⟨f.uid, f.refs, ws⟩ := by
  unfold loadAircraft
  cases h1 : checkNames [] (f.wings.map (·.uid)) with
  | error e => simp
  | ok u =>
    simp only []
    by_cases hp : 0 < f.refs.area ∧ 0 < f.refs.span ∧ 0 < f.refs.chord
    · rw [if_neg (not_not.2 hp)]
      cases mapE (loadWing root airfoilOk) f.wings with
      | error e => simp
      | ok ws => simp [hp, eq_comm]
    · rw [if_pos hp]
      simp [hp]

theorem readName_ok {v : Json} {s : String} : readName v = .ok s ↔ v = .str s := by
  cases v <;> simp [readName]

/-! ## The property -/

/-- **C130.** JSON data are loaded exactly if they describe an aircraft file that is accepted (C92), and
the aircraft is the one of this file.  This holds for the code as it runs, value after value, with all its
checks of types. -/
theorem C130_loaded_iff (E : JsonEnv) (root : String) (airfoilOk : String → Bool) (j : Json)
    (ac : LoadedAircraft) :
    loadJson E root airfoilOk j = .ok ac ↔
      ∃ f, AircraftJson E j f ∧ loadAircraft root airfoilOk f = .ok ac := by
  have hW : ∀ s a, ¬ RawWingJson E root (.str s) a := fun s a h => has_not_str h.uid
  have hall : ∀ {l : List Json} {rs : List RawWing}, makeEach (readWing E root) RawWing.uid [] l = .ok rs ↔
      List.Forall₂ (RawWingJson E root) l rs ∧ checkNames [] (rs.map RawWing.uid) = .ok () :=
    makeEach_ok readWing_ok
  unfold loadJson
  simp only [except_bind_ok, jsonItem_ok, items_ok, readName_ok, hall, generateRefs_ok, Except.ok.injEq]
  constructor
  · rintro ⟨_, h1, uid, rfl, _, h2, d, rfl, v, h3, l, h3', rs, ⟨h4, h5⟩, refs, hr, ws, hws, rfl⟩
    obtain ⟨fs, xs, k1, k2, k3, k4⟩ := pipe (p := RawWing.uid) (q := FileWing.uid) (a := id)
      (b := id) (fun hA hF => wing_forward (airfoilOk := airfoilOk) hA hF) h4 (mapE_ok hws)
    rw [List.map_id, List.map_id] at k4
    subst k4
    obtain ⟨r1, r2, r3, r4, r5, r6, r7, hpos⟩ := hr
    refine ⟨⟨uid, refs, fs⟩, ⟨h1, ⟨d, h2, r1, r2, r3, r4, r5, r6, r7⟩,
      ⟨v, l, h3, (elements_ok (forall₂_not_str hW h4)).1 h3', k1⟩⟩, ?_⟩
    exact loadAircraft_ok.2 ⟨k3 ▸ h5, hpos, ws, mapE_ok_iff.2 k2, rfl⟩
  · rintro ⟨f, ⟨h1, ⟨d, h2, r1, r2, r3, r4, r5, r6, r7⟩, ⟨v, l, h3, h3', h4⟩⟩, hf⟩
    obtain ⟨f1, hpos, ws, f2, rfl⟩ := loadAircraft_ok.1 hf
    obtain ⟨rs, xs, k1, k2, k3, k4⟩ := pipe (p := FileWing.uid) (q := RawWing.uid) (a := id) (b := id)
      (fun hA hF => wing_backward (root := root) (airfoilOk := airfoilOk) hA hF) h4 (mapE_ok f2)
    rw [List.map_id, List.map_id] at k4
    subst k4
    exact ⟨_, h1, f.uid, rfl, _, h2, d, rfl, v, h3, l, (elements_ok (forall₂_not_str hW k1)).2 h3', rs,
      ⟨k1, k3 ▸ f1⟩, f.refs, ⟨r1, r2, r3, r4, r5, r6, r7, hpos⟩, ws, mapE_ok_iff.2 k2, rfl⟩

end Verif
