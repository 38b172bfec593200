import Verif.Props.AircraftJson

/-!
# Properties C131 and C132: faulty and superfluous entries in an aircraft file
-/

namespace Verif

/-! ## Specification -/

/-- The object without a key. -/
def Json.without : Json → String → Json
  | .obj d, key => .obj (d.filter fun e => e.1 ≠ key)
  | j, _ => j

/-- The object with another value for a key. -/
def Json.put : Json → String → Json → Json
  | .obj d, key, v => .obj ((key, v) :: d.filter fun e => e.1 ≠ key)
  | j, _, _ => j

/-- Not an object. -/
def Json.NotObj (v : Json) : Prop := ∀ d, v ≠ .obj d

/-- Faults in the name of an entry which has some entries before it. -/
inductive NameFault (before : List Json) (e : Json) : Json → PyErr → Prop
  /-- no name -/
  | empty {v : Json} : v.Empty → NameFault before e (e.put "uid" v) .componentDefinition
  /-- the name of an entry before -/
  | repeated {n : String} {e' : Json} : n ≠ "" → e' ∈ before → e'.Has "uid" (.str n) →
      NameFault before e (e.put "uid" (.str n)) .valueError
  /-- something else than a string -/
  | notString {v : Json} : ¬ v.Empty → (∀ n, v ≠ .str n) → NameFault before e (e.put "uid" v) .typeError

/-- Faults in the entry of a segment and their exceptions. -/
inductive SegmentFault (before : List Json) (e : Json) : Json → PyErr → Prop
  | name {e' : Json} {x : PyErr} : NameFault before e e' x → SegmentFault before e e' x
  | missing {key : String} : key ∈ ["uid", "vertices", "airfoils"] →
      SegmentFault before e (e.without key) .keyError
  | notGroup {key : String} {v : Json} : key ∈ ["vertices", "airfoils"] → v.NotObj →
      SegmentFault before e (e.put key v) .attributeError

/-- An angle that cannot be used, and its exception. -/
inductive AngleFault : Json → PyErr → Prop
  | null : AngleFault .null .componentDefinition
  | text {s : String} : AngleFault (.str s) .typeError
  | list {l : List Json} : AngleFault (.arr l) .typeError
  | object {d : JDict} : AngleFault (.obj d) .typeError
  | whole {z : ℤ} : z < -90 ∨ 90 < z → AngleFault (.int z) .valueError
  | decimal {q : ℝ} : q < -90 ∨ 90 < q → AngleFault (.num q) .valueError

/-- Faults in the entry of a control and their exceptions. -/
inductive ControlFault (before : List Json) (e : Json) : Json → PyErr → Prop
  | name {e' : Json} {x : PyErr} : NameFault before e e' x → ControlFault before e e' x
  | missing {key : String} : key ∈ ["uid", "device_type", "deflection", "segment_uid", "rel_vertices",
      "rel_hinge_vertices", "panels"] → ControlFault before e (e.without key) .keyError
  | notGroup {key : String} {v : Json} : key ∈ ["segment_uid", "rel_vertices", "rel_hinge_vertices"] →
      v.NotObj → ControlFault before e (e.put key v) .attributeError
  | noNumber {p : Json} : e.Has "panels" p → ControlFault before e (e.put "panels" (p.without "num_c")) .keyError
  | noType {v : Json} : (∀ t, v ≠ .str t) → ControlFault before e (e.put "device_type" v) .typeError
  | wrongType {t : String} : t ≠ "slat" → t ≠ "flap" →
      ControlFault before e (e.put "device_type" (.str t)) .valueError
  | deflection {v : Json} {x : PyErr} : AngleFault v x → ControlFault before e (e.put "deflection" v) x

/-- Faults in the entry of a wing and their exceptions. -/
inductive WingFault (before : List Json) (e : Json) : Json → PyErr → Prop
  | name {e' : Json} {x : PyErr} : NameFault before e e' x → WingFault before e e' x
  | missing {key : String} : key ∈ ["uid", "symmetry", "segments"] → WingFault before e (e.without key) .keyError
  | symmetry {v : Json} : (∀ n, n ≤ 3 → ¬ IsSymmetry v n) → WingFault before e (e.put "symmetry" v) .valueError
  | segment {l r : List Json} {s s' : Json} {x : PyErr} : e.Has "segments" (.arr (l ++ s :: r)) →
      SegmentFault l s s' x → WingFault before e (e.put "segments" (.arr (l ++ s' :: r))) x
  | control {l r : List Json} {c c' : Json} {x : PyErr} : e.Has "controls" (.arr (l ++ c :: r)) →
      ControlFault l c c' x → WingFault before e (e.put "controls" (.arr (l ++ c' :: r))) x

/-- A file with one fault, and the exception. -/
inductive FileFault (j : Json) : Json → PyErr → Prop
  | missing {key : String} : key ∈ ["uid", "refs", "wings"] → FileFault j (j.without key) .keyError
  | name {v : Json} : (∀ n, v ≠ .str n) → FileFault j (j.put "uid" v) .typeError
  | refs {v : Json} : v.NotObj → FileFault j (j.put "refs" v) .attributeError
  | ref {d : JDict} {key : String} : j.Has "refs" (.obj d) →
      key ∈ ["area", "chord", "span", "gcenter", "rcenter"] →
      FileFault j (j.put "refs" ((Json.obj d).without key)) .typeError
  | wing {l r : List Json} {e e' : Json} {x : PyErr} : j.Has "wings" (.arr (l ++ e :: r)) →
      WingFault l e e' x → FileFault j (j.put "wings" (.arr (l ++ e' :: r))) x

/-- A segment or control with an entry under a key that is not in use. -/
inductive ExtraIn (used : List String) (e : Json) : Json → Prop
  | add {key : String} {v : Json} : key ∉ used → ExtraIn used e (e.put key v)

/-- A wing with one entry under a key that is not in use. -/
inductive WingExtra (e : Json) : Json → Prop
  | here {e' : Json} : ExtraIn ["uid", "symmetry", "segments", "controls"] e e' → WingExtra e e'
  | segment {l r : List Json} {s s' : Json} : e.Has "segments" (.arr (l ++ s :: r)) →
      ExtraIn ["uid", "vertices", "geometry", "airfoils", "panels"] s s' →
      WingExtra e (e.put "segments" (.arr (l ++ s' :: r)))
  | control {l r : List Json} {c c' : Json} : e.Has "controls" (.arr (l ++ c :: r)) →
      ExtraIn ["uid", "device_type", "deflection", "deflection_mirror", "segment_uid", "rel_vertices",
        "rel_hinge_vertices", "panels"] c c' →
      WingExtra e (e.put "controls" (.arr (l ++ c' :: r)))

/-- A file with one entry under a key that is not in use. -/
inductive FileExtra (j : Json) : Json → Prop
  | here {j' : Json} : ExtraIn ["uid", "refs", "wings"] j j' → FileExtra j j'
  | wing {l r : List Json} {e e' : Json} : j.Has "wings" (.arr (l ++ e :: r)) → WingExtra e e' →
      FileExtra j (j.put "wings" (.arr (l ++ e' :: r)))

/-! ## Lemmas -/

theorem lookup_filter {d : JDict} {key k : String} :
    (d.filter fun e => e.1 ≠ key).lookup k = if k = key then none else d.lookup k := by
  induction d with
  | nil => simp
  | cons e rest ih =>
    obtain ⟨n, v⟩ := e
    by_cases hn : n = key
    · subst hn
      rw [List.filter_cons_of_neg (by simp), ih]
      split_ifs with h
      · rfl
      · rw [List.lookup_cons, (by simpa using h : (k == n) = false)]
    · rw [List.filter_cons_of_pos (by simpa using hn), List.lookup_cons, List.lookup_cons, ih]
      cases hk : k == n with
      | false => rfl
      | true =>
        have : k = n := by simpa using hk
        subst this
        simp [hn]

theorem item_without {j : Json} {key k : String} (hj : ∃ d, j = .obj d) :
    (j.without key).item k = if k = key then .error .keyError else j.item k := by
  obtain ⟨d, rfl⟩ := hj
  simp only [Json.without, Json.item, lookup_filter]
  split_ifs <;> rfl

theorem get_without {j : Json} {key k : String} {v : Json} (hj : ∃ d, j = .obj d) (h : k ≠ key) :
    (j.without key).get k v = j.get k v := by
  obtain ⟨d, rfl⟩ := hj
  simp only [Json.without, Json.get, lookup_filter, if_neg h]

theorem item_put {j : Json} {key k : String} {v : Json} (hj : ∃ d, j = .obj d) :
    (j.put key v).item k = if k = key then .ok v else j.item k := by
  obtain ⟨d, rfl⟩ := hj
  simp only [Json.put, Json.item, List.lookup_cons, lookup_filter]
  by_cases h : k = key
  · subst h; simp
  · rw [(by simpa using h : (k == key) = false)]; simp [h]

theorem get_put {j : Json} {key k : String} {v w : Json} (hj : ∃ d, j = .obj d) :
    (j.put key v).get k w = if k = key then .ok v else j.get k w := by
  obtain ⟨d, rfl⟩ := hj
  simp only [Json.put, Json.get, List.lookup_cons, lookup_filter]
  by_cases h : k = key
  · subst h; simp
  · rw [(by simpa using h : (k == key) = false)]; simp [h]

theorem ok_bind {α β : Type} {a : α} {f : α → Except PyErr β} : (Except.ok a >>= f) = f a := rfl
theorem error_bind {α β : Type} {x : PyErr} {f : α → Except PyErr β} :
    ((Except.error x : Except PyErr α) >>= f) = .error x := rfl

theorem item_obj {j : Json} {key : String} {v : Json} (h : j.item key = .ok v) : ∃ d, j = .obj d := by
  obtain ⟨d, h, -⟩ := jsonItem_ok.1 h
  exact ⟨d, h⟩

theorem has_obj {j : Json} {key : String} {v : Json} (h : j.Has key v) : ∃ d, j = .obj d := by
  obtain ⟨d, h, -⟩ := h
  exact ⟨d, h⟩

theorem newName_empty {seen : List String} {v : Json} (h : v.Empty) :
    newName seen v = .error .componentDefinition := by
  unfold newName
  rw [truthy_false.2 h]
  rfl

theorem newName_repeated {seen : List String} {n : String} (h : n ≠ "") (hn : n ∈ seen) :
    newName seen (.str n) = .error .valueError := by
  unfold newName
  simp [Json.truthy, h, hn]

theorem newName_notString {seen : List String} {v : Json} (h : ¬ v.Empty) (hs : ∀ n, v ≠ .str n) :
    newName seen v = .error .typeError := by
  unfold newName
  have ht : v.truthy = true := by
    cases hv : v.truthy
    · exact absurd (truthy_false.1 hv) h
    · rfl
  rw [ht]
  cases v <;> first | rfl | exact absurd rfl (hs _)

theorem has_unique {j : Json} {key : String} {v w : Json} (h : j.Has key v) (h' : j.Has key w) : v = w := by
  obtain ⟨d, rfl, hv⟩ := h
  obtain ⟨d', hd, hw⟩ := h'
  cases hd
  rw [hv] at hw
  exact Option.some.inj hw

/-- A loop meets an entry. -/
theorem makeEach_split {α : Type} {make : List String → Json → Except PyErr α} {uid : α → String}
    (hm : ∀ {seen e a}, make seen e = .ok a → e.Has "uid" (.str (uid a)))
    {e : Json} {r : List Json} {l : List Json} {seen : List String} {as : List α}
    (h : makeEach make uid seen (l ++ e :: r) = .ok as) :
    ∃ seen' a, make seen' e = .ok a ∧ seen ⊆ seen' ∧
      (∀ n e', e' ∈ l → e'.Has "uid" (.str n) → n ∈ seen') ∧
      ∀ e' x, make seen' e' = .error x → makeEach make uid seen (l ++ e' :: r) = .error x := by
  induction l generalizing seen as with
  | nil =>
    simp only [List.nil_append, makeEach, except_bind_ok] at h
    obtain ⟨a, ha, -⟩ := h
    refine ⟨seen, a, ha, fun _ h => h, by simp, ?_⟩
    intro e' x hx
    simp only [List.nil_append, makeEach, hx, error_bind]
  | cons e0 l ih =>
    simp only [List.cons_append, makeEach, except_bind_ok, Except.ok.injEq] at h
    obtain ⟨a, ha, as', has, rfl⟩ := h
    obtain ⟨seen', b, hb, hs, hn, hx⟩ := ih has
    refine ⟨seen', b, hb, fun n hn => hs (List.mem_cons_of_mem _ hn), ?_, ?_⟩
    · intro n e' he' hu
      rcases List.mem_cons.1 he' with rfl | he'
      · have := has_unique hu (hm ha)
        cases this
        exact hs List.mem_cons_self
      · exact hn n e' he' hu
    · intro e' x h'
      simp only [List.cons_append, makeEach, ha, ok_bind, hx e' x h', error_bind]

theorem makeEach_congr {α : Type} {make : List String → Json → Except PyErr α} {uid : α → String}
    {e e' : Json} (h : ∀ seen, make seen e' = make seen e) (r l : List Json) (seen : List String) :
    makeEach make uid seen (l ++ e' :: r) = makeEach make uid seen (l ++ e :: r) := by
  induction l generalizing seen with
  | nil => simp only [List.nil_append, makeEach, h]
  | cons e0 l ih => simp only [List.cons_append, makeEach, ih]

theorem nameFault_item {seen : List String} {l : List Json} {e e' : Json} {x : PyErr}
    (h : NameFault l e e' x) (he : ∃ d, e = .obj d)
    (hn : ∀ n e', e' ∈ l → e'.Has "uid" (.str n) → n ∈ seen) :
    ∃ v, e'.item "uid" = .ok v ∧ newName seen v = .error x := by
  cases h with
  | empty hv => exact ⟨_, by rw [item_put he, if_pos rfl], newName_empty hv⟩
  | repeated h0 hm hu => exact ⟨_, by rw [item_put he, if_pos rfl], newName_repeated h0 (hn _ _ hm hu)⟩
  | notString h1 h2 => exact ⟨_, by rw [item_put he, if_pos rfl], newName_notString h1 h2⟩

theorem items_notObj {v : Json} (h : v.NotObj) : v.items = .error .attributeError := by
  cases v <;> first | rfl | exact absurd rfl (h _)

theorem readSegment_fault {root : String} {seen : List String} {l : List Json} {s s' : Json} {r : RawSegment}
    {x : PyErr} (h : readSegment root seen s = .ok r) (hf : SegmentFault l s s' x)
    (hn : ∀ n e', e' ∈ l → e'.Has "uid" (.str n) → n ∈ seen) : readSegment root seen s' = .error x := by
  unfold readSegment at h
  simp only [except_bind_ok] at h
  obtain ⟨u, h1, uid, h2, v, h3, dv, h4, g, h5, a, h6, as, h7, bs, h8, p, h9, -⟩ := h
  have ho := item_obj h1
  cases hf with
  | name hf =>
    obtain ⟨w, h1', h2'⟩ := nameFault_item hf ho hn
    simp only [readSegment, h1', h2', ok_bind, error_bind]
  | missing hk =>
    simp only [List.mem_cons, List.not_mem_nil, or_false] at hk
    rcases hk with rfl | rfl | rfl
    · simp only [readSegment, item_without ho, if_true, error_bind]
    · simp only [readSegment, item_without ho, if_true, error_bind, String.reduceEq, if_false, h1, h2, ok_bind]
    · have h5' : readGroup (s.without "airfoils") "geometry" = .ok g := by
        rw [← h5]; unfold readGroup; rw [get_without ho (by decide)]
      simp only [readSegment, item_without ho, if_true, error_bind, String.reduceEq, if_false, h1, h2, h3, h4, h5',
        ok_bind]
  | notGroup hk hv =>
    simp only [List.mem_cons, List.not_mem_nil, or_false] at hk
    rcases hk with rfl | rfl
    · simp only [readSegment, item_put ho, if_true, error_bind, String.reduceEq, if_false, h1, h2, ok_bind,
        items_notObj hv]
    · have h5' : ∀ w, readGroup (s.put "airfoils" w) "geometry" = .ok g := by
        intro w; rw [← h5]; unfold readGroup; rw [get_put ho, if_neg (by decide)]
      simp only [readSegment, item_put ho, if_true, error_bind, String.reduceEq, if_false, h1, h2, h3, h4, h5',
        ok_bind, items_notObj hv]

theorem readDeviceType_notString {v : Json} (h : ∀ t, v ≠ .str t) : readDeviceType v = .error .typeError := by
  cases v <;> first | rfl | exact absurd rfl (h _)

theorem check_deflection {c x : ControlDef ℝ} {sym : ℕ} {v : Json} {err : PyErr} (h : c.check sym = .ok x)
    (hv : AngleFault v err) : ControlDef.check { c with deflection := jsonVal v } sym = .error err := by
  unfold ControlDef.check at h ⊢
  split at h
  · cases h
  rename_i h1
  rw [if_neg h1]
  split at h
  · cases h
  rename_i h2
  rw [if_neg h2]
  split at h
  · cases h
  rename_i h3
  rw [if_neg h3]
  have key : ∀ y : ℝ, y < -90 ∨ 90 < y → checkDeflection (Val.num (.fin y)) = .error .valueError := by
    intro y hy
    have : (Val.num (.fin y)).within90 = false := by
      simp only [Val.within90, Bool.and_eq_false_iff, decide_eq_false_iff_not, not_le]
      exact hy
    simp [checkDeflection, Val.isNum, this]
  cases hv with
  | null => simp [jsonVal]
  | text => simp [jsonVal, checkDeflection, Val.isNum]
  | list => simp [jsonVal, checkDeflection, Val.isNum]
  | object => simp [jsonVal, checkDeflection, Val.isNum]
  | whole hz =>
    rw [if_neg (by simp [jsonVal])]
    simp only [jsonVal]
    rw [key _ (by exact_mod_cast hz)]
  | decimal hq =>
    rw [if_neg (by simp [jsonVal])]
    simp only [jsonVal]
    rw [key _ hq]

theorem readControl_fault {E : JsonEnv} {sym : ℕ} {seen : List String} {l : List Json} {e e' : Json}
    {c : FileControl} {x : PyErr} (h : readControl E sym seen e = .ok c) (hf : ControlFault l e e' x)
    (hn : ∀ n e', e' ∈ l → e'.Has "uid" (.str n) → n ∈ seen) : readControl E sym seen e' = .error x := by
  unfold readControl at h
  simp only [except_bind_ok] at h
  obtain ⟨u, h1, uid, h2, t, h3, dt, h4, df, h5, mi, h6, sg, h7, sg', h8, rl, h9, rl', h10, hg, h11, hg', h12, p,
    h13, nc, h14, cc, h15, d, h16, -⟩ := h
  have ho := item_obj h1
  cases hf with
  | name hf =>
    obtain ⟨w, h1', h2'⟩ := nameFault_item hf ho hn
    simp only [readControl, h1', h2', ok_bind, error_bind]
  | missing hk =>
    simp only [List.mem_cons, List.not_mem_nil, or_false] at hk
    rcases hk with rfl | rfl | rfl | rfl | rfl | rfl | rfl <;>
      simp only [readControl, item_without ho, if_true, error_bind, String.reduceEq, if_false, h1, h2, h3, h4, h5,
        h6, h7, h8, h9, h10, h11, h12, ok_bind, get_without ho (by decide : "deflection_mirror" ≠ "segment_uid"),
        get_without ho (by decide : "deflection_mirror" ≠ "rel_vertices"),
        get_without ho (by decide : "deflection_mirror" ≠ "rel_hinge_vertices"),
        get_without ho (by decide : "deflection_mirror" ≠ "panels")]
  | notGroup hk hv =>
    simp only [List.mem_cons, List.not_mem_nil, or_false] at hk
    rcases hk with rfl | rfl | rfl <;>
      simp only [readControl, item_put ho, get_put ho, if_true, error_bind, String.reduceEq, if_false, h1, h2, h3,
        h4, h5, h6, h7, h8, h9, h10, h11, h12, ok_bind, items_notObj hv]
  | noNumber hp =>
    have hpo := item_obj h14
    have := has_unique hp (jsonItem_ok.1 h13)
    subst this
    simp only [readControl, item_put ho, get_put ho, if_true, error_bind, String.reduceEq, if_false, h1, h2, h3,
      h4, h5, h6, h7, h8, h9, h10, h11, h12, ok_bind, item_without hpo]
  | noType hv =>
    simp only [readControl, item_put ho, if_true, error_bind, String.reduceEq, if_false, h1, h2, ok_bind,
      readDeviceType_notString hv]
  | wrongType a b =>
    simp only [readControl, item_put ho, if_true, error_bind, String.reduceEq, if_false, h1, h2, ok_bind,
      readDeviceType, List.mem_cons, List.not_mem_nil, or_false, a, b, or_self, not_false_eq_true]
  | deflection hv =>
    have := check_deflection h16 hv
    simp only [readControl, item_put ho, get_put ho, if_true, String.reduceEq, if_false, h1, h2, h3,
      h4, h6, h7, h8, h9, h10, h11, h12, h13, h14, h15, ok_bind]
    simp only [] at this
    rw [this, error_bind]

theorem readSymmetry_fault {v : Json} (h : ∀ n, n ≤ 3 → ¬ IsSymmetry v n) :
    readSymmetry v = .error .valueError := by
  cases hr : readSymmetry v with
  | ok n =>
    obtain ⟨h1, h2⟩ := readSymmetry_ok.1 hr
    exact absurd h1 (h n h2)
  | error x =>
    cases v <;> simp only [readSymmetry] at hr
    case bool b => cases hr
    case int => split_ifs at hr; rw [← hr]
    case num => split_ifs at hr; rw [← hr]
    all_goals rw [← hr]

theorem readWing_fault {E : JsonEnv} {root : String} {seen : List String} {l : List Json} {e e' : Json}
    {w : RawWing} {x : PyErr} (h : readWing E root seen e = .ok w) (hf : WingFault l e e' x)
    (hn : ∀ n e', e' ∈ l → e'.Has "uid" (.str n) → n ∈ seen) : readWing E root seen e' = .error x := by
  unfold readWing at h
  simp only [except_bind_ok] at h
  obtain ⟨u, h1, uid, h2, y, h3, sym, h4, s, h5, ss, h6, rs, h7, c, h8, cs, h9, ds, h10, -⟩ := h
  have ho := item_obj h1
  cases hf with
  | name hf =>
    obtain ⟨w, h1', h2'⟩ := nameFault_item hf ho hn
    simp only [readWing, h1', h2', ok_bind, error_bind]
  | missing hk =>
    simp only [List.mem_cons, List.not_mem_nil, or_false] at hk
    rcases hk with rfl | rfl | rfl <;>
      simp only [readWing, item_without ho, if_true, error_bind, String.reduceEq, if_false, h1, h2, h3, h4, ok_bind]
  | symmetry hv =>
    simp only [readWing, item_put ho, if_true, error_bind, String.reduceEq, if_false, h1, h2, ok_bind,
      readSymmetry_fault hv]
  | segment hs hf =>
    have := has_unique hs (jsonItem_ok.1 h5)
    subst this
    simp only [Json.elements, Except.ok.injEq] at h6
    subst h6
    obtain ⟨seen', a, ha, -, hm, hx⟩ := makeEach_split
      (fun h => ((readSegment_ok _ _ _).1 h).1.uid) h7
    have := hx _ _ (readSegment_fault ha hf hm)
    simp only [readWing, item_put ho, if_true, error_bind, String.reduceEq, if_false, h1, h2, h3, h4, ok_bind,
      Json.elements, this]
  | control hc hf =>
    rename_i l' r' b b'
    have hg := get_ok.1 h8
    have hcc : c = .arr (l' ++ b :: r') := by
      rcases hg with hg | ⟨hg, -⟩
      · exact has_unique hg hc
      · obtain ⟨d, rfl, hd⟩ := hg
        obtain ⟨d', hd', hl⟩ := hc
        cases hd'
        rw [hd] at hl; cases hl
    subst hcc
    simp only [Json.elements, Except.ok.injEq] at h9
    subst h9
    obtain ⟨seen', a, ha, -, hm, hx⟩ := makeEach_split
      (fun {seen e a} h => by
        obtain ⟨⟨c0, h0, hl⟩, -⟩ := (readControl_ok (E := E) (sym := sym) seen e a).1 h
        obtain ⟨_, _, -, -, -, rfl⟩ := loadControl_ok.1 hl
        exact h0.uid) h10
    have := hx _ _ (readControl_fault ha hf hm)
    have hel : ∀ m, (Json.arr m).elements = .ok m := fun _ => rfl
    simp only [readWing, item_put ho, get_put ho, if_true, error_bind, String.reduceEq, if_false, h1, h2, h3, h4,
      h5, h6, h7, ok_bind, hel, this]

theorem generateRefs_missing {E : JsonEnv} {d : JDict} {r : AcRefs} {key : String}
    (h : generateRefs E d = .ok r) (hk : key ∈ ["area", "chord", "span", "gcenter", "rcenter"]) :
    generateRefs E (d.filter fun e => e.1 ≠ key) = .error .typeError := by
  have hv : ∀ k, JDict.value (d.filter fun e => e.1 ≠ key) k = if k = key then .null else d.value k := by
    intro k
    unfold JDict.value
    rw [lookup_filter]
    split_ifs <;> rfl
  unfold generateRefs at h
  simp only [except_bind_ok] at h
  obtain ⟨a, h1, c, h2, s, h3, g, h4, rc, h5, -⟩ := h
  have n1 : toFloat E .null = .error .typeError := rfl
  have n2 : Json.elements .null = .error .typeError := rfl
  unfold generateRefs
  simp only [hv]
  simp only [List.mem_cons, List.not_mem_nil, or_false] at hk
  rcases hk with rfl | rfl | rfl | rfl | rfl <;>
    simp only [if_true, String.reduceEq, if_false, h1, h2, h3, h4, ok_bind, error_bind, n1, n2]

/-! ## The properties -/

/-- **C131.** One fault in a file that is accepted raises the exception that fits it: `KeyError` for a
missing entry, `ComponentDefinitionError` for an empty name, `ValueError` for a repeated one, `TypeError`
for one that is not a string, and so on for each wing, segment and control of the file. -/
theorem C131_fault (E : JsonEnv) (root : String) (airfoilOk : String → Bool) (j j' : Json)
    (ac : LoadedAircraft) (x : PyErr) (h : loadJson E root airfoilOk j = .ok ac) (hf : FileFault j j' x) :
    loadJson E root airfoilOk j' = .error x := by
  unfold loadJson at h
  simp only [except_bind_ok] at h
  obtain ⟨u, h1, uid, h2, r, h3, d, h4, w, h5, ws, h6, rs, h7, rf, h8, gs, h9, -⟩ := h
  have ho := item_obj h1
  cases hf with
  | missing hk =>
    simp only [List.mem_cons, List.not_mem_nil, or_false] at hk
    rcases hk with rfl | rfl | rfl <;>
      simp only [loadJson, item_without ho, if_true, error_bind, String.reduceEq, if_false, h1, h2, h3, h4, ok_bind]
  | name hv =>
    rename_i v
    have : readName v = .error .typeError := by cases v <;> first | rfl | exact absurd rfl (hv _)
    simp only [loadJson, item_put ho, if_true, error_bind, ok_bind, this]
  | refs hv =>
    simp only [loadJson, item_put ho, if_true, error_bind, String.reduceEq, if_false, h1, h2, ok_bind,
      items_notObj hv]
  | ref hd hk =>
    have := has_unique hd (jsonItem_ok.1 h3)
    subst this
    simp only [Json.items, Except.ok.injEq] at h4
    subst h4
    simp only [loadJson, item_put ho, if_true, error_bind, String.reduceEq, if_false, h1, h2, h5, h6, h7, ok_bind,
      Json.without, Json.items, generateRefs_missing h8 hk]
  | wing hw hf =>
    have := has_unique hw (jsonItem_ok.1 h5)
    subst this
    simp only [Json.elements, Except.ok.injEq] at h6
    subst h6
    obtain ⟨seen', a, ha, -, hm, hx⟩ := makeEach_split
      (fun h => ((readWing_ok _ _ _).1 h).1.uid) h7
    have := hx _ _ (readWing_fault ha hf hm)
    simp only [loadJson, item_put ho, if_true, error_bind, String.reduceEq, if_false, h1, h2, h3, h4, ok_bind,
      Json.elements, this]

theorem extra_item {used : List String} {e e' : Json} (h : ExtraIn used e e') (k : String) (hk : k ∈ used) :
    e'.item k = e.item k ∧ ∀ v, e'.get k v = e.get k v := by
  cases h with
  | add hn =>
    rename_i key v
    have hne : k ≠ key := fun he => hn (he ▸ hk)
    cases e with
    | obj d =>
      exact ⟨by rw [item_put ⟨d, rfl⟩, if_neg hne], fun w => by rw [get_put ⟨d, rfl⟩, if_neg hne]⟩
    | _ => exact ⟨rfl, fun _ => rfl⟩

theorem readSegment_extra {root : String} {seen : List String} {e e' : Json}
    (h : ExtraIn ["uid", "vertices", "geometry", "airfoils", "panels"] e e') :
    readSegment root seen e' = readSegment root seen e := by
  simp only [readSegment, readGroup, extra_item h "uid" (by simp), extra_item h "vertices" (by simp),
    extra_item h "geometry" (by simp), extra_item h "airfoils" (by simp), extra_item h "panels" (by simp)]

theorem readControl_extra {E : JsonEnv} {sym : ℕ} {seen : List String} {e e' : Json}
    (h : ExtraIn ["uid", "device_type", "deflection", "deflection_mirror", "segment_uid", "rel_vertices",
        "rel_hinge_vertices", "panels"] e e') :
    readControl E sym seen e' = readControl E sym seen e := by
  simp only [readControl, extra_item h "uid" (by simp), extra_item h "device_type" (by simp),
    extra_item h "deflection" (by simp), extra_item h "deflection_mirror" (by simp),
    extra_item h "segment_uid" (by simp), extra_item h "rel_vertices" (by simp),
    extra_item h "rel_hinge_vertices" (by simp), extra_item h "panels" (by simp)]

theorem readWing_extra {E : JsonEnv} {root : String} {seen : List String} {e e' : Json} (h : WingExtra e e') :
    readWing E root seen e' = readWing E root seen e := by
  cases h with
  | here h =>
    simp only [readWing, extra_item h "uid" (by simp), extra_item h "symmetry" (by simp),
      extra_item h "segments" (by simp), extra_item h "controls" (by simp)]
  | segment hs hx =>
    have ho := has_obj hs
    simp only [readWing, item_put ho, get_put ho, if_true, String.reduceEq, if_false, jsonItem_ok.2 hs, ok_bind,
      Json.elements, makeEach_congr (fun seen => readSegment_extra (root := root) (seen := seen) hx)]
  | control hc hx =>
    have ho := has_obj hc
    have hg : ∀ v, e.get "controls" v = .ok _ := fun v => get_ok.2 (.inl hc)
    simp only [readWing, item_put ho, get_put ho, if_true, String.reduceEq, if_false, hg, ok_bind,
      Json.elements, makeEach_congr (fun seen => readControl_extra (E := E) (sym := _) (seen := seen) hx)]

/-- **C132.** An entry under a key that is not in use changes nothing, at whatever place of the file:
neither the aircraft nor an exception. -/
theorem C132_extra (E : JsonEnv) (root : String) (airfoilOk : String → Bool) (j j' : Json)
    (h : FileExtra j j') : loadJson E root airfoilOk j' = loadJson E root airfoilOk j := by
  cases h with
  | here h =>
    simp only [loadJson, extra_item h "uid" (by simp), extra_item h "refs" (by simp),
      extra_item h "wings" (by simp)]
  | wing hw hx =>
    have ho := has_obj hw
    simp only [loadJson, item_put ho, if_true, String.reduceEq, if_false, jsonItem_ok.2 hw, ok_bind,
      Json.elements, makeEach_congr (fun seen => readWing_extra (E := E) (root := root) (seen := seen) hx)]

end Verif
