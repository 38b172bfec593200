import Verif.Model.Aircraft
import Verif.Lemmas.PrePanel
import Verif.Lemmas.Geometry

/-!
# Properties C51–C55, C67–C69: building the aircraft
-/

set_option linter.unusedSectionVars false

namespace Verif

/-! ## C51 -/

/-- The keys of a dictionary in order. -/
def ODict.keys {α : Type*} (d : ODict α) : List String := d.map (·.1)

/-- Keys are distinct and not empty. -/
def GoodKeys {α : Type*} (d : ODict α) : Prop := d.keys.Nodup ∧ "" ∉ d.keys

theorem has_iff {α : Type*} (d : ODict α) (s : String) : d.has s = true ↔ s ∈ d.keys := by
  simp [ODict.has, ODict.keys]

/-- What counts as an acceptable new name. -/
def NewName {α : Type*} (d : ODict α) (uid : PyVal) (s : String) : Prop :=
  uid = .str s ∧ s ≠ "" ∧ s ∉ d.keys

theorem newName_dec {α : Type*} (d : ODict α) (uid : PyVal) :
    (∃ s, NewName d uid s) ∨ uid.truthy = false ∨ (∃ e, uidSetter uid = .error e) ∨
      (∃ s, uid = .str s ∧ d.has s = true) := by
  cases uid with
  | str s =>
    by_cases h : s = ""
    · right; left; simp [PyVal.truthy, h]
    · by_cases hs : d.has s = true
      · exact Or.inr (Or.inr (Or.inr ⟨s, rfl, hs⟩))
      · exact Or.inl ⟨s, rfl, h, fun hm => hs ((has_iff d s).2 hm)⟩
  | _ => right; right; left; exact ⟨_, rfl⟩

/-- **C51.** A wing is added exactly if the name is a non-empty string that no wing bears, and it
is appended after the existing wings, which stay as they are. -/
theorem C51_add_wing (ac ac' : AircraftObj) (uid : PyVal) :
    ac.addWing uid = .ok ac' ↔
      ∃ s, NewName ac.wings uid s ∧ ac'.wings = ac.wings ++ [(s, ⟨s, 0, [], []⟩)] := by
  constructor
  · intro h
    rcases newName_dec ac.wings uid with ⟨s, hs⟩ | h0 | ⟨e, he⟩ | ⟨s, rfl, hs⟩
    · refine ⟨s, hs, ?_⟩
      obtain ⟨rfl, h1, h2⟩ := hs
      have : ac.wings.has s = false := by
        rw [← Bool.not_eq_true, has_iff]; exact h2
      simp [AircraftObj.addWing, PyVal.truthy, h1, uidSetter, this] at h
      rw [← h]; rfl
    · simp [AircraftObj.addWing, h0] at h
    · unfold AircraftObj.addWing at h
      split_ifs at h
      simp [he] at h
    · unfold AircraftObj.addWing at h
      split_ifs at h
      simp [uidSetter, hs] at h
  · rintro ⟨s, ⟨rfl, h1, h2⟩, h⟩
    have : ac.wings.has s = false := by
      rw [← Bool.not_eq_true, has_iff]; exact h2
    simp [AircraftObj.addWing, PyVal.truthy, h1, uidSetter, this]
    cases ac'; simp only at h; rw [h]; rfl

/-- **C51.** The same for segments; controls and everything else of the wing stay. -/
theorem C51_add_segment (w w' : WingObj) (uid : PyVal) :
    w.addSegment uid = .ok w' ↔
      ∃ s, NewName w.segments uid s ∧ w'.segments = w.segments ++ [(s, ⟨s⟩)] ∧
        w'.controls = w.controls ∧ w'.uid = w.uid ∧ w'.symmetry = w.symmetry := by
  constructor
  · intro h
    rcases newName_dec w.segments uid with ⟨s, hs⟩ | h0 | ⟨e, he⟩ | ⟨s, rfl, hs⟩
    · refine ⟨s, hs, ?_⟩
      obtain ⟨rfl, h1, h2⟩ := hs
      have : w.segments.has s = false := by
        rw [← Bool.not_eq_true, has_iff]; exact h2
      simp [WingObj.addSegment, PyVal.truthy, h1, uidSetter, this] at h
      rw [← h]; exact ⟨rfl, rfl, rfl, rfl⟩
    · simp [WingObj.addSegment, h0] at h
    · unfold WingObj.addSegment at h
      split_ifs at h
      simp [he] at h
    · unfold WingObj.addSegment at h
      split_ifs at h
      simp [uidSetter, hs] at h
  · rintro ⟨s, ⟨rfl, h1, h2⟩, h, hc, hu, hy⟩
    have : w.segments.has s = false := by
      rw [← Bool.not_eq_true, has_iff]; exact h2
    simp [WingObj.addSegment, PyVal.truthy, h1, uidSetter, this]
    cases w'; simp only at h hc hu hy; rw [h, hc, hu, hy]

/-- **C51.** The same for controls. -/
theorem C51_add_control (w w' : WingObj) (uid : PyVal) :
    w.addControl uid = .ok w' ↔
      ∃ s, NewName w.controls uid s ∧ w'.controls = w.controls ++ [(s, ⟨s⟩)] ∧
        w'.segments = w.segments ∧ w'.uid = w.uid ∧ w'.symmetry = w.symmetry := by
  constructor
  · intro h
    rcases newName_dec w.controls uid with ⟨s, hs⟩ | h0 | ⟨e, he⟩ | ⟨s, rfl, hs⟩
    · refine ⟨s, hs, ?_⟩
      obtain ⟨rfl, h1, h2⟩ := hs
      have : w.controls.has s = false := by
        rw [← Bool.not_eq_true, has_iff]; exact h2
      simp [WingObj.addControl, PyVal.truthy, h1, uidSetter, this] at h
      rw [← h]; exact ⟨rfl, rfl, rfl, rfl⟩
    · simp [WingObj.addControl, h0] at h
    · unfold WingObj.addControl at h
      split_ifs at h
      simp [he] at h
    · unfold WingObj.addControl at h
      split_ifs at h
      simp [uidSetter, hs] at h
  · rintro ⟨s, ⟨rfl, h1, h2⟩, h, hc, hu, hy⟩
    have : w.controls.has s = false := by
      rw [← Bool.not_eq_true, has_iff]; exact h2
    simp [WingObj.addControl, PyVal.truthy, h1, uidSetter, this]
    cases w'; simp only at h hc hu hy; rw [h, hc, hu, hy]

example : (⟨[("w", ⟨"w", 0, [], []⟩)]⟩ : AircraftObj).addWing (.str "v") =
    .ok ⟨[("w", ⟨"w", 0, [], []⟩), ("v", ⟨"v", 0, [], []⟩)]⟩ ∧
    (⟨[("w", ⟨"w", 0, [], []⟩)]⟩ : AircraftObj).addWing (.str "w") = .error .valueError ∧
    (⟨[("w", ⟨"w", 0, [], []⟩)]⟩ : AircraftObj).addWing (.str "") = .error .componentDefinition ∧
    (⟨[("w", ⟨"w", 0, [], []⟩)]⟩ : AircraftObj).addWing (.int 3) = .error .typeError := by
  refine ⟨rfl, rfl, rfl, rfl⟩

theorem modifyE_iff {α : Type*} (f : α → Except PyErr α) (uid : String) (d d' : ODict α) :
    ODict.modifyE f uid d = .ok d' ↔ ∃ d₁ a a' d₂, d = d₁ ++ (uid, a) :: d₂ ∧ uid ∉ d₁.keys ∧
      f a = .ok a' ∧ d' = d₁ ++ (uid, a') :: d₂ := by
  induction d generalizing d' with
  | nil => simp [ODict.modifyE]
  | cons e rest ih =>
    obtain ⟨k, b⟩ := e
    unfold ODict.modifyE
    by_cases hk : k = uid
    · subst hk
      rw [if_pos rfl]
      constructor
      · intro h
        cases hf : f b with
        | error x => rw [hf] at h; cases h
        | ok b' =>
          rw [hf] at h
          cases h
          exact ⟨[], b, b', rest, rfl, by simp [ODict.keys], hf, rfl⟩
      · rintro ⟨d₁, a, a', d₂, h1, h2, h3, h4⟩
        cases d₁ with
        | nil =>
          simp only [List.nil_append, List.cons.injEq, Prod.mk.injEq, true_and] at h1
          obtain ⟨rfl, rfl⟩ := h1
          rw [h3, h4]
          rfl
        | cons x xs =>
          simp only [List.cons_append, List.cons.injEq] at h1
          exact absurd (by rw [← h1.1]; simp [ODict.keys]) h2
    · rw [if_neg hk]
      constructor
      · intro h
        cases hm : ODict.modifyE f uid rest with
        | error x => rw [hm] at h; cases h
        | ok r =>
          rw [hm] at h
          cases h
          obtain ⟨d₁, a, a', d₂, h1, h2, h3, h4⟩ := (ih r).1 hm
          refine ⟨(k, b) :: d₁, a, a', d₂, by rw [h1]; rfl, ?_, h3, by rw [h4]; rfl⟩
          simp only [ODict.keys, List.map_cons, List.mem_cons, not_or] at h2 ⊢
          exact ⟨fun h => hk h.symm, h2⟩
      · rintro ⟨d₁, a, a', d₂, h1, h2, h3, h4⟩
        cases d₁ with
        | nil =>
          simp only [List.nil_append, List.cons.injEq, Prod.mk.injEq] at h1
          exact absurd h1.1.1 hk
        | cons x xs =>
          simp only [List.cons_append, List.cons.injEq] at h1
          simp only [ODict.keys, List.map_cons, List.mem_cons, not_or] at h2
          rw [(ih (xs ++ (uid, a') :: d₂)).2 ⟨xs, a, a', d₂, h1.2, h2.2, h3, rfl⟩, h4, ← h1.1]
          rfl

/-- The two aircraft differ in the wing of this name only, which is changed from `w` to `w'`. -/
def OneWing (ac ac' : AircraftObj) (name : String) (w w' : WingObj) : Prop :=
  ∃ ws₁ ws₂, ac.wings = ws₁ ++ (name, w) :: ws₂ ∧ name ∉ ws₁.map Prod.fst ∧
    ac'.wings = ws₁ ++ (name, w') :: ws₂

theorem onWing_iff (ac ac' : AircraftObj) (name : String) (f : WingObj → Except PyErr WingObj) :
    ac.onWing name f = .ok ac' ↔ ∃ w w', OneWing ac ac' name w w' ∧ f w = .ok w' := by
  unfold AircraftObj.onWing
  constructor
  · intro h
    cases hm : ODict.modifyE f name ac.wings with
    | error x => rw [hm] at h; cases h
    | ok r =>
      rw [hm] at h
      cases h
      obtain ⟨d₁, a, a', d₂, h1, h2, h3, h4⟩ := (modifyE_iff _ _ _ _).1 hm
      exact ⟨a, a', ⟨d₁, d₂, h1, h2, h4⟩, h3⟩
  · rintro ⟨w, w', ⟨ws₁, ws₂, h1, h2, h3⟩, h4⟩
    rw [(modifyE_iff f name ac.wings ac'.wings).2 ⟨ws₁, w, w', ws₂, h1, h2, h4, h3⟩]

/-- **C51.** The symmetry of a wing is set exactly if the wing exists and the value is 0, 1, 2 or 3;
nothing else changes. -/
theorem C51_set_symmetry (ac ac' : AircraftObj) (name : String) (s : ℤ) :
    (BuildOp.symmetry name s).run ac = .ok ac' ↔
      (0 ≤ s ∧ s ≤ 3) ∧ ∃ w w', OneWing ac ac' name w w' ∧ w'.symmetry = s ∧ w'.uid = w.uid ∧
        w'.segments = w.segments ∧ w'.controls = w.controls := by
  unfold BuildOp.run
  rw [onWing_iff]
  have key : ∀ w w' : WingObj, w.setSymmetry s = .ok w' ↔ (0 ≤ s ∧ s ≤ 3) ∧ w'.symmetry = s ∧
      w'.uid = w.uid ∧ w'.segments = w.segments ∧ w'.controls = w.controls := by
    intro w w'
    have hs : s ∈ ([0, 1, 2, 3] : List ℤ) ↔ 0 ≤ s ∧ s ≤ 3 := by
      simp only [List.mem_cons, List.not_mem_nil, or_false]
      omega
    unfold WingObj.setSymmetry
    by_cases h : 0 ≤ s ∧ s ≤ 3
    · rw [if_neg (not_not.2 (hs.2 h))]
      constructor
      · intro e
        cases e
        exact ⟨h, rfl, rfl, rfl, rfl⟩
      · rintro ⟨-, h1, h2, h3, h4⟩
        cases w'
        simp only at h1 h2 h3 h4
        rw [h1, h2, h3, h4]
    · rw [if_pos (fun e => h (hs.1 e))]
      simp [h]
  simp only [key]
  tauto

/-- **C51.** Segments and controls are added to the wing that is named, and to no other. -/
theorem C51_on_wing (ac ac' : AircraftObj) (name : String) (uid : PyVal) :
    ((BuildOp.segment name uid).run ac = .ok ac' ↔ ∃ w w', OneWing ac ac' name w w' ∧
      ∃ s, NewName w.segments uid s ∧ w'.segments = w.segments ++ [(s, ⟨s⟩)] ∧
        w'.controls = w.controls ∧ w'.uid = w.uid ∧ w'.symmetry = w.symmetry) ∧
    ((BuildOp.control name uid).run ac = .ok ac' ↔ ∃ w w', OneWing ac ac' name w w' ∧
      ∃ s, NewName w.controls uid s ∧ w'.controls = w.controls ++ [(s, ⟨s⟩)] ∧
        w'.segments = w.segments ∧ w'.uid = w.uid ∧ w'.symmetry = w.symmetry) := by
  unfold BuildOp.run
  simp only [onWing_iff, C51_add_segment, C51_add_control, and_self]

example : (BuildOp.symmetry "v" 3).run ⟨[("w", ⟨"w", 0, [], []⟩), ("v", ⟨"v", 2, [], []⟩)]⟩ =
      .ok ⟨[("w", ⟨"w", 0, [], []⟩), ("v", ⟨"v", 3, [], []⟩)]⟩ ∧
    (BuildOp.symmetry "v" 4).run ⟨[("v", ⟨"v", 2, [], []⟩)]⟩ = .error .valueError ∧
    (BuildOp.segment "v" (.str "s")).run ⟨[("w", ⟨"w", 0, [], []⟩), ("v", ⟨"v", 2, [], []⟩)]⟩ =
      .ok ⟨[("w", ⟨"w", 0, [], []⟩), ("v", ⟨"v", 2, [("s", ⟨"s"⟩)], []⟩)]⟩ := by
  refine ⟨rfl, rfl, rfl⟩

/-- All names in an aircraft: keys are distinct and not empty on each level, each wing is stored
under its own name and has a valid symmetry. -/
def GoodNames (ac : AircraftObj) : Prop :=
  GoodKeys ac.wings ∧ ∀ e ∈ ac.wings, e.2.uid = e.1 ∧ GoodKeys e.2.segments ∧
    GoodKeys e.2.controls ∧ (∀ s ∈ e.2.segments, s.2.uid = s.1) ∧
    (∀ s ∈ e.2.controls, s.2.uid = s.1) ∧ 0 ≤ e.2.symmetry ∧ e.2.symmetry ≤ 3

/-- Nothing that was there has gone or has been replaced. -/
def Kept (ac ac' : AircraftObj) : Prop :=
  ac.wings.keys <+: ac'.wings.keys ∧
  ∀ e ∈ ac.wings, ∃ w', (e.1, w') ∈ ac'.wings ∧ w'.uid = e.2.uid ∧
    e.2.segments <+: w'.segments ∧ e.2.controls <+: w'.controls

theorem goodKeys_append {α : Type*} {d : ODict α} (h : GoodKeys d) {uid : PyVal} {s : String}
    (hs : NewName d uid s) (a : α) : GoodKeys (d ++ [(s, a)]) := by
  obtain ⟨_, h1, h2⟩ := hs
  unfold GoodKeys ODict.keys at *
  simp only [List.map_append, List.map_cons, List.map_nil]
  refine ⟨List.nodup_append.2 ⟨h.1, by simp, ?_⟩, ?_⟩
  · intro a ha b hb
    simp only [List.mem_singleton] at hb
    rintro rfl; subst hb; exact h2 ha
  · simp only [List.mem_append, List.mem_singleton, not_or]
    exact ⟨h.2, fun h => h1 h.symm⟩

/-- The wings after a change of one of them. -/
theorem modifyE_ok {α : Type*} {f : α → Except PyErr α} {uid : String} :
    ∀ {d d' : ODict α}, ODict.modifyE f uid d = .ok d' →
      ∃ pre a b post, d = pre ++ (uid, a) :: post ∧ f a = .ok b ∧ d' = pre ++ (uid, b) :: post
  | [], d', h => by simp [ODict.modifyE] at h
  | (k, a) :: rest, d', h => by
    unfold ODict.modifyE at h
    split_ifs at h with hk
    · subst hk
      cases hf : f a with
      | error e => simp [hf] at h
      | ok b => simp [hf] at h; exact ⟨[], a, b, rest, rfl, hf, h.symm⟩
    · cases hr : ODict.modifyE f uid rest with
      | error e => simp [hr] at h
      | ok r =>
        simp [hr] at h
        obtain ⟨pre, a', b, post, h1, h2, h3⟩ := modifyE_ok hr
        refine ⟨(k, a) :: pre, a', b, post, by rw [h1]; rfl, h2, ?_⟩
        rw [← h, h3]; rfl

theorem kept_refl (ac : AircraftObj) : Kept ac ac :=
  ⟨List.prefix_rfl, fun e he => ⟨e.2, he, rfl, List.prefix_rfl, List.prefix_rfl⟩⟩

/-- Change of one wing that keeps its parts. -/
theorem onWing_ok {ac ac' : AircraftObj} {w : String} {f : WingObj → Except PyErr WingObj}
    (h : ac.onWing w f = .ok ac') (hg : GoodNames ac)
    (hf : ∀ a b, f a = .ok b → b.uid = a.uid ∧ a.segments <+: b.segments ∧
      a.controls <+: b.controls ∧ (GoodKeys a.segments → GoodKeys b.segments) ∧
      (GoodKeys a.controls → GoodKeys b.controls) ∧
      ((∀ s ∈ a.segments, s.2.uid = s.1) → ∀ s ∈ b.segments, s.2.uid = s.1) ∧
      ((∀ s ∈ a.controls, s.2.uid = s.1) → ∀ s ∈ b.controls, s.2.uid = s.1) ∧
      (0 ≤ a.symmetry ∧ a.symmetry ≤ 3 → 0 ≤ b.symmetry ∧ b.symmetry ≤ 3)) :
    GoodNames ac' ∧ Kept ac ac' := by
  unfold AircraftObj.onWing at h
  cases hm : ODict.modifyE f w ac.wings with
  | error e => simp [hm] at h
  | ok ws =>
    simp [hm] at h
    obtain ⟨pre, a, b, post, h1, h2, h3⟩ := modifyE_ok hm
    obtain ⟨q1, q2, q3, q4, q5, q6, q7, q8⟩ := hf a b h2
    subst h
    have hkeys : (AircraftObj.mk ws).wings.keys = ac.wings.keys := by
      simp [ODict.keys, h1, h3]
    refine ⟨⟨?_, ?_⟩, ?_, ?_⟩
    · unfold GoodKeys at *
      rw [hkeys]; exact hg.1
    · intro e he
      simp only [h3, List.mem_append, List.mem_cons] at he
      rcases he with he | rfl | he
      · exact hg.2 e (by rw [h1]; simp [he])
      · obtain ⟨p1, p2, p3, p4, p5, p6⟩ := hg.2 (w, a) (by rw [h1]; simp)
        exact ⟨by simpa [q1] using p1, q4 p2, q5 p3, q6 p4, q7 p5, q8 p6⟩
      · exact hg.2 e (by rw [h1]; simp [he])
    · rw [hkeys]
    · intro e he
      rw [h1] at he
      simp only [List.mem_append, List.mem_cons] at he
      rcases he with he | rfl | he
      · exact ⟨e.2, by simp [h3, he], rfl, List.prefix_rfl, List.prefix_rfl⟩
      · exact ⟨b, by simp [h3], q1, q2, q3⟩
      · exact ⟨e.2, by simp [h3, he], rfl, List.prefix_rfl, List.prefix_rfl⟩

theorem uids_append {α : Type*} {d : ODict α} {u : α → String} (h : ∀ s ∈ d, u s.2 = s.1)
    {k : String} {a : α} (ha : u a = k) : ∀ s ∈ d ++ [(k, a)], u s.2 = s.1 := by
  intro s hs
  simp only [List.mem_append, List.mem_singleton] at hs
  rcases hs with hs | rfl
  · exact h s hs
  · exact ha

theorem run_good (op : BuildOp) {ac ac' : AircraftObj} (h : op.run ac = .ok ac')
    (hg : GoodNames ac) : GoodNames ac' ∧ Kept ac ac' := by
  cases op with
  | wing uid =>
    obtain ⟨s, hs, h'⟩ := (C51_add_wing ac ac' uid).1 h
    refine ⟨⟨?_, ?_⟩, ?_, ?_⟩
    · rw [h']; exact goodKeys_append hg.1 hs _
    · intro e he
      rw [h'] at he
      simp only [List.mem_append, List.mem_singleton] at he
      rcases he with he | rfl
      · exact hg.2 e he
      · simp [GoodKeys, ODict.keys]
    · rw [h']; simp [ODict.keys]
    · intro e he
      exact ⟨e.2, by rw [h']; simp [he], rfl, List.prefix_rfl, List.prefix_rfl⟩
  | segment w uid =>
    refine onWing_ok h hg fun a b hab => ?_
    obtain ⟨s, hs, h1, h2, h3, h4⟩ := (C51_add_segment a b uid).1 hab
    rw [h1, h2, h3, h4]
    exact ⟨rfl, List.prefix_append _ _, List.prefix_rfl, fun q => goodKeys_append q hs _, id,
      fun q => uids_append q rfl, id, id⟩
  | control w uid =>
    refine onWing_ok h hg fun a b hab => ?_
    obtain ⟨s, hs, h1, h2, h3, h4⟩ := (C51_add_control a b uid).1 hab
    rw [h1, h2, h3, h4]
    exact ⟨rfl, List.prefix_rfl, List.prefix_append _ _, id, fun q => goodKeys_append q hs _,
      id, fun q => uids_append q rfl, id⟩
  | symmetry w s =>
    refine onWing_ok h hg fun a b hab => ?_
    unfold WingObj.setSymmetry at hab
    split_ifs at hab with hs
    simp at hab
    subst hab
    refine ⟨rfl, List.prefix_rfl, List.prefix_rfl, id, id, id, id, fun _ => ?_⟩
    simp only [List.mem_cons, List.not_mem_nil, or_false] at hs
    simp only
    omega

/-- **C51.** After any sequence of additions (whatever failed in between) all names are distinct
and non-empty on every level, and every component is stored under its own name. -/
theorem C51_names (ops : List BuildOp) : GoodNames (buildAll ops) := by
  have : ∀ ac, GoodNames ac → GoodNames (ops.foldl (fun ac op => op.exec ac) ac) := by
    induction ops with
    | nil => exact fun _ h => h
    | cons op ops ih =>
      intro ac h
      refine ih _ ?_
      show GoodNames (op.exec ac)
      unfold BuildOp.exec
      cases hr : op.run ac with
      | error e => exact h
      | ok ac' => exact (run_good op hr h).1
  exact this _ ⟨by simp [GoodKeys, ODict.keys], by simp⟩

/-- **C51.** Further additions keep everything: the sequence of wing names only grows at its end,
and so do the segments and the controls of every wing.  An addition that raises changes
nothing at all. -/
theorem C51_kept (ops : List BuildOp) (op : BuildOp) :
    Kept (buildAll ops) (buildAll (ops ++ [op])) ∧
    (∀ e, op.run (buildAll ops) = .error e → buildAll (ops ++ [op]) = buildAll ops) := by
  have hstep : buildAll (ops ++ [op]) = op.exec (buildAll ops) := by
    simp [buildAll, List.foldl_append]
  rw [hstep]
  unfold BuildOp.exec
  cases hr : op.run (buildAll ops) with
  | error e => exact ⟨kept_refl _, fun _ _ => rfl⟩
  | ok ac' => exact ⟨(run_good op hr (C51_names ops)).2, by simp⟩

example : buildAll [.wing (.str "w"), .segment "w" (.str "s"), .wing (.str "w"),
      .segment "w" (.str "s"), .segment "w" (.str "t"), .control "w" (.str "s"),
      .symmetry "w" 2, .symmetry "w" 4, .wing .none] =
    ⟨[("w", ⟨"w", 2, [("s", ⟨"s"⟩), ("t", ⟨"t"⟩)], [("s", ⟨"s"⟩)]⟩)]⟩ := rfl

/-! ## C52 -/

section
variable {K : Type*} [Field K] [LinearOrder K]

/-- The definition is one that can be used: relative coordinates in [0, 1], a positive number of
panels if one is given, a device type, positive extent if the control lies on one segment, a
deflection between -90 and 90 and, on a symmetric wing, the same for a mirror deflection that is
given. -/
structure ControlDef.Usable (c : ControlDef K) (symmetry : ℕ) : Prop where
  panels : ∀ n, c.numC = some n → 0 < n
  etaInner : 0 ≤ c.etaInner ∧ c.etaInner ≤ 1
  etaOuter : 0 ≤ c.etaOuter ∧ c.etaOuter ≤ 1
  xsiInner : 0 ≤ c.xsiInner ∧ c.xsiInner ≤ 1
  xsiOuter : 0 ≤ c.xsiOuter ∧ c.xsiOuter ≤ 1
  hingeInner : 0 ≤ c.hingeInner ∧ c.hingeInner ≤ 1
  hingeOuter : 0 ≤ c.hingeOuter ∧ c.hingeOuter ≤ 1
  device : c.deviceType ≠ none
  extent : c.segInner = c.segOuter → c.etaInner < c.etaOuter
  deflection : ∃ x, c.deflection = .num (.fin x) ∧ -90 ≤ x ∧ x ≤ 90
  mirror : symmetry ≠ 0 → c.deflectionMirror ≠ .none →
    ∃ x, c.deflectionMirror = .num (.fin x) ∧ -90 ≤ x ∧ x ≤ 90

/-- The definition after the check: only a missing mirror deflection is filled in. -/
def ControlDef.completed (c : ControlDef K) (symmetry : ℕ) : ControlDef K :=
  { c with deflectionMirror :=
      if c.deflectionMirror = .none ∧ symmetry ≠ 0 then c.deflection else c.deflectionMirror }

theorem checkDeflection_iff (v w : Val K) :
    checkDeflection v = .ok w ↔ w = v ∧ ∃ x, v = .num (.fin x) ∧ -90 ≤ x ∧ x ≤ 90 := by
  cases v with
  | num f =>
    cases f with
    | fin x =>
      by_cases h : -90 ≤ x ∧ x ≤ 90
      · simp [checkDeflection, Val.isNum, Val.within90, h.1, h.2, eq_comm]
      · have : (decide (-90 ≤ x) && decide (x ≤ 90)) = false := by
          rw [← Bool.not_eq_true, Bool.and_eq_true, decide_eq_true_iff, decide_eq_true_iff]
          exact h
        simp only [checkDeflection, Val.isNum, Val.within90, this]
        simp
        intro _ h1
        exact lt_of_not_ge fun h2 => h ⟨h1, h2⟩
    | nonfin => simp [checkDeflection, Val.isNum, Val.within90]
  | none => simp [checkDeflection, Val.isNum]
  | text p => simp [checkDeflection, Val.isNum]
  | obj => simp [checkDeflection, Val.isNum]

/-- **C52.** A control passes the check exactly if it is usable, and the check changes nothing but
a missing mirror deflection on a symmetric wing, which becomes the deflection. -/
theorem C52_check (c c' : ControlDef K) (symmetry : ℕ) :
    c.check symmetry = .ok c' ↔ c.Usable symmetry ∧ c' = c.completed symmetry := by
  unfold ControlDef.check
  by_cases hschema : ((c.numC.all fun n => decide (n > 0)) &&
      in01 c.etaInner && in01 c.etaOuter && in01 c.xsiInner && in01 c.xsiOuter &&
      in01 c.hingeInner && in01 c.hingeOuter) = true
  swap
  · have hn : ¬ c.Usable symmetry := by
      intro u
      apply hschema
      have hp : (c.numC.all fun n => decide (n > 0)) = true := by
        cases hc : c.numC with
        | none => rfl
        | some n => simpa using u.panels n hc
      simp [in01, hp, u.etaInner, u.etaOuter, u.xsiInner, u.xsiOuter, u.hingeInner, u.hingeOuter]
    rw [Bool.not_eq_true] at hschema
    rw [hschema]
    simp [hn]
  rw [hschema]
  simp only [Bool.and_eq_true, in01, decide_eq_true_iff] at hschema
  obtain ⟨⟨⟨⟨⟨⟨hp, q1⟩, q2⟩, q3⟩, q4⟩, q5⟩, q6⟩ := hschema
  have hp' : ∀ n, c.numC = some n → 0 < n := by
    intro n hn
    simpa [hn] using hp
  simp only [Bool.not_true, Bool.false_eq_true, if_false]
  by_cases hd : c.deviceType = none
  · rw [if_pos hd]
    constructor
    · intro h; simp at h
    · intro h; exact absurd hd h.1.device
  rw [if_neg hd]
  by_cases he : c.segInner = c.segOuter ∧ c.etaOuter ≤ c.etaInner
  · rw [if_pos he]
    constructor
    · intro h; simp at h
    · intro h; exact absurd (h.1.extent he.1) (not_lt.2 he.2)
  rw [if_neg he]
  have he' : c.segInner = c.segOuter → c.etaInner < c.etaOuter :=
    fun h => lt_of_not_ge fun h2 => he ⟨h, h2⟩
  by_cases h0 : c.deflection = .none
  · rw [if_pos h0]
    constructor
    · intro h; simp at h
    · intro h; obtain ⟨x, hx, _⟩ := h.1.deflection; rw [h0] at hx; cases hx
  rw [if_neg h0]
  cases hc : checkDeflection c.deflection with
  | error e =>
    simp only
    constructor
    · intro h; simp at h
    · intro h
      have := (checkDeflection_iff c.deflection c.deflection).2 ⟨rfl, h.1.deflection⟩
      rw [hc] at this; cases this
  | ok d =>
    obtain ⟨rfl, hx⟩ := (checkDeflection_iff _ _).1 hc
    simp only
    by_cases hm : c.deflectionMirror = .none
    · rw [if_pos hm]
      have hu : c.Usable symmetry :=
        ⟨hp', q1, q2, q3, q4, q5, q6, hd, he', hx, fun _ h => absurd hm h⟩
      by_cases hs : symmetry = 0
      · rw [if_neg (by simpa using hs)]
        simp only [Except.ok.injEq, ControlDef.completed, hs, ne_eq, not_true_eq_false, and_false,
          if_false]
        exact ⟨fun h => ⟨hs ▸ hu, h.symm⟩, fun h => h.2.symm⟩
      · rw [if_pos hs]
        simp only [Except.ok.injEq, ControlDef.completed, hm, ne_eq, hs, not_false_eq_true,
          and_true, if_true]
        exact ⟨fun h => ⟨hu, h.symm⟩, fun h => h.2.symm⟩
    · rw [if_neg hm]
      by_cases hs : symmetry = 0
      · rw [if_pos hs]
        have hu : c.Usable symmetry :=
          ⟨hp', q1, q2, q3, q4, q5, q6, hd, he', hx, fun h => absurd hs h⟩
        simp only [Except.ok.injEq, ControlDef.completed, hm, false_and, if_false]
        exact ⟨fun h => ⟨hu, h.symm⟩, fun h => h.2.symm⟩
      · rw [if_neg hs]
        cases hcm : checkDeflection c.deflectionMirror with
        | error e =>
          simp only
          constructor
          · intro h; simp at h
          · intro h
            have := (checkDeflection_iff c.deflectionMirror _).2 ⟨rfl, h.1.mirror hs hm⟩
            rw [hcm] at this; cases this
        | ok m =>
          obtain ⟨rfl, hxm⟩ := (checkDeflection_iff _ _).1 hcm
          have hu : c.Usable symmetry :=
            ⟨hp', q1, q2, q3, q4, q5, q6, hd, he', hx, fun _ _ => hxm⟩
          simp only [Except.ok.injEq, ControlDef.completed, hm, false_and, if_false]
          exact ⟨fun h => ⟨hu, h.symm⟩, fun h => h.2.symm⟩

/-- **C52.** Only the two documented device types can be set. -/
theorem C52_device_type (c c' : ControlDef K) (v : PyVal) :
    c.setDeviceType v = .ok c' ↔
      (v = .str "slat" ∧ c' = { c with deviceType := some "slat" }) ∨
      (v = .str "flap" ∧ c' = { c with deviceType := some "flap" }) := by
  cases v with
  | str s =>
    unfold ControlDef.setDeviceType
    by_cases h1 : s = "slat"
    · subst h1; simp [eq_comm]
    · by_cases h2 : s = "flap"
      · subst h2; simp [eq_comm]
      · simp [h1, h2]
  | _ => simp [ControlDef.setDeviceType]

end

/-- A control for the example: inner segment to outer segment, mirror deflection not set. -/
def demoControl : ControlDef ℚ :=
  ⟨"s", "t", 3 / 4, 1 / 4, 1 / 2, 1 / 2, 1 / 2, 1 / 2, some 3, some "flap", .num (.fin 10), .none⟩

example : demoControl.Usable 2 ∧
    demoControl.completed 2 = { demoControl with deflectionMirror := .num (.fin 10) } ∧
    demoControl.completed 0 = demoControl := by
  refine ⟨?_, rfl, rfl⟩
  constructor <;> simp [demoControl] <;> norm_num

/-! ## C53 -/

section
variable {K : Type*} [Field K] [LinearOrder K] [IsStrictOrderedRing K]

theorem positionsFrom_eq (total : K) (h : total ≠ 0) : ∀ (pos : K) (spans : List K),
    ∃ ps, positionsFrom total pos spans = .ok ps ∧ ps.length = spans.length ∧
      ∀ i (hi : i < ps.length), ps[i] =
        ((pos + (spans.take i).sum) / total, (pos + (spans.take (i + 1)).sum) / total)
  | pos, [] => ⟨[], rfl, rfl, by simp⟩
  | pos, s :: rest => by
    obtain ⟨ps, h1, h2, h3⟩ := positionsFrom_eq total h (pos + s) rest
    refine ⟨(pos / total, (pos + s) / total) :: ps, by simp [positionsFrom, h, h1], by simp [h2],
      ?_⟩
    rintro (_ | i) hi
    · simp
    · simp only [List.getElem_cons_succ, List.take_succ_cons, List.sum_cons]
      rw [h3 i (by simpa using hi), add_assoc, add_assoc]

theorem spanTotal_eq (spans : List K) : spanTotal spans = (spans.map abs).sum := by
  have : ∀ acc : K, spans.foldl (fun acc s => acc + |s|) acc = acc + (spans.map abs).sum := by
    induction spans with
    | nil => simp
    | cons s rest ih => intro acc; simp only [List.foldl_cons, ih, List.map_cons, List.sum_cons]; ring
  unfold spanTotal; rw [this]; ring

theorem spanTotal_nonneg {spans : List K} (h : ∀ s ∈ spans, 0 ≤ s) :
    spanTotal spans = spans.sum := by
  rw [spanTotal_eq]
  congr 1
  rw [List.map_congr_left (fun s hs => abs_of_nonneg (h s hs)), List.map_id']

theorem spanTotal_zero_iff (spans : List K) : spanTotal spans = 0 ↔ ∀ s ∈ spans, s = 0 := by
  rw [spanTotal_eq]
  induction spans with
  | nil => simp
  | cons s rest ih =>
    have h1 : 0 ≤ (rest.map abs).sum := List.sum_nonneg (by
      intro x hx
      obtain ⟨y, _, rfl⟩ := List.mem_map.1 hx
      exact abs_nonneg y)
    simp only [List.map_cons, List.sum_cons, List.mem_cons, forall_eq_or_imp]
    constructor
    · intro h
      have h2 : |s| = 0 := le_antisymm (by linarith) (abs_nonneg s)
      exact ⟨abs_eq_zero.1 h2, ih.1 (by linarith)⟩
    · rintro ⟨rfl, h⟩
      simp [ih.2 h]

/-- The relative positions of segments along the span: they start at 0, end at 1, follow each
other without gap, and each has the share of the span that its segment has. -/
structure Contiguous (spans : List K) (ps : List (K × K)) : Prop where
  length : ps.length = spans.length
  first : ∀ h : 0 < ps.length, ps[0].1 = 0
  last : ∀ h : 0 < ps.length, ps[ps.length - 1].2 = 1
  next : ∀ i (h : i + 1 < ps.length), ps[i + 1].1 = ps[i].2
  mono : ∀ i (h : i < ps.length), ps[i].1 ≤ ps[i].2
  share : ∀ i (h : i < ps.length) (h' : i < spans.length),
    (ps[i].2 - ps[i].1) * spans.sum = spans[i]

/-- **C53.** Spans that are non-negative and not all zero give contiguous positions. -/
theorem C53_positions (spans : List K) (h : ∀ s ∈ spans, 0 ≤ s) (h0 : ∃ s ∈ spans, s ≠ 0) :
    ∃ ps, positions spans = .ok ps ∧ Contiguous spans ps := by
  have ht : spanTotal spans ≠ 0 := by
    rw [Ne, spanTotal_zero_iff]; push Not; exact h0
  obtain ⟨ps, h1, h2, h3⟩ := positionsFrom_eq (spanTotal spans) ht 0 spans
  have ht' := spanTotal_nonneg h
  have hpos : 0 < spanTotal spans :=
    lt_of_le_of_ne (by rw [ht']; exact List.sum_nonneg h) (Ne.symm ht)
  refine ⟨ps, h1, ⟨h2, ?_, ?_, ?_, ?_, ?_⟩⟩
  · intro hl; rw [h3 0 hl]; simp
  · intro hl
    rw [h3 _ (by omega)]
    have : ps.length - 1 + 1 = spans.length := by omega
    simp only [this, List.take_length, zero_add]
    rw [← ht', div_self ht]
  · intro i hi
    rw [h3 _ hi, h3 i (by omega)]
  · intro i hi
    rw [h3 i hi]
    simp only [zero_add]
    rw [List.sum_take_succ _ _ (by omega)]
    have := h spans[i] (List.getElem_mem _)
    exact div_le_div_of_nonneg_right (by linarith) hpos.le
  · intro i hi hi'
    rw [h3 i hi]
    simp only [zero_add]
    rw [List.sum_take_succ _ _ hi', ← ht']
    field_simp
    ring

/-- **C53.** A wing with segments but without any span cannot be generated. -/
theorem C53_no_span (spans : List K) (hne : spans ≠ []) (h : ∀ s ∈ spans, s = 0) :
    positions spans = .error .zeroDivision := by
  have := (spanTotal_zero_iff spans).2 h
  cases spans with
  | nil => exact absurd rfl hne
  | cons s rest => simp [positions, positionsFrom, this]

end

example : positions ([2, 0, 6] : List ℚ) = .ok [(0, 1 / 4), (1 / 4, 1 / 4), (1 / 4, 1)] := by
  norm_num [positions, positionsFrom, spanTotal]

/-! ## C67: which definitions of a segment work -/

/-- All four vertices are given. -/
def AllGiven (v : Corners (Option (V3 ℝ))) (p : Corners (V3 ℝ)) : Prop :=
  v.a = some p.a ∧ v.b = some p.b ∧ v.c = some p.c ∧ v.d = some p.d

theorem providedKeys_eq (v : Corners NpVertex) : providedKeys v = "abcd" := rfl

theorem abcd_required (g : SegGeo) : "abcd" ∈ g.required := by
  unfold SegGeo.required; split_ifs <;> simp

theorem generateSegment_eq (v : Corners (Option (V3 ℝ))) (g : SegGeo) (hg : g.withAxes.schema) :
    generateSegment v g =
      match (npVertex v.d).coords, (npVertex v.a).coords, (npVertex v.c).coords,
        (npVertex v.b).coords with
      | .ok d, .ok a, .ok c, .ok b => .ok ⟨⟨a, b, c, d⟩, derivedGeo ⟨a, b, c, d⟩ g.withAxes⟩
      | .error e, _, _, _ => .error e
      | _, .error e, _, _ => .error e
      | _, _, .error e, _ => .error e
      | _, _, _, .error e => .error e := by
  unfold generateSegment
  simp only []
  have hk : ∀ w : Corners NpVertex, ¬ providedKeys w = "" ∧
      ¬ providedKeys w ∉ ["a", "b", "c", "d", "ad", "bc", "abcd"] ∧
      ¬ providedKeys w ∉ g.withAxes.required ∧ ¬ providedKeys w ≠ "abcd" := by
    intro w
    rw [providedKeys_eq]
    exact ⟨by decide, by decide, not_not.2 (abcd_required _), not_not.2 rfl⟩
  obtain ⟨k1, k2, k3, k4⟩ := hk ⟨npVertex v.a, npVertex v.b, npVertex v.c, npVertex v.d⟩
  rw [if_neg (not_not.2 hg), if_neg k1, if_neg k2, if_neg k3, if_neg k4]
  rfl

/-- **C67.** A segment can be generated exactly if all four vertices are given and the geometry
data given besides lie in their ranges. -/
theorem C67_four_vertices (v : Corners (Option (V3 ℝ))) (g : SegGeo) :
    (∃ s, generateSegment v g = .ok s) ↔ (∃ p, AllGiven v p) ∧ g.withAxes.schema := by
  by_cases hg : g.withAxes.schema
  · rw [generateSegment_eq v g hg]
    obtain ⟨a, b, c, d⟩ := v
    cases a <;> cases b <;> cases c <;> cases d <;>
      simp [npVertex, NpVertex.coords, AllGiven, hg]
    rename_i a b c d
    exact ⟨⟨a, b, c, d⟩, rfl, rfl, rfl, rfl⟩
  · unfold generateSegment
    simp [hg]

/-- The documented rule: one reference point and complete geometry data suffice. -/
def ReferencePointSuffices : Prop :=
  ∀ (a : V3 ℝ) (g : SegGeo), (∀ x ∈ g.inner ++ g.outer ++ g.common, ∃ y, x = some (.fin y)) →
    g.schema → ∃ s, generateSegment ⟨some a, none, none, none⟩ g = .ok s

/-- **C67.** The documented definition by reference point and geometry data never works, not even
for one input. -/
theorem C67_reference_point_false :
    ¬ ReferencePointSuffices ∧
    ∀ (v : Corners (Option (V3 ℝ))) (g : SegGeo), (¬ ∃ p, AllGiven v p) →
      ∃ e, generateSegment v g = .error e := by
  have hall : ∀ (v : Corners (Option (V3 ℝ))) (g : SegGeo), (¬ ∃ p, AllGiven v p) →
      ∃ e, generateSegment v g = .error e := by
    intro v g h
    cases hs : generateSegment v g with
    | error e => exact ⟨e, rfl⟩
    | ok s => exact absurd ((C67_four_vertices v g).1 ⟨s, hs⟩).1 h
  refine ⟨fun h => ?_, hall⟩
  let g : SegGeo :=
    ⟨some (.fin 1), some (.fin 1), some (.fin 1), some (.fin 0.5), some (.fin 1), some (.fin 1),
      some (.fin 1), some (.fin 0.5), some (.fin 1), some (.fin 1), some (.fin 1)⟩
  obtain ⟨s, hs⟩ := h ⟨0, 0, 0⟩ g (by
    simp only [g, SegGeo.inner, SegGeo.outer, SegGeo.common]
    intro x hx
    simp only [List.mem_append, List.mem_cons, List.not_mem_nil, or_false] at hx
    rcases hx with ((rfl | rfl | rfl | rfl) | (rfl | rfl | rfl | rfl)) | (rfl | rfl | rfl) <;>
      exact ⟨_, rfl⟩) (by
    simp only [g, SegGeo.schema, inRange]; norm_num)
  obtain ⟨e, he⟩ := hall ⟨some ⟨0, 0, 0⟩, none, none, none⟩ g (by
    rintro ⟨p, _, hb, _⟩; cases hb)
  rw [hs] at he; cases he

/-- A trapezoidal segment. -/
def demoTrapezoid : Corners (V3 ℝ) := ⟨⟨0, 0, 0⟩, ⟨1, 3, 4⟩, ⟨3, 3, 4⟩, ⟨4, 0, 0⟩⟩

theorem fresh_schema : SegGeo.fresh.withAxes.schema := by
  simp [SegGeo.fresh, SegGeo.withAxes, SegGeo.schema, inRange]; norm_num

example : ∃ s, generateSegment ⟨some demoTrapezoid.a, some demoTrapezoid.b, some demoTrapezoid.c,
    some demoTrapezoid.d⟩ SegGeo.fresh = .ok s :=
  (C67_four_vertices _ _).2 ⟨⟨demoTrapezoid, rfl, rfl, rfl, rfl⟩, fresh_schema⟩

/-! ## C68: the geometry of a generated segment -/

theorem generate_ok {v : Corners (Option (V3 ℝ))} {g : SegGeo} {s : GenSegment}
    (h : generateSegment v g = .ok s) :
    AllGiven v s.vertices ∧ s.geometry = derivedGeo s.vertices g.withAxes := by
  have hg : g.withAxes.schema := ((C67_four_vertices v g).1 ⟨s, h⟩).2
  rw [generateSegment_eq v g hg] at h
  obtain ⟨a, b, c, d⟩ := v
  cases a <;> cases b <;> cases c <;> cases d <;>
    simp [npVertex, NpVertex.coords] at h
  subst h
  exact ⟨⟨rfl, rfl, rfl, rfl⟩, rfl⟩

theorem degrees_radians (x : ℝ) : radians (degrees x) = x := by
  unfold radians degrees
  field_simp

theorem radians_neg_degrees (x : ℝ) : radians (-degrees x) = -x := by
  unfold radians degrees
  field_simp

theorem tan_atan2 (y x : ℝ) : Real.tan (atan2 y x) = y / x := Complex.tan_arg _

/-- **C68.** Generating a segment keeps the given vertices; chords are the distances between the
vertices of a section, the span is the distance of the leading edge ends in the y-z plane, and
with the sweep angle it gives their distance in x.  Chord, span and sweep values given by the
user are not used. -/
theorem C68_derived (v : Corners (Option (V3 ℝ))) (g : SegGeo) (s : GenSegment)
    (h : generateSegment v g = .ok s) :
    AllGiven v s.vertices ∧
    s.geometry.innerChord = some (.fin (s.vertices.d - s.vertices.a).norm) ∧
    s.geometry.outerChord = some (.fin (s.vertices.c - s.vertices.b).norm) ∧
    ∃ span sweep, s.geometry.span = some (.fin span) ∧ 0 ≤ span ∧
      span ^ 2 = (s.vertices.b.y - s.vertices.a.y) ^ 2 + (s.vertices.b.z - s.vertices.a.z) ^ 2 ∧
      s.geometry.sweep = some (.fin sweep) ∧
      (span ≠ 0 → span * Real.tan (radians sweep) = s.vertices.b.x - s.vertices.a.x) ∧
      -90 ≤ sweep ∧ sweep ≤ 90 := by
  obtain ⟨h1, h2⟩ := generate_ok h
  refine ⟨h1, by rw [h2]; rfl, by rw [h2]; rfl, _, _, by rw [h2]; rfl, Real.sqrt_nonneg _, ?_,
    by rw [h2]; rfl, ?_, ?_⟩
  · rw [Real.sq_sqrt (add_nonneg (mul_self_nonneg _) (mul_self_nonneg _))]
    simp only [V3.sub_y, V3.sub_z]; ring
  · intro h0
    rw [degrees_radians, tan_atan2, mul_div_cancel₀ _ h0, V3.sub_x]
  · have hp := Real.pi_pos
    have habs : |atan2 (s.vertices.b - s.vertices.a).x
        (√((s.vertices.b - s.vertices.a).y * (s.vertices.b - s.vertices.a).y +
          (s.vertices.b - s.vertices.a).z * (s.vertices.b - s.vertices.a).z))| ≤ Real.pi / 2 :=
      Complex.abs_arg_le_pi_div_two_iff.2 (Real.sqrt_nonneg _)
    obtain ⟨l, u⟩ := abs_le.1 habs
    unfold degrees
    constructor
    · calc (-90 : ℝ) = -(Real.pi / 2) * (180 / Real.pi) := by field_simp; norm_num
        _ ≤ _ := mul_le_mul_of_nonneg_right l (by positivity)
    · calc _ ≤ Real.pi / 2 * (180 / Real.pi) := mul_le_mul_of_nonneg_right u (by positivity)
        _ = 90 := by field_simp; norm_num

/-- **C68.** The angles of a section describe its chord: twist `alpha` and the angle `beta` in the
x-y plane, for a chord that runs backwards. -/
theorem C68_angles (v : Corners (Option (V3 ℝ))) (g : SegGeo) (s : GenSegment)
    (h : generateSegment v g = .ok s) :
    (0 < (s.vertices.d - s.vertices.a).x → ∃ alpha beta,
      s.geometry.innerAlpha = some (.fin alpha) ∧ s.geometry.innerBeta = some (.fin beta) ∧
      (s.vertices.d - s.vertices.a).z = -(s.vertices.d - s.vertices.a).x * Real.tan (radians alpha) ∧
      (s.vertices.d - s.vertices.a).y = -(s.vertices.d - s.vertices.a).x * Real.tan (radians beta)) ∧
    (0 < (s.vertices.c - s.vertices.b).x → ∃ alpha beta,
      s.geometry.outerAlpha = some (.fin alpha) ∧ s.geometry.outerBeta = some (.fin beta) ∧
      (s.vertices.c - s.vertices.b).z = -(s.vertices.c - s.vertices.b).x * Real.tan (radians alpha) ∧
      (s.vertices.c - s.vertices.b).y = -(s.vertices.c - s.vertices.b).x * Real.tan (radians beta)) := by
  obtain ⟨_, h2⟩ := generate_ok h
  have key : ∀ e : V3 ℝ, 0 < e.x → ∃ k, chordData e = some k ∧
      e.z = -e.x * Real.tan (radians k.alpha) ∧ e.y = -e.x * Real.tan (radians k.beta) := by
    intro e he
    have hp : 0 < e.x * e.x + e.y * e.y :=
      add_pos_of_pos_of_nonneg (mul_pos he he) (mul_self_nonneg _)
    have hr : 0 < √(e.x * e.x + e.y * e.y) := Real.sqrt_pos.2 hp
    refine ⟨_, by simp only [chordData]; rw [if_neg hr.ne'], ?_, ?_⟩
    · simp only
      rw [radians_neg_degrees, mul_div_cancel₀ _ hr.ne', Real.tan_neg, tan_atan2]
      field_simp
    · simp only
      rw [radians_neg_degrees, Real.tan_neg, Real.tan_arcsin]
      have h3 : 1 - (e.y / √(e.x * e.x + e.y * e.y)) ^ 2 =
          (e.x / √(e.x * e.x + e.y * e.y)) ^ 2 := by
        rw [div_pow, div_pow, Real.sq_sqrt hp.le]
        field_simp; ring
      rw [h3, Real.sqrt_sq (by positivity)]
      field_simp
  constructor
  · intro hx
    obtain ⟨k, hk, h3, h4⟩ := key _ hx
    exact ⟨k.alpha, k.beta, by rw [h2]; simp [derivedGeo, hk, optFlt],
      by rw [h2]; simp [derivedGeo, hk, optFlt], h3, h4⟩
  · intro hx
    obtain ⟨k, hk, h3, h4⟩ := key _ hx
    exact ⟨k.alpha, k.beta, by rw [h2]; simp [derivedGeo, hk, optFlt],
      by rw [h2]; simp [derivedGeo, hk, optFlt], h3, h4⟩

example : ∃ s, generateSegment ⟨some demoTrapezoid.a, some demoTrapezoid.b, some demoTrapezoid.c,
    some demoTrapezoid.d⟩ SegGeo.fresh = .ok s ∧ s.geometry.span = some (.fin 5) ∧
    s.geometry.innerChord = some (.fin 4) := by
  refine ⟨_, generateSegment_eq _ _ fresh_schema, ?_, ?_⟩
  · simp only [derivedGeo, demoTrapezoid, V3.sub_y, V3.sub_z]
    norm_num
    rw [show (25 : ℝ) = 5 ^ 2 by norm_num, Real.sqrt_sq (by norm_num)]
  · simp only [derivedGeo, demoTrapezoid, V3.norm, V3.sub_x, V3.sub_y, V3.sub_z]
    norm_num
    rw [show (16 : ℝ) = 4 ^ 2 by norm_num, Real.sqrt_sq (by norm_num)]

/-- The documented rule that generating a segment puts its vertices in order: the leading edge
points A and B in front of the trailing edge points D and C. -/
def OrderEnforced : Prop :=
  ∀ v g s, generateSegment v g = .ok s →
    s.vertices.a.x ≤ s.vertices.d.x ∧ s.vertices.b.x ≤ s.vertices.c.x

/-- **C68.** The documented ordering of the vertices is not enforced: a segment with leading and
trailing edge swapped is accepted as it is. -/
theorem C68_order_false : ¬ OrderEnforced := by
  intro h
  have := h ⟨some ⟨1, 0, 0⟩, some ⟨1, 1, 0⟩, some ⟨0, 1, 0⟩, some ⟨0, 0, 0⟩⟩ SegGeo.fresh _
    (generateSegment_eq _ _ fresh_schema)
  norm_num at this

/-! ## C69: dihedral -/

/-- The dihedral angle of the axis: of the line between the axis points of inner and outer
section. -/
noncomputable def axisDihedral (p : Corners (V3 ℝ)) (axI axO : ℝ) : ℝ :=
  let pI := p.a + axI • (p.d - p.a)
  let pO := p.b + axO • (p.c - p.b)
  degrees (atan2 (pO.z - pI.z) (pO.y - pI.y))

/-- The documented rule: "dihedral applied along axis". -/
def DihedralOfAxis : Prop :=
  ∀ v g s axI axO, generateSegment v g = .ok s → g.innerAxis = some (.fin axI) →
    g.outerAxis = some (.fin axO) → 0 < (s.vertices.d - s.vertices.a).x →
    0 < (s.vertices.c - s.vertices.b).x →
    s.geometry.dihedral = some (.fin (axisDihedral s.vertices axI axO))

theorem chord_offset (e : V3 ℝ) (he : e.x ≠ 0) (axis : ℝ) :
    ∃ k, chordData e = some k ∧ axisOffset k axis = (axis * e.y, -(axis * e.z)) := by
  have hp : 0 < e.x * e.x + e.y * e.y :=
    add_pos_of_pos_of_nonneg (mul_self_pos.2 he) (mul_self_nonneg _)
  have hr : √(e.x * e.x + e.y * e.y) ≠ 0 := (Real.sqrt_pos.2 hp).ne'
  refine ⟨_, by simp only [chordData]; rw [if_neg hr], ?_⟩
  simp only [axisOffset, radians_neg_degrees, mul_div_cancel₀ _ hr, Real.tan_neg, tan_atan2]
  refine Prod.ext ?_ ?_
  · field_simp
  · field_simp

theorem dihedral_eq {v : Corners (Option (V3 ℝ))} {g : SegGeo} {s : GenSegment} {axI axO : ℝ}
    (h : generateSegment v g = .ok s) (hI : g.innerAxis = some (.fin axI))
    (hO : g.outerAxis = some (.fin axO)) (h1 : (s.vertices.d - s.vertices.a).x ≠ 0)
    (h2 : (s.vertices.c - s.vertices.b).x ≠ 0) :
    s.geometry.dihedral = some (.fin (degrees (atan2
      ((s.vertices.b - s.vertices.a).z +
        (axI * (s.vertices.d - s.vertices.a).z - axO * (s.vertices.c - s.vertices.b).z))
      ((s.vertices.b - s.vertices.a).y +
        (axO * (s.vertices.c - s.vertices.b).y - axI * (s.vertices.d - s.vertices.a).y))))) := by
  obtain ⟨_, hg⟩ := generate_ok h
  obtain ⟨ki, hki, hoi⟩ := chord_offset _ h1 axI
  obtain ⟨ko, hko, hoo⟩ := chord_offset _ h2 axO
  rw [hg]
  simp only [derivedGeo, SegGeo.withAxes, hI, hO, Option.getD_some, axisVal, hki, hko, dihedralOf,
    hoi, hoo]
  congr 4
  ring

/-- **C69.** The reported dihedral is not the one of the axis: a segment that is twisted about a
horizontal axis gets a dihedral. -/
theorem C69_dihedral_false : ¬ DihedralOfAxis := by
  intro h
  let g : SegGeo := { SegGeo.fresh with innerAxis := some (.fin 0.25), outerAxis := some (.fin 0.25) }
  have hg : g.withAxes.schema := by
    simp [g, SegGeo.fresh, SegGeo.withAxes, SegGeo.schema, inRange]; norm_num
  have hok := generateSegment_eq
    ⟨some ⟨0, 0, 0⟩, some ⟨0, 1, 0.25⟩, some ⟨1, 1, -0.75⟩, some ⟨1, 0, 0⟩⟩ g hg
  have e1 := h _ g _ 0.25 0.25 hok rfl rfl (by simp) (by simp)
  have e2 := dihedral_eq (axI := 0.25) (axO := 0.25) hok rfl rfl (by simp) (by simp)
  rw [e2] at e1
  simp only [Option.some.injEq, Flt.fin.injEq, axisDihedral, V3.sub_y, V3.sub_z,
    V3.add_y, V3.add_z, V3.smul_y, V3.smul_z] at e1
  have e3 := congrArg (fun x => Real.tan (radians x)) e1
  simp only [degrees_radians, tan_atan2] at e3
  norm_num at e3

/-- **C69 (partial).** The reported dihedral is that of the axis if the chords run parallel to the
x-y plane, or if both axes lie on the leading edge.  Missing: twisted segments, where the offsets
enter with the wrong sign. -/
theorem C69_dihedral_partial (v : Corners (Option (V3 ℝ))) (g : SegGeo) (s : GenSegment)
    (axI axO : ℝ) (h : generateSegment v g = .ok s) (hI : g.innerAxis = some (.fin axI))
    (hO : g.outerAxis = some (.fin axO)) (h1 : (s.vertices.d - s.vertices.a).x ≠ 0)
    (h2 : (s.vertices.c - s.vertices.b).x ≠ 0)
    (ht : ((s.vertices.d - s.vertices.a).z = 0 ∧ (s.vertices.c - s.vertices.b).z = 0) ∨
      (axI = 0 ∧ axO = 0)) :
    s.geometry.dihedral = some (.fin (axisDihedral s.vertices axI axO)) := by
  rw [dihedral_eq h hI hO h1 h2]
  unfold axisDihedral
  simp only [V3.add_z, V3.add_y, V3.smul_z, V3.smul_y]
  have hz : (s.vertices.b - s.vertices.a).z +
        (axI * (s.vertices.d - s.vertices.a).z - axO * (s.vertices.c - s.vertices.b).z) =
      s.vertices.b.z + axO * (s.vertices.c - s.vertices.b).z -
        (s.vertices.a.z + axI * (s.vertices.d - s.vertices.a).z) := by
    rcases ht with ⟨t1, t2⟩ | ⟨rfl, rfl⟩
    · rw [t1, t2, V3.sub_z]; ring
    · rw [V3.sub_z]; ring
  rw [hz]
  congr 4
  simp only [V3.sub_y]; ring

example : ∃ s, generateSegment ⟨some demoTrapezoid.a, some demoTrapezoid.b, some demoTrapezoid.c,
      some demoTrapezoid.d⟩
      { SegGeo.fresh with innerAxis := some (.fin 0.5), outerAxis := some (.fin 0.25) } = .ok s ∧
    (s.vertices.d - s.vertices.a).x ≠ 0 ∧ (s.vertices.c - s.vertices.b).x ≠ 0 ∧
    (s.vertices.d - s.vertices.a).z = 0 ∧ (s.vertices.c - s.vertices.b).z = 0 := by
  refine ⟨_, generateSegment_eq _ _ ?_, ?_⟩
  · simp [SegGeo.fresh, SegGeo.withAxes, SegGeo.schema, inRange]; norm_num
  · simp only [demoTrapezoid, V3.sub_x, V3.sub_z]; norm_num

/-! ## C53 for generated wings -/

/-- The horizontal-vertical distance of the leading edge ends in the y-z plane is zero. -/
def NoSpan (p : Corners (V3 ℝ)) : Prop := p.a.y = p.b.y ∧ p.a.z = p.b.z

theorem generated_span {v : Corners (Option (V3 ℝ))} {g : SegGeo} {s : GenSegment}
    (h : generateSegment v g = .ok s) :
    0 ≤ fltVal s.geometry.span ∧ (fltVal s.geometry.span = 0 ↔ NoSpan s.vertices) := by
  obtain ⟨_, _, _, span, sweep, hs, h0, h1, _⟩ := C68_derived v g s h
  rw [hs]
  refine ⟨h0, ?_⟩
  simp only [fltVal, NoSpan]
  constructor
  · rintro rfl
    constructor <;> nlinarith
  · rintro ⟨h2, h3⟩
    rw [h2, h3] at h1
    have : span ^ 2 = 0 := by rw [h1]; ring
    exact pow_eq_zero_iff (two_ne_zero) |>.1 this

/-- **C53.** A wing is generated exactly if each of its segments is and, if there are any, not all
leading edges run in x-direction; then the positions of the segments are contiguous along the
span. -/
theorem C53_generated (segs : List (Corners (Option (V3 ℝ)) × SegGeo)) :
    (∀ out, generateWing segs = .ok out →
      mapE (fun s => generateSegment s.1 s.2) segs = .ok (out.map (·.1)) ∧
      Contiguous (out.map fun o => fltVal o.1.geometry.span) (out.map (·.2))) ∧
    (∀ gs, mapE (fun s => generateSegment s.1 s.2) segs = .ok gs →
      (gs ≠ [] → ∃ s ∈ gs, ¬ NoSpan s.vertices) → ∃ out, generateWing segs = .ok out) ∧
    (∀ gs, mapE (fun s => generateSegment s.1 s.2) segs = .ok gs → gs ≠ [] →
      (∀ s ∈ gs, NoSpan s.vertices) → generateWing segs = .error .zeroDivision) := by
  have hspan : ∀ gs, mapE (fun s => generateSegment s.1 s.2) segs = .ok gs → ∀ s ∈ gs,
      0 ≤ fltVal s.geometry.span ∧ (fltVal s.geometry.span = 0 ↔ NoSpan s.vertices) := by
    intro gs hgs s hs
    obtain ⟨x, _, _, hx⟩ := forall₂_mem_right (mapE_ok_mem hgs) hs
    exact generated_span hx
  have hzero : ∀ gs, mapE (fun s => generateSegment s.1 s.2) segs = .ok gs → gs ≠ [] →
      (∀ s ∈ gs, NoSpan s.vertices) → generateWing segs = .error .zeroDivision := by
    intro gs hgs hne h0
    have := C53_no_span (gs.map fun s => fltVal s.geometry.span) (by simpa using hne) (by
      intro x hx
      obtain ⟨s, hs, rfl⟩ := List.mem_map.1 hx
      exact (hspan gs hgs s hs).2.2 (h0 s hs))
    unfold generateWing
    simp only [hgs, this]
  have hpos : ∀ gs, mapE (fun s => generateSegment s.1 s.2) segs = .ok gs →
      (gs ≠ [] → ∃ s ∈ gs, ¬ NoSpan s.vertices) →
      ∃ ps, positions (gs.map fun s => fltVal s.geometry.span) = .ok ps ∧
        Contiguous (gs.map fun s => fltVal s.geometry.span) ps := by
    intro gs hgs h0
    by_cases hne : gs = []
    · subst hne
      exact ⟨[], rfl, ⟨rfl, by simp, by simp, by simp, by simp, by simp⟩⟩
    · obtain ⟨s, hs, hs0⟩ := h0 hne
      refine C53_positions _ ?_ ⟨_, List.mem_map.2 ⟨s, hs, rfl⟩, ?_⟩
      · intro x hx
        obtain ⟨s, hs, rfl⟩ := List.mem_map.1 hx
        exact (hspan gs hgs s hs).1
      · exact fun h => hs0 ((hspan gs hgs s hs).2.1 h)
  refine ⟨?_, ?_, hzero⟩
  · intro out hout
    cases hgs : mapE (fun s => generateSegment s.1 s.2) segs with
    | error e => unfold generateWing at hout; simp [hgs] at hout
    | ok gs =>
      have h0 : gs ≠ [] → ∃ s ∈ gs, ¬ NoSpan s.vertices := by
        intro hne
        by_contra hc
        push Not at hc
        rw [hzero gs hgs hne hc] at hout
        cases hout
      obtain ⟨ps, hps, hc⟩ := hpos gs hgs h0
      unfold generateWing at hout
      simp only [hgs, hps, Except.ok.injEq] at hout
      subst hout
      have hl : gs.length = ps.length := by
        have := hc.length; simpa using this.symm
      have e1 : (gs.zip ps).map (·.1) = gs := List.map_fst_zip hl.le
      have e2 : (gs.zip ps).map (·.2) = ps := List.map_snd_zip hl.ge
      have e3 : (gs.zip ps).map (fun o => fltVal o.1.geometry.span) =
          gs.map fun s => fltVal s.geometry.span := by
        conv_rhs => rw [← e1]
        rw [List.map_map]; rfl
      rw [e1, e2, e3]
      exact ⟨rfl, hc⟩
  · intro gs hgs h0
    obtain ⟨ps, hps, _⟩ := hpos gs hgs h0
    exact ⟨gs.zip ps, by unfold generateWing; simp only [hgs, hps]⟩

example : ∃ out, generateWing [(⟨some demoTrapezoid.a, some demoTrapezoid.b, some demoTrapezoid.c,
      some demoTrapezoid.d⟩, SegGeo.fresh)] = .ok out := by
  have h := generateSegment_eq ⟨some demoTrapezoid.a, some demoTrapezoid.b, some demoTrapezoid.c,
      some demoTrapezoid.d⟩ SegGeo.fresh fresh_schema
  refine (C53_generated _).2.1 [_] (by simp only [mapE, h]; rfl) fun _ => ⟨_, by simp; rfl, ?_⟩
  simp only [NoSpan, demoTrapezoid]; norm_num

/-! ## C54: size -/

/-- All points an aircraft consists of, for the purpose of its size: the origin, the vertices and
the mirror images of the vertices of symmetric wings. -/
inductive AircraftPoint (wings : List (ℕ × List (Corners (V3 ℝ)))) : V3 ℝ → Prop
  | origin : AircraftPoint wings ⟨0, 0, 0⟩
  | vertex {w v p} : w ∈ wings → v ∈ w.2 → p ∈ [v.a, v.b, v.c, v.d] → AircraftPoint wings p
  | mirror {w v p q} : w ∈ wings → v ∈ w.2 → p ∈ [v.a, v.b, v.c, v.d] →
      mirrorPoint p w.1 = .ok q → AircraftPoint wings q

/-- `lo` and `hi` are the corners of the smallest box with edges parallel to the axes that
contains the set. -/
def IsBoxOf (S : Set (V3 ℝ)) (lo hi : V3 ℝ) : Prop :=
  (IsLeast (V3.x '' S) lo.x ∧ IsGreatest (V3.x '' S) hi.x) ∧
  (IsLeast (V3.y '' S) lo.y ∧ IsGreatest (V3.y '' S) hi.y) ∧
  (IsLeast (V3.z '' S) lo.z ∧ IsGreatest (V3.z '' S) hi.z)

theorem lower_eq (a b : ℝ) : lower a b = min a b := by
  unfold lower; split_ifs with h
  · exact (min_eq_right h.le).symm
  · exact (min_eq_left (not_lt.1 h)).symm

theorem raise_eq (a b : ℝ) : raise a b = max a b := by
  unfold raise; split_ifs with h
  · exact (max_eq_right h.le).symm
  · exact (max_eq_left (not_lt.1 h)).symm

/-- The coordinates of the vertices of a segment. -/
def coordSet (f : V3 ℝ → ℝ) (v : Corners (V3 ℝ)) : Set ℝ := {f v.a, f v.b, f v.c, f v.d}

theorem isLeast_min (f : V3 ℝ → ℝ) (v : Corners (V3 ℝ)) :
    IsLeast (coordSet f v) (min (min (min (f v.a) (f v.b)) (f v.c)) (f v.d)) := by
  have := ((isLeast_singleton (a := f v.a)).union (isLeast_singleton (a := f v.b))).union
    (isLeast_singleton (a := f v.c)) |>.union (isLeast_singleton (a := f v.d))
  have e : coordSet f v = {f v.a} ∪ {f v.b} ∪ {f v.c} ∪ {f v.d} := by
    ext t; simp only [coordSet, Set.mem_union, Set.mem_insert_iff, Set.mem_singleton_iff]; tauto
  rw [e]
  exact this

theorem isGreatest_max (f : V3 ℝ → ℝ) (v : Corners (V3 ℝ)) :
    IsGreatest (coordSet f v) (max (max (max (f v.a) (f v.b)) (f v.c)) (f v.d)) := by
  have := ((isGreatest_singleton (a := f v.a)).union (isGreatest_singleton (a := f v.b))).union
    (isGreatest_singleton (a := f v.c)) |>.union (isGreatest_singleton (a := f v.d))
  have e : coordSet f v = {f v.a} ∪ {f v.b} ∪ {f v.c} ∪ {f v.d} := by
    ext t; simp only [coordSet, Set.mem_union, Set.mem_insert_iff, Set.mem_singleton_iff]; tauto
  rw [e]
  exact this

theorem isLeast_neg {T : Set ℝ} {a : ℝ} (h : IsGreatest T a) : IsLeast ((-·) '' T) (-a) := by
  refine ⟨⟨a, h.1, rfl⟩, ?_⟩
  rintro _ ⟨t, ht, rfl⟩
  exact neg_le_neg (h.2 ht)

theorem isGreatest_neg {T : Set ℝ} {a : ℝ} (h : IsLeast T a) : IsGreatest ((-·) '' T) (-a) := by
  refine ⟨⟨a, h.1, rfl⟩, ?_⟩
  rintro _ ⟨t, ht, rfl⟩
  exact neg_le_neg (h.2 ht)

/-- Smallest and largest element. -/
def IsRange (T : Set ℝ) (l h : ℝ) : Prop := IsLeast T l ∧ IsGreatest T h

theorem range_step {T : Set ℝ} {l h : ℝ} (H : IsRange T l h) (f : V3 ℝ → ℝ)
    (v : Corners (V3 ℝ)) :
    IsRange (T ∪ coordSet f v)
      (lower l (min (min (min (f v.a) (f v.b)) (f v.c)) (f v.d)))
      (raise h (max (max (max (f v.a) (f v.b)) (f v.c)) (f v.d))) := by
  rw [lower_eq, raise_eq]
  exact ⟨H.1.union (isLeast_min f v), H.2.union (isGreatest_max f v)⟩

theorem range_mirror {T : Set ℝ} {l h : ℝ} (H : IsRange T l h) (f : V3 ℝ → ℝ)
    (v : Corners (V3 ℝ)) :
    IsRange (T ∪ (-·) '' coordSet f v)
      (lower l (-max (max (max (f v.a) (f v.b)) (f v.c)) (f v.d)))
      (raise h (-min (min (min (f v.a) (f v.b)) (f v.c)) (f v.d))) := by
  rw [lower_eq, raise_eq]
  exact ⟨H.1.union (isLeast_neg (isGreatest_max f v)), H.2.union (isGreatest_neg (isLeast_min f v))⟩

/-- The vertices of a segment and their mirror images. -/
def segPts (sym : ℕ) (v : Corners (V3 ℝ)) : Set (V3 ℝ) :=
  {q | ∃ p ∈ [v.a, v.b, v.c, v.d], q = p ∨ mirrorPoint p sym = .ok q}

theorem image_segPts (sym : ℕ) (v : Corners (V3 ℝ)) (f : V3 ℝ → ℝ) (S : Set (V3 ℝ)) :
    (∀ m : V3 ℝ → V3 ℝ, (∀ p, mirrorPoint p sym = .ok (m p)) → (∀ p, f (m p) = f p) →
      f '' (S ∪ segPts sym v) = f '' S ∪ coordSet f v) ∧
    (∀ m : V3 ℝ → V3 ℝ, (∀ p, mirrorPoint p sym = .ok (m p)) → (∀ p, f (m p) = -f p) →
      f '' (S ∪ segPts sym v) = f '' S ∪ coordSet f v ∪ (-·) '' coordSet f v) ∧
    ((∀ p q : V3 ℝ, mirrorPoint p sym ≠ .ok q) →
      f '' (S ∪ segPts sym v) = f '' S ∪ coordSet f v) := by
  have hv : ∀ t, t ∈ coordSet f v ↔ ∃ p ∈ [v.a, v.b, v.c, v.d], f p = t := by
    intro t; simp [coordSet, eq_comm]
  refine ⟨?_, ?_, ?_⟩
  · intro m hm hf
    rw [Set.image_union]
    congr 1
    ext t
    rw [hv]
    constructor
    · rintro ⟨q, ⟨p, hp, rfl | hq⟩, rfl⟩
      · exact ⟨q, hp, rfl⟩
      · rw [hm] at hq; cases hq; exact ⟨p, hp, (hf p).symm⟩
    · rintro ⟨p, hp, rfl⟩; exact ⟨p, ⟨p, hp, Or.inl rfl⟩, rfl⟩
  · intro m hm hf
    rw [Set.image_union, Set.union_assoc]
    congr 1
    ext t
    simp only [Set.mem_union, Set.mem_image, hv]
    constructor
    · rintro ⟨q, ⟨p, hp, rfl | hq⟩, rfl⟩
      · exact Or.inl ⟨q, hp, rfl⟩
      · rw [hm] at hq; cases hq; exact Or.inr ⟨f p, ⟨p, hp, rfl⟩, (hf p).symm⟩
    · rintro (⟨p, hp, rfl⟩ | ⟨_, ⟨p, hp, rfl⟩, rfl⟩)
      · exact ⟨p, ⟨p, hp, Or.inl rfl⟩, rfl⟩
      · exact ⟨m p, ⟨p, hp, Or.inr (hm p)⟩, hf p⟩
  · intro hm
    rw [Set.image_union]
    congr 1
    ext t
    rw [hv]
    constructor
    · rintro ⟨q, ⟨p, hp, rfl | hq⟩, rfl⟩
      · exact ⟨q, hp, rfl⟩
      · exact absurd hq (hm p q)
    · rintro ⟨p, hp, rfl⟩; exact ⟨p, ⟨p, hp, Or.inl rfl⟩, rfl⟩

theorem box_step {S : Set (V3 ℝ)} {b : BBox} (H : IsBoxOf S b.lo b.hi) (sym : ℕ)
    (v : Corners (V3 ℝ)) : IsBoxOf (S ∪ segPts sym v) (b.step sym v).lo (b.step sym v).hi := by
  obtain ⟨hx, hy, hz⟩ := H
  have sx := range_step hx V3.x v
  have sy := range_step hy V3.y v
  have sz := range_step hz V3.z v
  unfold BBox.step
  simp only [Corners.minPt, Corners.maxPt]
  split_ifs with h1 h2 h3
  · subst h1
    have hm : ∀ p : V3 ℝ, mirrorPoint p 1 = .ok ⟨p.x, p.y, -p.z⟩ := fun p => rfl
    refine ⟨?_, ?_, ?_⟩
    · rw [(image_segPts 1 v V3.x S).1 _ hm fun _ => rfl]; exact sx
    · rw [(image_segPts 1 v V3.y S).1 _ hm fun _ => rfl]; exact sy
    · rw [(image_segPts 1 v V3.z S).2.1 _ hm fun _ => rfl]; exact range_mirror sz V3.z v
  · subst h2
    have hm : ∀ p : V3 ℝ, mirrorPoint p 2 = .ok ⟨p.x, -p.y, p.z⟩ := fun p => rfl
    refine ⟨?_, ?_, ?_⟩
    · rw [(image_segPts 2 v V3.x S).1 _ hm fun _ => rfl]; exact sx
    · rw [(image_segPts 2 v V3.y S).2.1 _ hm fun _ => rfl]; exact range_mirror sy V3.y v
    · rw [(image_segPts 2 v V3.z S).1 _ hm fun _ => rfl]; exact sz
  · subst h3
    have hm : ∀ p : V3 ℝ, mirrorPoint p 3 = .ok ⟨-p.x, p.y, p.z⟩ := fun p => rfl
    refine ⟨?_, ?_, ?_⟩
    · rw [(image_segPts 3 v V3.x S).2.1 _ hm fun _ => rfl]; exact range_mirror sx V3.x v
    · rw [(image_segPts 3 v V3.y S).1 _ hm fun _ => rfl]; exact sy
    · rw [(image_segPts 3 v V3.z S).1 _ hm fun _ => rfl]; exact sz
  · have hm : ∀ p q : V3 ℝ, mirrorPoint p sym ≠ .ok q := by
      intro p q; simp [mirrorPoint, h1, h2, h3]
    refine ⟨?_, ?_, ?_⟩
    · rw [(image_segPts sym v V3.x S).2.2 hm]; exact sx
    · rw [(image_segPts sym v V3.y S).2.2 hm]; exact sy
    · rw [(image_segPts sym v V3.z S).2.2 hm]; exact sz

theorem box_wing (sym : ℕ) : ∀ (segs : List (Corners (V3 ℝ))) (S : Set (V3 ℝ)) (b : BBox),
    IsBoxOf S b.lo b.hi →
    IsBoxOf (S ∪ {q | ∃ v ∈ segs, q ∈ segPts sym v})
      (segs.foldl (fun box v => box.step sym v) b).lo
      (segs.foldl (fun box v => box.step sym v) b).hi
  | [], S, b, H => by simpa using H
  | v :: rest, S, b, H => by
    have := box_wing sym rest _ _ (box_step H sym v)
    rw [Set.union_assoc] at this
    have e : {q | ∃ v' ∈ v :: rest, q ∈ segPts sym v'} =
        segPts sym v ∪ {q | ∃ v ∈ rest, q ∈ segPts sym v} := by ext q; simp
    rw [e]
    exact this

theorem box_wings : ∀ (wings : List (ℕ × List (Corners (V3 ℝ)))) (S : Set (V3 ℝ)) (b : BBox),
    IsBoxOf S b.lo b.hi →
    IsBoxOf (S ∪ {q | ∃ w ∈ wings, ∃ v ∈ w.2, q ∈ segPts w.1 v})
      (wings.foldl (fun box w => w.2.foldl (fun box v => box.step w.1 v) box) b).lo
      (wings.foldl (fun box w => w.2.foldl (fun box v => box.step w.1 v) box) b).hi
  | [], S, b, H => by simpa using H
  | w :: rest, S, b, H => by
    have := box_wings rest _ _ (box_wing w.1 w.2 S b H)
    rw [Set.union_assoc] at this
    have e : {q | ∃ w' ∈ w :: rest, ∃ v ∈ w'.2, q ∈ segPts w'.1 v} =
        {q | ∃ v ∈ w.2, q ∈ segPts w.1 v} ∪
          {q | ∃ w ∈ rest, ∃ v ∈ w.2, q ∈ segPts w.1 v} := by ext q; simp
    rw [e]
    exact this

/-- **C54.** The size of an aircraft is the diagonal of the smallest axis-parallel box that
contains the origin, all vertices and all their mirror images. -/
theorem C54_size (wings : List (ℕ × List (Corners (V3 ℝ)))) :
    ∃ lo hi, IsBoxOf {p | AircraftPoint wings p} lo hi ∧ aircraftSize wings = (hi - lo).norm := by
  refine ⟨(bboxOf wings).lo, (bboxOf wings).hi, ?_, rfl⟩
  have h0 : IsBoxOf {(⟨0, 0, 0⟩ : V3 ℝ)} (BBox.mk 0 0).lo (BBox.mk 0 0).hi := by
    simp [IsBoxOf, isLeast_singleton, isGreatest_singleton]
  have := box_wings wings _ _ h0
  have e : {p | AircraftPoint wings p} =
      {⟨0, 0, 0⟩} ∪ {q | ∃ w ∈ wings, ∃ v ∈ w.2, q ∈ segPts w.1 v} := ?_
  · rw [e]; exact this
  ext q
  constructor
  · rintro (_ | ⟨hw, hv, hp⟩ | ⟨hw, hv, hp, hq⟩)
    · exact Or.inl rfl
    · exact Or.inr ⟨_, hw, _, hv, _, hp, Or.inl rfl⟩
    · exact Or.inr ⟨_, hw, _, hv, _, hp, Or.inr hq⟩
  · rintro (rfl | ⟨w, hw, v, hv, p, hp, rfl | hq⟩)
    · exact .origin
    · exact .vertex hw hv hp
    · exact .mirror hw hv hp hq

/-- **C54.** Any two points of the aircraft are at most its size apart. -/
theorem C54_distance (wings : List (ℕ × List (Corners (V3 ℝ)))) (p q : V3 ℝ)
    (hp : AircraftPoint wings p) (hq : AircraftPoint wings q) :
    (p - q).norm ≤ aircraftSize wings := by
  obtain ⟨lo, hi, ⟨⟨x1, x2⟩, ⟨y1, y2⟩, ⟨z1, z2⟩⟩, h⟩ := C54_size wings
  rw [h]
  have bx : ∀ {a l h : ℝ} {b : ℝ}, l ≤ a → a ≤ h → l ≤ b → b ≤ h →
      (a - b) * (a - b) ≤ (h - l) * (h - l) := by
    intro a l h b h1 h2 h3 h4
    nlinarith [mul_nonneg (by linarith : 0 ≤ h - l - (a - b)) (by linarith : 0 ≤ h - l + (a - b))]
  refine Real.sqrt_le_sqrt ?_
  simp only [V3.sub_x, V3.sub_y, V3.sub_z]
  have mx := bx (x1.2 ⟨p, hp, rfl⟩) (x2.2 ⟨p, hp, rfl⟩) (x1.2 ⟨q, hq, rfl⟩) (x2.2 ⟨q, hq, rfl⟩)
  have my := bx (y1.2 ⟨p, hp, rfl⟩) (y2.2 ⟨p, hp, rfl⟩) (y1.2 ⟨q, hq, rfl⟩) (y2.2 ⟨q, hq, rfl⟩)
  have mz := bx (z1.2 ⟨p, hp, rfl⟩) (z2.2 ⟨p, hp, rfl⟩) (z1.2 ⟨q, hq, rfl⟩) (z2.2 ⟨q, hq, rfl⟩)
  linarith

/-- **C54.** The size is zero exactly if all vertices lie at the origin. -/
theorem C54_zero (wings : List (ℕ × List (Corners (V3 ℝ)))) :
    aircraftSize wings = 0 ↔
      ∀ w ∈ wings, ∀ v ∈ w.2, ∀ p ∈ [v.a, v.b, v.c, v.d], p = ⟨0, 0, 0⟩ := by
  constructor
  · intro h w hw v hv p hp
    have := C54_distance wings p ⟨0, 0, 0⟩ (.vertex hw hv hp) .origin
    rw [h] at this
    have h0 := le_antisymm this (Real.sqrt_nonneg _)
    unfold V3.norm at h0
    rw [Real.sqrt_eq_zero (add_nonneg (add_nonneg (mul_self_nonneg _) (mul_self_nonneg _))
      (mul_self_nonneg _))] at h0
    simp only [V3.sub_x, V3.sub_y, V3.sub_z, sub_zero] at h0
    have hx := mul_self_nonneg p.x
    have hy := mul_self_nonneg p.y
    have hz := mul_self_nonneg p.z
    ext
    · exact mul_self_eq_zero.1 (by linarith)
    · exact mul_self_eq_zero.1 (by linarith)
    · exact mul_self_eq_zero.1 (by linarith)
  · intro h
    have hall : ∀ p, AircraftPoint wings p → p = ⟨0, 0, 0⟩ := by
      rintro p (_ | ⟨hw, hv, hp⟩ | ⟨hw, hv, hp, hq⟩)
      · rfl
      · exact h _ hw _ hv _ hp
      · rw [h _ hw _ hv _ hp] at hq
        unfold mirrorPoint at hq
        split_ifs at hq <;> · cases hq; simp
    obtain ⟨lo, hi, ⟨⟨x1, x2⟩, ⟨y1, y2⟩, ⟨z1, z2⟩⟩, hs⟩ := C54_size wings
    have z : ∀ {f : V3 ℝ → ℝ} {a : ℝ}, f ⟨0, 0, 0⟩ = 0 →
        a ∈ f '' {p | AircraftPoint wings p} → a = 0 := by
      rintro f a hf ⟨p, hp, rfl⟩
      rw [hall p hp, hf]
    rw [hs]
    simp [V3.norm, z (f := V3.x) rfl x1.1, z (f := V3.x) rfl x2.1, z (f := V3.y) rfl y1.1,
      z (f := V3.y) rfl y2.1, z (f := V3.z) rfl z1.1, z (f := V3.z) rfl z2.1]

example : AircraftPoint [(2, [demoTrapezoid])] ⟨1, -3, 4⟩ :=
  .mirror (w := (2, [demoTrapezoid])) (v := demoTrapezoid) (p := demoTrapezoid.b)
    (by simp) (by simp) (by simp) rfl

/-! ## C55: areas -/

theorem foldl_sum {α : Type*} (f : α → ℝ) (l : List α) :
    l.foldl (fun acc a => acc + f a) 0 = (l.map f).sum := by
  have : ∀ acc : ℝ, l.foldl (fun acc a => acc + f a) acc = acc + (l.map f).sum := by
    induction l with
    | nil => simp
    | cons a rest ih =>
      intro acc; simp only [List.foldl_cons, ih, List.map_cons, List.sum_cons]; ring
  rw [this]; ring

/-- **C55.** The aircraft area is the sum of the areas of all segments of all wings, and the wing
span the sum of the (non-negative) spans of its segments. -/
theorem C55_sums (wings : List (List GenSegment)) (spans : List ℝ) :
    aircraftArea wings = (wings.flatten.map fun s => s.geometry.area).sum ∧
    (∀ w ∈ wings, wingArea w = (w.map fun s => s.geometry.area).sum) ∧
    spanTotal spans = (spans.map abs).sum := by
  have hw : ∀ w, wingArea w = (w.map fun s => s.geometry.area).sum := fun w => foldl_sum _ w
  refine ⟨?_, fun w _ => hw w, spanTotal_eq spans⟩
  unfold aircraftArea
  rw [foldl_sum]
  induction wings with
  | nil => simp
  | cons w rest ih => simp only [List.map_cons, List.sum_cons, List.flatten_cons, List.map_append,
      List.sum_append, ih, hw]

/-- Area of a plane quadrilateral with corners a, b, c, d: half the product of its diagonals. -/
noncomputable def quadArea (p : Corners (V3 ℝ)) : ℝ := ((p.c - p.a).cross (p.d - p.b)).norm / 2

/-- **C55.** If both chords run in x-direction (backwards), the area of a generated segment is the
area of the quadrilateral. -/
theorem C55_trapezoid (v : Corners (Option (V3 ℝ))) (g : SegGeo) (s : GenSegment)
    (h : generateSegment v g = .ok s) (ci co : ℝ) (hci : 0 ≤ ci) (hco : 0 ≤ co)
    (hi : s.vertices.d = s.vertices.a + ci • ⟨1, 0, 0⟩)
    (ho : s.vertices.c = s.vertices.b + co • ⟨1, 0, 0⟩) :
    s.geometry.area = quadArea s.vertices := by
  obtain ⟨_, hg⟩ := generate_ok h
  have nx : ∀ {c : ℝ} {p q : V3 ℝ}, 0 ≤ c → p = q + c • ⟨1, 0, 0⟩ → (p - q).norm = c := by
    rintro c p q hc rfl
    simp only [V3.norm, V3.sub_x, V3.sub_y, V3.sub_z, V3.add_x, V3.add_y, V3.add_z, V3.smul_x,
      V3.smul_y, V3.smul_z]
    rw [show (q.x + c * 1 - q.x) * (q.x + c * 1 - q.x) +
      (q.y + c * 0 - q.y) * (q.y + c * 0 - q.y) + (q.z + c * 0 - q.z) * (q.z + c * 0 - q.z)
        = c ^ 2 by ring, Real.sqrt_sq hc]
  rw [hg]
  simp only [SegGeo.area, derivedGeo, fltVal, nx hci hi, nx hco ho, quadArea]
  rw [hi, ho]
  simp only [V3.norm, V3.cross_x, V3.cross_y, V3.cross_z, V3.sub_x, V3.sub_y, V3.sub_z, V3.add_x,
    V3.add_y, V3.add_z, V3.smul_x, V3.smul_y, V3.smul_z]
  generalize s.vertices.a = a
  generalize s.vertices.b = b
  have : ∀ t : ℝ, t = (ci + co) ^ 2 * ((b.y - a.y) * (b.y - a.y) + (b.z - a.z) * (b.z - a.z)) →
      √t = (ci + co) * √((b.y - a.y) * (b.y - a.y) + (b.z - a.z) * (b.z - a.z)) := by
    rintro t rfl
    rw [Real.sqrt_mul (by positivity), Real.sqrt_sq (by positivity)]
  conv_rhs => rw [this _ (by ring)]
  ring

example : (demoTrapezoid.d = demoTrapezoid.a + (4 : ℝ) • ⟨1, 0, 0⟩) ∧
    (demoTrapezoid.c = demoTrapezoid.b + (2 : ℝ) • ⟨1, 0, 0⟩) := by
  constructor <;> ext <;> simp [demoTrapezoid]
  norm_num

end Verif
