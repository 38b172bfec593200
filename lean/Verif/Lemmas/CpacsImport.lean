import Verif.Model.CpacsProgram
import Verif.Props.CpacsControls
import Verif.Props.AircraftAccept

/-!
# Lemmas: imported wings are entries of an aircraft file
-/

namespace Verif

/-- Keys of a dictionary filled by `add_…`. -/
def KeysOk {α : Type*} (d : ODict α) : Prop := NamesOk (d.map (·.1))

theorem KeysOk.nil {α : Type*} : KeysOk ([] : ODict α) := ⟨by simp, by simp⟩

theorem KeysOk.addNew {α : Type*} {d d' : ODict α} (hd : KeysOk d) {uid : String} {a : α}
    (h : d.addNew uid a = .ok d') : KeysOk d' := by
  obtain ⟨h1, h2, rfl⟩ := addNew_ok h
  have hno : uid ∉ d.map (·.1) := by
    intro hm
    obtain ⟨x, hx, hxe⟩ := List.mem_map.1 hm
    have : d.has uid = true := List.any_eq_true.2 ⟨x, hx, by simp [hxe]⟩
    rw [this] at h2
    cases h2
  refine ⟨?_, ?_⟩
  · rw [List.map_append, List.mem_append]
    rintro (h | h)
    · exact hd.1 h
    · simp only [List.map_cons, List.map_nil, List.mem_singleton] at h
      exact h1 h.symm
  · rw [List.map_append, List.nodup_append]
    refine ⟨hd.2, by simp, ?_⟩
    intro a ha b hb hab
    simp only [List.map_cons, List.map_nil, List.mem_singleton] at hb
    subst hab hb
    exact hno ha

section
variable {K : Type*} [Field K] [LinearOrder K]

theorem importSegments_keys {alnum : Char → Bool} {wing : String} :
    ∀ {l : List (CpacsSegment K)} {idx : ℕ} {d d' : ODict (ImpSegment K)}, KeysOk d →
    importSegments alnum wing idx l d = .ok d' → KeysOk d' := by
  intro l
  induction l with
  | nil => intro idx d d' hd h; cases h; exact hd
  | cons s l ih =>
    intro idx d d' hd h
    unfold importSegments at h
    cases h1 : importSegment alnum wing d idx s with
    | error e => simp [h1] at h
    | ok d1 =>
      simp only [h1] at h
      refine ih ?_ h
      unfold importSegment at h1
      extract_lets name p v at h1
      cases hname : name with
      | error e => rw [hname] at h1; cases h1
      | ok uid =>
        rw [hname] at h1
        simp only at h1
        split at h1
        · exact hd.addNew h1
        · cases h1
        · cases h1

/-- Controls made by the import: keys in order, devices of a known kind. -/
def CtrlsOk (d : ODict (ControlDef K)) : Prop :=
  KeysOk d ∧ ∀ kc ∈ d, kc.2.deviceType = some "slat" ∨ kc.2.deviceType = some "flap"

omit [LinearOrder K] in
theorem makeControl_device {tigl : EtaXsi K} {sec dev : String} {a b c d e f : K} {x : ControlDef K}
    (h : makeControl tigl sec dev a b c d e f = .ok x) : x.deviceType = some dev := by
  unfold makeControl at h
  split at h
  · cases h; rfl
  all_goals cases h

omit [Field K] [LinearOrder K] in
theorem CtrlsOk.addNew {d d' : ODict (ControlDef K)} (hd : CtrlsOk d) {uid : String} {c : ControlDef K}
    (hc : c.deviceType = some "slat" ∨ c.deviceType = some "flap")
    (h : d.addNew uid c = .ok d') : CtrlsOk d' := by
  refine ⟨hd.1.addNew h, ?_⟩
  obtain ⟨-, -, rfl⟩ := addNew_ok h
  intro kc hkc
  rcases List.mem_append.1 hkc with hk | hk
  · exact hd.2 kc hk
  · rw [List.mem_singleton] at hk
    subst hk
    exact hc

omit [LinearOrder K] in
theorem importControls_keys {tigl : EtaXsi K} {sec : String} :
    ∀ {l : List (CpacsControl K)} {st st' : CtrlSt K}, CtrlsOk st.controls →
    importControls tigl sec l st = .ok st' → CtrlsOk st'.controls := by
  intro l
  induction l with
  | nil => intro st st' hd h; cases h; exact hd
  | cons c rest ih =>
    intro st st' hd h
    unfold importControls at h
    cases h1 : importLeading tigl sec c.uid st c.leading with
    | error e => simp [h1] at h
    | ok st1 =>
      simp only [h1] at h
      cases h2 : importTrailing tigl sec c.uid st1 c.trailing with
      | error e => simp [h2] at h
      | ok st2 =>
        simp only [h2] at h
        refine ih ?_ h
        have hd1 : CtrlsOk st1.controls := by
          unfold importLeading at h1
          split at h1
          · cases h1; exact hd
          · split at h1
            · cases h1
            · split at h1
              · cases h1
              · rename_i hm
                split at h1
                · cases h1
                · rename_i ha
                  cases h1
                  exact hd.addNew (.inl (makeControl_device hm)) ha
        unfold importTrailing at h2
        split at h2
        · cases h2; exact hd1
        · split at h2
          · cases h2
          · rename_i hm
            split at h2
            · cases h2
            · rename_i ha
              cases h2
              exact hd1.addNew (.inr (makeControl_device hm)) ha

omit [LinearOrder K] in
theorem importSections_keys {tigl : EtaXsi K} :
    ∀ {l : List (CpacsSection K)} {st st' : CtrlSt K}, CtrlsOk st.controls →
    importSections tigl l st = .ok st' → CtrlsOk st'.controls := by
  intro l
  induction l with
  | nil => intro st st' hd h; cases h; exact hd
  | cons s rest ih =>
    intro st st' hd h
    unfold importSections at h
    cases h1 : importControls tigl s.name s.controls st with
    | error e => simp [h1] at h
    | ok st1 =>
      simp only [h1] at h
      exact ih (importControls_keys hd h1) h

/-- A wing as the import leaves it. -/
structure ImpWingOk (w : ImpWing K) : Prop where
  uid : w.uid ≠ ""
  symmetry : w.symmetry ≤ 3
  segments : KeysOk w.segments
  controls : CtrlsOk w.controls

omit [LinearOrder K] in
theorem setDeflection_keys (e : CpacsDeflection K) {d : ODict (ControlDef K)} (hd : CtrlsOk d) :
    CtrlsOk (setDeflection e d) := by
  have hk : (setDeflection e d).map (·.1) = d.map (·.1) := by
    unfold setDeflection
    rw [List.map_map]
    congr 1
    funext kc
    simp only [Function.comp]
    split_ifs <;> rfl
  refine ⟨?_, ?_⟩
  · unfold KeysOk
    rw [hk]
    exact hd.1
  · intro kc hkc
    unfold setDeflection at hkc
    obtain ⟨x, hx, rfl⟩ := List.mem_map.1 hkc
    have := hd.2 x hx
    split_ifs <;> exact this

omit [LinearOrder K] in
theorem assignDeflection_keys {e : CpacsDeflection K} : ∀ {ws ws' : List (ImpWing K)},
    (∀ w ∈ ws, ImpWingOk w) → assignDeflection e ws = some ws' → ∀ w ∈ ws', ImpWingOk w := by
  intro ws
  induction ws with
  | nil => intro ws' _ h; cases h
  | cons w ws ih =>
    intro ws' hw h
    unfold assignDeflection at h
    have h0 := hw w (by simp)
    have hrest : ∀ w ∈ ws, ImpWingOk w := fun x hx => hw x (List.mem_cons_of_mem _ hx)
    split_ifs at h
    · cases h
      intro x hx
      rcases List.mem_cons.1 hx with rfl | hx
      · exact ⟨h0.uid, h0.symmetry, h0.segments, setDeflection_keys e h0.controls⟩
      · exact hrest x hx
    · cases h1 : assignDeflection e ws with
      | none => simp [h1] at h
      | some ws1 =>
        simp only [h1, Option.some.injEq] at h
        subst h
        intro x hx
        rcases List.mem_cons.1 hx with rfl | hx
        · exact h0
        · exact ih hrest h1 x hx

omit [LinearOrder K] in
theorem assignDeflections_keys : ∀ {l : List (CpacsDeflection K)} {ws ws' : List (ImpWing K)},
    (∀ w ∈ ws, ImpWingOk w) → assignDeflections l ws = .ok ws' → ∀ w ∈ ws', ImpWingOk w := by
  intro l
  induction l with
  | nil => intro ws ws' hw h; cases h; exact hw
  | cons e l ih =>
    intro ws ws' hw h
    unfold assignDeflections at h
    cases h1 : assignDeflection e ws with
    | none => simp [h1] at h
    | some ws1 =>
      simp only [h1] at h
      exact ih (assignDeflection_keys hw h1) h

theorem check_device {c c' : ControlDef K} {sym : ℕ} (h : c.check sym = .ok c') :
    c'.deviceType = c.deviceType := by
  rw [check_ok h]

theorem checkControls_keys {w w' : ImpWing K} (hw : ImpWingOk w) (h : checkControls w = .ok w') :
    ImpWingOk w' := by
  obtain ⟨h1, h2, h3, h4⟩ := checkControls_ok h
  refine ⟨h1 ▸ hw.uid, h2 ▸ hw.symmetry, h3 ▸ hw.segments, ?_, ?_⟩
  · have : w'.controls.map (·.1) = w.controls.map (·.1) := by
      clear h hw h1 h2 h3
      generalize w.controls = l at h4
      generalize w'.controls = m at h4
      induction h4 with
      | nil => rfl
      | cons hx _ ih => rw [List.map_cons, List.map_cons, ih, hx.1]
    unfold KeysOk
    rw [this]
    exact hw.controls.1
  · intro kc hkc
    obtain ⟨x, hx, -, hc⟩ := forall₂_mem_right h4 hkc
    rw [check_device hc]
    exact hw.controls.2 x hx

/-- Each control of the wing is the result of a check. -/
def ImpWingChecked (w : ImpWing K) : Prop :=
  ImpWingOk w ∧ ∀ kc ∈ w.controls, ∃ c : ControlDef K,
    (c.deviceType = some "slat" ∨ c.deviceType = some "flap") ∧ c.check w.symmetry = .ok kc.2

theorem importWing_checked {alnum : Char → Bool} {f : CpacsFile K} {idx : ℕ} {w : CpacsWing K}
    {ws ws' : List (ImpWing K)} (hw : ∀ w ∈ ws, ImpWingOk w)
    (h : importWing alnum f idx w ws = .ok ws') : ∀ w ∈ ws', ImpWingChecked w := by
  obtain ⟨uid, segs, sd, st, ws1, -, -, -, n4, n5, -, n7, n8, n9, h⟩ := importWing_inv h
  have h1 : ∀ w ∈ ws1, ImpWingOk w := by
    refine assignDeflections_keys ?_ n9
    intro x hx
    rcases List.mem_append.1 hx with hx | hx
    · exact hw x hx
    · rw [List.mem_singleton] at hx
      subst hx
      exact ⟨n5, n4, importSegments_keys .nil n7,
        importSections_keys (st := ⟨none, []⟩) ⟨.nil, by simp⟩ n8⟩
  intro x hx
  obtain ⟨y, hy, hxy⟩ := forall₂_mem_right (mapE_ok h) hx
  refine ⟨checkControls_keys (h1 y hy) hxy, ?_⟩
  obtain ⟨-, k2, -, k4⟩ := checkControls_ok hxy
  intro kc hkc
  obtain ⟨c, hc, -, hcc⟩ := forall₂_mem_right k4 hkc
  exact ⟨c.2, (h1 y hy).controls.2 c hc, by rw [k2]; exact hcc⟩

theorem importWingsFrom_checked {alnum : Char → Bool} {f : CpacsFile K} :
    ∀ {l : List (CpacsWing K)} {idx : ℕ} {ws ws' : List (ImpWing K)},
    (∀ w ∈ ws, ImpWingChecked w) → importWingsFrom alnum f idx l ws = .ok ws' →
    ∀ w ∈ ws', ImpWingChecked w := by
  intro l
  induction l with
  | nil => intro idx ws ws' hw h; cases h; exact hw
  | cons w l ih =>
    intro idx ws ws' hw h
    unfold importWingsFrom at h
    cases h1 : importWing alnum f idx w ws with
    | error e => simp [h1] at h
    | ok ws1 =>
      simp only [h1] at h
      exact ih (importWing_checked (fun w hw' => (hw w hw').1) h1) h

end

/-! ## Entries of an aircraft file -/

/-- The imported wing as an entry of an aircraft file. -/
def ImpWing.fileEntry (w : ImpWing ℝ) : FileWing :=
  ⟨w.uid, w.symmetry, w.segments.map ImpSegment.entry, w.controls.map fun kc => ⟨kc.1, kc.2⟩⟩

/-- The imported aircraft as a file. -/
def importedFile (uid : String) (refs : AcRefs) (ws : List (ImpWing ℝ)) : FileAircraft :=
  ⟨uid, refs, ws.map ImpWing.fileEntry⟩

theorem loadControl_checked {sym : ℕ} {uid : String} {c c' : ControlDef ℝ}
    (hd : c.deviceType = some "slat" ∨ c.deviceType = some "flap") (h : c.check sym = .ok c') :
    loadControl sym ⟨uid, c'⟩ = .ok ⟨uid, c'⟩ := by
  refine loadControl_again (c := ⟨uid, c⟩) ?_
  have e : ∀ s, c.deviceType = some s → { c with deviceType := some s } = c := by
    intro s hs
    cases c
    simp only at hs
    rw [hs]
  unfold loadControl
  rcases hd with hd | hd
  · simp only [hd, ControlDef.setDeviceType, List.mem_cons, true_or, not_true_eq_false, if_false,
      e _ hd, h]
  · simp only [hd, ControlDef.setDeviceType, List.mem_cons, true_or, or_true, not_true_eq_false,
      if_false, e _ hd, h]

theorem loadWing_entry {root : String} {airfoilOk : String → Bool} {w : ImpWing ℝ}
    (hw : ImpWingChecked w) :
    loadWing root airfoilOk w.fileEntry = generateImpWing root airfoilOk w := by
  have h1 : ¬ w.symmetry ∉ [0, 1, 2, 3] := by
    have := hw.1.symmetry
    simp only [List.mem_cons, List.not_mem_nil, or_false, not_not]
    omega
  have h2 : checkNames [] ((w.segments.map ImpSegment.entry).map (·.uid)) = .ok () := by
    rw [checkNames_namesOk, List.map_map]
    exact hw.1.segments
  have h3 : checkNames [] ((w.controls.map fun kc => (⟨kc.1, kc.2⟩ : FileControl)).map (·.uid)) =
      .ok () := by
    rw [checkNames_namesOk, List.map_map]
    exact hw.1.controls.1
  have h4 : mapE (loadControl w.symmetry) (w.controls.map fun kc => (⟨kc.1, kc.2⟩ : FileControl)) =
      .ok (w.controls.map fun kc => (⟨kc.1, kc.2⟩ : FileControl)) := by
    have := mapE_map (f := loadControl w.symmetry) (g := id)
      (l := w.controls.map fun kc => (⟨kc.1, kc.2⟩ : FileControl)) (by
        intro c hc
        obtain ⟨kc, hkc, rfl⟩ := List.mem_map.1 hc
        obtain ⟨c, hd, hck⟩ := hw.2 kc hkc
        exact loadControl_checked hd hck)
    rwa [List.map_id] at this
  unfold loadWing ImpWing.fileEntry generateImpWing
  simp only [h2, h3, h4]
  rw [if_neg h1]
  cases mapE (loadSegment root airfoilOk) (w.segments.map ImpSegment.entry) with
  | error e => rfl
  | ok gs => rfl

theorem loadAircraft_imported {root : String} {airfoilOk : String → Bool} {alnum : Char → Bool}
    {f : CpacsFile ℝ} {ws : List (ImpWing ℝ)} (h : importWings alnum f = .ok ws) (uid : String)
    (refs : AcRefs) :
    loadAircraft root airfoilOk (importedFile uid refs ws) =
      generateAircraft root airfoilOk uid refs ws := by
  have hc : ∀ w ∈ ws, ImpWingChecked w := importWingsFrom_checked (by simp) h
  have h1 : checkNames [] ((ws.map ImpWing.fileEntry).map (·.uid)) = .ok () := by
    rw [checkNames_namesOk, List.map_map]
    refine ⟨?_, (C62_import alnum f ws h).2⟩
    intro hm
    obtain ⟨w, hw, hu⟩ := List.mem_map.1 hm
    exact (hc w hw).1.uid hu
  have h2 : mapE (loadWing root airfoilOk) (ws.map ImpWing.fileEntry) =
      mapE (generateImpWing root airfoilOk) ws := by
    clear h h1
    induction ws with
    | nil => rfl
    | cons w ws ih =>
      unfold mapE
      simp only [List.map_cons]
      rw [loadWing_entry (hc w (by simp)), ih fun x hx => hc x (List.mem_cons_of_mem _ hx)]
  unfold loadAircraft generateAircraft importedFile
  simp only [h1, h2]
  cases mapE (generateImpWing root airfoilOk) ws <;> rfl

end Verif
