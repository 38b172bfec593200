import Verif.Props.WingOrder
import Verif.Props.ProgramExamples

/-!
# Property C124: the order of the wings in the aircraft file
-/

set_option linter.unnecessarySeqFocus false

namespace Verif

open V3

/-! ## Specification -/

/-- The second project differs from the first in the order of the wings in its aircraft files only. -/
structure Project.Reordered (P P2 : Project) : Prop where
  base : P2.base = P.base
  root : P2.root = P.root
  settings : P2.settings = P.settings
  state : P2.state = P.state
  deformation : P2.deformation = P.deformation
  missing : ∀ name, P.aircraft name = none → P2.aircraft name = none
  aircraft : ∀ name f, P.aircraft name = some f → ∃ f2, P2.aircraft name = some f2 ∧
    f2.uid = f.uid ∧ f2.refs = f.refs ∧ f2.wings.Perm f.wings

/-! ## Loading -/

theorem loadAircraft_reordered {root : String} {airfoilOk : String → Bool} {f f2 : FileAircraft}
    (hr : f2.refs = f.refs) (hp : f2.wings.Perm f.wings) {ac : LoadedAircraft}
    (h : loadAircraft root airfoilOk f = .ok ac) :
    ∃ ac2, loadAircraft root airfoilOk f2 = .ok ac2 ∧ ac2.refs = ac.refs ∧
      ac2.wings.Perm ac.wings := by
  have hok := (C92_accepted_iff _ _ _).1 ⟨_, h⟩
  have hok2 : FileOk root airfoilOk f2 :=
    ⟨⟨fun hm => hok.names.1 ((hp.map _).mem_iff.1 hm), ((hp.map _).nodup_iff).2 hok.names.2⟩,
      by rw [hr]; exact hok.area, by rw [hr]; exact hok.span, by rw [hr]; exact hok.chord,
      fun w hw => hok.wings w (hp.mem_iff.1 hw)⟩
  obtain ⟨ac2, h2⟩ := (C92_accepted_iff _ _ _).2 hok2
  refine ⟨ac2, h2, ?_, ?_⟩
  · rw [(C92_content _ _ _ _ h2).2.1, (C92_content _ _ _ _ h).2.1, hr]
  · have key : ∀ {f : FileAircraft} {ac : LoadedAircraft}, loadAircraft root airfoilOk f = .ok ac →
        mapE (loadWing root airfoilOk) f.wings = .ok ac.wings := by
      intro f ac h
      unfold loadAircraft at h
      cases h1 : checkNames [] (f.wings.map (·.uid)) with
      | error e => simp [h1] at h
      | ok u =>
      simp only [h1] at h
      split_ifs at h with href
      cases h2 : mapE (loadWing root airfoilOk) f.wings with
      | error e => simp [h2] at h
      | ok ws =>
      simp only [h2, Except.ok.injEq] at h
      rw [← h]
    have k1 := key h
    have k2 := key h2
    by_cases hne : ac.wings = []
    · have e : f.wings = [] := by
        have := (mapE_ok k1).length_eq
        rw [hne] at this
        exact List.eq_nil_of_length_eq_zero this
      have e2 : f2.wings = [] := by
        rw [e] at hp
        exact hp.eq_nil
      rw [e2] at k2
      have k3 : (.ok [] : Except PyErr (List LoadedWing)) = .ok ac2.wings := k2
      rw [hne, ← Except.ok.inj k3]
    · obtain ⟨w0, -⟩ := List.exists_mem_of_ne_nil _ hne
      rw [(mapE_okOr w0 k1).2, (mapE_okOr w0 k2).2]
      exact hp.map _

theorem setWing_reordered {α : Type*} {uid : String} {f : DefWing α → DefWing α}
    {ws ws2 r : ODict (DefWing α)} (hp : ws2.Perm ws) (hn : ws.keys.Nodup)
    (h : setWing uid f ws = .ok r) :
    ∃ r2, setWing uid f ws2 = .ok r2 ∧ r2.Perm r ∧ r.keys.Nodup := by
  by_cases hu : uid ∈ ws.keys
  · have hk : ws2.keys.Perm ws.keys := hp.map _
    rw [setWing_eq uid f ws hn hu] at h
    cases h
    refine ⟨_, setWing_eq uid f ws2 (hk.nodup_iff.2 hn) (hk.mem_iff.2 hu), hp.map _, ?_⟩
    unfold ODict.keys at hn ⊢
    rw [List.map_map]
    exact hn
  · rw [setWing_missing uid f ws hu] at h
    cases h

theorem loadDeformation_reordered {α : Type*} : ∀ {fields : List (String × α)}
    {ws ws2 r : ODict (DefWing α)}, ws2.Perm ws → ws.keys.Nodup →
    loadDeformation fields ws = .ok r →
    ∃ r2, loadDeformation fields ws2 = .ok r2 ∧ r2.Perm r ∧ r.keys.Nodup
  | [], ws, ws2, r, hp, hn, h => by
    cases h
    exact ⟨ws2, rfl, hp, hn⟩
  | (uid, field) :: rest, ws, ws2, r, hp, hn, h => by
    unfold loadDeformation at h ⊢
    by_cases h1 : startsUnderscore uid = true
    · rw [if_pos h1] at h ⊢
      exact loadDeformation_reordered hp hn h
    · rw [if_neg h1] at h ⊢
      by_cases h2 : endsM uid = true
      · rw [if_pos h2] at h ⊢
        cases h3 : setWing (String.ofList (removeM uid.toList))
          (fun w => { w with defFieldMirror := some field }) ws with
        | error e => rw [h3] at h; cases h
        | ok ws' =>
          simp only [h3] at h
          obtain ⟨r2, e, p, n⟩ := setWing_reordered hp hn h3
          simp only [e]
          exact loadDeformation_reordered p n h
      · rw [if_neg h2] at h ⊢
        cases h3 : setWing uid (fun w => { w with defField := some field }) ws with
        | error e => rw [h3] at h; cases h
        | ok ws' =>
          simp only [h3] at h
          obtain ⟨r2, e, p, n⟩ := setWing_reordered hp hn h3
          simp only [e]
          exact loadDeformation_reordered p n h

theorem lookup_reordered {β : Type*} {d d2 : List (String × β)} (hp : d2.Perm d)
    (hn : (d.map Prod.fst).Nodup) (k : String) : d2.lookup k = d.lookup k := by
  cases h : d.lookup k with
  | none =>
    rw [lookup_none] at h ⊢
    exact fun v hm => h v (hp.mem_iff.1 hm)
  | some v =>
    exact lookup_of_mem (((hp.map _).nodup_iff).2 hn) (hp.mem_iff.2 (lookup_mem h))

/-- The wings of a loaded aircraft with all that an analysis reads. -/
theorem loaded_wingData (W : World) (ac : LoadedAircraft) (defs : ODict (DefWing (DefField ℝ))) :
    wingData (ac.lattice W defs) ac.toP = ac.wings.map fun w => ⟨w.toP, w.geo defs,
      fun k eta xsi => match w.segments[k]? with
        | some s => W.camber s.airfoilInner s.airfoilOuter eta xsi
        | none => 0⟩ := by
  unfold wingData allWings LoadedAircraft.toP
  apply List.ext_getElem?
  intro i
  have key : ∀ {α : Type} (l : List α) n i, (enumFrom' n l)[i]? = l[i]?.map fun a => (n + i, a) := by
    intro α l
    induction l with
    | nil => intro n i; rfl
    | cons a rest ih =>
      intro n i
      unfold enumFrom'
      cases i with
      | zero => rfl
      | succ i =>
        rw [List.getElem?_cons_succ, List.getElem?_cons_succ, ih]
        congr 1
        funext a
        rw [show n + 1 + i = n + (i + 1) by omega]
  rw [List.getElem?_map, List.getElem?_map, key, List.getElem?_map]
  cases h : ac.wings[i]? with
  | none => rfl
  | some w =>
    simp only [Option.map_some, Option.some.injEq, Nat.zero_add]
    unfold LoadedAircraft.lattice
    simp only [h, Option.bind_some]
    rfl

theorem lattice_reordered (W : World) {ac ac2 : LoadedAircraft}
    {defs defs2 : ODict (DefWing (DefField ℝ))} (hp : ac2.wings.Perm ac.wings)
    (hn : (ac.wings.map (·.uid)).Nodup) (hd : defs2.Perm defs) (hdn : defs.keys.Nodup) :
    Reordered (ac.lattice W defs) (ac2.lattice W defs2) ac.toP ac2.toP := by
  constructor
  · show ac2.deflection = ac.deflection
    funext wing control
    unfold LoadedAircraft.deflection
    have : (ac2.wings.find? fun w => w.uid == wing) = ac.wings.find? fun w => w.uid == wing := by
      cases h : ac.wings.find? fun w => w.uid == wing with
      | none =>
        rw [List.find?_eq_none] at h ⊢
        exact fun w hw => h w (hp.mem_iff.1 hw)
      | some w =>
        have h1 := List.find?_some h
        simp only [beq_iff_eq] at h1
        subst h1
        exact find_uid (((hp.map _).nodup_iff).2 hn) (hp.mem_iff.2 (List.mem_of_find?_eq_some h))
    rw [this]
  · rw [loaded_wingData, loaded_wingData]
    have : ∀ w : LoadedWing, w.geo defs2 = w.geo defs := by
      intro w
      funext k
      unfold LoadedWing.geo
      rw [lookup_reordered hd hdn]
    simp only [this]
    exact hp.map _

/-- **C124** (project): if the wings are given in another order in the aircraft file, the run of the
project finishes just as well, and all forces, moments and coefficients are the same. -/
theorem C124_project (W : World) (hW : Lapack W.dgesv) (P P2 : Project) (h : P.Reordered P2)
    (hC : ∀ s, loadSettings W.suffix P.settings = .ok s → 0 ≤ s.int "vlm_autopanels_c")
    (out : RunOut) (hr : runProject W P = .ok out) :
    ∃ out', runProject W P2 = .ok out' ∧ ∀ x, loadProject W P = .ok x → ∀ i < x.state.num,
      ∀ c ∈ runColumns, out'.value c.1 i = out.value c.1 i := by
  unfold runProject at hr
  cases hx : loadProject W P with
  | error e => rw [hx] at hr; cases hr
  | ok x =>
  rw [hx] at hr
  simp only at hr
  have hx' := hx
  unfold loadProject at hx'
  cases h1 : loadSettings W.suffix P.settings with
  | error e => rw [h1] at hx'; cases hx'
  | ok s =>
  simp only [h1] at hx'
  cases h2 : loadAircraftFrom W P s with
  | error e => simp only [h2] at hx'; cases hx'
  | ok ac =>
  simp only [h2] at hx'
  cases h3 : s.stateIsCpacs W.upper with
  | error e => simp only [h3] at hx'; cases hx'
  | ok cp =>
  simp only [h3] at hx'
  cases h4 : loadStateFrom W P s cp with
  | error e => simp only [h4] at hx'; cases hx'
  | ok st =>
  simp only [h4] at hx'
  cases h5 : loadDeformationFrom P s ac with
  | error e => simp only [h5] at hx'; cases hx'
  | ok defs =>
  simp only [h5, Except.ok.injEq] at hx'
  subst hx'
  have k1 : loadSettings W.suffix P2.settings = .ok s := by rw [h.settings, h1]
  have k4 : loadStateFrom W P2 s cp = .ok st := by
    rw [← h4]
    unfold loadStateFrom
    rw [h.state]
  by_cases hcp : s.aircraftIsCpacs = true
  · have k2 : loadAircraftFrom W P2 s = .ok ac := by
      unfold loadAircraftFrom at h2 ⊢
      rw [if_pos hcp] at h2 ⊢
      exact h2
    have k5 : loadDeformationFrom P2 s ac = .ok defs := by
      rw [← h5]
      unfold loadDeformationFrom
      rw [h.deformation]
    refine ⟨out, ?_, fun _ _ _ _ _ _ => rfl⟩
    unfold runProject loadProject
    simp only [k1, k2, h3, k4, k5]
    rw [← hr]
    unfold Loaded.env
    rw [h.base]
  · have h2' := h2
    unfold loadAircraftFrom at h2'
    rw [if_neg hcp] at h2'
    cases hf : P.aircraft (s.name "aircraft") with
    | none => rw [hf] at h2'; cases h2'
    | some f =>
    simp only [hf] at h2'
    obtain ⟨f2, hf2, -, e2, e3⟩ := h.aircraft _ f hf
    obtain ⟨ac2, q1, q2, q3⟩ := loadAircraft_reordered e2 e3 h2'
    have hfile := (C92_accepted_iff _ _ _).1 ⟨_, h2'⟩
    obtain ⟨-, -, hw, -⟩ := C92_content _ _ _ _ h2'
    have hnames : ac.wings.map (·.uid) = f.wings.map (·.uid) := by
      have : ∀ {l : List FileWing} {l' : List LoadedWing}, List.Forall₂ (WingFrom P.root) l l' →
          l'.map (·.uid) = l.map (·.uid) := by
        intro l l' hl
        induction hl with
        | nil => rfl
        | cons a _ ih => rw [List.map_cons, List.map_cons, ih, a.uid]
      exact this hw
    have hnod : (ac.wings.map (·.uid)).Nodup := by rw [hnames]; exact hfile.names.2
    have k2 : loadAircraftFrom W P2 s = .ok ac2 := by
      unfold loadAircraftFrom
      rw [if_neg hcp, hf2]
      simp only
      rw [h.root]
      exact q1
    have hund : ac2.undeformed.Perm ac.undeformed := q3.map _
    have hundn : ac.undeformed.keys.Nodup := by
      unfold LoadedAircraft.undeformed ODict.keys
      rw [List.map_map]
      exact hnod
    have k5 : ∃ defs2, loadDeformationFrom P2 s ac2 = .ok defs2 ∧ defs2.Perm defs ∧
        defs.keys.Nodup := by
      unfold loadDeformationFrom at h5 ⊢
      cases hl : s.settings.lookup "deformation" with
      | none => simp only [hl] at h5; cases h5
      | some v =>
        simp only [hl] at h5 ⊢
        by_cases hv : v.truthy = true
        · rw [if_pos hv] at h5 ⊢
          rw [h.deformation]
          cases hd : P.deformation v with
          | none => simp only [hd] at h5; cases h5
          | some fields =>
            simp only [hd] at h5 ⊢
            exact loadDeformation_reordered hund hundn h5
        · rw [if_neg hv] at h5 ⊢
          cases h5
          exact ⟨_, rfl, hund, hundn⟩
    obtain ⟨defs2, k5, k6, k7⟩ := k5
    have hunp : ac.toP.Unpanelled := by
      intro w hw s hs
      obtain ⟨w0, -, rfl⟩ := List.mem_map.1 hw
      obtain ⟨s0, -, rfl⟩ := List.mem_map.1 hs
      rfl
    have hnum : ac.toP.GivenNumC (s.int "vlm_autopanels_c") := by
      refine ⟨hC s h1, ?_⟩
      intro w hw'
      obtain ⟨w0, hw0, rfl⟩ := List.mem_map.1 hw'
      obtain ⟨e, he, hwf⟩ := forall₂_mem_right hw hw0
      constructor
      · intro s' hs' n hn
        obtain ⟨s0, hs0, rfl⟩ := List.mem_map.1 hs'
        obtain ⟨es, hes, hsf⟩ := forall₂_mem_right hwf.segments hs0
        exact (((hfile.wings e he).segments es hes).numC n (by rw [← hsf.numC]; exact hn)).le
      · intro c hc n hn
        rw [hwf.controls_toP] at hc
        obtain ⟨c0, hc0, rfl⟩ := List.mem_map.1 hc
        exact (((hfile.wings e he).controls c0 hc0).2.panels n hn).le
    obtain ⟨out', h', hv⟩ := C124_wing_order _ hW (ac2.lattice W defs2) ac.toP ac2.toP hunp hnum
      (lattice_reordered W q3 hnod k6 k7) st out hr
    refine ⟨out', ?_, ?_⟩
    · unfold runProject loadProject
      simp only [k1, k2, h3, k4, k5]
      rw [← h']
      unfold Loaded.env
      simp only [h.base, q2]
    · intro x hx2
      cases hx2
      exact hv

/-! ## Example -/

/-- A file with two flat wings of one panel each, without mirror images. -/
noncomputable def halfEntry (uid : String) (y0 : ℝ) : FileWing :=
  ⟨uid, 0, [⟨"S", ⟨some (flatCorners y0).a, some (flatCorners y0).b, some (flatCorners y0).c,
    some (flatCorners y0).d⟩, SegGeo.fresh, "NACA0000", "NACA0000", some 1, some 1⟩], []⟩

/-- The right wing first. -/
noncomputable def halvesFile : FileAircraft :=
  ⟨"plane", ⟨1, 1, 1, 0, 0, none⟩, [halfEntry "right" 0, halfEntry "left" (-2/25)]⟩

/-- The left wing first. -/
noncomputable def halvesFile2 : FileAircraft :=
  ⟨"plane", ⟨1, 1, 1, 0, 0, none⟩, [halfEntry "left" (-2/25), halfEntry "right" 0]⟩

theorem halfEntry_ok (uid : String) (y0 : ℝ) :
    WingEntryOk "/home" (fun _ => true) (halfEntry uid y0) := by
  refine ⟨by norm_num [halfEntry], ⟨by simp [halfEntry], by simp [halfEntry]⟩,
    ⟨by simp [halfEntry], by simp [halfEntry]⟩, ?_, by simp [halfEntry], ?_⟩
  · intro s hs
    simp only [halfEntry, List.mem_singleton] at hs
    subst hs
    have hn : ¬ "airfoils".toList <+: "NACA0000".toList := by decide
    exact ⟨⟨flatCorners y0, rfl, rfl, rfl, rfl⟩, fresh_geoOk, by simp, by simp,
      ⟨_, .inr ⟨hn, rfl⟩, rfl⟩, ⟨_, .inr ⟨hn, rfl⟩, rfl⟩⟩
  · intro _
    refine ⟨_, List.mem_singleton.2 rfl, flatCorners y0, ⟨rfl, rfl, rfl, rfl⟩, ?_⟩
    intro h
    have := h.1
    simp [flatCorners] at this

theorem halvesFile_ok : FileOk "/home" (fun _ => true) halvesFile := by
  refine ⟨⟨by simp [halvesFile, halfEntry], by simp [halvesFile, halfEntry]⟩,
    by norm_num [halvesFile], by norm_num [halvesFile], by norm_num [halvesFile], ?_⟩
  intro w hw
  simp only [halvesFile, List.mem_cons, List.not_mem_nil, or_false] at hw
  rcases hw with rfl | rfl <;> exact halfEntry_ok _ _

theorem halvesFile_layout : ∀ w ∈ halvesFile.wings, WingLayoutOk w := by
  intro w hw
  simp only [halvesFile, List.mem_cons, List.not_mem_nil, or_false] at hw
  rcases hw with rfl | rfl <;>
  · refine ⟨?_, ?_, ?_⟩
    · intro u x hx y hy hxy
      simp only [halfEntry, FileWing.requested, List.map_nil, List.not_mem_nil, false_and,
        exists_false, Set.mem_union, Set.mem_insert_iff, Set.mem_singleton_iff, Set.mem_ofPred_eq,
        or_false] at hx hy
      rcases hx with rfl | rfl <;> rcases hy with rfl | rfl <;>
      first | (norm_num at hxy; done) | norm_num
    · simp only [halfEntry, FileWing.requested, List.map_nil]
      exact ⟨by simp, by simp, by simp, by simp, by simp, by simp, by simp⟩
    · intro h
      exact absurd rfl h

theorem forall₂_pair_left {α β : Type*} {R : α → β → Prop} {x y : α} {l : List β}
    (h : List.Forall₂ R [x, y] l) : ∃ a b, l = [a, b] ∧ R x a ∧ R y b := by
  cases h with
  | cons h1 h2 =>
    obtain ⟨b, rfl, h3⟩ := forall₂_singleton_left h2
    exact ⟨_, b, rfl, h1, h3⟩

theorem halvesFile_run : ∃ out, runProject exampleWorld (exampleProject halvesFile) = .ok out := by
  obtain ⟨x, hx, -, hload, hst⟩ := (example_ok halvesFile_ok halvesFile_layout
    ⟨_, List.mem_cons_self .., by simp [halfEntry]⟩).load
  obtain ⟨f, sd, h1, h2, -, -, h5, hr⟩ := loaded_reads (example_native halvesFile) hx
  have h1' : some halvesFile = some f := h1
  cases h1'
  obtain ⟨-, -, hw, -⟩ := C92_content _ _ _ _ hload
  obtain ⟨w1, w2, hws, hw1, hw2⟩ := forall₂_pair_left hw
  have key : ∀ (uid : String) (y0 : ℝ) (w : LoadedWing), WingFrom (exampleProject halvesFile).root
      (halfEntry uid y0) w →
      ∃ span interp dist, w.toP = halfWing uid (halfSeg span interp dist) := by
    intro uid y0 w hw
    obtain ⟨s, hs, hsf⟩ := forall₂_singleton_left hw.segments
    refine ⟨s.toP.span, s.toP.interp, s.toP.dist, ?_⟩
    unfold LoadedWing.toP
    rw [hs, hw.uid, hw.symmetry]
    have hc : w.controls = [] := by
      have := hw.controls.length_eq
      exact List.eq_nil_of_length_eq_zero this.symm
    rw [hc]
    unfold halfWing halfSeg
    simp only [List.map_cons, List.map_nil, PWing.mk.injEq, and_true, List.cons.injEq]
    refine ⟨rfl, rfl, ?_⟩
    unfold LoadedSegment.toP
    rw [hsf.uid, hsf.numC, hsf.numS]
  obtain ⟨a1, a2, a3, ha⟩ := key _ _ _ hw1
  obtain ⟨b1, b2, b3, hb⟩ := key _ _ _ hw2
  have hac : x.aircraft.toP = halvesAc (halfSeg a1 a2 a3) (halfSeg b1 b2 b3) := by
    unfold LoadedAircraft.toP halvesAc
    rw [hws, List.map_cons, List.map_cons, List.map_nil, ha, hb]
  obtain ⟨n1, q1, q2, q3, q4, q5, q6, q7⟩ := oneState_entries hst
  have hgeo : ∀ m uid y0, halvesFile.wings[m]? = some (halfEntry uid y0) →
      (x.env exampleWorld (exampleProject halvesFile)).lat.geo m 0 = flatHalf y0 := by
    intro m uid y0 hm
    obtain ⟨g1, g2, -⟩ := hr.geometry m _ hm 0 _ rfl
    obtain ⟨u1, u2⟩ := hr.undeformed (by simp [IfGiven, exampleSettings]) m 0
    have hv := noSpan_given g1 (show AllGiven _ (flatCorners y0) from ⟨rfl, rfl, rfl, rfl⟩)
    generalize (x.env exampleWorld (exampleProject halvesFile)).lat.geo m 0 = g at *
    cases g
    simp only at hv g2 u1 u2
    subst hv g2 u1 u2
    rfl
  have heps : 0 < (x.env exampleWorld (exampleProject halvesFile)).eps := by
    obtain ⟨y, hy, -, h0⟩ := hr.epsilon
    rw [hy, h0 (by simp [exampleSettings])]
    norm_num
  obtain ⟨out, hout⟩ := halves_finishes a1 a2 a3 b1 b2 b3
    (env := x.env exampleWorld (exampleProject halvesFile)) exactDgesv_lapack heps (hr.rotate.2 (by simp [exampleSettings])) (hgeo 0 _ _ rfl)
    (hgeo 1 _ _ rfl) (by
      intro m k eta xsi
      show (match x.aircraft.wings[m]?.bind fun w => w.segments[k]? with
        | some s => exampleWorld.camber s.airfoilInner s.airfoilOuter eta xsi
        | none => 0) = (0 : ℝ)
      split <;> rfl) (st := x.state) (by rw [n1]; norm_num)
    (fun _ => ⟨10, 1, 5, 0, 0, 0, 0⟩) (by
      intro i hi
      obtain rfl : i = 0 := by omega
      exact ⟨rfl, q1, q2, q3, q4, q5, q6, q7⟩)
  refine ⟨out, ?_⟩
  unfold runProject
  rw [hx]
  simp only
  rw [hac]
  exact hout

/-- Example for **C124**: the two files give the same lift. -/
example : ∃ out out', runProject exampleWorld (exampleProject halvesFile) = .ok out ∧
    runProject exampleWorld (exampleProject halvesFile2) = .ok out' ∧
    out'.value "FL" 0 = out.value "FL" 0 ∧ halvesFile2 ≠ halvesFile := by
  obtain ⟨out, h⟩ := halvesFile_run
  obtain ⟨x, hx, hs, -, hst⟩ := (example_ok halvesFile_ok halvesFile_layout
    ⟨_, List.mem_cons_self .., by simp [halfEntry]⟩).load
  obtain ⟨out', h', hv⟩ := C124_project exampleWorld exactDgesv_lapack (exampleProject halvesFile)
    (exampleProject halvesFile2) ⟨rfl, rfl, rfl, rfl, rfl, by simp [exampleProject], by
      intro name f hf
      simp only [exampleProject] at hf ⊢
      split_ifs at hf ⊢
      cases hf
      exact ⟨halvesFile2, rfl, rfl, rfl, List.Perm.swap _ _ []⟩⟩ (by
      intro s hs'
      obtain ⟨k1, k2, -, -⟩ := C98_content exampleWorld.suffix exampleSettings
        (example_native halvesFile).keys _ hs'
      have := int_positive (fun v hv => k1 "vlm_autopanels_c" v (by decide) hv)
        (k2 ("vlm_autopanels_c", .int 4) (by simp [settingsLeftOut]))
        (by simp [IfGiven, exampleSettings])
      omega) out h
  refine ⟨out, out', h, h', hv x hx 0 (by rw [(oneState_entries hst).1]; norm_num)
    ("FL", fun a => .fin a.R.wind.z) (by simp [runColumns]), ?_⟩
  intro e
  have := congrArg (fun a : FileAircraft => a.wings.map FileWing.uid) e
  simp [halvesFile, halvesFile2, halfEntry] at this

end Verif
