import Verif.Lemmas.Renamed
import Verif.Props.WingOrderProject

/-!
# Property C129: names do not matter
-/

set_option linter.unnecessarySeqFocus false

namespace Verif

/-! ## Specification -/

/-- Different names stay different, and exactly the empty name becomes the empty name.  (Names that do
not occur in a file may be renamed in any way that fits.) -/
structure Naming.Good (ρ : Naming) : Prop where
  wing : Function.Injective ρ.wing
  seg : ∀ w, Function.Injective (ρ.seg w)
  ctl : ∀ w, Function.Injective (ρ.ctl w)
  wingEmpty : ∀ u, ρ.wing u = "" ↔ u = ""
  segEmpty : ∀ w u, ρ.seg w u = "" ↔ u = ""
  ctlEmpty : ∀ w u, ρ.ctl w u = "" ↔ u = ""

/-- A control with another name on segments with other names. -/
def FileControl.renamed (ρ : Naming) (wing : String) (c : FileControl) : FileControl :=
  ⟨ρ.ctl wing c.uid, { c.data with
    segInner := ρ.seg wing c.data.segInner, segOuter := ρ.seg wing c.data.segOuter }⟩

/-- A wing with another name, and other names of its segments and controls. -/
def FileWing.renamed (ρ : Naming) (w : FileWing) : FileWing :=
  ⟨ρ.wing w.uid, w.symmetry, w.segments.map fun s => { s with uid := ρ.seg w.uid s.uid },
    w.controls.map (FileControl.renamed ρ w.uid)⟩

/-- The new name of a field in the deformation file: names starting with an underscore are ignored;
others belong to a wing or, with `_m`, to its mirror image. -/
inductive Naming.Field (ρ : Naming) : String → String → Prop
  | ignored {a b : String} (ha : ['_'] <+: a.toList) (hb : ['_'] <+: b.toList) : ρ.Field a b
  | half {u : String} (hu : PlainName u) (hv : PlainName (ρ.wing u)) : ρ.Field u (ρ.wing u)
  | mirrored {u : String} (hu : PlainName u) (hv : PlainName (ρ.wing u)) :
      ρ.Field (mirrorName u) (mirrorName (ρ.wing u))

/-- The second project differs from the first in names of wings, segments and controls only (and in the
name of the aircraft). -/
structure Project.Renamed (ρ : Naming) (P P2 : Project) : Prop where
  base : P2.base = P.base
  root : P2.root = P.root
  settings : P2.settings = P.settings
  state : P2.state = P.state
  missing : ∀ name, P.aircraft name = none → P2.aircraft name = none
  aircraft : ∀ name f, P.aircraft name = some f → ∃ f2, P2.aircraft name = some f2 ∧
    f2.refs = f.refs ∧ f2.wings = f.wings.map (FileWing.renamed ρ)
  noFields : ∀ v, P.deformation v = none → P2.deformation v = none
  fields : ∀ v l, P.deformation v = some l → ∃ l2, P2.deformation v = some l2 ∧
    List.Forall₂ (fun a b => ρ.Field a.1 b.1 ∧ b.2 = a.2) l l2

/-! ## Loading -/

theorem checkNames_ren {g : String → String} (hg : Function.Injective g) (he : ∀ u, g u = "" ↔ u = "") :
    ∀ (l seen : List String), checkNames (seen.map g) (l.map g) = checkNames seen l
  | [], _ => rfl
  | s :: rest, seen => by
    rw [List.map_cons]
    unfold checkNames
    rw [← List.map_cons, checkNames_ren hg he rest]
    simp only [he, List.mem_map_of_injective hg]

theorem loadControl_ren {ρ : Naming} (hρ : ρ.Good) (wing : String) (sym : ℕ) (c : FileControl) :
    loadControl sym (c.renamed ρ wing) = (loadControl sym c).map (FileControl.renamed ρ wing) := by
  unfold loadControl
  have key : ∀ d : ControlDef ℝ, ControlDef.check { d with
      segInner := ρ.seg wing d.segInner, segOuter := ρ.seg wing d.segOuter } sym =
      (d.check sym).map fun d => { d with
        segInner := ρ.seg wing d.segInner, segOuter := ρ.seg wing d.segOuter } := by
    intro d
    unfold ControlDef.check
    simp only [(hρ.seg wing).eq_iff]
    split_ifs <;> first
      | rfl
      | (cases checkDeflection d.deflection <;> first
        | rfl
        | (cases checkDeflection d.deflectionMirror <;> rfl))
  cases hd : c.data.deviceType with
  | none =>
    simp only [show (c.renamed ρ wing).data.deviceType = none from hd]
    rfl
  | some t =>
    simp only [show (c.renamed ρ wing).data.deviceType = some t from hd, ControlDef.setDeviceType]
    split_ifs
    · have := key { c.data with deviceType := some t }
      simp only [FileControl.renamed] at this ⊢
      rw [this]
      cases ControlDef.check { c.data with deviceType := some t } sym <;> rfl
    · rfl

/-- A loaded wing with other names. -/
def LoadedWing.renamed (ρ : Naming) (w : LoadedWing) : LoadedWing :=
  ⟨ρ.wing w.uid, w.symmetry, w.segments.map fun s => { s with uid := ρ.seg w.uid s.uid },
    w.controls.map (FileControl.renamed ρ w.uid)⟩

theorem loadSegment_ren (root : String) (ok : String → Bool) (g : String → String) (s : FileSegment) :
    loadSegment root ok { s with uid := g s.uid } = (loadSegment root ok s).map
      fun x => ({ x.1 with uid := g x.1.uid }, x.2) := by
  unfold loadSegment
  dsimp only
  cases generateSegment s.vertices s.geometry with
  | error e => split_ifs <;> rfl
  | ok x => split_ifs <;> rfl

theorem loadWing_ren {ρ : Naming} (hρ : ρ.Good) (root : String) (ok : String → Bool) (w : FileWing) :
    loadWing root ok (w.renamed ρ) = (loadWing root ok w).map (LoadedWing.renamed ρ) := by
  unfold loadWing
  rw [show (w.renamed ρ).symmetry = w.symmetry from rfl]
  by_cases hs : w.symmetry ∉ [0, 1, 2, 3]
  · rw [if_pos hs, if_pos hs]
    rfl
  rw [if_neg hs, if_neg hs]
  have e1 : checkNames [] ((w.renamed ρ).segments.map (·.uid)) =
      checkNames [] (w.segments.map (·.uid)) := by
    rw [← checkNames_ren (hρ.seg w.uid) (hρ.segEmpty w.uid) (w.segments.map _)]
    unfold FileWing.renamed
    rw [List.map_map, List.map_map]
    rfl
  have e2 : checkNames [] ((w.renamed ρ).controls.map (·.uid)) =
      checkNames [] (w.controls.map (·.uid)) := by
    rw [← checkNames_ren (hρ.ctl w.uid) (hρ.ctlEmpty w.uid) (w.controls.map _)]
    unfold FileWing.renamed
    rw [List.map_map, List.map_map]
    rfl
  have e3 : mapE (loadControl w.symmetry) (w.renamed ρ).controls =
      (mapE (loadControl w.symmetry) w.controls).map (List.map (FileControl.renamed ρ w.uid)) :=
    mapE_ren _ _ _ fun c _ => loadControl_ren hρ w.uid w.symmetry c
  have e4 : mapE (loadSegment root ok) (w.renamed ρ).segments =
      (mapE (loadSegment root ok) w.segments).map
        (List.map fun x => ({ x.1 with uid := ρ.seg w.uid x.1.uid }, x.2)) :=
    mapE_ren _ _ _ fun s _ => loadSegment_ren root ok (ρ.seg w.uid) s
  rw [e1, e2, e3, e4]
  cases checkNames [] (w.segments.map (·.uid)) with
  | error e => rfl
  | ok u =>
  cases checkNames [] (w.controls.map (·.uid)) with
  | error e => rfl
  | ok u =>
  cases mapE (loadControl w.symmetry) w.controls with
  | error e => rfl
  | ok cs =>
  cases mapE (loadSegment root ok) w.segments with
  | error e => rfl
  | ok gs =>
  simp only [Except.map, List.map_map]
  rw [show gs.map ((fun g : FileSegment × GenSegment => fltVal g.2.geometry.span) ∘
    fun x => ({ x.1 with uid := ρ.seg w.uid x.1.uid }, x.2)) =
    gs.map fun g => fltVal g.2.geometry.span from rfl]
  cases positions (gs.map fun g => fltVal g.2.geometry.span) with
  | error e => rfl
  | ok ps =>
    simp only [LoadedWing.renamed, FileWing.renamed, Except.ok.injEq, LoadedWing.mk.injEq, true_and,
      and_true]
    rw [List.zip_map_left, List.map_map, List.map_map]
    rfl

/-- A loaded aircraft with other names. -/
def LoadedAircraft.renamed (ρ : Naming) (name : String) (ac : LoadedAircraft) : LoadedAircraft :=
  ⟨name, ac.refs, ac.wings.map (LoadedWing.renamed ρ)⟩

theorem loadAircraft_ren {ρ : Naming} (hρ : ρ.Good) (root : String) (ok : String → Bool)
    {f f2 : FileAircraft} (hr : f2.refs = f.refs) (hw : f2.wings = f.wings.map (FileWing.renamed ρ)) :
    loadAircraft root ok f2 = (loadAircraft root ok f).map (LoadedAircraft.renamed ρ f2.uid) := by
  unfold loadAircraft
  have e1 : checkNames [] (f2.wings.map (·.uid)) = checkNames [] (f.wings.map (·.uid)) := by
    rw [← checkNames_ren hρ.wing hρ.wingEmpty (f.wings.map _), hw, List.map_map, List.map_map]
    rfl
  have e2 : mapE (loadWing root ok) f2.wings =
      (mapE (loadWing root ok) f.wings).map (List.map (LoadedWing.renamed ρ)) := by
    rw [hw]
    exact mapE_ren _ _ _ fun w _ => loadWing_ren hρ root ok w
  rw [e1, e2, hr]
  cases checkNames [] (f.wings.map (·.uid)) with
  | error e => rfl
  | ok u =>
    dsimp only
    cases mapE (loadWing root ok) f.wings <;> split_ifs <;> rfl

/-- The wings with other names. -/
def ODict.ren {α : Type*} (g : String → String) (d : ODict α) : ODict α :=
  d.map fun e => (g e.1, e.2)

theorem setWing_ren {α : Type*} {g : String → String} (hg : Function.Injective g) (uid : String)
    (f : DefWing α → DefWing α) : ∀ ws : ODict (DefWing α),
    setWing (g uid) f (ws.ren g) = (setWing uid f ws).map (ODict.ren g)
  | [] => rfl
  | (k, w) :: rest => by
    have ih := setWing_ren hg uid f rest
    unfold setWing ODict.ren at ih ⊢
    rw [List.map_cons]
    unfold ODict.modifyE
    rw [ih]
    by_cases h : k = uid
    · subst h
      simp [Except.map]
    · have h' : g k ≠ g uid := fun e => h (hg e)
      simp only [h, h', if_false]
      cases ODict.modifyE (fun w => Except.ok (f w)) uid rest <;> rfl

theorem PlainName.starts {u : String} (h : PlainName u) : startsUnderscore u = false := by
  rw [← Bool.not_eq_true, starts_iff]
  exact h.2.1

theorem PlainName.startsM {u : String} (h : PlainName u) : startsUnderscore (mirrorName u) = false := by
  rw [← Bool.not_eq_true, starts_iff, mirrorName_toList]
  intro hp
  cases hw : u.toList with
  | nil => exact h.2.2 (String.toList_eq_nil_iff.1 hw)
  | cons c l =>
    rw [hw] at hp
    refine h.2.1 ?_
    rw [hw]
    simpa using hp

theorem loadDeformation_ren {ρ : Naming} (hρ : ρ.Good) {α : Type*} {l l2 : List (String × α)}
    (h : List.Forall₂ (fun a b => ρ.Field a.1 b.1 ∧ b.2 = a.2) l l2) : ∀ ws : ODict (DefWing α),
    loadDeformation l2 (ws.ren ρ.wing) = (loadDeformation l ws).map (ODict.ren ρ.wing) := by
  induction h with
  | nil => intro ws; rfl
  | @cons a b l l2 hab _ ih =>
    intro ws
    obtain ⟨n, x⟩ := a
    obtain ⟨n2, x2⟩ := b
    obtain ⟨hf, rfl⟩ := hab
    simp only at hf
    unfold loadDeformation
    cases hf with
    | ignored ha hb =>
      rw [if_pos ((starts_iff _).2 ha), if_pos ((starts_iff _).2 hb)]
      exact ih ws
    | half hu hv =>
      rw [hu.starts, hv.starts, not_endsM hu.1, not_endsM hv.1]
      simp only [Bool.false_eq_true, if_false]
      rw [setWing_ren hρ.wing]
      cases setWing n (fun w => { w with defField := some x2 }) ws with
      | error e => rfl
      | ok ws' => exact ih ws'
    | @mirrored u hu hv =>
      rw [hu.startsM, hv.startsM, endsM_mirrorName, endsM_mirrorName, removeM_mirrorName hu.1,
        removeM_mirrorName hv.1]
      simp only [Bool.false_eq_true, if_false, if_true]
      rw [setWing_ren hρ.wing]
      cases setWing u (fun w => { w with defFieldMirror := some x2 }) ws with
      | error e => rfl
      | ok ws' => exact ih ws'

theorem ODict.lookup_ren {α : Type*} {g : String → String} (hg : Function.Injective g) (u : String) :
    ∀ d : ODict α, (d.ren g).lookup (g u) = d.lookup u
  | [] => rfl
  | (k, v) :: rest => by
    have ih := ODict.lookup_ren hg u rest
    unfold ODict.ren at ih ⊢
    rw [List.map_cons, lookup_cons', lookup_cons', ih]
    simp only [hg.eq_iff]

/-! ## The analysis -/

theorem toP_ren (ρ : Naming) (name : String) (ac : LoadedAircraft) :
    (ac.renamed ρ name).toP = ac.toP.ren ρ := by
  unfold LoadedAircraft.toP LoadedAircraft.renamed PAircraft.ren
  simp only [PAircraft.mk.injEq, List.map_map]
  apply List.map_congr_left
  intro w _
  simp only [Function.comp, LoadedWing.toP, LoadedWing.renamed, PWing.ren, PWing.mk.injEq, true_and,
    List.map_map]
  exact ⟨rfl, rfl⟩

theorem lattice_ren {ρ : Naming} (hρ : ρ.Good) (W : World) (name : String) (ac : LoadedAircraft)
    (defs : ODict (DefWing (DefField ℝ))) :
    (ac.lattice W defs).Ren ρ ((ac.renamed ρ name).lattice W (defs.ren ρ.wing)) := by
  have hg : ∀ m : ℕ, (ac.renamed ρ name).wings[m]? = ac.wings[m]?.map (LoadedWing.renamed ρ) :=
    fun m => List.getElem?_map ..
  refine ⟨?_, ?_, ?_⟩
  · funext m k
    unfold LoadedAircraft.lattice
    simp only [hg]
    cases ac.wings[m]? with
    | none => rfl
    | some w =>
      simp only [Option.map_some]
      unfold LoadedWing.geo
      rw [show (w.renamed ρ).uid = ρ.wing w.uid from rfl, ODict.lookup_ren hρ.wing]
      simp only [LoadedWing.renamed, List.getElem?_map, Option.map_map]
      rfl
  · funext m k eta xsi
    unfold LoadedAircraft.lattice
    simp only [hg]
    cases ac.wings[m]? with
    | none => rfl
    | some w =>
      simp only [Option.map_some, Option.bind_some, LoadedWing.renamed, List.getElem?_map]
      cases w.segments[k]? <;> rfl
  · intro u c
    show (ac.renamed ρ name).deflection _ _ = ac.deflection u c
    unfold LoadedAircraft.deflection
    have h1 : ((ac.renamed ρ name).wings.find? fun w => w.uid == ρ.wing u) =
        (ac.wings.find? fun w => w.uid == u).map (LoadedWing.renamed ρ) := by
      show (ac.wings.map (LoadedWing.renamed ρ)).find? _ = _
      rw [List.find?_map]
      congr 2
      funext w
      show (ρ.wing w.uid == ρ.wing u) = (w.uid == u)
      rw [Bool.eq_iff_iff, beq_iff_eq, beq_iff_eq, hρ.wing.eq_iff]
    rw [h1]
    cases hw : ac.wings.find? fun w => w.uid == u with
    | none => rfl
    | some w =>
      have hu : w.uid = u := by simpa using List.find?_some hw
      subst hu
      have h2 : ((w.renamed ρ).controls.find? fun x => x.uid == ρ.ctl w.uid c) =
          (w.controls.find? fun x => x.uid == c).map (FileControl.renamed ρ w.uid) := by
        show (w.controls.map (FileControl.renamed ρ w.uid)).find? _ = _
        rw [List.find?_map]
        congr 2
        funext x
        show (ρ.ctl w.uid x.uid == ρ.ctl w.uid c) = (x.uid == c)
        rw [Bool.eq_iff_iff, beq_iff_eq, beq_iff_eq, (hρ.ctl w.uid).eq_iff]
      simp only [Option.map_some, h2]
      cases w.controls.find? fun x => x.uid == c <;> rfl

theorem panels_congr {X : Type*} (F : ∀ n, Option (Fin n → Panel) → X) {l l' : LatticeData}
    (h1 : l'.num = l.num) (h2 : l'.panel = l.panel) : F l'.num l'.panels = F l.num l.panels := by
  unfold LatticeData.panels
  rw [h2]
  generalize l'.num = n at h1
  subst h1
  rfl

theorem LatticeData.Ren.num {ρ : Naming} {l l' : LatticeData} (h : l.Ren ρ l') : l'.num = l.num := by
  unfold LatticeData.num
  rw [h.book.numP]

theorem LatticeData.Ren.panel {ρ : Naming} {l l' : LatticeData} (h : l.Ren ρ l') :
    l'.panel = l.panel := by
  funext i
  unfold LatticeData.panel LatticeData.panelAt
  rw [h.pts, h.normal]

theorem calcDownwash_ren {ρ : Naming} (env : RunEnv) (lat : LatticeEnv) {l l' : LatticeData}
    (h : l.Ren ρ l') (v : VlmData) :
    calcDownwash { env with lat := lat } l' v = calcDownwash env l v := by
  let F : ∀ n, Option (Fin n → Panel) → Except Stop VlmData := fun n P => match P with
    | none => .error .notFinite
    | some P =>
      match vlmDownwash env.eps P with
      | none => .error .notFinite
      | some A =>
        if n = 0 then .error (.raised .linAlg) else .ok { v with matrix := some (rowsOf A) }
  have e : ∀ (lat : LatticeEnv) (l : LatticeData),
      calcDownwash { env with lat := lat } l v = F l.num l.panels := by
    intro lat l
    simp only [calcDownwash, F]
    cases l.panels with
    | none => rfl
    | some P =>
      dsimp only
      cases vlmDownwash env.eps P <;> rfl
  rw [e, show calcDownwash env l v = _ from e env.lat l]
  exact panels_congr F h.num h.panel

theorem calcBoundary_ren {ρ : Naming} (env : RunEnv) (lat : LatticeEnv) {l l' : LatticeData}
    (h : l.Ren ρ l') (s : FlowState) (v : VlmData) :
    calcBoundary { env with lat := lat } l' s v = calcBoundary env l s v := by
  let F : ∀ n, Option (Fin n → Panel) → Except Stop VlmData := fun _ P => match P with
    | none => .error .notFinite
    | some P => .ok { v with rhs := some (List.ofFn (vlmBoundary s env.refs P)) }
  have e : ∀ (lat : LatticeEnv) (l : LatticeData),
      calcBoundary { env with lat := lat } l s v = F l.num l.panels := by
    intro lat l
    simp only [calcBoundary, F]
    cases l.panels <;> rfl
  rw [e, show calcBoundary env l s v = _ from e env.lat l]
  exact panels_congr F h.num h.panel

theorem calcResults_ren {ρ : Naming} (env : RunEnv) (lat : LatticeEnv) {l l' : LatticeData}
    (h : l.Ren ρ l') (s : FlowState) (v : VlmData) :
    calcResults { env with lat := lat } l' s v = calcResults env l s v := by
  cases hg : v.panelwise "gamma" with
  | none =>
    simp only [calcResults, hg]
    rw [h.num]
  | some g =>
    let F : ∀ n, Option (Fin n → Panel) → Except Stop VlmData := fun _ P => match P with
      | none => .error .notFinite
      | some P =>
        match vlmResults env.eps s env.refs P (fun i => gammaAt g i) with
        | none => .error .notFinite
        | some R =>
          .ok { v with
            panelwise := setItems (panelColumns R) v.panelwise
            forces := (setKnown (forceItems R) v.forces).1
            coeffs := if (setKnown (forceItems R) v.forces).2 then
              (setKnown (coeffItems R) v.coeffs).1 else v.coeffs }
    have e : ∀ (lat : LatticeEnv) (l : LatticeData),
        calcResults { env with lat := lat } l s v = F l.num l.panels := by
      intro lat l
      simp only [calcResults, hg, F]
      cases l.panels with
      | none => rfl
      | some P =>
        dsimp only
        cases vlmResults env.eps s env.refs P (fun i => gammaAt g i) <;> rfl
    rw [e, show calcResults env l s v = _ from e env.lat l]
    exact panels_congr F h.num h.panel

theorem analyse_ren {ρ : Naming} (hρ : ρ.Good) (env : RunEnv) {lat : LatticeEnv}
    (h : env.lat.Ren ρ lat) (ac : PAircraft ℝ) (s : FlowState) (v : VlmData) :
    SameE (fun x y => x.1.Ren ρ y.1 ∧ y.2 = x.2) (analyse env ac s v)
      (analyse { env with lat := lat } (ac.ren ρ) s v) := by
  unfold analyse
  have hl := genLattice_ren hρ.wing hρ.ctl h env.doRot s.alpha s.beta ac
  cases h1 : genLattice env.lat env.doRot s.alpha s.beta ac with
  | error e => rw [hl.error h1]; rfl
  | ok l =>
    obtain ⟨l', e, h2⟩ := hl.ok h1
    simp only [e, orStop, calcDownwash_ren env lat h2, calcBoundary_ren env lat h2,
      calcResults_ren env lat h2]
    cases calcDownwash env l v with
    | error e => rfl
    | ok v1 =>
    dsimp only
    cases calcBoundary env l s v1 with
    | error e => rfl
    | ok v2 =>
    dsimp only
    rw [show calcGamma { env with lat := lat } v2 = calcGamma env v2 from rfl]
    cases calcGamma env v2 with
    | error e => rfl
    | ok v3 =>
    dsimp only
    cases calcResults env l s v3 with
    | error e => rfl
    | ok v4 => exact ⟨h2, rfl⟩

/-- The same variables of the loop with other names. -/
structure LoopSt.Ren (ρ : Naming) (x y : LoopSt) : Prop where
  ac : y.ac = x.ac.ren ρ
  vlm : y.vlm = x.vlm
  table : y.table = x.table
  files : y.files = x.files
  lattice : Option.Rel (LatticeData.Ren ρ) x.lattice y.lattice

theorem runStep_ren {ρ : Naming} (hρ : ρ.Good) (env : RunEnv) {lat : LatticeEnv}
    (h : env.lat.Ren ρ lat) (st : FlightSt ℝ) (i : ℕ) {x y : LoopSt} (hxy : x.Ren ρ y) :
    SameE (LoopSt.Ren ρ) (runStep env st i x) (runStep { env with lat := lat } st i y) := by
  unfold runStep
  cases orStop (st.current i) with
  | error e => rfl
  | ok cur =>
  dsimp only
  have hp : prePanelFirst i y.ac = (prePanelFirst i x.ac).map (PAircraft.ren ρ) := by
    unfold prePanelFirst
    rw [hxy.ac]
    split_ifs
    · exact prePanelling_ren hρ.seg x.ac
    · rfl
  rw [hp]
  cases prePanelFirst i x.ac with
  | error e => rfl
  | ok ac =>
  simp only [Except.map, orStop]
  cases cur.toFlow with
  | none => rfl
  | some s =>
  dsimp only
  have ha := analyse_ren hρ env h ac s x.vlm
  rw [hxy.vlm, hxy.table, hxy.files]
  cases h1 : analyse env ac s x.vlm with
  | error e => rw [ha.error h1]; rfl
  | ok r =>
  obtain ⟨r', e, h2, h3⟩ := ha.ok h1
  obtain ⟨l, v⟩ := r
  obtain ⟨l', v'⟩ := r'
  simp only at h2 h3
  subst h3
  rw [e]
  dsimp only
  rw [show saveAll { env with lat := lat } i cur v' = saveAll env i cur v' from rfl]
  cases saveAll env i cur v' with
  | error e => rfl
  | ok fs =>
  dsimp only
  cases appendAll v'.forces forceColumns x.table with
  | error e => rfl
  | ok t =>
  dsimp only
  cases appendAll v'.coeffs coeffColumns t with
  | error e => rfl
  | ok t' => exact ⟨rfl, rfl, rfl, rfl, .some h2⟩

theorem runLoop_ren {ρ : Naming} (hρ : ρ.Good) (env : RunEnv) {lat : LatticeEnv}
    (h : env.lat.Ren ρ lat) (st : FlightSt ℝ) : ∀ (k i : ℕ) {x y : LoopSt}, x.Ren ρ y →
    SameE (LoopSt.Ren ρ) (runLoop env st k i x) (runLoop { env with lat := lat } st k i y)
  | 0, _, _, _, hxy => hxy
  | k + 1, i, x, y, hxy => by
    unfold runLoop
    have hs := runStep_ren hρ env h st i hxy
    cases h1 : runStep env st i x with
    | error e => rw [hs.error h1, hxy.files]; rfl
    | ok x' =>
      obtain ⟨y', e, h2⟩ := hs.ok h1
      rw [e]
      exact runLoop_ren hρ env h st k (i + 1) h2

/-- The same outcome of a run, up to names in the bookkeeping. -/
structure RunOut.Ren (ρ : Naming) (x y : RunOut) : Prop where
  lattice : x.lattice.Ren ρ y.lattice
  vlm : y.vlm = x.vlm
  table : y.table = x.table
  files : y.files = x.files

theorem standardRun_ren {ρ : Naming} (hρ : ρ.Good) (env : RunEnv) {lat : LatticeEnv}
    (h : env.lat.Ren ρ lat) (ac : PAircraft ℝ) (st : FlightSt ℝ) :
    SameE (RunOut.Ren ρ) (standardRun env ac st)
      (standardRun { env with lat := lat } (ac.ren ρ) st) := by
  unfold standardRun
  rw [show setAutopanels ({ env with lat := lat } : RunEnv).autoC ({ env with lat := lat } : RunEnv).autoS
    (ac.ren ρ) = _ from setAutopanels_ren ρ env.autoC env.autoS ac]
  cases setAutopanels env.autoC env.autoS ac with
  | error e => rfl
  | ok ac1 =>
  simp only [Except.map]
  have hl := runLoop_ren hρ env h st st.num 0 (x := ⟨ac1, VlmData.fresh, Table.fresh, [], none⟩)
    (y := ⟨ac1.ren ρ, VlmData.fresh, Table.fresh, [], none⟩) ⟨rfl, rfl, rfl, rfl, .none⟩
  cases h1 : runLoop env st st.num 0 ⟨ac1, VlmData.fresh, Table.fresh, [], none⟩ with
  | error e => rw [hl.error h1]; rfl
  | ok x =>
  obtain ⟨y, e, h2⟩ := hl.ok h1
  rw [e]
  dsimp only
  rw [h2.table, h2.files, h2.vlm, show saveCpacsMap { env with lat := lat } x.table =
    saveCpacsMap env x.table from rfl]
  cases saveCpacsMap env x.table with
  | error e => rfl
  | ok fs =>
  dsimp only
  have h3 := h2.lattice
  revert h3
  cases x.lattice <;> cases y.lattice <;> intro h3 <;> cases h3
  · rfl
  · rename_i h3
    exact ⟨h3, rfl, rfl, rfl⟩

/-- **C129.** Names do not matter: if the wings, segments and controls of a project get other names,
everywhere in its files and without making two of them equal, then the run of the project has the same
outcome.  It ends with the same exception, having written the same files; or it finishes with the same
table of results, the same result files and the same lattice, point by point. -/
theorem C129_names (W : World) (P P2 : Project) (d : PyDict) (a b : String)
    (hN : NativeProject W P d a b) (ρ : Naming) (hρ : ρ.Good) (h : P.Renamed ρ P2) :
    (∀ e, runProject W P2 = .error e ↔ runProject W P = .error e) ∧
    ∀ out, runProject W P = .ok out → ∃ out', runProject W P2 = .ok out' ∧
      out'.table = out.table ∧ out'.files = out.files ∧ out'.vlm = out.vlm ∧
      out'.lattice.num = out.lattice.num ∧
      (∀ i, out'.lattice.panel i = out.lattice.panel i) ∧
      ∀ u, out'.lattice.book.byWing (ρ.wing u) = (out.lattice.book.byWing u).map
        fun e => { e with wingUid := ρ.wing e.wingUid } := by
  have key : SameE (RunOut.Ren ρ) (runProject W P) (runProject W P2) := by
    unfold runProject loadProject
    rw [h.settings]
    cases h1 : loadSettings W.suffix P.settings with
    | error e => rfl
    | ok s =>
    dsimp only
    have hcp : s.aircraftIsCpacs = false :=
      (loadProject_native hN (by rw [← hN.settings]; exact h1)).1
    have e2 : ∃ name, loadAircraftFrom W P2 s = (loadAircraftFrom W P s).map
        (LoadedAircraft.renamed ρ name) := by
      unfold loadAircraftFrom
      rw [hcp]
      simp only [Bool.false_eq_true, if_false]
      cases hf : P.aircraft (s.name "aircraft") with
      | none => exact ⟨"", by rw [h.missing _ hf]; rfl⟩
      | some f =>
        obtain ⟨f2, q1, q2, q3⟩ := h.aircraft _ f hf
        refine ⟨f2.uid, ?_⟩
        rw [q1, h.root]
        exact loadAircraft_ren hρ P.root W.airfoilOk q2 q3
    obtain ⟨name, e2⟩ := e2
    rw [e2]
    cases loadAircraftFrom W P s with
    | error e => rfl
    | ok ac =>
    simp only [Except.map]
    cases s.stateIsCpacs W.upper with
    | error e => rfl
    | ok cp =>
    dsimp only
    rw [show loadStateFrom W P2 s cp = loadStateFrom W P s cp by unfold loadStateFrom; rw [h.state]]
    cases loadStateFrom W P s cp with
    | error e => rfl
    | ok st =>
    dsimp only
    have e5 : loadDeformationFrom P2 s (ac.renamed ρ name) =
        (loadDeformationFrom P s ac).map (ODict.ren ρ.wing) := by
      have hu : (ac.renamed ρ name).undeformed = ac.undeformed.ren ρ.wing := by
        unfold LoadedAircraft.undeformed LoadedAircraft.renamed ODict.ren
        rw [List.map_map, List.map_map]
        rfl
      unfold loadDeformationFrom
      cases s.settings.lookup "deformation" with
      | none => rfl
      | some v =>
        dsimp only
        rw [hu]
        split_ifs
        · cases hd : P.deformation v with
          | none => rw [h.noFields v hd]; rfl
          | some l =>
            obtain ⟨l2, q1, q2⟩ := h.fields v l hd
            rw [q1]
            exact loadDeformation_ren hρ q2 _
        · rfl
    rw [e5]
    cases loadDeformationFrom P s ac with
    | error e => rfl
    | ok defs =>
    have := standardRun_ren hρ (Loaded.env W P ⟨s, cp, ac, st, defs⟩) (lattice_ren hρ W name ac defs)
      ac.toP st
    rw [← toP_ren ρ name] at this
    simp only [Except.map, Loaded.env] at this ⊢
    rw [h.base]
    exact this
  constructor
  · intro e
    constructor
    · intro he
      cases hr : runProject W P with
      | error e' => rw [key.error hr] at he; exact he
      | ok out =>
        obtain ⟨out', e', -⟩ := key.ok hr
        rw [e'] at he
        cases he
    · exact key.error
  · intro out hr
    obtain ⟨out', e, q⟩ := key.ok hr
    exact ⟨out', e, q.table, q.files, q.vlm, q.lattice.num, fun i => congrFun q.lattice.panel i,
      q.lattice.book.byWing⟩

/-! ## Examples -/

/-- Exchanges two names. -/
def exchange (a b : String) (u : String) : String := if u = a then b else if u = b then a else u

theorem exchange_injective (a b : String) : Function.Injective (exchange a b) := by
  intro u v h
  unfold exchange at h
  split_ifs at h <;> simp_all

theorem exchange_empty {a b : String} (ha : a ≠ "") (hb : b ≠ "") (u : String) :
    exchange a b u = "" ↔ u = "" := by
  unfold exchange
  split_ifs <;> simp_all

/-- Other names for the wing, its segment and its flap. -/
def exampleNaming : Naming :=
  ⟨exchange "wing" "main", fun _ => exchange "seg" "middle", fun _ => exchange "F" "aileron"⟩

theorem exampleNaming_good : exampleNaming.Good :=
  ⟨exchange_injective _ _, fun _ => exchange_injective _ _, fun _ => exchange_injective _ _,
    exchange_empty (by decide) (by decide), fun _ => exchange_empty (by decide) (by decide),
    fun _ => exchange_empty (by decide) (by decide)⟩

/-- The wing with a flap, and a deformation file with fields for the left half of the wing and for
something that is ignored. -/
noncomputable def bentProject (file : FileAircraft) (wing other : String) (u : DefField ℝ) : Project where
  base := "example"
  root := "/home"
  settings := .dict (("deformation", .str "bent.json") :: exampleSettings)
  aircraft := fun a => if a = "plane.json" then some file else none
  state := fun b => if b = "cruise.json" then some (oneState 10 1 5 0) else none
  deformation := fun
    | .str _ => some [(wing, u), (mirrorName wing, u), (other, u)]
    | _ => none

/-- The aircraft with the flap under other names. -/
noncomputable def flapFileRenamed : FileAircraft :=
  ⟨"airliner", ⟨8, 4, 2, 0, 0, none⟩, [⟨"main", 2,
    [⟨"middle", ⟨some taperedSeg.a, some taperedSeg.b, some taperedSeg.c, some taperedSeg.d⟩,
      SegGeo.fresh, "airfoils/blade.x", "NACA0012", none, none⟩],
    [⟨"aileron", ⟨"middle", "middle", 1/5, 4/5, 3/4, 3/4, 3/4, 3/4, none, some "flap",
      .num (.fin 5), .none⟩⟩]⟩]⟩

/-- Example for **C129**: a deformed wing with a flap. -/
example (u : DefField ℝ) :
    (∀ e, runProject exampleWorld (bentProject flapFileRenamed "main" "_note" u) = .error e ↔
      runProject exampleWorld (bentProject flapFile "wing" "_comment" u) = .error e) ∧
    ∀ out, runProject exampleWorld (bentProject flapFile "wing" "_comment" u) = .ok out →
      ∃ out', runProject exampleWorld (bentProject flapFileRenamed "main" "_note" u) = .ok out' ∧
        out'.table = out.table ∧ out'.files = out.files := by
  have hp1 : PlainName "wing" := by unfold PlainName; decide
  have hp2 : PlainName "main" := by unfold PlainName; decide
  obtain ⟨h1, h2⟩ := C129_names exampleWorld (bentProject flapFile "wing" "_comment" u)
    (bentProject flapFileRenamed "main" "_note" u) _ "plane.json" "cruise.json"
    ⟨rfl, by decide, by simp [exampleSettings], rfl, by simp [exampleSettings], by
      show (if "cruise.json" = "__cpacs" then "__CPACS" else "cruise.json") ≠ "__CPACS"
      decide⟩ exampleNaming exampleNaming_good
    ⟨rfl, rfl, rfl, rfl, by simp [bentProject], by
      intro name f hf
      simp only [bentProject] at hf ⊢
      split_ifs at hf ⊢
      cases hf
      exact ⟨flapFileRenamed, rfl, rfl, rfl⟩, by
      intro v hv
      cases v <;> first | rfl | (cases hv), by
      intro v l hl
      cases v <;> cases hl
      exact ⟨_, rfl, .cons ⟨.half (u := "wing") hp1 hp2, rfl⟩
        (.cons ⟨.mirrored (u := "wing") hp1 hp2, rfl⟩
        (.cons ⟨.ignored (a := "_comment") (b := "_note") (by decide) (by decide), rfl⟩ .nil))⟩⟩
  refine ⟨h1, fun out ho => ?_⟩
  obtain ⟨out', e, q1, q2, -⟩ := h2 out ho
  exact ⟨out', e, q1, q2⟩

/-- Example for **C129**: the halves of a wing exchange their names, and the run finishes. -/
example : ∃ out out', runProject exampleWorld (exampleProject halvesFile) = .ok out ∧
    runProject exampleWorld (exampleProject ⟨"plane", ⟨1, 1, 1, 0, 0, none⟩,
      [halfEntry "left" 0, halfEntry "right" (-2/25)]⟩) = .ok out' ∧
    out'.table = out.table ∧ out'.files = out.files := by
  obtain ⟨out, h⟩ := halvesFile_run
  obtain ⟨out', e, q1, q2, -⟩ := (C129_names exampleWorld (exampleProject halvesFile)
    (exampleProject ⟨"plane", ⟨1, 1, 1, 0, 0, none⟩,
      [halfEntry "left" 0, halfEntry "right" (-2/25)]⟩) _ _ _ (example_native halvesFile)
    ⟨exchange "left" "right", fun _ => id, fun _ => id⟩
    ⟨exchange_injective _ _, fun _ => Function.injective_id, fun _ => Function.injective_id,
      exchange_empty (by decide) (by decide), fun _ _ => Iff.rfl, fun _ _ => Iff.rfl⟩
    ⟨rfl, rfl, rfl, rfl, by simp [exampleProject], by
      intro name f hf
      simp only [exampleProject] at hf ⊢
      split_ifs at hf ⊢
      cases hf
      exact ⟨_, rfl, rfl, rfl⟩, fun _ _ => rfl, by simp [exampleProject]⟩).2 out h
  exact ⟨out, out', h, e, q1, q2⟩

end Verif
