import Verif.Props.RunFinish
import Verif.Props.RunExamples

/-!
# Property C124: the order of the wings

The results of a run do not depend on the order in which the wings of the aircraft are given.
-/

set_option linter.unnecessarySeqFocus false

namespace Verif

open V3

/-! ## Specification -/

/-- What an analysis reads of one wing: the wing, the geometry of its segments, their camber lines. -/
structure WingData where
  wing : PWing ℝ
  geo : ℕ → GeoEnv ℝ
  camber : ℕ → ℝ → ℝ → ℝ

/-- The wings of an aircraft in their order. -/
def wingData (env : LatticeEnv) (ac : PAircraft ℝ) : List WingData :=
  (allWings ac).map fun w => ⟨w.2, env.geo w.1, env.camber w.1⟩

/-- The second aircraft has the wings of the first, in any order, and the same deflections. -/
structure Reordered (env env' : LatticeEnv) (ac ac2 : PAircraft ℝ) : Prop where
  deflection : env'.deflection = env.deflection
  wings : (wingData env' ac2).Perm (wingData env ac)

/-! ## Subareas -/

/-- What an analysis reads of one subarea. -/
structure SubData where
  wing : PWing ℝ
  seg : PSegment ℝ
  strip : Strip ℝ
  sub : Subarea ℝ
  geo : GeoEnv ℝ
  camber : ℝ → ℝ → ℝ

/-- The data of a subarea handed out by the iterator. -/
def SubTuple.data (env : LatticeEnv) (t : SubTuple ℝ) : SubData :=
  ⟨t.2.2.2.2, t.2.2.1.2, t.2.1.2, t.1.2, env.geo t.2.2.2.1 t.2.2.1.1, env.camber t.2.2.2.1 t.2.2.1.1⟩

/-- All subareas of an aircraft. -/
def subData (env : LatticeEnv) (ac : PAircraft ℝ) : List SubData :=
  (allSubareas ac).map (SubTuple.data env)

theorem map_nested {α β γ : Type*} (f : α → List β) (φ : β × α → γ) (l : List α) :
    (nested f l).map φ = l.flatMap fun a => (f a).map fun b => φ (b, a) := by
  induction l with
  | nil => rfl
  | cons a rest ih =>
    unfold nested
    rw [List.map_append, ih, List.flatMap_cons, List.map_map]
    rfl

theorem flatMap_nested {α β γ : Type*} (f : α → List β) (φ : β × α → List γ) (l : List α) :
    (nested f l).flatMap φ = l.flatMap fun a => (f a).flatMap fun b => φ (b, a) := by
  induction l with
  | nil => rfl
  | cons a rest ih =>
    unfold nested
    rw [List.flatMap_append, ih, List.flatMap_cons, List.flatMap_map]

/-- The subareas of one wing. -/
def WingData.subareas (d : WingData) : List SubData :=
  (enumFrom' 0 d.wing.segments).flatMap fun s => (enumFrom' 0 s.2.strips).flatMap fun st =>
    (enumFrom' 0 st.2.subareas).map fun a => ⟨d.wing, s.2, st.2, a.2, d.geo s.1, d.camber s.1⟩

theorem subData_eq (env : LatticeEnv) (ac : PAircraft ℝ) :
    subData env ac = (wingData env ac).flatMap WingData.subareas := by
  unfold subData allSubareas allSubdivisions allSegments wingData
  rw [map_nested, flatMap_nested, flatMap_nested, List.flatMap_map]
  rfl

theorem Reordered.subareas {env env' : LatticeEnv} {ac ac2 : PAircraft ℝ}
    (h : Reordered env env' ac ac2) : (subData env' ac2).Perm (subData env ac) := by
  rw [subData_eq, subData_eq]
  exact h.wings.flatMap_right _

/-- The objects of a subarea. -/
def SubData.parts (d : SubData) : EntryParts := ⟨d.wing, d.strip, d.sub, d.geo, d.camber⟩

/-- Normal of a panel after the rotations. -/
noncomputable def SubData.turned (env : LatticeEnv) (doRot : Bool) (d : SubData) (mirror : Bool)
    (v : Corners (V3 ℝ)) (n : ℤ) (k : ℕ) (m : Option (V3 ℝ)) : Option (V3 ℝ) :=
  if doRot then
    match hingeRotation env d.parts mirror with
    | .error _ => none
    | .ok hinge => applyRotation (camberRotation d.parts v n.toNat k) (applyRotation hinge m)
  else m

/-- Panel `k` of `n` panels of a subarea or of its mirror image. -/
noncomputable def SubData.panel (env : LatticeEnv) (doRot : Bool) (leg : V3 ℝ) (d : SubData)
    (mirror : Bool) (n : ℤ) (k : ℕ) : Option Panel :=
  match subareaVertices d.geo d.strip d.sub.quad mirror with
  | .error _ => none
  | .ok v =>
    (d.turned env doRot mirror v n k (panelPts (Coef.of v) leg 1 n k 0).finNormal).map fun m =>
      { (panelPts (Coef.of v) leg 1 n k 0).toPanel with n := m }

/-- The panels of a subarea or of its mirror image. -/
noncomputable def SubData.row (env : LatticeEnv) (doRot : Bool) (leg : V3 ℝ) (d : SubData)
    (mirror : Bool) (n : ℤ) : List (Option Panel) :=
  (List.range n.toNat).map (d.panel env doRot leg mirror n)

/-- The panels of a subarea and of its mirror image. -/
noncomputable def SubData.rows (env : LatticeEnv) (doRot : Bool) (leg : V3 ℝ) (d : SubData) :
    List (Option Panel) :=
  match chordPanels d.wing d.seg d.sub with
  | .error _ => []
  | .ok n => d.row env doRot leg false n ++
      if d.wing.symmetry = 0 then [] else d.row env doRot leg true n

theorem SubData.rows_congr {env env' : LatticeEnv} (h : env'.deflection = env.deflection)
    (doRot : Bool) (leg : V3 ℝ) : SubData.rows env' doRot leg = SubData.rows env doRot leg := by
  have h1 : hingeRotation env' = hingeRotation env := by
    funext p mirror
    unfold hingeRotation
    rw [h]
  funext d
  unfold SubData.rows SubData.row
  have h2 : ∀ m n, d.panel env' doRot leg m n = d.panel env doRot leg m n := by
    intro m n
    funext k
    unfold SubData.panel SubData.turned
    rw [h1]
  simp only [h2]

/-- The corners of a subarea can be computed. -/
def SubData.Ok (d : SubData) : Prop :=
  ∀ mirror, (mirror = true → d.wing.symmetry ≠ 0) →
    ∃ v, subareaVertices d.geo d.strip d.sub.quad mirror = .ok v

theorem path_unique {ac : PAircraft ℝ} {t t' : SubTuple ℝ} (ht : t ∈ allSubareas ac)
    (ht' : t' ∈ allSubareas ac) (h : t'.path = t.path) : t' = t := by
  obtain ⟨⟨i, a⟩, ⟨j, d⟩, ⟨k, s⟩, m, w⟩ := t
  obtain ⟨⟨i', a'⟩, ⟨j', d'⟩, ⟨k', s'⟩, m', w'⟩ := t'
  obtain ⟨x1, x2, x3, x4⟩ := ((C60_all_subareas ac).1 m k j i w s d a).1 ht
  obtain ⟨y1, y2, y3, y4⟩ := ((C60_all_subareas ac).1 m' k' j' i' w' s' d' a').1 ht'
  simp only [SubTuple.path, SubPath.mk.injEq] at h
  obtain ⟨rfl, rfl, rfl, rfl⟩ := h
  rw [x1] at y1
  cases y1
  rw [x2] at y2
  cases y2
  rw [x3] at y3
  cases y3
  rw [x4] at y4
  cases y4
  rfl

/-- The panels of a lattice in the order of the subareas. -/
theorem lattice_rows {ac ac' : PAircraft ℝ} (hu : ac.Unpanelled) (h : prePanelling ac = .ok ac')
    (hn : ac.NumC 0) {env : LatticeEnv} {doRot : Bool} {alpha beta : ℝ} {l : LatticeData}
    (hl : genLattice env doRot alpha beta ac' = .ok l) :
    (∀ d ∈ subData env ac', d.Ok) ∧
    (List.range l.num).map (fun k => l.panel k) =
      (subData env ac').flatMap (SubData.rows env doRot (trailLeg alpha beta)) := by
  obtain ⟨g3, h0, -, hE, -⟩ := lattice_entry hu h hn hl
  obtain ⟨cs, k1, -, k3, -, k5, k6⟩ := genLattice_ok hl
  unfold genBook at k1
  obtain ⟨gs, q2, q1, -⟩ := countFrom_ok k1
  simp only [Book.empty, List.nil_append] at q1
  obtain ⟨-, r2, r3, -⟩ := g3.ranges h0
  -- one entry
  have fact : ∀ e ∈ l.book.entries, ∀ t ∈ allSubareas ac', e.path = SubTuple.path t →
      (∃ v, subareaVertices (SubTuple.data env t).geo (SubTuple.data env t).strip (SubTuple.data env t).sub.quad e.mirror
        = .ok v) ∧
      (pyRange e.start e.stop).map l.panelAt =
        (SubTuple.data env t).row env doRot (trailLeg alpha beta) e.mirror e.numC := by
    intro e he t ht hpath
    obtain ⟨t', ht', hpath', hstop, v, hv, hk⟩ := hE e he
    obtain rfl := path_unique ht ht' (by rw [← hpath, ← hpath'])
    refine ⟨⟨v, hv⟩, ?_⟩
    unfold pyRange SubData.row
    rw [List.map_map, hstop, add_sub_cancel_left]
    refine List.map_congr_left fun k hk' => ?_
    rw [List.mem_range] at hk'
    have hkn : (k : ℤ) < e.numC := by omega
    have hp := hk k hkn
    simp only [Function.comp]
    unfold SubData.panel
    rw [show subareaVertices (SubTuple.data env t').geo (SubTuple.data env t').strip (SubTuple.data env t').sub.quad e.mirror
      = .ok v from hv]
    dsimp only
    have hnorm : l.normal (e.start + k) = (SubTuple.data env t').turned env doRot e.mirror v e.numC k
        (panelPts (Coef.of v) (trailLeg alpha beta) 1 e.numC k 0).finNormal := by
      unfold SubData.turned
      cases doRot with
      | false =>
        rw [k5 rfl]
        show (l.pts (e.start + k)).bind PanelPts.finNormal = _
        rw [hp]
        rfl
      | true =>
        obtain ⟨ho, -⟩ := rotateAll_own g3 h0 (k6 rfl)
        obtain ⟨p, hinge, corners, f1, f2, f3, f4⟩ := ho e he
        rw [entryParts_of (env := env) ht' hpath'] at f1
        cases f1
        simp only at f3
        rw [hv] at f3
        cases f3
        have hnum : (e.stop - e.start).toNat = e.numC.toNat := by rw [hstop]; congr 1; ring
        have hki : (e.start + (k : ℤ) - e.start).toNat = k := by
          rw [add_sub_cancel_left]; exact Int.toNat_natCast k
        have := f4 (e.start + k) (by omega) (by omega)
        rw [hnum, hki, hp, Option.bind_some] at this
        rw [this]
        have f2' : hingeRotation env (SubTuple.data env t').parts e.mirror = .ok hinge := f2
        rw [f2']
        rfl
    unfold LatticeData.panelAt
    rw [hp, hnorm]
    cases (SubTuple.data env t').turned env doRot e.mirror v e.numC k
      (panelPts (Coef.of v) (trailLeg alpha beta) 1 e.numC k 0).finNormal <;> rfl
  have hpanels : (List.range l.num).map (fun k => l.panel k) =
      l.book.entries.flatMap fun e => (pyRange e.start e.stop).map l.panelAt := by
    rw [← List.map_flatMap, r2]
    unfold pyRange LatticeData.num
    rw [List.map_map, sub_zero]
    refine List.map_congr_left fun k _ => ?_
    simp only [Function.comp, zero_add]
    rfl
  rw [hpanels, q1]
  have hent : ∀ g ∈ gs, ∀ e ∈ g, e ∈ l.book.entries := fun g hg e he => by
    rw [q1]; exact List.mem_flatten.2 ⟨g, hg, he⟩
  unfold subData
  have hsub : ∀ t ∈ allSubareas ac', t ∈ allSubareas ac' := fun _ h => h
  generalize hts : allSubareas ac' = ts at q2 hsub
  have hsub' : ∀ t ∈ ts, t ∈ allSubareas ac' := by rw [hts]; exact fun _ h => h
  clear hts hsub q1 hpanels
  induction q2 with
  | nil => exact ⟨by simp, rfl⟩
  | @cons t g ts gs hd _ ih =>
    obtain ⟨i1, i2⟩ := ih (fun g hg => hent g (List.mem_cons_of_mem _ hg))
      (fun t ht => hsub' t (List.mem_cons_of_mem _ ht))
    have htm := hsub' t (by simp)
    have hgm := hent g (by simp)
    obtain ⟨n, s, hn', hg⟩ := hd
    rw [List.map_cons, List.flatMap_cons, List.flatten_cons, List.flatMap_append, i2]
    have hrows : SubData.rows env doRot (trailLeg alpha beta) (SubTuple.data env t) =
        (SubTuple.data env t).row env doRot (trailLeg alpha beta) false n ++
          if t.2.2.2.2.symmetry = 0 then []
          else (SubTuple.data env t).row env doRot (trailLeg alpha beta) true n := by
      unfold SubData.rows
      rw [show chordPanels (SubTuple.data env t).wing (SubTuple.data env t).seg (SubTuple.data env t).sub = .ok n from hn']
      rfl
    by_cases hs : t.2.2.2.2.symmetry = 0
    · rw [if_pos hs] at hg
      subst hg
      obtain ⟨f1, f2⟩ := fact ⟨SubTuple.path t, t.2.2.2.2.uid, s, s + n, n, false⟩
        (hgm _ (by simp)) t htm rfl
      refine ⟨?_, ?_⟩
      · intro d hdm
        rcases List.mem_cons.1 hdm with rfl | hdm
        · intro mirror hm
          cases mirror with
          | false => exact f1
          | true => exact absurd hs (hm rfl)
        · exact i1 d hdm
      · rw [hrows, if_pos hs, List.append_nil, List.flatMap_singleton, f2]
    · rw [if_neg hs] at hg
      subst hg
      obtain ⟨f1, f2⟩ := fact ⟨SubTuple.path t, t.2.2.2.2.uid, s, s + n, n, false⟩
        (hgm _ (by simp)) t htm rfl
      obtain ⟨f3, f4⟩ := fact ⟨SubTuple.path t, t.2.2.2.2.uid, s + n, s + n + n, n, true⟩
        (hgm _ (by simp)) t htm rfl
      refine ⟨?_, ?_⟩
      · intro d hdm
        rcases List.mem_cons.1 hdm with rfl | hdm
        · intro mirror hm
          cases mirror with
          | false => exact f1
          | true => exact f3
        · exact i1 d hdm
      · rw [hrows, if_neg hs, List.flatMap_cons, List.flatMap_singleton, f2, f4]

/-- A lattice can be generated if the corners of all subareas can be computed. -/
theorem lattice_exists {ac ac' : PAircraft ℝ} (hu : ac.Unpanelled) (h : prePanelling ac = .ok ac')
    (hn : ac.NumC 0) {env : LatticeEnv} (doRot : Bool) (alpha beta : ℝ)
    (hok : ∀ d ∈ subData env ac', d.Ok) : ∃ l, genLattice env doRot alpha beta ac' = .ok l := by
  obtain ⟨b, -, hb, -, -, g3, -, -, g6, -⟩ := genBook_facts hu h le_rfl hn
  have h0 : ∀ e ∈ b.entries, 0 ≤ e.numC := fun e he => (g6 e he).1
  have hb' := hb
  unfold genBook at hb'
  obtain ⟨gs, q2, q1, -⟩ := countFrom_ok hb'
  simp only [Book.empty, List.nil_append] at q1
  have hE : ∀ e ∈ b.entries, ∃ t ∈ allSubareas ac', e.path = SubTuple.path t ∧
      ∃ v, subareaVertices (env.geo t.2.2.2.1 t.2.2.1.1) t.2.1.2 t.1.2.quad e.mirror = .ok v := by
    intro e he
    rw [q1, List.mem_flatten] at he
    obtain ⟨g, hg, heg⟩ := he
    obtain ⟨t, ht, n, s, -, hg'⟩ := forall₂_mem_right q2 hg
    have hd := hok (SubTuple.data env t) (List.mem_map.2 ⟨t, ht, rfl⟩)
    subst hg'
    by_cases hs : t.2.2.2.2.symmetry = 0
    · rw [if_pos hs, List.mem_singleton] at heg
      subst heg
      exact ⟨t, ht, rfl, hd false (by simp)⟩
    · rw [if_neg hs] at heg
      simp only [List.mem_cons, List.not_mem_nil, or_false] at heg
      rcases heg with rfl | rfl
      · exact ⟨t, ht, rfl, hd false (by simp)⟩
      · exact ⟨t, ht, rfl, hd true fun _ => hs⟩
  obtain ⟨cs, hcs⟩ := mapE_total (f := entryCorners env ac') (l := b.entries) (by
    intro e he
    obtain ⟨t, ht, hp, v, hv⟩ := hE e he
    exact ⟨v, by unfold entryCorners; rw [entryParts_of ht hp]; exact hv⟩)
  have hP : 0 ≤ b.numP := (g3.bounds h0).1
  cases doRot with
  | false => exact ⟨_, genLattice_build (n := fun k => (lastPanel (vlmLattice
      (trailLeg alpha beta) (b.inputsOf cs)) k).bind PanelPts.finNormal) hb hcs hP (by simp)⟩
  | true =>
    obtain ⟨n, hn'⟩ := rotateAll_panelled hu h (env := env) (es := b.entries) hE
      (fun k => (lastPanel (vlmLattice (trailLeg alpha beta) (b.inputsOf cs)) k).bind
        PanelPts.finNormal)
    exact ⟨_, genLattice_build hb hcs hP (by simpa using hn')⟩

/-! ## Panelling -/

/-- The value of a computation that does not raise. -/
noncomputable def okOr {α β : Type*} (f : α → Except PyErr β) (b : β) (a : α) : β :=
  match f a with
  | .ok y => y
  | .error _ => b

theorem mapE_okOr {α β : Type*} {f : α → Except PyErr β} (b : β) {l : List α} {l' : List β}
    (h : mapE f l = .ok l') : (∀ a ∈ l, f a = .ok (okOr f b a)) ∧ l' = l.map (okOr f b) := by
  have := mapE_ok h
  clear h
  induction this with
  | nil => exact ⟨by simp, rfl⟩
  | @cons a y l l' hd _ ih =>
    have e : okOr f b a = y := by
      unfold okOr
      rw [hd]
    refine ⟨?_, by rw [List.map_cons, ← ih.2, e]⟩
    intro c hc
    rcases List.mem_cons.1 hc with rfl | hc
    · rw [e, hd]
    · exact ih.1 c hc

theorem mapE_all_ok {α β : Type*} {f : α → Except PyErr β} {F : α → β} {l : List α}
    (h : ∀ a ∈ l, f a = .ok (F a)) : mapE f l = .ok (l.map F) := by
  induction l with
  | nil => rfl
  | cons a rest ih =>
    unfold mapE
    rw [h a (by simp), ih fun c hc => h c (List.mem_cons_of_mem _ hc)]
    rfl

theorem wingData_wings (env : LatticeEnv) (ac : PAircraft ℝ) :
    (wingData env ac).map WingData.wing = ac.wings := by
  unfold wingData allWings
  rw [List.map_map]
  have : ∀ (l : List (PWing ℝ)) n, (enumFrom' n l).map
      (WingData.wing ∘ fun w => ⟨w.2, env.geo w.1, env.camber w.1⟩) = l := by
    intro l
    induction l with
    | nil => intro n; rfl
    | cons a rest ih =>
      intro n
      unfold enumFrom'
      rw [List.map_cons, ih]
      rfl
  exact this _ _

theorem wingData_map (env : LatticeEnv) (ac : PAircraft ℝ) (F : PWing ℝ → PWing ℝ) :
    wingData env ⟨ac.wings.map F⟩ =
      (wingData env ac).map fun d => { d with wing := F d.wing } := by
  unfold wingData allWings
  rw [List.map_map]
  have : ∀ (l : List (PWing ℝ)) n, (enumFrom' n (l.map F)).map
      (fun w => (⟨w.2, env.geo w.1, env.camber w.1⟩ : WingData)) = (enumFrom' n l).map
      ((fun d : WingData => { d with wing := F d.wing }) ∘
        fun w => ⟨w.2, env.geo w.1, env.camber w.1⟩) := by
    intro l
    induction l with
    | nil => intro n; rfl
    | cons a rest ih =>
      intro n
      rw [List.map_cons]
      unfold enumFrom'
      rw [List.map_cons, List.map_cons, ih]
      rfl
  exact this _ _

theorem Reordered.mem {env env' : LatticeEnv} {ac ac2 : PAircraft ℝ}
    (h : Reordered env env' ac ac2) {w : PWing ℝ} (hw : w ∈ ac2.wings) : w ∈ ac.wings := by
  rw [← wingData_wings env' ac2] at hw
  rw [← wingData_wings env ac]
  exact ((h.wings.map _).mem_iff).1 hw

/-- Wing by wing, the order does not matter. -/
theorem Reordered.mapE {env env' : LatticeEnv} {ac ac2 : PAircraft ℝ}
    (h : Reordered env env' ac ac2) {f : PWing ℝ → Except PyErr (PWing ℝ)} {ws : List (PWing ℝ)}
    (hm : mapE f ac.wings = .ok ws) :
    ∃ ws2, Verif.mapE f ac2.wings = .ok ws2 ∧ Reordered env env' ⟨ws⟩ ⟨ws2⟩ := by
  by_cases hne : ac.wings = []
  · rw [hne] at hm
    cases hm
    have h2 : ac2.wings = [] := by
      rw [List.eq_nil_iff_forall_not_mem]
      intro w hw
      have := h.mem hw
      rw [hne] at this
      cases this
    rw [h2]
    exact ⟨[], rfl, h.deflection, .refl _⟩
  · obtain ⟨w0, -⟩ := List.exists_mem_of_ne_nil _ hne
    obtain ⟨h1, rfl⟩ := mapE_okOr w0 hm
    refine ⟨ac2.wings.map (okOr f w0), mapE_all_ok fun w hw => h1 w (h.mem hw), h.deflection, ?_⟩
    rw [wingData_map env ac, wingData_map env' ac2]
    exact h.wings.map _

theorem Reordered.panelled {env env' : LatticeEnv} {ac ac2 : PAircraft ℝ}
    (h : Reordered env env' ac ac2) {autoC autoS : ℤ} {ac1 ac' : PAircraft ℝ}
    (h1 : setAutopanels autoC autoS ac = .ok ac1) (h2 : prePanelling ac1 = .ok ac') :
    ∃ ac3 ac4, setAutopanels autoC autoS ac2 = .ok ac3 ∧ prePanelling ac3 = .ok ac4 ∧
      Reordered env env' ac' ac4 := by
  unfold setAutopanels at h1
  cases hm : Verif.mapE (PWing.setAutopanels autoC autoS) ac.wings with
  | error e => rw [hm] at h1; cases h1
  | ok ws =>
    rw [hm] at h1
    cases h1
    obtain ⟨ws2, e1, r1⟩ := h.mapE hm
    unfold prePanelling at h2
    dsimp only at h2
    cases hm2 : Verif.mapE (fun w => w.mapSegments (placeControls w.controls)) ws with
    | error e => rw [hm2] at h2; cases h2
    | ok ws' =>
      simp only [hm2] at h2
      obtain ⟨ws2', e2, r2⟩ := r1.mapE hm2
      cases hm3 : Verif.mapE (fun w => w.mapSegments (Verif.mapE PSegment.addSpanLines)) ws' with
      | error e => rw [hm3] at h2; cases h2
      | ok ws'' =>
        rw [hm3] at h2
        cases h2
        obtain ⟨ws2'', e3, r3⟩ := r2.mapE hm3
        refine ⟨⟨ws2⟩, ⟨ws2''⟩, ?_, ?_, r3⟩
        · unfold setAutopanels
          rw [e1]
        · unfold prePanelling
          dsimp only at e2 e3 ⊢
          rw [e2]
          dsimp only
          rw [e3]

/-! ## Analysis -/

section
variable {n n' : ℕ}

/-- The panels of the second lattice are those of the first in another order. -/
theorem downwash_reordered (e : Fin n' ≃ Fin n) {eps : ℝ} {P : Fin n → Panel}
    {A : Matrix (Fin n) (Fin n) ℝ} (h : vlmDownwash eps P = some A) :
    vlmDownwash eps (fun k => P (e k)) = some (A.submatrix e e) := by
  obtain ⟨h1, h2⟩ := vlmDownwash_some h
  unfold vlmDownwash
  rw [if_pos fun i j => h1 (e i) (e j)]
  congr 1
  funext i j
  rw [Matrix.submatrix_apply, h2]

theorem solves_reordered (e : Fin n' ≃ Fin n) {A : Matrix (Fin n) (Fin n) ℝ} {b g : Fin n → ℝ}
    (h : Solves A b g) : Solves (A.submatrix e e) (fun k => b (e k)) (fun k => g (e k)) := by
  unfold Solves at h ⊢
  funext i
  rw [← h]
  unfold Matrix.mulVec dotProduct
  rw [← Equiv.sum_comp e]
  rfl

theorem results_reordered (e : Fin n' ≃ Fin n) {eps : ℝ} {s : FlowState} {c : Refs}
    {P : Fin n → Panel} {g : Fin n → ℝ} {R : Results n} (h : vlmResults eps s c P g = some R) :
    ∃ R', vlmResults eps s c (fun k => P (e k)) (fun k => g (e k)) = some R' ∧
      R'.ftot = R.ftot ∧ R'.mtot = R.mtot ∧ R'.wind = R.wind ∧ R'.coeffs = R.coeffs ∧
      ∀ k, R'.iw k = R.iw (e k) ∧ R'.iwMag k = R.iwMag (e k) ∧ R'.f k = R.f (e k) ∧
        R'.fMag k = R.fMag (e k) ∧ R'.cp k = R.cp (e k) := by
  obtain ⟨hok, rfl⟩ := vlmResults_some h
  have hi : ∀ x, inwash eps (fun k => P (e k)) (fun k => g (e k)) x = inwash eps P g x := by
    intro x
    rw [inwash_eq, inwash_eq]
    exact Equiv.sum_comp e fun j => g j • horseshoe eps x (P j)
  have hf : ∀ i, panelForce eps s c (fun k => P (e k)) (fun k => g (e k)) i =
      panelForce eps s c P g (e i) := by
    intro i
    unfold panelForce panelVel
    simp only [hi]
  have hm : ∀ i, panelMoment eps s c (fun k => P (e k)) (fun k => g (e k)) i =
      panelMoment eps s c P g (e i) := by
    intro i
    unfold panelMoment
    rw [hf]
  have hF : ∑ i, panelForce eps s c (fun k => P (e k)) (fun k => g (e k)) i =
      ∑ i, panelForce eps s c P g i := by
    simp only [hf]
    exact Equiv.sum_comp e _
  have hM : ∑ i, panelMoment eps s c (fun k => P (e k)) (fun k => g (e k)) i =
      ∑ i, panelMoment eps s c P g i := by
    simp only [hm]
    exact Equiv.sum_comp e _
  refine ⟨_, vlmResults_mk (fun i j => hok (e i) (e j)) s c _, hF, hM, ?_, ?_, ?_⟩
  · simp only [sumResults]
    rw [hF]
  · simp only [sumResults]
    rw [hF, hM]
  · intro k
    refine ⟨hi _, ?_, hf k, ?_, ?_⟩
    · simp only [sumResults, hi]
    · simp only [sumResults, hf]
    · simp only [sumResults]
      unfold panelCp
      rw [hf]

end

/-- The panels of reordered wings. -/
theorem panels_reordered {l l' : LatticeData} {P : Fin l.num → Panel}
    (hP : ∀ k : Fin l.num, l.panel k = some (P k))
    (h : ((List.range l'.num).map fun k => l'.panel k).Perm
      ((List.range l.num).map fun k => l.panel k)) :
    ∃ e : Fin l'.num ≃ Fin l.num, ∀ k : Fin l'.num, l'.panel k = some (P (e k)) := by
  obtain ⟨e, he⟩ := perm_equiv h
  have c1 : ((List.range l'.num).map fun k => l'.panel k).length = l'.num := by simp
  have c2 : ((List.range l.num).map fun k => l.panel k).length = l.num := by simp
  refine ⟨(finCongr c1.symm).trans (e.trans (finCongr c2)), ?_⟩
  intro k
  have := he (finCongr c1.symm k)
  simp only [List.get_eq_getElem, List.getElem_map, List.getElem_range] at this
  rw [← hP]
  exact this.symm

/-- An analysis of the same panels in another order. -/
structure Analysis.Reordered (a a' : Analysis) (e : Fin a'.l.num ≃ Fin a.l.num) : Prop where
  panels : ∀ k, a'.P k = a.P (e k)
  matrix : ∀ j k, a'.A j k = a.A (e j) (e k)
  gamma : ∀ k, a'.g k = a.g (e k)
  rows : ∀ k, a'.R.iw k = a.R.iw (e k) ∧ a'.R.iwMag k = a.R.iwMag (e k) ∧ a'.R.f k = a.R.f (e k) ∧
    a'.R.fMag k = a.R.fMag (e k) ∧ a'.R.cp k = a.R.cp (e k)
  ftot : a'.R.ftot = a.R.ftot
  mtot : a'.R.mtot = a.R.mtot
  wind : a'.R.wind = a.R.wind
  coeffs : a'.R.coeffs = a.R.coeffs

theorem Analysis.Of.reordered {env : RunEnv} {lat' : LatticeEnv} {ac1 ac' ac3 ac4 : PAircraft ℝ}
    (hu : ac1.Unpanelled) (hn : ac1.NumC 0) (hp : prePanelling ac1 = .ok ac')
    (hu' : ac3.Unpanelled) (hn' : ac3.NumC 0) (hp' : prePanelling ac3 = .ok ac4)
    (h : Verif.Reordered env.lat lat' ac' ac4) {st : FlightSt ℝ} {i : ℕ} {a : Analysis}
    (ha : a.Of env ac' st i) :
    ∃ (a' : Analysis) (e : Fin a'.l.num ≃ Fin a.l.num),
      a'.Of { env with lat := lat' } ac4 st i ∧ Analysis.Reordered a a' e := by
  obtain ⟨s, l, P, A, g, R⟩ := a
  have hl : genLattice env.lat env.doRot s.alpha s.beta ac' = .ok l := ha.lattice
  obtain ⟨r1, r2⟩ := lattice_rows hu hp hn hl
  obtain ⟨l', hl'⟩ := lattice_exists hu' hp' hn' (env := lat') env.doRot s.alpha s.beta
    fun d hd => r1 d ((h.subareas.mem_iff).1 hd)
  obtain ⟨-, r3⟩ := lattice_rows hu' hp' hn' hl'
  have hperm : ((List.range l'.num).map fun k => l'.panel k).Perm
      ((List.range l.num).map fun k => l.panel k) := by
    rw [r2, r3, SubData.rows_congr h.deflection]
    exact h.subareas.flatMap_right _
  have hP : ∀ k : Fin l.num, l.panel k = some (P k) := ha.panels
  obtain ⟨e, he⟩ := panels_reordered hP hperm
  obtain ⟨R', q1, q2, q3, q4, q5, q6⟩ := results_reordered e ha.results
  have hdet : (A.submatrix e e).det = A.det := Matrix.det_submatrix_equiv_self e A
  refine ⟨⟨s, l', fun k => P (e k), A.submatrix e e, fun k => g (e k), R'⟩, e,
    ⟨ha.airspeed, ha.density, ha.alpha, ha.beta, ha.rateP, ha.rateQ, ha.rateR, hl', ?_, he,
      downwash_reordered e ha.matrix, ?_, ?_, q1⟩,
    ⟨fun _ => rfl, fun _ _ => rfl, fun _ => rfl, q6, q2, q3, q4, q5⟩⟩
  · have h0 : l.num ≠ 0 := ha.nonempty
    have := Fintype.card_congr e
    simp only [Fintype.card_fin] at this
    show l'.num ≠ 0
    omega
  · intro hd
    have hd' : IsUnit A.det := by rw [← hdet]; exact hd
    exact solves_reordered e (ha.solved hd')
  · intro hd
    have hd' : ¬ IsUnit A.det := by rw [← hdet]; exact hd
    have hg : g = vlmBoundary s env.refs P := ha.singular hd'
    show (fun k => g (e k)) = vlmBoundary s env.refs fun k => P (e k)
    rw [hg]
    rfl

/-- **C124** (panels): if the wings of an aircraft are given in another order, the analysis of a flight
state has the same panels in another order; corresponding panels have the same influence on each
other, circulation, induced velocity, force and pressure coefficient, and the sums are the same. -/
theorem C124_panels (env : RunEnv) (lat' : LatticeEnv) (ac ac2 ac' : PAircraft ℝ)
    (hu : ac.Unpanelled) (hn : ac.GivenNumC env.autoC) (h : Reordered env.lat lat' ac ac2)
    (hp : Panelled env ac ac') :
    ∃ ac2', Panelled { env with lat := lat' } ac2 ac2' ∧
      ∀ (st : FlightSt ℝ) (i : ℕ) (a : Analysis), a.Of env ac' st i →
        ∃ (a' : Analysis) (e : Fin a'.l.num ≃ Fin a.l.num),
          a'.Of { env with lat := lat' } ac2' st i ∧ Analysis.Reordered a a' e := by
  obtain ⟨ac1, p1, p2⟩ := hp
  have hu2 : ac2.Unpanelled := fun w hw => hu w (h.mem hw)
  have hn2 : ac2.GivenNumC env.autoC := ⟨hn.1, fun w hw => hn.2 w (h.mem hw)⟩
  obtain ⟨ac3, ac4, q1, q2, q3⟩ := h.panelled p1 p2
  refine ⟨ac4, ⟨ac3, q1, q2⟩, ?_⟩
  intro st i a ha
  obtain ⟨f1, f2⟩ := autopanels_facts hu hn p1
  obtain ⟨f3, f4⟩ := autopanels_facts hu2 hn2 q1
  exact ha.reordered f1 f2 p2 f3 f4 q2 q3

/-- **C124**: if the wings of an aircraft are given in another order, a run finishes just as well and
all global results — forces, moments and coefficients of all flight states — are the same. -/
theorem C124_wing_order (env : RunEnv) (hd : Lapack env.dgesv) (lat' : LatticeEnv)
    (ac ac2 : PAircraft ℝ) (hu : ac.Unpanelled) (hn : ac.GivenNumC env.autoC)
    (h : Reordered env.lat lat' ac ac2) (st : FlightSt ℝ) (out : RunOut)
    (hr : standardRun env ac st = .ok out) :
    ∃ out', standardRun { env with lat := lat' } ac2 st = .ok out' ∧
      ∀ i < st.num, (∀ c ∈ runColumns, out'.value c.1 i = out.value c.1 i) := by
  obtain ⟨out', h', hv⟩ := run_transfer (env := env) (env' := { env with lat := lat' }) hd hd
    (ac2 := ac2) (st' := st) rfl
    (fun _ a a' => ∃ e, Analysis.Reordered a a' e)
    (by
      intro ac' hp
      obtain ⟨ac2', q1, q2⟩ := C124_panels env lat' ac ac2 ac' hu hn h hp
      refine ⟨ac2', q1, ?_⟩
      intro i _ a ha
      obtain ⟨a', e, h1, h2⟩ := q2 st i a ha
      exact ⟨a', h1, e, h2⟩) hr
  refine ⟨out', h', ?_⟩
  intro i hi c hc
  obtain ⟨ac', a, a', -, -, ⟨e, he⟩, v1, v2⟩ := hv i hi
  rw [v1 c hc, v2 c hc]
  unfold runColumns at hc
  simp only [List.mem_cons, List.not_mem_nil, or_false] at hc
  rcases hc with rfl | rfl | rfl | rfl | rfl | rfl | rfl | rfl | rfl | rfl | rfl | rfl | rfl | rfl |
    rfl | rfl | rfl | rfl <;> simp only [he.ftot, he.mtot, he.wind, he.coeffs]

/-- **C124**: a run finishes for all orders of the wings or for none. -/
theorem C124_finishes (env : RunEnv) (hd : Lapack env.dgesv) (lat' : LatticeEnv)
    (ac ac2 : PAircraft ℝ) (hu : ac.Unpanelled) (hn : ac.GivenNumC env.autoC)
    (h : Reordered env.lat lat' ac ac2) (st : FlightSt ℝ) :
    (∃ out, standardRun { env with lat := lat' } ac2 st = .ok out) ↔
      ∃ out, standardRun env ac st = .ok out := by
  constructor
  · rintro ⟨out, hr⟩
    obtain ⟨out', h', -⟩ := C124_wing_order { env with lat := lat' } hd env.lat ac2 ac
      (fun w hw => hu w (h.mem hw)) ⟨hn.1, fun w hw => hn.2 w (h.mem hw)⟩
      ⟨h.deflection.symm, h.wings.symm⟩ st out hr
    exact ⟨out', h'⟩
  · rintro ⟨out, hr⟩
    obtain ⟨out', h', -⟩ := C124_wing_order env hd lat' ac ac2 hu hn h st out hr
    exact ⟨out', h'⟩

/-! ## Example: two wings -/

/-- Corners of a wing without mirror image that starts at `y0`. -/
noncomputable def flatHalf (y0 : ℝ) : GeoEnv ℝ := ⟨flatCorners y0, 0, none, none⟩

/-- A segment of one panel, of any shape. -/
noncomputable def halfSeg (span : ℝ) (interp : ℝ × ℝ → ℝ × ℝ → ℝ → ℝ)
    (dist : ℝ → ℝ → ℝ → ℝ → ℝ) : PSegment ℝ :=
  ⟨"S", span, some 1, some 1, interp, dist, initStrips⟩

/-- A wing of one panel, without mirror image. -/
noncomputable def halfWing (uid : String) (s : PSegment ℝ) : PWing ℝ :=
  { uid := uid, symmetry := 0, segments := [s], controls := [] }

/-- Two wings: the first starts at `y0`, the second at `y1`. -/
noncomputable def halvesLat (y0 y1 : ℝ) : LatticeEnv :=
  { geo := fun w _ => flatHalf (if w = 0 then y0 else y1)
    deflection := fun _ _ => (none, none)
    camber := fun _ _ _ _ => 0 }

/-- A right wing and a left wing. -/
noncomputable def halvesAc (a b : PSegment ℝ) : PAircraft ℝ :=
  ⟨[halfWing "right" a, halfWing "left" b]⟩

/-- The left wing given first. -/
noncomputable def halvesAc2 (a b : PSegment ℝ) : PAircraft ℝ :=
  ⟨[halfWing "left" b, halfWing "right" a]⟩

theorem halves_reordered (y0 y1 : ℝ) (a b : PSegment ℝ) :
    Reordered (halvesLat y0 y1) (halvesLat y1 y0) (halvesAc a b) (halvesAc2 a b) :=
  ⟨rfl, List.Perm.swap _ _ []⟩

section
variable (a1 : ℝ) (a2 : ℝ × ℝ → ℝ × ℝ → ℝ → ℝ) (a3 : ℝ → ℝ → ℝ → ℝ → ℝ)
variable (b1 : ℝ) (b2 : ℝ × ℝ → ℝ × ℝ → ℝ → ℝ) (b3 : ℝ → ℝ → ℝ → ℝ → ℝ)

theorem halves_panelled : prePanelling (halvesAc (halfSeg a1 a2 a3) (halfSeg b1 b2 b3)) =
    .ok (halvesAc (halfSeg a1 a2 a3) (halfSeg b1 b2 b3)) := by
  have h2 : ∀ a1 a2 a3, mapE PSegment.addSpanLines [halfSeg a1 a2 a3] = .ok [halfSeg a1 a2 a3] := by
    intro a1 a2 a3
    simp [mapE, PSegment.addSpanLines, spanLines, addLines, initStrips, halfSeg]
  unfold prePanelling halvesAc halfWing
  simp only [mapE, PWing.mapSegments, placeControls]
  simp only [mapE] at h2
  simp only [h2]

theorem halves_autopanels (c s : ℤ) :
    setAutopanels c s (halvesAc (halfSeg a1 a2 a3) (halfSeg b1 b2 b3)) =
      .ok (halvesAc (halfSeg a1 a2 a3) (halfSeg b1 b2 b3)) := by
  unfold setAutopanels halvesAc halfWing halfSeg
  simp only [mapE, PWing.setAutopanels, PSegment.setAutopanels, reduceCtorEq, if_false, List.map_nil]

theorem halves_ok : (halvesAc (halfSeg a1 a2 a3) (halfSeg b1 b2 b3)).Unpanelled ∧
    (halvesAc (halfSeg a1 a2 a3) (halfSeg b1 b2 b3)).NumC 0 ∧
    (halvesAc (halfSeg a1 a2 a3) (halfSeg b1 b2 b3)).GivenNumC 5 := by
  refine ⟨?_, ?_, by norm_num, ?_⟩ <;> intro w hw <;>
    simp only [halvesAc, List.mem_cons, List.not_mem_nil, or_false] at hw <;>
    rcases hw with rfl | rfl
  · intro s hs
    simp only [halfWing, List.mem_singleton] at hs
    subst hs
    rfl
  · intro s hs
    simp only [halfWing, List.mem_singleton] at hs
    subst hs
    rfl
  all_goals simp [halfWing, halfSeg]

/-- The subarea of such a wing. -/
noncomputable def halfData (uid : String) (g : GeoEnv ℝ) (camber : ℝ → ℝ → ℝ) : SubData :=
  ⟨halfWing uid (halfSeg a1 a2 a3), halfSeg a1 a2 a3, Strip.init 0 1 1 0,
    ⟨"segment", Quad.init 0 0 1 1, none⟩, g, camber⟩

theorem halves_subData (lat : LatticeEnv) :
    subData lat (halvesAc (halfSeg a1 a2 a3) (halfSeg b1 b2 b3)) =
      [halfData a1 a2 a3 "right" (lat.geo 0 0) (lat.camber 0 0),
        halfData b1 b2 b3 "left" (lat.geo 1 0) (lat.camber 1 0)] := rfl

theorem half_vertices (y0 : ℝ) :
    subareaVertices (flatHalf y0) (Strip.init 0 1 1 0) (Quad.init 0 0 1 1) false =
      .ok (flatCorners y0) := by
  simp only [subareaVertices, Strip.absVertices, flatHalf, flatCorners, GeoEnv.isDeformed,
    Strip.init, Quad.init]
  norm_num
  refine ⟨?_, ?_, ?_, ?_⟩ <;> ext <;> vsimp <;> norm_num

theorem half_rows (uid : String) (y0 : ℝ) (lat : LatticeEnv) (leg : V3 ℝ) {camber : ℝ → ℝ → ℝ}
    (hc : ∀ eta xsi, camber eta xsi = 0) :
    (halfData a1 a2 a3 uid (flatHalf y0) camber).rows lat true leg = [some (flatPanel leg y0)] := by
  set d := halfData a1 a2 a3 uid (flatHalf y0) camber with hd
  have h1 : chordPanels d.wing d.seg d.sub = .ok 1 := by
    unfold chordPanels
    simp only [hd, halfData, halfSeg, if_true]
    congr 1
    rw [Int.ceil_eq_iff]
    norm_num [Quad.relLength, Quad.init]
  have h2 : hingeRotation lat d.parts false = .ok none := by
    unfold hingeRotation
    rfl
  have h3 : camberRotation d.parts (flatCorners y0) 1 0 = none := by
    unfold camberRotation
    simp only [SubData.parts, hd, halfData, hc]
    cases (collocationXsi (Quad.init (0 : ℝ) 0 1 1) 1)[0]? <;> simp
  have h5 : subareaVertices d.geo d.strip d.sub.quad false = .ok (flatCorners y0) := half_vertices y0
  unfold SubData.rows
  rw [h1]
  dsimp only
  rw [if_pos (show d.wing.symmetry = 0 from rfl), List.append_nil]
  unfold SubData.row
  simp only [Int.toNat_one, List.range_one, List.map_cons, List.map_nil]
  unfold SubData.panel SubData.turned
  rw [h5]
  dsimp only
  rw [if_pos rfl, h2]
  dsimp only [Int.toNat_one]
  rw [h3, flat_finNormal leg y0]
  rfl

/-- A run with both wings finishes. -/
theorem halves_finishes {env : RunEnv} (hd : Lapack env.dgesv) (he : 0 < env.eps)
    (hr : env.doRot = true) (hg0 : env.lat.geo 0 0 = flatHalf 0)
    (hg1 : env.lat.geo 1 0 = flatHalf (-2/25))
    (hc : ∀ m k eta xsi, env.lat.camber m k eta xsi = 0)
    {st : FlightSt ℝ} (hn : st.num ≠ 0) (s : ℕ → FlowState) (hs : ∀ i < st.num, (s i).beta = 0 ∧
      st.aero.entry "airspeed" i = .ok (.fin (s i).airspeed) ∧
      st.aero.entry "density" i = .ok (.fin (s i).rho) ∧
      st.aero.entry "alpha" i = .ok (.fin (s i).alpha) ∧
      st.aero.entry "beta" i = .ok (.fin (s i).beta) ∧
      st.aero.entry "rate_P" i = .ok (.fin (s i).p) ∧
      st.aero.entry "rate_Q" i = .ok (.fin (s i).q) ∧
      st.aero.entry "rate_R" i = .ok (.fin (s i).r)) :
    ∃ out, standardRun env (halvesAc (halfSeg a1 a2 a3) (halfSeg b1 b2 b3)) st = .ok out := by
  rw [C93_finishes_iff env hd]
  have hpan := halves_panelled a1 a2 a3 b1 b2 b3
  obtain ⟨hu, hN, -⟩ := halves_ok a1 a2 a3 b1 b2 b3
  refine ⟨hn, _, ⟨_, halves_autopanels a1 a2 a3 b1 b2 b3 _ _, hpan⟩, ?_⟩
  intro i hi
  obtain ⟨b0, e1, e2, e3, e4, e5, e6, e7⟩ := hs i hi
  obtain ⟨l, hl⟩ := lattice_exists hu hpan hN (env := env.lat) true (s i).alpha (s i).beta (by
    intro d hd' mirror hm
    rw [halves_subData, hg0, hg1] at hd'
    simp only [List.mem_cons, List.not_mem_nil, or_false] at hd'
    rcases hd' with rfl | rfl <;>
    · cases mirror with
      | false => exact ⟨_, half_vertices _⟩
      | true => exact absurd rfl (hm rfl))
  obtain ⟨-, hrow⟩ := lattice_rows hu hpan hN hl
  rw [halves_subData, hg0, hg1, List.flatMap_cons, List.flatMap_singleton,
    half_rows _ _ _ _ _ _ _ (hc 0 0), half_rows _ _ _ _ _ _ _ (hc 1 0)] at hrow
  have h2 : l.num = 2 := by
    have := congrArg List.length hrow
    simpa using this
  rw [h2, b0] at hrow
  have hrow' : [l.panel 0, l.panel 1] = [some (flatPanel (trailLeg (s i).alpha 0) 0),
      some (flatPanel (trailLeg (s i).alpha 0) (-2/25))] := hrow
  simp only [List.cons.injEq, and_true] at hrow'
  have hp : ∀ k : Fin 2, l.panel k = some (flatPanel (trailLeg (s i).alpha 0)
      ((![0, -2/25] : Fin 2 → ℝ) k)) := by
    intro k
    fin_cases k
    · exact hrow'.1
    · exact hrow'.2
  obtain ⟨P, hP, A, R, hA, hR, h⟩ := flat_analyse (env := env) (s := s i) he
    (by rw [hr]; exact hl) h2 (by norm_num)
    (y := ![0, -2/25]) (by intro k; fin_cases k <;> simp) hp
  obtain ⟨g1, g2, -⟩ := gammaOf_lapack hd A (vlmBoundary (s i) env.refs P)
  refine ⟨⟨s i, l, P, A, gammaOf env A (vlmBoundary (s i) env.refs P), R⟩,
    e1, e2, e3, e4, e5, e6, e7, by rw [hr]; exact hl, by rw [h2]; norm_num, ?_, hA, g1, g2, hR⟩
  intro k
  show l.panel k = some (P k)
  rw [hP]
  exact hp (Fin.cast h2 k)

end

/-- Example for **C124**: a right and a left wing, given in both orders; the aircraft are different and
both runs have the same lift. -/
example : ∃ a b, ∃ out out', standardRun { exampleEnv with lat := halvesLat 0 (-2/25) } (halvesAc a b)
      runStates = .ok out ∧
    standardRun { exampleEnv with lat := halvesLat (-2/25) 0 } (halvesAc2 a b) runStates = .ok out' ∧
    out'.value "FL" 1 = out.value "FL" 1 ∧ halvesAc2 a b ≠ halvesAc a b := by
  let a := halfSeg 1 (fun _ _ _ => 0) fun _ _ _ _ => 1
  obtain ⟨out, h⟩ := halves_finishes 1 (fun _ _ _ => 0) (fun _ _ _ _ => 1) 1 (fun _ _ _ => 0)
    (fun _ _ _ _ => 1) (env := { exampleEnv with lat := halvesLat 0 (-2/25) }) exactDgesv_lapack
    exampleEnv_eps rfl rfl rfl (fun _ _ _ _ => rfl) (st := runStates) (by simp [runStates])
    (fun i => if i = 0 then ⟨10, 1, 0, 0, 0, 0, 0⟩ else ⟨20, 1, 5, 0, 0, 0, 0⟩) (by
      intro i hi
      have hi' : i < 2 := hi
      obtain rfl | rfl : i = 0 ∨ i = 1 := by omega
      all_goals exact ⟨rfl, rfl, rfl, rfl, rfl, rfl, rfl, rfl⟩)
  obtain ⟨hu, -, hn⟩ := halves_ok 1 (fun _ _ _ => 0) (fun _ _ _ _ => 1) 1 (fun _ _ _ => 0)
    (fun _ _ _ _ => 1)
  obtain ⟨out', h', hv⟩ := C124_wing_order { exampleEnv with lat := halvesLat 0 (-2/25) }
    exactDgesv_lapack (halvesLat (-2/25) 0) (halvesAc a a) (halvesAc2 a a) hu hn
    (halves_reordered _ _ _ _) runStates out h
  refine ⟨a, a, out, out', h, h', hv 1 (by simp [runStates])
    ("FL", fun a => .fin a.R.wind.z) (by simp [runColumns]), ?_⟩
  intro e
  have := congrArg (fun a : PAircraft ℝ => a.wings.map PWing.uid) e
  simp [halvesAc, halvesAc2, halfWing] at this

end Verif
