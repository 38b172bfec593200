import Verif.Props.RunSymmetry
import Mathlib.Analysis.Real.Pi.Bounds

/-!
# Concrete runs: examples for C59, C65, C79-C83, and a singular system (C82)
-/

set_option linter.unnecessarySeqFocus false

namespace Verif

open V3

/-! ## A solver that keeps the contract -/

/-- Matrix with given rows. -/
noncomputable def matrixOf (n : ℕ) (rows : List (List ℝ)) : Matrix (Fin n) (Fin n) ℝ :=
  Matrix.of fun i j => (rows.getD i []).getD j 0

open Classical in
/-- Solve a system of `n` equations; singular systems return the right-hand side. -/
noncomputable def solveRows (n : ℕ) (rows : List (List ℝ)) (b : List ℝ) : List ℝ :=
  if IsUnit (matrixOf n rows).det then
    List.ofFn ((matrixOf n rows)⁻¹.mulVec fun i => b.getD i 0)
  else b

/-- `dgesv` in exact arithmetic. -/
noncomputable def exactDgesv (rows : List (List ℝ)) (b : List ℝ) : List ℝ :=
  solveRows b.length rows b

theorem exactDgesv_lapack : Lapack exactDgesv := by
  intro n A b
  have hA : matrixOf n (rowsOf A) = A := by
    ext i j
    unfold matrixOf rowsOf
    rw [Matrix.of_apply, getD_ofFn, getD_ofFn]
  unfold exactDgesv
  rw [List.length_ofFn]
  unfold solveRows
  rw [hA, ofFn_getD]
  constructor
  · intro hu
    refine ⟨A⁻¹.mulVec b, by rw [if_pos hu], ?_⟩
    rw [Matrix.mulVec_mulVec, Matrix.mul_nonsing_inv A hu, Matrix.one_mulVec]
  · intro hu
    rw [if_neg hu]

/-! ## A flat rectangular wing -/

/-- Corners of the right half. -/
noncomputable def flatGeo : GeoEnv ℝ :=
  ⟨⟨⟨0, 0, 0⟩, ⟨0, 2/25, 0⟩, ⟨3/50, 2/25, 0⟩, ⟨3/50, 0, 0⟩⟩, 2, none, none⟩

/-- All segments are such halves, without camber. -/
noncomputable def flatLat : LatticeEnv :=
  { geo := fun _ _ => flatGeo
    deflection := fun _ _ => (none, none)
    camber := fun _ _ _ _ => 0 }

/-- Corners of a half that starts at `y0`. -/
noncomputable def flatCorners (y0 : ℝ) : Corners (V3 ℝ) :=
  ⟨⟨0, y0, 0⟩, ⟨0, y0 + 2/25, 0⟩, ⟨3/50, y0 + 2/25, 0⟩, ⟨3/50, y0, 0⟩⟩

/-- The only panel of a half. -/
noncomputable def flatPanel (leg : V3 ℝ) (y0 : ℝ) : Panel :=
  { (panelPts (Coef.of (flatCorners y0)) leg 1 1 0 0).toPanel with n := ⟨0, 0, -1⟩ }

theorem flatPanel_pts (leg : V3 ℝ) (y0 : ℝ) :
    (flatPanel leg y0).v2 = ⟨3/200, y0, 0⟩ ∧ (flatPanel leg y0).v3 = ⟨3/200, y0 + 2/25, 0⟩ ∧
    (flatPanel leg y0).v1 = ⟨3/200 + leg.x, y0 + leg.y, leg.z⟩ ∧
    (flatPanel leg y0).v4 = ⟨3/200 + leg.x, y0 + 2/25 + leg.y, leg.z⟩ ∧
    (flatPanel leg y0).col = ⟨9/200, y0 + 1/25, 0⟩ ∧
    (flatPanel leg y0).mid = ⟨3/200, y0 + 1/25, 0⟩ ∧ (flatPanel leg y0).n = ⟨0, 0, -1⟩ := by
  refine ⟨?_, ?_, ?_, ?_, ?_, ?_, rfl⟩ <;>
  · ext <;> simp only [flatPanel, PanelPts.toPanel, panelPts, Coef.of, Coef.at, flatCorners] <;>
      vsimp <;> norm_num <;> ring

theorem flat_finNormal (leg : V3 ℝ) (y0 : ℝ) :
    (panelPts (Coef.of (flatCorners y0)) leg 1 1 0 0).finNormal = some ⟨0, 0, -1⟩ := by
  have hx : (panelPts (Coef.of (flatCorners y0)) leg 1 1 0 0).crossVec =
      (9/5000 : ℝ) • ⟨0, 0, -1⟩ := by
    ext <;> simp only [PanelPts.crossVec, panelPts, Coef.of, Coef.at, flatCorners] <;> vsimp <;>
      norm_num <;> ring
  have h1 : (⟨0, 0, -1⟩ : V3 ℝ).norm = 1 := by
    unfold V3.norm
    norm_num
  unfold PanelPts.finNormal PanelPts.normal
  rw [hx, V3.norm_smul, h1]
  norm_num
  ext <;> vsimp <;> norm_num

/-- Each panel of an aircraft whose segments are such wings without devices. -/
theorem flat_lattice {lat : LatticeEnv} {ac : PAircraft ℝ} (hu : ac.Unpanelled)
    (h : prePanelling ac = .ok ac) (hn : ac.NumC 0)
    (hgeo : ∀ t ∈ allSubareas ac, lat.geo t.2.2.2.1 t.2.2.1.1 = flatGeo)
    (hcam : ∀ m k eta xsi, lat.camber m k eta xsi = 0) (hsub : ∀ t ∈ allSubareas ac, t.2.1.2 = Strip.init 0 1 1 0 ∧
      t.1.2 = ⟨"segment", Quad.init 0 0 1 1, none⟩) {alpha beta : ℝ} {l : LatticeData}
    (hl : genLattice lat true alpha beta ac = .ok l) :
    ∀ e ∈ l.book.entries, e.numC = 1 → ∀ k : ℕ, e.start = k →
      l.panel k = some (flatPanel (trailLeg alpha beta) (if e.mirror then -2/25 else 0)) := by
  intro e he h1 k hk
  obtain ⟨t, ht, -, v, hv, hp⟩ := C71_own_rotations ac ac hu h hn lat alpha beta l hl e he
  obtain ⟨t1, t2⟩ := hsub t ht
  have hcor : v = flatCorners (if e.mirror then -2/25 else 0) := by
    rw [t1, t2, hgeo t ht] at hv
    cases hm : e.mirror <;> rw [hm] at hv <;>
    · simp only [subareaVertices, Strip.absVertices, flatGeo, GeoEnv.isDeformed,
        Strip.init, Quad.init, mirrorVertices, Corners.mapE, mirrorPoint, orderMirrored] at hv
      norm_num at hv
      subst hv
      simp only [flatCorners, Bool.false_eq_true, if_false, if_true, Corners.mk.injEq]
      refine ⟨?_, ?_, ?_, ?_⟩ <;> ext <;> vsimp <;> norm_num
  obtain ⟨p1, n1, q1, q2⟩ := hp 0 (by rw [h1]; norm_num)
  rw [h1, hcor] at p1 q1
  simp only [Nat.cast_zero, add_zero, hk] at p1 q2
  have e1 : n1 = some ⟨0, 0, -1⟩ := by
    rcases q1 with ⟨-, hq⟩ | ⟨f, ⟨-, hf⟩ | ⟨-, hf⟩, -⟩
    · rw [hq, flat_finNormal]
    · rw [t2] at hf
      have := congrArg Subarea.ctrl hf
      cases this
    · rw [t2] at hf
      have := congrArg Subarea.ctrl hf
      cases this
  have e2 := turnedBy_zero q2 (by simp [hcam])
  rw [e1] at e2
  unfold LatticeData.panel LatticeData.panelAt
  simp only [p1, e2]
  rfl

theorem flat_horseshoeOk {eps : ℝ} (he : 0 < eps) {leg : V3 ℝ} (hy : leg.y = 0) {x : V3 ℝ}
    {y0 y1 : ℝ} (h0 : y0 = 0 ∨ y0 = -2/25) (h1 : y1 = 0 ∨ y1 = -2/25) (hx : x.y = y0 + 1/25) :
    HorseshoeOk eps x (flatPanel leg y1) := by
  obtain ⟨p2, p3, p1, p4, -⟩ := flatPanel_pts leg y1
  have n2 : x ≠ (flatPanel leg y1).v2 := by
    intro e
    rw [p2] at e
    rw [e] at hx
    rcases h0 with rfl | rfl <;> rcases h1 with rfl | rfl <;> norm_num at hx
  have n3 : x ≠ (flatPanel leg y1).v3 := by
    intro e
    rw [p3] at e
    rw [e] at hx
    rcases h0 with rfl | rfl <;> rcases h1 with rfl | rfl <;> norm_num at hx
  have n1 : x ≠ (flatPanel leg y1).v1 := by
    intro e
    rw [p1] at e
    rw [e] at hx
    rcases h0 with rfl | rfl <;> rcases h1 with rfl | rfl <;> norm_num [hy] at hx
  have n4 : x ≠ (flatPanel leg y1).v4 := by
    intro e
    rw [p4] at e
    rw [e] at hx
    rcases h0 with rfl | rfl <;> rcases h1 with rfl | rfl <;> norm_num [hy] at hx
  exact ⟨(kernelOk_iff he _ _ _).2 ⟨n1, n2⟩, (kernelOk_iff he _ _ _).2 ⟨n2, n3⟩,
    (kernelOk_iff he _ _ _).2 ⟨n3, n4⟩⟩

theorem trailLeg_y (alpha : ℝ) : (trailLeg alpha 0).y = 0 := by
  unfold trailLeg freestreamDir deg2rad
  simp

/-- Settings of the examples: everything is saved. -/
noncomputable def exampleEnv : RunEnv :=
  { lat := flatLat, refs := ⟨⟨0, 0, 0⟩, ⟨0, 0, 0⟩, 1, 1, 1⟩, eps := 1/1000000, doRot := true
    autoC := 5, autoS := 5, base := "example", saveGlobal := true, savePanelwise := true
    saveMatrix := true, saveAero := true, cpacsAircraft := false, cpacsState := false
    dgesv := exactDgesv }

theorem exampleEnv_eps : 0 < exampleEnv.eps := by unfold exampleEnv; norm_num

/-- A lattice of such panels is analysed without failure. -/
theorem flat_analyse {env : RunEnv} (heps : 0 < env.eps) {ac : PAircraft ℝ}
    {s : FlowState} {l : LatticeData}
    (hl : genLattice env.lat env.doRot s.alpha s.beta ac = .ok l) {n : ℕ}
    (h2 : l.num = n) (hn : n ≠ 0) {y : Fin n → ℝ} (hy : ∀ k, y k = 0 ∨ y k = -2/25)
    (hp : ∀ k : Fin n, l.panel k = some (flatPanel (trailLeg s.alpha 0) (y k))) :
    ∃ P : Fin l.num → Panel, (∀ k, P k = flatPanel (trailLeg s.alpha 0) (y (Fin.cast h2 k))) ∧
      ∃ A R, vlmDownwash env.eps P = some A ∧
      vlmResults env.eps s env.refs P
        (gammaOf env A (vlmBoundary s env.refs P)) = some R ∧
      analyse env ac s VlmData.fresh =
        .ok (l, VlmData.of A (vlmBoundary s env.refs P)
          (env.dgesv (rowsOf A) (List.ofFn (vlmBoundary s env.refs P))) R) := by
  let P : Fin l.num → Panel := fun k => flatPanel (trailLeg s.alpha 0) (y (Fin.cast h2 k))
  have hP : ∀ k : Fin l.num, l.panel k = some (P k) := fun k => hp (Fin.cast h2 k)
  have hA : ∃ A, vlmDownwash env.eps P = some A := by
    unfold vlmDownwash
    rw [if_pos]
    · exact ⟨_, rfl⟩
    · intro i j
      refine flat_horseshoeOk heps (trailLeg_y _) (hy (Fin.cast h2 i)) (hy (Fin.cast h2 j)) ?_
      rw [(flatPanel_pts _ _).2.2.2.2.1]
  obtain ⟨A, hA⟩ := hA
  have hR : ∃ R, vlmResults env.eps s env.refs P
      (gammaOf env A (vlmBoundary s env.refs P)) = some R := by
    unfold vlmResults
    rw [if_pos]
    · exact ⟨_, rfl⟩
    · intro i j
      refine flat_horseshoeOk heps (trailLeg_y _) (hy (Fin.cast h2 i)) (hy (Fin.cast h2 j)) ?_
      rw [(flatPanel_pts _ _).2.2.2.2.2.1]
  obtain ⟨R, hR⟩ := hR
  exact ⟨P, fun _ => rfl, A, R, hA, hR,
    analyse_build (env := env) (l := l) hl (by rw [h2]; exact hn) hP hA hR⟩

/-! ## A run over two flight states -/

theorem plain_analyse (s : FlowState) (hs : s.beta = 0) :
    ∃ l v, analyse exampleEnv onePanelAc s VlmData.fresh = .ok (l, v) := by
  obtain ⟨hu, hn⟩ := plainAc_ok
  obtain ⟨l, hl⟩ := C76_lattice_generated _ _ hu plainAc_panelled hn flatLat true s.alpha s.beta
    (fun _ _ _ => .inr (.inl rfl))
  obtain ⟨b, hb, he, hp⟩ := plain_book
  obtain ⟨-, k1, -⟩ := genLattice_ok hl
  rw [hb] at k1
  cases k1
  have h2 : l.num = 2 := by unfold LatticeData.num; rw [hp]; rfl
  have hF := flat_lattice hu plainAc_panelled hn (fun _ _ => rfl) (fun _ _ _ _ => rfl) (by
    intro t ht
    rw [plain_subareas, List.mem_singleton] at ht
    subst ht
    exact ⟨rfl, rfl⟩) hl
  rw [he] at hF
  obtain ⟨P, -, A, R, -, -, h⟩ := flat_analyse exampleEnv_eps hl h2 (by norm_num)
    (y := ![0, -2/25]) (by
      intro k; fin_cases k <;> simp) (by
    intro k
    rw [hs] at hF
    fin_cases k
    · exact hF _ (List.mem_cons_self ..) rfl 0 rfl
    · exact hF _ (List.mem_cons_of_mem _ (List.mem_singleton.2 rfl)) rfl 1 rfl)
  exact ⟨l, _, h⟩

/-- Two flight states: 10 m/s at 0 degree and 20 m/s at 5 degree. -/
noncomputable def runStates : FlightSt ℝ :=
  ⟨fun p => if p = "airspeed" then some [.num (.fin 10), .num (.fin 20)]
    else if p = "alpha" then some [.num (.fin 0), .num (.fin 5)]
    else if p = "density" then some [.num (.fin 1), .num (.fin 1)]
    else some [.num (.fin 0), .num (.fin 0)], 2⟩

theorem two_current (i : ℕ) (hi : i < 2) : ∃ cur s, runStates.current i = .ok cur ∧
    cur.toFlow = some s ∧ s.beta = 0 := by
  obtain rfl | rfl : i = 0 ∨ i = 1 := by omega
  · exact ⟨_, ⟨10, 1, 0, 0, 0, 0, 0⟩, rfl, rfl, rfl⟩
  · exact ⟨_, ⟨20, 1, 5, 0, 0, 0, 0⟩, rfl, rfl, rfl⟩

theorem plain_autopanels : setAutopanels 5 5 onePanelAc = .ok onePanelAc := by
  unfold setAutopanels onePanelAc
  simp only [mapE, PWing.setAutopanels, PSegment.setAutopanels, reduceCtorEq, if_false, List.map_nil]

theorem saveAll_total {env : RunEnv} (hd : Lapack env.dgesv) {ac : PAircraft ℝ} {st : FlightSt ℝ}
    {i : ℕ} {p : Pass} (h : Pass.Of env ac st i p) : ∃ fs, saveAll env i p.cur p.v = .ok fs := by
  obtain ⟨a, -, a2⟩ := h.analysis hd
  have hv := PassSpec.holds a2
  unfold saveAll
  rw [Holds.panelwise hv, Holds.matrix hv]
  unfold saveIf
  cases env.saveGlobal <;> cases env.savePanelwise <;> cases env.saveMatrix <;> exact ⟨_, rfl⟩

/-- The run over two flight states finishes. -/
theorem example_run : ∃ out, standardRun exampleEnv onePanelAc runStates = .ok out := by
  have hp : Panelled exampleEnv onePanelAc onePanelAc :=
    ⟨onePanelAc, plain_autopanels, plainAc_panelled⟩
  obtain ⟨ps, fs, h1, h2⟩ := Passes.build (env := exampleEnv) (ac := onePanelAc) (st := runStates)
    (k := 2) (i := 0) (by
      intro j hj
      obtain ⟨cur, s, c1, c2, c3⟩ := two_current j hj
      obtain ⟨l, v, hv⟩ := plain_analyse s c3
      have : Pass.Of exampleEnv onePanelAc runStates (0 + j) ⟨cur, s, l, v⟩ :=
        ⟨by rw [Nat.zero_add]; exact c1, c2, hv⟩
      obtain ⟨gs, hg⟩ := saveAll_total (env := exampleEnv) exactDgesv_lapack this
      exact ⟨_, gs, this, hg⟩)
  exact standardRun_build hp h1 h2 (by simp [runStates])

/-- Example for C59: two values per column. -/
example : ∃ out, standardRun exampleEnv onePanelAc runStates = .ok out ∧
    ∀ c ∈ runColumns, ∃ l, out.table c.1 = some l ∧ l.length = 2 := by
  obtain ⟨out, h⟩ := example_run
  obtain ⟨ac', as, -, ⟨h2, -⟩, -, h4, -⟩ := C59_one_row_per_state exampleEnv exactDgesv_lapack _ _
    _ h
  exact ⟨out, h, fun c hc => ⟨_, h4 c hc, by rw [List.length_map]; exact h2⟩⟩

/-- Example for C59 without flight states. -/
example : ∃ files, standardRun exampleEnv onePanelAc ⟨fun _ => none, 0⟩ =
    .error (.raised .unboundLocal, files) :=
  C59_no_states exampleEnv onePanelAc onePanelAc _ rfl plain_autopanels

/-- Example for C65: analyses of the two flight states have different wakes, but the same panels. -/
example : ∃ a b : Analysis, a.Of exampleEnv onePanelAc runStates 0 ∧
    b.Of exampleEnv onePanelAc runStates 1 ∧ a.s.alpha ≠ b.s.alpha ∧ a.l.book = b.l.book := by
  obtain ⟨out, h⟩ := example_run
  obtain ⟨ac', as, ⟨ac1, p1, p2⟩, ⟨h2, h3⟩, -, -, -⟩ := C59_one_row_per_state exampleEnv
    exactDgesv_lapack _ _ _ h
  have q1 : (5 : ℤ) = exampleEnv.autoC := rfl
  have p1' : setAutopanels 5 5 onePanelAc = .ok ac1 := p1
  rw [plain_autopanels] at p1'
  cases p1'
  rw [plainAc_panelled] at p2
  cases p2
  have hl : as.length = 2 := h2
  have ha := h3 0 _ (List.getElem?_eq_getElem (by omega))
  have hb := h3 1 _ (List.getElem?_eq_getElem (by omega))
  refine ⟨_, _, ha, hb, ?_, (C65_same_lattice exampleEnv _ _ _ 0 1 _ _ ha hb).1⟩
  intro e
  have z0 := ha.alpha
  have z1 := hb.alpha
  rw [e] at z0
  have y0 : runStates.aero.entry "alpha" 0 = .ok (.fin 0) := rfl
  have y1 : runStates.aero.entry "alpha" 1 = .ok (.fin 5) := rfl
  rw [y0] at z0
  rw [y1, ← z0] at z1
  simp at z1

/-- Example for C79: the run over two states finishes, so both single runs do. -/
example : ∀ i < 2, ∃ o, standardRun exampleEnv onePanelAc (runStates.only i) = .ok o :=
  (C79_batch_is_single_runs exampleEnv onePanelAc runStates (by simp [runStates])).1.1 example_run

/-- Example for C80 and C81: the run has files for both states. -/
example : ∃ out, standardRun exampleEnv onePanelAc runStates = .ok out ∧
    (∃ c, (stateDir "example" 0 ++ ["panelwise.dat"], c) ∈ out.files) ∧
    (∃ c, (stateDir "example" 1 ++ ["panelwise.dat"], c) ∈ out.files) := by
  obtain ⟨out, h⟩ := example_run
  obtain ⟨-, ac', as, -, -, -, h5, -⟩ := C81_result_files exampleEnv exactDgesv_lapack _ _ _ h
  exact ⟨out, h, (h5 0 (by simp [runStates])).2.1 rfl, (h5 1 (by simp [runStates])).2.1 rfl⟩

/-- Example for C83: the aircraft, the reference points and both states are symmetric. -/
example : ∃ out, standardRun exampleEnv onePanelAc runStates = .ok out ∧
    ∃ l, out.table "Cn" = some l ∧ l[1]? = some (.fin 0) := by
  obtain ⟨out, h⟩ := example_run
  obtain ⟨hu, hn⟩ := plainAc_ok
  refine ⟨out, h, (C83_symmetric_run_partial exampleEnv exactDgesv_lapack onePanelAc hu ⟨by decide, ?_⟩ ?_
    ⟨rfl, rfl⟩ runStates out h 1 (by simp [runStates]) ⟨rfl, rfl, rfl⟩).2 ?_ "Cn" (by simp)⟩
  · intro w hw
    simp only [onePanelAc, List.mem_singleton] at hw
    subst hw
    refine ⟨?_, by simp⟩
    intro s hs n hsn
    simp only [List.mem_singleton] at hs
    subst hs
    cases hsn
    norm_num
  · rintro ac' ⟨ac1, p1, p2⟩ t ht
    have p1' : setAutopanels 5 5 onePanelAc = .ok ac1 := p1
    rw [plain_autopanels] at p1'
    cases p1'
    rw [plainAc_panelled] at p2
    cases p2
    rw [plain_subareas, List.mem_singleton] at ht
    subst ht
    refine ⟨.inl ⟨rfl, rfl, ?_, fun c hc => by cases hc⟩, fun _ => .inl fun _ _ => rfl⟩
    intro p
    simp [exampleEnv, flatLat, flatGeo, displaced]
  · refine ⟨?_, ?_, ?_⟩ <;> norm_num [exampleEnv]

/-! ## C82: a singular system -/

/-- A wing with one panel and no symmetry. -/
noncomputable def singleWing (uid : String) : PWing ℝ :=
  { uid := uid, symmetry := 0
    segments := [⟨"S", 1, some 1, some 1, fun _ _ _ => 0, fun _ _ _ _ => 1, initStrips⟩]
    controls := [] }

/-- The same wing twice. -/
noncomputable def doubledAc : PAircraft ℝ := ⟨[singleWing "W", singleWing "V"]⟩

theorem doubled_panelled : prePanelling doubledAc = .ok doubledAc := by
  have h2 : mapE PSegment.addSpanLines
      [(⟨"S", 1, some 1, some 1, fun _ _ _ => 0, fun _ _ _ _ => 1, initStrips⟩ : PSegment ℝ)] =
      .ok [⟨"S", 1, some 1, some 1, fun _ _ _ => 0, fun _ _ _ _ => 1, initStrips⟩] := by
    simp [mapE, PSegment.addSpanLines, spanLines, addLines, initStrips]
  unfold prePanelling doubledAc singleWing
  simp only [mapE, PWing.mapSegments, placeControls]
  simp only [mapE] at h2
  simp only [h2]

theorem doubled_ok : doubledAc.Unpanelled ∧ doubledAc.NumC 0 := by
  refine ⟨?_, ?_⟩
  · intro w hw s hs
    simp only [doubledAc, List.mem_cons, List.not_mem_nil, or_false] at hw
    rcases hw with rfl | rfl <;>
    · simp only [singleWing, List.mem_singleton] at hs
      subst hs
      rfl
  · intro w hw
    simp only [doubledAc, List.mem_cons, List.not_mem_nil, or_false] at hw
    rcases hw with rfl | rfl <;> simp [singleWing]

/-- The subareas. -/
noncomputable def doubledSub (i : ℕ) (uid : String) : SubTuple ℝ :=
  ((0, ⟨"segment", Quad.init 0 0 1 1, none⟩), (0, Strip.init 0 1 1 0),
    (0, ⟨"S", 1, some 1, some 1, fun _ _ _ => 0, fun _ _ _ _ => 1, initStrips⟩),
    (i, singleWing uid))

theorem doubled_subareas : allSubareas doubledAc = [doubledSub 0 "W", doubledSub 1 "V"] := rfl

theorem doubled_book : ∃ b, genBook doubledAc = .ok b ∧
    b.entries = [⟨⟨0, 0, 0, 0⟩, "W", 0, 1, 1, false⟩, ⟨⟨1, 0, 0, 0⟩, "V", 1, 2, 1, false⟩] ∧
    b.numP = 2 := by
  have h1 : ∀ i u, chordPanels (doubledSub i u).2.2.2.2 (doubledSub i u).2.2.1.2
      (doubledSub i u).1.2 = .ok 1 := by
    intro i u
    unfold chordPanels doubledSub
    simp only [if_true]
    congr 1
    rw [Int.ceil_eq_iff]
    norm_num [Quad.relLength, Quad.init]
  have hsy : ∀ i u, (doubledSub i u).2.2.2.2.symmetry = 0 := fun _ _ => rfl
  have hb : ∃ b, genBook doubledAc = .ok b := by
    unfold genBook
    rw [doubled_subareas]
    simp only [countFrom, countStep, h1, hsy, ne_eq, not_true_eq_false, if_false]
    exact ⟨_, rfl⟩
  obtain ⟨b, hb⟩ := hb
  refine ⟨b, hb, ?_⟩
  unfold genBook at hb
  rw [doubled_subareas] at hb
  simp only [countFrom, countStep, h1, hsy, ne_eq, not_true_eq_false, if_false] at hb
  cases hb
  exact ⟨rfl, rfl⟩

theorem doubled_autopanels : setAutopanels 5 5 doubledAc = .ok doubledAc := by
  unfold setAutopanels doubledAc singleWing
  simp only [mapE, PWing.setAutopanels, PSegment.setAutopanels, reduceCtorEq, if_false, List.map_nil]

/-- One flight state: 10 m/s at 30 degree. -/
noncomputable def runState : FlightSt ℝ :=
  ⟨fun p => if p = "airspeed" then some [.num (.fin 10)]
    else if p = "alpha" then some [.num (.fin 30)]
    else if p = "density" then some [.num (.fin 1)] else some [.num (.fin 0)], 1⟩

/-- Kernel in the plane of the wing: sign of the vertical velocity. -/
theorem kernel_z_nonpos {eps : ℝ} (he : 0 < eps) {x a b : V3 ℝ} (h1 : x ≠ a) (h2 : x ≠ b)
    (h : ((x - a).cross (x - b)).z ≤ 0) : (kernel eps x a b).z ≤ 0 := by
  have d := kernelDen_pos he (sub_ne_zero.2 h1) (sub_ne_zero.2 h2)
  have n1 := V3.norm_pos (sub_ne_zero.2 h1)
  have n2 := V3.norm_pos (sub_ne_zero.2 h2)
  unfold kernel
  simp only [smul_z]
  refine mul_nonpos_of_nonneg_of_nonpos ?_ h
  have := Real.pi_pos
  positivity

/-- The horseshoe vortex induces more than half a unit of normal velocity on its own panel. -/
theorem flat_self {leg : V3 ℝ} (hx : 1 ≤ leg.x) (hy : leg.y = 0) :
    1 / 2 < (horseshoe (1/1000000) (flatPanel leg 0).col (flatPanel leg 0)).dot
      (flatPanel leg 0).n := by
  obtain ⟨p2, p3, p1, p4, pc, -, pn⟩ := flatPanel_pts leg 0
  unfold horseshoe
  rw [p1, p2, p3, p4, pc, pn, hy]
  have k1 : (kernel (1/1000000) ⟨9/200, 0 + 1/25, 0⟩ ⟨3/200 + leg.x, 0 + 0, leg.z⟩
      ⟨3/200, 0, 0⟩).z ≤ 0 := by
    apply kernel_z_nonpos (by norm_num)
    · intro e; have := congrArg V3.y e; norm_num at this
    · intro e; have := congrArg V3.y e; norm_num at this
    · vsimp; nlinarith
  have k3 : (kernel (1/1000000) ⟨9/200, 0 + 1/25, 0⟩ ⟨3/200, 0 + 2/25, 0⟩
      ⟨3/200 + leg.x, 0 + 2/25 + 0, leg.z⟩).z ≤ 0 := by
    apply kernel_z_nonpos (by norm_num)
    · intro e; have := congrArg V3.y e; norm_num at this
    · intro e; have := congrArg V3.y e; norm_num at this
    · vsimp; nlinarith
  have k2 : (kernel (1/1000000) ⟨9/200, 0 + 1/25, 0⟩ ⟨3/200, 0, 0⟩ ⟨3/200, 0 + 2/25, 0⟩).z <
      -(1/2) := by
    have e1 : (⟨9/200, 0 + 1/25, 0⟩ - ⟨3/200, 0, 0⟩ : V3 ℝ) = ⟨3/100, 4/100, 0⟩ := by
      ext <;> vsimp <;> norm_num
    have e2 : (⟨9/200, 0 + 1/25, 0⟩ - ⟨3/200, 0 + 2/25, 0⟩ : V3 ℝ) = ⟨3/100, -4/100, 0⟩ := by
      ext <;> vsimp <;> norm_num
    have n1 : (⟨3/100, 4/100, 0⟩ : V3 ℝ).norm = 5/100 := by
      unfold V3.norm
      rw [show (3/100 * (3/100) + 4/100 * (4/100) + 0 * 0 : ℝ) = (5/100) ^ 2 by norm_num]
      exact Real.sqrt_sq (by norm_num)
    have n2 : (⟨3/100, -4/100, 0⟩ : V3 ℝ).norm = 5/100 := by
      unfold V3.norm
      rw [show (3/100 * (3/100) + -4/100 * (-4/100) + 0 * 0 : ℝ) = (5/100) ^ 2 by norm_num]
      exact Real.sqrt_sq (by norm_num)
    unfold kernel kernelDen
    simp only [e1, e2, n1, n2, smul_z]
    simp only [V3.dot, V3.cross]
    have hpi := Real.pi_lt_four
    have hpos := Real.pi_pos
    have : 1 / (4 * Real.pi) > 1 / 16 := by
      rw [gt_iff_lt, div_lt_div_iff₀ (by norm_num) (by positivity)]
      linarith
    generalize 1 / (4 * Real.pi) = c at this
    norm_num
    linarith
  simp only [V3.dot, add_x, add_y, add_z, zero_x, zero_y, zero_z]
  linarith

/-- **C82** is *false*: for an aircraft with two coincident wings the system is singular, and the run
finishes with circulations that do not satisfy it. -/
theorem C82_singular_false : ¬ SystemSatisfied := by
  intro hall
  obtain ⟨hu, hn⟩ := doubled_ok
  obtain ⟨l, hl⟩ := C76_lattice_generated _ _ hu doubled_panelled hn flatLat true 30 0
    (fun _ _ _ => .inr (.inl rfl))
  obtain ⟨b, hb, he, hp⟩ := doubled_book
  obtain ⟨-, k1, -⟩ := genLattice_ok hl
  rw [hb] at k1
  cases k1
  have h2 : l.num = 2 := by unfold LatticeData.num; rw [hp]; rfl
  have hF := flat_lattice hu doubled_panelled hn (fun _ _ => rfl) (fun _ _ _ _ => rfl) (by
    intro t ht
    rw [doubled_subareas] at ht
    simp only [List.mem_cons, List.not_mem_nil, or_false] at ht
    rcases ht with rfl | rfl <;> exact ⟨rfl, rfl⟩) hl
  rw [he] at hF
  let s : FlowState := ⟨10, 1, 30, 0, 0, 0, 0⟩
  obtain ⟨P, hP, A, R, hA, hR, ha⟩ := flat_analyse (env := exampleEnv) exampleEnv_eps (s := s) hl h2
    (by norm_num) (y := fun _ => 0)
    (fun _ => .inl rfl) (by
      intro k
      fin_cases k
      · exact hF _ (List.mem_cons_self ..) rfl 0 rfl
      · exact hF _ (List.mem_cons_of_mem _ (List.mem_singleton.2 rfl)) rfl 1 rfl)
  have hpass : ∃ cur, Pass.Of exampleEnv doubledAc runState 0 ⟨cur, s, l, _⟩ :=
    ⟨_, rfl, rfl, ha⟩
  obtain ⟨cur, hpass⟩ := hpass
  obtain ⟨fs, hfs⟩ := saveAll_total (env := exampleEnv) exactDgesv_lapack hpass
  obtain ⟨out, hout⟩ := standardRun_build (env := exampleEnv) (st := runState)
    ⟨doubledAc, doubled_autopanels, doubled_panelled⟩ (.cons hpass hfs (.nil 1)) rfl
    (by simp [runState])
  obtain ⟨ac', ps, gs, cs, p, ⟨ac1, q1, q2⟩, r2, r3, r4, -, r6, -, -, -⟩ := standardRun_ok hout
  have q1' : setAutopanels 5 5 doubledAc = .ok ac1 := q1
  rw [doubled_autopanels] at q1'
  cases q1'
  rw [doubled_panelled] at q2
  cases q2
  have r3' : ps.length = 1 := r3
  obtain ⟨q, rfl⟩ := List.length_eq_one_iff.1 r3'
  cases r4
  obtain ⟨g1, -⟩ := r2.get 0 _ rfl
  have e := g1.unique hpass
  subst e
  set bb := vlmBoundary s exampleEnv.refs P with hbb
  obtain ⟨-, m2, m3⟩ := gammaOf_lapack (env := exampleEnv) exactDgesv_lapack A bb
  have hsys := hall exampleEnv exactDgesv_lapack (by norm_num [exampleEnv]) doubledAc runState out
    hout l.num A bb (gammaOf exampleEnv A bb) (by rw [r6]; rfl) (by rw [r6]; rfl) (by
      rw [r6]
      show some _ = some _
      have m3' : exampleEnv.dgesv (rowsOf A) (List.ofFn bb) = List.ofFn (gammaOf exampleEnv A bb) := m3
      rw [m3', List.map_ofFn]
      rfl)
  have hleg : 1 ≤ (trailLeg 30 0).x := by
    unfold trailLeg freestreamDir deg2rad
    have e30 : (30 : ℝ) * (Real.pi / 180) = Real.pi / 6 := by ring
    rw [zero_mul, smul_x, e30, Real.cos_pi_div_six, Real.cos_zero]
    have : (1 : ℝ) ≤ Real.sqrt 3 := by
      rw [Real.one_le_sqrt]; norm_num
    linarith
  have hw := flat_self hleg (trailLeg_y 30)
  set w := (horseshoe (1/1000000) (flatPanel (trailLeg 30 0) 0).col (flatPanel (trailLeg 30 0) 0)).dot
      (flatPanel (trailLeg 30 0) 0).n with hwdef
  have hAw : ∀ i j, A i j = w := by
    intro i j
    obtain ⟨-, hA'⟩ := vlmDownwash_some hA
    rw [hA', hP, hP]
    rfl
  have hb5 : ∀ i, bb i = 5 := by
    intro i
    rw [hbb]
    unfold vlmBoundary
    rw [hP, (flatPanel_pts _ _).2.2.2.2.2.2]
    have e30 : (30 : ℝ) * (Real.pi / 180) = Real.pi / 6 := by ring
    simp only [velWind, velRot, freestreamDir, deg2rad, s, V3.dot, add_x, add_y, add_z, e30,
      Real.sin_pi_div_six, zero_mul, Real.cos_zero]
    ring
  generalize l.num = n at *
  subst h2
  have hdet : ¬ IsUnit A.det := by
    rw [Matrix.det_fin_two, hAw, hAw, hAw, hAw]
    simp
  rw [m2 hdet] at hsys
  have := congrFun hsys 0
  rw [Matrix.mulVec, dotProduct, Fin.sum_univ_two, hAw, hAw, hb5, hb5] at this
  linarith

/-- The wing alone. -/
noncomputable def singleAc : PAircraft ℝ := ⟨[singleWing "W"]⟩

theorem single_panelled : prePanelling singleAc = .ok singleAc := by
  have h2 : mapE PSegment.addSpanLines
      [(⟨"S", 1, some 1, some 1, fun _ _ _ => 0, fun _ _ _ _ => 1, initStrips⟩ : PSegment ℝ)] =
      .ok [⟨"S", 1, some 1, some 1, fun _ _ _ => 0, fun _ _ _ _ => 1, initStrips⟩] := by
    simp [mapE, PSegment.addSpanLines, spanLines, addLines, initStrips]
  unfold prePanelling singleAc singleWing
  simp only [mapE, PWing.mapSegments, placeControls]
  simp only [mapE] at h2
  simp only [h2]

theorem single_ok : singleAc.Unpanelled ∧ singleAc.NumC 0 := by
  refine ⟨?_, ?_⟩
  · intro w hw s hs
    simp only [singleAc, List.mem_singleton] at hw
    subst hw
    simp only [singleWing, List.mem_singleton] at hs
    subst hs
    rfl
  · intro w hw
    simp only [singleAc, List.mem_singleton] at hw
    subst hw
    simp [singleWing]

theorem single_subareas : allSubareas singleAc = [doubledSub 0 "W"] := rfl

theorem single_book : ∃ b, genBook singleAc = .ok b ∧
    b.entries = [⟨⟨0, 0, 0, 0⟩, "W", 0, 1, 1, false⟩] ∧ b.numP = 1 := by
  have h1 : ∀ i u, chordPanels (doubledSub i u).2.2.2.2 (doubledSub i u).2.2.1.2
      (doubledSub i u).1.2 = .ok 1 := by
    intro i u
    unfold chordPanels doubledSub
    simp only [if_true]
    congr 1
    rw [Int.ceil_eq_iff]
    norm_num [Quad.relLength, Quad.init]
  have hsy : ∀ i u, (doubledSub i u).2.2.2.2.symmetry = 0 := fun _ _ => rfl
  have hb : ∃ b, genBook singleAc = .ok b := by
    unfold genBook
    rw [single_subareas]
    simp only [countFrom, countStep, h1, hsy, ne_eq, not_true_eq_false, if_false]
    exact ⟨_, rfl⟩
  obtain ⟨b, hb⟩ := hb
  refine ⟨b, hb, ?_⟩
  unfold genBook at hb
  rw [single_subareas] at hb
  simp only [countFrom, countStep, h1, hsy, ne_eq, not_true_eq_false, if_false] at hb
  cases hb
  exact ⟨rfl, rfl⟩

theorem single_autopanels : setAutopanels 5 5 singleAc = .ok singleAc := by
  unfold setAutopanels singleAc singleWing
  simp only [mapE, PWing.setAutopanels, PSegment.setAutopanels, reduceCtorEq, if_false, List.map_nil]

/-- Example for the hypotheses of `C82_system_satisfied_partial`: the wing alone has a regular
matrix. -/
example : ∃ out, standardRun exampleEnv singleAc runState = .ok out ∧
    ∃ (n : ℕ) (A : Matrix (Fin n) (Fin n) ℝ) (b g : Fin n → ℝ), n = 1 ∧
      out.vlm.matrix = some (List.ofFn fun i => List.ofFn fun j => A i j) ∧
      out.vlm.rhs = some (List.ofFn b) ∧
      out.vlm.panelwise "gamma" = some (List.ofFn fun k => .fin (g k)) ∧ IsUnit A.det := by
  obtain ⟨hu, hn⟩ := single_ok
  obtain ⟨l, hl⟩ := C76_lattice_generated _ _ hu single_panelled hn flatLat true 30 0
    (fun _ _ _ => .inr (.inl rfl))
  obtain ⟨b, hb, he, hp⟩ := single_book
  obtain ⟨-, k1, -⟩ := genLattice_ok hl
  rw [hb] at k1
  cases k1
  have h2 : l.num = 1 := by unfold LatticeData.num; rw [hp]; rfl
  have hF := flat_lattice hu single_panelled hn (fun _ _ => rfl) (fun _ _ _ _ => rfl) (by
    intro t ht
    rw [single_subareas] at ht
    simp only [List.mem_cons, List.not_mem_nil, or_false] at ht
    subst ht
    exact ⟨rfl, rfl⟩) hl
  rw [he] at hF
  let s : FlowState := ⟨10, 1, 30, 0, 0, 0, 0⟩
  obtain ⟨P, hP, A, R, hA, hR, ha⟩ := flat_analyse (env := exampleEnv) exampleEnv_eps (s := s) hl h2
    (by norm_num) (y := fun _ => 0)
    (fun _ => .inl rfl) (by
      intro k
      fin_cases k
      exact hF _ (List.mem_cons_self ..) rfl 0 rfl)
  have hpass : ∃ cur, Pass.Of exampleEnv singleAc runState 0 ⟨cur, s, l, _⟩ :=
    ⟨_, rfl, rfl, ha⟩
  obtain ⟨cur, hpass⟩ := hpass
  obtain ⟨fs, hfs⟩ := saveAll_total (env := exampleEnv) exactDgesv_lapack hpass
  obtain ⟨out, hout⟩ := standardRun_build (env := exampleEnv) (st := runState)
    ⟨singleAc, single_autopanels, single_panelled⟩ (.cons hpass hfs (.nil 1)) rfl
    (by simp [runState])
  obtain ⟨ac', ps, gs, cs, p, ⟨ac1, q1, q2⟩, r2, r3, r4, -, r6, -, -, -⟩ := standardRun_ok hout
  have q1' : setAutopanels 5 5 singleAc = .ok ac1 := q1
  rw [single_autopanels] at q1'
  cases q1'
  rw [single_panelled] at q2
  cases q2
  have r3' : ps.length = 1 := r3
  obtain ⟨q, rfl⟩ := List.length_eq_one_iff.1 r3'
  cases r4
  obtain ⟨g1, -⟩ := r2.get 0 _ rfl
  have e := g1.unique hpass
  subst e
  set bb := vlmBoundary s exampleEnv.refs P with hbb
  obtain ⟨-, m2, m3⟩ := gammaOf_lapack (env := exampleEnv) exactDgesv_lapack A bb
  refine ⟨out, hout, l.num, A, bb, gammaOf exampleEnv A bb, h2, by rw [r6]; rfl, by rw [r6]; rfl,
    ?_, ?_⟩
  · rw [r6]
    show some _ = some _
    have m3' : exampleEnv.dgesv (rowsOf A) (List.ofFn bb) = List.ofFn (gammaOf exampleEnv A bb) := m3
    rw [m3', List.map_ofFn]
    rfl
  have hleg : 1 ≤ (trailLeg 30 0).x := by
    unfold trailLeg freestreamDir deg2rad
    have e30 : (30 : ℝ) * (Real.pi / 180) = Real.pi / 6 := by ring
    rw [zero_mul, smul_x, e30, Real.cos_pi_div_six, Real.cos_zero]
    have : (1 : ℝ) ≤ Real.sqrt 3 := by
      rw [Real.one_le_sqrt]; norm_num
    linarith
  have hw := flat_self hleg (trailLeg_y 30)
  have hAw : ∀ i j, 1 / 2 < A i j := by
    intro i j
    obtain ⟨-, hA'⟩ := vlmDownwash_some hA
    rw [hA', hP, hP]
    exact hw
  clear m3 hF he hp hP hA hR ha hpass hfs g1 r2 r6
  clear hbb
  clear_value bb
  generalize l.num = n at *
  subst h2
  rw [Matrix.det_fin_one, isUnit_iff_ne_zero]
  have := hAw 0 0
  intro h0
  rw [h0] at this
  norm_num at this

end Verif
