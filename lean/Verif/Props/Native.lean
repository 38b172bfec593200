import Verif.Lemmas.NativeSteps
import Verif.Props.Run
import Verif.Props.RunExamples
import Verif.Lemmas.Program

/-!
# Python objects, flat arrays and the native code (C121)
-/

namespace Verif

theorem dgesv_length {env : RunEnv} (hd : Lapack env.dgesv) {n : ℕ} (A : Matrix (Fin n) (Fin n) ℝ)
    (b : Fin n → ℝ) : (env.dgesv (rowsOf A) (List.ofFn b)).length = n := by
  by_cases h : IsUnit A.det
  · obtain ⟨g, e, -⟩ := (hd n A b).1 h
    rw [e, List.length_ofFn]
  · rw [(hd n A b).2 h, List.length_ofFn]

/-- **C121**, one pass.  `analyse` is the pass on panels, matrices and vectors of real numbers, about
which the other theorems are; `nAnalyse` is the pass on Python objects: attributes and items are
fetched by name and type, native code indexes flat arrays, writes may miss an array.  For every
aircraft with at least one panel per subarea they give the same: the same exception, or objects with
the same contents.  In particular no access is
out of bounds; that no call is refused is what `strict = true` says. -/
theorem C121_native_partial (strict : Bool) (env : RunEnv) (hd : Lapack env.dgesv) (ac ac' : PAircraft ℝ)
    (hu : ac.Unpanelled) (hp : prePanelling ac = .ok ac') (hn : ac.NumC 1) (cur : CurSt ℝ)
    (s : FlowState) (hs : cur.toFlow = some s) (v : VlmData) :
    (∀ x, analyse env ac' s v = .error x → nAnalyse strict env ac' cur v.obj = .error (.stop x)) ∧
    (∀ l w, analyse env ac' s v = .ok (l, w) →
      ∃ cs, mapE (entryCorners env.lat ac') l.book.entries = .ok cs ∧
        nAnalyse strict env ac' cur v.obj = .ok (l.obj env.eps (countAllWings ac') (countAllControls ac')
          (latticeStats (trailLeg s.alpha s.beta) (l.book.inputsOf cs) l.book.numP), w.obj)) := by
  obtain ⟨b, gs, hb, -, -, g3, g4, -, g6, -, -⟩ := genBook_facts hu hp (by norm_num) hn
  obtain ⟨a1, a2⟩ := nGenLattice_eq (strict := strict) (env := env) (cur := cur) hs hb g3 g4
    (fun e he => (g6 e he).2 le_rfl)
  unfold analyse nAnalyse
  cases hl : genLattice env.lat env.doRot s.alpha s.beta ac' with
  | error x =>
    simp only [orStop, a1 x hl]
    exact ⟨fun y hy => by cases hy; rfl, fun l w h => by cases h⟩
  | ok l =>
    obtain ⟨hsome, cs, hcs, hobj⟩ := a2 l hl
    have hpts : ∃ pts : ℕ → PanelPts ℝ, ∀ k < l.num, l.pts ((k : ℕ) : ℤ) = some (pts k) := by
      classical
      refine ⟨fun k => (l.pts (k : ℤ)).getD ⟨0, 0, 0, 0, 0, 0, 0, 0, 0, 0⟩, fun k hk => ?_⟩
      obtain ⟨g, hg⟩ := Option.isSome_iff_exists.1 (hsome k hk)
      simp only [hg, Option.getD_some]
    obtain ⟨pts, hpts⟩ := hpts
    set t := latticeStats (trailLeg s.alpha s.beta) (l.book.inputsOf cs) l.book.numP with ht
    have hO := latticeObj_eq (env := env) (ac := ac') hpts t
    rw [hobj, hO]
    simp only [orStop]
    obtain ⟨d1, d2⟩ := nCalcDownwash_eq (strict := strict) (env := env) (ac := ac') t hpts v
    cases hv1 : calcDownwash env l v with
    | error x =>
      simp only [d1 x hv1]
      exact ⟨fun y hy => by cases hy; rfl, fun l w h => by cases h⟩
    | ok v1 =>
      simp only [d2 v1 hv1]
      have hall : ∀ k < l.num, (l.normal ((k : ℕ) : ℤ)).isSome = true := by
        by_contra hcon
        push Not at hcon
        obtain ⟨k, hk, hk'⟩ := hcon
        unfold calcDownwash at hv1
        rw [(panels_cases hpts).2 ⟨k, hk, by simp [hk']⟩] at hv1
        cases hv1
      have hP := (panels_cases hpts).1 hall
      set P : Fin l.num → Panel := fun k => panelN pts (fun k => l.normal (k : ℤ)) k with hPd
      have hv2 : calcBoundary env l s v1 =
          .ok { v1 with rhs := some (List.ofFn (vlmBoundary s env.refs P)) } := by
        unfold calcBoundary
        rw [hP]
      rw [hv2, nCalcBoundary_eq t hs hall v1]
      obtain ⟨A, hA⟩ : ∃ A : Matrix (Fin l.num) (Fin l.num) ℝ, v1.matrix = some (rowsOf A) := by
        unfold calcDownwash at hv1
        rw [hP] at hv1
        simp only at hv1
        cases hdw : vlmDownwash env.eps P with
        | none => rw [hdw] at hv1; cases hv1
        | some A =>
          rw [hdw] at hv1
          simp only at hv1
          split_ifs at hv1 with h0
          cases hv1
          exact ⟨A, rfl⟩
      set v2 : VlmData := { v1 with rhs := some (List.ofFn (vlmBoundary s env.refs P)) } with hv2d
      have hs2 := nSolver_eq (env := env) v2 (A := A) (b := vlmBoundary s env.refs P) hA rfl
      have hg2 : calcGamma env v2 = .ok { v2 with
          panelwise := Function.update v2.panelwise "gamma" (some ((env.dgesv (rowsOf A)
            (List.ofFn (vlmBoundary s env.refs P))).map Flt.fin)) } := by
        unfold calcGamma
        have : v2.matrix = some (rowsOf A) := hA
        rw [this]
      simp only [hs2, hg2]
      set v3 : VlmData := { v2 with
        panelwise := Function.update v2.panelwise "gamma" (some ((env.dgesv (rowsOf A)
          (List.ofFn (vlmBoundary s env.refs P))).map Flt.fin)) } with hv3d
      obtain ⟨r1, r2⟩ := nCalcResults_eq (strict := strict) (env := env) (ac := ac') t hs hall hpts v3
        (g := env.dgesv (rowsOf A) (List.ofFn (vlmBoundary s env.refs P)))
        (by rw [hv3d]; simp) (dgesv_length hd A _)
      cases hv4 : calcResults env l s v3 with
      | error x =>
        simp only [r1 x hv4]
        exact ⟨fun y hy => by cases hy; rfl, fun l w h => by cases h⟩
      | ok v4 =>
        simp only [r2 v4 hv4]
        refine ⟨fun y hy => (by cases hy), fun l' w h => ?_⟩
        cases h
        exact ⟨cs, hcs, by rw [← ht, ← hO]⟩

/-! ## Whole runs -/

/-- At least one panel everywhere: given numbers and the default for others. -/
def PAircraft.OnePanel (autoC : ℤ) (ac : PAircraft ℝ) : Prop :=
  1 ≤ autoC ∧ ∀ w ∈ ac.wings, (∀ s ∈ w.segments, ∀ n, s.numC = some n → 1 ≤ n) ∧
    ∀ c ∈ w.controls, ∀ n, c.numC = some n → 1 ≤ n

theorem autopanels_numC {ac ac1 : PAircraft ℝ} {autoC autoS : ℤ} (hu : ac.Unpanelled)
    (hn : ac.OnePanel autoC) (h : setAutopanels autoC autoS ac = .ok ac1) :
    ac1.Unpanelled ∧ ac1.NumC 1 := by
  have hrest := setAutopanels_rest h
  have hnum := C10_user_numbers_kept _ _ _ _ h
  constructor
  · intro w1 hw1 s1 hs1
    obtain ⟨w, hw', -, -, -, hf⟩ := forall₂_mem_right hrest hw1
    obtain ⟨s, hs', e⟩ := forall₂_mem_right hf hs1
    rw [e]
    exact hu w hw' s hs'
  · intro w1 hw1
    obtain ⟨w, hw', -, -, hf, hfc⟩ := forall₂_mem_right hnum hw1
    obtain ⟨q1, q2⟩ := hn.2 w hw'
    constructor
    · intro s1 hs1
      obtain ⟨s, hs', -, -, e, -⟩ := forall₂_mem_right hf hs1
      refine ⟨_, e, ?_⟩
      cases hc : s.numC with
      | none => exact hn.1
      | some n => exact q1 s hs' n hc
    · intro c1 hc1
      obtain ⟨c, hc', -, e⟩ := forall₂_mem_right hfc hc1
      refine ⟨_, e, ?_⟩
      cases hc : c.numC with
      | none => exact hn.1
      | some n => exact q2 c hc' n hc

theorem obj_floats (v : VlmData) :
    v.obj.floats "forces" = v.forces ∧ v.obj.floats "coeffs" = v.coeffs := by
  constructor <;>
  · funext k
    simp only [NObj.floats, VlmData.obj, String.reduceEq, if_true, if_false]
    first
    | cases v.forces k <;> rfl
    | cases v.coeffs k <;> rfl

theorem obj_vlm {n : ℕ} (A : Matrix (Fin n) (Fin n) ℝ) (b : Fin n → ℝ) (g : List ℝ)
    (R : Results n) : (VlmData.of A b g R).obj.vlm = VlmData.of A b g R := by
  have hwf := VlmData.of_wf A b g R
  apply VlmData.ext
  · have h1 : (VlmData.of A b g R).obj "matrix_downwash" =
        some (.val (.farray [(rowsOf A).length, (rowsOf A).length] ((rowsOf A).flatten.map .fin))) :=
      rfl
    have h2 : (rowsOf A).length = n := by unfold rowsOf; rw [List.length_ofFn]
    show (match (VlmData.of A b g R).obj "matrix_downwash" with
      | some (.val (.farray [n, w] A)) => (finMem A).map (memRows n w)
      | _ => none) = _
    rw [h1, h2]
    simp only [finMem_map, Option.map_some, memRows_rowsOf]
    rfl
  · exact finMem_map (List.ofFn b)
  · funext k
    show (match (VlmData.of A b g R).obj "panelwise" with
      | some (.dict d) => (match d k with
        | some (.farray _ m) => some m
        | _ => none)
      | _ => none) = _
    simp only [VlmData.obj, String.reduceEq, if_true, if_false]
    by_cases hk : k ∈ panelwiseKeys
    · rw [if_pos hk]
      cases (VlmData.of A b g R).panelwise k <;> rfl
    · rw [if_neg hk, hwf.panelwise k hk]
  · exact (obj_floats _).1
  · exact (obj_floats _).2

/-- The loop variables with the objects that have the contents. -/
def SameObjects (env : RunEnv) (x : LoopSt) (y : NLoopSt) : Prop :=
  y.ac = x.ac ∧ y.vlm = x.vlm.obj ∧ y.table = x.table ∧ y.files = x.files ∧
    match x.lattice with
    | none => y.lattice = none
    | some l => ∃ t, y.lattice = some (l.obj env.eps (countAllWings x.ac) (countAllControls x.ac) t)

theorem nRunStep_eq {strict : Bool} {env : RunEnv} (hd : Lapack env.dgesv) {st : FlightSt ℝ}
    {i : ℕ} {x : LoopSt} {y : NLoopSt} (hx : x.vlm.WF) (h : SameObjects env x y) {ac ac' : PAircraft ℝ}
    (hu : ac.Unpanelled) (hn : ac.NumC 1) (hp : prePanelFirst i x.ac = .ok ac')
    (hpp : prePanelling ac = .ok ac') :
    (∀ e, runStep env st i x = .error e → nRunStep strict env st i y = .error (.stop e)) ∧
    (∀ x', runStep env st i x = .ok x' → x'.vlm.WF ∧ x'.ac = ac' ∧
      ∃ y', nRunStep strict env st i y = .ok y' ∧ SameObjects env x' y') := by
  obtain ⟨h1, h2, h3, h4, -⟩ := h
  unfold runStep nRunStep
  rw [h1, h2, h3, h4, hp]
  cases hc : st.current i with
  | error e => exact ⟨fun e' he => by cases he; rfl, fun x' he => by cases he⟩
  | ok cur =>
    simp only [orStop, orNStop]
    cases hs : cur.toFlow with
    | none => exact ⟨fun e' he => by cases he; rfl, fun x' he => by cases he⟩
    | some s =>
      simp only []
      obtain ⟨a1, a2⟩ := C121_native_partial strict env hd ac ac' hu hpp hn cur s hs x.vlm
      cases ha : analyse env ac' s x.vlm with
      | error e =>
        rw [a1 e ha]
        exact ⟨fun e' he => by cases he; rfl, fun x' he => by cases he⟩
      | ok lw =>
        obtain ⟨l, w⟩ := lw
        obtain ⟨cs, -, hna⟩ := a2 l w ha
        have hw : w.WF ∧ w.obj.vlm = w := by
          rw [analyse_indep env ac' s hx] at ha
          obtain ⟨-, -, P, A, R, -, -, -, rfl⟩ := analyse_ok ha
          exact ⟨VlmData.of_wf _ _ _ _, obj_vlm _ _ _ _⟩
        simp only [hna, hw.2, (obj_floats w).1, (obj_floats w).2]
        cases saveAll env i cur w with
        | error e => exact ⟨fun e' he => by cases he; rfl, fun x' he => by cases he⟩
        | ok fs =>
          simp only []
          cases appendAll w.forces forceColumns x.table with
          | error e => exact ⟨fun e' he => by cases he; rfl, fun x' he => by cases he⟩
          | ok t =>
            simp only []
            cases appendAll w.coeffs coeffColumns t with
            | error e => exact ⟨fun e' he => by cases he; rfl, fun x' he => by cases he⟩
            | ok t' =>
              refine ⟨fun e' he => (by cases he), fun x' he => ?_⟩
              cases he
              exact ⟨hw.1, rfl, _, rfl, rfl, rfl, rfl, rfl, _, rfl⟩

theorem nRunLoop_eq {strict : Bool} {env : RunEnv} (hd : Lapack env.dgesv) {st : FlightSt ℝ}
    {ac ac' : PAircraft ℝ} (hu : ac.Unpanelled) (hn : ac.NumC 1) (hpp : prePanelling ac = .ok ac') :
    ∀ (k i : ℕ) (x : LoopSt) (y : NLoopSt), x.vlm.WF → SameObjects env x y →
      prePanelFirst i x.ac = .ok ac' →
      (∀ e, runLoop env st k i x = .error e →
        nRunLoop strict env st k i y = .error (.stop e.1, e.2)) ∧
      (∀ x', runLoop env st k i x = .ok x' → (k = 0 ∨ x'.ac = ac') ∧
        ∃ y', nRunLoop strict env st k i y = .ok y' ∧ SameObjects env x' y') := by
  intro k
  induction k with
  | zero =>
    intro i x y hx h hp
    exact ⟨fun e he => (by cases he), fun x' he => by cases he; exact ⟨.inl rfl, y, rfl, h⟩⟩
  | succ k ih =>
    intro i x y hx h hp
    obtain ⟨s1, s2⟩ := nRunStep_eq (strict := strict) hd (st := st) hx h hu hn hp hpp
    unfold runLoop nRunLoop
    cases hr : runStep env st i x with
    | error e =>
      rw [s1 e hr]
      refine ⟨fun e' he => ?_, fun x' he => by cases he⟩
      cases he
      rw [h.2.2.2.1]
    | ok x1 =>
      obtain ⟨w1, w2, y1, hy1, w3⟩ := s2 x1 hr
      rw [hy1]
      simp only []
      have hp1 : prePanelFirst (i + 1) x1.ac = .ok ac' := by
        unfold prePanelFirst
        rw [if_neg (by omega), w2]
      obtain ⟨r1, r2⟩ := ih (i + 1) x1 y1 w1 w3 hp1
      refine ⟨r1, fun x' he => ?_⟩
      obtain ⟨q1, q2⟩ := r2 x' he
      refine ⟨.inr ?_, q2⟩
      rcases q1 with q1 | q1
      · subst q1
        cases he
        exact w2
      · exact q1

/-- **C121**, whole runs.  A run with the native code in it stops with the same exception and the same
files as the run on real numbers, or both finish with the same table, the same files, and objects with
the same contents.  So all that is shown about `standardRun` holds with the native code in it. -/
theorem C121_run_partial (strict : Bool) (env : RunEnv) (hd : Lapack env.dgesv) (ac : PAircraft ℝ)
    (hu : ac.Unpanelled) (hn : ac.OnePanel env.autoC) (st : FlightSt ℝ) :
    (∀ x files, standardRun env ac st = .error (x, files) →
      nStandardRun strict env ac st = .error (.stop x, files)) ∧
    (∀ out, standardRun env ac st = .ok out → ∃ ac' t, Panelled env ac ac' ∧
      nStandardRun strict env ac st = .ok ⟨out.lattice.obj env.eps (countAllWings ac')
        (countAllControls ac') t, out.vlm.obj, out.table, out.files⟩) := by
  unfold standardRun nStandardRun
  cases h1 : setAutopanels env.autoC env.autoS ac with
  | error e => exact ⟨fun x files h => by cases h; rfl, fun out h => by cases h⟩
  | ok ac1 =>
    simp only []
    obtain ⟨hu1, hn1⟩ := autopanels_numC hu hn h1
    have hsame : SameObjects env ⟨ac1, VlmData.fresh, Table.fresh, [], none⟩
        ⟨ac1, VlmData.fresh.obj, Table.fresh, [], none⟩ := ⟨rfl, rfl, rfl, rfl, rfl⟩
    have hloop : (∀ e, runLoop env st st.num 0 ⟨ac1, VlmData.fresh, Table.fresh, [], none⟩ =
          .error e → nRunLoop strict env st st.num 0
            ⟨ac1, VlmData.fresh.obj, Table.fresh, [], none⟩ = .error (.stop e.1, e.2)) ∧
        (∀ x, runLoop env st st.num 0 ⟨ac1, VlmData.fresh, Table.fresh, [], none⟩ = .ok x →
          (x.lattice = none ∨ Panelled env ac x.ac) ∧ ∃ y, nRunLoop strict env st st.num 0
            ⟨ac1, VlmData.fresh.obj, Table.fresh, [], none⟩ = .ok y ∧ SameObjects env x y) := by
      cases hp : prePanelling ac1 with
      | error e =>
        cases hk : st.num with
        | zero =>
          exact ⟨fun e he => (by cases he), fun x he => by
            cases he; exact ⟨.inl rfl, _, rfl, hsame⟩⟩
        | succ k =>
          unfold runLoop nRunLoop runStep nRunStep prePanelFirst
          simp only [if_true, hp]
          cases st.current 0 with
          | error e => exact ⟨fun e he => by cases he; rfl, fun x he => by cases he⟩
          | ok cur => exact ⟨fun e he => by cases he; rfl, fun x he => by cases he⟩
      | ok ac' =>
        obtain ⟨r1, r2⟩ := nRunLoop_eq (strict := strict) hd (st := st) hu1 hn1 hp st.num 0 _ _
          VlmData.fresh_wf hsame (by unfold prePanelFirst; rw [if_pos rfl]; exact hp)
        refine ⟨r1, fun x hx => ?_⟩
        obtain ⟨q1, q2⟩ := r2 x hx
        refine ⟨?_, q2⟩
        rcases q1 with q1 | q1
        · rw [q1] at hx
          cases hx
          exact .inl rfl
        · exact .inr ⟨ac1, h1, by rw [q1]; exact hp⟩
    cases hr : runLoop env st st.num 0 ⟨ac1, VlmData.fresh, Table.fresh, [], none⟩ with
    | error e =>
      rw [hloop.1 e hr]
      exact ⟨fun x files h => by cases h; rfl, fun out h => by cases h⟩
    | ok x =>
      obtain ⟨hx, y, hy, e1, e2, e3, e4, e5⟩ := hloop.2 x hr
      rw [hy]
      simp only [e2, e3, e4]
      cases hc : saveCpacsMap env x.table with
      | error e => exact ⟨fun x files h => by cases h; rfl, fun out h => by cases h⟩
      | ok fs =>
        simp only []
        cases hl : x.lattice with
        | none =>
          rw [hl] at e5
          simp only at e5
          rw [e5]
          exact ⟨fun x files h => by cases h; rfl, fun out h => by cases h⟩
        | some l =>
          rw [hl] at e5
          obtain ⟨t, e5⟩ := e5
          rw [e5]
          refine ⟨fun x files h => (by cases h), fun out h => ?_⟩
          cases h
          refine ⟨x.ac, t, ?_, rfl⟩
          rcases hx with hx | hx
          · rw [hl] at hx; cases hx
          · exact hx

/-! ## Numbers of panels that are not positive -/

/-- **C121**, the condition is needed: with fewer panels than subareas the table of symmetry flags
is read out of bounds. -/
theorem C121_too_few_panels (strict : Bool) (env : RunEnv) (ac : PAircraft ℝ) (b : Book)
    (hb : genBook ac = .ok b) (h0 : 0 ≤ b.numP) (hlt : b.numP < b.entries.length)
    (hsub : b.numSub = b.entries.length) (cs : List (Corners (V3 ℝ)))
    (hcs : mapE (entryCorners env.lat ac) b.entries = .ok cs) (cur : CurSt ℝ) (s : FlowState)
    (hs : cur.toFlow = some s) : nGenLattice strict env ac cur = .error .memory := by
  have hl : cs.length = b.entries.length := by rw [mapE_corners hcs, List.length_map]
  have hsym : b.symLength.toNat < b.entries.length := by
    have : b.symLength = b.numP := rfl
    omega
  unfold nGenLattice
  simp only [hb, hcs, if_neg (not_lt.2 h0)]
  rw [py2cLattice_short hs hsub hl hsym]
  rfl

/-! ## Examples -/

theorem onePanelAc_onePanel : onePanelAc.OnePanel exampleEnv.autoC := by
  refine ⟨by simp [exampleEnv], fun w hw => ?_⟩
  simp only [onePanelAc, List.mem_singleton] at hw
  subst hw
  refine ⟨fun s hs n hn => ?_, fun c hc => by cases hc⟩
  simp only [List.mem_singleton] at hs
  subst hs
  cases hn
  exact le_refl _

/-- Example for one pass. -/
example : ∃ cur lat v, runStates.current 1 = .ok cur ∧
    nAnalyse true exampleEnv onePanelAc cur VlmData.fresh.obj = .ok (lat, v) := by
  obtain ⟨cur, s, c1, c2, c3⟩ := two_current 1 (by omega)
  obtain ⟨l, w, h⟩ := plain_analyse s c3
  have hn := (autopanels_numC plainAc_ok.1 onePanelAc_onePanel plain_autopanels).2
  obtain ⟨cs, -, hN⟩ := (C121_native_partial true exampleEnv exactDgesv_lapack _ _ plainAc_ok.1
    plainAc_panelled hn cur s c2 VlmData.fresh).2 l w h
  exact ⟨cur, _, _, c1, hN⟩

/-- The run of the example, which finishes, with the native code in it. -/
example : ∃ out, nStandardRun true exampleEnv onePanelAc runStates = .ok out ∧
    (out.table "CL").map List.length = some 2 := by
  obtain ⟨out, h⟩ := example_run
  obtain ⟨ac', t, -, hN⟩ := (C121_run_partial true exampleEnv exactDgesv_lapack onePanelAc plainAc_ok.1
    onePanelAc_onePanel runStates).2 out h
  refine ⟨_, hN, ?_⟩
  obtain ⟨ac', as, -, ⟨h2, -⟩, -, h4, -⟩ := C59_one_row_per_state exampleEnv exactDgesv_lapack _ _
    _ h
  have h5 := h4 ("CL", fun a => asFlt a.R.coeffs.cL) (by simp [runColumns])
  simp only [] at h5 ⊢
  rw [h5, Option.map_some, List.length_map, h2]
  rfl

/-- One wing, one segment with `c` chordwise panels. -/
noncomputable def zeroAc (c : Option ℤ) : PAircraft ℝ :=
  { wings := [{ uid := "W", symmetry := 2
                segments := [⟨"S", 1, some 1, c, fun _ _ _ => 0, fun _ _ _ _ => 1, initStrips⟩]
                controls := [] }] }

/-- Settings with `vlm_autopanels_c` zero. -/
noncomputable def zeroEnv : RunEnv := { exampleEnv with autoC := 0 }

theorem zeroAc_unpanelled (c : Option ℤ) : (zeroAc c).Unpanelled := by
  intro w hw s hs
  simp only [zeroAc, List.mem_singleton] at hw
  subst hw
  simp only [List.mem_singleton] at hs
  subst hs
  rfl

theorem zeroAc_numC : (zeroAc (some 0)).NumC 0 := by
  intro w hw
  simp only [zeroAc, List.mem_singleton] at hw
  subst hw
  simp

theorem zeroAc_panelled : prePanelling (zeroAc (some 0)) = .ok (zeroAc (some 0)) := by
  have h2 : mapE PSegment.addSpanLines
      [(⟨"S", 1, some 1, some 0, fun _ _ _ => 0, fun _ _ _ _ => 1, initStrips⟩ : PSegment ℝ)] =
      .ok [⟨"S", 1, some 1, some 0, fun _ _ _ => 0, fun _ _ _ _ => 1, initStrips⟩] := by
    simp [mapE, PSegment.addSpanLines, spanLines, addLines, initStrips]
  unfold prePanelling zeroAc
  simp only [mapE, PWing.mapSegments, placeControls]
  simp only [mapE] at h2
  simp only [h2]

/-- The only subarea. -/
noncomputable def zeroSub : SubTuple ℝ :=
  ((0, ⟨"segment", Quad.init 0 0 1 1, none⟩), (0, Strip.init 0 1 1 0),
    (0, ⟨"S", 1, some 1, some 0, fun _ _ _ => 0, fun _ _ _ _ => 1, initStrips⟩),
    (0, ⟨"W", 2, [⟨"S", 1, some 1, some 0, fun _ _ _ => 0, fun _ _ _ _ => 1, initStrips⟩], []⟩))

theorem zero_subareas : allSubareas (zeroAc (some 0)) = [zeroSub] := rfl

theorem zero_book : ∃ b, genBook (zeroAc (some 0)) = .ok b ∧ b.entries.length = 2 ∧
    b.numP = 0 ∧ b.numSub = 2 := by
  have h1 : chordPanels zeroSub.2.2.2.2 zeroSub.2.2.1.2 zeroSub.1.2 = .ok 0 := by
    unfold chordPanels zeroSub
    simp
  have hsy : zeroSub.2.2.2.2.symmetry = 2 := rfl
  have hb : ∃ b, genBook (zeroAc (some 0)) = .ok b := by
    unfold genBook
    rw [zero_subareas]
    simp only [countFrom, countStep, h1, hsy, ne_eq, OfNat.ofNat_ne_zero, not_false_eq_true, if_true]
    exact ⟨_, rfl⟩
  obtain ⟨b, hb⟩ := hb
  refine ⟨b, hb, ?_⟩
  unfold genBook at hb
  rw [zero_subareas] at hb
  simp only [countFrom, countStep, h1, hsy, ne_eq, OfNat.ofNat_ne_zero, not_false_eq_true,
    if_true] at hb
  cases hb
  exact ⟨rfl, rfl, rfl⟩

/-- **C121** without the condition on the numbers of panels: native code stays inside the arrays
that it was given, and rejects no argument. -/
def NativeWithinBounds : Prop :=
  ∀ (env : RunEnv), Lapack env.dgesv → ∀ (ac : PAircraft ℝ), ac.Unpanelled → ∀ (st : FlightSt ℝ)
    (files : Files), nStandardRun true env ac st ≠ .error (.memory, files) ∧
      nStandardRun true env ac st ≠ .error (.refused, files)

/-- It is *false*: the setting `vlm_autopanels_c = 0` is accepted, and `sym[0]` is read from an
array without elements. -/
theorem C121_memory_false : ¬ NativeWithinBounds := by
  intro h
  refine (h zeroEnv exactDgesv_lapack (zeroAc none) (zeroAc_unpanelled _) runStates []).1 ?_
  have h1 : setAutopanels zeroEnv.autoC zeroEnv.autoS (zeroAc none) = .ok (zeroAc (some 0)) := by
    unfold setAutopanels zeroAc
    simp only [mapE, PWing.setAutopanels, PSegment.setAutopanels, reduceCtorEq, if_false,
      if_true, List.map_nil]
    rfl
  obtain ⟨b, hb, he, hp, hn⟩ := zero_book
  obtain ⟨cur, s, c1, c2, -⟩ := two_current 0 (by omega)
  obtain ⟨l, hl⟩ := C76_lattice_generated _ _ (zeroAc_unpanelled _) zeroAc_panelled zeroAc_numC
    flatLat true s.alpha s.beta (fun _ _ _ => .inr (.inl rfl))
  obtain ⟨cs, hcs⟩ : ∃ cs, mapE (entryCorners zeroEnv.lat (zeroAc (some 0))) b.entries = .ok cs := by
    unfold genLattice at hl
    rw [hb] at hl
    simp only [] at hl
    cases hcs : mapE (entryCorners flatLat (zeroAc (some 0))) b.entries with
    | error x => rw [hcs] at hl; cases hl
    | ok cs => exact ⟨cs, hcs⟩
  have hm := C121_too_few_panels true zeroEnv (zeroAc (some 0)) b hb (by omega) (by omega)
    (by omega) cs hcs cur s c2
  have hnum : runStates.num = 1 + 1 := rfl
  unfold nStandardRun
  rw [h1, hnum]
  unfold nRunLoop nRunStep prePanelFirst
  simp only [c1, c2, if_true, zeroAc_panelled, orNStop, nAnalyse, hm]

end Verif
