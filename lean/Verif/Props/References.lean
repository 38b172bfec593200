import Verif.Props.UpsideDown

/-!
# Property C140: reference values only normalise the results
-/

set_option linter.unnecessarySeqFocus false

namespace Verif

open V3

/-! ## Specification -/

/-- The second project differs from the first in its aircraft files only; it has the same deformations. -/
structure Project.SameButAircraft (P P2 : Project) : Prop where
  base : P2.base = P.base
  root : P2.root = P.root
  settings : P2.settings = P.settings
  state : P2.state = P.state
  deformation : P2.deformation = P.deformation

/-- The forces among the columns of the results. -/
def forceNames : List String := ["Fx", "Fy", "Fz", "FD", "FC", "FL"]

/-- How the results of a flight state depend on the reference values `r`, `r2`: forces are the same, the
moment is that about the new reference point, and coefficients refer to the new area and lengths. -/
structure NormalisedBy (r r2 : Refs) (out out2 : RunOut) (i : ℕ) : Prop where
  forces : ∀ c ∈ forceNames, ∃ x, out.value c i = some (.fin x) ∧ out2.value c i = some (.fin x)
  moments : ∃ f m : V3 ℝ, out.value "Fx" i = some (.fin f.x) ∧ out.value "Fy" i = some (.fin f.y) ∧
    out.value "Fz" i = some (.fin f.z) ∧ out.value "Mx" i = some (.fin m.x) ∧
    out.value "My" i = some (.fin m.y) ∧ out.value "Mz" i = some (.fin m.z) ∧
    out2.value "Mx" i = some (.fin (m.x + ((r.rp.y - r2.rp.y) * f.z - (r.rp.z - r2.rp.z) * f.y))) ∧
    out2.value "My" i = some (.fin (m.y + ((r.rp.z - r2.rp.z) * f.x - (r.rp.x - r2.rp.x) * f.z))) ∧
    out2.value "Mz" i = some (.fin (m.z + ((r.rp.x - r2.rp.x) * f.y - (r.rp.y - r2.rp.y) * f.x)))
  forceCoeffs : ∀ c ∈ ["Cx", "Cy", "Cz", "CD", "CC", "CL"], ∃ x, out.value c i = some (.fin x) ∧
    out2.value c i = some (.fin (x * r.area / r2.area))
  lateral : r2.rp = r.rp → ∀ c ∈ ["Cl", "Cn"], ∃ x, out.value c i = some (.fin x) ∧
    out2.value c i = some (.fin (x * (r.area * r.span) / (r2.area * r2.span)))
  pitch : r2.rp = r.rp → ∃ x, out.value "Cm" i = some (.fin x) ∧
    out2.value "Cm" i = some (.fin (x * (r.area * r.chord) / (r2.area * r2.chord)))

/-- Positive reference values. -/
def Refs.Positive (r : Refs) : Prop := 0 < r.area ∧ 0 < r.span ∧ 0 < r.chord

/-! ## Proofs -/

section
variable {n : ℕ}

theorem onset_refs (s : FlowState) {r r2 : Refs} (hc : r2.cg = r.cg ∨ s.p = 0 ∧ s.q = 0 ∧ s.r = 0)
    (x : V3 ℝ) : velRot s (x - r2.cg) = velRot s (x - r.cg) := by
  rcases hc with hc | ⟨hp, hq, hr⟩
  · rw [hc]
  · unfold velRot
    rw [hp, hq, hr]
    simp

theorem force_refs (eps : ℝ) (s : FlowState) {r r2 : Refs}
    (hc : r2.cg = r.cg ∨ s.p = 0 ∧ s.q = 0 ∧ s.r = 0) (P : Fin n → Panel) (gamma : Fin n → ℝ)
    (i : Fin n) : panelForce eps s r2 P gamma i = panelForce eps s r P gamma i := by
  unfold panelForce panelVel
  rw [onset_refs s hc]

theorem cross_sum_total (a : V3 ℝ) (f : Fin n → V3 ℝ) : a.cross (∑ i, f i) = ∑ i, a.cross (f i) := by
  induction (Finset.univ : Finset (Fin n)) using Finset.induction_on with
  | empty =>
    rw [Finset.sum_empty, Finset.sum_empty]
    ext <;> simp
  | insert b S hb ih =>
    rw [Finset.sum_insert hb, Finset.sum_insert hb, ← ih]
    generalize (∑ i ∈ S, f i) = u
    generalize f b = v
    ext <;> simp <;> ring

/-- Results for other reference values. -/
theorem results_refs {eps : ℝ} {s : FlowState} {r r2 : Refs}
    (hc : r2.cg = r.cg ∨ s.p = 0 ∧ s.q = 0 ∧ s.r = 0) {P : Fin n → Panel} {gamma : Fin n → ℝ}
    {R : Results n} (h : vlmResults eps s r P gamma = some R) :
    ∃ R', vlmResults eps s r2 P gamma = some R' ∧ R'.ftot = R.ftot ∧ R'.wind = R.wind ∧
      R'.mtot = R.mtot + (r.rp - r2.rp).cross R.ftot ∧ R.wind = bodyToWind s R.ftot ∧
      R.coeffs = vlmCoeffs s r R.ftot R.mtot ∧ R'.coeffs = vlmCoeffs s r2 R'.ftot R'.mtot := by
  obtain ⟨hok, rfl⟩ := vlmResults_some h
  have hf : ∑ i, panelForce eps s r2 P gamma i = ∑ i, panelForce eps s r P gamma i :=
    Finset.sum_congr rfl fun i _ => force_refs eps s hc P gamma i
  refine ⟨_, vlmResults_mk hok _ r2 _, hf, ?_, ?_, rfl, rfl, rfl⟩
  · simp only [sumResults]
    rw [hf]
  · simp only [sumResults]
    rw [cross_sum_total, ← Finset.sum_add_distrib]
    refine Finset.sum_congr rfl fun i _ => ?_
    unfold panelMoment
    rw [force_refs eps s hc]
    generalize panelForce eps s r P gamma i = v
    ext <;> simp <;> ring

end

theorem cdiv_refs {x q a b : ℝ} (hq : q ≠ 0) (ha : a ≠ 0) (hb : b ≠ 0) :
    ∃ y, asFlt (cdiv x (q * a)) = .fin y ∧ asFlt (cdiv x (q * b)) = .fin (y * a / b) := by
  refine ⟨x / (q * a), ?_, ?_⟩
  · unfold cdiv
    rw [if_neg (mul_ne_zero hq ha)]
    rfl
  · unfold cdiv
    rw [if_neg (mul_ne_zero hq hb)]
    show Flt.fin (x / (q * b)) = _
    congr 1
    field_simp

/-- **C140** (run): the reference values only normalise the results.  The centre of gravity matters only if
the aircraft rotates. -/
theorem C140_run (env : RunEnv) (hd : Lapack env.dgesv) (ac : PAircraft ℝ) (st : FlightSt ℝ) (r2 : Refs)
    (hr : env.refs.Positive) (hr2 : r2.Positive)
    (hc : r2.cg = env.refs.cg ∨ ∀ i < st.num, ∀ p ∈ ["rate_P", "rate_Q", "rate_R"], ∀ x,
      st.aero.entry p i = .ok (.fin x) → x = 0)
    (out : RunOut) (h : standardRun env ac st = .ok out) :
    ∃ out2, standardRun { env with refs := r2 } ac st = .ok out2 ∧
      ∀ i < st.num, NormalisedBy env.refs r2 out out2 i := by
  set env' : RunEnv := { env with refs := r2 } with henv
  obtain ⟨out2, h2, hv⟩ := run_transfer (env := env) (env' := env') hd hd (ac2 := ac) (st' := st) rfl
    (fun i a a' => a'.s = a.s ∧ a'.R.ftot = a.R.ftot ∧ a'.R.wind = a.R.wind ∧
      a'.R.mtot = a.R.mtot + (env.refs.rp - r2.rp).cross a.R.ftot ∧
      a.R.coeffs = vlmCoeffs a.s env.refs a.R.ftot a.R.mtot ∧
      a'.R.coeffs = vlmCoeffs a.s r2 a'.R.ftot a'.R.mtot)
    (by
      intro ac' hac
      refine ⟨ac', hac, ?_⟩
      rintro i hi ⟨s, l, P, A, g, R⟩ ha
      have hc' : r2.cg = env.refs.cg ∨ s.p = 0 ∧ s.q = 0 ∧ s.r = 0 := by
        rcases hc with hc | hc
        · exact .inl hc
        · exact .inr ⟨hc i hi _ (by simp) _ ha.rateP, hc i hi _ (by simp) _ ha.rateQ,
            hc i hi _ (by simp) _ ha.rateR⟩
      have hb : vlmBoundary s r2 P = vlmBoundary s env.refs P := by
        funext k
        unfold vlmBoundary
        rw [onset_refs s hc']
      obtain ⟨R', e1, e2, e3, e4, -, e5, e6⟩ := results_refs (r2 := r2) hc' ha.results
      refine ⟨⟨s, l, P, A, g, R'⟩, ⟨ha.airspeed, ha.density, ha.alpha, ha.beta, ha.rateP, ha.rateQ,
        ha.rateR, ha.lattice, ha.nonempty, ha.panels, ha.matrix, ?_, ?_, e1⟩, rfl, e2, e3, e4, e5, e6⟩
      · intro hu
        show Solves A (vlmBoundary s r2 P) g
        rw [hb]
        exact ha.solved hu
      · intro hu
        show g = vlmBoundary s r2 P
        rw [hb]
        exact ha.singular hu) h
  refine ⟨out2, h2, fun i hi => ?_⟩
  obtain ⟨ac', a, a', -, -, ⟨r0, r1, r2', r3, r4, r5⟩, v1, v2⟩ := hv i hi
  obtain ⟨p1, p2, p3⟩ := hr
  obtain ⟨q1, q2, q3⟩ := hr2
  have hq : (if dynPressure a.s = 0 then (1 : ℝ) else dynPressure a.s) ≠ 0 := by
    split_ifs with hq
    · exact one_ne_zero
    · exact hq
  have pair : ∀ (d : String × (Analysis → Flt ℝ)) (x y : ℝ), d ∈ runColumns → d.2 a = .fin x →
      d.2 a' = .fin y → out.value d.1 i = some (.fin x) ∧ out2.value d.1 i = some (.fin y) := by
    intro d x y hd h1 h2
    exact ⟨by rw [v1 d hd, h1], by rw [v2 d hd, h2]⟩
  have f1 := pair ("Fx", fun a => .fin a.R.ftot.x) _ _ (by simp [runColumns]) rfl rfl
  have f2 := pair ("Fy", fun a => .fin a.R.ftot.y) _ _ (by simp [runColumns]) rfl rfl
  have f3 := pair ("Fz", fun a => .fin a.R.ftot.z) _ _ (by simp [runColumns]) rfl rfl
  have f4 := pair ("FD", fun a => .fin a.R.wind.x) _ _ (by simp [runColumns]) rfl rfl
  have f5 := pair ("FC", fun a => .fin a.R.wind.y) _ _ (by simp [runColumns]) rfl rfl
  have f6 := pair ("FL", fun a => .fin a.R.wind.z) _ _ (by simp [runColumns]) rfl rfl
  have m1 := pair ("Mx", fun a => .fin a.R.mtot.x) _ _ (by simp [runColumns]) rfl rfl
  have m2 := pair ("My", fun a => .fin a.R.mtot.y) _ _ (by simp [runColumns]) rfl rfl
  have m3 := pair ("Mz", fun a => .fin a.R.mtot.z) _ _ (by simp [runColumns]) rfl rfl
  simp only [r1] at f1 f2 f3
  simp only [r2'] at f4 f5 f6
  simp only [r3] at m1 m2 m3
  refine ⟨?_, ⟨a.R.ftot, a.R.mtot, f1.1, f2.1, f3.1, m1.1, m2.1, m3.1, ?_, ?_, ?_⟩, ?_, ?_, ?_⟩
  · intro c hc
    simp only [forceNames, List.mem_cons, List.not_mem_nil, or_false] at hc
    rcases hc with rfl | rfl | rfl | rfl | rfl | rfl
    exacts [⟨_, f1⟩, ⟨_, f2⟩, ⟨_, f3⟩, ⟨_, f4⟩, ⟨_, f5⟩, ⟨_, f6⟩]
  · rw [m1.2]
    simp
  · rw [m2.2]
    simp
  · rw [m3.2]
    simp
  · intro c hc
    have key : ∀ (d : String × (Analysis → Flt ℝ)) (x : ℝ), d ∈ runColumns →
        d.2 a = asFlt (cdiv x ((if dynPressure a.s = 0 then (1 : ℝ) else dynPressure a.s) *
          env.refs.area)) →
        d.2 a' = asFlt (cdiv x ((if dynPressure a.s = 0 then (1 : ℝ) else dynPressure a.s) *
          r2.area)) →
        ∃ y, out.value d.1 i = some (.fin y) ∧
          out2.value d.1 i = some (.fin (y * env.refs.area / r2.area)) := by
      intro d x hd h1 h2
      obtain ⟨y, y1, y2⟩ := cdiv_refs (x := x) hq p1.ne' q1.ne'
      exact ⟨y, pair d _ _ hd (by rw [h1, y1]) (by rw [h2, y2])⟩
    have g := r5
    rw [r1] at g
    simp only [List.mem_cons, List.not_mem_nil, or_false] at hc
    rcases hc with rfl | rfl | rfl | rfl | rfl | rfl
    · exact key ("Cx", fun a => asFlt a.R.coeffs.cx) a.R.ftot.x (by simp [runColumns])
        (by simp only [r4, vlmCoeffs]) (by simp only [g, vlmCoeffs])
    · exact key ("Cy", fun a => asFlt a.R.coeffs.cy) a.R.ftot.y (by simp [runColumns])
        (by simp only [r4, vlmCoeffs]) (by simp only [g, vlmCoeffs])
    · exact key ("Cz", fun a => asFlt a.R.coeffs.cz) a.R.ftot.z (by simp [runColumns])
        (by simp only [r4, vlmCoeffs]) (by simp only [g, vlmCoeffs])
    · exact key ("CD", fun a => asFlt a.R.coeffs.cD) (bodyToWind a.s a.R.ftot).x (by simp [runColumns])
        (by simp only [r4, vlmCoeffs]) (by simp only [g, vlmCoeffs])
    · exact key ("CC", fun a => asFlt a.R.coeffs.cC) (bodyToWind a.s a.R.ftot).y (by simp [runColumns])
        (by simp only [r4, vlmCoeffs]) (by simp only [g, vlmCoeffs])
    · exact key ("CL", fun a => asFlt a.R.coeffs.cL) (bodyToWind a.s a.R.ftot).z (by simp [runColumns])
        (by simp only [r4, vlmCoeffs]) (by simp only [g, vlmCoeffs])
  · intro hrp c hc
    have hM : a'.R.mtot = a.R.mtot := by
      rw [r3, hrp]
      ext <;> simp
    have g := r5
    rw [r1, hM] at g
    have key : ∀ (d : String × (Analysis → Flt ℝ)) (x : ℝ), d ∈ runColumns →
        d.2 a = asFlt (cdiv x ((if dynPressure a.s = 0 then (1 : ℝ) else dynPressure a.s) *
          env.refs.area * env.refs.span)) →
        d.2 a' = asFlt (cdiv x ((if dynPressure a.s = 0 then (1 : ℝ) else dynPressure a.s) *
          r2.area * r2.span)) →
        ∃ y, out.value d.1 i = some (.fin y) ∧ out2.value d.1 i =
          some (.fin (y * (env.refs.area * env.refs.span) / (r2.area * r2.span))) := by
      intro d x hd h1 h2
      rw [mul_assoc] at h1 h2
      obtain ⟨y, y1, y2⟩ := cdiv_refs (x := x) hq (mul_ne_zero p1.ne' p2.ne') (mul_ne_zero q1.ne' q2.ne')
      exact ⟨y, pair d _ _ hd (by rw [h1, y1]) (by rw [h2, y2])⟩
    simp only [List.mem_cons, List.not_mem_nil, or_false] at hc
    rcases hc with rfl | rfl
    · exact key ("Cl", fun a => asFlt a.R.coeffs.cl) a.R.mtot.x (by simp [runColumns])
        (by simp only [r4, vlmCoeffs]) (by simp only [g, vlmCoeffs])
    · exact key ("Cn", fun a => asFlt a.R.coeffs.cn) a.R.mtot.z (by simp [runColumns])
        (by simp only [r4, vlmCoeffs]) (by simp only [g, vlmCoeffs])
  · intro hrp
    have hM : a'.R.mtot = a.R.mtot := by
      rw [r3, hrp]
      ext <;> simp
    have g := r5
    rw [r1, hM] at g
    obtain ⟨y, y1, y2⟩ := cdiv_refs (x := a.R.mtot.y) hq (mul_ne_zero p1.ne' p3.ne')
      (mul_ne_zero q1.ne' q3.ne')
    rw [← mul_assoc] at y1 y2
    exact ⟨y, pair ("Cm", fun a => asFlt a.R.coeffs.cm) _ _ (by simp [runColumns])
      (by simp only [r4, vlmCoeffs, y1]) (by simp only [g, vlmCoeffs, y2])⟩

/-! ## Projects -/

/-- **C140** (project): if two aircraft files differ in the reference values (and the name of the aircraft)
only and the first project can be run, so can the second.  Forces are the same, the moment is transferred to the new reference
point, coefficients are converted to the new reference area and lengths; the centre of gravity is of no
influence unless there are rotation rates. -/
theorem C140_project (W : World) (hW : Lapack W.dgesv) (P P2 : Project) (d : PyDict) (a b : String)
    (hn : NativeProject W P d a b) (hP : P.SameButAircraft P2) (f f2 : FileAircraft)
    (hf : P.aircraft a = some f) (hf2 : P2.aircraft a = some f2) (hw : f2.wings = f.wings)
    (hr : 0 < f2.refs.area ∧ 0 < f2.refs.span ∧ 0 < f2.refs.chord)
    (sd : List (String × Arg ℝ)) (hsd : P.state b = some sd) (hnd : (sd.map Prod.fst).Nodup)
    (hg : f2.refs.gcenter = f.refs.gcenter ∨ ∀ p ∈ ["rate_P", "rate_Q", "rate_R"], ∀ l, (p, l) ∈ sd →
      ∀ v ∈ l.toList, v = .num (.fin 0))
    (out : RunOut) (h : runProject W P = .ok out) :
    ∃ out2 st, runProject W P2 = .ok out2 ∧ updateFromDict W.atm Store.fresh sd = .ok st ∧
      ∀ i < st.num, NormalisedBy f.refs.toRefs f2.refs.toRefs out out2 i := by
  have hn2 : NativeProject W P2 d a b :=
    ⟨hP.settings.trans hn.settings, hn.keys, hn.aircraft, hn.json, hn.state, hn.notCpacs⟩
  unfold runProject at h
  cases hx : loadProject W P with
  | error e => rw [hx] at h; cases h
  | ok x =>
  rw [hx] at h
  simp only at h
  have hl := loaded_aircraft hn hx hf
  have hok := (C92_accepted_iff _ _ _).1 ⟨_, hl⟩
  have hrefs := (C92_content _ _ _ _ hl).2.1
  obtain ⟨f', sd', h1, h2, -, -, h5, -⟩ := loaded_reads hn hx
  rw [hsd] at h2
  cases h2
  obtain ⟨-, F⟩ := (accepted angle_limits W.atm sd hnd).2 _ h5
  have hl2 : loadAircraft P.root W.airfoilOk f2 = .ok ⟨f2.uid, f2.refs, x.aircraft.wings⟩ := by
    unfold loadAircraft at hl ⊢
    rw [hw]
    cases k1 : checkNames [] (f.wings.map (·.uid)) with
    | error e => rw [k1] at hl; cases hl
    | ok u =>
    rw [k1] at hl
    simp only at hl ⊢
    rw [if_neg (not_not.2 hr)]
    split_ifs at hl
    cases k2 : mapE (loadWing P.root W.airfoilOk) f.wings with
    | error e => rw [k2] at hl; cases hl
    | ok ws =>
    rw [k2] at hl
    simp only [Except.ok.injEq] at hl
    rw [← hl]
  have hx2 : loadProject W P2 = .ok { x with aircraft := ⟨f2.uid, f2.refs, x.aircraft.wings⟩ } := by
    cases hset : loadSettings W.suffix (.dict d) with
    | error e =>
      unfold loadProject at hx
      rw [hn.settings, hset] at hx
      cases hx
    | ok s =>
    obtain ⟨-, -, -, -, e⟩ := loadProject_native hn hset
    obtain ⟨-, -, -, -, e2⟩ := loadProject_native hn2 hset
    rw [e, hf] at hx
    simp only [hl, hsd, h5] at hx
    rw [e2, hf2]
    simp only [hP.root, hl2, hP.state, hsd, h5]
    have hdef : loadDeformationFrom P2 s ⟨f2.uid, f2.refs, x.aircraft.wings⟩ =
        loadDeformationFrom P s x.aircraft := by
      unfold loadDeformationFrom
      rw [hP.deformation]
      rfl
    rw [hdef]
    cases k5 : loadDeformationFrom P s x.aircraft with
    | error e => rw [k5] at hx; cases hx
    | ok defs =>
    rw [k5] at hx
    simp only [Except.ok.injEq] at hx
    rw [← hx]
  have e : (x.env W P).refs = f.refs.toRefs := by
    show x.aircraft.refs.toRefs = _
    rw [hrefs]
  obtain ⟨out2, g1, g2⟩ := C140_run (x.env W P) hW x.aircraft.toP x.state f2.refs.toRefs
    (by rw [e]; exact ⟨hok.area, hok.span, hok.chord⟩) hr (by
      rcases hg with hg | hg
      · exact .inl (by rw [e]; exact hg)
      · refine .inr fun i _ p hp y hy => ?_
        have hall : p ∈ stateAllParams ∧ p ≠ "airspeed" ∧ p ≠ "density" := by
          simp only [List.mem_cons, List.not_mem_nil, or_false] at hp
          rcases hp with rfl | rfl | rfl <;> decide
        exact zero_entry F hall.1 hall.2.1 hall.2.2 (hg p hp) hy) out h
  refine ⟨out2, x.state, ?_, h5, ?_⟩
  · unfold runProject
    rw [hx2]
    simp only
    rw [← g1]
    unfold Loaded.env
    simp only [hP.base]
    rfl
  · intro i hi
    have := g2 i hi
    rw [e] at this
    exact this

/-! ## Example -/

/-- The rectangular wing with another reference area, reference point and centre of gravity. -/
noncomputable def otherRefsFile : FileAircraft :=
  { rectFile with refs := ⟨4, 2, 3, ⟨1, 0, 0⟩, ⟨0.25, 0, 0⟩, none⟩ }

/-- Example for C140: the lift is the same. -/
example : ∃ out out2 x, runProject exampleWorld (exampleProject rectFile) = .ok out ∧
    runProject exampleWorld (exampleProject otherRefsFile) = .ok out2 ∧
    out.value "FL" 0 = some (.fin x) ∧ out2.value "FL" 0 = some (.fin x) := by
  obtain ⟨out, h⟩ := rect_finishes
  obtain ⟨out2, st, h2, h1, hv⟩ := C140_project exampleWorld exactDgesv_lapack (exampleProject rectFile)
    (exampleProject otherRefsFile) exampleSettings "plane.json" "cruise.json" (example_native _)
    ⟨rfl, rfl, rfl, rfl, rfl⟩ rectFile otherRefsFile rfl rfl rfl
    ⟨by norm_num [otherRefsFile], by norm_num [otherRefsFile], by norm_num [otherRefsFile]⟩ _ rfl
    (oneState_nodup _ _ _ _) (by
      refine .inr fun p hp l hl v hv => ?_
      simp only [List.mem_cons, List.not_mem_nil, or_false] at hp
      rcases hp with rfl | rfl | rfl <;>
      · simp only [oneState, List.mem_cons, Prod.mk.injEq, List.not_mem_nil, or_false, String.reduceEq,
          false_and, or_self, false_or, true_and] at hl
        subst hl
        simpa [Arg.toList] using hv) out h
  obtain ⟨n1, -⟩ := oneState_entries h1
  obtain ⟨x, x1, x2⟩ := (hv 0 (by omega)).forces "FL" (by simp [forceNames])
  exact ⟨out, out2, x, h, h2, x1, x2⟩

end Verif
