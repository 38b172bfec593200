import Verif.Props.RunExamples

/-!
# Property C93: when a run finishes, and with which values
-/

namespace Verif

open V3

/-! ## Specification -/

/-- Value of a global quantity for flight state `i`, as returned by a run. -/
def RunOut.value (out : RunOut) (c : String) (i : ℕ) : Option (Flt ℝ) :=
  (out.table c).bind fun l => l[i]?

/-! ## Proofs -/

theorem primaryAero_build {K : Type*} {σ : Store K} {i : ℕ} : ∀ {ps : List String} {acc},
    (∀ p ∈ ps, ∃ f, σ.entry p i = .ok f) → ∃ r, primaryAero σ i ps acc = .ok r := by
  intro ps
  induction ps with
  | nil => intro acc _; exact ⟨acc, rfl⟩
  | cons q ps ih =>
    intro acc h
    obtain ⟨f, hf⟩ := h q (by simp)
    unfold primaryAero
    rw [hf]
    exact ih fun p hp => h p (List.mem_cons_of_mem _ hp)

/-- Flow data of a flight state with finite entries. -/
theorem flow_current {st : FlightSt ℝ} {i : ℕ} {s : FlowState}
    (h1 : st.aero.entry "airspeed" i = .ok (.fin s.airspeed))
    (h2 : st.aero.entry "density" i = .ok (.fin s.rho))
    (h3 : st.aero.entry "alpha" i = .ok (.fin s.alpha))
    (h4 : st.aero.entry "beta" i = .ok (.fin s.beta))
    (h5 : st.aero.entry "rate_P" i = .ok (.fin s.p))
    (h6 : st.aero.entry "rate_Q" i = .ok (.fin s.q))
    (h7 : st.aero.entry "rate_R" i = .ok (.fin s.r)) :
    ∃ cur, st.current i = .ok cur ∧ cur.toFlow = some s := by
  obtain ⟨r, hr⟩ := primaryAero_build (σ := st.aero) (i := i) (ps := statePrimaryParams)
    (acc := fun _ => none) (by
      intro p hp
      simp only [statePrimaryParams, List.mem_cons, List.not_mem_nil, or_false] at hp
      rcases hp with rfl | rfl | rfl | rfl | rfl | rfl | rfl
      exacts [⟨_, h1⟩, ⟨_, h3⟩, ⟨_, h4⟩, ⟨_, h2⟩, ⟨_, h5⟩, ⟨_, h6⟩, ⟨_, h7⟩])
  obtain ⟨k, -⟩ := primaryAero_entries (by decide) hr
  have get : ∀ p x, p ∈ statePrimaryParams → st.aero.entry p i = .ok x → r p = some x := by
    intro p x hp hx
    obtain ⟨f, f1, f2⟩ := k p hp
    rw [hx] at f1
    cases f1
    exact f2
  unfold FlightSt.current
  rw [hr]
  simp only [h1, h3, h4]
  refine ⟨_, rfl, ?_⟩
  unfold CurSt.toFlow
  simp only [get _ _ (by simp [statePrimaryParams]) h1, get _ _ (by simp [statePrimaryParams]) h2,
    get _ _ (by simp [statePrimaryParams]) h3, get _ _ (by simp [statePrimaryParams]) h4,
    get _ _ (by simp [statePrimaryParams]) h5, get _ _ (by simp [statePrimaryParams]) h6,
    get _ _ (by simp [statePrimaryParams]) h7]

/-- An analysis is carried out by a pass of the loop. -/
theorem Analysis.Of.pass {env : RunEnv} (hd : Lapack env.dgesv) {ac : PAircraft ℝ}
    {st : FlightSt ℝ} {i : ℕ} {a : Analysis} (h : a.Of env ac st i) :
    ∃ p, Pass.Of env ac st i p ∧ PassSpec env p a := by
  obtain ⟨cur, c1, c2⟩ := flow_current h.airspeed h.density h.alpha h.beta h.rateP h.rateQ h.rateR
  obtain ⟨g1, g2, g3⟩ := gammaOf_lapack hd a.A (vlmBoundary a.s env.refs a.P)
  have hg : gammaOf env a.A (vlmBoundary a.s env.refs a.P) = a.g := by
    by_cases hu : IsUnit a.A.det
    · exact Matrix.mulVec_injective_of_isUnit ((Matrix.isUnit_iff_isUnit_det _).2 hu)
        ((g1 hu).trans (h.solved hu).symm)
    · rw [g2 hu, h.singular hu]
  have := analyse_build h.lattice h.nonempty h.panels h.matrix (R := a.R) (by
    rw [hg]
    exact h.results)
  refine ⟨⟨cur, a.s, a.l, _⟩, ⟨c1, c2, this⟩, rfl, rfl, ?_⟩
  show VlmData.of _ _ _ _ = _
  rw [g3, hg]

/-- The analysis of a flight state is unique. -/
theorem Analysis.Of.unique {env : RunEnv} {ac : PAircraft ℝ} {st : FlightSt ℝ} {i : ℕ}
    {a b : Analysis} (ha : a.Of env ac st i) (hb : b.Of env ac st i) : a = b := by
  obtain ⟨s, l, P, A, g, R⟩ := a
  obtain ⟨s', l', P', A', g', R'⟩ := b
  have hs : s = s' := by
    have e1 := ha.airspeed.symm.trans hb.airspeed
    have e2 := ha.density.symm.trans hb.density
    have e3 := ha.alpha.symm.trans hb.alpha
    have e4 := ha.beta.symm.trans hb.beta
    have e5 := ha.rateP.symm.trans hb.rateP
    have e6 := ha.rateQ.symm.trans hb.rateQ
    have e7 := ha.rateR.symm.trans hb.rateR
    simp only [Except.ok.injEq, Flt.fin.injEq] at e1 e2 e3 e4 e5 e6 e7
    cases s
    cases s'
    simp_all
  subst hs
  have hl := ha.lattice.symm.trans hb.lattice
  simp only [Except.ok.injEq] at hl
  subst hl
  have hP : P = P' := funext fun k => Option.some.inj ((ha.panels k).symm.trans (hb.panels k))
  subst hP
  have hA : A = A' := Option.some.inj (ha.matrix.symm.trans hb.matrix)
  subst hA
  have hg : g = g' := by
    by_cases hu : IsUnit A.det
    · exact Matrix.mulVec_injective_of_isUnit ((Matrix.isUnit_iff_isUnit_det _).2 hu)
        ((ha.solved hu).trans (hb.solved hu).symm)
    · exact (ha.singular hu).trans (hb.singular hu).symm
  subst hg
  have hR : R = R' := Option.some.inj (ha.results.symm.trans hb.results)
  rw [hR]

/-- **C93**: a run finishes exactly if there is a flight state, the aircraft can be panelled, and
every flight state can be analysed. -/
theorem C93_finishes_iff (env : RunEnv) (hd : Lapack env.dgesv) (ac : PAircraft ℝ)
    (st : FlightSt ℝ) :
    (∃ out, standardRun env ac st = .ok out) ↔
      st.num ≠ 0 ∧ ∃ ac', Panelled env ac ac' ∧ ∀ i < st.num, ∃ a : Analysis, a.Of env ac' st i := by
  constructor
  · rintro ⟨out, h⟩
    obtain ⟨ac', as, h1, ⟨h2, h3⟩, h4, -, -⟩ := C59_one_row_per_state env hd ac st out h
    refine ⟨?_, ac', h1, ?_⟩
    · rw [← h2]
      simpa using h4
    · intro i hi
      rw [← h2] at hi
      exact ⟨as[i], h3 i _ (List.getElem?_eq_getElem hi)⟩
  · rintro ⟨h0, ac', h1, h2⟩
    obtain ⟨ps, fs, h3, h4⟩ := Passes.build (env := env) (ac := ac') (st := st) (k := st.num)
      (i := 0) (by
        intro j hj
        obtain ⟨a, ha⟩ := h2 j hj
        obtain ⟨p, hp, -⟩ := ha.pass hd
        obtain ⟨gs, hg⟩ := saveAll_total hd hp
        exact ⟨p, gs, by rwa [Nat.zero_add], by rwa [Nat.zero_add]⟩)
    exact standardRun_build h1 h3 h4 h0

/-- **C93**, values: the values returned for flight state `i` are those of its analysis, whatever
analysis satisfies the specification. -/
theorem C93_values (env : RunEnv) (hd : Lapack env.dgesv) (ac ac' : PAircraft ℝ)
    (st : FlightSt ℝ) (out : RunOut) (h : standardRun env ac st = .ok out)
    (hac : Panelled env ac ac') (i : ℕ) (hi : i < st.num) (a : Analysis) (ha : a.Of env ac' st i) :
    ∀ c ∈ runColumns, out.value c.1 i = some (c.2 a) := by
  obtain ⟨ac'', as, h1, ⟨h2, h3⟩, -, h5, -⟩ := C59_one_row_per_state env hd ac st out h
  rw [← hac.unique h1] at h3
  rw [← h2] at hi
  have hg := List.getElem?_eq_getElem hi
  have := (h3 i _ hg).unique ha
  intro c hc
  unfold RunOut.value
  rw [h5 c hc, Option.bind_some, List.getElem?_map, hg, this]
  rfl

/-- Runs whose flight states correspond. -/
theorem run_transfer {env env' : RunEnv} (hd : Lapack env.dgesv) (hd' : Lapack env'.dgesv)
    {ac ac2 : PAircraft ℝ} {st st' : FlightSt ℝ} (hn : st'.num = st.num)
    (rel : ℕ → Analysis → Analysis → Prop)
    (hp : ∀ ac', Panelled env ac ac' → ∃ ac2', Panelled env' ac2 ac2' ∧
      ∀ i < st.num, ∀ a : Analysis, a.Of env ac' st i →
        ∃ a' : Analysis, a'.Of env' ac2' st' i ∧ rel i a a')
    {out : RunOut} (h : standardRun env ac st = .ok out) :
    ∃ out', standardRun env' ac2 st' = .ok out' ∧ ∀ i < st.num, ∃ ac' a a', Panelled env ac ac' ∧
      Analysis.Of env ac' st i a ∧ rel i a a' ∧
      (∀ c ∈ runColumns, out.value c.1 i = some (c.2 a)) ∧
      ∀ c ∈ runColumns, out'.value c.1 i = some (c.2 a') := by
  obtain ⟨h0, ac', h1, h2⟩ := (C93_finishes_iff env hd ac st).1 ⟨out, h⟩
  obtain ⟨ac2', h3, h4⟩ := hp ac' h1
  obtain ⟨out', h'⟩ := (C93_finishes_iff env' hd' ac2 st').2 ⟨by rwa [hn], ac2', h3, by
    intro i hi
    rw [hn] at hi
    obtain ⟨a, ha⟩ := h2 i hi
    obtain ⟨a', ha', -⟩ := h4 i hi a ha
    exact ⟨a', ha'⟩⟩
  refine ⟨out', h', ?_⟩
  intro i hi
  obtain ⟨a, ha⟩ := h2 i hi
  obtain ⟨a', ha', hr⟩ := h4 i hi a ha
  exact ⟨ac', a, a', h1, ha, hr, C93_values env hd ac ac' st out h h1 i hi a ha,
    C93_values env' hd' ac2 ac2' st' out' h' h3 i (by rwa [hn]) a' ha'⟩

/-- Example for C93: a run of one panel over two flight states; `fun _ => none` has no flight state. -/
example : (∃ ac', Panelled exampleEnv onePanelAc ac' ∧
    ∀ i < 2, ∃ a : Analysis, a.Of exampleEnv ac' runStates i) ∧
    ¬ ∃ out, standardRun exampleEnv onePanelAc ⟨fun _ => none, 0⟩ = .ok out :=
  ⟨((C93_finishes_iff exampleEnv exactDgesv_lapack onePanelAc runStates).1 example_run).2,
    fun h => ((C93_finishes_iff exampleEnv exactDgesv_lapack onePanelAc _).1 h).1 rfl⟩

end Verif
