import Verif.Props.SymmetricFiles
import Verif.Props.Superposition

/-!
# Property C143: only the flow conditions in the state file matter

Flight states can be given in three ways (airspeed and density, airspeed and altitude, Mach number and
altitude).  Results depend on the flow conditions only which are meant, and change with airspeed and
density like the dynamic pressure.
-/

set_option linter.unnecessarySeqFocus false

namespace Verif

open V3

/-! ## Specification -/

/-- The state file has the number `x` (or a string that denotes it) for parameter `p` of state `i`. -/
def NumberAt (sd : List (String × Arg ℝ)) (p : String) (i : ℕ) (x : Flt ℝ) : Prop :=
  ∃ a v, (p, a) ∈ sd ∧ a.toList[i]? = some v ∧ (v = .num x ∨ v = .text (some x))

/-- The airspeed of state `i`: as given, or Mach number times the speed of sound at the altitude. -/
def SpeedAt (atm : Atm ℝ) (sd : List (String × Arg ℝ)) (i : ℕ) (x : ℝ) : Prop :=
  (Given sd "airspeed" ∧ NumberAt sd "airspeed" i (.fin x)) ∨
  (Given sd "mach" ∧ ∃ mach h rho c, NumberAt sd "mach" i (.fin mach) ∧ NumberAt sd "altitude" i h ∧
    atm h = some (rho, .fin c) ∧ x = mach * c)

/-- The density of state `i`: as given, or the density at the altitude. -/
def DensityAt (atm : Atm ℝ) (sd : List (String × Arg ℝ)) (i : ℕ) (x : ℝ) : Prop :=
  (Given sd "density" ∧ NumberAt sd "density" i (.fin x)) ∨
  (Given sd "altitude" ∧ ∃ h c, NumberAt sd "altitude" i h ∧ atm h = some (.fin x, c))

/-- The flow conditions of state `i` of a state file. -/
structure FlightAt (atm : Atm ℝ) (sd : List (String × Arg ℝ)) (i : ℕ) (s : FlowState) : Prop where
  airspeed : SpeedAt atm sd i s.airspeed
  density : DensityAt atm sd i s.rho
  alpha : NumberAt sd "alpha" i (.fin s.alpha)
  beta : NumberAt sd "beta" i (.fin s.beta)
  rateP : NumberAt sd "rate_P" i (.fin s.p)
  rateQ : NumberAt sd "rate_Q" i (.fin s.q)
  rateR : NumberAt sd "rate_R" i (.fin s.r)

/-! ## Proofs -/

theorem conv_fin (v : Val ℝ) (x : ℝ) :
    v.conv.flt = .fin x ↔ v = .num (.fin x) ∨ v = .text (some (.fin x)) := by
  rcases v with f | _ | (_ | f) | _ <;> simp [Val.conv, Val.flt]

theorem flt_num {v : Val ℝ} (h : v.isNum = true) (x : Flt ℝ) :
    v.flt = x ↔ v = .num x ∨ v = .text (some x) := by
  rcases v with f | _ | (_ | f) | _ <;> simp_all [Val.isNum, Val.flt]

theorem arg_unique {sd : List (String × Arg ℝ)} (hd : (sd.map Prod.fst).Nodup) {p : String}
    {a a' : Arg ℝ} (h : (p, a) ∈ sd) (h' : (p, a') ∈ sd) : a' = a := by
  have e := lookup_of_mem hd h
  rw [lookup_of_mem hd h'] at e
  exact Option.some.inj e

section
variable {atm : Atm ℝ} {sd : List (String × Arg ℝ)} {st : FlightSt ℝ} (F : Final atm sd st)
  (hd : (sd.map Prod.fst).Nodup)
include F hd

theorem other_entry {p : String} (h1 : p ∈ stateAllParams) (h2 : p ≠ "airspeed") (h3 : p ≠ "density")
    (i : ℕ) (x : ℝ) : st.aero.entry p i = .ok (.fin x) ↔ NumberAt sd p i (.fin x) := by
  obtain ⟨o1, o2⟩ := F.other p h1 h2 h3
  unfold Store.entry NumberAt
  by_cases hex : ∃ a, (p, a) ∈ sd
  · obtain ⟨a, ha⟩ := hex
    rw [o1 _ ⟨a, ha, rfl⟩]
    simp only [List.getElem?_map]
    constructor
    · intro h
      cases hg : a.toList[i]? with
      | none => rw [hg] at h; cases h
      | some v =>
        rw [hg] at h
        simp only [Option.map_some, Except.ok.injEq] at h
        exact ⟨a, v, ha, hg, (conv_fin v x).1 h⟩
    · rintro ⟨a', v, ha', hg, hv⟩
      obtain rfl := arg_unique hd ha ha'
      rw [hg]
      simp only [Option.map_some]
      rw [(conv_fin v x).2 hv]
  · rw [o2 (fun l ⟨a, ha, _⟩ => hex ⟨a, ha⟩)]
    constructor
    · intro h; cases h
    · rintro ⟨a', v, ha', -⟩
      exact absurd ⟨a', ha'⟩ hex

omit F in
theorem given_entry {p : String} (hg : Given sd p) {σ : Store ℝ}
    (hs : ∀ l, Has sd p l → σ p = some l) (i : ℕ) (x : ℝ) :
    σ.entry p i = .ok (.fin x) ↔ NumberAt sd p i (.fin x) := by
  obtain ⟨a, ha, hn⟩ := hg
  unfold Store.entry NumberAt
  rw [hs _ ⟨a, ha, rfl⟩]
  simp only
  constructor
  · intro h
    cases hi : a.toList[i]? with
    | none => rw [hi] at h; cases h
    | some v =>
      rw [hi] at h
      simp only [Except.ok.injEq] at h
      exact ⟨a, v, ha, hi, (flt_num (hn v (List.mem_of_getElem? hi)) _).1 h⟩
  · rintro ⟨a', v, ha', hi, hv⟩
    obtain rfl := arg_unique hd ha ha'
    rw [hi]
    simp only
    rw [(flt_num (hn v (List.mem_of_getElem? hi)) _).2 hv]

theorem density_entry (hdoc : Documented sd) (i : ℕ) (x : ℝ) :
    st.aero.entry "density" i = .ok (.fin x) ↔ DensityAt atm sd i x := by
  unfold DensityAt
  have hcase : (Given sd "density" ∧ ¬ Given sd "altitude") ∨
      (Given sd "altitude" ∧ ¬ Given sd "density") := by
    rcases hdoc with ⟨-, h2, -, h4⟩ | ⟨-, h2, -, h4⟩ | ⟨-, h2, -, h4⟩
    · exact .inl ⟨h2, h4⟩
    · exact .inr ⟨h2, h4⟩
    · exact .inr ⟨h2, h4⟩
  rcases hcase with ⟨h1, h2⟩ | ⟨h1, h2⟩
  · rw [given_entry hd h1 (fun l hl => F.density l hl h1)]
    simp [h1, h2]
  · obtain ⟨a, ha, hn⟩ := id h1
    obtain ⟨r, r1, r2, -⟩ := F.fromAltitude _ ⟨a, ha, rfl⟩ h1
    simp only [h1, h2, false_and, true_and, false_or]
    unfold Store.entry
    rw [r2]
    simp only [List.getElem?_map]
    constructor
    · intro h
      cases hi : r[i]? with
      | none => rw [hi] at h; cases h
      | some t =>
        rw [hi] at h
        simp only [Option.map_some, Val.flt, Except.ok.injEq] at h
        obtain ⟨v, hv, ht⟩ := forall₂_get r1 hi
        refine ⟨v.flt, t.2, ⟨a, v, ha, hv, (flt_num (hn v (List.mem_of_getElem? hv)) _).1 rfl⟩, ?_⟩
        rw [ht, ← h]
    · rintro ⟨h, c, ⟨a', v, ha', hi, hv⟩, hat⟩
      obtain rfl := arg_unique hd ha ha'
      obtain ⟨t, ht, e⟩ := forall₂_get' r1 hi
      rw [(flt_num (hn v (List.mem_of_getElem? hi)) h).2 hv, hat] at e
      rw [ht, ← Option.some.inj e]
      rfl

theorem speed_entry (hdoc : Documented sd) (i : ℕ) (x : ℝ) :
    st.aero.entry "airspeed" i = .ok (.fin x) ↔ SpeedAt atm sd i x := by
  unfold SpeedAt
  have hcase : (Given sd "airspeed" ∧ ¬ Given sd "mach") ∨
      (Given sd "mach" ∧ Given sd "altitude" ∧ ¬ Given sd "airspeed") := by
    rcases hdoc with ⟨h1, -, h3, -⟩ | ⟨h1, -, h3, -⟩ | ⟨h1, h2, h3, -⟩
    · exact .inl ⟨h1, h3⟩
    · exact .inl ⟨h1, h3⟩
    · exact .inr ⟨h1, h2, h3⟩
  rcases hcase with ⟨h1, h2⟩ | ⟨h1, h2, h3⟩
  · rw [given_entry hd h1 (fun l hl => F.airspeed l hl h1)]
    simp [h1, h2]
  · obtain ⟨a, ha, hn⟩ := id h2
    obtain ⟨b, hb, hm⟩ := id h1
    obtain ⟨r, r1, -, r3⟩ := F.fromAltitude _ ⟨a, ha, rfl⟩ h2
    have r4 := r3 _ ⟨b, hb, rfl⟩ h1
    simp only [h1, h3, false_and, true_and, false_or]
    unfold Store.entry
    rw [r4]
    simp only [List.getElem?_zipWith]
    constructor
    · intro h
      cases hi : r[i]? with
      | none =>
        rw [hi] at h
        cases hj : b.toList[i]? <;> rw [hj] at h <;> cases h
      | some t =>
      cases hj : b.toList[i]? with
      | none => rw [hi, hj] at h; cases h
      | some u =>
        rw [hi, hj] at h
        simp only [Val.flt, Except.ok.injEq] at h
        obtain ⟨v, hv, ht⟩ := forall₂_get r1 hi
        cases h4 : u.flt with
        | nonfin =>
          rcases u with f | _ | f | _ <;> simp_all [Val.flt, Flt.mul]
        | fin y =>
          obtain ⟨t1, t2⟩ := t
          cases t2 with
          | nonfin => rcases u with f | _ | f | _ <;> simp_all [Val.flt, Flt.mul]
          | fin c =>
            refine ⟨y, v.flt, t1, c, ⟨b, u, hb, hj, (flt_num (hm u (List.mem_of_getElem? hj)) _).1 h4⟩,
              ⟨a, v, ha, hv, (flt_num (hn v (List.mem_of_getElem? hv)) _).1 rfl⟩, ht, ?_⟩
            rcases u with f | _ | f | _ <;> simp_all [Val.flt, Flt.mul]
    · rintro ⟨y, h, rho, c, ⟨b', u, hb', hj, hu⟩, ⟨a', v, ha', hi, hv⟩, hat, rfl⟩
      obtain rfl := arg_unique hd ha ha'
      obtain rfl := arg_unique hd hb hb'
      obtain ⟨t, ht, e⟩ := forall₂_get' r1 hi
      rw [(flt_num (hn v (List.mem_of_getElem? hi)) h).2 hv, hat] at e
      obtain rfl := Option.some.inj e
      rw [ht, hj]
      have := (flt_num (hm u (List.mem_of_getElem? hj)) _).2 hu
      simp only [Val.flt] at this ⊢
      rw [this]
      rfl

/-- The flow conditions meant by the file are those that are analysed. -/
theorem flightAt_iff (hdoc : Documented sd) (i : ℕ) (s : FlowState) : FlightAt atm sd i s ↔
    st.aero.entry "airspeed" i = .ok (.fin s.airspeed) ∧ st.aero.entry "density" i = .ok (.fin s.rho) ∧
    st.aero.entry "alpha" i = .ok (.fin s.alpha) ∧ st.aero.entry "beta" i = .ok (.fin s.beta) ∧
    st.aero.entry "rate_P" i = .ok (.fin s.p) ∧ st.aero.entry "rate_Q" i = .ok (.fin s.q) ∧
    st.aero.entry "rate_R" i = .ok (.fin s.r) := by
  rw [speed_entry F hd hdoc, density_entry F hd hdoc,
    other_entry F hd (p := "alpha") (by decide) (by decide) (by decide),
    other_entry F hd (p := "beta") (by decide) (by decide) (by decide),
    other_entry F hd (p := "rate_P") (by decide) (by decide) (by decide),
    other_entry F hd (p := "rate_Q") (by decide) (by decide) (by decide),
    other_entry F hd (p := "rate_R") (by decide) (by decide) (by decide)]
  exact ⟨fun h => ⟨h.1, h.2, h.3, h.4, h.5, h.6, h.7⟩, fun ⟨h1, h2, h3, h4, h5, h6, h7⟩ =>
    ⟨h1, h2, h3, h4, h5, h6, h7⟩⟩

end

/-! ## Projects -/

/-- **C143**, conditions: in a finished run every flight state of the state file has exactly one set of
flow conditions. -/
theorem C143_conditions (W : World) (hW : Lapack W.dgesv) (P : Project) (d : PyDict) (a b : String)
    (hn : NativeProject W P d a b) (sd : List (String × Arg ℝ)) (hsd : P.state b = some sd)
    (hnd : (sd.map Prod.fst).Nodup) (out : RunOut) (h : runProject W P = .ok out) :
    ∃ st, updateFromDict W.atm Store.fresh sd = .ok st ∧
      ∀ i < st.num, ∃! s, FlightAt W.atm sd i s := by
  obtain ⟨f, sd', st, env, ac, ac', -, h2, -, -, h5, -, -, -, han⟩ :=
    C101_results_of_files W hW P d a b hn out h
  rw [hsd] at h2
  cases h2
  obtain ⟨hacc, hfin⟩ := accepted angle_limits W.atm sd hnd
  have hdoc := (hacc.1 ⟨st, h5⟩).documented
  refine ⟨st, h5, fun i hi => ?_⟩
  obtain ⟨an, ha, -⟩ := han i hi
  refine ⟨an.s, (flightAt_iff (hfin st h5).2 hnd hdoc i _).2 ⟨ha.airspeed, ha.density, ha.alpha,
    ha.beta, ha.rateP, ha.rateQ, ha.rateR⟩, ?_⟩
  intro s hs
  obtain ⟨k1, k2, k3, k4, k5, k6, k7⟩ := (flightAt_iff (hfin st h5).2 hnd hdoc i _).1 hs
  rw [ha.airspeed] at k1
  rw [ha.density] at k2
  rw [ha.alpha] at k3
  rw [ha.beta] at k4
  rw [ha.rateP] at k5
  rw [ha.rateQ] at k6
  rw [ha.rateR] at k7
  obtain ⟨V, rho, al, be, p, q, r⟩ := s
  simp only [Except.ok.injEq, Flt.fin.injEq] at k1 k2 k3 k4 k5 k6 k7
  rw [← k1, ← k2, ← k3, ← k4, ← k5, ← k6, ← k7]

/-- **C143**: let two projects differ in their state files only, and let state `i` of the second file mean
the angles of that of the first, `k i` times its airspeed and rates and `m i` times its density, in
whichever way both are given.  If the first project can be run, so can the second; all forces and moments
of state `i` are multiplied by `m i * k i ^ 2` and the coefficients are the same, unless there is no
airspeed or density.  With both factors one: only the flow conditions matter. -/
theorem C143_similar_flight (W : World) (hW : Lapack W.dgesv) (P P2 : Project) (d : PyDict)
    (a b : String) (hn : NativeProject W P d a b) (hP : P.OtherState P2)
    (sd sd2 : List (String × Arg ℝ)) (hsd : P.state b = some sd) (hsd2 : P2.state b = some sd2)
    (hnd : (sd.map Prod.fst).Nodup) (hnd2 : (sd2.map Prod.fst).Nodup) (hok : Acceptable W.atm sd2)
    (hlen : ∀ x ∈ sd, ∀ y ∈ sd2, y.2.toList.length = x.2.toList.length) (m k : ℕ → ℝ)
    (hmk : ∀ i, m i ≠ 0 ∧ k i ≠ 0)
    (hs : ∀ i s, FlightAt W.atm sd i s → FlightAt W.atm sd2 i
      ⟨k i * s.airspeed, m i * s.rho, s.alpha, s.beta, k i * s.p, k i * s.q, k i * s.r⟩)
    (out : RunOut) (h : runProject W P = .ok out) :
    ∃ out2 st, runProject W P2 = .ok out2 ∧ updateFromDict W.atm Store.fresh sd = .ok st ∧
      ∀ i < st.num,
        (∀ c ∈ loadNames, ∃ x, out.value c i = some (.fin x) ∧
          out2.value c i = some (.fin (m i * k i ^ 2 * x))) ∧
        ((∀ s, FlightAt W.atm sd i s → s.airspeed ≠ 0 ∧ s.rho ≠ 0) →
          ∀ c ∈ coeffNames, out2.value c i = out.value c i) := by
  obtain ⟨st0, hst0, hall⟩ := C143_conditions W hW P d a b hn sd hsd hnd out h
  unfold runProject at h
  cases hx : loadProject W P with
  | error e => rw [hx] at h; cases h
  | ok x =>
  rw [hx] at h
  simp only at h
  obtain ⟨f', sd', -, h1, -, -, h5, -⟩ := loaded_reads hn hx
  rw [hsd] at h1
  cases h1
  rw [h5] at hst0
  cases hst0
  obtain ⟨hacc, hfin⟩ := accepted angle_limits W.atm sd hnd
  obtain ⟨hacc2, hfin2⟩ := accepted angle_limits W.atm sd2 hnd2
  have hA := hacc.1 ⟨_, h5⟩
  obtain ⟨st2, h6⟩ := hacc2.2 hok
  have hx2 := loadProject_otherState hn hP hx hsd2 h6
  have hnum : st2.num = x.state.num := by
    obtain ⟨u, hu⟩ := hA.alpha
    obtain ⟨u2, hu2⟩ := hok.alpha
    rw [← (hfin _ h5).1 _ hu, ← (hfin2 _ h6).1 _ hu2]
    exact hlen _ hu _ hu2
  have hd : Lapack (x.env W P).dgesv := hW
  obtain ⟨out2, g1, g2⟩ := C94_scaled_states (x.env W P) hd x.aircraft.toP x.state st2 hnum m k
    (fun i _ => hmk i) (by
      intro i hi
      obtain ⟨s, hs1, -⟩ := hall i hi
      obtain ⟨j1, j2, j3, j4, j5, j6, j7⟩ := (flightAt_iff (hfin _ h5).2 hnd hA.documented i s).1 hs1
      obtain ⟨q1, q2, q3, q4, q5, q6, q7⟩ :=
        (flightAt_iff (hfin2 _ h6).2 hnd2 hok.documented i _).1 (hs i s hs1)
      have key : ∀ {p : String} {y z c : ℝ}, x.state.aero.entry p i = .ok (.fin y) →
          st2.aero.entry p i = .ok (.fin z) → z = c * y → EntryTimes c x.state st2 p i := by
        intro p y z c e1 e2 e3 w hw
        rw [e1] at hw
        cases hw
        rw [e2, e3]
      refine ⟨key j3 q3 (one_mul _).symm, key j4 q4 (one_mul _).symm, key j2 q2 rfl, ?_⟩
      intro p hp
      simp only [List.mem_cons, List.not_mem_nil, or_false] at hp
      rcases hp with rfl | rfl | rfl | rfl
      · exact key j1 q1 rfl
      · exact key j5 q5 rfl
      · exact key j6 q6 rfl
      · exact key j7 q7 rfl) out h
  refine ⟨out2, x.state, ?_, h5, fun i hi => ?_⟩
  · unfold runProject
    rw [hx2]
    simp only
    rw [← g1]
    unfold Loaded.env
    simp only [hP.base]
  · obtain ⟨g3, g4⟩ := g2 i hi
    refine ⟨g3, fun hne => ?_⟩
    obtain ⟨s, hs1, -⟩ := hall i hi
    obtain ⟨j1, j2, -⟩ := (flightAt_iff (hfin _ h5).2 hnd hA.documented i s).1 hs1
    exact g4 ⟨_, _, (hne s hs1).1, (hne s hs1).2, j1, j2⟩

/-- A state with flow conditions is one of the states. -/
theorem flightAt_lt {atm : Atm ℝ} {sd : List (String × Arg ℝ)} {n i : ℕ} {s : FlowState}
    (hl : ∀ x ∈ sd, x.2.toList.length = n) (h : FlightAt atm sd i s) : i < n := by
  obtain ⟨a, v, ha, hi, -⟩ := h.alpha
  rw [← hl _ ha]
  exact (List.getElem?_eq_some_iff.1 hi).1

/-- **C143**: let two projects differ in their state files only, and let each state of the second file
mean the flow of some state of the first, in whichever order, number and way they are given.  If the
first project can be run, so can the second, and all states with the same flow conditions have the same
results (also those of one file). -/
theorem C143_rearranged (W : World) (hW : Lapack W.dgesv) (P P2 : Project) (d : PyDict)
    (a b : String) (hn : NativeProject W P d a b) (hP : P.OtherState P2)
    (sd sd2 : List (String × Arg ℝ)) (hsd : P.state b = some sd) (hsd2 : P2.state b = some sd2)
    (hnd : (sd.map Prod.fst).Nodup) (hnd2 : (sd2.map Prod.fst).Nodup) (hok : Acceptable W.atm sd2)
    (n : ℕ) (hn0 : 0 < n) (hlen : ∀ y ∈ sd2, y.2.toList.length = n)
    (hs : ∀ j < n, ∃ i s, FlightAt W.atm sd i s ∧ FlightAt W.atm sd2 j s)
    (out : RunOut) (h : runProject W P = .ok out) :
    ∃ out2, runProject W P2 = .ok out2 ∧ ∀ i j s, FlightAt W.atm sd i s → FlightAt W.atm sd2 j s →
      ∀ c ∈ loadNames ++ coeffNames, ∃ x, out.value c i = some x ∧ out2.value c j = some x := by
  unfold runProject at h
  cases hx : loadProject W P with
  | error e => rw [hx] at h; cases h
  | ok x =>
  rw [hx] at h
  simp only at h
  obtain ⟨f', sd', -, h1, -, -, h5, -⟩ := loaded_reads hn hx
  rw [hsd] at h1
  cases h1
  obtain ⟨hacc, hfin⟩ := accepted angle_limits W.atm sd hnd
  obtain ⟨hacc2, hfin2⟩ := accepted angle_limits W.atm sd2 hnd2
  have hA := hacc.1 ⟨_, h5⟩
  obtain ⟨st2, h6⟩ := hacc2.2 hok
  have hx2 := loadProject_otherState hn hP hx hsd2 h6
  have hnum : st2.num = n := by
    obtain ⟨u2, hu2⟩ := hok.alpha
    rw [← (hfin2 _ h6).1 _ hu2]
    exact hlen _ hu2
  have hd : Lapack (x.env W P).dgesv := hW
  obtain ⟨-, ac', g1, g2⟩ := (C93_finishes_iff (x.env W P) hd x.aircraft.toP x.state).1 ⟨out, h⟩
  have key : ∀ i j s, FlightAt W.atm sd i s → FlightAt W.atm sd2 j s → ∃ an : Analysis,
      an.Of (x.env W P) ac' x.state i ∧ an.Of (x.env W P) ac' st2 j := by
    intro i j s hi hj
    obtain ⟨an, ha⟩ := g2 i (flightAt_lt (hfin _ h5).1 hi)
    obtain ⟨j1, j2, j3, j4, j5, j6, j7⟩ := (flightAt_iff (hfin _ h5).2 hnd hA.documented i s).1 hi
    obtain ⟨q1, q2, q3, q4, q5, q6, q7⟩ := (flightAt_iff (hfin2 _ h6).2 hnd2 hok.documented j s).1 hj
    refine ⟨an, ha, ?_⟩
    have t : ∀ {p : String} {y z : ℝ}, x.state.aero.entry p i = .ok (.fin y) →
        st2.aero.entry p j = .ok (.fin y) → x.state.aero.entry p i = .ok (.fin z) →
        st2.aero.entry p j = .ok (.fin z) := fun e1 e2 e3 => by rw [e2, ← e3, e1]
    exact ⟨t j1 q1 ha.airspeed, t j2 q2 ha.density, t j3 q3 ha.alpha, t j4 q4 ha.beta, t j5 q5 ha.rateP,
      t j6 q6 ha.rateQ, t j7 q7 ha.rateR, ha.lattice, ha.nonempty, ha.panels, ha.matrix, ha.solved,
      ha.singular, ha.results⟩
  obtain ⟨out2, k1⟩ := (C93_finishes_iff (x.env W P) hd x.aircraft.toP st2).2 ⟨by omega, ac', g1, by
    intro j hj
    obtain ⟨i, s, hi, hj'⟩ := hs j (by omega)
    obtain ⟨an, -, h2⟩ := key i j s hi hj'
    exact ⟨an, h2⟩⟩
  refine ⟨out2, ?_, fun i j s hi hj c hc => ?_⟩
  · unfold runProject
    rw [hx2]
    simp only
    rw [← k1]
    unfold Loaded.env
    simp only [hP.base]
  · obtain ⟨an, a1, a2⟩ := key i j s hi hj
    have v1 := C93_values (x.env W P) hd x.aircraft.toP ac' x.state out h g1 i
      (flightAt_lt (hfin _ h5).1 hi) an a1
    have v2 := C93_values (x.env W P) hd x.aircraft.toP ac' st2 out2 k1 g1 j
      (flightAt_lt (hfin2 _ h6).1 hj) an a2
    obtain ⟨e, he, rfl⟩ : ∃ e ∈ runColumns, e.1 = c := by
      have : loadNames ++ coeffNames = runColumns.map Prod.fst := rfl
      rw [this] at hc
      obtain ⟨e, h1, h2⟩ := List.mem_map.1 hc
      exact ⟨e, h1, h2⟩
    exact ⟨_, v1 e he, v2 e he⟩

/-- Projects with other state files have the same aircraft and settings. -/
theorem otherState_loaded {W : World} {P P2 : Project} {d : PyDict} {a b : String}
    (hn : NativeProject W P d a b) (hP : P.OtherState P2) {x x2 : Loaded}
    (hx : loadProject W P = .ok x) (hx2 : loadProject W P2 = .ok x2) :
    x2.env W P2 = x.env W P ∧ x2.aircraft = x.aircraft := by
  have hn2 : NativeProject W P2 d a b :=
    ⟨hP.settings.trans hn.settings, hn.keys, hn.aircraft, hn.json, hn.state, hn.notCpacs⟩
  obtain ⟨f, sd, -, h1, -, -, h2, -⟩ := loaded_reads hn2 hx2
  have e := loadProject_otherState hn hP hx h1 h2
  rw [hx2, Except.ok.injEq] at e
  rw [e]
  refine ⟨?_, rfl⟩
  unfold Loaded.env
  simp only [hP.base]

/-- **C123** (project): for the aircraft of a project at given angles each force and moment is the
density times a fixed quadratic form of airspeed and rates, whatever the state file is. -/
theorem C123_project (W : World) (hW : Lapack W.dgesv) (P : Project) (d : PyDict) (a b : String)
    (hn : NativeProject W P d a b) (alpha beta : ℝ) :
    ∃ Q : String → Fin 4 → Fin 4 → ℝ, ∀ P2 : Project, P.OtherState P2 →
      ∀ sd, P2.state b = some sd → (sd.map Prod.fst).Nodup → ∀ out, runProject W P2 = .ok out →
        ∀ i rho v p q r, FlightAt W.atm sd i ⟨v, rho, alpha, beta, p, q, r⟩ → ∀ c ∈ loadNames,
          out.value c i = some (.fin (rho * quadForm (Q c) (motion v p q r))) := by
  by_cases h : ∃ P1 x, P.OtherState P1 ∧ loadProject W P1 = .ok x
  · obtain ⟨P1, x, h1, hx⟩ := h
    have hn1 : NativeProject W P1 d a b :=
      ⟨h1.settings.trans hn.settings, hn.keys, hn.aircraft, hn.json, hn.state, hn.notCpacs⟩
    obtain ⟨Q, hQ⟩ := C123_loads (x.env W P1) hW x.aircraft.toP alpha beta
    refine ⟨Q, fun P2 h2 sd hsd hnd out hout i rho v p q r hf c hc => ?_⟩
    have h12 : P1.OtherState P2 := ⟨h2.base.trans h1.base.symm, h2.root.trans h1.root.symm,
      h2.settings.trans h1.settings.symm, h2.aircraft.trans h1.aircraft.symm,
      h2.deformation.trans h1.deformation.symm⟩
    have hn2 : NativeProject W P2 d a b :=
      ⟨h2.settings.trans hn.settings, hn.keys, hn.aircraft, hn.json, hn.state, hn.notCpacs⟩
    unfold runProject at hout
    cases hx2 : loadProject W P2 with
    | error e => rw [hx2] at hout; cases hout
    | ok x2 =>
    rw [hx2] at hout
    simp only at hout
    obtain ⟨e1, e2⟩ := otherState_loaded hn1 h12 hx hx2
    rw [e1, e2] at hout
    obtain ⟨f', sd', -, k1, -, -, k2, -⟩ := loaded_reads hn2 hx2
    rw [hsd] at k1
    cases k1
    obtain ⟨hacc, hfin⟩ := accepted angle_limits W.atm sd hnd
    obtain ⟨j1, j2, j3, j4, j5, j6, j7⟩ :=
      (flightAt_iff (hfin _ k2).2 hnd (hacc.1 ⟨_, k2⟩).documented i _).1 hf
    exact hQ x2.state out hout i (flightAt_lt (hfin _ k2).1 hf) rho (motion v p q r)
      ⟨j3, j4, j2, j1, j5, j6, j7⟩ c hc
  · refine ⟨fun _ _ _ => 0, fun P2 h2 sd _ _ out hout => ?_⟩
    unfold runProject at hout
    cases hx2 : loadProject W P2 with
    | error e => rw [hx2] at hout; cases hout
    | ok x2 => exact absurd ⟨P2, x2, h2, hx2⟩ h

/-! ## Example -/

/-- One flight state with Mach number and altitude. -/
def atMach (mach h alpha beta : ℝ) : List (String × Arg ℝ) :=
  [("mach", .scalar (.num (.fin mach))), ("altitude", .scalar (.num (.fin h))),
   ("alpha", .scalar (.num (.fin alpha))), ("beta", .scalar (.num (.fin beta))),
   ("rate_P", .scalar (.num (.fin 0))), ("rate_Q", .scalar (.num (.fin 0))),
   ("rate_R", .scalar (.num (.fin 0)))]

theorem atMach_acceptable (mach h alpha beta : ℝ) :
    Acceptable exampleWorld.atm (atMach mach h alpha beta) := by
  have notGiven : ∀ p, p ∉ ["mach", "altitude", "alpha", "beta", "rate_P", "rate_Q", "rate_R"] →
      ¬ Given (atMach mach h alpha beta) p := by
    rintro p hp ⟨a, ha, -⟩
    refine hp ?_
    have := List.mem_map_of_mem (f := Prod.fst) ha
    exact this
  refine ⟨⟨1, ?_⟩, .inr (.inr ⟨⟨.scalar (.num (.fin mach)), by simp [atMach], ?_⟩,
    ⟨.scalar (.num (.fin h)), by simp [atMach], ?_⟩, notGiven _ (by decide), notGiven _ (by decide)⟩),
    ?_, ?_, ⟨.scalar (.num (.fin alpha)), by simp [atMach]⟩,
    ⟨.scalar (.num (.fin beta)), by simp [atMach]⟩⟩
  · intro x hx
    simp only [atMach, List.mem_cons, List.not_mem_nil, or_false] at hx
    rcases hx with rfl | rfl | rfl | rfl | rfl | rfl | rfl <;> rfl
  · simp [Arg.toList, Val.isNum]
  · simp [Arg.toList, Val.isNum]
  · intro p _ a ha v hv
    simp only [atMach, List.mem_cons, List.not_mem_nil, or_false, Prod.mk.injEq] at ha
    rcases ha with ⟨-, rfl⟩ | ⟨-, rfl⟩ | ⟨-, rfl⟩ | ⟨-, rfl⟩ | ⟨-, rfl⟩ | ⟨-, rfl⟩ | ⟨-, rfl⟩ <;>
      simp_all [Arg.toList, Val.Convertible]
  · intro _ a _ v _
    simp [exampleWorld]

theorem atMach_nodup (mach h alpha beta : ℝ) : ((atMach mach h alpha beta).map Prod.fst).Nodup := by
  show ["mach", "altitude", "alpha", "beta", "rate_P", "rate_Q", "rate_R"].Nodup
  decide

theorem atMach_flight (mach h alpha beta : ℝ) : FlightAt exampleWorld.atm (atMach mach h alpha beta) 0
    ⟨mach * 300, 1, alpha, beta, 0, 0, 0⟩ := by
  have hnum : ∀ (p : String) (x : ℝ), (p, Arg.scalar (.num (.fin x))) ∈ atMach mach h alpha beta →
      NumberAt (atMach mach h alpha beta) p 0 (.fin x) := fun p x hx => ⟨_, _, hx, rfl, .inl rfl⟩
  have hg : ∀ (p : String) (x : ℝ), (p, Arg.scalar (.num (.fin x))) ∈ atMach mach h alpha beta →
      Given (atMach mach h alpha beta) p := fun p x hx => ⟨_, hx, by simp [Arg.toList, Val.isNum]⟩
  exact ⟨.inr ⟨hg "mach" mach (by simp [atMach]), mach, .fin h, .fin 1, 300,
      hnum _ _ (by simp [atMach]), hnum _ _ (by simp [atMach]), rfl, rfl⟩,
    .inr ⟨hg "altitude" h (by simp [atMach]), .fin h, .fin 300,
      hnum _ _ (by simp [atMach]), by simp [exampleWorld]⟩, hnum _ _ (by simp [atMach]),
    hnum _ _ (by simp [atMach]), hnum _ _ (by simp [atMach]), hnum _ _ (by simp [atMach]),
    hnum _ _ (by simp [atMach])⟩

theorem oneState_flight {V rho alpha beta : ℝ} {i : ℕ} {s : FlowState} :
    FlightAt exampleWorld.atm (oneState V rho alpha beta) i s ↔
      i = 0 ∧ s = ⟨V, rho, alpha, beta, 0, 0, 0⟩ := by
  obtain ⟨st, h⟩ := (accepted angle_limits exampleWorld.atm _ (oneState_nodup V rho alpha beta)).1.2
    (oneState_acceptable _ _ _ _ _)
  obtain ⟨e0, e1, e2, e3, e4, e5, e6, e7⟩ := oneState_entries h
  obtain ⟨F1, F2⟩ := (accepted angle_limits exampleWorld.atm _ (oneState_nodup V rho alpha beta)).2 st h
  have hk := flightAt_iff F2 (oneState_nodup _ _ _ _)
    (oneState_acceptable exampleWorld.atm _ _ _ _).documented
  constructor
  · intro hs
    have hi := flightAt_lt F1 hs
    obtain rfl : i = 0 := by omega
    obtain ⟨k1, k2, k3, k4, k5, k6, k7⟩ := (hk 0 s).1 hs
    rw [e1] at k1
    rw [e2] at k2
    rw [e3] at k3
    rw [e4] at k4
    rw [e5] at k5
    rw [e6] at k6
    rw [e7] at k7
    obtain ⟨V, rho, al, be, p, q, r⟩ := s
    simp only [Except.ok.injEq, Flt.fin.injEq] at k1 k2 k3 k4 k5 k6 k7
    rw [← k1, ← k2, ← k3, ← k4, ← k5, ← k6, ← k7]
    exact ⟨rfl, rfl⟩
  · rintro ⟨rfl, rfl⟩
    exact (hk 0 _).2 ⟨e1, e2, e3, e4, e5, e6, e7⟩

/-- The example project, with Mach number and altitude. -/
noncomputable def machProject (mach h : ℝ) : Project :=
  { exampleProject rectFile with
    state := fun b => if b = "cruise.json" then some (atMach mach h 5 0) else none }

/-- Example for C143: the speed of sound is 300 m/s and the density 1 kg/m³ at all altitudes; Mach 1/15
gives four times the lift of 10 m/s and the same lift coefficient. -/
example : ∃ out out2 x y, runProject exampleWorld (exampleProject rectFile) = .ok out ∧
    runProject exampleWorld (machProject (1 / 15) 10000) = .ok out2 ∧
    out.value "FL" 0 = some (.fin x) ∧ out2.value "FL" 0 = some (.fin (4 * x)) ∧
    out2.value "CL" 0 = y ∧ out.value "CL" 0 = y := by
  obtain ⟨out, h⟩ := rect_finishes
  obtain ⟨out2, st, h2, h3, hv⟩ := C143_similar_flight exampleWorld exactDgesv_lapack
    (exampleProject rectFile) (machProject (1 / 15) 10000) exampleSettings "plane.json" "cruise.json"
    (example_native _) ⟨rfl, rfl, rfl, rfl, rfl⟩ _ (atMach (1 / 15) 10000 5 0) rfl rfl
    (oneState_nodup _ _ _ _) (atMach_nodup _ _ _ _) (atMach_acceptable _ _ _ _) (by
      intro x hx y hy
      simp only [oneState, atMach, List.mem_cons, List.not_mem_nil, or_false] at hx hy
      rcases hx with rfl | rfl | rfl | rfl | rfl | rfl | rfl <;>
        rcases hy with rfl | rfl | rfl | rfl | rfl | rfl | rfl <;> rfl) (fun _ => 1) (fun _ => 2)
    (fun _ => ⟨one_ne_zero, two_ne_zero⟩) (by
      intro i s hs
      obtain ⟨rfl, rfl⟩ := oneState_flight.1 hs
      convert atMach_flight (1 / 15) 10000 5 0 using 2 <;> norm_num) out h
  obtain ⟨n1, -⟩ := oneState_entries h3
  obtain ⟨g1, g2⟩ := hv 0 (by omega)
  obtain ⟨x, x1, x2⟩ := g1 "FL" (by simp [loadNames])
  refine ⟨out, out2, x, _, h, h2, x1, ?_, g2 (fun s hs => ?_) "CL" (by simp [coeffNames]), rfl⟩
  · rw [x2]
    norm_num
  · rw [(oneState_flight.1 hs).2]
    norm_num

/-- Example for C143: in this atmosphere Mach 1/30 means 10 m/s. -/
example : ∃ out out2 x, runProject exampleWorld (exampleProject rectFile) = .ok out ∧
    runProject exampleWorld (machProject (1 / 30) 500) = .ok out2 ∧
    out.value "My" 0 = some x ∧ out2.value "My" 0 = some x := by
  obtain ⟨out, h⟩ := rect_finishes
  have hf : FlightAt exampleWorld.atm (atMach (1 / 30) 500 5 0) 0 ⟨10, 1, 5, 0, 0, 0, 0⟩ := by
    convert atMach_flight (1 / 30) 500 5 0 using 2
    norm_num
  obtain ⟨out2, h2, hv⟩ := C143_rearranged exampleWorld exactDgesv_lapack
    (exampleProject rectFile) (machProject (1 / 30) 500) exampleSettings "plane.json" "cruise.json"
    (example_native _) ⟨rfl, rfl, rfl, rfl, rfl⟩ _ (atMach (1 / 30) 500 5 0) rfl rfl
    (oneState_nodup _ _ _ _) (atMach_nodup _ _ _ _) (atMach_acceptable _ _ _ _) 1 one_pos (by
      intro y hy
      simp only [atMach, List.mem_cons, List.not_mem_nil, or_false] at hy
      rcases hy with rfl | rfl | rfl | rfl | rfl | rfl | rfl <;> rfl) (by
      intro j hj
      obtain rfl : j = 0 := by omega
      exact ⟨0, _, oneState_flight.2 ⟨rfl, rfl⟩, hf⟩) out h
  obtain ⟨x, x1, x2⟩ := hv 0 0 _ (oneState_flight.2 ⟨rfl, rfl⟩) hf "My" (by simp [loadNames])
  exact ⟨out, out2, x, h, h2, x1, x2⟩

/-- Example for C123: lift of the rectangular wing at 10 m/s, by the quadratic form of its aircraft. -/
example : ∃ (Q : String → Fin 4 → Fin 4 → ℝ) (out : RunOut),
    runProject exampleWorld (exampleProject rectFile) = .ok out ∧
    out.value "FL" 0 = some (.fin (Q "FL" 0 0 * 100)) := by
  obtain ⟨out, h⟩ := rect_finishes
  obtain ⟨Q, hQ⟩ := C123_project exampleWorld exactDgesv_lapack (exampleProject rectFile) exampleSettings
    "plane.json" "cruise.json" (example_native _) 5 0
  refine ⟨Q, out, h, ?_⟩
  rw [hQ (exampleProject rectFile) ⟨rfl, rfl, rfl, rfl, rfl⟩ _ rfl (oneState_nodup _ _ _ _) out h 0 1 10 0 0 0
    (oneState_flight.2 ⟨rfl, rfl⟩) "FL" (by simp [loadNames])]
  simp [quadForm, motion, Fin.sum_univ_four]
  norm_num

end Verif
