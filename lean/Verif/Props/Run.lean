import Verif.Lemmas.Run
import Verif.Lemmas.Normals
import Verif.Lemmas.State

/-!
# Properties C59, C65, C79, C80: runs over several flight states
-/

namespace Verif

open V3

/-! ## Specification -/

/-- Contract of LAPACK `dgesv` in exact arithmetic: the solution for a regular matrix; for a singular
one the right-hand side is handed back unchanged. -/
def Lapack (dgesv : List (List ℝ) → List ℝ → List ℝ) : Prop :=
  ∀ (n : ℕ) (A : Matrix (Fin n) (Fin n) ℝ) (b : Fin n → ℝ),
    (IsUnit A.det → ∃ g, dgesv (rowsOf A) (List.ofFn b) = List.ofFn g ∧ A.mulVec g = b) ∧
    (¬ IsUnit A.det → dgesv (rowsOf A) (List.ofFn b) = List.ofFn b)

/-- The analysis of one flight state: flow data, lattice, panels, matrix, circulations, results. -/
structure Analysis where
  s : FlowState
  l : LatticeData
  P : Fin l.num → Panel
  A : Matrix (Fin l.num) (Fin l.num) ℝ
  g : Fin l.num → ℝ
  R : Results l.num

/-- It is the analysis of flight state number `i`. -/
structure Analysis.Of (env : RunEnv) (ac : PAircraft ℝ) (st : FlightSt ℝ) (i : ℕ) (a : Analysis) :
    Prop where
  airspeed : st.aero.entry "airspeed" i = .ok (.fin a.s.airspeed)
  density : st.aero.entry "density" i = .ok (.fin a.s.rho)
  alpha : st.aero.entry "alpha" i = .ok (.fin a.s.alpha)
  beta : st.aero.entry "beta" i = .ok (.fin a.s.beta)
  rateP : st.aero.entry "rate_P" i = .ok (.fin a.s.p)
  rateQ : st.aero.entry "rate_Q" i = .ok (.fin a.s.q)
  rateR : st.aero.entry "rate_R" i = .ok (.fin a.s.r)
  lattice : genLattice env.lat env.doRot a.s.alpha a.s.beta ac = .ok a.l
  nonempty : a.l.num ≠ 0
  panels : ∀ k : Fin a.l.num, a.l.panel k = some (a.P k)
  matrix : vlmDownwash env.eps a.P = some a.A
  solved : IsUnit a.A.det → Solves a.A (vlmBoundary a.s env.refs a.P) a.g
  singular : ¬ IsUnit a.A.det → a.g = vlmBoundary a.s env.refs a.P
  results : vlmResults env.eps a.s env.refs a.P a.g = some a.R

/-- The eighteen global quantities of a run: name and value. -/
def runColumns : List (String × (Analysis → Flt ℝ)) :=
  [("Fx", fun a => .fin a.R.ftot.x), ("Fy", fun a => .fin a.R.ftot.y),
   ("Fz", fun a => .fin a.R.ftot.z),
   ("FD", fun a => .fin a.R.wind.x), ("FC", fun a => .fin a.R.wind.y),
   ("FL", fun a => .fin a.R.wind.z),
   ("Mx", fun a => .fin a.R.mtot.x), ("My", fun a => .fin a.R.mtot.y),
   ("Mz", fun a => .fin a.R.mtot.z),
   ("Cx", fun a => asFlt a.R.coeffs.cx), ("Cy", fun a => asFlt a.R.coeffs.cy),
   ("Cz", fun a => asFlt a.R.coeffs.cz),
   ("CD", fun a => asFlt a.R.coeffs.cD), ("CC", fun a => asFlt a.R.coeffs.cC),
   ("CL", fun a => asFlt a.R.coeffs.cL),
   ("Cl", fun a => asFlt a.R.coeffs.cl), ("Cm", fun a => asFlt a.R.coeffs.cm),
   ("Cn", fun a => asFlt a.R.coeffs.cn)]

/-- The panelled aircraft of a run. -/
def Panelled (env : RunEnv) (ac ac' : PAircraft ℝ) : Prop :=
  ∃ ac1, setAutopanels env.autoC env.autoS ac = .ok ac1 ∧ prePanelling ac1 = .ok ac'

/-- The analyses of all flight states, in order. -/
def AllAnalysed (env : RunEnv) (ac' : PAircraft ℝ) (st : FlightSt ℝ) (as : List Analysis) : Prop :=
  as.length = st.num ∧ ∀ (i : ℕ) (a : Analysis), as[i]? = some a → a.Of env ac' st i

/-- A panel of the lattice before the trailing legs are attached. -/
def SameButWake (g g' : Panel) : Prop :=
  g.v2 = g'.v2 ∧ g.v3 = g'.v3 ∧ g.col = g'.col ∧ g.mid = g'.mid ∧ g.n = g'.n ∧ g.area = g'.area

/-- Flight state number `i` alone. -/
def FlightSt.only (st : FlightSt ℝ) (i : ℕ) : FlightSt ℝ :=
  ⟨fun p => (st.aero p).map fun l => (l[i]?).toList, 1⟩

/-! ## Proofs -/

theorem ofFn_getD {n : ℕ} (g : Fin n → ℝ) : (fun i : Fin n => (List.ofFn g).getD i 0) = g := by
  funext i
  rw [List.getD_eq_getElem?_getD, List.getElem?_ofFn]
  simp

theorem gammaOf_lapack {env : RunEnv} (hd : Lapack env.dgesv) {n : ℕ}
    (A : Matrix (Fin n) (Fin n) ℝ) (b : Fin n → ℝ) :
    (IsUnit A.det → Solves A b (gammaOf env A b)) ∧ (¬ IsUnit A.det → gammaOf env A b = b) ∧
    env.dgesv (rowsOf A) (List.ofFn b) = List.ofFn (gammaOf env A b) := by
  by_cases hu : IsUnit A.det
  · obtain ⟨g, h1, h2⟩ := (hd n A b).1 hu
    have e : gammaOf env A b = g := by
      unfold gammaOf
      rw [h1]
      exact ofFn_getD g
    rw [e]
    exact ⟨fun _ => h2, fun h => absurd hu h, h1⟩
  · have h1 := (hd n A b).2 hu
    have e : gammaOf env A b = b := by
      unfold gammaOf
      rw [h1]
      exact ofFn_getD b
    rw [e]
    exact ⟨fun h => absurd h hu, fun _ => rfl, h1⟩

theorem primaryAero_entries {K : Type*} {σ : Store K} {i : ℕ} : ∀ {ps : List String} {acc r},
    ps.Nodup → primaryAero σ i ps acc = .ok r →
    (∀ p ∈ ps, ∃ f, σ.entry p i = .ok f ∧ r p = some f) ∧ ∀ p ∉ ps, r p = acc p := by
  intro ps
  induction ps with
  | nil =>
    intro acc r _ h
    unfold primaryAero at h
    cases h
    simp
  | cons q ps ih =>
    intro acc r hn h
    unfold primaryAero at h
    cases hq : σ.entry q i with
    | error e => rw [hq] at h; cases h
    | ok f =>
      rw [hq] at h
      obtain ⟨hn1, hn2⟩ := List.nodup_cons.1 hn
      obtain ⟨h1, h2⟩ := ih hn2 h
      refine ⟨?_, ?_⟩
      · intro p hp
        rcases List.mem_cons.1 hp with rfl | hp
        · exact ⟨f, hq, by rw [h2 p hn1]; simp⟩
        · exact h1 p hp
      · intro p hp
        simp only [List.mem_cons, not_or] at hp
        rw [h2 p hp.2, Function.update_of_ne hp.1]

theorem current_flow {st : FlightSt ℝ} {i : ℕ} {cur : CurSt ℝ} {s : FlowState}
    (hc : st.current i = .ok cur) (hs : cur.toFlow = some s) :
    st.aero.entry "airspeed" i = .ok (.fin s.airspeed) ∧
    st.aero.entry "density" i = .ok (.fin s.rho) ∧ st.aero.entry "alpha" i = .ok (.fin s.alpha) ∧
    st.aero.entry "beta" i = .ok (.fin s.beta) ∧ st.aero.entry "rate_P" i = .ok (.fin s.p) ∧
    st.aero.entry "rate_Q" i = .ok (.fin s.q) ∧ st.aero.entry "rate_R" i = .ok (.fin s.r) := by
  unfold FlightSt.current at hc
  cases hp : primaryAero st.aero i statePrimaryParams (fun _ => none) with
  | error e => rw [hp] at hc; cases hc
  | ok aero =>
    rw [hp] at hc
    have ha : cur.aero = aero := by
      revert hc
      simp only
      cases st.aero.entry "alpha" i <;> cases st.aero.entry "beta" i <;>
        cases st.aero.entry "airspeed" i <;> intro hc <;> cases hc <;> rfl
    obtain ⟨h1, -⟩ := primaryAero_entries (by decide) hp
    unfold CurSt.toFlow at hs
    rw [ha] at hs
    obtain ⟨v, v1, v2⟩ := h1 "airspeed" (by decide)
    obtain ⟨d, d1, d2⟩ := h1 "density" (by decide)
    obtain ⟨x, x1, x2⟩ := h1 "alpha" (by decide)
    obtain ⟨y, y1, y2⟩ := h1 "beta" (by decide)
    obtain ⟨p, p1, p2⟩ := h1 "rate_P" (by decide)
    obtain ⟨q, q1, q2⟩ := h1 "rate_Q" (by decide)
    obtain ⟨r, r1, r2⟩ := h1 "rate_R" (by decide)
    rw [v2, d2, x2, y2, p2, q2, r2] at hs
    rw [v1, d1, x1, y1, p1, q1, r1]
    cases v <;> cases d <;> cases x <;> cases y <;> cases p <;> cases q <;> cases r <;>
      simp only [Option.some.injEq, reduceCtorEq] at hs
    subst hs
    exact ⟨rfl, rfl, rfl, rfl, rfl, rfl, rfl⟩

/-- The specification of a pass. -/
theorem Pass.Of.analysis {env : RunEnv} (hd : Lapack env.dgesv) {ac : PAircraft ℝ}
    {st : FlightSt ℝ} {i : ℕ} {p : Pass} (h : Pass.Of env ac st i p) :
    ∃ a : Analysis, a.Of env ac st i ∧ a.l = p.l ∧ a.s = p.s ∧
      p.v = VlmData.of a.A (vlmBoundary a.s env.refs a.P) (List.ofFn a.g) a.R := by
  obtain ⟨k1, k2, P, A, R, k3, k4, k5, k6⟩ := analyse_ok h.result
  obtain ⟨c1, c2, c3, c4, c5, c6, c7⟩ := current_flow h.cur h.flow
  obtain ⟨g1, g2, g3⟩ := gammaOf_lapack hd A (vlmBoundary p.s env.refs P)
  exact ⟨⟨p.s, p.l, P, A, gammaOf env A (vlmBoundary p.s env.refs P), R⟩,
    ⟨c1, c2, c3, c4, c5, c6, c7, k1, k2, k3, k4, g1, g2, k5⟩, rfl, rfl, by rw [k6, g3]⟩

/-- What is appended to the columns. -/
theorem rowValue_of {env : RunEnv} {a : Analysis} {v : VlmData}
    (h : v = VlmData.of a.A (vlmBoundary a.s env.refs a.P) (List.ofFn a.g) a.R) :
    ∀ c ∈ runColumns, rowValue v c.1 = c.2 a := by
  subst h
  intro c hc
  simp only [runColumns, List.mem_cons, List.not_mem_nil, or_false] at hc
  rcases hc with rfl | rfl | rfl | rfl | rfl | rfl | rfl | rfl | rfl | rfl | rfl | rfl | rfl |
    rfl | rfl | rfl | rfl | rfl <;> rfl

/-- A pass and its specification. -/
def PassSpec (env : RunEnv) (p : Pass) (a : Analysis) : Prop :=
  a.l = p.l ∧ a.s = p.s ∧
    p.v = VlmData.of a.A (vlmBoundary a.s env.refs a.P) (List.ofFn a.g) a.R

theorem Passes.analyses {env : RunEnv} (hd : Lapack env.dgesv) {ac : PAircraft ℝ}
    {st : FlightSt ℝ} {i : ℕ} {ps : List Pass} {fs : Files} (h : Passes env ac st i ps fs) :
    ∃ as : List Analysis, List.Forall₂ (PassSpec env) ps as ∧
      ∀ (j : ℕ) (a : Analysis), as[j]? = some a → a.Of env ac st (i + j) := by
  induction h with
  | nil i => exact ⟨[], .nil, by simp⟩
  | cons h hf hp ih =>
    obtain ⟨as, h1, h2⟩ := ih
    obtain ⟨a, a1, a2⟩ := h.analysis hd
    refine ⟨a :: as, .cons a2 h1, ?_⟩
    intro j b hb
    cases j with
    | zero =>
      simp only [List.getElem?_cons_zero, Option.some.injEq] at hb
      subst hb
      exact a1
    | succ j =>
      have := h2 j b (by simpa using hb)
      rwa [Nat.add_assoc, Nat.add_comm 1 j] at this

theorem cpacs_never_fails {t : Table} (ht : t.Full) (env : RunEnv) :
    ∃ fs, saveCpacsMap env t = .ok fs := by
  unfold saveCpacsMap
  split_ifs
  · obtain ⟨c, hc⟩ := mapE_total (l := cpacsMappings) (f := fun m : String × String =>
      match t m.2 with
      | some l => .ok (m.1, l)
      | none => .error .keyError) (by
        intro m hm
        have : (t m.2).isSome = true := (ht m.2).2 (by revert m; decide)
        obtain ⟨l, hl⟩ := Option.isSome_iff_exists.1 this
        exact ⟨(m.1, l), by rw [hl]⟩)
    have : cpacsColumns t = .ok c := hc
    rw [this]
    exact ⟨_, rfl⟩
  · exact ⟨_, rfl⟩

/-- Decomposition of a finished run. -/
theorem standardRun_ok {env : RunEnv} {ac : PAircraft ℝ} {st : FlightSt ℝ} {out : RunOut}
    (h : standardRun env ac st = .ok out) :
    ∃ ac' ps fs cs p, Panelled env ac ac' ∧ Passes env ac' st 0 ps fs ∧ ps.length = st.num ∧
      ps.getLast? = some p ∧ out.lattice = p.l ∧ out.vlm = p.v ∧
      out.table = (fun c => (Table.fresh c).map (· ++ ps.map fun p => rowValue p.v c)) ∧
      saveCpacsMap env out.table = .ok cs ∧
      out.files = fs ++ cs ++ saveNativeMap env st.aero out.table := by
  unfold standardRun at h
  cases h1 : setAutopanels env.autoC env.autoS ac with
  | error e => rw [h1] at h; cases h
  | ok ac1 =>
    rw [h1] at h
    simp only at h
    cases h2 : runLoop env st st.num 0 ⟨ac1, VlmData.fresh, Table.fresh, [], none⟩ with
    | error e => rw [h2] at h; cases h
    | ok x =>
      rw [h2] at h
      simp only at h
      cases h3 : saveCpacsMap env x.table with
      | error e => rw [h3] at h; cases h
      | ok cs =>
        rw [h3] at h
        simp only at h
        cases h4 : x.lattice with
        | none => rw [h4] at h; cases h
        | some l =>
          rw [h4] at h
          cases h
          have hpre : ∃ ac', st.num ≠ 0 ∧ prePanelFirst 0 ac1 = .ok ac' := by
            cases hk : st.num with
            | zero =>
              rw [hk] at h2
              unfold runLoop at h2
              cases h2
              cases h4
            | succ k =>
              rw [hk] at h2
              unfold runLoop at h2
              cases h5 : runStep env st 0 ⟨ac1, VlmData.fresh, Table.fresh, [], none⟩ with
              | error e => rw [h5] at h2; cases h2
              | ok y =>
                obtain ⟨ac', -, -, a1, -⟩ := runStep_ok VlmData.fresh_wf Table.fresh_full h5
                exact ⟨ac', by simp, a1⟩
          obtain ⟨ac', hn, hac⟩ := hpre
          obtain ⟨ps, fs, b1, b2, b3, b4, b5, b6⟩ := runLoop_ok (ac := ac') VlmData.fresh_wf
            Table.fresh_full (fun _ => hac) h2
          cases hl : ps.getLast? with
          | none =>
            rw [List.getLast?_eq_none_iff] at hl
            subst hl
            exact absurd b2.symm hn
          | some p =>
            rw [hl, h4] at b5
            rw [hl] at b6
            simp only [Option.map_some, Option.some_or, Option.some.injEq] at b5
            refine ⟨ac', ps, fs, cs, p, ⟨ac1, h1, ?_⟩, b1, b2, hl, b5, b6, b4, h3, ?_⟩
            · unfold prePanelFirst at hac
              simpa using hac
            · simp only at b3
              rw [b3, List.nil_append]

theorem forall₂_getLast {α β : Type*} {r : α → β → Prop} {as : List α} {bs : List β}
    (h : List.Forall₂ r as bs) {a : α} (ha : as.getLast? = some a) :
    ∃ b, bs.getLast? = some b ∧ r a b := by
  have hr := List.forall₂_reverse_iff.2 h
  rw [List.getLast?_eq_head?_reverse] at ha ⊢
  generalize as.reverse = as at hr ha
  generalize bs.reverse = bs at hr
  cases hr with
  | nil => cases ha
  | cons h1 h2 =>
    cases ha
    exact ⟨_, rfl, h1⟩

/-- **C59**: a finished run has exactly one value per flight state for each of the eighteen global
quantities, in the order of the states, each of them computed from that state alone with the
aircraft panelled once, and no other quantities; it has at least one flight state. -/
theorem C59_one_row_per_state (env : RunEnv) (hd : Lapack env.dgesv) (ac : PAircraft ℝ)
    (st : FlightSt ℝ) (out : RunOut) (h : standardRun env ac st = .ok out) :
    ∃ ac' as, Panelled env ac ac' ∧ AllAnalysed env ac' st as ∧ as ≠ [] ∧
      (∀ c ∈ runColumns, out.table c.1 = some (as.map c.2)) ∧
      ∀ k, k ∉ runColumns.map Prod.fst → out.table k = none := by
  obtain ⟨ac', ps, fs, cs, p, h1, h2, h3, h4, -, -, h5, -, -⟩ := standardRun_ok h
  obtain ⟨as, q1, q2⟩ := h2.analyses hd
  have hlen : as.length = st.num := by rw [← h3, q1.length_eq]
  refine ⟨ac', as, h1, ⟨hlen, fun i a ha => ?_⟩, ?_, ?_, ?_⟩
  · have := q2 i a ha
    rwa [Nat.zero_add] at this
  · rintro rfl
    obtain ⟨b, hb, -⟩ := forall₂_getLast q1 h4
    cases hb
  · intro c hc
    rw [h5]
    have hf : Table.fresh c.1 = some [] := by
      unfold Table.fresh
      rw [if_pos]
      have : c.1 ∈ runColumns.map Prod.fst := List.mem_map_of_mem hc
      exact this
    simp only [hf, Option.map_some, List.nil_append, Option.some.injEq]
    clear h2 h3 h4 h5 h hlen q2
    induction q1 with
    | nil => rfl
    | cons a b ih =>
      simp only [List.map_cons, List.cons.injEq]
      exact ⟨rowValue_of a.2.2 c hc, ih⟩
  · intro k hk
    rw [h5]
    have : Table.fresh k = none := by
      unfold Table.fresh
      rw [if_neg]
      exact hk
    simp [this]

/-- **C59**, no flight states: the run ends with an exception (the local variable `lattice` is not
bound), after the result maps have been written. -/
theorem C59_no_states (env : RunEnv) (ac ac1 : PAircraft ℝ) (st : FlightSt ℝ) (h0 : st.num = 0)
    (h : setAutopanels env.autoC env.autoS ac = .ok ac1) :
    ∃ files, standardRun env ac st = .error (.raised .unboundLocal, files) := by
  unfold standardRun
  simp only [h, h0, runLoop]
  obtain ⟨cs, hcs⟩ := cpacs_never_fails Table.fresh_full env
  rw [hcs]
  exact ⟨_, rfl⟩

/-! ## C65 -/

/-- A panel with other trailing legs. -/
def PanelPts.withLeg (leg : V3 ℝ) (g : PanelPts ℝ) : PanelPts ℝ :=
  { g with v1 := g.v2 + leg, v4 := g.v3 + leg }

theorem latticeFrom_leg (leg leg' : V3 ℝ) (l : List (SubInput ℝ)) : ∀ start : ℤ,
    latticeFrom leg' start l =
      (latticeFrom leg start l).map fun kp => (kp.1, kp.2.withLeg leg') := by
  have hp : ∀ (k : Coef ℝ) (start a b : ℤ), passPanels k leg' start a b =
      (passPanels k leg start a b).map fun kp => (kp.1, kp.2.withLeg leg') := by
    intro k start a b
    unfold passPanels
    rw [List.map_flatMap]
    congr 1
    funext i
    rw [List.map_map]
    rfl
  induction l with
  | nil => intro start; rfl
  | cons u l ih =>
    intro start
    unfold latticeFrom
    simp only
    split_ifs
    · rw [List.map_append, List.map_append, hp _ start, hp _ (start + _), ih]
    · rw [List.map_append, hp _ start, ih]

theorem lastPanel_leg (leg' : V3 ℝ) (l : List (ℤ × PanelPts ℝ)) (k : ℤ) :
    lastPanel (l.map fun kp => (kp.1, kp.2.withLeg leg')) k =
      (lastPanel l k).map (PanelPts.withLeg leg') := by
  unfold lastPanel
  rw [List.filter_map, List.getLast?_map]
  simp only [Option.map_map]
  rfl

/-- **C65**: all lattices of a run have the same bookkeeping, hence panel numbers and panel tables, and
the same panels — including the rotated normals — apart from the trailing legs of the vortices. -/
theorem C65_same_lattice (env : RunEnv) (ac : PAircraft ℝ) (st st' : FlightSt ℝ) (i j : ℕ)
    (a b : Analysis) (ha : a.Of env ac st i) (hb : b.Of env ac st' j) :
    a.l.book = b.l.book ∧
    ∀ k : ℕ, ∀ g g', a.l.panel k = some g → b.l.panel k = some g' → SameButWake g g' := by
  obtain ⟨cs, k1, k2, -, k4, k5, k6⟩ := genLattice_ok ha.lattice
  obtain ⟨cs', m1, m2, -, m4, m5, m6⟩ := genLattice_ok hb.lattice
  rw [k1] at m1
  have hbook : a.l.book = b.l.book := by injection m1
  rw [← hbook, k2] at m2
  have hcs : cs = cs' := by injection m2
  subst hcs
  refine ⟨hbook, ?_⟩
  have hpts : ∀ k, b.l.pts k =
      (a.l.pts k).map (PanelPts.withLeg (trailLeg b.s.alpha b.s.beta)) := by
    intro k
    rw [m4, k4, ← hbook]
    unfold vlmLattice
    rw [latticeFrom_leg (trailLeg a.s.alpha a.s.beta) (trailLeg b.s.alpha b.s.beta),
      lastPanel_leg]
  have hn0 : (fun k => (b.l.pts k).bind PanelPts.finNormal) =
      fun k => (a.l.pts k).bind PanelPts.finNormal := by
    funext k
    rw [hpts]
    cases a.l.pts k with
    | none => rfl
    | some g => rfl
  have hnormal : a.l.normal = b.l.normal := by
    cases hr : env.doRot with
    | false => rw [k5 hr, m5 hr, hn0]
    | true =>
      have h1 := k6 hr
      have h2 := m6 hr
      rw [hn0, ← hbook, h1] at h2
      injection h2
  intro k g g' hg hg'
  unfold LatticeData.panel LatticeData.panelAt at hg hg'
  rw [hpts, ← hnormal] at hg'
  cases hp : a.l.pts k with
  | none => simp [hp] at hg
  | some q =>
    cases hn : a.l.normal k with
    | none => simp [hp, hn] at hg
    | some n =>
      simp only [hp, hn, Option.map_some, Option.some.injEq] at hg hg'
      subst hg hg'
      exact ⟨rfl, rfl, rfl, rfl, rfl, rfl⟩

/-! ## C79 -/

theorem only_entry (st : FlightSt ℝ) (i : ℕ) (p : String) :
    (st.only i).aero.entry p 0 = st.aero.entry p i := by
  unfold Store.entry FlightSt.only
  simp only
  cases st.aero p with
  | none => rfl
  | some l =>
    simp only [Option.map_some]
    cases l[i]? <;> rfl

theorem only_current (st : FlightSt ℝ) (i : ℕ) : (st.only i).current 0 = st.current i := by
  have h : ∀ ps acc, primaryAero (st.only i).aero 0 ps acc = primaryAero st.aero i ps acc := by
    intro ps
    induction ps with
    | nil => intro acc; rfl
    | cons p ps ih =>
      intro acc
      unfold primaryAero
      rw [only_entry]
      cases st.aero.entry p i with
      | error e => rfl
      | ok f => exact ih _
  unfold FlightSt.current
  rw [h, only_entry, only_entry, only_entry]

theorem only_pass {env : RunEnv} {ac : PAircraft ℝ} {st : FlightSt ℝ} {i : ℕ} {p : Pass} :
    Pass.Of env ac (st.only i) 0 p ↔ Pass.Of env ac st i p := by
  constructor
  · rintro ⟨h1, h2, h3⟩
    exact ⟨by rw [← only_current]; exact h1, h2, h3⟩
  · rintro ⟨h1, h2, h3⟩
    exact ⟨by rw [only_current]; exact h1, h2, h3⟩

theorem saveAll_number {env : RunEnv} {i j : ℕ} {cur : CurSt ℝ} {v : VlmData} {fs : Files}
    (h : saveAll env i cur v = .ok fs) : ∃ gs, saveAll env j cur v = .ok gs := by
  have key : ∀ flag p p' c fs, saveIf flag p c = .ok fs → ∃ gs, saveIf flag p' c = .ok gs := by
    intro flag p p' c fs h
    cases flag with
    | false => exact ⟨_, rfl⟩
    | true =>
      cases c with
      | error e => cases h
      | ok c => exact ⟨_, rfl⟩
  unfold saveAll at h ⊢
  cases h1 : saveIf env.saveGlobal (resultsDir env.base i ++ ["global.json"])
      (.ok (.global cur.aero env.refs v.forces v.coeffs)) with
  | error e => rw [h1] at h; cases h
  | ok f1 =>
    rw [h1] at h
    simp only at h
    cases h2 : saveIf env.savePanelwise (resultsDir env.base i ++ ["panelwise.dat"])
        (savePanelwise v) with
    | error e => rw [h2] at h; cases h
    | ok f2 =>
      rw [h2] at h
      simp only at h
      cases h3 : saveIf env.saveMatrix (resultsDir env.base i ++ ["matrix.dat"])
          (saveMatrix v) with
      | error e => rw [h3] at h; cases h
      | ok f3 =>
        obtain ⟨g1, e1⟩ := key _ _ (resultsDir env.base j ++ ["global.json"]) _ _ h1
        obtain ⟨g2, e2⟩ := key _ _ (resultsDir env.base j ++ ["panelwise.dat"]) _ _ h2
        obtain ⟨g3, e3⟩ := key _ _ (resultsDir env.base j ++ ["matrix.dat"]) _ _ h3
        rw [e1, e2, e3]
        exact ⟨_, rfl⟩

theorem Pass.Of.unique {env : RunEnv} {ac : PAircraft ℝ} {st : FlightSt ℝ} {i : ℕ} {p q : Pass}
    (hp : Pass.Of env ac st i p) (hq : Pass.Of env ac st i q) : p = q := by
  obtain ⟨c, s, l, v⟩ := p
  obtain ⟨c', s', l', v'⟩ := q
  have h1 := hp.cur.symm.trans hq.cur
  cases h1
  have h2 := hp.flow.symm.trans hq.flow
  cases h2
  have h3 := hp.result.symm.trans hq.result
  cases h3
  rfl

theorem Panelled.unique {env : RunEnv} {ac x y : PAircraft ℝ} (hx : Panelled env ac x)
    (hy : Panelled env ac y) : x = y := by
  obtain ⟨a, a1, a2⟩ := hx
  obtain ⟨b, b1, b2⟩ := hy
  rw [a1] at b1
  cases b1
  rw [a2] at b2
  cases b2
  rfl

theorem Passes.get {env : RunEnv} {ac : PAircraft ℝ} {st : FlightSt ℝ} {i : ℕ} {ps : List Pass}
    {fs : Files} (h : Passes env ac st i ps fs) :
    ∀ j p, ps[j]? = some p → Pass.Of env ac st (i + j) p ∧
      ∃ gs, saveAll env (i + j) p.cur p.v = .ok gs := by
  induction h with
  | nil i => simp
  | cons h hf hp ih =>
    intro j p hj
    cases j with
    | zero =>
      simp only [List.getElem?_cons_zero, Option.some.injEq] at hj
      subst hj
      exact ⟨h, _, hf⟩
    | succ j =>
      have := ih j p (by simpa using hj)
      rwa [Nat.add_assoc, Nat.add_comm 1 j] at this

theorem Passes.build {env : RunEnv} {ac : PAircraft ℝ} {st : FlightSt ℝ} : ∀ {k i : ℕ},
    (∀ j < k, ∃ p gs, Pass.Of env ac st (i + j) p ∧ saveAll env (i + j) p.cur p.v = .ok gs) →
    ∃ ps fs, Passes env ac st i ps fs ∧ ps.length = k := by
  intro k
  induction k with
  | zero => intro i _; exact ⟨[], [], .nil i, rfl⟩
  | succ k ih =>
    intro i h
    obtain ⟨p, gs, h1, h2⟩ := h 0 (Nat.succ_pos k)
    obtain ⟨ps, fs, h3, h4⟩ := ih (i := i + 1) (fun j hj => by
      have := h (j + 1) (by omega)
      rwa [← Nat.add_assoc, Nat.add_right_comm] at this)
    exact ⟨p :: ps, gs ++ fs, .cons h1 h2 h3, by simp [h4]⟩

theorem fresh_append (xs : String → List (Flt ℝ)) :
    Table.Full fun c => (Table.fresh c).map (· ++ xs c) := by
  intro k
  rw [← Table.fresh_full k]
  simp

/-- A run finishes if all passes do. -/
theorem standardRun_build {env : RunEnv} {ac ac' : PAircraft ℝ} {st : FlightSt ℝ}
    (hac : Panelled env ac ac') {ps : List Pass} {fs : Files} (hp : Passes env ac' st 0 ps fs)
    (hl : ps.length = st.num) (hn : st.num ≠ 0) : ∃ out, standardRun env ac st = .ok out := by
  obtain ⟨ac1, a1, a2⟩ := hac
  have a3 : prePanelFirst 0 ac1 = .ok ac' := by
    unfold prePanelFirst
    simpa using a2
  obtain ⟨x, hx⟩ := runLoop_build (x := ⟨ac1, VlmData.fresh, Table.fresh, [], none⟩)
    VlmData.fresh_wf Table.fresh_full (fun _ => a3) hp hl
  obtain ⟨qs, gs, -, b2, -, b4, b5, -⟩ := runLoop_ok VlmData.fresh_wf Table.fresh_full
    (fun _ => a3) hx
  obtain ⟨cs, hcs⟩ := cpacs_never_fails (t := x.table) (by rw [b4]; exact fresh_append _) env
  have hlast : ∃ l, x.lattice = some l := by
    rw [b5]
    cases hq : qs.getLast? with
    | none =>
      rw [List.getLast?_eq_none_iff] at hq
      subst hq
      exact absurd b2.symm hn
    | some q => exact ⟨q.l, by simp⟩
  obtain ⟨l, hl'⟩ := hlast
  unfold standardRun
  rw [a1]
  simp only
  rw [hx]
  simp only [hcs, hl']
  exact ⟨_, rfl⟩

/-- **C79**: a run over several flight states is the same as one run per flight state: it finishes
exactly if all the single runs do, its columns consist of the values of the single runs, and what it
returns as lattice and detailed results is what the run of the last state alone returns. -/
theorem C79_batch_is_single_runs (env : RunEnv) (ac : PAircraft ℝ) (st : FlightSt ℝ)
    (hn : st.num ≠ 0) :
    ((∃ out, standardRun env ac st = .ok out) ↔
      ∀ i < st.num, ∃ o, standardRun env ac (st.only i) = .ok o) ∧
    ∀ out, standardRun env ac st = .ok out →
      ∀ i < st.num, ∀ o, standardRun env ac (st.only i) = .ok o →
        (∀ k, out.table k = none ∧ o.table k = none ∨
          ∃ l x, out.table k = some l ∧ l.length = st.num ∧ l[i]? = some x ∧
            o.table k = some [x]) ∧
        (i + 1 = st.num → o.lattice = out.lattice ∧ o.vlm = out.vlm) := by
  have single : ∀ i o, standardRun env ac (st.only i) = .ok o →
      ∃ ac' p, Panelled env ac ac' ∧ Pass.Of env ac' st i p ∧
        (∃ gs, saveAll env i p.cur p.v = .ok gs) ∧ o.lattice = p.l ∧ o.vlm = p.v ∧
        o.table = fun c => (Table.fresh c).map (· ++ [rowValue p.v c]) := by
    intro i o ho
    obtain ⟨ac', ps, fs, cs, p, h1, h2, h3, h4, h5, h6, h7, -, -⟩ := standardRun_ok ho
    have h3' : ps.length = 1 := h3
    obtain ⟨q, rfl⟩ := List.length_eq_one_iff.1 h3'
    cases h4
    obtain ⟨g1, gs, g2⟩ := h2.get 0 _ rfl
    exact ⟨ac', q, h1, only_pass.1 g1, saveAll_number g2, h5, h6, h7⟩
  constructor
  · constructor
    · rintro ⟨out, ho⟩ i hi
      obtain ⟨ac', ps, fs, cs, p, h1, h2, h3, h4, -, -, -, -, -⟩ := standardRun_ok ho
      obtain ⟨q, hq⟩ : ∃ q, ps[i]? = some q := by
        rw [← h3] at hi
        exact ⟨ps[i], List.getElem?_eq_getElem hi⟩
      obtain ⟨g1, gs, g2⟩ := h2.get i q hq
      rw [Nat.zero_add] at g1 g2
      obtain ⟨gs', g3⟩ := saveAll_number (j := 0) g2
      exact standardRun_build h1 (.cons (only_pass.2 g1) g3 (.nil 1)) rfl (by simp [FlightSt.only])
    · intro hall
      obtain ⟨o, ho⟩ := hall 0 (Nat.pos_of_ne_zero hn)
      obtain ⟨ac', -, h1, -⟩ := single 0 o ho
      obtain ⟨ps, fs, h2, h3⟩ := Passes.build (env := env) (ac := ac') (st := st) (k := st.num)
        (i := 0) (by
          intro j hj
          obtain ⟨o, ho⟩ := hall j hj
          obtain ⟨ac'', p, k1, k2, ⟨gs, k3⟩, -⟩ := single j o ho
          rw [k1.unique h1] at k2
          rw [Nat.zero_add]
          exact ⟨p, gs, k2, k3⟩)
      exact standardRun_build h1 h2 h3 hn
  · intro out ho i hi o ho'
    obtain ⟨ac', ps, fs, cs, p, h1, h2, h3, h4, h5, h6, h7, -, -⟩ := standardRun_ok ho
    obtain ⟨ac'', q, k1, k2, -, k4, k5, k6⟩ := single i o ho'
    rw [k1.unique h1] at k2
    obtain ⟨q', hq⟩ : ∃ q, ps[i]? = some q := by
      rw [← h3] at hi
      exact ⟨ps[i], List.getElem?_eq_getElem hi⟩
    obtain ⟨g1, -⟩ := h2.get i q' hq
    rw [Nat.zero_add] at g1
    have e := g1.unique k2
    subst e
    refine ⟨?_, ?_⟩
    · intro k
      rw [h7, k6]
      unfold Table.fresh
      by_cases hk : k ∈ globalCoeffs
      · refine .inr ⟨ps.map fun p => rowValue p.v k, rowValue q'.v k, ?_, by simp [h3], ?_, ?_⟩
        · simp [hk]
        · simp [hq]
        · simp [hk]
      · exact .inl ⟨by simp [hk], by simp [hk]⟩
    · intro hi'
      have : ps.getLast? = some q' := by
        rw [List.getLast?_eq_getElem?, h3, ← hi']
        exact hq
      rw [h4] at this
      cases this
      exact ⟨k4.trans h5.symm, k5.trans h6.symm⟩

end Verif
