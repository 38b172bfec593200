import Verif.Model.Run
import Mathlib.Tactic.Ring
import Mathlib.Data.Nat.Digits.Lemmas

/-!
# Lemmas about the loop over the flight states
-/

namespace Verif

/-! ## Dictionaries -/

theorem lookup_cons' {β : Type*} (k a : String) (b : β) (l : List (String × β)) :
    List.lookup k ((a, b) :: l) = if k = a then some b else List.lookup k l := by
  rw [List.lookup_cons]
  by_cases h : k = a
  · subst h; simp
  · have : (k == a) = false := by simpa using h
    rw [this, if_neg h]

theorem lookup_notMem {β : Type*} {k : String} {l : List (String × β)} (h : k ∉ l.map Prod.fst) :
    l.lookup k = none := by
  induction l with
  | nil => rfl
  | cons a l ih =>
    obtain ⟨a, b⟩ := a
    simp only [List.map_cons, List.mem_cons, not_or] at h
    rw [lookup_cons', if_neg h.1, ih h.2]

theorem setKnown_ok {items : List (String × Flt ℝ)} : ∀ {d : FltDict},
    (items.map Prod.fst).Nodup → (∀ k ∈ items.map Prod.fst, (d k).isSome = true) →
    setKnown items d = (fun k => match items.lookup k with
      | some x => some x
      | none => d k, true) := by
  induction items with
  | nil => intro d _ _; rfl
  | cons a items ih =>
    intro d hn h
    obtain ⟨a, x⟩ := a
    simp only [List.map_cons, List.nodup_cons] at hn
    simp only [List.map_cons, List.mem_cons, forall_eq_or_imp] at h
    unfold setKnown
    rw [if_pos h.1, ih hn.2 (by
      intro k hk
      rw [Function.update_of_ne (by rintro rfl; exact hn.1 hk)]
      exact h.2 k hk)]
    congr 1
    funext k
    rw [lookup_cons']
    by_cases e : k = a
    · subst e
      rw [lookup_notMem hn.1]
      simp
    · rw [if_neg e, Function.update_of_ne e]

theorem setItems_eq {items : List (String × List (Flt ℝ))} :
    ∀ {d : String → Option (List (Flt ℝ))}, (items.map Prod.fst).Nodup →
    setItems items d = fun k => match items.lookup k with
      | some x => some x
      | none => d k := by
  induction items with
  | nil => intro d _; rfl
  | cons a items ih =>
    intro d hn
    obtain ⟨a, x⟩ := a
    simp only [List.map_cons, List.nodup_cons] at hn
    unfold setItems
    rw [ih hn.2]
    funext k
    rw [lookup_cons']
    by_cases e : k = a
    · subst e
      rw [lookup_notMem hn.1]
      simp
    · rw [if_neg e, Function.update_of_ne e]

theorem appendAll_ok {d : FltDict} {cols : List (String × String)} : ∀ {t : Table},
    (cols.map Prod.fst).Nodup → (∀ c ∈ cols, (t c.1).isSome = true ∧ (d c.2).isSome = true) →
    appendAll d cols t = .ok fun k => match cols.lookup k with
      | some key => (t k).map (· ++ [(d key).getD .nonfin])
      | none => t k := by
  induction cols with
  | nil => intro t _ _; rfl
  | cons a cols ih =>
    intro t hn h
    obtain ⟨a, key⟩ := a
    simp only [List.map_cons, List.nodup_cons] at hn
    simp only [List.mem_cons, forall_eq_or_imp] at h
    obtain ⟨l, hl⟩ := Option.isSome_iff_exists.1 h.1.1
    obtain ⟨x, hx⟩ := Option.isSome_iff_exists.1 h.1.2
    unfold appendAll
    simp only [hl, hx]
    rw [ih hn.2 (by
      intro c hc
      rw [Function.update_of_ne (by
        rintro rfl
        exact hn.1 (List.mem_map_of_mem hc))]
      exact h.2 c hc)]
    congr 1
    funext k
    rw [lookup_cons']
    by_cases e : k = a
    · subst e
      rw [lookup_notMem hn.1]
      simp [hl, hx]
    · rw [if_neg e]
      simp only [Function.update_of_ne e]

/-! ## The shared result object -/

/-- Keys as after `VLMData()`. -/
structure VlmData.WF (v : VlmData) : Prop where
  forces : ∀ k, (v.forces k).isSome = true ↔ k ∈ forceKeys
  coeffs : ∀ k, (v.coeffs k).isSome = true ↔ k ∈ forceKeys
  panelwise : ∀ k, k ∉ panelwiseKeys → v.panelwise k = none

theorem VlmData.fresh_wf : VlmData.fresh.WF := by
  refine ⟨?_, ?_, ?_⟩ <;> intro k <;> unfold VlmData.fresh
  · simp
  · simp
  · simp

/-- The result object made of the results. -/
noncomputable def VlmData.of {n : ℕ} (A : Matrix (Fin n) (Fin n) ℝ) (b : Fin n → ℝ) (g : List ℝ)
    (R : Results n) : VlmData :=
  { matrix := some (rowsOf A), rhs := some (List.ofFn b)
    panelwise := fun k => (("gamma", g.map Flt.fin) :: panelColumns R).lookup k
    forces := fun k => (forceItems R).lookup k
    coeffs := fun k => (coeffItems R).lookup k }

theorem forceItems_keys {n : ℕ} (R : Results n) : (forceItems R).map Prod.fst = forceKeys := rfl
theorem coeffItems_keys {n : ℕ} (R : Results n) : (coeffItems R).map Prod.fst = forceKeys := rfl
theorem panelColumns_keys {n : ℕ} (R : Results n) :
    "gamma" :: (panelColumns R).map Prod.fst = panelwiseKeys := rfl

theorem lookup_isSome {β : Type*} {l : List (String × β)} {k : String} :
    (l.lookup k).isSome = true ↔ k ∈ l.map Prod.fst := by
  induction l with
  | nil => simp
  | cons a l ih =>
    obtain ⟨a, b⟩ := a
    rw [lookup_cons']
    by_cases e : k = a
    · simp [e]
    · rw [if_neg e, ih]
      simp [e]

theorem VlmData.of_wf {n : ℕ} (A : Matrix (Fin n) (Fin n) ℝ) (b : Fin n → ℝ) (g : List ℝ)
    (R : Results n) : (VlmData.of A b g R).WF := by
  refine ⟨?_, ?_, ?_⟩ <;> intro k
  · exact lookup_isSome
  · exact lookup_isSome
  · intro h
    apply lookup_notMem
    exact h

theorem LatticeData.panels_some {l : LatticeData} {P : Fin l.num → Panel} :
    l.panels = some P ↔ ∀ k : Fin l.num, l.panel k = some (P k) := by
  unfold LatticeData.panels
  constructor
  · intro h k
    split_ifs at h with hh
    cases h
    simp
  · intro h
    rw [dif_pos (fun k => by rw [h k]; rfl)]
    congr 1
    funext k
    simp [h k]

theorem gammaAt_map (g : List ℝ) (i : ℕ) : gammaAt (g.map Flt.fin) i = g.getD i 0 := by
  unfold gammaAt
  rw [List.getElem?_map, List.getD_eq_getElem?_getD]
  cases g[i]? <;> rfl

/-- The circulation vector returned by `dgesv`, as read by the native code. -/
noncomputable def gammaOf {n : ℕ} (env : RunEnv) (A : Matrix (Fin n) (Fin n) ℝ) (b : Fin n → ℝ) :
    Fin n → ℝ := fun i => (env.dgesv (rowsOf A) (List.ofFn b)).getD i 0

open Classical in
/-- Analysis of a flight state in closed form. -/
theorem analyse_eq (env : RunEnv) (ac : PAircraft ℝ) (s : FlowState) {v : VlmData} (hv : v.WF) :
    analyse env ac s v =
      match genLattice env.lat env.doRot s.alpha s.beta ac with
      | .error e => .error (.raised e)
      | .ok l =>
        match l.panels with
        | none => .error .notFinite
        | some P =>
          match vlmDownwash env.eps P with
          | none => .error .notFinite
          | some A =>
            if l.num = 0 then .error (.raised .linAlg)
            else
              match vlmResults env.eps s env.refs P (gammaOf env A (vlmBoundary s env.refs P)) with
              | none => .error .notFinite
              | some R => .ok (l, VlmData.of A (vlmBoundary s env.refs P)
                  (env.dgesv (rowsOf A) (List.ofFn (vlmBoundary s env.refs P))) R) := by
  unfold analyse calcDownwash calcBoundary calcResults
  cases hl : genLattice env.lat env.doRot s.alpha s.beta ac with
  | error e => rfl
  | ok l =>
    simp only [orStop]
    cases hP : l.panels with
    | none => rfl
    | some P =>
      simp only
      cases hA : vlmDownwash env.eps P with
      | none => rfl
      | some A =>
        simp only
        by_cases h0 : l.num = 0
        · simp only [h0, if_true]
        · simp only [h0, if_false, calcGamma, Function.update_self, gammaAt_map]
          have e : (fun i : Fin l.num => (env.dgesv (rowsOf A)
              (List.ofFn (vlmBoundary s env.refs P))).getD (i : ℕ) 0) =
              gammaOf env A (vlmBoundary s env.refs P) := rfl
          rw [e]
          cases hR : vlmResults env.eps s env.refs P (gammaOf env A (vlmBoundary s env.refs P)) with
          | none => rfl
          | some R =>
            simp only
            rw [setKnown_ok (by rw [forceItems_keys]; decide) (by
                intro k hk
                exact (hv.forces k).2 hk),
              setKnown_ok (by rw [coeffItems_keys]; decide) (by
                intro k hk
                exact (hv.coeffs k).2 hk),
              setItems_eq (by
                have : ((panelColumns R).map Prod.fst) = panelwiseKeys.tail := rfl
                rw [this]; decide)]
            congr 2
            unfold VlmData.of
            ext1
            · rfl
            · rfl
            · funext k
              simp only [lookup_cons']
              by_cases hk : k = "gamma"
              · subst hk
                rw [lookup_notMem (by
                  have : ((panelColumns R).map Prod.fst) = panelwiseKeys.tail := rfl
                  rw [this]; decide)]
                simp
              · rw [if_neg hk]
                cases hL : (panelColumns R).lookup k with
                | some x => rfl
                | none =>
                  simp only [Function.update_of_ne hk]
                  apply hv.panelwise
                  intro hmem
                  rw [← panelColumns_keys R] at hmem
                  rcases List.mem_cons.1 hmem with h | h
                  · exact hk h
                  · have := lookup_isSome.2 h
                    rw [hL] at this
                    cases this
            · funext k
              simp only
              cases hL : (forceItems R).lookup k with
              | some x => rfl
              | none =>
                have : ¬ (v.forces k).isSome = true := by
                  rw [hv.forces, ← forceItems_keys R, ← lookup_isSome, hL]
                  simp
                simpa using this
            · funext k
              simp only [if_true]
              cases hL : (coeffItems R).lookup k with
              | some x => rfl
              | none =>
                have : ¬ (v.coeffs k).isSome = true := by
                  rw [hv.coeffs, ← coeffItems_keys R, ← lookup_isSome, hL]
                  simp
                simpa using this

theorem analyse_indep (env : RunEnv) (ac : PAircraft ℝ) (s : FlowState) {v : VlmData} (hv : v.WF) :
    analyse env ac s v = analyse env ac s VlmData.fresh := by
  rw [analyse_eq env ac s hv, analyse_eq env ac s VlmData.fresh_wf]

theorem analyse_ok {env : RunEnv} {ac : PAircraft ℝ} {s : FlowState} {l : LatticeData}
    {w : VlmData} (h : analyse env ac s VlmData.fresh = .ok (l, w)) :
    genLattice env.lat env.doRot s.alpha s.beta ac = .ok l ∧ l.num ≠ 0 ∧
    ∃ (P : Fin l.num → Panel) (A : Matrix (Fin l.num) (Fin l.num) ℝ) (R : Results l.num),
      (∀ k : Fin l.num, l.panel k = some (P k)) ∧ vlmDownwash env.eps P = some A ∧
      vlmResults env.eps s env.refs P (gammaOf env A (vlmBoundary s env.refs P)) = some R ∧
      w = VlmData.of A (vlmBoundary s env.refs P)
        (env.dgesv (rowsOf A) (List.ofFn (vlmBoundary s env.refs P))) R := by
  rw [analyse_eq env ac s VlmData.fresh_wf] at h
  cases hl : genLattice env.lat env.doRot s.alpha s.beta ac with
  | error e => rw [hl] at h; cases h
  | ok l' =>
    rw [hl] at h
    simp only at h
    cases hP : l'.panels with
    | none => rw [hP] at h; cases h
    | some P =>
      rw [hP] at h
      simp only at h
      cases hA : vlmDownwash env.eps P with
      | none => rw [hA] at h; cases h
      | some A =>
        rw [hA] at h
        simp only at h
        by_cases h0 : l'.num = 0
        · rw [if_pos h0] at h; cases h
        · rw [if_neg h0] at h
          cases hR : vlmResults env.eps s env.refs P
              (gammaOf env A (vlmBoundary s env.refs P)) with
          | none => rw [hR] at h; cases h
          | some R =>
            rw [hR] at h
            cases h
            exact ⟨rfl, h0, P, A, R, LatticeData.panels_some.1 hP, hA, hR, rfl⟩

theorem analyse_wf {env : RunEnv} {ac : PAircraft ℝ} {s : FlowState} {l : LatticeData}
    {w : VlmData} (h : analyse env ac s VlmData.fresh = .ok (l, w)) : w.WF := by
  obtain ⟨-, -, P, A, R, -, -, -, rfl⟩ := analyse_ok h
  exact VlmData.of_wf _ _ _ _

/-- Non-failing direction. -/
theorem analyse_build {env : RunEnv} {ac : PAircraft ℝ} {s : FlowState} {l : LatticeData}
    (hl : genLattice env.lat env.doRot s.alpha s.beta ac = .ok l) (h0 : l.num ≠ 0)
    {P : Fin l.num → Panel} {A : Matrix (Fin l.num) (Fin l.num) ℝ} {R : Results l.num}
    (hP : ∀ k : Fin l.num, l.panel k = some (P k)) (hA : vlmDownwash env.eps P = some A)
    (hR : vlmResults env.eps s env.refs P (gammaOf env A (vlmBoundary s env.refs P)) = some R) :
    analyse env ac s VlmData.fresh = .ok (l, VlmData.of A (vlmBoundary s env.refs P)
        (env.dgesv (rowsOf A) (List.ofFn (vlmBoundary s env.refs P))) R) := by
  rw [analyse_eq env ac s VlmData.fresh_wf, hl]
  simp only [LatticeData.panels_some.2 hP, hA, h0, if_false, hR]

/-! ## One pass -/

/-- All columns are there. -/
def Table.Full (t : Table) : Prop := ∀ k, (t k).isSome = true ↔ k ∈ globalCoeffs

theorem Table.fresh_full : Table.fresh.Full := by
  intro k
  unfold Table.fresh
  simp

/-- Value appended to a column. -/
noncomputable def rowValue (v : VlmData) (k : String) : Flt ℝ :=
  match coeffColumns.lookup k with
  | some key => (v.coeffs key).getD .nonfin
  | none => match forceColumns.lookup k with
    | some key => (v.forces key).getD .nonfin
    | none => .nonfin

theorem append_row {v : VlmData} (hv : v.WF) {t : Table} (ht : t.Full) :
    ∃ t1, appendAll v.forces forceColumns t = .ok t1 ∧
      appendAll v.coeffs coeffColumns t1 = .ok fun k => (t k).map (· ++ [rowValue v k]) := by
  refine ⟨_, appendAll_ok (by decide) (fun c hc => ⟨(ht _).2 ?_, (hv.forces _).2 ?_⟩), ?_⟩
  · revert c; decide
  · revert c; decide
  have key : ∀ c ∈ coeffColumns, forceColumns.lookup c.1 = none := by
    intro c hc
    apply lookup_notMem
    revert c
    decide
  rw [appendAll_ok (by decide) (fun c hc => ⟨?_, (hv.coeffs _).2 ?_⟩)]
  · congr 1
    funext k
    unfold rowValue
    cases h1 : coeffColumns.lookup k with
    | some x =>
      simp only
      have : k ∈ coeffColumns.map Prod.fst := lookup_isSome.1 (by rw [h1]; rfl)
      obtain ⟨c, hc, rfl⟩ := List.mem_map.1 this
      simp only [key c hc]
    | none =>
      simp only
      cases h2 : forceColumns.lookup k with
      | some x => rfl
      | none =>
        simp only
        have : t k = none := by
          have hk : k ∉ globalCoeffs := by
            intro hk
            have : k ∈ forceColumns.map Prod.fst ++ coeffColumns.map Prod.fst := by
              revert hk; exact id
            rcases List.mem_append.1 this with h | h
            · have := lookup_isSome.2 h
              rw [h2] at this; cases this
            · have := lookup_isSome.2 h
              rw [h1] at this; cases this
          rw [← ht, Bool.not_eq_true, Option.isSome_eq_false_iff, Option.isNone_iff_eq_none] at hk
          exact hk
        rw [this]
        rfl
  · simp only [key c hc]
    apply (ht _).2
    revert c; decide
  · revert c; decide

/-- What a pass finds out about a flight state: current state, flow data, lattice and results. -/
structure Pass where
  cur : CurSt ℝ
  s : FlowState
  l : LatticeData
  v : VlmData

/-- The pass for flight state `i` starting with a new result object. -/
structure Pass.Of (env : RunEnv) (ac : PAircraft ℝ) (st : FlightSt ℝ) (i : ℕ) (p : Pass) : Prop where
  cur : st.current i = .ok p.cur
  flow : p.cur.toFlow = some p.s
  result : analyse env ac p.s VlmData.fresh = .ok (p.l, p.v)

theorem runStep_ok {env : RunEnv} {st : FlightSt ℝ} {i : ℕ} {x x' : LoopSt} (hv : x.vlm.WF)
    (ht : x.table.Full) (h : runStep env st i x = .ok x') :
    ∃ ac p fs, prePanelFirst i x.ac = .ok ac ∧ Pass.Of env ac st i p ∧
      saveAll env i p.cur p.v = .ok fs ∧
      x' = ⟨ac, p.v, fun k => (x.table k).map (· ++ [rowValue p.v k]), x.files ++ fs, some p.l⟩ := by
  unfold runStep at h
  cases h1 : st.current i with
  | error e => rw [h1] at h; cases h
  | ok cur =>
    rw [h1] at h
    simp only [orStop] at h
    cases h2 : prePanelFirst i x.ac with
    | error e => rw [h2] at h; cases h
    | ok ac =>
      rw [h2] at h
      simp only at h
      cases h3 : cur.toFlow with
      | none => rw [h3] at h; cases h
      | some s =>
        rw [h3] at h
        simp only [analyse_indep env ac s hv] at h
        cases h4 : analyse env ac s VlmData.fresh with
        | error e => rw [h4] at h; cases h
        | ok r =>
          obtain ⟨l, v⟩ := r
          rw [h4] at h
          simp only at h
          cases h5 : saveAll env i cur v with
          | error e => rw [h5] at h; cases h
          | ok fs =>
            rw [h5] at h
            obtain ⟨t1, h6, h7⟩ := append_row (analyse_wf h4) ht
            simp only [h6, h7] at h
            cases h
            exact ⟨ac, ⟨cur, s, l, v⟩, fs, rfl, ⟨h1, h3, h4⟩, h5, rfl⟩

theorem runStep_build {env : RunEnv} {st : FlightSt ℝ} {i : ℕ} {x : LoopSt} (hv : x.vlm.WF)
    (ht : x.table.Full) {ac : PAircraft ℝ} {p : Pass} {fs : Files}
    (hac : prePanelFirst i x.ac = .ok ac) (hp : Pass.Of env ac st i p)
    (hf : saveAll env i p.cur p.v = .ok fs) :
    runStep env st i x = .ok
      ⟨ac, p.v, fun k => (x.table k).map (· ++ [rowValue p.v k]), x.files ++ fs, some p.l⟩ := by
  obtain ⟨t1, h6, h7⟩ := append_row (analyse_wf hp.result) ht
  unfold runStep
  simp only [hp.cur, orStop, hac, hp.flow, analyse_indep env ac p.s hv, hp.result, hf, h6, h7]

theorem append_full {t : Table} (ht : t.Full) (v : VlmData) :
    Table.Full fun k => (t k).map (· ++ [rowValue v k]) := by
  intro k
  rw [← ht k]
  simp

theorem prePanelFirst_succ (i : ℕ) (ac : PAircraft ℝ) : prePanelFirst (i + 1) ac = .ok ac := by
  unfold prePanelFirst
  simp

/-! ## The whole loop -/

/-- The passes for the states `i`, `i + 1`, … and the files written. -/
inductive Passes (env : RunEnv) (ac : PAircraft ℝ) (st : FlightSt ℝ) :
    ℕ → List Pass → Files → Prop
  | nil (i) : Passes env ac st i [] []
  | cons {i p fs ps gs} (h : Pass.Of env ac st i p) (hf : saveAll env i p.cur p.v = .ok fs)
      (hp : Passes env ac st (i + 1) ps gs) : Passes env ac st i (p :: ps) (fs ++ gs)

theorem runLoop_ok {env : RunEnv} {st : FlightSt ℝ} : ∀ {k i : ℕ} {x x' : LoopSt}, x.vlm.WF →
    x.table.Full → ∀ {ac}, (0 < k → prePanelFirst i x.ac = .ok ac) →
    runLoop env st k i x = .ok x' →
    ∃ ps fs, Passes env ac st i ps fs ∧ ps.length = k ∧ x'.files = x.files ++ fs ∧
      x'.table = (fun c => (x.table c).map (· ++ ps.map fun p => rowValue p.v c)) ∧
      x'.lattice = (ps.getLast?.map Pass.l).or x.lattice ∧
      x'.vlm = (ps.getLast?.map Pass.v).getD x.vlm := by
  intro k
  induction k with
  | zero =>
    intro i x x' hv ht ac hac h
    unfold runLoop at h
    cases h
    refine ⟨[], [], .nil i, rfl, by simp, ?_, by simp, by simp⟩
    funext c
    cases x.table c <;> simp
  | succ k ih =>
    intro i x x' hv ht ac hac h
    unfold runLoop at h
    cases h1 : runStep env st i x with
    | error e => rw [h1] at h; cases h
    | ok y =>
      rw [h1] at h
      simp only at h
      obtain ⟨ac', p, fs, a1, a2, a3, rfl⟩ := runStep_ok hv ht h1
      rw [hac (Nat.succ_pos k)] at a1
      cases a1
      obtain ⟨ps, gs, b1, b2, b3, b4, b5, b6⟩ := ih (analyse_wf a2.result) (append_full ht p.v)
        (fun _ => prePanelFirst_succ i ac) h
      refine ⟨p :: ps, fs ++ gs, .cons a2 a3 b1, by simp [b2], ?_, ?_, ?_, ?_⟩
      · rw [b3]
        simp
      · rw [b4]
        funext c
        simp only
        cases x.table c <;> simp
      · rw [b5]
        cases hps : ps.getLast? with
        | none =>
          rw [List.getLast?_eq_none_iff] at hps
          subst hps
          rfl
        | some q =>
          have : ps ≠ [] := by rintro rfl; cases hps
          rw [List.getLast?_cons, hps]
          rfl
      · rw [b6]
        cases hps : ps.getLast? with
        | none =>
          rw [List.getLast?_eq_none_iff] at hps
          subst hps
          rfl
        | some q =>
          have : ps ≠ [] := by rintro rfl; cases hps
          rw [List.getLast?_cons, hps]
          rfl

theorem runLoop_build {env : RunEnv} {st : FlightSt ℝ} : ∀ {k i : ℕ} {x : LoopSt}, x.vlm.WF →
    x.table.Full → ∀ {ac}, (0 < k → prePanelFirst i x.ac = .ok ac) → ∀ {ps fs},
    Passes env ac st i ps fs → ps.length = k → ∃ x', runLoop env st k i x = .ok x' := by
  intro k
  induction k with
  | zero => intro i x _ _ ac _ ps fs _ _; exact ⟨x, rfl⟩
  | succ k ih =>
    intro i x hv ht ac hac ps fs hp hl
    cases hp with
    | nil => simp at hl
    | cons h hf hp =>
      unfold runLoop
      rw [runStep_build hv ht (hac (Nat.succ_pos k)) h hf]
      simp only [List.length_cons, Nat.add_right_cancel_iff] at hl
      exact ih (analyse_wf h.result) (append_full ht _) (fun _ => prePanelFirst_succ i ac) hp hl

end Verif
