import Verif.Props.Rerun

/-!
# Properties C105 and C106: the files a project leaves, also after a run that stops early
-/

namespace Verif

/-! ## Specification -/

/-- The settings ask for a group of results. -/
def SaveWanted (d : PyDict) (key : String) : Prop :=
  ∃ g, ("save_results", PyVal.dict g) ∈ d ∧ g.lookup key = some (.bool true)

/-- Files of a flight state: entry of the settings and name of the file. -/
def stateFileNames : List (String × String) :=
  [("global", "global.json"), ("panelwise", "panelwise.dat"), ("matrix_system", "matrix.dat")]

/-- The path of a result file that the settings ask for, with `n` flight states. -/
inductive WantedFile (d : PyDict) (base : String) (n : ℕ) : FilePath → Prop
  | state (i : ℕ) (key name : String) : i < n → (key, name) ∈ stateFileNames → SaveWanted d key →
      WantedFile d base n ["_results", base ++ "_" ++ fmt03 i, name]
  | map : SaveWanted d "aeroperformance" →
      WantedFile d base n ["_results", base ++ "_aeroperformance.json"]

/-- A flight state can be analysed. -/
def Analysable (env : RunEnv) (ac : PAircraft ℝ) (st : FlightSt ℝ) (i : ℕ) : Prop :=
  ∃ ac', Panelled env ac ac' ∧ ∃ a : Analysis, a.Of env ac' st i

/-- The path of a file of one of the flight states before state `k` that the settings ask for. -/
def WantedBefore (d : PyDict) (base : String) (k : ℕ) (path : FilePath) : Prop :=
  ∃ i < k, ∃ n ∈ stateFileNames, SaveWanted d n.1 ∧
    path = ["_results", base ++ "_" ++ fmt03 i, n.2]

/-! ## Proof -/

theorem saveIs_iff {suffix : String → String} {d : PyDict} (hk : (d.map Prod.fst).Nodup)
    (hd : SettingsFileOk suffix d) {key : String}
    (hkey : key ∈ ["global", "panelwise", "aeroperformance", "matrix_system"]) {b : Bool}
    (h : SaveIs d key b) : b = true ↔ SaveWanted d key := by
  constructor
  · rintro rfl
    by_cases hg : ∃ v, ("save_results", v) ∈ d
    · obtain ⟨v, hv⟩ := hg
      obtain ⟨g, rfl, hg⟩ := hd.saved v hv
      obtain ⟨x, hx, y, rfl⟩ := hg key hkey
      refine ⟨g, hv, ?_⟩
      rw [hx, ← h.1 g y hv hx]
    · push Not at hg
      exact absurd (h.2 hg) (by simp)
  · rintro ⟨g, h1, h2⟩
    exact h.1 g true h1 h2

/-- **C105**: a finished run of a project leaves exactly the files that its settings ask for, each
once; each of them holds the data of its flight state, the map those of all states. -/
theorem C105_files_of_project (W : World) (hW : Lapack W.dgesv) (P : Project) (d : PyDict)
    (a b : String) (hn : NativeProject W P d a b) (out : RunOut) (h : runProject W P = .ok out) :
    ∃ (f : FileAircraft) (sd : List (String × Arg ℝ)) (st : FlightSt ℝ) (env : RunEnv)
      (ac ac' : PAircraft ℝ) (as : List Analysis),
      P.aircraft a = some f ∧ P.state b = some sd ∧ updateFromDict W.atm Store.fresh sd = .ok st ∧
      ReadsFiles W P d f env ac ∧ st.num ≠ 0 ∧ Panelled env ac ac' ∧ AllAnalysed env ac' st as ∧
      (out.files.map Prod.fst).Nodup ∧
      (∀ path, path ∈ out.files.map Prod.fst ↔ WantedFile d P.base st.num path) ∧
      ∀ x ∈ out.files,
        (∃ (i : ℕ) (an : Analysis) (name : String), as[i]? = some an ∧
          x.1 = ["_results", P.base ++ "_" ++ fmt03 i, name] ∧ StateFile env i an name x.2) ∨
        MapFile env st as x.1 x.2 := by
  unfold runProject at h
  cases hx : loadProject W P with
  | error e => rw [hx] at h; cases h
  | ok x =>
  rw [hx] at h
  simp only at h
  obtain ⟨f, sd, h1, h2, h3, h4, h5, h6⟩ := loaded_reads hn hx
  obtain ⟨q1, ac', as, q2, q3, q4, q5, q6, -⟩ := C81_result_files _ hW _ _ out h
  have hbase : (x.env W P).base = P.base := h6.base
  have hG := saveIs_iff hn.keys h3 (by simp) h6.saveGlobal
  have hP := saveIs_iff hn.keys h3 (by simp) h6.savePanelwise
  have hM := saveIs_iff hn.keys h3 (by simp) h6.saveMatrix
  have hA := saveIs_iff hn.keys h3 (by simp) h6.saveAero
  refine ⟨f, sd, x.state, x.env W P, x.aircraft.toP, ac', as, h1, h2, h5, h6,
    ((C93_finishes_iff _ hW _ _).1 ⟨out, h⟩).1, q2, q3, q1, ?_, ?_⟩
  · intro path
    constructor
    · intro hp
      obtain ⟨y, hy, rfl⟩ := List.mem_map.1 hp
      rcases q4 y hy with ⟨i, an, name, hi, e, hs⟩ | hm
      · rw [e, hbase]
        have hi' : i < x.state.num := by
          rw [← q3.1]
          exact (List.getElem?_eq_some_iff.1 hi).1
        revert hs
        generalize y.2 = c
        intro hs
        cases hs with
        | global g _ _ _ => exact .state i "global" _ hi' (by simp [stateFileNames]) (hG.1 g)
        | panelwise g => exact .state i "panelwise" _ hi' (by simp [stateFileNames]) (hP.1 g)
        | matrix g => exact .state i "matrix_system" _ hi' (by simp [stateFileNames]) (hM.1 g)
      · revert hm
        generalize y.1 = p
        generalize y.2 = c
        intro hm
        cases hm with
        | native g _ _ =>
          rw [hbase]
          exact .map (hA.1 g)
        | cpacs g _ _ => rw [h6.native.1] at g; cases g
    · intro hp
      cases hp with
      | state i key name hi hk hs =>
        obtain ⟨k1, k2, k3⟩ := q5 i hi
        rw [hbase] at k1 k2 k3
        simp only [stateFileNames, List.mem_cons, List.not_mem_nil, or_false, Prod.mk.injEq] at hk
        rcases hk with ⟨rfl, rfl⟩ | ⟨rfl, rfl⟩ | ⟨rfl, rfl⟩
        · obtain ⟨c, hc⟩ := k1 (hG.2 hs)
          exact List.mem_map.2 ⟨_, hc, rfl⟩
        · obtain ⟨c, hc⟩ := k2 (hP.2 hs)
          exact List.mem_map.2 ⟨_, hc, rfl⟩
        · obtain ⟨c, hc⟩ := k3 (hM.2 hs)
          exact List.mem_map.2 ⟨_, hc, rfl⟩
      | map hs =>
        obtain ⟨c, hc⟩ := q6 (hA.2 hs)
        rw [hbase] at hc
        exact List.mem_map.2 ⟨_, hc, rfl⟩
  · intro y hy
    rcases q4 y hy with ⟨i, an, name, hi, e, hs⟩ | hm
    · exact .inl ⟨i, an, name, hi, by rw [e, hbase]; rfl, hs⟩
    · exact .inr hm

/-! ## Runs that stop early -/

theorem runLoop_stopped {env : RunEnv} {st : FlightSt ℝ} : ∀ {k i : ℕ} {x : LoopSt} {e : Stop}
    {files : Files}, x.vlm.WF → x.table.Full → ∀ {ac}, (0 < k → prePanelFirst i x.ac = .ok ac) →
    runLoop env st k i x = .error (e, files) →
    ∃ ps fs, Passes env ac st i ps fs ∧ ps.length < k ∧ files = x.files ++ fs ∧
      ¬ ∃ p gs, Pass.Of env ac st (i + ps.length) p ∧
        saveAll env (i + ps.length) p.cur p.v = .ok gs := by
  intro k
  induction k with
  | zero =>
    intro i x e files hv ht ac hac h
    unfold runLoop at h
    cases h
  | succ k ih =>
    intro i x e files hv ht ac hac h
    unfold runLoop at h
    cases h1 : runStep env st i x with
    | error e' =>
      rw [h1] at h
      cases h
      refine ⟨[], [], .nil i, by simp, by simp, ?_⟩
      rintro ⟨p, gs, h2, h3⟩
      rw [runStep_build hv ht (hac (Nat.succ_pos k)) h2 h3] at h1
      cases h1
    | ok y =>
      rw [h1] at h
      simp only at h
      obtain ⟨ac', p, fs, a1, a2, a3, rfl⟩ := runStep_ok hv ht h1
      rw [hac (Nat.succ_pos k)] at a1
      cases a1
      obtain ⟨ps, gs, b1, b2, b3, b4⟩ := ih (analyse_wf a2.result) (append_full ht p.v)
        (fun _ => prePanelFirst_succ i ac) h
      refine ⟨p :: ps, fs ++ gs, .cons a2 a3 b1, by simpa using b2, ?_, ?_⟩
      · rw [b3]
        simp
      · rw [List.length_cons, Nat.add_comm ps.length 1, ← Nat.add_assoc]
        exact b4

/-- **C106**: a run that does not finish stops at the first flight state that cannot be analysed; the
files of the states before it are there, and no others. -/
theorem C106_stopped_run (env : RunEnv) (hd : Lapack env.dgesv) (ac : PAircraft ℝ) (st : FlightSt ℝ)
    (h0 : st.num ≠ 0) (stop : Stop) (files : Files)
    (h : standardRun env ac st = .error (stop, files)) :
    ∃ k < st.num, (∀ i < k, Analysable env ac st i) ∧ ¬ Analysable env ac st k ∧
      (files.map Prod.fst).Nodup ∧
      (∀ f ∈ files, ∃ i < k, ∃ (ac' : PAircraft ℝ) (a : Analysis) (name : String),
        Panelled env ac ac' ∧ a.Of env ac' st i ∧ f.1 = stateDir env.base i ++ [name] ∧
        StateFile env i a name f.2) ∧
      ∀ i < k,
        (env.saveGlobal = true → ∃ c, (stateDir env.base i ++ ["global.json"], c) ∈ files) ∧
        (env.savePanelwise = true → ∃ c, (stateDir env.base i ++ ["panelwise.dat"], c) ∈ files) ∧
        (env.saveMatrix = true → ∃ c, (stateDir env.base i ++ ["matrix.dat"], c) ∈ files) := by
  have none_yet : ∀ {files : Files}, files = [] → ¬ Analysable env ac st 0 →
      ∃ k < st.num, (∀ i < k, Analysable env ac st i) ∧ ¬ Analysable env ac st k ∧
      (files.map Prod.fst).Nodup ∧
      (∀ f ∈ files, ∃ i < k, ∃ (ac' : PAircraft ℝ) (a : Analysis) (name : String),
        Panelled env ac ac' ∧ a.Of env ac' st i ∧ f.1 = stateDir env.base i ++ [name] ∧
        StateFile env i a name f.2) ∧
      ∀ i < k,
        (env.saveGlobal = true → ∃ c, (stateDir env.base i ++ ["global.json"], c) ∈ files) ∧
        (env.savePanelwise = true → ∃ c, (stateDir env.base i ++ ["panelwise.dat"], c) ∈ files) ∧
        (env.saveMatrix = true → ∃ c, (stateDir env.base i ++ ["matrix.dat"], c) ∈ files) := by
    rintro files rfl hn
    exact ⟨0, Nat.pos_of_ne_zero h0, by simp, hn, by simp, by simp, by simp⟩
  unfold standardRun at h
  cases h1 : setAutopanels env.autoC env.autoS ac with
  | error e =>
    rw [h1] at h
    cases h
    refine none_yet rfl ?_
    rintro ⟨ac', ⟨ac1, h2, -⟩, -⟩
    rw [h1] at h2
    cases h2
  | ok ac1 =>
    rw [h1] at h
    simp only at h
    cases hp : prePanelFirst 0 ac1 with
    | error e =>
      have hstep : ∃ s, runStep env st 0 ⟨ac1, VlmData.fresh, Table.fresh, [], none⟩ = .error s := by
        cases hs : runStep env st 0 ⟨ac1, VlmData.fresh, Table.fresh, [], none⟩ with
        | error s => exact ⟨s, rfl⟩
        | ok y =>
          obtain ⟨ac', -, -, a1, -⟩ := runStep_ok VlmData.fresh_wf Table.fresh_full hs
          rw [hp] at a1
          cases a1
      obtain ⟨s, hs⟩ := hstep
      obtain ⟨m, hm⟩ := Nat.exists_eq_succ_of_ne_zero h0
      rw [hm] at h
      unfold runLoop at h
      rw [hs] at h
      cases h
      refine none_yet rfl ?_
      rintro ⟨ac', ⟨ac1', h2, h3⟩, -⟩
      rw [h1] at h2
      cases h2
      unfold prePanelFirst at hp
      rw [if_pos rfl, h3] at hp
      cases hp
    | ok ac' =>
      have hpan : Panelled env ac ac' := by
        refine ⟨ac1, h1, ?_⟩
        unfold prePanelFirst at hp
        simpa using hp
      cases h2 : runLoop env st st.num 0 ⟨ac1, VlmData.fresh, Table.fresh, [], none⟩ with
      | ok x =>
        exfalso
        rw [h2] at h
        simp only at h
        obtain ⟨ps, fs, b1, b2, b3, b4, b5, b6⟩ := runLoop_ok (ac := ac') VlmData.fresh_wf
          Table.fresh_full (fun _ => hp) h2
        obtain ⟨out, hout⟩ := standardRun_build hpan b1 b2 h0
        unfold standardRun at hout
        rw [h1] at hout
        simp only [h2] at hout
        rw [h] at hout
        cases hout
      | error e =>
        obtain ⟨e, fs'⟩ := e
        rw [h2] at h
        cases h
        obtain ⟨ps, fs, b1, b2, b3, b4⟩ := runLoop_stopped (ac := ac') VlmData.fresh_wf
          Table.fresh_full (fun _ => hp) h2
        simp only [List.nil_append, Nat.zero_add] at b3 b4
        subst b3
        obtain ⟨as, q1, q2, q3, q4, q5⟩ := b1.files hd
        have hlen := q1.length_eq
        simp only [Nat.zero_add] at q2 q4 q5
        refine ⟨ps.length, b2, ?_, ?_, q3, ?_, ?_⟩
        · intro i hi
          rw [hlen] at hi
          exact ⟨ac', hpan, as[i], q2 i _ (List.getElem?_eq_getElem hi)⟩
        · rintro ⟨ac2, hp2, a, ha⟩
          rw [← hpan.unique hp2] at ha
          obtain ⟨p, p1, -⟩ := ha.pass hd
          obtain ⟨gs, hg⟩ := saveAll_total hd p1
          exact b4 ⟨p, gs, p1, hg⟩
        · intro f hf
          obtain ⟨j, a, name, r1, r2, r3⟩ := q4 f hf
          refine ⟨j, ?_, ac', a, name, hpan, q2 j a r1, r2, r3⟩
          rw [hlen]
          exact (List.getElem?_eq_some_iff.1 r1).1
        · intro i hi
          rw [hlen] at hi
          exact q5 i as[i] (List.getElem?_eq_getElem hi)

/-- **C106**: the same for a project: if it can be loaded and has a flight state, but its run does not
finish, then it leaves exactly the files that its settings ask for of the flight states before the
first one that cannot be analysed. -/
theorem C106_stopped_project (W : World) (hW : Lapack W.dgesv) (P : Project) (d : PyDict)
    (a b : String) (hn : NativeProject W P d a b) (stop : Stop) (files : Files)
    (h : runProject W P = .error (stop, files)) (x : Loaded) (hx : loadProject W P = .ok x)
    (h0 : x.state.num ≠ 0) :
    ∃ (f : FileAircraft) (sd : List (String × Arg ℝ)) (st : FlightSt ℝ) (env : RunEnv)
      (ac : PAircraft ℝ), P.aircraft a = some f ∧ P.state b = some sd ∧
      updateFromDict W.atm Store.fresh sd = .ok st ∧ ReadsFiles W P d f env ac ∧
      ∃ k < st.num, (∀ i < k, Analysable env ac st i) ∧ ¬ Analysable env ac st k ∧
        (files.map Prod.fst).Nodup ∧
        ∀ path, path ∈ files.map Prod.fst ↔ WantedBefore d P.base k path := by
  unfold runProject at h
  rw [hx] at h
  simp only at h
  obtain ⟨f, sd, h1, h2, h3, h4, h5, h6⟩ := loaded_reads hn hx
  obtain ⟨k, hk, q1, q2, q3, q4, q5⟩ := C106_stopped_run _ hW _ _ h0 stop files h
  have hbase : (x.env W P).base = P.base := h6.base
  have hG := saveIs_iff hn.keys h3 (by simp) h6.saveGlobal
  have hP := saveIs_iff hn.keys h3 (by simp) h6.savePanelwise
  have hM := saveIs_iff hn.keys h3 (by simp) h6.saveMatrix
  refine ⟨f, sd, x.state, x.env W P, x.aircraft.toP, h1, h2, h5, h6, k, hk, q1, q2, q3, ?_⟩
  intro path
  constructor
  · intro hp
    obtain ⟨y, hy, rfl⟩ := List.mem_map.1 hp
    obtain ⟨i, hi, -, an, name, -, -, e, hs⟩ := q4 y hy
    rw [e, hbase]
    revert hs
    generalize y.2 = c
    intro hs
    cases hs with
    | global g _ _ _ => exact ⟨i, hi, ("global", _), by simp [stateFileNames], hG.1 g, rfl⟩
    | panelwise g => exact ⟨i, hi, ("panelwise", _), by simp [stateFileNames], hP.1 g, rfl⟩
    | matrix g => exact ⟨i, hi, ("matrix_system", _), by simp [stateFileNames], hM.1 g, rfl⟩
  · rintro ⟨i, hi, n, hn', hs, rfl⟩
    obtain ⟨k1, k2, k3⟩ := q5 i hi
    rw [hbase] at k1 k2 k3
    simp only [stateFileNames, List.mem_cons, List.not_mem_nil, or_false] at hn'
    rcases hn' with rfl | rfl | rfl
    · obtain ⟨c, hc⟩ := k1 (hG.2 hs)
      exact List.mem_map.2 ⟨_, hc, rfl⟩
    · obtain ⟨c, hc⟩ := k2 (hP.2 hs)
      exact List.mem_map.2 ⟨_, hc, rfl⟩
    · obtain ⟨c, hc⟩ := k3 (hM.2 hs)
      exact List.mem_map.2 ⟨_, hc, rfl⟩

/-! ## Exceptions -/

theorem rotateAll_ok_iff {env : LatticeEnv} {ac : PAircraft ℝ} {es : List BookEntry}
    {n m : ℤ → Option (V3 ℝ)} (h : ∃ r, rotateAll env ac es n = .ok r) :
    ∃ r, rotateAll env ac es m = .ok r := by
  induction es generalizing n m with
  | nil => exact ⟨m, rfl⟩
  | cons e rest ih =>
    obtain ⟨r, h⟩ := h
    unfold rotateAll rotateEntry at h ⊢
    cases h1 : entryParts env ac e with
    | none => rw [h1] at h; cases h
    | some p =>
      rw [h1] at h
      simp only at h ⊢
      cases h2 : hingeRotation env p e.mirror with
      | error x => rw [h2] at h; cases h
      | ok hinge =>
        cases h3 : subareaVertices p.geo p.strip p.sub.quad e.mirror with
        | error x => rw [h2, h3] at h; cases h
        | ok corners =>
          rw [h2, h3] at h
          simp only at h ⊢
          exact ih ⟨r, h⟩

/-- Whether there is a lattice, and how many panels it has, does not depend on the angles of the free
stream. -/
theorem genLattice_any_angles {env : LatticeEnv} {doRot : Bool} {a b : ℝ} {ac : PAircraft ℝ}
    {l : LatticeData} (h : genLattice env doRot a b ac = .ok l) (a' b' : ℝ) :
    ∃ l', genLattice env doRot a' b' ac = .ok l' ∧ l'.num = l.num := by
  obtain ⟨cs, h1, h2, h3, h4, h5, h6⟩ := genLattice_ok h
  unfold genLattice
  rw [h1]
  simp only [h2, if_neg (not_lt.2 h3)]
  cases doRot with
  | false => exact ⟨_, rfl, rfl⟩
  | true =>
    obtain ⟨r, hr⟩ := rotateAll_ok_iff
      (m := fun k => (lastPanel (vlmLattice (trailLeg a' b') (l.book.inputsOf cs)) k).bind
        PanelPts.finNormal) ⟨_, h6 rfl⟩
    simp only [if_true, hr]
    exact ⟨_, rfl, rfl⟩

/-- All flight states of an accepted file can be read, or none of them. -/
theorem current_all {atm : Atm ℝ} {sd : List (String × Arg ℝ)} (hk : (sd.map Prod.fst).Nodup)
    {st : FlightSt ℝ} (h : updateFromDict atm Store.fresh sd = .ok st) {a : FlowState} {j : ℕ}
    {cur : CurSt ℝ} (h1 : st.current j = .ok cur) (h2 : cur.toFlow = some a) :
    ∀ i < st.num, ∃ cur, st.current i = .ok cur := by
  intro i hi
  obtain ⟨c1, c2, c3, c4, c5, c6, c7⟩ := current_flow h1 h2
  have hl := (accepted_lengths atm sd hk st h).1
  have key : ∀ p ∈ stateAllParams, ∀ x, st.aero.entry p j = .ok x →
      ∃ y, st.aero.entry p i = .ok y := by
    intro p hp x hx
    unfold Store.entry at hx ⊢
    cases hs : st.aero p with
    | none => rw [hs] at hx; cases hx
    | some l =>
      have : i < l.length := by rw [(hl p hp l hs).1]; exact hi
      simp only [List.getElem?_eq_getElem this]
      exact ⟨_, rfl⟩
  obtain ⟨y1, e1⟩ := key _ (by decide) _ c1
  obtain ⟨y2, e2⟩ := key _ (by decide) _ c2
  obtain ⟨y3, e3⟩ := key _ (by decide) _ c3
  obtain ⟨y4, e4⟩ := key _ (by decide) _ c4
  obtain ⟨y5, e5⟩ := key _ (by decide) _ c5
  obtain ⟨y6, e6⟩ := key _ (by decide) _ c6
  obtain ⟨y7, e7⟩ := key _ (by decide) _ c7
  unfold FlightSt.current statePrimaryParams
  simp only [primaryAero, e1, e2, e3, e4, e5, e6, e7]
  exact ⟨_, rfl⟩

/-- **C106**: if the run of a project whose state file has a flight state ends in an exception, then
nothing has been written. -/
theorem C106_exception_no_files (W : World) (hW : Lapack W.dgesv) (P : Project) (d : PyDict)
    (a b : String) (hn : NativeProject W P d a b)
    (hk : ∀ sd, P.state b = some sd → (sd.map Prod.fst).Nodup ∧
      ∀ st, updateFromDict W.atm Store.fresh sd = .ok st → st.num ≠ 0)
    (e : PyErr) (files : Files) (h : runProject W P = .error (.raised e, files)) : files = [] := by
  unfold runProject at h
  cases hx : loadProject W P with
  | error x => rw [hx] at h; cases h; rfl
  | ok x =>
  rw [hx] at h
  simp only at h
  obtain ⟨f, sd, h1, h2, h3, h4, h5, h6⟩ := loaded_reads hn hx
  obtain ⟨hk1, hk2⟩ := hk sd h2
  have h0 := hk2 _ h5
  obtain ⟨k, hk, q1, q2, q3, q4, q5⟩ := C106_stopped_run _ hW _ _ h0 _ files h
  by_cases hz : k = 0
  · subst hz
    refine List.eq_nil_iff_forall_not_mem.2 fun y hy => ?_
    obtain ⟨i, hi, -⟩ := q4 y hy
    omega
  · exfalso
    obtain ⟨ac', hp, an, han⟩ := q1 0 (Nat.pos_of_ne_zero hz)
    obtain ⟨p, hpass, -⟩ := han.pass hW
    refine standardRun_no_raise hW hp h0 (current_all hk1 h5 hpass.cur hpass.flow) ?_ e files h
    intro a' b'
    obtain ⟨l', g1, g2⟩ := genLattice_any_angles han.lattice a' b'
    exact ⟨l', g1, by rw [g2]; exact han.nonempty⟩

/-! ## Examples -/

/-- Example for C105: the project of the flat wing saves nothing, as its settings do not ask for it. -/
example : ∃ out, runProject exampleWorld (exampleProject rectFile) = .ok out ∧ out.files = [] := by
  obtain ⟨out, h⟩ := rect_finishes
  obtain ⟨-, -, st, -, -, -, -, -, -, -, -, -, -, -, -, h1, -⟩ :=
    C105_files_of_project _ exactDgesv_lapack _ _ _ _ (example_native rectFile) out h
  refine ⟨out, h, ?_⟩
  rw [← List.map_eq_nil_iff (f := Prod.fst), List.eq_nil_iff_forall_not_mem]
  intro path hp
  have no : ∀ key, ¬ SaveWanted exampleSettings key := by
    rintro key ⟨g, hg, -⟩
    simp [exampleSettings] at hg
  cases (h1 path).1 hp with
  | state i key name _ _ hs => exact no _ hs
  | map hs => exact no _ hs

/-- The settings of the flat wing, with all results to be saved. -/
def savingSettings : PyDict :=
  exampleSettings ++ [("save_results", .dict [("global", .bool true),
    ("panelwise", .bool true), ("aeroperformance", .bool true), ("matrix_system", .bool true)])]

theorem saving_wanted : ∀ key ∈ ["global", "panelwise", "aeroperformance", "matrix_system"],
    SaveWanted savingSettings key := by
  intro key hk
  refine ⟨_, List.mem_append_right _ (List.mem_singleton.2 rfl), ?_⟩
  simp only [List.mem_cons, List.not_mem_nil, or_false] at hk
  rcases hk with rfl | rfl | rfl | rfl <;> rfl

theorem saving_ok : SettingsFileOk exampleWorld.suffix savingSettings := by
  refine ⟨⟨"plane.json", by simp [savingSettings, exampleSettings], .inl rfl⟩,
    ⟨"cruise.json", by simp [savingSettings, exampleSettings]⟩,
    by simp [IfGiven, savingSettings, exampleSettings],
    by simp [IfGiven, savingSettings, exampleSettings], ?_,
    by simp [IfGiven, savingSettings, exampleSettings],
    by simp [IfGiven, savingSettings, exampleSettings],
    by simp [IfGiven, savingSettings, exampleSettings],
    by simp [IfGiven, savingSettings, exampleSettings]⟩
  intro v hv
  simp [savingSettings, exampleSettings] at hv
  refine ⟨_, hv, ?_⟩
  intro k hk
  simp only [List.mem_cons, List.not_mem_nil, or_false] at hk
  rcases hk with rfl | rfl | rfl | rfl <;> exact ⟨_, rfl, _, rfl⟩

/-- Example for C105: with these settings the run leaves the matrix of the flight state and the map. -/
example : ∃ out, runProject exampleWorld { exampleProject rectFile with
      base := "flat", settings := .dict savingSettings } = .ok out ∧
    (∃ st : FlightSt ℝ, st.num ≠ 0 ∧ ∀ i < st.num,
      ["_results", "flat" ++ "_" ++ fmt03 i, "matrix.dat"] ∈ out.files.map Prod.fst) ∧
    ["_results", "flat" ++ "_aeroperformance.json"] ∈ out.files.map Prod.fst := by
  obtain ⟨out, h⟩ := rect_finishes
  have same := C104_output_settings exampleWorld exactDgesv_lapack _ exampleSettings savingSettings
    "plane.json" "cruise.json" (example_native rectFile) (by simp [savingSettings, exampleSettings])
    (by intro k v h1 h2; simp [savingSettings, exampleSettings, h1]) example_settings saving_ok "flat"
  obtain ⟨out', h'⟩ := same.finish.1 ⟨out, h⟩
  have hn : NativeProject exampleWorld { exampleProject rectFile with
      base := "flat", settings := .dict savingSettings } savingSettings "plane.json" "cruise.json" :=
    ⟨rfl, by simp [savingSettings, exampleSettings], by simp [savingSettings, exampleSettings], rfl,
      by simp [savingSettings, exampleSettings], (example_native rectFile).notCpacs⟩
  obtain ⟨-, -, st, -, -, -, -, -, -, -, -, h0, -, -, -, h1, -⟩ :=
    C105_files_of_project _ exactDgesv_lapack _ _ _ _ hn out' h'
  refine ⟨out', h', ?_, ?_⟩
  · exact ⟨st, h0, fun i hi => (h1 _).2 (.state i "matrix_system" "matrix.dat" hi
        (by simp [stateFileNames]) (saving_wanted _ (by simp)))⟩
  · exact (h1 _).2 (.map (saving_wanted _ (by simp)))

/-- Three flight states, the last of which has no airspeed that is a finite number. -/
noncomputable def brokenStates : FlightSt ℝ :=
  ⟨fun p => if p = "airspeed" then some [.num (.fin 10), .num (.fin 20), .num .nonfin]
    else if p = "alpha" then some [.num (.fin 0), .num (.fin 5), .num (.fin 5)]
    else if p = "density" then some [.num (.fin 1), .num (.fin 1), .num (.fin 1)]
    else some [.num (.fin 0), .num (.fin 0), .num (.fin 0)], 3⟩

/-- Example for C106: the run stops at the third state, the files of the first two are there. -/
example : ∃ stop files, standardRun exampleEnv onePanelAc brokenStates = .error (stop, files) ∧
    (∃ c, (stateDir "example" 1 ++ ["panelwise.dat"], c) ∈ files) ∧
    ∀ c, (stateDir "example" 2 ++ ["panelwise.dat"], c) ∉ files := by
  have hp : Panelled exampleEnv onePanelAc onePanelAc :=
    ⟨onePanelAc, plain_autopanels, plainAc_panelled⟩
  have h2 : ¬ Analysable exampleEnv onePanelAc brokenStates 2 := by
    rintro ⟨ac', -, a, ha⟩
    have h1 := ha.airspeed
    have h2 : brokenStates.aero.entry "airspeed" 2 = .ok .nonfin := rfl
    rw [h2] at h1
    cases h1
  have h01 : ∀ i < 2, Analysable exampleEnv onePanelAc brokenStates i := by
    intro i hi
    have : ∃ cur s, brokenStates.current i = .ok cur ∧ cur.toFlow = some s ∧ s.beta = 0 := by
      obtain rfl | rfl : i = 0 ∨ i = 1 := by omega
      · exact ⟨_, ⟨10, 1, 0, 0, 0, 0, 0⟩, rfl, rfl, rfl⟩
      · exact ⟨_, ⟨20, 1, 5, 0, 0, 0, 0⟩, rfl, rfl, rfl⟩
    obtain ⟨cur, s, c1, c2, c3⟩ := this
    obtain ⟨l, v, hv⟩ := plain_analyse s c3
    have : Pass.Of exampleEnv onePanelAc brokenStates i ⟨cur, s, l, v⟩ := ⟨c1, c2, hv⟩
    obtain ⟨a, ha, -⟩ := this.analysis exactDgesv_lapack
    exact ⟨onePanelAc, hp, a, ha⟩
  cases h : standardRun exampleEnv onePanelAc brokenStates with
  | ok out =>
    obtain ⟨-, ac', h3, h4⟩ := (C93_finishes_iff exampleEnv exactDgesv_lapack _ _).1 ⟨out, h⟩
    exact absurd ⟨ac', h3, h4 2 (by simp [brokenStates])⟩ h2
  | error e =>
    obtain ⟨stop, files⟩ := e
    obtain ⟨k, hk, q1, q2, -, q4, q5⟩ := C106_stopped_run exampleEnv exactDgesv_lapack _ _
      (by simp [brokenStates]) stop files h
    have hk2 : k = 2 := by
      have : k < 3 := hk
      by_contra hne
      exact q2 (h01 k (by omega))
    subst hk2
    refine ⟨stop, files, rfl, (q5 1 (by omega)).2.1 rfl, ?_⟩
    intro c hc
    obtain ⟨i, hi, -, -, name, -, -, e, -⟩ := q4 _ hc
    have : (2 : ℕ) = i := stateDir_injective (List.append_inj e rfl).1
    omega

/-- A flight state without rotation rates. -/
noncomputable def ratelessState : List (String × Arg ℝ) :=
  [("airspeed", .scalar (.num (.fin 10))), ("density", .scalar (.num (.fin 1))),
   ("alpha", .scalar (.num (.fin 5))), ("beta", .scalar (.num (.fin 0)))]

theorem rateless_nodup : (ratelessState.map Prod.fst).Nodup := by
  show ["airspeed", "density", "alpha", "beta"].Nodup
  decide

theorem rateless_acceptable (atm : Atm ℝ) : Acceptable atm ratelessState := by
  have notGiven : ∀ p, p ∉ ["airspeed", "density", "alpha", "beta"] → ¬ Given ratelessState p := by
    rintro p hp ⟨a, ha, -⟩
    apply hp
    exact List.mem_map_of_mem (f := Prod.fst) ha
  refine ⟨⟨1, ?_⟩, Or.inl ⟨⟨.scalar (.num (.fin 10)), by simp [ratelessState], ?_⟩,
    ⟨.scalar (.num (.fin 1)), by simp [ratelessState], ?_⟩, notGiven _ (by decide),
    notGiven _ (by decide)⟩, ?_, fun g => absurd g (notGiven _ (by decide)),
    ⟨_, by simp [ratelessState]; rfl⟩, ⟨_, by simp [ratelessState]; rfl⟩⟩
  · intro x hx
    simp only [ratelessState, List.mem_cons, List.not_mem_nil, or_false] at hx
    rcases hx with rfl | rfl | rfl | rfl <;> rfl
  · simp [Arg.toList, Val.isNum]
  · simp [Arg.toList, Val.isNum]
  · intro p _ a ha v hv
    simp only [ratelessState, List.mem_cons, List.not_mem_nil, or_false, Prod.mk.injEq] at ha
    rcases ha with ⟨-, rfl⟩ | ⟨-, rfl⟩ | ⟨-, rfl⟩ | ⟨-, rfl⟩ <;>
    · simp only [Arg.toList, List.mem_singleton] at hv
      subst hv
      exact trivial

/-- Example for C106: without rotation rates the project can be loaded, but its run ends in an
exception, and nothing is written. -/
example : (∃ x, loadProject exampleWorld { exampleProject rectFile with
      state := fun _ => some ratelessState } = .ok x) ∧
    ∃ e, runProject exampleWorld { exampleProject rectFile with
      state := fun _ => some ratelessState } = .error (.raised e, []) := by
  obtain ⟨x, hx, -, -, -⟩ := (example_ok rectFile_ok rectFile_layout
    ⟨_, List.mem_singleton.2 rfl, by simp⟩).load
  have hn : NativeProject exampleWorld { exampleProject rectFile with
      state := fun _ => some ratelessState } exampleSettings "plane.json" "cruise.json" :=
    ⟨rfl, (example_native rectFile).keys, (example_native rectFile).aircraft, rfl,
      (example_native rectFile).state, (example_native rectFile).notCpacs⟩
  obtain ⟨st, hst⟩ := (C41_accepted_iff exampleWorld.atm _ rateless_nodup).2
    (rateless_acceptable exampleWorld.atm)
  have hnum : ∀ st, updateFromDict exampleWorld.atm Store.fresh ratelessState = .ok st →
      st.num = 1 := fun st h =>
    (((accepted angle_limits exampleWorld.atm _ rateless_nodup).2 st h).1 _
      (List.mem_cons_self ..)).symm
  obtain ⟨s, hs⟩ := (C98_accepted_iff exampleWorld.suffix _ hn.keys).2 example_settings
  obtain ⟨-, -, -, -, e1⟩ := loadProject_native (example_native rectFile) hs
  obtain ⟨-, -, -, -, e2⟩ := loadProject_native hn hs
  have hload : ∃ x', loadProject exampleWorld { exampleProject rectFile with
      state := fun _ => some ratelessState } = .ok x' ∧ x'.state = st := by
    rw [hx] at e1
    rw [e2]
    have ha : (exampleProject rectFile).aircraft "plane.json" = some rectFile := rfl
    have hb : (exampleProject rectFile).state "cruise.json" = some (oneState 10 1 5 0) := rfl
    rw [ha] at e1
    simp only [ha] at e1 ⊢
    cases h3 : loadAircraft (exampleProject rectFile).root exampleWorld.airfoilOk rectFile with
    | error e => rw [h3] at e1; cases e1
    | ok ac =>
      rw [h3, hb] at e1
      simp only at e1
      simp only [hst]
      cases h4 : updateFromDict exampleWorld.atm Store.fresh (oneState (K := ℝ) 10 1 5 0) with
      | error e => rw [h4] at e1; cases e1
      | ok st0 =>
        rw [h4] at e1
        simp only at e1
        cases h5 : loadDeformationFrom (exampleProject rectFile) s ac with
        | error e => rw [h5] at e1; cases e1
        | ok defs =>
          refine ⟨⟨s, false, ac, st, defs⟩, ?_, rfl⟩
          have : loadDeformationFrom { exampleProject rectFile with
            state := fun _ => some ratelessState } s ac = .ok defs := h5
          rw [this]
  obtain ⟨x', hx', hstate⟩ := hload
  refine ⟨⟨x', hx'⟩, ?_⟩
  have hraise : ∃ e files, runProject exampleWorld { exampleProject rectFile with
      state := fun _ => some ratelessState } = .error (.raised e, files) := by
    unfold runProject
    rw [hx']
    simp only
    unfold standardRun
    cases h1 : setAutopanels (x'.env exampleWorld { exampleProject rectFile with
      state := fun _ => some ratelessState }).autoC (x'.env exampleWorld { exampleProject rectFile with
      state := fun _ => some ratelessState }).autoS x'.aircraft.toP with
    | error e => exact ⟨e, _, rfl⟩
    | ok ac1 =>
      have hcur : st.current 0 = .error .typeError := by
        have := C44_missing_rate exampleWorld.atm _ rateless_nodup st hst
          (by rw [hnum st hst]; decide) "rate_P" (by simp) (by simp [ratelessState])
        unfold FlightSt.iterStates at this
        rw [hnum st hst] at this
        simp only [List.range_one, mapE] at this
        cases hc : st.current 0 with
        | error e => rw [hc] at this; cases this; rfl
        | ok c => rw [hc] at this; cases this
      simp only [hstate, hnum st hst]
      unfold runLoop runStep
      rw [hcur]
      exact ⟨_, _, rfl⟩
  obtain ⟨e, files, h⟩ := hraise
  refine ⟨e, ?_⟩
  rw [h, C106_exception_no_files _ exactDgesv_lapack _ _ _ _ hn ?_ e files h]
  intro sd hsd
  cases hsd
  refine ⟨rateless_nodup, fun st' h' => ?_⟩
  rw [hnum st' h']
  decide

end Verif
