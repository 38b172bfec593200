import Verif.Model.Program
import Verif.Props.Accept
import Verif.Props.AircraftAccept
import Verif.Props.RunFinish
import Verif.Props.SettingsFile
import Verif.Props.FileIO
import Verif.Props.State

/-!
# Lemmas about whole runs of the program
-/

namespace Verif

/-! ## No exception in the loop -/

theorem analyse_no_raise {env : RunEnv} {ac : PAircraft ℝ} {s : FlowState}
    (hl : ∃ l, genLattice env.lat env.doRot s.alpha s.beta ac = .ok l ∧ l.num ≠ 0) :
    ∀ e, analyse env ac s VlmData.fresh ≠ .error (.raised e) := by
  obtain ⟨l, h1, h2⟩ := hl
  intro e
  rw [analyse_eq env ac s VlmData.fresh_wf, h1]
  simp only
  cases l.panels with
  | none => simp
  | some P =>
    simp only
    cases vlmDownwash env.eps P with
    | none => simp
    | some A =>
      simp only [if_neg h2]
      cases vlmResults env.eps s env.refs P (gammaOf env A (vlmBoundary s env.refs P)) with
      | none => simp
      | some R => simp

theorem runStep_no_raise {env : RunEnv} (hd : Lapack env.dgesv) {st : FlightSt ℝ} {i : ℕ}
    {x : LoopSt} (hv : x.vlm.WF) (ht : x.table.Full) {ac : PAircraft ℝ}
    (hac : prePanelFirst i x.ac = .ok ac) (hc : ∃ cur, st.current i = .ok cur)
    (hl : ∀ a b, ∃ l, genLattice env.lat env.doRot a b ac = .ok l ∧ l.num ≠ 0) :
    ∀ e, runStep env st i x ≠ .error (.raised e) := by
  intro e
  obtain ⟨cur, hcur⟩ := hc
  unfold runStep
  rw [hcur, hac]
  simp only [orStop]
  cases h3 : cur.toFlow with
  | none => simp
  | some s =>
    simp only [analyse_indep env ac s hv]
    cases h4 : analyse env ac s VlmData.fresh with
    | error e' =>
      simp only
      intro h
      cases h
      exact analyse_no_raise (hl _ _) e h4
    | ok r =>
      obtain ⟨l, v⟩ := r
      simp only
      obtain ⟨fs, hfs⟩ := saveAll_total hd (p := ⟨cur, s, l, v⟩) (i := i) (st := st) (ac := ac)
        ⟨hcur, h3, h4⟩
      simp only at hfs
      obtain ⟨t1, h6, h7⟩ := append_row (analyse_wf h4) ht
      simp only [hfs, h6, h7]
      simp

theorem runLoop_no_raise {env : RunEnv} (hd : Lapack env.dgesv) {st : FlightSt ℝ}
    {ac : PAircraft ℝ} (hl : ∀ a b, ∃ l, genLattice env.lat env.doRot a b ac = .ok l ∧ l.num ≠ 0) :
    ∀ {k i : ℕ} {x : LoopSt}, x.vlm.WF → x.table.Full →
    (0 < k → prePanelFirst i x.ac = .ok ac) → (∀ j, i ≤ j → j < i + k → ∃ cur, st.current j = .ok cur) →
    ∀ e fs, runLoop env st k i x ≠ .error (.raised e, fs) := by
  intro k
  induction k with
  | zero => intro i x _ _ _ _ e fs h; cases h
  | succ k ih =>
    intro i x hv ht hac hc e fs h
    unfold runLoop at h
    cases h1 : runStep env st i x with
    | error e' =>
      rw [h1] at h
      cases h
      exact runStep_no_raise hd hv ht (hac (Nat.succ_pos k)) (hc i le_rfl (by omega)) hl e h1
    | ok y =>
      rw [h1] at h
      simp only at h
      obtain ⟨ac', p, fs', a1, a2, a3, rfl⟩ := runStep_ok hv ht h1
      rw [hac (Nat.succ_pos k)] at a1
      cases a1
      exact ih (analyse_wf a2.result) (append_full ht p.v) (fun _ => prePanelFirst_succ i ac)
        (fun j h1 h2 => hc j (by omega) (by omega)) e fs h

/-- A run with at least one state, an aircraft that can be panelled and has a lattice with panels
raises no exception. -/
theorem standardRun_no_raise {env : RunEnv} (hd : Lapack env.dgesv) {ac ac' : PAircraft ℝ}
    {st : FlightSt ℝ} (hp : Panelled env ac ac') (h0 : st.num ≠ 0)
    (hc : ∀ i < st.num, ∃ cur, st.current i = .ok cur)
    (hl : ∀ a b, ∃ l, genLattice env.lat env.doRot a b ac' = .ok l ∧ l.num ≠ 0) :
    ∀ e fs, standardRun env ac st ≠ .error (.raised e, fs) := by
  intro e fs h
  obtain ⟨ac1, h1, h2⟩ := hp
  have hpre : prePanelFirst 0 ac1 = .ok ac' := by
    unfold prePanelFirst
    rw [if_pos rfl]
    exact h2
  unfold standardRun at h
  rw [h1] at h
  simp only at h
  cases h3 : runLoop env st st.num 0 ⟨ac1, VlmData.fresh, Table.fresh, [], none⟩ with
  | error e' =>
    rw [h3] at h
    cases h
    exact runLoop_no_raise hd hl VlmData.fresh_wf Table.fresh_full (fun _ => hpre)
      (fun j _ hj => hc j (by omega)) e fs h3
  | ok x =>
    rw [h3] at h
    simp only at h
    obtain ⟨ps, gs, b1, b2, b3, b4, b5, b6⟩ := runLoop_ok (ac := ac') VlmData.fresh_wf
      Table.fresh_full (fun _ => hpre) h3
    have hfull : x.table.Full := by
      rw [b4]
      intro k
      rw [← Table.fresh_full k]
      simp
    obtain ⟨cs, hcs⟩ := cpacs_never_fails hfull env
    rw [hcs] at h
    simp only at h
    cases hps : ps.getLast? with
    | none =>
      rw [List.getLast?_eq_none_iff] at hps
      subst hps
      exact h0 b2.symm
    | some p =>
      rw [hps] at b5
      simp only [Option.map_some, Option.some_or] at b5
      rw [b5] at h
      cases h

/-! ## The lattice -/

/-- An aircraft with a segment, panelled, has panels. -/
theorem lattice_nonempty {ac ac' : PAircraft ℝ} (hu : ac.Unpanelled)
    (h : prePanelling ac = .ok ac') (hn : ac.NumC 1) {env : LatticeEnv} {doRot : Bool}
    {alpha beta : ℝ} {l : LatticeData} (hl : genLattice env doRot alpha beta ac' = .ok l)
    (hs : ∃ w ∈ ac.wings, w.segments ≠ []) : l.num ≠ 0 := by
  obtain ⟨b, gs, hb, g1, g2, g3, -, -, g6, -, -⟩ := genBook_facts hu h (by norm_num) hn
  have hbook : l.book = b := by
    unfold genLattice at hl
    rw [hb] at hl
    simp only at hl
    split at hl
    · cases hl
    · split_ifs at hl
      · split at hl
        · cases hl
        · cases hl; rfl
      · cases hl; rfl
  have hsub : ∃ t, t ∈ allSubareas ac' := by
    obtain ⟨w, hw, hne⟩ := hs
    obtain ⟨w', hw', hww⟩ := forall₂_mem_left (prePanelling_step h) hw
    obtain ⟨s, hsm⟩ := List.exists_mem_of_ne_nil _ hne
    obtain ⟨s', hs', -⟩ := forall₂_mem_left hww.segs hsm
    obtain ⟨i, ⟨p, hp, -⟩, -⟩ := (C01_aircraft_strips_tile ac ac' hu h w' hw' s' hs').cover 0 le_rfl
      zero_lt_one
    rw [List.getElem?_map] at hp
    obtain ⟨d, hd, -⟩ := Option.map_eq_some_iff.1 hp
    obtain ⟨m, hm⟩ := List.mem_iff_getElem?.1 hw'
    obtain ⟨k, hk⟩ := List.mem_iff_getElem?.1 hs'
    exact ⟨((0, ⟨"segment", d.main, none⟩), (i, d), (k, s'), (m, w')),
      ((C60_all_subareas ac').1 m k i 0 w' s' d _).2 ⟨hm, hk, hd, rfl⟩⟩
  obtain ⟨t, ht⟩ := hsub
  obtain ⟨g, hg, e, -, -, -, -, he⟩ := forall₂_mem_left g1 ht
  have hmem : e ∈ b.entries := by
    rw [← g2, List.mem_flatten]
    refine ⟨g, hg, ?_⟩
    rcases he with ⟨-, rfl⟩ | ⟨-, e', rfl, -⟩ <;> simp
  obtain ⟨-, hst⟩ := g3.bounds fun e he => (g6 e he).1
  obtain ⟨-, -, hstop, -⟩ := g3.ranges fun e he => (g6 e he).1
  have h1 := hst e hmem
  have h2 := hstop e hmem
  have h3 := (g6 e hmem).2 le_rfl
  unfold LatticeData.num
  rw [hbook]
  omega

/-- `set_autopanels` changes numbers of panels only. -/
theorem setAutopanels_rest {ac ac' : PAircraft ℝ} {apC apS : ℤ}
    (h : setAutopanels apC apS ac = .ok ac') : List.Forall₂ (fun w w' : PWing ℝ =>
      w'.symmetry = w.symmetry ∧ w'.uid = w.uid ∧
      w'.controls = w.controls.map (PControl.setAutopanels apC) ∧
      List.Forall₂ (fun s s' : PSegment ℝ => s' = { s with numC := s'.numC, numS := s'.numS })
        w.segments w'.segments) ac.wings ac'.wings := by
  unfold setAutopanels at h
  split at h
  · cases h
  · rename_i ws hws
    cases h
    refine (mapE_ok hws).imp ?_
    intro w w' hw
    unfold PWing.setAutopanels at hw
    split at hw
    · cases hw
    · rename_i segs hsegs
      cases hw
      refine ⟨rfl, rfl, rfl, (mapE_ok hsegs).imp ?_⟩
      intro s s' hss
      unfold PSegment.setAutopanels spanRatio at hss
      dsimp only at hss
      split_ifs at hss <;> simp only [Except.ok.injEq] at hss <;> subst hss <;> rfl

end Verif
