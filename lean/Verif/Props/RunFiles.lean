import Verif.Props.Run

/-!
# Properties C80 and C81: what a run returns and which files it writes
-/

namespace Verif

open V3

/-! ## Specification -/

/-- The flow parameters as in `global.json`. -/
def Analysis.aeroItems (a : Analysis) : List (String × Flt ℝ) :=
  [("airspeed", .fin a.s.airspeed), ("alpha", .fin a.s.alpha), ("beta", .fin a.s.beta),
   ("density", .fin a.s.rho), ("rate_P", .fin a.s.p), ("rate_Q", .fin a.s.q),
   ("rate_R", .fin a.s.r)]

/-- Global forces and moments. -/
def Analysis.loads (a : Analysis) : List (String × Flt ℝ) :=
  [("x", .fin a.R.ftot.x), ("y", .fin a.R.ftot.y), ("z", .fin a.R.ftot.z),
   ("D", .fin a.R.wind.x), ("C", .fin a.R.wind.y), ("L", .fin a.R.wind.z),
   ("l", .fin a.R.mtot.x), ("m", .fin a.R.mtot.y), ("n", .fin a.R.mtot.z)]

/-- Global coefficients. -/
def Analysis.coefficients (a : Analysis) : List (String × Flt ℝ) :=
  [("x", asFlt a.R.coeffs.cx), ("y", asFlt a.R.coeffs.cy), ("z", asFlt a.R.coeffs.cz),
   ("D", asFlt a.R.coeffs.cD), ("C", asFlt a.R.coeffs.cC), ("L", asFlt a.R.coeffs.cL),
   ("l", asFlt a.R.coeffs.cl), ("m", asFlt a.R.coeffs.cm), ("n", asFlt a.R.coeffs.cn)]

/-- A dictionary consists of these items. -/
def FltDict.IsItems (d : FltDict) (items : List (String × Flt ℝ)) : Prop :=
  (∀ p ∈ items, d p.1 = some p.2) ∧ ∀ k, k ∉ items.map Prod.fst → d k = none

/-- The row of a panel in `panelwise.dat`. -/
def Analysis.panelRow (a : Analysis) (k : Fin a.l.num) : List (Flt ℝ) :=
  [.fin (a.g k), .fin (a.R.iw k).x, .fin (a.R.iw k).y, .fin (a.R.iw k).z, .fin (a.R.iwMag k),
   .fin (a.R.f k).x, .fin (a.R.f k).y, .fin (a.R.f k).z, .fin (a.R.fMag k), asFlt (a.R.cp k)]

/-- The result object holds the results of an analysis. -/
structure VlmData.Holds (env : RunEnv) (v : VlmData) (a : Analysis) : Prop where
  matrix : v.matrix = some (List.ofFn fun i => List.ofFn fun j => a.A i j)
  rhs : v.rhs = some (List.ofFn (vlmBoundary a.s env.refs a.P))
  forces : v.forces.IsItems a.loads
  coeffs : v.coeffs.IsItems a.coefficients
  gamma : v.panelwise "gamma" = some (List.ofFn fun k => .fin (a.g k))
  vx : v.panelwise "vx" = some (List.ofFn fun k => .fin (a.R.iw k).x)
  vy : v.panelwise "vy" = some (List.ofFn fun k => .fin (a.R.iw k).y)
  vz : v.panelwise "vz" = some (List.ofFn fun k => .fin (a.R.iw k).z)
  vmag : v.panelwise "vmag" = some (List.ofFn fun k => .fin (a.R.iwMag k))
  fx : v.panelwise "fx" = some (List.ofFn fun k => .fin (a.R.f k).x)
  fy : v.panelwise "fy" = some (List.ofFn fun k => .fin (a.R.f k).y)
  fz : v.panelwise "fz" = some (List.ofFn fun k => .fin (a.R.f k).z)
  fmag : v.panelwise "fmag" = some (List.ofFn fun k => .fin (a.R.fMag k))
  cp : v.panelwise "cp" = some (List.ofFn fun k => asFlt (a.R.cp k))

/-- A file of flight state `i` of a run: name and content. -/
inductive StateFile (env : RunEnv) (i : ℕ) (a : Analysis) : String → FileContent → Prop
  | global {aero forces coeffs : FltDict} : env.saveGlobal = true → aero.IsItems a.aeroItems →
      forces.IsItems a.loads → coeffs.IsItems a.coefficients →
      StateFile env i a "global.json" (.global aero env.refs forces coeffs)
  | panelwise : env.savePanelwise = true →
      StateFile env i a "panelwise.dat" (.panelwise (List.ofFn a.panelRow))
  | matrix : env.saveMatrix = true →
      StateFile env i a "matrix.dat" (.matrix (List.ofFn fun k =>
        (List.ofFn fun j => a.A k j) ++ [vlmBoundary a.s env.refs a.P k]))

/-- A map of all flight states: path and content. -/
inductive MapFile (env : RunEnv) (st : FlightSt ℝ) (as : List Analysis) :
    FilePath → FileContent → Prop
  | native {m : String → Option (List (Flt ℝ))} : env.saveAero = true →
      (∀ c ∈ runColumns, m c.1 = some (as.map c.2)) →
      (∀ p ∈ stateAllParams, ∀ l, st.aero p = some l → m p = some (l.map Val.flt)) →
      (∀ p ∈ stateAllParams, st.aero p = none → m p = some []) →
      (∀ k ∉ stateAllParams, st.aero k = none → (∀ c ∈ runColumns, c.1 ≠ k) → m k = none) →
      MapFile env st as ["_results", env.base ++ "_aeroperformance.json"] (.aeroMap m)
  | cpacs {m : List (String × List (Flt ℝ))} : env.cpacsAircraft = true → env.cpacsState = true →
      m = [("cl", as.map fun a => asFlt a.R.coeffs.cL), ("cd", as.map fun a => asFlt a.R.coeffs.cD),
        ("cs", as.map fun a => asFlt a.R.coeffs.cC), ("cmd", as.map fun a => asFlt a.R.coeffs.cl),
        ("cms", as.map fun a => asFlt a.R.coeffs.cm),
        ("cml", as.map fun a => asFlt a.R.coeffs.cn)] →
      MapFile env st as ["aircraft"] (.cpacsMap m)

/-- The directory of flight state `i`: at least three digits. -/
def stateDir (base : String) (i : ℕ) : FilePath := ["_results", base ++ "_" ++ fmt03 i]

/-! ## Proofs -/

theorem PassSpec.holds {env : RunEnv} {p : Pass} {a : Analysis} (h : PassSpec env p a) :
    p.v.Holds env a := by
  rw [h.2.2]
  refine ⟨rfl, rfl, ⟨?_, fun k hk => lookup_notMem hk⟩, ⟨?_, fun k hk => lookup_notMem hk⟩, ?_, rfl,
    rfl, rfl, rfl, rfl, rfl, rfl, rfl, rfl⟩
  · intro q hq
    simp only [Analysis.loads, List.mem_cons, List.not_mem_nil, or_false] at hq
    rcases hq with rfl | rfl | rfl | rfl | rfl | rfl | rfl | rfl | rfl <;> rfl
  · intro q hq
    simp only [Analysis.coefficients, List.mem_cons, List.not_mem_nil, or_false] at hq
    rcases hq with rfl | rfl | rfl | rfl | rfl | rfl | rfl | rfl | rfl <;> rfl
  · show some _ = some _
    rw [List.map_ofFn]
    rfl

/-- **C80**: lattice and detailed results returned by a run are those of the last flight state. -/
theorem C80_returned_data_is_last_state (env : RunEnv) (hd : Lapack env.dgesv) (ac : PAircraft ℝ)
    (st : FlightSt ℝ) (out : RunOut) (h : standardRun env ac st = .ok out) :
    ∃ ac' a, Panelled env ac ac' ∧ a.Of env ac' st (st.num - 1) ∧ out.lattice = a.l ∧
      out.vlm.Holds env a := by
  obtain ⟨ac', ps, fs, cs, p, h1, h2, h3, h4, h5, h6, -, -, -⟩ := standardRun_ok h
  obtain ⟨as, q1, q2⟩ := h2.analyses hd
  obtain ⟨a, ha, hs⟩ := forall₂_getLast q1 h4
  rw [List.getLast?_eq_getElem?, ← q1.length_eq, h3] at ha
  have := q2 _ a ha
  rw [Nat.zero_add] at this
  exact ⟨ac', a, h1, this, h5.trans hs.1.symm, h6 ▸ hs.holds⟩

theorem current_aero {st : FlightSt ℝ} {i : ℕ} {cur : CurSt ℝ} {s : FlowState}
    (hc : st.current i = .ok cur) (hs : cur.toFlow = some s) :
    FltDict.IsItems cur.aero
      [("airspeed", .fin s.airspeed), ("alpha", .fin s.alpha), ("beta", .fin s.beta),
       ("density", .fin s.rho), ("rate_P", .fin s.p), ("rate_Q", .fin s.q),
       ("rate_R", .fin s.r)] := by
  obtain ⟨e1, e2, e3, e4, e5, e6, e7⟩ := current_flow hc hs
  unfold FlightSt.current at hc
  cases hp : primaryAero st.aero i statePrimaryParams (fun _ => none) with
  | error e => rw [hp] at hc; cases hc
  | ok aero =>
    rw [hp] at hc
    have ha : cur.aero = aero := by
      simp only [e1, e3, e4] at hc
      cases hc
      rfl
    obtain ⟨h1, h2⟩ := primaryAero_entries (by decide) hp
    rw [ha]
    have get : ∀ p x, p ∈ statePrimaryParams → st.aero.entry p i = .ok x → aero p = some x := by
      intro p x hp hx
      obtain ⟨f, f1, f2⟩ := h1 p hp
      rw [hx] at f1
      cases f1
      exact f2
    refine ⟨?_, ?_⟩
    · intro q hq
      simp only [List.mem_cons, List.not_mem_nil, or_false] at hq
      rcases hq with rfl | rfl | rfl | rfl | rfl | rfl | rfl
      · exact get _ _ (by simp [statePrimaryParams]) e1
      · exact get _ _ (by simp [statePrimaryParams]) e3
      · exact get _ _ (by simp [statePrimaryParams]) e4
      · exact get _ _ (by simp [statePrimaryParams]) e2
      · exact get _ _ (by simp [statePrimaryParams]) e5
      · exact get _ _ (by simp [statePrimaryParams]) e6
      · exact get _ _ (by simp [statePrimaryParams]) e7
    · intro k hk
      exact h2 k hk

theorem ofFn_eq_range {α : Type*} {n : ℕ} (f : Fin n → α) (g : ℕ → α)
    (h : ∀ i : Fin n, g i = f i) : (List.range n).map g = List.ofFn f := by
  apply List.ext_getElem
  · simp
  · intro i h1 h2
    simp only [List.getElem_map, List.getElem_range, List.getElem_ofFn]
    exact h ⟨i, by simpa using h1⟩

theorem getD_ofFn {α : Type*} {n : ℕ} (f : Fin n → α) (i : Fin n) (d : α) :
    (List.ofFn f).getD i d = f i := by
  rw [List.getD_eq_getElem?_getD, List.getElem?_ofFn]
  simp

theorem Holds.panelwise {env : RunEnv} {v : VlmData} {a : Analysis} (h : v.Holds env a) :
    savePanelwise v = .ok (.panelwise (List.ofFn a.panelRow)) := by
  unfold savePanelwise panelwiseColumns panelwiseKeys
  simp only [mapE, h.gamma, h.vx, h.vy, h.vz, h.vmag, h.fx, h.fy, h.fz, h.fmag, h.cp, stackColumns,
    List.all_cons, List.all_nil, List.length_ofFn, decide_true, Bool.and_self, if_true]
  congr 2
  apply ofFn_eq_range
  intro i
  simp only [List.map_cons, List.map_nil, getD_ofFn]
  rfl

theorem Holds.matrix {env : RunEnv} {v : VlmData} {a : Analysis} (h : v.Holds env a) :
    saveMatrix v = .ok (.matrix (List.ofFn fun k =>
        (List.ofFn fun j => a.A k j) ++ [vlmBoundary a.s env.refs a.P k])) := by
  unfold saveMatrix
  simp only [h.matrix, h.rhs, List.length_ofFn, if_true]
  congr 2
  apply List.ext_getElem
  · simp
  · intro i h1 h2
    simp

theorem saveAll_spec {env : RunEnv} {i : ℕ} {p : Pass} {a : Analysis} {fs : Files}
    (hc : FltDict.IsItems p.cur.aero a.aeroItems) (hv : p.v.Holds env a)
    (h : saveAll env i p.cur p.v = .ok fs) :
    (fs.map Prod.fst).Nodup ∧
    (∀ f ∈ fs, ∃ name, f.1 = stateDir env.base i ++ [name] ∧ StateFile env i a name f.2) ∧
    (env.saveGlobal = true → ∃ c, (stateDir env.base i ++ ["global.json"], c) ∈ fs) ∧
    (env.savePanelwise = true → ∃ c, (stateDir env.base i ++ ["panelwise.dat"], c) ∈ fs) ∧
    (env.saveMatrix = true → ∃ c, (stateDir env.base i ++ ["matrix.dat"], c) ∈ fs) := by
  have g : env.saveGlobal = true → StateFile env i a "global.json"
      (.global p.cur.aero env.refs p.v.forces p.v.coeffs) :=
    fun hf => .global hf hc hv.forces hv.coeffs
  unfold saveAll at h
  rw [Holds.panelwise hv, Holds.matrix hv] at h
  unfold saveIf at h
  cases h1 : env.saveGlobal <;> cases h2 : env.savePanelwise <;> cases h3 : env.saveMatrix <;>
    simp only [h1, h2, h3, if_true, Bool.false_eq_true, if_false, List.append_nil, List.nil_append,
      List.cons_append, Except.ok.injEq] at h <;>
    subst h <;>
    refine ⟨?_, ?_, ?_, ?_, ?_⟩ <;>
    simp only [stateDir, resultsDir, List.mem_cons, List.not_mem_nil, or_false, List.map_cons,
      List.map_nil, List.cons_append, List.nil_append, forall_eq_or_imp, forall_eq, false_imp_iff,
      implies_true, List.nodup_nil, List.nodup_cons, not_false_eq_true, and_self, and_true,
      List.cons.injEq, true_and, String.reduceEq, Prod.mk.injEq, exists_eq_left',
      Bool.false_eq_true, false_or, exists_eq, false_and] <;>
    first
      | exact g h1
      | exact .panelwise h2
      | exact .matrix h3
      | exact ⟨g h1, .panelwise h2⟩
      | exact ⟨g h1, .matrix h3⟩
      | exact ⟨.panelwise h2, .matrix h3⟩
      | exact ⟨g h1, .panelwise h2, .matrix h3⟩

theorem digitChar_val : ∀ d < 10, (Nat.digitChar d).toNat - 48 = d := by decide

theorem fmt03_injective {i j : ℕ} (h : fmt03 i = fmt03 j) : i = j := by
  have key : ∀ n, Nat.ofDigits 10 ((fmt03 n).toList.reverse.map fun c => c.toNat - 48) = n := by
    intro n
    unfold fmt03
    have hd : ((Nat.digits 10 n).map Nat.digitChar).map (fun c => c.toNat - 48) =
        Nat.digits 10 n := by
      rw [List.map_map]
      conv_rhs => rw [← List.map_id (Nat.digits 10 n)]
      apply List.map_congr_left
      intro d hd
      exact digitChar_val d (Nat.digits_lt_base (by norm_num) hd)
    rw [String.toList_ofList, List.reverse_append, List.reverse_reverse, List.map_append, hd,
      List.reverse_replicate, List.map_replicate, Nat.ofDigits_append, Nat.ofDigits_digits]
    have : Nat.ofDigits 10 (List.replicate (3 - (Nat.digits 10 n).length) (Char.toNat '0' - 48)) =
        0 := by
      generalize 3 - (Nat.digits 10 n).length = m
      induction m with
      | zero => rfl
      | succ m ih =>
        rw [List.replicate_succ, Nat.ofDigits_cons, ih]
        rfl
    rw [this]
    simp
  rw [← key i, ← key j, h]

theorem string_append_cancel {a b c : String} (h : a ++ b = a ++ c) : b = c := by
  have := congrArg String.toList h
  rw [String.toList_append, String.toList_append] at this
  exact String.toList_injective (List.append_cancel_left this)

theorem stateDir_injective {base : String} {i j : ℕ} (h : stateDir base i = stateDir base j) :
    i = j := by
  unfold stateDir at h
  simp only [List.cons.injEq, true_and, and_true] at h
  exact fmt03_injective (string_append_cancel h)

/-- Two analyses hold the same data in a file. -/
theorem Passes.files {env : RunEnv} (hd : Lapack env.dgesv) {ac : PAircraft ℝ}
    {st : FlightSt ℝ} {i : ℕ} {ps : List Pass} {fs : Files} (h : Passes env ac st i ps fs) :
    ∃ as : List Analysis, List.Forall₂ (PassSpec env) ps as ∧
      (∀ (j : ℕ) (a : Analysis), as[j]? = some a → a.Of env ac st (i + j)) ∧
      (fs.map Prod.fst).Nodup ∧
      (∀ f ∈ fs, ∃ (j : ℕ) (a : Analysis) (name : String), as[j]? = some a ∧
        f.1 = stateDir env.base (i + j) ++ [name] ∧ StateFile env (i + j) a name f.2) ∧
      ∀ (j : ℕ) (a : Analysis), as[j]? = some a →
        (env.saveGlobal = true → ∃ c, (stateDir env.base (i + j) ++ ["global.json"], c) ∈ fs) ∧
        (env.savePanelwise = true →
          ∃ c, (stateDir env.base (i + j) ++ ["panelwise.dat"], c) ∈ fs) ∧
        (env.saveMatrix = true → ∃ c, (stateDir env.base (i + j) ++ ["matrix.dat"], c) ∈ fs) := by
  induction h with
  | nil i => exact ⟨[], .nil, by simp, by simp, by simp, by simp⟩
  | @cons i p f1 ps f2 h hf hp ih =>
    obtain ⟨as, h1, h2, h3, h4, h5⟩ := ih
    obtain ⟨a, a1, a2⟩ := h.analysis hd
    have hs : p.s = a.s := a2.2.1.symm
    have ha := current_aero h.cur h.flow
    rw [hs] at ha
    obtain ⟨s1, s2, s3, s4, s5⟩ := saveAll_spec (a := a) ha (PassSpec.holds a2) hf
    refine ⟨a :: as, .cons a2 h1, ?_, ?_, ?_, ?_⟩
    · intro j b hb
      cases j with
      | zero =>
        simp only [List.getElem?_cons_zero, Option.some.injEq] at hb
        subst hb
        exact a1
      | succ j =>
        have := h2 j b (by simpa using hb)
        rwa [Nat.add_assoc, Nat.add_comm 1 j] at this
    · rw [List.map_append, List.nodup_append]
      refine ⟨s1, h3, ?_⟩
      intro x hx y hy hxy
      subst hxy
      obtain ⟨u, hu, rfl⟩ := List.mem_map.1 hx
      obtain ⟨w, hw, hw'⟩ := List.mem_map.1 hy
      obtain ⟨n, n1, -⟩ := s2 u hu
      obtain ⟨j, -, m, -, m1, -⟩ := h4 w hw
      rw [m1, n1] at hw'
      have := stateDir_injective (List.append_inj hw' rfl).1
      omega
    · intro f hf'
      rcases List.mem_append.1 hf' with hf' | hf'
      · obtain ⟨n, n1, n2⟩ := s2 f hf'
        exact ⟨0, a, n, rfl, n1, n2⟩
      · obtain ⟨j, b, n, b1, n1, n2⟩ := h4 f hf'
        refine ⟨j + 1, b, n, by simpa using b1, ?_, ?_⟩
        · rw [n1, Nat.add_assoc, Nat.add_comm 1 j]
        · rwa [Nat.add_assoc, Nat.add_comm 1 j] at n2
    · intro j b hb
      cases j with
      | zero =>
        refine ⟨fun hg => ?_, fun hg => ?_, fun hg => ?_⟩
        · obtain ⟨c, hc⟩ := s3 hg
          exact ⟨c, List.mem_append_left _ hc⟩
        · obtain ⟨c, hc⟩ := s4 hg
          exact ⟨c, List.mem_append_left _ hc⟩
        · obtain ⟨c, hc⟩ := s5 hg
          exact ⟨c, List.mem_append_left _ hc⟩
      | succ j =>
        obtain ⟨k1, k2, k3⟩ := h5 j b (by simpa using hb)
        rw [Nat.add_assoc, Nat.add_comm 1 j] at k1 k2 k3
        refine ⟨fun hg => ?_, fun hg => ?_, fun hg => ?_⟩
        · obtain ⟨c, hc⟩ := k1 hg
          exact ⟨c, List.mem_append_right _ hc⟩
        · obtain ⟨c, hc⟩ := k2 hg
          exact ⟨c, List.mem_append_right _ hc⟩
        · obtain ⟨c, hc⟩ := k3 hg
          exact ⟨c, List.mem_append_right _ hc⟩

/-- **C81**: the files of a finished run.  No two of them have the same path, so none replaces
another; each flight state has a directory of its own, with the requested files holding the data of
that state; the maps hold one entry per state; and there are no other files. -/
theorem C81_result_files (env : RunEnv) (hd : Lapack env.dgesv) (ac : PAircraft ℝ)
    (st : FlightSt ℝ) (out : RunOut) (h : standardRun env ac st = .ok out) :
    (out.files.map Prod.fst).Nodup ∧
    ∃ ac' as, Panelled env ac ac' ∧ AllAnalysed env ac' st as ∧
      (∀ f ∈ out.files,
        (∃ (i : ℕ) (a : Analysis) (name : String), as[i]? = some a ∧
          f.1 = stateDir env.base i ++ [name] ∧ StateFile env i a name f.2) ∨
        MapFile env st as f.1 f.2) ∧
      (∀ i < st.num,
        (env.saveGlobal = true → ∃ c, (stateDir env.base i ++ ["global.json"], c) ∈ out.files) ∧
        (env.savePanelwise = true →
          ∃ c, (stateDir env.base i ++ ["panelwise.dat"], c) ∈ out.files) ∧
        (env.saveMatrix = true → ∃ c, (stateDir env.base i ++ ["matrix.dat"], c) ∈ out.files)) ∧
      (env.saveAero = true →
        ∃ c, (["_results", env.base ++ "_aeroperformance.json"], c) ∈ out.files) ∧
      (env.cpacsAircraft = true → env.cpacsState = true → ∃ c, (["aircraft"], c) ∈ out.files) := by
  obtain ⟨ac', ps, fs, cs, p, h1, h2, h3, h4, -, -, h5, h6, h7⟩ := standardRun_ok h
  obtain ⟨as, q1, q2, q3, q4, q5⟩ := h2.files hd
  have hlen : as.length = st.num := by rw [← h3, q1.length_eq]
  have htab : ∀ c ∈ runColumns, out.table c.1 = some (as.map c.2) := by
    intro c hc
    rw [h5]
    have hf : Table.fresh c.1 = some [] := by
      unfold Table.fresh
      rw [if_pos]
      have : c.1 ∈ runColumns.map Prod.fst := List.mem_map_of_mem hc
      exact this
    simp only [hf, Option.map_some, List.nil_append, Option.some.injEq]
    clear h2 h3 h4 h5 h6 h7 h hlen q2 q3 q4 q5
    induction q1 with
    | nil => rfl
    | cons a b ih =>
      simp only [List.map_cons, List.cons.injEq]
      exact ⟨rowValue_of a.2.2 c hc, ih⟩
  have hnone : ∀ k, k ∉ globalCoeffs → out.table k = none := by
    intro k hk
    rw [h5]
    simp [Table.fresh, hk]
  have hcs : (∀ f ∈ cs, f.1 = ["aircraft"] ∧ MapFile env st as f.1 f.2) ∧ cs.length ≤ 1 ∧
      (env.cpacsAircraft = true → env.cpacsState = true → ∃ c, (["aircraft"], c) ∈ cs) := by
    unfold saveCpacsMap at h6
    by_cases hb : (env.cpacsAircraft && env.cpacsState) = true
    · rw [if_pos hb] at h6
      have hcol : cpacsColumns out.table = .ok
        [("cl", as.map fun a => asFlt a.R.coeffs.cL), ("cd", as.map fun a => asFlt a.R.coeffs.cD),
        ("cs", as.map fun a => asFlt a.R.coeffs.cC), ("cmd", as.map fun a => asFlt a.R.coeffs.cl),
        ("cms", as.map fun a => asFlt a.R.coeffs.cm),
        ("cml", as.map fun a => asFlt a.R.coeffs.cn)] := by
        have t1 := htab ("CL", fun a => asFlt a.R.coeffs.cL) (by simp [runColumns])
        have t2 := htab ("CD", fun a => asFlt a.R.coeffs.cD) (by simp [runColumns])
        have t3 := htab ("CC", fun a => asFlt a.R.coeffs.cC) (by simp [runColumns])
        have t4 := htab ("Cl", fun a => asFlt a.R.coeffs.cl) (by simp [runColumns])
        have t5 := htab ("Cm", fun a => asFlt a.R.coeffs.cm) (by simp [runColumns])
        have t6 := htab ("Cn", fun a => asFlt a.R.coeffs.cn) (by simp [runColumns])
        simp only at t1 t2 t3 t4 t5 t6
        unfold cpacsColumns cpacsMappings
        simp only [mapE, t1, t2, t3, t4, t5, t6]
      rw [hcol] at h6
      simp only [Except.ok.injEq] at h6
      subst h6
      rw [Bool.and_eq_true] at hb
      refine ⟨?_, by simp, fun _ _ => ⟨_, List.mem_singleton_self _⟩⟩
      intro f hf
      rw [List.mem_singleton] at hf
      subst hf
      exact ⟨rfl, .cpacs hb.1 hb.2 rfl⟩
    · rw [if_neg hb] at h6
      cases h6
      refine ⟨by simp, by simp, fun x y => absurd ?_ hb⟩
      simp [x, y]
  have hns : (∀ f ∈ saveNativeMap env st.aero out.table,
      f.1 = ["_results", env.base ++ "_aeroperformance.json"] ∧ MapFile env st as f.1 f.2) ∧
      (saveNativeMap env st.aero out.table).length ≤ 1 ∧
      (env.saveAero = true → ∃ c, (["_results", env.base ++ "_aeroperformance.json"], c) ∈
        saveNativeMap env st.aero out.table) := by
    unfold saveNativeMap
    by_cases hb : env.saveAero = true
    · rw [if_pos hb]
      refine ⟨?_, by simp, fun _ => ⟨_, List.mem_singleton_self _⟩⟩
      intro f hf
      rw [List.mem_singleton] at hf
      subst hf
      have hno : ∀ k ∈ stateAllParams, k ∉ globalCoeffs := by decide
      refine ⟨rfl, .native hb ?_ ?_ ?_ ?_⟩
      · intro c hc
        unfold aeroMapColumns
        rw [htab c hc]
      · intro k hk l hl
        unfold aeroMapColumns
        rw [hnone k (hno k hk)]
        simp only [hl]
      · intro k hk hl
        unfold aeroMapColumns
        rw [hnone k (hno k hk)]
        simp only [hl, if_pos hk]
      · intro k hk hl hc
        unfold aeroMapColumns
        have hg : k ∉ globalCoeffs := by
          intro hm
          rw [show globalCoeffs = runColumns.map Prod.fst from rfl] at hm
          obtain ⟨c, h1, h2⟩ := List.mem_map.1 hm
          exact hc c h1 h2
        rw [hnone k hg]
        simp only [hl, if_neg hk]
    · rw [if_neg hb]
      exact ⟨by simp, by simp, fun x => absurd x hb⟩
  have small : ∀ {l : Files}, l.length ≤ 1 → (l.map Prod.fst).Nodup := by
    intro l hl
    match l, hl with
    | [], _ => simp
    | [a], _ => simp
  refine ⟨?_, ac', as, h1, ⟨hlen, ?_⟩, ?_, ?_, ?_, ?_⟩
  · rw [h7, List.map_append, List.map_append, List.nodup_append, List.nodup_append]
    refine ⟨⟨q3, small hcs.2.1, ?_⟩, small hns.2.1, ?_⟩
    · intro x hx y hy hxy
      subst hxy
      obtain ⟨u, hu, rfl⟩ := List.mem_map.1 hx
      obtain ⟨w, hw, hw'⟩ := List.mem_map.1 hy
      obtain ⟨j, -, m, -, m1, -⟩ := q4 u hu
      rw [m1, (hcs.1 w hw).1] at hw'
      simp [stateDir] at hw'
    · intro x hx y hy hxy
      subst hxy
      obtain ⟨w, hw, hw'⟩ := List.mem_map.1 hy
      rw [(hns.1 w hw).1] at hw'
      rcases List.mem_append.1 hx with hx | hx
      · obtain ⟨u, hu, rfl⟩ := List.mem_map.1 hx
        obtain ⟨j, -, m, -, m1, -⟩ := q4 u hu
        rw [m1] at hw'
        simp [stateDir] at hw'
      · obtain ⟨u, hu, rfl⟩ := List.mem_map.1 hx
        rw [(hcs.1 u hu).1] at hw'
        simp at hw'
  · intro i a ha
    have := q2 i a ha
    rwa [Nat.zero_add] at this
  · intro f hf
    rw [h7, List.mem_append, List.mem_append] at hf
    rcases hf with (hf | hf) | hf
    · obtain ⟨j, a, n, r1, r2, r3⟩ := q4 f hf
      rw [Nat.zero_add] at r2 r3
      exact .inl ⟨j, a, n, r1, r2, r3⟩
    · exact .inr (hcs.1 f hf).2
    · exact .inr (hns.1 f hf).2
  · intro i hi
    rw [← hlen] at hi
    obtain ⟨k1, k2, k3⟩ := q5 i as[i] (List.getElem?_eq_getElem hi)
    rw [Nat.zero_add] at k1 k2 k3
    rw [h7]
    refine ⟨fun hg => ?_, fun hg => ?_, fun hg => ?_⟩
    · obtain ⟨c, hc⟩ := k1 hg
      exact ⟨c, List.mem_append_left _ (List.mem_append_left _ hc)⟩
    · obtain ⟨c, hc⟩ := k2 hg
      exact ⟨c, List.mem_append_left _ (List.mem_append_left _ hc)⟩
    · obtain ⟨c, hc⟩ := k3 hg
      exact ⟨c, List.mem_append_left _ (List.mem_append_left _ hc)⟩
  · intro hg
    obtain ⟨c, hc⟩ := hns.2.2 hg
    exact ⟨c, by rw [h7]; exact List.mem_append_right _ hc⟩
  · intro x y
    obtain ⟨c, hc⟩ := hcs.2.2 x y
    exact ⟨c, by rw [h7]; exact List.mem_append_left _ (List.mem_append_right _ hc)⟩

/-- **C81**: different flight states have different directories. -/
theorem C81_directories_distinct (base : String) (i j : ℕ) (h : i ≠ j) :
    stateDir base i ≠ stateDir base j := fun e => h (stateDir_injective e)

end Verif
