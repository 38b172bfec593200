import Verif.Lemmas.NativeLattice
import Verif.Props.Lattice

/-!
# Lemmas about objects handed over to native code
-/

namespace Verif

/-! ## State and lattice objects -/

theorem getState_ok {cur : CurSt ℝ} {s : FlowState} (hs : cur.toFlow = some s) (c : Refs) :
    getState (stateObject cur c) = .ok s := by
  unfold CurSt.toFlow at hs
  split at hs
  case h_1 v rho a b p q r h1 h2 h3 h4 h5 h6 h7 =>
    cases hs
    simp [getState, stateObject, NObj.dict, NDict.getFloat, h1, h2, h3, h4, h5, h6, h7, useFlt,
      bind, Except.bind]
  case h_2 => cases hs

theorem getRefs_ok (cur : CurSt ℝ) (c : Refs) :
    getRefs (stateObject cur c) = .ok ⟨c.cg.mem, c.rp.mem, c.area, c.span, c.chord⟩ := by
  simp [getRefs, stateObject, NObj.dict, NDict.getFloat, NDict.getArray, useFlt, bind, Except.bind]

theorem rd3_mem (v : V3 ℝ) : rd3 v.mem 0 = .ok v := rd3_fin rfl rfl rfl

/-- A lattice object with given arrays. -/
def latObjOf (n : ℕ) (L : LatMem) (info : NDict) : NObj := fun k =>
  if k = "p" then some (.val (.farray [n, 4, 3] L.p))
  else if k = "v" then some (.val (.farray [n, 4, 3] L.v))
  else if k = "c" then some (.val (.farray [n, 3] L.c))
  else if k = "bound_leg_midpoints" then some (.val (.farray [n, 3] L.mid))
  else if k = "n" then some (.val (.farray [n, 3] L.n))
  else if k = "a" then some (.val (.farray [n] L.a))
  else if k = "epsilon" then some (.val (.float (.fin L.eps)))
  else if k = "info" then some (.dict info)
  else none

theorem getLattice_obj (n : ℕ) (L : LatMem) (info : NDict) :
    getLattice (latObjOf n L info) = .ok L := by
  simp [getLattice, latObjOf, NObj.array, NObj.float, useFlt, bind, Except.bind]

theorem getInfo_obj (n : ℕ) (L : LatMem) {info : NDict} {a b : ℤ}
    (h1 : info "num_panels" = some (.int a)) (h2 : info "num_segments" = some (.int b)) :
    getInfo (latObjOf n L info) = .ok (a, b) := by
  simp [getInfo, latObjOf, NObj.dict, NDict.getInt, h1, h2, bind, Except.bind]

theorem store_p (n : ℕ) (L : LatMem) (info : NDict) (m : Mem) :
    (latObjOf n L info).store "p" m = latObjOf n { L with p := m } info := by
  have h : latObjOf n L info "p" = some (.val (.farray [n, 4, 3] L.p)) := rfl
  unfold NObj.store
  rw [h]
  funext k
  by_cases hk : k = "p"
  · subst hk; rfl
  · simp [hk, latObjOf]

theorem store_v (n : ℕ) (L : LatMem) (info : NDict) (m : Mem) :
    (latObjOf n L info).store "v" m = latObjOf n { L with v := m } info := by
  have h : latObjOf n L info "v" = some (.val (.farray [n, 4, 3] L.v)) := rfl
  unfold NObj.store
  rw [h]
  funext k
  by_cases hk : k = "v"
  · subst hk; rfl
  · simp [hk, latObjOf]

theorem store_c (n : ℕ) (L : LatMem) (info : NDict) (m : Mem) :
    (latObjOf n L info).store "c" m = latObjOf n { L with c := m } info := by
  have h : latObjOf n L info "c" = some (.val (.farray [n, 3] L.c)) := rfl
  unfold NObj.store
  rw [h]
  funext k
  by_cases hk : k = "c"
  · subst hk; rfl
  · simp [hk, latObjOf]

theorem store_mid (n : ℕ) (L : LatMem) (info : NDict) (m : Mem) :
    (latObjOf n L info).store "bound_leg_midpoints" m = latObjOf n { L with mid := m } info := by
  have h : latObjOf n L info "bound_leg_midpoints" = some (.val (.farray [n, 3] L.mid)) := rfl
  unfold NObj.store
  rw [h]
  funext k
  by_cases hk : k = "bound_leg_midpoints"
  · subst hk; rfl
  · simp [hk, latObjOf]

theorem store_n (n : ℕ) (L : LatMem) (info : NDict) (m : Mem) :
    (latObjOf n L info).store "n" m = latObjOf n { L with n := m } info := by
  have h : latObjOf n L info "n" = some (.val (.farray [n, 3] L.n)) := rfl
  unfold NObj.store
  rw [h]
  funext k
  by_cases hk : k = "n"
  · subst hk; rfl
  · simp [hk, latObjOf]

theorem store_a (n : ℕ) (L : LatMem) (info : NDict) (m : Mem) :
    (latObjOf n L info).store "a" m = latObjOf n { L with a := m } info := by
  have h : latObjOf n L info "a" = some (.val (.farray [n] L.a)) := rfl
  unfold NObj.store
  rw [h]
  funext k
  by_cases hk : k = "a"
  · subst hk; rfl
  · simp [hk, latObjOf]

theorem store_info (n : ℕ) (L : LatMem) (info info' : NDict) :
    Function.update (latObjOf n L info) "info" (some (.dict info')) = latObjOf n L info' := by
  funext k
  by_cases hk : k = "info"
  · subst hk; rfl
  · simp [hk, latObjOf]

theorem store_all (n : ℕ) (L M : LatMem) (info info' : NDict) (he : M.eps = L.eps) :
    Function.update
      (((((((latObjOf n L info).store "p" M.p).store "v" M.v).store "c" M.c).store
        "bound_leg_midpoints" M.mid).store "n" M.n).store "a" M.a) "info" (some (.dict info')) =
      latObjOf n M info' := by
  rw [store_p, store_v, store_c, store_mid, store_n, store_a, store_info]
  cases M
  subst he
  rfl

theorem latticeObject0_eq (eps : ℝ) (wings controls : ℕ) (b : Book) (pts : ℕ → PanelPts ℝ) :
    latticeObject0 eps wings controls b = latObjOf b.numP.toNat
      (latAt b.numP.toNat eps pts fun _ => 0)
      (infoDict wings b.numSub controls b.numR b.numP) := by
  unfold latticeObject0 latObjOf latAt npZeros
  simp only [fill_zero, List.prod_cons, List.prod_nil, mul_one, Nat.reduceMul]

/-! ## Input arrays -/

theorem readSub_ok {b : Book} {cs : List (Corners (V3 ℝ))} (hl : cs.length = b.entries.length)
    {i : ℕ} (hi : i < b.entries.length) (hs : i < b.symLength.toNat) :
    ∃ u, (b.inputsOf cs)[i]? = some u ∧
      readSub (cornersMem cs) (List.replicate b.symLength.toNat 0)
        (b.panelTable.flatMap fun t => [t.1, t.2]) i = .ok u := by
  have hc : i < cs.length := by omega
  set c := cs[i] with hcd
  set e := b.entries[i] with hed
  have g1 : cs[i]? = some c := List.getElem?_eq_getElem hc
  have g2 : b.panelTable[i]? = some (1, e.numC) := by
    unfold Book.panelTable
    rw [List.getElem?_map, List.getElem?_eq_getElem hi]
    rfl
  refine ⟨⟨c, 0, 1, e.numC⟩, ?_, ?_⟩
  · unfold Book.inputsOf
    rw [List.getElem?_zipWith, g1, g2]
  · have p0 : (b.panelTable.flatMap fun t => [t.1, t.2])[i * 2]? = some 1 := by
      have := flatMap_get' (w := 2) (f := fun t : ℤ × ℤ => [t.1, t.2]) (l := b.panelTable)
        (fun _ _ => rfl) (i := i) (c := 0) (by omega)
      rw [add_zero] at this
      rw [this, g2]
      rfl
    have p1 : (b.panelTable.flatMap fun t => [t.1, t.2])[i * 2 + 1]? = some e.numC := by
      rw [flatMap_get' (w := 2) (fun _ _ => rfl) (by omega), g2]
      rfl
    have s0 : (List.replicate b.symLength.toNat (0 : ℤ))[i]? = some 0 := by
      rw [List.getElem?_replicate, if_pos hs]
    have corner : ∀ (k : ℕ) (v : V3 ℝ), k + 3 ≤ 12 → ∀ j, j = i * 12 + k →
        (c.a.mem ++ c.b.mem ++ c.c.mem ++ c.d.mem)[k]? = some (.fin v.x) →
        (c.a.mem ++ c.b.mem ++ c.c.mem ++ c.d.mem)[k + 1]? = some (.fin v.y) →
        (c.a.mem ++ c.b.mem ++ c.c.mem ++ c.d.mem)[k + 2]? = some (.fin v.z) →
        rd3 (cornersMem cs) j = .ok v := by
      intro k v hk j hj h0 h1 h2
      subst hj
      unfold cornersMem
      refine rd3_fin ?_ ?_ ?_
      · rw [flatMap_get' (w := 12) (fun _ _ => rfl) (by omega), g1]
        exact h0
      · rw [add_assoc, flatMap_get' (w := 12) (fun _ _ => rfl) (by omega), g1]
        exact h1
      · rw [add_assoc, flatMap_get' (w := 12) (fun _ _ => rfl) (by omega), g1]
        exact h2
    unfold readSub
    rw [corner 0 c.a (by omega) _ (by ring) rfl rfl rfl,
      corner 3 c.b (by omega) _ (by ring) rfl rfl rfl,
      corner 6 c.c (by omega) _ (by ring) rfl rfl rfl,
      corner 9 c.d (by omega) _ (by ring) rfl rfl rfl]
    simp only [rdInt, p0, p1, s0, bind, Except.bind]

theorem readAll_ok {b : Book} {cs : List (Corners (V3 ℝ))} (hl : cs.length = b.entries.length)
    (hs : b.entries.length ≤ b.symLength.toNat) :
    forLoop b.entries.length (fun i l => do
      let u ← readSub (cornersMem cs) (List.replicate b.symLength.toNat 0)
        (b.panelTable.flatMap fun t => [t.1, t.2]) i
      .ok (l ++ [u])) [] = .ok (b.inputsOf cs) := by
  have hlen : (b.inputsOf cs).length = b.entries.length := by
    unfold Book.inputsOf Book.panelTable
    rw [List.length_zipWith, List.length_map, hl, min_self]
  have := forLoop_ok (n := b.entries.length) (f := fun i l => do
      let u ← readSub (cornersMem cs) (List.replicate b.symLength.toNat 0)
        (b.panelTable.flatMap fun t => [t.1, t.2]) i
      .ok (l ++ [u])) (fun i => (b.inputsOf cs).take i) (by
    intro i hi
    obtain ⟨u, h1, h2⟩ := readSub_ok hl hi (by omega)
    simp only [h2, bind, Except.bind]
    rw [List.take_add_one, h1]
    rfl)
  rw [List.take_zero] at this
  rw [this, ← hlen, List.take_length]

/-- A table of symmetry flags that is too short is read out of bounds. -/
theorem readAll_short {b : Book} {cs : List (Corners (V3 ℝ))} (hl : cs.length = b.entries.length)
    (hs : b.symLength.toNat < b.entries.length) :
    forLoop b.entries.length (fun i l => do
      let u ← readSub (cornersMem cs) (List.replicate b.symLength.toNat 0)
        (b.panelTable.flatMap fun t => [t.1, t.2]) i
      .ok (l ++ [u])) [] = .error .outOfBounds := by
  have hp : ∀ i < b.entries.length, ∀ j < 2,
      (b.panelTable.flatMap fun t => [t.1, t.2])[i * 2 + j]? ≠ none := by
    intro i hi j hj
    have hlen : (b.panelTable.flatMap fun t => [t.1, t.2]).length = b.entries.length * 2 := by
      unfold Book.panelTable
      induction b.entries with
      | nil => rfl
      | cons e l ih =>
        rw [List.map_cons, List.flatMap_cons, List.length_append, ih, List.length_cons]
        simp only [List.length_cons, List.length_nil]
        omega
    rw [ne_eq, List.getElem?_eq_none_iff, hlen]
    omega
  have := (forLoop_cases (n := b.entries.length) (f := fun i l => do
      let u ← readSub (cornersMem cs) (List.replicate b.symLength.toNat 0)
        (b.panelTable.flatMap fun t => [t.1, t.2]) i
      .ok (l ++ [u])) (fun i => (b.inputsOf cs).take i) (fun i => i < b.symLength.toNat)
    (e := .outOfBounds) (by
      intro i hi hg
      obtain ⟨u, h1, h2⟩ := readSub_ok hl hi hg
      simp only [h2, bind, Except.bind]
      rw [List.take_add_one, h1]
      rfl) (by
      intro i hi hg
      have p0 := hp i hi 0 (by omega)
      have p1 := hp i hi 1 (by omega)
      rw [Nat.add_zero] at p0
      cases e0 : (b.panelTable.flatMap fun t => [t.1, t.2])[i * 2]? with
      | none => exact absurd e0 p0
      | some x =>
        cases e1 : (b.panelTable.flatMap fun t => [t.1, t.2])[i * 2 + 1]? with
        | none => exact absurd e1 p1
        | some y =>
          have h3 : (List.replicate b.symLength.toNat (0 : ℤ))[i]? = none :=
            List.getElem?_eq_none (by rw [List.length_replicate]; omega)
          simp only [readSub, rdInt, e0, e1, h3, bind, Except.bind])).2
    ⟨b.symLength.toNat, hs, lt_irrefl _⟩
  rwa [List.take_zero] at this

/-! ## Panels in order -/

theorem latticeFrom_fst {L : Type*} [Field L] (leg : V3 L)
    (corners : BookEntry → Corners (V3 L)) {a b : ℤ} {es : List BookEntry}
    (hc : Contig a es b) (h0 : ∀ e ∈ es, 0 ≤ e.numC) :
    a ≤ b ∧ (latticeFrom leg a (es.map fun e => ⟨corners e, 0, 1, e.numC⟩)).map Prod.fst =
      pyRange a b := by
  induction es generalizing a with
  | nil =>
    simp only [Contig] at hc
    subst hc
    simp [latticeFrom, pyRange]
  | cons e rest ih =>
    obtain ⟨h1, h2, h3⟩ := hc
    obtain ⟨i1, i2⟩ := ih h3 fun x hx => h0 x (List.mem_cons_of_mem _ hx)
    have := h0 e (by simp)
    refine ⟨by omega, ?_⟩
    simp only [List.map_cons, latticeFrom]
    rw [if_neg (by simp), one_mul, List.map_append, passPanels_one, ← h2, i2,
      pyRange_append (by omega) i1]

/-- The panels of a lattice by number. -/
theorem panels_in_order {l : List (ℤ × PanelPts ℝ)} {n : ℕ} (h : l.map Prod.fst = pyRange 0 n) :
    ∃ pts : ℕ → PanelPts ℝ, l = (List.range n).map (fun k : ℕ => ((k : ℤ), pts k)) ∧
      ∀ k < n, lastPanel l k = some (pts k) := by
  have hlen : l.length = n := by
    have := congrArg List.length h
    simpa [pyRange] using this
  have hget : ∀ k < n, ∃ g, l[k]? = some ((k : ℤ), g) := by
    intro k hk
    have e1 : l[k]? = some (l[k]'(by omega)) := List.getElem?_eq_getElem _
    have e2 := congrArg (fun x => x[k]?) h
    simp only [List.getElem?_map, e1, Option.map_some, pyRange] at e2
    rw [List.getElem?_range (by omega)] at e2
    simp only [Option.map_some, Option.some.injEq, zero_add] at e2
    exact ⟨(l[k]'(by omega)).2, by rw [e1, ← e2]⟩
  classical
  refine ⟨fun k => if hk : k < n then (hget k hk).choose else ⟨0, 0, 0, 0, 0, 0, 0, 0, 0, 0⟩, ?_, ?_⟩
  · apply List.ext_getElem?
    intro k
    by_cases hk : k < n
    · rw [List.getElem?_map, List.getElem?_range hk, (hget k hk).choose_spec]
      simp [hk]
    · rw [List.getElem?_eq_none (by omega), List.getElem?_eq_none (by simpa using hk)]
  · intro k hk
    simp only [hk, dif_pos]
    apply lastPanel_of_unique
    · rw [h]; exact nodup_pyRange _ _
    · exact List.mem_of_getElem? (hget k hk).choose_spec

theorem lastPanel_outside {l : List (ℤ × PanelPts ℝ)} {n : ℕ} (h : l.map Prod.fst = pyRange 0 n)
    {k : ℤ} (hk : ¬ (0 ≤ k ∧ k < n)) : lastPanel l k = none := by
  apply lastPanel_none
  rw [h, mem_pyRange]
  exact hk

/-! ## The generator -/

theorem Contig.le {a b : ℤ} {es : List BookEntry} (hc : Contig a es b)
    (hn : ∀ e ∈ es, 1 ≤ e.numC) : a + es.length ≤ b := by
  induction es generalizing a with
  | nil => simp only [Contig] at hc; subst hc; simp
  | cons e rest ih =>
    obtain ⟨h1, h2, h3⟩ := hc
    have := ih h3 fun x hx => hn x (List.mem_cons_of_mem _ hx)
    have := hn e (by simp)
    rw [List.length_cons]
    push_cast
    omega

theorem setPresent_lookup (items : List (String × Flt ℝ)) (d : NDict)
    (hk : (items.map Prod.fst).Nodup) (h : ∀ kx ∈ items, (d kx.1).isSome = true) :
    (setPresent items d).1 = fun k => match items.lookup k with
      | some x => some (.float x)
      | none => d k := by
  induction items generalizing d with
  | nil => rfl
  | cons kx rest ih =>
    obtain ⟨k0, x0⟩ := kx
    simp only [List.map_cons, List.nodup_cons] at hk
    unfold setPresent
    rw [if_pos (h (k0, x0) (by simp)), ih _ hk.2]
    · funext k
      by_cases hkk : k = k0
      · subst hkk
        have : rest.lookup k = none := by
          apply lookup_notMem
          exact hk.1
        simp [this, List.lookup]
      · have : (k == k0) = false := by simpa using hkk
        simp [List.lookup, this, hkk]
    · intro kx hx
      by_cases hkk : kx.1 = k0
      · exact absurd (hkk ▸ List.mem_map_of_mem hx) hk.1
      · rw [Function.update_of_ne hkk]
        exact h kx (List.mem_cons_of_mem _ hx)

theorem statsDict_eq (w sg c st p : ℤ) (t : Stats) :
    (setPresent (statItems t) (infoDict w sg c st p)).1 = statsDict w sg c st p t := by
  rw [setPresent_lookup]
  · rfl
  · simp [statItems]
  · intro kx hx
    simp only [statItems, List.mem_cons, List.not_mem_nil, or_false] at hx
    rcases hx with rfl | rfl | rfl | rfl | rfl | rfl <;> rfl

section
variable {strict : Bool} {env : RunEnv} {ac : PAircraft ℝ} {cur : CurSt ℝ} {s : FlowState} {b : Book}

/-- The lattice object with arrays by rows. -/
noncomputable def latObj (env : RunEnv) (ac : PAircraft ℝ) (b : Book) (pts : ℕ → PanelPts ℝ)
    (nrm : ℕ → Option (V3 ℝ)) (t : Stats) : NObj :=
  latObjOf b.numP.toNat (latRows b.numP.toNat env.eps pts nrm)
    (statsDict (countAllWings ac) b.numSub (countAllControls ac) b.numR b.numP t)

theorem elementsOf_writes {l : List (ℤ × PanelPts ℝ)} {n : ℕ} {pts : ℕ → PanelPts ℝ}
    (h : l = (List.range n).map fun k : ℕ => ((k : ℤ), pts k)) :
    (l.flatMap fun kp => (panelWrites kp).map fun w => nElement w kp.2) =
      (List.range n).flatMap fun k : ℕ => elementsOf ((k : ℤ), pts k) := by
  subst h
  rw [List.flatMap_map]
  rfl

theorem py2cLattice_eq (hs : cur.toFlow = some s) (hsub : b.numSub = b.entries.length)
    {cs : List (Corners (V3 ℝ))} (hl : cs.length = b.entries.length)
    (hlen : b.entries.length ≤ b.numP.toNat) {pts : ℕ → PanelPts ℝ}
    (hp : vlmLattice (trailLeg s.alpha s.beta) (b.inputsOf cs) =
      (List.range b.numP.toNat).map fun k : ℕ => ((k : ℤ), pts k)) :
    py2cLattice (latticeObject0 env.eps (countAllWings ac) (countAllControls ac) b)
        (stateObject cur env.refs) (cornersMem cs) (List.replicate b.symLength.toNat 0)
        (b.panelTable.flatMap fun t => [t.1, t.2]) =
      .ok (latObj env ac b pts (fun k => (pts k).finNormal)
        (latticeStats (trailLeg s.alpha s.beta) (b.inputsOf cs) b.numP)) := by
  have hr := readAll_ok (b := b) hl hlen
  have hw := writeAll_panels (n := b.numP.toNat) (eps := env.eps) (pts := pts) (le_refl _) []
  rw [List.append_nil, latAt_full] at hw
  rw [latticeObject0_eq _ _ _ _ pts]
  unfold py2cLattice
  rw [getLattice_obj, getInfo_obj (a := b.numP) (b := b.numSub) _ _ rfl rfl, getState_ok hs]
  simp only [bind, Except.bind, nLattice, hsub, Int.toNat_natCast] at hr ⊢
  rw [hr]
  simp only [elementsOf_writes hp, hw, writeAll]
  have hd : NObj.dict (latObjOf b.numP.toNat (latAt b.numP.toNat env.eps pts fun _ => 0)
      (infoDict (countAllWings ac) b.entries.length (countAllControls ac) b.numR b.numP)) "info" =
      .ok (infoDict (countAllWings ac) b.entries.length (countAllControls ac) b.numR b.numP) := rfl
  rw [hd]
  simp only []
  rw [store_all]
  · unfold latObj
    rw [statsDict_eq, hsub]
  · rfl

/-- The same with a table that is too short. -/
theorem py2cLattice_short (hs : cur.toFlow = some s) (hsub : b.numSub = b.entries.length)
    {cs : List (Corners (V3 ℝ))} (hl : cs.length = b.entries.length)
    (hlen : b.symLength.toNat < b.entries.length) :
    py2cLattice (latticeObject0 env.eps (countAllWings ac) (countAllControls ac) b)
        (stateObject cur env.refs) (cornersMem cs) (List.replicate b.symLength.toNat 0)
        (b.panelTable.flatMap fun t => [t.1, t.2]) = .error .outOfBounds := by
  have hr := readAll_short (b := b) hl hlen
  rw [latticeObject0_eq _ _ _ _ fun _ => ⟨0, 0, 0, 0, 0, 0, 0, 0, 0, 0⟩]
  unfold py2cLattice
  rw [getLattice_obj, getInfo_obj (a := b.numP) (b := b.numSub) _ _ rfl rfl, getState_ok hs]
  simp only [bind, Except.bind, nLattice, hsub, Int.toNat_natCast] at hr ⊢
  rw [hr]

theorem normalRow_eq {n : ℕ} (f : ℕ → Option (V3 ℝ)) (i : ℤ) :
    normalRow ((List.range n).flatMap fun k => normalMem (f k)) i =
      if 0 ≤ i ∧ i < n then f i.toNat else none := by
  unfold normalRow
  by_cases h0 : i < 0
  · rw [if_pos h0, if_neg (by omega)]
  · rw [if_neg h0]
    by_cases hn : i < n
    · rw [rd3_normals f (by omega), if_pos ⟨by omega, hn⟩]
      cases f i.toNat <;> rfl
    · rw [if_neg (by omega)]
      have hlen : ((List.range n).flatMap fun k => normalMem (f k)).length = n * 3 := by
        rw [flatMap_length (w := 3) fun k _ => normalMem_length _]
      unfold rd3 rd
      rw [List.getElem?_eq_none (by rw [hlen]; omega)]
      rfl

theorem normalsMem_eq (n : ℕ) (f : ℤ → Option (V3 ℝ)) :
    normalsMem n f = (List.range n).flatMap fun k : ℕ => normalMem (f (k : ℤ)) := by
  unfold normalsMem
  congr 1

/-- The object of a lattice whose panels have all been written. -/
theorem latticeObj_eq {l : LatticeData} {pts : ℕ → PanelPts ℝ}
    (h : ∀ k < l.num, l.pts ((k : ℕ) : ℤ) = some (pts k)) (t : Stats) :
    l.obj env.eps (countAllWings ac) (countAllControls ac) t =
      latObj env ac l.book pts (fun k => l.normal (k : ℤ)) t := by
  have hm : ∀ (w : ℕ) (row : PanelPts ℝ → Mem),
      l.mem w row = (List.range l.num).flatMap fun k => row (pts k) := by
    intro w row
    unfold LatticeData.mem
    apply List.flatMap_congr
    intro k hk
    rw [h k (List.mem_range.1 hk)]
  unfold LatticeData.obj latObj latObjOf latRows
  simp only [hm, normalsMem_eq]
  rfl

theorem nGenLattice_eq (hs : cur.toFlow = some s) (hb : genBook ac = .ok b)
    (hc : Contig 0 b.entries b.numP) (hsub : b.numSub = b.entries.length)
    (hn : ∀ e ∈ b.entries, 1 ≤ e.numC) :
    (∀ x, genLattice env.lat env.doRot s.alpha s.beta ac = .error x →
      nGenLattice strict env ac cur = .error (.stop (.raised x))) ∧
    (∀ l, genLattice env.lat env.doRot s.alpha s.beta ac = .ok l →
      (∀ k < l.num, (l.pts ((k : ℕ) : ℤ)).isSome = true) ∧
      ∃ cs, mapE (entryCorners env.lat ac) l.book.entries = .ok cs ∧
        nGenLattice strict env ac cur = .ok (l.obj env.eps (countAllWings ac) (countAllControls ac)
          (latticeStats (trailLeg s.alpha s.beta) (l.book.inputsOf cs) l.book.numP))) := by
  unfold nGenLattice genLattice
  rw [hb]
  simp only []
  cases hcs : mapE (entryCorners env.lat ac) b.entries with
  | error x =>
    refine ⟨fun y hy => by cases hy; rfl, fun l hl => by cases hl⟩
  | ok cs =>
    simp only []
    have hce := mapE_corners hcs
    have hlen := hc.le hn
    have h0 : ¬ b.numP < 0 := by omega
    simp only [if_neg h0]
    have hin : b.inputsOf cs = b.entries.map fun e => ⟨cornersOf env.lat ac e, 0, 1, e.numC⟩ := by
      rw [hce]
      exact Book.inputs_eq b _
    have hfst : (vlmLattice (trailLeg s.alpha s.beta) (b.inputsOf cs)).map Prod.fst =
        pyRange 0 (b.numP.toNat : ℕ) := by
      rw [hin, Int.toNat_of_nonneg (by omega)]
      exact (latticeFrom_fst _ _ hc fun e he => by have := hn e he; omega).2
    obtain ⟨pts, hp, hlast⟩ := panels_in_order hfst
    have hnative := py2cLattice_eq (env := env) (ac := ac) hs hsub
      (by rw [hce, List.length_map]) (by omega) hp
    rw [hnative]
    simp only [nCall]
    have hrow : normalRow ((List.range b.numP.toNat).flatMap fun k => normalMem (pts k).finNormal) =
        fun k => (lastPanel (vlmLattice (trailLeg s.alpha s.beta) (b.inputsOf cs)) k).bind
          PanelPts.finNormal := by
      funext k
      rw [normalRow_eq fun k => (pts k).finNormal]
      by_cases hk : 0 ≤ k ∧ k < (b.numP.toNat : ℕ)
      · have := hlast k.toNat (by omega)
        rw [Int.toNat_of_nonneg hk.1] at this
        rw [if_pos hk, this]
        rfl
      · rw [if_neg hk, lastPanel_outside hfst hk]
        rfl
    have harr : NObj.array (latObj env ac b pts (fun k => (pts k).finNormal)
        (latticeStats (trailLeg s.alpha s.beta) (b.inputsOf cs) b.numP)) "n" =
        .ok ((List.range b.numP.toNat).flatMap fun k => normalMem (pts k).finNormal) := rfl
    by_cases hr : env.doRot = true
    · simp only [if_pos hr, harr, hrow]
      cases hrot : rotateAll env.lat ac b.entries _ with
      | error x => exact ⟨fun y hy => by cases hy; rfl, fun l hl => by cases hl⟩
      | ok f =>
        refine ⟨fun y hy => (by cases hy), fun l hl => ?_⟩
        cases hl
        refine ⟨fun k hk => by simp only [hlast k hk, Option.isSome_some], cs, hcs, ?_⟩
        refine Eq.trans ?_ (congrArg Except.ok (latticeObj_eq
          (l := ⟨b, lastPanel (vlmLattice (trailLeg s.alpha s.beta) (b.inputsOf cs)), f⟩)
          (pts := pts) hlast _).symm)
        unfold latObj
        simp only []
        rw [store_n, normalsMem_eq]
        rfl
    · simp only [if_neg hr]
      refine ⟨fun y hy => (by cases hy), fun l hl => ?_⟩
      cases hl
      refine ⟨fun k hk => by simp only [hlast k hk, Option.isSome_some], cs, hcs, ?_⟩
      refine Eq.trans ?_ (congrArg Except.ok (latticeObj_eq
        (l := ⟨b, lastPanel (vlmLattice (trailLeg s.alpha s.beta) (b.inputsOf cs)), _⟩)
        (pts := pts) hlast _).symm)
      unfold latObj
      congr 2
      unfold latRows
      congr 1
      apply List.flatMap_congr
      intro k hk
      simp only [hlast k (List.mem_range.1 hk), Option.bind_some]

end

end Verif
