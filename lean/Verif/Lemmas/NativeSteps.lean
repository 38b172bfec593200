import Verif.Lemmas.NativeRun
import Verif.Lemmas.Run

/-!
# Lemmas about the solver steps on objects
-/

namespace Verif

/-! ## Arrays and functions of panel numbers -/

theorem ofFn_nat {α : Type*} {n : ℕ} (D : ℕ → α) :
    (List.ofFn fun i : Fin n => D i) = (List.range n).map D := by
  rw [List.ofFn_eq_map, ← List.map_coe_finRange_eq_range, List.map_map]
  rfl

theorem foldl_finRange {σ : Type*} {n : ℕ} (f : σ → ℕ → σ) (a : σ) :
    (List.finRange n).foldl (fun acc (j : Fin n) => f acc (j : ℕ)) a = (List.range n).foldl f a := by
  rw [← List.map_coe_finRange_eq_range, List.foldl_map]

theorem fill_full (n : ℕ) (g : ℕ → Flt ℝ) : fill n n g = (List.range n).map g := by
  unfold fill
  apply List.map_congr_left
  intro k hk
  rw [if_pos (List.mem_range.1 hk)]

theorem rows_fill {n : ℕ} (D : ℕ → ℕ → ℝ) :
    ((List.ofFn fun i : Fin n => List.ofFn fun j : Fin n => D i j).flatten).map Flt.fin =
      fill (n * n) (n * n) fun k => .fin (D (k / n) (k % n)) := by
  rw [fill_full]
  have h1 : (List.ofFn fun i : Fin n => List.ofFn fun j : Fin n => D i j) =
      (List.range n).map fun i => (List.range n).map fun j => D i j := by
    have h2 : ∀ i : ℕ, (List.ofFn fun j : Fin n => D i j) = (List.range n).map fun j => D i j :=
      fun i => ofFn_nat (D i)
    simp only [h2]
    exact ofFn_nat fun i => (List.range n).map fun j => D i j
  rw [h1]
  apply List.ext_getElem?
  intro k
  have hlen : (((List.range n).map fun i => (List.range n).map fun j => D i j).flatten).length =
      n * n := by
    rw [← List.flatMap_def, flatMap_length (w := n) fun _ _ => by simp]
  by_cases hk : k < n * n
  · have hn : 0 < n := by
      rcases Nat.eq_zero_or_pos n with h | h
      · subst h; omega
      · exact h
    have hd : k / n < n := Nat.div_lt_of_lt_mul hk
    have hm : k % n < n := Nat.mod_lt _ hn
    have hk' : k = k / n * n + k % n := by
      have := Nat.div_add_mod k n
      rw [mul_comm] at this
      exact this.symm
    rw [List.getElem?_map, List.getElem?_map, List.getElem?_range hk, ← List.flatMap_def]
    conv_lhs => rw [hk']
    rw [flatMap_get (w := n) (fun _ _ => by simp) hd hm, List.getElem?_map,
      List.getElem?_range hm]
    rfl
  · rw [List.getElem?_eq_none (by rw [List.length_map, hlen]; omega),
      List.getElem?_eq_none (by simpa using hk)]

theorem finMem_map (l : List ℝ) : finMem (l.map Flt.fin) = some l := by
  unfold finMem
  induction l with
  | nil => rfl
  | cons a l ih =>
    rw [List.map_cons, List.mapM_cons, ih]
    rfl

theorem memRows_rowsOf {n : ℕ} (A : Matrix (Fin n) (Fin n) ℝ) :
    memRows n n (rowsOf A).flatten = rowsOf A := by
  unfold memRows rowsOf
  generalize hrow : (fun i : Fin n => List.ofFn fun j => A i j) = row
  have hlen : ∀ i, (row i).length = n := by subst hrow; intro i; simp
  have gen : ∀ (L : List (List ℝ)), (∀ r ∈ L, r.length = n) →
      ((List.range L.length).map fun i => (L.flatten.drop (i * n)).take n) = L := by
    intro L
    induction L with
    | nil => intro _; rfl
    | cons r L ih =>
      intro h
      have hr := h r (by simp)
      rw [List.length_cons, List.range_succ_eq_map, List.map_cons, List.map_map,
        List.flatten_cons, zero_mul, List.drop_zero]
      congr 1
      · rw [List.take_append_of_le_length (by omega), ← hr, List.take_length]
      · refine Eq.trans ?_ (ih fun x hx => h x (List.mem_cons_of_mem _ hx))
        apply List.map_congr_left
        intro i _
        simp only [Function.comp_apply, Nat.succ_eq_add_one]
        rw [add_mul, one_mul, add_comm, ← hr, List.drop_append,
          List.drop_eq_nil_of_le (by omega), List.nil_append, Nat.add_sub_cancel_left]
  have := gen (List.ofFn row) (by
    intro r hr
    obtain ⟨i, rfl⟩ := List.mem_ofFn.1 hr
    exact hlen i)
  rwa [List.length_ofFn] at this

/-! ## Steps -/

/-- Panel `k` of a lattice. -/
noncomputable def panelN (pts : ℕ → PanelPts ℝ) (nrm : ℕ → Option (V3 ℝ)) (k : ℕ) : Panel :=
  { (pts k).toPanel with n := (nrm k).getD 0 }

section
variable {strict : Bool} {env : RunEnv} {ac : PAircraft ℝ} {cur : CurSt ℝ} {s : FlowState} {l : LatticeData}
  {pts : ℕ → PanelPts ℝ} (t : Stats)

theorem panels_cases (h : ∀ k < l.num, l.pts ((k : ℕ) : ℤ) = some (pts k)) :
    ((∀ k < l.num, (l.normal ((k : ℕ) : ℤ)).isSome = true) →
      l.panels = some fun k : Fin l.num => panelN pts (fun k => l.normal (k : ℤ)) k) ∧
    ((∃ k < l.num, ¬ (l.normal ((k : ℕ) : ℤ)).isSome = true) → l.panels = none) := by
  constructor
  · intro hn
    rw [LatticeData.panels_some]
    intro k
    obtain ⟨m, hm⟩ := Option.isSome_iff_exists.1 (hn k k.2)
    unfold LatticeData.panel LatticeData.panelAt panelN
    simp only [h k k.2, hm, Option.getD_some]
  · rintro ⟨k, hk, hn⟩
    unfold LatticeData.panels
    rw [dif_neg]
    intro hall
    have := hall ⟨k, hk⟩
    unfold LatticeData.panel LatticeData.panelAt at this
    rw [h k hk] at this
    cases hm : l.normal ((k : ℕ) : ℤ) with
    | some m => rw [hm] at hn; exact hn rfl
    | none => simp [hm] at this

theorem infoPanels_eq (b : Book) (nrm : ℕ → Option (V3 ℝ)) :
    infoPanels (latObj env ac b pts nrm t) = .ok b.numP := by
  unfold infoPanels latObj
  rw [getInfo_obj (a := b.numP) (b := b.numSub) _ _ rfl rfl]

theorem obj_matrix (v : VlmData) (A : List (List ℝ)) :
    Function.update v.obj "matrix_downwash"
      (some (.val (.farray [A.length, A.length] (A.flatten.map .fin)))) =
      ({ v with matrix := some A } : VlmData).obj := by
  funext k
  by_cases hk : k = "matrix_downwash"
  · subst hk; rfl
  · simp [hk, VlmData.obj]

theorem obj_rhs (v : VlmData) (b : List ℝ) :
    Function.update v.obj "array_rhs" (some (.val (.farray [b.length] (b.map .fin)))) =
      ({ v with rhs := some b } : VlmData).obj := by
  funext k
  by_cases hk : k = "array_rhs"
  · subst hk; rfl
  · simp [hk, VlmData.obj]

theorem nCalcDownwash_eq (h : ∀ k < l.num, l.pts ((k : ℕ) : ℤ) = some (pts k)) (v : VlmData) :
    (∀ x, calcDownwash env l v = .error x →
      nCalcDownwash strict (latObj env ac l.book pts (fun k => l.normal (k : ℤ)) t) v.obj =
        .error (.stop x)) ∧
    (∀ w, calcDownwash env l v = .ok w →
      nCalcDownwash strict (latObj env ac l.book pts (fun k => l.normal (k : ℤ)) t) v.obj =
        .ok w.obj) := by
  have hh := latRows_holds l.num env.eps pts fun k => l.normal (k : ℤ)
  have hpy : ∀ dw, py2cDownwash (latObj env ac l.book pts (fun k => l.normal (k : ℤ)) t) dw =
      nDownwash (latRows l.num env.eps pts fun k => l.normal (k : ℤ)) l.num dw := by
    intro dw
    unfold py2cDownwash latObj
    rw [getLattice_obj, getInfo_obj (a := l.book.numP) (b := l.book.numSub) _ _ rfl rfl]
    rfl
  have hn : l.book.numP.toNat = l.num := rfl
  unfold nCalcDownwash
  simp only [infoPanels_eq, hpy, hn]
  obtain ⟨e1, e2⟩ := nDownwash_eq hh
  obtain ⟨p1, p2⟩ := panels_cases h
  unfold calcDownwash
  by_cases hall : ∀ k < l.num, (l.normal ((k : ℕ) : ℤ)).isSome = true
  · rw [p1 hall]
    simp only []
    unfold vlmDownwash
    by_cases hk : ∀ i j : Fin l.num, HorseshoeOk env.eps
        (panelN pts (fun k => l.normal (k : ℤ)) i).col (panelN pts (fun k => l.normal (k : ℤ)) j)
    · rw [if_pos hk, e1 fun i hi j hj => ⟨hk ⟨i, hi⟩ ⟨j, hj⟩, hall i hi⟩]
      simp only [nCall]
      by_cases h0 : l.num = 0
      · simp only [if_pos h0]
        exact ⟨fun x hx => by cases hx; rfl, fun w hw => by cases hw⟩
      · simp only [if_neg h0]
        refine ⟨fun x hx => (by cases hx), fun w hw => ?_⟩
        cases hw
        rw [← obj_matrix]
        congr 2
        have := rows_fill (n := l.num) fun i j =>
          (horseshoe env.eps (pts i).col (pts j).toPanel).dot ((l.normal (i : ℤ)).getD 0)
        unfold rowsOf
        rw [List.length_ofFn]
        refine congrArg some (congrArg NAttr.val (congrArg _ ?_))
        exact this.symm
    · rw [if_neg hk, e2]
      · exact ⟨fun x hx => by cases hx; rfl, fun w hw => by cases hw⟩
      · by_contra hcon
        push Not at hcon
        apply hk
        intro i j
        exact (hcon i i.2 j j.2).1
  · push Not at hall
    obtain ⟨k, hk, hk'⟩ := hall
    rw [p2 ⟨k, hk, by simp [hk']⟩, e2 ⟨k, hk, k, hk, by simp [hk']⟩]
    exact ⟨fun x hx => by cases hx; rfl, fun w hw => by cases hw⟩

theorem nCalcBoundary_eq (hs : cur.toFlow = some s)
    (hall : ∀ k < l.num, (l.normal ((k : ℕ) : ℤ)).isSome = true) (v : VlmData) :
    nCalcBoundary strict (latObj env ac l.book pts (fun k => l.normal (k : ℤ)) t)
        (stateObject cur env.refs) v.obj =
      .ok ({ v with rhs := some (List.ofFn (vlmBoundary s env.refs
        fun k : Fin l.num => panelN pts (fun k => l.normal (k : ℤ)) k)) } : VlmData).obj := by
  have hh := latRows_holds l.num env.eps pts fun k => l.normal (k : ℤ)
  have hn : l.book.numP.toNat = l.num := rfl
  have hpy : ∀ rhs, py2cBoundary (latObj env ac l.book pts (fun k => l.normal (k : ℤ)) t)
      (stateObject cur env.refs) rhs =
      nBoundary (latRows l.num env.eps pts fun k => l.normal (k : ℤ)) s
        ⟨env.refs.cg.mem, env.refs.rp.mem, env.refs.area, env.refs.span, env.refs.chord⟩ l.num
        rhs := by
    intro rhs
    unfold py2cBoundary latObj
    rw [getLattice_obj, getInfo_obj (a := l.book.numP) (b := l.book.numSub) _ _ rfl rfl,
      getState_ok hs, getRefs_ok]
    rfl
  unfold nCalcBoundary
  simp only [infoPanels_eq, hpy, hn]
  rw [nBoundary_eq hh s (rd3_mem env.refs.cg) hall]
  simp only [nCall]
  rw [← obj_rhs, fill_full]
  congr 3
  rw [List.length_ofFn]
  refine congrArg NAttr.val (congrArg _ ?_)
  rw [← ofFn_nat, List.map_ofFn]
  rfl

theorem nSolver_eq {n : ℕ} (v : VlmData)
    {A : Matrix (Fin n) (Fin n) ℝ} {b : Fin n → ℝ}
    (hA : v.matrix = some (rowsOf A)) (hb : v.rhs = some (List.ofFn b)) :
    nSolver env v.obj = .ok ({ v with
      panelwise := Function.update v.panelwise "gamma"
        (some ((env.dgesv (rowsOf A) (List.ofFn b)).map Flt.fin)) } : VlmData).obj := by
  have o1 : v.obj "matrix_downwash" =
      some (.val (.farray [n, n] ((rowsOf A).flatten.map .fin))) := by
    simp only [VlmData.obj, if_true, hA]
    unfold rowsOf
    rw [List.length_ofFn]
  have o2 : v.obj "array_rhs" = some (.val (.farray [n] ((List.ofFn b).map .fin))) := by
    simp only [VlmData.obj, String.reduceEq, if_true, if_false, hb]
    rw [List.length_ofFn]
  have o3 : v.obj "panelwise" = some (.dict fun k =>
    if k ∈ panelwiseKeys then some (optArray (v.panelwise k)) else none) := rfl
  unfold nSolver
  simp only [o1, o2, o3, finMem_map, memRows_rowsOf]
  congr 1
  funext k
  by_cases hk : k = "panelwise"
  · subst hk
    simp only [Function.update_self, VlmData.obj, String.reduceEq, if_true, if_false]
    congr 2
    funext k
    by_cases hk : k = "gamma"
    · subst hk
      have : "gamma" ∈ panelwiseKeys := by decide
      simp [this, optArray]
    · simp [hk]
  · simp [hk, VlmData.obj]

/-! ## Results -/

theorem store_items {n : ℕ} (items : List (String × Mem)) (d : NDict)
    (hk : (items.map Prod.fst).Nodup)
    (h : ∀ kx ∈ items, ∃ m, d kx.1 = some (.farray [n] m)) :
    items.foldl (fun d kx => NDict.store d kx.1 kx.2) d = fun k => match items.lookup k with
      | some m => some (.farray [n] m)
      | none => d k := by
  induction items generalizing d with
  | nil => rfl
  | cons kx rest ih =>
    obtain ⟨k0, x0⟩ := kx
    simp only [List.map_cons, List.nodup_cons] at hk
    obtain ⟨m, hm⟩ := h (k0, x0) (by simp)
    have hst : NDict.store d k0 x0 = Function.update d k0 (some (.farray [n] x0)) := by
      unfold NDict.store
      rw [hm]
    rw [List.foldl_cons]
    simp only [hst]
    rw [ih _ hk.2]
    · funext k
      rw [lookup_cons']
      by_cases hkk : k = k0
      · subst hkk
        rw [lookup_notMem hk.1, if_pos rfl]
        simp
      · rw [if_neg hkk, Function.update_of_ne hkk]
    · intro kx hx
      by_cases hkk : kx.1 = k0
      · exact absurd (hkk ▸ List.mem_map_of_mem hx) hk.1
      · rw [Function.update_of_ne hkk]
        exact h kx (List.mem_cons_of_mem _ hx)

theorem lookup_pair_mem {β : Type*} {d : List (String × β)} {k : String} {m : β}
    (h : d.lookup k = some m) : (k, m) ∈ d := by
  induction d with
  | nil => cases h
  | cons x d ih =>
    obtain ⟨k', m'⟩ := x
    rw [lookup_cons'] at h
    split_ifs at h with hk
    · cases h; subst hk; simp
    · exact List.mem_cons_of_mem _ (ih h)

theorem freshArrays_eq (n : ℕ) (keys : List String) (d : NDict) (k : String) :
    freshArrays n keys d k = if k ∈ keys then some (npZeros [n]) else d k := by
  induction keys generalizing d with
  | nil => rfl
  | cons a keys ih =>
    unfold freshArrays
    rw [ih]
    by_cases h : k ∈ keys
    · rw [if_pos h, if_pos (List.mem_cons_of_mem _ h)]
    · rw [if_neg h]
      by_cases ha : k = a
      · subst ha; simp
      · rw [Function.update_of_ne ha, if_neg (by simp [ha, h])]

theorem setPresent_map (items : List (String × Flt ℝ)) (d : FltDict) :
    setPresent items (fun k => (d k).map NVal.float) =
      (fun k => ((setKnown items d).1 k).map NVal.float, (setKnown items d).2) := by
  induction items generalizing d with
  | nil => rfl
  | cons kx rest ih =>
    obtain ⟨k0, x0⟩ := kx
    unfold setPresent setKnown
    by_cases h : (d k0).isSome = true
    · rw [if_pos (by rw [Option.isSome_map]; exact h), if_pos h, ← ih]
      congr 1
      funext k
      by_cases hk : k = k0
      · subst hk; simp
      · simp [hk]
    · rw [if_neg (by rw [Option.isSome_map]; exact h), if_neg h]

/-- Keys of the arrays made by `calc_results`. -/
def columnKeys : List String := ["vx", "vy", "vz", "vmag", "fx", "fy", "fz", "fmag", "cp"]

/-- The dictionary of arrays after the results have been written. -/
theorem panelwise_written {n : ℕ} (v : VlmData) (items : List (String × Mem))
    (hi : items.map Prod.fst = columnKeys) (hl : ∀ kx ∈ items, kx.2.length = n) :
    items.foldl (fun d kx => NDict.store d kx.1 kx.2) (freshArrays n columnKeys fun k =>
      if k ∈ panelwiseKeys then some (optArray (v.panelwise k)) else none) =
    fun k => if k ∈ panelwiseKeys then some (optArray (setItems items v.panelwise k)) else none := by
  have hnd : (items.map Prod.fst).Nodup := by rw [hi]; decide
  rw [store_items (n := n) items _ hnd, setItems_eq hnd]
  · funext k
    cases hk : items.lookup k with
    | some m =>
      have hm : (k, m) ∈ items := lookup_pair_mem hk
      have hin : k ∈ columnKeys := by
        rw [← hi]
        exact List.mem_map_of_mem (f := Prod.fst) hm
      have hsub : ∀ k ∈ columnKeys, k ∈ panelwiseKeys := by decide
      have hlm : m.length = n := hl _ hm
      simp only [if_pos (hsub k hin)]
      rw [hk]
      simp only [optArray, hlm]
    | none =>
      simp only []
      have hnot : k ∉ columnKeys := by
        rw [← hi, ← lookup_isSome, hk]
        simp
      rw [freshArrays_eq, if_neg hnot, hk]
  · intro kx hx
    have : kx.1 ∈ columnKeys := by
      rw [← hi]
      exact List.mem_map_of_mem hx
    rw [freshArrays_eq, if_pos this]
    exact ⟨_, rfl⟩

/-- What `calc_results` makes of the object. -/
theorem setResults_obj (v : VlmData) (r : RefMem) {n : ℕ} (R : Results n)
    (hw : R.wind = bodyToWind s R.ftot)
    (hc : R.coeffs = vlmCoeffs s ⟨0, 0, r.area, r.span, r.chord⟩ R.ftot R.mtot)
    (pw : String → Option Mem) (o : NObj)
    (ho : o = Function.update v.obj "panelwise" (some (.dict fun k =>
      if k ∈ panelwiseKeys then some (optArray (pw k)) else none))) :
    setResults s r R.ftot R.mtot o = ({ v with
      panelwise := pw
      forces := (setKnown (forceItems R) v.forces).1
      coeffs := if (setKnown (forceItems R) v.forces).2 then (setKnown (coeffItems R) v.coeffs).1
        else v.coeffs } : VlmData).obj := by
  have o1 : o "forces" = some (.dict fun k => (v.forces k).map NVal.float) := by
    subst ho; rfl
  have o2 : o "coeffs" = some (.dict fun k => (v.coeffs k).map NVal.float) := by
    subst ho; rfl
  unfold setResults
  simp only [o1, o2]
  rw [← hw, ← hc]
  have e1 : setPresent [("x", .fin R.ftot.x), ("y", .fin R.ftot.y), ("z", .fin R.ftot.z),
      ("D", .fin R.wind.x), ("C", .fin R.wind.y), ("L", .fin R.wind.z),
      ("l", .fin R.mtot.x), ("m", .fin R.mtot.y), ("n", .fin R.mtot.z)]
      (fun k => (v.forces k).map NVal.float) =
      (fun k => ((setKnown (forceItems R) v.forces).1 k).map NVal.float,
        (setKnown (forceItems R) v.forces).2) := setPresent_map (forceItems R) v.forces
  have e2 : setPresent [("x", asFlt R.coeffs.cx), ("y", asFlt R.coeffs.cy),
      ("z", asFlt R.coeffs.cz), ("D", asFlt R.coeffs.cD), ("C", asFlt R.coeffs.cC),
      ("L", asFlt R.coeffs.cL), ("l", asFlt R.coeffs.cl), ("m", asFlt R.coeffs.cm),
      ("n", asFlt R.coeffs.cn)] (fun k => (v.coeffs k).map NVal.float) =
      (fun k => ((setKnown (coeffItems R) v.coeffs).1 k).map NVal.float,
        (setKnown (coeffItems R) v.coeffs).2) := setPresent_map (coeffItems R) v.coeffs
  rw [e1, e2]
  subst ho
  cases hb : (setKnown (forceItems R) v.forces).2 with
  | true =>
    simp only [if_true]
    funext k
    by_cases h1 : k = "coeffs"
    · subst h1; rfl
    · by_cases h2 : k = "forces"
      · subst h2; rfl
      · by_cases h3 : k = "panelwise"
        · subst h3; rfl
        · simp [h1, h2, h3, VlmData.obj]
  | false =>
    simp only [Bool.false_eq_true, if_false]
    funext k
    by_cases h2 : k = "forces"
    · subst h2; rfl
    · by_cases h3 : k = "panelwise"
      · subst h3; rfl
      · simp [h2, h3, VlmData.obj]

theorem nCalcResults_eq (hs : cur.toFlow = some s)
    (hall : ∀ k < l.num, (l.normal ((k : ℕ) : ℤ)).isSome = true)
    (h : ∀ k < l.num, l.pts ((k : ℕ) : ℤ) = some (pts k))
    (v : VlmData) {g : List ℝ} (hg : v.panelwise "gamma" = some (g.map .fin))
    (hlen : g.length = l.num) :
    (∀ x, calcResults env l s v = .error x →
      nCalcResults strict (latObj env ac l.book pts (fun k => l.normal (k : ℤ)) t)
        (stateObject cur env.refs) v.obj = .error (.stop x)) ∧
    (∀ w, calcResults env l s v = .ok w →
      nCalcResults strict (latObj env ac l.book pts (fun k => l.normal (k : ℤ)) t)
        (stateObject cur env.refs) v.obj = .ok w.obj) := by
  have hh := latRows_holds l.num env.eps pts fun k => l.normal (k : ℤ)
  set r : RefMem :=
    ⟨env.refs.cg.mem, env.refs.rp.mem, env.refs.area, env.refs.span, env.refs.chord⟩ with hr
  set P : Fin l.num → Panel := fun k => panelN pts (fun k => l.normal (k : ℤ)) k with hP
  set gam : ℕ → ℝ := fun k => g.getD k 0 with hgam
  set nrm : ℕ → V3 ℝ := fun k => (l.normal (k : ℤ)).getD 0 with hnrm
  have hnrm' : ∀ i < l.num, l.normal ((i : ℕ) : ℤ) = some (nrm i) := by
    intro i hi
    obtain ⟨m, hm⟩ := Option.isSome_iff_exists.1 (hall i hi)
    simp only [hnrm, hm, Option.getD_some]
  obtain ⟨r1, r2⟩ := nResults_eq hh s (R := r) (rd3_mem env.refs.cg) (rd3_mem env.refs.rp) nrm gam
    hnrm'
  have heps : (latRows l.num env.eps pts fun k => l.normal (k : ℤ)).eps = env.eps := rfl
  rw [heps] at r1 r2
  set d0 : NDict := freshArrays l.num columnKeys fun k =>
    if k ∈ panelwiseKeys then some (optArray (v.panelwise k)) else none with hd0
  set o : NObj := Function.update v.obj "panelwise" (some (.dict d0)) with ho
  have hdict : o.dict "panelwise" = .ok d0 := rfl
  have hn0 : (npZeros [l.num]) = .farray [l.num] (List.replicate l.num (.fin 0)) := by
    unfold npZeros
    simp
  have hcol : ∀ k ∈ columnKeys, d0.getArray k = .ok (List.replicate l.num (.fin 0)) := by
    intro k hk
    unfold NDict.getArray
    rw [hd0, freshArrays_eq, if_pos hk, hn0]
  have hgm : d0.getArray "gamma" = .ok (g.map .fin) := by
    unfold NDict.getArray
    rw [hd0, freshArrays_eq, if_neg (by decide), if_pos (by decide), hg]
    rfl
  have hg2 : g.map Flt.fin = (List.range l.num).map fun k => .fin (gam k) := by
    apply List.ext_getElem?
    intro k
    by_cases hk : k < l.num
    · rw [List.getElem?_map, List.getElem?_map, List.getElem?_range hk,
        List.getElem?_eq_getElem (by omega)]
      simp only [Option.map_some, hgam]
      rw [List.getD_eq_getElem?_getD, List.getElem?_eq_getElem (by omega), Option.getD_some]
    · rw [List.getElem?_eq_none (by simp; omega), List.getElem?_eq_none (by simp; omega)]
  have hres : getResults o = .ok (resTo env.eps s env.refs.cg env.refs.rp pts nrm gam l.num 0) := by
    unfold getResults
    rw [hdict]
    simp only [bind, Except.bind, hgm, hcol "vx" (by decide), hcol "vy" (by decide),
      hcol "vz" (by decide), hcol "vmag" (by decide), hcol "fx" (by decide), hcol "fy" (by decide),
      hcol "fz" (by decide), hcol "fmag" (by decide), hcol "cp" (by decide)]
    unfold resTo
    simp only [fill_zero, hg2, List.range_zero, List.foldl_nil]
  have hcall : nCalcResults strict (latObj env ac l.book pts (fun k => l.normal (k : ℤ)) t)
      (stateObject cur env.refs) v.obj =
      nCall strict (py2cResults (latObj env ac l.book pts (fun k => l.normal (k : ℤ)) t)
        (stateObject cur env.refs) o) o := by
    unfold nCalcResults
    rw [infoPanels_eq]
    rfl
  have hpy : py2cResults (latObj env ac l.book pts (fun k => l.normal (k : ℤ)) t)
      (stateObject cur env.refs) o = (do
        let m ← nResults (latRows l.num env.eps pts fun k => l.normal (k : ℤ)) s r l.num
          (resTo env.eps s env.refs.cg env.refs.rp pts nrm gam l.num 0)
        .ok (setResults s r m.ftot m.mtot (Function.update o "panelwise" (some (.dict
          (([("vx", m.iwX), ("vy", m.iwY), ("vz", m.iwZ), ("vmag", m.iwMag), ("fx", m.fX),
            ("fy", m.fY), ("fz", m.fZ), ("fmag", m.fMag), ("cp", m.cp)] :
              List (String × Mem)).foldl (fun d kx => NDict.store d kx.1 kx.2) d0)))))) := by
    unfold py2cResults latObj
    rw [getLattice_obj, getInfo_obj (a := l.book.numP) (b := l.book.numSub) _ _ rfl rfl,
      getState_ok hs, getRefs_ok, hres, hdict]
    rfl
  rw [hcall, hpy]
  unfold calcResults
  rw [hg, (panels_cases h).1 hall]
  simp only [gammaAt_map]
  by_cases hk : ∀ i j : Fin l.num, HorseshoeOk env.eps (P i).mid (P j)
  · rw [r1 fun i hi j hj => hk ⟨i, hi⟩ ⟨j, hj⟩]
    set T := resTo env.eps s env.refs.cg env.refs.rp pts nrm gam l.num l.num with hT
    cases hv : vlmResults env.eps s env.refs P (fun i => g.getD i 0) with
    | none =>
      unfold vlmResults at hv
      rw [if_pos hk] at hv
      cases hv
    | some R =>
      simp only [bind, Except.bind, nCall]
      refine ⟨fun x hx => (by cases hx), fun w hw => ?_⟩
      cases hw
      have hin : ∀ i : Fin l.num, inwash env.eps P (fun i => g.getD i 0) (P i).mid =
          inwTo env.eps pts gam i l.num := by
        intro i
        unfold inwash inwTo
        exact foldl_finRange (fun acc j => acc + gam j • horseshoe env.eps (pts i).mid
          (pts j).toPanel) 0
      have hf : ∀ i : Fin l.num, panelForce env.eps s env.refs P (fun i => g.getD i 0) i =
          forceAt env.eps s env.refs.cg pts gam l.num i := by
        intro i
        unfold panelForce panelVel forceAt
        rw [hin i]
        rfl
      have hft : (List.finRange l.num).foldl (fun acc i => acc +
            panelForce env.eps s env.refs P (fun i => g.getD i 0) i) 0 = T.ftot := by
        simp only [hf]
        exact foldl_finRange (fun acc j => acc + forceAt env.eps s env.refs.cg pts gam l.num j) 0
      have hmt : (List.finRange l.num).foldl (fun acc i => acc +
            panelMoment env.eps s env.refs P (fun i => g.getD i 0) i) 0 = T.mtot := by
        unfold panelMoment
        simp only [hf]
        exact foldl_finRange (fun acc j => acc + ((pts j).mid - env.refs.rp).cross
          (forceAt env.eps s env.refs.cg pts gam l.num j)) 0
      have hcp : ∀ i : Fin l.num, panelCp env.eps s env.refs P (fun i => g.getD i 0) i =
          cdiv ((forceAt env.eps s env.refs.cg pts gam l.num i).dot (nrm i))
            (dynPressure s * (pts i).area) := by
        intro i
        unfold panelCp
        rw [hf i]
        rfl
      unfold vlmResults at hv
      rw [if_pos hk] at hv
      simp only [Option.some.injEq] at hv
      have e1 : R.ftot = T.ftot := by rw [← hft, ← hv]
      have e2 : R.mtot = T.mtot := by rw [← hmt, ← hv]
      have e3 : R.wind = bodyToWind s R.ftot := by rw [← hv]
      have e4 : R.coeffs = vlmCoeffs s ⟨0, 0, r.area, r.span, r.chord⟩ R.ftot R.mtot := by
        rw [← hv]
        rfl
      have ecol : [("vx", T.iwX), ("vy", T.iwY), ("vz", T.iwZ), ("vmag", T.iwMag), ("fx", T.fX),
          ("fy", T.fY), ("fz", T.fZ), ("fmag", T.fMag), ("cp", T.cp)] = panelColumns R := by
        rw [← hv]
        unfold panelColumns
        simp only [hin, hf, hcp, hT, resTo, fill_full, ← ofFn_nat]
      have ecol' := panelwise_written (n := l.num) v (panelColumns R) rfl (by
        intro kx hx
        simp only [panelColumns, List.mem_cons, List.not_mem_nil, or_false] at hx
        rcases hx with rfl | rfl | rfl | rfl | rfl | rfl | rfl | rfl | rfl <;>
          exact List.length_ofFn)
      rw [ecol, hd0, ecol', ← e1, ← e2]
      refine congrArg Except.ok (setResults_obj v r R e3 e4 _ _ ?_)
      rw [ho, Function.update_idem]
  · have hv : vlmResults env.eps s env.refs P (fun i => g.getD i 0) = none := by
      unfold vlmResults
      rw [if_neg hk]
    rw [r2]
    · rw [hv]
      exact ⟨fun x hx => by cases hx; rfl, fun w hw => by cases hw⟩
    · by_contra hcon
      push Not at hcon
      exact hk fun i j => hcon i i.2 j j.2

end

end Verif
