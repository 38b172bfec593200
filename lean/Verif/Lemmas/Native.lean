import Verif.Model.Native
import Verif.Lemmas.Run
import Verif.Lemmas.Normals
import Verif.Lemmas.Lattice

/-!
# Lemmas about loops over flat arrays
-/

namespace Verif

/-! ## Loops and arrays -/

/-- A loop that goes through the states `S 0`, `S 1`, … as long as all is good. -/
theorem forLoop_cases {σ : Type*} {n : ℕ} {f : ℕ → σ → Except NErr σ} (S : ℕ → σ)
    (good : ℕ → Prop) {e : NErr} (h1 : ∀ i < n, good i → f i (S i) = .ok (S (i + 1)))
    (h2 : ∀ i < n, ¬ good i → f i (S i) = .error e) :
    ((∀ i < n, good i) → forLoop n f (S 0) = .ok (S n)) ∧
    ((∃ i < n, ¬ good i) → forLoop n f (S 0) = .error e) := by
  induction n with
  | zero => simp [forLoop]
  | succ n ih =>
    obtain ⟨i1, i2⟩ := ih (fun i hi => h1 i (by omega)) (fun i hi => h2 i (by omega))
    constructor
    · intro h
      unfold forLoop
      rw [i1 fun i hi => h i (by omega)]
      exact h1 n (by omega) (h n (by omega))
    · rintro ⟨i, hi, hb⟩
      unfold forLoop
      by_cases hg : ∃ i < n, ¬ good i
      · rw [i2 hg]
      · push Not at hg
        rw [i1 hg]
        rcases Nat.lt_succ_iff_lt_or_eq.1 hi with h | rfl
        · exact absurd (hg i h) hb
        · exact h2 i (by omega) hb

theorem forLoop_ok {σ : Type*} {n : ℕ} {f : ℕ → σ → Except NErr σ} (S : ℕ → σ)
    (h1 : ∀ i < n, f i (S i) = .ok (S (i + 1))) : forLoop n f (S 0) = .ok (S n) :=
  (forLoop_cases (e := .refused) S (fun _ => True) (fun i hi _ => h1 i hi)
    (fun _ _ h => absurd trivial h)).1 fun _ _ => trivial

/-- An array of zeros of which the first `m` elements have been written. -/
def fill (m N : ℕ) (g : ℕ → Flt ℝ) : Mem :=
  (List.range N).map fun k => if k < m then g k else .fin 0

@[simp] theorem fill_length (m N : ℕ) (g : ℕ → Flt ℝ) : (fill m N g).length = N := by simp [fill]

theorem fill_zero (N : ℕ) (g : ℕ → Flt ℝ) : fill 0 N g = List.replicate N (.fin 0) := by
  unfold fill
  simp [List.map_const']

theorem fill_get {m N : ℕ} (g : ℕ → Flt ℝ) {k : ℕ} (h : k < N) :
    (fill m N g)[k]? = some (if k < m then g k else .fin 0) := by
  unfold fill
  rw [List.getElem?_map, List.getElem?_range h]
  rfl

theorem fill_set {m N : ℕ} (g : ℕ → Flt ℝ) : (fill m N g).set m (g m) = fill (m + 1) N g := by
  apply List.ext_getElem?
  intro k
  rw [List.getElem?_set]
  by_cases hk : k < N
  · by_cases e : m = k
    · subst e
      rw [if_pos rfl, fill_length, if_pos hk, fill_get g hk, if_pos (by omega)]
    · rw [if_neg e, fill_get g hk, fill_get g hk]
      congr 1
      by_cases h : k < m
      · rw [if_pos h, if_pos (by omega)]
      · rw [if_neg h, if_neg (by omega)]
  · have e1 : (fill m N g)[k]? = none := List.getElem?_eq_none (by simpa using hk)
    have e2 : (fill (m + 1) N g)[k]? = none := List.getElem?_eq_none (by simpa using hk)
    rw [e1, e2]
    by_cases e : m = k
    · subst e; simp [hk]
    · simp [e]

theorem wr_fill {m N : ℕ} (g : ℕ → Flt ℝ) {x : Flt ℝ} (h : m < N) (hx : x = g m) :
    wr (fill m N g) m x = .ok (fill (m + 1) N g) := by
  subst hx
  unfold wr
  rw [if_pos (by simpa using h), fill_set]

theorem wr_set {a : Mem} {i : ℕ} {x y : Flt ℝ} (h : i < a.length) :
    wr (a.set i x) i y = .ok (a.set i y) := by
  unfold wr
  rw [if_pos (by simpa using h), List.set_set]

theorem wr_ok {a : Mem} {i : ℕ} {y : Flt ℝ} (h : i < a.length) : wr a i y = .ok (a.set i y) := by
  unfold wr
  rw [if_pos h]

theorem rd_set {a : Mem} {i : ℕ} {x : ℝ} (h : i < a.length) : rd (a.set i (.fin x)) i = .ok x := by
  unfold rd
  rw [List.getElem?_set]
  simp [h, useFlt]

theorem rd_fin {a : Mem} {i : ℕ} {x : ℝ} (h : a[i]? = some (.fin x)) : rd a i = .ok x := by
  unfold rd
  rw [h]
  rfl

theorem rd3_fin {a : Mem} {i : ℕ} {v : V3 ℝ} (h0 : a[i]? = some (.fin v.x))
    (h1 : a[i + 1]? = some (.fin v.y)) (h2 : a[i + 2]? = some (.fin v.z)) : rd3 a i = .ok v := by
  unfold rd3
  rw [rd_fin h0, rd_fin h1, rd_fin h2]
  rfl

theorem rd3_nonfin {a : Mem} {i : ℕ} (h : a[i]? = some .nonfin) : rd3 a i = .error .notFinite := by
  unfold rd3 rd
  rw [h]
  rfl

/-- Elements of an array made of rows. -/
theorem flatMap_get' {α β : Type*} {w : ℕ} {f : β → List α} {l : List β}
    (hf : ∀ x ∈ l, (f x).length = w) {i c : ℕ} (hc : c < w) :
    (l.flatMap f)[i * w + c]? = l[i]?.bind fun x => (f x)[c]? := by
  induction l generalizing i with
  | nil => simp
  | cons x l ih =>
    have hx := hf x (by simp)
    rw [List.flatMap_cons]
    cases i with
    | zero =>
      rw [zero_mul, zero_add, List.getElem?_append_left (by omega)]
      simp
    | succ i =>
      have e : (i + 1) * w + c = w + (i * w + c) := by ring
      rw [e, List.getElem?_append_right (by omega), hx, Nat.add_sub_cancel_left,
        ih (fun y hy => hf y (List.mem_cons_of_mem _ hy))]
      simp

theorem flatMap_get {α : Type*} {w n : ℕ} {f : ℕ → List α} (hf : ∀ i < n, (f i).length = w)
    {i c : ℕ} (hi : i < n) (hc : c < w) :
    ((List.range n).flatMap f)[i * w + c]? = (f i)[c]? := by
  rw [flatMap_get' (fun x hx => hf x (List.mem_range.1 hx)) hc, List.getElem?_range hi]
  rfl

theorem flatMap_length {α : Type*} {w n : ℕ} {f : ℕ → List α} (hf : ∀ i < n, (f i).length = w) :
    ((List.range n).flatMap f).length = n * w := by
  induction n with
  | zero => simp
  | succ n ih =>
    rw [List.range_succ, List.flatMap_append, List.length_append,
      ih (fun i hi => hf i (by omega))]
    simp only [List.flatMap_cons, List.flatMap_nil, List.append_nil]
    rw [hf n (by omega)]
    ring

/-! ## Induced velocity -/

open Classical in
theorem nLeg_eq {L : LatMem} {x a b : V3 ℝ} {j k : ℕ} (ha : rd3 L.v (j * 4 * 3 + k * 3) = .ok a)
    (hb : rd3 L.v (j * 4 * 3 + (k + 1) * 3) = .ok b) :
    nLeg L x j k = if KernelOk L.eps x a b then .ok (kernel L.eps x a b) else .error .notFinite := by
  unfold nLeg KernelOk kernel ndiv
  rw [ha, hb]
  simp only [bind, Except.bind, kernelDen]
  by_cases h0 : (x - a).dot (x - b) + (x - a).norm * (x - b).norm * (1 + L.eps) = 0
  · simp [h0]
  · by_cases h1 : (x - a).norm = 0
    · simp [h1]
      split_ifs <;> rfl
    · by_cases h2 : (x - b).norm = 0
      · simp [h1, h2]
        split_ifs <;> rfl
      · simp [h0, h1, h2]

/-- Vortex points of a panel by number. -/
def PanelPts.hv (g : PanelPts ℝ) : ℕ → V3 ℝ
  | 0 => g.v1
  | 1 => g.v2
  | 2 => g.v3
  | _ => g.v4

/-- The arrays hold the data of `n` panels. -/
structure LatMem.Holds (L : LatMem) (n : ℕ) (pts : ℕ → PanelPts ℝ) (nrm : ℕ → Option (V3 ℝ)) :
    Prop where
  hv : ∀ j < n, ∀ k < 4, rd3 L.v (j * 4 * 3 + k * 3) = .ok ((pts j).hv k)
  hc : ∀ j < n, rd3 L.c (j * 3) = .ok (pts j).col
  hmid : ∀ j < n, rd3 L.mid (j * 3) = .ok (pts j).mid
  hn : ∀ j < n, rd3 L.n (j * 3) = match nrm j with
    | some m => .ok m
    | none => .error .notFinite
  ha : ∀ j < n, rd L.a j = .ok (pts j).area

open Classical in
theorem nHorseshoe_eq {L : LatMem} {n : ℕ} {pts : ℕ → PanelPts ℝ} {nrm : ℕ → Option (V3 ℝ)}
    (h : L.Holds n pts nrm) (x : V3 ℝ) {j : ℕ} (hj : j < n) :
    nHorseshoe L x j = if HorseshoeOk L.eps x (pts j).toPanel then
      .ok (horseshoe L.eps x (pts j).toPanel) else .error .notFinite := by
  unfold nHorseshoe
  simp only [forLoop]
  rw [nLeg_eq (h.hv j hj 0 (by omega)) (h.hv j hj 1 (by omega)),
    nLeg_eq (h.hv j hj 1 (by omega)) (h.hv j hj 2 (by omega)),
    nLeg_eq (h.hv j hj 2 (by omega)) (h.hv j hj 3 (by omega))]
  unfold HorseshoeOk horseshoe PanelPts.toPanel PanelPts.hv
  simp only [bind, Except.bind]
  by_cases h1 : KernelOk L.eps x (pts j).v1 (pts j).v2
  · by_cases h2 : KernelOk L.eps x (pts j).v2 (pts j).v3
    · by_cases h3 : KernelOk L.eps x (pts j).v3 (pts j).v4
      · simp [h1, h2, h3]
      · simp [h1, h2, h3]
    · simp [h1, h2]
  · simp [h1]

/-! ## The matrix -/

/-- Elements of the matrix in the order of the flat array. -/
noncomputable def dwAt (eps : ℝ) (n : ℕ) (pts : ℕ → PanelPts ℝ) (nrm : ℕ → Option (V3 ℝ)) (k : ℕ) :
    Flt ℝ :=
  .fin ((horseshoe eps (pts (k / n)).col (pts (k % n)).toPanel).dot ((nrm (k / n)).getD 0))

theorem nDownwash_eq {L : LatMem} {n : ℕ} {pts : ℕ → PanelPts ℝ} {nrm : ℕ → Option (V3 ℝ)}
    (h : L.Holds n pts nrm) :
    ((∀ i < n, ∀ j < n, HorseshoeOk L.eps (pts i).col (pts j).toPanel ∧ (nrm i).isSome = true) →
      nDownwash L n (List.replicate (n * n) (.fin 0)) =
        .ok (fill (n * n) (n * n) (dwAt L.eps n pts nrm))) ∧
    ((∃ i < n, ∃ j < n, ¬ (HorseshoeOk L.eps (pts i).col (pts j).toPanel ∧
        (nrm i).isSome = true)) →
      nDownwash L n (List.replicate (n * n) (.fin 0)) = .error .notFinite) := by
  set g := dwAt L.eps n pts nrm with hg
  have inner : ∀ i < n, _ := fun i hi => forLoop_cases (e := .notFinite) (n := n)
      (f := fun j dw => do
        let x ← rd3 L.c (i * 3)
        let w ← nHorseshoe L x j
        let m ← rd3 L.n (i * 3)
        wr dw (i * n + j) (.fin (w.x * m.x + w.y * m.y + w.z * m.z)))
      (fun j => fill (i * n + j) (n * n) g)
      (fun j => HorseshoeOk L.eps (pts i).col (pts j).toPanel ∧ (nrm i).isSome = true)
      (by
        intro j hj hgood
        obtain ⟨m, hm⟩ := Option.isSome_iff_exists.1 hgood.2
        simp only [h.hc i hi, nHorseshoe_eq h _ hj, h.hn i hi, hm, bind, Except.bind,
          if_pos hgood.1]
        have hn : 0 < n := by omega
        have hidx : i * n + j < n * n := by
          calc i * n + j < i * n + n := by omega
            _ = (i + 1) * n := by ring
            _ ≤ n * n := Nat.mul_le_mul_right _ hi
        refine wr_fill g hidx ?_
        have e1 : (i * n + j) / n = i := by
          rw [mul_comm, Nat.mul_add_div hn, Nat.div_eq_of_lt hj, add_zero]
        have e2 : (i * n + j) % n = j := by
          rw [mul_comm, Nat.mul_add_mod, Nat.mod_eq_of_lt hj]
        simp only [hg, dwAt, e1, e2, hm, Option.getD_some]
        rfl)
      (by
        intro j hj hbad
        simp only [h.hc i hi, nHorseshoe_eq h _ hj, h.hn i hi, bind, Except.bind]
        by_cases hk : HorseshoeOk L.eps (pts i).col (pts j).toPanel
        · rw [if_pos hk]
          have : nrm i = none := by
            rw [← Option.not_isSome_iff_eq_none]
            exact fun e => hbad ⟨hk, e⟩
          simp only [this]
        · rw [if_neg hk])
  have key := forLoop_cases (e := .notFinite) (n := n)
    (f := fun i dw => forLoop n (fun j dw => do
      let x ← rd3 L.c (i * 3)
      let w ← nHorseshoe L x j
      let m ← rd3 L.n (i * 3)
      wr dw (i * n + j) (.fin (w.x * m.x + w.y * m.y + w.z * m.z))) dw)
    (fun i => fill (i * n) (n * n) g)
    (fun i => ∀ j < n, HorseshoeOk L.eps (pts i).col (pts j).toPanel ∧ (nrm i).isSome = true)
    (by
      intro i hi hgood
      have := (inner i hi).1 hgood
      rw [add_zero] at this
      refine this.trans ?_
      congr 2
      ring)
    (by
      intro i hi hbad
      push Not at hbad
      obtain ⟨j, hj, hb⟩ := hbad
      have := (inner i hi).2 ⟨j, hj, fun hh => hb hh.1 hh.2⟩
      rw [add_zero] at this
      exact this)
  rw [zero_mul, fill_zero] at key
  refine ⟨key.1, fun hb => key.2 ?_⟩
  obtain ⟨i, hi, j, hj, hb⟩ := hb
  exact ⟨i, hi, fun hh => hb (hh j hj)⟩

/-! ## The right-hand side -/

theorem nBoundary_eq {L : LatMem} {n : ℕ} {pts : ℕ → PanelPts ℝ} {nrm : ℕ → Option (V3 ℝ)}
    (h : L.Holds n pts nrm) (s : FlowState) {R : RefMem} {cg : V3 ℝ} (hcg : rd3 R.cg 0 = .ok cg)
    (hn : ∀ i < n, (nrm i).isSome = true) :
    nBoundary L s R n (List.replicate n (.fin 0)) = .ok (fill n n fun i => .fin
      ((velWind s + velRot s ((pts i).col - cg)).dot ((nrm i).getD 0))) := by
  set g : ℕ → Flt ℝ := fun i => .fin
    ((velWind s + velRot s ((pts i).col - cg)).dot ((nrm i).getD 0)) with hg
  unfold nBoundary
  rw [← fill_zero n g]
  refine forLoop_ok (fun i => fill i n g) ?_
  intro i hi
  obtain ⟨m, hm⟩ := Option.isSome_iff_exists.1 (hn i hi)
  simp only [h.hc i hi, hcg, h.hn i hi, hm, bind, Except.bind]
  refine wr_fill g hi ?_
  simp only [hg, hm, Option.getD_some]
  rfl

/-! ## The results -/

section
variable (eps : ℝ) (s : FlowState) (cg rp : V3 ℝ) (pts : ℕ → PanelPts ℝ) (nrm : ℕ → V3 ℝ)
  (gam : ℕ → ℝ)

/-- Velocity induced by the first `m` panels at the bound leg of panel `i`. -/
noncomputable def inwTo (i m : ℕ) : V3 ℝ :=
  (List.range m).foldl (fun acc j => acc + gam j • horseshoe eps (pts i).mid (pts j).toPanel) 0

/-- Force on panel `i`. -/
noncomputable def forceAt (n i : ℕ) : V3 ℝ :=
  let w := (inwTo eps pts gam i n - (velWind s + velRot s ((pts i).mid - cg))).cross
    ((pts i).v3 - (pts i).v2)
  ⟨s.rho * w.x * gam i, s.rho * w.y * gam i, s.rho * w.z * gam i⟩

/-- The results after `i` panels. -/
noncomputable def resTo (n i : ℕ) : ResMem where
  gamma := (List.range n).map fun k => .fin (gam k)
  iwX := fill i n fun k => .fin (inwTo eps pts gam k n).x
  iwY := fill i n fun k => .fin (inwTo eps pts gam k n).y
  iwZ := fill i n fun k => .fin (inwTo eps pts gam k n).z
  iwMag := fill i n fun k => .fin (inwTo eps pts gam k n).norm
  fX := fill i n fun k => .fin (forceAt eps s cg pts gam n k).x
  fY := fill i n fun k => .fin (forceAt eps s cg pts gam n k).y
  fZ := fill i n fun k => .fin (forceAt eps s cg pts gam n k).z
  fMag := fill i n fun k => .fin (forceAt eps s cg pts gam n k).norm
  cp := fill i n fun k => asFlt (cdiv ((forceAt eps s cg pts gam n k).dot (nrm k))
    (dynPressure s * (pts k).area))
  ftot := (List.range i).foldl (fun acc k => acc + forceAt eps s cg pts gam n k) 0
  mtot := (List.range i).foldl (fun acc k => acc +
    ((pts k).mid - rp).cross (forceAt eps s cg pts gam n k)) 0

/-- The results within the loop for panel `i`, after `j` emitting panels. -/
noncomputable def resIn (n i j : ℕ) : ResMem :=
  let r := resTo eps s cg rp pts nrm gam n i
  { r with
    iwX := r.iwX.set i (.fin (inwTo eps pts gam i j).x)
    iwY := r.iwY.set i (.fin (inwTo eps pts gam i j).y)
    iwZ := r.iwZ.set i (.fin (inwTo eps pts gam i j).z)
    iwMag := r.iwMag.set i (.fin (inwTo eps pts gam i j).norm) }

end

theorem inwTo_zero (eps : ℝ) (pts : ℕ → PanelPts ℝ) (gam : ℕ → ℝ) (i : ℕ) :
    inwTo eps pts gam i 0 = 0 := by
  simp [inwTo]

theorem inwTo_succ (eps : ℝ) (pts : ℕ → PanelPts ℝ) (gam : ℕ → ℝ) (i j : ℕ) :
    inwTo eps pts gam i (j + 1) =
      inwTo eps pts gam i j + gam j • horseshoe eps (pts i).mid (pts j).toPanel := by
  simp [inwTo, List.range_succ]

theorem norm_zero_vec : (0 : V3 ℝ).norm = 0 := by simp [V3.norm]

theorem nClear_eq (eps : ℝ) (s : FlowState) (cg rp : V3 ℝ) (pts : ℕ → PanelPts ℝ)
    (nrm : ℕ → V3 ℝ) (gam : ℕ → ℝ) {n i : ℕ} (hi : i < n) :
    nClear i (resTo eps s cg rp pts nrm gam n i) = .ok (resIn eps s cg rp pts nrm gam n i 0) := by
  unfold nClear resIn
  simp only [resTo]
  rw [wr_ok (by simpa using hi), wr_ok (by simpa using hi), wr_ok (by simpa using hi),
    wr_ok (by simpa using hi)]
  simp only [bind, Except.bind, inwTo_zero, norm_zero_vec]
  rfl

theorem gamma_get (gam : ℕ → ℝ) {n j : ℕ} (hj : j < n) :
    rd ((List.range n).map fun k => (.fin (gam k) : Flt ℝ)) j = .ok (gam j) := by
  apply rd_fin
  rw [List.getElem?_map, List.getElem?_range hj]
  rfl

theorem nInwash_eq {L : LatMem} {n : ℕ} {pts : ℕ → PanelPts ℝ} {nrm' : ℕ → Option (V3 ℝ)}
    (h : L.Holds n pts nrm') (s : FlowState) (cg rp : V3 ℝ) (nrm : ℕ → V3 ℝ) (gam : ℕ → ℝ)
    {i j : ℕ} (hi : i < n) (hj : j < n) :
    (HorseshoeOk L.eps (pts i).mid (pts j).toPanel →
      nInwash L (pts i).mid i j (resIn L.eps s cg rp pts nrm gam n i j) =
        .ok (resIn L.eps s cg rp pts nrm gam n i (j + 1))) ∧
    (¬ HorseshoeOk L.eps (pts i).mid (pts j).toPanel →
      nInwash L (pts i).mid i j (resIn L.eps s cg rp pts nrm gam n i j) = .error .notFinite) := by
  unfold nInwash
  rw [nHorseshoe_eq h _ hj]
  constructor
  · intro hk
    rw [if_pos hk]
    simp only [resIn, resTo]
    have hl : ∀ g : ℕ → Flt ℝ, i < (fill i n g).length := by intro g; simpa using hi
    simp only [bind, Except.bind, gamma_get gam hj, rd_set (hl _), wr_set (hl _)]
    have e : ∀ a b : ℝ, a * b = b * a := fun a b => mul_comm a b
    simp only [inwTo_succ, V3.add_x, V3.add_y, V3.add_z, V3.smul_x, V3.smul_y, V3.smul_z]
    rw [e (gam j), e (gam j), e (gam j)]
    congr 6 <;> simp only [V3.smul_x, V3.smul_y, V3.smul_z, e (gam j)]
  · intro hk
    rw [if_neg hk]
    rfl

theorem nLoads_eq {L : LatMem} {n : ℕ} {pts : ℕ → PanelPts ℝ} {nrm' : ℕ → Option (V3 ℝ)}
    (h : L.Holds n pts nrm') (s : FlowState) {R : RefMem} {cg rp : V3 ℝ}
    (hcg : rd3 R.cg 0 = .ok cg) (hrp : rd3 R.rp 0 = .ok rp) (nrm : ℕ → V3 ℝ) (gam : ℕ → ℝ)
    {i : ℕ} (hi : i < n) (hnrm : nrm' i = some (nrm i)) :
    nLoads L s R (pts i).mid i (resIn L.eps s cg rp pts nrm gam n i n) =
      .ok (resTo L.eps s cg rp pts nrm gam n (i + 1)) := by
  unfold nLoads
  have hl : ∀ g : ℕ → Flt ℝ, i < (fill i n g).length := by intro g; simpa using hi
  simp only [resIn, resTo]
  rw [h.hv i hi 2 (by omega), h.hv i hi 1 (by omega), hcg, hrp, h.ha i hi, h.hn i hi, hnrm]
  simp only [bind, Except.bind, gamma_get gam hi, rd_set (hl _)]
  have hf : (⟨s.rho * (((⟨(inwTo L.eps pts gam i n).x, (inwTo L.eps pts gam i n).y,
      (inwTo L.eps pts gam i n).z⟩ : V3 ℝ) - (velWind s + velRot s ((pts i).mid - cg))).cross
        ((pts i).hv 2 - (pts i).hv 1)).x * gam i,
      s.rho * (((⟨(inwTo L.eps pts gam i n).x, (inwTo L.eps pts gam i n).y,
      (inwTo L.eps pts gam i n).z⟩ : V3 ℝ) - (velWind s + velRot s ((pts i).mid - cg))).cross
        ((pts i).hv 2 - (pts i).hv 1)).y * gam i,
      s.rho * (((⟨(inwTo L.eps pts gam i n).x, (inwTo L.eps pts gam i n).y,
      (inwTo L.eps pts gam i n).z⟩ : V3 ℝ) - (velWind s + velRot s ((pts i).mid - cg))).cross
        ((pts i).hv 2 - (pts i).hv 1)).z * gam i⟩ : V3 ℝ) = forceAt L.eps s cg pts gam n i := rfl
  rw [hf]
  rw [wr_fill _ hi (congrArg Flt.fin (congrArg V3.x hf)),
    wr_fill _ hi (congrArg Flt.fin (congrArg V3.y hf)),
    wr_fill _ hi (congrArg Flt.fin (congrArg V3.z hf)), wr_fill _ hi rfl]
  simp only
  rw [wr_fill _ hi (by rfl)]
  simp only
  have fs : ∀ g : ℕ → Flt ℝ, (fill i n g).set i (g i) = fill (i + 1) n g := fun g => fill_set g
  congr 1
  rw [ResMem.mk.injEq]
  refine ⟨rfl, fs _, fs _, fs _, fs _, rfl, rfl, rfl, rfl, rfl, ?_, ?_⟩
  · rw [List.range_succ, List.foldl_append]
    rfl
  · rw [List.range_succ, List.foldl_append]
    rfl

theorem nResults_eq {L : LatMem} {n : ℕ} {pts : ℕ → PanelPts ℝ} {nrm' : ℕ → Option (V3 ℝ)}
    (h : L.Holds n pts nrm') (s : FlowState) {R : RefMem} {cg rp : V3 ℝ}
    (hcg : rd3 R.cg 0 = .ok cg) (hrp : rd3 R.rp 0 = .ok rp) (nrm : ℕ → V3 ℝ) (gam : ℕ → ℝ)
    (hnrm : ∀ i < n, nrm' i = some (nrm i)) :
    ((∀ i < n, ∀ j < n, HorseshoeOk L.eps (pts i).mid (pts j).toPanel) →
      nResults L s R n (resTo L.eps s cg rp pts nrm gam n 0) =
        .ok (resTo L.eps s cg rp pts nrm gam n n)) ∧
    ((∃ i < n, ∃ j < n, ¬ HorseshoeOk L.eps (pts i).mid (pts j).toPanel) →
      nResults L s R n (resTo L.eps s cg rp pts nrm gam n 0) = .error .notFinite) := by
  have inner : ∀ i < n, _ := fun i hi => forLoop_cases (e := .notFinite) (n := n)
    (f := fun j r => nInwash L (pts i).mid i j r)
    (fun j => resIn L.eps s cg rp pts nrm gam n i j)
    (fun j => HorseshoeOk L.eps (pts i).mid (pts j).toPanel)
    (fun j hj hg => (nInwash_eq h s cg rp nrm gam hi hj).1 hg)
    (fun j hj hb => (nInwash_eq h s cg rp nrm gam hi hj).2 hb)
  have key := forLoop_cases (e := .notFinite) (n := n)
    (f := fun i r => do
      let x ← rd3 L.mid (i * 3)
      let r ← nClear i r
      let r ← forLoop n (fun j r => nInwash L x i j r) r
      nLoads L s R x i r)
    (fun i => resTo L.eps s cg rp pts nrm gam n i)
    (fun i => ∀ j < n, HorseshoeOk L.eps (pts i).mid (pts j).toPanel)
    (by
      intro i hi hg
      simp only [h.hmid i hi, nClear_eq L.eps s cg rp pts nrm gam hi, bind, Except.bind,
        (inner i hi).1 hg]
      exact nLoads_eq h s hcg hrp nrm gam hi (hnrm i hi))
    (by
      intro i hi hb
      push Not at hb
      simp only [h.hmid i hi, nClear_eq L.eps s cg rp pts nrm gam hi, bind, Except.bind,
        (inner i hi).2 hb])
  refine ⟨key.1, fun hb => key.2 ?_⟩
  obtain ⟨i, hi, j, hj, hb⟩ := hb
  exact ⟨i, hi, fun hh => hb (hh j hj)⟩

end Verif
