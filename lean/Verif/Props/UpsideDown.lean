import Verif.Props.Deflection
import Verif.Props.NoLoads
import Verif.Props.RunMirror

/-!
# Property C139: a flat aircraft flies as well upside down
-/

set_option linter.unnecessarySeqFocus false

namespace Verif

open V3

/-! ## Specification -/

/-- Flight state `i` of the second collection is that of the first upside down: angle of attack, roll and
pitch rate are reversed, everything else is the same. -/
def UpsideDownAt (st st' : FlightSt ℝ) (i : ℕ) : Prop :=
  (∀ p ∈ ["alpha", "rate_P", "rate_Q"], EntryReversed st st' p i) ∧
  ∀ p ∈ ["airspeed", "density", "beta", "rate_R"], EntryTimes 1 st st' p i

/-- A value with the opposite sign. -/
def Val.opposite : Val ℝ → Val ℝ
  | .num f => .num f.neg
  | .none => .none
  | .text f => .text (f.map Flt.neg)
  | .obj => .obj

/-- A number or a list of numbers, with the opposite signs. -/
def Arg.opposite : Arg ℝ → Arg ℝ
  | .scalar v => .scalar v.opposite
  | .list l => .list (l.map Val.opposite)

/-- A state file with the values of some parameters reversed. -/
def reversedState (keys : List String) (sd : List (String × Arg ℝ)) : List (String × Arg ℝ) :=
  sd.map fun x => (x.1, if x.1 ∈ keys then x.2.opposite else x.2)

/-- The second project differs from the first in its state files only. -/
structure Project.OtherState (P P2 : Project) : Prop where
  base : P2.base = P.base
  root : P2.root = P.root
  settings : P2.settings = P.settings
  aircraft : P2.aircraft = P.aircraft
  deformation : P2.deformation = P.deformation

/-! ## Reflection in a horizontal plane -/

@[simp] theorem flipZ_x (u : V3 ℝ) : (flipZ u).x = u.x := rfl
@[simp] theorem flipZ_y (u : V3 ℝ) : (flipZ u).y = u.y := rfl
@[simp] theorem flipZ_z (u : V3 ℝ) : (flipZ u).z = -u.z := rfl

theorem flipZ_dot (u v : V3 ℝ) : (flipZ u).dot (flipZ v) = u.dot v := by
  unfold V3.dot; simp

theorem flipZ_cross (u v : V3 ℝ) : (flipZ u).cross (flipZ v) = -flipZ (u.cross v) := by
  ext <;> simp <;> ring

theorem flipZ_sum {ι : Type*} (s : Finset ι) (f : ι → V3 ℝ) :
    flipZ (∑ i ∈ s, f i) = ∑ i ∈ s, flipZ (f i) := by
  ext
  · rw [flipZ_x, sum_x, sum_x]; rfl
  · rw [flipZ_y, sum_y, sum_y]; rfl
  · rw [flipZ_z, sum_z, sum_z, ← Finset.sum_neg_distrib]; rfl

/-- The induced velocity depends on the relative position of the filament. -/
theorem kernel_flipZ {eps : ℝ} {x a b x' a' b' : V3 ℝ} (ha : x' - a' = flipZ (x - a))
    (hb : x' - b' = flipZ (x - b)) : kernel eps x' a' b' = -flipZ (kernel eps x a b) := by
  unfold kernel kernelDen
  rw [ha, hb]
  simp only [flipZ_dot, flipZ_norm, flipZ_cross]
  generalize (1 / (4 * Real.pi) * (1 / ((x - a).dot (x - b) +
    (x - a).norm * (x - b).norm * (1 + eps))) * (1 / (x - a).norm + 1 / (x - b).norm)) = k
  ext <;> simp <;> ring

theorem KernelOk_flipZ {eps : ℝ} {x a b x' a' b' : V3 ℝ} (ha : x' - a' = flipZ (x - a))
    (hb : x' - b' = flipZ (x - b)) : KernelOk eps x' a' b' ↔ KernelOk eps x a b := by
  unfold KernelOk kernelDen
  rw [ha, hb]
  simp only [flipZ_dot, flipZ_norm]

theorem trailLeg_down (alpha beta : ℝ) : trailLeg (-alpha) beta = flipZ (trailLeg alpha beta) := by
  unfold trailLeg freestreamDir deg2rad
  rw [neg_mul, Real.cos_neg, Real.sin_neg]
  ext <;> simp

/-! ## Lattices -/

section
variable {n : ℕ} {c : ℝ}

/-- The panel is in the horizontal plane. -/
structure Panel.Level (c : ℝ) (g : Panel) : Prop where
  v2 : g.v2.z = c
  v3 : g.v3.z = c
  col : g.col.z = c
  mid : g.mid.z = c
  nx : g.n.x = 0
  ny : g.n.y = 0

theorem Panel.Level.legs {g : Panel} (h : g.Level c) {x : V3 ℝ} (hx : x.z = c) (leg : V3 ℝ) :
    x - (g.v2 + flipZ leg) = flipZ (x - (g.v2 + leg)) ∧
    x - (g.v3 + flipZ leg) = flipZ (x - (g.v3 + leg)) ∧ x - g.v2 = flipZ (x - g.v2) ∧
    x - g.v3 = flipZ (x - g.v3) := by
  have h2 := h.v2
  have h3 := h.v3
  refine ⟨V3.ext ?_ ?_ ?_, V3.ext ?_ ?_ ?_, V3.ext ?_ ?_ ?_, V3.ext ?_ ?_ ?_⟩ <;>
  simp only [flipZ_x, flipZ_y, flipZ_z, V3.sub_x, V3.sub_y, V3.sub_z, V3.add_x, V3.add_y, V3.add_z,
    hx, h2, h3] <;> ring

theorem Panel.Level.horseshoe {g : Panel} (h : g.Level c) {x : V3 ℝ} (hx : x.z = c) (leg : V3 ℝ)
    (eps : ℝ) : horseshoe eps x (g.withLeg (flipZ leg)) = -flipZ (horseshoe eps x (g.withLeg leg)) := by
  obtain ⟨k1, k2, k3, k4⟩ := h.legs hx leg
  rw [horseshoe_eq, horseshoe_eq]
  unfold Panel.withLeg
  simp only
  conv_lhs => rw [kernel_flipZ k1 k3, kernel_flipZ k3 k4, kernel_flipZ k4 k2]
  ext <;> simp <;> ring

theorem Panel.Level.ok {g : Panel} (h : g.Level c) {x : V3 ℝ} (hx : x.z = c) (leg : V3 ℝ)
    (eps : ℝ) : HorseshoeOk eps x (g.withLeg (flipZ leg)) ↔ HorseshoeOk eps x (g.withLeg leg) := by
  obtain ⟨k1, k2, k3, k4⟩ := h.legs hx leg
  unfold HorseshoeOk Panel.withLeg
  simp only
  rw [KernelOk_flipZ k1 k3, KernelOk_flipZ k3 k4, KernelOk_flipZ k4 k2]

/-- The state of flow upside down. -/
def FlowState.upsideDown (s : FlowState) : FlowState :=
  { s with alpha := -s.alpha, p := -s.p, q := -s.q }

theorem onset_upsideDown (s : FlowState) {r : Refs} (hr : r.cg.z = c ∨ s.p = 0 ∧ s.q = 0) {x : V3 ℝ}
    (hx : x.z = c) : velWind s.upsideDown + velRot s.upsideDown (x - r.cg) =
      flipZ (velWind s + velRot s (x - r.cg)) := by
  unfold velWind velRot FlowState.upsideDown freestreamDir deg2rad
  simp only [neg_mul, Real.cos_neg, Real.sin_neg]
  rcases hr with hr | ⟨hp, hq⟩
  · ext <;> simp [hr, hx] <;> ring
  · ext <;> simp [hp, hq]

theorem downwash_level {P : Fin n → Panel} (hP : ∀ i, (P i).Level c) (leg : V3 ℝ) {eps : ℝ}
    {A : Matrix (Fin n) (Fin n) ℝ} (hA : vlmDownwash eps (fun i => (P i).withLeg leg) = some A) :
    vlmDownwash eps (fun i => (P i).withLeg (flipZ leg)) = some A := by
  obtain ⟨h1, h2⟩ := vlmDownwash_some hA
  have hok : ∀ i j, HorseshoeOk eps ((P i).withLeg (flipZ leg)).col ((P j).withLeg (flipZ leg)) :=
    fun i j => ((hP j).ok (hP i).col leg eps).2 (h1 i j)
  unfold vlmDownwash
  rw [if_pos hok]
  congr 1
  funext i j
  rw [h2]
  have := (hP j).horseshoe (hP i).col leg eps
  show (Verif.horseshoe eps (P i).col ((P j).withLeg (flipZ leg))).dot (P i).n =
    (Verif.horseshoe eps (P i).col ((P j).withLeg leg)).dot (P i).n
  rw [this]
  simp [V3.dot, (hP i).nx, (hP i).ny]

theorem boundary_level {P : Fin n → Panel} (hP : ∀ i, (P i).Level c) (leg : V3 ℝ) (s : FlowState)
    {r : Refs} (hr : r.cg.z = c ∨ s.p = 0 ∧ s.q = 0) :
    vlmBoundary s.upsideDown r (fun i => (P i).withLeg (flipZ leg)) =
      -vlmBoundary s r fun i => (P i).withLeg leg := by
  funext i
  show (velWind s.upsideDown + velRot s.upsideDown ((P i).col - r.cg)).dot (P i).n =
    -(velWind s + velRot s ((P i).col - r.cg)).dot (P i).n
  rw [onset_upsideDown s hr (hP i).col]
  generalize velWind s + velRot s ((P i).col - r.cg) = w
  simp [V3.dot, (hP i).nx, (hP i).ny]

/-- What happens to the results. -/
structure Results.UpsideDown {n n' : ℕ} (level : Prop) (R : Results n) (R' : Results n') : Prop where
  force : R'.ftot = flipZ R.ftot
  wind : R'.wind = flipZ R.wind
  yaw : R'.mtot.z = R.mtot.z
  moment : level → R'.mtot = -flipZ R.mtot
  coeffs : R'.coeffs = ⟨R.coeffs.cx, R.coeffs.cy, R.coeffs.cz.map (- ·), R.coeffs.cL.map (- ·),
    R.coeffs.cD, R.coeffs.cC, R'.coeffs.cl, R'.coeffs.cm, R.coeffs.cn⟩
  roll : level → R'.coeffs.cl = R.coeffs.cl.map (- ·) ∧ R'.coeffs.cm = R.coeffs.cm.map (- ·)

theorem results_level {P : Fin n → Panel} (hP : ∀ i, (P i).Level c) (leg : V3 ℝ) (s : FlowState)
    {r : Refs} (hr : r.cg.z = c ∨ s.p = 0 ∧ s.q = 0) {eps : ℝ} {gamma : Fin n → ℝ} {R : Results n}
    (hR : vlmResults eps s r (fun i => (P i).withLeg leg) gamma = some R) :
    ∃ R', vlmResults eps s.upsideDown r (fun i => (P i).withLeg (flipZ leg)) (-gamma) = some R' ∧
      R.UpsideDown (r.rp.z = c) R' := by
  obtain ⟨h1, rfl⟩ := vlmResults_some hR
  have hok : ∀ i j, HorseshoeOk eps ((P i).withLeg (flipZ leg)).mid ((P j).withLeg (flipZ leg)) :=
    fun i j => ((hP j).ok (hP i).mid leg eps).2 (h1 i j)
  have hi : ∀ i, inwash eps (fun i => (P i).withLeg (flipZ leg)) (-gamma) (P i).mid =
      flipZ (inwash eps (fun i => (P i).withLeg leg) gamma (P i).mid) := by
    intro i
    rw [inwash_eq, inwash_eq, flipZ_sum]
    refine Finset.sum_congr rfl fun j _ => ?_
    rw [(hP j).horseshoe (hP i).mid leg eps]
    ext <;> simp
  have hv : ∀ i, panelVel eps s.upsideDown r (fun i => (P i).withLeg (flipZ leg)) (-gamma) i =
      flipZ (panelVel eps s r (fun i => (P i).withLeg leg) gamma i) := by
    intro i
    have e1 : panelVel eps s.upsideDown r (fun i => (P i).withLeg (flipZ leg)) (-gamma) i =
      inwash eps (fun i => (P i).withLeg (flipZ leg)) (-gamma) (P i).mid -
        (velWind s.upsideDown + velRot s.upsideDown ((P i).mid - r.cg)) := rfl
    have e2 : panelVel eps s r (fun i => (P i).withLeg leg) gamma i =
      inwash eps (fun i => (P i).withLeg leg) gamma (P i).mid -
        (velWind s + velRot s ((P i).mid - r.cg)) := rfl
    rw [e1, e2, hi, onset_upsideDown s hr (hP i).mid]
    generalize inwash _ _ _ _ = u
    generalize velWind s + velRot s ((P i).mid - r.cg) = w
    ext <;> simp <;> ring
  have hf : ∀ i, panelForce eps s.upsideDown r (fun i => (P i).withLeg (flipZ leg)) (-gamma) i =
      flipZ (panelForce eps s r (fun i => (P i).withLeg leg) gamma i) := by
    intro i
    rw [panelForce_eq, panelForce_eq, hv]
    generalize panelVel eps s r (fun i => (P i).withLeg leg) gamma i = V
    have hl : ((P i).v3 - (P i).v2).z = 0 := by
      rw [V3.sub_z, (hP i).v3, (hP i).v2, sub_self]
    show (s.rho * -gamma i) • (flipZ V).cross ((P i).v3 - (P i).v2) =
      flipZ ((s.rho * gamma i) • V.cross ((P i).v3 - (P i).v2))
    generalize (P i).v3 - (P i).v2 = L at hl
    ext <;> simp [hl]
  have hm : ∀ i, (panelMoment eps s.upsideDown r (fun i => (P i).withLeg (flipZ leg)) (-gamma) i).z =
      (panelMoment eps s r (fun i => (P i).withLeg leg) gamma i).z ∧ (r.rp.z = c →
      panelMoment eps s.upsideDown r (fun i => (P i).withLeg (flipZ leg)) (-gamma) i =
      -flipZ (panelMoment eps s r (fun i => (P i).withLeg leg) gamma i)) := by
    intro i
    unfold panelMoment
    rw [hf]
    show (((P i).mid - r.rp).cross _).z = (((P i).mid - r.rp).cross _).z ∧ (_ →
      ((P i).mid - r.rp).cross _ = -flipZ (((P i).mid - r.rp).cross _))
    generalize panelForce eps s r (fun i => (P i).withLeg leg) gamma i = F
    refine ⟨by simp, fun hrp => ?_⟩
    have hz : ((P i).mid - r.rp).z = 0 := by rw [V3.sub_z, (hP i).mid, hrp, sub_self]
    generalize (P i).mid - r.rp = a at hz
    ext <;> simp [hz]
  have hF : ∑ i, panelForce eps s.upsideDown r (fun i => (P i).withLeg (flipZ leg)) (-gamma) i =
      flipZ (∑ i, panelForce eps s r (fun i => (P i).withLeg leg) gamma i) := by
    rw [flipZ_sum]
    exact Finset.sum_congr rfl fun i _ => hf i
  have hMz : (∑ i, panelMoment eps s.upsideDown r (fun i => (P i).withLeg (flipZ leg)) (-gamma) i).z =
      (∑ i, panelMoment eps s r (fun i => (P i).withLeg leg) gamma i).z := by
    rw [sum_z, sum_z]
    exact Finset.sum_congr rfl fun i _ => (hm i).1
  have hM : r.rp.z = c →
      ∑ i, panelMoment eps s.upsideDown r (fun i => (P i).withLeg (flipZ leg)) (-gamma) i =
      -flipZ (∑ i, panelMoment eps s r (fun i => (P i).withLeg leg) gamma i) := by
    intro hrp
    rw [flipZ_sum, ← Finset.sum_neg_distrib]
    exact Finset.sum_congr rfl fun i _ => (hm i).2 hrp
  have hW : ∀ f, bodyToWind s.upsideDown (flipZ f) = flipZ (bodyToWind s f) := by
    intro f
    unfold bodyToWind FlowState.upsideDown deg2rad
    simp only [neg_mul, Real.cos_neg, Real.sin_neg]
    ext <;> simp <;> ring
  have hq : dynPressure s.upsideDown = dynPressure s := rfl
  have hneg : ∀ x y : ℝ, cdiv (-x) y = (cdiv x y).map (- ·) := by
    intro x y
    unfold cdiv
    split_ifs
    · rfl
    · rw [Option.map_some, neg_div]
  refine ⟨_, vlmResults_mk hok _ r _, hF, ?_, hMz, hM, ?_, fun hrp => ?_⟩
  · simp only [sumResults]
    rw [hF, hW]
  · simp only [sumResults]
    unfold vlmCoeffs
    simp only [hF, hMz, hW, hq, flipZ_x, flipZ_y, flipZ_z, hneg]
  · simp only [sumResults]
    unfold vlmCoeffs
    simp only [hM hrp, hq, flipZ_x, flipZ_y, neg_x, neg_y, hneg, and_self]

end

/-! ## Runs -/

/-- The analysis of the flight state upside down. -/
theorem Analysis.Of.upsideDown {env : RunEnv} {ac ac' : PAircraft ℝ} {c : ℝ}
    (hp : Panelled env ac ac') (hF : env.lat.InPlane ac ⟨0, 0, 1⟩ c) {st st' : FlightSt ℝ} {i : ℕ}
    (hs : UpsideDownAt st st' i) {a : Analysis} (h : a.Of env ac' st i)
    (hc : env.refs.cg.z = c ∨ a.s.p = 0 ∧ a.s.q = 0) :
    ∃ a' : Analysis, a'.Of env ac' st' i ∧ a.R.UpsideDown (env.refs.rp.z = c) a'.R := by
  obtain ⟨s, l, P, A, g, R⟩ := a
  obtain ⟨hr, he⟩ := hs
  have hl1 := genLattice_leg h.lattice (-s.alpha) s.beta
  rw [trailLeg_down] at hl1
  set leg := trailLeg s.alpha s.beta with hleg
  have hlev : ∀ k, (P k).Level c := by
    intro k
    obtain ⟨k1, k2, k3, k4, k5⟩ := lattice_in hp hF (by
      intro h0
      have := congrArg V3.z h0
      simp at this) h.lattice (h.panels k)
    have n1 := k2 ⟨1, 0, 0⟩ (by simp [V3.dot])
    have n2 := k2 ⟨0, 1, 0⟩ (by simp [V3.dot])
    simp only [V3.dot, zero_mul, one_mul, zero_add, add_zero] at k1 k3 k4 k5 n1 n2
    exact ⟨k3, k4, k1, k5, n1, n2⟩
  have e1 : (fun i => (P i).withLeg leg) = P := funext fun i => panel_leg h.lattice (h.panels i)
  have hmat : vlmDownwash env.eps P = some A := h.matrix
  have hres : vlmResults env.eps s env.refs P g = some R := h.results
  have a1 := downwash_level hlev leg (eps := env.eps) (A := A) (by rw [e1]; exact hmat)
  obtain ⟨R', r1, r2⟩ := results_level hlev leg s hc (eps := env.eps) (gamma := g) (R := R)
    (by rw [e1]; exact hres)
  have hb := boundary_level hlev leg s hc
  rw [e1] at hb
  have same : ∀ p x, p ∈ ["airspeed", "density", "beta", "rate_R"] →
      st.aero.entry p i = .ok (.fin x) → st'.aero.entry p i = .ok (.fin x) := by
    intro p x hp hx
    have := he p hp x hx
    rwa [one_mul] at this
  have rev : ∀ p x, p ∈ ["alpha", "rate_P", "rate_Q"] →
      st.aero.entry p i = .ok (.fin x) → st'.aero.entry p i = .ok (.fin (-x)) := by
    intro p x hp hx
    have := hr p hp x hx
    rwa [neg_one_mul] at this
  refine ⟨⟨s.upsideDown, l.withLeg (flipZ leg), fun k => (P k).withLeg (flipZ leg), A, -g, R'⟩,
    ⟨same _ _ (by simp) h.airspeed, same _ _ (by simp) h.density, rev _ _ (by simp) h.alpha,
      same _ _ (by simp) h.beta, rev _ _ (by simp) h.rateP, rev _ _ (by simp) h.rateQ,
      same _ _ (by simp) h.rateR, hl1, h.nonempty, fun k => panel_withLeg (h.panels k), a1, ?_, ?_,
      r1⟩, r2⟩
  · intro hu
    have := h.solved hu
    show Solves A (vlmBoundary s.upsideDown env.refs fun k => (P k).withLeg (flipZ leg)) (-g)
    rw [hb]
    unfold Solves at this ⊢
    rw [Matrix.mulVec_neg]
    exact congrArg Neg.neg this
  · intro hu
    have hg : g = vlmBoundary s env.refs P := h.singular hu
    show -g = vlmBoundary s.upsideDown env.refs fun k => (P k).withLeg (flipZ leg)
    exact (congrArg Neg.neg hg).trans hb.symm

/-- **C139**: if all lifting surfaces are flat and in one horizontal plane, the run over the flight states
upside down — angle of attack, roll and pitch rate reversed — finishes if that over the flight states does.
Drag and the forces and moment in the plane are the same; lift and the force normal to the plane have the
opposite sign, as have roll and pitching moment about a point in the plane.  With roll or pitch rates, the
centre of gravity must be in the plane. -/
theorem C139_upside_down (env : RunEnv) (hd : Lapack env.dgesv) (ac : PAircraft ℝ) (z : ℝ)
    (hF : env.lat.InPlane ac ⟨0, 0, 1⟩ z) (st st' : FlightSt ℝ) (hnum : st'.num = st.num)
    (hm : ∀ i < st.num, UpsideDownAt st st' i)
    (hc : env.refs.cg.z = z ∨ ∀ i < st.num, ∀ p ∈ ["rate_P", "rate_Q"], ∀ x,
      st.aero.entry p i = .ok (.fin x) → x = 0)
    (out : RunOut) (h : standardRun env ac st = .ok out) :
    ∃ out', standardRun env ac st' = .ok out' ∧ ∀ i < st.num,
      (∀ c ∈ ["Fx", "Fy", "FD", "FC", "Mz", "Cx", "Cy", "CD", "CC", "Cn"],
        ∃ x, out.value c i = some x ∧ out'.value c i = some x) ∧
      (∀ c ∈ ["Fz", "FL", "Cz", "CL"], ∃ x, out.value c i = some x ∧ out'.value c i = some x.neg) ∧
      (env.refs.rp.z = z → ∀ c ∈ ["Mx", "My", "Cl", "Cm"],
        ∃ x, out.value c i = some x ∧ out'.value c i = some x.neg) := by
  obtain ⟨out', h', hv⟩ := run_transfer hd hd (ac2 := ac) (st' := st') hnum
    (fun i a a' => a.R.UpsideDown (env.refs.rp.z = z) a'.R)
    (fun ac' hac => ⟨ac', hac, fun i hi a ha => ha.upsideDown hac hF (hm i hi) (by
      rcases hc with hc | hc
      · exact .inl hc
      · exact .inr ⟨hc i hi _ (by simp) _ ha.rateP, hc i hi _ (by simp) _ ha.rateQ⟩)⟩) h
  refine ⟨out', h', ?_⟩
  intro i hi
  obtain ⟨ac', a, a', -, -, ⟨r1, r2, r3, r4, r5, r6⟩, v1, v2⟩ := hv i hi
  have hneg : ∀ o : Option ℝ, asFlt (o.map (- ·)) = (asFlt o).neg := by
    intro o
    cases o <;> rfl
  have opp : ∀ d : String × (Analysis → Flt ℝ), d ∈ runColumns → d.2 a' = (d.2 a).neg →
      ∃ x, out.value d.1 i = some x ∧ out'.value d.1 i = some x.neg := by
    intro d hd h1
    exact ⟨d.2 a, v1 d hd, by rw [v2 d hd, h1]⟩
  have c1 := congrArg Coeffs.cx r5
  have c2 := congrArg Coeffs.cy r5
  have c3 := congrArg Coeffs.cz r5
  have c4 := congrArg Coeffs.cL r5
  have c5 := congrArg Coeffs.cD r5
  have c6 := congrArg Coeffs.cC r5
  have c9 := congrArg Coeffs.cn r5
  simp only at c1 c2 c3 c4 c5 c6 c9
  refine ⟨?_, ?_, ?_⟩
  · intro c hc
    have key : ∀ d : String × (Analysis → Flt ℝ), d ∈ runColumns → d.2 a' = d.2 a →
        ∃ x, out.value d.1 i = some x ∧ out'.value d.1 i = some x := by
      intro d hd h1
      exact ⟨d.2 a, v1 d hd, by rw [v2 d hd, h1]⟩
    simp only [List.mem_cons, List.not_mem_nil, or_false] at hc
    rcases hc with rfl | rfl | rfl | rfl | rfl | rfl | rfl | rfl | rfl | rfl
    · exact key ("Fx", fun a => .fin a.R.ftot.x) (by simp [runColumns]) (by simp [r1])
    · exact key ("Fy", fun a => .fin a.R.ftot.y) (by simp [runColumns]) (by simp [r1])
    · exact key ("FD", fun a => .fin a.R.wind.x) (by simp [runColumns]) (by simp [r2])
    · exact key ("FC", fun a => .fin a.R.wind.y) (by simp [runColumns]) (by simp [r2])
    · exact key ("Mz", fun a => .fin a.R.mtot.z) (by simp [runColumns]) (by simp [r3])
    · exact key ("Cx", fun a => asFlt a.R.coeffs.cx) (by simp [runColumns]) (by simp [c1])
    · exact key ("Cy", fun a => asFlt a.R.coeffs.cy) (by simp [runColumns]) (by simp [c2])
    · exact key ("CD", fun a => asFlt a.R.coeffs.cD) (by simp [runColumns]) (by simp [c5])
    · exact key ("CC", fun a => asFlt a.R.coeffs.cC) (by simp [runColumns]) (by simp [c6])
    · exact key ("Cn", fun a => asFlt a.R.coeffs.cn) (by simp [runColumns]) (by simp [c9])
  · intro c hc
    simp only [List.mem_cons, List.not_mem_nil, or_false] at hc
    rcases hc with rfl | rfl | rfl | rfl
    · exact opp ("Fz", fun a => .fin a.R.ftot.z) (by simp [runColumns]) (by simp [r1, Flt.neg])
    · exact opp ("FL", fun a => .fin a.R.wind.z) (by simp [runColumns]) (by simp [r2, Flt.neg])
    · exact opp ("Cz", fun a => asFlt a.R.coeffs.cz) (by simp [runColumns]) (by simp only [c3, hneg])
    · exact opp ("CL", fun a => asFlt a.R.coeffs.cL) (by simp [runColumns]) (by simp only [c4, hneg])
  · intro hrp c hc
    obtain ⟨c7, c8⟩ := r6 hrp
    simp only [List.mem_cons, List.not_mem_nil, or_false] at hc
    rcases hc with rfl | rfl | rfl | rfl
    · exact opp ("Mx", fun a => .fin a.R.mtot.x) (by simp [runColumns]) (by simp [r4 hrp, Flt.neg])
    · exact opp ("My", fun a => .fin a.R.mtot.y) (by simp [runColumns]) (by simp [r4 hrp, Flt.neg])
    · exact opp ("Cl", fun a => asFlt a.R.coeffs.cl) (by simp [runColumns]) (by simp only [c7, hneg])
    · exact opp ("Cm", fun a => asFlt a.R.coeffs.cm) (by simp [runColumns]) (by simp only [c8, hneg])

/-! ## State files -/

theorem opposite_toList (a : Arg ℝ) : a.opposite.toList = a.toList.map Val.opposite := by
  cases a <;> rfl

theorem opposite_isNum (v : Val ℝ) : v.opposite.isNum = v.isNum := by
  cases v <;> rfl

theorem opposite_convertible {v : Val ℝ} (h : v.Convertible) : v.opposite.Convertible := by
  unfold Val.Convertible at *
  cases v with
  | num f => trivial
  | none => trivial
  | text f =>
    cases f with
    | none => exact h
    | some f => trivial
  | obj => exact h

theorem opposite_conv (v : Val ℝ) : v.opposite.conv.flt = v.conv.flt.neg := by
  cases v with
  | num f => rfl
  | none => rfl
  | text f => cases f <;> rfl
  | obj => rfl

section
variable {keys : List String} {sd : List (String × Arg ℝ)}

theorem mem_reversed_iff {p : String} (hp : p ∉ keys) {a : Arg ℝ} :
    (p, a) ∈ reversedState keys sd ↔ (p, a) ∈ sd := by
  unfold reversedState
  rw [List.mem_map]
  constructor
  · rintro ⟨⟨q, b⟩, h1, h2⟩
    simp only [Prod.mk.injEq] at h2
    obtain ⟨rfl, h2⟩ := h2
    rw [if_neg hp] at h2
    rwa [← h2]
  · intro h
    exact ⟨(p, a), h, by simp only [if_neg hp]⟩

theorem mem_reversed {x : String × Arg ℝ} (h : x ∈ reversedState keys sd) :
    ∃ a, (x.1, a) ∈ sd ∧ (x.2 = a ∨ x.2 = a.opposite) := by
  unfold reversedState at h
  obtain ⟨⟨q, b⟩, h1, rfl⟩ := List.mem_map.1 h
  refine ⟨b, h1, ?_⟩
  simp only
  split_ifs
  · exact .inr rfl
  · exact .inl rfl

theorem given_reversed {p : String} (hp : p ∉ keys) :
    Given (reversedState keys sd) p ↔ Given sd p := by
  unfold Given
  simp only [mem_reversed_iff hp]

theorem has_reversed {p : String} (hp : p ∉ keys) (l : List (Val ℝ)) :
    Has (reversedState keys sd) p l ↔ Has sd p l := by
  unfold Has
  simp only [mem_reversed_iff hp]

theorem mem_opposite {p : String} (hp : p ∈ keys) {a : Arg ℝ} (h : (p, a) ∈ sd) :
    (p, a.opposite) ∈ reversedState keys sd :=
  List.mem_map.2 ⟨(p, a), h, by simp only [if_pos hp]⟩

/-- The parameters that can be reversed. -/
def reversible : List String := ["alpha", "beta", "rate_P", "rate_Q", "rate_R"]

theorem reversed_acceptable {atm : Atm ℝ} (hk : ∀ p ∈ keys, p ∈ reversible) (h : Acceptable atm sd) :
    Acceptable atm (reversedState keys sd) := by
  have out : ∀ p, p ∉ reversible → p ∉ keys := fun p hp hc => hp (hk p hc)
  have len : ∀ x ∈ reversedState keys sd, ∃ y ∈ sd, x.2.toList.length = y.2.toList.length := by
    intro x hx
    obtain ⟨a, h1, h2⟩ := mem_reversed hx
    refine ⟨_, h1, ?_⟩
    rcases h2 with h2 | h2 <;> rw [h2]
    rw [opposite_toList, List.length_map]
  obtain ⟨⟨n, hn⟩, h2, h3, h4, ⟨a5, h5⟩, ⟨a6, h6⟩⟩ := h
  refine ⟨⟨n, fun x hx => ?_⟩, ?_, ?_, ?_, ?_, ?_⟩
  · obtain ⟨y, hy, e⟩ := len x hx
    rw [e, hn y hy]
  · unfold Documented at h2 ⊢
    rw [given_reversed (out "airspeed" (by decide)), given_reversed (out "density" (by decide)),
      given_reversed (out "mach" (by decide)), given_reversed (out "altitude" (by decide))]
    exact h2
  · intro p hp a ha v hv
    obtain ⟨b, h1, h2⟩ := mem_reversed ha
    rcases h2 with h2 | h2
    · simp only at h2
      subst h2
      exact h3 p hp _ h1 v hv
    · simp only at h2
      subst h2
      rw [opposite_toList] at hv
      obtain ⟨u, hu, rfl⟩ := List.mem_map.1 hv
      exact opposite_convertible (h3 p hp _ h1 u hu)
  · rw [given_reversed (out "altitude" (by decide))]
    intro hg a ha
    rw [mem_reversed_iff (out "altitude" (by decide))] at ha
    exact h4 hg a ha
  · by_cases hc : "alpha" ∈ keys
    · exact ⟨_, mem_opposite hc h5⟩
    · exact ⟨_, (mem_reversed_iff hc).2 h5⟩
  · by_cases hc : "beta" ∈ keys
    · exact ⟨_, mem_opposite hc h6⟩
    · exact ⟨_, (mem_reversed_iff hc).2 h6⟩

theorem reversed_nodup (h : (sd.map Prod.fst).Nodup) :
    ((reversedState keys sd).map Prod.fst).Nodup := by
  unfold reversedState
  rw [List.map_map]
  exact h

theorem forall₂_some {α β : Type*} {f : α → Option β} {l : List α} {r r' : List β}
    (h : List.Forall₂ (fun v t => f v = some t) l r) (h' : List.Forall₂ (fun v t => f v = some t) l r') :
    r = r' := by
  induction h generalizing r' with
  | nil => cases h'; rfl
  | cons hx _ ih =>
    cases h' with
    | cons hy hl =>
      rw [hx] at hy
      cases hy
      rw [ih hl]

/-- Reading a state file with reversed values. -/
theorem reversed_read {atm : Atm ℝ} (hk : ∀ p ∈ keys, p ∈ reversible) (hd : (sd.map Prod.fst).Nodup)
    {st : FlightSt ℝ} (h : updateFromDict atm Store.fresh sd = .ok st) :
    ∃ st', updateFromDict atm Store.fresh (reversedState keys sd) = .ok st' ∧ st'.num = st.num ∧
      (∀ p ∈ keys, ∀ i, EntryReversed st st' p i) ∧
      ∀ p ∈ stateAllParams, p ∉ keys → ∀ i, EntryTimes 1 st st' p i := by
  obtain ⟨hacc, hfin⟩ := accepted angle_limits atm sd hd
  obtain ⟨hacc', hfin'⟩ := accepted angle_limits atm _ (reversed_nodup (keys := keys) hd)
  have ha := hacc.1 ⟨st, h⟩
  obtain ⟨st', h'⟩ := hacc'.2 (reversed_acceptable hk ha)
  obtain ⟨hl, F⟩ := hfin st h
  obtain ⟨hl', F'⟩ := hfin' st' h'
  have out : ∀ p, p ∉ reversible → p ∉ keys := fun p hp hc => hp (hk p hc)
  refine ⟨st', h', ?_, ?_, ?_⟩
  · obtain ⟨a, h5⟩ := ha.alpha
    have e1 := hl _ h5
    by_cases hc : "alpha" ∈ keys
    · have e2 := hl' _ (mem_opposite hc h5)
      rw [← e1, ← e2]
      simp only [opposite_toList, List.length_map]
    · rw [← e1, ← hl' _ ((mem_reversed_iff hc).2 h5)]
  · intro p hp i x hx
    have hall : p ∈ stateAllParams ∧ p ≠ "airspeed" ∧ p ≠ "density" := by
      have := hk p hp
      simp only [reversible, List.mem_cons, List.not_mem_nil, or_false] at this
      rcases this with rfl | rfl | rfl | rfl | rfl <;> decide
    obtain ⟨o1, o2⟩ := F.other p hall.1 hall.2.1 hall.2.2
    obtain ⟨o1', -⟩ := F'.other p hall.1 hall.2.1 hall.2.2
    unfold Store.entry at hx ⊢
    by_cases hex : ∃ l, Has sd p l
    · obtain ⟨l, q, q1, rfl⟩ := hex
      rw [o1 _ ⟨q, q1, rfl⟩] at hx
      rw [o1' _ ⟨_, mem_opposite hp q1, rfl⟩, opposite_toList]
      simp only [List.getElem?_map] at hx ⊢
      cases hg : q.toList[i]? with
      | none => rw [hg] at hx; cases hx
      | some v =>
        rw [hg] at hx
        simp only [Option.map_some, Except.ok.injEq] at hx ⊢
        rw [opposite_conv, hx, neg_one_mul]
        rfl
    · rw [o2 (fun l hl => hex ⟨l, hl⟩)] at hx
      cases hx
  · intro p hp hpk i
    suffices e : st'.aero p = st.aero p by
      intro x hx
      unfold Store.entry at hx ⊢
      rw [e, one_mul]
      exact hx
    by_cases hA : p = "airspeed" ∨ p = "density"
    · have kA := out "airspeed" (by decide)
      have kD := out "density" (by decide)
      have kM := out "mach" (by decide)
      have kH := out "altitude" (by decide)
      have gA : Given sd "airspeed" → st'.aero "airspeed" = st.aero "airspeed" := by
        rintro ⟨a, h1, h2⟩
        rw [F.airspeed _ ⟨a, h1, rfl⟩ ⟨a, h1, h2⟩, F'.airspeed _ ((has_reversed kA _).2 ⟨a, h1, rfl⟩)
          ((given_reversed kA).2 ⟨a, h1, h2⟩)]
      have gD : Given sd "density" → st'.aero "density" = st.aero "density" := by
        rintro ⟨a, h1, h2⟩
        rw [F.density _ ⟨a, h1, rfl⟩ ⟨a, h1, h2⟩, F'.density _ ((has_reversed kD _).2 ⟨a, h1, rfl⟩)
          ((given_reversed kD).2 ⟨a, h1, h2⟩)]
      have gH : Given sd "altitude" → st'.aero "density" = st.aero "density" ∧
          (Given sd "mach" → st'.aero "airspeed" = st.aero "airspeed") := by
        rintro ⟨a, h1, h2⟩
        obtain ⟨r, f1, f2, f3⟩ := F.fromAltitude _ ⟨a, h1, rfl⟩ ⟨a, h1, h2⟩
        obtain ⟨r', f1', f2', f3'⟩ := F'.fromAltitude _ ((has_reversed kH _).2 ⟨a, h1, rfl⟩)
          ((given_reversed kH).2 ⟨a, h1, h2⟩)
        obtain rfl := forall₂_some f1 f1'
        refine ⟨by rw [f2, f2'], ?_⟩
        rintro ⟨b, m1, m2⟩
        rw [f3 _ ⟨b, m1, rfl⟩ ⟨b, m1, m2⟩, f3' _ ((has_reversed kM _).2 ⟨b, m1, rfl⟩)
          ((given_reversed kM).2 ⟨b, m1, m2⟩)]
      rcases hA with rfl | rfl
      · rcases ha.documented with ⟨g, -⟩ | ⟨g, -⟩ | ⟨g1, g2, -⟩
        · exact gA g
        · exact gA g
        · exact (gH g2).2 g1
      · rcases ha.documented with ⟨-, g, -⟩ | ⟨-, g, -⟩ | ⟨-, g, -⟩
        · exact gD g
        · exact (gH g).1
        · exact (gH g).1
    · rw [not_or] at hA
      obtain ⟨o1, o2⟩ := F.other p hp hA.1 hA.2
      obtain ⟨o1', o2'⟩ := F'.other p hp hA.1 hA.2
      by_cases hex : ∃ l, Has sd p l
      · obtain ⟨l, hl⟩ := hex
        rw [o1 l hl, o1' l ((has_reversed hpk l).2 hl)]
      · rw [o2 (fun l hl => hex ⟨l, hl⟩), o2' fun l hl => hex ⟨l, (has_reversed hpk l).1 hl⟩]

end

/-! ## Projects -/

/-- Loading a project with other states. -/
theorem loadProject_otherState {W : World} {P P2 : Project} {d : PyDict} {a b : String}
    (hn : NativeProject W P d a b) (hP : P.OtherState P2) {x : Loaded} (hx : loadProject W P = .ok x)
    {sd2 : List (String × Arg ℝ)} (h2 : P2.state b = some sd2) {st2 : FlightSt ℝ}
    (hst : updateFromDict W.atm Store.fresh sd2 = .ok st2) :
    loadProject W P2 = .ok { x with state := st2 } := by
  have hn2 : NativeProject W P2 d a b :=
    ⟨hP.settings.trans hn.settings, hn.keys, hn.aircraft, hn.json, hn.state, hn.notCpacs⟩
  cases hset : loadSettings W.suffix (.dict d) with
  | error e =>
    unfold loadProject at hx
    rw [hn.settings, hset] at hx
    cases hx
  | ok s =>
  obtain ⟨-, -, -, -, e⟩ := loadProject_native hn hset
  obtain ⟨-, -, -, -, e2⟩ := loadProject_native hn2 hset
  rw [e] at hx
  rw [e2, hP.aircraft, hP.root]
  cases h1 : P.aircraft a with
  | none => rw [h1] at hx; cases hx
  | some f =>
  rw [h1] at hx
  simp only at hx ⊢
  cases h2' : loadAircraft P.root W.airfoilOk f with
  | error e => rw [h2'] at hx; cases hx
  | ok ac =>
  rw [h2'] at hx
  simp only at hx ⊢
  cases h3 : P.state b with
  | none => rw [h3] at hx; cases hx
  | some sd =>
  rw [h3] at hx
  rw [h2]
  simp only [hst] at hx ⊢
  cases h4 : updateFromDict W.atm Store.fresh sd with
  | error e => rw [h4] at hx; cases hx
  | ok st =>
  rw [h4] at hx
  simp only at hx
  have hdef : loadDeformationFrom P2 s ac = loadDeformationFrom P s ac := by
    unfold loadDeformationFrom
    rw [hP.deformation]
  rw [hdef]
  cases h5 : loadDeformationFrom P s ac with
  | error e => rw [h5] at hx; cases hx
  | ok defs =>
  rw [h5] at hx
  cases hx
  rfl

/-- **C139** (project): let the aircraft file describe flat lifting surfaces in the horizontal plane at
height `z`, without camber, deflections and deformation.  With the signs of all angles of attack, roll and
pitch rates reversed in the state file, the project can still be run; lift is reversed and drag is not, and
so for the other results. -/
theorem C139_project (W : World) (hW : Lapack W.dgesv) (P P2 : Project) (d : PyDict) (a b : String)
    (hn : NativeProject W P d a b) (hP : P.OtherState P2)
    (hdef : IfGiven d "deformation" PyVal.IsEmpty) (f : FileAircraft) (hf : P.aircraft a = some f) (z : ℝ)
    (hz : ∀ w ∈ f.wings, (w.symmetry = 1 → z = 0) ∧ ∀ s ∈ w.segments, ∀ v, AllGiven s.vertices v →
      v.a.z = z ∧ v.b.z = z ∧ v.c.z = z ∧ v.d.z = z)
    (hk : ∀ w ∈ f.wings, ∀ k ∈ w.controls, k.data.deflection = .num (.fin 0) ∧
      (k.data.deflectionMirror = .none ∨ k.data.deflectionMirror = .num (.fin 0)))
    (hc : ∀ w ∈ f.wings, ∀ s ∈ w.segments, ∀ inner outer, AirfoilAt P.root s.airfoilInner inner →
      AirfoilAt P.root s.airfoilOuter outer → ∀ eta xsi, W.camber inner outer eta xsi = 0)
    (sd : List (String × Arg ℝ)) (hsd : P.state b = some sd) (hnd : (sd.map Prod.fst).Nodup)
    (hsd2 : P2.state b = some (reversedState ["alpha", "rate_P", "rate_Q"] sd))
    (hg : f.refs.gcenter.z = z ∨
      ∀ p ∈ ["rate_P", "rate_Q"], ∀ l, (p, l) ∈ sd → ∀ v ∈ l.toList, v = .num (.fin 0))
    (out : RunOut) (h : runProject W P = .ok out) :
    ∃ out' st, runProject W P2 = .ok out' ∧ updateFromDict W.atm Store.fresh sd = .ok st ∧ ∀ i < st.num,
      (∀ c ∈ ["Fx", "Fy", "FD", "FC", "Mz", "Cx", "Cy", "CD", "CC", "Cn"],
        ∃ x, out.value c i = some x ∧ out'.value c i = some x) ∧
      (∀ c ∈ ["Fz", "FL", "Cz", "CL"], ∃ x, out.value c i = some x ∧ out'.value c i = some x.neg) ∧
      (f.refs.rcenter.z = z → ∀ c ∈ ["Mx", "My", "Cl", "Cm"],
        ∃ x, out.value c i = some x ∧ out'.value c i = some x.neg) := by
  unfold runProject at h
  cases hx : loadProject W P with
  | error e => rw [hx] at h; cases h
  | ok x =>
  rw [hx] at h
  simp only at h
  obtain ⟨f', sd', h1, h2, -, -, h5, -⟩ := loaded_reads hn hx
  rw [hf] at h1
  cases h1
  rw [hsd] at h2
  cases h2
  obtain ⟨st2, k1, k2, k3, k4⟩ := reversed_read (keys := ["alpha", "rate_P", "rate_Q"]) (by decide) hnd h5
  have hx2 := loadProject_otherState hn hP hx hsd2 k1
  obtain ⟨-, F⟩ := (accepted angle_limits W.atm sd hnd).2 _ h5
  have hrefs := (C92_content _ _ _ _ (loaded_aircraft hn hx hf)).2.1
  have e : (x.env W P).refs = ⟨f.refs.gcenter, f.refs.rcenter, f.refs.area, f.refs.span, f.refs.chord⟩ := by
    show x.aircraft.refs.toRefs = _
    rw [hrefs]
    rfl
  obtain ⟨out', g1, g2⟩ := C139_upside_down (x.env W P) hW x.aircraft.toP z
    (file_in_plane hn hx hf hdef ⟨corners_level hz, hk, hc⟩) x.state st2 k2
    (fun i _ => ⟨fun p hp => k3 p hp i, fun p hp => by
      simp only [List.mem_cons, List.not_mem_nil, or_false] at hp
      rcases hp with rfl | rfl | rfl | rfl <;> exact k4 _ (by decide) (by decide) i⟩)
    (by
      rcases hg with hg | hg
      · exact .inl (by rw [e]; exact hg)
      · refine .inr fun i _ p hp y hy => ?_
        have hall : p ∈ stateAllParams ∧ p ≠ "airspeed" ∧ p ≠ "density" := by
          simp only [List.mem_cons, List.not_mem_nil, or_false] at hp
          rcases hp with rfl | rfl <;> decide
        exact zero_entry F hall.1 hall.2.1 hall.2.2 (hg p hp) hy) out h
  refine ⟨out', x.state, ?_, h5, ?_⟩
  · unfold runProject
    rw [hx2]
    simp only
    rw [← g1]
    unfold Loaded.env
    simp only [hP.base]
  · intro i hi
    have := g2 i hi
    rw [e] at this
    exact this

/-! ## Examples -/

/-- The project with the flat wing at an angle of attack of minus five degree. -/
noncomputable def downProject : Project :=
  { exampleProject rectFile with
    state := fun b => if b = "cruise.json" then some (oneState 10 1 (-5) 0) else none }

/-- Example for C139: the rectangular wing at five and minus five degree; both runs finish, the lift has
opposite signs and the drag is the same. -/
example : ∃ out out' x y, runProject exampleWorld (exampleProject rectFile) = .ok out ∧
    runProject exampleWorld downProject = .ok out' ∧ out.value "FL" 0 = some x ∧
    out'.value "FL" 0 = some x.neg ∧ out.value "FD" 0 = some y ∧ out'.value "FD" 0 = some y := by
  obtain ⟨out, h⟩ := rect_finishes
  obtain ⟨out', st, h', h1, h2⟩ := C139_project exampleWorld exactDgesv_lapack (exampleProject rectFile)
    downProject exampleSettings "plane.json" "cruise.json" (example_native _) ⟨rfl, rfl, rfl, rfl, rfl⟩
    (by simp [IfGiven, exampleSettings]) rectFile rfl 0 (by
      intro w hw
      simp only [rectFile, List.mem_singleton] at hw
      subst hw
      refine ⟨by norm_num, fun s hs v hv => ?_⟩
      simp only [List.mem_singleton] at hs
      subst hs
      rw [noSpan_given hv (show AllGiven _ flatGeo.vertices from ⟨rfl, rfl, rfl, rfl⟩)]
      exact ⟨rfl, rfl, rfl, rfl⟩) (by
      intro w hw k hk
      simp only [rectFile, List.mem_singleton] at hw
      subst hw
      cases hk) (fun _ _ _ _ _ _ _ _ _ _ => rfl) _ rfl (oneState_nodup _ _ _ _) (by
      show some (oneState (10 : ℝ) 1 (-5) 0) = _
      simp [oneState, reversedState, Arg.opposite, Val.opposite, Flt.neg]) (by
      refine .inr fun p hp l hl v hv => ?_
      simp only [List.mem_cons, List.not_mem_nil, or_false] at hp
      rcases hp with rfl | rfl <;>
      · simp only [oneState, List.mem_cons, Prod.mk.injEq, List.not_mem_nil, or_false, String.reduceEq,
          false_and, or_self, false_or, true_and] at hl
        subst hl
        simpa [Arg.toList] using hv) out h
  obtain ⟨n1, -⟩ := oneState_entries h1
  obtain ⟨g1, g2, -⟩ := h2 0 (by omega)
  obtain ⟨x, x1, x2⟩ := g2 "FL" (by simp)
  obtain ⟨y, y1, y2⟩ := g1 "FD" (by simp)
  exact ⟨out, out', x, y, h, h', x1, x2, y1, y2⟩

end Verif
