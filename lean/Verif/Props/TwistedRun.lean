import Verif.Props.RunExamples
import Verif.Props.RunMirror

/-!
# Properties C83 and C96 for twisted wings with camber

The lattice of a twisted wing with camber is not symmetric (`C74_twisted_false`).  Here the
consequence for a whole run: a symmetric aircraft in symmetric flight gets a rolling moment.
-/

namespace Verif

open V3

/-! ## Specification -/

/-- The claim **C83** without the condition on the chords: in finished runs of symmetric aircraft,
symmetric flight states have no rolling moment. -/
def SymmetricRuns : Prop :=
  ∀ (env : RunEnv), Lapack env.dgesv → ∀ ac : PAircraft ℝ, ac.Unpanelled → ac.GivenNumC env.autoC →
    (∀ ac', Panelled env ac ac' → ∀ t ∈ allSubareas ac', SymmetricInput env.lat t) →
    env.refs.Symmetric → ∀ (st : FlightSt ℝ) (out : RunOut), standardRun env ac st = .ok out →
    ∀ i < st.num, st.SymmetricAt i → out.value "Mx" i = some (.fin 0)

/-- The claim **C96** without the condition on the chords, for the rolling moment: it has the
opposite sign in the mirrored flight state. -/
def MirroredRuns : Prop :=
  ∀ (env : RunEnv), Lapack env.dgesv → ∀ ac : PAircraft ℝ, ac.Unpanelled → ac.GivenNumC env.autoC →
    (∀ ac', Panelled env ac ac' → ∀ t ∈ allSubareas ac', SymmetricInput env.lat t) →
    env.refs.Symmetric → ∀ st st' : FlightSt ℝ, st'.num = st.num →
    (∀ i < st.num, MirroredAt st st' i) → ∀ out out' : RunOut, standardRun env ac st = .ok out →
    standardRun env ac st' = .ok out' → ∀ i < st.num,
      ∃ x, out.value "Mx" i = some x ∧ out'.value "Mx" i = some x.neg

/-! ## A wing twisted about its quarter-chord line -/

/-- Right half: the chord points down at the root and up at the tip; the quarter-chord line is
the y-axis. -/
noncomputable def twistGeo : GeoEnv ℝ :=
  ⟨⟨⟨-2, 0, 1⟩, ⟨-2, 2, -1⟩, ⟨6, 2, 3⟩, ⟨6, 0, -3⟩⟩, 2, none, none⟩

/-- With a cambered airfoil. -/
noncomputable def twistLat : LatticeEnv :=
  { geo := fun _ _ => twistGeo
    deflection := fun _ _ => (none, none)
    camber := fun _ _ _ _ => 5 }

/-- Corners of the two halves. -/
noncomputable def twistCorners : Bool → Corners (V3 ℝ)
  | false => ⟨⟨-2, 0, 1⟩, ⟨-2, 2, -1⟩, ⟨6, 2, 3⟩, ⟨6, 0, -3⟩⟩
  | true => ⟨⟨-2, -2, -1⟩, ⟨-2, 0, 1⟩, ⟨6, 0, -3⟩, ⟨6, -2, 3⟩⟩

/-- The inner border of a half in spanwise direction. -/
noncomputable def twistY : Bool → ℝ
  | false => 0
  | true => -2

/-- Panel of a half before rotation of its normal. -/
noncomputable def twistPts (leg : V3 ℝ) (m : Bool) : PanelPts ℝ :=
  panelPts (Coef.of (twistCorners m)) leg 1 1 0 0

theorem twistPts_pts (leg : V3 ℝ) (m : Bool) :
    (twistPts leg m).toPanel.v2 = ⟨0, twistY m, 0⟩ ∧
    (twistPts leg m).toPanel.v3 = ⟨0, twistY m + 2, 0⟩ ∧
    (twistPts leg m).toPanel.v1 = ⟨leg.x, twistY m + leg.y, leg.z⟩ ∧
    (twistPts leg m).toPanel.v4 = ⟨leg.x, twistY m + 2 + leg.y, leg.z⟩ ∧
    (twistPts leg m).toPanel.col = ⟨4, twistY m + 1, 0⟩ ∧
    (twistPts leg m).toPanel.mid = ⟨0, twistY m + 1, 0⟩ := by
  cases m <;> refine ⟨?_, ?_, ?_, ?_, ?_, ?_⟩ <;>
  · ext <;> simp only [twistPts, PanelPts.toPanel, panelPts, Coef.of, Coef.at, twistCorners,
      twistY] <;> vsimp <;> norm_num

theorem twist_cross (leg : V3 ℝ) (m : Bool) :
    (twistPts leg m).crossVec = ⟨0, if m then -12 else 12, -6⟩ := by
  cases m <;>
  · ext <;> simp only [twistPts, PanelPts.crossVec, panelPts, Coef.of, Coef.at, twistCorners] <;>
      vsimp <;> norm_num

theorem twist_axis (m : Bool) :
    camberAxis (twistCorners m) = unit ⟨2, -5, if m then -4 else 4⟩ := by
  rw [camberAxis_eq]
  have : ((((twistCorners m).b - (twistCorners m).a).cross ((twistCorners m).d - (twistCorners m).a)).cross
      ((twistCorners m).d - (twistCorners m).a)) = (32 : ℝ) • ⟨2, -5, if m then -4 else 4⟩ := by
    cases m <;> ext <;> simp only [twistCorners] <;> vsimp <;> norm_num
  rw [this, unit_smul (by norm_num)]

theorem norm_ne_of {x y z : ℝ} (h : x * x + y * y + z * z ≠ 0) : (⟨x, y, z⟩ : V3 ℝ).norm ≠ 0 := by
  intro h0
  apply h
  have := norm_sq (⟨x, y, z⟩ : V3 ℝ)
  rw [h0] at this
  simp only [V3.dot] at this
  linarith

/-- The two rotated normals. -/
theorem twist_normal (leg : V3 ℝ) (m : Bool) : ∃ n : V3 ℝ,
    (twistPts leg m).finNormal.bind (rotate (camberAxis (twistCorners m)) (5 * (Real.pi / 180))) =
      some n := by
  have h1 : (twistPts leg m).crossVec.norm ≠ 0 := by
    rw [twist_cross]
    cases m <;> exact norm_ne_of (by norm_num)
  have h2 : (camberAxis (twistCorners m)).norm ≠ 0 := by
    rw [twist_axis]
    intro h0
    have : (⟨2, -5, if m then -4 else 4⟩ : V3 ℝ).norm ≠ 0 := by
      cases m <;> exact norm_ne_of (by norm_num)
    have := unit_dot this
    rw [V3.norm_eq_zero.1 h0] at this
    simp [V3.dot] at this
  unfold PanelPts.finNormal
  rw [if_neg h1, Option.bind_some, rotate_ne h2]
  exact ⟨_, rfl⟩

theorem unit_of_unit {v : V3 ℝ} (h : v.norm ≠ 0) : unit (unit v) = unit v := by
  have : unit v = (1 / v.norm) • v := rfl
  rw [this, unit_smul (one_div_pos.2 (lt_of_le_of_ne (V3.norm_nonneg v) (Ne.symm h)))]
  exact this

/-- Their components in the plane of symmetry are not parallel, and those along the x-axis not
equal. -/
theorem twist_normals_differ {leg leg' : V3 ℝ} {n n' : V3 ℝ}
    (h : (twistPts leg false).finNormal.bind (rotate (camberAxis (twistCorners false))
      (5 * (Real.pi / 180))) = some n)
    (h' : (twistPts leg' true).finNormal.bind (rotate (camberAxis (twistCorners true))
      (5 * (Real.pi / 180))) = some n') : n.x ≠ n'.x ∧ n.x * n'.z ≠ n'.x * n.z := by
  have hM : (twistPts leg false).crossVec.norm ≠ 0 := by
    rw [twist_cross]; exact norm_ne_of (by norm_num)
  have hM' : (twistPts leg' true).crossVec.norm ≠ 0 := by
    rw [twist_cross]; exact norm_ne_of (by norm_num)
  unfold PanelPts.finNormal PanelPts.normal at h h'
  rw [if_neg hM, Option.bind_some] at h
  rw [if_neg hM', Option.bind_some] at h'
  obtain ⟨-, rfl⟩ := rotate_some h
  obtain ⟨-, rfl⟩ := rotate_some h'
  have ha : (⟨2, -5, 4⟩ : V3 ℝ).norm ≠ 0 := norm_ne_of (by norm_num)
  have ha' : (⟨2, -5, -4⟩ : V3 ℝ).norm ≠ 0 := norm_ne_of (by norm_num)
  rw [twist_axis, twist_axis, twist_cross, twist_cross]
  simp only [Bool.false_eq_true, if_false, if_true]
  rw [unit_of_unit ha, unit_of_unit ha']
  have e1 : (⟨2, -5, -4⟩ : V3 ℝ).norm = (⟨2, -5, 4⟩ : V3 ℝ).norm := by unfold V3.norm; norm_num
  have e2 : (⟨0, -12, -6⟩ : V3 ℝ).norm = (⟨0, 12, -6⟩ : V3 ℝ).norm := by unfold V3.norm; norm_num
  unfold unit
  rw [e1, e2]
  have q1 := norm_sq (⟨2, -5, 4⟩ : V3 ℝ)
  have q2 := norm_sq (⟨0, 12, -6⟩ : V3 ℝ)
  have hq : (⟨0, 12, -6⟩ : V3 ℝ).norm ≠ 0 := norm_ne_of (by norm_num)
  generalize (⟨2, -5, 4⟩ : V3 ℝ).norm = N at *
  generalize (⟨0, 12, -6⟩ : V3 ℝ).norm = M at *
  have hc : 0 < Real.cos (5 * (Real.pi / 180)) := Real.cos_pos_of_mem_Ioo
    ⟨by linarith [Real.pi_pos], by linarith [Real.pi_pos]⟩
  have hc1 : Real.cos (5 * (Real.pi / 180)) < 1 := by
    have := Real.cos_lt_cos_of_nonneg_of_le_pi (x := 0) (y := 5 * (Real.pi / 180)) le_rfl
      (by linarith [Real.pi_pos]) (by linarith [Real.pi_pos])
    rwa [Real.cos_zero] at this
  generalize Real.cos (5 * (Real.pi / 180)) = c at *
  generalize Real.sin (5 * (Real.pi / 180)) = s at *
  simp only [V3.dot] at q1 q2
  norm_num at q1 q2
  set i := 1 / N with hi
  set j := 1 / M with hj
  have hi2 : i ^ 2 = 1 / 45 := by rw [hi, div_pow, q1]; norm_num
  have hj2 : j ≠ 0 := by rw [hj]; exact one_div_ne_zero hq
  have hj3 : 0 < j ^ 2 := by positivity
  clear_value i j
  constructor
  · vsimp
    intro h
    have : (1 - c) * j * i ^ 2 = 0 := by linarith
    rw [hi2] at this
    have h2 : (1 - c) * j = 0 := by linarith
    rcases mul_eq_zero.1 h2 with h3 | h3
    · linarith
    · exact hj2 h3
  · vsimp
    intro h
    have key : j ^ 2 * ((1 - c) * i ^ 2 * (c + 56 * (1 - c) * i ^ 2) * 28 + 12 * s ^ 2 * i ^ 2) = 0 := by
      linarith
    rw [hi2] at key
    have : 0 < (1 - c) * (1 / 45) * (c + 56 * (1 - c) * (1 / 45)) * 28 + 12 * s ^ 2 * (1 / 45) := by
      have : 0 < 1 - c := by linarith
      positivity
    have := mul_pos hj3 this
    linarith


/-! ## Its lattice -/

/-- The two panels of the lattice. -/
theorem twist_lattice {alpha beta : ℝ} {l : LatticeData}
    (hl : genLattice twistLat true alpha beta onePanelAc = .ok l) :
    l.num = 2 ∧ ∃ n : Bool → V3 ℝ, (∀ m, (twistPts (trailLeg alpha beta) m).finNormal.bind
      (rotate (camberAxis (twistCorners m)) (5 * (Real.pi / 180))) = some (n m)) ∧
    l.panel 0 = some { (twistPts (trailLeg alpha beta) false).toPanel with n := n false } ∧
    l.panel 1 = some { (twistPts (trailLeg alpha beta) true).toPanel with n := n true } := by
  obtain ⟨hu, hn⟩ := plainAc_ok
  obtain ⟨b, hb, he, hp⟩ := plain_book
  obtain ⟨-, k1, -⟩ := genLattice_ok hl
  rw [hb] at k1
  cases k1
  have hC := C71_own_rotations _ _ hu plainAc_panelled hn twistLat alpha beta l hl
  generalize trailLeg alpha beta = leg at hC ⊢
  rw [he] at hC
  choose n hnn using twist_normal leg
  have panel : ∀ (m : Bool) (k : ℕ), (∃ e ∈ l.book.entries, e.mirror = m ∧ e.numC = 1 ∧ e.start = k) →
      l.panel k = some { (twistPts leg m).toPanel with n := n m } := by
    rintro m k ⟨e, hem, rfl, h1, hk⟩
    rw [he] at hem
    obtain ⟨t, ht, -, v, hv, hp⟩ := hC e hem
    rw [plain_subareas, List.mem_singleton] at ht
    subst ht
    have hcor : v = twistCorners e.mirror := by
      cases hm : e.mirror <;> rw [hm] at hv <;>
      · simp only [subareaVertices, Strip.absVertices, twistLat, twistGeo, plainSub,
          GeoEnv.isDeformed, Strip.init, Quad.init, mirrorVertices, Corners.mapE, mirrorPoint,
          orderMirrored] at hv
        norm_num at hv
        subst hv
        simp only [twistCorners, Corners.mk.injEq]
        refine ⟨?_, ?_, ?_, ?_⟩ <;> ext <;> vsimp <;> norm_num
    subst hcor
    obtain ⟨p0, n1, t1, t2⟩ := hp 0 (by rw [h1]; norm_num)
    rw [h1] at t2
    have r := camber_only (env := twistLat) (angle := 5) (by norm_num) t1 t2
    rw [h1] at p0 r
    simp only [Nat.cast_zero, add_zero, hk] at p0 r
    have hpt : panelPts (Coef.of (twistCorners e.mirror)) leg 1 1 0 0 = twistPts leg e.mirror := rfl
    rw [hpt] at p0 r
    rw [hnn] at r
    unfold LatticeData.panel LatticeData.panelAt
    simp only [p0, r]
  refine ⟨by unfold LatticeData.num; rw [hp]; rfl, n, hnn, ?_, ?_⟩
  · exact panel false 0 ⟨_, by rw [he]; exact List.mem_cons_self .., rfl, rfl, rfl⟩
  · exact panel true 1 ⟨_, by rw [he]; exact List.mem_cons_of_mem _ (List.mem_singleton.2 rfl),
      rfl, rfl, rfl⟩

/-- Velocity in a plane with the filament. -/
theorem kernel_inplane (eps : ℝ) {x a b : V3 ℝ} (hx : x.z = 0) (ha : a.z = 0) (hb : b.z = 0) :
    (kernel eps x a b).x = 0 ∧ (kernel eps x a b).y = 0 := by
  unfold kernel
  constructor <;> vsimp <;> rw [hx, ha, hb] <;> ring

theorem horseshoe_inplane (eps : ℝ) {x : V3 ℝ} {g : Panel} (hx : x.z = 0) (h1 : g.v1.z = 0)
    (h2 : g.v2.z = 0) (h3 : g.v3.z = 0) (h4 : g.v4.z = 0) :
    (horseshoe eps x g).x = 0 ∧ (horseshoe eps x g).y = 0 := by
  obtain ⟨a1, a2⟩ := kernel_inplane eps hx h1 h2
  obtain ⟨b1, b2⟩ := kernel_inplane eps hx h2 h3
  obtain ⟨c1, c2⟩ := kernel_inplane eps hx h3 h4
  rw [horseshoe_eq]
  exact ⟨by vsimp; rw [a1, b1, c1]; ring, by vsimp; rw [a2, b2, c2]; ring⟩

/-- Velocities that a panel and its mirror image induce at mirrored points. -/
theorem horseshoe_mirror_z (eps : ℝ) {x x' : V3 ℝ} {g g' : Panel} (hx : x' = flipY x)
    (h1 : g'.v1 = flipY g.v4) (h2 : g'.v2 = flipY g.v3) (h3 : g'.v3 = flipY g.v2)
    (h4 : g'.v4 = flipY g.v1) : (horseshoe eps x' g').z = (horseshoe eps x g).z := by
  rw [horseshoe_eq, horseshoe_eq, hx, h1, h2, h3, h4, kernel_flip, kernel_flip, kernel_flip,
    kernel_swap eps x g.v3 g.v4, kernel_swap eps x g.v2 g.v3, kernel_swap eps x g.v1 g.v2]
  simp only [flipY]
  vsimp
  ring

/-! ## The run -/

/-- Default settings, reference points in the origin. -/
noncomputable def twistEnv : RunEnv := { exampleEnv with lat := twistLat }

/-- Level flight: 10 m/s, no angles, no rates. -/
noncomputable def levelFlight : FlightSt ℝ :=
  ⟨fun p => if p = "airspeed" then some [.num (.fin 10)]
    else if p = "density" then some [.num (.fin 1)]
    else some [.num (.fin 0)], 1⟩

theorem trailLeg_level : trailLeg 0 0 = ⟨10000, 0, 0⟩ := by
  unfold trailLeg freestreamDir deg2rad
  ext <;> vsimp <;> simp

theorem twist_horseshoeOk {x : V3 ℝ} {m m' : Bool} (n : V3 ℝ) (hx : x.y = twistY m + 1) :
    HorseshoeOk twistEnv.eps x { (twistPts ⟨10000, 0, 0⟩ m').toPanel with n := n } := by
  obtain ⟨p2, p3, p1, p4, -⟩ := twistPts_pts ⟨10000, 0, 0⟩ m'
  have he : 0 < twistEnv.eps := exampleEnv_eps
  have ne : ∀ p : V3 ℝ, p.y = twistY m' ∨ p.y = twistY m' + 2 → x ≠ p := by
    rintro p hp rfl
    cases m <;> cases m' <;> rcases hp with hp | hp <;> rw [hx] at hp <;>
      norm_num [twistY] at hp
  refine ⟨(kernelOk_iff he _ _ _).2 ⟨ne _ ?_, ne _ ?_⟩, (kernelOk_iff he _ _ _).2 ⟨ne _ ?_, ne _ ?_⟩,
    (kernelOk_iff he _ _ _).2 ⟨ne _ ?_, ne _ ?_⟩⟩ <;> dsimp only
  · rw [p1]; simp
  · rw [p2]; simp
  · rw [p2]; simp
  · rw [p3]; simp
  · rw [p3]; simp
  · rw [p4]; simp

/-- The panels that an analysis of level flight works with. -/
theorem twist_panels {l : LatticeData}
    (hl : genLattice twistLat true 0 0 onePanelAc = .ok l) : ∃ h2 : l.num = 2, ∃ n : Bool → V3 ℝ,
      (n false).x ≠ (n true).x ∧ (n false).x * (n true).z ≠ (n true).x * (n false).z ∧
      ∀ k : Fin l.num, l.panel k = some { (twistPts ⟨10000, 0, 0⟩ (![false, true] (Fin.cast h2 k))).toPanel
        with n := n (![false, true] (Fin.cast h2 k)) } := by
  obtain ⟨h2, n, hn, p0, p1⟩ := twist_lattice hl
  rw [trailLeg_level] at hn p0 p1
  obtain ⟨d1, d2⟩ := twist_normals_differ (hn false) (hn true)
  refine ⟨h2, n, d1, d2, ?_⟩
  intro k
  have : ∀ k' : Fin 2, l.panel (k' : ℕ) = some { (twistPts ⟨10000, 0, 0⟩ (![false, true] k')).toPanel
        with n := n (![false, true] k') } := by
    intro k'
    fin_cases k'
    · exact p0
    · exact p1
  exact this (Fin.cast h2 k)

/-- The run finishes. -/
theorem twist_finishes : ∃ out, standardRun twistEnv onePanelAc levelFlight = .ok out := by
  refine (C93_finishes_iff twistEnv exactDgesv_lapack _ _).2 ⟨by simp [levelFlight], onePanelAc,
    ⟨onePanelAc, plain_autopanels, plainAc_panelled⟩, ?_⟩
  intro i hi
  obtain rfl : i = 0 := by simpa [levelFlight] using hi
  obtain ⟨hu, hn⟩ := plainAc_ok
  obtain ⟨l, hl⟩ := C76_lattice_generated _ _ hu plainAc_panelled hn twistLat true 0 0
    (fun _ _ _ => .inr (.inl rfl))
  obtain ⟨h2, n, -, -, hp⟩ := twist_panels hl
  let P : Fin l.num → Panel := fun k =>
    { (twistPts ⟨10000, 0, 0⟩ (![false, true] (Fin.cast h2 k))).toPanel
        with n := n (![false, true] (Fin.cast h2 k)) }
  let s : FlowState := ⟨10, 1, 0, 0, 0, 0, 0⟩
  have hA : ∃ A, vlmDownwash twistEnv.eps P = some A := by
    unfold vlmDownwash
    rw [if_pos]
    · exact ⟨_, rfl⟩
    · intro i j
      refine twist_horseshoeOk (m := ![false, true] (Fin.cast h2 i)) _ ?_
      show (twistPts ⟨10000, 0, 0⟩ (![false, true] (Fin.cast h2 i))).toPanel.col.y = _
      rw [(twistPts_pts _ _).2.2.2.2.1]
  obtain ⟨A, hA⟩ := hA
  have hR : ∀ g, ∃ R, vlmResults twistEnv.eps s twistEnv.refs P g = some R := by
    intro g
    unfold vlmResults
    rw [if_pos]
    · exact ⟨_, rfl⟩
    · intro i j
      refine twist_horseshoeOk (m := ![false, true] (Fin.cast h2 i)) _ ?_
      show (twistPts ⟨10000, 0, 0⟩ (![false, true] (Fin.cast h2 i))).toPanel.mid.y = _
      rw [(twistPts_pts _ _).2.2.2.2.2]
  by_cases hreg : IsUnit A.det
  · obtain ⟨R, hR⟩ := hR (A⁻¹.mulVec (vlmBoundary s twistEnv.refs P))
    refine ⟨⟨s, l, P, A, A⁻¹.mulVec (vlmBoundary s twistEnv.refs P), R⟩, rfl, rfl, rfl, rfl, rfl, rfl,
      rfl, hl, ?_, hp, hA, ?_, fun h => absurd hreg h, hR⟩
    · rw [h2]; norm_num
    · intro _
      unfold Solves
      rw [Matrix.mulVec_mulVec, Matrix.mul_nonsing_inv A hreg, Matrix.one_mulVec]
  · obtain ⟨R, hR⟩ := hR (vlmBoundary s twistEnv.refs P)
    exact ⟨⟨s, l, P, A, vlmBoundary s twistEnv.refs P, R⟩, rfl, rfl, rfl, rfl, rfl, rfl,
      rfl, hl, by rw [h2]; norm_num, hp, hA, fun h => absurd h hreg, fun _ => rfl, hR⟩

/-- Two such panels in level flight have a rolling moment. -/
theorem twist_roll_two {m : ℕ} (h2 : m = 2) {n : Bool → V3 ℝ} (d1 : (n false).x ≠ (n true).x)
    (d2 : (n false).x * (n true).z ≠ (n true).x * (n false).z) {P : Fin m → Panel}
    (hP : ∀ k, P k = { (twistPts ⟨10000, 0, 0⟩ (![false, true] (Fin.cast h2 k))).toPanel
        with n := n (![false, true] (Fin.cast h2 k)) })
    {A : Matrix (Fin m) (Fin m) ℝ} {g : Fin m → ℝ} {R : Results m} {c : Refs} (hc : c.rp = 0)
    {eps : ℝ} (hm : vlmDownwash eps P = some A)
    (hso : IsUnit A.det → Solves A (vlmBoundary ⟨10, 1, 0, 0, 0, 0, 0⟩ c P) g)
    (hsi : ¬ IsUnit A.det → g = vlmBoundary ⟨10, 1, 0, 0, 0, 0, 0⟩ c P)
    (hr : vlmResults eps ⟨10, 1, 0, 0, 0, 0, 0⟩ c P g = some R) : R.mtot.x ≠ 0 := by
  subst h2
  have pts : ∀ k : Fin 2, (P k).v2 = ⟨0, twistY (![false, true] k), 0⟩ ∧
      (P k).v3 = ⟨0, twistY (![false, true] k) + 2, 0⟩ ∧
      (P k).v1 = ⟨10000, twistY (![false, true] k), 0⟩ ∧
      (P k).v4 = ⟨10000, twistY (![false, true] k) + 2, 0⟩ ∧
      (P k).col = ⟨4, twistY (![false, true] k) + 1, 0⟩ ∧
      (P k).mid = ⟨0, twistY (![false, true] k) + 1, 0⟩ ∧ (P k).n = n (![false, true] k) := by
    intro k
    rw [hP k]
    obtain ⟨a1, a2, a3, a4, a5, a6⟩ := twistPts_pts ⟨10000, 0, 0⟩ (![false, true] k)
    simp only [add_zero] at a3 a4
    exact ⟨a1, a2, a3, a4, a5, a6, rfl⟩
  clear hP
  have plane : ∀ (x : V3 ℝ) (k : Fin 2), x.z = 0 → (horseshoe eps x (P k)).x = 0 ∧
      (horseshoe eps x (P k)).y = 0 := by
    intro x k hx
    obtain ⟨a2, a3, a1, a4, -⟩ := pts k
    exact horseshoe_inplane eps hx (by rw [a1]) (by rw [a2]) (by rw [a3]) (by rw [a4])
  obtain ⟨u2, u3, u1, u4, uc, um, un⟩ := pts 0
  obtain ⟨v2, v3, v1, v4, vc, vm, vn⟩ := pts 1
  simp only [Matrix.cons_val_zero, Matrix.cons_val_one, twistY] at u2 u3 u1 u4 uc um un v2 v3 v1 v4 vc vm vn
  norm_num at u2 u3 u1 u4 uc um v2 v3 v1 v4 vc vm
  -- the system
  have hA : A = fun i j => (horseshoe eps (P i).col (P j)).dot (P i).n := by
    unfold vlmDownwash at hm
    split_ifs at hm
    exact (Option.some.inj hm).symm
  have w1 : (horseshoe eps (P 1).col (P 1)).z = (horseshoe eps (P 0).col (P 0)).z :=
    horseshoe_mirror_z eps (by rw [uc, vc]; simp [flipY]) (by rw [v1, u4]; simp [flipY])
      (by rw [v2, u3]; simp [flipY]) (by rw [v3, u2]; simp [flipY]) (by rw [v4, u1]; simp [flipY])
  have w2 : (horseshoe eps (P 1).col (P 0)).z = (horseshoe eps (P 0).col (P 1)).z :=
    horseshoe_mirror_z eps (by rw [uc, vc]; simp [flipY]) (by rw [v4, u1]; simp [flipY])
      (by rw [v3, u2]; simp [flipY]) (by rw [v2, u3]; simp [flipY]) (by rw [v1, u4]; simp [flipY])
  have entry : ∀ i j, A i j = (horseshoe eps (P i).col (P j)).z * (P i).n.z := by
    intro i j
    have hz : (P i).col.z = 0 := by
      fin_cases i
      · show (P 0).col.z = 0
        rw [uc]
      · show (P 1).col.z = 0
        rw [vc]
    obtain ⟨q1, q2⟩ := plane (P i).col j hz
    rw [hA]
    simp only [V3.dot]
    rw [q1, q2]
    ring
  have rhs : ∀ i, vlmBoundary ⟨10, 1, 0, 0, 0, 0, 0⟩ c P i = -10 * (P i).n.x := by
    intro i
    unfold vlmBoundary velWind velRot freestreamDir deg2rad
    vsimp
    simp
  -- equal circulations are impossible
  have hne : g 0 ≠ g 1 := by
    intro e
    by_cases hreg : IsUnit A.det
    · have hs := hso hreg
      unfold Solves at hs
      have s0 := congrFun hs 0
      have s1 := congrFun hs 1
      simp only [Matrix.mulVec, dotProduct, Fin.sum_univ_two, entry, rhs, w1, w2, un, vn, ← e] at s0 s1
      apply d2
      generalize (horseshoe eps (P 0).col (P 0)).z = p at s0 s1
      generalize (horseshoe eps (P 0).col (P 1)).z = q at s0 s1
      linear_combination ((n true).z / 10) * s0 - ((n false).z / 10) * s1
    · have hs := hsi hreg
      apply d1
      have s0 := congrFun hs 0
      have s1 := congrFun hs 1
      rw [rhs, un] at s0
      rw [rhs, vn] at s1
      linarith
  -- the moment
  have hR : R.mtot = (List.finRange 2).foldl
      (fun acc i => acc + panelMoment eps ⟨10, 1, 0, 0, 0, 0, 0⟩ c P g i) 0 := by
    unfold vlmResults at hr
    split_ifs at hr
    rw [← Option.some.inj hr]
  have vel : ∀ i, (panelVel eps ⟨10, 1, 0, 0, 0, 0, 0⟩ c P g i).x = 10 := by
    intro i
    have hz : (P i).mid.z = 0 := by
      fin_cases i
      · show (P 0).mid.z = 0
        rw [um]
      · show (P 1).mid.z = 0
        rw [vm]
    have hi : (inwash eps P g (P i).mid).x = 0 := by
      unfold inwash
      simp only [List.finRange_succ, List.finRange_zero, List.map_nil, List.map_cons, List.foldl_cons, List.foldl_nil]
      vsimp
      show 0 + g 0 * (horseshoe eps (P i).mid (P 0)).x + g 1 * (horseshoe eps (P i).mid (P 1)).x = 0
      rw [(plane _ 0 hz).1, (plane _ 1 hz).1]
      ring
    unfold panelVel velWind velRot freestreamDir deg2rad
    vsimp
    rw [hi]
    simp
  have key : R.mtot.x = 20 * (g 0 - g 1) := by
    rw [hR]
    simp only [List.finRange_succ, List.finRange_zero, List.map_nil, List.map_cons, List.foldl_cons, List.foldl_nil]
    show (0 + panelMoment eps _ c P g 0 + panelMoment eps _ c P g 1).x = _
    unfold panelMoment panelForce
    have z0 := vel 0
    have z1 := vel 1
    rw [hc, um, vm, u2, u3, v2, v3]
    generalize panelVel eps _ c P g 0 = x0 at z0 ⊢
    generalize panelVel eps _ c P g 1 = x1 at z1 ⊢
    vsimp
    simp only [z0, z1]
    ring
  rw [key]
  intro h0
  exact hne (by linarith)

/-- It has a rolling moment. -/
theorem twist_roll {a : Analysis} (h : a.Of twistEnv onePanelAc levelFlight 0) : a.R.mtot.x ≠ 0 := by
  obtain ⟨s, l, P, A, g, R⟩ := a
  have e1 := h.airspeed
  have e2 := h.density
  have e3 := h.alpha
  have e4 := h.beta
  have e5 := h.rateP
  have e6 := h.rateQ
  have e7 := h.rateR
  have hs : s = ⟨10, 1, 0, 0, 0, 0, 0⟩ := by
    obtain ⟨s1, s2, s3, s4, s5, s6, s7⟩ := s
    cases e1; cases e2; cases e3; cases e4; cases e5; cases e6; cases e7
    rfl
  clear e1 e2 e3 e4 e5 e6 e7
  subst hs
  obtain ⟨h2, n, d1, d2, hp⟩ := twist_panels h.lattice
  exact twist_roll_two h2 d1 d2 (fun k => Option.some.inj ((h.panels k).symm.trans (hp k))) rfl
    h.matrix h.solved h.singular h.results

/-- The wing and its environment are symmetric. -/
theorem twist_symmetric (ac' : PAircraft ℝ) (h : Panelled twistEnv onePanelAc ac') :
    ac' = onePanelAc ∧ ∀ t ∈ allSubareas ac', SymmetricInput twistEnv.lat t := by
  obtain ⟨ac1, p1, p2⟩ := h
  have p1' : setAutopanels 5 5 onePanelAc = .ok ac1 := p1
  rw [plain_autopanels] at p1'
  cases p1'
  rw [plainAc_panelled] at p2
  cases p2
  refine ⟨rfl, ?_⟩
  intro t ht
  rw [plain_subareas, List.mem_singleton] at ht
  subst ht
  refine .inl ⟨rfl, rfl, ?_, fun c hc => by cases hc⟩
  intro p
  simp [twistEnv, twistLat, twistGeo, displaced]

theorem twist_numC : onePanelAc.GivenNumC twistEnv.autoC := by
  refine ⟨by decide, ?_⟩
  intro w hw
  simp only [onePanelAc, List.mem_singleton] at hw
  subst hw
  refine ⟨?_, by simp⟩
  intro s hs n hsn
  simp only [List.mem_singleton] at hs
  subst hs
  cases hsn
  norm_num

/-- The rolling moment in the table of the run. -/
theorem twist_table {out : RunOut} (h : standardRun twistEnv onePanelAc levelFlight = .ok out) :
    ∃ x : ℝ, out.value "Mx" 0 = some (.fin x) ∧ x ≠ 0 := by
  obtain ⟨-, ac', h1, h2⟩ := (C93_finishes_iff twistEnv exactDgesv_lapack _ _).1 ⟨out, h⟩
  obtain ⟨rfl, -⟩ := twist_symmetric ac' h1
  obtain ⟨a, ha⟩ := h2 0 (by simp [levelFlight])
  exact ⟨a.R.mtot.x, C93_values twistEnv exactDgesv_lapack _ _ _ out h h1 0 (by simp [levelFlight]) a ha
    ("Mx", fun a => .fin a.R.mtot.x) (by simp [runColumns]), twist_roll ha⟩

/-- **C83** is *false* for twisted wings with camber: such a wing, symmetric to the x-z plane, gets
a rolling moment in level flight. -/
theorem C83_twisted_false : ¬ SymmetricRuns := by
  intro hall
  obtain ⟨out, h⟩ := twist_finishes
  obtain ⟨x, hx, h0⟩ := twist_table h
  have := hall twistEnv exactDgesv_lapack onePanelAc plainAc_ok.1 twist_numC
    (fun ac' h => (twist_symmetric ac' h).2) ⟨rfl, rfl⟩ levelFlight out h 0 (by simp [levelFlight])
    ⟨rfl, rfl, rfl⟩
  rw [hx] at this
  simp only [Option.some.injEq, Flt.fin.injEq] at this
  exact h0 this

/-- **C96** is *false* for twisted wings with camber: level flight is its own mirror image, but the
rolling moment is not zero. -/
theorem C96_twisted_false : ¬ MirroredRuns := by
  intro hall
  obtain ⟨out, h⟩ := twist_finishes
  obtain ⟨x, hx, h0⟩ := twist_table h
  obtain ⟨y, h1, h2⟩ := hall twistEnv exactDgesv_lapack onePanelAc plainAc_ok.1 twist_numC
    (fun ac' h => (twist_symmetric ac' h).2) ⟨rfl, rfl⟩ levelFlight levelFlight rfl (by
      intro i hi
      obtain rfl : i = 0 := by simpa [levelFlight] using hi
      constructor
      · intro p hp x hx
        have : levelFlight.aero.entry p 0 = .ok (.fin 0) := by
          simp only [List.mem_cons, List.not_mem_nil, or_false] at hp
          rcases hp with rfl | rfl | rfl <;> rfl
        rw [this] at hx
        cases hx
        rw [this]
        simp
      · intro p hp x hx
        rw [hx, one_mul]) out out h h 0 (by simp [levelFlight])
  rw [hx] at h1 h2
  cases h1
  simp only [Flt.neg, Option.some.injEq, Flt.fin.injEq] at h2
  exact h0 (by linarith)

end Verif
