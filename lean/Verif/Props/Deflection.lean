import Verif.Props.NormalsExamples

/-!
# Properties C75 and C77: what a deflection of a control surface means
-/

set_option linter.unnecessarySeqFocus false

namespace Verif

open V3

/-! ## Rotation as a linear map -/

/-- Rotation by a known axis of length one. -/
noncomputable def rot (u : V3 ℝ) (t : ℝ) (v : V3 ℝ) : V3 ℝ :=
  Real.cos t • v + Real.sin t • u.cross v + ((1 - Real.cos t) * u.dot v) • u

theorem rotate_eq_rot {axis : V3 ℝ} (h : axis.norm ≠ 0) (t : ℝ) (v : V3 ℝ) :
    rotate axis t v = some (rot (unit axis) t v) := rotate_ne h t v

theorem rot_sub (u : V3 ℝ) (t : ℝ) (v w : V3 ℝ) : rot u t (v - w) = rot u t v - rot u t w := by
  unfold rot; ext <;> vsimp <;> ring

theorem rot_add (u : V3 ℝ) (t : ℝ) (v w : V3 ℝ) : rot u t (v + w) = rot u t v + rot u t w := by
  unfold rot; ext <;> vsimp <;> ring

theorem rot_smul (u : V3 ℝ) (t k : ℝ) (v : V3 ℝ) : rot u t (k • v) = k • rot u t v := by
  unfold rot; ext <;> vsimp <;> ring

/-- Rotations keep the orientation. -/
theorem rot_cross {u : V3 ℝ} (hu : u.dot u = 1) (t : ℝ) (a b : V3 ℝ) :
    (rot u t a).cross (rot u t b) = rot u t (a.cross b) := by
  have hc := Real.sin_sq_add_cos_sq t
  unfold rot
  generalize Real.cos t = c at hc
  generalize Real.sin t = s at hc
  ext
  · vsimp
    linear_combination ((1 - c) * c * (a.y * b.z - a.z * b.y) + s * (1 - c) *
      ((u.x * b.x + u.y * b.y + u.z * b.z) * a.x - (u.x * a.x + u.y * a.y + u.z * a.z) * b.x)) * hu +
      (u.x * (a.y * b.z - a.z * b.y) + u.y * (a.z * b.x - a.x * b.z) +
        u.z * (a.x * b.y - a.y * b.x)) * u.x * hc
  · vsimp
    linear_combination ((1 - c) * c * (a.z * b.x - a.x * b.z) + s * (1 - c) *
      ((u.x * b.x + u.y * b.y + u.z * b.z) * a.y - (u.x * a.x + u.y * a.y + u.z * a.z) * b.y)) * hu +
      (u.x * (a.y * b.z - a.z * b.y) + u.y * (a.z * b.x - a.x * b.z) +
        u.z * (a.x * b.y - a.y * b.x)) * u.y * hc
  · vsimp
    linear_combination ((1 - c) * c * (a.x * b.y - a.y * b.x) + s * (1 - c) *
      ((u.x * b.x + u.y * b.y + u.z * b.z) * a.z - (u.x * a.x + u.y * a.y + u.z * a.z) * b.z)) * hu +
      (u.x * (a.y * b.z - a.z * b.y) + u.y * (a.z * b.x - a.x * b.z) +
        u.z * (a.x * b.y - a.y * b.x)) * u.z * hc

/-! ## C75 -/

/-- `p` goes to `p'` when turned about the line through `o` with direction `axis`. -/
def Swung (axis : V3 ℝ) (t : ℝ) (o p p' : V3 ℝ) : Prop := rotate axis t (p - o) = some (p' - o)

theorem panel_swung {axis o : V3 ℝ} {t : ℝ} {v v' : Corners (V3 ℝ)}
    (ha : Swung axis t o v.a v'.a) (hb : Swung axis t o v.b v'.b) (hc : Swung axis t o v.c v'.c)
    (hd : Swung axis t o v.d v'.d) (leg : V3 ℝ) (n : ℤ) (k : ℕ) :
    (panelPts (Coef.of v') leg 1 n k 0).finNormal =
      (panelPts (Coef.of v) leg 1 n k 0).finNormal.bind (rotate axis t) := by
  have h0 := (rotate_some ha).1
  unfold Swung at ha hb hc hd
  rw [rotate_eq_rot h0] at ha hb hc hd
  have hu := unit_dot h0
  have hf : rotate axis t = fun x => some (rot (unit axis) t x) := funext (rotate_eq_rot h0 t)
  rw [hf]
  generalize unit axis = u at ha hb hc hd hu
  have move : ∀ p p' : V3 ℝ, some (rot u t (p - o)) = some (p' - o) →
      p' = o + rot u t (p - o) := by
    intro p p' h
    rw [Option.some.inj h]
    ext <;> simp
  have ea := move _ _ ha
  have eb := move _ _ hb
  have ec := move _ _ hc
  have ed := move _ _ hd
  have hx : (panelPts (Coef.of v') leg 1 n k 0).crossVec =
      rot u t (panelPts (Coef.of v) leg 1 n k 0).crossVec := by
    unfold PanelPts.crossVec
    simp only
    rw [← rot_cross hu]
    simp only [panelPts, Coef.of, Coef.at, ea, eb, ec, ed]
    simp only [rot_sub, rot_add, rot_smul]
    congr 1 <;> (ext <;> vsimp <;> ring)
  have hn : (rot u t (panelPts (Coef.of v) leg 1 n k 0).crossVec).norm =
      (panelPts (Coef.of v) leg 1 n k 0).crossVec.norm := by
    have : rotate u t (panelPts (Coef.of v) leg 1 n k 0).crossVec =
        some (rot u t (panelPts (Coef.of v) leg 1 n k 0).crossVec) := by
      have hun : u.norm = 1 := norm_of_sq (by norm_num) (by rw [hu]; norm_num)
      rw [rotate_eq_rot (by rw [hun]; norm_num)]
      congr 2
      unfold unit
      rw [hun]
      ext <;> simp
    exact rotate_norm this
  unfold PanelPts.finNormal PanelPts.normal
  rw [hx, hn]
  by_cases h : (panelPts (Coef.of v) leg 1 n k 0).crossVec.norm = 0
  · rw [if_pos h, if_pos h]
    rfl
  · rw [if_neg h, if_neg h, Option.bind_some, rot_smul]

/-- The subarea `a` of strip `d` is its slat or flap `f`. -/
def IsDevice (d : Strip ℝ) (a : Subarea ℝ) (f : Dev ℝ) : Prop :=
  (d.slat = some f ∧ a = ⟨"slat", f.toQuad, some f.ctrl⟩) ∨
  (d.flap = some f ∧ a = ⟨"flap", f.toQuad, some f.ctrl⟩)

theorem IsDevice.unique {d : Strip ℝ} {a : Subarea ℝ} {f f' : Dev ℝ} (h : IsDevice d a f)
    (h' : IsDevice d a f') : f' = f := by
  have hty : "slat" ≠ "flap" := by decide
  rcases h with ⟨s1, e1⟩ | ⟨s1, e1⟩ <;> rcases h' with ⟨s2, e2⟩ | ⟨s2, e2⟩
  · exact Option.some.inj (s2.symm.trans s1)
  · exact absurd (congrArg Subarea.type (e1.symm.trans e2)) hty
  · exact absurd (congrArg Subarea.type (e2.symm.trans e1)) hty
  · exact Option.some.inj (s2.symm.trans s1)

theorem rotate_zero {axis : V3 ℝ} (h : axis.norm ≠ 0) (v : V3 ℝ) : rotate axis 0 v = some v := by
  rw [rotate_eq_rot h]
  unfold rot
  rw [Real.cos_zero, Real.sin_zero]
  congr 1
  ext <;> vsimp <;> ring

/-- Normal of a panel of a device on a wing without camber. -/
theorem device_normal {ac ac' : PAircraft ℝ} (hu : ac.Unpanelled)
    (h : prePanelling ac = .ok ac') (hn : ac.NumC 0) {env : LatticeEnv} {alpha beta : ℝ}
    {l : LatticeData} (hl : genLattice env true alpha beta ac' = .ok l) {e : BookEntry}
    (he : e ∈ l.book.entries) {t : SubTuple ℝ} (ht : t ∈ allSubareas ac')
    (hp : e.path = SubTuple.path t) {f : Dev ℝ} (hf : IsDevice t.2.1.2 t.1.2 f)
    (hc : ∀ eta xsi, env.camber t.2.2.2.1 t.2.2.1.1 eta xsi = 0) {delta : ℝ}
    (hd : (if e.mirror then (env.deflection t.2.2.2.2.uid f.ctrl.uid).2
      else (env.deflection t.2.2.2.2.uid f.ctrl.uid).1) = some delta) :
    ∃ v axis, subareaVertices (env.geo t.2.2.2.1 t.2.2.1.1) t.2.1.2 f.toQuad e.mirror = .ok v ∧
      hingeAxis (env.geo t.2.2.2.1 t.2.2.1.1) t.2.1.2 f.h1 f.h2 e.mirror = .ok axis ∧
      ∀ k : ℕ, (k : ℤ) < e.numC → axis.norm ≠ 0 → l.normal (e.start + k) =
        (panelPts (Coef.of v) (trailLeg alpha beta) 1 e.numC k 0).finNormal.bind
          (rotate axis (delta * (Real.pi / 180))) := by
  obtain ⟨t', ht', hp', v, hv, hk⟩ := C71_own_rotations ac ac' hu h hn env alpha beta l hl e he
  have htt : t' = t := by
    have e1 := entryParts_of (env := env) ht' hp'
    obtain ⟨⟨i, a⟩, ⟨j, d⟩, ⟨k, s⟩, m, w⟩ := t
    obtain ⟨⟨i', a'⟩, ⟨j', d'⟩, ⟨k', s'⟩, m', w'⟩ := t'
    obtain ⟨x1, x2, x3, x4⟩ := ((C60_all_subareas ac').1 m k j i w s d a).1 ht
    obtain ⟨y1, y2, y3, y4⟩ := ((C60_all_subareas ac').1 m' k' j' i' w' s' d' a').1 ht'
    rw [hp] at hp'
    simp only [SubTuple.path, SubPath.mk.injEq] at hp'
    obtain ⟨rfl, rfl, rfl, rfl⟩ := hp'
    rw [x1] at y1
    cases y1
    rw [x2] at y2
    cases y2
    rw [x3] at y3
    cases y3
    rw [x4] at y4
    cases y4
    rfl
  subst htt
  have hq : t'.1.2.quad = f.toQuad := by
    rcases hf with ⟨-, e⟩ | ⟨-, e⟩ <;> rw [e]
  obtain ⟨axis, hax⟩ := hingeAxis_of_corners hv f.h1 f.h2
  refine ⟨v, axis, by rw [← hq]; exact hv, hax, ?_⟩
  intro k hk' hna
  obtain ⟨-, n1, t1, t2⟩ := hk k hk'
  have e2 : l.normal (e.start + k) = n1 := turnedBy_zero t2 (by simp [hc])
  rw [e2]
  rcases t1 with ⟨hs, -⟩ | ⟨f', hf', ax, hax', tb⟩
  · rcases hf with ⟨-, e⟩ | ⟨-, e⟩ <;>
    · have := congrArg Subarea.ctrl (hs.symm.trans e)
      cases this
  · have hff := IsDevice.unique hf hf'
    subst hff
    rw [hax] at hax'
    cases hax'
    rw [hd] at tb
    rcases tb with ⟨h1 | h1, rfl⟩ | ⟨d, h1, -, rfl⟩
    · cases h1
    · rw [Option.some.inj h1, zero_mul]
      cases (panelPts (Coef.of v) (trailLeg alpha beta) 1 e.numC k 0).finNormal with
      | none => rfl
      | some x => rw [Option.bind_some, rotate_zero hna]
    · rw [Option.some.inj h1]

/-- **C75**: the normals of a deflected control surface on a wing without camber are those of the
surface turned rigidly about its hinge line by the angle of deflection: if the four corners of the
surface are moved in this way (`o` is any point, e.g. one on the hinge line), the panels between the
moved corners have just these normals. -/
theorem C75_rigid_deflection (ac ac' : PAircraft ℝ) (hu : ac.Unpanelled)
    (h : prePanelling ac = .ok ac') (hn : ac.NumC 0) (env : LatticeEnv) (alpha beta : ℝ)
    (l : LatticeData) (hl : genLattice env true alpha beta ac' = .ok l) (e : BookEntry)
    (he : e ∈ l.book.entries) (t : SubTuple ℝ) (ht : t ∈ allSubareas ac')
    (hp : e.path = SubTuple.path t) (f : Dev ℝ) (hf : IsDevice t.2.1.2 t.1.2 f)
    (hc : ∀ eta xsi, env.camber t.2.2.2.1 t.2.2.1.1 eta xsi = 0) (delta : ℝ)
    (hd : (if e.mirror then (env.deflection t.2.2.2.2.uid f.ctrl.uid).2
      else (env.deflection t.2.2.2.2.uid f.ctrl.uid).1) = some delta) :
    ∃ v axis, subareaVertices (env.geo t.2.2.2.1 t.2.2.1.1) t.2.1.2 f.toQuad e.mirror = .ok v ∧
      hingeAxis (env.geo t.2.2.2.1 t.2.2.1.1) t.2.1.2 f.h1 f.h2 e.mirror = .ok axis ∧
      ∀ (o : V3 ℝ) (v' : Corners (V3 ℝ)),
        Swung axis (delta * (Real.pi / 180)) o v.a v'.a →
        Swung axis (delta * (Real.pi / 180)) o v.b v'.b →
        Swung axis (delta * (Real.pi / 180)) o v.c v'.c →
        Swung axis (delta * (Real.pi / 180)) o v.d v'.d →
        ∀ k : ℕ, (k : ℤ) < e.numC → l.normal (e.start + k) =
          (panelPts (Coef.of v') (trailLeg alpha beta) 1 e.numC k 0).finNormal := by
  obtain ⟨v, axis, hv, hax, hk⟩ := device_normal hu h hn hl he ht hp hf hc hd
  refine ⟨v, axis, hv, hax, ?_⟩
  intro o v' ha hb hc' hd' k hkn
  rw [hk k hkn (rotate_some ha).1, panel_swung ha hb hc' hd']

/-- Non-vacuity: points can be turned about the hinge line. -/
example : Swung ⟨0, 2, 0⟩ (90 * (Real.pi / 180)) ⟨1, 0, 0⟩ ⟨2, 0, 0⟩ ⟨1, 0, -1⟩ := by
  have h : (90 : ℝ) * (Real.pi / 180) = Real.pi / 2 := by ring
  have hn : (⟨0, 2, 0⟩ : V3 ℝ).norm = 2 := norm_of_sq (by norm_num) (by norm_num [V3.dot])
  unfold Swung
  rw [rotate_eq_rot (by rw [hn]; norm_num), h]
  unfold rot unit
  rw [hn, Real.cos_pi_div_two, Real.sin_pi_div_two]
  congr 1
  ext <;> vsimp <;> norm_num

/-! ## C77 -/

/-- A flat wing with chords in flight direction, outboard to the right, mirrored in the x-z plane. -/
structure FlatWing (g : GeoEnv ℝ) : Prop where
  sym : g.symmetry = 2
  undef : g.defField = none ∧ g.defFieldMirror = none
  flat : g.vertices.a.z = 0 ∧ g.vertices.b.z = 0 ∧ g.vertices.c.z = 0 ∧ g.vertices.d.z = 0
  chords : g.vertices.d.y = g.vertices.a.y ∧ g.vertices.c.y = g.vertices.b.y
  span : g.vertices.a.y < g.vertices.b.y

theorem FlatWing.strip {g : GeoEnv ℝ} (hg : FlatWing g) (s : Strip ℝ) (h1 : s.etaA = s.etaD)
    (h2 : s.etaB = s.etaC) (h3 : s.etaA < s.etaB) (m : Bool) :
    ∃ v, s.absVertices g m = .ok v ∧ (v.a.z = 0 ∧ v.b.z = 0 ∧ v.c.z = 0 ∧ v.d.z = 0) ∧
      v.d.y = v.a.y ∧ v.c.y = v.b.y ∧ v.a.y < v.b.y := by
  obtain ⟨f1, f2, f3, f4⟩ := hg.flat
  obtain ⟨c1, c2⟩ := hg.chords
  have hsp := hg.span
  have key : s.etaA * (g.vertices.b.y - g.vertices.a.y) <
      s.etaB * (g.vertices.b.y - g.vertices.a.y) :=
    mul_lt_mul_of_pos_right h3 (sub_pos.2 hsp)
  cases m with
  | false =>
    refine ⟨_, absVertices_eq g s, ?_⟩
    simp only [stripCorners, displaced, hg.undef.1, segPoint_zero, segPoint_one]
    refine ⟨⟨?_, ?_, ?_, ?_⟩, ?_, ?_, ?_⟩ <;> vsimp
    · rw [f1, f2]; ring
    · rw [f1, f2]; ring
    · rw [f3, f4]; ring
    · rw [f3, f4]; ring
    · rw [c1, c2, h1]
    · rw [c1, c2, h2]
    · linarith
  | true =>
    have hm := absVertices_mirror_eq g (.inr (.inl hg.sym)) s
    rw [hg.sym] at hm
    simp only [orderMirrored] at hm
    norm_num at hm
    refine ⟨_, hm, ?_⟩
    simp only [stripCornersMirror, displaced, hg.undef.2, hg.sym, reflect_two, flipY, segPoint_zero,
      segPoint_one]
    refine ⟨⟨?_, ?_, ?_, ?_⟩, ?_, ?_, ?_⟩ <;> vsimp
    · rw [f1, f2]; ring
    · rw [f1, f2]; ring
    · rw [f3, f4]; ring
    · rw [f3, f4]; ring
    · rw [c1, c2, h2]
    · rw [c1, c2, h1]
    · linarith

theorem flat_normal {v : Corners (V3 ℝ)} (h : v.a.z = 0 ∧ v.b.z = 0 ∧ v.c.z = 0 ∧ v.d.z = 0)
    {leg : V3 ℝ} {n : ℤ} {k : ℕ} {w : V3 ℝ}
    (hw : (panelPts (Coef.of v) leg 1 n k 0).finNormal = some w) :
    w.x = 0 ∧ w.y = 0 ∧ w.z ≠ 0 := by
  obtain ⟨h0, rfl⟩ := finNormal_some hw
  have hn := normal_norm h0
  obtain ⟨a1, a2, a3, a4⟩ := h
  have hx : (panelPts (Coef.of v) leg 1 n k 0).crossVec.x = 0 ∧
      (panelPts (Coef.of v) leg 1 n k 0).crossVec.y = 0 := by
    unfold PanelPts.crossVec
    simp only [panelPts, Coef.of, Coef.at]
    constructor <;> vsimp <;> rw [a1, a2, a3, a4] <;> ring
  have h1 : (panelPts (Coef.of v) leg 1 n k 0).normal.x = 0 := by
    unfold PanelPts.normal
    rw [V3.smul_x, hx.1, mul_zero]
  have h2 : (panelPts (Coef.of v) leg 1 n k 0).normal.y = 0 := by
    unfold PanelPts.normal
    rw [V3.smul_y, hx.2, mul_zero]
  refine ⟨h1, h2, ?_⟩
  intro h3
  have : (panelPts (Coef.of v) leg 1 n k 0).normal = 0 := by
    ext
    · exact h1
    · exact h2
    · exact h3
  rw [this, V3.norm_eq_zero.2 rfl] at hn
  norm_num at hn

theorem flat_turned {axis n w : V3 ℝ} {t : ℝ} (hn : n.x = 0 ∧ n.y = 0 ∧ n.z ≠ 0)
    (ha : axis.z = 0 ∧ 0 < axis.y) (h : rotate axis t n = some w) :
    ∃ k, 0 < k ∧ w.x * w.z = k * (Real.sin t * Real.cos t) := by
  obtain ⟨h0, rfl⟩ := rotate_some h
  have hu : (unit axis).z = 0 := by
    unfold unit; rw [V3.smul_z, ha.1, mul_zero]
  have hy : 0 < (unit axis).y := by
    unfold unit
    rw [V3.smul_y]
    exact mul_pos (one_div_pos.2 (lt_of_le_of_ne (V3.norm_nonneg _) (Ne.symm h0))) ha.2
  generalize unit axis = u at hu hy
  refine ⟨u.y * n.z ^ 2, mul_pos hy (by have := hn.2.2; positivity), ?_⟩
  vsimp
  rw [hn.1, hn.2.1, hu]
  ring

/-- **C77**: on a flat wing without camber a positive deflection (below 90 degree) of a control
surface lowers the rear end of its panels, a negative one raises it, on the wing itself and on its
mirror image alike: the panel plane `n.x * x + n.z * z = const` falls to the rear if `n.x` and `n.z`
have the same sign. -/
theorem C77_positive_is_down (ac ac' : PAircraft ℝ) (hu : ac.Unpanelled)
    (h : prePanelling ac = .ok ac') (hn : ac.NumC 0) (env : LatticeEnv) (alpha beta : ℝ)
    (l : LatticeData) (hl : genLattice env true alpha beta ac' = .ok l) (e : BookEntry)
    (he : e ∈ l.book.entries) (t : SubTuple ℝ) (ht : t ∈ allSubareas ac')
    (hp : e.path = SubTuple.path t) (f : Dev ℝ) (hf : IsDevice t.2.1.2 t.1.2 f)
    (hc : ∀ eta xsi, env.camber t.2.2.2.1 t.2.2.1.1 eta xsi = 0) (delta : ℝ)
    (hd : (if e.mirror then (env.deflection t.2.2.2.2.uid f.ctrl.uid).2
      else (env.deflection t.2.2.2.2.uid f.ctrl.uid).1) = some delta)
    (hg : FlatWing (env.geo t.2.2.2.1 t.2.2.1.1)) (hw : t.2.1.2.etaA < t.2.1.2.etaB)
    (k : ℕ) (hk : (k : ℤ) < e.numC) (n : V3 ℝ) (hnk : l.normal (e.start + k) = some n) :
    (0 < delta → delta < 90 → 0 < n.x * n.z) ∧ (-90 < delta → delta < 0 → n.x * n.z < 0) ∧
    (delta = 0 → n.x * n.z = 0) := by
  obtain ⟨v, axis, hv, hax, hkn⟩ := device_normal hu h hn hl he ht hp hf hc hd
  obtain ⟨m1, m2, m3, m4⟩ := mem_allSubareas ht
  obtain ⟨e1, e2⟩ := C04_aircraft_chord_lines ac ac' hu h _ m1 _ m2 _ m3
  obtain ⟨sd, hsd, ⟨z1, z2, z3, z4⟩, y1, y2, y3⟩ := hg.strip t.2.1.2 e1 e2 hw e.mirror
  have hvz : v.a.z = 0 ∧ v.b.z = 0 ∧ v.c.z = 0 ∧ v.d.z = 0 := by
    unfold subareaVertices at hv
    rw [hsd] at hv
    simp only at hv
    cases ho : (if e.mirror then orderMirrored ⟨f.toQuad.xsiA, f.toQuad.xsiB, f.toQuad.xsiC,
        f.toQuad.xsiD⟩ (env.geo t.2.2.2.1 t.2.2.1.1).symmetry
        else .ok ⟨f.toQuad.xsiA, f.toQuad.xsiB, f.toQuad.xsiC, f.toQuad.xsiD⟩ :
        Except PyErr (Corners ℝ)) with
    | error x => rw [ho] at hv; cases hv
    | ok x =>
      rw [ho] at hv
      cases hv
      refine ⟨?_, ?_, ?_, ?_⟩ <;> vsimp <;> simp only [z1, z2, z3, z4] <;> ring
  have haz : axis.z = 0 ∧ 0 < axis.y := by
    unfold hingeAxis hingeVertices at hax
    rw [hsd] at hax
    cases hax
    constructor <;> vsimp
    · rw [z1, z2, z3, z4]; ring
    · rw [y1, y2]; ring_nf; linarith
  have hna : axis.norm ≠ 0 := by
    intro h0
    have := V3.norm_eq_zero.1 h0
    rw [this] at haz
    exact lt_irrefl _ haz.2
  rw [hkn k hk hna] at hnk
  obtain ⟨w, hw1, hw2⟩ := Option.bind_eq_some_iff.1 hnk
  obtain ⟨c, hc0, hc1⟩ := flat_turned (flat_normal hvz hw1) haz hw2
  have hpi := Real.pi_pos
  refine ⟨?_, ?_, ?_⟩
  · intro d1 d2
    rw [hc1]
    refine mul_pos hc0 (mul_pos (Real.sin_pos_of_pos_of_lt_pi ?_ ?_) (Real.cos_pos_of_mem_Ioo ⟨?_, ?_⟩))
    all_goals nlinarith
  · intro d1 d2
    rw [hc1]
    refine mul_neg_of_pos_of_neg hc0 (mul_neg_of_neg_of_pos
      (Real.sin_neg_of_neg_of_neg_pi_lt ?_ ?_) (Real.cos_pos_of_mem_Ioo ⟨?_, ?_⟩))
    all_goals nlinarith
  · rintro rfl
    rw [hc1, zero_mul, Real.sin_zero, zero_mul, mul_zero]

/-- Non-vacuity of **C75** and **C77**: a flat wing with its flaps deflected by 5 and -5 degree. -/
noncomputable def flatEnv : LatticeEnv :=
  { geo := fun _ _ => ⟨⟨⟨0, 0, 0⟩, ⟨0, 2, 0⟩, ⟨4, 2, 0⟩, ⟨4, 0, 0⟩⟩, 2, none, none⟩
    deflection := fun _ _ => (some 5, some (-5))
    camber := fun _ _ _ _ => 0 }

example : FlatWing (flatEnv.geo 0 0) ∧
    (∃ l, genLattice flatEnv true 2 0 (flapPanelled 2) = .ok l ∧
      ⟨⟨0, 0, 0, 1⟩, "W", 3, 4, 1, true⟩ ∈ l.book.entries) ∧
    (∃ t ∈ allSubareas (flapPanelled 2), SubTuple.path t = ⟨0, 0, 0, 1⟩ ∧
      t.2.1.2.etaA < t.2.1.2.etaB ∧ IsDevice t.2.1.2 t.1.2 ⟨⟨3/4, 3/4, 1, 1⟩, 3/4, 3/4, ⟨"F", "flap"⟩⟩) := by
  refine ⟨⟨rfl, ⟨rfl, rfl⟩, ⟨rfl, rfl, rfl, rfl⟩, ⟨rfl, rfl⟩, by simp [flatEnv]⟩, ?_, ?_⟩
  · obtain ⟨l, hl⟩ := C76_lattice_generated _ _ (flapAircraft_ok 2).1 (flapAircraft_panelled 2)
      (flapAircraft_ok 2).2 flatEnv true 2 0 (fun _ _ _ => .inr (.inl rfl))
    obtain ⟨b, hb, h1, -⟩ := flapAircraft_book (sym := 2) (by norm_num)
    obtain ⟨-, k1, -⟩ := genLattice_ok hl
    rw [hb] at k1
    cases k1
    exact ⟨l, hl, by rw [h1]; decide⟩
  · refine ⟨_, List.mem_cons_of_mem _ (List.mem_singleton.2 rfl), rfl, ?_, .inr ⟨rfl, rfl⟩⟩
    show (0 : ℝ) < 1
    norm_num

/-! ## C78 -/

/-- Mirror image in the x-y plane. -/
def flipZ (v : V3 ℝ) : V3 ℝ := ⟨v.x, v.y, -v.z⟩

theorem reflect_one (v : V3 ℝ) : reflect (symNormal 1 : V3 ℝ) v = flipZ v := by
  unfold reflect symNormal flipZ
  ext <;> simp [V3.dot] <;> ring

theorem flipZ_norm (v : V3 ℝ) : (flipZ v).norm = v.norm := by
  unfold V3.norm flipZ
  congr 1
  ring

/-- A rotation seen in the x-y mirror: the sense is reversed. -/
theorem rotate_flipZ (axis v : V3 ℝ) (t : ℝ) :
    rotate (flipZ axis) (-t) (-flipZ v) = (rotate axis t v).map fun w => -flipZ w := by
  by_cases h0 : axis.norm = 0
  · unfold rotate
    rw [flipZ_norm, if_pos h0, if_pos h0]
    rfl
  · rw [rotate_ne h0, rotate_ne (by rwa [flipZ_norm]), Option.map_some]
    congr 1
    have hu : unit (flipZ axis) = flipZ (unit axis) := by
      unfold unit
      rw [flipZ_norm]
      ext <;> simp [flipZ]
    rw [hu, Real.cos_neg, Real.sin_neg]
    generalize unit axis = u
    unfold flipZ
    ext <;> vsimp <;> ring

theorem finNormal_flipZ (v : Corners (V3 ℝ)) (leg : V3 ℝ) (n : ℤ) (k : ℕ) :
    (panelPts (Coef.of ⟨flipZ v.a, flipZ v.b, flipZ v.c, flipZ v.d⟩) leg 1 n k 0).finNormal =
      (panelPts (Coef.of v) leg 1 n k 0).finNormal.map fun w => -flipZ w := by
  have hx : (panelPts (Coef.of ⟨flipZ v.a, flipZ v.b, flipZ v.c, flipZ v.d⟩) leg 1 n k 0).crossVec =
      -flipZ (panelPts (Coef.of v) leg 1 n k 0).crossVec := by
    unfold PanelPts.crossVec
    simp only [panelPts, Coef.of, Coef.at, flipZ]
    ext <;> vsimp <;> ring
  unfold PanelPts.finNormal PanelPts.normal
  rw [hx, V3.norm_neg, flipZ_norm]
  generalize (panelPts (Coef.of v) leg 1 n k 0).crossVec = c
  by_cases h : c.norm = 0
  · rw [if_pos h, if_pos h]
    rfl
  · rw [if_neg h, if_neg h, Option.map_some]
    congr 1
    unfold flipZ
    ext <;> vsimp <;> ring

/-- The claim **C78** for given deflections of the two halves of a wing mirrored in the x-y plane:
normals of the mirrored half of a control surface are mirror images of those of the original half
(up to the orientation of the normal). -/
def MirroredDeflection (delta delta' : ℝ) : Prop :=
  ∀ (ac ac' : PAircraft ℝ), ac.Unpanelled → prePanelling ac = .ok ac' → ac.NumC 0 →
    ∀ (env : LatticeEnv) (alpha beta : ℝ) (l : LatticeData),
      genLattice env true alpha beta ac' = .ok l →
    ∀ e ∈ l.book.entries, ∀ e' ∈ l.book.entries, ∀ t ∈ allSubareas ac',
      e.path = SubTuple.path t → e'.path = SubTuple.path t → e.mirror = false → e'.mirror = true →
      e'.numC = e.numC →
    ∀ f, IsDevice t.2.1.2 t.1.2 f →
      (∀ eta xsi, env.camber t.2.2.2.1 t.2.2.1.1 eta xsi = 0) →
      env.deflection t.2.2.2.2.uid f.ctrl.uid = (some delta, some delta') →
      (env.geo t.2.2.2.1 t.2.2.1.1).symmetry = 1 →
      (env.geo t.2.2.2.1 t.2.2.1.1).SymmetricDef →
    ∀ axis, hingeAxis (env.geo t.2.2.2.1 t.2.2.1.1) t.2.1.2 f.h1 f.h2 false = .ok axis →
      axis.norm ≠ 0 → ∀ k : ℕ, (k : ℤ) < e.numC →
      l.normal (e'.start + k) = (l.normal (e.start + k)).map fun n => -flipZ n

theorem mirroredDeflection_opposite (delta : ℝ) : MirroredDeflection delta (-delta) := by
  intro ac ac' hu h hn env alpha beta l hl e he e' he' t ht hp hp' hm hm' hnum f hf hc hd hg hs
    axis hax hna k hk
  obtain ⟨v, ax, hv, hax1, hk1⟩ := device_normal hu h hn hl he ht hp hf hc (delta := delta)
    (by rw [hm, hd]; rfl)
  obtain ⟨v', ax', hv', hax2, hk2⟩ := device_normal hu h hn hl he' ht hp' hf hc (delta := -delta)
    (by rw [hm', hd]; rfl)
  rw [hm] at hv hax1
  rw [hm'] at hv' hax2
  rw [hax] at hax1
  cases hax1
  have e1 := (C21_mirror_axis _ hs t.2.1.2 f.h1 f.h2 axis ax' hax hax2).1 hg
  rw [reflect_one] at e1
  subst e1
  obtain ⟨w1, w2, -⟩ := subareaVertices_mirror _ (.inl hg) hs t.2.1.2 f.toQuad
  have w2 := w2 hg
  rw [hg] at w2
  simp only [reflect_one] at w2
  rw [hv] at w1
  have e2 := Except.ok.inj w1
  have e3 : v' = ⟨flipZ v.a, flipZ v.b, flipZ v.c, flipZ v.d⟩ := by
    rw [hv'] at w2
    rw [Except.ok.inj w2, e2]
  subst e3
  rw [hk1 k hk hna, hk2 k (by omega) (by rwa [flipZ_norm]), hnum, finNormal_flipZ, neg_mul]
  cases (panelPts (Coef.of v) (trailLeg alpha beta) 1 e.numC k 0).finNormal with
  | none => rfl
  | some n => rw [Option.map_some, Option.bind_some, Option.bind_some, rotate_flipZ]

/-- **C78** (partial): on a wing mirrored in the x-y plane, *opposite* angles of deflection turn the
two halves of a control surface to mirror images.  Missing: equal angles, see
`C78_xy_mirror_false`. -/
theorem C78_xy_mirror_partial (delta : ℝ) : MirroredDeflection delta (-delta) :=
  mirroredDeflection_opposite delta

/-- A fin with a rudder and its mirror image below. -/
noncomputable def finEnv (d d' : ℝ) : LatticeEnv :=
  { geo := fun _ _ => ⟨⟨⟨0, 0, 1⟩, ⟨0, 0, 3⟩, ⟨4, 0, 3⟩, ⟨4, 0, 1⟩⟩, 1, none, none⟩
    deflection := fun _ _ => (some d, some d')
    camber := fun _ _ _ _ => 0 }

/-- The subarea of the flap. -/
noncomputable def flapSub (sym : ℕ) : SubTuple ℝ :=
  ((1, ⟨"flap", ⟨3/4, 3/4, 1, 1⟩, some ⟨"F", "flap"⟩⟩), (0, flapStripR), (0, flapSegP),
    (0, flapWingP sym))

theorem flapSub_mem (sym : ℕ) : flapSub sym ∈ allSubareas (flapPanelled sym) :=
  List.mem_cons_of_mem _ (List.mem_singleton.2 rfl)

theorem fin_geometry (d d' : ℝ) :
    subareaVertices ((finEnv d d').geo 0 0) flapStripR ⟨3/4, 3/4, 1, 1⟩ false =
      .ok ⟨⟨3, 0, 1⟩, ⟨3, 0, 3⟩, ⟨4, 0, 3⟩, ⟨4, 0, 1⟩⟩ ∧
    hingeAxis ((finEnv d d').geo 0 0) flapStripR (3/4) (3/4) false = .ok ⟨0, 0, 2⟩ := by
  constructor <;>
  · simp only [subareaVertices, hingeAxis, hingeVertices, Strip.absVertices, finEnv,
      GeoEnv.isDeformed, flapStripR]
    norm_num
    first
      | (refine ⟨?_, ?_, ?_, ?_⟩ <;> ext <;> vsimp <;> norm_num)
      | (ext <;> vsimp <;> norm_num)

/-- **C78** is *false* for equal angles: whatever the angle, the rudder above and the rudder below
turn to different sides. -/
theorem C78_xy_mirror_false (delta : ℝ) (h0 : 0 < delta) (h1 : delta < 180) :
    ¬ MirroredDeflection delta delta := by
  intro hall
  obtain ⟨hu, hn⟩ := flapAircraft_ok 1
  have hpre := flapAircraft_panelled 1
  have hs : ∀ d', ((finEnv delta d').geo 0 0).SymmetricDef := by
    intro d' p; simp [finEnv, displaced]
  obtain ⟨b, hb, hbe, -⟩ := flapAircraft_book (sym := 1) (by norm_num)
  have hf : IsDevice (flapSub 1).2.1.2 (flapSub 1).1.2 ⟨⟨3/4, 3/4, 1, 1⟩, 3/4, 3/4, ⟨"F", "flap"⟩⟩ :=
    .inr ⟨rfl, rfl⟩
  obtain ⟨l, hl⟩ := C76_lattice_generated _ _ hu hpre hn (finEnv delta delta) true 0 0
    (fun _ _ _ => .inl rfl)
  have hk := (genLattice_ok hl).choose_spec.1
  rw [hb] at hk
  have hent : l.book.entries = flapBook := by rw [← Except.ok.inj hk]; exact hbe
  have m1 : (⟨⟨0, 0, 0, 1⟩, "W", 2, 3, 1, false⟩ : BookEntry) ∈ l.book.entries := by
    rw [hent]; decide
  have m2 : (⟨⟨0, 0, 0, 1⟩, "W", 3, 4, 1, true⟩ : BookEntry) ∈ l.book.entries := by
    rw [hent]; decide
  have hnz : (⟨0, 0, 2⟩ : V3 ℝ).norm ≠ 0 := by
    intro h
    have := congrArg V3.z (V3.norm_eq_zero.1 h)
    norm_num at this
  -- equal angles, by assumption
  have c1 := hall _ _ hu hpre hn (finEnv delta delta) 0 0 l hl _ m1 _ m2
    (flapSub 1) (flapSub_mem 1) rfl rfl rfl rfl rfl _ hf (fun _ _ => rfl) rfl rfl (hs _) _
    (fin_geometry delta delta).2 hnz 0 (by norm_num)
  obtain ⟨v, ax, hv, hax, hkn⟩ := device_normal hu hpre hn hl m1 (flapSub_mem 1) rfl hf
    (fun _ _ => rfl) (delta := delta) rfl
  obtain ⟨v', ax', hv', hax', hkn'⟩ := device_normal hu hpre hn hl m2 (flapSub_mem 1) rfl hf
    (fun _ _ => rfl) (delta := delta) rfl
  have e1 := Except.ok.inj (hv.symm.trans (fin_geometry delta delta).1)
  have e2 := Except.ok.inj (hax.symm.trans (fin_geometry delta delta).2)
  have e3 := (C21_mirror_axis _ (hs delta) _ _ _ _ _ hax hax').1 rfl
  obtain ⟨w1, w2, -⟩ := subareaVertices_mirror ((finEnv delta delta).geo 0 0) (.inl rfl) (hs delta)
    flapStripR ⟨3/4, 3/4, 1, 1⟩
  have e4 := Except.ok.inj (hv'.symm.trans (w2 rfl))
  have e5 := Except.ok.inj ((fin_geometry delta delta).1.symm.trans w1)
  have e6 : v' = ⟨flipZ ⟨3, 0, 1⟩, flipZ ⟨3, 0, 3⟩, flipZ ⟨4, 0, 3⟩, flipZ ⟨4, 0, 1⟩⟩ := by
    rw [e4]
    have h : ((finEnv delta delta).geo 0 0).symmetry = 1 := rfl
    rw [h]
    simp only [reflect_one]
    simp only [Corners.mk.injEq] at e5
    rw [← e5.1, ← e5.2.1, ← e5.2.2.1, ← e5.2.2.2]
  rw [reflect_one] at e3
  subst e1 e2 e6 e3
  have k1 := hkn 0 (by norm_num) hnz
  have k2 := hkn' 0 (by norm_num) (by rwa [flipZ_norm])
  rw [k1, k2] at c1
  simp only at c1
  rw [finNormal_flipZ ⟨⟨3, 0, 1⟩, ⟨3, 0, 3⟩, ⟨4, 0, 3⟩, ⟨4, 0, 1⟩⟩] at c1
  have x0 : (panelPts (Coef.of ⟨⟨3, 0, 1⟩, ⟨3, 0, 3⟩, ⟨4, 0, 3⟩, ⟨4, 0, 1⟩⟩) (trailLeg 0 0) 1 1 0
      0).crossVec = ⟨0, 3/4, 0⟩ := by
    ext <;> simp only [PanelPts.crossVec, panelPts, Coef.of, Coef.at] <;> vsimp <;> norm_num
  have hx : (⟨0, 3/4, 0⟩ : V3 ℝ).norm = 3/4 := norm_of_sq (by norm_num) (by norm_num [V3.dot])
  have f0 : (panelPts (Coef.of ⟨⟨3, 0, 1⟩, ⟨3, 0, 3⟩, ⟨4, 0, 3⟩, ⟨4, 0, 1⟩⟩) (trailLeg 0 0) 1 1 0
      0).finNormal = some ⟨0, 1, 0⟩ := by
    unfold PanelPts.finNormal PanelPts.normal
    rw [x0, hx, if_neg (by norm_num)]
    congr 1
    ext <;> vsimp <;> norm_num
  rw [f0, Option.map_some, Option.bind_some, Option.bind_some] at c1
  have t1 := rotate_flipZ ⟨0, 0, 2⟩ ⟨0, 1, 0⟩ (-(delta * (Real.pi / 180)))
  rw [neg_neg] at t1
  rw [t1, rotate_eq_rot hnz, rotate_eq_rot hnz, Option.map_some, Option.map_some] at c1
  have c2 := congrArg V3.x (Option.some.inj c1)
  have hz : (⟨0, 0, 2⟩ : V3 ℝ).norm = 2 := norm_of_sq (by norm_num) (by norm_num [V3.dot])
  unfold rot unit flipZ at c2
  rw [hz, Real.sin_neg] at c2
  simp only [V3.dot, V3.add_x, V3.smul_x, V3.neg_x, V3.cross_x, V3.smul_y, V3.smul_z] at c2
  have hpi := Real.pi_pos
  have hsin : 0 < Real.sin (delta * (Real.pi / 180)) :=
    Real.sin_pos_of_pos_of_lt_pi (by positivity) (by nlinarith)
  norm_num at c2
  linarith

end Verif
