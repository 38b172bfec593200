import Verif.Props.Tailplane

/-!
# Property C153: aircraft with wings, tailplanes and fins are analysed in all flight states
-/

namespace Verif

open V3

/-! ## Fins -/

/-- Root and tip chord of the segment run backwards in planes of constant z, the tip lies above the root.
Sweep, taper, inclination and twist are allowed. -/
structure Corners.FromSide (v : Corners (V3 ℝ)) : Prop where
  root : v.d.z = v.a.z
  tip : v.c.z = v.b.z
  span : v.a.z < v.b.z
  rootChord : v.a.x < v.d.x
  tipChord : v.b.x < v.c.x

theorem Corners.FromSide.patch {v : Corners (V3 ℝ)} (h : v.FromSide) {e1 e2 xa xb xc xd : ℝ}
    (hp : PatchOk e1 e2 xa xb xc xd) : (patch v e1 e2 xa xb xc xd).FromSide ∧
      (patch v e1 e2 xa xb xc xd).a.z = v.a.z + e1 * (v.b.z - v.a.z) ∧
      (patch v e1 e2 xa xb xc xd).b.z = v.a.z + e2 * (v.b.z - v.a.z) := by
  obtain ⟨h4, h5, h6, h7, h8⟩ := h
  obtain ⟨⟨s1, s2, s3⟩, ⟨i1, i2, i3⟩, o1, o2, o3⟩ := hp
  obtain ⟨c1, c2⟩ := patch_chords v e1 e2 xa xb xc xd
  have z : ∀ e x, (segPoint v e x).z = v.a.z + e * (v.b.z - v.a.z) := by
    intro e x
    unfold segPoint
    simp [h4, h5]
  have chord : ∀ e, 0 ≤ e → e ≤ 1 → 0 < (1 - e) * (v.d.x - v.a.x) + e * (v.c.x - v.b.x) := by
    intro e e0 e1
    rcases e1.eq_or_lt with rfl | e1
    · linarith
    · have := mul_pos (sub_pos.2 e1) (sub_pos.2 h7)
      have := mul_nonneg e0 (sub_pos.2 h8).le
      linarith
  refine ⟨⟨?_, ?_, ?_, ?_, ?_⟩, z _ _, z _ _⟩
  · show (segPoint v _ _).z = (segPoint v _ _).z
    rw [z, z]
  · show (segPoint v _ _).z = (segPoint v _ _).z
    rw [z, z]
  · show (segPoint v _ _).z < (segPoint v _ _).z
    rw [z, z]
    nlinarith
  · have := mul_pos (sub_pos.2 i2) (chord e1 s1 (by linarith))
    rw [← c1] at this
    linarith
  · have := mul_pos (sub_pos.2 o2) (chord e2 (by linarith) s3)
    rw [← c2] at this
    linarith

/-- Range of z covered by the part of a segment between two stations. -/
noncomputable def heightRange (v : Corners (V3 ℝ)) (e1 e2 : ℝ) : ℝ × ℝ :=
  (v.a.z + e1 * (v.b.z - v.a.z), v.a.z + e2 * (v.b.z - v.a.z))

/-- The corners of each subarea of an undeformed fin. -/
theorem subarea_side {ac ac' : PAircraft ℝ} (hu : ac.Unpanelled) (h : prePanelling ac = .ok ac')
    {w : PWing ℝ} (hw : w ∈ ac'.wings) {s : PSegment ℝ} (hs : s ∈ w.segments) {d : Strip ℝ}
    (hd : d ∈ s.strips) {a : Subarea ℝ} (ha : a ∈ d.subareas) {g : GeoEnv ℝ} (hg : g.isDeformed = false)
    (hf : g.vertices.FromSide) {v : Corners (V3 ℝ)} (hv : subareaVertices g d a.quad false = .ok v) :
    v.FromSide ∧ (v.a.z, v.b.z) = heightRange g.vertices d.etaA d.etaB := by
  have hp := panelled_quad hu h hw hs hd ha
  unfold GeoEnv.isDeformed at hg
  rw [Bool.or_eq_false_iff, Option.isSome_eq_false_iff, Option.isSome_eq_false_iff,
    Option.isNone_iff_eq_none, Option.isNone_iff_eq_none] at hg
  have hc := C22_aircraft_subarea_corners ac ac' hu h g hg.1 w hw s hs d hd
  rw [hc a.quad] at hv
  cases hv
  obtain ⟨q1, q2, q3⟩ := hf.patch hp
  exact ⟨q1, Prod.ext q2 q3⟩

theorem Corners.FromSide.normals {v : Corners (V3 ℝ)} (h : v.FromSide) :
    0 < v.normalVector.dot ⟨0, 1, 0⟩ ∧ 0 < v.normalB.dot ⟨0, 1, 0⟩ ∧ 0 < v.normalC.dot ⟨0, 1, 0⟩ ∧
      0 < v.normalD.dot ⟨0, 1, 0⟩ := by
  obtain ⟨h4, h5, h6, h7, h8⟩ := h
  have p1 := mul_pos (sub_pos.2 h6) (sub_pos.2 h7)
  have p2 := mul_pos (sub_pos.2 h6) (sub_pos.2 h8)
  unfold Corners.normalVector Corners.normalB Corners.normalC Corners.normalD
  refine ⟨?_, ?_, ?_, ?_⟩ <;> simp [V3.dot, h4, h5] <;> nlinarith

theorem Corners.FromSide.finNormal {v : Corners (V3 ℝ)} (h : v.FromSide) (leg : V3 ℝ) {n : ℤ} {k : ℕ}
    (hk : (k : ℤ) < n) : ∃ N, (panelPts (Coef.of v) leg 1 n k 0).finNormal = some N := by
  obtain ⟨h1, h2, h3, h4⟩ := h.normals
  have hn : (0 : ℝ) < n := by
    have : (0 : ℤ) < n := by omega
    exact_mod_cast this
  have hkn : (k : ℝ) + 1 ≤ n := by exact_mod_cast hk
  have hc : 1 / (n : ℝ) * (k + 3/4) < 1 := by
    rw [one_div, inv_mul_lt_iff₀ hn]
    linarith
  have hc0 : 0 < 1 / (n : ℝ) * (k + 3/4) := by positivity
  obtain ⟨N, hN, -⟩ := finNormal_of_dot (g := panelPts (Coef.of v) leg 1 n k 0) (u := ⟨0, 1, 0⟩) (by
    have e : ∀ (r : ℝ) (u w : V3 ℝ), (r • u).dot w = r * u.dot w := by
      intro r u w
      simp [V3.dot]
      ring
    rw [crossVec_blend, e, blend_dot]
    have c1 := sub_pos.2 hc
    have q1 := mul_pos c1 h1
    have q2 := mul_pos c1 h2
    have q3 := mul_pos hc0 h3
    have q4 := mul_pos hc0 h4
    apply mul_pos (by positivity)
    nlinarith)
  exact ⟨N, hN⟩

theorem camberAxis_ne {v : Corners (V3 ℝ)} (hne : (v.b - v.a).cross (v.d - v.a) ≠ 0) :
    (camberAxis v).norm ≠ 0 := by
  have h2 := cross_cross_ne hne
  apply norm_ne_zero_of_ne
  have h3 := norm_ne_zero_of_ne h2
  have e1 : camberAxis v = (1 / (((v.b - v.a).cross (v.d - v.a)).cross (v.d - v.a)).norm) •
      ((v.b - v.a).cross (v.d - v.a)).cross (v.d - v.a) := by
    unfold camberAxis
    ext <;> simp
  rw [e1]
  generalize ((v.b - v.a).cross (v.d - v.a)).cross (v.d - v.a) = u at h2 h3
  intro e
  apply h2
  have ex := congrArg V3.x e
  have ey := congrArg V3.y e
  have ez := congrArg V3.z e
  simp [h3] at ex ey ez
  ext
  · simpa using ex
  · simpa using ey
  · simpa using ez

theorem Corners.FromSide.camberAxis {v : Corners (V3 ℝ)} (h : v.FromSide) : (camberAxis v).norm ≠ 0 := by
  refine camberAxis_ne fun e => ?_
  obtain ⟨h4, h5, h6, h7, h8⟩ := h
  have := congrArg V3.y e
  simp [h4] at this
  rcases this with e | e <;> linarith

/-- The hinge of a rudder runs upwards. -/
theorem hingeAxis_side {g : GeoEnv ℝ} (hg : g.isDeformed = false) {d : Strip ℝ} (h1 h2 : ℝ)
    (hf : g.vertices.FromSide) (hc : d.etaC = d.etaB) (hd : d.etaD = d.etaA) (hab : d.etaA < d.etaB)
    {axis : V3 ℝ} (h : hingeAxis g d h1 h2 false = .ok axis) : axis.norm ≠ 0 := by
  apply norm_ne_zero_of_ne
  obtain ⟨h4, h5, h6, h7, h8⟩ := hf
  have hpos := mul_pos (sub_pos.2 hab) (sub_pos.2 h6)
  intro e
  subst e
  unfold hingeAxis hingeVertices Strip.absVertices at h
  rw [hg] at h
  simp only [Bool.false_eq_true, if_false, false_and] at h
  have := congrArg V3.z (Except.ok.inj h)
  simp [h4, h5, hc, hd] at this
  nlinarith

/-- A panel of a fin: what the solver reads of it. -/
structure Panel.Beside (g : Panel) (leg : V3 ℝ) (r : ℝ × ℝ) : Prop where
  left : g.v2.z = r.1 ∧ g.v1 = g.v2 + leg
  right : g.v3.z = r.2 ∧ g.v4 = g.v3 + leg
  span : r.1 < r.2
  col : g.col.z = (r.1 + r.2) / 2
  mid : g.mid.z = (r.1 + r.2) / 2

/-- The panels of an entry that belongs to a fin. -/
theorem entry_side {ac ac' : PAircraft ℝ} (hu : ac.Unpanelled) (h : prePanelling ac = .ok ac')
    (hn : ac.NumC 0) {env : LatticeEnv} {doRot : Bool} {alpha beta : ℝ} {l : LatticeData}
    (hl : genLattice env doRot alpha beta ac' = .ok l) {e : BookEntry} (he : e ∈ l.book.entries)
    (hrigid : (env.geo e.path.wing e.path.seg).isDeformed = false)
    (hfrom : (env.geo e.path.wing e.path.seg).vertices.FromSide) (hmirror : e.mirror = false) :
    ∃ w s d, ac'.wings[e.path.wing]? = some w ∧ w.segments[e.path.seg]? = some s ∧
      s.strips[e.path.strip]? = some d ∧ ∀ k : ℕ, (k : ℤ) < e.numC → ∃ g, l.panelAt (e.start + k) = some g ∧
        g.Beside (trailLeg alpha beta)
          (heightRange (env.geo e.path.wing e.path.seg).vertices d.etaA d.etaB) := by
  obtain ⟨-, -, -, hent, -⟩ := lattice_entry hu h hn hl
  obtain ⟨t, ht, hpath, -, v, hv, hpts⟩ := hent e he
  obtain ⟨m1, m2, m3, m4⟩ := mem_allSubareas ht
  have hgeo : env.geo t.2.2.2.1 t.2.2.1.1 = env.geo e.path.wing e.path.seg := by rw [hpath]; rfl
  have hv' := hv
  rw [hgeo, hmirror] at hv'
  obtain ⟨hva, hr⟩ := subarea_side hu h m1 m2 m3 m4 hrigid hfrom hv'
  obtain ⟨i1, i2, i3, -⟩ := ((C60_all_subareas ac').1 t.2.2.2.1 t.2.2.1.1 t.2.1.1 t.1.1 t.2.2.2.2 t.2.2.1.2
    t.2.1.2 t.1.2).1 ht
  refine ⟨t.2.2.2.2, t.2.2.1.2, t.2.1.2, by rw [hpath]; exact i1, by rw [hpath]; exact i2,
    by rw [hpath]; exact i3, fun k hk => ?_⟩
  have hnormal : ∃ N, l.normal (e.start + k) = some N := by
    obtain ⟨N, hN⟩ := hva.finNormal (trailLeg alpha beta) hk
    cases hdo : doRot with
    | false =>
      obtain ⟨-, -, -, -, -, k5, -⟩ := genLattice_ok hl
      refine ⟨N, ?_⟩
      rw [k5 hdo]
      simp only [hpts k hk, Option.bind_some, hN]
    | true =>
      rw [hdo] at hl
      obtain ⟨t', ht', hpath', v', hv1, hrest⟩ := C71_own_rotations ac ac' hu h hn env alpha beta l hl e he
      obtain ⟨n1, n2, n3, n4⟩ := mem_allSubareas ht'
      have hgeo' : env.geo t'.2.2.2.1 t'.2.2.1.1 = env.geo e.path.wing e.path.seg := by rw [hpath']; rfl
      obtain ⟨-, N1, r1, r2⟩ := hrest k hk
      rw [hgeo', hmirror] at hv1 r1
      obtain ⟨hva', -⟩ := subarea_side hu h n1 n2 n3 n4 hrigid hfrom hv1
      have hN1 : ∃ M, N1 = some M := by
        obtain ⟨N', hN'⟩ := hva'.finNormal (trailLeg alpha beta) hk
        rcases r1 with ⟨-, rfl⟩ | ⟨f, -, axis, hax, ht⟩
        · exact ⟨N', hN'⟩
        · obtain ⟨c1, c2⟩ := C04_aircraft_chord_lines ac ac' hu h _ n1 _ n2 _ n3
          refine ht.isSome (hingeAxis_side hrigid f.h1 f.h2 hfrom (by simp [c2]) (by simp [c1]) ?_ hax)
            ⟨N', hN'⟩
          exact (panelled_quad hu h n1 n2 n3 n4).span.2.1
      exact r2.isSome hva'.camberAxis hN1
  obtain ⟨N, hN⟩ := hnormal
  refine ⟨{ (panelPts (Coef.of v) (trailLeg alpha beta) 1 e.numC k 0).toPanel with n := N }, ?_, ?_⟩
  · unfold LatticeData.panelAt
    simp only [hpts k hk, hN]
  rw [← hr]
  obtain ⟨h4, h5, h6, h7, h8⟩ := hva
  refine ⟨⟨?_, rfl⟩, ⟨?_, rfl⟩, h6, ?_, ?_⟩
  · show (panelPts (Coef.of v) (trailLeg alpha beta) 1 e.numC k 0).v2.z = v.a.z
    unfold panelPts Coef.of Coef.at
    simp [h4, h5]
    try ring
  · show (panelPts (Coef.of v) (trailLeg alpha beta) 1 e.numC k 0).v3.z = v.b.z
    unfold panelPts Coef.of Coef.at
    simp [h4, h5]
    try ring
  · show (panelPts (Coef.of v) (trailLeg alpha beta) 1 e.numC k 0).col.z = (v.a.z + v.b.z) / 2
    unfold panelPts Coef.of Coef.at
    simp [h4, h5]
    try ring
  · show (panelPts (Coef.of v) (trailLeg alpha beta) 1 e.numC k 0).mid.z = (v.a.z + v.b.z) / 2
    unfold panelPts Coef.of Coef.at
    simp [h4, h5]
    try ring

/-! ## The lattice -/

/-- A fin: its root and tip leading edge have the same y. -/
structure Corners.Upright (v : Corners (V3 ℝ)) : Prop extends v.FromSide where
  upright : v.b.y = v.a.y

theorem Corners.Upright.not_above {v : Corners (V3 ℝ)} (h : v.Upright) : ¬ v.FromAbove := by
  intro h'
  have := h'.span
  have := h.upright
  linarith

/-- A fin in the plane of symmetry, with the first segment at its foot or on its top. -/
structure Corners.AtFin (w v : Corners (V3 ℝ)) : Prop where
  wing : w.FromAbove
  right : 0 ≤ w.a.y
  fin : v.Upright
  centre : ∀ p ∈ v.list, p.y = 0
  ends : (∀ p ∈ w.list, p.z ≤ v.a.z) ∨ ∀ p ∈ w.list, v.b.z ≤ p.z

/-- Two segments: wings side by side, parts of a fin one above the other, a tailplane at a fin, or any two
segments one of which is behind or above the other. -/
def Corners.Apart (v v' : Corners (V3 ℝ)) : Prop :=
  (v.FromAbove ∧ v'.FromAbove ∧ (v.b.y ≤ v'.a.y ∨ v'.b.y ≤ v.a.y)) ∨
  (v.Upright ∧ v'.Upright ∧ (v.b.z ≤ v'.a.z ∨ v'.b.z ≤ v.a.z)) ∨ v.AtFin v' ∨ v'.AtFin v ∨
  v.Before V3.x v' ∨ v'.Before V3.x v ∨ v.Before V3.z v' ∨ v'.Before V3.z v

/-- The segments of the lattice are undeformed, small and apart from each other; wings are mirrored at the
plane xz if at all, and then none lies to the left of this plane; fins are not mirrored. -/
structure LatticeData.Conventional (l : LatticeData) (geo : ℕ → ℕ → GeoEnv ℝ) : Prop where
  rigid : ∀ e ∈ l.book.entries, (geo e.path.wing e.path.seg).isDeformed = false
  kind : ∀ e ∈ l.book.entries, (geo e.path.wing e.path.seg).vertices.FromAbove ∨
    ((geo e.path.wing e.path.seg).vertices.Upright ∧ e.mirror = false)
  small : ∀ e ∈ l.book.entries, (geo e.path.wing e.path.seg).vertices.Small
  mirrored : ∀ e ∈ l.book.entries, e.mirror = true → (geo e.path.wing e.path.seg).symmetry = 2 ∧
    ∀ e' ∈ l.book.entries, (geo e'.path.wing e'.path.seg).vertices.FromAbove →
      0 ≤ (geo e'.path.wing e'.path.seg).vertices.a.y
  apart : ∀ e ∈ l.book.entries, ∀ e' ∈ l.book.entries,
    (e.path.wing = e'.path.wing ∧ e.path.seg = e'.path.seg) ∨
    (geo e.path.wing e.path.seg).vertices.Apart (geo e'.path.wing e'.path.seg).vertices

theorem sideRange_ne_zero {v : Corners (V3 ℝ)} (hv : v.FromAbove) (h0 : 0 ≤ v.a.y) (m : Bool) {a b : ℝ}
    (h : 0 ≤ a ∧ a < b ∧ b ≤ 1) : ((sideRange v m a b).1 + (sideRange v m a b).2) / 2 ≠ 0 := by
  have s := sub_pos.2 hv.span
  have h1 := mul_nonneg h.1 s.le
  have h2 := mul_pos (lt_of_le_of_lt h.1 h.2.1) s
  cases m <;> simp only [sideRange, Bool.false_eq_true, if_false, if_true] <;> intro e <;> linarith

theorem heightRange_inside {v : Corners (V3 ℝ)} (hv : v.FromSide) {a b : ℝ} (h : 0 ≤ a ∧ a < b ∧ b ≤ 1) :
    v.a.z ≤ (heightRange v a b).1 ∧ (heightRange v a b).2 ≤ v.b.z := by
  have s := sub_pos.2 hv.span
  have h1 := mul_nonneg h.1 s.le
  have h2 := mul_le_mul_of_nonneg_right h.2.2 s.le
  unfold heightRange
  constructor <;> simp only <;> linarith

/-- Points of a mirrored or other panel lie between the corners of the segment in height. -/
theorem Panel.Between.height {g : Panel} {v : Corners (V3 ℝ)} {sym : ℕ} {m : Bool}
    (h : g.Between (v.onSide sym m)) (hs : m = true → sym = 2) {p : V3 ℝ} (hp : p ∈ g.inner) {S : Set ℝ}
    (hS : Convex ℝ S) (hv : ∀ q ∈ v.list, q.z ∈ S) : p.z ∈ S := by
  refine h p hp V3.z (.inr (.inr rfl)) S hS fun q hq => ?_
  obtain ⟨u, hu, -, e, -⟩ := onSide_mem hs hq
  rw [e]
  exact hv u hu

/-- **C153**, the lattice: for all angles of attack and sideslip all panels of such a lattice are finite,
and so are the velocities that each panel induces at the collocation points and bound vortices of all
panels. -/
theorem C153_lattice (ac ac' : PAircraft ℝ) (hu : ac.Unpanelled) (h : prePanelling ac = .ok ac')
    (hn : ac.NumC 0) (env : LatticeEnv) (doRot : Bool) (alpha beta : ℝ) (l : LatticeData)
    (hl : genLattice env doRot alpha beta ac' = .ok l) (hb : l.Conventional env.geo) (eps : ℝ) (he : 0 < eps) :
    ∃ P : Fin l.num → Panel, (∀ k : Fin l.num, l.panel k = some (P k)) ∧
      ∀ i j, HorseshoeOk eps (P i).col (P j) ∧ HorseshoeOk eps (P i).mid (P j) := by
  have hsym : ∀ e ∈ l.book.entries, e.mirror = true → (env.geo e.path.wing e.path.seg).symmetry = 2 :=
    fun e he hm => (hb.mirrored e he hm).1
  have key : ∀ k : Fin l.num, ∃ g e w s d, l.panel k = some g ∧ e ∈ l.book.entries ∧
      ac'.wings[e.path.wing]? = some w ∧ w.segments[e.path.seg]? = some s ∧
      s.strips[e.path.strip]? = some d ∧ ((env.geo e.path.wing e.path.seg).vertices.FromAbove →
        g.Above (trailLeg alpha beta)
          (sideRange (env.geo e.path.wing e.path.seg).vertices e.mirror d.etaA d.etaB)) ∧
      ((env.geo e.path.wing e.path.seg).vertices.Upright →
        g.Beside (trailLeg alpha beta)
          (heightRange (env.geo e.path.wing e.path.seg).vertices d.etaA d.etaB)) ∧
      g.Between ((env.geo e.path.wing e.path.seg).vertices.onSide (env.geo e.path.wing e.path.seg).symmetry
        e.mirror) := by
    intro k
    obtain ⟨e, hee, j, hj, hk⟩ := panel_in_entry hu h hn hl k
    rcases hb.kind e hee with hkind | ⟨hkind, hm⟩
    · obtain ⟨w, s, d, q1, q2, q3, q4⟩ := entry_above hu h hn hl hee (hb.rigid e hee) hkind (hsym e hee)
      obtain ⟨g, hg, ha⟩ := q4 j hj
      refine ⟨g, e, w, s, d, ?_, hee, q1, q2, q3, fun _ => ha, fun hh => absurd hkind hh.not_above,
        entry_between hu h hn hl hee (hb.rigid e hee) hj hg⟩
      unfold LatticeData.panel
      rw [hk]
      exact hg
    · obtain ⟨w, s, d, q1, q2, q3, q4⟩ := entry_side hu h hn hl hee (hb.rigid e hee) hkind.toFromSide hm
      obtain ⟨g, hg, ha⟩ := q4 j hj
      refine ⟨g, e, w, s, d, ?_, hee, q1, q2, q3, fun hh => absurd hh hkind.not_above, fun _ => ha,
        entry_between hu h hn hl hee (hb.rigid e hee) hj hg⟩
      unfold LatticeData.panel
      rw [hk]
      exact hg
  choose P e w s d hP hE hw hs hd hA hF hB using key
  have legs : ∀ k, (P k).v1 = (P k).v2 + trailLeg alpha beta ∧ (P k).v4 = (P k).v3 + trailLeg alpha beta := by
    intro k
    rcases hb.kind _ (hE k) with hk | ⟨hk, -⟩
    · exact ⟨(hA k hk).left.2, (hA k hk).right.2⟩
    · exact ⟨(hF k hk).left.2, (hF k hk).right.2⟩
  have inside := fun k => strip_inside hu h (hw k) (hs k) (hd k)
  refine ⟨P, hP, fun i j => ?_⟩
  have near : (∀ p ∈ [(P i).col, (P i).mid], ∀ q ∈ [(P j).v2, (P j).v3], p ≠ q) := by
    have sub1 : ∀ p ∈ [(P i).col, (P i).mid], p ∈ (P i).inner := by
      intro p hp
      simp [Panel.inner] at hp ⊢
      tauto
    have sub2 : ∀ p ∈ [(P j).v2, (P j).v3], p ∈ (P j).inner := by
      intro p hp
      simp [Panel.inner] at hp ⊢
      tauto
    have lift : (∀ p ∈ (P i).inner, ∀ q ∈ (P j).inner, p ≠ q) →
        ∀ p ∈ [(P i).col, (P i).mid], ∀ q ∈ [(P j).v2, (P j).v3], p ≠ q :=
      fun hh p hp q hq => hh p (sub1 p hp) q (sub2 q hq)
    -- two wings
    have wings : (env.geo (e i).path.wing (e i).path.seg).vertices.FromAbove →
        (env.geo (e j).path.wing (e j).path.seg).vertices.FromAbove →
        (((env.geo (e i).path.wing (e i).path.seg).vertices = (env.geo (e j).path.wing (e j).path.seg).vertices ∧
          (((d i).etaA = (d j).etaA ∧ (d i).etaB = (d j).etaB) ∨ (d i).etaB ≤ (d j).etaA ∨
            (d j).etaB ≤ (d i).etaA)) ∨
          (env.geo (e i).path.wing (e i).path.seg).vertices.b.y ≤
            (env.geo (e j).path.wing (e j).path.seg).vertices.a.y ∨
          (env.geo (e j).path.wing (e j).path.seg).vertices.b.y ≤
            (env.geo (e i).path.wing (e i).path.seg).vertices.a.y) →
        ∀ p ∈ [(P i).col, (P i).mid], ∀ q ∈ [(P j).v2, (P j).v3], p ≠ q := by
      intro ki kj hr p hp q hq
      have hr' := ranges_apart ki kj (m := (e i).mirror) (m' := (e j).mirror) (by
        rintro (hm | hm)
        · have := (hb.mirrored _ (hE i) hm).2
          exact ⟨this _ (hE i) ki, this _ (hE j) kj⟩
        · have := (hb.mirrored _ (hE j) hm).2
          exact ⟨this _ (hE i) ki, this _ (hE j) kj⟩) (inside i) (inside j) hr
      obtain ⟨-, -, hs1, hc, hm⟩ := hA i ki
      obtain ⟨⟨y2, -⟩, ⟨y3, -⟩, hs2, -, -⟩ := hA j kj
      obtain ⟨n1, n2⟩ := middle_ne hs1 hs2 hr'
      simp only [List.mem_cons, List.not_mem_nil, or_false] at hp hq
      intro epq
      have ey := congrArg V3.y epq
      rcases hp with rfl | rfl <;> rcases hq with rfl | rfl
      · exact n1 (by rw [← hc, ← y2, ey])
      · exact n2 (by rw [← hc, ← y3, ey])
      · exact n1 (by rw [← hm, ← y2, ey])
      · exact n2 (by rw [← hm, ← y3, ey])
    -- two fins
    have fins : (env.geo (e i).path.wing (e i).path.seg).vertices.Upright →
        (env.geo (e j).path.wing (e j).path.seg).vertices.Upright →
        (heightRange (env.geo (e i).path.wing (e i).path.seg).vertices (d i).etaA (d i).etaB =
          heightRange (env.geo (e j).path.wing (e j).path.seg).vertices (d j).etaA (d j).etaB ∨
        (heightRange (env.geo (e i).path.wing (e i).path.seg).vertices (d i).etaA (d i).etaB).2 ≤
          (heightRange (env.geo (e j).path.wing (e j).path.seg).vertices (d j).etaA (d j).etaB).1 ∨
        (heightRange (env.geo (e j).path.wing (e j).path.seg).vertices (d j).etaA (d j).etaB).2 ≤
          (heightRange (env.geo (e i).path.wing (e i).path.seg).vertices (d i).etaA (d i).etaB).1) →
        ∀ p ∈ [(P i).col, (P i).mid], ∀ q ∈ [(P j).v2, (P j).v3], p ≠ q := by
      intro ki kj hr p hp q hq
      obtain ⟨-, -, hs1, hc, hm⟩ := hF i ki
      obtain ⟨⟨y2, -⟩, ⟨y3, -⟩, hs2, -, -⟩ := hF j kj
      obtain ⟨n1, n2⟩ := middle_ne hs1 hs2 hr
      simp only [List.mem_cons, List.not_mem_nil, or_false] at hp hq
      intro epq
      have ez := congrArg V3.z epq
      rcases hp with rfl | rfl <;> rcases hq with rfl | rfl
      · exact n1 (by rw [← hc, ← y2, ez])
      · exact n2 (by rw [← hc, ← y3, ez])
      · exact n1 (by rw [← hm, ← y2, ez])
      · exact n2 (by rw [← hm, ← y3, ez])
    rcases hb.apart _ (hE i) _ (hE j) with ⟨hp, hq⟩ | ⟨ki, kj, hr⟩ | ⟨ki, kj, hr⟩ | hat | hat | hp | hp | hp | hp
    · have strips := strips_apart hu h (hw i) (hs i) (hd i) (w' := w j) (by rw [hp]; exact hw j)
        (by rw [hq]; exact hs j) (hd j)
      have same : env.geo (e i).path.wing (e i).path.seg = env.geo (e j).path.wing (e j).path.seg := by
        rw [hp, hq]
      rcases hb.kind _ (hE i) with ki | ⟨ki, -⟩
      · exact wings ki (by rw [← same]; exact ki) (.inl ⟨by rw [same], strips⟩)
      · refine fins ki (by rw [← same]; exact ki) ?_
        rw [same] at ki ⊢
        have sp := sub_pos.2 ki.span
        unfold heightRange
        rcases strips with ⟨e1, e2⟩ | hk | hk
        · left
          rw [e1, e2]
        · have := mul_le_mul_of_nonneg_right hk sp.le
          exact .inr (.inl (by simp only; linarith))
        · have := mul_le_mul_of_nonneg_right hk sp.le
          exact .inr (.inr (by simp only; linarith))
    · exact wings ki kj (.inr hr)
    · refine fins ki kj (.inr ?_)
      obtain ⟨a1, a2⟩ := heightRange_inside ki.toFromSide (inside i)
      obtain ⟨b1, b2⟩ := heightRange_inside kj.toFromSide (inside j)
      rcases hr with hr | hr
      · exact .inl (by linarith)
      · exact .inr (by linarith)
    · intro p hp q hq epq
      have hne := sideRange_ne_zero hat.wing hat.right (e i).mirror (inside i)
      obtain ⟨-, -, -, hc, hm⟩ := hA i hat.wing
      have hmir : (e j).mirror = false := by
        rcases hb.kind _ (hE j) with kj | ⟨-, kj⟩
        · exact absurd kj hat.fin.not_above
        · exact kj
      have hz : q.y ∈ Set.Icc (0 : ℝ) 0 := by
        refine hB j q (sub2 q hq) V3.y (.inr (.inl rfl)) _ (convex_Icc 0 0) fun r hr => ?_
        rw [hmir] at hr
        rw [hat.centre r hr]
        simp
      have hy : q.y = 0 := le_antisymm hz.2 hz.1
      have ey := congrArg V3.y epq
      simp only [List.mem_cons, List.not_mem_nil, or_false] at hp
      rcases hp with rfl | rfl
      · exact hne (by rw [← hc, ey, hy])
      · exact hne (by rw [← hm, ey, hy])
    · intro p hp q hq epq
      obtain ⟨-, -, hs1, hc, hm⟩ := hF i hat.fin
      obtain ⟨a1, a2⟩ := heightRange_inside hat.fin.toFromSide (inside i)
      have hz : (env.geo (e i).path.wing (e i).path.seg).vertices.a.z < p.z ∧
          p.z < (env.geo (e i).path.wing (e i).path.seg).vertices.b.z := by
        simp only [List.mem_cons, List.not_mem_nil, or_false] at hp
        rcases hp with rfl | rfl
        · rw [hc]
          constructor <;> linarith
        · rw [hm]
          constructor <;> linarith
      rw [epq] at hz
      rcases hat.ends with hw' | hw'
      · have := (hB j).height (hsym _ (hE j)) (sub2 q hq) (convex_Iic _) hw'
        exact absurd (Set.mem_Iic.1 this) (not_le.2 hz.1)
      · have := (hB j).height (hsym _ (hE j)) (sub2 q hq) (convex_Ici _) hw'
        exact absurd (Set.mem_Ici.1 this) (not_le.2 hz.2)
    · exact lift ((hB i).ne (hB j) (hsym _ (hE i)) (hsym _ (hE j)) (.inl rfl) hp)
    · exact lift fun p h1 q h2 e => (hB j).ne (hB i) (hsym _ (hE j)) (hsym _ (hE i)) (.inl rfl) hp q h2 p h1 e.symm
    · exact lift ((hB i).ne (hB j) (hsym _ (hE i)) (hsym _ (hE j)) (.inr rfl) hp)
    · exact lift fun p h1 q h2 e => (hB j).ne (hB i) (hsym _ (hE j)) (hsym _ (hE i)) (.inr rfl) hp q h2 p h1 e.symm
  have s1 := (hB i).small (hsym _ (hE i)) (hb.small _ (hE i))
  have s2 := (hB j).small (hsym _ (hE j)) (hb.small _ (hE j))
  have far : ∀ p ∈ [(P i).col, (P i).mid], p ≠ (P j).v1 ∧ p ≠ (P j).v4 := by
    intro p hp
    have sp := s1 p (by simp [Panel.inner] at hp ⊢; tauto)
    rw [(legs j).1, (legs j).2]
    exact ⟨far_end sp (s2 _ (by simp [Panel.inner])) _ _, far_end sp (s2 _ (by simp [Panel.inner])) _ _⟩
  have fin : ∀ p ∈ [(P i).col, (P i).mid], HorseshoeOk eps p (P j) := by
    intro p hp
    obtain ⟨f1, f4⟩ := far p hp
    have f2 := near p hp (P j).v2 (by simp)
    have f3 := near p hp (P j).v3 (by simp)
    exact ⟨(kernelOk_iff he _ _ _).2 ⟨f1, f2⟩, (kernelOk_iff he _ _ _).2 ⟨f2, f3⟩,
      (kernelOk_iff he _ _ _).2 ⟨f3, f4⟩⟩
  exact ⟨fin _ (by simp), fin _ (by simp)⟩

/-! ## Projects -/

/-- The segments of the aircraft file are undeformed, small and apart from each other.  Wings are mirrored at
the plane xz if at all, and then none lies to the left of this plane; fins are not mirrored. -/
structure FileAircraft.Conventional (f : FileAircraft) (D : String → Option (DefField ℝ)) : Prop where
  rigid : ∀ w ∈ f.wings, D w.uid = none ∧ D (mirrorName w.uid) = none
  kind : ∀ w ∈ f.wings, ∀ s ∈ w.segments, ∀ v, AllGiven s.vertices v →
    v.FromAbove ∨ (v.Upright ∧ w.symmetry = 0)
  small : ∀ w ∈ f.wings, ∀ s ∈ w.segments, ∀ v, AllGiven s.vertices v → v.Small
  mirrored : ∀ w ∈ f.wings, w.symmetry ≠ 0 → w.symmetry = 2 ∧
    ∀ w' ∈ f.wings, ∀ s ∈ w'.segments, ∀ v, AllGiven s.vertices v → v.FromAbove → 0 ≤ v.a.y
  apart : ∀ (m m' k k' : ℕ) (w w' : FileWing) (s s' : FileSegment) (v v' : Corners (V3 ℝ)),
    f.wings[m]? = some w → f.wings[m']? = some w' → w.segments[k]? = some s → w'.segments[k']? = some s' →
    AllGiven s.vertices v → AllGiven s'.vertices v' → (m = m' ∧ k = k') ∨ v.Apart v'

theorem FileAircraft.Conventional.lattice {f : FileAircraft} {D : String → Option (DefField ℝ)}
    (hb : f.Conventional D) {geo : ℕ → ℕ → GeoEnv ℝ} {l : LatticeData}
    (key : ∀ e ∈ l.book.entries, ∃ w s, f.wings[e.path.wing]? = some w ∧ w.segments[e.path.seg]? = some s ∧
      AllGiven s.vertices (geo e.path.wing e.path.seg).vertices ∧
      (geo e.path.wing e.path.seg).symmetry = w.symmetry ∧
      (geo e.path.wing e.path.seg).isDeformed = false ∧ (e.mirror = true → w.symmetry ≠ 0)) :
    l.Conventional geo := by
  refine ⟨?_, ?_, ?_, ?_, ?_⟩
  · intro e he
    obtain ⟨w, s, -, -, -, -, q, -⟩ := key e he
    exact q
  · intro e he
    obtain ⟨w, s, q1, q2, q3, -, -, q6⟩ := key e he
    rcases hb.kind w (List.mem_of_getElem? q1) s (List.mem_of_getElem? q2) _ q3 with hk | ⟨hk, h0⟩
    · exact .inl hk
    · refine .inr ⟨hk, ?_⟩
      cases hm : e.mirror with
      | false => rfl
      | true => exact absurd h0 (q6 hm)
  · intro e he
    obtain ⟨w, s, q1, q2, q3, -, -, -⟩ := key e he
    exact hb.small w (List.mem_of_getElem? q1) s (List.mem_of_getElem? q2) _ q3
  · intro e he hm
    obtain ⟨w, s, q1, q2, q3, q4, q5, q6⟩ := key e he
    obtain ⟨m1, m2⟩ := hb.mirrored w (List.mem_of_getElem? q1) (q6 hm)
    refine ⟨q4.trans m1, fun e' he' => ?_⟩
    obtain ⟨w', s', r1, r2, r3, -, -⟩ := key e' he'
    exact m2 w' (List.mem_of_getElem? r1) s' (List.mem_of_getElem? r2) _ r3
  · intro e he e' he'
    obtain ⟨w, s, q1, q2, q3, -, -⟩ := key e he
    obtain ⟨w', s', r1, r2, r3, -, -⟩ := key e' he'
    exact hb.apart _ _ _ _ w w' s s' _ _ q1 r1 q2 r2 q3 r3

/-- **C153**: a project in order with wings, tailplanes and fins that do not meet is analysed in all its
flight states. -/
theorem C153_always_analysed (W : World) (hW : Lapack W.dgesv) (P : Project) (d : PyDict) (a b : String)
    (f : FileAircraft) (sd : List (String × Arg ℝ)) (h : ProjectOk W P d a b f sd)
    (D : String → Option (DefField ℝ)) (hdef : FieldsOf P d f D) (hb : f.Conventional D)
    (hs : StatesFinite W.atm sd) : ∃ out, runProject W P = .ok out := by
  refine finishes_of_finite W hW P d a b f sd h D hdef hb.rigid hs ?_
  intro ac ac' hu h2 hN env doRot alpha beta l _ hl key eps heps
  exact C153_lattice ac ac' hu h2 hN env doRot alpha beta l hl (hb.lattice key) eps heps

/-! ## Example: a wing with a flap, a tailplane behind it and a fin on the tailplane -/

noncomputable def finSeg : Corners (V3 ℝ) := ⟨⟨5, 0, 0⟩, ⟨11/2, 0, 1⟩, ⟨6, 0, 1⟩, ⟨6, 0, 0⟩⟩

noncomputable def finWing : FileWing := ⟨"fin", 0,
  [⟨"seg", ⟨some finSeg.a, some finSeg.b, some finSeg.c, some finSeg.d⟩, SegGeo.fresh, "NACA0012", "NACA0012",
    none, none⟩], []⟩

noncomputable def finFile : FileAircraft := ⟨tailFile.uid, tailFile.refs, tailFile.wings ++ [finWing]⟩

theorem finFile_ok : FileOk "/home" (fun _ => true) finFile := by
  refine ⟨?_, tailFile_ok.area, tailFile_ok.span, tailFile_ok.chord, ?_⟩
  · exact ⟨by simp [finFile, tailFile, flapFile, tailWing, finWing],
      by simp [finFile, tailFile, flapFile, tailWing, finWing]⟩
  · intro w hw
    rcases List.mem_append.1 hw with hw | hw
    · exact tailFile_ok.wings w hw
    · simp only [finWing, List.mem_singleton] at hw
      subst hw
      refine ⟨by norm_num, ⟨by simp, by simp⟩, ⟨by simp, by simp⟩, ?_, by simp, ?_⟩
      · intro s hs
        simp only [List.mem_singleton] at hs
        subst hs
        exact ⟨⟨finSeg, rfl, rfl, rfl, rfl⟩, fresh_geoOk, by simp, by simp,
          ⟨_, .inr ⟨by decide, rfl⟩, rfl⟩, ⟨_, .inr ⟨by decide, rfl⟩, rfl⟩⟩
      · intro _
        refine ⟨_, List.mem_singleton.2 rfl, finSeg, ⟨rfl, rfl, rfl, rfl⟩, ?_⟩
        intro h
        have := h.2
        norm_num [finSeg] at this

theorem finFile_layout : ∀ w ∈ finFile.wings, WingLayoutOk w := by
  intro w hw
  rcases List.mem_append.1 hw with hw | hw
  · exact tailFile_layout w hw
  · simp only [finWing, List.mem_singleton] at hw
    subst hw
    refine ⟨?_, ?_, ?_⟩
    · intro u x hx y hy hxy
      simp only [FileWing.requested, List.map_nil, List.not_mem_nil, false_and, exists_false,
        Set.mem_union, Set.mem_insert_iff, Set.mem_singleton_iff, Set.mem_ofPred_eq, or_false] at hx hy
      rcases hx with rfl | rfl <;> rcases hy with rfl | rfl <;>
      first | (norm_num at hxy; done) | norm_num
    · simp only [FileWing.requested, List.map_nil]
      exact ⟨by simp, by simp, by simp, by simp, by simp, by simp, by simp⟩
    · intro h
      exact absurd rfl h

theorem finFile_segment {w : FileWing} {m k : ℕ} {s : FileSegment} {v : Corners (V3 ℝ)}
    (hw : finFile.wings[m]? = some w) (hs : w.segments[k]? = some s) (hv : AllGiven s.vertices v) :
    k = 0 ∧ ((m = 0 ∧ w.symmetry = 2 ∧ v = taperedSeg) ∨ (m = 1 ∧ w.symmetry = 2 ∧ v = tailSeg) ∨
      (m = 2 ∧ w.symmetry = 0 ∧ v = finSeg)) := by
  by_cases hm : m < 2
  · have hw' : tailFile.wings[m]? = some w := by
      rw [← hw]
      exact (List.getElem?_append_left (by simpa [tailFile, flapFile] using hm)).symm
    obtain ⟨h1, h2, ⟨h3, h4⟩ | ⟨h3, h4⟩⟩ := tailFile_segment hw' hs hv
    · exact ⟨h1, .inl ⟨h3, h2, h4⟩⟩
    · exact ⟨h1, .inr (.inl ⟨h3, h2, h4⟩)⟩
  · have hl := (List.getElem?_eq_some_iff.1 hw).1
    simp only [finFile, tailFile, flapFile, List.length_append, List.length_singleton] at hl
    obtain rfl : m = 2 := by omega
    simp only [finFile, tailFile, flapFile, tailWing, finWing, List.cons_append, List.nil_append,
      List.getElem?_cons_succ, List.getElem?_cons_zero, Option.some.injEq] at hw
    subst hw
    have hk := (List.getElem?_eq_some_iff.1 hs).1
    simp only [List.length_singleton] at hk
    obtain rfl : k = 0 := by omega
    simp only [List.getElem?_cons_zero, Option.some.injEq] at hs
    subst hs
    exact ⟨rfl, .inr (.inr ⟨rfl, rfl, noSpan_given hv ⟨rfl, rfl, rfl, rfl⟩⟩)⟩

theorem finFile_conventional : finFile.Conventional (fun _ => none) := by
  have key : ∀ w ∈ finFile.wings, ∀ s ∈ w.segments, ∀ v, AllGiven s.vertices v →
      v = taperedSeg ∨ v = tailSeg ∨ (v = finSeg ∧ w.symmetry = 0) := by
    intro w hw s hs v hv
    obtain ⟨m, hm⟩ := List.getElem?_of_mem hw
    obtain ⟨k, hk⟩ := List.getElem?_of_mem hs
    obtain ⟨-, h | h | h⟩ := finFile_segment hm hk hv
    · exact .inl h.2.2
    · exact .inr (.inl h.2.2)
    · exact .inr (.inr ⟨h.2.2, h.2.1⟩)
  have tail : tailSeg.FromAbove := by constructor <;> norm_num [tailSeg]
  have fin : finSeg.Upright := by
    refine ⟨?_, by norm_num [finSeg]⟩
    constructor <;> norm_num [finSeg]
  have b1 : taperedSeg.Before V3.x tailSeg := by
    refine ⟨4, ?_, ?_⟩ <;> simp [Corners.list, taperedSeg, tailSeg] <;> norm_num
  have b2 : taperedSeg.Before V3.x finSeg := by
    refine ⟨4, ?_, ?_⟩ <;> simp [Corners.list, taperedSeg, finSeg] <;> norm_num
  have at_fin : tailSeg.AtFin finSeg := by
    refine ⟨tail, by norm_num [tailSeg], fin, ?_, .inl ?_⟩ <;> simp [Corners.list, tailSeg, finSeg]
  refine ⟨fun _ _ => ⟨rfl, rfl⟩, ?_, ?_, ?_, ?_⟩
  · intro w hw s hs v hv
    rcases key w hw s hs v hv with rfl | rfl | ⟨rfl, h0⟩
    · exact .inl taperedSeg_above
    · exact .inl tail
    · exact .inr ⟨fin, h0⟩
  · intro w hw s hs v hv
    rcases key w hw s hs v hv with rfl | rfl | ⟨rfl, -⟩ <;> intro p hp <;>
      simp only [Corners.list, taperedSeg, tailSeg, finSeg, List.mem_cons, List.not_mem_nil, or_false] at hp <;>
      rcases hp with rfl | rfl | rfl | rfl <;> simp only [abs_le] <;> norm_num
  · intro w hw h0
    refine ⟨?_, ?_⟩
    · simp only [finFile, tailFile, flapFile, tailWing, finWing, List.cons_append, List.nil_append, List.mem_cons,
        List.not_mem_nil, or_false] at hw
      rcases hw with rfl | rfl | rfl
      · rfl
      · rfl
      · exact absurd rfl h0
    · intro w' hw' s hs v hv _
      rcases key w' hw' s hs v hv with rfl | rfl | ⟨rfl, -⟩ <;> norm_num [taperedSeg, tailSeg, finSeg]
  · intro m m' k k' w w' s s' v v' h1 h2 h3 h4 h5 h6
    obtain ⟨rfl, ⟨rfl, -, rfl⟩ | ⟨rfl, -, rfl⟩ | ⟨rfl, -, rfl⟩⟩ := finFile_segment h1 h3 h5 <;>
      obtain ⟨rfl, ⟨rfl, -, rfl⟩ | ⟨rfl, -, rfl⟩ | ⟨rfl, -, rfl⟩⟩ := finFile_segment h2 h4 h6
    · exact .inl ⟨rfl, rfl⟩
    · exact .inr (.inr (.inr (.inr (.inr (.inl b1)))))
    · exact .inr (.inr (.inr (.inr (.inr (.inl b2)))))
    · exact .inr (.inr (.inr (.inr (.inr (.inr (.inl b1))))))
    · exact .inl ⟨rfl, rfl⟩
    · exact .inr (.inr (.inr (.inl at_fin)))
    · exact .inr (.inr (.inr (.inr (.inr (.inr (.inl b2))))))
    · exact .inr (.inr (.inr (.inr (.inl at_fin))))
    · exact .inl ⟨rfl, rfl⟩

/-- The project: 10 m/s, angle of attack 5 degree, sideslip 3 degree. -/
noncomputable def finProject : Project :=
  { exampleProject finFile with state := fun b => if b = "cruise.json" then some (oneState 10 1 5 3) else none }

theorem finProject_ok : ProjectOk exampleWorld finProject exampleSettings "plane.json" "cruise.json" finFile
    (oneState 10 1 5 3) where
  native := ⟨rfl, (example_native finFile).keys, (example_native finFile).aircraft, rfl,
    (example_native finFile).state, (example_native finFile).notCpacs⟩
  settings := example_settings
  panelsC := by simp [IfGiven, exampleSettings]
  panelsS := by simp [IfGiven, exampleSettings]
  aircraft := rfl
  file := finFile_ok
  layout := finFile_layout
  segment := ⟨_, List.mem_append_right _ (List.mem_singleton.2 rfl), by simp [finWing]⟩
  state := rfl
  states := ⟨oneState_nodup _ _ _ _, oneState_acceptable _ _ _ _ _, by simp [oneState],
    _, List.mem_cons_self .., by simp [Arg.toList]⟩
  deformation := by simp [DeformationOk, IfGiven, exampleSettings]

/-- Example for C153: this aircraft is analysed. -/
example : ∃ out, runProject exampleWorld finProject = .ok out :=
  C153_always_analysed _ exactDgesv_lapack _ _ _ _ _ _ finProject_ok (fun _ => none)
    (.inl ⟨by simp [IfGiven, exampleSettings], fun _ => rfl⟩) finFile_conventional
    (oneState_finite (by simp [exampleWorld]) 10 1 5 3)

/-- Example for the lattice of C153: the fin, with a rudder, in a flow from the side. -/
example : ∃ l, genLattice (cornersEnv finSeg 0) true 2 3 (flapPanelled 0) = .ok l ∧
    ∃ P : Fin l.num → Panel, (∀ k : Fin l.num, l.panel k = some (P k)) ∧
      ∀ i j, HorseshoeOk (1/1000000) (P i).col (P j) ∧ HorseshoeOk (1/1000000) (P i).mid (P j) := by
  have hsub : ∀ t ∈ allSubareas (flapPanelled 0), t.2.2.2.1 = 0 ∧ t.2.2.1.1 = 0 ∧ t.2.2.2.2.symmetry = 0 := by
    intro t ht
    obtain ⟨i1, i2, -, -⟩ := ((C60_all_subareas (flapPanelled 0)).1 t.2.2.2.1 t.2.2.1.1 t.2.1.1 t.1.1 t.2.2.2.2
      t.2.2.1.2 t.2.1.2 t.1.2).1 ht
    have h1 := (List.getElem?_eq_some_iff.1 i1).1
    have h2 := (List.getElem?_eq_some_iff.1 i2).1
    have hw := List.mem_of_getElem? i1
    simp only [flapPanelled, List.mem_singleton, List.length_singleton] at hw h1
    rw [hw] at h2 ⊢
    simp only [flapWingP, List.length_singleton] at h2 ⊢
    exact ⟨Nat.lt_one_iff.1 h1, Nat.lt_one_iff.1 h2, trivial⟩
  obtain ⟨l, hl⟩ := C76_lattice_generated _ _ (flapAircraft_ok 0).1 (flapAircraft_panelled 0)
    (flapAircraft_ok 0).2 (cornersEnv finSeg 0) true 2 3 (fun t ht hne => absurd (hsub t ht).2.2 hne)
  have hpath : ∀ e ∈ l.book.entries, e.path.wing = 0 ∧ e.path.seg = 0 := by
    intro e he
    obtain ⟨-, -, -, hent, -⟩ := lattice_entry (flapAircraft_ok 0).1 (flapAircraft_panelled 0) (flapAircraft_ok 0).2 hl
    obtain ⟨t, ht, hp, -⟩ := hent e he
    rw [hp]
    exact ⟨(hsub t ht).1, (hsub t ht).2.1⟩
  have hmir : ∀ e ∈ l.book.entries, e.mirror = false := by
    intro e he
    have := (entry_patch (flapAircraft_ok 0).1 (flapAircraft_panelled 0) (flapAircraft_ok 0).2 hl he rfl).1
    cases hm : e.mirror with
    | false => rfl
    | true =>
      have := this hm
      simp [cornersEnv, SymFlag] at this
  have hup : finSeg.Upright := by
    refine ⟨?_, by norm_num [finSeg]⟩
    constructor <;> norm_num [finSeg]
  have hsmall : finSeg.Small := by
    intro p hp
    simp only [Corners.list, finSeg, List.mem_cons, List.not_mem_nil, or_false] at hp
    rcases hp with rfl | rfl | rfl | rfl <;> simp only [abs_le] <;> norm_num
  refine ⟨l, hl, C153_lattice _ _ (flapAircraft_ok 0).1 (flapAircraft_panelled 0) (flapAircraft_ok 0).2 _ true 2 3
    l hl ⟨fun _ _ => rfl, fun e he => .inr ⟨hup, hmir e he⟩, fun _ _ => hsmall, fun e he hm => ?_, ?_⟩ _
    (by norm_num)⟩
  · rw [hmir e he] at hm
    cases hm
  · intro e he e' he'
    obtain ⟨a1, a2⟩ := hpath e he
    obtain ⟨b1, b2⟩ := hpath e' he'
    exact .inl ⟨a1.trans b1.symm, a2.trans b2.symm⟩

end Verif
