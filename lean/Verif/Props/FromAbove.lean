import Verif.Props.OnePanel

/-!
# Property C151: a wing whose segments lie side by side seen from above is always analysed
-/

namespace Verif

open V3

/-! ## Segments seen from above -/

/-- Root and tip chord of the segment run backwards in planes of constant y, the tip lies to the right of
the root.  Sweep, taper, dihedral and twist are allowed. -/
structure Corners.FromAbove (v : Corners (V3 ℝ)) : Prop where
  root : v.d.y = v.a.y
  tip : v.c.y = v.b.y
  span : v.a.y < v.b.y
  rootChord : v.a.x < v.d.x
  tipChord : v.b.x < v.c.x

theorem Corners.FromAbove.onSide {v : Corners (V3 ℝ)} (h : v.FromAbove) {sym : ℕ} {m : Bool}
    (hs : m = true → sym = 2) : (v.onSide sym m).FromAbove := by
  cases m with
  | false => exact h
  | true =>
    obtain ⟨h4, h5, h6, h7, h8⟩ := h
    obtain rfl := hs rfl
    simp only [Corners.onSide, reflect, symNormal]
    norm_num
    vsimp
    refine ⟨?_, ?_, ?_, ?_, ?_⟩ <;> simp [*]
    linarith

theorem Corners.FromAbove.patch {v : Corners (V3 ℝ)} (h : v.FromAbove) {e1 e2 xa xb xc xd : ℝ}
    (hp : PatchOk e1 e2 xa xb xc xd) : (patch v e1 e2 xa xb xc xd).FromAbove ∧
      (patch v e1 e2 xa xb xc xd).a.y = v.a.y + e1 * (v.b.y - v.a.y) ∧
      (patch v e1 e2 xa xb xc xd).b.y = v.a.y + e2 * (v.b.y - v.a.y) := by
  obtain ⟨h4, h5, h6, h7, h8⟩ := h
  obtain ⟨⟨s1, s2, s3⟩, ⟨i1, i2, i3⟩, o1, o2, o3⟩ := hp
  obtain ⟨c1, c2⟩ := patch_chords v e1 e2 xa xb xc xd
  have y : ∀ e x, (segPoint v e x).y = v.a.y + e * (v.b.y - v.a.y) := by
    intro e x
    unfold segPoint
    simp [h4, h5]
  have chord : ∀ e, 0 ≤ e → e ≤ 1 → 0 < (1 - e) * (v.d.x - v.a.x) + e * (v.c.x - v.b.x) := by
    intro e e0 e1
    rcases e1.eq_or_lt with rfl | e1
    · linarith
    · have := mul_pos (sub_pos.2 e1) (sub_pos.2 h7)
      have := mul_nonneg e0 (sub_pos.2 h8).le
      linarith
  refine ⟨⟨?_, ?_, ?_, ?_, ?_⟩, y _ _, y _ _⟩
  · show (segPoint v _ _).y = (segPoint v _ _).y
    rw [y, y]
  · show (segPoint v _ _).y = (segPoint v _ _).y
    rw [y, y]
  · show (segPoint v _ _).y < (segPoint v _ _).y
    rw [y, y]
    nlinarith
  · have := mul_pos (sub_pos.2 i2) (chord e1 s1 (by linarith))
    rw [← c1] at this
    linarith
  · have := mul_pos (sub_pos.2 o2) (chord e2 (by linarith) s3)
    rw [← c2] at this
    linarith

/-- Range of y covered by the part of a segment between two stations, on either side of the aircraft. -/
noncomputable def sideRange (v : Corners (V3 ℝ)) (mirror : Bool) (e1 e2 : ℝ) : ℝ × ℝ :=
  if mirror then (-(v.a.y + e2 * (v.b.y - v.a.y)), -(v.a.y + e1 * (v.b.y - v.a.y)))
  else (v.a.y + e1 * (v.b.y - v.a.y), v.a.y + e2 * (v.b.y - v.a.y))

/-- The corners of each subarea of an undeformed segment, seen from above. -/
theorem subarea_above {ac ac' : PAircraft ℝ} (hu : ac.Unpanelled) (h : prePanelling ac = .ok ac')
    {w : PWing ℝ} (hw : w ∈ ac'.wings) {s : PSegment ℝ} (hs : s ∈ w.segments) {d : Strip ℝ}
    (hd : d ∈ s.strips) {a : Subarea ℝ} (ha : a ∈ d.subareas) {g : GeoEnv ℝ} (hg : g.isDeformed = false)
    {mirror : Bool} (hs2 : mirror = true → g.symmetry = 2) (hf : g.vertices.FromAbove)
    {v : Corners (V3 ℝ)} (hv : subareaVertices g d a.quad mirror = .ok v) :
    v.FromAbove ∧ (v.a.y, v.b.y) = sideRange g.vertices mirror d.etaA d.etaB := by
  have hp := panelled_quad hu h hw hs hd ha
  unfold GeoEnv.isDeformed at hg
  rw [Bool.or_eq_false_iff, Option.isSome_eq_false_iff, Option.isSome_eq_false_iff,
    Option.isNone_iff_eq_none, Option.isNone_iff_eq_none] at hg
  obtain ⟨g1, g2⟩ := hg
  have hc := C22_aircraft_subarea_corners ac ac' hu h g g1 w hw s hs d hd
  cases mirror with
  | false =>
    rw [hc a.quad] at hv
    cases hv
    obtain ⟨q1, q2, q3⟩ := hf.patch hp
    exact ⟨q1, Prod.ext q2 q3⟩
  | true =>
    have hk := hs2 rfl
    have hdef : g.SymmetricDef := by intro p; rw [g1, g2]; rfl
    obtain ⟨m0, -, m2, -⟩ := subareaVertices_mirror g (.inr (.inl hk)) hdef d a.quad
    rw [hc] at m0
    simp only [Except.ok.injEq, Corners.mk.injEq] at m0
    obtain ⟨r1, r2, r3, r4⟩ := m0
    obtain ⟨⟨s1, s2, s3⟩, ⟨i1, i2, i3⟩, o1, o2, o3⟩ := hp
    have hm : v = patch (g.vertices.onSide g.symmetry true) (1 - d.etaB) (1 - d.etaA) a.quad.xsiB a.quad.xsiA
        a.quad.xsiD a.quad.xsiC := by
      rw [m2 hk, ← r1, ← r2, ← r3, ← r4, hk] at hv
      cases hv
      rw [hk]
      simp only [patch, Corners.onSide]
      simp only [if_true, Corners.mk.injEq]
      refine ⟨?_, ?_, ?_, ?_⟩ <;> ext <;> simp [segPoint, reflect, symNormal] <;>
        (vsimp; ring)
    obtain ⟨q1, q2, q3⟩ := (hf.onSide (m := true) (fun _ => hk)).patch (e1 := 1 - d.etaB) (e2 := 1 - d.etaA)
      (xa := a.quad.xsiB) (xb := a.quad.xsiA) (xc := a.quad.xsiD) (xd := a.quad.xsiC)
      ⟨⟨by linarith, by linarith, by linarith⟩, ⟨o1, o2, o3⟩, i1, i2, i3⟩
    rw [← hm] at q1 q2 q3
    have e1 : (g.vertices.onSide g.symmetry true).a.y = -g.vertices.b.y := by
      rw [hk]
      simp [Corners.onSide, reflect, symNormal]
      vsimp
      ring
    have e2 : (g.vertices.onSide g.symmetry true).b.y = -g.vertices.a.y := by
      rw [hk]
      simp [Corners.onSide, reflect, symNormal]
      vsimp
      ring
    rw [e1, e2] at q2 q3
    refine ⟨q1, Prod.ext ?_ ?_⟩
    · rw [q2]
      simp [sideRange]
      ring
    · rw [q3]
      simp [sideRange]
      ring

/-- Strips of a segment are the same or do not overlap. -/
theorem TilesUnit.apart {l : List (ℝ × ℝ)} (h : TilesUnit l) {i j : ℕ} {p q : ℝ × ℝ} (hi : l[i]? = some p)
    (hj : l[j]? = some q) : i = j ∨ p.2 ≤ q.1 ∨ q.2 ≤ p.1 := by
  by_cases hd : p.2 ≤ q.1 ∨ q.2 ≤ p.1
  · exact .inr hd
  left
  push Not at hd
  obtain ⟨a1, a2, a3⟩ := h.inside p (List.mem_of_getElem? hi)
  obtain ⟨b1, b2, b3⟩ := h.inside q (List.mem_of_getElem? hj)
  have m1 : max p.1 q.1 < p.2 := max_lt a2 hd.1
  have m2 : max p.1 q.1 < q.2 := max_lt hd.2 b2
  obtain ⟨k, -, hk⟩ := h.cover (max p.1 q.1) (le_trans a1 (le_max_left _ _)) (by linarith)
  rw [hk i ⟨p, hi, le_max_left _ _, m1⟩, hk j ⟨q, hj, le_max_right _ _, m2⟩]

/-! ## The panels -/

/-- A panel seen from above: what the solver reads of it. -/
structure Panel.Above (g : Panel) (leg : V3 ℝ) (r : ℝ × ℝ) : Prop where
  left : g.v2.y = r.1 ∧ g.v1 = g.v2 + leg
  right : g.v3.y = r.2 ∧ g.v4 = g.v3 + leg
  span : r.1 < r.2
  col : g.col.y = (r.1 + r.2) / 2
  mid : g.mid.y = (r.1 + r.2) / 2

/-- Points in the middle of a range do not lie at the ends of one that does not overlap. -/
theorem middle_ne {r q : ℝ × ℝ} (hs : r.1 < r.2) (hs' : q.1 < q.2) (hd : r = q ∨ r.2 ≤ q.1 ∨ q.2 ≤ r.1) :
    (r.1 + r.2) / 2 ≠ q.1 ∧ (r.1 + r.2) / 2 ≠ q.2 := by
  constructor <;> intro e <;> rcases hd with rfl | hd | hd <;> linarith

theorem Panel.Above.ok {g f : Panel} {leg : V3 ℝ} {r q : ℝ × ℝ} (h : g.Above leg r) (h' : f.Above leg q)
    (hleg : leg.y = 0) (hd : r = q ∨ r.2 ≤ q.1 ∨ q.2 ≤ r.1) {eps : ℝ} (he : 0 < eps) :
    HorseshoeOk eps g.col f ∧ HorseshoeOk eps g.mid f := by
  obtain ⟨-, -, hs, hc, hm⟩ := h
  obtain ⟨⟨y2, e1⟩, ⟨y3, e4⟩, hs', -, -⟩ := h'
  have y1 : f.v1.y = q.1 := by rw [e1]; simp [y2, hleg]
  have y4 : f.v4.y = q.2 := by rw [e4]; simp [y3, hleg]
  have key : ∀ {x y : V3 ℝ}, x.y ≠ y.y → x ≠ y := fun h e => h (by rw [e])
  obtain ⟨n1, n2⟩ := middle_ne hs hs' hd
  refine ⟨⟨(kernelOk_iff he _ _ _).2 ⟨key ?_, key ?_⟩, (kernelOk_iff he _ _ _).2 ⟨key ?_, key ?_⟩,
    (kernelOk_iff he _ _ _).2 ⟨key ?_, key ?_⟩⟩, (kernelOk_iff he _ _ _).2 ⟨key ?_, key ?_⟩,
    (kernelOk_iff he _ _ _).2 ⟨key ?_, key ?_⟩, (kernelOk_iff he _ _ _).2 ⟨key ?_, key ?_⟩⟩ <;>
  · simp only [hc, hm, y1, y2, y3, y4]
    assumption

theorem Corners.FromAbove.normals {v : Corners (V3 ℝ)} (h : v.FromAbove) :
    0 < v.normalVector.dot ⟨0, 0, -1⟩ ∧ 0 < v.normalB.dot ⟨0, 0, -1⟩ ∧ 0 < v.normalC.dot ⟨0, 0, -1⟩ ∧
      0 < v.normalD.dot ⟨0, 0, -1⟩ := by
  obtain ⟨h4, h5, h6, h7, h8⟩ := h
  have p1 := mul_pos (sub_pos.2 h6) (sub_pos.2 h7)
  have p2 := mul_pos (sub_pos.2 h6) (sub_pos.2 h8)
  unfold Corners.normalVector Corners.normalB Corners.normalC Corners.normalD
  refine ⟨?_, ?_, ?_, ?_⟩ <;> simp [V3.dot, h4, h5] <;> nlinarith

theorem Corners.FromAbove.finNormal {v : Corners (V3 ℝ)} (h : v.FromAbove) (leg : V3 ℝ) {n : ℤ} {k : ℕ}
    (hk : (k : ℤ) < n) : ∃ N, (panelPts (Coef.of v) leg 1 n k 0).finNormal = some N := by
  obtain ⟨h1, h2, h3, h4⟩ := h.normals
  have hn : (0 : ℝ) < n := by
    have : (0 : ℤ) < n := by omega
    exact_mod_cast this
  have hkn : (k : ℝ) + 1 ≤ n := by exact_mod_cast hk
  have hc : 1 / (n : ℝ) * (k + 3/4) < 1 := by
    rw [one_div, inv_mul_lt_iff₀ hn]
    linarith
  have hc0 : 0 < 1 / (n : ℝ) * (k + 3/4) := by positivity
  obtain ⟨N, hN, -⟩ := finNormal_of_dot (g := panelPts (Coef.of v) leg 1 n k 0) (u := ⟨0, 0, -1⟩) (by
    have e : ∀ (r : ℝ) (u w : V3 ℝ), (r • u).dot w = r * u.dot w := by
      intro r u w
      simp [V3.dot]
      ring
    rw [crossVec_blend, e, blend_dot]
    have c1 := sub_pos.2 hc
    have q1 := mul_pos c1 h1
    have q2 := mul_pos c1 h2
    have q3 := mul_pos hc0 h3
    have q4 := mul_pos hc0 h4
    apply mul_pos (by positivity)
    nlinarith)
  exact ⟨N, hN⟩

theorem cross_cross_ne {u w : V3 ℝ} (h : u.cross w ≠ 0) : (u.cross w).cross w ≠ 0 := by
  intro e
  have h1 : ((u.cross w).cross w).dot ((u.cross w).cross w) = (u.cross w).dot (u.cross w) * w.dot w := by
    simp [V3.dot]
    ring
  rw [e] at h1
  have h0 : (0 : V3 ℝ).dot 0 = 0 := by simp [V3.dot]
  rw [h0] at h1
  have h2 := dot_pos_of_ne h
  have h3 : w ≠ 0 := by
    rintro rfl
    apply h
    ext <;> simp
  have h4 := dot_pos_of_ne h3
  have := mul_pos h2 h4
  linarith

theorem Corners.FromAbove.camberAxis {v : Corners (V3 ℝ)} (h : v.FromAbove) : (camberAxis v).norm ≠ 0 := by
  obtain ⟨h1, -⟩ := h.normals
  have hne : (v.b - v.a).cross (v.d - v.a) ≠ 0 := by
    intro e
    obtain ⟨h4, h5, h6, h7, h8⟩ := h
    have := congrArg V3.z e
    simp [h4] at this
    rcases this with e | e <;> linarith
  have h2 := cross_cross_ne hne
  apply norm_ne_zero_of_ne
  have h3 := norm_ne_zero_of_ne h2
  have e1 : Verif.camberAxis v = (1 / (((v.b - v.a).cross (v.d - v.a)).cross (v.d - v.a)).norm) •
      ((v.b - v.a).cross (v.d - v.a)).cross (v.d - v.a) := by
    unfold Verif.camberAxis
    ext <;> simp
  rw [e1]
  generalize ((v.b - v.a).cross (v.d - v.a)).cross (v.d - v.a) = u at h2 h3
  intro e
  apply h2
  have ex := congrArg V3.x e
  have ey := congrArg V3.y e
  have ez := congrArg V3.z e
  simp [h3] at ex ey ez
  ext
  · simpa using ex
  · simpa using ey
  · simpa using ez

theorem TurnedBy.isSome {axis : V3 ℝ} {o : Option ℝ} {n n' : Option (V3 ℝ)} (h : TurnedBy axis o n n')
    (ha : axis.norm ≠ 0) (hn : ∃ N, n = some N) : ∃ N, n' = some N := by
  obtain ⟨N, rfl⟩ := hn
  rcases h with ⟨-, rfl⟩ | ⟨d, -, -, rfl⟩
  · exact ⟨N, rfl⟩
  · rw [Option.bind_some]
    unfold rotate
    rw [if_neg ha]
    exact ⟨_, rfl⟩

/-- The hinge of a control surface runs from left to right. -/
theorem hingeAxis_above {g : GeoEnv ℝ} (hg : g.isDeformed = false) {d : Strip ℝ} (h1 h2 : ℝ) {mirror : Bool}
    (hs2 : mirror = true → g.symmetry = 2) (hf : g.vertices.FromAbove) (hc : d.etaC = d.etaB)
    (hd : d.etaD = d.etaA) (hab : d.etaA < d.etaB) {axis : V3 ℝ}
    (h : hingeAxis g d h1 h2 mirror = .ok axis) : axis.norm ≠ 0 := by
  apply norm_ne_zero_of_ne
  obtain ⟨h4, h5, h6, h7, h8⟩ := hf
  have hpos := mul_pos (sub_pos.2 hab) (sub_pos.2 h6)
  intro e
  subst e
  unfold hingeAxis hingeVertices Strip.absVertices at h
  rw [hg] at h
  cases mirror with
  | false =>
    simp only [Bool.false_eq_true, if_false, false_and] at h
    have := congrArg V3.y (Except.ok.inj h)
    simp [h4, h5, hc, hd] at this
    nlinarith
  | true =>
    simp only [Bool.false_eq_true, if_false, if_true, mirrorVertices, Corners.mapE, mirrorPoint, orderMirrored,
      hs2 rfl] at h
    norm_num at h
    have := congrArg V3.y h
    simp [h4, h5, hc, hd] at this
    nlinarith

/-! ## The lattice -/

/-- Numbers of panels and entries of the bookkeeping. -/
theorem panel_in_entry {ac ac' : PAircraft ℝ} (hu : ac.Unpanelled) (h : prePanelling ac = .ok ac')
    (hn : ac.NumC 0) {env : LatticeEnv} {doRot : Bool} {alpha beta : ℝ} {l : LatticeData}
    (hl : genLattice env doRot alpha beta ac' = .ok l) (k : Fin l.num) :
    ∃ e ∈ l.book.entries, ∃ j : ℕ, (j : ℤ) < e.numC ∧ ((k : ℕ) : ℤ) = e.start + j := by
  obtain ⟨hc, h0, -⟩ := lattice_entry hu h hn hl
  obtain ⟨-, hr, hs, -⟩ := hc.ranges h0
  have hk : ((k : ℕ) : ℤ) ∈ l.book.entries.flatMap fun e => pyRange e.start e.stop := by
    rw [hr, mem_pyRange]
    have := k.2
    unfold LatticeData.num at this
    omega
  obtain ⟨e, he, hm⟩ := List.mem_flatMap.1 hk
  rw [mem_pyRange, hs e he] at hm
  exact ⟨e, he, (((k : ℕ) : ℤ) - e.start).toNat, by omega, by omega⟩

/-- The segments of the lattice are undeformed and lie side by side, seen from above; mirrored ones are
mirrored at the plane xz, and then none lies to the left of this plane. -/
structure LatticeData.SideBySide (l : LatticeData) (geo : ℕ → ℕ → GeoEnv ℝ) : Prop where
  rigid : ∀ e ∈ l.book.entries, (geo e.path.wing e.path.seg).isDeformed = false
  above : ∀ e ∈ l.book.entries, (geo e.path.wing e.path.seg).vertices.FromAbove
  mirrored : ∀ e ∈ l.book.entries, e.mirror = true → (geo e.path.wing e.path.seg).symmetry = 2 ∧
    ∀ e' ∈ l.book.entries, 0 ≤ (geo e'.path.wing e'.path.seg).vertices.a.y
  apart : ∀ e ∈ l.book.entries, ∀ e' ∈ l.book.entries,
    (e.path.wing = e'.path.wing ∧ e.path.seg = e'.path.seg) ∨
    (geo e.path.wing e.path.seg).vertices.b.y ≤ (geo e'.path.wing e'.path.seg).vertices.a.y ∨
    (geo e'.path.wing e'.path.seg).vertices.b.y ≤ (geo e.path.wing e.path.seg).vertices.a.y

/-- The panels of an entry. -/
theorem entry_above {ac ac' : PAircraft ℝ} (hu : ac.Unpanelled) (h : prePanelling ac = .ok ac')
    (hn : ac.NumC 0) {env : LatticeEnv} {doRot : Bool} {alpha beta : ℝ} {l : LatticeData}
    (hl : genLattice env doRot alpha beta ac' = .ok l) {e : BookEntry} (he : e ∈ l.book.entries)
    (hrigid : (env.geo e.path.wing e.path.seg).isDeformed = false)
    (hfrom : (env.geo e.path.wing e.path.seg).vertices.FromAbove)
    (hsym : e.mirror = true → (env.geo e.path.wing e.path.seg).symmetry = 2) :
    ∃ w s d, ac'.wings[e.path.wing]? = some w ∧ w.segments[e.path.seg]? = some s ∧
      s.strips[e.path.strip]? = some d ∧ ∀ k : ℕ, (k : ℤ) < e.numC → ∃ g, l.panelAt (e.start + k) = some g ∧
        g.Above (trailLeg alpha beta)
          (sideRange (env.geo e.path.wing e.path.seg).vertices e.mirror d.etaA d.etaB) := by
  obtain ⟨-, -, -, hent, -⟩ := lattice_entry hu h hn hl
  obtain ⟨t, ht, hpath, -, v, hv, hpts⟩ := hent e he
  obtain ⟨m1, m2, m3, m4⟩ := mem_allSubareas ht
  have hgeo : env.geo t.2.2.2.1 t.2.2.1.1 = env.geo e.path.wing e.path.seg := by rw [hpath]; rfl
  have hv' := hv
  rw [hgeo] at hv'
  obtain ⟨hva, hr⟩ := subarea_above hu h m1 m2 m3 m4 hrigid hsym hfrom hv'
  obtain ⟨i1, i2, i3, -⟩ := ((C60_all_subareas ac').1 t.2.2.2.1 t.2.2.1.1 t.2.1.1 t.1.1 t.2.2.2.2 t.2.2.1.2
    t.2.1.2 t.1.2).1 ht
  refine ⟨t.2.2.2.2, t.2.2.1.2, t.2.1.2, by rw [hpath]; exact i1, by rw [hpath]; exact i2,
    by rw [hpath]; exact i3, fun k hk => ?_⟩
  have hnormal : ∃ N, l.normal (e.start + k) = some N := by
    obtain ⟨N, hN⟩ := hva.finNormal (trailLeg alpha beta) hk
    cases hdo : doRot with
    | false =>
      obtain ⟨-, -, -, -, -, k5, -⟩ := genLattice_ok hl
      refine ⟨N, ?_⟩
      rw [k5 hdo]
      simp only [hpts k hk, Option.bind_some, hN]
    | true =>
      rw [hdo] at hl
      obtain ⟨t', ht', hpath', v', hv1, hrest⟩ := C71_own_rotations ac ac' hu h hn env alpha beta l hl e he
      obtain ⟨n1, n2, n3, n4⟩ := mem_allSubareas ht'
      have hgeo' : env.geo t'.2.2.2.1 t'.2.2.1.1 = env.geo e.path.wing e.path.seg := by rw [hpath']; rfl
      obtain ⟨-, N1, r1, r2⟩ := hrest k hk
      rw [hgeo'] at hv1 r1
      obtain ⟨hva', -⟩ := subarea_above hu h n1 n2 n3 n4 hrigid hsym hfrom hv1
      have hN1 : ∃ M, N1 = some M := by
        obtain ⟨N', hN'⟩ := hva'.finNormal (trailLeg alpha beta) hk
        rcases r1 with ⟨-, rfl⟩ | ⟨f, -, axis, hax, ht⟩
        · exact ⟨N', hN'⟩
        · obtain ⟨c1, c2⟩ := C04_aircraft_chord_lines ac ac' hu h _ n1 _ n2 _ n3
          refine ht.isSome (hingeAxis_above hrigid f.h1 f.h2 hsym hfrom (by simp [c2]) (by simp [c1]) ?_ hax)
            ⟨N', hN'⟩
          exact (panelled_quad hu h n1 n2 n3 n4).span.2.1
      exact r2.isSome hva'.camberAxis hN1
  obtain ⟨N, hN⟩ := hnormal
  refine ⟨{ (panelPts (Coef.of v) (trailLeg alpha beta) 1 e.numC k 0).toPanel with n := N }, ?_, ?_⟩
  · unfold LatticeData.panelAt
    simp only [hpts k hk, hN]
  rw [← hr]
  obtain ⟨h4, h5, h6, h7, h8⟩ := hva
  refine ⟨⟨?_, rfl⟩, ⟨?_, rfl⟩, h6, ?_, ?_⟩
  · show (panelPts (Coef.of v) (trailLeg alpha beta) 1 e.numC k 0).v2.y = v.a.y
    unfold panelPts Coef.of Coef.at
    simp [h4, h5]
    try ring
  · show (panelPts (Coef.of v) (trailLeg alpha beta) 1 e.numC k 0).v3.y = v.b.y
    unfold panelPts Coef.of Coef.at
    simp [h4, h5]
    try ring
  · show (panelPts (Coef.of v) (trailLeg alpha beta) 1 e.numC k 0).col.y = (v.a.y + v.b.y) / 2
    unfold panelPts Coef.of Coef.at
    simp [h4, h5]
    try ring
  · show (panelPts (Coef.of v) (trailLeg alpha beta) 1 e.numC k 0).mid.y = (v.a.y + v.b.y) / 2
    unfold panelPts Coef.of Coef.at
    simp [h4, h5]
    try ring

/-- Two ranges are the same or do not overlap. -/
theorem ranges_apart {v v' : Corners (V3 ℝ)} (hv : v.FromAbove) (hv' : v'.FromAbove) {m m' : Bool}
    (hm : m = true ∨ m' = true → 0 ≤ v.a.y ∧ 0 ≤ v'.a.y) {a b a' b' : ℝ} (h1 : 0 ≤ a ∧ a < b ∧ b ≤ 1)
    (h2 : 0 ≤ a' ∧ a' < b' ∧ b' ≤ 1)
    (h : (v = v' ∧ ((a = a' ∧ b = b') ∨ b ≤ a' ∨ b' ≤ a)) ∨ v.b.y ≤ v'.a.y ∨ v'.b.y ≤ v.a.y) :
    sideRange v m a b = sideRange v' m' a' b' ∨ (sideRange v m a b).2 ≤ (sideRange v' m' a' b').1 ∨
      (sideRange v' m' a' b').2 ≤ (sideRange v m a b).1 := by
  have s1 := sub_pos.2 hv.span
  have s2 := sub_pos.2 hv'.span
  have l1 := mul_nonneg h1.1 s1.le
  have l2 := mul_nonneg h2.1 s2.le
  have u1 := mul_le_mul_of_nonneg_right h1.2.2 s1.le
  have u2 := mul_le_mul_of_nonneg_right h2.2.2 s2.le
  have i1 := mul_le_mul_of_nonneg_right h1.2.1.le s1.le
  have i2 := mul_le_mul_of_nonneg_right h2.2.1.le s2.le
  cases m <;> cases m'
  · simp only [sideRange, Bool.false_eq_true, if_false]
    rcases h with ⟨rfl, ⟨rfl, rfl⟩ | h | h⟩ | h | h
    · exact .inl rfl
    · have := mul_le_mul_of_nonneg_right h s1.le
      exact .inr (.inl (by linarith))
    · have := mul_le_mul_of_nonneg_right h s1.le
      exact .inr (.inr (by linarith))
    · exact .inr (.inl (by linarith))
    · exact .inr (.inr (by linarith))
  · obtain ⟨z1, z2⟩ := hm (.inr rfl)
    simp only [sideRange, Bool.false_eq_true, if_false, if_true]
    exact .inr (.inr (by linarith))
  · obtain ⟨z1, z2⟩ := hm (.inl rfl)
    simp only [sideRange, Bool.false_eq_true, if_false, if_true]
    exact .inr (.inl (by linarith))
  · simp only [sideRange, if_true]
    rcases h with ⟨rfl, ⟨rfl, rfl⟩ | h | h⟩ | h | h
    · exact .inl rfl
    · have := mul_le_mul_of_nonneg_right h s1.le
      exact .inr (.inr (by linarith))
    · have := mul_le_mul_of_nonneg_right h s1.le
      exact .inr (.inl (by linarith))
    · exact .inr (.inr (by linarith))
    · exact .inr (.inl (by linarith))

theorem strip_inside {ac ac' : PAircraft ℝ} (hu : ac.Unpanelled) (h : prePanelling ac = .ok ac') {w : PWing ℝ}
    {s : PSegment ℝ} {d : Strip ℝ} {m k i : ℕ} (hw : ac'.wings[m]? = some w) (hs : w.segments[k]? = some s)
    (hd : s.strips[i]? = some d) : 0 ≤ d.etaA ∧ d.etaA < d.etaB ∧ d.etaB ≤ 1 :=
  (C01_aircraft_strips_tile ac ac' hu h w (List.mem_of_getElem? hw) s (List.mem_of_getElem? hs)).inside d.range
    (List.mem_map_of_mem (f := Strip.range) (List.mem_of_getElem? hd))

theorem strips_apart {ac ac' : PAircraft ℝ} (hu : ac.Unpanelled) (h : prePanelling ac = .ok ac')
    {w w' : PWing ℝ} {s s' : PSegment ℝ} {d d' : Strip ℝ} {m k i j : ℕ} (hw : ac'.wings[m]? = some w)
    (hs : w.segments[k]? = some s) (hd : s.strips[i]? = some d) (hw' : ac'.wings[m]? = some w')
    (hs' : w'.segments[k]? = some s') (hd' : s'.strips[j]? = some d') :
    (d.etaA = d'.etaA ∧ d.etaB = d'.etaB) ∨ d.etaB ≤ d'.etaA ∨ d'.etaB ≤ d.etaA := by
  rw [hw] at hw'
  cases hw'
  rw [hs] at hs'
  cases hs'
  have tiles := C01_aircraft_strips_tile ac ac' hu h w (List.mem_of_getElem? hw) s (List.mem_of_getElem? hs)
  have g1 : (s.strips.map Strip.range)[i]? = some d.range := by
    rw [List.getElem?_map, hd]
    rfl
  have g2 : (s.strips.map Strip.range)[j]? = some d'.range := by
    rw [List.getElem?_map, hd']
    rfl
  rcases tiles.apart g1 g2 with rfl | hk
  · left
    rw [hd] at hd'
    cases hd'
    exact ⟨rfl, rfl⟩
  · exact .inr hk

/-- **C151**, the lattice: in a flow without sideslip all panels of such a lattice are finite, and so are
the velocities that each panel induces at the collocation points and bound vortices of all panels. -/
theorem C151_lattice (ac ac' : PAircraft ℝ) (hu : ac.Unpanelled) (h : prePanelling ac = .ok ac')
    (hn : ac.NumC 0) (env : LatticeEnv) (doRot : Bool) (alpha : ℝ) (l : LatticeData)
    (hl : genLattice env doRot alpha 0 ac' = .ok l) (hb : l.SideBySide env.geo) (eps : ℝ) (he : 0 < eps) :
    ∃ P : Fin l.num → Panel, (∀ k : Fin l.num, l.panel k = some (P k)) ∧
      ∀ i j, HorseshoeOk eps (P i).col (P j) ∧ HorseshoeOk eps (P i).mid (P j) := by
  have key : ∀ k : Fin l.num, ∃ g e w s d, l.panel k = some g ∧ e ∈ l.book.entries ∧
      ac'.wings[e.path.wing]? = some w ∧ w.segments[e.path.seg]? = some s ∧
      s.strips[e.path.strip]? = some d ∧
      g.Above (trailLeg alpha 0) (sideRange (env.geo e.path.wing e.path.seg).vertices e.mirror d.etaA d.etaB) := by
    intro k
    obtain ⟨e, hee, j, hj, hk⟩ := panel_in_entry hu h hn hl k
    obtain ⟨w, s, d, q1, q2, q3, q4⟩ := entry_above hu h hn hl hee (hb.rigid e hee) (hb.above e hee)
      fun hm => (hb.mirrored e hee hm).1
    obtain ⟨g, hg, ha⟩ := q4 j hj
    refine ⟨g, e, w, s, d, ?_, hee, q1, q2, q3, ha⟩
    unfold LatticeData.panel
    rw [hk]
    exact hg
  choose P e w s d hP hE hw hs hd hA using key
  refine ⟨P, hP, fun i j => ?_⟩
  refine (hA i).ok (hA j) ?_ ?_ he
  · unfold trailLeg
    rw [level_stream]
    simp
  have inside := fun k => strip_inside hu h (hw k) (hs k) (hd k)
  refine ranges_apart (hb.above _ (hE i)) (hb.above _ (hE j)) ?_ (inside i) (inside j) ?_
  · rintro (hm | hm)
    · have := (hb.mirrored _ (hE i) hm).2
      exact ⟨this _ (hE i), this _ (hE j)⟩
    · have := (hb.mirrored _ (hE j) hm).2
      exact ⟨this _ (hE i), this _ (hE j)⟩
  · rcases hb.apart _ (hE i) _ (hE j) with ⟨hp, hq⟩ | hp
    · left
      refine ⟨by rw [hp, hq], ?_⟩
      refine strips_apart hu h (hw i) (hs i) (hd i) (w' := w j) ?_ ?_ (hd j)
      · rw [hp]
        exact hw j
      · rw [hq]
        exact hs j
    · exact .inr hp

/-! ## Flight states -/

/-- All numbers of the state file are finite, and the atmosphere model answers with finite numbers. -/
structure StatesFinite (atm : Atm ℝ) (sd : List (String × Arg ℝ)) : Prop where
  finite : ∀ x ∈ sd, ∀ v ∈ x.2.toList, v ≠ .num .nonfin
  given : ∀ p ∈ ["alpha", "beta", "rate_P", "rate_Q", "rate_R"], ∀ a, (p, a) ∈ sd → ∀ v ∈ a.toList,
    v.isNum = true
  atmosphere : ∀ z rho c, atm (.fin z) = some (rho, c) → rho ≠ .nonfin ∧ c ≠ .nonfin

/-- There is no sideslip either. -/
structure StatesLevel (atm : Atm ℝ) (sd : List (String × Arg ℝ)) : Prop extends StatesFinite atm sd where
  level : ∀ a, ("beta", a) ∈ sd → ∀ v ∈ a.toList, v = .num (.fin 0)

theorem flt_finite {f : Flt ℝ} (h : f ≠ .nonfin) : ∃ x, f = .fin x := by
  cases f with
  | fin x => exact ⟨x, rfl⟩
  | nonfin => exact absurd rfl h

/-- The solver gets finite numbers in each flight state. -/
theorem StatesFinite.flow {atm : Atm ℝ} {sd : List (String × Arg ℝ)} (h : StatesFinite atm sd)
    (hok : StatesOk atm sd) {st : FlightSt ℝ} (hst : updateFromDict atm Store.fresh sd = .ok st) :
    ∀ i < st.num, ∃ s, FlowAt st i s ∧ ∃ a, ("beta", a) ∈ sd ∧ .num (.fin s.beta) ∈ a.toList := by
  intro i hi
  obtain ⟨hn, F⟩ := (accepted angle_limits atm sd hok.keys).2 st hst
  have hlen := (C44_iteration atm sd hok.keys st hst hok.rates).1
  have given : ∀ p a, (p, a) ∈ sd → (∀ v ∈ a.toList, v.isNum = true) → p ∈ stateAllParams →
      p ≠ "airspeed" → p ≠ "density" → ∃ x, st.aero.entry p i = .ok (.fin x) ∧ .num (.fin x) ∈ a.toList := by
    intro p a ha hnum hp h1 h2
    have hl : i < a.toList.length := by
      have := hlen _ ha
      simp only at this
      omega
    have hm := List.getElem_mem hl
    have hf := h.finite _ ha _ hm
    have hnm := hnum _ hm
    have hg := List.getElem?_eq_getElem hl
    generalize a.toList[i] = v at hm hf hnm hg
    cases v with
    | num f =>
      obtain ⟨x, rfl⟩ := flt_finite (f := f) (fun e => hf (by rw [e]))
      refine ⟨x, ?_, hm⟩
      unfold Store.entry
      rw [(F.other p hp h1 h2).1 _ ⟨a, ha, rfl⟩]
      simp only [List.getElem?_map, hg]
      rfl
    | none => simp [Val.isNum] at hnm
    | text t => simp [Val.isNum] at hnm
    | obj => simp [Val.isNum] at hnm
  obtain ⟨V, rho, v1, v2, v3, v4, v5⟩ := C42_airspeed_density atm sd hok.keys st hst i hi
  have entry : ∀ {p f}, st.valueAt p i = some (.num f) → st.aero.entry p i = .ok f := by
    intro p f hv
    unfold FlightSt.valueAt at hv
    unfold Store.entry
    cases hs : st.aero p with
    | none => rw [hs] at hv; cases hv
    | some l =>
      rw [hs, Option.bind_some] at hv
      simp only [hv]
      rfl
  have fin : ∀ {p a f}, (p, a) ∈ sd → a.toList[i]? = some (.num f) → ∃ x, f = .fin x := by
    intro p a f ha hv
    exact flt_finite fun e => h.finite _ ha _ (List.mem_of_getElem? hv) (by rw [e])
  have hVr : (∃ x, V = .fin x) ∧ ∃ x, rho = .fin x := by
    have alt : Given sd "altitude" → (∃ x, rho = .fin x) ∧ (Given sd "mach" → ∃ x, V = .fin x) := by
      rintro ⟨a, ha, hg⟩
      obtain ⟨z, c, q1, q2, q3⟩ := v5 a ha ⟨a, ha, hg⟩
      obtain ⟨z, rfl⟩ := fin ha q1
      obtain ⟨r1, r2⟩ := h.atmosphere _ _ _ q2
      refine ⟨flt_finite r1, ?_⟩
      rintro ⟨b, hb, hgb⟩
      obtain ⟨m, q4, rfl⟩ := q3 b hb ⟨b, hb, hgb⟩
      obtain ⟨m, rfl⟩ := fin hb q4
      obtain ⟨c, rfl⟩ := flt_finite r2
      exact ⟨_, rfl⟩
    rcases hok.acceptable.documented with ⟨g1, g2, -⟩ | ⟨g1, g2, -⟩ | ⟨g1, g2, -⟩
    · obtain ⟨a, ha, hg⟩ := id g1
      obtain ⟨b, hb, hgb⟩ := id g2
      exact ⟨fin ha (v3 a ha g1), fin hb (v4 b hb g2)⟩
    · obtain ⟨a, ha, hg⟩ := id g1
      exact ⟨fin ha (v3 a ha g1), (alt g2).1⟩
    · exact ⟨(alt g2).2 g1, (alt g2).1⟩
  obtain ⟨⟨V, rfl⟩, rho, rfl⟩ := hVr
  obtain ⟨aa, ha⟩ := hok.acceptable.alpha
  obtain ⟨ab, hb⟩ := hok.acceptable.beta
  obtain ⟨ap, hp⟩ := hok.rates "rate_P" (by simp)
  obtain ⟨aq, hq⟩ := hok.rates "rate_Q" (by simp)
  obtain ⟨ar, hr⟩ := hok.rates "rate_R" (by simp)
  obtain ⟨xa, ea, -⟩ := given _ _ ha (h.given _ (by simp) _ ha) (by decide) (by decide) (by decide)
  obtain ⟨xb, eb, mb⟩ := given _ _ hb (h.given _ (by simp) _ hb) (by decide) (by decide)
    (by decide)
  obtain ⟨xp, ep, -⟩ := given _ _ hp (h.given _ (by simp) _ hp) (by decide) (by decide) (by decide)
  obtain ⟨xq, eq, -⟩ := given _ _ hq (h.given _ (by simp) _ hq) (by decide) (by decide) (by decide)
  obtain ⟨xr, er, -⟩ := given _ _ hr (h.given _ (by simp) _ hr) (by decide) (by decide) (by decide)
  exact ⟨⟨V, rho, xa, xb, xp, xq, xr⟩, ⟨entry v1, entry v2, ea, eb, ep, eq, er⟩, ab, hb, mb⟩

/-! ## Projects -/

/-- The segments of the aircraft file are undeformed and lie side by side, seen from above.  Wings are
mirrored at the plane xz if at all, and then nothing lies to the left of this plane. -/
structure FileAircraft.SideBySide (f : FileAircraft) (D : String → Option (DefField ℝ)) : Prop where
  rigid : ∀ w ∈ f.wings, D w.uid = none ∧ D (mirrorName w.uid) = none
  above : ∀ w ∈ f.wings, ∀ s ∈ w.segments, ∀ v, AllGiven s.vertices v → v.FromAbove
  mirrored : ∀ w ∈ f.wings, w.symmetry ≠ 0 → w.symmetry = 2 ∧
    ∀ w' ∈ f.wings, ∀ s ∈ w'.segments, ∀ v, AllGiven s.vertices v → 0 ≤ v.a.y
  apart : ∀ (m m' k k' : ℕ) (w w' : FileWing) (s s' : FileSegment) (v v' : Corners (V3 ℝ)),
    f.wings[m]? = some w → f.wings[m']? = some w' → w.segments[k]? = some s → w'.segments[k']? = some s' →
    AllGiven s.vertices v → AllGiven s'.vertices v' →
    (m = m' ∧ k = k') ∨ v.b.y ≤ v'.a.y ∨ v'.b.y ≤ v.a.y

/-- The segment of the aircraft file that an entry of the bookkeeping belongs to. -/
theorem entry_in_file {f : FileAircraft} {D : String → Option (DefField ℝ)}
    (hrigid : ∀ w ∈ f.wings, D w.uid = none ∧ D (mirrorName w.uid) = none) {W : World} {P : Project} {d : PyDict}
    {env : RunEnv} {ac : PAircraft ℝ} (hr : ReadsFiles W P d f env ac) (hdef : FieldsOf P d f D)
    {apC apS : ℤ} {ac1 ac2 : PAircraft ℝ} (h1 : setAutopanels apC apS ac = .ok ac1)
    (h2 : prePanelling ac1 = .ok ac2) (hu : ac1.Unpanelled) (hN : ac1.NumC 0) {doRot : Bool} {alpha beta : ℝ}
    {l : LatticeData} (hl : genLattice env.lat doRot alpha beta ac2 = .ok l) :
    ∀ e ∈ l.book.entries, ∃ w s, f.wings[e.path.wing]? = some w ∧ w.segments[e.path.seg]? = some s ∧
      AllGiven s.vertices (env.lat.geo e.path.wing e.path.seg).vertices ∧
      (env.lat.geo e.path.wing e.path.seg).symmetry = w.symmetry ∧
      (env.lat.geo e.path.wing e.path.seg).isDeformed = false ∧ (e.mirror = true → w.symmetry ≠ 0) := by
  have key : ∀ e ∈ l.book.entries, ∃ w s, f.wings[e.path.wing]? = some w ∧ w.segments[e.path.seg]? = some s ∧
      AllGiven s.vertices (env.lat.geo e.path.wing e.path.seg).vertices ∧
      (env.lat.geo e.path.wing e.path.seg).symmetry = w.symmetry ∧
      (env.lat.geo e.path.wing e.path.seg).isDeformed = false := by
    intro e he
    obtain ⟨-, -, -, hent, -⟩ := lattice_entry hu h2 hN hl
    obtain ⟨t, ht, hpath, -⟩ := hent e he
    obtain ⟨i1, i2, -, -⟩ := ((C60_all_subareas ac2).1 t.2.2.2.1 t.2.2.1.1 t.2.1.1 t.1.1 t.2.2.2.2 t.2.2.1.2
      t.2.1.2 t.1.2).1 ht
    obtain ⟨w1, j1, r1⟩ := forall₂_get (prePanelling_step h2) i1
    obtain ⟨s1, k1, -⟩ := forall₂_get r1.segs i2
    obtain ⟨w0, j0, -, -, -, r0⟩ := forall₂_get (setAutopanels_rest h1) j1
    obtain ⟨s0, k0, -⟩ := forall₂_get r0 k1
    obtain ⟨w, j, r⟩ := forall₂_get hr.wings j0
    obtain ⟨s, k, -⟩ := forall₂_get r.segments k0
    have e1 : e.path.wing = t.2.2.2.1 := by rw [hpath]; rfl
    have e2 : e.path.seg = t.2.2.1.1 := by rw [hpath]; rfl
    rw [e1, e2]
    obtain ⟨g1, g2, -⟩ := hr.geometry _ w j _ s k
    refine ⟨w, s, j, k, g1, g2, ?_⟩
    obtain ⟨d1, d2⟩ : (env.lat.geo t.2.2.2.1 t.2.2.1.1).defField = D w.uid ∧
        (env.lat.geo t.2.2.2.1 t.2.2.1.1).defFieldMirror = D (mirrorName w.uid) := by
      rcases hdef with ⟨hd1, hd2⟩ | ⟨v, fields, hd1, hd2, hd3, hd4, hd5⟩
      · rw [hd2, hd2]
        exact hr.undeformed hd1 _ _
      · rw [hd5, hd5]
        exact hr.deformed v fields hd1 hd2 hd3 hd4 _ _ j _
    obtain ⟨D1, D2⟩ := hrigid w (List.mem_of_getElem? j)
    unfold GeoEnv.isDeformed
    rw [d1, d2, D1, D2]
    rfl
  intro e he
  obtain ⟨w, s, q1, q2, q3, q4, q5⟩ := key e he
  refine ⟨w, s, q1, q2, q3, q4, q5, fun hm => ?_⟩
  have hs := (entry_patch hu h2 hN hl he q5).1 hm
  rw [← q4]
  rcases hs with hs | hs | hs <;> omega

theorem FileAircraft.SideBySide.lattice {f : FileAircraft} {D : String → Option (DefField ℝ)}
    (h : f.SideBySide D) {geo : ℕ → ℕ → GeoEnv ℝ} {l : LatticeData}
    (key : ∀ e ∈ l.book.entries, ∃ w s, f.wings[e.path.wing]? = some w ∧ w.segments[e.path.seg]? = some s ∧
      AllGiven s.vertices (geo e.path.wing e.path.seg).vertices ∧
      (geo e.path.wing e.path.seg).symmetry = w.symmetry ∧
      (geo e.path.wing e.path.seg).isDeformed = false ∧ (e.mirror = true → w.symmetry ≠ 0)) :
    l.SideBySide geo := by
  refine ⟨?_, ?_, ?_, ?_⟩
  · intro e he
    obtain ⟨w, s, -, -, -, -, q, -⟩ := key e he
    exact q
  · intro e he
    obtain ⟨w, s, q1, q2, q3, -, -, -⟩ := key e he
    exact h.above w (List.mem_of_getElem? q1) s (List.mem_of_getElem? q2) _ q3
  · intro e he hm
    obtain ⟨w, s, q1, q2, q3, q4, q5, q6⟩ := key e he
    obtain ⟨m1, m2⟩ := h.mirrored w (List.mem_of_getElem? q1) (q6 hm)
    refine ⟨q4.trans m1, fun e' he' => ?_⟩
    obtain ⟨w', s', r1, r2, r3, -, -⟩ := key e' he'
    exact m2 w' (List.mem_of_getElem? r1) s' (List.mem_of_getElem? r2) _ r3
  · intro e he e' he'
    obtain ⟨w, s, q1, q2, q3, -, -⟩ := key e he
    obtain ⟨w', s', r1, r2, r3, -, -⟩ := key e' he'
    exact h.apart _ _ _ _ w w' s s' _ _ q1 r1 q2 r2 q3 r3

/-- An aircraft that is loaded is analysed if the induced velocities are finite. -/
theorem finishes_of_loaded {W : World} (hW : Lapack W.dgesv) {P : Project} {x : Loaded}
    (hx : loadProject W P = .ok x) {d : PyDict} (hk : (d.map Prod.fst).Nodup)
    (hset : loadSettings W.suffix (.dict d) = .ok x.settings)
    (hpc : IfGiven d "vlm_autopanels_c" PyVal.IsPositive)
    (hps : IfGiven d "vlm_autopanels_s" PyVal.IsPositive) {root : String} {airfoilOk : String → Bool}
    {f : FileAircraft} (hac : loadAircraft root airfoilOk f = .ok x.aircraft)
    (hlayout : ∀ w ∈ f.wings, WingLayoutOk w) (hsegment : ∃ w ∈ f.wings, w.segments ≠ [])
    {sd : List (String × Arg ℝ)} (hst : updateFromDict W.atm Store.fresh sd = .ok x.state)
    (hstates : StatesOk W.atm sd) {env0 : RunEnv} (hr : ReadsFiles W P d f env0 x.aircraft.toP)
    (hlat0 : env0.lat = (x.env W P).lat) {D : String → Option (DefField ℝ)} (hdef : FieldsOf P d f D)
    (hrigid : ∀ w ∈ f.wings, D w.uid = none ∧ D (mirrorName w.uid) = none) (hs : StatesFinite W.atm sd)
    (hfin : ∀ (ac ac' : PAircraft ℝ), ac.Unpanelled → prePanelling ac = .ok ac' → ac.NumC 0 →
      ∀ (env : LatticeEnv) (doRot : Bool) (alpha beta : ℝ) (l : LatticeData),
      (∃ a, ("beta", a) ∈ sd ∧ .num (.fin beta) ∈ a.toList) → genLattice env doRot alpha beta ac' = .ok l →
      (∀ e ∈ l.book.entries, ∃ w s, f.wings[e.path.wing]? = some w ∧ w.segments[e.path.seg]? = some s ∧
        AllGiven s.vertices (env.geo e.path.wing e.path.seg).vertices ∧
        (env.geo e.path.wing e.path.seg).symmetry = w.symmetry ∧
        (env.geo e.path.wing e.path.seg).isDeformed = false ∧ (e.mirror = true → w.symmetry ≠ 0)) →
      ∀ eps : ℝ, 0 < eps → ∃ P : Fin l.num → Panel, (∀ k : Fin l.num, l.panel k = some (P k)) ∧
        ∀ i j, HorseshoeOk eps (P i).col (P j) ∧ HorseshoeOk eps (P i).mid (P j)) :
    ∃ out, runProject W P = .ok out := by
  obtain ⟨ac1, ac2, h1, h2, hu, hN, hlat⟩ := panelled_of_loaded (W := W) P hk hset hpc hps
    hac hlayout hsegment
  have hN0 : ac1.NumC 0 := fun w hw => ⟨fun s hs => by
      obtain ⟨n, e, h⟩ := (hN w hw).1 s hs
      exact ⟨n, e, by omega⟩, fun c hc => by
      obtain ⟨n, e, h⟩ := (hN w hw).2 c hc
      exact ⟨n, e, by omega⟩⟩
  have heps : 0 < (x.env W P).eps := by
    obtain ⟨y, hy, y0, -⟩ := C47_epsilon _ _ _ hset
    show 0 < x.settings.epsilon
    unfold SettingsObj.epsilon
    rw [hy]
    show (0 : ℝ) < (y : ℝ)
    exact_mod_cast y0
  have hflow := hs.flow hstates hst
  obtain ⟨hlen, -⟩ := C44_iteration W.atm sd hstates.keys _ hst hstates.rates
  have hnz : x.state.num ≠ 0 := by
    obtain ⟨y, hy, hne⟩ := hstates.some
    rw [← hlen y hy]
    exact fun h0 => hne (List.length_eq_zero_iff.1 h0)
  have hd : Lapack (x.env W P).dgesv := hW
  unfold runProject
  rw [hx]
  simp only
  rw [C93_finishes_iff _ hd]
  refine ⟨hnz, ac2, ⟨ac1, h1, h2⟩, fun i hi => ?_⟩
  obtain ⟨s, ⟨q1, q2, q3, q4, q5, q6, q7⟩, hbeta⟩ := hflow i hi
  obtain ⟨l, hl, hne⟩ := hlat s.alpha s.beta
  have hl0 : genLattice env0.lat (x.env W P).doRot s.alpha s.beta ac2 = .ok l := by rw [hlat0]; exact hl
  have hent := entry_in_file hrigid hr hdef h1 h2 hu hN0 hl0
  rw [hlat0] at hent
  obtain ⟨Q, hP, hok⟩ := hfin ac1 ac2 hu h2 hN0 _ _ _ _ l hbeta hl hent _ heps
  have hA : ∃ A, vlmDownwash (x.env W P).eps Q = some A := by
    unfold vlmDownwash
    rw [if_pos]
    · exact ⟨_, rfl⟩
    · intro i j
      exact (hok _ _).1
  obtain ⟨A, hA⟩ := hA
  have hR : ∃ R, vlmResults (x.env W P).eps s (x.env W P).refs Q
      (gammaOf (x.env W P) A (vlmBoundary s (x.env W P).refs Q)) = some R := by
    unfold vlmResults
    rw [if_pos]
    · exact ⟨_, rfl⟩
    · intro i j
      exact (hok _ _).2
  obtain ⟨R, hR⟩ := hR
  obtain ⟨g1, g2, -⟩ := gammaOf_lapack hd A (vlmBoundary s (x.env W P).refs Q)
  exact ⟨⟨s, l, Q, A, gammaOf (x.env W P) A (vlmBoundary s (x.env W P).refs Q), R⟩,
    q1, q2, q3, q4, q5, q6, q7, hl, hne, hP, hA, g1, g2, hR⟩

/-- A project in order is analysed if the induced velocities are finite. -/
theorem finishes_of_finite (W : World) (hW : Lapack W.dgesv) (P : Project) (d : PyDict) (a b : String)
    (f : FileAircraft) (sd : List (String × Arg ℝ)) (h : ProjectOk W P d a b f sd)
    (D : String → Option (DefField ℝ)) (hdef : FieldsOf P d f D)
    (hrigid : ∀ w ∈ f.wings, D w.uid = none ∧ D (mirrorName w.uid) = none) (hs : StatesFinite W.atm sd)
    (hfin : ∀ (ac ac' : PAircraft ℝ), ac.Unpanelled → prePanelling ac = .ok ac' → ac.NumC 0 →
      ∀ (env : LatticeEnv) (doRot : Bool) (alpha beta : ℝ) (l : LatticeData),
      (∃ a, ("beta", a) ∈ sd ∧ .num (.fin beta) ∈ a.toList) → genLattice env doRot alpha beta ac' = .ok l →
      (∀ e ∈ l.book.entries, ∃ w s, f.wings[e.path.wing]? = some w ∧ w.segments[e.path.seg]? = some s ∧
        AllGiven s.vertices (env.geo e.path.wing e.path.seg).vertices ∧
        (env.geo e.path.wing e.path.seg).symmetry = w.symmetry ∧
        (env.geo e.path.wing e.path.seg).isDeformed = false ∧ (e.mirror = true → w.symmetry ≠ 0)) →
      ∀ eps : ℝ, 0 < eps → ∃ P : Fin l.num → Panel, (∀ k : Fin l.num, l.panel k = some (P k)) ∧
        ∀ i j, HorseshoeOk eps (P i).col (P j) ∧ HorseshoeOk eps (P i).mid (P j)) :
    ∃ out, runProject W P = .ok out := by
  obtain ⟨x, hx, hset, hac, hst⟩ := h.load
  obtain ⟨f', sd', h0, -, -, -, -, hr⟩ := loaded_reads h.native hx
  rw [h.aircraft] at h0
  cases h0
  exact finishes_of_loaded hW hx h.native.keys hset h.panelsC h.panelsS hac h.layout h.segment hst h.states hr rfl
    hdef hrigid hs hfin

/-- **C151**: a project in order whose segments lie side by side, seen from above, is analysed in all its
flight states if there is no sideslip.  Sweep, taper, dihedral, twist, camber, control surfaces and numbers
of panels do not matter. -/
theorem C151_always_analysed (W : World) (hW : Lapack W.dgesv) (P : Project) (d : PyDict) (a b : String)
    (f : FileAircraft) (sd : List (String × Arg ℝ)) (h : ProjectOk W P d a b f sd)
    (D : String → Option (DefField ℝ)) (hdef : FieldsOf P d f D) (hb : f.SideBySide D)
    (hs : StatesLevel W.atm sd) : ∃ out, runProject W P = .ok out := by
  refine finishes_of_finite W hW P d a b f sd h D hdef hb.rigid hs.toStatesFinite ?_
  intro ac ac' hu h2 hN env doRot alpha beta l hbeta hl key eps heps
  obtain ⟨a', ha, hv⟩ := hbeta
  have := hs.level _ ha _ hv
  obtain rfl : beta = 0 := by simpa using this
  exact C151_lattice ac ac' hu h2 hN env doRot alpha l hl (hb.lattice key) eps heps

/-! ## Examples -/

theorem taperedSeg_above : (taperedSeg (K := ℝ)).FromAbove := by
  constructor <;> norm_num [taperedSeg]

theorem flapFile_sideBySide : flapFile.SideBySide (fun _ => none) := by
  have hw : ∀ {w}, w ∈ flapFile.wings → ∀ s ∈ w.segments, ∀ v, AllGiven s.vertices v → v = taperedSeg := by
    intro w hw s hs v hv
    simp only [flapFile, List.mem_singleton] at hw
    subst hw
    simp only [List.mem_singleton] at hs
    subst hs
    exact noSpan_given hv ⟨rfl, rfl, rfl, rfl⟩
  refine ⟨fun _ _ => ⟨rfl, rfl⟩, ?_, ?_, ?_⟩
  · intro w h1 s h2 v h3
    rw [hw h1 s h2 v h3]
    exact taperedSeg_above
  · intro w h1 _
    refine ⟨?_, ?_⟩
    · simp only [flapFile, List.mem_singleton] at h1
      subst h1
      rfl
    · intro w' h1 s h2 v h3
      rw [hw h1 s h2 v h3]
      norm_num [taperedSeg]
  · intro m m' k k' w w' s s' v v' h1 h2 h3 h4 _ _
    left
    have l1 := (List.getElem?_eq_some_iff.1 h1).1
    have l2 := (List.getElem?_eq_some_iff.1 h2).1
    have e1 := List.mem_of_getElem? h1
    have e2 := List.mem_of_getElem? h2
    have l3 := (List.getElem?_eq_some_iff.1 h3).1
    have l4 := (List.getElem?_eq_some_iff.1 h4).1
    simp only [flapFile, List.mem_singleton, List.length_singleton] at e1 e2 l1 l2
    subst e1 e2
    simp only [List.length_singleton] at l3 l4
    omega

theorem oneState_finite {atm : Atm ℝ}
    (h : ∀ z rho c, atm (.fin z) = some (rho, c) → rho ≠ .nonfin ∧ c ≠ .nonfin) (V rho alpha beta : ℝ) :
    StatesFinite atm (oneState V rho alpha beta) := by
  refine ⟨?_, ?_, h⟩
  · intro x hx v hv
    simp only [oneState, List.mem_cons, List.not_mem_nil, or_false] at hx
    rcases hx with rfl | rfl | rfl | rfl | rfl | rfl | rfl <;> simp [Arg.toList] at hv <;> subst hv <;> simp
  · intro p hp a ha v hv
    simp only [oneState, List.mem_cons, List.not_mem_nil, or_false, Prod.mk.injEq] at ha
    rcases ha with ⟨-, rfl⟩ | ⟨-, rfl⟩ | ⟨-, rfl⟩ | ⟨-, rfl⟩ | ⟨-, rfl⟩ | ⟨-, rfl⟩ | ⟨-, rfl⟩ <;>
      simp [Arg.toList] at hv <;> subst hv <;> rfl

theorem oneState_level {atm : Atm ℝ} (h : ∀ z rho c, atm (.fin z) = some (rho, c) → rho ≠ .nonfin ∧ c ≠ .nonfin)
    (V rho alpha : ℝ) : StatesLevel atm (oneState V rho alpha 0) := by
  refine ⟨oneState_finite h _ _ _ _, ?_⟩
  · intro a ha v hv
    simp [oneState] at ha
    subst ha
    simpa [Arg.toList] using hv

/-- Example for C151: the swept and tapered wing with dihedral, a flap deflected by 5 degree and its mirror
image are analysed. -/
example : ∃ out, runProject exampleWorld (exampleProject flapFile) = .ok out :=
  C151_always_analysed _ exactDgesv_lapack _ _ _ _ _ _ (example_ok flapFile_ok flapFile_layout
    ⟨_, List.mem_singleton.2 rfl, by simp⟩) (fun _ => none)
    (.inl ⟨by simp [IfGiven, exampleSettings], fun _ => rfl⟩) flapFile_sideBySide
    (oneState_level (by simp [exampleWorld]) 10 1 5)

/-- Example for the lattice of C151: the panels of a wing with a flap and its mirror image. -/
example : ∃ l, genLattice (cornersEnv obliqueCorners 2) true 2 0 (flapPanelled 2) = .ok l ∧
    ∃ P : Fin l.num → Panel, (∀ k : Fin l.num, l.panel k = some (P k)) ∧
      ∀ i j, HorseshoeOk (1/1000000) (P i).col (P j) ∧ HorseshoeOk (1/1000000) (P i).mid (P j) := by
  obtain ⟨l, hl, hb⟩ := cornersEnv_lattice obliqueCorners (sym := 2) (.inr (.inl rfl))
  have habove : obliqueCorners.FromAbove := by constructor <;> norm_num [obliqueCorners]
  refine ⟨l, hl, C151_lattice _ _ (flapAircraft_ok 2).1 (flapAircraft_panelled 2) (flapAircraft_ok 2).2 _ true 2 l hl
    ⟨fun _ _ => rfl, fun _ _ => habove, fun _ _ _ => ⟨rfl, fun _ _ => ?_⟩, ?_⟩ _ (by norm_num)⟩
  · norm_num [cornersEnv, obliqueCorners]
  · intro e he e' he'
    left
    rw [hb] at he he'
    simp [flapBook] at he he'
    rcases he with rfl | rfl | rfl | rfl | rfl | rfl | rfl | rfl <;>
      rcases he' with rfl | rfl | rfl | rfl | rfl | rfl | rfl | rfl <;> simp

end Verif
