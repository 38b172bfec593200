import Verif.Props.ProgramExamples
import Verif.Props.RunScaled

/-!
# Property C137: flow along the surfaces causes no loads
-/

namespace Verif

open V3

/-! ## Specification -/

/-- Velocity of the undisturbed air at the point `x` as seen from the aircraft, against the direction of
flight (m/s): free stream and rotation about the centre of gravity. -/
noncomputable def FlowState.onset (s : FlowState) (cg x : V3 ℝ) : V3 ℝ :=
  s.airspeed • (⟨Real.cos (s.alpha * (Real.pi / 180)) * Real.cos (s.beta * (Real.pi / 180)),
    -Real.sin (s.beta * (Real.pi / 180)),
    Real.sin (s.alpha * (Real.pi / 180)) * Real.cos (s.beta * (Real.pi / 180))⟩ : V3 ℝ) -
  (⟨s.p, s.q, s.r⟩ : V3 ℝ).cross (x - cg)

/-- All lifting surfaces of the aircraft and their mirror images are flat and lie in the plane
`m · x = c`: no deformation, no deflection, no camber. -/
structure LatticeEnv.InPlane (env : LatticeEnv) (ac : PAircraft ℝ) (m : V3 ℝ) (c : ℝ) : Prop where
  corners : ∀ (i j : ℕ) (w : PWing ℝ) (s : PSegment ℝ), ac.wings[i]? = some w → w.segments[j]? = some s →
    ∀ v ∈ [(env.geo i j).vertices.a, (env.geo i j).vertices.b, (env.geo i j).vertices.c,
      (env.geo i j).vertices.d],
      m.dot v = c ∧ ∀ v', mirrorPoint v (env.geo i j).symmetry = .ok v' → m.dot v' = c
  undeformed : ∀ i j, (env.geo i j).defField = none ∧ (env.geo i j).defFieldMirror = none
  undeflected : ∀ w k d, (env.deflection w k).1 = some d ∨ (env.deflection w k).2 = some d → d = 0
  uncambered : ∀ i j eta xsi, env.camber i j eta xsi = 0

/-! ## Proofs -/

theorem onset_eq (s : FlowState) (c : Refs) (x : V3 ℝ) :
    velWind s + velRot s (x - c.cg) = -(s.onset c.cg x) := by
  unfold velWind velRot FlowState.onset freestreamDir deg2rad
  refine V3.ext ?_ ?_ ?_ <;>
  simp only [V3.add_x, V3.add_y, V3.add_z, V3.smul_x, V3.smul_y, V3.smul_z, V3.sub_x, V3.sub_y, V3.sub_z,
    V3.neg_x, V3.neg_y, V3.neg_z, V3.cross] <;>
  ring

/-- Three vectors perpendicular to a fourth one have no volume. -/
theorem volume_zero {m a b u : V3 ℝ} (hm : m ≠ 0) (ha : m.dot a = 0) (hb : m.dot b = 0)
    (hu : m.dot u = 0) : u.dot (a.cross b) = 0 := by
  have key : ∀ t : ℝ, t * m.x = 0 ∧ t * m.y = 0 ∧ t * m.z = 0 → t = 0 := by
    intro t ⟨h1, h2, h3⟩
    by_contra ht
    apply hm
    have e1 := (mul_eq_zero.1 h1).resolve_left ht
    have e2 := (mul_eq_zero.1 h2).resolve_left ht
    have e3 := (mul_eq_zero.1 h3).resolve_left ht
    exact V3.ext e1 e2 e3
  apply key
  simp only [V3.dot, V3.cross] at *
  refine ⟨?_, ?_, ?_⟩
  · linear_combination (a.y * b.z - a.z * b.y) * hu + (b.y * u.z - b.z * u.y) * ha +
      (u.y * a.z - u.z * a.y) * hb
  · linear_combination (a.z * b.x - a.x * b.z) * hu + (b.z * u.x - b.x * u.z) * ha +
      (u.z * a.x - u.x * a.z) * hb
  · linear_combination (a.x * b.y - a.y * b.x) * hu + (b.x * u.y - b.y * u.x) * ha +
      (u.x * a.y - u.y * a.x) * hb

section
variable {m : V3 ℝ} {c : ℝ}

/-- All four corners are in the plane. -/
def Corners.In (m : V3 ℝ) (c : ℝ) (v : Corners (V3 ℝ)) : Prop :=
  m.dot v.a = c ∧ m.dot v.b = c ∧ m.dot v.c = c ∧ m.dot v.d = c

theorem dot_between {a b : V3 ℝ} (ha : m.dot a = c) (hb : m.dot b = c) (t : ℝ) :
    m.dot (a + t • (b - a)) = c := by
  simp only [V3.dot, V3.add_x, V3.add_y, V3.add_z, V3.smul_x, V3.smul_y, V3.smul_z, V3.sub_x, V3.sub_y,
    V3.sub_z] at *
  linear_combination (1 - t) * ha + t * hb

theorem mirrorPoint_affine {p q p' q' : V3 ℝ} {sym : ℕ} (t : ℝ) (hp : mirrorPoint p sym = .ok p')
    (hq : mirrorPoint q sym = .ok q') :
    mirrorPoint (p + t • (q - p)) sym = .ok (p' + t • (q' - p')) := by
  unfold mirrorPoint at *
  split_ifs at * <;> cases hp <;> cases hq <;> refine congrArg Except.ok (V3.ext ?_ ?_ ?_) <;>
  simp only [V3.add_x, V3.add_y, V3.add_z, V3.smul_x, V3.smul_y, V3.smul_z, V3.sub_x, V3.sub_y,
    V3.sub_z] <;> ring

theorem mirror_total {p q : V3 ℝ} {sym : ℕ} (h : mirrorPoint p sym = .ok q) (r : V3 ℝ) :
    ∃ r', mirrorPoint r sym = .ok r' := by
  unfold mirrorPoint at *
  split_ifs at * <;> first | cases h; done | exact ⟨_, rfl⟩

theorem strip_in {g : GeoEnv ℝ} (hd : g.defField = none ∧ g.defFieldMirror = none)
    (hv : ∀ v ∈ [g.vertices.a, g.vertices.b, g.vertices.c, g.vertices.d],
      m.dot v = c ∧ ∀ v', mirrorPoint v g.symmetry = .ok v' → m.dot v' = c)
    {s : Strip ℝ} {mirror : Bool} {r : Corners (V3 ℝ)}
    (h : s.absVertices g mirror = .ok r) : r.In m c := by
  have hi : g.isDeformed = false := by unfold GeoEnv.isDeformed; rw [hd.1, hd.2]; rfl
  have ha := hv g.vertices.a (by simp)
  have hb := hv g.vertices.b (by simp)
  have hc := hv g.vertices.c (by simp)
  have hd' := hv g.vertices.d (by simp)
  unfold Strip.absVertices at h
  rw [hi] at h
  simp only [Bool.false_eq_true, if_false] at h
  cases mirror with
  | false =>
    simp only [Bool.false_eq_true, if_false, Except.ok.injEq] at h
    subst h
    exact ⟨dot_between ha.1 hb.1 _, dot_between ha.1 hb.1 _, dot_between hd'.1 hc.1 _,
      dot_between hd'.1 hc.1 _⟩
  | true =>
    simp only [if_true] at h
    unfold mirrorVertices at h
    have htot : ∃ a', mirrorPoint g.vertices.a g.symmetry = .ok a' := by
      cases hm : mirrorPoint g.vertices.a g.symmetry with
      | ok a' => exact ⟨a', rfl⟩
      | error e =>
        exfalso
        unfold mirrorPoint at hm
        split_ifs at hm with h1 h2 h3
        simp only [Corners.mapE, mirrorPoint, if_neg h1, if_neg h2, if_neg h3] at h
        cases h
    obtain ⟨a', ka⟩ := htot
    obtain ⟨b', kb⟩ := mirror_total ka g.vertices.b
    obtain ⟨c', kc⟩ := mirror_total ka g.vertices.c
    obtain ⟨d', kd⟩ := mirror_total ka g.vertices.d
    simp only [Corners.mapE, mirrorPoint_affine _ ka kb, mirrorPoint_affine _ kd kc] at h
    have i1 := fun t => dot_between (ha.2 _ ka) (hb.2 _ kb) t
    have i2 := fun t => dot_between (hd'.2 _ kd) (hc.2 _ kc) t
    unfold orderMirrored at h
    split_ifs at h <;> cases h
    · exact ⟨i1 _, i1 _, i2 _, i2 _⟩
    · exact ⟨i1 _, i1 _, i2 _, i2 _⟩
    · exact ⟨i2 _, i2 _, i1 _, i1 _⟩

theorem subarea_in {g : GeoEnv ℝ} (hd : g.defField = none ∧ g.defFieldMirror = none)
    (hv : ∀ v ∈ [g.vertices.a, g.vertices.b, g.vertices.c, g.vertices.d],
      m.dot v = c ∧ ∀ v', mirrorPoint v g.symmetry = .ok v' → m.dot v' = c)
    {s : Strip ℝ} {q : Quad ℝ} {mirror : Bool} {r : Corners (V3 ℝ)}
    (h : subareaVertices g s q mirror = .ok r) : r.In m c := by
  unfold subareaVertices at h
  cases hs : s.absVertices g mirror with
  | error e => rw [hs] at h; cases h
  | ok sd =>
    rw [hs] at h
    obtain ⟨h1, h2, h3, h4⟩ := strip_in hd hv hs
    simp only at h
    split at h
    · cases h
    · cases h
      exact ⟨dot_between h1 h4 _, dot_between h2 h3 _, dot_between h2 h3 _, dot_between h1 h4 _⟩

theorem at_in {v : Corners (V3 ℝ)} (h : v.In m c) (s t : ℝ) : m.dot ((Coef.of v).at s t) = c := by
  obtain ⟨h1, h2, h3, h4⟩ := h
  simp only [Coef.of, Coef.at, V3.dot, V3.add_x, V3.add_y, V3.add_z, V3.smul_x, V3.smul_y, V3.smul_z,
    V3.sub_x, V3.sub_y, V3.sub_z] at *
  linear_combination (1 - s) * (1 - t) * h1 + s * (1 - t) * h2 + s * t * h3 + t * (1 - s) * h4

/-- A panel in the plane. -/
structure PanelPts.In (m : V3 ℝ) (c : ℝ) (g : PanelPts ℝ) : Prop where
  col : m.dot g.col = c
  normal : ∀ u, m.dot u = 0 → u.dot g.crossVec = 0
  v2 : m.dot g.v2 = c
  v3 : m.dot g.v3 = c
  mid : m.dot g.mid = c

theorem panel_in {v : Corners (V3 ℝ)} (h : v.In m c) (hm : m ≠ 0) (leg : V3 ℝ) (panS panC : ℤ)
    (i j : ℕ) : (panelPts (Coef.of v) leg panS panC i j).In m c := by
  set g := panelPts (Coef.of v) leg panS panC i j with hg
  have hp : m.dot g.p = c := at_in h _ _
  have hq : m.dot g.q = c := at_in h _ _
  have hr : m.dot g.r = c := at_in h _ _
  have hs : m.dot g.s = c := at_in h _ _
  have hc : m.dot g.col = c := by
    have : g.col = (1 / 8 : ℝ) • (g.p + g.q) + (3 / 8 : ℝ) • (g.r + g.s) := rfl
    rw [this]
    simp only [V3.dot, V3.add_x, V3.add_y, V3.add_z, V3.smul_x, V3.smul_y, V3.smul_z] at *
    linear_combination (1 / 8) * hp + (1 / 8) * hq + (3 / 8) * hr + (3 / 8) * hs
  have h2 : m.dot g.v2 = c := by
    have : g.v2 = (3 / 4 : ℝ) • g.p + (1 / 4 : ℝ) • g.s := rfl
    rw [this]
    simp only [V3.dot, V3.add_x, V3.add_y, V3.add_z, V3.smul_x, V3.smul_y, V3.smul_z] at *
    linear_combination (3 / 4) * hp + (1 / 4) * hs
  have h3 : m.dot g.v3 = c := by
    have : g.v3 = (3 / 4 : ℝ) • g.q + (1 / 4 : ℝ) • g.r := rfl
    rw [this]
    simp only [V3.dot, V3.add_x, V3.add_y, V3.add_z, V3.smul_x, V3.smul_y, V3.smul_z] at *
    linear_combination (3 / 4) * hq + (1 / 4) * hr
  have hmid : m.dot g.mid = c := by
    have : g.mid = (1 / 2 : ℝ) • (g.v2 + g.v3) := rfl
    rw [this]
    simp only [V3.dot, V3.add_x, V3.add_y, V3.add_z, V3.smul_x, V3.smul_y, V3.smul_z] at *
    linear_combination (1 / 2) * h2 + (1 / 2) * h3
  refine ⟨hc, fun u hu => volume_zero hm ?_ ?_ hu, h2, h3, hmid⟩
  · simp only [V3.dot, V3.smul_x, V3.smul_y, V3.smul_z, V3.sub_x, V3.sub_y, V3.sub_z] at *
    linear_combination hc - (1 / 2) * hp - (1 / 2) * hq
  · simp only [V3.dot, V3.smul_x, V3.smul_y, V3.smul_z, V3.sub_x, V3.sub_y, V3.sub_z] at *
    linear_combination hc - (3 / 4) * hr - (1 / 4) * hq

theorem latticeFrom_in (hm : m ≠ 0) (leg : V3 ℝ) : ∀ (l : List (SubInput ℝ)) (start : ℤ),
    (∀ u ∈ l, u.sym = 0 ∧ u.pts.In m c) → ∀ w ∈ latticeFrom leg start l, w.2.In m c
  | [], _, _, w, hw => by cases hw
  | u :: rest, start, h, w, hw => by
    unfold latticeFrom at hw
    have hu := h u (List.mem_cons_self ..)
    rw [hu.1] at hw
    simp only [gt_iff_lt, lt_self_iff_false, if_false, List.mem_append] at hw
    rcases hw with hw | hw
    · unfold passPanels at hw
      simp only [List.mem_flatMap, List.mem_map] at hw
      obtain ⟨i, -, j, -, rfl⟩ := hw
      exact panel_in hu.2 hm leg _ _ _ _
    · exact latticeFrom_in hm leg rest _ (fun u' hu' => h u' (List.mem_cons_of_mem _ hu')) w hw

theorem lastPanel_mem {l : List (ℤ × PanelPts ℝ)} {k : ℤ} {g : PanelPts ℝ}
    (h : lastPanel l k = some g) : ∃ w ∈ l, w.2 = g := by
  unfold lastPanel at h
  obtain ⟨w, hw, rfl⟩ := Option.map_eq_some_iff.1 h
  exact ⟨w, (List.mem_filter.1 (List.mem_of_getLast? hw)).1, rfl⟩

variable {env : LatticeEnv} {ac ac' : PAircraft ℝ}

theorem rotateEntry_flat (h : env.InPlane ac m c) {e : BookEntry} {n n' : ℤ → Option (V3 ℝ)}
    (hr : rotateEntry env ac' e n = .ok n') : n' = n := by
  unfold rotateEntry at hr
  cases hp : entryParts env ac' e with
  | none => rw [hp] at hr; cases hr
  | some p =>
    rw [hp] at hr
    simp only at hr
    have hcam : p.camber = env.camber e.path.wing e.path.seg := by
      unfold entryParts at hp
      split at hp
      · cases hp
      · split at hp
        · cases hp
        · split at hp
          · cases hp
          · split at hp
            · cases hp
            · cases hp; rfl
    cases h1 : hingeRotation env p e.mirror with
    | error x => rw [h1] at hr; cases hr
    | ok o =>
      have ho : o = none := by
        unfold hingeRotation at h1
        split at h1
        · cases h1; rfl
        · rename_i k hk
          split at h1
          · cases h1
          · split at h1
            · cases h1
            · split at h1
              · cases h1; rfl
              · rename_i d hd
                have : d = 0 := by
                  refine h.undeflected p.wing.uid k.uid d ?_
                  unfold sideDeflection at hd
                  split_ifs at hd
                  · exact .inr hd
                  · exact .inl hd
                rw [if_pos this] at h1
                cases h1; rfl
      subst ho
      rw [h1] at hr
      cases h2 : subareaVertices p.geo p.strip p.sub.quad e.mirror with
      | error x => rw [h2] at hr; cases hr
      | ok v =>
        rw [h2] at hr
        cases hr
        funext i
        split_ifs
        · have : camberRotation p v (e.stop - e.start).toNat (i - e.start).toNat = none := by
            unfold camberRotation
            simp only [hcam, h.uncambered]
            split
            · rfl
            · simp
          rw [this]
          rfl
        · rfl

theorem rotateAll_flat (h : env.InPlane ac m c) : ∀ (es : List BookEntry) (n n' : ℤ → Option (V3 ℝ)),
    rotateAll env ac' es n = .ok n' → n' = n
  | [], n, n', hr => by cases hr; rfl
  | e :: es, n, n', hr => by
    unfold rotateAll at hr
    cases h1 : rotateEntry env ac' e n with
    | error x => rw [h1] at hr; cases hr
    | ok n1 =>
      rw [h1] at hr
      rw [rotateAll_flat h es n1 n' hr, rotateEntry_flat h h1]

/-- The segments of the panelled aircraft are those of the aircraft. -/
theorem Panelled.segment {renv : RunEnv} (hp : Panelled renv ac ac') {i j : ℕ} {w' : PWing ℝ}
    {s' : PSegment ℝ} (hw : ac'.wings[i]? = some w') (hs : w'.segments[j]? = some s') :
    ∃ w s, ac.wings[i]? = some w ∧ w.segments[j]? = some s := by
  obtain ⟨ac1, h1, h2⟩ := hp
  have f2 := prePanelling_step h2
  unfold setAutopanels at h1
  cases h3 : mapE (PWing.setAutopanels renv.autoC renv.autoS) ac.wings with
  | error e => rw [h3] at h1; cases h1
  | ok ws =>
    rw [h3] at h1
    cases h1
    have f1 := mapE_ok h3
    have hi' : i < ac'.wings.length := (List.getElem?_eq_some_iff.1 hw).1
    have l2 := f2.length_eq
    have l1 := f1.length_eq
    simp only at l2
    have hi1 : i < ws.length := by omega
    have hi0 : i < ac.wings.length := by omega
    have e1 := f1.get hi0 hi1
    have e2 := f2.get (i := i) hi1 hi'
    have hw' : ac'.wings[i] = w' := (List.getElem?_eq_some_iff.1 hw).2
    simp only [List.get_eq_getElem] at e1 e2
    rw [hw'] at e2
    have k2 := e2.segs.length_eq
    have hj' : j < w'.segments.length := (List.getElem?_eq_some_iff.1 hs).1
    unfold PWing.setAutopanels at e1
    cases h4 : mapE (PSegment.setAutopanels ac.wings[i].span renv.autoC renv.autoS) ac.wings[i].segments with
    | error e => rw [h4] at e1; cases e1
    | ok segs =>
      rw [h4] at e1
      simp only [Except.ok.injEq] at e1
      have k1 := (mapE_ok h4).length_eq
      rw [← e1] at k2
      simp only at k2
      have hj : j < ac.wings[i].segments.length := by omega
      exact ⟨_, _, List.getElem?_eq_getElem hi0, List.getElem?_eq_getElem hj⟩

/-- The lattice of an aircraft in a plane. -/
theorem lattice_in {renv : RunEnv} (hp : Panelled renv ac ac') (h : renv.lat.InPlane ac m c) (hm : m ≠ 0)
    {doRot : Bool} {alpha beta : ℝ} {l : LatticeData}
    (hl : genLattice renv.lat doRot alpha beta ac' = .ok l) {k : ℕ} {p : Panel}
    (hk : l.panel k = some p) : m.dot p.col = c ∧ (∀ u, m.dot u = 0 → u.dot p.n = 0) ∧
      m.dot p.v2 = c ∧ m.dot p.v3 = c ∧ m.dot p.mid = c := by
  obtain ⟨cs, k1, k2, -, k4, k5, k6⟩ := genLattice_ok hl
  have hcs : ∀ v ∈ cs, v.In m c := by
    intro v hv
    obtain ⟨e, -, he⟩ := forall₂_mem_right (mapE_ok k2) hv
    unfold entryCorners at he
    cases hpa : entryParts renv.lat ac' e with
    | none => rw [hpa] at he; cases he
    | some q =>
      rw [hpa] at he
      simp only at he
      unfold entryParts at hpa
      cases hw : ac'.wings[e.path.wing]? with
      | none => rw [hw] at hpa; cases hpa
      | some w' =>
      rw [hw] at hpa
      simp only at hpa
      cases hs : w'.segments[e.path.seg]? with
      | none => rw [hs] at hpa; cases hpa
      | some s' =>
      rw [hs] at hpa
      simp only at hpa
      obtain ⟨w, s, j1, j2⟩ := hp.segment hw hs
      have hg : q.geo = renv.lat.geo e.path.wing e.path.seg := by
        split at hpa
        · cases hpa
        · split at hpa
          · cases hpa
          · cases hpa; rfl
      rw [hg] at he
      exact subarea_in (h.undeformed _ _) (h.corners _ _ w s j1 j2) he
  have hpts : ∀ k g, l.pts k = some g → g.In m c := by
    intro k g hg
    rw [k4] at hg
    obtain ⟨w, hw, rfl⟩ := lastPanel_mem hg
    refine latticeFrom_in hm _ _ _ ?_ w hw
    intro u hu
    unfold Book.inputsOf at hu
    rw [← List.map_uncurry_zip_eq_zipWith] at hu
    obtain ⟨x, hx, rfl⟩ := List.mem_map.1 hu
    exact ⟨rfl, hcs _ (List.of_mem_zip hx).1⟩
  have hn : l.normal = fun k => (l.pts k).bind PanelPts.finNormal := by
    cases doRot with
    | false => exact k5 rfl
    | true => exact rotateAll_flat h _ _ _ (k6 rfl)
  unfold LatticeData.panel LatticeData.panelAt at hk
  cases hg : l.pts (k : ℤ) with
  | none => rw [hg] at hk; cases hk
  | some g =>
    obtain ⟨i1, i2, i3, i4, i5⟩ := hpts _ _ hg
    rw [hn] at hk
    simp only [hg, Option.bind_some] at hk
    unfold PanelPts.finNormal at hk
    split_ifs at hk
    simp only [Option.some.injEq] at hk
    subst hk
    refine ⟨i1, fun u hu => ?_, i3, i4, i5⟩
    have := i2 u hu
    simp only [PanelPts.normal, V3.dot, V3.smul_x, V3.smul_y, V3.smul_z] at this ⊢
    linear_combination (1 / g.crossVec.norm) * this

end

/-! ## Results -/

/-- Without circulation there are no loads. -/
theorem still_results {n : ℕ} {eps : ℝ} {s : FlowState} {r : Refs} {P : Fin n → Panel} {R : Results n}
    (h : vlmResults eps s r P (fun _ => 0) = some R) :
    (∀ i, R.iw i = 0 ∧ R.f i = 0) ∧ R.ftot = 0 ∧ R.mtot = 0 ∧ R.wind = 0 ∧
      R.coeffs = vlmCoeffs s r 0 0 := by
  have hf : ∀ i, panelForce eps s r P (fun _ => 0) i = 0 := by
    intro i
    unfold panelForce
    simp only [mul_zero]
    rfl
  have hz : ∀ {α : Type} (l : List α) (f : α → V3 ℝ), (∀ i, f i = 0) →
      l.foldl (fun acc i => acc + f i) 0 = 0 := by
    intro α l f hf
    induction l with
    | nil => rfl
    | cons a l ih =>
      rw [List.foldl_cons, hf a]
      simpa using ih
  have hm : ∀ i, panelMoment eps s r P (fun _ => 0) i = 0 := by
    intro i
    unfold panelMoment
    rw [hf]
    refine V3.ext ?_ ?_ ?_ <;> simp [V3.cross]
  have hw : bodyToWind s 0 = 0 := by
    unfold bodyToWind
    refine V3.ext ?_ ?_ ?_ <;> simp
  unfold vlmResults at h
  split_ifs at h
  simp only [Option.some.injEq] at h
  subst h
  simp only [hz _ _ hf, hz _ _ hm, hw]
  refine ⟨fun i => ⟨hz _ _ fun j => ?_, hf i⟩, trivial, trivial, trivial, trivial⟩
  refine V3.ext ?_ ?_ ?_ <;> simp

/-- **C137** (analysis): if the undisturbed flow is along the surface at every collocation point, there is
no circulation, no force and no moment; the coefficients are zero. -/
theorem C137_tangential (env : RunEnv) (hd : Lapack env.dgesv) (ac ac' : PAircraft ℝ)
    (st : FlightSt ℝ) (out : RunOut) (h : standardRun env ac st = .ok out) (hp : Panelled env ac ac')
    (i : ℕ) (hi : i < st.num) (a : Analysis) (ha : a.Of env ac' st i)
    (ht : ∀ k, (a.s.onset env.refs.cg (a.P k).col).dot (a.P k).n = 0) :
    (∀ k, a.g k = 0 ∧ a.R.iw k = 0 ∧ a.R.f k = 0) ∧
    (∀ c ∈ loadNames, out.value c i = some (.fin 0)) ∧
    (env.refs.area ≠ 0 → env.refs.span ≠ 0 → env.refs.chord ≠ 0 →
      ∀ c ∈ coeffNames, out.value c i = some (.fin 0)) := by
  have hb : vlmBoundary a.s env.refs a.P = fun _ => 0 := by
    funext k
    unfold vlmBoundary
    rw [onset_eq]
    have := ht k
    simp only [V3.dot, V3.neg_x, V3.neg_y, V3.neg_z] at this ⊢
    linear_combination -this
  have hg : a.g = fun _ => 0 := by
    by_cases hu : IsUnit a.A.det
    · have h1 := ha.solved hu
      rw [hb] at h1
      unfold Solves at h1
      have h2 : Matrix.mulVec a.A a.g = Matrix.mulVec a.A 0 := by rw [h1, Matrix.mulVec_zero]; rfl
      have hinv : IsUnit a.A := (Matrix.isUnit_iff_isUnit_det _).2 hu
      exact Matrix.mulVec_injective_of_isUnit hinv h2
    · rw [ha.singular hu, hb]
  have hR := ha.results
  rw [hg] at hR
  obtain ⟨r1, r2, r3, r4, r5⟩ := still_results hR
  have hv := C93_values env hd ac ac' st out h hp i hi a ha
  refine ⟨fun k => ⟨by rw [hg], (r1 k).1, (r1 k).2⟩, ?_, ?_⟩
  · intro c hc
    simp only [loadNames, List.mem_cons, List.not_mem_nil, or_false] at hc
    simp only [runColumns, List.forall_mem_cons, r2, r3, r4] at hv
    obtain ⟨v1, v2, v3, v4, v5, v6, v7, v8, v9, -⟩ := hv
    rcases hc with rfl | rfl | rfl | rfl | rfl | rfl | rfl | rfl | rfl <;> assumption
  · intro hA hS hC c hc
    simp only [coeffNames, List.mem_cons, List.not_mem_nil, or_false] at hc
    have hq : (if dynPressure a.s = 0 then (1 : ℝ) else dynPressure a.s) ≠ 0 := by
      split_ifs with hq
      · exact one_ne_zero
      · exact hq
    have hw : bodyToWind a.s 0 = 0 := by
      unfold bodyToWind
      refine V3.ext ?_ ?_ ?_ <;> simp
    have hz : ∀ d : ℝ, d ≠ 0 → asFlt (cdiv 0 d) = .fin 0 := by
      intro d hd
      unfold cdiv
      rw [if_neg hd, zero_div]
      rfl
    have z1 := hz _ (mul_ne_zero hq hA)
    have z2 := hz _ (mul_ne_zero (mul_ne_zero hq hA) hS)
    have z3 := hz _ (mul_ne_zero (mul_ne_zero hq hA) hC)
    simp only [runColumns, List.forall_mem_cons, r5, vlmCoeffs, hw, V3.zero_x, V3.zero_y, V3.zero_z,
      z1, z2, z3] at hv
    obtain ⟨-, -, -, -, -, -, -, -, -, v1, v2, v3, v4, v5, v6, v7, v8, v9, -⟩ := hv
    rcases hc with rfl | rfl | rfl | rfl | rfl | rfl | rfl | rfl | rfl <;> assumption

/-- **C137** (run): an aircraft all of whose lifting surfaces lie in one plane has no loads in a flow along
that plane, whatever the number of panels and the wings' outlines, and even if the system of equations is
singular. -/
theorem C137_in_plane (env : RunEnv) (hd : Lapack env.dgesv) (ac : PAircraft ℝ) (m : V3 ℝ) (c : ℝ)
    (hm : m ≠ 0) (hF : env.lat.InPlane ac m c) (st : FlightSt ℝ) (out : RunOut)
    (h : standardRun env ac st = .ok out) (i : ℕ) (hi : i < st.num) (s : FlowState) (hs : FlowAt st i s)
    (ht : ∀ x, m.dot x = c → m.dot (s.onset env.refs.cg x) = 0) :
    (∀ c ∈ loadNames, out.value c i = some (.fin 0)) ∧
    (env.refs.area ≠ 0 → env.refs.span ≠ 0 → env.refs.chord ≠ 0 →
      ∀ c ∈ coeffNames, out.value c i = some (.fin 0)) := by
  obtain ⟨-, ac', hp, han⟩ := (C93_finishes_iff env hd ac st).1 ⟨out, h⟩
  obtain ⟨a, ha⟩ := han i hi
  have e : a.s = s := by
    obtain ⟨h1, h2, h3, h4, h5, h6, h7⟩ := hs
    have k1 := ha.airspeed
    have k2 := ha.density
    have k3 := ha.alpha
    have k4 := ha.beta
    have k5 := ha.rateP
    have k6 := ha.rateQ
    have k7 := ha.rateR
    rw [h1] at k1
    rw [h2] at k2
    rw [h3] at k3
    rw [h4] at k4
    rw [h5] at k5
    rw [h6] at k6
    rw [h7] at k7
    simp only [Except.ok.injEq, Flt.fin.injEq] at k1 k2 k3 k4 k5 k6 k7
    cases hs' : a.s
    cases s
    rw [hs'] at k1 k2 k3 k4 k5 k6 k7
    simp only at k1 k2 k3 k4 k5 k6 k7
    subst k1 k2 k3 k4 k5 k6 k7
    rfl
  refine (C137_tangential env hd ac ac' st out h hp i hi a ha fun k => ?_).2
  obtain ⟨h1, h2, -⟩ := lattice_in hp hF hm ha.lattice (ha.panels k)
  rw [e]
  exact h2 _ (ht _ h1)

/-! ## Projects -/

/-- The aircraft file describes lifting surfaces in the plane `m · x = c` (with their mirror images), no
control is deflected and the airfoils have no camber. -/
structure FileAircraft.InPlane (W : World) (root : String) (f : FileAircraft) (m : V3 ℝ) (c : ℝ) : Prop where
  corners : ∀ w ∈ f.wings, ∀ s ∈ w.segments, ∀ v, AllGiven s.vertices v →
    ∀ p ∈ [v.a, v.b, v.c, v.d], m.dot p = c ∧ ∀ p', mirrorPoint p w.symmetry = .ok p' → m.dot p' = c
  undeflected : ∀ w ∈ f.wings, ∀ k ∈ w.controls, k.data.deflection = .num (.fin 0) ∧
    (k.data.deflectionMirror = .none ∨ k.data.deflectionMirror = .num (.fin 0))
  uncambered : ∀ w ∈ f.wings, ∀ s ∈ w.segments, ∀ inner outer, AirfoilAt root s.airfoilInner inner →
    AirfoilAt root s.airfoilOuter outer → ∀ eta xsi, W.camber inner outer eta xsi = 0

theorem loaded_aircraft {W : World} {P : Project} {d : PyDict} {a b : String}
    (hn : NativeProject W P d a b) {x : Loaded} (hx : loadProject W P = .ok x) {f : FileAircraft}
    (hf : P.aircraft a = some f) : loadAircraft P.root W.airfoilOk f = .ok x.aircraft := by
  cases hs : loadSettings W.suffix (.dict d) with
  | error e =>
    unfold loadProject at hx
    rw [hn.settings, hs] at hx
    cases hx
  | ok s =>
  obtain ⟨-, -, -, -, e⟩ := loadProject_native hn hs
  rw [e, hf] at hx
  simp only at hx
  cases h2 : loadAircraft P.root W.airfoilOk f with
  | error e => rw [h2] at hx; cases hx
  | ok ac =>
  rw [h2] at hx
  simp only at hx
  cases h3 : P.state b with
  | none => rw [h3] at hx; cases hx
  | some sd =>
  rw [h3] at hx
  simp only at hx
  cases h4 : updateFromDict W.atm Store.fresh sd with
  | error e => rw [h4] at hx; cases hx
  | ok st =>
  rw [h4] at hx
  simp only at hx
  cases h5 : loadDeformationFrom P s ac with
  | error e => rw [h5] at hx; cases hx
  | ok defs =>
  rw [h5] at hx
  cases hx
  rfl

theorem file_in_plane {W : World} {P : Project} {d : PyDict} {a b : String}
    (hn : NativeProject W P d a b) {x : Loaded} (hx : loadProject W P = .ok x) {f : FileAircraft}
    (hf : P.aircraft a = some f) (hdef : IfGiven d "deformation" PyVal.IsEmpty) {m : V3 ℝ} {c : ℝ}
    (h : f.InPlane W P.root m c) : (x.env W P).lat.InPlane x.aircraft.toP m c := by
  have hl := loaded_aircraft hn hx hf
  obtain ⟨f', sd, h1, -, -, -, -, hr⟩ := loaded_reads hn hx
  rw [hf] at h1
  cases h1
  obtain ⟨-, -, hw, -⟩ := C92_content _ _ _ _ hl
  have hseg : ∀ (i j : ℕ) (w' : LoadedWing) (s' : LoadedSegment), x.aircraft.wings[i]? = some w' →
      w'.segments[j]? = some s' → ∃ w s, f.wings[i]? = some w ∧ w.segments[j]? = some s ∧
        SegmentFrom P.root s s' := by
    intro i j w' s' hi hj
    have li : i < x.aircraft.wings.length := (List.getElem?_eq_some_iff.1 hi).1
    have l1 := hw.length_eq
    have k1 := hw.get (i := i) (by omega) li
    have e1 : x.aircraft.wings[i] = w' := (List.getElem?_eq_some_iff.1 hi).2
    simp only [List.get_eq_getElem, e1] at k1
    have lj : j < w'.segments.length := (List.getElem?_eq_some_iff.1 hj).1
    have l2 := k1.segments.length_eq
    have k2 := k1.segments.get (i := j) (by omega) lj
    have e2 : w'.segments[j] = s' := (List.getElem?_eq_some_iff.1 hj).2
    simp only [List.get_eq_getElem, e2] at k2
    exact ⟨_, _, List.getElem?_eq_getElem (by omega), List.getElem?_eq_getElem (by omega), k2⟩
  refine ⟨?_, hr.undeformed hdef, ?_, ?_⟩
  · intro i j w s hi hj
    have hi' : (x.aircraft.wings.map LoadedWing.toP)[i]? = some w := hi
    rw [List.getElem?_map] at hi'
    obtain ⟨w0, k0, rfl⟩ := Option.map_eq_some_iff.1 hi'
    have hj' : (w0.segments.map LoadedSegment.toP)[j]? = some s := hj
    rw [List.getElem?_map] at hj'
    obtain ⟨s0, k1, rfl⟩ := Option.map_eq_some_iff.1 hj'
    obtain ⟨w, s, q1, q2, -⟩ := hseg i j w0 s0 k0 k1
    obtain ⟨g1, g2, -⟩ := hr.geometry i w q1 j s q2
    rw [g2]
    exact h.corners w (List.mem_of_getElem? q1) s (List.mem_of_getElem? q2) _ g1
  · intro w k y hy
    have hy' : (x.aircraft.deflection w k).1 = some y ∨ (x.aircraft.deflection w k).2 = some y := hy
    unfold LoadedAircraft.deflection at hy'
    split at hy'
    · simp at hy'
    · rename_i w' hw'
      split at hy'
      · simp at hy'
      · rename_i k' hk'
        obtain ⟨e, he, hwf⟩ := forall₂_mem_right hw (List.mem_of_find?_eq_some hw')
        obtain ⟨k0, hk0, -, hk2⟩ := forall₂_mem_right hwf.controls (List.mem_of_find?_eq_some hk')
        obtain ⟨d1, d2⟩ := h.undeflected e he k0 hk0
        rw [hk2] at hy'
        unfold ControlDef.completed at hy'
        simp only [d1, Val.angle, Option.some.injEq] at hy'
        rcases hy' with hy' | hy'
        · exact hy'.symm
        · rcases d2 with d2 | d2
          · simp only [d2, true_and] at hy'
            split_ifs at hy' with hsym
            simp only [Option.some.injEq] at hy'
            exact hy'.symm
          · simp only [d2, reduceCtorEq, false_and, if_false, Option.some.injEq] at hy'
            exact hy'.symm
  · intro i j eta xsi
    show (match x.aircraft.wings[i]?.bind fun w => w.segments[j]? with
      | some s => W.camber s.airfoilInner s.airfoilOuter eta xsi
      | none => 0) = (0 : ℝ)
    cases hi : x.aircraft.wings[i]? with
    | none => rfl
    | some w' =>
      simp only [Option.bind_some]
      cases hj : w'.segments[j]? with
      | none => rfl
      | some s' =>
        obtain ⟨w, s, q1, q2, q3⟩ := hseg i j w' s' hi hj
        exact h.uncambered w (List.mem_of_getElem? q1) s (List.mem_of_getElem? q2) _ _ q3.inner q3.outer
          eta xsi

/-- **C137** (project): if the aircraft file describes flat lifting surfaces in one plane and the flow of a
flight state is along this plane, all its loads and coefficients are zero. -/
theorem C137_project (W : World) (hW : Lapack W.dgesv) (P : Project) (d : PyDict) (a b : String)
    (hn : NativeProject W P d a b) (hdef : IfGiven d "deformation" PyVal.IsEmpty) (f : FileAircraft)
    (hf : P.aircraft a = some f) (m : V3 ℝ) (c : ℝ) (hm : m ≠ 0) (hF : f.InPlane W P.root m c)
    (out : RunOut) (h : runProject W P = .ok out) (x : Loaded) (hx : loadProject W P = .ok x) (i : ℕ)
    (hi : i < x.state.num) (s : FlowState) (hs : FlowAt x.state i s)
    (ht : ∀ p, m.dot p = c → m.dot (s.onset f.refs.gcenter p) = 0) :
    ∀ c ∈ loadNames ++ coeffNames, out.value c i = some (.fin 0) := by
  have hl := loaded_aircraft hn hx hf
  have hok := (C92_accepted_iff _ _ _).1 ⟨_, hl⟩
  have hrefs := (C92_content _ _ _ _ hl).2.1
  unfold runProject at h
  rw [hx] at h
  simp only at h
  have e : (x.env W P).refs = ⟨f.refs.gcenter, f.refs.rcenter, f.refs.area, f.refs.span, f.refs.chord⟩ := by
    show x.aircraft.refs.toRefs = _
    rw [hrefs]
    rfl
  obtain ⟨k1, k2⟩ := C137_in_plane (x.env W P) hW x.aircraft.toP m c hm
    (file_in_plane hn hx hf hdef hF) x.state out h i hi s hs (by rw [e]; exact ht)
  have k3 := k2 (by rw [e]; exact hok.area.ne') (by rw [e]; exact hok.span.ne')
    (by rw [e]; exact hok.chord.ne')
  intro c hc
  rcases List.mem_append.1 hc with hc | hc
  · exact k1 c hc
  · exact k3 c hc

/-- Zeros in the state file are zeros in the flight states. -/
theorem zero_entry {atm : Atm ℝ} {sd : List (String × Arg ℝ)} {st : FlightSt ℝ} (F : Final atm sd st)
    {p : String} (h1 : p ∈ stateAllParams) (h2 : p ≠ "airspeed") (h3 : p ≠ "density")
    (hs : ∀ l, (p, l) ∈ sd → ∀ v ∈ l.toList, v = .num (.fin 0)) {i : ℕ} {y : ℝ}
    (hy : st.aero.entry p i = .ok (.fin y)) : y = 0 := by
  obtain ⟨o1, o2⟩ := F.other p h1 h2 h3
  unfold Store.entry at hy
  by_cases hex : ∃ l, Has sd p l
  · obtain ⟨l, hl⟩ := hex
    rw [o1 l hl] at hy
    simp only at hy
    obtain ⟨q, q1, rfl⟩ := hl
    rw [List.getElem?_map] at hy
    cases hg : q.toList[i]? with
    | none => rw [hg] at hy; cases hy
    | some v =>
      rw [hg] at hy
      have hv := hs q q1 v (List.mem_of_getElem? hg)
      subst hv
      simp only [Option.map_some, Except.ok.injEq] at hy
      have : (Val.num (Flt.fin (0 : ℝ))).conv.flt = .fin 0 := rfl
      rw [this] at hy
      exact (Flt.fin.inj hy).symm
  · rw [o2 (fun l hl => hex ⟨l, hl⟩)] at hy
    cases hy

/-- Corners at the same height are in a horizontal plane, and so are the mirror images. -/
theorem corners_level {f : FileAircraft} {z : ℝ}
    (hz : ∀ w ∈ f.wings, (w.symmetry = 1 → z = 0) ∧ ∀ s ∈ w.segments, ∀ v, AllGiven s.vertices v →
      v.a.z = z ∧ v.b.z = z ∧ v.c.z = z ∧ v.d.z = z) :
    ∀ w ∈ f.wings, ∀ s ∈ w.segments, ∀ v, AllGiven s.vertices v → ∀ p ∈ [v.a, v.b, v.c, v.d],
      (⟨0, 0, 1⟩ : V3 ℝ).dot p = z ∧
      ∀ p', mirrorPoint p w.symmetry = .ok p' → (⟨0, 0, 1⟩ : V3 ℝ).dot p' = z := by
  intro w hw s hs' v hv p hp
  obtain ⟨q1, q2⟩ := hz w hw
  obtain ⟨z1, z2, z3, z4⟩ := q2 s hs' v hv
  have hp' : p.z = z := by
    simp only [List.mem_cons, List.not_mem_nil, or_false] at hp
    rcases hp with rfl | rfl | rfl | rfl <;> assumption
  refine ⟨by simp [V3.dot, hp'], fun p' hm => ?_⟩
  unfold mirrorPoint at hm
  split_ifs at hm with hs1 hs2 hs3 <;> cases hm
  · simp [V3.dot, hp', q1 hs1]
  · simp [V3.dot, hp']
  · simp [V3.dot, hp']

/-- **C137** (project, level flight): flat wings in a horizontal plane at zero angle of attack, without roll
and pitch rate, carry no loads at all, whatever airspeed, density, sideslip angle and yaw rate. -/
theorem C137_level (W : World) (hW : Lapack W.dgesv) (P : Project) (d : PyDict) (a b : String)
    (hn : NativeProject W P d a b) (hdef : IfGiven d "deformation" PyVal.IsEmpty) (f : FileAircraft)
    (hf : P.aircraft a = some f) (z : ℝ)
    (hz : ∀ w ∈ f.wings, (w.symmetry = 1 → z = 0) ∧ ∀ s ∈ w.segments, ∀ v, AllGiven s.vertices v →
      v.a.z = z ∧ v.b.z = z ∧ v.c.z = z ∧ v.d.z = z)
    (hk : ∀ w ∈ f.wings, ∀ k ∈ w.controls, k.data.deflection = .num (.fin 0) ∧
      (k.data.deflectionMirror = .none ∨ k.data.deflectionMirror = .num (.fin 0)))
    (hc : ∀ w ∈ f.wings, ∀ s ∈ w.segments, ∀ inner outer, AirfoilAt P.root s.airfoilInner inner →
      AirfoilAt P.root s.airfoilOuter outer → ∀ eta xsi, W.camber inner outer eta xsi = 0)
    (sd : List (String × Arg ℝ)) (hsd : P.state b = some sd) (hnd : (sd.map Prod.fst).Nodup)
    (hs : ∀ p ∈ ["alpha", "rate_P", "rate_Q"], ∀ l, (p, l) ∈ sd → ∀ v ∈ l.toList, v = .num (.fin 0))
    (out : RunOut) (h : runProject W P = .ok out) :
    ∃ st, updateFromDict W.atm Store.fresh sd = .ok st ∧ ∀ i < st.num,
      ∀ c ∈ loadNames ++ coeffNames, out.value c i = some (.fin 0) := by
  have h' := h
  unfold runProject at h'
  cases hx : loadProject W P with
  | error e => rw [hx] at h'; cases h'
  | ok x =>
  rw [hx] at h'
  simp only at h'
  obtain ⟨f', sd', h1, h2, -, -, h5, -⟩ := loaded_reads hn hx
  rw [hf] at h1
  cases h1
  rw [hsd] at h2
  cases h2
  obtain ⟨hacc, hfin⟩ := accepted angle_limits W.atm sd hnd
  obtain ⟨-, F⟩ := hfin _ h5
  obtain ⟨-, ac', hp, han⟩ := (C93_finishes_iff _ hW _ _).1 ⟨out, h'⟩
  refine ⟨x.state, h5, fun i hi => ?_⟩
  obtain ⟨an, ha⟩ := han i hi
  have hzero : ∀ p ∈ ["alpha", "rate_P", "rate_Q"], ∀ y, x.state.aero.entry p i = .ok (.fin y) →
      y = 0 := by
    intro p hp y hy
    have hall : p ∈ stateAllParams ∧ p ≠ "airspeed" ∧ p ≠ "density" := by
      simp only [List.mem_cons, List.not_mem_nil, or_false] at hp
      rcases hp with rfl | rfl | rfl <;> decide
    exact zero_entry F hall.1 hall.2.1 hall.2.2 (hs p hp) hy
  have e1 := hzero _ (by simp) _ ha.alpha
  have e2 := hzero _ (by simp) _ ha.rateP
  have e3 := hzero _ (by simp) _ ha.rateQ
  refine C137_project W hW P d a b hn hdef f hf ⟨0, 0, 1⟩ z ?_ ⟨corners_level hz, hk, hc⟩ out h x hx i hi an.s
    ⟨ha.airspeed, ha.density, ha.alpha, ha.beta, ha.rateP, ha.rateQ, ha.rateR⟩ ?_
  · intro h0
    have := congrArg V3.z h0
    simp at this
  · intro p _
    simp [V3.dot, FlowState.onset, V3.cross, e1, e2, e3]

/-! ## Examples -/

/-- The project with the flat wing, in level flight with sideslip angle zero. -/
noncomputable def levelProject : Project :=
  { exampleProject rectFile with
    state := fun b => if b = "cruise.json" then some (oneState 10 1 0 0) else none }

theorem level_native :
    NativeProject exampleWorld levelProject exampleSettings "plane.json" "cruise.json" :=
  ⟨rfl, by decide, by simp [exampleSettings], rfl, by simp [exampleSettings], by
    show (if "cruise.json" = "__cpacs" then "__CPACS" else "cruise.json") ≠ "__CPACS"
    decide⟩

theorem level_ok : ProjectOk exampleWorld levelProject exampleSettings "plane.json" "cruise.json" rectFile
    (oneState 10 1 0 0) where
  native := level_native
  settings := example_settings
  panelsC := by simp [IfGiven, exampleSettings]
  panelsS := by simp [IfGiven, exampleSettings]
  aircraft := rfl
  file := rectFile_ok
  layout := rectFile_layout
  segment := ⟨_, List.mem_singleton.2 rfl, by simp⟩
  state := rfl
  states := ⟨oneState_nodup _ _ _ _, oneState_acceptable _ _ _ _ _, by simp [oneState],
    _, List.mem_cons_self .., by simp [Arg.toList]⟩
  deformation := by simp [DeformationOk, IfGiven, exampleSettings]

theorem level_finishes : ∃ out, runProject exampleWorld levelProject = .ok out := by
  obtain ⟨x, hx, -, -, hst⟩ := level_ok.load
  obtain ⟨f, sd, h1, h2, -, -, h5, hr⟩ := loaded_reads level_native hx
  have h1' : some rectFile = some f := h1
  cases h1'
  obtain ⟨w, hw, hwr⟩ := forall₂_singleton_left hr.wings
  obtain ⟨s, hs, hsr⟩ := forall₂_singleton_left hwr.segments
  have hstrips : s.strips = initStrips := by
    have hw' : x.aircraft.wings.map LoadedWing.toP = [w] := hw
    have : w ∈ x.aircraft.wings.map LoadedWing.toP := by rw [hw']; simp
    obtain ⟨w0, -, rfl⟩ := List.mem_map.1 this
    have : s ∈ w0.segments.map LoadedSegment.toP := by
      have hs' : w0.segments.map LoadedSegment.toP = [s] := hs
      rw [hs']; simp
    obtain ⟨s0, -, rfl⟩ := List.mem_map.1 this
    rfl
  have hac : x.aircraft.toP = onePanelOf s.span s.interp s.dist := by
    have e1 : x.aircraft.toP = ⟨[w]⟩ := by
      rw [← hw]
    have e2 : w = ⟨"W", 2, [s], []⟩ := by
      have a1 := hwr.uid
      have a2 := hwr.symmetry
      have a3 := hwr.controls
      cases w
      simp only at a1 a2 a3 hs
      subst a1 a2 a3 hs
      rfl
    have e3 : s = ⟨"S", s.span, some 1, some 1, s.interp, s.dist, initStrips⟩ := by
      have a1 := hsr.uid
      have a2 := hsr.numC
      have a3 := hsr.numS
      cases s
      simp only at a1 a2 a3 hstrips
      subst a1 a2 a3 hstrips
      rfl
    rw [e1, e2]
    unfold onePanelOf
    rw [← e3]
  obtain ⟨n1, q1, q2, q3, q4, q5, q6, q7⟩ := oneState_entries hst
  obtain ⟨g1, g2, -⟩ := hr.geometry 0 _ rfl 0 _ rfl
  obtain ⟨u1, u2⟩ := hr.undeformed (by simp [IfGiven, exampleSettings]) 0 0
  have hgeo : (x.env exampleWorld levelProject).lat.geo 0 0 = flatGeo := by
    have hv := noSpan_given g1 (show AllGiven _ flatGeo.vertices from ⟨rfl, rfl, rfl, rfl⟩)
    generalize (x.env exampleWorld levelProject).lat.geo 0 0 = g at *
    cases g
    simp only at hv g2 u1 u2
    subst hv g2 u1 u2
    rfl
  have heps : 0 < (x.env exampleWorld levelProject).eps := by
    obtain ⟨y, hy, -, h0⟩ := hr.epsilon
    rw [hy, h0 (by simp [exampleSettings])]
    norm_num
  obtain ⟨out, hout⟩ := onePanel_finishes (env := x.env exampleWorld levelProject)
    exactDgesv_lapack heps (hr.rotate.2 (by simp [exampleSettings])) hgeo (by
      intro m k eta xsi
      show (match x.aircraft.wings[m]?.bind fun w => w.segments[k]? with
        | some s => exampleWorld.camber s.airfoilInner s.airfoilOuter eta xsi
        | none => 0) = (0 : ℝ)
      split <;> rfl) s.span s.interp s.dist (st := x.state) (by rw [n1]; norm_num)
    (fun _ => ⟨10, 1, 0, 0, 0, 0, 0⟩) (by
      intro i hi
      obtain rfl : i = 0 := by omega
      exact ⟨rfl, q1, q2, q3, q4, q5, q6, q7⟩)
  refine ⟨out, ?_⟩
  unfold runProject
  rw [hx]
  simp only
  rw [hac]
  exact hout

/-- Example for C137: the rectangular wing in level flight; the run finishes and there is no lift. -/
example : ∃ out, runProject exampleWorld levelProject = .ok out ∧ out.value "FL" 0 = some (.fin 0) ∧
    out.value "Cm" 0 = some (.fin 0) := by
  obtain ⟨out, h⟩ := level_finishes
  obtain ⟨st, h1, h2⟩ := C137_level exampleWorld exactDgesv_lapack levelProject exampleSettings
    "plane.json" "cruise.json" level_native (by simp [IfGiven, exampleSettings]) rectFile rfl 0 (by
      intro w hw
      simp only [rectFile, List.mem_singleton] at hw
      subst hw
      refine ⟨by norm_num, fun s hs v hv => ?_⟩
      simp only [List.mem_singleton] at hs
      subst hs
      rw [noSpan_given hv (show AllGiven _ flatGeo.vertices from ⟨rfl, rfl, rfl, rfl⟩)]
      exact ⟨rfl, rfl, rfl, rfl⟩) (by
      intro w hw k hk
      simp only [rectFile, List.mem_singleton] at hw
      subst hw
      cases hk) (fun _ _ _ _ _ _ _ _ _ _ => rfl) _ rfl (oneState_nodup _ _ _ _) (by
      intro p hp l hl v hv
      simp only [List.mem_cons, List.not_mem_nil, or_false] at hp
      rcases hp with rfl | rfl | rfl <;>
      · simp only [oneState, List.mem_cons, Prod.mk.injEq, List.not_mem_nil, or_false, String.reduceEq,
          false_and, or_self, false_or, true_and] at hl
        subst hl
        simpa [Arg.toList] using hv) out h
  obtain ⟨n1, -⟩ := oneState_entries h1
  exact ⟨out, h, h2 0 (by omega) "FL" (by simp [loadNames]), h2 0 (by omega) "Cm" (by simp [coeffNames])⟩

end Verif
