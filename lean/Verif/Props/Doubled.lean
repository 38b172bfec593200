import Verif.Props.SymmetricFiles
import Verif.Props.NativeProject
import Verif.Props.ProgramExamples
import Mathlib.LinearAlgebra.Matrix.ToLinearEquiv

/-!
# Property C145: surfaces that coincide with their own mirror image
-/

set_option linter.unnecessarySeqFocus false

namespace Verif

open V3

/-! ## Coincident vortices -/

/-- The horseshoe vortices of two panels coincide, with the same or the opposite sense. -/
def Panel.Coincides (g h : Panel) : Prop :=
  (h.v1 = g.v1 ∧ h.v2 = g.v2 ∧ h.v3 = g.v3 ∧ h.v4 = g.v4) ∨
  (h.v1 = g.v4 ∧ h.v2 = g.v3 ∧ h.v3 = g.v2 ∧ h.v4 = g.v1)

theorem kernel_reversed (eps : ℝ) (x a b : V3 ℝ) : kernel eps x b a = (-1 : ℝ) • kernel eps x a b := by
  unfold kernel kernelDen
  have e1 : (x - b).dot (x - a) + (x - b).norm * (x - a).norm * (1 + eps) =
      (x - a).dot (x - b) + (x - a).norm * (x - b).norm * (1 + eps) := by
    unfold V3.dot
    ring
  simp only [e1]
  generalize (x - a).dot (x - b) + (x - a).norm * (x - b).norm * (1 + eps) = D
  generalize (x - a).norm = m
  generalize (x - b).norm = n
  generalize x - a = u
  generalize x - b = v
  ext <;> simp [V3.cross] <;> ring

theorem horseshoe_coincides (eps : ℝ) {g h : Panel} (hc : g.Coincides h) :
    ∃ s : ℝ, ∀ x, horseshoe eps x h = s • horseshoe eps x g := by
  rcases hc with ⟨h1, h2, h3, h4⟩ | ⟨h1, h2, h3, h4⟩
  · refine ⟨1, fun x => ?_⟩
    unfold horseshoe
    rw [h1, h2, h3, h4]
    ext <;> simp
  · refine ⟨-1, fun x => ?_⟩
    unfold horseshoe
    rw [h1, h2, h3, h4, kernel_reversed eps x g.v3 g.v4, kernel_reversed eps x g.v2 g.v3,
      kernel_reversed eps x g.v1 g.v2]
    ext <;> simp <;> ring

/-- Two panels with coincident vortices make the matrix singular. -/
theorem coincident_singular {n : ℕ} {eps : ℝ} {P : Fin n → Panel} {A : Matrix (Fin n) (Fin n) ℝ}
    (hA : vlmDownwash eps P = some A) {i j : Fin n} (hij : i ≠ j) (hc : (P i).Coincides (P j)) :
    A.det = 0 := by
  unfold vlmDownwash at hA
  split_ifs at hA with h0
  have hA' : ∀ p q, A p q = (horseshoe eps (P p).col (P q)).dot (P p).n := fun p q => by
    rw [← Option.some.inj hA]
  clear hA
  obtain ⟨s, hs⟩ := horseshoe_coincides eps hc
  rw [← Matrix.exists_mulVec_eq_zero_iff]
  refine ⟨Pi.single j 1 + Pi.single i (-s), ?_, ?_⟩
  · intro h
    have := congrFun h j
    simp [Ne.symm hij] at this
  · rw [Matrix.mulVec_add]
    funext k
    simp only [Pi.add_apply, Matrix.mulVec_single, Pi.zero_apply]
    simp [hA', hs, V3.dot]
    ring

/-! ## A subarea in the plane of symmetry -/

theorem subTuple_of_path {ac : PAircraft ℝ} {t t' : SubTuple ℝ} (h : t ∈ allSubareas ac)
    (h' : t' ∈ allSubareas ac) (e : SubTuple.path t = SubTuple.path t') : t = t' := by
  obtain ⟨⟨i, a⟩, ⟨j, d⟩, ⟨k, s⟩, m, w⟩ := t
  obtain ⟨⟨i', a'⟩, ⟨j', d'⟩, ⟨k', s'⟩, m', w'⟩ := t'
  obtain ⟨x1, x2, x3, x4⟩ := ((C60_all_subareas ac).1 m k j i w s d a).1 h
  obtain ⟨y1, y2, y3, y4⟩ := ((C60_all_subareas ac).1 m' k' j' i' w' s' d' a').1 h'
  simp only [SubTuple.path, SubPath.mk.injEq] at e
  obtain ⟨rfl, rfl, rfl, rfl⟩ := e
  rw [x1] at y1
  cases y1
  rw [x2] at y2
  cases y2
  rw [x3] at y3
  cases y3
  rw [x4] at y4
  cases y4
  rfl

/-- The panels of a subarea and of the same subarea taken from the other side. -/
theorem panelPts_swapped (v : Corners (V3 ℝ)) (leg : V3 ℝ) (n : ℤ) (k : ℕ) :
    (panelPts (Coef.of v) leg 1 n k 0).toPanel.Coincides
      (panelPts (Coef.of ⟨v.b, v.a, v.d, v.c⟩) leg 1 n k 0).toPanel := by
  refine .inr ⟨?_, ?_, ?_, ?_⟩ <;> simp only [PanelPts.toPanel, panelPts, Coef.of, Coef.at] <;>
    ext <;> vsimp <;> simp <;> ring

/-- A subarea of a wing with symmetry 2 whose corners are in the plane of symmetry: among the panels there
are two with coincident vortices. -/
theorem inPlane_coincides {ac ac' : PAircraft ℝ} (hu : ac.Unpanelled) (hp : prePanelling ac = .ok ac')
    (hn : ac.NumC 1) {env : LatticeEnv} {doRot : Bool} {alpha beta : ℝ} {l : LatticeData}
    (hl : genLattice env doRot alpha beta ac' = .ok l) {P : Fin l.num → Panel}
    (hP : ∀ k : Fin l.num, l.panel k = some (P k)) {t : SubTuple ℝ} (ht : t ∈ allSubareas ac')
    (h1 : t.2.2.2.2.symmetry = 2) (h2 : (env.geo t.2.2.2.1 t.2.2.1.1).symmetry = 2)
    (h3 : (env.geo t.2.2.2.1 t.2.2.1.1).SymmetricDef)
    (h4 : ∀ v, subareaVertices (env.geo t.2.2.2.1 t.2.2.1.1) t.2.1.2 t.1.2.quad false = .ok v →
      v.a.y = 0 ∧ v.b.y = 0 ∧ v.c.y = 0 ∧ v.d.y = 0) :
    ∃ i j, i ≠ j ∧ (P i).Coincides (P j) := by
  have hn0 : ac.NumC 0 := fun w hw => ⟨fun s hs => by
      obtain ⟨n, e, h⟩ := (hn w hw).1 s hs
      exact ⟨n, e, by omega⟩, fun c hc => by
      obtain ⟨n, e, h⟩ := (hn w hw).2 c hc
      exact ⟨n, e, by omega⟩⟩
  obtain ⟨g3, h0, -, hE, -⟩ := lattice_entry hu hp hn0 hl
  obtain ⟨b, gs, hb, q2, q1, -, -, -, q6, -⟩ := genBook_facts hu hp (by norm_num) hn
  obtain ⟨-, k1, -⟩ := genLattice_ok hl
  rw [k1] at hb
  cases hb
  obtain ⟨b1, b2⟩ := g3.bounds h0
  obtain ⟨-, -, r3, -⟩ := g3.ranges h0
  obtain ⟨g, hg, e, m1, -, m3, -, hm⟩ := forall₂_mem_left q2 ht
  rcases hm with ⟨ms, -⟩ | ⟨-, e', rfl, n1, -, n3, n4, n5⟩
  · rw [h1] at ms
    cases ms
  have he : e ∈ l.book.entries := by
    rw [← q1]
    exact List.mem_flatten.2 ⟨_, hg, by simp⟩
  have he' : e' ∈ l.book.entries := by
    rw [← q1]
    exact List.mem_flatten.2 ⟨_, hg, by simp⟩
  have hone := (q6 e he).2 le_rfl
  -- the first panel of either entry
  have fact : ∀ c ∈ l.book.entries, 1 ≤ c.numC → c.path = SubTuple.path t → ∃ v,
      subareaVertices (env.geo t.2.2.2.1 t.2.2.1.1) t.2.1.2 t.1.2.quad c.mirror = .ok v ∧
      ∃ k : Fin l.num, (k : ℤ) = c.start ∧ ∃ m,
        P k = { (panelPts (Coef.of v) (trailLeg alpha beta) 1 c.numC 0 0).toPanel with n := m } := by
    intro c hc h1c hpath
    obtain ⟨t', ht', hpath', -, v, hv, hk⟩ := hE c hc
    obtain rfl := subTuple_of_path ht ht' (hpath.symm.trans hpath')
    refine ⟨v, hv, ?_⟩
    have hb := b2 c hc
    have hr := r3 c hc
    have hlt : c.start.toNat < l.num := by unfold LatticeData.num; omega
    have hs : (c.start.toNat : ℤ) = c.start := by omega
    refine ⟨⟨c.start.toNat, hlt⟩, hs, ?_⟩
    have h := hP ⟨c.start.toNat, hlt⟩
    have hpa : l.panelAt c.start = some (P ⟨c.start.toNat, hlt⟩) := by
      rw [← h]
      unfold LatticeData.panel
      simp only [hs]
    obtain ⟨g, n, z1, -, z3⟩ := panelAt_some hpa
    have := hk 0 (by push_cast; omega)
    simp only [Nat.cast_zero, add_zero] at this
    rw [this] at z1
    cases z1
    exact ⟨n, z3⟩
  obtain ⟨v, hv, i, hi, ni, hPi⟩ := fact e he hone m3
  obtain ⟨v', hv', j, hj, nj, hPj⟩ := fact e' he' (by omega) (n3.trans m3)
  refine ⟨i, j, ?_, ?_⟩
  · rintro rfl
    have := r3 e he
    omega
  · rw [m1] at hv
    rw [n1] at hv'
    obtain ⟨w, w1, w2⟩ := C40_corners_delivered _ h2 h3 t.2.1.2 t.1.2.quad
    rw [hv] at w1
    cases w1
    rw [hv'] at w2
    cases w2
    obtain ⟨y1, y2, y3, y4⟩ := h4 v hv
    have flat : ∀ p : V3 ℝ, p.y = 0 → reflect (symNormal 2) p = p := by
      intro p hp
      rw [reflect_two]
      ext <;> simp [flipY, hp]
    rw [flat _ y1, flat _ y2, flat _ y3, flat _ y4, n4] at hPj
    have := panelPts_swapped v (trailLeg alpha beta) e.numC 0
    rw [hPi, hPj]
    exact this

/-! ## Runs -/

/-- **C145** (run): in a run in which two panels have coincident horseshoe vortices, all circulations are
those of the right-hand side: the matrix is singular, which nobody notices. -/
theorem C145_coincident_vortices (env : RunEnv) (ac' : PAircraft ℝ) (st : FlightSt ℝ) (i : ℕ)
    (a : Analysis) (ha : a.Of env ac' st i) (p q : Fin a.l.num) (hpq : p ≠ q)
    (hc : (a.P p).Coincides (a.P q)) :
    a.A.det = 0 ∧ a.g = vlmBoundary a.s env.refs a.P := by
  have h0 := coincident_singular ha.matrix hpq hc
  exact ⟨h0, ha.singular (by rw [h0]; simp)⟩

/-! ## Projects -/

/-- A wing entry with symmetry 2 that has a segment in the plane of symmetry, where the segment stays if
the wing is deformed; both halves are deformed like mirror images if at all. -/
structure FileWing.OnItsImage (D : String → Option (DefField ℝ)) (w : FileWing) : Prop where
  symmetry : w.symmetry = 2
  segment : ∃ s ∈ w.segments, ∃ v, AllGiven s.vertices v ∧
    v.a.y = 0 ∧ v.b.y = 0 ∧ v.c.y = 0 ∧ v.d.y = 0
  shape : ∀ p : V3 ℝ, displaced (D (mirrorName w.uid)) ⟨p.x, -p.y, p.z⟩ =
    ⟨(displaced (D w.uid) p).x, -(displaced (D w.uid) p).y, (displaced (D w.uid) p).z⟩
  stays : ∀ p : V3 ℝ, p.y = 0 → (displaced (D w.uid) p).y = 0

/-- **C145**: let a wing with symmetry 2 have a segment in the x-z plane.  If the run finishes, then all
results, in each flight state, are computed from circulations that are simply the right-hand side of the
system, on all wings: the matrix is singular. -/
theorem C145_surface_on_its_image (W : World) (hW : Lapack W.dgesv) (P : Project) (d : PyDict)
    (a b : String) (hn : NativeProject W P d a b)
    (hC : IfGiven d "vlm_autopanels_c" PyVal.IsPositive) (f : FileAircraft) (hf : P.aircraft a = some f)
    (D : String → Option (DefField ℝ)) (hdef : FieldsOf P d f D) (w : FileWing) (hw : w ∈ f.wings)
    (hi : w.OnItsImage D) (out : RunOut) (h : runProject W P = .ok out) :
    ∃ x ac', loadProject W P = .ok x ∧ Panelled (x.env W P) x.aircraft.toP ac' ∧
      ∀ i < x.state.num, ∃ an : Analysis, an.Of (x.env W P) ac' x.state i ∧ an.A.det = 0 ∧
        an.g = vlmBoundary an.s (x.env W P).refs an.P ∧
        ∀ c ∈ runColumns, out.value c.1 i = some (c.2 an) := by
  unfold runProject at h
  cases hx : loadProject W P with
  | error e => rw [hx] at h; cases h
  | ok x =>
  rw [hx] at h
  simp only at h
  obtain ⟨f', sd, h1, -, -, -, -, hr⟩ := loaded_reads hn hx
  rw [hf] at h1
  cases h1
  obtain ⟨-, ac', hp, han⟩ := (C93_finishes_iff _ hW _ _).1 ⟨out, h⟩
  refine ⟨x, ac', rfl, hp, fun i hlt => ?_⟩
  obtain ⟨an, ha⟩ := han i hlt
  refine ⟨an, ha, ?_⟩
  rw [← and_assoc]
  refine ⟨?_, C93_values _ hW _ _ _ _ h hp i hlt an ha⟩
  obtain ⟨ac1, p1, p2⟩ := id hp
  have hs := loaded_settings hn hx
  have hac := loaded_aircraft hn hx hf
  obtain ⟨k1, k2, -, -⟩ := C98_content W.suffix d hn.keys _ hs
  have hauto : 1 ≤ (x.env W P).autoC := int_positive (fun v hv => k1 "vlm_autopanels_c" v (by decide) hv)
    (k2 ("vlm_autopanels_c", .int 4) (by simp [settingsLeftOut])) hC
  obtain ⟨hu1, hn1⟩ := autopanels_numC (loaded_unpanelled _) (loaded_onePanel hac hauto) p1
  -- a subarea of the segment
  obtain ⟨hsym, ⟨sf, hsf, v, hv, y1, y2, y3, y4⟩, hshape, hstays⟩ := hi
  obtain ⟨m, hm⟩ := List.mem_iff_getElem?.1 hw
  obtain ⟨k, hk⟩ := List.mem_iff_getElem?.1 hsf
  obtain ⟨w0, a1, a2⟩ := forall₂_get' hr.wings hm
  obtain ⟨s0, a3, -⟩ := forall₂_get' a2.segments hk
  obtain ⟨w1, b1, b2, -, -, b3⟩ := forall₂_get' (setAutopanels_rest p1) a1
  obtain ⟨s1, b4, -⟩ := forall₂_get' b3 a3
  obtain ⟨w2, c1, c2⟩ := forall₂_get' (prePanelling_step p2) b1
  obtain ⟨s2, c3, -⟩ := forall₂_get' c2.segs b4
  have hsym2 : w2.symmetry = 2 := by rw [c2.rest, b2, a2.symmetry, hsym]
  obtain ⟨n, ⟨q, hq, -⟩, -⟩ := (C01_aircraft_strips_tile ac1 ac' hu1 p2 w2 (List.mem_of_getElem? c1) s2
    (List.mem_of_getElem? c3)).cover 0 le_rfl zero_lt_one
  rw [List.getElem?_map] at hq
  obtain ⟨sd, hsd, -⟩ := Option.map_eq_some_iff.1 hq
  have ht : ((0, ⟨"segment", sd.main, none⟩), (n, sd), (k, s2), (m, w2)) ∈ allSubareas ac' :=
    ((C60_all_subareas ac').1 m k n 0 w2 s2 sd _).2 ⟨c1, c3, hsd, rfl⟩
  obtain ⟨g1, g2, -⟩ := hr.geometry m w hm k sf hk
  have hvv : ((x.env W P).lat.geo m k).vertices = v := noSpan_given g1 hv
  obtain ⟨d1, d2⟩ : ((x.env W P).lat.geo m k).defField = D w.uid ∧
      ((x.env W P).lat.geo m k).defFieldMirror = D (mirrorName w.uid) := by
    rcases hdef with ⟨hd1, hd2⟩ | ⟨v, fields, hd1, hd2, hd3, hd4, hd5⟩
    · rw [hd2, hd2]
      exact hr.undeformed hd1 m k
    · rw [hd5, hd5]
      exact hr.deformed v fields hd1 hd2 hd3 hd4 m _ hm k
  have hseg : ∀ e z, (segPoint ((x.env W P).lat.geo m k).vertices e z).y = 0 := by
    intro e z
    rw [hvv]
    unfold segPoint
    simp [y1, y2, y3, y4]
  obtain ⟨p, q, hpq, hc⟩ := inPlane_coincides hu1 p2 hn1 ha.lattice ha.panels ht hsym2 (g2.trans hsym) (by
      intro p
      show displaced ((x.env W P).lat.geo m k).defFieldMirror
        (reflect (symNormal ((x.env W P).lat.geo m k).symmetry) p) =
        reflect (symNormal ((x.env W P).lat.geo m k).symmetry) (displaced _ p)
      rw [d1, d2, g2.trans hsym, reflect_two, reflect_two]
      exact hshape p) (by
      intro v hv
      refine (subarea_chords hv).2.2 ?_ ?_ ?_ ?_ <;>
        (simp only [stripCorners, d1]; exact hstays _ (hseg _ _)))
  exact C145_coincident_vortices _ ac' _ i an ha p q hpq hc

/-! ## Example -/

/-- A fin in the plane of symmetry. -/
noncomputable def finGeo : GeoEnv ℝ :=
  ⟨⟨⟨0, 0, 0⟩, ⟨0, 0, 2/25⟩, ⟨3/50, 0, 2/25⟩, ⟨3/50, 0, 0⟩⟩, 2, none, none⟩

/-- The fin is entered as a wing with symmetry 2. -/
noncomputable def doubledFinFile : FileAircraft :=
  ⟨"plane", ⟨1, 1, 1, 0, 0, none⟩, [⟨"W", 2,
    [⟨"S", ⟨some finGeo.vertices.a, some finGeo.vertices.b, some finGeo.vertices.c,
      some finGeo.vertices.d⟩, SegGeo.fresh, "NACA0000", "NACA0000", some 1, some 1⟩], []⟩]⟩

theorem doubledFinFile_ok : FileOk "/home" (fun _ => true) doubledFinFile := by
  refine ⟨?_, by norm_num [doubledFinFile], by norm_num [doubledFinFile], by norm_num [doubledFinFile], ?_⟩
  · exact ⟨by simp [doubledFinFile], by simp [doubledFinFile]⟩
  · intro w hw
    simp only [doubledFinFile, List.mem_singleton] at hw
    subst hw
    refine ⟨by norm_num, ⟨by simp, by simp⟩, ⟨by simp, by simp⟩, ?_, by simp, ?_⟩
    · intro s hs
      simp only [List.mem_singleton] at hs
      subst hs
      exact ⟨⟨finGeo.vertices, rfl, rfl, rfl, rfl⟩, fresh_geoOk, by simp, by simp,
        ⟨_, .inr ⟨by decide, rfl⟩, rfl⟩, ⟨_, .inr ⟨by decide, rfl⟩, rfl⟩⟩
    · intro _
      refine ⟨_, List.mem_singleton.2 rfl, finGeo.vertices, ⟨rfl, rfl, rfl, rfl⟩, ?_⟩
      intro h
      have := h.2
      norm_num [finGeo] at this

theorem doubledFinFile_layout : ∀ w ∈ doubledFinFile.wings, WingLayoutOk w := by
  intro w hw
  simp only [doubledFinFile, List.mem_singleton] at hw
  subst hw
  refine ⟨?_, ?_, ?_⟩
  · intro u x hx y hy hxy
    simp only [FileWing.requested, List.map_nil, List.not_mem_nil, false_and, exists_false,
      Set.mem_union, Set.mem_insert_iff, Set.mem_singleton_iff, Set.mem_ofPred_eq, or_false] at hx hy
    rcases hx with rfl | rfl <;> rcases hy with rfl | rfl <;>
    first | (norm_num at hxy; done) | norm_num
  · simp only [FileWing.requested, List.map_nil]
    exact ⟨by simp, by simp, by simp, by simp, by simp, by simp, by simp⟩
  · intro h
    exact absurd rfl h

/-- One flight state: 10 m/s at 10 degree of sideslip. -/
noncomputable def slipProject (f : FileAircraft) : Project :=
  { exampleProject f with state := fun b => if b = "cruise.json" then some (oneState 10 1 0 10) else none }

theorem slip_native (f : FileAircraft) :
    NativeProject exampleWorld (slipProject f) exampleSettings "plane.json" "cruise.json" :=
  let h := example_native f
  ⟨h.settings, h.keys, h.aircraft, h.json, h.state, h.notCpacs⟩

theorem slip_ok {f : FileAircraft} (hf : FileOk "/home" (fun _ => true) f)
    (hl : ∀ w ∈ f.wings, WingLayoutOk w) (hs : ∃ w ∈ f.wings, w.segments ≠ []) :
    ProjectOk exampleWorld (slipProject f) exampleSettings "plane.json" "cruise.json" f
      (oneState 10 1 0 10) where
  native := slip_native f
  settings := example_settings
  panelsC := by simp [IfGiven, exampleSettings]
  panelsS := by simp [IfGiven, exampleSettings]
  aircraft := rfl
  file := hf
  layout := hl
  segment := hs
  state := rfl
  states := ⟨oneState_nodup _ _ _ _, oneState_acceptable _ _ _ _ _, by simp [oneState],
    _, List.mem_cons_self .., by simp [Arg.toList]⟩
  deformation := by simp [DeformationOk, IfGiven, exampleSettings]

/-- Corners of the fin and of its image. -/
noncomputable def finCorners (mirror : Bool) : Corners (V3 ℝ) :=
  if mirror then ⟨⟨0, 0, 2/25⟩, ⟨0, 0, 0⟩, ⟨3/50, 0, 0⟩, ⟨3/50, 0, 2/25⟩⟩
  else ⟨⟨0, 0, 0⟩, ⟨0, 0, 2/25⟩, ⟨3/50, 0, 2/25⟩, ⟨3/50, 0, 0⟩⟩

theorem fin_finNormal (leg : V3 ℝ) (m : Bool) : ∃ n,
    (panelPts (Coef.of (finCorners m)) leg 1 1 0 0).finNormal = some n := by
  have hx : (panelPts (Coef.of (finCorners m)) leg 1 1 0 0).crossVec =
      (if m then -9/5000 else 9/5000 : ℝ) • ⟨0, 1, 0⟩ := by
    cases m <;> ext <;> simp only [PanelPts.crossVec, panelPts, Coef.of, Coef.at, finCorners] <;> vsimp <;>
      norm_num
  have h1 : (⟨0, 1, 0⟩ : V3 ℝ).norm = 1 := by
    unfold V3.norm
    norm_num
  unfold PanelPts.finNormal
  rw [hx, V3.norm_smul, h1]
  cases m <;> norm_num

theorem fin_horseshoeOk {eps : ℝ} (he : 0 < eps) {leg : V3 ℝ} (hz : leg.z = 0) {x : V3 ℝ}
    (hx : x.z = 1/25) (m : Bool) (n : V3 ℝ) :
    HorseshoeOk eps x { (panelPts (Coef.of (finCorners m)) leg 1 1 0 0).toPanel with n := n } := by
  have key : ∀ y : V3 ℝ, y.z ≠ 1/25 → x ≠ y := by
    rintro y hy rfl
    exact hy hx
  have n1 := key (panelPts (Coef.of (finCorners m)) leg 1 1 0 0).v1 (by
    cases m <;> simp only [panelPts, Coef.of, Coef.at, finCorners] <;> vsimp <;> norm_num [hz])
  have n2 := key (panelPts (Coef.of (finCorners m)) leg 1 1 0 0).v2 (by
    cases m <;> simp only [panelPts, Coef.of, Coef.at, finCorners] <;> vsimp <;> norm_num)
  have n3 := key (panelPts (Coef.of (finCorners m)) leg 1 1 0 0).v3 (by
    cases m <;> simp only [panelPts, Coef.of, Coef.at, finCorners] <;> vsimp <;> norm_num)
  have n4 := key (panelPts (Coef.of (finCorners m)) leg 1 1 0 0).v4 (by
    cases m <;> simp only [panelPts, Coef.of, Coef.at, finCorners] <;> vsimp <;> norm_num [hz])
  exact ⟨(kernelOk_iff he _ _ _).2 ⟨n1, n2⟩, (kernelOk_iff he _ _ _).2 ⟨n2, n3⟩,
    (kernelOk_iff he _ _ _).2 ⟨n3, n4⟩⟩

/-- Each panel of the lattice of the fin. -/
theorem fin_lattice {lat : LatticeEnv} {ac : PAircraft ℝ} (hu : ac.Unpanelled)
    (h : prePanelling ac = .ok ac) (hn : ac.NumC 0)
    (hgeo : ∀ t ∈ allSubareas ac, lat.geo t.2.2.2.1 t.2.2.1.1 = finGeo)
    (hcam : ∀ m k eta xsi, lat.camber m k eta xsi = 0) (hsub : ∀ t ∈ allSubareas ac, t.2.1.2 = Strip.init 0 1 1 0 ∧
      t.1.2 = ⟨"segment", Quad.init 0 0 1 1, none⟩) {alpha beta : ℝ} {l : LatticeData}
    (hl : genLattice lat true alpha beta ac = .ok l) :
    ∀ e ∈ l.book.entries, e.numC = 1 → ∀ k : ℕ, e.start = k → ∃ n,
      l.panel k = some { (panelPts (Coef.of (finCorners e.mirror)) (trailLeg alpha beta) 1 1 0 0).toPanel
        with n := n } := by
  intro e he h1 k hk
  obtain ⟨t, ht, -, v, hv, hp⟩ := C71_own_rotations ac ac hu h hn lat alpha beta l hl e he
  obtain ⟨t1, t2⟩ := hsub t ht
  have hcor : v = finCorners e.mirror := by
    rw [t1, t2, hgeo t ht] at hv
    cases hm : e.mirror <;> rw [hm] at hv <;>
    · simp only [subareaVertices, Strip.absVertices, finGeo, GeoEnv.isDeformed,
        Strip.init, Quad.init, mirrorVertices, Corners.mapE, mirrorPoint, orderMirrored] at hv
      norm_num at hv
      subst hv
      simp only [finCorners, Bool.false_eq_true, if_false, if_true, Corners.mk.injEq]
      refine ⟨?_, ?_, ?_, ?_⟩ <;> ext <;> vsimp <;> norm_num
  obtain ⟨p1, n1, q1, q2⟩ := hp 0 (by rw [h1]; norm_num)
  rw [h1, hcor] at p1 q1
  simp only [Nat.cast_zero, add_zero, hk] at p1 q2
  obtain ⟨n, hfin⟩ := fin_finNormal (trailLeg alpha beta) e.mirror
  have e1 : n1 = some n := by
    rcases q1 with ⟨-, hq⟩ | ⟨f, ⟨-, hf⟩ | ⟨-, hf⟩, -⟩
    · rw [hq, hfin]
    · rw [t2] at hf
      have := congrArg Subarea.ctrl hf
      cases this
    · rw [t2] at hf
      have := congrArg Subarea.ctrl hf
      cases this
  have e2 := turnedBy_zero q2 (by simp [hcam])
  rw [e1] at e2
  refine ⟨n, ?_⟩
  unfold LatticeData.panel LatticeData.panelAt
  simp only [p1, e2]

/-- The run over the doubled fin finishes. -/
theorem doubledFin_finishes : ∃ out, runProject exampleWorld (slipProject doubledFinFile) = .ok out := by
  obtain ⟨x, hx, -, -, hst⟩ := (slip_ok doubledFinFile_ok doubledFinFile_layout
    ⟨_, List.mem_singleton.2 rfl, by simp⟩).load
  obtain ⟨f, sd, h1, h2, -, -, h5, hr⟩ := loaded_reads (slip_native doubledFinFile) hx
  have h1' : some doubledFinFile = some f := h1
  cases h1'
  obtain ⟨w, hw, hwr⟩ := forall₂_singleton_left hr.wings
  obtain ⟨s, hs, hsr⟩ := forall₂_singleton_left hwr.segments
  have hstrips : s.strips = initStrips := by
    have hw' : x.aircraft.wings.map LoadedWing.toP = [w] := hw
    have : w ∈ x.aircraft.wings.map LoadedWing.toP := by rw [hw']; simp
    obtain ⟨w0, -, rfl⟩ := List.mem_map.1 this
    have : s ∈ w0.segments.map LoadedSegment.toP := by
      have hs' : w0.segments.map LoadedSegment.toP = [s] := hs
      rw [hs']; simp
    obtain ⟨s0, -, rfl⟩ := List.mem_map.1 this
    rfl
  have hac : x.aircraft.toP = onePanelOf s.span s.interp s.dist := by
    have e1 : x.aircraft.toP = ⟨[w]⟩ := by
      rw [← hw]
    have e2 : w = ⟨"W", 2, [s], []⟩ := by
      have a1 := hwr.uid
      have a2 := hwr.symmetry
      have a3 := hwr.controls
      cases w
      simp only at a1 a2 a3 hs
      subst a1 a2 a3 hs
      rfl
    have e3 : s = ⟨"S", s.span, some 1, some 1, s.interp, s.dist, initStrips⟩ := by
      have a1 := hsr.uid
      have a2 := hsr.numC
      have a3 := hsr.numS
      cases s
      simp only at a1 a2 a3 hstrips
      subst a1 a2 a3 hstrips
      rfl
    rw [e1, e2]
    unfold onePanelOf
    rw [← e3]
  obtain ⟨n1, q1, q2, q3, q4, q5, q6, q7⟩ := oneState_entries hst
  obtain ⟨g1, g2, -⟩ := hr.geometry 0 _ rfl 0 _ rfl
  obtain ⟨u1, u2⟩ := hr.undeformed (by simp [IfGiven, exampleSettings]) 0 0
  have hrot := hr.rotate.2 (by simp [exampleSettings])
  have hcam : ∀ m k eta xsi, (x.env exampleWorld (slipProject doubledFinFile)).lat.camber m k eta xsi = 0 := by
    intro m k eta xsi
    show (match x.aircraft.wings[m]?.bind fun w => w.segments[k]? with
      | some s => exampleWorld.camber s.airfoilInner s.airfoilOuter eta xsi
      | none => 0) = (0 : ℝ)
    split <;> rfl
  have hgeo : (x.env exampleWorld (slipProject doubledFinFile)).lat.geo 0 0 = finGeo := by
    have hv := noSpan_given g1 (show AllGiven _ finGeo.vertices from ⟨rfl, rfl, rfl, rfl⟩)
    generalize (x.env exampleWorld (slipProject doubledFinFile)).lat.geo 0 0 = g at *
    cases g
    simp only at hv g2 u1 u2
    subst hv g2 u1 u2
    rfl
  have heps : 0 < (x.env exampleWorld (slipProject doubledFinFile)).eps := by
    obtain ⟨y, hy, -, h0⟩ := hr.epsilon
    rw [hy, h0 (by simp [exampleSettings])]
    norm_num
  have hd : Lapack (x.env exampleWorld (slipProject doubledFinFile)).dgesv := exactDgesv_lapack
  unfold runProject
  rw [hx]
  simp only
  rw [hac]
  generalize x.env exampleWorld (slipProject doubledFinFile) = env at *
  rw [C93_finishes_iff env hd]
  refine ⟨by rw [n1]; norm_num, onePanelOf s.span s.interp s.dist,
    ⟨_, onePanelOf_autopanels _ _ _ _ _, onePanelOf_panelled _ _ _⟩, ?_⟩
  intro i hi
  obtain rfl : i = 0 := by omega
  obtain ⟨hu, hN⟩ := onePanelOf_ok s.span s.interp s.dist
  have hpan := onePanelOf_panelled s.span s.interp s.dist
  have hgeo' : ∀ t ∈ allSubareas (onePanelOf s.span s.interp s.dist),
      env.lat.geo t.2.2.2.1 t.2.2.1.1 = finGeo := by
    intro t ht
    rw [onePanelOf_subareas, List.mem_singleton] at ht
    subst ht
    exact hgeo
  obtain ⟨l, hl⟩ := C76_lattice_generated _ _ hu hpan hN env.lat true 0 10 (by
    intro t ht _
    rw [hgeo' t ht]
    exact .inr (.inl rfl))
  obtain ⟨b, hb, he', hp⟩ := onePanelOf_book s.span s.interp s.dist
  obtain ⟨-, k1, -⟩ := genLattice_ok hl
  rw [hb] at k1
  cases k1
  have h2 : l.num = 2 := by unfold LatticeData.num; rw [hp]; rfl
  have hF := fin_lattice hu hpan hN hgeo' hcam (by
    intro t ht
    rw [onePanelOf_subareas, List.mem_singleton] at ht
    subst ht
    exact ⟨rfl, rfl⟩) hl
  rw [he'] at hF
  obtain ⟨m0, hm0⟩ := hF _ (List.mem_cons_self ..) rfl 0 rfl
  obtain ⟨m1, hm1⟩ := hF _ (List.mem_cons_of_mem _ (List.mem_singleton.2 rfl)) rfl 1 rfl
  have hex : ∀ k : Fin l.num, ∃ m n, l.panel k = some { (panelPts (Coef.of (finCorners m))
      (trailLeg 0 10) 1 1 0 0).toPanel with n := n } := by
    intro k
    obtain ⟨k, hk⟩ := k
    obtain rfl | rfl : k = 0 ∨ k = 1 := by omega
    · exact ⟨_, _, hm0⟩
    · exact ⟨_, _, hm1⟩
  choose M N hMN using hex
  have hz : (trailLeg 0 10).z = 0 := by
    unfold trailLeg freestreamDir deg2rad
    simp
  let P : Fin l.num → Panel := fun k =>
    { (panelPts (Coef.of (finCorners (M k))) (trailLeg 0 10) 1 1 0 0).toPanel with n := N k }
  have hP : ∀ k : Fin l.num, l.panel k = some (P k) := hMN
  have hA : ∃ A, vlmDownwash env.eps P = some A := by
    unfold vlmDownwash
    rw [if_pos]
    · exact ⟨_, rfl⟩
    · intro i j
      refine fin_horseshoeOk heps hz ?_ _ _
      show (panelPts (Coef.of (finCorners (M i))) (trailLeg 0 10) 1 1 0 0).col.z = _
      cases M i <;> simp only [panelPts, Coef.of, Coef.at, finCorners] <;> vsimp <;> norm_num
  obtain ⟨A, hA⟩ := hA
  let s0 : FlowState := ⟨10, 1, 0, 10, 0, 0, 0⟩
  have hR : ∃ R, vlmResults env.eps s0 env.refs P
      (gammaOf env A (vlmBoundary s0 env.refs P)) = some R := by
    unfold vlmResults
    rw [if_pos]
    · exact ⟨_, rfl⟩
    · intro i j
      refine fin_horseshoeOk heps hz ?_ _ _
      show (panelPts (Coef.of (finCorners (M i))) (trailLeg 0 10) 1 1 0 0).mid.z = _
      cases M i <;> simp only [panelPts, Coef.of, Coef.at, finCorners] <;> vsimp <;> norm_num
  obtain ⟨R, hR⟩ := hR
  obtain ⟨g1, g2, -⟩ := gammaOf_lapack hd A (vlmBoundary s0 env.refs P)
  exact ⟨⟨s0, l, P, A, gammaOf env A (vlmBoundary s0 env.refs P), R⟩,
    q1, q2, q3, q4, q5, q6, q7, by rw [hrot]; exact hl, by rw [h2]; norm_num, hP, hA, g1, g2, hR⟩

/-- Example for C145: a fin that is entered as a wing with symmetry 2, in flight with sideslip.  The run
finishes, with a singular matrix. -/
example : ∃ (out : RunOut) (an : Analysis), runProject exampleWorld (slipProject doubledFinFile) = .ok out ∧
    an.s.beta = 10 ∧ an.A.det = 0 ∧ out.value "Fy" 0 = some (.fin an.R.ftot.y) := by
  obtain ⟨out, h⟩ := doubledFin_finishes
  obtain ⟨x, ac', hx, -, hall⟩ := C145_surface_on_its_image exampleWorld exactDgesv_lapack
    (slipProject doubledFinFile) exampleSettings "plane.json" "cruise.json" (slip_native _)
    (by simp [IfGiven, exampleSettings]) doubledFinFile rfl (fun _ => none)
    (.inl ⟨by simp [IfGiven, exampleSettings], fun _ => rfl⟩) _ (List.mem_singleton.2 rfl)
    ⟨rfl, ⟨_, List.mem_singleton.2 rfl, finGeo.vertices, ⟨rfl, rfl, rfl, rfl⟩, rfl, rfl, rfl, rfl⟩,
      fun _ => rfl, fun _ h => h⟩ out h
  obtain ⟨f, sd, h1, h2, -, -, h5, -⟩ := loaded_reads (slip_native doubledFinFile) hx
  have h2' : some (oneState 10 1 0 10) = some sd := h2
  cases h2'
  obtain ⟨n1, -, -, -, q4, -⟩ := oneState_entries h5
  obtain ⟨an, ha, hdet, -, hv⟩ := hall 0 (by omega)
  refine ⟨out, an, h, ?_, hdet, hv ("Fy", fun a => .fin a.R.ftot.y) (by simp [runColumns])⟩
  have := ha.beta
  rw [q4] at this
  simpa [eq_comm] using this

end Verif
