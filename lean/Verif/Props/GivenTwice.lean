import Verif.Props.Doubled

/-!
# Property C149: surfaces that are given twice
-/

namespace Verif

open V3

/-! ## Two subareas with the same corners -/

theorem Contig.start_unique {a b : ℤ} {l : List BookEntry} (h : Contig a l b)
    (h1 : ∀ e ∈ l, 1 ≤ e.numC) : ∀ e ∈ l, ∀ e' ∈ l, e.start = e'.start → e = e' := by
  induction l generalizing a with
  | nil => simp
  | cons x rest ih =>
    obtain ⟨c1, c2, c3⟩ := h
    have hx := h1 x (by simp)
    have hr := ih c3 fun e he => h1 e (List.mem_cons_of_mem _ he)
    obtain ⟨-, hb⟩ := c3.bounds fun e he => by
      have := h1 e (List.mem_cons_of_mem _ he)
      omega
    intro e he e' he' hs
    rcases List.mem_cons.1 he with rfl | q
    · rcases List.mem_cons.1 he' with rfl | q'
      · rfl
      · have := (hb e' q').1
        omega
    · rcases List.mem_cons.1 he' with rfl | q'
      · have := (hb e q).1
        omega
      · exact hr e q e' q' hs

/-- Two subareas, or a subarea and the image of a subarea, that have the same corners and the same number
of panels: among the panels there are two with coincident vortices. -/
theorem subareas_coincide {ac ac' : PAircraft ℝ} (hu : ac.Unpanelled) (hp : prePanelling ac = .ok ac')
    (hn : ac.NumC 1) {env : LatticeEnv} {doRot : Bool} {alpha beta : ℝ} {l : LatticeData}
    (hl : genLattice env doRot alpha beta ac' = .ok l) {P : Fin l.num → Panel}
    (hP : ∀ k : Fin l.num, l.panel k = some (P k)) {t t' : SubTuple ℝ} (ht : t ∈ allSubareas ac')
    (ht' : t' ∈ allSubareas ac') {mir : Bool} (hne : mir = false → SubTuple.path t ≠ SubTuple.path t')
    (hsym : mir = true → t'.2.2.2.2.symmetry ≠ 0) (hc : t.1.2.ctrl = none) (hc' : t'.1.2.ctrl = none)
    (hq : t'.1.2.quad = t.1.2.quad) (hC : t'.2.2.1.2.numC = t.2.2.1.2.numC) {v : Corners (V3 ℝ)}
    (hv : subareaVertices (env.geo t.2.2.2.1 t.2.2.1.1) t.2.1.2 t.1.2.quad false = .ok v)
    (hv' : subareaVertices (env.geo t'.2.2.2.1 t'.2.2.1.1) t'.2.1.2 t'.1.2.quad mir = .ok v) :
    ∃ i j, i ≠ j ∧ (P i).Coincides (P j) := by
  have hn0 : ac.NumC 0 := fun w hw => ⟨fun s hs => by
      obtain ⟨n, e, h⟩ := (hn w hw).1 s hs
      exact ⟨n, e, by omega⟩, fun c hc => by
      obtain ⟨n, e, h⟩ := (hn w hw).2 c hc
      exact ⟨n, e, by omega⟩⟩
  obtain ⟨g3, h0, -, hE, -⟩ := lattice_entry hu hp hn0 hl
  obtain ⟨b, gs, hb, q2, q1, -, -, -, q6, -⟩ := genBook_facts hu hp (by norm_num) hn
  obtain ⟨-, k1, -⟩ := genLattice_ok hl
  rw [k1] at hb
  cases hb
  obtain ⟨b1, b2⟩ := g3.bounds h0
  obtain ⟨-, -, r3, -⟩ := g3.ranges h0
  -- the entries
  have entry : ∀ {s : SubTuple ℝ} (hs : s ∈ allSubareas ac') (mr : Bool), (mr = true → s.2.2.2.2.symmetry ≠ 0) →
      ∃ e ∈ l.book.entries, e.mirror = mr ∧ e.path = SubTuple.path s ∧
        prescribed s.2.2.2.2.controls s.2.2.1.2 s.1.2 e.numC := by
    intro s hs mr hmr
    obtain ⟨g, hg, e, m1, -, m3, m4, hm⟩ := forall₂_mem_left q2 hs
    have mem : ∀ x ∈ g, x ∈ l.book.entries := fun x hx => by
      rw [← q1]
      exact List.mem_flatten.2 ⟨_, hg, hx⟩
    cases mr with
    | false =>
      refine ⟨e, mem e ?_, m1, m3, m4⟩
      rcases hm with ⟨-, rfl⟩ | ⟨-, e', rfl, -⟩ <;> simp
    | true =>
      rcases hm with ⟨h, -⟩ | ⟨-, e', rfl, n1, -, n3, n4, -⟩
      · exact absurd h (hmr rfl)
      · exact ⟨e', mem e' (by simp), n1, n3.trans m3, by rw [n4]; exact m4⟩
  -- the first panel of an entry
  have fact : ∀ {s : SubTuple ℝ}, s ∈ allSubareas ac' → ∀ c ∈ l.book.entries, c.path = SubTuple.path s →
      ∃ v, subareaVertices (env.geo s.2.2.2.1 s.2.2.1.1) s.2.1.2 s.1.2.quad c.mirror = .ok v ∧
      ∃ k : Fin l.num, (k : ℤ) = c.start ∧ ∃ m,
        P k = { (panelPts (Coef.of v) (trailLeg alpha beta) 1 c.numC 0 0).toPanel with n := m } := by
    intro s hs c hc hpath
    have h1c := (q6 c hc).2 le_rfl
    obtain ⟨t', ht', hpath', -, v, hv, hk⟩ := hE c hc
    obtain rfl := subTuple_of_path hs ht' (hpath.symm.trans hpath')
    refine ⟨v, hv, ?_⟩
    have hb := b2 c hc
    have hr := r3 c hc
    have hlt : c.start.toNat < l.num := by unfold LatticeData.num; omega
    have hs : (c.start.toNat : ℤ) = c.start := by omega
    refine ⟨⟨c.start.toNat, hlt⟩, hs, ?_⟩
    have h := hP ⟨c.start.toNat, hlt⟩
    have hpa : l.panelAt c.start = some (P ⟨c.start.toNat, hlt⟩) := by
      rw [← h]
      unfold LatticeData.panel
      simp only [hs]
    obtain ⟨g, n, z1, -, z3⟩ := panelAt_some hpa
    have := hk 0 (by push_cast; omega)
    simp only [Nat.cast_zero, add_zero] at this
    rw [this] at z1
    cases z1
    exact ⟨n, z3⟩
  obtain ⟨e, he, e1, e2, e3⟩ := entry ht false (by simp)
  obtain ⟨e', he', f1, f2, f3⟩ := entry ht' mir hsym
  obtain ⟨u, hu1, i, hi, ni, hPi⟩ := fact ht e he e2
  obtain ⟨u', hu2, j, hj, nj, hPj⟩ := fact ht' e' he' f2
  rw [e1, hv] at hu1
  cases hu1
  rw [f1, hv'] at hu2
  cases hu2
  have hnum : e'.numC = e.numC := by
    unfold prescribed at e3 f3
    simp only [hc] at e3
    simp only [hc'] at f3
    obtain ⟨m1, a1, a2⟩ := e3
    obtain ⟨m2, c1, c2⟩ := f3
    rw [hC, a1] at c1
    cases c1
    rw [a2, c2, hq]
  refine ⟨i, j, ?_, ?_⟩
  · rintro rfl
    have hs : e.start = e'.start := by rw [← hi, hj]
    have heq := g3.start_unique (fun c hc => (q6 c hc).2 le_rfl) e he e' he' hs
    rw [heq, f1] at e1
    rw [heq, f2] at e2
    exact hne e1 e2.symm
  · rw [hPi, hPj, hnum]
    exact .inl ⟨rfl, rfl, rfl, rfl⟩

/-! ## Strips of wings without control surfaces -/

/-- The first and the last strip of a segment of a wing without control surfaces: each has one subarea,
from leading to trailing edge. -/
theorem plain_strips {ac ac' : PAircraft ℝ} (hu : ac.Unpanelled) (h : prePanelling ac = .ok ac')
    (hn : ac.NumC 1) {w : PWing ℝ} (hw : w ∈ ac'.wings) (hc : w.controls = []) {s : PSegment ℝ}
    (hs : s ∈ w.segments) {n : ℕ} (h1 : 1 ≤ n) (h2 : n ≤ 100) (hS : s.numS = some (n : ℤ)) :
    ∀ k < n, ∃ d, s.strips[k]? = some d ∧ d.etaA = k / n ∧ d.etaB = (k + 1) / n ∧
      d.subareas[0]? = some ⟨"segment", ⟨0, 0, 1, 1⟩, none⟩ := by
  intro k hk
  have hr := congrArg (fun x => x[k]?) (C09_aircraft_num_strips ac ac' hu h w hw hc s hs n h1 h2 hS)
  simp only [List.getElem?_map, List.getElem?_range hk, Option.map_some] at hr
  obtain ⟨d, hd, hrange⟩ := Option.map_eq_some_iff.1 hr
  have hdm := List.mem_of_getElem? hd
  refine ⟨d, hd, congrArg Prod.fst hrange, congrArg Prod.snd hrange, ?_⟩
  obtain ⟨c1, -, hlist⟩ := C60_strip_subareas ac ac' hu h w hw s hs d hdm
  obtain ⟨j1, j2⟩ := C05_aircraft_chordwise_tiling ac ac' hu h w hw s hs d hdm
  have none_of : ∀ a ∈ d.subareas, a.ctrl = none := by
    intro a ha
    obtain ⟨m, -, hpre, -⟩ := panelled_subarea hu h hn w hw s hs d hdm a ha
    unfold prescribed at hpre
    cases hctrl : a.ctrl with
    | none => rfl
    | some c =>
      rw [hctrl, hc] at hpre
      obtain ⟨p, hp, -⟩ := hpre
      cases hp
  have hslat : d.slat = none := by
    cases hsl : d.slat with
    | none => rfl
    | some f => cases none_of _ ((hlist ⟨"slat", f.toQuad, some f.ctrl⟩).2 (.inr (.inl ⟨f, hsl, rfl⟩)))
  have hflap : d.flap = none := by
    cases hfl : d.flap with
    | none => rfl
    | some f => cases none_of _ ((hlist ⟨"flap", f.toQuad, some f.ctrl⟩).2 (.inr (.inr ⟨f, hfl, rfl⟩)))
  simp [Strip.innerExtents, Strip.outerExtents, hslat, hflap, Joins] at j1 j2
  rw [← List.head?_eq_getElem?, c1]
  congr 2
  cases hmain : d.main
  rw [hmain] at j1 j2
  simp only at j1 j2
  simp [j1, j2]

/-- Numbers of panels after `set_autopanels`. -/
theorem setAutopanels_numbers {ac ac' : PAircraft ℝ} {apC apS : ℤ}
    (h : setAutopanels apC apS ac = .ok ac') : List.Forall₂ (fun w w' : PWing ℝ =>
      List.Forall₂ (fun s s' : PSegment ℝ => s'.numC = some (s.numC.getD apC) ∧
        ∀ n, s.numS = some n → s'.numS = some n) w.segments w'.segments) ac.wings ac'.wings := by
  unfold setAutopanels at h
  split at h
  · cases h
  · rename_i ws hws
    cases h
    refine (mapE_ok hws).imp ?_
    intro w w' hw
    unfold PWing.setAutopanels at hw
    split at hw
    · cases hw
    · rename_i segs hsegs
      cases hw
      refine (mapE_ok hsegs).imp ?_
      intro s s' hss
      unfold PSegment.setAutopanels spanRatio at hss
      dsimp only at hss
      cases hC : s.numC <;> cases hS : s.numS <;> simp [hC, hS] at hss <;>
        (try split_ifs at hss) <;> (try simp at hss) <;> subst hss <;> simp [hC, hS]

/-- A segment given on both sides: the image of a point. -/
theorem both_sides_point (v : Corners (V3 ℝ)) (e x : ℝ) :
    reflect (symNormal 2) (segPoint (K := ℝ) ⟨flipY v.b, flipY v.a, flipY v.d, flipY v.c⟩ e x) =
      segPoint v (1 - e) x := by
  rw [reflect_two]
  unfold segPoint flipY
  ext <;> vsimp <;> ring

/-! ## Projects -/

/-- A segment of the file that is there twice: as segment `k'` of the wing entry `m'`, or as the mirror
image of this segment.  Both are undeformed, have the same numbers of panels and belong to wings without
control surfaces; `m' = m` and `k' = k` is possible for a segment that is its own image, such as a wing
given from tip to tip. -/
structure FileAircraft.GivenTwice (f : FileAircraft) (D : String → Option (DefField ℝ)) (m k m' k' : ℕ) :
    Prop where
  here : ∃ w s v, f.wings[m]? = some w ∧ w.segments[k]? = some s ∧ AllGiven s.vertices v ∧
    w.controls = [] ∧ D w.uid = none ∧ D (mirrorName w.uid) = none ∧
    ∃ w' s' v', f.wings[m']? = some w' ∧ w'.segments[k']? = some s' ∧ AllGiven s'.vertices v' ∧
    w'.controls = [] ∧ D w'.uid = none ∧ D (mirrorName w'.uid) = none ∧
    s'.numC = s.numC ∧ s'.numS = s.numS ∧ (∃ n : ℕ, 1 ≤ n ∧ n ≤ 100 ∧ s.numS = some (n : ℤ)) ∧
    ((v' = v ∧ (m, k) ≠ (m', k')) ∨
     (w'.symmetry = 2 ∧ v' = ⟨flipY v.b, flipY v.a, flipY v.d, flipY v.c⟩))

/-- **C149**: if a segment is given twice and the run finishes, then all results, in each flight state, are
computed from circulations that are simply the right-hand side of the system: the matrix is singular. -/
theorem C149_given_twice (W : World) (hW : Lapack W.dgesv) (P : Project) (d : PyDict)
    (a b : String) (hn : NativeProject W P d a b)
    (hC : IfGiven d "vlm_autopanels_c" PyVal.IsPositive) (f : FileAircraft) (hf : P.aircraft a = some f)
    (D : String → Option (DefField ℝ)) (hdef : FieldsOf P d f D) (m k m' k' : ℕ)
    (hi : f.GivenTwice D m k m' k') (out : RunOut) (h : runProject W P = .ok out) :
    ∃ x ac', loadProject W P = .ok x ∧ Panelled (x.env W P) x.aircraft.toP ac' ∧
      ∀ i < x.state.num, ∃ an : Analysis, an.Of (x.env W P) ac' x.state i ∧ an.A.det = 0 ∧
        an.g = vlmBoundary an.s (x.env W P).refs an.P ∧
        ∀ c ∈ runColumns, out.value c.1 i = some (c.2 an) := by
  unfold runProject at h
  cases hx : loadProject W P with
  | error e => rw [hx] at h; cases h
  | ok x =>
  rw [hx] at h
  simp only at h
  obtain ⟨f', sd, h1, -, -, -, -, hr⟩ := loaded_reads hn hx
  rw [hf] at h1
  cases h1
  obtain ⟨-, ac', hp, han⟩ := (C93_finishes_iff _ hW _ _).1 ⟨out, h⟩
  refine ⟨x, ac', rfl, hp, fun i hlt => ?_⟩
  obtain ⟨an, ha⟩ := han i hlt
  refine ⟨an, ha, ?_⟩
  rw [← and_assoc]
  refine ⟨?_, C93_values _ hW _ _ _ _ h hp i hlt an ha⟩
  obtain ⟨ac1, p1, p2⟩ := id hp
  have hs := loaded_settings hn hx
  have hac := loaded_aircraft hn hx hf
  obtain ⟨k1, k2, -, -⟩ := C98_content W.suffix d hn.keys _ hs
  have hauto : 1 ≤ (x.env W P).autoC := int_positive (fun v hv => k1 "vlm_autopanels_c" v (by decide) hv)
    (k2 ("vlm_autopanels_c", .int 4) (by simp [settingsLeftOut])) hC
  obtain ⟨hu1, hn1⟩ := autopanels_numC (loaded_unpanelled _) (loaded_onePanel hac hauto) p1
  obtain ⟨w, s, v, hm, hk, hv, hctrl, D1, D2, w', s', v', hm', hk', hv', hctrl', D1', D2', hnC, hnS,
    ⟨n, n1, n2, hnum⟩, htwice⟩ := hi.here
  -- a segment after panelling
  have seg : ∀ {m k : ℕ} {w : FileWing} {s : FileSegment} {v : Corners (V3 ℝ)}, f.wings[m]? = some w →
      w.segments[k]? = some s → AllGiven s.vertices v → w.controls = [] → D w.uid = none →
      D (mirrorName w.uid) = none → s.numS = some (n : ℤ) → ∃ w2 s2, ac'.wings[m]? = some w2 ∧
        w2.segments[k]? = some s2 ∧ w2.symmetry = w.symmetry ∧
        s2.numC = some (s.numC.getD (x.env W P).autoC) ∧
        (x.env W P).lat.geo m k = ⟨v, w.symmetry, none, none⟩ ∧
        ∀ j < n, ∃ d, s2.strips[j]? = some d ∧ d.etaA = j / n ∧ d.etaB = (j + 1) / n ∧
          d.subareas[0]? = some ⟨"segment", ⟨0, 0, 1, 1⟩, none⟩ := by
    intro m k w s v hm hk hv hctrl D1 D2 hnum
    obtain ⟨w0, a1, a2⟩ := forall₂_get' hr.wings hm
    obtain ⟨s0, a3, a4⟩ := forall₂_get' a2.segments hk
    obtain ⟨w1, b1, b2, -, b5, b3⟩ := forall₂_get' (setAutopanels_rest p1) a1
    obtain ⟨s1, b4, -⟩ := forall₂_get' b3 a3
    obtain ⟨w1', b1', b6⟩ := forall₂_get' (setAutopanels_numbers p1) a1
    rw [b1] at b1'
    cases b1'
    obtain ⟨s1', b4', b7, b8⟩ := forall₂_get' b6 a3
    rw [b4] at b4'
    cases b4'
    obtain ⟨w2, c1, c2⟩ := forall₂_get' (prePanelling_step p2) b1
    obtain ⟨s2, c3, c4, -⟩ := forall₂_get' c2.segs b4
    have hcs : w2.controls = [] := by
      rw [c2.rest]
      show w1.controls = []
      rw [b5, a2.controls]
      unfold FileWing.requested
      rw [hctrl]
      rfl
    have hS2 : s2.numS = some (n : ℤ) := by
      rw [c4]
      exact b8 _ (by rw [a4.numS, hnum])
    obtain ⟨g1, g2, -⟩ := hr.geometry m w hm k s hk
    have hvv : ((x.env W P).lat.geo m k).vertices = v := noSpan_given g1 hv
    obtain ⟨d1, d2⟩ : ((x.env W P).lat.geo m k).defField = D w.uid ∧
        ((x.env W P).lat.geo m k).defFieldMirror = D (mirrorName w.uid) := by
      rcases hdef with ⟨hd1, hd2⟩ | ⟨v, fields, hd1, hd2, hd3, hd4, hd5⟩
      · rw [hd2, hd2]
        exact hr.undeformed hd1 m k
      · rw [hd5, hd5]
        exact hr.deformed v fields hd1 hd2 hd3 hd4 m _ hm k
    refine ⟨w2, s2, c1, c3, by rw [c2.rest, b2, a2.symmetry], ?_, ?_,
      plain_strips hu1 p2 hn1 (List.mem_of_getElem? c1) hcs (List.mem_of_getElem? c3) n1 n2 hS2⟩
    · rw [c4]
      show s1.numC = _
      rw [b7, a4.numC]
    · cases hgeo : (x.env W P).lat.geo m k
      rw [hgeo] at hvv g2 d1 d2
      simp only at hvv g2 d1 d2
      rw [hvv, g2, d1, d2, D1, D2]
  obtain ⟨w2, s2, c1, c3, c5, c6, c7, c8⟩ := seg hm hk hv hctrl D1 D2 hnum
  obtain ⟨w2', s2', c1', c3', c5', c6', c7', c8'⟩ := seg hm' hk' hv' hctrl' D1' D2' (hnS.trans hnum)
  have hn0 : (n : ℝ) ≠ 0 := by
    have : (0 : ℝ) < n := by exact_mod_cast n1
    exact this.ne'
  obtain ⟨d0, x1, x2, x3, x4⟩ := c8 0 (by omega)
  have ht : ((0, ⟨"segment", ⟨0, 0, 1, 1⟩, none⟩), (0, d0), (k, s2), (m, w2)) ∈ allSubareas ac' :=
    ((C60_all_subareas ac').1 m k 0 0 w2 s2 d0 _).2 ⟨c1, c3, x1, x4⟩
  have corner : ∀ {g : GeoEnv ℝ}, g.defField = none → ∀ {w s}, w ∈ ac'.wings → s ∈ w.segments →
      ∀ d ∈ s.strips, subareaVertices g d ⟨0, 0, 1, 1⟩ false = .ok
        ⟨segPoint g.vertices d.etaA 0, segPoint g.vertices d.etaB 0,
         segPoint g.vertices d.etaB 1, segPoint g.vertices d.etaA 1⟩ := by
    intro g hg w s hw hs d hd
    exact C22_aircraft_subarea_corners ac1 ac' hu1 p2 g hg w hw s hs d hd ⟨0, 0, 1, 1⟩
  have hcor := corner (g := (x.env W P).lat.geo m k) (by rw [c7]) (List.mem_of_getElem? c1)
    (List.mem_of_getElem? c3) d0 (List.mem_of_getElem? x1)
  have hcoin : ∃ p q, p ≠ q ∧ (an.P p).Coincides (an.P q) := by
    rcases htwice with ⟨rfl, hne⟩ | ⟨hsym, rfl⟩
    · obtain ⟨d0', y1, y2, y3, y4⟩ := c8' 0 (by omega)
      have ht' : ((0, ⟨"segment", ⟨0, 0, 1, 1⟩, none⟩), (0, d0'), (k', s2'), (m', w2')) ∈ allSubareas ac' :=
        ((C60_all_subareas ac').1 m' k' 0 0 w2' s2' d0' _).2 ⟨c1', c3', y1, y4⟩
      have hcor' := corner (g := (x.env W P).lat.geo m' k') (by rw [c7']) (List.mem_of_getElem? c1')
        (List.mem_of_getElem? c3') d0' (List.mem_of_getElem? y1)
      refine subareas_coincide hu1 p2 hn1 ha.lattice ha.panels ht ht' (mir := false) ?_ (by simp) rfl rfl rfl
        ?_ hcor ?_
      · intro _ e
        simp only [SubTuple.path, SubPath.mk.injEq] at e
        exact hne (by rw [e.1, e.2.1])
      · show s2'.numC = s2.numC
        rw [c6, c6', hnC]
      · refine hcor'.trans ?_
        rw [c7, c7', x2, x3, y2, y3]
    · obtain ⟨dn, y1, y2, y3, y4⟩ := c8' (n - 1) (by omega)
      have hlast : (((n - 1 : ℕ) : ℝ)) = n - 1 := by
        rw [Nat.cast_sub n1]
        simp
      have ht' : ((0, ⟨"segment", ⟨0, 0, 1, 1⟩, none⟩), (n - 1, dn), (k', s2'), (m', w2')) ∈ allSubareas ac' :=
        ((C60_all_subareas ac').1 m' k' (n - 1) 0 w2' s2' dn _).2 ⟨c1', c3', y1, y4⟩
      have hcor' := corner (g := (x.env W P).lat.geo m' k') (by rw [c7']) (List.mem_of_getElem? c1')
        (List.mem_of_getElem? c3') dn (List.mem_of_getElem? y1)
      obtain ⟨u, u1, u2⟩ := C40_corners_delivered ((x.env W P).lat.geo m' k') (by rw [c7', hsym]) (by
        intro p; rw [c7']; rfl) dn ⟨0, 0, 1, 1⟩
      rw [hcor'] at u1
      cases u1
      refine subareas_coincide hu1 p2 hn1 ha.lattice ha.panels ht ht' (mir := true) (by simp) ?_ rfl rfl rfl
        ?_ hcor ?_
      · intro _
        show w2'.symmetry ≠ 0
        rw [c5', hsym]
        norm_num
      · show s2'.numC = s2.numC
        rw [c6, c6', hnC]
      · refine u2.trans ?_
        rw [c7, c7', x2, x3, y2, y3, hlast]
        simp only [both_sides_point]
        have z1 : (1 : ℝ) - (n - 1 + 1) / n = (0 : ℕ) / n := by
          field_simp
          simp
        have z2 : (1 : ℝ) - (n - 1) / n = ((0 : ℕ) + 1) / n := by
          field_simp
          simp
        rw [z1, z2]
  obtain ⟨p, q, hpq, hc⟩ := hcoin
  exact C145_coincident_vortices _ ac' _ i an ha p q hpq hc

/-! ## Example -/

/-- A rectangular wing, given from its left to its right tip. -/
noncomputable def tipGeo : GeoEnv ℝ :=
  ⟨⟨⟨0, -1/25, 0⟩, ⟨0, 1/25, 0⟩, ⟨3/50, 1/25, 0⟩, ⟨3/50, -1/25, 0⟩⟩, 2, none, none⟩

/-- The wing is entered with symmetry 2. -/
noncomputable def tipToTipFile : FileAircraft :=
  ⟨"plane", ⟨1, 1, 1, 0, 0, none⟩, [⟨"W", 2,
    [⟨"S", ⟨some tipGeo.vertices.a, some tipGeo.vertices.b, some tipGeo.vertices.c,
      some tipGeo.vertices.d⟩, SegGeo.fresh, "NACA0000", "NACA0000", some 1, some 1⟩], []⟩]⟩

theorem tipToTipFile_ok : FileOk "/home" (fun _ => true) tipToTipFile := by
  refine ⟨?_, by norm_num [tipToTipFile], by norm_num [tipToTipFile], by norm_num [tipToTipFile], ?_⟩
  · exact ⟨by simp [tipToTipFile], by simp [tipToTipFile]⟩
  · intro w hw
    simp only [tipToTipFile, List.mem_singleton] at hw
    subst hw
    refine ⟨by norm_num, ⟨by simp, by simp⟩, ⟨by simp, by simp⟩, ?_, by simp, ?_⟩
    · intro s hs
      simp only [List.mem_singleton] at hs
      subst hs
      exact ⟨⟨tipGeo.vertices, rfl, rfl, rfl, rfl⟩, fresh_geoOk, by simp, by simp,
        ⟨_, .inr ⟨by decide, rfl⟩, rfl⟩, ⟨_, .inr ⟨by decide, rfl⟩, rfl⟩⟩
    · intro _
      refine ⟨_, List.mem_singleton.2 rfl, tipGeo.vertices, ⟨rfl, rfl, rfl, rfl⟩, ?_⟩
      intro h
      have := h.1
      norm_num [tipGeo] at this

theorem tipToTipFile_layout : ∀ w ∈ tipToTipFile.wings, WingLayoutOk w := by
  intro w hw
  simp only [tipToTipFile, List.mem_singleton] at hw
  subst hw
  refine ⟨?_, ?_, ?_⟩
  · intro u x hx y hy hxy
    simp only [FileWing.requested, List.map_nil, List.not_mem_nil, false_and, exists_false,
      Set.mem_union, Set.mem_insert_iff, Set.mem_singleton_iff, Set.mem_ofPred_eq, or_false] at hx hy
    rcases hx with rfl | rfl <;> rcases hy with rfl | rfl <;>
    first | (norm_num at hxy; done) | norm_num
  · simp only [FileWing.requested, List.map_nil]
    exact ⟨by simp, by simp, by simp, by simp, by simp, by simp, by simp⟩
  · intro h
    exact absurd rfl h

/-- Corners of the wing, and of its image. -/
noncomputable def tipCorners : Corners (V3 ℝ) :=
  ⟨⟨0, -1/25, 0⟩, ⟨0, 1/25, 0⟩, ⟨3/50, 1/25, 0⟩, ⟨3/50, -1/25, 0⟩⟩

theorem tip_finNormal (leg : V3 ℝ) : ∃ n,
    (panelPts (Coef.of tipCorners) leg 1 1 0 0).finNormal = some n := by
  have hx : (panelPts (Coef.of tipCorners) leg 1 1 0 0).crossVec = (-9/5000 : ℝ) • ⟨0, 0, 1⟩ := by
    ext <;> simp only [PanelPts.crossVec, panelPts, Coef.of, Coef.at, tipCorners] <;> vsimp <;> norm_num
  have h1 : (⟨0, 0, 1⟩ : V3 ℝ).norm = 1 := by
    unfold V3.norm
    norm_num
  unfold PanelPts.finNormal
  rw [hx, V3.norm_smul, h1]
  norm_num

theorem tip_horseshoeOk {eps : ℝ} (he : 0 < eps) {leg : V3 ℝ} (hz : leg.y = 0) {x : V3 ℝ}
    (hx : x.y = 0) (n : V3 ℝ) :
    HorseshoeOk eps x { (panelPts (Coef.of tipCorners) leg 1 1 0 0).toPanel with n := n } := by
  have key : ∀ y : V3 ℝ, y.y ≠ 0 → x ≠ y := by
    rintro y hy rfl
    exact hy hx
  have n1 := key (panelPts (Coef.of tipCorners) leg 1 1 0 0).v1 (by
    simp only [panelPts, Coef.of, Coef.at, tipCorners]; vsimp; norm_num [hz])
  have n2 := key (panelPts (Coef.of tipCorners) leg 1 1 0 0).v2 (by
    simp only [panelPts, Coef.of, Coef.at, tipCorners]; vsimp; norm_num)
  have n3 := key (panelPts (Coef.of tipCorners) leg 1 1 0 0).v3 (by
    simp only [panelPts, Coef.of, Coef.at, tipCorners]; vsimp; norm_num)
  have n4 := key (panelPts (Coef.of tipCorners) leg 1 1 0 0).v4 (by
    simp only [panelPts, Coef.of, Coef.at, tipCorners]; vsimp; norm_num [hz])
  exact ⟨(kernelOk_iff he _ _ _).2 ⟨n1, n2⟩, (kernelOk_iff he _ _ _).2 ⟨n2, n3⟩,
    (kernelOk_iff he _ _ _).2 ⟨n3, n4⟩⟩

/-- Each panel of the lattice of the wing. -/
theorem tip_lattice {lat : LatticeEnv} {ac : PAircraft ℝ} (hu : ac.Unpanelled)
    (h : prePanelling ac = .ok ac) (hn : ac.NumC 0)
    (hgeo : ∀ t ∈ allSubareas ac, lat.geo t.2.2.2.1 t.2.2.1.1 = tipGeo)
    (hcam : ∀ m k eta xsi, lat.camber m k eta xsi = 0) (hsub : ∀ t ∈ allSubareas ac, t.2.1.2 = Strip.init 0 1 1 0 ∧
      t.1.2 = ⟨"segment", Quad.init 0 0 1 1, none⟩) {alpha beta : ℝ} {l : LatticeData}
    (hl : genLattice lat true alpha beta ac = .ok l) :
    ∀ e ∈ l.book.entries, e.numC = 1 → ∀ k : ℕ, e.start = k → ∃ n,
      l.panel k = some { (panelPts (Coef.of tipCorners) (trailLeg alpha beta) 1 1 0 0).toPanel
        with n := n } := by
  intro e he h1 k hk
  obtain ⟨t, ht, -, v, hv, hp⟩ := C71_own_rotations ac ac hu h hn lat alpha beta l hl e he
  obtain ⟨t1, t2⟩ := hsub t ht
  have hcor : v = tipCorners := by
    rw [t1, t2, hgeo t ht] at hv
    cases hm : e.mirror <;> rw [hm] at hv <;>
    · simp only [subareaVertices, Strip.absVertices, tipGeo, GeoEnv.isDeformed,
        Strip.init, Quad.init, mirrorVertices, Corners.mapE, mirrorPoint, orderMirrored] at hv
      norm_num at hv
      subst hv
      simp only [tipCorners, Corners.mk.injEq]
      refine ⟨?_, ?_, ?_, ?_⟩ <;> ext <;> vsimp <;> norm_num
  obtain ⟨p1, n1, q1, q2⟩ := hp 0 (by rw [h1]; norm_num)
  rw [h1, hcor] at p1 q1
  simp only [Nat.cast_zero, add_zero, hk] at p1 q2
  obtain ⟨n, hfin⟩ := tip_finNormal (trailLeg alpha beta)
  have e1 : n1 = some n := by
    rcases q1 with ⟨-, hq⟩ | ⟨f, ⟨-, hf⟩ | ⟨-, hf⟩, -⟩
    · rw [hq, hfin]
    · rw [t2] at hf
      have := congrArg Subarea.ctrl hf
      cases this
    · rw [t2] at hf
      have := congrArg Subarea.ctrl hf
      cases this
  have e2 := turnedBy_zero q2 (by simp [hcam])
  rw [e1] at e2
  refine ⟨n, ?_⟩
  unfold LatticeData.panel LatticeData.panelAt
  simp only [p1, e2]

/-- The run over the wing given from tip to tip finishes. -/
theorem tipToTip_finishes : ∃ out, runProject exampleWorld (exampleProject tipToTipFile) = .ok out := by
  obtain ⟨x, hx, -, -, hst⟩ := (example_ok tipToTipFile_ok tipToTipFile_layout
    ⟨_, List.mem_singleton.2 rfl, by simp⟩).load
  obtain ⟨f, sd, h1, h2, -, -, h5, hr⟩ := loaded_reads (example_native tipToTipFile) hx
  have h1' : some tipToTipFile = some f := h1
  cases h1'
  obtain ⟨w, hw, hwr⟩ := forall₂_singleton_left hr.wings
  obtain ⟨s, hs, hsr⟩ := forall₂_singleton_left hwr.segments
  have hstrips : s.strips = initStrips := by
    have hw' : x.aircraft.wings.map LoadedWing.toP = [w] := hw
    have : w ∈ x.aircraft.wings.map LoadedWing.toP := by rw [hw']; simp
    obtain ⟨w0, -, rfl⟩ := List.mem_map.1 this
    have : s ∈ w0.segments.map LoadedSegment.toP := by
      have hs' : w0.segments.map LoadedSegment.toP = [s] := hs
      rw [hs']; simp
    obtain ⟨s0, -, rfl⟩ := List.mem_map.1 this
    rfl
  have hac : x.aircraft.toP = onePanelOf s.span s.interp s.dist := by
    have e1 : x.aircraft.toP = ⟨[w]⟩ := by
      rw [← hw]
    have e2 : w = ⟨"W", 2, [s], []⟩ := by
      have a1 := hwr.uid
      have a2 := hwr.symmetry
      have a3 := hwr.controls
      cases w
      simp only at a1 a2 a3 hs
      subst a1 a2 a3 hs
      rfl
    have e3 : s = ⟨"S", s.span, some 1, some 1, s.interp, s.dist, initStrips⟩ := by
      have a1 := hsr.uid
      have a2 := hsr.numC
      have a3 := hsr.numS
      cases s
      simp only at a1 a2 a3 hstrips
      subst a1 a2 a3 hstrips
      rfl
    rw [e1, e2]
    unfold onePanelOf
    rw [← e3]
  obtain ⟨n1, q1, q2, q3, q4, q5, q6, q7⟩ := oneState_entries hst
  obtain ⟨g1, g2, -⟩ := hr.geometry 0 _ rfl 0 _ rfl
  obtain ⟨u1, u2⟩ := hr.undeformed (by simp [IfGiven, exampleSettings]) 0 0
  have hrot := hr.rotate.2 (by simp [exampleSettings])
  have hcam : ∀ m k eta xsi, (x.env exampleWorld (exampleProject tipToTipFile)).lat.camber m k eta xsi = 0 := by
    intro m k eta xsi
    show (match x.aircraft.wings[m]?.bind fun w => w.segments[k]? with
      | some s => exampleWorld.camber s.airfoilInner s.airfoilOuter eta xsi
      | none => 0) = (0 : ℝ)
    split <;> rfl
  have hgeo : (x.env exampleWorld (exampleProject tipToTipFile)).lat.geo 0 0 = tipGeo := by
    have hv := noSpan_given g1 (show AllGiven _ tipGeo.vertices from ⟨rfl, rfl, rfl, rfl⟩)
    generalize (x.env exampleWorld (exampleProject tipToTipFile)).lat.geo 0 0 = g at *
    cases g
    simp only at hv g2 u1 u2
    subst hv g2 u1 u2
    rfl
  have heps : 0 < (x.env exampleWorld (exampleProject tipToTipFile)).eps := by
    obtain ⟨y, hy, -, h0⟩ := hr.epsilon
    rw [hy, h0 (by simp [exampleSettings])]
    norm_num
  have hd : Lapack (x.env exampleWorld (exampleProject tipToTipFile)).dgesv := exactDgesv_lapack
  unfold runProject
  rw [hx]
  simp only
  rw [hac]
  generalize x.env exampleWorld (exampleProject tipToTipFile) = env at *
  rw [C93_finishes_iff env hd]
  refine ⟨by rw [n1]; norm_num, onePanelOf s.span s.interp s.dist,
    ⟨_, onePanelOf_autopanels _ _ _ _ _, onePanelOf_panelled _ _ _⟩, ?_⟩
  intro i hi
  obtain rfl : i = 0 := by omega
  obtain ⟨hu, hN⟩ := onePanelOf_ok s.span s.interp s.dist
  have hpan := onePanelOf_panelled s.span s.interp s.dist
  have hgeo' : ∀ t ∈ allSubareas (onePanelOf s.span s.interp s.dist),
      env.lat.geo t.2.2.2.1 t.2.2.1.1 = tipGeo := by
    intro t ht
    rw [onePanelOf_subareas, List.mem_singleton] at ht
    subst ht
    exact hgeo
  obtain ⟨l, hl⟩ := C76_lattice_generated _ _ hu hpan hN env.lat true 5 0 (by
    intro t ht _
    rw [hgeo' t ht]
    exact .inr (.inl rfl))
  obtain ⟨b, hb, he', hp⟩ := onePanelOf_book s.span s.interp s.dist
  obtain ⟨-, k1, -⟩ := genLattice_ok hl
  rw [hb] at k1
  cases k1
  have h2 : l.num = 2 := by unfold LatticeData.num; rw [hp]; rfl
  have hF := tip_lattice hu hpan hN hgeo' hcam (by
    intro t ht
    rw [onePanelOf_subareas, List.mem_singleton] at ht
    subst ht
    exact ⟨rfl, rfl⟩) hl
  rw [he'] at hF
  obtain ⟨m0, hm0⟩ := hF _ (List.mem_cons_self ..) rfl 0 rfl
  obtain ⟨m1, hm1⟩ := hF _ (List.mem_cons_of_mem _ (List.mem_singleton.2 rfl)) rfl 1 rfl
  have hex : ∀ k : Fin l.num, ∃ n, l.panel k = some { (panelPts (Coef.of tipCorners)
      (trailLeg 5 0) 1 1 0 0).toPanel with n := n } := by
    intro k
    obtain ⟨k, hk⟩ := k
    obtain rfl | rfl : k = 0 ∨ k = 1 := by omega
    · exact ⟨_, hm0⟩
    · exact ⟨_, hm1⟩
  choose N hMN using hex
  have hz : (trailLeg 5 0).y = 0 := trailLeg_y 5
  let P : Fin l.num → Panel := fun k =>
    { (panelPts (Coef.of tipCorners) (trailLeg 5 0) 1 1 0 0).toPanel with n := N k }
  have hP : ∀ k : Fin l.num, l.panel k = some (P k) := hMN
  have hA : ∃ A, vlmDownwash env.eps P = some A := by
    unfold vlmDownwash
    rw [if_pos]
    · exact ⟨_, rfl⟩
    · intro i j
      refine tip_horseshoeOk heps hz ?_ _
      show (panelPts (Coef.of tipCorners) (trailLeg 5 0) 1 1 0 0).col.y = _
      simp only [panelPts, Coef.of, Coef.at, tipCorners]; vsimp; norm_num
  obtain ⟨A, hA⟩ := hA
  let s0 : FlowState := ⟨10, 1, 5, 0, 0, 0, 0⟩
  have hR : ∃ R, vlmResults env.eps s0 env.refs P
      (gammaOf env A (vlmBoundary s0 env.refs P)) = some R := by
    unfold vlmResults
    rw [if_pos]
    · exact ⟨_, rfl⟩
    · intro i j
      refine tip_horseshoeOk heps hz ?_ _
      show (panelPts (Coef.of tipCorners) (trailLeg 5 0) 1 1 0 0).mid.y = _
      simp only [panelPts, Coef.of, Coef.at, tipCorners]; vsimp; norm_num
  obtain ⟨R, hR⟩ := hR
  obtain ⟨g1, g2, -⟩ := gammaOf_lapack hd A (vlmBoundary s0 env.refs P)
  exact ⟨⟨s0, l, P, A, gammaOf env A (vlmBoundary s0 env.refs P), R⟩,
    q1, q2, q3, q4, q5, q6, q7, by rw [hrot]; exact hl, by rw [h2]; norm_num, hP, hA, g1, g2, hR⟩

/-- Example for C149: a wing given from tip to tip, with symmetry 2.  The run finishes, with a singular
matrix. -/
example : ∃ (out : RunOut) (an : Analysis), runProject exampleWorld (exampleProject tipToTipFile) = .ok out ∧
    an.s.alpha = 5 ∧ an.A.det = 0 ∧ out.value "Fz" 0 = some (.fin an.R.ftot.z) := by
  obtain ⟨out, h⟩ := tipToTip_finishes
  obtain ⟨x, ac', hx, -, hall⟩ := C149_given_twice exampleWorld exactDgesv_lapack
    (exampleProject tipToTipFile) exampleSettings "plane.json" "cruise.json" (example_native _)
    (by simp [IfGiven, exampleSettings]) tipToTipFile rfl (fun _ => none)
    (.inl ⟨by simp [IfGiven, exampleSettings], fun _ => rfl⟩) 0 0 0 0
    ⟨_, _, tipGeo.vertices, rfl, rfl, ⟨rfl, rfl, rfl, rfl⟩, rfl, rfl, rfl, _, _, tipGeo.vertices, rfl, rfl,
      ⟨rfl, rfl, rfl, rfl⟩, rfl, rfl, rfl, rfl, rfl, ⟨1, le_rfl, by norm_num, rfl⟩,
      .inr ⟨rfl, by norm_num [tipGeo, flipY]⟩⟩ out h
  obtain ⟨f, sd, h1, h2, -, -, h5, -⟩ := loaded_reads (example_native tipToTipFile) hx
  have h2' : some (oneState 10 1 5 0) = some sd := h2
  cases h2'
  obtain ⟨n1, -, -, q3, -⟩ := oneState_entries h5
  obtain ⟨an, ha, hdet, -, hv⟩ := hall 0 (by omega)
  refine ⟨out, an, h, ?_, hdet, hv ("Fz", fun a => .fin a.R.ftot.z) (by simp [runColumns])⟩
  have := ha.alpha
  rw [q3] at this
  simpa [eq_comm] using this

/-- Example of the other case of C149: two wings with the same segment. -/
example : (⟨"plane", ⟨1, 1, 1, 0, 0, none⟩, tipToTipFile.wings.map (fun w => { w with symmetry := 0 }) ++
      tipToTipFile.wings.map (fun w => { w with uid := "V", symmetry := 0 })⟩ : FileAircraft).GivenTwice
    (fun _ => none) 0 0 1 0 :=
  ⟨_, _, tipGeo.vertices, rfl, rfl, ⟨rfl, rfl, rfl, rfl⟩, rfl, rfl, rfl, _, _, tipGeo.vertices, rfl, rfl,
    ⟨rfl, rfl, rfl, rfl⟩, rfl, rfl, rfl, rfl, rfl, ⟨1, le_rfl, by norm_num, rfl⟩, .inl ⟨rfl, by simp⟩⟩

end Verif
