import Verif.Lemmas.Normals

/-!
# Properties C70–C75: normals of panels at control surfaces and on cambered wings
-/

set_option linter.unnecessarySeqFocus false

namespace Verif

open V3

/-! ## C70 -/

/-- **C70**: whatever deflections and camber lines there are, each normal of a generated lattice
has length one. -/
theorem C70_unit_normals (env : LatticeEnv) (doRot : Bool) (alpha beta : ℝ) (ac : PAircraft ℝ)
    (l : LatticeData) (h : genLattice env doRot alpha beta ac = .ok l) (k : ℤ) (n : V3 ℝ)
    (hn : l.normal k = some n) : n.norm = 1 := by
  obtain ⟨cs, -, -, -, -, h0, h1⟩ := genLattice_ok h
  have hg : ∀ (i : ℤ) v, (l.pts i).bind PanelPts.finNormal = some v → v.norm = 1 := by
    intro i v hv
    obtain ⟨g, -, hg⟩ := Option.bind_eq_some_iff.1 hv
    obtain ⟨g0, rfl⟩ := finNormal_some hg
    exact normal_norm g0
  cases doRot with
  | false =>
    rw [h0 rfl] at hn
    exact hg k n hn
  | true => exact rotateAll_norm (h1 rfl) hg k n hn

/-! ## C71 -/

/-- Rotation by an angle in degree that is skipped if the angle is missing or zero. -/
def TurnedBy (axis : V3 ℝ) (angle : Option ℝ) (n n' : Option (V3 ℝ)) : Prop :=
  ((angle = none ∨ angle = some 0) ∧ n' = n) ∨
  ∃ d, angle = some d ∧ d ≠ 0 ∧ n' = n.bind (rotate axis (d * (Real.pi / 180)))

/-- Effect of the control surface `a` (a subarea of strip `d`) on normals: they are turned about
the hinge axis of the device by the deflection of its control on the right side of the aircraft;
areas without control are left alone. -/
def TurnedAtHinge (defl : String → Option ℝ × Option ℝ) (g : GeoEnv ℝ) (d : Strip ℝ)
    (a : Subarea ℝ) (mirror : Bool) (n n' : Option (V3 ℝ)) : Prop :=
  (a = ⟨"segment", d.main, none⟩ ∧ n' = n) ∨
  ∃ f, ((d.slat = some f ∧ a = ⟨"slat", f.toQuad, some f.ctrl⟩) ∨
        (d.flap = some f ∧ a = ⟨"flap", f.toQuad, some f.ctrl⟩)) ∧
    ∃ axis, hingeAxis g d f.h1 f.h2 mirror = .ok axis ∧
      TurnedBy axis (if mirror then (defl f.ctrl.uid).2 else (defl f.ctrl.uid).1) n n'

/-- Effect of the camber line on the normal of chordwise panel `k` of `num` in subarea `a` of strip
`d` with corners `v`: turned about the camber axis by the angle of the camber line at the middle of
the strip and at three quarters of the `k`-th of `num` equal parts of the subarea. -/
def TurnedAtCamber (camber : ℝ → ℝ → ℝ) (d : Strip ℝ) (a : Subarea ℝ) (v : Corners (V3 ℝ))
    (num k : ℕ) (n n' : Option (V3 ℝ)) : Prop :=
  let le := (a.quad.xsiA + a.quad.xsiB) / 2
  let te := (a.quad.xsiC + a.quad.xsiD) / 2
  TurnedBy (camberAxis v)
    (some (camber ((d.etaA + d.etaB) / 2) (le + ((k + 3 / 4) / num) * (te - le)))) n n'

theorem applyRotation_turned {axis : V3 ℝ} {o : Option ℝ} {n : Option (V3 ℝ)}
    {r : Option (V3 ℝ × ℝ)}
    (h : (r = none ∧ (o = none ∨ o = some 0)) ∨
      ∃ d, o = some d ∧ d ≠ 0 ∧ r = some (axis, deg2rad d)) :
    TurnedBy axis o n (applyRotation r n) := by
  rcases h with ⟨rfl, h⟩ | ⟨d, rfl, hd, rfl⟩
  · exact .inl ⟨h, rfl⟩
  · exact .inr ⟨d, rfl, hd, rfl⟩

theorem entryParts_of {env : LatticeEnv} {ac : PAircraft ℝ} {e : BookEntry} {t : SubTuple ℝ}
    (ht : t ∈ allSubareas ac) (he : e.path = t.path) :
    entryParts env ac e = some ⟨t.2.2.2.2, t.2.1.2, t.1.2, env.geo t.2.2.2.1 t.2.2.1.1,
      env.camber t.2.2.2.1 t.2.2.1.1⟩ := by
  obtain ⟨⟨i, a⟩, ⟨j, d⟩, ⟨k, s⟩, m, w⟩ := t
  obtain ⟨h1, h2, h3, h4⟩ := ((C60_all_subareas ac).1 m k j i w s d a).1 ht
  unfold entryParts
  rw [he]
  simp only [SubTuple.path, h1, h2, h3, h4]

theorem hinge_turned {env : LatticeEnv} {p : EntryParts} {mirror : Bool}
    {r : Option (V3 ℝ × ℝ)} (h : hingeRotation env p mirror = .ok r)
    (hl : p.sub = ⟨"segment", p.strip.main, none⟩ ∨
      (∃ f, p.strip.slat = some f ∧ p.sub = ⟨"slat", f.toQuad, some f.ctrl⟩) ∨
      (∃ f, p.strip.flap = some f ∧ p.sub = ⟨"flap", f.toQuad, some f.ctrl⟩))
    (n : Option (V3 ℝ)) :
    TurnedAtHinge (env.deflection p.wing.uid) p.geo p.strip p.sub mirror n (applyRotation r n) := by
  have key : ∀ f : Dev ℝ, p.sub.ctrl = some f.ctrl →
      p.strip.hinge p.sub.type = some (f.h1, f.h2) →
      ∃ axis, hingeAxis p.geo p.strip f.h1 f.h2 mirror = .ok axis ∧
        TurnedBy axis (if mirror then (env.deflection p.wing.uid f.ctrl.uid).2
          else (env.deflection p.wing.uid f.ctrl.uid).1) n (applyRotation r n) := by
    intro f hc hh
    unfold hingeRotation at h
    rw [hc] at h
    simp only [hh] at h
    cases ha : hingeAxis p.geo p.strip f.h1 f.h2 mirror with
    | error x => simp [ha] at h
    | ok axis =>
      refine ⟨axis, rfl, ?_⟩
      simp only [ha] at h
      apply applyRotation_turned
      have e : (if mirror then (env.deflection p.wing.uid f.ctrl.uid).2
          else (env.deflection p.wing.uid f.ctrl.uid).1) =
          sideDeflection (env.deflection p.wing.uid f.ctrl.uid) mirror := rfl
      rw [e]
      cases hs : sideDeflection (env.deflection p.wing.uid f.ctrl.uid) mirror with
      | none =>
        simp only [hs] at h
        cases h
        exact .inl ⟨rfl, .inl rfl⟩
      | some d =>
        simp only [hs] at h
        cases h
        by_cases hd : d = 0
        · exact .inl ⟨if_pos hd, .inr (by rw [hd])⟩
        · exact .inr ⟨d, rfl, hd, if_neg hd⟩
  rcases hl with hs | ⟨f, hf, hs⟩ | ⟨f, hf, hs⟩
  · refine .inl ⟨hs, ?_⟩
    unfold hingeRotation at h
    rw [hs] at h
    cases h
    rfl
  · exact .inr ⟨f, .inl ⟨hf, hs⟩, key f (by rw [hs]) (by rw [hs]; simp [Strip.hinge, hf])⟩
  · exact .inr ⟨f, .inr ⟨hf, hs⟩, key f (by rw [hs]) (by rw [hs]; simp [Strip.hinge, hf])⟩

theorem camber_turned (p : EntryParts) (v : Corners (V3 ℝ)) {num k : ℕ} (hk : k < num)
    (n : Option (V3 ℝ)) :
    TurnedAtCamber p.camber p.strip p.sub v num k n
      (applyRotation (camberRotation p v num k) n) := by
  unfold TurnedAtCamber
  simp only
  have e : (collocationXsi p.sub.quad num)[k]? = some ((p.sub.quad.xsiA + p.sub.quad.xsiB) / 2 +
      (((k : ℝ) + 3 / 4) / (num : ℝ)) * ((p.sub.quad.xsiC + p.sub.quad.xsiD) / 2 -
        (p.sub.quad.xsiA + p.sub.quad.xsiB) / 2)) := by
    unfold collocationXsi
    simp [hk]
  apply applyRotation_turned
  unfold camberRotation
  simp only [e]
  split_ifs with h0
  · exact .inl ⟨rfl, .inr (by rw [h0])⟩
  · exact .inr ⟨_, rfl, h0, rfl⟩

/-- What the lattice of a panelled aircraft contains for an entry of its bookkeeping. -/
theorem lattice_entry {ac ac' : PAircraft ℝ} (hu : ac.Unpanelled)
    (h : prePanelling ac = .ok ac') (hn : ac.NumC 0) {env : LatticeEnv} {doRot : Bool}
    {alpha beta : ℝ} {l : LatticeData} (hl : genLattice env doRot alpha beta ac' = .ok l) :
    Contig 0 l.book.entries l.book.numP ∧ (∀ e ∈ l.book.entries, 0 ≤ e.numC) ∧
    (∃ gs, gs.flatten = l.book.entries ∧ List.Forall₂ EntriesFor (allSubareas ac') gs) ∧
    (∀ e ∈ l.book.entries, ∃ t ∈ allSubareas ac', e.path = SubTuple.path t ∧ e.stop = e.start + e.numC ∧
      ∃ v, subareaVertices (env.geo t.2.2.2.1 t.2.2.1.1) t.2.1.2 t.1.2.quad e.mirror = .ok v ∧
        ∀ k : ℕ, (k : ℤ) < e.numC →
          l.pts (e.start + k) =
            some (panelPts (Coef.of v) (trailLeg alpha beta) 1 e.numC k 0)) ∧
    ∀ i : ℤ, i < 0 ∨ l.book.numP ≤ i → l.pts i = none := by
  obtain ⟨cs, k1, k2, k3, k4, -⟩ := genLattice_ok hl
  obtain ⟨b, gs, hb, g1, g2, g3, g4, g5, g6, -⟩ := genBook_facts hu h le_rfl hn
  rw [k1] at hb
  cases hb
  have h0 : ∀ e ∈ l.book.entries, 0 ≤ e.numC := fun e he => (g6 e he).1
  have hcs := mapE_corners k2
  have hin : l.book.inputsOf cs = l.book.entries.map fun e => ⟨cornersOf env ac' e, 0, 1, e.numC⟩ := by
    rw [hcs]
    exact Book.inputs_eq l.book (cornersOf env ac')
  obtain ⟨ls, q1, q2⟩ := latticeFrom_entries (trailLeg alpha beta) (cornersOf env ac') g3
  have hw : vlmLattice (trailLeg alpha beta) (l.book.inputsOf cs) = ls.flatten := by
    rw [q1, hin]; rfl
  obtain ⟨-, r2, r3, -⟩ := g3.ranges h0
  have hfst : (ls.flatten.map Prod.fst) = pyRange 0 l.book.numP := by
    rw [← r2]
    clear q1 hw hin hcs k2 g2 g3 g4 g6 h0 r2 r3
    generalize l.book.entries = es at q2
    induction q2 with
    | nil => rfl
    | cons hd _ ih => rw [List.flatten_cons, List.map_append, List.flatMap_cons, ih, hd.1]
  refine ⟨g3, h0, ⟨gs, g2, g1⟩, ?_, ?_⟩
  · intro e he
    have he' := he
    rw [← g2, List.mem_flatten] at he'
    obtain ⟨g, hg, heg⟩ := he'
    obtain ⟨t, ht, e0, m1, m2, m3, m4, m5⟩ := forall₂_mem_right g1 hg
    have hpath : e.path = SubTuple.path t := by
      rcases m5 with ⟨-, rfl⟩ | ⟨-, e', rfl, -, -, n3, -⟩
      · rw [List.mem_singleton.1 heg]; exact m3
      · simp only [List.mem_cons, List.not_mem_nil, or_false] at heg
        rcases heg with rfl | rfl
        · exact m3
        · rw [n3]; exact m3
    have hp := entryParts_of (env := env) ht hpath
    obtain ⟨c, -, hc⟩ := forall₂_mem_left (mapE_ok k2) he
    have hc' := hc
    unfold entryCorners at hc
    rw [hp] at hc
    refine ⟨t, ht, hpath, r3 e he, c, hc, ?_⟩
    intro k hk
    obtain ⟨g', hg', f1, f2⟩ := forall₂_mem_left q2 he
    rw [k4, hw]
    apply lastPanel_of_unique
    · rw [hfst]; exact nodup_pyRange _ _
    · refine List.mem_flatten.2 ⟨g', hg', ?_⟩
      have hcc : cornersOf env ac' e = c := by unfold cornersOf; rw [hc']
      rw [hcc] at f2
      have len1 := congrArg List.length f1
      have len2 := congrArg List.length f2
      have hk' : k < g'.length := by
        rw [List.length_map, List.length_map, List.length_range] at len2
        omega
      have a1 := congrArg (fun x => x[k]?) f1
      have a2 := congrArg (fun x => x[k]?) f2
      simp only [List.getElem?_map, List.getElem?_eq_getElem hk', Option.map_some, pyRange] at a1 a2
      rw [List.getElem?_range (by have := r3 e he; omega), Option.map_some] at a1
      rw [List.getElem?_range (by omega), Option.map_some] at a2
      have b1 := Option.some.inj a1
      have b2 := Option.some.inj a2
      rw [← b1, ← b2]
      exact List.getElem_mem hk'
  · intro i hi
    rw [k4, hw]
    apply lastPanel_none
    rw [hfst, mem_pyRange]
    omega

/-- **C71**: in the lattice of a panelled aircraft the normal of panel number `start + k` of a
bookkeeping entry is the normal of the panel's own geometry, turned first about the hinge of the
subarea's own control (deflection of the entry's own side), then for the camber line at the panel's
own station — each exactly once. -/
theorem C71_own_rotations (ac ac' : PAircraft ℝ) (hu : ac.Unpanelled)
    (h : prePanelling ac = .ok ac') (hn : ac.NumC 0) (env : LatticeEnv) (alpha beta : ℝ)
    (l : LatticeData) (hl : genLattice env true alpha beta ac' = .ok l) :
    ∀ e ∈ l.book.entries, ∃ t ∈ allSubareas ac', e.path = SubTuple.path t ∧
      ∃ v, subareaVertices (env.geo t.2.2.2.1 t.2.2.1.1) t.2.1.2 t.1.2.quad e.mirror = .ok v ∧
        ∀ k : ℕ, (k : ℤ) < e.numC →
          let g := panelPts (Coef.of v) (trailLeg alpha beta) 1 e.numC k 0
          l.pts (e.start + k) = some g ∧
          ∃ n1, TurnedAtHinge (env.deflection t.2.2.2.2.uid) (env.geo t.2.2.2.1 t.2.2.1.1)
              t.2.1.2 t.1.2 e.mirror g.finNormal n1 ∧
            TurnedAtCamber (env.camber t.2.2.2.1 t.2.2.1.1) t.2.1.2 t.1.2 v e.numC.toNat k n1
              (l.normal (e.start + k)) := by
  obtain ⟨g3, h0, -, hp, -⟩ := lattice_entry hu h hn hl
  obtain ⟨cs, -, -, -, -, -, hr⟩ := genLattice_ok hl
  obtain ⟨ho, -⟩ := rotateAll_own g3 h0 (hr rfl)
  intro e he
  obtain ⟨t, ht, hpath, hstop, v, hv, hpts⟩ := hp e he
  obtain ⟨p, hinge, corners, f1, f2, f3, f4⟩ := ho e he
  rw [entryParts_of (env := env) ht hpath] at f1
  cases f1
  simp only at f2 f3
  rw [hv] at f3
  cases f3
  refine ⟨t, ht, hpath, v, hv, ?_⟩
  intro k hk
  refine ⟨hpts k hk, ?_⟩
  have hnum : (e.stop - e.start).toNat = e.numC.toNat := by rw [hstop]; congr 1; ring
  have hki : (e.start + (k : ℤ) - e.start).toNat = k := by
    rw [add_sub_cancel_left]; exact Int.toNat_natCast k
  have := f4 (e.start + k) (by omega) (by omega)
  rw [hnum, hki, hpts k hk, Option.bind_some] at this
  refine ⟨applyRotation hinge _, hinge_turned f2 ?_ _, ?_⟩
  · obtain ⟨h1, h2, h3, h4⟩ := mem_allSubareas ht
    exact ((C60_strip_subareas ac ac' hu h _ h1 _ h2 _ h3).2.2 _).1 h4
  · rw [this]
    exact camber_turned ⟨_, _, _, _, _⟩ v (by omega) _

/-! ## C72 -/

theorem hingeAxis_of_corners {g : GeoEnv ℝ} {d : Strip ℝ} {q : Quad ℝ} {mirror : Bool}
    {v : Corners (V3 ℝ)} (h : subareaVertices g d q mirror = .ok v) (h1 h2 : ℝ) :
    ∃ axis, hingeAxis g d h1 h2 mirror = .ok axis := by
  unfold subareaVertices at h
  unfold hingeAxis hingeVertices
  cases hv : d.absVertices g mirror with
  | error x => simp [hv] at h
  | ok sd => exact ⟨_, rfl⟩

theorem rotateAll_total {env : LatticeEnv} {ac : PAircraft ℝ} {es : List BookEntry}
    (h : ∀ e ∈ es, ∃ p hinge corners, entryParts env ac e = some p ∧
      hingeRotation env p e.mirror = .ok hinge ∧
      subareaVertices p.geo p.strip p.sub.quad e.mirror = .ok corners)
    (n : ℤ → Option (V3 ℝ)) : ∃ n', rotateAll env ac es n = .ok n' := by
  induction es generalizing n with
  | nil => exact ⟨n, rfl⟩
  | cons e rest ih =>
    obtain ⟨p, hinge, corners, h1, h2, h3⟩ := h e (by simp)
    unfold rotateAll rotateEntry
    simp only [h1, h2, h3]
    exact ih (fun x hx => h x (List.mem_cons_of_mem _ hx)) _

/-- The rotation loop never raises for a panelled aircraft whose corners are computed without an
exception. -/
theorem rotateAll_panelled {ac ac' : PAircraft ℝ} (hu : ac.Unpanelled)
    (h : prePanelling ac = .ok ac') {env : LatticeEnv} {es : List BookEntry}
    (hes : ∀ e ∈ es, ∃ t ∈ allSubareas ac', e.path = SubTuple.path t ∧
      ∃ v, subareaVertices (env.geo t.2.2.2.1 t.2.2.1.1) t.2.1.2 t.1.2.quad e.mirror = .ok v)
    (n : ℤ → Option (V3 ℝ)) : ∃ n', rotateAll env ac' es n = .ok n' := by
  refine rotateAll_total ?_ n
  intro e he
  obtain ⟨t, ht, hp, v, hv⟩ := hes e he
  obtain ⟨h1, h2, h3, h4⟩ := mem_allSubareas ht
  have hl := ((C60_strip_subareas ac ac' hu h _ h1 _ h2 _ h3).2.2 _).1 h4
  have hh : ∃ r, hingeRotation env ⟨t.2.2.2.2, t.2.1.2, t.1.2, env.geo t.2.2.2.1 t.2.2.1.1,
      env.camber t.2.2.2.1 t.2.2.1.1⟩ e.mirror = .ok r := by
    unfold hingeRotation
    simp only
    have key : ∀ f : Dev ℝ, ∃ axis,
        hingeAxis (env.geo t.2.2.2.1 t.2.2.1.1) t.2.1.2 f.h1 f.h2 e.mirror = .ok axis :=
      fun f => hingeAxis_of_corners hv _ _
    rcases hl with hs | ⟨f, hf, hs⟩ | ⟨f, hf, hs⟩
    · rw [hs]; exact ⟨_, rfl⟩
    all_goals
      obtain ⟨axis, ha⟩ := key f
      rw [hs]
      simp only [Strip.hinge, hf, Option.map_some, if_true, ha,
        if_neg (by decide : ¬ "flap" = "slat")]
      cases sideDeflection (env.deflection t.2.2.2.2.uid f.ctrl.uid) e.mirror with
      | none => exact ⟨_, rfl⟩
      | some d => exact ⟨_, rfl⟩
  obtain ⟨r, hr⟩ := hh
  exact ⟨_, r, v, entryParts_of ht hp, hr, hv⟩

theorem genLattice_build {env : LatticeEnv} {doRot : Bool} {alpha beta : ℝ} {ac : PAircraft ℝ}
    {b : Book} {cs : List (Corners (V3 ℝ))} {n : ℤ → Option (V3 ℝ)} (h1 : genBook ac = .ok b)
    (h2 : mapE (entryCorners env ac) b.entries = .ok cs) (h3 : 0 ≤ b.numP)
    (h4 : if doRot then rotateAll env ac b.entries (fun k => (lastPanel (vlmLattice
        (trailLeg alpha beta) (b.inputsOf cs)) k).bind PanelPts.finNormal) = .ok n
      else n = fun k => (lastPanel (vlmLattice (trailLeg alpha beta) (b.inputsOf cs)) k).bind
        PanelPts.finNormal) :
    genLattice env doRot alpha beta ac =
      .ok ⟨b, lastPanel (vlmLattice (trailLeg alpha beta) (b.inputsOf cs)), n⟩ := by
  unfold genLattice
  simp only [h1, h2]
  rw [if_neg (not_lt.2 h3)]
  cases doRot with
  | false => simp only [Bool.false_eq_true, if_false] at h4 ⊢; rw [h4]
  | true => simp only [if_true] at h4 ⊢; rw [h4]

theorem entryParts_congr {env env' : LatticeEnv} (hg : env'.geo = env.geo)
    (hc : env'.camber = env.camber) (ac : PAircraft ℝ) (e : BookEntry) :
    entryParts env' ac e = entryParts env ac e := by
  unfold entryParts
  rw [hg, hc]

/-- **C72**: deflections act locally.  With other deflections of any controls the lattice is
generated all the same, with the same bookkeeping and the same points; and the normals of all panels
are the same except those of controls whose deflection on the panel's own side has changed. -/
theorem C72_deflections_local (ac ac' : PAircraft ℝ) (hu : ac.Unpanelled)
    (h : prePanelling ac = .ok ac') (hn : ac.NumC 0) (env env' : LatticeEnv)
    (hg : env'.geo = env.geo) (hc : env'.camber = env.camber) (doRot : Bool) (alpha beta : ℝ)
    (l : LatticeData) (hl : genLattice env doRot alpha beta ac' = .ok l) :
    ∃ l', genLattice env' doRot alpha beta ac' = .ok l' ∧ l'.book = l.book ∧ l'.pts = l.pts ∧
      ∀ e ∈ l.book.entries, ∀ t ∈ allSubareas ac', e.path = SubTuple.path t →
        (∀ c, t.1.2.ctrl = some c →
          (e.mirror = false →
            (env'.deflection t.2.2.2.2.uid c.uid).1 = (env.deflection t.2.2.2.2.uid c.uid).1) ∧
          (e.mirror = true →
            (env'.deflection t.2.2.2.2.uid c.uid).2 = (env.deflection t.2.2.2.2.uid c.uid).2)) →
        ∀ i, e.start ≤ i → i < e.stop → l'.normal i = l.normal i := by
  obtain ⟨g3, h0, -, hp, -⟩ := lattice_entry hu h hn hl
  obtain ⟨cs, k1, k2, k3, k4, k5, k6⟩ := genLattice_ok hl
  have hcs : mapE (entryCorners env' ac') l.book.entries = .ok cs := by
    have : entryCorners env' ac' = entryCorners env ac' := by
      funext e
      unfold entryCorners
      rw [entryParts_congr hg hc]
    rw [this, k2]
  cases doRot with
  | false =>
    refine ⟨⟨l.book, l.pts, l.normal⟩, ?_, rfl, rfl, fun _ _ _ _ _ _ _ _ _ => rfl⟩
    rw [k4]
    exact genLattice_build k1 hcs k3 (by simpa [k4] using k5 rfl)
  | true =>
    obtain ⟨n', hn'⟩ := rotateAll_panelled hu h (env := env') (es := l.book.entries) (by
      intro e he
      obtain ⟨t, ht, hpath, -, v, hv, -⟩ := hp e he
      exact ⟨t, ht, hpath, v, by rw [hg]; exact hv⟩)
      (fun k => (l.pts k).bind PanelPts.finNormal)
    refine ⟨⟨l.book, l.pts, n'⟩, ?_, rfl, rfl, ?_⟩
    · rw [k4] at hn' ⊢
      exact genLattice_build k1 hcs k3 (by simpa using hn')
    · intro e he t ht hpath hsame i hi1 hi2
      obtain ⟨o1, -⟩ := rotateAll_own g3 h0 (k6 rfl)
      obtain ⟨o2, -⟩ := rotateAll_own g3 h0 hn'
      obtain ⟨p, hinge, corners, f1, f2, f3, f4⟩ := o1 e he
      obtain ⟨p', hinge', corners', q1, q2, q3, q4⟩ := o2 e he
      rw [entryParts_congr hg hc, f1] at q1
      cases q1
      rw [f3] at q3
      cases q3
      rw [entryParts_of ht hpath] at f1
      cases f1
      have : hinge' = hinge := by
        unfold hingeRotation at f2 q2
        simp only at f2 q2
        cases hct : t.1.2.ctrl with
        | none => simp only [hct] at f2 q2; cases f2; cases q2; rfl
        | some c =>
          have hs : sideDeflection (env'.deflection t.2.2.2.2.uid c.uid) e.mirror =
              sideDeflection (env.deflection t.2.2.2.2.uid c.uid) e.mirror := by
            unfold sideDeflection
            cases hm : e.mirror with
            | false => simpa using (hsame c hct).1 hm
            | true => simpa using (hsame c hct).2 hm
          simp only [hct] at f2 q2
          rw [hs] at q2
          rw [f2] at q2
          exact (Except.ok.inj q2).symm
      show n' i = _
      rw [f4 i hi1 hi2, q4 i hi1 hi2, this]

/-! ## C73 -/

theorem applyRotation_none (v : Option (V3 ℝ)) : applyRotation none v = v := rfl

/-- **C73**: without deflections (missing or zero) and with camber lines of slope zero, switching
the normal rotations on or off makes no difference whatsoever; and then the normals are those of
the panels' geometry. -/
theorem C73_no_deflection (ac ac' : PAircraft ℝ) (hu : ac.Unpanelled)
    (h : prePanelling ac = .ok ac') (hn : ac.NumC 0) (env : LatticeEnv) (alpha beta : ℝ)
    (hd : ∀ w c, (env.deflection w c).1 ∈ [none, some 0] ∧ (env.deflection w c).2 ∈ [none, some 0])
    (hc : ∀ w s eta xsi, env.camber w s eta xsi = 0) :
    genLattice env true alpha beta ac' = genLattice env false alpha beta ac' ∧
    ∀ l, genLattice env true alpha beta ac' = .ok l →
      ∀ k, l.normal k = (l.pts k).bind PanelPts.finNormal := by
  have key : ∀ l, genLattice env false alpha beta ac' = .ok l →
      genLattice env true alpha beta ac' = .ok l := by
    intro l hl
    obtain ⟨g3, h0, -, hp, -⟩ := lattice_entry hu h hn hl
    obtain ⟨cs, k1, k2, k3, k4, k5, -⟩ := genLattice_ok hl
    obtain ⟨n', hn'⟩ := rotateAll_panelled hu h (env := env) (es := l.book.entries) (by
      intro e he
      obtain ⟨t, ht, hpath, -, v, hv, -⟩ := hp e he
      exact ⟨t, ht, hpath, v, hv⟩)
      (fun k => (l.pts k).bind PanelPts.finNormal)
    have hsame : n' = l.normal := by
      rw [k5 rfl]
      obtain ⟨o1, o2⟩ := rotateAll_own g3 h0 hn'
      funext i
      by_cases hi : i < 0 ∨ l.book.numP ≤ i
      · exact o2 i hi
      · obtain ⟨-, r2, -⟩ := g3.ranges h0
        have hm : i ∈ pyRange 0 l.book.numP := by rw [mem_pyRange]; omega
        rw [← r2, List.mem_flatMap] at hm
        obtain ⟨e, he, hie⟩ := hm
        rw [mem_pyRange] at hie
        obtain ⟨p, hinge, corners, f1, f2, f3, f4⟩ := o1 e he
        rw [f4 i hie.1 hie.2]
        have c1 : ∀ num k, camberRotation p corners num k = none := by
          intro num k
          unfold camberRotation
          simp only
          have : ∀ eta xsi, p.camber eta xsi = 0 := by
            obtain ⟨t, ht, hpath, -⟩ := hp e he
            rw [entryParts_of ht hpath] at f1
            cases f1
            exact hc _ _
          cases (collocationXsi p.sub.quad num)[k]? with
          | none => rfl
          | some x => exact if_pos (this _ _)
        have c2 : hinge = none := by
          unfold hingeRotation at f2
          cases hct : p.sub.ctrl with
          | none => simp only [hct] at f2; cases f2; rfl
          | some c =>
            simp only [hct] at f2
            cases hh : p.strip.hinge p.sub.type with
            | none => simp [hh] at f2
            | some q =>
              simp only [hh] at f2
              cases hx : hingeAxis p.geo p.strip q.1 q.2 e.mirror with
              | error x => simp [hx] at f2
              | ok axis =>
                simp only [hx] at f2
                have : sideDeflection (env.deflection p.wing.uid c.uid) e.mirror ∈
                    [none, some 0] := by
                  unfold sideDeflection
                  cases e.mirror with
                  | false => exact (hd _ _).1
                  | true => exact (hd _ _).2
                simp only [List.mem_cons, List.not_mem_nil, or_false] at this
                rcases this with h1 | h1 <;> simp only [h1] at f2 <;> cases f2
                · rfl
                · exact if_pos trivial
        rw [c1, c2]
        rfl
    have := genLattice_build (doRot := true) (alpha := alpha) (beta := beta) (n := n') k1 k2 k3
      (by rw [k4] at hn'; simpa using hn')
    rw [this, hsame, ← k4]
  have herr : ∀ x, genLattice env false alpha beta ac' = .error x →
      genLattice env true alpha beta ac' = .error x := by
    intro x hx
    unfold genLattice at hx ⊢
    cases hb : genBook ac' with
    | error y => simp only [hb] at hx ⊢; exact hx
    | ok b =>
      simp only [hb] at hx ⊢
      cases hm : mapE (entryCorners env ac') b.entries with
      | error y => simp only [hm] at hx ⊢; exact hx
      | ok cs =>
        simp only [hm] at hx ⊢
        by_cases h0 : b.numP < 0
        · rw [if_pos h0] at hx ⊢; exact hx
        · rw [if_neg h0] at hx; simp at hx
  have heq : genLattice env true alpha beta ac' = genLattice env false alpha beta ac' := by
    cases hx : genLattice env false alpha beta ac' with
    | error x => exact herr x hx
    | ok l => exact key l hx
  refine ⟨heq, ?_⟩
  intro l hl k
  rw [heq] at hl
  obtain ⟨cs, -, -, -, -, k5, -⟩ := genLattice_ok hl
  rw [k5 rfl]

end Verif
