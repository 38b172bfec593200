import Verif.Props.Normals

/-!
# Property C74: symmetric aircraft have symmetric lattices, with rotated normals
-/

set_option linter.unnecessarySeqFocus false

namespace Verif

open V3

theorem finNormal_eq (g : PanelPts ℝ) [Decidable (g.normal = 0)] :
    g.finNormal = if g.normal = 0 then none else some g.normal := by
  unfold PanelPts.finNormal
  by_cases h : g.crossVec.norm = 0
  · have : g.normal = 0 := by
      unfold PanelPts.normal
      rw [V3.norm_eq_zero.1 h]
      ext <;> simp
    rw [if_pos h, if_pos this]
  · have : g.normal ≠ 0 := by
      intro h0
      have := normal_norm h
      rw [h0, V3.norm_eq_zero.2 rfl] at this
      norm_num at this
    rw [if_neg h, if_neg this]

theorem flipY_eq_zero {u : V3 ℝ} : flipY u = 0 ↔ u = 0 := by
  constructor
  · intro h
    rw [← flipY_flipY u, h, flipY_zero]
  · rintro rfl
    exact flipY_zero

theorem finNormal_flip {g g' : PanelPts ℝ} (h : g'.normal = flipY g.normal) :
    g'.finNormal = g.finNormal.map flipY := by
  classical
  rw [finNormal_eq, finNormal_eq, h]
  by_cases h0 : g.normal = 0
  · rw [if_pos h0, if_pos (flipY_eq_zero.2 h0)]
    rfl
  · rw [if_neg h0, if_neg fun hh => h0 (flipY_eq_zero.1 hh)]
    rfl

theorem turnedBy_flip {axis : V3 ℝ} {o : Option ℝ} {n n1 n1' : Option (V3 ℝ)}
    (h : TurnedBy axis o n n1) (h' : TurnedBy (-flipY axis) o (n.map flipY) n1') :
    n1' = n1.map flipY := by
  rcases h with ⟨h1, rfl⟩ | ⟨d, rfl, hd, rfl⟩
  · rcases h' with ⟨-, rfl⟩ | ⟨d', rfl, hd', -⟩
    · rfl
    · rcases h1 with h1 | h1
      · cases h1
      · exact absurd (Option.some.inj h1) hd'
  · rcases h' with ⟨h1, -⟩ | ⟨d', e, -, rfl⟩
    · rcases h1 with h1 | h1
      · cases h1
      · exact absurd (Option.some.inj h1) hd
    · cases e
      cases n with
      | none => rfl
      | some v => simp only [Option.map_some, Option.bind_some, rotate_flip]

theorem turnedBy_zero {axis : V3 ℝ} {o : Option ℝ} {n n1 : Option (V3 ℝ)}
    (h : TurnedBy axis o n n1) (h0 : o ∈ [none, some 0]) : n1 = n := by
  simp only [List.mem_cons, List.not_mem_nil, or_false] at h0
  rcases h with ⟨-, rfl⟩ | ⟨d, rfl, hd, -⟩
  · rfl
  · rcases h0 with h0 | h0
    · cases h0
    · exact absurd (Option.some.inj h0) hd

/-- What is required of a subarea (given with its strip, segment and wing) of a symmetric aircraft:
either it is on a wing mirrored in the x-z plane, deformed symmetrically if at all, and its control
is deflected by the same angle on both sides; or it lies in the x-z plane and has neither deflection
nor camber. -/
def SymmetricInput (env : LatticeEnv) (t : SubTuple ℝ) : Prop :=
  let g := env.geo t.2.2.2.1 t.2.2.1.1
  let defl := env.deflection t.2.2.2.2.uid
  (t.2.2.2.2.symmetry = 2 ∧ g.symmetry = 2 ∧ g.SymmetricDef ∧
    ∀ c, t.1.2.ctrl = some c → (defl c.uid).1 = (defl c.uid).2) ∨
  (t.2.2.2.2.symmetry = 0 ∧
    (∀ v, subareaVertices g t.2.1.2 t.1.2.quad false = .ok v →
      v.a.y = 0 ∧ v.b.y = 0 ∧ v.c.y = 0 ∧ v.d.y = 0) ∧
    (∀ c, t.1.2.ctrl = some c → (defl c.uid).1 ∈ [none, some 0]) ∧
    ∀ eta xsi, env.camber t.2.2.2.1 t.2.2.1.1 eta xsi = 0)

/-- Inner and outer edge of the subarea are parallel (one of them may be a point), or the airfoil has no
camber. -/
def ParallelChords (env : LatticeEnv) (t : SubTuple ℝ) : Prop :=
  (∀ eta xsi, env.camber t.2.2.2.1 t.2.2.1.1 eta xsi = 0) ∨
  ∀ v, subareaVertices (env.geo t.2.2.2.1 t.2.2.1.1) t.2.1.2 t.1.2.quad false = .ok v →
    ∃ (u : V3 ℝ) (p q : ℝ), v.d - v.a = p • u ∧ v.c - v.b = q • u

theorem camberAxis_eq (v : Corners (V3 ℝ)) :
    camberAxis v = unit (((v.b - v.a).cross (v.d - v.a)).cross (v.d - v.a)) := by
  show v.a + unit (((v.b - v.a).cross (v.d - v.a)).cross (v.d - v.a)) - v.a = _
  generalize unit _ = w
  ext <;> vsimp <;> ring

theorem unit_smul {k : ℝ} (hk : 0 < k) (v : V3 ℝ) : unit (k • v) = unit v := by
  unfold unit
  rw [norm_smul, abs_of_pos hk]
  have : 1 / (k * v.norm) * k = 1 / v.norm := by
    field_simp
  ext <;> simp only [smul_x, smul_y, smul_z] <;> rw [← mul_assoc, this]

/-- On a symmetric wing with parallel chords the camber axis of the mirrored half is the reversed
mirror image of the original one. -/
theorem camberAxis_flip {v : Corners (V3 ℝ)} {k : ℝ} (hk : k ≠ 0)
    (h : v.c - v.b = k • (v.d - v.a)) :
    camberAxis ⟨flipY v.b, flipY v.a, flipY v.d, flipY v.c⟩ = -flipY (camberAxis v) := by
  rw [camberAxis_eq, camberAxis_eq]
  simp only [flipY_sub, h]
  generalize v.d - v.a = ad
  have e : v.a - v.b = -(v.b - v.a) := by ext <;> simp
  rw [e]
  generalize v.b - v.a = ab
  have : ((flipY (-ab)).cross (flipY (k • ad))).cross (flipY (k • ad)) =
      (k ^ 2) • (-flipY ((ab.cross ad).cross ad)) := by
    ext <;> simp <;> ring
  rw [this, unit_smul (by positivity)]
  unfold unit
  rw [V3.norm_neg, flipY_norm]
  generalize (ab.cross ad).cross ad = w
  ext <;> simp

/-- A panel that is turned has a chord at its inner edge. -/
theorem camberAxis_chord {v : Corners (V3 ℝ)} {theta : ℝ} {n : Option (V3 ℝ)} {m : V3 ℝ}
    (h : some m = n.bind (rotate (camberAxis v) theta)) : v.d - v.a ≠ 0 := by
  intro h0
  cases n with
  | none => cases h
  | some x =>
    have e : (camberAxis v).norm = 0 := by
      rw [camberAxis_eq, h0, V3.norm_eq_zero]
      unfold unit
      ext <;> simp
    rw [Option.bind_some, rotate, if_pos e] at h
    cases h

/-- The camber part of the rotation commutes with mirroring, if both panels get a normal. -/
theorem turnedAtCamber_flip {v : Corners (V3 ℝ)} {u : V3 ℝ} {p q : ℝ} (h1 : v.d - v.a = p • u)
    (h2 : v.c - v.b = q • u) {al : ℝ} {n : Option (V3 ℝ)} {x y : V3 ℝ}
    (a : TurnedBy (camberAxis v) (some al) n (some x))
    (c : TurnedBy (camberAxis ⟨flipY v.b, flipY v.a, flipY v.d, flipY v.c⟩) (some al) (n.map flipY)
      (some y)) : some y = (some x : Option (V3 ℝ)).map flipY := by
  have z : ∀ w : V3 ℝ, (0 : ℝ) • w = 0 := fun w => by ext <;> simp
  by_cases h0 : al = 0
  · rw [turnedBy_zero c (by simp [h0]), turnedBy_zero a (by simp [h0])]
  · have hp : p ≠ 0 := by
      rintro rfl
      rcases a with ⟨h | h, -⟩ | ⟨d, -, -, h⟩
      · cases h
      · exact h0 (Option.some.inj h)
      · exact camberAxis_chord h (by rw [h1, z])
    have hq : q ≠ 0 := by
      rintro rfl
      rcases c with ⟨h | h, -⟩ | ⟨d, -, -, h⟩
      · cases h
      · exact h0 (Option.some.inj h)
      · refine camberAxis_chord h ?_
        show flipY v.c - flipY v.b = 0
        rw [flipY_sub, h2, z, flipY_zero]
    rw [camberAxis_flip (k := q / p) (div_ne_zero hq hp) (by
      rw [h1, h2]
      ext <;> simp only [smul_x, smul_y, smul_z] <;> field_simp)] at c
    exact turnedBy_flip a c

/-- The hinge part of the rotation commutes with mirroring. -/
theorem turnedAtHinge_flip {defl : String → Option ℝ × Option ℝ} {g : GeoEnv ℝ} {d : Strip ℝ}
    {a : Subarea ℝ} {n n1 n1' : Option (V3 ℝ)} (hg : g.symmetry = 2) (hs : g.SymmetricDef)
    (hd : ∀ c, a.ctrl = some c → (defl c.uid).1 = (defl c.uid).2)
    (h : TurnedAtHinge defl g d a false n n1)
    (h' : TurnedAtHinge defl g d a true (n.map flipY) n1') : n1' = n1.map flipY := by
  have key : ∀ f f' : Dev ℝ, f = f' → a.ctrl = some f.ctrl →
      (∃ axis, hingeAxis g d f.h1 f.h2 false = .ok axis ∧
        TurnedBy axis (if false = true then (defl f.ctrl.uid).2 else (defl f.ctrl.uid).1) n n1) →
      (∃ axis, hingeAxis g d f'.h1 f'.h2 true = .ok axis ∧
        TurnedBy axis (if true = true then (defl f'.ctrl.uid).2 else (defl f'.ctrl.uid).1)
          (n.map flipY) n1') → n1' = n1.map flipY := by
    rintro f f' rfl hc ⟨ax, ha, ht⟩ ⟨ax', ha', ht'⟩
    have := (C21_mirror_axis g hs d f.h1 f.h2 ax ax' ha ha').2 hg
    rw [reflect_two] at this
    subst this
    simp only [Bool.false_eq_true, if_false, if_true] at ht ht'
    rw [← hd _ hc] at ht'
    exact turnedBy_flip ht ht'
  have hty : "slat" ≠ "flap" ∧ "segment" ≠ "flap" ∧ "segment" ≠ "slat" := by decide
  obtain ⟨t1, t2, t3⟩ := hty
  rcases h with ⟨h1, rfl⟩ | ⟨f, hf, hax⟩
  · rcases h' with ⟨-, rfl⟩ | ⟨f', hf', -⟩
    · rfl
    · rcases hf' with ⟨-, e⟩ | ⟨-, e⟩
      · exact absurd (congrArg Subarea.type (h1.symm.trans e)) t3
      · exact absurd (congrArg Subarea.type (h1.symm.trans e)) t2
  · rcases h' with ⟨h1, -⟩ | ⟨f', hf', hax'⟩
    · rcases hf with ⟨-, e⟩ | ⟨-, e⟩
      · exact absurd (congrArg Subarea.type (h1.symm.trans e)) t3
      · exact absurd (congrArg Subarea.type (h1.symm.trans e)) t2
    · rcases hf with ⟨s1, e1⟩ | ⟨s1, e1⟩ <;> rcases hf' with ⟨s2, e2⟩ | ⟨s2, e2⟩
      · exact key f f' (Option.some.inj (s1.symm.trans s2)) (by rw [e1]) hax hax'
      · exact absurd (congrArg Subarea.type (e1.symm.trans e2)) t1
      · exact absurd (congrArg Subarea.type (e2.symm.trans e1)) t1
      · exact key f f' (Option.some.inj (s1.symm.trans s2)) (by rw [e1]) hax hax'

/-- Points of the mirrored panel in a row. -/
theorem panelPts_flip {leg : V3 ℝ} (hl : leg.y = 0) (c : Corners (V3 ℝ)) (n : ℤ) (i : ℕ)
    (hi : (i : ℤ) < n) (m m' : V3 ℝ) (hm : m' = flipY m) :
    (panelPts (Coef.of ⟨flipY c.b, flipY c.a, flipY c.d, flipY c.c⟩) leg 1 n i 0).normal =
      flipY (panelPts (Coef.of c) leg 1 n i 0).normal ∧
    { (panelPts (Coef.of ⟨flipY c.b, flipY c.a, flipY c.d, flipY c.c⟩) leg 1 n i 0).toPanel
        with n := m' } = Panel.flip { (panelPts (Coef.of c) leg 1 n i 0).toPanel with n := m } := by
  have hn : n = (n.toNat : ℤ) := by omega
  have key := C40_mirrored_lattice c leg 1 n.toNat i 0 (by norm_num)
  simp only [reflect_two, Nat.sub_self, Nat.cast_one] at key
  rw [← hn] at key
  obtain ⟨-, -, -, -, h1, h2, h3, h4, h5, h6, -, h7⟩ := key
  obtain ⟨h8, h9⟩ := h7 hl
  refine ⟨h5, ?_⟩
  unfold Panel.flip PanelPts.toPanel
  simp only [h1, h2, h3, h4, h6, h8, h9, hm]

theorem panelAt_some {l : LatticeData} {i : ℤ} {p : Panel} (h : l.panelAt i = some p) :
    ∃ g n, l.pts i = some g ∧ l.normal i = some n ∧ p = { g.toPanel with n := n } := by
  unfold LatticeData.panelAt at h
  cases hg : l.pts i with
  | none => simp [hg] at h
  | some g =>
    cases hn : l.normal i with
    | none => simp [hg, hn] at h
    | some n =>
      simp only [hg, hn] at h
      exact ⟨g, n, rfl, rfl, (Option.some.inj h).symm⟩

/-- **C74** (partial): for a symmetric aircraft in flight without sideslip the lattice is symmetric —
normals rotated for deflections and camber included — provided that inner and outer edges of
cambered subareas are parallel.  Missing: twisted cambered wings, where the claim is false, see
`C74_twisted_false`. -/
theorem C74_symmetric_lattice_partial (ac ac' : PAircraft ℝ) (hu : ac.Unpanelled)
    (h : prePanelling ac = .ok ac') (hn : ac.NumC 0) (env : LatticeEnv) (alpha : ℝ)
    (hs : ∀ t ∈ allSubareas ac', SymmetricInput env t)
    (hp : ∀ t ∈ allSubareas ac', ParallelChords env t)
    (l : LatticeData) (hl : genLattice env true alpha 0 ac' = .ok l)
    (P : Fin l.num → Panel) (hP : ∀ k : Fin l.num, l.panel k = some (P k)) :
    ∃ σ, SymmetricWith σ P := by
  have hleg : (trailLeg alpha 0).y = 0 := by
    unfold trailLeg freestreamDir deg2rad
    simp
  obtain ⟨g3, h0, ⟨gs, q1, q2⟩, hE, -⟩ := lattice_entry hu h hn hl
  have hC := C71_own_rotations ac ac' hu h hn env alpha 0 l hl
  generalize trailLeg alpha 0 = leg at hleg hE hC
  obtain ⟨-, r2, r3, -⟩ := g3.ranges h0
  obtain ⟨b1, b2⟩ := g3.bounds h0
  -- panels by integer number
  let p0 : Panel := ⟨0, 0, 0, 0, 0, 0, 0, 0⟩
  let pt : ℤ → Panel := fun i => (l.panelAt i).getD p0
  have hfin : ∀ i, 0 ≤ i → i < l.book.numP → l.panelAt i = some (pt i) := by
    intro i h1 h2
    have hk : i.toNat < l.num := by unfold LatticeData.num; omega
    have := hP ⟨i.toNat, hk⟩
    have e : l.panelAt i = some (P ⟨i.toNat, hk⟩) := by
      rw [← this]
      unfold LatticeData.panel
      simp only [Int.toNat_of_nonneg h1]
    simp only [pt]
    rw [e]
    rfl
  have hlist : List.ofFn P = l.book.entries.flatMap fun e => (pyRange e.start e.stop).map pt := by
    rw [← List.map_flatMap, r2]
    unfold pyRange
    rw [List.map_map, sub_zero]
    apply List.ext_getElem
    · rw [List.length_ofFn]; simp [LatticeData.num]
    · intro k hk1 hk2
      simp only [List.getElem_ofFn, List.getElem_map, List.getElem_range, Function.comp, zero_add]
      have hk : k < l.num := by simpa using hk1
      have h1 := hP ⟨k, hk⟩
      have h2 := hfin k (by omega) (by unfold LatticeData.num at hk; omega)
      have e : l.panelAt (k : ℤ) = l.panel k := rfl
      rw [e] at h2
      simp only at h1
      rw [h1] at h2
      exact Option.some.inj h2
  have hperm : ((List.ofFn P).map Panel.image).Perm (List.ofFn P) := by
    rw [hlist, ← q1]
    have hent : ∀ g ∈ gs, ∀ e ∈ g, e ∈ l.book.entries := fun g hg e he => by
      rw [← q1]; exact List.mem_flatten.2 ⟨g, hg, he⟩
    have hsub : ∀ t ∈ allSubareas ac', t ∈ allSubareas ac' := fun _ h => h
    generalize hts : allSubareas ac' = ts at q2 hsub
    rw [hts] at hs hp
    have hsub' : ∀ t ∈ ts, t ∈ allSubareas ac' := by rw [hts]; exact fun _ h => h
    clear hts hsub q1 hlist hP
    induction q2 with
    | nil => exact .refl _
    | @cons t g ts gs hd _ ih =>
      rw [List.flatten_cons, List.flatMap_append, List.map_append]
      refine List.Perm.append ?_ (ih (fun g hg => hent g (List.mem_cons_of_mem _ hg))
        (fun t ht => hp t (List.mem_cons_of_mem _ ht))
        (fun t ht => hs t (List.mem_cons_of_mem _ ht))
        (fun t ht => hsub' t (List.mem_cons_of_mem _ ht)))
      have htmem := hsub' t (by simp)
      -- facts for an entry of this group
      have fact : ∀ e ∈ g, e.path = SubTuple.path t → ∃ v,
          subareaVertices (env.geo t.2.2.2.1 t.2.2.1.1) t.2.1.2 t.1.2.quad e.mirror = .ok v ∧
          ∀ k : ℕ, (k : ℤ) < e.numC → ∃ n1 n2,
            TurnedAtHinge (env.deflection t.2.2.2.2.uid) (env.geo t.2.2.2.1 t.2.2.1.1)
              t.2.1.2 t.1.2 e.mirror (panelPts (Coef.of v) leg 1 e.numC k 0).finNormal n1 ∧
            TurnedAtCamber (env.camber t.2.2.2.1 t.2.2.1.1) t.2.1.2 t.1.2 v e.numC.toNat k n1
              (some n2) ∧
            pt (e.start + k) = { (panelPts (Coef.of v) leg 1 e.numC k 0).toPanel with n := n2 } := by
        intro e he hpath
        have hem := hent g (by simp) e he
        obtain ⟨t', ht', hpath', v, hv, hk⟩ := hC e hem
        have htt : t' = t := by
          have e1 := entryParts_of (env := env) ht' hpath'
          obtain ⟨⟨i, a⟩, ⟨j, d⟩, ⟨k, s⟩, m, w⟩ := t
          obtain ⟨⟨i', a'⟩, ⟨j', d'⟩, ⟨k', s'⟩, m', w'⟩ := t'
          obtain ⟨x1, x2, x3, x4⟩ := ((C60_all_subareas ac').1 m k j i w s d a).1 htmem
          obtain ⟨y1, y2, y3, y4⟩ := ((C60_all_subareas ac').1 m' k' j' i' w' s' d' a').1 ht'
          rw [hpath] at hpath'
          simp only [SubTuple.path, SubPath.mk.injEq] at hpath'
          obtain ⟨rfl, rfl, rfl, rfl⟩ := hpath'
          rw [x1] at y1
          cases y1
          rw [x2] at y2
          cases y2
          rw [x3] at y3
          cases y3
          rw [x4] at y4
          cases y4
          rfl
        subst htt
        refine ⟨v, hv, ?_⟩
        intro k hkn
        obtain ⟨m1, n1, m2, m3⟩ := hk k hkn
        have hb := b2 e hem
        have hr := r3 e hem
        obtain ⟨g', n2, z1, z2, z3⟩ := panelAt_some (hfin (e.start + k) (by omega) (by omega))
        rw [m1] at z1
        cases z1
        rw [z2] at m3
        exact ⟨n1, n2, m2, m3, z3⟩
      have range_eq : ∀ e ∈ g, (pyRange e.start e.stop).map pt =
          (List.range e.numC.toNat).map fun k : ℕ => pt (e.start + k) := by
        intro e he
        have := r3 e (hent g (by simp) e he)
        unfold pyRange
        rw [List.map_map, this, add_sub_cancel_left]
        rfl
      obtain ⟨e, m1, -, m3, -, ⟨ms, hg⟩ | ⟨ms, e', hg, n1, -, n3, n4, -⟩⟩ := hd
      · subst hg
        rw [List.flatMap_singleton, image_inPlane]
        intro p hpm
        rw [range_eq e (by simp)] at hpm
        obtain ⟨k, hk, rfl⟩ := List.mem_map.1 hpm
        rw [List.mem_range] at hk
        obtain ⟨v, hv, hk'⟩ := fact e (by simp) m3
        obtain ⟨n1, n2, a1, a2, a3⟩ := hk' k (by omega)
        rcases hs t (by simp) with ⟨c1, -⟩ | ⟨-, c2, c3, c4⟩
        · rw [ms] at c1; cases c1
        · have hpl := rowPanels_inPlane hleg e.numC (c2 v (by rw [← m1]; exact hv))
            (panelPts (Coef.of v) leg 1 e.numC k 0).toPanel
            (by unfold rowPanels
                exact List.mem_map.2 ⟨k, List.mem_range.2 hk, rfl⟩)
          have h1 : n1 = (panelPts (Coef.of v) leg 1 e.numC k 0).finNormal := by
            rcases a1 with ⟨-, a1⟩ | ⟨f, hf, ax, -, a1⟩
            · exact a1
            · refine turnedBy_zero a1 ?_
              rw [m1]
              simp only [Bool.false_eq_true, if_false]
              exact c3 f.ctrl (by rcases hf with ⟨-, e⟩ | ⟨-, e⟩ <;> rw [e])
          have h2 : some n2 = n1 := turnedBy_zero a2 (by simp [c4])
          rw [h1] at h2
          obtain ⟨-, rfl⟩ := finNormal_some h2.symm
          rw [a3]
          exact hpl
      · subst hg
        rw [List.flatMap_cons, List.flatMap_singleton, range_eq e (by simp), range_eq e' (by simp)]
        have : (List.range e'.numC.toNat).map (fun k : ℕ => pt (e'.start + k)) =
            ((List.range e.numC.toNat).map fun k : ℕ => pt (e.start + k)).map Panel.flip := by
          rw [List.map_map, n4]
          refine List.map_congr_left fun k hk => ?_
          rw [List.mem_range] at hk
          obtain ⟨v, hv, hk1⟩ := fact e (by simp) m3
          obtain ⟨v', hv', hk2⟩ := fact e' (by simp) (by rw [n3]; exact m3)
          obtain ⟨x1, x2, a1, a2, a3⟩ := hk1 k (by omega)
          obtain ⟨y1, y2, c1, c2, c3⟩ := hk2 k (by omega)
          rcases hs t (by simp) with ⟨-, s2, s3, s4⟩ | ⟨s1, -⟩
          · rw [m1] at hv a1
            rw [n1] at hv' c1
            rw [n4] at c1 c2 c3
            obtain ⟨w, w1, w2⟩ := C40_corners_delivered _ s2 s3 t.2.1.2 t.1.2.quad
            rw [hv] at w1
            cases w1
            rw [hv'] at w2
            cases w2
            simp only [reflect_two] at c1 c2 c3 hv'
            obtain ⟨z1, -⟩ := panelPts_flip hleg v e.numC k (by omega) 0 0 (by rw [flipY_zero])
            rw [finNormal_flip z1] at c1
            have hy1 := turnedAtHinge_flip s2 s3 s4 a1 c1
            subst hy1
            have hy2 : some y2 = (some x2 : Option (V3 ℝ)).map flipY := by
              rcases hp t (by simp) with hz | hpar
              · rw [turnedBy_zero c2 (by simp [hz]), turnedBy_zero a2 (by simp [hz])]
              · obtain ⟨u, p, q, k1, k2⟩ := hpar v hv
                exact turnedAtCamber_flip k1 k2 a2 c2
            obtain ⟨-, z2⟩ := panelPts_flip hleg v e.numC k (by omega) x2 y2
              (Option.some.inj hy2)
            rw [c3, z2, Function.comp, a3]
          · exact absurd s1 ms
        rw [this]
        exact image_pairs _
  obtain ⟨σ, hσ⟩ := symmetric_of_perm hperm
  have hlen : (List.ofFn P).length = l.num := List.length_ofFn
  refine ⟨((finCongr hlen).symm.trans σ).trans (finCongr hlen), ?_⟩
  intro i
  have := hσ ((finCongr hlen).symm i)
  simp only [List.get_eq_getElem, List.getElem_ofFn, finCongr_symm, finCongr_apply,
    Fin.val_cast, Equiv.trans_apply] at this ⊢
  exact this

end Verif
