import Verif.Props.NormalsMirror
import Mathlib.Tactic.NormNum

/-!
# Property C76, examples for C70-C74, and lattices that are not symmetric
-/

set_option linter.unnecessarySeqFocus false

namespace Verif

open V3

/-! ## C76 -/

theorem subareaVertices_total (g : GeoEnv ℝ) (s : Strip ℝ) (q : Quad ℝ) (m : Bool)
    (hm : m = true → SymFlag g.symmetry) : ∃ v, subareaVertices g s q m = .ok v := by
  cases m with
  | false =>
    unfold subareaVertices
    rw [absVertices_eq]
    exact ⟨_, rfl⟩
  | true =>
    have hk := hm rfl
    unfold subareaVertices
    rw [absVertices_mirror_eq g hk]
    rcases hk with h | h | h <;> simp [orderMirrored, h]

/-- **C76**: for each panelled aircraft the lattice is generated without an exception, with or
without rotation of normals and whatever the deflections, camber lines and deformations are;
symmetric wings need a valid symmetry flag. -/
theorem C76_lattice_generated (ac ac' : PAircraft ℝ) (hu : ac.Unpanelled)
    (h : prePanelling ac = .ok ac') (hn : ac.NumC 0) (env : LatticeEnv) (doRot : Bool)
    (alpha beta : ℝ)
    (hs : ∀ t ∈ allSubareas ac', t.2.2.2.2.symmetry ≠ 0 →
      SymFlag (env.geo t.2.2.2.1 t.2.2.1.1).symmetry) :
    ∃ l, genLattice env doRot alpha beta ac' = .ok l := by
  obtain ⟨b, gs, hb, g1, g2, g3, -, -, g6, -⟩ := genBook_facts hu h le_rfl hn
  have hent : ∀ e ∈ b.entries, ∃ t ∈ allSubareas ac', e.path = SubTuple.path t ∧
      ∃ v, subareaVertices (env.geo t.2.2.2.1 t.2.2.1.1) t.2.1.2 t.1.2.quad e.mirror = .ok v := by
    intro e he
    rw [← g2, List.mem_flatten] at he
    obtain ⟨g, hg, heg⟩ := he
    obtain ⟨t, ht, e0, m1, -, m3, -, m5⟩ := forall₂_mem_right g1 hg
    refine ⟨t, ht, ?_⟩
    rcases m5 with ⟨-, rfl⟩ | ⟨m4, e', rfl, n1, -, n3, -⟩
    · rw [List.mem_singleton.1 heg]
      exact ⟨m3, subareaVertices_total _ _ _ _ (by rw [m1]; simp)⟩
    · simp only [List.mem_cons, List.not_mem_nil, or_false] at heg
      rcases heg with rfl | rfl
      · exact ⟨m3, subareaVertices_total _ _ _ _ (by rw [m1]; simp)⟩
      · exact ⟨n3.trans m3, subareaVertices_total _ _ _ _ fun _ => hs t ht m4⟩
  obtain ⟨cs, hcs⟩ := mapE_total (f := entryCorners env ac') (l := b.entries) (by
    intro e he
    obtain ⟨t, ht, hp, v, hv⟩ := hent e he
    refine ⟨v, ?_⟩
    unfold entryCorners
    rw [entryParts_of ht hp]
    exact hv)
  have h0 : 0 ≤ b.numP := (g3.bounds fun e he => (g6 e he).1).1
  cases doRot with
  | false => exact ⟨_, genLattice_build (doRot := false) hb hcs h0 (by simp; rfl)⟩
  | true =>
    obtain ⟨n, hn'⟩ := rotateAll_panelled hu h (env := env) (es := b.entries) hent (fun k =>
      (lastPanel (vlmLattice (trailLeg alpha beta) (b.inputsOf cs)) k).bind PanelPts.finNormal)
    exact ⟨_, genLattice_build (doRot := true) hb hcs h0 (by simpa using hn')⟩

/-! ## An aircraft with a flap -/

/-- One wing with one segment and a full-span flap behind 75 % chord, one panel in front of the
hinge line and one behind it on each side. -/
noncomputable def flapAircraft (sym : ℕ) : PAircraft ℝ :=
  { wings := [{ uid := "W", symmetry := sym
                segments := [⟨"S", 1, some 1, some 1, fun _ _ _ => 0, fun _ _ _ _ => 1,
                  initStrips⟩]
                controls := [⟨"F", "flap", "S", "S", 0, 1, 3/4, 3/4, none, none, some 1⟩] }] }

noncomputable def flapStripR : Strip ℝ :=
  { etaA := 0, etaB := 1, etaC := 1, etaD := 0, main := ⟨0, 0, 3/4, 3/4⟩, slat := none
    flap := some ⟨⟨3/4, 3/4, 1, 1⟩, 3/4, 3/4, ⟨"F", "flap"⟩⟩, keys := ["flap"] }

/-- Its segment after panelling. -/
noncomputable def flapSegP : PSegment ℝ :=
  ⟨"S", 1, some 1, some 1, fun _ _ _ => 0, fun _ _ _ _ => 1, [flapStripR]⟩

/-- The wing after panelling. -/
noncomputable def flapWingP (sym : ℕ) : PWing ℝ :=
  { uid := "W", symmetry := sym, segments := [flapSegP]
    controls := [⟨"F", "flap", "S", "S", 0, 1, 3/4, 3/4, none, none, some 1⟩] }

/-- The aircraft after panelling. -/
noncomputable def flapPanelled (sym : ℕ) : PAircraft ℝ := { wings := [flapWingP sym] }

theorem flapStrip_added : (Strip.init 0 1 1 0 : Strip ℝ).addSubarea ⟨"F", "flap"⟩ (3/4) (3/4)
    (some (3/4)) (some (3/4)) = .ok flapStripR := by
  unfold Strip.addSubarea
  rw [if_neg (by simp), if_neg (by simp [Strip.hasDevice, Strip.init])]
  simp only [Option.getD_some]
  rw [if_neg (by norm_num), if_neg (by norm_num),
    if_neg (by simp [Strip.overlaps, Strip.init]), if_neg (by decide)]
  rfl

theorem flapAircraft_panelled (sym : ℕ) :
    prePanelling (flapAircraft sym) = .ok (flapPanelled sym) := by
  have h1 : placeControls [⟨"F", "flap", "S", "S", 0, 1, 3/4, 3/4, none, none, some 1⟩]
      [(⟨"S", 1, some 1, some 1, fun _ _ _ => 0, fun _ _ _ _ => 1, initStrips⟩ : PSegment ℝ)] =
      .ok [⟨"S", 1, some 1, some 1, fun _ _ _ => 0, fun _ _ _ _ => 1, [flapStripR]⟩] := by
    have hc : addSubdivisionForControl (fun _ _ _ => 0) (0 : ℝ) 1 ⟨"F", "flap"⟩ (3/4) (3/4) none
        none initStrips = (.ok (), [flapStripR]) := by
      unfold addSubdivisionForControl
      simp only [Option.getD_none, if_true]
      unfold controlFrom initStrips
      simp only [List.getElem?_cons_zero]
      rw [if_pos (show (1 : ℝ) = (Strip.init 0 1 1 0 : Strip ℝ).etaB from rfl)]
      unfold addRows
      simp only [List.getElem?_cons_zero, flapStrip_added]
      rfl
    simp only [placeControls, placeControl, if_true, PSegment.update, PControl.control, hc,
      asExcept]
  have h2 : mapE PSegment.addSpanLines
      [(⟨"S", 1, some 1, some 1, fun _ _ _ => 0, fun _ _ _ _ => 1, [flapStripR]⟩ : PSegment ℝ)] =
      .ok [⟨"S", 1, some 1, some 1, fun _ _ _ => 0, fun _ _ _ _ => 1, [flapStripR]⟩] := by
    simp [mapE, PSegment.addSpanLines, spanLines, addLines]
  unfold prePanelling flapAircraft
  simp only [mapE, PWing.mapSegments, h1]
  simp only [mapE] at h2
  simp only [h2]
  rfl

theorem flapAircraft_ok (sym : ℕ) :
    (flapAircraft sym).Unpanelled ∧ (flapAircraft sym).NumC 0 := by
  refine ⟨?_, ?_⟩
  · intro w hw s hs
    simp only [flapAircraft, List.mem_singleton] at hw
    subst hw
    simp only [List.mem_singleton] at hs
    subst hs
    rfl
  · intro w hw
    simp only [flapAircraft, List.mem_singleton] at hw
    subst hw
    simp

/-- Bookkeeping of the wing when it is symmetric: front area and flap, each followed by its
mirror image. -/
def flapBook : List BookEntry :=
  [⟨⟨0, 0, 0, 0⟩, "W", 0, 1, 1, false⟩, ⟨⟨0, 0, 0, 0⟩, "W", 1, 2, 1, true⟩,
   ⟨⟨0, 0, 0, 1⟩, "W", 2, 3, 1, false⟩, ⟨⟨0, 0, 0, 1⟩, "W", 3, 4, 1, true⟩]

theorem flapAircraft_book {sym : ℕ} (hs : sym ≠ 0) :
    ∃ b, genBook (flapPanelled sym) = .ok b ∧ b.entries = flapBook ∧ b.numP = 4 := by
  have ha : allSubareas (flapPanelled sym) =
      [((0, ⟨"segment", flapStripR.main, none⟩), (0, flapStripR),
        (0, flapSegP), (0, (flapWingP sym))),
       ((1, ⟨"flap", ⟨3/4, 3/4, 1, 1⟩, some ⟨"F", "flap"⟩⟩), (0, flapStripR),
        (0, flapSegP), (0, (flapWingP sym)))] := by
    rfl
  have h1 : chordPanels (flapWingP sym) flapSegP
      ⟨"segment", flapStripR.main, none⟩ = .ok 1 := by
    unfold chordPanels
    simp only [if_true]
    show Except.ok ⌈flapStripR.main.relLength * ((1 : ℤ) : ℝ)⌉ = _
    congr 1
    unfold Quad.relLength flapStripR
    rw [Int.ceil_eq_iff]
    norm_num
  have h2 : chordPanels (flapWingP sym) flapSegP
      ⟨"flap", ⟨3/4, 3/4, 1, 1⟩, some ⟨"F", "flap"⟩⟩ = .ok 1 := by
    unfold chordPanels
    simp [flapWingP]
  have hsy : (flapWingP sym).symmetry = sym := rfl
  have hb : ∃ b, genBook (flapPanelled sym) = .ok b := by
    unfold genBook
    rw [ha]
    simp only [countFrom, countStep, h1, h2, hsy, ne_eq, hs, not_false_eq_true, if_true]
    exact ⟨_, rfl⟩
  obtain ⟨b, hb⟩ := hb
  refine ⟨b, hb, ?_⟩
  unfold genBook at hb
  rw [ha] at hb
  simp only [countFrom, countStep, h1, h2, hsy, ne_eq, hs, not_false_eq_true, if_true] at hb
  cases hb
  exact ⟨rfl, rfl⟩


/-- Straight wing of chord 4 and half span 2 with dihedral. -/
noncomputable def flapEnv (defl : Option ℝ × Option ℝ) : LatticeEnv :=
  { geo := fun _ _ => ⟨⟨⟨0, 0, 0⟩, ⟨0, 2, 1⟩, ⟨4, 2, 1⟩, ⟨4, 0, 0⟩⟩, 2, none, none⟩
    deflection := fun _ _ => defl
    camber := fun _ _ _ _ => 3 }

/-- Non-vacuity of **C76**, **C70** and **C71**: the wing with flaps deflected by 5 and -5 degree. -/
example : ∃ l, genLattice (flapEnv (some 5, some (-5))) true 2 0 (flapPanelled 2) = .ok l ∧
    l.book.entries = flapBook ∧
    (∀ e ∈ l.book.entries, 1 ≤ e.numC) ∧ ∃ t ∈ allSubareas (flapPanelled 2), t.1.2.ctrl ≠ none := by
  obtain ⟨l, hl⟩ := C76_lattice_generated _ _ (flapAircraft_ok 2).1 (flapAircraft_panelled 2)
    (flapAircraft_ok 2).2 (flapEnv (some 5, some (-5))) true 2 0 (fun _ _ _ => .inr (.inl rfl))
  obtain ⟨b, hb, h1, -⟩ := flapAircraft_book (sym := 2) (by norm_num)
  obtain ⟨-, k1, -⟩ := genLattice_ok hl
  rw [hb] at k1
  cases k1
  refine ⟨l, hl, h1, ?_, ?_⟩
  · rw [h1]; decide
  · exact ⟨_, List.mem_cons_of_mem _ (List.mem_singleton.2 rfl), by simp⟩

/-! ## C74: twisted wings -/

/-- The claim **C74** without the condition on the chords. -/
def SymmetricLattices : Prop :=
  ∀ (ac ac' : PAircraft ℝ), ac.Unpanelled → prePanelling ac = .ok ac' → ac.NumC 0 →
    ∀ (env : LatticeEnv) (alpha : ℝ), (∀ t ∈ allSubareas ac', SymmetricInput env t) →
    ∀ l, genLattice env true alpha 0 ac' = .ok l →
    ∀ P : Fin l.num → Panel, (∀ k : Fin l.num, l.panel k = some (P k)) → ∃ σ, SymmetricWith σ P

/-- One wing, one segment, one panel on each side. -/
noncomputable def onePanelAc : PAircraft ℝ :=
  { wings := [{ uid := "W", symmetry := 2
                segments := [⟨"S", 1, some 1, some 1, fun _ _ _ => 0, fun _ _ _ _ => 1,
                  initStrips⟩]
                controls := [] }] }

theorem plainAc_panelled : prePanelling onePanelAc = .ok onePanelAc := by
  have h2 : mapE PSegment.addSpanLines
      [(⟨"S", 1, some 1, some 1, fun _ _ _ => 0, fun _ _ _ _ => 1, initStrips⟩ : PSegment ℝ)] =
      .ok [⟨"S", 1, some 1, some 1, fun _ _ _ => 0, fun _ _ _ _ => 1, initStrips⟩] := by
    simp [mapE, PSegment.addSpanLines, spanLines, addLines, initStrips]
  unfold prePanelling onePanelAc
  simp only [mapE, PWing.mapSegments, placeControls]
  simp only [mapE] at h2
  simp only [h2]

theorem plainAc_ok : onePanelAc.Unpanelled ∧ onePanelAc.NumC 0 := by
  refine ⟨?_, ?_⟩
  · intro w hw s hs
    simp only [onePanelAc, List.mem_singleton] at hw
    subst hw
    simp only [List.mem_singleton] at hs
    subst hs
    rfl
  · intro w hw
    simp only [onePanelAc, List.mem_singleton] at hw
    subst hw
    simp

/-- The only subarea of the aircraft. -/
noncomputable def plainSub : SubTuple ℝ :=
  ((0, ⟨"segment", Quad.init 0 0 1 1, none⟩), (0, Strip.init 0 1 1 0),
    (0, ⟨"S", 1, some 1, some 1, fun _ _ _ => 0, fun _ _ _ _ => 1, initStrips⟩),
    (0, ⟨"W", 2, [⟨"S", 1, some 1, some 1, fun _ _ _ => 0, fun _ _ _ _ => 1, initStrips⟩], []⟩))

theorem plain_subareas : allSubareas onePanelAc = [plainSub] := rfl

theorem plain_book : ∃ b, genBook onePanelAc = .ok b ∧
    b.entries = [⟨⟨0, 0, 0, 0⟩, "W", 0, 1, 1, false⟩, ⟨⟨0, 0, 0, 0⟩, "W", 1, 2, 1, true⟩] ∧
    b.numP = 2 := by
  have h1 : chordPanels plainSub.2.2.2.2 plainSub.2.2.1.2 plainSub.1.2 = .ok 1 := by
    unfold chordPanels plainSub
    simp only [if_true]
    congr 1
    rw [Int.ceil_eq_iff]
    norm_num [Quad.relLength, Quad.init]
  have hsy : plainSub.2.2.2.2.symmetry = 2 := rfl
  have hb : ∃ b, genBook onePanelAc = .ok b := by
    unfold genBook
    rw [plain_subareas]
    simp only [countFrom, countStep, h1, hsy, ne_eq, OfNat.ofNat_ne_zero, not_false_eq_true, if_true]
    exact ⟨_, rfl⟩
  obtain ⟨b, hb⟩ := hb
  refine ⟨b, hb, ?_⟩
  unfold genBook at hb
  rw [plain_subareas] at hb
  simp only [countFrom, countStep, h1, hsy, ne_eq, OfNat.ofNat_ne_zero, not_false_eq_true,
    if_true] at hb
  cases hb
  exact ⟨rfl, rfl⟩

/-- A twisted wing with camber. -/
noncomputable def twistedEnv (angle : ℝ) : LatticeEnv :=
  { geo := fun _ _ => ⟨⟨⟨0, 0, 0⟩, ⟨1, 1, 0⟩, ⟨2, 1, -1⟩, ⟨1, 0, 0⟩⟩, 2, none, none⟩
    deflection := fun _ _ => (none, none)
    camber := fun _ _ _ _ => angle }

/-- Component along the vector itself of a vector turned about an axis. -/
theorem rotate_along {axis v w : V3 ℝ} {t : ℝ} (h : rotate axis t v = some w) :
    w.dot v = Real.cos t * v.dot v + (1 - Real.cos t) * ((unit axis).dot v) ^ 2 := by
  obtain ⟨-, rfl⟩ := rotate_some h
  vsimp
  ring

theorem twisted_vertices (angle : ℝ) :
    subareaVertices ((twistedEnv angle).geo 0 0) plainSub.2.1.2 plainSub.1.2.quad false =
      .ok ⟨⟨0, 0, 0⟩, ⟨1, 1, 0⟩, ⟨2, 1, -1⟩, ⟨1, 0, 0⟩⟩ ∧
    subareaVertices ((twistedEnv angle).geo 0 0) plainSub.2.1.2 plainSub.1.2.quad true =
      .ok ⟨⟨1, -1, 0⟩, ⟨0, 0, 0⟩, ⟨1, 0, 0⟩, ⟨2, -1, -1⟩⟩ := by
  constructor <;>
  · simp only [subareaVertices, Strip.absVertices, twistedEnv, plainSub, GeoEnv.isDeformed,
      Strip.init, Quad.init, mirrorVertices, Corners.mapE, mirrorPoint, orderMirrored]
    norm_num
    refine ⟨?_, ?_, ?_, ?_⟩ <;> ext <;> vsimp <;> norm_num

theorem unit_dot_sq (w c : V3 ℝ) :
    ((unit w).dot (unit c)) ^ 2 = (w.dot c) ^ 2 / (w.dot w * c.dot c) := by
  have h : (unit w).dot (unit c) = w.dot c / (w.norm * c.norm) := by
    unfold unit
    vsimp
    ring
  rw [h, div_pow, mul_pow, norm_sq, norm_sq]

/-- Normal of a panel that has camber only. -/
theorem camber_only {env : LatticeEnv} {m : Bool} {v : Corners (V3 ℝ)} {n n1 n' : Option (V3 ℝ)}
    {angle : ℝ} (ha : angle ≠ 0)
    (h1 : TurnedAtHinge (env.deflection "W") (env.geo 0 0) plainSub.2.1.2 plainSub.1.2 m n n1)
    (h2 : TurnedAtCamber (fun _ _ => angle) plainSub.2.1.2 plainSub.1.2 v 1 0 n1 n') :
    n' = n.bind (rotate (camberAxis v) (angle * (Real.pi / 180))) := by
  have e : n1 = n := by
    rcases h1 with ⟨-, h⟩ | ⟨f, ⟨-, h⟩ | ⟨-, h⟩, -⟩
    · exact h
    · have := congrArg Subarea.ctrl h
      cases this
    · have := congrArg Subarea.ctrl h
      cases this
  subst e
  rcases h2 with ⟨h | h, -⟩ | ⟨d, h, -, h'⟩
  · cases h
  · exact absurd (Option.some.inj h) ha
  · rw [h', ← Option.some.inj h]

/-- **C74** is *false* for twisted wings with camber: the camber axis is perpendicular to the inner
chord on the one side and to the outer chord on the other side. -/
theorem C74_twisted_false : ¬ SymmetricLattices := by
  intro hall
  obtain ⟨hu, hn⟩ := plainAc_ok
  have hdef : ((twistedEnv 5).geo 0 0).SymmetricDef := by
    intro p; simp [twistedEnv, displaced]
  obtain ⟨l, hl⟩ := C76_lattice_generated _ _ hu plainAc_panelled hn (twistedEnv 5) true 0 0
    (fun _ _ _ => .inr (.inl rfl))
  obtain ⟨b, hb, he, hp⟩ := plain_book
  obtain ⟨-, k1, -⟩ := genLattice_ok hl
  rw [hb] at k1
  cases k1
  have hC := C71_own_rotations _ _ hu plainAc_panelled hn (twistedEnv 5) 0 0 l hl
  generalize trailLeg 0 0 = leg at hC
  rw [he] at hC
  have c0 := hC _ (List.mem_cons_self ..)
  have c1 := hC _ (List.mem_cons_of_mem _ (List.mem_singleton.2 rfl))
  rw [plain_subareas] at c0 c1
  obtain ⟨t, ht, -, v, hv, hk⟩ := c0
  obtain ⟨t', ht', -, v', hv', hk'⟩ := c1
  rw [List.mem_singleton.1 ht] at hv hk
  rw [List.mem_singleton.1 ht'] at hv' hk'
  obtain ⟨w, w'⟩ := twisted_vertices 5
  have e1 := w.symm.trans hv
  have e2 := w'.symm.trans hv'
  cases e1
  cases e2
  obtain ⟨p0, n1, t1, t2⟩ := hk 0 (by norm_num)
  obtain ⟨p1, n1', t1', t2'⟩ := hk' 0 (by norm_num)
  have r0 := camber_only (env := twistedEnv 5) (angle := 5) (by norm_num) t1 t2
  have r1 := camber_only (env := twistedEnv 5) (angle := 5) (by norm_num) t1' t2'
  simp only [Nat.cast_zero, add_zero] at p0 p1 r0 r1
  have x0 : (panelPts (Coef.of ⟨⟨0, 0, 0⟩, ⟨1, 1, 0⟩, ⟨2, 1, -1⟩, ⟨1, 0, 0⟩⟩) leg 1 1 0 0).crossVec =
      ⟨-3/16, -3/32, -3/8⟩ := by
    ext <;> simp only [PanelPts.crossVec, panelPts, Coef.of, Coef.at] <;> vsimp <;> norm_num
  have x1 : (panelPts (Coef.of ⟨⟨1, -1, 0⟩, ⟨0, 0, 0⟩, ⟨1, 0, 0⟩, ⟨2, -1, -1⟩⟩) leg 1 1 0 0).crossVec =
      ⟨-3/16, 3/32, -3/8⟩ := by
    ext <;> simp only [PanelPts.crossVec, panelPts, Coef.of, Coef.at] <;> vsimp <;> norm_num
  have y0 : (panelPts (Coef.of ⟨⟨0, 0, 0⟩, ⟨1, 1, 0⟩, ⟨2, 1, -1⟩, ⟨1, 0, 0⟩⟩) leg 1 1 0 0).col.y =
      1 / 2 := by
    simp only [panelPts, Coef.of, Coef.at]; vsimp; norm_num
  have a0 : camberAxis ⟨⟨0, 0, 0⟩, ⟨1, 1, 0⟩, ⟨2, 1, -1⟩, ⟨1, 0, 0⟩⟩ = unit ⟨0, -1, 0⟩ := by
    rw [camberAxis_eq]
    congr 1
    ext <;> vsimp <;> norm_num
  have a1 : camberAxis ⟨⟨1, -1, 0⟩, ⟨0, 0, 0⟩, ⟨1, 0, 0⟩, ⟨2, -1, -1⟩⟩ = unit ⟨1, -2, 1⟩ := by
    rw [camberAxis_eq]
    congr 1
    ext <;> vsimp <;> norm_num
  generalize panelPts (Coef.of ⟨⟨0, 0, 0⟩, ⟨1, 1, 0⟩, ⟨2, 1, -1⟩, ⟨1, 0, 0⟩⟩) leg 1 1 0 0 = g0
    at p0 r0 x0 y0
  generalize panelPts (Coef.of ⟨⟨1, -1, 0⟩, ⟨0, 0, 0⟩, ⟨1, 0, 0⟩, ⟨2, -1, -1⟩⟩) leg 1 1 0 0 = g1
    at p1 r1 x1
  rw [a0] at r0
  rw [a1] at r1
  have nz : ∀ x y z : ℝ, x * x + y * y + z * z ≠ 0 → (⟨x, y, z⟩ : V3 ℝ).norm ≠ 0 := by
    intro x y z h h0
    apply h
    have := norm_sq (⟨x, y, z⟩ : V3 ℝ)
    rw [h0] at this
    simp only [V3.dot] at this
    linarith
  have f0 : g0.finNormal = some (unit ⟨-3/16, -3/32, -3/8⟩) := by
    unfold PanelPts.finNormal PanelPts.normal
    rw [x0, if_neg (nz _ _ _ (by norm_num))]
    rfl
  have f1 : g1.finNormal = some (unit ⟨-3/16, 3/32, -3/8⟩) := by
    unfold PanelPts.finNormal PanelPts.normal
    rw [x1, if_neg (nz _ _ _ (by norm_num))]
    rfl
  have nu : ∀ v : V3 ℝ, v.norm ≠ 0 → (unit v).norm ≠ 0 := by
    intro v hv h0
    have := unit_dot hv
    rw [V3.norm_eq_zero.1 h0] at this
    simp [V3.dot] at this
  have q0 : ∃ m, rotate (unit ⟨0, -1, 0⟩) (5 * (Real.pi / 180)) (unit ⟨-3/16, -3/32, -3/8⟩) = some m :=
    ⟨_, rotate_ne (nu _ (nz _ _ _ (by norm_num))) _ _⟩
  have q1 : ∃ m, rotate (unit ⟨1, -2, 1⟩) (5 * (Real.pi / 180)) (unit ⟨-3/16, 3/32, -3/8⟩) = some m :=
    ⟨_, rotate_ne (nu _ (nz _ _ _ (by norm_num))) _ _⟩
  obtain ⟨m0, q0⟩ := q0
  obtain ⟨m1, q1⟩ := q1
  rw [f0, Option.bind_some, q0] at r0
  rw [f1, Option.bind_some, q1] at r1
  -- the two panels
  have hnum : l.num = 2 := by unfold LatticeData.num; rw [hp]; rfl
  have z0 : l.panel 0 = some { g0.toPanel with n := m0 } := by
    unfold LatticeData.panel LatticeData.panelAt
    simp only [Nat.cast_zero, p0, r0]
  have z1 : l.panel 1 = some { g1.toPanel with n := m1 } := by
    unfold LatticeData.panel LatticeData.panelAt
    simp only [Nat.cast_one, p1, r1]
  have hpan : ∀ k : Fin l.num, ∃ p, l.panel k = some p := by
    intro k
    have := k.2
    obtain h | h : (k : ℕ) = 0 ∨ (k : ℕ) = 1 := by omega
    · rw [h]; exact ⟨_, z0⟩
    · rw [h]; exact ⟨_, z1⟩
  choose P hP using hpan
  obtain ⟨σ, hσ⟩ := hall _ _ hu plainAc_panelled hn (twistedEnv 5) 0 (by
    intro t ht
    rw [plain_subareas] at ht
    rw [List.mem_singleton.1 ht]
    exact .inl ⟨rfl, rfl, hdef, fun c hc => by cases hc⟩) l hl P hP
  have i0 : P ⟨0, by omega⟩ = { g0.toPanel with n := m0 } :=
    Option.some.inj ((hP ⟨0, by omega⟩).symm.trans z0)
  rcases hσ ⟨0, by omega⟩ with ⟨-, h⟩ | ⟨h, -⟩
  · have hlt := (σ ⟨0, by omega⟩).2
    have hPs := hP (σ ⟨0, by omega⟩)
    rw [h, i0] at hPs
    obtain h' | h' : (σ ⟨0, by omega⟩ : ℕ) = 0 ∨ (σ ⟨0, by omega⟩ : ℕ) = 1 := by omega
    · rw [h', z0] at hPs
      have := congrArg (fun p => p.col.y) (Option.some.inj hPs)
      simp only [Panel.flip, PanelPts.toPanel, flipY, y0] at this
      norm_num at this
    · rw [h', z1] at hPs
      have hm : m1 = flipY m0 := congrArg Panel.n (Option.some.inj hPs)
      have d0 := rotate_along q0
      have d1 := rotate_along q1
      have hf : (unit ⟨-3/16, 3/32, -3/8⟩ : V3 ℝ) = flipY (unit ⟨-3/16, -3/32, -3/8⟩) := by
        have : (⟨-3/16, 3/32, -3/8⟩ : V3 ℝ) = flipY ⟨-3/16, -3/32, -3/8⟩ := by
          unfold flipY; norm_num
        rw [this]
        unfold unit
        rw [flipY_norm, flipY_smul]
      rw [hm, hf, flipY_dot, flipY_dot, d0, ← hf] at d1
      have uu : ∀ x y z : ℝ, x * x + y * y + z * z ≠ 0 →
          unit (unit (⟨x, y, z⟩ : V3 ℝ)) = unit ⟨x, y, z⟩ := by
        intro x y z h
        have hnn := nz x y z h
        have := unit_smul (k := 1 / (⟨x, y, z⟩ : V3 ℝ).norm)
          (one_div_pos.2 (lt_of_le_of_ne (V3.norm_nonneg _) (Ne.symm hnn))) ⟨x, y, z⟩
        exact this
      rw [uu _ _ _ (by norm_num), uu _ _ _ (by norm_num), unit_dot_sq, unit_dot_sq] at d1
      have hc : Real.cos (5 * (Real.pi / 180)) ≠ 1 := by
        intro h1
        have hpi := Real.pi_pos
        have := (Real.cos_eq_one_iff_of_lt_of_lt (by linarith) (by linarith)).1 h1
        linarith
      apply hc
      simp only [V3.dot] at d1
      norm_num at d1
      linarith
  · rw [i0] at h
    have := h.2.2.2.2.1
    simp only [PanelPts.toPanel, y0] at this
    norm_num at this

end Verif
