import Verif.Props.Surfaces

/-!
# Properties C126 to C128: three ways to describe the same surfaces

A mirror image can be requested with the symmetry flag or described as a wing of its own, a segment
can be described from either side, and a wing can be cut into two.
-/

set_option linter.unnecessarySeqFocus false

namespace Verif

open V3

/-! ## Specification -/

/-- Another function at each corner. -/
def Corners.map' {P Q : Type*} (f : P → Q) (v : Corners P) : Corners Q := ⟨f v.a, f v.b, f v.c, f v.d⟩

/-- The wing without its mirror image. -/
def WingData.half (d : WingData) : WingData :=
  { d with
    wing := { d.wing with symmetry := 0 }
    geo := fun k => { d.geo k with symmetry := 0, defFieldMirror := none } }

/-- The mirror image as a wing of its own: the corners are the reflected ones under the same names. -/
noncomputable def WingData.otherHalf (uid : String) (d : WingData) : WingData :=
  { d with
    wing := { d.wing with uid := uid, symmetry := 0 }
    geo := fun k => ⟨(d.geo k).vertices.map' (reflect (symNormal d.wing.symmetry)), 0,
      (d.geo k).defFieldMirror, none⟩ }

/-- The second aircraft has two wings instead of a symmetric wing of the first. -/
def MirrorSpelled (env env' : LatticeEnv) (ac ac2 : PAircraft ℝ) : Prop :=
  env'.deflection = env.deflection ∧ ∃ d rest uid, d.Plain ∧ SymFlag d.wing.symmetry ∧
    (wingData env ac).Perm (d :: rest) ∧
    (wingData env' ac2).Perm (d.half :: d.otherHalf uid :: rest)

/-- Some segments described from the other side: inner and outer corners exchanged. -/
def WingData.reversed (flip : ℕ → Bool) (d : WingData) : WingData :=
  { d with
    geo := fun k => if flip k then { d.geo k with vertices := (d.geo k).vertices.swap } else d.geo k }

/-- In the second aircraft some segments of a wing are described from the other side. -/
def SidesChanged (autoS : ℤ) (env env' : LatticeEnv) (ac ac2 : PAircraft ℝ) : Prop :=
  env'.deflection = env.deflection ∧ ∃ d rest flip, d.Plain ∧
    (∀ k s n, flip k = true → d.wing.segments[k]? = some s →
      spanwisePanels autoS d.wing s = some n → n ≤ 100) ∧
    (wingData env ac).Perm (d :: rest) ∧ (wingData env' ac2).Perm (d.reversed flip :: rest)

/-- The first `n` segments of a wing. -/
def WingData.firstPart (n : ℕ) (d : WingData) : WingData :=
  { d with wing := { d.wing with segments := d.wing.segments.take n } }

/-- The other segments of a wing. -/
def WingData.secondPart (n : ℕ) (uid : String) (d : WingData) : WingData :=
  { wing := { d.wing with uid := uid, segments := d.wing.segments.drop n }
    geo := fun k => d.geo (n + k)
    camber := fun k => d.camber (n + k) }

/-- In the second aircraft a wing of the first is cut into two; the numbers of panels are given. -/
def WingCut (env env' : LatticeEnv) (ac ac2 : PAircraft ℝ) : Prop :=
  env'.deflection = env.deflection ∧ ∃ d rest n uid, d.Plain ∧
    (∀ s ∈ d.wing.segments, s.numS ≠ none) ∧ n ≤ d.wing.segments.length ∧
    (wingData env ac).Perm (d :: rest) ∧
    (wingData env' ac2).Perm (d.firstPart n :: d.secondPart n uid :: rest)

/-! ## Proofs -/

/-- The wings of the second aircraft consist of parts of the wings of the first. -/
theorem parts_ok {autoC : ℤ} {env env' : LatticeEnv} {ac ac2 : PAircraft ℝ}
    {d : WingData} {rest parts : List WingData}
    (h1 : (wingData env ac).Perm (d :: rest)) (h2 : (wingData env' ac2).Perm (parts ++ rest))
    (h : ∀ p ∈ parts, (∀ s ∈ p.wing.segments, s ∈ d.wing.segments) ∧
      p.wing.controls = d.wing.controls) :
    (ac.Unpanelled → ac2.Unpanelled) ∧ (ac.GivenNumC autoC → ac2.GivenNumC autoC) := by
  have key : ∀ w2 ∈ ac2.wings, ∃ w ∈ ac.wings, (∀ s ∈ w2.segments, s ∈ w.segments) ∧
      w2.controls = w.controls := by
    intro w2 hw2
    rw [← wingData_wings env' ac2] at hw2
    obtain ⟨p, hp, rfl⟩ := List.mem_map.1 hw2
    have hmem : ∀ q ∈ wingData env ac, q.wing ∈ ac.wings := fun q hq => by
      rw [← wingData_wings env ac]
      exact List.mem_map_of_mem hq
    rcases List.mem_append.1 (h2.mem_iff.1 hp) with hp | hp
    · exact ⟨d.wing, hmem d (h1.mem_iff.2 (by simp)), h p hp⟩
    · exact ⟨p.wing, hmem p (h1.mem_iff.2 (List.mem_cons_of_mem _ hp)), fun _ hs => hs, rfl⟩
  constructor
  · intro hu w2 hw2 s hs
    obtain ⟨w, hw, h1, -⟩ := key w2 hw2
    exact hu w hw s (h1 s hs)
  · rintro ⟨h0, hn⟩
    refine ⟨h0, fun w2 hw2 => ?_⟩
    obtain ⟨w, hw, h1, h2⟩ := key w2 hw2
    exact ⟨fun s hs => (hn w hw).1 s (h1 s hs), fun c hc => (hn w hw).2 c (by rw [← h2]; exact hc)⟩

theorem reflect_bilinear (n : V3 ℝ) (v : Corners (V3 ℝ)) (eta xsi : ℝ) :
    (v.map' (reflect n)).bilinear eta xsi = reflect n (v.bilinear eta xsi) := by
  unfold Corners.bilinear Corners.map' reflect
  ext <;> vsimp <;> ring

theorem swap_bilinear (v : Corners (V3 ℝ)) (eta xsi : ℝ) :
    v.swap.bilinear eta xsi = v.bilinear (1 - eta) xsi := by
  unfold Corners.bilinear Corners.swap
  ext <;> vsimp <;> ring

theorem forall₂_same_refl (l : List Surface) : List.Forall₂ Surface.Same l l := by
  induction l with
  | nil => exact .nil
  | cons a l ih => exact .cons (Or.inl rfl) ih

theorem MirrorSpelled.same {autoC autoS : ℤ} {env env' : LatticeEnv} {ac ac2 : PAircraft ℝ}
    (h : MirrorSpelled env env' ac ac2) : SameSurfaces autoC autoS env env' ac ac2 ∧
      (ac.Unpanelled → ac2.Unpanelled) ∧ (ac.GivenNumC autoC → ac2.GivenNumC autoC) := by
  obtain ⟨hdef, d, rest, uid, hp, hk, h1, h2⟩ := h
  refine ⟨⟨hdef, [d], [d.half, d.otherHalf uid], rest, h1, h2, ?_, ?_, ?_⟩,
    parts_ok (parts := [d.half, d.otherHalf uid]) h1 h2 ?_⟩
  · intro x hx
    rw [List.mem_singleton] at hx
    rw [hx]
    exact hp
  · intro x hx
    simp only [List.mem_cons, List.not_mem_nil, or_false] at hx
    rcases hx with rfl | rfl
    · exact ⟨hp.controls, hp.camber, Or.inl rfl, fun _ => rfl⟩
    · exact ⟨hp.controls, hp.camber, Or.inl rfl, fun _ => rfl⟩
  · refine ⟨_, ?_, forall₂_same_refl _⟩
    rw [List.flatMap_cons, List.flatMap_singleton, List.flatMap_singleton]
    unfold WingData.surfaces
    have h0 : d.wing.symmetry ≠ 0 := by
      rcases hk with h | h | h <;> omega
    have e1 : ∀ (w : PWing ℝ) (s : PSegment ℝ), w.span = d.wing.span →
        spanwisePanels autoS w s = spanwisePanels autoS d.wing s := by
      intro w s hw
      unfold spanwisePanels
      rw [hw]
    have e2 : (fun s : ℕ × PSegment ℝ => segmentSurfaces autoC autoS d.half.wing (d.half.geo s.1) s.2) =
        fun s => [⟨fun eta xsi => displaced (d.geo s.1).defField
          ((d.geo s.1).vertices.bilinear eta xsi), spanwisePanels autoS d.wing s.2,
          s.2.numC.getD autoC⟩] := by
      funext s
      unfold segmentSurfaces
      rw [if_pos (show d.half.wing.symmetry = 0 from rfl), e1 d.half.wing s.2 rfl]
      rfl
    have e3 : (fun s : ℕ × PSegment ℝ => segmentSurfaces autoC autoS (d.otherHalf uid).wing
        ((d.otherHalf uid).geo s.1) s.2) =
        fun s => [⟨fun eta xsi => displaced (d.geo s.1).defFieldMirror
          (reflect (symNormal d.wing.symmetry) ((d.geo s.1).vertices.bilinear eta xsi)),
          spanwisePanels autoS d.wing s.2, s.2.numC.getD autoC⟩] := by
      funext s
      unfold segmentSurfaces
      rw [if_pos (show (d.otherHalf uid).wing.symmetry = 0 from rfl), e1 (d.otherHalf uid).wing s.2 rfl]
      unfold WingData.otherHalf
      simp only [reflect_bilinear]
    rw [e2, e3]
    have e4 : (fun s : ℕ × PSegment ℝ => segmentSurfaces autoC autoS d.wing (d.geo s.1) s.2) =
        fun s => [(⟨fun eta xsi => displaced (d.geo s.1).defField
          ((d.geo s.1).vertices.bilinear eta xsi), spanwisePanels autoS d.wing s.2,
          s.2.numC.getD autoC⟩ : Surface)] ++
          [⟨fun eta xsi => displaced (d.geo s.1).defFieldMirror
          (reflect (symNormal d.wing.symmetry) ((d.geo s.1).vertices.bilinear eta xsi)),
          spanwisePanels autoS d.wing s.2, s.2.numC.getD autoC⟩] := by
      funext s
      unfold segmentSurfaces
      rw [if_neg h0]
      rfl
    rw [e4]
    exact List.flatMap_append_perm _ _ _
  · intro x hx
    simp only [List.mem_cons, List.not_mem_nil, or_false] at hx
    rcases hx with rfl | rfl <;> exact ⟨fun _ hs => hs, rfl⟩

theorem SidesChanged.same {autoC autoS : ℤ} {env env' : LatticeEnv} {ac ac2 : PAircraft ℝ}
    (h : SidesChanged autoS env env' ac ac2) : SameSurfaces autoC autoS env env' ac ac2 ∧
      (ac.Unpanelled → ac2.Unpanelled) ∧ (ac.GivenNumC autoC → ac2.GivenNumC autoC) := by
  obtain ⟨hdef, d, rest, flip, hp, hk, h1, h2⟩ := h
  refine ⟨⟨hdef, [d], [d.reversed flip], rest, h1, h2, ?_, ?_, ?_⟩,
    parts_ok (parts := [d.reversed flip]) h1 h2 ?_⟩
  · intro x hx
    rw [List.mem_singleton] at hx
    rw [hx]
    exact hp
  · intro x hx
    rw [List.mem_singleton] at hx
    rw [hx]
    refine ⟨hp.controls, hp.camber, hp.symmetry, fun k => ?_⟩
    show (if flip k then _ else _ : GeoEnv ℝ).symmetry = d.wing.symmetry
    rw [← hp.geo k]
    split <;> rfl
  · refine ⟨_, .refl _, ?_⟩
    rw [List.flatMap_singleton, List.flatMap_singleton]
    unfold WingData.surfaces
    have key : ∀ (l : List (PSegment ℝ)) (i : ℕ),
        (∀ k s n, flip (i + k) = true → l[k]? = some s →
          spanwisePanels autoS d.wing s = some n → n ≤ 100) →
        List.Forall₂ Surface.Same
          ((enumFrom' i l).flatMap fun s => segmentSurfaces autoC autoS d.wing (d.geo s.1) s.2)
          ((enumFrom' i l).flatMap fun s => segmentSurfaces autoC autoS d.wing
            ((d.reversed flip).geo s.1) s.2) := by
      intro l
      induction l with
      | nil => intro i _; exact .nil
      | cons s l ih =>
        intro i hk
        rw [show enumFrom' i (s :: l) = (i, s) :: enumFrom' (i + 1) l from rfl, List.flatMap_cons,
          List.flatMap_cons]
        refine List.rel_append ?_ (ih (i + 1) ?_)
        · dsimp only
          unfold WingData.reversed
          dsimp only
          cases hf : flip i with
          | false =>
            simp only [Bool.false_eq_true, if_false]
            exact forall₂_same_refl _
          | true =>
            simp only [if_true]
            unfold segmentSurfaces
            simp only [swap_bilinear]
            have h100 : ∀ n, spanwisePanels autoS d.wing s = some n → n ≤ 100 := fun n =>
              hk 0 s n hf rfl
            refine .cons (Or.inr ⟨rfl, h100⟩) ?_
            split
            · exact .nil
            · exact .cons (Or.inr ⟨rfl, h100⟩) .nil
        · intro k s' n hf hs
          exact hk (k + 1) s' n (by rw [← hf]; congr 1; ring) hs
    exact key _ 0 fun k s n hf => hk k s n (by rwa [zero_add] at hf)
  · intro x hx
    rw [List.mem_singleton] at hx
    rw [hx]
    exact ⟨fun _ hs => hs, rfl⟩

theorem enumFrom'_append {α : Type*} (l m : List α) (i : ℕ) :
    enumFrom' i (l ++ m) = enumFrom' i l ++ enumFrom' (i + l.length) m := by
  induction l generalizing i with
  | nil => simp [enumFrom']
  | cons a l ih =>
    rw [List.cons_append, show enumFrom' i (a :: (l ++ m)) = (i, a) :: enumFrom' (i + 1) (l ++ m)
      from rfl, show enumFrom' i (a :: l) = (i, a) :: enumFrom' (i + 1) l from rfl, ih,
      List.cons_append, List.length_cons, Nat.add_right_comm, Nat.add_assoc]

theorem enumFrom'_shift {α : Type*} (l : List α) (n i : ℕ) :
    enumFrom' (n + i) l = (enumFrom' i l).map fun p => (n + p.1, p.2) := by
  induction l generalizing i with
  | nil => rfl
  | cons a l ih =>
    unfold enumFrom'
    rw [List.map_cons, ← ih, Nat.add_assoc]

theorem WingCut.same {autoC autoS : ℤ} {env env' : LatticeEnv} {ac ac2 : PAircraft ℝ}
    (h : WingCut env env' ac ac2) : SameSurfaces autoC autoS env env' ac ac2 ∧
      (ac.Unpanelled → ac2.Unpanelled) ∧ (ac.GivenNumC autoC → ac2.GivenNumC autoC) := by
  obtain ⟨hdef, d, rest, n, uid, hp, hs, hle, h1, h2⟩ := h
  refine ⟨⟨hdef, [d], [d.firstPart n, d.secondPart n uid], rest, h1, h2, ?_, ?_, ?_⟩,
    parts_ok (parts := [d.firstPart n, d.secondPart n uid]) h1 h2 ?_⟩
  · intro x hx
    rw [List.mem_singleton] at hx
    rw [hx]
    exact hp
  · intro x hx
    simp only [List.mem_cons, List.not_mem_nil, or_false] at hx
    rcases hx with rfl | rfl
    · exact ⟨hp.controls, hp.camber, hp.symmetry, hp.geo⟩
    · exact ⟨hp.controls, fun k => hp.camber _, hp.symmetry, fun k => hp.geo _⟩
  · refine ⟨_, .refl _, ?_⟩
    rw [List.flatMap_singleton, List.flatMap_cons, List.flatMap_singleton]
    suffices e : d.surfaces autoC autoS = (d.firstPart n).surfaces autoC autoS ++
        (d.secondPart n uid).surfaces autoC autoS by
      rw [e]
      exact forall₂_same_refl _
    have hnum : ∀ (w : PWing ℝ), ∀ s ∈ d.wing.segments, spanwisePanels autoS w s = s.numS := by
      intro w s hs'
      unfold spanwisePanels
      cases hn : s.numS with
      | none => exact absurd hn (hs s hs')
      | some m => rfl
    have hseg : ∀ (w w' : PWing ℝ) (g : GeoEnv ℝ), ∀ s ∈ d.wing.segments,
        w.symmetry = w'.symmetry →
        segmentSurfaces autoC autoS w g s = segmentSurfaces autoC autoS w' g s := by
      intro w w' g s hs' he
      unfold segmentSurfaces
      rw [hnum w s hs', hnum w' s hs', he]
    have hmem : ∀ (l : List (PSegment ℝ)) (i : ℕ) (p : ℕ × PSegment ℝ), p ∈ enumFrom' i l →
        p.2 ∈ l := by
      intro l
      induction l with
      | nil => intro i p h; cases h
      | cons a l ih =>
        intro i p h
        rcases List.mem_cons.1 h with rfl | h
        · simp
        · exact List.mem_cons_of_mem _ (ih _ _ h)
    have hlen : (d.wing.segments.take n).length = n := by
      rw [List.length_take]
      omega
    unfold WingData.surfaces
    conv_lhs => rw [← List.take_append_drop n d.wing.segments, enumFrom'_append, hlen, zero_add,
      List.flatMap_append]
    congr 1
    · rw [List.flatMap_def, List.flatMap_def]
      congr 1
      refine List.map_congr_left fun p hp' => ?_
      exact hseg _ _ _ _ (List.mem_of_mem_take (hmem _ _ _ hp')) rfl
    · rw [show enumFrom' n (d.wing.segments.drop n) = enumFrom' (n + 0) (d.wing.segments.drop n)
        from rfl, enumFrom'_shift, List.flatMap_map, List.flatMap_def, List.flatMap_def]
      congr 1
      refine List.map_congr_left fun p hp' => ?_
      exact hseg _ _ _ p.2 (List.mem_of_mem_drop (hmem _ _ p hp')) rfl
  · intro x hx
    simp only [List.mem_cons, List.not_mem_nil, or_false] at hx
    rcases hx with rfl | rfl
    · exact ⟨fun _ h => List.mem_of_mem_take h, rfl⟩
    · exact ⟨fun _ h => List.mem_of_mem_drop h, rfl⟩

/-! ## Theorems -/

/-- **C126**: a symmetric wing without controls and camber can be replaced with two wings without
symmetry, the second one with the reflected corners: a run finishes for both descriptions or for none,
and all global results are the same. -/
theorem C126_symmetry_flag (env : RunEnv) (hd : Lapack env.dgesv) (lat' : LatticeEnv)
    (ac ac2 : PAircraft ℝ) (hu : ac.Unpanelled) (hn : ac.GivenNumC env.autoC)
    (h : MirrorSpelled env.lat lat' ac ac2) (st : FlightSt ℝ) :
    ((∃ out, standardRun { env with lat := lat' } ac2 st = .ok out) ↔
      ∃ out, standardRun env ac st = .ok out) ∧
    ∀ out out', standardRun env ac st = .ok out →
      standardRun { env with lat := lat' } ac2 st = .ok out' →
      ∀ i < st.num, ∀ c ∈ runColumns, out'.value c.1 i = out.value c.1 i := by
  obtain ⟨h1, h2, h3⟩ := h.same (autoC := env.autoC) (autoS := env.autoS)
  refine ⟨C125_finishes env hd lat' ac ac2 hu (h2 hu) hn (h3 hn) h1 st, ?_⟩
  intro out out' hr hr'
  obtain ⟨out2, h4, h5⟩ := C125_surfaces env hd lat' ac ac2 hu (h2 hu) hn (h3 hn) h1 st out hr
  rw [hr'] at h4
  cases h4
  exact h5

/-- **C127**: segments of a wing without controls and camber and with at most 100 spanwise panels can be
described from either side: a run finishes for both descriptions or for none, and all global results
are the same. -/
theorem C127_segment_side (env : RunEnv) (hd : Lapack env.dgesv) (lat' : LatticeEnv)
    (ac ac2 : PAircraft ℝ) (hu : ac.Unpanelled) (hn : ac.GivenNumC env.autoC)
    (h : SidesChanged env.autoS env.lat lat' ac ac2) (st : FlightSt ℝ) :
    ((∃ out, standardRun { env with lat := lat' } ac2 st = .ok out) ↔
      ∃ out, standardRun env ac st = .ok out) ∧
    ∀ out out', standardRun env ac st = .ok out →
      standardRun { env with lat := lat' } ac2 st = .ok out' →
      ∀ i < st.num, ∀ c ∈ runColumns, out'.value c.1 i = out.value c.1 i := by
  obtain ⟨h1, h2, h3⟩ := h.same (autoC := env.autoC)
  refine ⟨C125_finishes env hd lat' ac ac2 hu (h2 hu) hn (h3 hn) h1 st, ?_⟩
  intro out out' hr hr'
  obtain ⟨out2, h4, h5⟩ := C125_surfaces env hd lat' ac ac2 hu (h2 hu) hn (h3 hn) h1 st out hr
  rw [hr'] at h4
  cases h4
  exact h5

/-- **C128**: a wing without controls and camber and with given numbers of panels can be cut into two
wings between any two of its segments: a run finishes for both descriptions or for none, and all
global results are the same. -/
theorem C128_wing_cut (env : RunEnv) (hd : Lapack env.dgesv) (lat' : LatticeEnv)
    (ac ac2 : PAircraft ℝ) (hu : ac.Unpanelled) (hn : ac.GivenNumC env.autoC)
    (h : WingCut env.lat lat' ac ac2) (st : FlightSt ℝ) :
    ((∃ out, standardRun { env with lat := lat' } ac2 st = .ok out) ↔
      ∃ out, standardRun env ac st = .ok out) ∧
    ∀ out out', standardRun env ac st = .ok out →
      standardRun { env with lat := lat' } ac2 st = .ok out' →
      ∀ i < st.num, ∀ c ∈ runColumns, out'.value c.1 i = out.value c.1 i := by
  obtain ⟨h1, h2, h3⟩ := h.same (autoC := env.autoC) (autoS := env.autoS)
  refine ⟨C125_finishes env hd lat' ac ac2 hu (h2 hu) hn (h3 hn) h1 st, ?_⟩
  intro out out' hr hr'
  obtain ⟨out2, h4, h5⟩ := C125_surfaces env hd lat' ac ac2 hu (h2 hu) hn (h3 hn) h1 st out hr
  rw [hr'] at h4
  cases h4
  exact h5

/-! ## Examples -/

/-- The only wing of the example aircraft. -/
noncomputable def oneData : WingData :=
  ⟨{ uid := "W", symmetry := 2
     segments := [⟨"S", 1, some 1, some 1, fun _ _ _ => 0, fun _ _ _ _ => 1, initStrips⟩]
     controls := [] }, fun _ => flatGeo, fun _ _ _ => 0⟩

theorem oneData_plain : oneData.Plain := ⟨rfl, fun _ _ _ => rfl, Or.inr (Or.inr (Or.inl rfl)),
  fun _ => rfl⟩

theorem onePanel_ok : onePanelAc.Unpanelled ∧ onePanelAc.GivenNumC 5 := by
  refine ⟨?_, by norm_num, ?_⟩ <;> intro w hw <;>
    simp only [onePanelAc, List.mem_cons, List.not_mem_nil, or_false] at hw <;> subst hw
  · intro s hs
    simp only [List.mem_singleton] at hs
    subst hs
    rfl
  · simp

/-- The example aircraft with two wings instead of a symmetric one. -/
noncomputable def twoHalvesAc : PAircraft ℝ := ⟨[oneData.half.wing, (oneData.otherHalf "L").wing]⟩

/-- Geometry of the two wings. -/
noncomputable def twoHalvesLat : LatticeEnv :=
  { geo := fun m => match m with
      | 0 => oneData.half.geo
      | _ => (oneData.otherHalf "L").geo
    deflection := fun _ _ => (none, none)
    camber := fun _ _ _ _ => 0 }

theorem twoHalves_spelled : MirrorSpelled exampleEnv.lat twoHalvesLat onePanelAc twoHalvesAc :=
  ⟨rfl, oneData, [], "L", oneData_plain, Or.inr (Or.inl rfl), .refl _, .refl _⟩

/-- Example for **C126**: the flat wing with a symmetry flag and as two wings. -/
example : ∃ out out', standardRun exampleEnv onePanelAc runStates = .ok out ∧
    standardRun { exampleEnv with lat := twoHalvesLat } twoHalvesAc runStates = .ok out' ∧
    out'.value "FL" 1 = out.value "FL" 1 ∧ twoHalvesAc.wings.length = 2 ∧
    onePanelAc.wings.length = 1 := by
  obtain ⟨out, h⟩ := example_run
  obtain ⟨h1, h2⟩ := C126_symmetry_flag exampleEnv exactDgesv_lapack twoHalvesLat onePanelAc
    twoHalvesAc onePanel_ok.1 onePanel_ok.2 twoHalves_spelled runStates
  obtain ⟨out', h'⟩ := h1.2 ⟨out, h⟩
  exact ⟨out, out', h, h', h2 out out' h h' 1 (by simp [runStates])
    ("FL", fun a => .fin a.R.wind.z) (by simp [runColumns]), rfl, rfl⟩

/-- The corners of the example wing from the other side. -/
noncomputable def turnedLat : LatticeEnv :=
  { flatLat with geo := fun _ => (oneData.reversed fun _ => true).geo }

theorem turned_sides : SidesChanged exampleEnv.autoS exampleEnv.lat turnedLat onePanelAc onePanelAc :=
  ⟨rfl, oneData, [], fun _ => true, oneData_plain, by
    intro k s n _ hs hn
    have : s.numS = some 1 := by
      cases k with
      | zero => cases hs; rfl
      | succ k => cases hs
    unfold spanwisePanels at hn
    rw [this] at hn
    cases hn
    norm_num, .refl _, .refl _⟩

/-- Example for **C127**: the flat wing from both sides; the first corner is another point. -/
example : ∃ out out', standardRun exampleEnv onePanelAc runStates = .ok out ∧
    standardRun { exampleEnv with lat := turnedLat } onePanelAc runStates = .ok out' ∧
    out'.value "FL" 1 = out.value "FL" 1 ∧
    (turnedLat.geo 0 0).vertices.a ≠ (exampleEnv.lat.geo 0 0).vertices.a := by
  obtain ⟨out, h⟩ := example_run
  obtain ⟨h1, h2⟩ := C127_segment_side exampleEnv exactDgesv_lapack turnedLat onePanelAc
    onePanelAc onePanel_ok.1 onePanel_ok.2 turned_sides runStates
  obtain ⟨out', h'⟩ := h1.2 ⟨out, h⟩
  refine ⟨out, out', h, h', h2 out out' h h' 1 (by simp [runStates])
    ("FL", fun a => .fin a.R.wind.z) (by simp [runColumns]), ?_⟩
  intro e
  have := congrArg V3.y e
  simp [turnedLat, WingData.reversed, oneData, exampleEnv, flatLat, flatGeo, Corners.swap] at this

/-- A segment of one panel. -/
noncomputable def cutSeg : PSegment ℝ := halfSeg 1 (fun _ _ _ => 0) fun _ _ _ _ => 1

/-- A wing of two segments. -/
noncomputable def twoSegData : WingData :=
  ⟨{ uid := "right", symmetry := 0, segments := [cutSeg, cutSeg], controls := [] },
    fun k => flatHalf (if k = 0 then 0 else -2/25), fun _ _ _ => 0⟩

/-- The aircraft with this wing. -/
noncomputable def twoSegAc : PAircraft ℝ := ⟨[twoSegData.wing]⟩

/-- Its geometry. -/
noncomputable def twoSegLat : LatticeEnv :=
  { geo := fun _ => twoSegData.geo
    deflection := fun _ _ => (none, none)
    camber := fun _ _ _ _ => 0 }

/-- The geometry of the two parts. -/
noncomputable def cutLat : LatticeEnv :=
  { geo := fun m => match m with
      | 0 => twoSegData.geo
      | _ => (twoSegData.secondPart 1 "left").geo
    deflection := fun _ _ => (none, none)
    camber := fun _ _ _ _ => 0 }

theorem twoSeg_cut : WingCut twoSegLat cutLat twoSegAc (halvesAc cutSeg cutSeg) :=
  ⟨rfl, twoSegData, [], 1, "left", ⟨rfl, fun _ _ _ => rfl, Or.inl rfl, fun _ => rfl⟩, by
    intro s hs
    simp only [twoSegData, List.mem_cons, List.not_mem_nil, or_false] at hs
    rcases hs with rfl | rfl <;> simp [cutSeg, halfSeg], by simp [twoSegData], .refl _, .refl _⟩

theorem twoSeg_ok : twoSegAc.Unpanelled ∧ twoSegAc.GivenNumC 5 := by
  refine ⟨?_, by norm_num, ?_⟩ <;> intro w hw <;>
    simp only [twoSegAc, List.mem_cons, List.not_mem_nil, or_false] at hw <;> subst hw
  · intro s hs
    simp only [twoSegData, List.mem_cons, List.not_mem_nil, or_false] at hs
    rcases hs with rfl | rfl <;> rfl
  · simp [twoSegData, cutSeg, halfSeg]

/-- Example for **C128**: a wing of two segments and two wings of one segment. -/
example : ∃ out out', standardRun { exampleEnv with lat := twoSegLat } twoSegAc runStates = .ok out ∧
    standardRun { exampleEnv with lat := cutLat } (halvesAc cutSeg cutSeg) runStates = .ok out' ∧
    out'.value "FL" 1 = out.value "FL" 1 := by
  obtain ⟨out', h'⟩ := halves_finishes 1 (fun _ _ _ => 0) (fun _ _ _ _ => 1) 1 (fun _ _ _ => 0)
    (fun _ _ _ _ => 1) (env := { exampleEnv with lat := cutLat }) exactDgesv_lapack
    exampleEnv_eps rfl rfl rfl (fun _ _ _ _ => rfl) (st := runStates) (by simp [runStates])
    (fun i => if i = 0 then ⟨10, 1, 0, 0, 0, 0, 0⟩ else ⟨20, 1, 5, 0, 0, 0, 0⟩) (by
      intro i hi
      have hi' : i < 2 := hi
      obtain rfl | rfl : i = 0 ∨ i = 1 := by omega
      all_goals exact ⟨rfl, rfl, rfl, rfl, rfl, rfl, rfl, rfl⟩)
  obtain ⟨h1, h2⟩ := C128_wing_cut { exampleEnv with lat := twoSegLat } exactDgesv_lapack cutLat
    twoSegAc (halvesAc cutSeg cutSeg) twoSeg_ok.1 twoSeg_ok.2 twoSeg_cut runStates
  obtain ⟨out, h⟩ := h1.1 ⟨out', h'⟩
  exact ⟨out, out', h, h', h2 out out' h h' 1 (by simp [runStates])
    ("FL", fun a => .fin a.R.wind.z) (by simp [runColumns])⟩

end Verif
