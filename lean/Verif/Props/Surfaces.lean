import Verif.Props.WingOrder
import Verif.Props.Accept
import Verif.Lemmas.Turned

/-!
# Properties C125 to C127: only the surfaces matter

The results of a run depend on the surfaces of the wings and their numbers of panels: not on the side
at which a segment starts, on whether a mirror image is described with a symmetry flag or as a second
wing, on how segments are put together to wings, or on names.
-/

set_option linter.unnecessarySeqFocus false

namespace Verif

open V3

/-! ## Specification -/

/-- A surface that carries loads: its points (spanwise and chordwise coordinate between 0 and 1) and
the numbers of panels. -/
structure Surface where
  point : ℝ → ℝ → V3 ℝ
  numS : Option ℤ
  numC : ℤ

/-- The same surface, described from the other side. -/
def Surface.swap (x : Surface) : Surface := { x with point := fun eta xsi => x.point (1 - eta) xsi }

/-- The same surface, from the same side or from the other one.  More than 100 strips are not equally
wide (see C09), so that the side makes a difference then. -/
def Surface.Same (x y : Surface) : Prop :=
  y = x ∨ y = x.swap ∧ ∀ n, x.numS = some n → n ≤ 100

/-- Point of a quadrilateral. -/
def Corners.bilinear (v : Corners (V3 ℝ)) (eta xsi : ℝ) : V3 ℝ :=
  ((1 - eta) * (1 - xsi)) • v.a + (eta * (1 - xsi)) • v.b + (eta * xsi) • v.c +
    ((1 - eta) * xsi) • v.d

/-- Number of spanwise panels: as given or in proportion to the share of the span. -/
noncomputable def spanwisePanels (autoS : ℤ) (w : PWing ℝ) (s : PSegment ℝ) : Option ℤ :=
  match s.numS with
  | some n => some n
  | none => if w.span = 0 then none else some ⌈s.span / w.span * autoS⌉

/-- The surfaces of one segment: its own one and, for a symmetric wing, the mirror image; both may be
deformed. -/
noncomputable def segmentSurfaces (autoC autoS : ℤ) (w : PWing ℝ) (g : GeoEnv ℝ) (s : PSegment ℝ) :
    List Surface :=
  ⟨fun eta xsi => displaced g.defField (g.vertices.bilinear eta xsi), spanwisePanels autoS w s,
    s.numC.getD autoC⟩ ::
  if w.symmetry = 0 then [] else
    [⟨fun eta xsi => displaced g.defFieldMirror
        (reflect (symNormal w.symmetry) (g.vertices.bilinear eta xsi)),
      spanwisePanels autoS w s, s.numC.getD autoC⟩]

/-- The surfaces of a wing. -/
noncomputable def WingData.surfaces (autoC autoS : ℤ) (d : WingData) : List Surface :=
  (enumFrom' 0 d.wing.segments).flatMap fun s => segmentSurfaces autoC autoS d.wing (d.geo s.1) s.2

/-- A wing without controls and camber. -/
structure WingData.Plain (d : WingData) : Prop where
  controls : d.wing.controls = []
  camber : ∀ k eta xsi, d.camber k eta xsi = 0
  symmetry : d.wing.symmetry = 0 ∨ SymFlag d.wing.symmetry
  geo : ∀ k, (d.geo k).symmetry = d.wing.symmetry

/-- Two aircraft that differ in the description of plain wings only: the surfaces are the same. -/
structure SameSurfaces (autoC autoS : ℤ) (env env' : LatticeEnv) (ac ac2 : PAircraft ℝ) : Prop where
  deflection : env'.deflection = env.deflection
  wings : ∃ plain plain2 rest, (wingData env ac).Perm (plain ++ rest) ∧
    (wingData env' ac2).Perm (plain2 ++ rest) ∧
    (∀ d ∈ plain, d.Plain) ∧ (∀ d ∈ plain2, d.Plain) ∧
    ∃ m, (plain2.flatMap (WingData.surfaces autoC autoS)).Perm m ∧
      List.Forall₂ Surface.Same (plain.flatMap (WingData.surfaces autoC autoS)) m

theorem Surface.swap_swap (x : Surface) : x.swap.swap = x := by
  unfold Surface.swap
  simp

theorem Surface.Same.symm {x y : Surface} (h : x.Same y) : y.Same x := by
  rcases h with rfl | ⟨rfl, h⟩
  · exact Or.inl rfl
  · exact Or.inr ⟨x.swap_swap.symm, h⟩

theorem SameSurfaces.symm {autoC autoS : ℤ} {env env' : LatticeEnv} {ac ac2 : PAircraft ℝ}
    (h : SameSurfaces autoC autoS env env' ac ac2) : SameSurfaces autoC autoS env' env ac2 ac := by
  obtain ⟨p, p2, r, h1, h2, h3, h4, m, h5, h6⟩ := h.wings
  have h7 : List.Forall₂ Surface.Same m (p.flatMap (WingData.surfaces autoC autoS)) :=
    h6.flip.imp fun _ _ h => Surface.Same.symm h
  obtain ⟨m', h8, h9⟩ := List.perm_comp_forall₂ h5 h7
  exact ⟨h.deflection.symm, p2, p, r, h2, h1, h4, h3, m', h9.symm, h8⟩

/-! ## Panels up to the side from which they are described -/

/-- The panel and the turned panel. -/
def turnClass (x : Option Panel) : Set (Option Panel) := {x, x.map Panel.turned}

theorem turnClass_turned (x : Option Panel) : turnClass (x.map Panel.turned) = turnClass x := by
  unfold turnClass
  rw [Option.map_map, show Panel.turned ∘ Panel.turned = id from funext Panel.turned_turned,
    Option.map_id, id, Set.pair_comm]

theorem turnClass_eq {x : Option Panel} {g : Panel} (h : turnClass x = turnClass (some g)) :
    ∃ b, x = some (g.turn b) := by
  have : x ∈ turnClass (some g) := by rw [← h]; exact Set.mem_insert _ _
  rcases this with rfl | h
  · exact ⟨false, rfl⟩
  · exact ⟨true, h⟩

/-- Corners from the other side. -/
def Corners.swap {P : Type*} (v : Corners P) : Corners P := ⟨v.b, v.a, v.d, v.c⟩

/-- Panel `k` of `n` panels between four corners. -/
noncomputable def cornerPanel (leg : V3 ℝ) (n : ℤ) (v : Corners (V3 ℝ)) (k : ℕ) : Option Panel :=
  (panelPts (Coef.of v) leg 1 n k 0).finNormal.map fun m =>
    { (panelPts (Coef.of v) leg 1 n k 0).toPanel with n := m }

theorem panelPts_swap (leg : V3 ℝ) (n : ℤ) (v : Corners (V3 ℝ)) (k : ℕ) :
    panelPts (Coef.of v.swap) leg 1 n k 0 =
      ⟨(panelPts (Coef.of v) leg 1 n k 0).q, (panelPts (Coef.of v) leg 1 n k 0).p,
        (panelPts (Coef.of v) leg 1 n k 0).s, (panelPts (Coef.of v) leg 1 n k 0).r,
        (panelPts (Coef.of v) leg 1 n k 0).v4, (panelPts (Coef.of v) leg 1 n k 0).v3,
        (panelPts (Coef.of v) leg 1 n k 0).v2, (panelPts (Coef.of v) leg 1 n k 0).v1,
        (panelPts (Coef.of v) leg 1 n k 0).col, (panelPts (Coef.of v) leg 1 n k 0).mid⟩ := by
  unfold panelPts Coef.of Coef.at Corners.swap
  ext <;> vsimp <;> push_cast <;> ring

theorem cornerPanel_swap (leg : V3 ℝ) (n : ℤ) (v : Corners (V3 ℝ)) (k : ℕ) :
    cornerPanel leg n v.swap k = (cornerPanel leg n v k).map Panel.turned := by
  unfold cornerPanel
  rw [panelPts_swap]
  have hcol : (panelPts (Coef.of v) leg 1 n k 0).col = (1 / 8 : ℝ) •
      ((panelPts (Coef.of v) leg 1 n k 0).p + (panelPts (Coef.of v) leg 1 n k 0).q) + (3 / 8 : ℝ) •
      ((panelPts (Coef.of v) leg 1 n k 0).r + (panelPts (Coef.of v) leg 1 n k 0).s) := rfl
  generalize panelPts (Coef.of v) leg 1 n k 0 = g at hcol ⊢
  set g' : PanelPts ℝ := ⟨g.q, g.p, g.s, g.r, g.v4, g.v3, g.v2, g.v1, g.col, g.mid⟩ with hg'
  have h1 : g'.crossVec = -g.crossVec := by
    unfold PanelPts.crossVec
    simp only [hg', hcol]
    ext <;> vsimp <;> ring
  have h2 : g'.spanVec = -g.spanVec := by
    unfold PanelPts.spanVec
    simp only [hg']
    ext <;> vsimp <;> ring
  have h3 : g'.chordVec = g.chordVec := by
    unfold PanelPts.chordVec
    simp only [hg']
    ext <;> vsimp <;> ring
  have h4 : g'.area = g.area := by
    unfold PanelPts.area
    rw [h2, h3, V3.norm_neg]
  have h5 : g'.normal = -g.normal := by
    unfold PanelPts.normal
    rw [h1, V3.norm_neg]
    ext <;> vsimp <;> ring
  unfold PanelPts.finNormal
  rw [h1, V3.norm_neg]
  split
  · rfl
  · simp only [Option.map_some]
    congr 1
    simp only [PanelPts.toPanel, Panel.turned, h4, h5]
    rfl

/-- The panels between four corners. -/
noncomputable def cornerRow (leg : V3 ℝ) (n : ℤ) (v : Corners (V3 ℝ)) : List (Option Panel) :=
  (List.range n.toNat).map (cornerPanel leg n v)

theorem cornerRow_swap (leg : V3 ℝ) (n : ℤ) (v : Corners (V3 ℝ)) :
    (cornerRow leg n v.swap).map turnClass = (cornerRow leg n v).map turnClass := by
  unfold cornerRow
  rw [List.map_map, List.map_map]
  refine List.map_congr_left fun k _ => ?_
  simp only [Function.comp, cornerPanel_swap, turnClass_turned]

/-! ## Strips -/

/-- The strips of a segment without controls. -/
noncomputable def lineStrips (n : ℤ) : Except PyErr (List (Strip ℝ)) :=
  if n + 1 < 0 then .error .valueError else addLines (fun _ _ _ => 0) (spanLines n.toNat) initStrips

/-- The strips of a surface. -/
noncomputable def Surface.strips (x : Surface) : Except PyErr (List (Strip ℝ)) :=
  match x.numS with
  | none => .error .valueError
  | some n => lineStrips n

/-- The corners of a strip. -/
def Surface.corners (x : Surface) (t : Strip ℝ) : Corners (V3 ℝ) :=
  ⟨x.point t.etaA 0, x.point t.etaB 0, x.point t.etaC 1, x.point t.etaD 1⟩

/-- The panels of a surface. -/
noncomputable def Surface.panels (leg : V3 ℝ) (x : Surface) : List (Option Panel) :=
  match x.strips with
  | .error _ => []
  | .ok l => l.flatMap fun t => cornerRow leg x.numC (x.corners t)

/-- A strip without controls. -/
def Strip.Bare (t : Strip ℝ) : Prop := t = Strip.init t.etaA t.etaB t.etaC t.etaD

theorem addSubdivision_bare (interp : Interp ℝ) (e : ℝ) (sds : List (Strip ℝ))
    (h : ∀ t ∈ sds, t.Bare) : ∀ t ∈ (addSubdivision interp e e true sds).2, t.Bare := by
  have hfind : ∀ (l : List (Strip ℝ)) (i k : ℕ) (t : Strip ℝ) (b : Bool),
      getSubdivAtEtaFrom e i l = some (k, t, b) → t ∈ l := by
    intro l
    induction l with
    | nil => intro i k t b hx; cases hx
    | cons a l ih =>
      intro i k t b hx
      unfold getSubdivAtEtaFrom at hx
      split_ifs at hx with hc
      · cases hx; simp
      · exact List.mem_cons_of_mem _ (ih _ _ _ _ hx)
  unfold addSubdivision
  split_ifs with h1 h2
  · exact h
  · exact h
  · cases hg : getSubdivAtEta sds e with
    | none => exact h
    | some x =>
      obtain ⟨idx, prev, b⟩ := x
      have hb := h prev (hfind _ _ _ _ _ hg)
      dsimp only
      split_ifs with h3 h4
      · exact h
      · exact h
      · have e1 : ∀ x y z n, inheritDevices interp x y z { prev with etaB := e, etaC := e } n =
            (.ok (), { prev with etaB := e, etaC := e }, n) := by
          intro x y z n
          have hp2 : prev.flap = none := by rw [hb]; rfl
          have hp1 : prev.slat = none := by rw [hb]; rfl
          unfold inheritDevices inheritFlap
          dsimp only
          rw [hp2]
          dsimp only
          unfold inheritSlat
          dsimp only
          rw [hp1]
        rw [e1]
        intro t ht
        simp only [List.mem_append, List.mem_singleton] at ht
        rcases ht with ht | rfl
        · rcases List.mem_or_eq_of_mem_set ht with ht | rfl
          · exact h t ht
          · unfold Strip.Bare at hb ⊢
            rw [hb]
            rfl
        · rfl

theorem addLines_bare (interp : Interp ℝ) : ∀ (ls : List ℝ) (sds sds' : List (Strip ℝ)),
    (∀ t ∈ sds, t.Bare) → addLines interp ls sds = .ok sds' → ∀ t ∈ sds', t.Bare := by
  intro ls
  induction ls with
  | nil =>
    intro sds sds' h h'
    cases h'
    exact h
  | cons e ls ih =>
    intro sds sds' h h'
    have h2 := addSubdivision_bare interp e sds h
    unfold addLines at h'
    revert h2 h'
    obtain ⟨o, sds1⟩ := addSubdivision interp e e true sds
    intro h2 h'
    cases o with
    | error x => cases h'
    | ok x => exact ih sds1 sds' h2 h'

theorem initStrips_bare : ∀ t ∈ (initStrips : List (Strip ℝ)), t.Bare := by
  intro t ht
  simp only [initStrips, List.mem_singleton] at ht
  subst ht
  rfl

theorem lineStrips_bare {n : ℤ} {l : List (Strip ℝ)} (h : lineStrips n = .ok l) :
    ∀ t ∈ l, t.Bare := by
  unfold lineStrips at h
  split at h
  · cases h
  · exact addLines_bare _ _ _ _ initStrips_bare h

theorem lineStrips_interp (interp : Interp ℝ) (n : ℤ) :
    lineStrips n = if n + 1 < 0 then .error .valueError
      else addLines interp (spanLines n.toNat) initStrips := by
  unfold lineStrips
  split
  · rfl
  · refine addLines_no_interp _ _ _ _ ?_
    intro t ht
    simp only [initStrips, List.mem_singleton] at ht
    subst ht
    exact ⟨rfl, rfl⟩

/-- Strip between two chord lines. -/
noncomputable def stripAt (p : ℝ × ℝ) : Strip ℝ := Strip.init p.1 p.2 p.2 p.1

theorem plainStrips_at (e : ℝ) (l : List ℝ) :
    plainStrips e l = ((plainStrips e l).map fun s => (s.etaA, s.etaB)).map stripAt := by
  induction l generalizing e with
  | nil => rfl
  | cons x rest ih =>
    unfold plainStrips
    rw [List.map_cons, List.map_cons, ← ih]
    rfl

/-- Up to 100 strips are equally wide. -/
theorem lineStrips_equal {n : ℤ} (h0 : 1 ≤ n) (h : n ≤ 100) :
    lineStrips n = .ok ((List.range n.toNat).map fun k : ℕ =>
      stripAt ((k : ℝ) / n.toNat, ((k : ℝ) + 1) / n.toNat)) := by
  unfold lineStrips
  rw [if_neg (by omega)]
  set m := n.toNat
  have hm0 : 0 < m := by omega
  have hm : m ≤ 100 := by omega
  have hn0 : (0 : ℝ) < m := by exact_mod_cast hm0
  have hn100 : (m : ℝ) ≤ 100 := by exact_mod_cast hm
  have := addLines_plain (fun _ _ _ => (0 : ℝ)) (spanLines (K := ℝ) m) 0 [] (by simp) le_rfl
    (spanLines_chain (by
      intro k _
      rw [← sub_div, add_sub_cancel_left]
      exact one_div_le_one_div_of_le hn0 hn100)) (fun x hx => (spanLines_mem hx).2)
  rw [List.nil_append, List.nil_append] at this
  refine this.trans ?_
  rw [plainStrips_at, plainStrips_spanLines hm0, List.map_map]
  rfl

theorem lineStrips_few {n : ℤ} (h0 : -1 ≤ n) (h : n < 1) : lineStrips n = .ok [stripAt (0, 1)] := by
  unfold lineStrips
  rw [if_neg (by omega)]
  have : n.toNat = 0 := by omega
  rw [this]
  rfl

/-- The strips of the same surface from the other side. -/
theorem Surface.Same.panels {x y : Surface} (h : x.Same y) :
    ((∃ l, x.strips = .ok l) ↔ ∃ l, y.strips = .ok l) ∧
    ∀ leg, ((y.panels leg).map turnClass).Perm ((x.panels leg).map turnClass) := by
  rcases h with rfl | ⟨rfl, h⟩
  · exact ⟨Iff.rfl, fun _ => .refl _⟩
  · refine ⟨Iff.rfl, ?_⟩
    intro leg
    unfold Surface.panels
    have hs : x.swap.strips = x.strips := rfl
    rw [hs]
    cases hx : x.strips with
    | error e => exact .refl _
    | ok l =>
      have hrow : ∀ a b : ℝ, (cornerRow leg x.swap.numC (x.swap.corners (stripAt (a, b)))).map
          turnClass = (cornerRow leg x.numC (x.corners (stripAt (1 - b, 1 - a)))).map turnClass := by
        intro a b
        exact cornerRow_swap leg x.numC (x.corners (stripAt (1 - b, 1 - a)))
      dsimp only
      unfold Surface.strips at hx
      cases hn : x.numS with
      | none => rw [hn] at hx; cases hx
      | some n =>
        rw [hn] at hx
        dsimp only at hx
        have h0 : -1 ≤ n := by
          by_contra hc
          unfold lineStrips at hx
          rw [if_pos (by omega)] at hx
          cases hx
        by_cases h1 : n < 1
        · rw [lineStrips_few h0 h1] at hx
          cases hx
          rw [List.flatMap_singleton, List.flatMap_singleton, hrow]
          simp
        · rw [lineStrips_equal (by omega) (h n hn)] at hx
          cases hx
          rw [List.flatMap_map, List.flatMap_map, List.map_flatMap, List.map_flatMap]
          set m := n.toNat
          have hm : (m : ℝ) ≠ 0 := by
            have : 0 < m := by omega
            positivity
          have hrev : (List.range m).flatMap (fun k : ℕ => (cornerRow leg x.swap.numC
              (x.swap.corners (stripAt ((k : ℝ) / m, ((k : ℝ) + 1) / m)))).map turnClass) =
              (List.range m).reverse.flatMap (fun k : ℕ => (cornerRow leg x.numC
              (x.corners (stripAt ((k : ℝ) / m, ((k : ℝ) + 1) / m)))).map turnClass) := by
            rw [List.range_eq_range', List.reverse_range', List.flatMap_map, ← List.range_eq_range']
            rw [List.flatMap_def, List.flatMap_def]
            congr 1
            refine List.map_congr_left fun k hk => ?_
            rw [List.mem_range] at hk
            rw [hrow]
            have e1 : ((0 + m - 1 - k : ℕ) : ℝ) = m - 1 - k := by
              rw [zero_add, Nat.sub_sub, Nat.cast_sub (by omega)]
              push_cast
              ring
            rw [e1]
            congr 6
            · rw [eq_div_iff hm, sub_mul, div_mul_cancel₀ _ hm]
              ring
            · rw [eq_div_iff hm, sub_mul, div_mul_cancel₀ _ hm]
              ring
          rw [hrev]
          exact (List.reverse_perm _).flatMap_right _

/-! ## Panels of a plain wing -/

theorem segPoint_bilinear (v : Corners (V3 ℝ)) (eta xsi : ℝ) :
    segPoint v eta xsi = v.bilinear eta xsi := by
  unfold segPoint Corners.bilinear
  ext <;> vsimp <;> ring

theorem subareaVertices_full {g : GeoEnv ℝ} {t : Strip ℝ} {v : Corners (V3 ℝ)}
    (h : t.absVertices g false = .ok v) : subareaVertices g t (Quad.init 0 0 1 1) false = .ok v := by
  unfold subareaVertices
  rw [h]
  simp only [Quad.init, Bool.false_eq_true, if_false]
  congr 1
  ext <;> vsimp <;> ring

theorem subareaVertices_full_mirror {g : GeoEnv ℝ} (hk : SymFlag g.symmetry) (t : Strip ℝ) :
    subareaVertices g t (Quad.init 0 0 1 1) true = .ok (stripCornersMirror g t) ∨
    subareaVertices g t (Quad.init 0 0 1 1) true = .ok (stripCornersMirror g t).swap := by
  have h := absVertices_mirror_eq g hk t
  unfold subareaVertices
  rw [h]
  rcases hk with hk | hk | hk <;> rw [hk]
  · left
    simp only [orderMirrored, Quad.init, if_true]
    congr 1
    ext <;> vsimp <;> ring
  · right
    simp only [orderMirrored, Quad.init, if_true]
    norm_num
    unfold Corners.swap
    ext <;> vsimp <;> ring
  · left
    simp only [orderMirrored, Quad.init, if_true]
    norm_num
    ext <;> vsimp <;> ring

theorem cornerRow_congr {leg : V3 ℝ} {n : ℤ} {f : ℕ → Option Panel} {v : Corners (V3 ℝ)}
    (h : ∀ k, f k = cornerPanel leg n v k) : (List.range n.toNat).map f = cornerRow leg n v := by
  unfold cornerRow
  exact List.map_congr_left fun k _ => h k

/-- The data of the only subarea of a strip without controls. -/
structure SubData.Bare (d : SubData) (c : ℤ) : Prop where
  sub : d.sub = ⟨"segment", Quad.init 0 0 1 1, none⟩
  numC : d.seg.numC = some c
  camber : ∀ eta xsi, d.camber eta xsi = 0
  symmetry : d.wing.symmetry = 0 ∨ SymFlag d.wing.symmetry
  geo : d.geo.symmetry = d.wing.symmetry

theorem SubData.Bare.panel {d : SubData} {c : ℤ} (h : d.Bare c) {mirror : Bool}
    {v : Corners (V3 ℝ)} (hv : subareaVertices d.geo d.strip (Quad.init 0 0 1 1) mirror = .ok v)
    (env : LatticeEnv) (doRot : Bool) (leg : V3 ℝ) (n : ℤ) (k : ℕ) :
    d.panel env doRot leg mirror n k = cornerPanel leg n v k := by
  have h1 : hingeRotation env d.parts mirror = .ok none := by
    unfold hingeRotation
    simp only [SubData.parts, h.sub]
  have h2 : camberRotation d.parts v n.toNat k = none := by
    unfold camberRotation
    simp only [SubData.parts, h.camber]
    cases (collocationXsi d.sub.quad n.toNat)[k]? <;> simp
  unfold SubData.panel cornerPanel
  rw [h.sub]
  dsimp only
  rw [hv]
  dsimp only
  congr 1
  unfold SubData.turned
  rw [h1]
  dsimp only
  rw [h2]
  split <;> rfl

/-- The panels of a strip without controls and of its mirror image, up to the side. -/
theorem SubData.Bare.rows {d : SubData} {c : ℤ} (h : d.Bare c) (env : LatticeEnv) (doRot : Bool)
    (leg : V3 ℝ) :
    d.Ok ∧ (d.rows env doRot leg).map turnClass =
      (cornerRow leg c (stripCorners d.geo d.strip)).map turnClass ++
        if d.wing.symmetry = 0 then [] else
          (cornerRow leg c (stripCornersMirror d.geo d.strip)).map turnClass := by
  have hc : chordPanels d.wing d.seg d.sub = .ok c := by
    unfold chordPanels
    rw [h.sub]
    simp only [h.numC, if_true]
    congr 1
    rw [Int.ceil_eq_iff]
    norm_num [Quad.relLength, Quad.init]
  have h1 := subareaVertices_full (absVertices_eq d.geo d.strip)
  have hm : d.wing.symmetry ≠ 0 →
      ∃ v, subareaVertices d.geo d.strip (Quad.init 0 0 1 1) true = .ok v ∧
        (cornerRow leg c v).map turnClass =
          (cornerRow leg c (stripCornersMirror d.geo d.strip)).map turnClass := by
    intro h0
    have hk : SymFlag d.geo.symmetry := by
      rw [h.geo]
      exact h.symmetry.resolve_left h0
    rcases subareaVertices_full_mirror hk d.strip with h2 | h2
    · exact ⟨_, h2, rfl⟩
    · exact ⟨_, h2, cornerRow_swap _ _ _⟩
  constructor
  · intro mirror hmir
    rw [h.sub]
    cases mirror with
    | false => exact ⟨_, h1⟩
    | true =>
      obtain ⟨v, hv, -⟩ := hm (hmir rfl)
      exact ⟨v, hv⟩
  · unfold SubData.rows
    rw [hc]
    dsimp only
    rw [List.map_append]
    congr 1
    · congr 1
      exact cornerRow_congr fun k => h.panel h1 env doRot leg c k
    · by_cases h0 : d.wing.symmetry = 0
      · rw [if_pos h0, if_pos h0]
        rfl
      · rw [if_neg h0, if_neg h0]
        obtain ⟨v, hv, hv'⟩ := hm h0
        rw [← hv']
        congr 1
        exact cornerRow_congr fun k => h.panel hv env doRot leg c k

/-- The segment with its strips. -/
noncomputable def segPanelled (autoC autoS : ℤ) (w : PWing ℝ) (s : PSegment ℝ) :
    Except PyErr (PSegment ℝ) :=
  match spanwisePanels autoS w s with
  | none => .error .zeroDivision
  | some n =>
    match lineStrips n with
    | .error e => .error e
    | .ok l => .ok { s with numC := some (s.numC.getD autoC), numS := some n, strips := l }

/-- The panels of a segment of a plain wing are those of its surfaces. -/
theorem segment_rows {autoC autoS : ℤ} {w w' : PWing ℝ} {s s' : PSegment ℝ} {g : GeoEnv ℝ}
    {camber : ℝ → ℝ → ℝ} (h : segPanelled autoC autoS w s = .ok s')
    (hsym : w.symmetry = 0 ∨ SymFlag w.symmetry) (hw : w'.symmetry = w.symmetry)
    (hg : g.symmetry = w.symmetry) (hc : ∀ eta xsi, camber eta xsi = 0) (env : LatticeEnv)
    (doRot : Bool) (leg : V3 ℝ) :
    (∀ x ∈ segmentSurfaces autoC autoS w g s, ∃ l, x.strips = .ok l) ∧
    (∀ q ∈ (enumFrom' 0 s'.strips).flatMap fun st => (enumFrom' 0 st.2.subareas).map fun a =>
      (⟨w', s', st.2, a.2, g, camber⟩ : SubData), q.Ok) ∧
    ((((enumFrom' 0 s'.strips).flatMap fun st => (enumFrom' 0 st.2.subareas).map fun a =>
      (⟨w', s', st.2, a.2, g, camber⟩ : SubData)).flatMap (SubData.rows env doRot leg)).map
        turnClass).Perm
      (((segmentSurfaces autoC autoS w g s).flatMap (Surface.panels leg)).map turnClass) := by
  unfold segPanelled at h
  cases hn : spanwisePanels autoS w s with
  | none => rw [hn] at h; cases h
  | some n =>
    rw [hn] at h
    dsimp only at h
    cases hl : lineStrips n with
    | error e => rw [hl] at h; cases h
    | ok l =>
      rw [hl] at h
      cases h
      have hb := lineStrips_bare hl
      set s' : PSegment ℝ := { s with numC := some (s.numC.getD autoC), numS := some n, strips := l }
      have hstr : ∀ x ∈ segmentSurfaces autoC autoS w g s, x.strips = .ok l := by
        intro x hx
        have : x.numS = some n := by
          unfold segmentSurfaces at hx
          rw [hn] at hx
          rcases List.mem_cons.1 hx with rfl | hx
          · rfl
          · split at hx
            · cases hx
            · rw [List.mem_singleton] at hx
              rw [hx]
        unfold Surface.strips
        rw [this]
        exact hl
      have hsub : ((enumFrom' 0 l).flatMap fun st => (enumFrom' 0 st.2.subareas).map fun a =>
          (⟨w', s', st.2, a.2, g, camber⟩ : SubData)) = l.map fun t =>
          ⟨w', s', t, ⟨"segment", Quad.init 0 0 1 1, none⟩, g, camber⟩ := by
        have : ∀ (l : List (Strip ℝ)) (i : ℕ), (∀ t ∈ l, t.Bare) →
            ((enumFrom' i l).flatMap fun st => (enumFrom' 0 st.2.subareas).map fun a =>
              (⟨w', s', st.2, a.2, g, camber⟩ : SubData)) = l.map fun t =>
              ⟨w', s', t, ⟨"segment", Quad.init 0 0 1 1, none⟩, g, camber⟩ := by
          intro l
          induction l with
          | nil => intro i _; rfl
          | cons t rest ih =>
            intro i hb
            rw [show enumFrom' i (t :: rest) = (i, t) :: enumFrom' (i + 1) rest from rfl]
            rw [List.flatMap_cons, ih (i + 1) fun t ht => hb t (List.mem_cons_of_mem _ ht),
              List.map_cons]
            have : t.subareas = [⟨"segment", Quad.init 0 0 1 1, none⟩] := by
              rw [hb t (by simp)]
              rfl
            dsimp only
            rw [this]
            rfl
        exact this l 0 hb
      have hbare : ∀ t, (⟨w', s', t, ⟨"segment", Quad.init 0 0 1 1, none⟩, g, camber⟩ : SubData).Bare
          (s.numC.getD autoC) := fun t =>
        ⟨rfl, rfl, hc, by rw [hw]; exact hsym, by rw [hw]; exact hg⟩
      show _ ∧ (∀ q ∈ (enumFrom' 0 l).flatMap _, _) ∧ List.Perm (List.map _ (List.flatMap _
        ((enumFrom' 0 l).flatMap _))) _
      rw [hsub]
      refine ⟨fun x hx => ⟨l, hstr x hx⟩, ?_, ?_⟩
      · intro q hq
        obtain ⟨t, -, rfl⟩ := List.mem_map.1 hq
        exact ((hbare t).rows env doRot leg).1
      · rw [List.flatMap_map, List.map_flatMap, List.map_flatMap]
        have hrows : ∀ t, (SubData.rows env doRot leg ⟨w', s', t,
            ⟨"segment", Quad.init 0 0 1 1, none⟩, g, camber⟩).map turnClass = _ :=
          fun t => ((hbare t).rows env doRot leg).2
        simp only [hrows]
        refine (List.flatMap_append_perm _ _ _).symm.trans ?_
        unfold segmentSurfaces
        rw [List.flatMap_cons]
        rw [hn]
        have e1 : ∀ (f : ℝ → ℝ → V3 ℝ), (Surface.panels leg ⟨f, some n, s.numC.getD autoC⟩) =
            l.flatMap fun t => cornerRow leg (s.numC.getD autoC)
              (Surface.corners ⟨f, some n, s.numC.getD autoC⟩ t) := by
          intro f
          unfold Surface.panels
          have : Surface.strips ⟨f, some n, s.numC.getD autoC⟩ = .ok l := hl
          rw [this]
        rw [e1, List.map_flatMap]
        refine List.Perm.append ?_ ?_
        · unfold stripCorners Surface.corners
          simp only [segPoint_bilinear]
          exact .refl _
        · rw [hw]
          split
          · simp
          · rw [List.flatMap_singleton, e1, List.map_flatMap]
            unfold stripCornersMirror Surface.corners
            simp only [segPoint_bilinear, hg]
            exact .refl _

theorem wing_rows {autoC autoS : ℤ} {d : WingData} (hp : d.Plain) {segs : List (PSegment ℝ)}
    (h : mapE (segPanelled autoC autoS d.wing) d.wing.segments = .ok segs) (env : LatticeEnv)
    (doRot : Bool) (leg : V3 ℝ) :
    (∀ x ∈ d.surfaces autoC autoS, ∃ l, x.strips = .ok l) ∧
    (∀ q ∈ WingData.subareas { d with wing := { d.wing with segments := segs } }, q.Ok) ∧
    (((WingData.subareas { d with wing := { d.wing with segments := segs } }).flatMap
      (SubData.rows env doRot leg)).map turnClass).Perm
      (((d.surfaces autoC autoS).flatMap (Surface.panels leg)).map turnClass) := by
  unfold WingData.subareas WingData.surfaces
  have h' := mapE_ok h
  clear h
  dsimp only
  set w' : PWing ℝ := { d.wing with segments := segs }
  have hw : w'.symmetry = d.wing.symmetry := rfl
  clear_value w'
  generalize d.wing.segments = l0 at h' ⊢
  suffices key : ∀ i : ℕ,
      (∀ x ∈ (enumFrom' i l0).flatMap fun s => segmentSurfaces autoC autoS d.wing (d.geo s.1) s.2,
        ∃ l, x.strips = .ok l) ∧
      (∀ q ∈ (enumFrom' i segs).flatMap fun s => (enumFrom' 0 s.2.strips).flatMap fun st =>
        (enumFrom' 0 st.2.subareas).map fun a =>
          (⟨w', s.2, st.2, a.2, d.geo s.1, d.camber s.1⟩ : SubData), q.Ok) ∧
      ((((enumFrom' i segs).flatMap fun s => (enumFrom' 0 s.2.strips).flatMap fun st =>
        (enumFrom' 0 st.2.subareas).map fun a =>
          (⟨w', s.2, st.2, a.2, d.geo s.1, d.camber s.1⟩ : SubData)).flatMap
        (SubData.rows env doRot leg)).map turnClass).Perm
      ((((enumFrom' i l0).flatMap fun s =>
        segmentSurfaces autoC autoS d.wing (d.geo s.1) s.2).flatMap (Surface.panels leg)).map
          turnClass) from key 0
  intro i
  induction h' generalizing i with
  | nil => exact ⟨by simp [enumFrom'], by simp [enumFrom'], .refl _⟩
  | @cons s s' ss ss' hd _ ih =>
    obtain ⟨i1, i2, i3⟩ := ih (i + 1)
    rw [show enumFrom' i (s :: ss) = (i, s) :: enumFrom' (i + 1) ss from rfl,
      show enumFrom' i (s' :: ss') = (i, s') :: enumFrom' (i + 1) ss' from rfl]
    obtain ⟨j1, j2, j3⟩ := segment_rows (w' := w') (g := d.geo i) (camber := d.camber i) hd
      hp.symmetry hw (hp.geo i) (hp.camber i) env doRot leg
    refine ⟨?_, ?_, ?_⟩
    · intro x hx
      rw [List.flatMap_cons, List.mem_append] at hx
      exact hx.elim (j1 x) (i1 x)
    · intro q hq
      rw [List.flatMap_cons, List.mem_append] at hq
      exact hq.elim (j2 q) (i2 q)
    · rw [List.flatMap_cons, List.flatMap_cons, List.flatMap_append, List.flatMap_append,
        List.map_append, List.map_append]
      exact j3.append i3

theorem wing_accepted {autoC autoS : ℤ} {d : WingData}
    (h : ∀ x ∈ d.surfaces autoC autoS, ∃ l, x.strips = .ok l) :
    ∃ segs, mapE (segPanelled autoC autoS d.wing) d.wing.segments = .ok segs := by
  refine mapE_total ?_
  intro s hs
  have hmem : ∀ (l : List (PSegment ℝ)) (i : ℕ), s ∈ l → ∃ k, (k, s) ∈ enumFrom' i l := by
    intro l
    induction l with
    | nil => intro i h; cases h
    | cons a l ih =>
      intro i h
      rcases List.mem_cons.1 h with rfl | h
      · exact ⟨i, by simp [enumFrom']⟩
      · obtain ⟨k, hk⟩ := ih (i + 1) h
        exact ⟨k, List.mem_cons_of_mem _ hk⟩
  obtain ⟨k, hk⟩ := hmem _ 0 hs
  obtain ⟨l, hl⟩ := h ⟨fun eta xsi => displaced (d.geo k).defField
      ((d.geo k).vertices.bilinear eta xsi), spanwisePanels autoS d.wing s, s.numC.getD autoC⟩
    (List.mem_flatMap.2 ⟨(k, s), hk, by unfold segmentSurfaces; simp⟩)
  unfold segPanelled
  unfold Surface.strips at hl
  dsimp only at hl
  cases hn : spanwisePanels autoS d.wing s with
  | none => rw [hn] at hl; cases hl
  | some n =>
    rw [hn] at hl
    dsimp only at hl ⊢
    rw [hl]
    exact ⟨_, rfl⟩

/-! ## Panelling wing by wing -/

/-- Panelling of one wing. -/
noncomputable def panelWing (autoC autoS : ℤ) (w : PWing ℝ) : Except PyErr (PWing ℝ) :=
  match w.setAutopanels autoC autoS with
  | .error e => .error e
  | .ok w1 =>
    match w1.mapSegments (placeControls w1.controls) with
    | .error e => .error e
    | .ok w2 => w2.mapSegments (mapE PSegment.addSpanLines)

theorem mapE_of_forall₂ {α β : Type*} {f : α → Except PyErr β} {l : List α} {l' : List β}
    (h : List.Forall₂ (fun a b => f a = .ok b) l l') : mapE f l = .ok l' := by
  induction h with
  | nil => rfl
  | cons hd _ ih =>
    unfold mapE
    rw [hd, ih]

theorem mapE_ok_iff {α β : Type*} {f : α → Except PyErr β} {l : List α} {l' : List β} :
    mapE f l = .ok l' ↔ List.Forall₂ (fun a b => f a = .ok b) l l' := ⟨mapE_ok, mapE_of_forall₂⟩

theorem panelled_iff {env : RunEnv} {ac ac' : PAircraft ℝ} :
    Panelled env ac ac' ↔ mapE (panelWing env.autoC env.autoS) ac.wings = .ok ac'.wings := by
  rw [mapE_ok_iff]
  have hstep : ∀ w w' : PWing ℝ, panelWing env.autoC env.autoS w = .ok w' ↔ ∃ w1 w2,
      w.setAutopanels env.autoC env.autoS = .ok w1 ∧
      w1.mapSegments (placeControls w1.controls) = .ok w2 ∧
      w2.mapSegments (mapE PSegment.addSpanLines) = .ok w' := by
    intro w w'
    unfold panelWing
    constructor
    · intro h
      cases h1 : w.setAutopanels env.autoC env.autoS with
      | error e => rw [h1] at h; cases h
      | ok w1 =>
        rw [h1] at h
        dsimp only at h
        cases h2 : w1.mapSegments (placeControls w1.controls) with
        | error e => rw [h2] at h; cases h
        | ok w2 =>
          rw [h2] at h
          exact ⟨w1, w2, rfl, h2, h⟩
    · rintro ⟨w1, w2, h1, h2, h3⟩
      rw [h1]
      dsimp only
      rw [h2]
      exact h3
  constructor
  · rintro ⟨ac1, h1, h2⟩
    unfold setAutopanels at h1
    cases hm : mapE (PWing.setAutopanels env.autoC env.autoS) ac.wings with
    | error e => rw [hm] at h1; cases h1
    | ok ws =>
      rw [hm] at h1
      cases h1
      unfold prePanelling at h2
      dsimp only at h2
      cases hm2 : mapE (fun w => w.mapSegments (placeControls w.controls)) ws with
      | error e => rw [hm2] at h2; cases h2
      | ok ws' =>
        simp only [hm2] at h2
        cases hm3 : mapE (fun w => w.mapSegments (mapE PSegment.addSpanLines)) ws' with
        | error e => rw [hm3] at h2; cases h2
        | ok ws'' =>
          rw [hm3] at h2
          cases h2
          dsimp only
          rw [mapE_ok_iff] at hm hm2 hm3
          simp only [hstep]
          clear hstep
          generalize ac.wings = l0 at hm ⊢
          induction hm generalizing ws' ws'' with
          | nil =>
            cases hm2
            cases hm3
            exact .nil
          | cons h _ ih =>
            cases hm2 with
            | cons h' t' =>
              cases hm3 with
              | cons h'' t'' => exact .cons ⟨_, _, h, h', h''⟩ (ih _ t' _ t'')
  · intro h
    simp only [hstep] at h
    obtain ⟨ws, ws', g1, g2, g3⟩ : ∃ ws ws',
        List.Forall₂ (fun w w1 => w.setAutopanels env.autoC env.autoS = .ok w1) ac.wings ws ∧
        List.Forall₂ (fun w w2 => w.mapSegments (placeControls w.controls) = .ok w2) ws ws' ∧
        List.Forall₂ (fun w w' => w.mapSegments (mapE PSegment.addSpanLines) = .ok w') ws'
          ac'.wings := by
      clear hstep
      generalize ac.wings = l0 at h ⊢
      generalize ac'.wings = l1 at h ⊢
      induction h with
      | nil => exact ⟨[], [], .nil, .nil, .nil⟩
      | cons h _ ih =>
        obtain ⟨w1, w2, h1, h2, h3⟩ := h
        obtain ⟨ws, ws', i1, i2, i3⟩ := ih
        exact ⟨w1 :: ws, w2 :: ws', .cons h1 i1, .cons h2 i2, .cons h3 i3⟩
    refine ⟨⟨ws⟩, ?_, ?_⟩
    · unfold setAutopanels
      rw [mapE_ok_iff.2 g1]
    · unfold prePanelling
      dsimp only
      rw [mapE_ok_iff.2 g2]
      dsimp only
      rw [mapE_ok_iff.2 g3]

theorem setAutopanels_lines {autoC autoS : ℤ} {w : PWing ℝ} {s s' : PSegment ℝ}
    (hs : s.strips = initStrips) :
    (∃ s1, s.setAutopanels w.span autoC autoS = .ok s1 ∧ s1.addSpanLines = .ok s') ↔
      segPanelled autoC autoS w s = .ok s' := by
  obtain ⟨uid, span, numS, numC, interp, dist, strips⟩ := s
  dsimp only at hs
  subst hs
  have hlines : ∀ (n c : ℤ), PSegment.addSpanLines ⟨uid, span, some n, some c, interp, dist,
      initStrips⟩ = match lineStrips n with
        | .error e => .error e
        | .ok l => .ok ⟨uid, span, some n, some c, interp, dist, l⟩ := by
    intro n c
    unfold PSegment.addSpanLines
    rw [lineStrips_interp interp]
    dsimp only
    split
    · rfl
    · cases addLines interp (spanLines n.toNat) initStrips <;> rfl
  have hauto : PSegment.setAutopanels w.span autoC autoS ⟨uid, span, numS, numC, interp, dist,
      initStrips⟩ = match spanwisePanels autoS w ⟨uid, span, numS, numC, interp, dist, initStrips⟩ with
        | none => .error .zeroDivision
        | some n => .ok ⟨uid, span, some n, some (numC.getD autoC), interp, dist, initStrips⟩ := by
    unfold PSegment.setAutopanels spanwisePanels spanRatio
    by_cases h0 : w.span = 0 <;> cases numC <;> cases numS <;> simp [h0]
  rw [hauto]
  unfold segPanelled
  dsimp only
  cases spanwisePanels autoS w ⟨uid, span, numS, numC, interp, dist, initStrips⟩ with
  | none => simp
  | some n =>
    dsimp only
    constructor
    · rintro ⟨s1, h1, h2⟩
      cases h1
      rw [hlines] at h2
      exact h2
    · intro h
      exact ⟨_, rfl, by rw [hlines]; exact h⟩

theorem panelWing_plain {autoC autoS : ℤ} {w w' : PWing ℝ} (hc : w.controls = [])
    (hs : ∀ s ∈ w.segments, s.strips = initStrips) :
    panelWing autoC autoS w = .ok w' ↔ ∃ segs,
      mapE (segPanelled autoC autoS w) w.segments = .ok segs ∧ w' = { w with segments := segs } := by
  have hcomp : ∀ segs : List (PSegment ℝ), mapE (segPanelled autoC autoS w) w.segments = .ok segs ↔
      ∃ segs1, mapE (PSegment.setAutopanels w.span autoC autoS) w.segments = .ok segs1 ∧
        mapE PSegment.addSpanLines segs1 = .ok segs := by
    intro segs
    simp only [mapE_ok_iff]
    generalize hw : w.segments = l at hs
    clear hw
    constructor
    · intro h
      induction h with
      | nil => exact ⟨[], .nil, .nil⟩
      | @cons s s' _ _ h _ ih =>
        obtain ⟨s1, h1, h2⟩ := (setAutopanels_lines (hs s (by simp))).2 h
        obtain ⟨r, i1, i2⟩ := ih fun s hs' => hs s (List.mem_cons_of_mem _ hs')
        exact ⟨s1 :: r, .cons h1 i1, .cons h2 i2⟩
    · rintro ⟨r, h1, h2⟩
      induction h1 generalizing segs with
      | nil => cases h2; exact .nil
      | @cons s s1 _ _ h _ ih =>
        cases h2 with
        | cons h' t' =>
          exact .cons ((setAutopanels_lines (hs s (by simp))).1 ⟨_, h, h'⟩)
            (ih _ (fun s hs' => hs s (List.mem_cons_of_mem _ hs')) t')
  obtain ⟨uid, symmetry, segments, controls⟩ := w
  dsimp only at hc
  subst hc
  unfold panelWing PWing.setAutopanels
  simp only [hcomp]
  cases h1 : mapE (PSegment.setAutopanels (PWing.span ⟨uid, symmetry, segments, []⟩) autoC autoS)
      segments with
  | error e => simp
  | ok segs1 =>
    simp only [PWing.mapSegments, placeControls, List.map_nil, Except.ok.injEq, exists_eq_left']
    cases mapE PSegment.addSpanLines segs1 with
    | error e => simp
    | ok segs2 => simp [eq_comm]

/-- The panelled wing. -/
noncomputable def panelledWing (autoC autoS : ℤ) (w : PWing ℝ) : PWing ℝ :=
  okOr (panelWing autoC autoS) w w

theorem panelledWing_eq {autoC autoS : ℤ} {w w' : PWing ℝ} (h : panelWing autoC autoS w = .ok w') :
    panelledWing autoC autoS w = w' := by
  unfold panelledWing okOr
  rw [h]

/-- The panelled wing with its geometry. -/
noncomputable def WingData.panelled (autoC autoS : ℤ) (d : WingData) : WingData :=
  { d with wing := panelledWing autoC autoS d.wing }

/-- The wing can be panelled. -/
def WingData.Accepted (autoC autoS : ℤ) (d : WingData) : Prop :=
  ∃ w', panelWing autoC autoS d.wing = .ok w'

theorem panelled_data {env : RunEnv} {ac : PAircraft ℝ} (lat : LatticeEnv) :
    (∀ ac', Panelled env ac ac' → (∀ d ∈ wingData lat ac, d.Accepted env.autoC env.autoS) ∧
      wingData lat ac' = (wingData lat ac).map (WingData.panelled env.autoC env.autoS)) ∧
    ((∀ d ∈ wingData lat ac, d.Accepted env.autoC env.autoS) → ∃ ac', Panelled env ac ac') := by
  constructor
  · intro ac' h
    have h' := mapE_ok (panelled_iff.1 h)
    have hmem : ∀ w ∈ ac.wings, ∃ w', panelWing env.autoC env.autoS w = .ok w' := by
      intro w hw
      generalize ac.wings = l at h' hw
      generalize ac'.wings = l' at h'
      induction h' with
      | nil => cases hw
      | cons h _ ih =>
        rcases List.mem_cons.1 hw with rfl | hw
        · exact ⟨_, h⟩
        · exact ih hw
    have hmap : ac'.wings = ac.wings.map (panelledWing env.autoC env.autoS) := by
      generalize ac.wings = l at h'
      generalize ac'.wings = l' at h'
      induction h' with
      | nil => rfl
      | cons h _ ih => rw [List.map_cons, ← ih, panelledWing_eq h]
    refine ⟨?_, ?_⟩
    · intro d hd
      refine hmem d.wing ?_
      rw [← wingData_wings lat ac]
      exact List.mem_map_of_mem hd
    · obtain ⟨ws⟩ := ac'
      dsimp only at hmap
      subst hmap
      exact wingData_map lat ac _
  · intro h
    obtain ⟨ws, hws⟩ := mapE_total (f := panelWing env.autoC env.autoS) (l := ac.wings) (by
      intro w hw
      rw [← wingData_wings lat ac] at hw
      obtain ⟨d, hd, rfl⟩ := List.mem_map.1 hw
      exact h d hd)
    exact ⟨⟨ws⟩, panelled_iff.2 hws⟩

/-- A plain wing: it is accepted if and only if its surfaces can be divided, and its panels are those
of its surfaces. -/
theorem plain_rows {autoC autoS : ℤ} {d : WingData} (hp : d.Plain)
    (hs : ∀ s ∈ d.wing.segments, s.strips = initStrips) (env : LatticeEnv) (doRot : Bool)
    (leg : V3 ℝ) :
    (d.Accepted autoC autoS ↔ ∀ x ∈ d.surfaces autoC autoS, ∃ l, x.strips = .ok l) ∧
    (d.Accepted autoC autoS → (∀ q ∈ (d.panelled autoC autoS).subareas, q.Ok) ∧
      (((d.panelled autoC autoS).subareas.flatMap (SubData.rows env doRot leg)).map turnClass).Perm
        (((d.surfaces autoC autoS).flatMap (Surface.panels leg)).map turnClass)) := by
  have key : ∀ w', panelWing autoC autoS d.wing = .ok w' →
      (∀ x ∈ d.surfaces autoC autoS, ∃ l, x.strips = .ok l) ∧
      (∀ q ∈ (d.panelled autoC autoS).subareas, q.Ok) ∧
      (((d.panelled autoC autoS).subareas.flatMap (SubData.rows env doRot leg)).map turnClass).Perm
        (((d.surfaces autoC autoS).flatMap (Surface.panels leg)).map turnClass) := by
    intro w' h
    have e := panelledWing_eq h
    obtain ⟨segs, h1, rfl⟩ := (panelWing_plain hp.controls hs).1 h
    unfold WingData.panelled
    rw [e]
    exact wing_rows hp h1 env doRot leg
  refine ⟨⟨fun ⟨w', h⟩ => (key w' h).1, fun h => ?_⟩, fun ⟨w', h⟩ => (key w' h).2⟩
  obtain ⟨segs, h1⟩ := wing_accepted h
  exact ⟨_, (panelWing_plain hp.controls hs).2 ⟨segs, h1, rfl⟩⟩

theorem forall₂_same_panels {l m : List Surface} (h : List.Forall₂ Surface.Same l m) :
    ((∀ x ∈ l, ∃ t, x.strips = .ok t) → ∀ x ∈ m, ∃ t, x.strips = .ok t) ∧
    ∀ leg, ((m.flatMap (Surface.panels leg)).map turnClass).Perm
      ((l.flatMap (Surface.panels leg)).map turnClass) := by
  induction h with
  | nil => exact ⟨id, fun _ => .refl _⟩
  | cons h _ ih =>
    obtain ⟨h1, h2⟩ := h.panels
    refine ⟨?_, ?_⟩
    · intro hx x hx'
      rcases List.mem_cons.1 hx' with rfl | hx'
      · exact h1.1 (hx _ (by simp))
      · exact ih.1 (fun x hx'' => hx x (List.mem_cons_of_mem _ hx'')) x hx'
    · intro leg
      rw [List.flatMap_cons, List.flatMap_cons, List.map_append, List.map_append]
      exact (h2 leg).append (ih.2 leg)

theorem plains_rows {autoC autoS : ℤ} {ds : List WingData} (hp : ∀ d ∈ ds, d.Plain)
    (hs : ∀ d ∈ ds, ∀ s ∈ d.wing.segments, s.strips = initStrips) (env : LatticeEnv) (doRot : Bool)
    (leg : V3 ℝ) :
    ((∀ d ∈ ds, d.Accepted autoC autoS) ↔
      ∀ x ∈ ds.flatMap (WingData.surfaces autoC autoS), ∃ l, x.strips = .ok l) ∧
    ((∀ d ∈ ds, d.Accepted autoC autoS) →
      (∀ q ∈ (ds.map (WingData.panelled autoC autoS)).flatMap WingData.subareas, q.Ok) ∧
      (((((ds.map (WingData.panelled autoC autoS)).flatMap WingData.subareas).flatMap
        (SubData.rows env doRot leg))).map turnClass).Perm
        (((ds.flatMap (WingData.surfaces autoC autoS)).flatMap (Surface.panels leg)).map
          turnClass)) := by
  induction ds with
  | nil => simp
  | cons d ds ih =>
    obtain ⟨i1, i2⟩ := ih (fun d hd => hp d (List.mem_cons_of_mem _ hd))
      (fun d hd => hs d (List.mem_cons_of_mem _ hd))
    obtain ⟨j1, j2⟩ := plain_rows (autoC := autoC) (autoS := autoS) (hp d (by simp))
      (hs d (by simp)) env doRot leg
    rw [List.flatMap_cons, List.map_cons, List.flatMap_cons]
    refine ⟨?_, ?_⟩
    · rw [List.forall_mem_cons, List.forall_mem_append, i1, j1]
    · intro h
      rw [List.forall_mem_cons] at h
      obtain ⟨k1, k2⟩ := i2 h.2
      obtain ⟨k3, k4⟩ := j2 h.1
      refine ⟨?_, ?_⟩
      · rw [List.forall_mem_append]
        exact ⟨k3, k1⟩
      · rw [List.flatMap_append, List.flatMap_append, List.map_append, List.map_append]
        exact k4.append k2

theorem unpanelled_data {lat : LatticeEnv} {ac : PAircraft ℝ} (hu : ac.Unpanelled)
    {l r : List WingData} (h : (wingData lat ac).Perm (l ++ r)) :
    ∀ d ∈ l, ∀ s ∈ d.wing.segments, s.strips = initStrips := by
  intro d hd
  refine hu d.wing ?_
  rw [← wingData_wings lat ac]
  exact List.mem_map_of_mem (h.mem_iff.2 (List.mem_append_left _ hd))

/-- The panels of aircraft with the same surfaces. -/
theorem SameSurfaces.rows {env : RunEnv} {lat' : LatticeEnv} {ac ac2 ac' : PAircraft ℝ}
    (h : SameSurfaces env.autoC env.autoS env.lat lat' ac ac2) (hu : ac.Unpanelled)
    (hu2 : ac2.Unpanelled) (hp : Panelled env ac ac') :
    ∃ ac2', Panelled { env with lat := lat' } ac2 ac2' ∧
      ((∀ d ∈ subData env.lat ac', d.Ok) → ∀ d ∈ subData lat' ac2', d.Ok) ∧
      ∀ doRot leg, (((subData lat' ac2').flatMap (SubData.rows lat' doRot leg)).map turnClass).Perm
        (((subData env.lat ac').flatMap (SubData.rows env.lat doRot leg)).map turnClass) := by
  obtain ⟨p, p2, r, h1, h2, h3, h4, m, h5, h6⟩ := h.wings
  obtain ⟨a1, a2⟩ := (panelled_data (env := env) (ac := ac) env.lat).1 ac' hp
  have s1 := unpanelled_data hu h1
  have s2 := unpanelled_data hu2 h2
  have acc : ∀ d ∈ p ++ r, d.Accepted env.autoC env.autoS := fun d hd => a1 d (h1.mem_iff.2 hd)
  rw [List.forall_mem_append] at acc
  obtain ⟨f1, f2⟩ := forall₂_same_panels h6
  have acc2 : ∀ d ∈ p2, d.Accepted env.autoC env.autoS := by
    refine (plains_rows h4 s2 lat' true 0).1.2 ?_
    intro x hx
    exact f1 ((plains_rows h3 s1 lat' true 0).1.1 acc.1) x (h5.mem_iff.1 hx)
  have acc3 : ∀ d ∈ wingData lat' ac2, d.Accepted env.autoC env.autoS := by
    intro d hd
    rcases List.mem_append.1 (h2.mem_iff.1 hd) with hd | hd
    · exact acc2 d hd
    · exact acc.2 d hd
  obtain ⟨ac2', hp2⟩ := (panelled_data (env := { env with lat := lat' }) (ac := ac2) lat').2 acc3
  obtain ⟨-, b2⟩ := (panelled_data (env := { env with lat := lat' }) (ac := ac2) lat').1 ac2' hp2
  have d1 : (subData env.lat ac').Perm ((p.map (WingData.panelled env.autoC env.autoS)).flatMap
      WingData.subareas ++ (r.map (WingData.panelled env.autoC env.autoS)).flatMap
      WingData.subareas) := by
    rw [subData_eq, a2, ← List.flatMap_append, ← List.map_append]
    exact (h1.map _).flatMap_right _
  have d2 : (subData lat' ac2').Perm ((p2.map (WingData.panelled env.autoC env.autoS)).flatMap
      WingData.subareas ++ (r.map (WingData.panelled env.autoC env.autoS)).flatMap
      WingData.subareas) := by
    rw [subData_eq, b2, ← List.flatMap_append, ← List.map_append]
    exact (h2.map _).flatMap_right _
  refine ⟨ac2', hp2, ?_, ?_⟩
  · intro hok d hd
    rcases List.mem_append.1 (d2.mem_iff.1 hd) with hd | hd
    · exact ((plains_rows h4 s2 lat' true 0).2 acc2).1 d hd
    · exact hok d (d1.mem_iff.2 (List.mem_append_right _ hd))
  · intro doRot leg
    refine ((d2.flatMap_right _).map _).trans (List.Perm.trans ?_
      ((d1.flatMap_right _).map _).symm)
    rw [List.flatMap_append, List.flatMap_append, List.map_append, List.map_append]
    refine List.Perm.append ?_ ?_
    · refine ((plains_rows h4 s2 lat' doRot leg).2 acc2).2.trans (List.Perm.trans ?_
        ((plains_rows h3 s1 env.lat doRot leg).2 acc.1).2.symm)
      exact ((h5.flatMap_right _).map _).trans (f2 leg)
    · rw [SubData.rows_congr h.deflection]

/-! ## Analysis -/

/-- The panels of lattices that are the same up to order and sides. -/
theorem panels_same {l l' : LatticeData} {P : Fin l.num → Panel}
    (hP : ∀ k : Fin l.num, l.panel k = some (P k))
    (h : (((List.range l'.num).map fun k => l'.panel k).map turnClass).Perm
      (((List.range l.num).map fun k => l.panel k).map turnClass)) :
    ∃ (e : Fin l'.num ≃ Fin l.num) (σ : Fin l'.num → Bool),
      ∀ k : Fin l'.num, l'.panel k = some ((P (e k)).turn (σ k)) := by
  obtain ⟨e, he⟩ := perm_equiv h
  have c1 : (((List.range l'.num).map fun k => l'.panel k).map turnClass).length = l'.num := by simp
  have c2 : (((List.range l.num).map fun k => l.panel k).map turnClass).length = l.num := by simp
  have : ∀ k : Fin l'.num, ∃ b, l'.panel k =
      some ((P (((finCongr c1.symm).trans (e.trans (finCongr c2))) k)).turn b) := by
    intro k
    have := he (finCongr c1.symm k)
    simp only [List.get_eq_getElem, List.getElem_map, List.getElem_range] at this
    refine turnClass_eq ?_
    rw [← hP]
    exact this.symm
  choose σ hσ using this
  exact ⟨_, σ, hσ⟩

/-- An analysis of the same panels in another order, some of them described from the other side. -/
structure Analysis.SameUpTo (a a' : Analysis) (e : Fin a'.l.num ≃ Fin a.l.num)
    (σ : Fin a'.l.num → Bool) : Prop where
  panels : ∀ k, a'.P k = (a.P (e k)).turn (σ k)
  matrix : ∀ j k, a'.A j k = turnSign (σ j) * turnSign (σ k) * a.A (e j) (e k)
  gamma : ∀ k, a'.g k = turnSign (σ k) * a.g (e k)
  rows : ∀ k, a'.R.iw k = a.R.iw (e k) ∧ a'.R.iwMag k = a.R.iwMag (e k) ∧ a'.R.f k = a.R.f (e k) ∧
    a'.R.fMag k = a.R.fMag (e k) ∧ a'.R.cp k = (a.R.cp (e k)).map (turnSign (σ k) * ·)
  ftot : a'.R.ftot = a.R.ftot
  mtot : a'.R.mtot = a.R.mtot
  wind : a'.R.wind = a.R.wind
  coeffs : a'.R.coeffs = a.R.coeffs

theorem Analysis.Of.same {env : RunEnv} {lat' : LatticeEnv} {ac1 ac' ac3 ac4 : PAircraft ℝ}
    (hu : ac1.Unpanelled) (hn : ac1.NumC 0) (hp : prePanelling ac1 = .ok ac')
    (hu' : ac3.Unpanelled) (hn' : ac3.NumC 0) (hp' : prePanelling ac3 = .ok ac4)
    (hok : (∀ d ∈ subData env.lat ac', d.Ok) → ∀ d ∈ subData lat' ac4, d.Ok)
    (hrows : ∀ doRot leg,
      (((subData lat' ac4).flatMap (SubData.rows lat' doRot leg)).map turnClass).Perm
        (((subData env.lat ac').flatMap (SubData.rows env.lat doRot leg)).map turnClass))
    {st : FlightSt ℝ} {i : ℕ} {a : Analysis} (ha : a.Of env ac' st i) :
    ∃ (a' : Analysis) (e : Fin a'.l.num ≃ Fin a.l.num) (σ : Fin a'.l.num → Bool),
      a'.Of { env with lat := lat' } ac4 st i ∧ Analysis.SameUpTo a a' e σ := by
  obtain ⟨s, l, P, A, g, R⟩ := a
  have hl : genLattice env.lat env.doRot s.alpha s.beta ac' = .ok l := ha.lattice
  obtain ⟨r1, r2⟩ := lattice_rows hu hp hn hl
  obtain ⟨l', hl'⟩ := lattice_exists hu' hp' hn' (env := lat') env.doRot s.alpha s.beta (hok r1)
  obtain ⟨-, r3⟩ := lattice_rows hu' hp' hn' hl'
  have hperm : (((List.range l'.num).map fun k => l'.panel k).map turnClass).Perm
      (((List.range l.num).map fun k => l.panel k).map turnClass) := by
    rw [r2, r3]
    exact hrows _ _
  have hP : ∀ k : Fin l.num, l.panel k = some (P k) := ha.panels
  obtain ⟨e, σ, he⟩ := panels_same hP hperm
  obtain ⟨R1, q1, q2, q3, q4, q5, q6⟩ := results_reordered e ha.results
  obtain ⟨R', t1, t2, t3, t4, t5, t6⟩ := results_turn σ q1
  have hdet : (Matrix.det fun i j => turnSign (σ i) * turnSign (σ j) * A.submatrix e e i j) = A.det := by
    rw [det_turn, Matrix.det_submatrix_equiv_self e A]
  refine ⟨⟨s, l', fun k => (P (e k)).turn (σ k),
    fun i j => turnSign (σ i) * turnSign (σ j) * A.submatrix e e i j,
    fun k => turnSign (σ k) * g (e k), R'⟩, e, σ,
    ⟨ha.airspeed, ha.density, ha.alpha, ha.beta, ha.rateP, ha.rateQ, ha.rateR, hl', ?_, he,
      downwash_turn σ (downwash_reordered e ha.matrix), ?_, ?_, t1⟩,
    ⟨fun _ => rfl, fun _ _ => rfl, fun _ => rfl, ?_, t2.trans q2, t3.trans q3, t4.trans q4,
      t5.trans q5⟩⟩
  · have h0 : l.num ≠ 0 := ha.nonempty
    have := Fintype.card_congr e
    simp only [Fintype.card_fin] at this
    show l'.num ≠ 0
    omega
  · intro hd
    have hd' : IsUnit A.det := by rw [← hdet]; exact hd
    have := solves_turn σ (solves_reordered e (ha.solved hd'))
    show Solves _ (vlmBoundary s env.refs fun k => (P (e k)).turn (σ k)) _
    rw [show (vlmBoundary s env.refs fun k => (P (e k)).turn (σ k)) =
      fun k => turnSign (σ k) * vlmBoundary s env.refs (fun k => P (e k)) k from
      funext (boundary_turn σ s env.refs _)]
    exact this
  · intro hd
    have hd' : ¬ IsUnit A.det := by rw [← hdet]; exact hd
    have hg : g = vlmBoundary s env.refs P := ha.singular hd'
    show (fun k => turnSign (σ k) * g (e k)) = vlmBoundary s env.refs fun k => (P (e k)).turn (σ k)
    rw [hg]
    funext k
    rw [boundary_turn σ s env.refs fun k => P (e k)]
    rfl
  · intro k
    obtain ⟨u1, u2, u3, u4, u5⟩ := t6 k
    obtain ⟨w1, w2, w3, w4, w5⟩ := q6 k
    exact ⟨u1.trans w1, u2.trans w2, u3.trans w3, u4.trans w4, by rw [u5, w5]⟩

/-- **C125** (panels): if two aircraft have the same surfaces, the analyses of a flight state have the
same panels, in another order and some of them described from the other side; corresponding panels
carry the same force, the circulations and pressure coefficients agree up to the sign that belongs to
the side, and the sums are the same. -/
theorem C125_panels (env : RunEnv) (lat' : LatticeEnv) (ac ac2 ac' : PAircraft ℝ)
    (hu : ac.Unpanelled) (hu2 : ac2.Unpanelled) (hn : ac.GivenNumC env.autoC)
    (hn2 : ac2.GivenNumC env.autoC) (h : SameSurfaces env.autoC env.autoS env.lat lat' ac ac2)
    (hp : Panelled env ac ac') :
    ∃ ac2', Panelled { env with lat := lat' } ac2 ac2' ∧
      ∀ (st : FlightSt ℝ) (i : ℕ) (a : Analysis), a.Of env ac' st i →
        ∃ (a' : Analysis) (e : Fin a'.l.num ≃ Fin a.l.num) (σ : Fin a'.l.num → Bool),
          a'.Of { env with lat := lat' } ac2' st i ∧ Analysis.SameUpTo a a' e σ := by
  obtain ⟨ac2', q1, q2, q3⟩ := h.rows hu hu2 hp
  refine ⟨ac2', q1, ?_⟩
  intro st i a ha
  obtain ⟨ac1, p1, p2⟩ := hp
  obtain ⟨ac3, p3, p4⟩ := q1
  obtain ⟨f1, f2⟩ := autopanels_facts hu hn p1
  obtain ⟨f3, f4⟩ := autopanels_facts hu2 hn2 p3
  exact ha.same f1 f2 p2 f3 f4 p4 q2 q3

/-- **C125**: if two aircraft have the same surfaces, a run finishes for the second as for the first
and all global results — forces, moments and coefficients of all flight states — are the same. -/
theorem C125_surfaces (env : RunEnv) (hd : Lapack env.dgesv) (lat' : LatticeEnv)
    (ac ac2 : PAircraft ℝ) (hu : ac.Unpanelled) (hu2 : ac2.Unpanelled)
    (hn : ac.GivenNumC env.autoC) (hn2 : ac2.GivenNumC env.autoC)
    (h : SameSurfaces env.autoC env.autoS env.lat lat' ac ac2) (st : FlightSt ℝ) (out : RunOut)
    (hr : standardRun env ac st = .ok out) :
    ∃ out', standardRun { env with lat := lat' } ac2 st = .ok out' ∧
      ∀ i < st.num, (∀ c ∈ runColumns, out'.value c.1 i = out.value c.1 i) := by
  obtain ⟨out', h', hv⟩ := run_transfer (env := env) (env' := { env with lat := lat' }) hd hd
    (ac2 := ac2) (st' := st) rfl
    (fun _ a a' => ∃ e σ, Analysis.SameUpTo a a' e σ)
    (by
      intro ac' hp
      obtain ⟨ac2', q1, q2⟩ := C125_panels env lat' ac ac2 ac' hu hu2 hn hn2 h hp
      refine ⟨ac2', q1, ?_⟩
      intro i _ a ha
      obtain ⟨a', e, σ, h1, h2⟩ := q2 st i a ha
      exact ⟨a', h1, e, σ, h2⟩) hr
  refine ⟨out', h', ?_⟩
  intro i hi c hc
  obtain ⟨ac', a, a', -, -, ⟨e, σ, he⟩, v1, v2⟩ := hv i hi
  rw [v1 c hc, v2 c hc]
  unfold runColumns at hc
  simp only [List.mem_cons, List.not_mem_nil, or_false] at hc
  rcases hc with rfl | rfl | rfl | rfl | rfl | rfl | rfl | rfl | rfl | rfl | rfl | rfl | rfl | rfl |
    rfl | rfl | rfl | rfl <;> simp only [he.ftot, he.mtot, he.wind, he.coeffs]

/-- **C125**: a run finishes for all descriptions of the same surfaces or for none. -/
theorem C125_finishes (env : RunEnv) (hd : Lapack env.dgesv) (lat' : LatticeEnv)
    (ac ac2 : PAircraft ℝ) (hu : ac.Unpanelled) (hu2 : ac2.Unpanelled)
    (hn : ac.GivenNumC env.autoC) (hn2 : ac2.GivenNumC env.autoC)
    (h : SameSurfaces env.autoC env.autoS env.lat lat' ac ac2) (st : FlightSt ℝ) :
    (∃ out, standardRun { env with lat := lat' } ac2 st = .ok out) ↔
      ∃ out, standardRun env ac st = .ok out := by
  constructor
  · rintro ⟨out, hr⟩
    obtain ⟨out', h', -⟩ := C125_surfaces { env with lat := lat' } hd env.lat ac2 ac hu2 hu hn2 hn
      h.symm st out hr
    exact ⟨out', h'⟩
  · rintro ⟨out, hr⟩
    obtain ⟨out', h', -⟩ := C125_surfaces env hd lat' ac ac2 hu hu2 hn hn2 h st out hr
    exact ⟨out', h'⟩

end Verif
