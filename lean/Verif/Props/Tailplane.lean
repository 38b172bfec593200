import Mathlib.Analysis.Convex.Basic
import Verif.Props.FromAbove

/-!
# Property C152: wings and tailplanes that do not meet are analysed in all flight states
-/

namespace Verif

open V3

/-! ## Points of a panel lie between the corners of its segment -/

/-- One of the three coordinates. -/
def IsCoord (f : V3 ℝ → ℝ) : Prop := f = V3.x ∨ f = V3.y ∨ f = V3.z

theorem segPoint_mem {S : Set ℝ} (hS : Convex ℝ S) {f : V3 ℝ → ℝ} (hf : IsCoord f) {v : Corners (V3 ℝ)}
    (hv : ∀ p ∈ v.list, f p ∈ S) {e x : ℝ} (he : 0 ≤ e ∧ e ≤ 1) (hx : 0 ≤ x ∧ x ≤ 1) :
    f (segPoint v e x) ∈ S := by
  have ha := hv v.a (by simp [Corners.list])
  have hb := hv v.b (by simp [Corners.list])
  have hc := hv v.c (by simp [Corners.list])
  have hd := hv v.d (by simp [Corners.list])
  have key := hS.add_smul_sub_mem (hS.add_smul_sub_mem ha hb he) (hS.add_smul_sub_mem hd hc he) hx
  simp only [smul_eq_mul] at key
  unfold segPoint
  rcases hf with rfl | rfl | rfl <;> simpa using key

/-- Ends of the bound vortex, collocation point and midpoint. -/
def Panel.inner (g : Panel) : List (V3 ℝ) := [g.v2, g.v3, g.col, g.mid]

theorem panelPts_seg (v : Corners (V3 ℝ)) (leg : V3 ℝ) {n : ℤ} {k : ℕ} (hk : (k : ℤ) < n) :
    ∀ p ∈ (panelPts (Coef.of v) leg 1 n k 0).toPanel.inner, ∃ e x : ℝ, (0 ≤ e ∧ e ≤ 1) ∧ (0 ≤ x ∧ x ≤ 1) ∧
      p = segPoint v e x := by
  have hn : (0 : ℝ) < n := by
    have : (0 : ℤ) < n := by omega
    exact_mod_cast this
  have hkn : (k : ℝ) + 1 ≤ n := by exact_mod_cast hk
  have hx : ∀ t : ℝ, 0 ≤ t → t ≤ 1 → 0 ≤ 1 / (n : ℝ) * (k + t) ∧ 1 / (n : ℝ) * (k + t) ≤ 1 := by
    intro t t0 t1
    refine ⟨by positivity, ?_⟩
    rw [one_div, inv_mul_le_iff₀ hn]
    linarith
  intro p hp
  simp only [Panel.inner, PanelPts.toPanel, List.mem_cons, List.not_mem_nil, or_false] at hp
  rcases hp with rfl | rfl | rfl | rfl
  · refine ⟨0, 1 / (n : ℝ) * (k + 1/4), by norm_num, hx _ (by norm_num) (by norm_num), ?_⟩
    unfold panelPts Coef.of Coef.at segPoint
    ext <;> simp <;> ring
  · refine ⟨1, 1 / (n : ℝ) * (k + 1/4), by norm_num, hx _ (by norm_num) (by norm_num), ?_⟩
    unfold panelPts Coef.of Coef.at segPoint
    ext <;> simp <;> ring
  · refine ⟨1/2, 1 / (n : ℝ) * (k + 3/4), by norm_num, hx _ (by norm_num) (by norm_num), ?_⟩
    unfold panelPts Coef.of Coef.at segPoint
    ext <;> simp <;> ring
  · refine ⟨1/2, 1 / (n : ℝ) * (k + 1/4), by norm_num, hx _ (by norm_num) (by norm_num), ?_⟩
    unfold panelPts Coef.of Coef.at segPoint
    ext <;> simp <;> ring

/-- The points of the panel lie in every slab that contains the corners of the segment. -/
def Panel.Between (g : Panel) (v : Corners (V3 ℝ)) : Prop :=
  ∀ p ∈ g.inner, ∀ (f : V3 ℝ → ℝ), IsCoord f → ∀ S : Set ℝ, Convex ℝ S → (∀ q ∈ v.list, f q ∈ S) → f p ∈ S

theorem entry_between {ac ac' : PAircraft ℝ} (hu : ac.Unpanelled) (h : prePanelling ac = .ok ac')
    (hn : ac.NumC 0) {env : LatticeEnv} {doRot : Bool} {alpha beta : ℝ} {l : LatticeData}
    (hl : genLattice env doRot alpha beta ac' = .ok l) {e : BookEntry} (he : e ∈ l.book.entries)
    (hrigid : (env.geo e.path.wing e.path.seg).isDeformed = false) {k : ℕ} (hk : (k : ℤ) < e.numC) {g : Panel}
    (hg : l.panelAt (e.start + k) = some g) :
    g.Between ((env.geo e.path.wing e.path.seg).vertices.onSide (env.geo e.path.wing e.path.seg).symmetry
      e.mirror) := by
  obtain ⟨-, e1, e2, xa, xb, xc, xd, ⟨⟨s1, s2, s3⟩, ⟨i1, i2, i3⟩, o1, o2, o3⟩, hpts⟩ :=
    entry_patch hu h hn hl he hrigid
  unfold LatticeData.panelAt at hg
  rw [hpts k hk] at hg
  cases hN : l.normal (e.start + k) with
  | none => simp [hN] at hg
  | some N =>
    simp only [hN, Option.some.injEq] at hg
    subst hg
    intro p hp f hf S hS hq
    obtain ⟨e, x, he, hx, rfl⟩ := panelPts_seg _ (trailLeg alpha beta) hk p hp
    refine segPoint_mem hS hf ?_ he hx
    intro q hq'
    simp only [patch, Corners.list, List.mem_cons, List.not_mem_nil, or_false] at hq'
    rcases hq' with rfl | rfl | rfl | rfl <;>
      exact segPoint_mem hS hf hq ⟨by linarith, by linarith⟩ ⟨by linarith, by linarith⟩

/-! ## Segments apart from each other -/

/-- There is a plane across the coordinate between the segments. -/
def Corners.Before (f : V3 ℝ → ℝ) (v v' : Corners (V3 ℝ)) : Prop :=
  ∃ m : ℝ, (∀ p ∈ v.list, f p < m) ∧ ∀ p ∈ v'.list, m < f p

/-- The segment lies in the cube of 5 km around the origin. -/
def Corners.Small (v : Corners (V3 ℝ)) : Prop :=
  ∀ p ∈ v.list, |p.x| ≤ 2500 ∧ |p.y| ≤ 2500 ∧ |p.z| ≤ 2500

/-- Two segments lie side by side, or one behind or above the other. -/
def Corners.Clear (v v' : Corners (V3 ℝ)) : Prop :=
  (v.b.y ≤ v'.a.y ∨ v'.b.y ≤ v.a.y) ∨ v.Before V3.x v' ∨ v'.Before V3.x v ∨ v.Before V3.z v' ∨ v'.Before V3.z v

theorem onSide_mem {v : Corners (V3 ℝ)} {sym : ℕ} {m : Bool} (hs : m = true → sym = 2) {p : V3 ℝ}
    (hp : p ∈ (v.onSide sym m).list) : ∃ q ∈ v.list, p.x = q.x ∧ p.z = q.z ∧ (p.y = q.y ∨ p.y = -q.y) := by
  cases m with
  | false => exact ⟨p, hp, rfl, rfl, .inl rfl⟩
  | true =>
    obtain rfl := hs rfl
    simp only [Corners.onSide, Corners.list, if_true, List.mem_cons, List.not_mem_nil, or_false] at hp
    have key : ∀ q : V3 ℝ, (reflect (symNormal 2) q).x = q.x ∧ (reflect (symNormal 2) q).z = q.z ∧
        (reflect (symNormal 2) q).y = -q.y := by
      intro q
      simp [reflect, symNormal, V3.dot]
      ring
    rcases hp with rfl | rfl | rfl | rfl
    · exact ⟨v.b, by simp [Corners.list], (key _).1, (key _).2.1, .inr (key _).2.2⟩
    · exact ⟨v.a, by simp [Corners.list], (key _).1, (key _).2.1, .inr (key _).2.2⟩
    · exact ⟨v.d, by simp [Corners.list], (key _).1, (key _).2.1, .inr (key _).2.2⟩
    · exact ⟨v.c, by simp [Corners.list], (key _).1, (key _).2.1, .inr (key _).2.2⟩

theorem Panel.Between.ne {g g' : Panel} {v v' : Corners (V3 ℝ)} {sym sym' : ℕ} {m m' : Bool}
    (h : g.Between (v.onSide sym m)) (h' : g'.Between (v'.onSide sym' m')) (hs : m = true → sym = 2)
    (hs' : m' = true → sym' = 2) {f : V3 ℝ → ℝ} (hf : f = V3.x ∨ f = V3.z) (hb : v.Before f v') :
    ∀ p ∈ g.inner, ∀ q ∈ g'.inner, p ≠ q := by
  obtain ⟨t, h1, h2⟩ := hb
  have hc : IsCoord f := by rcases hf with rfl | rfl <;> simp [IsCoord]
  have same : ∀ {p q : V3 ℝ}, p.x = q.x → p.z = q.z → f p = f q := by
    intro p q e1 e2
    rcases hf with rfl | rfl <;> assumption
  rintro p hp q hq rfl
  have a := h p hp f hc _ (convex_Iio t) (fun r hr => by
    obtain ⟨u, hu, e1, e2, -⟩ := onSide_mem hs hr
    rw [same e1 e2]
    exact h1 u hu)
  have b := h' p hq f hc _ (convex_Ioi t) (fun r hr => by
    obtain ⟨u, hu, e1, e2, -⟩ := onSide_mem hs' hr
    rw [same e1 e2]
    exact h2 u hu)
  exact lt_asymm (Set.mem_Iio.1 a) (Set.mem_Ioi.1 b)

theorem Panel.Between.small {g : Panel} {v : Corners (V3 ℝ)} {sym : ℕ} {m : Bool}
    (h : g.Between (v.onSide sym m)) (hs : m = true → sym = 2) (hv : v.Small) :
    ∀ p ∈ g.inner, |p.x| ≤ 2500 ∧ |p.y| ≤ 2500 ∧ |p.z| ≤ 2500 := by
  intro p hp
  have key : ∀ f : V3 ℝ → ℝ, IsCoord f → (∀ q ∈ (v.onSide sym m).list, |f q| ≤ 2500) → |f p| ≤ 2500 := by
    intro f hf hq
    have := h p hp f hf _ (convex_Icc (-2500) 2500) fun r hr => abs_le.1 (hq r hr)
    exact abs_le.2 this
  refine ⟨key _ (.inl rfl) fun q hq => ?_, key _ (.inr (.inl rfl)) fun q hq => ?_,
    key _ (.inr (.inr rfl)) fun q hq => ?_⟩
  · obtain ⟨u, hu, e1, e2, -⟩ := onSide_mem hs hq
    rw [e1]
    exact (hv u hu).1
  · obtain ⟨u, hu, -, -, e | e⟩ := onSide_mem hs hq
    · rw [e]
      exact (hv u hu).2.1
    · rw [e, abs_neg]
      exact (hv u hu).2.1
  · obtain ⟨u, hu, e1, e2, -⟩ := onSide_mem hs hq
    rw [e2]
    exact (hv u hu).2.2

/-- The far ends of the trailing legs lie outside of the cube. -/
theorem far_end {p q : V3 ℝ} (hp : |p.x| ≤ 2500 ∧ |p.y| ≤ 2500 ∧ |p.z| ≤ 2500)
    (hq : |q.x| ≤ 2500 ∧ |q.y| ≤ 2500 ∧ |q.z| ≤ 2500) (alpha beta : ℝ) : p ≠ q + trailLeg alpha beta := by
  intro e
  obtain ⟨p1, p2, p3⟩ := hp
  obtain ⟨q1, q2, q3⟩ := hq
  rw [abs_le] at p1 p2 p3 q1 q2 q3
  have hl : (trailLeg alpha beta).dot (trailLeg alpha beta) = 10000 ^ 2 := by
    unfold trailLeg freestreamDir
    simp only [V3.dot, V3.smul_x, V3.smul_y, V3.smul_z]
    have s1 := Real.sin_sq_add_cos_sq (deg2rad alpha)
    have s2 := Real.sin_sq_add_cos_sq (deg2rad beta)
    generalize Real.sin (deg2rad alpha) = sa at *
    generalize Real.cos (deg2rad alpha) = ca at *
    generalize Real.sin (deg2rad beta) = sb at *
    generalize Real.cos (deg2rad beta) = cb at *
    have : ca * cb * (ca * cb) + sb * sb + sa * cb * (sa * cb) = 1 := by
      have : ca * cb * (ca * cb) + sb * sb + sa * cb * (sa * cb) = (sa^2 + ca^2) * cb^2 + sb^2 := by ring
      rw [this, s1]
      linarith
    nlinarith
  generalize trailLeg alpha beta = u at e hl
  subst e
  simp only [V3.add_x, V3.add_y, V3.add_z] at p1 p2 p3
  simp only [V3.dot] at hl
  have b : ∀ t : ℝ, -5000 ≤ t → t ≤ 5000 → t * t ≤ 5000 ^ 2 := by
    intro t h1 h2
    nlinarith
  have := b u.x (by linarith) (by linarith)
  have := b u.y (by linarith) (by linarith)
  have := b u.z (by linarith) (by linarith)
  norm_num at *
  linarith

/-! ## The lattice -/

/-- The segments of the lattice are undeformed, small and apart from each other; mirrored ones are mirrored
at the plane xz, and then none lies to the left of this plane. -/
structure LatticeData.Clear (l : LatticeData) (geo : ℕ → ℕ → GeoEnv ℝ) : Prop where
  rigid : ∀ e ∈ l.book.entries, (geo e.path.wing e.path.seg).isDeformed = false
  above : ∀ e ∈ l.book.entries, (geo e.path.wing e.path.seg).vertices.FromAbove
  small : ∀ e ∈ l.book.entries, (geo e.path.wing e.path.seg).vertices.Small
  mirrored : ∀ e ∈ l.book.entries, e.mirror = true → (geo e.path.wing e.path.seg).symmetry = 2 ∧
    ∀ e' ∈ l.book.entries, 0 ≤ (geo e'.path.wing e'.path.seg).vertices.a.y
  apart : ∀ e ∈ l.book.entries, ∀ e' ∈ l.book.entries,
    (e.path.wing = e'.path.wing ∧ e.path.seg = e'.path.seg) ∨
    (geo e.path.wing e.path.seg).vertices.Clear (geo e'.path.wing e'.path.seg).vertices

/-- **C152**, the lattice: for all angles of attack and sideslip all panels of such a lattice are finite,
and so are the velocities that each panel induces at the collocation points and bound vortices of all
panels. -/
theorem C152_lattice (ac ac' : PAircraft ℝ) (hu : ac.Unpanelled) (h : prePanelling ac = .ok ac')
    (hn : ac.NumC 0) (env : LatticeEnv) (doRot : Bool) (alpha beta : ℝ) (l : LatticeData)
    (hl : genLattice env doRot alpha beta ac' = .ok l) (hb : l.Clear env.geo) (eps : ℝ) (he : 0 < eps) :
    ∃ P : Fin l.num → Panel, (∀ k : Fin l.num, l.panel k = some (P k)) ∧
      ∀ i j, HorseshoeOk eps (P i).col (P j) ∧ HorseshoeOk eps (P i).mid (P j) := by
  have hsym : ∀ e ∈ l.book.entries, e.mirror = true → (env.geo e.path.wing e.path.seg).symmetry = 2 :=
    fun e he hm => (hb.mirrored e he hm).1
  have key : ∀ k : Fin l.num, ∃ g e w s d, l.panel k = some g ∧ e ∈ l.book.entries ∧
      ac'.wings[e.path.wing]? = some w ∧ w.segments[e.path.seg]? = some s ∧
      s.strips[e.path.strip]? = some d ∧ g.Above (trailLeg alpha beta)
        (sideRange (env.geo e.path.wing e.path.seg).vertices e.mirror d.etaA d.etaB) ∧
      g.Between ((env.geo e.path.wing e.path.seg).vertices.onSide (env.geo e.path.wing e.path.seg).symmetry
        e.mirror) := by
    intro k
    obtain ⟨e, hee, j, hj, hk⟩ := panel_in_entry hu h hn hl k
    obtain ⟨w, s, d, q1, q2, q3, q4⟩ := entry_above hu h hn hl hee (hb.rigid e hee) (hb.above e hee) (hsym e hee)
    obtain ⟨g, hg, ha⟩ := q4 j hj
    refine ⟨g, e, w, s, d, ?_, hee, q1, q2, q3, ha, entry_between hu h hn hl hee (hb.rigid e hee) hj hg⟩
    unfold LatticeData.panel
    rw [hk]
    exact hg
  choose P e w s d hP hE hw hs hd hA hB using key
  refine ⟨P, hP, fun i j => ?_⟩
  have near : (∀ p ∈ [(P i).col, (P i).mid], ∀ q ∈ [(P j).v2, (P j).v3], p ≠ q) := by
    have sub1 : ∀ p ∈ [(P i).col, (P i).mid], p ∈ (P i).inner := by
      intro p hp
      simp [Panel.inner] at hp ⊢
      tauto
    have sub2 : ∀ p ∈ [(P j).v2, (P j).v3], p ∈ (P j).inner := by
      intro p hp
      simp [Panel.inner] at hp ⊢
      tauto
    have side : (sideRange (env.geo (e i).path.wing (e i).path.seg).vertices (e i).mirror (d i).etaA (d i).etaB =
        sideRange (env.geo (e j).path.wing (e j).path.seg).vertices (e j).mirror (d j).etaA (d j).etaB ∨
        (sideRange (env.geo (e i).path.wing (e i).path.seg).vertices (e i).mirror (d i).etaA (d i).etaB).2 ≤
        (sideRange (env.geo (e j).path.wing (e j).path.seg).vertices (e j).mirror (d j).etaA (d j).etaB).1 ∨
        (sideRange (env.geo (e j).path.wing (e j).path.seg).vertices (e j).mirror (d j).etaA (d j).etaB).2 ≤
        (sideRange (env.geo (e i).path.wing (e i).path.seg).vertices (e i).mirror (d i).etaA (d i).etaB).1) →
        ∀ p ∈ [(P i).col, (P i).mid], ∀ q ∈ [(P j).v2, (P j).v3], p ≠ q := by
      intro hr p hp q hq
      obtain ⟨-, -, hs1, hc, hm⟩ := hA i
      obtain ⟨⟨y2, -⟩, ⟨y3, -⟩, hs2, -, -⟩ := hA j
      obtain ⟨n1, n2⟩ := middle_ne hs1 hs2 hr
      simp only [List.mem_cons, List.not_mem_nil, or_false] at hp hq
      intro epq
      have ey := congrArg V3.y epq
      rcases hp with rfl | rfl <;> rcases hq with rfl | rfl
      · exact n1 (by rw [← hc, ← y2, ey])
      · exact n2 (by rw [← hc, ← y3, ey])
      · exact n1 (by rw [← hm, ← y2, ey])
      · exact n2 (by rw [← hm, ← y3, ey])
    have apart := ranges_apart (hb.above _ (hE i)) (hb.above _ (hE j)) (m := (e i).mirror) (m' := (e j).mirror) (by
      rintro (hm | hm)
      · have := (hb.mirrored _ (hE i) hm).2
        exact ⟨this _ (hE i), this _ (hE j)⟩
      · have := (hb.mirrored _ (hE j) hm).2
        exact ⟨this _ (hE i), this _ (hE j)⟩) (strip_inside hu h (hw i) (hs i) (hd i))
      (strip_inside hu h (hw j) (hs j) (hd j))
    have lift : (∀ p ∈ (P i).inner, ∀ q ∈ (P j).inner, p ≠ q) →
        ∀ p ∈ [(P i).col, (P i).mid], ∀ q ∈ [(P j).v2, (P j).v3], p ≠ q :=
      fun hh p hp q hq => hh p (sub1 p hp) q (sub2 q hq)
    rcases hb.apart _ (hE i) _ (hE j) with ⟨hp, hq⟩ | hp | hp | hp | hp | hp
    · refine side (apart (.inl ⟨by rw [hp, hq], ?_⟩))
      refine strips_apart hu h (hw i) (hs i) (hd i) (w' := w j) ?_ ?_ (hd j)
      · rw [hp]
        exact hw j
      · rw [hq]
        exact hs j
    · exact side (apart (.inr hp))
    · exact lift ((hB i).ne (hB j) (hsym _ (hE i)) (hsym _ (hE j)) (.inl rfl) hp)
    · exact lift fun p h1 q h2 e => (hB j).ne (hB i) (hsym _ (hE j)) (hsym _ (hE i)) (.inl rfl) hp q h2 p h1 e.symm
    · exact lift ((hB i).ne (hB j) (hsym _ (hE i)) (hsym _ (hE j)) (.inr rfl) hp)
    · exact lift fun p h1 q h2 e => (hB j).ne (hB i) (hsym _ (hE j)) (hsym _ (hE i)) (.inr rfl) hp q h2 p h1 e.symm
  have s1 := (hB i).small (hsym _ (hE i)) (hb.small _ (hE i))
  have s2 := (hB j).small (hsym _ (hE j)) (hb.small _ (hE j))
  have far : ∀ p ∈ [(P i).col, (P i).mid], p ≠ (P j).v1 ∧ p ≠ (P j).v4 := by
    intro p hp
    have sp := s1 p (by simp [Panel.inner] at hp ⊢; tauto)
    rw [(hA j).left.2, (hA j).right.2]
    exact ⟨far_end sp (s2 _ (by simp [Panel.inner])) _ _, far_end sp (s2 _ (by simp [Panel.inner])) _ _⟩
  have fin : ∀ p ∈ [(P i).col, (P i).mid], HorseshoeOk eps p (P j) := by
    intro p hp
    obtain ⟨f1, f4⟩ := far p hp
    have f2 := near p hp (P j).v2 (by simp)
    have f3 := near p hp (P j).v3 (by simp)
    exact ⟨(kernelOk_iff he _ _ _).2 ⟨f1, f2⟩, (kernelOk_iff he _ _ _).2 ⟨f2, f3⟩,
      (kernelOk_iff he _ _ _).2 ⟨f3, f4⟩⟩
  exact ⟨fin _ (by simp), fin _ (by simp)⟩

/-! ## Projects -/

/-- The segments of the aircraft file are undeformed, small and apart from each other.  Wings are mirrored at
the plane xz if at all, and then nothing lies to the left of this plane. -/
structure FileAircraft.Clear (f : FileAircraft) (D : String → Option (DefField ℝ)) : Prop where
  rigid : ∀ w ∈ f.wings, D w.uid = none ∧ D (mirrorName w.uid) = none
  above : ∀ w ∈ f.wings, ∀ s ∈ w.segments, ∀ v, AllGiven s.vertices v → v.FromAbove
  small : ∀ w ∈ f.wings, ∀ s ∈ w.segments, ∀ v, AllGiven s.vertices v → v.Small
  mirrored : ∀ w ∈ f.wings, w.symmetry ≠ 0 → w.symmetry = 2 ∧
    ∀ w' ∈ f.wings, ∀ s ∈ w'.segments, ∀ v, AllGiven s.vertices v → 0 ≤ v.a.y
  apart : ∀ (m m' k k' : ℕ) (w w' : FileWing) (s s' : FileSegment) (v v' : Corners (V3 ℝ)),
    f.wings[m]? = some w → f.wings[m']? = some w' → w.segments[k]? = some s → w'.segments[k']? = some s' →
    AllGiven s.vertices v → AllGiven s'.vertices v' → (m = m' ∧ k = k') ∨ v.Clear v'

/-- **C152**: a project in order whose segments are apart from each other - side by side, one behind or one
above the other - is analysed in all its flight states. -/
theorem C152_always_analysed (W : World) (hW : Lapack W.dgesv) (P : Project) (d : PyDict) (a b : String)
    (f : FileAircraft) (sd : List (String × Arg ℝ)) (h : ProjectOk W P d a b f sd)
    (D : String → Option (DefField ℝ)) (hdef : FieldsOf P d f D) (hb : f.Clear D)
    (hs : StatesFinite W.atm sd) : ∃ out, runProject W P = .ok out := by
  refine finishes_of_finite W hW P d a b f sd h D hdef hb.rigid hs ?_
  intro ac ac' hu h2 hN env doRot alpha beta l _ hl key eps heps
  refine C152_lattice ac ac' hu h2 hN env doRot alpha beta l hl ⟨?_, ?_, ?_, ?_, ?_⟩ eps heps
  · intro e he
    obtain ⟨w, s, -, -, -, -, q, -⟩ := key e he
    exact q
  · intro e he
    obtain ⟨w, s, q1, q2, q3, -, -, -⟩ := key e he
    exact hb.above w (List.mem_of_getElem? q1) s (List.mem_of_getElem? q2) _ q3
  · intro e he
    obtain ⟨w, s, q1, q2, q3, -, -, -⟩ := key e he
    exact hb.small w (List.mem_of_getElem? q1) s (List.mem_of_getElem? q2) _ q3
  · intro e he hm
    obtain ⟨w, s, q1, q2, q3, q4, q5, q6⟩ := key e he
    obtain ⟨m1, m2⟩ := hb.mirrored w (List.mem_of_getElem? q1) (q6 hm)
    refine ⟨q4.trans m1, fun e' he' => ?_⟩
    obtain ⟨w', s', r1, r2, r3, -, -⟩ := key e' he'
    exact m2 w' (List.mem_of_getElem? r1) s' (List.mem_of_getElem? r2) _ r3
  · intro e he e' he'
    obtain ⟨w, s, q1, q2, q3, -, -⟩ := key e he
    obtain ⟨w', s', r1, r2, r3, -, -⟩ := key e' he'
    exact hb.apart _ _ _ _ w w' s s' _ _ q1 r1 q2 r2 q3 r3

/-! ## Example: a wing with a flap and a tailplane behind it, in a flow from the side -/

noncomputable def tailSeg : Corners (V3 ℝ) := ⟨⟨5, 0, 0⟩, ⟨11/2, 1, 0⟩, ⟨6, 1, 0⟩, ⟨6, 0, 0⟩⟩

noncomputable def tailWing : FileWing := ⟨"tail", 2,
  [⟨"seg", ⟨some tailSeg.a, some tailSeg.b, some tailSeg.c, some tailSeg.d⟩, SegGeo.fresh, "NACA0012", "NACA0012",
    none, none⟩], []⟩

noncomputable def tailFile : FileAircraft := ⟨flapFile.uid, flapFile.refs, flapFile.wings ++ [tailWing]⟩

theorem tailFile_ok : FileOk "/home" (fun _ => true) tailFile := by
  refine ⟨?_, flapFile_ok.area, flapFile_ok.span, flapFile_ok.chord, ?_⟩
  · exact ⟨by simp [tailFile, flapFile, tailWing], by simp [tailFile, flapFile, tailWing]⟩
  · intro w hw
    rcases List.mem_append.1 hw with hw | hw
    · exact flapFile_ok.wings w hw
    · simp only [tailWing, List.mem_singleton] at hw
      subst hw
      refine ⟨by norm_num, ⟨by simp, by simp⟩, ⟨by simp, by simp⟩, ?_, by simp, ?_⟩
      · intro s hs
        simp only [List.mem_singleton] at hs
        subst hs
        exact ⟨⟨tailSeg, rfl, rfl, rfl, rfl⟩, fresh_geoOk, by simp, by simp,
          ⟨_, .inr ⟨by decide, rfl⟩, rfl⟩, ⟨_, .inr ⟨by decide, rfl⟩, rfl⟩⟩
      · intro _
        refine ⟨_, List.mem_singleton.2 rfl, tailSeg, ⟨rfl, rfl, rfl, rfl⟩, ?_⟩
        intro h
        have := h.1
        norm_num [tailSeg] at this

theorem tailFile_layout : ∀ w ∈ tailFile.wings, WingLayoutOk w := by
  intro w hw
  rcases List.mem_append.1 hw with hw | hw
  · exact flapFile_layout w hw
  · simp only [tailWing, List.mem_singleton] at hw
    subst hw
    refine ⟨?_, ?_, ?_⟩
    · intro u x hx y hy hxy
      simp only [FileWing.requested, List.map_nil, List.not_mem_nil, false_and, exists_false,
        Set.mem_union, Set.mem_insert_iff, Set.mem_singleton_iff, Set.mem_ofPred_eq, or_false] at hx hy
      rcases hx with rfl | rfl <;> rcases hy with rfl | rfl <;>
      first | (norm_num at hxy; done) | norm_num
    · simp only [FileWing.requested, List.map_nil]
      exact ⟨by simp, by simp, by simp, by simp, by simp, by simp, by simp⟩
    · intro h
      exact absurd rfl h

theorem tailFile_segment {w : FileWing} {m k : ℕ} {s : FileSegment} {v : Corners (V3 ℝ)}
    (hw : tailFile.wings[m]? = some w) (hs : w.segments[k]? = some s) (hv : AllGiven s.vertices v) :
    k = 0 ∧ w.symmetry = 2 ∧ ((m = 0 ∧ v = taperedSeg) ∨ (m = 1 ∧ v = tailSeg)) := by
  have hm := (List.getElem?_eq_some_iff.1 hw).1
  simp only [tailFile, flapFile, List.length_append, List.length_singleton] at hm
  obtain rfl | rfl : m = 0 ∨ m = 1 := by omega
  · simp only [tailFile, flapFile, List.cons_append, List.nil_append, List.getElem?_cons_zero,
      Option.some.injEq] at hw
    subst hw
    have hk := (List.getElem?_eq_some_iff.1 hs).1
    simp only [List.length_singleton] at hk
    obtain rfl : k = 0 := by omega
    simp only [List.getElem?_cons_zero, Option.some.injEq] at hs
    subst hs
    exact ⟨rfl, rfl, .inl ⟨rfl, noSpan_given hv ⟨rfl, rfl, rfl, rfl⟩⟩⟩
  · simp only [tailFile, flapFile, tailWing, List.cons_append, List.nil_append, List.getElem?_cons_succ,
      List.getElem?_cons_zero, Option.some.injEq] at hw
    subst hw
    have hk := (List.getElem?_eq_some_iff.1 hs).1
    simp only [List.length_singleton] at hk
    obtain rfl : k = 0 := by omega
    simp only [List.getElem?_cons_zero, Option.some.injEq] at hs
    subst hs
    exact ⟨rfl, rfl, .inr ⟨rfl, noSpan_given hv ⟨rfl, rfl, rfl, rfl⟩⟩⟩

theorem tailFile_clear : tailFile.Clear (fun _ => none) := by
  have key : ∀ w ∈ tailFile.wings, ∀ s ∈ w.segments, ∀ v, AllGiven s.vertices v →
      v = taperedSeg ∨ v = tailSeg := by
    intro w hw s hs v hv
    obtain ⟨m, hm⟩ := List.getElem?_of_mem hw
    obtain ⟨k, hk⟩ := List.getElem?_of_mem hs
    obtain ⟨-, -, h | h⟩ := tailFile_segment hm hk hv
    · exact .inl h.2
    · exact .inr h.2
  have before : taperedSeg.Before V3.x tailSeg := by
    refine ⟨4, ?_, ?_⟩ <;> simp [Corners.list, taperedSeg, tailSeg] <;> norm_num
  refine ⟨fun _ _ => ⟨rfl, rfl⟩, ?_, ?_, ?_, ?_⟩
  · intro w hw s hs v hv
    rcases key w hw s hs v hv with rfl | rfl
    · exact taperedSeg_above
    · constructor <;> norm_num [tailSeg]
  · intro w hw s hs v hv
    rcases key w hw s hs v hv with rfl | rfl <;> intro p hp <;>
      simp only [Corners.list, taperedSeg, tailSeg, List.mem_cons, List.not_mem_nil, or_false] at hp <;>
      rcases hp with rfl | rfl | rfl | rfl <;> simp only [abs_le] <;> norm_num
  · intro w hw _
    refine ⟨?_, ?_⟩
    · simp only [tailFile, flapFile, tailWing, List.cons_append, List.nil_append, List.mem_cons, List.not_mem_nil,
        or_false] at hw
      rcases hw with rfl | rfl <;> rfl
    · intro w' hw' s hs v hv
      rcases key w' hw' s hs v hv with rfl | rfl <;> norm_num [taperedSeg, tailSeg]
  · intro m m' k k' w w' s s' v v' h1 h2 h3 h4 h5 h6
    obtain ⟨rfl, -, ⟨rfl, rfl⟩ | ⟨rfl, rfl⟩⟩ := tailFile_segment h1 h3 h5 <;>
      obtain ⟨rfl, -, ⟨rfl, rfl⟩ | ⟨rfl, rfl⟩⟩ := tailFile_segment h2 h4 h6
    · exact .inl ⟨rfl, rfl⟩
    · exact .inr (.inr (.inl before))
    · exact .inr (.inr (.inr (.inl before)))
    · exact .inl ⟨rfl, rfl⟩

/-- The project: 10 m/s, angle of attack 5 degree, sideslip 3 degree. -/
noncomputable def tailProject : Project :=
  { exampleProject tailFile with state := fun b => if b = "cruise.json" then some (oneState 10 1 5 3) else none }

theorem tailProject_ok : ProjectOk exampleWorld tailProject exampleSettings "plane.json" "cruise.json" tailFile
    (oneState 10 1 5 3) where
  native := ⟨rfl, (example_native tailFile).keys, (example_native tailFile).aircraft, rfl,
    (example_native tailFile).state, (example_native tailFile).notCpacs⟩
  settings := example_settings
  panelsC := by simp [IfGiven, exampleSettings]
  panelsS := by simp [IfGiven, exampleSettings]
  aircraft := rfl
  file := tailFile_ok
  layout := tailFile_layout
  segment := ⟨_, List.mem_append_right _ (List.mem_singleton.2 rfl), by simp [tailWing]⟩
  state := rfl
  states := ⟨oneState_nodup _ _ _ _, oneState_acceptable _ _ _ _ _, by simp [oneState],
    _, List.mem_cons_self .., by simp [Arg.toList]⟩
  deformation := by simp [DeformationOk, IfGiven, exampleSettings]

/-- Example for C152: this aircraft is analysed. -/
example : ∃ out, runProject exampleWorld tailProject = .ok out :=
  C152_always_analysed _ exactDgesv_lapack _ _ _ _ _ _ tailProject_ok (fun _ => none)
    (.inl ⟨by simp [IfGiven, exampleSettings], fun _ => rfl⟩) tailFile_clear
    (oneState_finite (by simp [exampleWorld]) 10 1 5 3)

/-- Example for the lattice of C152: a wing with a flap and its mirror image, in a flow from the side. -/
example : ∃ l, genLattice (cornersEnv obliqueCorners 2) true 2 3 (flapPanelled 2) = .ok l ∧
    ∃ P : Fin l.num → Panel, (∀ k : Fin l.num, l.panel k = some (P k)) ∧
      ∀ i j, HorseshoeOk (1/1000000) (P i).col (P j) ∧ HorseshoeOk (1/1000000) (P i).mid (P j) := by
  obtain ⟨l, hl⟩ := C76_lattice_generated _ _ (flapAircraft_ok 2).1 (flapAircraft_panelled 2)
    (flapAircraft_ok 2).2 (cornersEnv obliqueCorners 2) true 2 3 (fun _ _ _ => .inr (.inl rfl))
  obtain ⟨b, hb, h1, -⟩ := flapAircraft_book (sym := 2) (by norm_num)
  obtain ⟨-, k1, -⟩ := genLattice_ok hl
  rw [hb] at k1
  cases k1
  have habove : obliqueCorners.FromAbove := by constructor <;> norm_num [obliqueCorners]
  have hsmall : obliqueCorners.Small := by
    intro p hp
    simp only [Corners.list, obliqueCorners, List.mem_cons, List.not_mem_nil, or_false] at hp
    rcases hp with rfl | rfl | rfl | rfl <;> simp only [abs_le] <;> norm_num
  refine ⟨l, hl, C152_lattice _ _ (flapAircraft_ok 2).1 (flapAircraft_panelled 2) (flapAircraft_ok 2).2 _ true 2 3
    l hl ⟨fun _ _ => rfl, fun _ _ => habove, fun _ _ => hsmall, fun _ _ _ => ⟨rfl, fun _ _ => ?_⟩, ?_⟩ _
    (by norm_num)⟩
  · norm_num [cornersEnv, obliqueCorners]
  · intro e he e' he'
    left
    rw [h1] at he he'
    simp [flapBook] at he he'
    rcases he with rfl | rfl | rfl | rfl <;> rcases he' with rfl | rfl | rfl | rfl <;> simp

end Verif
