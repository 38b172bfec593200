import Verif.Props.SegmentNormals

/-!
# C148: bound vortices lie ahead of their collocation points
-/

namespace Verif
open V3

/-- Root chord and tip chord of the segment run backwards; one of them may be a point. -/
def Corners.Backwards (v : Corners (V3 ℝ)) : Prop :=
  0 ≤ v.d.x - v.a.x ∧ 0 ≤ v.c.x - v.b.x ∧ (0 < v.d.x - v.a.x ∨ 0 < v.c.x - v.b.x)

/-- Front edge `p`-`q` and bound vortex `v2`-`v3` of a panel lie ahead of its rear edge `s`-`r` and of
its collocation point. -/
structure PanelPts.FrontFirst (g : PanelPts ℝ) : Prop where
  left : g.p.x ≤ g.v2.x ∧ g.v2.x ≤ g.s.x
  right : g.q.x ≤ g.v3.x ∧ g.v3.x ≤ g.r.x
  col : (g.p.x + g.q.x) / 2 < g.mid.x ∧ g.mid.x < g.col.x ∧ g.col.x < (g.s.x + g.r.x) / 2

/-- The same with all inequalities turned round. -/
structure PanelPts.RearFirst (g : PanelPts ℝ) : Prop where
  left : g.s.x ≤ g.v2.x ∧ g.v2.x ≤ g.p.x
  right : g.r.x ≤ g.v3.x ∧ g.v3.x ≤ g.q.x
  col : (g.s.x + g.r.x) / 2 < g.col.x ∧ g.col.x < g.mid.x ∧ g.mid.x < (g.p.x + g.q.x) / 2

/-- Positions along x in a panel of a subarea, in terms of its chords. -/
theorem panel_positions (v : Corners (V3 ℝ)) (leg : V3 ℝ) (n : ℤ) (k : ℕ) :
    let g := panelPts (Coef.of v) leg 1 n k 0
    let i := 1 / (n : ℝ) * (v.d.x - v.a.x)
    let o := 1 / (n : ℝ) * (v.c.x - v.b.x)
    g.s.x = g.p.x + i ∧ g.r.x = g.q.x + o ∧ g.v2.x = g.p.x + i / 4 ∧ g.v3.x = g.q.x + o / 4 ∧
    g.mid.x = (g.p.x + g.q.x) / 2 + (i + o) / 8 ∧ g.col.x = (g.p.x + g.q.x) / 2 + 3 * (i + o) / 8 := by
  intro g i o
  simp only [g, i, o]
  unfold panelPts Coef.of Coef.at
  generalize (1 / (n : ℝ)) = t
  refine ⟨?_, ?_, ?_, ?_, ?_, ?_⟩ <;> simp <;> ring

/-- Chords of a patch. -/
theorem patch_chords (v : Corners (V3 ℝ)) (e1 e2 xa xb xc xd : ℝ) :
    let w := patch v e1 e2 xa xb xc xd
    w.d.x - w.a.x = (xd - xa) * ((1 - e1) * (v.d.x - v.a.x) + e1 * (v.c.x - v.b.x)) ∧
    w.c.x - w.b.x = (xc - xb) * ((1 - e2) * (v.d.x - v.a.x) + e2 * (v.c.x - v.b.x)) := by
  intro w
  simp only [w]
  unfold patch segPoint
  constructor <;> simp <;> ring

theorem patch_backwards {v : Corners (V3 ℝ)} (h : v.Backwards) {e1 e2 xa xb xc xd : ℝ}
    (hp : PatchOk e1 e2 xa xb xc xd) : (patch v e1 e2 xa xb xc xd).Backwards := by
  obtain ⟨h1, h2, h3⟩ := h
  obtain ⟨⟨s1, s2, s3⟩, ⟨i1, i2, i3⟩, o1, o2, o3⟩ := hp
  obtain ⟨c1, c2⟩ := patch_chords v e1 e2 xa xb xc xd
  have hi : 0 < xd - xa := by linarith
  have ho : 0 < xc - xb := by linarith
  have a1 : 0 ≤ 1 - e1 := by linarith
  have a2 : 0 ≤ 1 - e2 := by linarith
  have a3 : 0 ≤ e2 := by linarith
  unfold Corners.Backwards
  rw [c1, c2]
  refine ⟨by positivity, by positivity, ?_⟩
  rcases h3 with h3 | h3
  · left
    have : 0 < 1 - e1 := by linarith
    positivity
  · right
    have : 0 < e2 := by linarith
    positivity

theorem panel_front {v : Corners (V3 ℝ)} (h : v.Backwards) (leg : V3 ℝ) {n : ℤ} {k : ℕ}
    (hk : (k : ℤ) < n) : (panelPts (Coef.of v) leg 1 n k 0).FrontFirst := by
  obtain ⟨h1, h2, h3⟩ := h
  obtain ⟨t1, -⟩ := station hk
  obtain ⟨q1, q2, q3, q4, q5, q6⟩ := panel_positions v leg n k
  have i0 : 0 ≤ 1 / (n : ℝ) * (v.d.x - v.a.x) := by positivity
  have o0 : 0 ≤ 1 / (n : ℝ) * (v.c.x - v.b.x) := by positivity
  have io : 0 < 1 / (n : ℝ) * (v.d.x - v.a.x) + 1 / (n : ℝ) * (v.c.x - v.b.x) := by
    rcases h3 with h3 | h3
    · have := mul_pos t1 h3; linarith
    · have := mul_pos t1 h3; linarith
  refine ⟨⟨?_, ?_⟩, ⟨?_, ?_⟩, ?_, ?_, ?_⟩
  · rw [q3]; linarith
  · rw [q3, q1]; linarith
  · rw [q4]; linarith
  · rw [q4, q2]; linarith
  · rw [q5]; linarith
  · rw [q5, q6]; linarith
  · rw [q6, q1, q2]; linarith

theorem panel_rear {v : Corners (V3 ℝ)} (h : Corners.Backwards ⟨v.d, v.c, v.b, v.a⟩) (leg : V3 ℝ) {n : ℤ}
    {k : ℕ} (hk : (k : ℤ) < n) : (panelPts (Coef.of v) leg 1 n k 0).RearFirst := by
  obtain ⟨h1, h2, h3⟩ := h
  simp only at h1 h2 h3
  obtain ⟨t1, -⟩ := station hk
  obtain ⟨q1, q2, q3, q4, q5, q6⟩ := panel_positions v leg n k
  have i0 : 0 ≤ 1 / (n : ℝ) * (v.a.x - v.d.x) := by positivity
  have o0 : 0 ≤ 1 / (n : ℝ) * (v.b.x - v.c.x) := by positivity
  have io : 0 < 1 / (n : ℝ) * (v.a.x - v.d.x) + 1 / (n : ℝ) * (v.b.x - v.c.x) := by
    rcases h3 with h3 | h3
    · have := mul_pos t1 h3; linarith
    · have := mul_pos t1 h3; linarith
  refine ⟨⟨?_, ?_⟩, ⟨?_, ?_⟩, ?_, ?_, ?_⟩
  · rw [q3, q1]; linarith
  · rw [q3]; linarith
  · rw [q4, q2]; linarith
  · rw [q4]; linarith
  · rw [q6, q1, q2]; linarith
  · rw [q5, q6]; linarith
  · rw [q5]; linarith

/-! ## C148 -/

/-- The claim **C148** for a set of symmetry flags. -/
def FrontFirstFor (flags : ℕ → Prop) : Prop :=
  ∀ ac ac' : PAircraft ℝ, ac.Unpanelled → prePanelling ac = .ok ac' → ac.NumC 0 →
    ∀ (env : LatticeEnv) (doRot : Bool) (alpha beta : ℝ) (l : LatticeData),
    genLattice env doRot alpha beta ac' = .ok l →
    ∀ e ∈ l.book.entries, (env.geo e.path.wing e.path.seg).isDeformed = false →
    (env.geo e.path.wing e.path.seg).vertices.Backwards →
    (e.mirror = true → flags (env.geo e.path.wing e.path.seg).symmetry) →
    ∀ k : ℕ, (k : ℤ) < e.numC → ∃ g, l.pts (e.start + k) = some g ∧ g.FrontFirst

/-- **C148** (partial): in all panels of undeformed segments whose chords run backwards the bound vortex
lies ahead of the collocation point, for wings without symmetry and those mirrored at the planes xy
and xz.  Missing: the mirrored side for the plane yz, for which the claim is false, see below. -/
theorem C148_front_first_partial : FrontFirstFor fun s => s = 1 ∨ s = 2 := by
  intro ac ac' hu h hn env doRot alpha beta l hl e he hg hb hs k hk
  obtain ⟨-, e1, e2, xa, xb, xc, xd, hp, hpts⟩ := entry_patch hu h hn hl he hg
  refine ⟨_, hpts k hk, panel_front (patch_backwards ?_ hp) _ hk⟩
  cases hm : e.mirror with
  | false => exact hb
  | true =>
    obtain ⟨h1, h2, h3⟩ := hb
    rcases hs hm with hy | hy <;> rw [hy] <;>
      simp only [Corners.onSide, Corners.Backwards, reflect, symNormal] <;> norm_num <;> vsimp <;>
      simp only [sub_nonneg, sub_pos] at h1 h2 h3
    · exact ⟨h1, h2, h3⟩
    · exact ⟨h2, h1, h3.symm⟩

/-- **C148**, plane yz: on the mirrored side *all* panels are the wrong way round: the bound vortex lies
behind the collocation point. -/
theorem C148_yz_reversed (ac ac' : PAircraft ℝ) (hu : ac.Unpanelled) (h : prePanelling ac = .ok ac')
    (hn : ac.NumC 0) (env : LatticeEnv) (doRot : Bool) (alpha beta : ℝ) (l : LatticeData)
    (hl : genLattice env doRot alpha beta ac' = .ok l) :
    ∀ e ∈ l.book.entries, (env.geo e.path.wing e.path.seg).isDeformed = false →
    (env.geo e.path.wing e.path.seg).vertices.Backwards → e.mirror = true →
    (env.geo e.path.wing e.path.seg).symmetry = 3 →
    ∀ k : ℕ, (k : ℤ) < e.numC → ∃ g, l.pts (e.start + k) = some g ∧ g.RearFirst := by
  intro e he hg hb hm hy k hk
  obtain ⟨-, e1, e2, xa, xb, xc, xd, hp, hpts⟩ := entry_patch hu h hn hl he hg
  refine ⟨_, hpts k hk, panel_rear ?_ _ hk⟩
  have hrev : Corners.Backwards ⟨((env.geo e.path.wing e.path.seg).vertices.onSide 3 true).d,
      ((env.geo e.path.wing e.path.seg).vertices.onSide 3 true).c,
      ((env.geo e.path.wing e.path.seg).vertices.onSide 3 true).b,
      ((env.geo e.path.wing e.path.seg).vertices.onSide 3 true).a⟩ := by
    obtain ⟨h1, h2, h3⟩ := hb
    simp only [Corners.onSide, Corners.Backwards, reflect, symNormal]
    norm_num
    vsimp
    refine ⟨by linarith, by linarith, ?_⟩
    rcases h3 with h3 | h3
    · left; linarith
    · right; linarith
  rw [hm, hy]
  generalize (env.geo e.path.wing e.path.seg).vertices.onSide 3 true = v at hrev
  have hp' : PatchOk e1 e2 (1 - xd) (1 - xc) (1 - xb) (1 - xa) := by
    obtain ⟨s, ⟨i1, i2, i3⟩, o1, o2, o3⟩ := hp
    exact ⟨s, ⟨by linarith, by linarith, by linarith⟩, by linarith, by linarith, by linarith⟩
  have := patch_backwards hrev hp'
  unfold Corners.Backwards at this ⊢
  unfold patch segPoint at this ⊢
  simp at this ⊢
  obtain ⟨t1, t2, t3⟩ := this
  refine ⟨by nlinarith, by nlinarith, ?_⟩
  rcases t3 with t3 | t3
  · left; nlinarith
  · right; nlinarith

/-- **C148** is *false* for wings mirrored at the plane yz. -/
theorem C148_front_first_false : ¬ FrontFirstFor fun s => s = 3 := by
  intro hc
  obtain ⟨l, hl, hb⟩ := cornersEnv_lattice taperedPlane (sym := 3) (.inr (.inr rfl))
  have hback : taperedPlane.Backwards := by
    unfold Corners.Backwards taperedPlane
    norm_num
  have he : (⟨⟨0, 0, 0, 0⟩, "W", 1, 2, 1, true⟩ : BookEntry) ∈ l.book.entries := by
    rw [hb]; simp [flapBook]
  obtain ⟨g, hg, h1⟩ := hc _ _ (flapAircraft_ok 3).1 (flapAircraft_panelled 3) (flapAircraft_ok 3).2
    _ true 2 0 l hl _ he rfl hback (fun _ => rfl) 0 (by norm_num)
  obtain ⟨g', hg', h2⟩ := C148_yz_reversed _ _ (flapAircraft_ok 3).1 (flapAircraft_panelled 3)
    (flapAircraft_ok 3).2 _ true 2 0 l hl _ he rfl hback rfl rfl 0 (by norm_num)
  rw [hg] at hg'
  cases hg'
  have := h1.col
  have := h2.col
  linarith

/-- Non-vacuity: the panels of the flap of the tapered wing mirrored at the plane xz. -/
example : ∃ l, genLattice (cornersEnv taperedPlane 2) true 2 0 (flapPanelled 2) = .ok l ∧
    (∃ g, l.pts 2 = some g ∧ g.FrontFirst) ∧ ∃ g, l.pts 3 = some g ∧ g.FrontFirst := by
  obtain ⟨l, hl, hb⟩ := cornersEnv_lattice taperedPlane (sym := 2) (.inr (.inl rfl))
  have hback : taperedPlane.Backwards := by
    unfold Corners.Backwards taperedPlane
    norm_num
  have key := C148_front_first_partial _ _ (flapAircraft_ok 2).1 (flapAircraft_panelled 2)
    (flapAircraft_ok 2).2 _ true 2 0 l hl
  refine ⟨l, hl, ?_, ?_⟩
  · simpa using key ⟨⟨0, 0, 0, 1⟩, "W", 2, 3, 1, false⟩ (by rw [hb]; simp [flapBook]) rfl hback
      (fun _ => .inr rfl) 0 (by norm_num)
  · simpa using key ⟨⟨0, 0, 0, 1⟩, "W", 3, 4, 1, true⟩ (by rw [hb]; simp [flapBook]) rfl hback
      (fun _ => .inr rfl) 0 (by norm_num)

end Verif
