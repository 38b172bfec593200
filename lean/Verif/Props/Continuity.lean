import Verif.Model.Continuity
import Verif.Lemmas.Geometry
import Mathlib.Data.List.Chain

/-!
# Warnings about gaps in wings (C119)
-/

namespace Verif

/-! ## What the user expects -/

/-- The inner edge of the second segment is the outer edge of the first one. -/
def Joined (s1 s2 : Corners (V3 ℝ)) : Prop := s2.a = s1.b ∧ s2.d = s1.c

/-- Both the wing and none of its edges are reported. -/
def NoWarning (segs : List (Corners (V3 ℝ))) : Prop :=
  (checkContinuity segs).edges = [] ∧ (checkContinuity segs).wing = true

/-- Every wing without gaps passes, every wing with a gap is reported. -/
def GapsReported : Prop :=
  (∀ segs : List (Corners (V3 ℝ)), segs.IsChain Joined → NoWarning segs) ∧
  ∀ segs : List (Corners (V3 ℝ)), ¬ segs.IsChain Joined → ¬ NoWarning segs

/-! ## Lemmas -/

theorem V3.norm_sq_mul (u : V3 ℝ) : u.norm ^ 2 = u.x * u.x + u.y * u.y + u.z * u.z :=
  Real.sq_sqrt (by
    have := mul_self_nonneg u.x
    have := mul_self_nonneg u.y
    have := mul_self_nonneg u.z
    linarith)

theorem V3.norm_not_neg (u : V3 ℝ) : 0 ≤ u.norm := Real.sqrt_nonneg _

theorem V3.norm_null_iff (u : V3 ℝ) : u.norm = 0 ↔ u = 0 := by
  constructor
  · intro h
    have h2 := u.norm_sq_mul
    rw [h] at h2
    have hx : u.x = 0 := by nlinarith [mul_self_nonneg u.x, mul_self_nonneg u.y, mul_self_nonneg u.z]
    have hy : u.y = 0 := by nlinarith [mul_self_nonneg u.x, mul_self_nonneg u.y, mul_self_nonneg u.z]
    have hz : u.z = 0 := by nlinarith [mul_self_nonneg u.x, mul_self_nonneg u.y, mul_self_nonneg u.z]
    exact V3.ext hx hy hz
  · rintro rfl
    simp [V3.norm]

theorem V3.norm_of_abs (u : V3 ℝ) : u.abs.norm = u.norm := by
  simp [V3.norm, V3.abs, abs_mul_abs_self]

theorem V3.sub_same (u : V3 ℝ) : u - u = 0 := by
  apply V3.ext <;> simp

theorem dirsClose_self (u : V3 ℝ) : dirsClose (some u) (some u) := by
  show (u - u).norm < contTol
  rw [V3.sub_same, (V3.norm_null_iff 0).2 rfl]
  norm_num [contTol]

theorem edgeDir_some {v : V3 ℝ} (h : v ≠ 0) : edgeDir v = some ((1 / v.norm) • v.abs) := by
  unfold edgeDir
  rw [V3.norm_of_abs, if_neg fun h0 => h ((V3.norm_null_iff v).1 h0)]

theorem vertexDir_some {v : V3 ℝ} (h : v ≠ 0) : vertexDir v = (1 / v.norm) • v.abs := by
  unfold vertexDir
  rw [V3.norm_of_abs, if_pos fun h0 => h ((V3.norm_null_iff v).1 h0)]

theorem continuityFrom_edges : ∀ (segs : List (Corners (V3 ℝ))) (i : ℕ) (log : ContinuityLog),
    ∃ new, continuityFrom i segs log = ⟨log.edges ++ new, log.wing && new.isEmpty⟩ ∧
      ∀ k, k ∈ new ↔ ∃ l s1 s2 r, segs = l ++ s1 :: s2 :: r ∧ k = i + l.length ∧
        segmentContinuous s1 s2 = false := by
  intro segs
  induction segs with
  | nil => intro i log; exact ⟨[], by simp [continuityFrom], by simp⟩
  | cons s1 segs ih =>
    intro i log
    cases segs with
    | nil =>
      refine ⟨[], by simp [continuityFrom], ?_⟩
      intro k
      simp only [List.not_mem_nil, false_iff]
      rintro ⟨l, a, b, r, h, -⟩
      have := congrArg List.length h
      simp at this
      omega
    | cons s2 rest =>
      unfold continuityFrom
      obtain ⟨new, e, hk⟩ := ih (i + 1) ⟨if segmentContinuous s1 s2 then log.edges else
        log.edges ++ [i], log.wing && segmentContinuous s1 s2⟩
      have step : ∀ k, (∃ l t1 t2 r, s1 :: s2 :: rest = l ++ t1 :: t2 :: r ∧ k = i + l.length ∧
          segmentContinuous t1 t2 = false) ↔
          (k = i ∧ segmentContinuous s1 s2 = false) ∨ k ∈ new := by
        intro k
        rw [hk]
        constructor
        · rintro ⟨l, t1, t2, r, h, h2, h3⟩
          cases l with
          | nil =>
            simp only [List.nil_append, List.cons.injEq] at h
            obtain ⟨rfl, rfl, rfl⟩ := h
            exact .inl ⟨by simpa using h2, h3⟩
          | cons x l =>
            simp only [List.cons_append, List.cons.injEq] at h
            obtain ⟨rfl, h⟩ := h
            exact .inr ⟨l, t1, t2, r, h, by simp at h2; omega, h3⟩
        · rintro (⟨rfl, h⟩ | ⟨l, t1, t2, r, h, h2, h3⟩)
          · exact ⟨[], s1, s2, rest, rfl, by simp, h⟩
          · exact ⟨s1 :: l, t1, t2, r, by rw [h]; rfl, by simp; omega, h3⟩
      cases hc : segmentContinuous s1 s2 with
      | true =>
        rw [hc] at e
        refine ⟨new, by simpa using e, ?_⟩
        intro k
        rw [step, hc]
        simp
      | false =>
        rw [hc] at e
        refine ⟨i :: new, by simpa using e, ?_⟩
        intro k
        rw [step, hc]
        simp

theorem checkContinuity_spec (segs : List (Corners (V3 ℝ))) :
    (∀ k, k ∈ (checkContinuity segs).edges ↔ ∃ l s1 s2 r, segs = l ++ s1 :: s2 :: r ∧ k = l.length ∧
      segmentContinuous s1 s2 = false) ∧
    ((checkContinuity segs).wing = true ↔ (checkContinuity segs).edges = []) := by
  obtain ⟨new, e, h⟩ := continuityFrom_edges segs 0 ⟨[], true⟩
  unfold checkContinuity
  rw [e]
  constructor
  · intro k
    simp only [List.nil_append, h, Nat.zero_add]
  · simp

theorem joined_continuous {s1 s2 : Corners (V3 ℝ)} (h : Joined s1 s2) (hc : s1.b ≠ s1.c) :
    segmentContinuous s1 s2 = true := by
  obtain ⟨h1, h2⟩ := h
  have hne : s1.c - s1.b ≠ 0 := by
    intro h0
    apply hc
    have hx := congrArg V3.x h0
    have hy := congrArg V3.y h0
    have hz := congrArg V3.z h0
    simp only [V3.sub_x, V3.sub_y, V3.sub_z, V3.zero_x, V3.zero_y, V3.zero_z] at hx hy hz
    exact V3.ext (by linarith) (by linarith) (by linarith)
  unfold segmentContinuous
  extract_lets a1d1 b1c1 a2d2 b2c2 a1c2 d1c2 b1d2 c1d2
  have e1 : b1c1 = some ((1 / (s1.c - s1.b).norm) • (s1.c - s1.b).abs) := edgeDir_some hne
  have e2 : a2d2 = b1c1 := by simp only [a2d2, b1c1, h1, h2]
  have e3 : b1d2 = (1 / (s1.c - s1.b).norm) • (s1.c - s1.b).abs := by
    simp only [b1d2, h2]
    exact vertexDir_some hne
  rw [e2, e1, e3, if_pos (dirsClose_self _)]
  simp only [decide_eq_true_eq]
  exact .inl (dirsClose_self _)

/-! ## Theorems -/

/-- **C119** (first half): a wing without gaps passes without warnings, if no edge between segments is
reduced to a point. -/
theorem C119_joined_partial (segs : List (Corners (V3 ℝ))) (h : segs.IsChain Joined)
    (hc : ∀ s ∈ segs.dropLast, s.b ≠ s.c) : NoWarning segs := by
  have he : (checkContinuity segs).edges = [] := by
    rw [List.eq_nil_iff_forall_not_mem]
    intro k hk
    obtain ⟨l, s1, s2, r, rfl, -, hf⟩ := (checkContinuity_spec segs).1 k |>.1 hk
    have hj : Joined s1 s2 := by
      rw [List.isChain_append] at h
      exact (List.isChain_cons_cons.1 h.2.1).1
    have hs : s1 ∈ (l ++ s1 :: s2 :: r).dropLast := by
      rw [List.dropLast_append_of_ne_nil (by simp)]
      simp
    rw [joined_continuous hj (hc _ hs)] at hf
    cases hf
  exact ⟨he, (checkContinuity_spec segs).2.2 he⟩

/-- The line through the outer edge of the first segment and that through the inner edge of the second
one are parallel to the x-axis. -/
def EdgesAlongX (s1 s2 : Corners (V3 ℝ)) : Prop :=
  s1.b.x ≠ s1.c.x ∧ s1.b.y = s1.c.y ∧ s1.b.z = s1.c.z ∧
  s2.a.x ≠ s2.d.x ∧ s2.a.y = s2.d.y ∧ s2.a.z = s2.d.z

/-- Distance of two points in the y-z-plane. -/
noncomputable def sideways (p q : V3 ℝ) : ℝ := √((p.y - q.y) ^ 2 + (p.z - q.z) ^ 2)

theorem alongX_dir {v : V3 ℝ} (hx : v.x ≠ 0) (hy : v.y = 0) (hz : v.z = 0) :
    edgeDir v = some ⟨1, 0, 0⟩ := by
  have hn : v.norm = |v.x| := by
    simp only [V3.norm, hy, hz, mul_zero, add_zero]
    exact Real.sqrt_mul_self_eq_abs _
  rw [edgeDir_some fun h => hx (by rw [h]; rfl)]
  congr 1
  have : |v.x| ≠ 0 := abs_ne_zero.2 hx
  apply V3.ext <;> simp [V3.abs, hn, hy, hz, this]

theorem not_close_of_sideways {v : V3 ℝ} (h : v.norm ≤ 100 * √(v.y ^ 2 + v.z ^ 2)) :
    ¬ dirsClose (some ⟨1, 0, 0⟩) (some (vertexDir v)) := by
  show ¬ (_ < contTol)
  rw [not_lt]
  by_cases h0 : v = 0
  · subst h0
    have : vertexDir (0 : V3 ℝ) = 0 := by
      unfold vertexDir
      rw [V3.norm_of_abs, (V3.norm_null_iff 0).2 rfl]
      simp
    rw [this]
    have : ((⟨1, 0, 0⟩ : V3 ℝ) - 0).norm = 1 := by simp [V3.norm]
    rw [this]
    norm_num [contTol]
  · rw [vertexDir_some h0]
    have hn : 0 < v.norm := lt_of_le_of_ne v.norm_not_neg fun h => h0 ((V3.norm_null_iff v).1 h.symm)
    set s := √(v.y ^ 2 + v.z ^ 2) with hs
    have hs0 : 0 ≤ s := Real.sqrt_nonneg _
    have hs2 : s ^ 2 = v.y ^ 2 + v.z ^ 2 := Real.sq_sqrt (by positivity)
    have h1 : s / v.norm ≤ ((⟨1, 0, 0⟩ : V3 ℝ) - (1 / v.norm) • v.abs).norm := by
      refine Real.le_sqrt_of_sq_le ?_
      have e : (s / v.norm) ^ 2 = (1 / v.norm * |v.y|) ^ 2 + (1 / v.norm * |v.z|) ^ 2 := by
        rw [div_pow, hs2, mul_pow, mul_pow, sq_abs, sq_abs]
        ring
      have := mul_self_nonneg (1 - 1 / v.norm * |v.x|)
      simp only [V3.sub_x, V3.sub_y, V3.sub_z, V3.smul_x, V3.smul_y, V3.smul_z, V3.abs]
      nlinarith
    refine le_trans ?_ h1
    rw [le_div_iff₀ hn]
    unfold contTol
    linarith

/-- **C119** (second half): a gap to the side is reported if it is not less than a hundredth of the
distances between the rear end of the inner edge and the ends of the edge before. -/
theorem C119_sideways_partial (l r : List (Corners (V3 ℝ))) (s1 s2 : Corners (V3 ℝ))
    (hx : EdgesAlongX s1 s2) (hb : (s2.d - s1.b).norm ≤ 100 * sideways s2.d s1.b)
    (hc : (s2.d - s1.c).norm ≤ 100 * sideways s2.d s1.c) :
    l.length ∈ (checkContinuity (l ++ s1 :: s2 :: r)).edges ∧
      (checkContinuity (l ++ s1 :: s2 :: r)).wing = false := by
  obtain ⟨x1, y1, z1, x2, y2, z2⟩ := hx
  have hseg : segmentContinuous s1 s2 = false := by
    unfold segmentContinuous
    extract_lets a1d1 b1c1 a2d2 b2c2 a1c2 d1c2 b1d2 c1d2
    have e1 : b1c1 = some ⟨1, 0, 0⟩ := alongX_dir (by simpa [sub_eq_zero] using x1.symm)
      (by simp [y1]) (by simp [z1])
    have e2 : a2d2 = some ⟨1, 0, 0⟩ := alongX_dir (by simpa [sub_eq_zero] using x2.symm)
      (by simp [y2]) (by simp [z2])
    rw [e1, e2, if_pos (dirsClose_self _)]
    rw [decide_eq_false_iff_not]
    rintro (h | h)
    · exact not_close_of_sideways hb h
    · exact not_close_of_sideways hc h
  have hm : l.length ∈ (checkContinuity (l ++ s1 :: s2 :: r)).edges :=
    (checkContinuity_spec _).1 _ |>.2 ⟨l, s1, s2, r, rfl, rfl, hseg⟩
  refine ⟨hm, ?_⟩
  rw [← Bool.not_eq_true, (checkContinuity_spec _).2]
  intro h
  rw [h] at hm
  cases hm

/-- Rectangular segment between `y` and `y + 1` with its leading edge at `x`. -/
def rectAt (x y : ℝ) : Corners (V3 ℝ) := ⟨⟨x, y, 0⟩, ⟨x, y + 1, 0⟩, ⟨x + 1, y + 1, 0⟩, ⟨x + 1, y, 0⟩⟩

/-- **C119** fails: a gap in the direction of the chord is not reported, however large it is. -/
theorem C119_behind_false (g : ℝ) (hg : 0 < g) :
    ¬ [rectAt 0 0, rectAt g 1].IsChain Joined ∧ NoWarning [rectAt 0 0, rectAt g 1] := by
  constructor
  · intro h
    have := congrArg V3.x (List.isChain_cons_cons.1 h).1.1
    simp only [rectAt] at this
    linarith
  · have hseg : segmentContinuous (rectAt 0 0) (rectAt g 1) = true := by
      unfold segmentContinuous
      extract_lets a1d1 b1c1 a2d2 b2c2 a1c2 d1c2 b1d2 c1d2
      have e1 : b1c1 = some ⟨1, 0, 0⟩ :=
        alongX_dir (by simp [rectAt]) (by simp [rectAt]) (by simp [rectAt])
      have e2 : a2d2 = some ⟨1, 0, 0⟩ :=
        alongX_dir (by simp [rectAt]) (by simp [rectAt]) (by simp [rectAt])
      have e3 : b1d2 = ⟨1, 0, 0⟩ := by
        have hx : (0 : ℝ) < g + 1 := by linarith
        have := alongX_dir (v := (rectAt g 1).d - (rectAt 0 0).b)
          (by simpa [rectAt] using hx.ne') (by simp [rectAt]) (by simp [rectAt])
        have hv : (rectAt g 1).d - (rectAt 0 0).b ≠ 0 := by
          intro h0
          have := congrArg V3.x h0
          simp [rectAt] at this
          linarith
        rw [edgeDir_some hv] at this
        simp only [b1d2, vertexDir_some hv]
        exact Option.some.inj this
      rw [e1, e2, e3, if_pos (dirsClose_self _)]
      simp only [decide_eq_true_eq]
      exact .inl (dirsClose_self _)
    have he : (checkContinuity [rectAt 0 0, rectAt g 1]).edges = [] := by
      rw [List.eq_nil_iff_forall_not_mem]
      intro k hk
      obtain ⟨l, s1, s2, r, h, -, hf⟩ := (checkContinuity_spec _).1 k |>.1 hk
      cases l with
      | nil =>
        simp only [List.nil_append, List.cons.injEq] at h
        obtain ⟨rfl, rfl, -⟩ := h
        rw [hseg] at hf
        cases hf
      | cons x l =>
        have := congrArg List.length h
        simp at this
        omega
    exact ⟨he, (checkContinuity_spec _).2.2 he⟩

/-- **C119** fails: a wing without gaps is reported if its segments are listed from tip to root, although
the check has a branch for this order. -/
theorem C119_order_false : [rectAt 0 1, rectAt 0 0].reverse.IsChain Joined ∧
    ¬ NoWarning [rectAt 0 1, rectAt 0 0] := by
  constructor
  · refine List.isChain_cons_cons.2 ⟨?_, by simp⟩
    norm_num [Joined, rectAt]
  · rintro ⟨h, -⟩
    have h3 : √(5 : ℝ) ≤ 3 := Real.sqrt_le_iff.2 ⟨by norm_num, by norm_num⟩
    have h4 : √(4 : ℝ) = 2 := by
      rw [show (4 : ℝ) = 2 ^ 2 by norm_num]
      exact Real.sqrt_sq (by norm_num)
    have hm := (C119_sideways_partial [] [] (rectAt 0 1) (rectAt 0 0)
      (by simp [EdgesAlongX, rectAt])
      (by
        simp only [V3.norm, sideways, rectAt, V3.sub_x, V3.sub_y, V3.sub_z]
        norm_num
        rw [h4]
        linarith)
      (by
        simp only [V3.norm, sideways, rectAt, V3.sub_x, V3.sub_y, V3.sub_z]
        norm_num)).1
    rw [List.nil_append, h] at hm
    cases hm

/-- Two segments that meet in a point. -/
noncomputable def pointedWing : List (Corners (V3 ℝ)) :=
  [⟨⟨0, 0, 0⟩, ⟨1 / 2, 1, 0⟩, ⟨1 / 2, 1, 0⟩, ⟨1, 0, 0⟩⟩,
    ⟨⟨1 / 2, 1, 0⟩, ⟨0, 2, 0⟩, ⟨1, 2, 0⟩, ⟨1 / 2, 1, 0⟩⟩]

/-- **C119** fails: a wing whose segments meet in a point has no gap, but is reported. -/
theorem C119_pointed_false : pointedWing.IsChain Joined ∧ ¬ NoWarning pointedWing := by
  constructor
  · simp [pointedWing, Joined]
  · rintro ⟨h, -⟩
    have hm : 0 ∈ (checkContinuity pointedWing).edges := by
      refine (checkContinuity_spec _).1 0 |>.2 ⟨[], _, _, [], rfl, rfl, ?_⟩
      unfold segmentContinuous
      extract_lets a1d1 b1c1 a2d2 b2c2 a1c2 d1c2 b1d2 c1d2 b1c2 c1c2 a1d2 d1d2
      have e1 : b1c1 = none := by
        simp [b1c1, edgeDir, V3.sub_same, V3.norm_of_abs, (V3.norm_null_iff 0).2 rfl]
      have e2 : a2d2 = none := by
        simp [a2d2, edgeDir, V3.sub_same, V3.norm_of_abs, (V3.norm_null_iff 0).2 rfl]
      have e3 : b2c2 = some ⟨1, 0, 0⟩ := alongX_dir (by simp) (by simp) (by simp)
      have e4 : a1d1 = some ⟨1, 0, 0⟩ := alongX_dir (by simp) (by simp) (by simp)
      rw [e1, e2, e3, e4]
      rw [if_neg (show ¬ dirsClose none none from fun h => h), if_pos (dirsClose_self _)]
      rw [decide_eq_false_iff_not]
      have h4 : √(4 : ℝ) = 2 := by
        rw [show (4 : ℝ) = 2 ^ 2 by norm_num]
        exact Real.sqrt_sq (by norm_num)
      have h3 : √(5 : ℝ) ≤ 3 := Real.sqrt_le_iff.2 ⟨by norm_num, by norm_num⟩
      rintro (h | h)
      · refine not_close_of_sideways ?_ h
        simp only [V3.norm, V3.sub_x, V3.sub_y, V3.sub_z]
        norm_num
        rw [h4]
        linarith
      · refine not_close_of_sideways ?_ h
        simp only [V3.norm, V3.sub_x, V3.sub_y, V3.sub_z]
        norm_num
    rw [h] at hm
    cases hm

/-- Two segments; the outer edge of the first one points up, the inner edge of the second one down. -/
noncomputable def twistGap : List (Corners (V3 ℝ)) :=
  [⟨⟨0, 0, 0⟩, ⟨0, 1, 0⟩, ⟨1, 1, 1⟩, ⟨1, 0, 0⟩⟩, ⟨⟨0, 1, 0⟩, ⟨0, 2, 0⟩, ⟨1, 2, 0⟩, ⟨1, 1, -1⟩⟩]

/-- **C119** fails: signs of coordinates are ignored, so that edges with opposite slopes pass. -/
theorem C119_slope_false : ¬ twistGap.IsChain Joined ∧ NoWarning twistGap := by
  constructor
  · intro h
    have := congrArg V3.z (List.isChain_cons_cons.1 h).1.2
    simp only at this
    norm_num at this
  · have hseg : segmentContinuous ⟨⟨0, 0, 0⟩, ⟨0, 1, 0⟩, ⟨1, 1, 1⟩, ⟨1, 0, 0⟩⟩
        ⟨⟨0, 1, 0⟩, ⟨0, 2, 0⟩, ⟨1, 2, 0⟩, ⟨1, 1, -1⟩⟩ = true := by
      unfold segmentContinuous
      extract_lets a1d1 b1c1 a2d2 b2c2 a1c2 d1c2 b1d2 c1d2
      have hv : (⟨1, 1, -1⟩ - ⟨0, 1, 0⟩ : V3 ℝ) ≠ 0 := by
        intro h0
        have := congrArg V3.x h0
        simp at this
      have hw : (⟨1, 1, 1⟩ - ⟨0, 1, 0⟩ : V3 ℝ) ≠ 0 := by
        intro h0
        have := congrArg V3.x h0
        simp at this
      have e0 : a2d2 = some (b1d2) := by
        simp only [a2d2, b1d2, edgeDir_some hv, vertexDir_some hv]
      have e1 : b1c1 = a2d2 := by
        simp only [a2d2, b1c1, edgeDir_some hv, edgeDir_some hw]
        simp [V3.norm, V3.abs]
      rw [e1, e0, if_pos (dirsClose_self _)]
      simp only [decide_eq_true_eq]
      exact .inl (dirsClose_self _)
    have he : (checkContinuity twistGap).edges = [] := by
      rw [List.eq_nil_iff_forall_not_mem]
      intro k hk
      obtain ⟨l, s1, s2, r, h, -, hf⟩ := (checkContinuity_spec _).1 k |>.1 hk
      cases l with
      | nil =>
        simp only [twistGap, List.nil_append, List.cons.injEq] at h
        obtain ⟨rfl, rfl, -⟩ := h
        rw [hseg] at hf
        cases hf
      | cons x l =>
        have := congrArg List.length h
        simp [twistGap] at this
        omega
    exact ⟨he, (checkContinuity_spec _).2.2 he⟩

/-- **C119** fails in both directions. -/
theorem C119_gaps_reported_false : ¬ GapsReported ∧
    ¬ (∀ segs : List (Corners (V3 ℝ)), segs.IsChain Joined → NoWarning segs) ∧
    ¬ (∀ segs : List (Corners (V3 ℝ)), ¬ segs.IsChain Joined → ¬ NoWarning segs) :=
  ⟨fun h => C119_pointed_false.2 (h.1 _ C119_pointed_false.1),
    fun h => C119_pointed_false.2 (h _ C119_pointed_false.1),
    fun h => h _ C119_slope_false.1 C119_slope_false.2⟩

/-! ### Cases -/

-- two rectangles side by side
example : [rectAt 0 0, rectAt 0 1, rectAt 0 2].IsChain Joined ∧
    ∀ s ∈ [rectAt 0 0, rectAt 0 1, rectAt 0 2].dropLast, s.b ≠ s.c := by
  constructor
  · refine List.isChain_cons_cons.2 ⟨?_, List.isChain_cons_cons.2 ⟨?_, by simp⟩⟩ <;>
      norm_num [Joined, rectAt]
  · intro s hs
    simp only [List.dropLast_cons_cons, List.dropLast_singleton, List.mem_cons, List.not_mem_nil,
      or_false] at hs
    rcases hs with rfl | rfl <;> simp [rectAt]

-- a gap of one chord to the side
example : EdgesAlongX (rectAt 0 0) (rectAt 0 2) ∧
    ((rectAt 0 2).d - (rectAt 0 0).b).norm ≤ 100 * sideways (rectAt 0 2).d (rectAt 0 0).b ∧
    ((rectAt 0 2).d - (rectAt 0 0).c).norm ≤ 100 * sideways (rectAt 0 2).d (rectAt 0 0).c := by
  have h : √(2 : ℝ) ≤ 2 := Real.sqrt_le_iff.2 ⟨by norm_num, by norm_num⟩
  refine ⟨by simp [EdgesAlongX, rectAt], ?_, ?_⟩
  · simp only [V3.norm, sideways, rectAt, V3.sub_x, V3.sub_y, V3.sub_z]
    norm_num
    linarith
  · simp only [V3.norm, sideways, rectAt, V3.sub_x, V3.sub_y, V3.sub_z]
    norm_num

end Verif
