import Verif.Model.Normals
import Verif.Props.Invariance

/-!
# Helper lemmas on rotations and on the rotation loop
-/

set_option linter.unnecessarySeqFocus false

namespace Verif

open V3

/-- Unit vector along an axis. -/
noncomputable def unit (v : V3 ℝ) : V3 ℝ := (1 / v.norm) • v

theorem unit_dot {v : V3 ℝ} (h : v.norm ≠ 0) : (unit v).dot (unit v) = 1 := by
  have h2 := norm_sq v
  unfold unit
  have : ((1 / v.norm) • v).dot ((1 / v.norm) • v) = (1 / v.norm) ^ 2 * v.dot v := by vsimp; ring
  rw [this, ← h2]
  field_simp

theorem rotate_ne {axis : V3 ℝ} (h : axis.norm ≠ 0) (t : ℝ) (v : V3 ℝ) :
    rotate axis t v = some (Real.cos t • v + Real.sin t • (unit axis).cross v +
      ((1 - Real.cos t) * (unit axis).dot v) • unit axis) := by
  unfold rotate
  rw [if_neg h]
  rfl

theorem rotate_some {axis v w : V3 ℝ} {t : ℝ} (h : rotate axis t v = some w) :
    axis.norm ≠ 0 ∧ w = Real.cos t • v + Real.sin t • (unit axis).cross v +
      ((1 - Real.cos t) * (unit axis).dot v) • unit axis := by
  by_cases h0 : axis.norm = 0
  · unfold rotate at h
    rw [if_pos h0] at h
    cases h
  · rw [rotate_ne h0] at h
    exact ⟨h0, (Option.some.inj h).symm⟩

/-- Rotations keep scalar products. -/
theorem rotate_dot {axis v w v' w' : V3 ℝ} {t : ℝ} (h1 : rotate axis t v = some v')
    (h2 : rotate axis t w = some w') : v'.dot w' = v.dot w := by
  obtain ⟨h0, rfl⟩ := rotate_some h1
  obtain ⟨-, rfl⟩ := rotate_some h2
  have hu := unit_dot h0
  have hc := Real.sin_sq_add_cos_sq t
  generalize unit axis = u at hu
  generalize Real.cos t = c at hc
  generalize Real.sin t = s at hc
  have e : (c • v + s • u.cross v + ((1 - c) * u.dot v) • u).dot
      (c • w + s • u.cross w + ((1 - c) * u.dot w) • u) =
      c ^ 2 * v.dot w + s ^ 2 * (u.dot u * v.dot w - u.dot v * u.dot w) +
      2 * (c * (1 - c)) * (u.dot v * u.dot w) + (1 - c) ^ 2 * (u.dot v * u.dot w) * u.dot u := by
    vsimp; ring
  rw [e, hu]
  linear_combination (v.dot w - u.dot v * u.dot w) * hc

theorem rotate_norm {axis v w : V3 ℝ} {t : ℝ} (h : rotate axis t v = some w) :
    w.norm = v.norm := by
  have := rotate_dot h h
  unfold V3.norm
  unfold V3.dot at this
  rw [this]

/-- Mirror image of a rotation: the axis is reversed. -/
theorem rotate_flip (axis v : V3 ℝ) (t : ℝ) :
    rotate (-flipY axis) t (flipY v) = (rotate axis t v).map flipY := by
  have hn : (-flipY axis).norm = axis.norm := by rw [norm_neg, flipY_norm]
  by_cases h0 : axis.norm = 0
  · unfold rotate
    rw [hn, if_pos h0, if_pos h0]
    rfl
  · rw [rotate_ne h0, rotate_ne (by rwa [hn]), Option.map_some]
    congr 1
    have hu : unit (-flipY axis) = -flipY (unit axis) := by
      unfold unit
      rw [hn]
      ext <;> simp
    rw [hu]
    generalize unit axis = u
    ext <;> simp [V3.dot] <;> ring

theorem applyRotation_norm {r : Option (V3 ℝ × ℝ)} {v : Option (V3 ℝ)} {w : V3 ℝ}
    (h : applyRotation r v = some w) : ∃ v', v = some v' ∧ w.norm = v'.norm := by
  unfold applyRotation at h
  rcases r with _ | ⟨axis, t⟩
  · exact ⟨w, h, rfl⟩
  · simp only [Option.bind_eq_some_iff] at h
    obtain ⟨v', hv, hr⟩ := h
    exact ⟨v', hv, rotate_norm hr⟩

/-! ## The loop -/

theorem rotateEntry_some {env : LatticeEnv} {ac : PAircraft ℝ} {e : BookEntry}
    {n n' : ℤ → Option (V3 ℝ)} (h : rotateEntry env ac e n = .ok n') :
    ∃ p hinge corners, entryParts env ac e = some p ∧ hingeRotation env p e.mirror = .ok hinge ∧
      subareaVertices p.geo p.strip p.sub.quad e.mirror = .ok corners ∧
      (∀ i, e.start ≤ i → i < e.stop → n' i = applyRotation
        (camberRotation p corners (e.stop - e.start).toNat (i - e.start).toNat)
        (applyRotation hinge (n i))) ∧
      ∀ i, ¬ (e.start ≤ i ∧ i < e.stop) → n' i = n i := by
  unfold rotateEntry at h
  cases hp : entryParts env ac e with
  | none => simp [hp] at h
  | some p =>
    simp only [hp] at h
    cases hh : hingeRotation env p e.mirror with
    | error x => simp [hh] at h
    | ok hinge =>
      cases hc : subareaVertices p.geo p.strip p.sub.quad e.mirror with
      | error x => simp [hh, hc] at h
      | ok corners =>
        simp only [hh, hc] at h
        cases h
        exact ⟨p, hinge, corners, rfl, hh, hc, fun i h1 h2 => if_pos ⟨h1, h2⟩,
          fun i hi => if_neg hi⟩

theorem rotateAll_norm {env : LatticeEnv} {ac : PAircraft ℝ} {es : List BookEntry}
    {n n' : ℤ → Option (V3 ℝ)} (h : rotateAll env ac es n = .ok n')
    (hn : ∀ i v, n i = some v → v.norm = 1) : ∀ i v, n' i = some v → v.norm = 1 := by
  induction es generalizing n with
  | nil => cases h; exact hn
  | cons e rest ih =>
    unfold rotateAll at h
    cases hr : rotateEntry env ac e n with
    | error x => simp [hr] at h
    | ok n1 =>
      simp only [hr] at h
      refine ih h ?_
      obtain ⟨p, hinge, corners, -, -, -, h1, h2⟩ := rotateEntry_some hr
      intro i v hv
      by_cases hi : e.start ≤ i ∧ i < e.stop
      · rw [h1 i hi.1 hi.2] at hv
        obtain ⟨v1, hv1, e1⟩ := applyRotation_norm hv
        obtain ⟨v2, hv2, e2⟩ := applyRotation_norm hv1
        rw [e1, e2]
        exact hn i v2 hv2
      · rw [h2 i hi] at hv
        exact hn i v hv

theorem Contig.bounds {a b : ℤ} {l : List BookEntry} (h : Contig a l b)
    (h0 : ∀ e ∈ l, 0 ≤ e.numC) : a ≤ b ∧ ∀ e ∈ l, a ≤ e.start ∧ e.stop ≤ b := by
  induction l generalizing a with
  | nil => cases h; simp
  | cons e rest ih =>
    obtain ⟨h1, h2, h3⟩ := h
    have hn := h0 e (by simp)
    obtain ⟨i1, i2⟩ := ih h3 fun x hx => h0 x (List.mem_cons_of_mem _ hx)
    refine ⟨by omega, ?_⟩
    intro x hx
    rcases List.mem_cons.1 hx with rfl | hx
    · omega
    · have := i2 x hx
      omega

/-- In a contiguous bookkeeping each panel is rotated by its own entry and by no other. -/
theorem rotateAll_own {env : LatticeEnv} {ac : PAircraft ℝ} {es : List BookEntry} {a b : ℤ}
    (hc : Contig a es b) (h0 : ∀ e ∈ es, 0 ≤ e.numC)
    {n n' : ℤ → Option (V3 ℝ)} (h : rotateAll env ac es n = .ok n') :
    (∀ e ∈ es, ∃ p hinge corners, entryParts env ac e = some p ∧
      hingeRotation env p e.mirror = .ok hinge ∧
      subareaVertices p.geo p.strip p.sub.quad e.mirror = .ok corners ∧
      ∀ i, e.start ≤ i → i < e.stop → n' i = applyRotation
        (camberRotation p corners (e.stop - e.start).toNat (i - e.start).toNat)
        (applyRotation hinge (n i))) ∧
    ∀ i, i < a ∨ b ≤ i → n' i = n i := by
  induction es generalizing n a with
  | nil => cases h; simp
  | cons e rest ih =>
    obtain ⟨c1, c2, c3⟩ := hc
    unfold rotateAll at h
    cases hr : rotateEntry env ac e n with
    | error x => simp [hr] at h
    | ok n1 =>
      simp only [hr] at h
      obtain ⟨p, hinge, corners, e1, e2, e3, h1, h2⟩ := rotateEntry_some hr
      have h0' : ∀ x ∈ rest, 0 ≤ x.numC := fun x hx => h0 x (List.mem_cons_of_mem _ hx)
      obtain ⟨i1, i2⟩ := ih c3 h0' h
      obtain ⟨b1, b2⟩ := c3.bounds h0'
      have hn := h0 e (by simp)
      refine ⟨?_, ?_⟩
      · intro x hx
        rcases List.mem_cons.1 hx with rfl | hx
        · refine ⟨p, hinge, corners, e1, e2, e3, fun i hi1 hi2 => ?_⟩
          rw [i2 i (.inl hi2), h1 i hi1 hi2]
        · obtain ⟨p', hinge', corners', f1, f2, f3, f4⟩ := i1 x hx
          refine ⟨p', hinge', corners', f1, f2, f3, fun i hi1 hi2 => ?_⟩
          have := (b2 x hx).1
          rw [f4 i hi1 hi2, h2 i (by omega)]
      · intro i hi
        rw [i2 i (by omega), h2 i (by omega)]

/-! ## The panels written -/

theorem lastPanel_of_unique {K : Type*} {l : List (ℤ × PanelPts K)} {k : ℤ} {g : PanelPts K}
    (hn : (l.map Prod.fst).Nodup) (hm : (k, g) ∈ l) : lastPanel l k = some g := by
  unfold lastPanel
  induction l with
  | nil => simp at hm
  | cons w l ih =>
    rw [List.map_cons, List.nodup_cons] at hn
    rcases List.mem_cons.1 hm with rfl | hm
    · have : l.filter (fun w => decide (w.1 = k)) = [] := by
        rw [List.filter_eq_nil_iff]
        intro x hx
        simp only [decide_eq_true_eq]
        rintro rfl
        exact hn.1 (List.mem_map.2 ⟨x, hx, rfl⟩)
      simp [this]
    · have hk : w.1 ≠ k := by
        intro hk
        exact hn.1 (hk ▸ List.mem_map_of_mem (f := Prod.fst) hm)
      rw [List.filter_cons_of_neg (by simpa using hk)]
      exact ih hn.2 hm

theorem lastPanel_none {K : Type*} {l : List (ℤ × PanelPts K)} {k : ℤ}
    (h : k ∉ l.map Prod.fst) : lastPanel l k = none := by
  unfold lastPanel
  have : l.filter (fun w => decide (w.1 = k)) = [] := by
    rw [List.filter_eq_nil_iff]
    intro x hx
    simp only [decide_eq_true_eq]
    rintro rfl
    exact h (List.mem_map_of_mem hx)
  simp [this]

theorem normal_norm {g : PanelPts ℝ} (h : g.crossVec.norm ≠ 0) : g.normal.norm = 1 := by
  unfold PanelPts.normal
  rw [norm_smul, abs_of_nonneg (by have := V3.norm_nonneg g.crossVec; positivity)]
  field_simp

theorem finNormal_some {g : PanelPts ℝ} {v : V3 ℝ} (h : g.finNormal = some v) :
    g.crossVec.norm ≠ 0 ∧ v = g.normal := by
  unfold PanelPts.finNormal at h
  split_ifs at h with h0
  exact ⟨h0, (Option.some.inj h).symm⟩

/-- Corners of an entry as a total function. -/
noncomputable def cornersOf (env : LatticeEnv) (ac : PAircraft ℝ) (e : BookEntry) :
    Corners (V3 ℝ) :=
  match entryCorners env ac e with
  | .ok c => c
  | .error _ => ⟨0, 0, 0, 0⟩

theorem mapE_corners {env : LatticeEnv} {ac : PAircraft ℝ} {es : List BookEntry}
    {cs : List (Corners (V3 ℝ))} (h : mapE (entryCorners env ac) es = .ok cs) :
    cs = es.map (cornersOf env ac) := by
  have := mapE_ok h
  induction this with
  | nil => rfl
  | cons hd _ ih =>
    rw [List.map_cons, ← ih]
    · simp [cornersOf, hd]
    · exact mapE_eq_ok (by assumption)

/-- Ingredients of a generated lattice. -/
theorem genLattice_ok {env : LatticeEnv} {doRot : Bool} {alpha beta : ℝ} {ac : PAircraft ℝ}
    {l : LatticeData} (h : genLattice env doRot alpha beta ac = .ok l) :
    ∃ cs, genBook ac = .ok l.book ∧ mapE (entryCorners env ac) l.book.entries = .ok cs ∧
      0 ≤ l.book.numP ∧
      l.pts = lastPanel (vlmLattice (trailLeg alpha beta) (l.book.inputsOf cs)) ∧
      (doRot = false → l.normal = fun k => (l.pts k).bind PanelPts.finNormal) ∧
      (doRot = true → rotateAll env ac l.book.entries
        (fun k => (l.pts k).bind PanelPts.finNormal) = .ok l.normal) := by
  unfold genLattice at h
  cases hb : genBook ac with
  | error x => simp [hb] at h
  | ok b =>
    simp only [hb] at h
    cases hm : mapE (entryCorners env ac) b.entries with
    | error x => simp [hm] at h
    | ok cs =>
      simp only [hm] at h
      by_cases hn : b.numP < 0
      · rw [if_pos hn] at h; cases h
      · rw [if_neg hn] at h
        cases doRot with
        | false =>
          simp only [Bool.false_eq_true, if_false] at h
          cases h
          exact ⟨cs, rfl, hm, not_lt.1 hn, rfl, fun _ => rfl, by simp⟩
        | true =>
          simp only [if_true] at h
          cases hr : rotateAll env ac b.entries (fun k =>
              (lastPanel (vlmLattice (trailLeg alpha beta) (b.inputsOf cs)) k).bind
                PanelPts.finNormal) with
          | error x => rw [hr] at h; cases h
          | ok n =>
            rw [hr] at h
            cases h
            exact ⟨cs, rfl, hm, not_lt.1 hn, rfl, by simp, fun _ => hr⟩

end Verif
