import Verif.Lemmas.StripTiling
import Verif.Lemmas.StripChord

/-!
# Properties C01–C06: strips and subareas of a segment

The specification comes first; it speaks about plain lists of intervals only.
-/

set_option linter.unusedSectionVars false

namespace Verif

/-! ## Specification -/

section Spec
variable {K : Type*} [Field K] [LinearOrder K]

/-- A list of intervals tiles `[0, 1)`: every interval is non-empty and inside `[0, 1]`, and each
coordinate lies in exactly one of them. -/
structure TilesUnit (l : List (K × K)) : Prop where
  inside : ∀ p ∈ l, 0 ≤ p.1 ∧ p.1 < p.2 ∧ p.2 ≤ 1
  cover : ∀ x : K, 0 ≤ x → x < 1 → ∃! i : ℕ, ∃ p, l[i]? = some p ∧ p.1 ≤ x ∧ x < p.2

/-- The intervals follow each other edge to edge, from `a` to `b`. -/
def Joins (b : K) : K → List (K × K) → Prop
  | a, [] => a = b
  | a, p :: rest => p.1 = a ∧ Joins b p.2 rest

/-- Spanwise range of a strip. -/
def Strip.range (s : Strip K) : K × K := (s.etaA, s.etaB)

/-- Chordwise extents of the subareas on the inner border, front to rear. -/
def Strip.innerExtents (s : Strip K) : List (K × K) :=
  (s.slat.toList.map fun f => (f.xsiA, f.xsiD)) ++ [(s.main.xsiA, s.main.xsiD)] ++
    (s.flap.toList.map fun f => (f.xsiA, f.xsiD))

/-- Chordwise extents of the subareas on the outer border, front to rear. -/
def Strip.outerExtents (s : Strip K) : List (K × K) :=
  (s.slat.toList.map fun f => (f.xsiB, f.xsiC)) ++ [(s.main.xsiB, s.main.xsiC)] ++
    (s.flap.toList.map fun f => (f.xsiB, f.xsiC))

/-- The requested lines of a call: the coordinates at which it may draw a division line. -/
def SegOp.lines : SegOp K → List K
  | .divide a _ _ => [a]
  | .control a b .. => [a, b]

/-- The call uses the same coordinate on leading and trailing edge (all calls in the repository
do: `vlm.py:137, 176, 227`, `aircraft.py:889, 904, 943`). -/
def SegOp.chordLine : SegOp K → Prop
  | .divide a d _ => a = d
  | .control .. => True

end Spec

/-! ## A segment used in the non-vacuity examples -/

/-- straight-line interpolation (what `xsi_interpol` does on a rectangular segment) -/
def linInterp : Interp ℚ := fun p q e => p.2 + (q.2 - p.2) * (e - p.1) / (q.1 - p.1)

/-- A history with overlapping devices and lines, finishing without exception. -/
def demoOps : List (SegOp ℚ) :=
  [.control (1/5) (3/5) ⟨"flap1", "flap"⟩ (7/10) (4/5) none none,
   .divide (1/2) (1/2) true,
   .control (2/5) 1 ⟨"slat1", "slat"⟩ (1/10) (1/5) (some (1/20)) (some (1/10)),
   .divide (9/10) (9/10) true,
   .divide 1 1 true,
   .divide (9/20) (9/20) true]

variable {K : Type*} [Field K] [LinearOrder K] [IsStrictOrderedRing K]

/-! ## C01 -/

/-- **C01.** After every history of calls the strips tile `[0, 1)`; also when some of the calls
raised. -/
theorem C01_strips_tile (interp : Interp K) (ops : List (SegOp K)) :
    TilesUnit ((runOps interp ops).map Strip.range) := by
  have h : TileInv (runOps interp ops) :=
    (tileInv_closed interp).runOps tileInv_init (fun op _ => by cases op <;> simp [SegOp.Admits])
  constructor
  · intro p hp
    obtain ⟨s, hs, rfl⟩ := List.mem_map.1 hp
    exact h.inside hs
  · intro x h0 h1
    obtain ⟨i, ⟨s, hs, hp⟩, hu⟩ := h.existsUnique h0 h1
    refine ⟨i, ⟨s.range, by simp [hs], hp⟩, ?_⟩
    rintro j ⟨p, hj, hp'⟩
    rw [List.getElem?_map, Option.map_eq_some_iff] at hj
    obtain ⟨t, ht, rfl⟩ := hj
    exact hu j ⟨t, ht, hp'⟩

/-- The demo history has seven strips in a non-monotone order. -/
example : (runOps linInterp demoOps).map Strip.range =
    [(0, 1/5), (1/5, 2/5), (3/5, 9/10), (1/2, 3/5), (2/5, 9/20), (9/10, 1), (9/20, 1/2)] := by
  decide +kernel

/-! ## C02 -/

/-- **C02**, first half: no strip is ever empty. -/
theorem C02_strips_nonempty (interp : Interp K) (ops : List (SegOp K)) :
    ∀ s ∈ runOps interp ops, s.etaA < s.etaB := by
  intro s hs
  exact ((C01_strips_tile interp ops).inside s.range (List.mem_map.2 ⟨s, hs, rfl⟩)).2.1

/-- **C02**, second half, is *false* in the code: the distance to the next border *above* the
new line is not tested.  Lines at 0.5 and then 0.495 leave a strip of width 0.005. -/
theorem C02_min_width_false :
    ¬ ∀ (interp : Interp ℚ) (ops : List (SegOp ℚ)), ∀ s ∈ runOps interp ops,
      1/100 ≤ s.etaB - s.etaA := by
  intro h
  have h1 := h linInterp [.divide (1/2) (1/2) true, .divide (99/200) (99/200) true]
  revert h1
  decide +kernel

/-- **C02** (partial): the minimum width holds for all histories in which the requested
coordinates, together with 0 and 1, are pairwise equal or at least 0.01 apart.  Missing: lines
closer than 0.01 to a border above them, for which the claim is false. -/
theorem C02_min_width_partial (interp : Interp K) (ops : List (SegOp K)) (S : Set K)
    (h0 : (0 : K) ∈ S) (h1 : (1 : K) ∈ S)
    (hS : ∀ x ∈ S, ∀ y ∈ S, x < y → 1/100 ≤ y - x)
    (hops : ∀ op ∈ ops, ∀ x ∈ op.lines, x ∈ S) :
    ∀ s ∈ runOps interp ops, 1/100 ≤ s.etaB - s.etaA := by
  have hc : Closed interp (fun e _ => e ∈ S)
      (fun sds : List (Strip K) => ∀ s ∈ sds, s.etaA ∈ S ∧ s.etaB ∈ S) := by
    refine ⟨?_, ?_⟩
    · intro sds idx prev p n e d r hT hQ hidx _ _ hA hB _ hi
      obtain ⟨⟨pA, pB, -⟩, nA, nB, -⟩ := inheritDevices_eta hi
      have := hT prev (List.mem_of_getElem? hidx)
      refine mem_set_append hT ⟨?_, ?_⟩ ⟨?_, ?_⟩
      · rw [pA]; exact this.1
      · rw [pB]; exact hQ
      · rw [nA]; exact hQ
      · rw [nB]; exact this.2
    · intro sds idx s s' c x1 x2 h1 h2 hT hidx ha
      obtain ⟨eA, eB, -⟩ := addSubarea_eta ha
      refine mem_set_P hT ?_
      rw [eA, eB]
      exact hT s (List.mem_of_getElem? hidx)
  have := hc.runOps (by simp [initStrips, Strip.init, h0, h1]) (ops := ops) (by
    intro op hop
    have := hops op hop
    cases op with
    | divide a d ign => exact this a (by simp [SegOp.lines])
    | control a b c x1 x2 g1 g2 =>
      exact ⟨this a (by simp [SegOp.lines]), this b (by simp [SegOp.lines])⟩)
  intro s hs
  exact hS _ (this s hs).1 _ (this s hs).2 (C02_strips_nonempty interp ops s hs)

/-- The hypotheses hold for the demo history with the grid of multiples of 1/20. -/
example : ∃ S : Set ℚ, (0 : ℚ) ∈ S ∧ (1 : ℚ) ∈ S ∧
    (∀ x ∈ S, ∀ y ∈ S, x < y → 1/100 ≤ y - x) ∧
    ∀ op ∈ demoOps, ∀ x ∈ op.lines, x ∈ S := by
  refine ⟨{x | x ∈ [0, 1/5, 3/5, 1/2, 2/5, 1, 9/10, 9/20]}, ?_, ?_, ?_, ?_⟩
  · simp
  · simp
  · simp only [Set.mem_ofPred_eq]; decide +kernel
  · simp only [Set.mem_ofPred_eq]; decide +kernel

/-! ## C03 -/

/-- **C03**, invalid coordinates: nothing changes; `None` is returned or `ValueError` raised. -/
theorem C03_invalid_line (interp : Interp K) (x d : K) (ign : Bool) (sds : List (Strip K))
    (hx : x ≤ 0 ∨ 1 ≤ x) :
    addSubdivision interp x d ign sds =
      (if ign then .ok none else .error .valueError, sds) := by
  unfold addSubdivision
  rw [if_pos hx]

/-- **C03**, a line on a border or less than 0.01 outboard of one: nothing changes and the strip
that contains the coordinate, which starts less than 0.01 inboard, is returned. -/
theorem C03_close_line (interp : Interp K) (ops : List (SegOp K)) (x d : K) (ign : Bool)
    (h0 : 0 < x) (h1 : x < 1)
    (hclose : ∃ s ∈ runOps interp ops, s.etaA ≤ x ∧ x - s.etaA < 1/100) :
    ∃ i s, addSubdivision interp x d ign (runOps interp ops) = (.ok (some i), runOps interp ops) ∧
      (runOps interp ops)[i]? = some s ∧ s.etaA ≤ x ∧ x < s.etaB ∧ x - s.etaA < 1/100 := by
  have hT : TileInv (runOps interp ops) :=
    (tileInv_closed interp).runOps tileInv_init (fun op _ => by cases op <;> simp [SegOp.Admits])
  generalize runOps interp ops = sds at *
  -- the strip containing `x` starts no further inboard than any border below `x`
  have key : ∀ t ∈ sds, t.etaA ≤ x → x < t.etaB → x - t.etaA < 1/100 := by
    intro t ht t1 t2
    obtain ⟨s, hs, s1, s2⟩ := hclose
    rcases le_total s.etaA t.etaA with hst | hst
    · linarith
    · -- `s.etaA` lies in both strips
      have hs' := hT.inside hs
      obtain ⟨i, hi⟩ := List.mem_iff_getElem?.1 hs
      obtain ⟨j, hj⟩ := List.mem_iff_getElem?.1 ht
      have hu := (hT.existsUnique hs'.1 (lt_of_lt_of_le hs'.2.1 hs'.2.2)).unique
        ⟨s, hi, le_rfl, hs'.2.1⟩ ⟨t, hj, hst, lt_of_le_of_lt s1 t2⟩
      subst hu
      rw [hi] at hj
      cases hj
      exact s2
  rcases addSubdivision_cases interp x d ign sds with ⟨g1, g2⟩ |
    ⟨idx, prev, p, n, r, g1, -, -, g4, g5, g6, -, -⟩
  · rcases hr : addSubdivision interp x d ign sds with ⟨r, sds'⟩
    rw [hr] at g1 g2
    simp only at g1 g2
    subst g1
    cases g2 with
    | invalid h => exact absurd h (by push Not; exact ⟨h0, h1⟩)
    | outside _ _ h =>
      obtain ⟨i, ⟨s, hs, hp⟩, -⟩ := hT.existsUnique h0.le h1
      exact absurd hp (h s (List.mem_of_getElem? hs))
    | close i s _ _ e1 e2 e3 e4 =>
      exact ⟨i, s, rfl, e1, e2, e3, key s (List.mem_of_getElem? e1) e2 e3⟩
  · have := key prev (List.mem_of_getElem? g1) g4.le g5
    unfold minEtaLimit at g6
    exact absurd this (not_lt.2 g6)

/-- **C03**, converse: any other coordinate does draw a line there, unless the inherited device
edge is refused; one strip is added, starting at the new line. -/
theorem C03_new_line (interp : Interp K) (ops : List (SegOp K)) (x d : K) (ign : Bool)
    (h0 : 0 < x) (h1 : x < 1)
    (hfar : ∀ s ∈ runOps interp ops, ¬ (s.etaA ≤ x ∧ x - s.etaA < 1/100)) :
    (addSubdivision interp x d ign (runOps interp ops)).2.length =
        (runOps interp ops).length + 1 ∧
    (∃ s, (addSubdivision interp x d ign (runOps interp ops)).2[(runOps interp ops).length]? =
      some s ∧ s.etaA = x) ∧
    ((addSubdivision interp x d ign (runOps interp ops)).1 =
        .ok (some (runOps interp ops).length) ∨
      ∃ e, (addSubdivision interp x d ign (runOps interp ops)).1 = .error e) := by
  have hT : TileInv (runOps interp ops) :=
    (tileInv_closed interp).runOps tileInv_init (fun op _ => by cases op <;> simp [SegOp.Admits])
  generalize runOps interp ops = sds at *
  rcases addSubdivision_cases interp x d ign sds with ⟨-, g2⟩ |
    ⟨idx, prev, p, n, r, g1, -, -, g4, g5, g6, g7, g8⟩
  · generalize (addSubdivision interp x d ign sds).1 = o at g2
    cases g2 with
    | invalid h => exact absurd h (by push Not; exact ⟨h0, h1⟩)
    | outside _ _ h =>
      obtain ⟨i, ⟨s, hs, hp⟩, -⟩ := hT.existsUnique h0.le h1
      exact absurd hp (h s (List.mem_of_getElem? hs))
    | close i s _ _ e1 e2 e3 e4 =>
      exfalso
      refine hfar s (List.mem_of_getElem? e1) ⟨e2, ?_⟩
      rcases e4 with rfl | e4
      · simp
      · exact e4
  · obtain ⟨-, nA, -⟩ := inheritDevices_eta g7
    rw [g8]
    refine ⟨by simp, ⟨n, by simp, nA⟩, ?_⟩
    cases r with
    | error e => exact Or.inr ⟨e, rfl⟩
    | ok u => exact Or.inl rfl

/-- **C03**, idempotence: asking twice for the same line is the same as asking once (even when
the first call raises). -/
theorem C03_line_idempotent (interp : Interp K) (ops : List (SegOp K)) (x d : K) (ign : Bool) :
    (addSubdivision interp x d ign (addSubdivision interp x d ign (runOps interp ops)).2).2 =
      (addSubdivision interp x d ign (runOps interp ops)).2 := by
  by_cases hx : x ≤ 0 ∨ 1 ≤ x
  · simp [C03_invalid_line interp x d ign _ hx]
  · push Not at hx
    by_cases hc : ∃ s ∈ runOps interp ops, s.etaA ≤ x ∧ x - s.etaA < 1/100
    · obtain ⟨i, s, h, -⟩ := C03_close_line interp ops x d ign hx.1 hx.2 hc
      simp [h]
    · push Not at hc
      obtain ⟨-, ⟨s, hs, hsx⟩, -⟩ := C03_new_line interp ops x d ign hx.1 hx.2
        (fun s hs hh => absurd hh.2 (not_lt.2 (hc s hs hh.1)))
      have hrun : (addSubdivision interp x d ign (runOps interp ops)).2 =
          runOps interp (ops ++ [.divide x d ign]) := by simp [runOps, SegOp.run]
      rw [hrun] at hs ⊢
      obtain ⟨i, t, h, -⟩ := C03_close_line interp (ops ++ [.divide x d ign]) x d ign hx.1 hx.2
        ⟨s, List.mem_of_getElem? hs, hsx.le, by rw [hsx]; norm_num⟩
      rw [h]

/-- Hypotheses of `C03_close_line` and `C03_new_line` met in the demo history. -/
example : (∃ s ∈ runOps linInterp demoOps, s.etaA ≤ (101/200 : ℚ) ∧ 101/200 - s.etaA < 1/100) ∧
    (∀ s ∈ runOps linInterp demoOps, ¬ (s.etaA ≤ (3/10 : ℚ) ∧ 3/10 - s.etaA < 1/100)) := by
  decide +kernel

/-! ## C04 -/

/-- **C04.** If every call uses chord lines, every border of every strip is a chord line. -/
theorem C04_chord_lines (interp : Interp K) (ops : List (SegOp K))
    (hops : ∀ op ∈ ops, op.chordLine) :
    ∀ s ∈ runOps interp ops, s.etaA = s.etaD ∧ s.etaB = s.etaC := by
  refine (etaInv_closed interp).runOps ?_ ?_
  · simp [initStrips, Strip.init, EtaInv]
  · intro op hop
    have := hops op hop
    cases op <;> simp_all [SegOp.Admits, SegOp.chordLine]

example : (∀ op ∈ demoOps, op.chordLine) := by
  simp [demoOps, SegOp.chordLine]

/-! ## C05 -/

/-- **C05.** In every strip slat, main area and flap join edge to edge from leading to trailing
edge on both borders, and each slot holds a device of its own type.  This holds after every
history, also if some calls raised. -/
theorem C05_chordwise_tiling (interp : Interp K) (ops : List (SegOp K)) :
    ∀ s ∈ runOps interp ops,
      Joins 1 0 s.innerExtents ∧ Joins 1 0 s.outerExtents ∧
      (∀ f ∈ s.slat, f.ctrl.deviceType = "slat") ∧ (∀ f ∈ s.flap, f.ctrl.deviceType = "flap") := by
  intro s hs
  have h : ChordInv s := (chordInv_closed interp).runOps chordInv_init
    (fun op _ => by cases op <;> simp [SegOp.Admits]) s hs
  have e1 : ∀ f ∈ s.slat, f.ctrl.deviceType = "slat" := fun f hf =>
    (h.slat_some f hf).2.2.2.2.1
  have e2 : ∀ f ∈ s.flap, f.ctrl.deviceType = "flap" := fun f hf =>
    (h.flap_some f hf).2.2.2.2.1
  refine ⟨?_, ?_, e1, e2⟩
  all_goals
    simp only [Strip.innerExtents, Strip.outerExtents]
    cases hsl : s.slat with
    | none =>
      have a := h.slat_none hsl
      cases hfl : s.flap with
      | none => have b := h.flap_none hfl; simp [Joins, a, b]
      | some g => have b := h.flap_some g hfl; simp [Joins, a, b]
    | some f =>
      have a := h.slat_some f hsl
      cases hfl : s.flap with
      | none => have b := h.flap_none hfl; simp [Joins, a, b]
      | some g => have b := h.flap_some g hfl; simp [Joins, a, b]

/-! ## C06 -/

/-- **C06**, acceptance: a well-formed slat is accepted on a strip with a flap exactly if it ends
at least 0.01 in front of the flap on both borders; otherwise `ValueError`. -/
theorem C06_slat_accepted_iff (s : Strip K) (g : Dev K) (c : Control) (x1 x2 h1 h2 : K)
    (hc : c.deviceType = "slat") (hs : s.slat = none) (hg : s.flap = some g)
    (hx : 0 < x1 ∧ x1 < 1 ∧ 0 < x2 ∧ x2 < 1) (hh : 0 ≤ h1 ∧ h1 ≤ 1 ∧ 0 ≤ h2 ∧ h2 ≤ 1) :
    if x1 + 1/100 ≤ g.xsiA ∧ x2 + 1/100 ≤ g.xsiB then
      ∃ s', s.addSubarea c x1 x2 (some h1) (some h2) = .ok s' ∧ s'.flap = some g ∧
        ∃ f, s'.slat = some f ∧ f.xsiD = x1 ∧ f.xsiC = x2 ∧ f.xsiA = 0 ∧ f.xsiB = 0 ∧
          f.h1 = h1 ∧ f.h2 = h2 ∧ f.ctrl = c
    else s.addSubarea c x1 x2 (some h1) (some h2) = .error .valueError := by
  unfold Strip.addSubarea
  have n1 : ¬ ((x2 ≤ 0 ∨ 1 ≤ x2) ∨ (x1 ≤ 0 ∨ 1 ≤ x1)) := by
    push Not; exact ⟨⟨hx.2.2.1, hx.2.2.2⟩, hx.1, hx.2.1⟩
  have n2 : ¬ ((h1 < 0 ∨ 1 < h1) ∨ (h2 < 0 ∨ 1 < h2)) := by
    push Not; exact ⟨⟨hh.1, hh.2.1⟩, hh.2.2⟩
  have n3 : s.overlaps x1 x2 ↔ ¬ (x1 + 1/100 ≤ g.xsiA ∧ x2 + 1/100 ≤ g.xsiB) := by
    rw [not_and_or]; simp [Strip.overlaps, hs, hg, minXsiLimit]
  simp only [hc, ne_eq, not_true_eq_false, false_and, if_false, Strip.hasDevice, hs,
    Option.isSome_none, Option.getD_some, n1, n2, n3, if_true]
  by_cases h : x1 + 1/100 ≤ g.xsiA ∧ x2 + 1/100 ≤ g.xsiB
  · rw [if_pos h, if_neg (not_not.2 h)]; simp [hg, Quad.init]
  · rw [if_neg h, if_pos h]; simp

/-- **C06**, acceptance of a flap on a strip with a slat. -/
theorem C06_flap_accepted_iff (s : Strip K) (f : Dev K) (c : Control) (x1 x2 h1 h2 : K)
    (hc : c.deviceType = "flap") (hs : s.flap = none) (hg : s.slat = some f)
    (hx : 0 < x1 ∧ x1 < 1 ∧ 0 < x2 ∧ x2 < 1) (hh : 0 ≤ h1 ∧ h1 ≤ 1 ∧ 0 ≤ h2 ∧ h2 ≤ 1) :
    if f.xsiD + 1/100 ≤ x1 ∧ f.xsiC + 1/100 ≤ x2 then
      ∃ s', s.addSubarea c x1 x2 (some h1) (some h2) = .ok s' ∧ s'.slat = some f ∧
        ∃ g, s'.flap = some g ∧ g.xsiA = x1 ∧ g.xsiB = x2 ∧ g.xsiC = 1 ∧ g.xsiD = 1 ∧
          g.h1 = h1 ∧ g.h2 = h2 ∧ g.ctrl = c
    else s.addSubarea c x1 x2 (some h1) (some h2) = .error .valueError := by
  unfold Strip.addSubarea
  have n1 : ¬ ((x2 ≤ 0 ∨ 1 ≤ x2) ∨ (x1 ≤ 0 ∨ 1 ≤ x1)) := by
    push Not; exact ⟨⟨hx.2.2.1, hx.2.2.2⟩, hx.1, hx.2.1⟩
  have n2 : ¬ ((h1 < 0 ∨ 1 < h1) ∨ (h2 < 0 ∨ 1 < h2)) := by
    push Not; exact ⟨⟨hh.1, hh.2.1⟩, hh.2.2⟩
  have n3 : s.overlaps x1 x2 ↔ ¬ (f.xsiD + 1/100 ≤ x1 ∧ f.xsiC + 1/100 ≤ x2) := by
    rw [not_and_or]; simp [Strip.overlaps, hs, hg, minXsiLimit]
  simp only [hc, ne_eq, not_true_eq_false, and_false, if_false, Strip.hasDevice, hs,
    Option.isSome_none, Option.getD_some, n1, n2, n3]
  by_cases h : f.xsiD + 1/100 ≤ x1 ∧ f.xsiC + 1/100 ≤ x2
  · rw [if_pos h, if_neg (not_not.2 h)]; simp [hg, Quad.init]
  · rw [if_neg h, if_pos h]; simp

/-- **C06**, invariant: as long as no call raises, every subarea of every strip has a positive
chordwise extent on both borders, and between a slat and a flap there is at least 0.01 chord of
main area — whatever strips are split and whatever the interpolation yields. -/
theorem C06_gap_kept (interp : Interp K) (ops : List (SegOp K)) (sds : List (Strip K))
    (hok : runOpsOk interp ops initStrips = .ok sds) :
    ∀ s ∈ sds, (∀ p ∈ s.innerExtents, p.1 < p.2) ∧ (∀ p ∈ s.outerExtents, p.1 < p.2) ∧
      ∀ f ∈ s.slat, ∀ g ∈ s.flap, f.xsiD + 1/100 ≤ g.xsiA ∧ f.xsiC + 1/100 ≤ g.xsiB ∧
        s.main.xsiA + 1/100 ≤ s.main.xsiD ∧ s.main.xsiB + 1/100 ≤ s.main.xsiC := by
  intro s hs
  obtain ⟨hC, hG⟩ := (gapInv_closedOk interp).runOpsOk
    (fun op _ => op.ctrlIn_true) gapInv_init hok s hs
  have key : ∀ f ∈ s.slat, ∀ g ∈ s.flap, f.xsiD + 1/100 ≤ g.xsiA ∧ f.xsiC + 1/100 ≤ g.xsiB ∧
        s.main.xsiA + 1/100 ≤ s.main.xsiD ∧ s.main.xsiB + 1/100 ≤ s.main.xsiC := by
    intro f hf g hg
    have := hG f g hf hg
    unfold minXsiLimit at this
    have a := hC.slat_some f hf
    have b := hC.flap_some g hg
    refine ⟨this.1, this.2, ?_, ?_⟩
    · rw [a.2.2.1, b.2.2.1]; exact this.1
    · rw [a.2.2.2.1, b.2.2.2.1]; exact this.2
  refine ⟨?_, ?_, key⟩
  all_goals
    simp only [Strip.innerExtents, Strip.outerExtents]
    cases hsl : s.slat with
    | none =>
      have a := hC.slat_none hsl
      cases hfl : s.flap with
      | none => have b := hC.flap_none hfl; simp [a, b]
      | some g => have b := hC.flap_some g hfl; simp [a, b]
    | some f =>
      have a := hC.slat_some f hsl
      cases hfl : s.flap with
      | none => have b := hC.flap_none hfl; simp [a, b]
      | some g =>
        have b := hC.flap_some g hfl
        have k := key f hsl g hfl
        have k1 : f.xsiD < g.xsiA := by linarith [k.1]
        have k2 : f.xsiC < g.xsiB := by linarith [k.2.1]
        simp [a, b, k1, k2]

/-- The demo history succeeds and has a strip with slat and flap (from 0.5 to 0.6). -/
example : runOpsOk linInterp demoOps initStrips = .ok (runOps linInterp demoOps) ∧
    ∃ s ∈ runOps linInterp demoOps, s.slat.isSome ∧ s.flap.isSome := by
  decide +kernel

/-- Hypotheses of the acceptance theorems are satisfiable with both outcomes. -/
example : ∃ (s : Strip ℚ) (g : Dev ℚ), s.slat = none ∧ s.flap = some g ∧ g.xsiA = 7/10 :=
  ⟨{ Strip.init 0 1 1 0 with flap := some ⟨⟨7/10, 4/5, 1, 1⟩, 7/10, 4/5, ⟨"f", "flap"⟩⟩ }, _,
    rfl, rfl, rfl⟩

end Verif
