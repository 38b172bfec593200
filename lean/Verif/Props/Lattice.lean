import Verif.Lemmas.Lattice
import Verif.Props.Geometry
import Mathlib.Tactic.Positivity

/-!
# Properties C12, C14–C18, C40: the native lattice generator
-/

set_option linter.unusedSectionVars false

namespace Verif

open V3

/-! ## C12 -/

section
variable {K : Type*} [Field K]

/-- Number of panels asked for by a table of panel numbers (a flagged row counts twice). -/
def totalPanels (l : List (SubInput K)) : ℤ :=
  (l.map fun u => u.panS * u.panC * (if u.sym > 0 then 2 else 1)).sum

theorem latticeFrom_perm (leg : V3 K) (l : List (SubInput K))
    (h : ∀ u ∈ l, 0 ≤ u.panS ∧ 0 ≤ u.panC) (start : ℤ) :
    0 ≤ totalPanels l ∧ ((latticeFrom leg start l).map Prod.fst).Perm
      (pyRange start (start + totalPanels l)) := by
  induction l generalizing start with
  | nil => simp [latticeFrom, totalPanels, pyRange]
  | cons u rest ih =>
    obtain ⟨hS, hC⟩ := h u (by simp)
    have hrest := fun v hv => h v (List.mem_cons_of_mem _ hv)
    have hn : 0 ≤ u.panS * u.panC := mul_nonneg hS hC
    by_cases hs : u.sym > 0
    · obtain ⟨i0, i1⟩ := ih hrest (start + u.panS * u.panC + u.panS * u.panC)
      have ht : totalPanels (u :: rest) =
          u.panS * u.panC + u.panS * u.panC + totalPanels rest := by
        simp only [totalPanels, List.map_cons, List.sum_cons, if_pos hs]; ring
      refine ⟨by omega, ?_⟩
      simp only [latticeFrom, if_pos hs, List.map_append]
      have p1 := passPanels_perm (Coef.of u.pts) leg start u.panS u.panC hS hC
      have p2 := passPanels_perm (Coef.mirrored u.sym u.pts) leg (start + u.panS * u.panC)
        u.panS u.panC hS hC
      refine (p1.append (p2.append i1)).trans ?_
      rw [pyRange_append (by omega) (by omega), pyRange_append (by omega) (by omega), ht]
      have : start + u.panS * u.panC + u.panS * u.panC + totalPanels rest =
        start + (u.panS * u.panC + u.panS * u.panC + totalPanels rest) := by ring
      rw [this]
    · obtain ⟨i0, i1⟩ := ih hrest (start + u.panS * u.panC)
      have ht : totalPanels (u :: rest) = u.panS * u.panC + totalPanels rest := by
        simp only [totalPanels, List.map_cons, List.sum_cons, if_neg hs]; ring
      refine ⟨by omega, ?_⟩
      simp only [latticeFrom, if_neg hs, List.map_append]
      have p1 := passPanels_perm (Coef.of u.pts) leg start u.panS u.panC hS hC
      refine (p1.append i1).trans ?_
      rw [pyRange_append (by omega) (by omega), ht]
      have : start + u.panS * u.panC + totalPanels rest =
        start + (u.panS * u.panC + totalPanels rest) := by ring
      rw [this]

/-- **C12**, panels: for every table of panel numbers (not negative) the generator writes each
panel `0 .. N-1` exactly once and no other. -/
theorem C12_panels_once (leg : V3 K) (l : List (SubInput K))
    (h : ∀ u ∈ l, 0 ≤ u.panS ∧ 0 ≤ u.panC) :
    ((vlmLattice leg l).map Prod.fst).Perm (pyRange 0 (totalPanels l)) := by
  have := (latticeFrom_perm leg l h 0).2
  rwa [zero_add] at this

end

/-- **C12**, elements: in each output array with `N` times its width elements each element is
written exactly once, and no element outside. -/
theorem C12_elements_once (leg : V3 ℝ) (l : List (SubInput ℝ))
    (h : ∀ u ∈ l, 0 ≤ u.panS ∧ 0 ≤ u.panC) (arr : Arr) :
    (((latticeWrites leg l).filter (fun t => t.1 = arr)).map (fun t => t.2.1)).Perm
      (pyRange 0 (totalPanels l * arr.width)) := by
  have h0 := (latticeFrom_perm leg l h 0).1
  have e : ((latticeWrites leg l).filter (fun t => t.1 = arr)).map (fun t => t.2.1) =
      ((vlmLattice leg l).map Prod.fst).flatMap
        (fun k => pyRange (k * arr.width) (k * arr.width + arr.width)) := by
    unfold latticeWrites
    rw [List.filter_flatMap, List.map_flatMap, List.flatMap_map]
    congr 1
    funext kp
    exact panelWrites_idx kp arr
  rw [e]
  refine ((C12_panels_once leg l h).flatMap_right _).trans ?_
  have hN : totalPanels l = ((totalPanels l).toNat : ℤ) := by omega
  rw [hN, flatMap_pyRange _ (by positivity)]

theorem contents_mem (leg : V3 ℝ) (l : List (SubInput ℝ))
    (h : ∀ u ∈ l, 0 ≤ u.panS ∧ 0 ≤ u.panC) (kp : ℤ × PanelPts ℝ) (hk : kp ∈ vlmLattice leg l)
    (arr : Arr) (i : ℤ) (x : ℝ) (hw : (arr, i, x) ∈ panelWrites kp) :
    lastWrite arr i (latticeWrites leg l) = some x := by
  apply lastWrite_of_unique
  · exact (C12_elements_once leg l h arr).nodup_iff.2 (nodup_pyRange _ _)
  · exact List.mem_flatMap.2 ⟨kp, hk, hw⟩

/-- The flat array `arr` holds the vector `v` as row `m` of an array of rows of three. -/
def HoldsRow (w : List (Arr × ℤ × ℝ)) (arr : Arr) (m : ℤ) (v : V3 ℝ) : Prop :=
  lastWrite arr (3 * m) w = some v.x ∧ lastWrite arr (3 * m + 1) w = some v.y ∧
    lastWrite arr (3 * m + 2) w = some v.z

/-- **C12**, contents: after the run each array holds what it is named after for each panel: corner
points `p` and points of the horseshoe vortex `v` in order, collocation point, middle of the bound
leg, normal vector and area. -/
theorem C12_contents (leg : V3 ℝ) (l : List (SubInput ℝ))
    (h : ∀ u ∈ l, 0 ≤ u.panS ∧ 0 ≤ u.panC) (kp : ℤ × PanelPts ℝ) (hk : kp ∈ vlmLattice leg l) :
    let w := latticeWrites leg l
    let k := kp.1
    let g := kp.2
    HoldsRow w .P (4 * k) g.p ∧ HoldsRow w .P (4 * k + 1) g.q ∧ HoldsRow w .P (4 * k + 2) g.r ∧
    HoldsRow w .P (4 * k + 3) g.s ∧
    HoldsRow w .V (4 * k) g.v1 ∧ HoldsRow w .V (4 * k + 1) g.v2 ∧ HoldsRow w .V (4 * k + 2) g.v3 ∧
    HoldsRow w .V (4 * k + 3) g.v4 ∧
    HoldsRow w .C k g.col ∧ HoldsRow w .BoundLegMidpoint k g.mid ∧ HoldsRow w .N k g.normal ∧
    lastWrite .A k w = some g.area := by
  intro w k g
  have key : ∀ (arr : Arr) (i j : ℤ) (x : ℝ), (arr, j, x) ∈ panelWrites kp → i = j →
      lastWrite arr i w = some x := by
    rintro arr i j x hx rfl
    exact contents_mem leg l h kp hk arr i x hx
  refine ⟨?_, ?_, ?_, ?_, ?_, ?_, ?_, ?_, ?_, ?_, ?_, ?_⟩
  · exact ⟨key _ _ (k * 4 * 3) _ (by simp [panelWrites, write3, k, g]) (by ring),
      key _ _ (k * 4 * 3 + 1) _ (by simp [panelWrites, write3, k, g]) (by ring),
      key _ _ (k * 4 * 3 + 2) _ (by simp [panelWrites, write3, k, g]) (by ring)⟩
  · exact ⟨key _ _ (k * 4 * 3 + 1 * 3) _ (by simp [panelWrites, write3, k, g]) (by ring),
      key _ _ (k * 4 * 3 + 1 * 3 + 1) _ (by simp [panelWrites, write3, k, g]) (by ring),
      key _ _ (k * 4 * 3 + 1 * 3 + 2) _ (by simp [panelWrites, write3, k, g]) (by ring)⟩
  · exact ⟨key _ _ (k * 4 * 3 + 2 * 3) _ (by simp [panelWrites, write3, k, g]) (by ring),
      key _ _ (k * 4 * 3 + 2 * 3 + 1) _ (by simp [panelWrites, write3, k, g]) (by ring),
      key _ _ (k * 4 * 3 + 2 * 3 + 2) _ (by simp [panelWrites, write3, k, g]) (by ring)⟩
  · exact ⟨key _ _ (k * 4 * 3 + 3 * 3) _ (by simp [panelWrites, write3, k, g]) (by ring),
      key _ _ (k * 4 * 3 + 3 * 3 + 1) _ (by simp [panelWrites, write3, k, g]) (by ring),
      key _ _ (k * 4 * 3 + 3 * 3 + 2) _ (by simp [panelWrites, write3, k, g]) (by ring)⟩
  · exact ⟨key _ _ (k * 4 * 3) _ (by simp [panelWrites, write3, k, g]) (by ring),
      key _ _ (k * 4 * 3 + 1) _ (by simp [panelWrites, write3, k, g]) (by ring),
      key _ _ (k * 4 * 3 + 2) _ (by simp [panelWrites, write3, k, g]) (by ring)⟩
  · exact ⟨key _ _ (k * 4 * 3 + 1 * 3) _ (by simp [panelWrites, write3, k, g]) (by ring),
      key _ _ (k * 4 * 3 + 1 * 3 + 1) _ (by simp [panelWrites, write3, k, g]) (by ring),
      key _ _ (k * 4 * 3 + 1 * 3 + 2) _ (by simp [panelWrites, write3, k, g]) (by ring)⟩
  · exact ⟨key _ _ (k * 4 * 3 + 2 * 3) _ (by simp [panelWrites, write3, k, g]) (by ring),
      key _ _ (k * 4 * 3 + 2 * 3 + 1) _ (by simp [panelWrites, write3, k, g]) (by ring),
      key _ _ (k * 4 * 3 + 2 * 3 + 2) _ (by simp [panelWrites, write3, k, g]) (by ring)⟩
  · exact ⟨key _ _ (k * 4 * 3 + 3 * 3) _ (by simp [panelWrites, write3, k, g]) (by ring),
      key _ _ (k * 4 * 3 + 3 * 3 + 1) _ (by simp [panelWrites, write3, k, g]) (by ring),
      key _ _ (k * 4 * 3 + 3 * 3 + 2) _ (by simp [panelWrites, write3, k, g]) (by ring)⟩
  · exact ⟨key _ _ (k * 3) _ (by simp [panelWrites, write3, k, g]) (by ring),
      key _ _ (k * 3 + 1) _ (by simp [panelWrites, write3, k, g]) (by ring),
      key _ _ (k * 3 + 2) _ (by simp [panelWrites, write3, k, g]) (by ring)⟩
  · exact ⟨key _ _ (k * 3) _ (by simp [panelWrites, write3, k, g]) (by ring),
      key _ _ (k * 3 + 1) _ (by simp [panelWrites, write3, k, g]) (by ring),
      key _ _ (k * 3 + 2) _ (by simp [panelWrites, write3, k, g]) (by ring)⟩
  · exact ⟨key _ _ (k * 3) _ (by simp [panelWrites, write3, k, g]) (by ring),
      key _ _ (k * 3 + 1) _ (by simp [panelWrites, write3, k, g]) (by ring),
      key _ _ (k * 3 + 2) _ (by simp [panelWrites, write3, k, g]) (by ring)⟩
  · exact key _ _ k _ (by simp [panelWrites, write3, k, g]) rfl

section
variable {K : Type*} [Field K] [LinearOrder K] [IsStrictOrderedRing K] [FloorRing K]

theorem latticeFrom_entries {L : Type*} [Field L] (leg : V3 L)
    (corners : BookEntry → Corners (V3 L)) {a b : ℤ} {es : List BookEntry}
    (hc : Contig a es b) :
    ∃ gs : List (List (ℤ × PanelPts L)),
      gs.flatten = latticeFrom leg a (es.map fun e => ⟨corners e, 0, 1, e.numC⟩) ∧
      List.Forall₂ (fun e g => g.map Prod.fst = pyRange e.start e.stop ∧
        g.map Prod.snd = (List.range e.numC.toNat).map fun i : ℕ =>
          panelPts (Coef.of (corners e)) leg 1 e.numC i 0) es gs := by
  induction es generalizing a with
  | nil => exact ⟨[], rfl, .nil⟩
  | cons e rest ih =>
    obtain ⟨h1, h2, h3⟩ := hc
    obtain ⟨gs, g1, g2⟩ := ih h3
    refine ⟨passPanels (Coef.of (corners e)) leg a 1 e.numC :: gs, ?_, .cons ⟨?_, ?_⟩ g2⟩
    · rw [List.flatten_cons, g1]
      simp only [List.map_cons, latticeFrom]
      rw [if_neg (by simp), one_mul, h2]
    · rw [passPanels_one, h1, h2]
    · unfold passPanels
      rw [List.map_flatMap]
      simp [← List.map_eq_flatMap]

/-- **C12** for a whole aircraft: the panels written for an entry of the bookkeeping are exactly
those it names, in order, they are the chordwise pieces of the corners of that entry, and all
elements written lie inside the arrays allocated for `num_panels`. -/
theorem C12_entries (ac ac' : PAircraft K) (hu : ac.Unpanelled)
    (h : prePanelling ac = .ok ac') (hn : ac.NumC 0) :
    ∃ b, genBook ac' = .ok b ∧ ∀ (leg : V3 ℝ) (corners : BookEntry → Corners (V3 ℝ)),
      (∃ gs : List (List (ℤ × PanelPts ℝ)),
        gs.flatten = vlmLattice leg (b.inputs corners) ∧
        List.Forall₂ (fun e g => g.map Prod.fst = pyRange e.start e.stop ∧
          g.map Prod.snd = (List.range e.numC.toNat).map fun i : ℕ =>
            panelPts (Coef.of (corners e)) leg 1 e.numC i 0) b.entries gs) ∧
      ∀ t ∈ latticeWrites leg (b.inputs corners), 0 ≤ t.2.1 ∧ t.2.1 < b.numP * t.1.width := by
  obtain ⟨b, gs, hb, h1, h2, h3, h4, h5, h6, -⟩ := genBook_facts hu h le_rfl hn
  refine ⟨b, hb, ?_⟩
  intro leg corners
  refine ⟨by rw [Book.inputs_eq]; exact latticeFrom_entries leg corners h3, ?_⟩
  intro t ht
  have hpos : ∀ u ∈ b.inputs corners, 0 ≤ u.panS ∧ 0 ≤ u.panC := by
    intro u hu
    rw [Book.inputs_eq] at hu
    obtain ⟨e, he, rfl⟩ := List.mem_map.1 hu
    exact ⟨zero_le_one, (h6 e he).1⟩
  have htot : totalPanels (b.inputs corners) = b.numP := by
    obtain ⟨-, -, -, r4⟩ := h3.ranges (fun e he => (h6 e he).1)
    rw [r4, zero_add, totalPanels, Book.inputs_eq, List.map_map]
    congr 1
    apply List.map_congr_left
    intro e _
    simp
  have hp := C12_elements_once leg (b.inputs corners) hpos t.1
  rw [htot] at hp
  exact mem_pyRange.1 (hp.subset (List.mem_map.2 ⟨t, by simpa using ht, rfl⟩))

end

/-- Two subareas, 2 x 3 and 1 x 2 panels, the second one mirrored by flag: ten panels. -/
example : (vlmLattice (⟨10000, 0, 0⟩ : V3 ℚ)
      [⟨taperedSeg, 0, 2, 3⟩, ⟨taperedSeg, 2, 1, 2⟩]).map Prod.fst =
    [0, 3, 1, 4, 2, 5, 6, 7, 8, 9] := by decide +kernel

/-! ## C14 -/

section
variable {K : Type*} [Field K]

/-- **C14**: neighbouring panels of a subarea share their edge: spanwise (`Q-R` of one is `P-S` of
the next) and chordwise (`S-R` of one is `P-Q` of the next). -/
theorem C14_inner_edges (k : Coef K) (leg : V3 K) (panS panC : ℤ) (i j : ℕ) :
    (panelPts k leg panS panC i j).q = (panelPts k leg panS panC i (j + 1)).p ∧
    (panelPts k leg panS panC i j).r = (panelPts k leg panS panC i (j + 1)).s ∧
    (panelPts k leg panS panC i j).s = (panelPts k leg panS panC (i + 1) j).p ∧
    (panelPts k leg panS panC i j).r = (panelPts k leg panS panC (i + 1) j).q := by
  simp only [panelPts]
  push_cast
  exact ⟨rfl, rfl, rfl, rfl⟩

variable [CharZero K]

theorem last_index (n : ℕ) (h : 1 ≤ n) : (1 / ((n : ℤ) : K)) * (((n - 1 : ℕ) : K) + 1) = 1 := by
  have h0 : (n : K) ≠ 0 := by
    have : n ≠ 0 := by omega
    exact_mod_cast this
  have : ((n - 1 : ℕ) : K) + 1 = n := by
    have e : n = (n - 1) + 1 := by omega
    conv_rhs => rw [e]
    push_cast; ring
  rw [this]
  push_cast
  field_simp

/-- **C14**: the outermost panel corners are the corners of the subarea. -/
theorem C14_outer_corners (pts : Corners (V3 K)) (leg : V3 K) (nS nC : ℕ) (hS : 1 ≤ nS)
    (hC : 1 ≤ nC) :
    (panelPts (Coef.of pts) leg nS nC 0 0).p = pts.a ∧
    (panelPts (Coef.of pts) leg nS nC 0 (nS - 1)).q = pts.b ∧
    (panelPts (Coef.of pts) leg nS nC (nC - 1) (nS - 1)).r = pts.c ∧
    (panelPts (Coef.of pts) leg nS nC (nC - 1) 0).s = pts.d := by
  obtain ⟨ha, hb, hc, hd⟩ := coef_corners pts
  simp only [panelPts, last_index (K := K) nS hS, last_index (K := K) nC hC]
  simp only [Nat.cast_zero, mul_zero]
  exact ⟨ha, hb, hc, hd⟩

/-- **C14**: two subareas with a common spanwise border and equal numbers of chordwise panels
share the panel edges on this border. -/
theorem C14_spanwise_neighbours (pts pts' : Corners (V3 K)) (leg : V3 K) (nS nS' nC : ℕ)
    (hS : 1 ≤ nS) (i : ℕ) (h1 : pts.b = pts'.a) (h2 : pts.c = pts'.d) :
    (panelPts (Coef.of pts) leg nS nC i (nS - 1)).q =
      (panelPts (Coef.of pts') leg nS' nC i 0).p ∧
    (panelPts (Coef.of pts) leg nS nC i (nS - 1)).r =
      (panelPts (Coef.of pts') leg nS' nC i 0).s := by
  simp only [panelPts, last_index (K := K) nS hS, coef_at_eq, ← h1, ← h2, Nat.cast_zero, mul_zero]
  constructor <;> ext <;> vsimp <;> ring

/-- **C14**: two subareas with a common hinge line and equal numbers of spanwise panels share the
panel edges on this line. -/
theorem C14_chordwise_neighbours (pts pts' : Corners (V3 K)) (leg : V3 K) (nS nC nC' : ℕ)
    (hC : 1 ≤ nC) (j : ℕ) (h1 : pts.d = pts'.a) (h2 : pts.c = pts'.b) :
    (panelPts (Coef.of pts) leg nS nC (nC - 1) j).s =
      (panelPts (Coef.of pts') leg nS nC' 0 j).p ∧
    (panelPts (Coef.of pts) leg nS nC (nC - 1) j).r =
      (panelPts (Coef.of pts') leg nS nC' 0 j).q := by
  simp only [panelPts, last_index (K := K) nC hC, coef_at_eq, ← h1, ← h2, Nat.cast_zero, mul_zero]
  constructor <;> ext <;> vsimp <;> ring

end

section
variable {K : Type*} [Field K] [LinearOrder K] [IsStrictOrderedRing K]

/-- **C14**, the subareas of a strip share the hinge lines, and neighbouring strips their common
border: after every history of calls, for every (also deformed) wing, the rear edge of the slat
is the front edge of the main area and the rear edge of the main area the front edge of the flap;
and if the range of one strip ends where the range of another one begins, two subareas with the
same chord positions at the border share this border. -/
theorem C14_subarea_borders (interp : Interp K) (ops : List (SegOp K))
    (hops : ∀ op ∈ ops, op.chordLine) (g : GeoEnv K) :
    ∀ s ∈ runOps interp ops, ∀ m, subareaVertices g s s.main false = .ok m →
      (∀ f, s.slat = some f → ∀ v, subareaVertices g s f.toQuad false = .ok v →
        v.d = m.a ∧ v.c = m.b) ∧
      (∀ f, s.flap = some f → ∀ v, subareaVertices g s f.toQuad false = .ok v →
        m.d = v.a ∧ m.c = v.b) ∧
      ∀ s' ∈ runOps interp ops, s.range.2 = s'.range.1 → ∀ q q' : Quad K,
        q.xsiB = q'.xsiA → q.xsiC = q'.xsiD →
        ∀ v v', subareaVertices g s q false = .ok v → subareaVertices g s' q' false = .ok v' →
          v.b = v'.a ∧ v.c = v'.d := by
  intro s hs m hm
  have hv : ∀ (s : Strip K) q, subareaVertices g s q false = .ok
      ⟨(stripCorners g s).a + q.xsiA • ((stripCorners g s).d - (stripCorners g s).a),
       (stripCorners g s).b + q.xsiB • ((stripCorners g s).c - (stripCorners g s).b),
       (stripCorners g s).b + q.xsiC • ((stripCorners g s).c - (stripCorners g s).b),
       (stripCorners g s).a + q.xsiD • ((stripCorners g s).d - (stripCorners g s).a)⟩ := by
    intro s q
    simp [subareaVertices, absVertices_eq]
  rw [hv] at hm
  cases hm
  obtain ⟨t1, t2, -⟩ := C05_chordwise_tiling interp ops s hs
  refine ⟨?_, ?_, ?_⟩
  · intro f hf v hv'
    rw [hv] at hv'
    cases hv'
    simp only [Strip.innerExtents, Strip.outerExtents, hf] at t1 t2
    simp only [Option.toList, List.map_cons, List.map_nil, List.cons_append, List.nil_append,
      Joins] at t1 t2
    simp only
    rw [t1.2.1, t2.2.1]
    exact ⟨rfl, rfl⟩
  · intro f hf v hv'
    rw [hv] at hv'
    cases hv'
    simp only [Strip.innerExtents, Strip.outerExtents, hf] at t1 t2
    cases hsl : s.slat <;>
      simp only [hsl, Option.toList, List.map_cons, List.map_nil, List.cons_append,
        List.nil_append, Joins] at t1 t2 <;> simp only
    · rw [t1.2.1, t2.2.1]
      exact ⟨rfl, rfl⟩
    · rw [t1.2.2.1, t2.2.2.1]
      exact ⟨rfl, rfl⟩
  · intro s' hs' hb q q' h1 h2 v v' hv1 hv2
    rw [hv] at hv1 hv2
    cases hv1
    cases hv2
    simp only [Strip.range] at hb
    obtain ⟨-, h4⟩ := C04_chord_lines interp ops hops s hs
    obtain ⟨h5, -⟩ := C04_chord_lines interp ops hops s' hs'
    have : s.etaC = s'.etaD := by rw [← h4, ← h5, hb]
    simp only [stripCorners, hb, this, h1, h2]
    exact ⟨trivial, trivial⟩

end

/-- Non-vacuity: strips 1 and 4 of the demo history are neighbours (at 0.4) and both carry the
flap, strip 4 also a slat. -/
example : ((runOps linInterp demoOps)[1]?.bind fun s => s.flap.map fun f =>
      (s.range.2, f.xsiB, f.xsiC)) = some (2/5, 3/4, 1) ∧
    ((runOps linInterp demoOps)[4]?.bind fun s => s.flap.bind fun f => s.slat.map fun _ =>
      (s.range.1, f.xsiA, f.xsiD)) = some (2/5, 3/4, 1) := by decide +kernel

/-! ## C15 -/

/-- Point of a panel with the fractions `s` of the span and `c` of the chord (bilinear in the four
corners). -/
def PanelPts.at {K : Type*} [Field K] (g : PanelPts K) (s c : K) : V3 K :=
  segPoint ⟨g.p, g.q, g.r, g.s⟩ s c

/-- **C15**: bound vortex from quarter-chord point to quarter-chord point, its midpoint the
quarter-chord point of the centre line, collocation point at three quarters of the centre line;
the latter are also the points of the *subarea* at the corresponding relative coordinates. -/
theorem C15_quarter_points {K : Type*} [Field K] [CharZero K] (k : Coef K) (leg : V3 K)
    (panS panC : ℤ) (i j : ℕ) :
    let g := panelPts k leg panS panC i j
    g.v2 = g.at 0 (1/4) ∧ g.v3 = g.at 1 (1/4) ∧ g.mid = g.at (1/2) (1/4) ∧
    g.col = g.at (1/2) (3/4) ∧
    g.mid = k.at ((j + 1/2) / panS) ((i + 1/4) / panC) ∧
    g.col = k.at ((j + 1/2) / panS) ((i + 3/4) / panC) := by
  simp only [panelPts, PanelPts.at, segPoint, Coef.at]
  refine ⟨?_, ?_, ?_, ?_, ?_, ?_⟩ <;> ext <;> vsimp <;> ring

/-- **C15**: the trailing vortices leave from the ends of the bound vortex along the free stream
(a unit vector) and are 10000 length units long. -/
theorem C15_trailing_legs (k : Coef ℝ) (alpha beta : ℝ) (panS panC : ℤ) (i j : ℕ) :
    let g := panelPts k (trailLeg alpha beta) panS panC i j
    let u := freestreamDir (deg2rad alpha) (deg2rad beta)
    u.norm = 1 ∧ g.v1 - g.v2 = (10000 : ℝ) • u ∧ g.v4 - g.v3 = (10000 : ℝ) • u := by
  refine ⟨?_, ?_, ?_⟩
  · have h1 := Real.sin_sq_add_cos_sq (deg2rad alpha)
    have h2 := Real.sin_sq_add_cos_sq (deg2rad beta)
    rw [V3.norm, Real.sqrt_eq_one]
    simp only [freestreamDir]
    linear_combination h2 + Real.cos (deg2rad beta) ^ 2 * h1
  · simp only [panelPts, trailLeg]; ext <;> vsimp <;> ring
  · simp only [panelPts, trailLeg]; ext <;> vsimp <;> ring

/-- Non-vacuity: the second of three panels of a tapered segment. -/
example : (panelPts (Coef.of (taperedSeg (K := ℚ))) ⟨10000, 0, 0⟩ 1 3 1 0).v2 = ⟨5/6, 0, 0⟩ ∧
    (panelPts (Coef.of (taperedSeg (K := ℚ))) ⟨10000, 0, 0⟩ 1 3 1 0).v1 = ⟨10000 + 5/6, 0, 0⟩ ∧
    (panelPts (Coef.of (taperedSeg (K := ℚ))) ⟨10000, 0, 0⟩ 1 3 1 0).col = ⟨11/8, 2, 1/2⟩ := by
  decide +kernel

/-! ## C16 -/

/-- **C16**: the normal of a panel whose cross product does not vanish has length one. -/
theorem C16_normal_unit (g : PanelPts ℝ) (h : g.crossVec ≠ 0) : g.normal.norm = 1 := by
  have := norm_pos h
  rw [PanelPts.normal, norm_smul, abs_of_pos (by positivity)]
  field_simp

/-- three vectors perpendicular to one vector have no volume -/
theorem det_zero {m e c u : V3 ℝ} (hm : m ≠ 0) (he : m.dot e = 0) (hc : m.dot c = 0)
    (hu : m.dot u = 0) : (e.cross c).dot u = 0 := by
  have key : ∀ w : V3 ℝ, (e.cross c).dot u * m.dot w = 0 := by
    intro w
    clear hm
    vsimp
    linear_combination ((c.y * u.z - c.z * u.y) * w.x + (c.z * u.x - c.x * u.z) * w.y +
      (c.x * u.y - c.y * u.x) * w.z) * he +
      ((u.y * e.z - u.z * e.y) * w.x + (u.z * e.x - u.x * e.z) * w.y +
      (u.x * e.y - u.y * e.x) * w.z) * hc +
      ((e.y * c.z - e.z * c.y) * w.x + (e.z * c.x - e.x * c.z) * w.y +
      (e.x * c.y - e.y * c.x) * w.z) * hu
  have := key m
  rcases mul_eq_zero.1 this with h | h
  · exact h
  · exact absurd h (dot_self_pos hm).ne'

/-- **C16**: the normal of a planar panel (all corners in a plane with some normal `m`; the panel
may be a triangle) is perpendicular to all four edges. -/
theorem C16_normal_perpendicular (k : Coef ℝ) (leg : V3 ℝ) (panS panC : ℤ) (i j : ℕ) (m : V3 ℝ)
    (hm : m ≠ 0) :
    let g := panelPts k leg panS panC i j
    m.dot (g.q - g.p) = 0 → m.dot (g.r - g.p) = 0 → m.dot (g.s - g.p) = 0 →
    g.normal.dot (g.q - g.p) = 0 ∧ g.normal.dot (g.r - g.q) = 0 ∧
    g.normal.dot (g.s - g.r) = 0 ∧ g.normal.dot (g.p - g.s) = 0 := by
  intro g hq hr hs
  have hcol : g.col = (1 / 8 : ℝ) • (g.p + g.q) + (3 / 8 : ℝ) • (g.r + g.s) := rfl
  have hcross : ∀ u : V3 ℝ, m.dot u = 0 → g.normal.dot u = 0 := by
    intro u hu
    have h0 : g.crossVec.dot u = 0 := by
      unfold PanelPts.crossVec
      rw [hcol]
      generalize g.p = p at *
      generalize g.q = q at *
      generalize g.r = r at *
      generalize g.s = s at *
      refine det_zero hm ?_ ?_ hu
      · clear hm hu hcol
        vsimp
        linear_combination -(3/8) * hq + (3/8) * hr + (3/8) * hs
      · clear hm hu hcol
        vsimp
        linear_combination -(1/8) * hq - (3/8) * hr + (3/8) * hs
    have : g.normal.dot u = 1 / g.crossVec.norm * g.crossVec.dot u := by
      unfold PanelPts.normal
      generalize g.crossVec = w at *
      simp only [V3.dot, V3.smul_x, V3.smul_y, V3.smul_z]
      ring
    rw [this, h0, mul_zero]
  generalize g.p = p at *
  generalize g.q = q at *
  generalize g.r = r at *
  generalize g.s = s at *
  refine ⟨hcross _ hq, hcross _ ?_, hcross _ ?_, hcross _ ?_⟩
  · clear hm hcross hcol; vsimp; linear_combination hr - hq
  · clear hm hcross hcol; vsimp; linear_combination hs - hr
  · clear hm hcross hcol; vsimp; linear_combination -hs

/-- The cross product of a panel is that of the two tangents of the subarea at the collocation
point, times a positive factor. -/
theorem crossVec_eq (pts : Corners (V3 ℝ)) (leg : V3 ℝ) (panS panC : ℤ) (i j : ℕ) :
    (panelPts (Coef.of pts) leg panS panC i j).crossVec =
      (3 / 8 * (1 / (panS : ℝ)) * (1 / (panC : ℝ))) •
      ((pts.b - pts.a) + ((i + 3/4) / panC : ℝ) • ((pts.c - pts.d) - (pts.b - pts.a))).cross
      ((pts.d - pts.a) + ((j + 1/2) / panS : ℝ) • ((pts.c - pts.d) - (pts.b - pts.a))) := by
  simp only [panelPts, PanelPts.crossVec, coef_at_eq]
  generalize (pts.c - pts.d) - (pts.b - pts.a) = W
  generalize pts.b - pts.a = U
  generalize pts.d - pts.a = V
  ext <;> vsimp <;> ring

/-- **C16**: on a subarea with convex outline (also a twisted one) no panel is degenerate, and all
normals are unit vectors on the side of (spanwise edge) x (chordwise edge). -/
theorem C16_normal_side (pts : Corners (V3 ℝ)) (hv : ConvexOutline pts) (leg : V3 ℝ)
    (nS nC i j : ℕ) (hi : i < nC) (hj : j < nS) :
    let g := panelPts (Coef.of pts) leg nS nC i j
    g.normal.norm = 1 ∧ 0 < g.normal.dot ((pts.b - pts.a).cross (pts.d - pts.a)) := by
  intro g
  have hS : (0 : ℝ) < nS := by exact_mod_cast (by omega : 0 < nS)
  have hC : (0 : ℝ) < nC := by exact_mod_cast (by omega : 0 < nC)
  have hi1 : (i : ℝ) + 1 ≤ nC := by exact_mod_cast hi
  have hj1 : (j : ℝ) + 1 ≤ nS := by exact_mod_cast hj
  have hj0 : (0 : ℝ) ≤ j := by positivity
  have hi0 : (0 : ℝ) ≤ i := by positivity
  have jp := hv.jac_pos (x := (i + 3/4) / nC) (e := (j + 1/2) / nS)
    ⟨by positivity, by rw [div_le_one hC]; linarith⟩
    ⟨by positivity, by rw [div_le_one hS]; linarith⟩
  have hdot : 0 < g.crossVec.dot ((pts.b - pts.a).cross (pts.d - pts.a)) := by
    show 0 < (panelPts (Coef.of pts) leg nS nC i j).crossVec.dot _
    rw [crossVec_eq]
    unfold jac br at jp
    push_cast
    have hk : 0 < (3 / 8 * (1 / (nS : ℝ)) * (1 / (nC : ℝ))) := by positivity
    generalize (3 / 8 * (1 / (nS : ℝ)) * (1 / (nC : ℝ))) = κ at *
    generalize ((pts.b - pts.a) + (((i : ℝ) + 3/4) / nC) •
      ((pts.c - pts.d) - (pts.b - pts.a))).cross
      ((pts.d - pts.a) + (((j : ℝ) + 1/2) / nS) • ((pts.c - pts.d) - (pts.b - pts.a))) = w at *
    generalize (pts.b - pts.a).cross (pts.d - pts.a) = N at *
    have e : (κ • w).dot N = κ * N.dot w := by
      simp only [V3.dot, V3.smul_x, V3.smul_y, V3.smul_z]; ring
    rw [e]
    exact mul_pos hk jp
  have hne : g.crossVec ≠ 0 := by
    intro h
    rw [h] at hdot
    simp [V3.dot] at hdot
  refine ⟨C16_normal_unit g hne, ?_⟩
  have hn := norm_pos hne
  have e : g.normal.dot ((pts.b - pts.a).cross (pts.d - pts.a)) =
      1 / g.crossVec.norm * g.crossVec.dot ((pts.b - pts.a).cross (pts.d - pts.a)) := by
    unfold PanelPts.normal
    simp only [V3.dot, V3.smul_x, V3.smul_y, V3.smul_z]; ring
  rw [e]
  positivity

/-- Non-vacuity of C16: the tapered segment is planar and convex, its panels have a normal that is
not parallel to an axis; and a convex twisted subarea exists (see C08). -/
example : ConvexOutline taperedSeg ∧
    (panelPts (Coef.of (taperedSeg (K := ℚ))) ⟨10000, 0, 0⟩ 2 3 1 1).crossVec =
      ⟨0, 5/64, -5/16⟩ := by
  refine ⟨⟨?_, ?_, ?_, ?_⟩, ?_⟩
  iterate 4 simp only [taperedSeg]; vsimp; norm_num
  simp only [panelPts, PanelPts.crossVec, coef_at_eq, taperedSeg]
  ext <;> vsimp <;> norm_num

/-! ## C17 -/

/-- Surface area of a parallelogram panel. -/
noncomputable def PanelPts.parallelogramArea (g : PanelPts ℝ) : ℝ :=
  ((g.q - g.p).cross (g.s - g.p)).norm

/-- A swept (sheared) square. -/
def sweptSquare : Corners (V3 ℝ) := ⟨⟨0, 0, 0⟩, ⟨1, 1, 0⟩, ⟨2, 1, 0⟩, ⟨1, 0, 0⟩⟩

/-- **C17** is *false* in the code: the area stored is span times chord, also for swept panels.
The sheared unit square has area 1, the code gives `√2`. -/
theorem C17_area_false :
    ¬ ∀ (pts : Corners (V3 ℝ)) (leg : V3 ℝ) (panS panC : ℤ) (i j : ℕ),
      let g := panelPts (Coef.of pts) leg panS panC i j
      g.r - g.q = g.s - g.p → g.area = g.parallelogramArea := by
  intro h
  have h1 := h sweptSquare 0 1 1 0 0
  have e1 : (panelPts (Coef.of sweptSquare) 0 1 1 0 0).spanVec = ⟨1, 1, 0⟩ := by
    simp only [panelPts, PanelPts.spanVec, coef_at_eq, sweptSquare]
    ext <;> vsimp <;> norm_num
  have e2 : (panelPts (Coef.of sweptSquare) 0 1 1 0 0).chordVec = ⟨1, 0, 0⟩ := by
    simp only [panelPts, PanelPts.chordVec, coef_at_eq, sweptSquare]
    ext <;> vsimp <;> norm_num
  have e3 : ((panelPts (Coef.of sweptSquare) 0 1 1 0 0).q -
      (panelPts (Coef.of sweptSquare) 0 1 1 0 0).p).cross
      ((panelPts (Coef.of sweptSquare) 0 1 1 0 0).s -
      (panelPts (Coef.of sweptSquare) 0 1 1 0 0).p) = ⟨0, 0, -1⟩ := by
    simp only [panelPts, coef_at_eq, sweptSquare]
    ext <;> vsimp <;> norm_num
  have e4 : (panelPts (Coef.of sweptSquare) 0 1 1 0 0).r -
      (panelPts (Coef.of sweptSquare) 0 1 1 0 0).q =
      (panelPts (Coef.of sweptSquare) 0 1 1 0 0).s -
      (panelPts (Coef.of sweptSquare) 0 1 1 0 0).p := by
    simp only [panelPts, coef_at_eq, sweptSquare]
    ext <;> vsimp <;> norm_num
  have h2 := h1 e4
  rw [PanelPts.area, PanelPts.parallelogramArea, e1, e2, e3] at h2
  simp only [V3.norm] at h2
  norm_num at h2

theorem lagrange (u v : V3 ℝ) :
    (u.cross v).norm ^ 2 + (u.dot v) ^ 2 = (u.norm * v.norm) ^ 2 := by
  rw [mul_pow]
  unfold V3.norm
  rw [Real.sq_sqrt (add_nonneg (add_nonneg (mul_self_nonneg _) (mul_self_nonneg _))
      (mul_self_nonneg _)),
    Real.sq_sqrt (add_nonneg (add_nonneg (mul_self_nonneg _) (mul_self_nonneg _))
      (mul_self_nonneg _)),
    Real.sq_sqrt (add_nonneg (add_nonneg (mul_self_nonneg _) (mul_self_nonneg _))
      (mul_self_nonneg _))]
  vsimp
  ring

theorem norm_nonneg' (u : V3 ℝ) : 0 ≤ u.norm := Real.sqrt_nonneg _

/-- **C17** (partial): for a parallelogram panel the stored area is never too small, and it is the
true area exactly if the sides are perpendicular (unswept panel).  Missing: swept panels, for
which the claim is false. -/
theorem C17_area_partial (k : Coef ℝ) (leg : V3 ℝ) (panS panC : ℤ) (i j : ℕ) :
    let g := panelPts k leg panS panC i j
    g.r - g.q = g.s - g.p →
      g.parallelogramArea ≤ g.area ∧
      (g.area = g.parallelogramArea ↔ (g.q - g.p).dot (g.s - g.p) = 0) := by
  intro g hpar
  have e1 : g.spanVec = g.q - g.p := by
    have hx := congrArg V3.x hpar
    have hy := congrArg V3.y hpar
    have hz := congrArg V3.z hpar
    unfold PanelPts.spanVec
    ext <;> simp only [V3.sub_x, V3.sub_y, V3.sub_z, V3.add_x, V3.add_y, V3.add_z, V3.smul_x,
      V3.smul_y, V3.smul_z] at *
    · linear_combination (1/2) * hx
    · linear_combination (1/2) * hy
    · linear_combination (1/2) * hz
  have e2 : g.chordVec = g.s - g.p := by
    have hx := congrArg V3.x hpar
    have hy := congrArg V3.y hpar
    have hz := congrArg V3.z hpar
    unfold PanelPts.chordVec
    ext <;> simp only [V3.sub_x, V3.sub_y, V3.sub_z, V3.add_x, V3.add_y, V3.add_z, V3.smul_x,
      V3.smul_y, V3.smul_z] at *
    · linear_combination (1/2) * hx
    · linear_combination (1/2) * hy
    · linear_combination (1/2) * hz
  have hl := lagrange (g.q - g.p) (g.s - g.p)
  have ha : g.area = (g.q - g.p).norm * (g.s - g.p).norm := by rw [PanelPts.area, e1, e2]
  have hp : g.parallelogramArea = ((g.q - g.p).cross (g.s - g.p)).norm := rfl
  rw [← ha, ← hp] at hl
  have a0 : 0 ≤ g.area := ha ▸ mul_nonneg (norm_nonneg' _) (norm_nonneg' _)
  have p0 : 0 ≤ g.parallelogramArea := norm_nonneg' _
  generalize (g.q - g.p).dot (g.s - g.p) = d at *
  generalize g.area = A at *
  generalize g.parallelogramArea = B at *
  constructor
  · nlinarith [sq_nonneg d]
  · constructor
    · rintro rfl
      have : d ^ 2 = 0 := by linarith
      simpa using this
    · rintro rfl
      nlinarith

/-- Non-vacuity: panels of the sheared square are parallelograms with sides that are not
perpendicular. -/
example : (panelPts (Coef.of sweptSquare) 0 2 3 1 1).r - (panelPts (Coef.of sweptSquare) 0 2 3 1 1).q
      = (panelPts (Coef.of sweptSquare) 0 2 3 1 1).s - (panelPts (Coef.of sweptSquare) 0 2 3 1 1).p ∧
    ((panelPts (Coef.of sweptSquare) 0 2 3 1 1).q -
      (panelPts (Coef.of sweptSquare) 0 2 3 1 1).p).dot
      ((panelPts (Coef.of sweptSquare) 0 2 3 1 1).s -
      (panelPts (Coef.of sweptSquare) 0 2 3 1 1).p) = 1 / 6 := by
  simp only [panelPts, coef_at_eq, sweptSquare]
  constructor
  · ext <;> vsimp <;> norm_num
  · vsimp; norm_num

/-! ## C18 -/

/-- The statistics of a list of values: smallest, largest and mean. -/
structure IsSummary (l : List ℝ) (mn mx av : ℝ) : Prop where
  min_mem : mn ∈ l
  max_mem : mx ∈ l
  min_le : ∀ x ∈ l, mn ≤ x
  le_max : ∀ x ∈ l, x ≤ mx
  mean : av * l.length = l.sum
  between : mn ≤ av ∧ av ≤ mx

theorem foldl_min (l : List ℝ) (m : ℝ) :
    let r := l.foldl (fun m x => if x < m then x else m) m
    (r = m ∨ r ∈ l) ∧ r ≤ m ∧ ∀ x ∈ l, r ≤ x := by
  induction l generalizing m with
  | nil => simp
  | cons y l ih =>
    simp only [List.foldl_cons]
    obtain ⟨h1, h2, h3⟩ := ih (if y < m then y else m)
    split_ifs at h1 h2 h3 ⊢ with h
    · refine ⟨?_, h2.trans h.le, ?_⟩
      · rcases h1 with h1 | h1
        · exact .inr (by rw [h1]; simp)
        · exact .inr (List.mem_cons_of_mem _ h1)
      · rintro x hx
        rcases List.mem_cons.1 hx with rfl | hx
        · exact h2
        · exact h3 x hx
    · refine ⟨?_, h2, ?_⟩
      · rcases h1 with h1 | h1
        · exact .inl h1
        · exact .inr (List.mem_cons_of_mem _ h1)
      · rintro x hx
        rcases List.mem_cons.1 hx with rfl | hx
        · exact h2.trans (not_lt.1 h)
        · exact h3 x hx

theorem foldl_max (l : List ℝ) (m : ℝ) :
    let r := l.foldl (fun m x => if x > m then x else m) m
    (r = m ∨ r ∈ l) ∧ m ≤ r ∧ ∀ x ∈ l, x ≤ r := by
  induction l generalizing m with
  | nil => simp
  | cons y l ih =>
    simp only [List.foldl_cons]
    obtain ⟨h1, h2, h3⟩ := ih (if y > m then y else m)
    split_ifs at h1 h2 h3 ⊢ with h
    · refine ⟨?_, (le_of_lt h).trans h2, ?_⟩
      · rcases h1 with h1 | h1
        · exact .inr (by rw [h1]; simp)
        · exact .inr (List.mem_cons_of_mem _ h1)
      · rintro x hx
        rcases List.mem_cons.1 hx with rfl | hx
        · exact h2
        · exact h3 x hx
    · refine ⟨?_, h2, ?_⟩
      · rcases h1 with h1 | h1
        · exact .inl h1
        · exact .inr (List.mem_cons_of_mem _ h1)
      · rintro x hx
        rcases List.mem_cons.1 hx with rfl | hx
        · exact (not_lt.1 h).trans h2
        · exact h3 x hx

theorem stats_fold (l : List (PanelPts ℝ)) (t : Stats) :
    l.foldl Stats.step t =
    { areaMin := (l.map PanelPts.area).foldl (fun m x => if x < m then x else m) t.areaMin
      areaMax := (l.map PanelPts.area).foldl (fun m x => if x > m then x else m) t.areaMax
      areaAvg := t.areaAvg + (l.map PanelPts.area).sum
      aspectMin := (l.map PanelPts.aspect).foldl (fun m x => if x < m then x else m) t.aspectMin
      aspectMax := (l.map PanelPts.aspect).foldl (fun m x => if x > m then x else m) t.aspectMax
      aspectAvg := t.aspectAvg + (l.map PanelPts.aspect).sum } := by
  induction l generalizing t with
  | nil => simp
  | cons g l ih =>
    rw [List.foldl_cons, ih]
    simp only [Stats.step, List.map_cons, List.foldl_cons, List.sum_cons, Stats.mk.injEq]
    refine ⟨trivial, trivial, by ring, trivial, trivial, by ring⟩

theorem summary_of (l : List ℝ) (hne : l ≠ []) (hb : ∀ x ∈ l, -dblMax ≤ x ∧ x ≤ dblMax)
    (n : ℤ) (hn : n = l.length) :
    IsSummary l (l.foldl (fun m x => if x < m then x else m) dblMax)
      (l.foldl (fun m x => if x > m then x else m) (-dblMax)) ((0 + l.sum) / n) := by
  obtain ⟨x0, hx0⟩ := List.exists_mem_of_ne_nil l hne
  obtain ⟨a1, a2, a3⟩ := foldl_min l dblMax
  obtain ⟨b1, b2, b3⟩ := foldl_max l (-dblMax)
  have hlen : 0 < (l.length : ℝ) := by exact_mod_cast List.length_pos_iff.2 hne
  generalize l.foldl (fun m x => if x < m then x else m) dblMax = mn at *
  generalize l.foldl (fun m x => if x > m then x else m) (-dblMax) = mx at *
  have hmn : mn ∈ l := by
    rcases a1 with h | h
    · have := le_antisymm (hb x0 hx0).2 (h ▸ a3 x0 hx0)
      rw [h, ← this]; exact hx0
    · exact h
  have hmx : mx ∈ l := by
    rcases b1 with h | h
    · have := le_antisymm (h ▸ b3 x0 hx0) (hb x0 hx0).1
      rw [h, ← this]; exact hx0
    · exact h
  have hsum : ∀ (l : List ℝ) (c : ℝ), (∀ x ∈ l, c ≤ x) → c * l.length ≤ l.sum := by
    intro l c
    induction l with
    | nil => simp
    | cons y l ih =>
      intro h
      have := ih fun x hx => h x (List.mem_cons_of_mem _ hx)
      have := h y (by simp)
      simp only [List.length_cons, List.sum_cons]
      push_cast
      linarith
  have hsum' : ∀ (l : List ℝ) (c : ℝ), (∀ x ∈ l, x ≤ c) → l.sum ≤ c * l.length := by
    intro l c
    induction l with
    | nil => simp
    | cons y l ih =>
      intro h
      have := ih fun x hx => h x (List.mem_cons_of_mem _ hx)
      have := h y (by simp)
      simp only [List.length_cons, List.sum_cons]
      push_cast
      linarith
  refine ⟨hmn, hmx, a3, b3, ?_, ?_, ?_⟩
  · rw [hn]; push_cast; field_simp; ring
  · rw [hn]; push_cast; rw [zero_add, le_div_iff₀ hlen]; exact hsum l mn a3
  · rw [hn]; push_cast; rw [zero_add, div_le_iff₀ hlen]; exact hsum' l mx b3

/-- **C18**: for every non-empty lattice the reported extremes are attained and bound all panels,
and the reported average is the arithmetic mean; `num_pan` is the number of panels asked for. -/
theorem C18_statistics (leg : V3 ℝ) (l : List (SubInput ℝ))
    (h : ∀ u ∈ l, 0 ≤ u.panS ∧ 0 ≤ u.panC) (hN : 0 < totalPanels l)
    (hb : ∀ kp ∈ vlmLattice leg l, (-dblMax ≤ kp.2.area ∧ kp.2.area ≤ dblMax) ∧
      (-dblMax ≤ kp.2.aspect ∧ kp.2.aspect ≤ dblMax)) :
    let t := latticeStats leg l (totalPanels l)
    IsSummary ((vlmLattice leg l).map fun kp => kp.2.area) t.areaMin t.areaMax t.areaAvg ∧
    IsSummary ((vlmLattice leg l).map fun kp => kp.2.aspect)
      t.aspectMin t.aspectMax t.aspectAvg := by
  have hlen : totalPanels l = (vlmLattice leg l).length := by
    have := (C12_panels_once leg l h).length_eq
    rw [List.length_map] at this
    rw [this]
    simp only [pyRange, List.length_map, List.length_range, sub_zero]
    omega
  have hne : vlmLattice leg l ≠ [] := by
    intro h0
    rw [h0] at hlen
    simp at hlen
    omega
  simp only [latticeStats, stats_fold, Stats.init, List.map_map, Function.comp_def]
  constructor
  · refine summary_of _ (by simpa using hne) ?_ _ (by simp [hlen])
    intro x hx
    obtain ⟨kp, hkp, rfl⟩ := List.mem_map.1 hx
    exact (hb kp hkp).1
  · refine summary_of _ (by simpa using hne) ?_ _ (by simp [hlen])
    intro x hx
    obtain ⟨kp, hkp, rfl⟩ := List.mem_map.1 hx
    exact (hb kp hkp).2

/-- Non-vacuity: one rectangular subarea with two panels meets the hypotheses. -/
example : let l : List (SubInput ℝ) := [⟨⟨⟨0, 0, 0⟩, ⟨0, 1, 0⟩, ⟨2, 1, 0⟩, ⟨2, 0, 0⟩⟩, 0, 1, 2⟩]
    totalPanels l = 2 ∧ ∀ kp ∈ vlmLattice 0 l, kp.2.area = 1 ∧ kp.2.aspect = 1 := by
  refine ⟨by simp [totalPanels], ?_⟩
  intro kp hkp
  have e : (vlmLattice 0 [(⟨⟨⟨0, 0, 0⟩, ⟨0, 1, 0⟩, ⟨2, 1, 0⟩, ⟨2, 0, 0⟩⟩, 0, 1, 2⟩ :
      SubInput ℝ)]).map Prod.snd = [panelPts (Coef.of ⟨⟨0, 0, 0⟩, ⟨0, 1, 0⟩, ⟨2, 1, 0⟩, ⟨2, 0, 0⟩⟩)
        0 1 2 0 0, panelPts (Coef.of ⟨⟨0, 0, 0⟩, ⟨0, 1, 0⟩, ⟨2, 1, 0⟩, ⟨2, 0, 0⟩⟩) 0 1 2 1 0] := by
    simp [vlmLattice, latticeFrom, passPanels, List.range_succ]
  have hm : kp.2 ∈ (vlmLattice 0 [(⟨⟨⟨0, 0, 0⟩, ⟨0, 1, 0⟩, ⟨2, 1, 0⟩, ⟨2, 0, 0⟩⟩, 0, 1, 2⟩ :
      SubInput ℝ)]).map Prod.snd := List.mem_map.2 ⟨kp, hkp, rfl⟩
  rw [e] at hm
  have hs : ∀ i : ℕ, (panelPts (Coef.of ⟨⟨0, 0, 0⟩, ⟨0, 1, 0⟩, ⟨2, 1, 0⟩, ⟨2, 0, 0⟩⟩)
      (0 : V3 ℝ) 1 2 i 0).spanVec = ⟨0, 1, 0⟩ ∧
      (panelPts (Coef.of ⟨⟨0, 0, 0⟩, ⟨0, 1, 0⟩, ⟨2, 1, 0⟩, ⟨2, 0, 0⟩⟩)
      (0 : V3 ℝ) 1 2 i 0).chordVec = ⟨1, 0, 0⟩ := by
    intro i
    simp only [panelPts, PanelPts.spanVec, PanelPts.chordVec, coef_at_eq]
    constructor <;> ext <;> vsimp <;> norm_num; ring
  have n1 : (⟨0, 1, 0⟩ : V3 ℝ).norm = 1 := by simp [V3.norm]
  have n2 : (⟨1, 0, 0⟩ : V3 ℝ).norm = 1 := by simp [V3.norm]
  simp only [List.mem_cons, List.not_mem_nil, or_false] at hm
  rcases hm with h | h <;> rw [h, PanelPts.area, PanelPts.aspect, (hs _).1, (hs _).2, n1, n2] <;>
    norm_num

/-! ## C40 -/

theorem cross_reflect2 (u v : V3 ℝ) :
    (reflect (symNormal 2) u).cross (reflect (symNormal 2) v) =
      -reflect (symNormal 2) (u.cross v) := by
  simp only [reflect, symNormal]
  ext <;> norm_num <;> vsimp <;> ring

theorem norm_reflect2 (u : V3 ℝ) : (reflect (symNormal 2) u).norm = u.norm := by
  unfold V3.norm reflect symNormal
  congr 1
  norm_num
  vsimp
  ring

/-- **C40**: from mirrored corners (as delivered for symmetry 2) the generator makes the mirror
images of the panels, in reversed spanwise order: corners, bound vortex (ends exchanged), its
midpoint, collocation point, normal, area and aspect ratio; the trailing vortices too if the free
stream has no sideward component. -/
theorem C40_mirrored_lattice (pts : Corners (V3 ℝ)) (leg : V3 ℝ) (nS nC i j : ℕ) (hj : j < nS) :
    let M := reflect (symNormal 2 : V3 ℝ)
    let g := panelPts (Coef.of pts) leg nS nC i j
    let g' := panelPts (Coef.of ⟨M pts.b, M pts.a, M pts.d, M pts.c⟩) leg nS nC i (nS - 1 - j)
    g'.p = M g.q ∧ g'.q = M g.p ∧ g'.r = M g.s ∧ g'.s = M g.r ∧
    g'.v2 = M g.v3 ∧ g'.v3 = M g.v2 ∧ g'.mid = M g.mid ∧ g'.col = M g.col ∧
    g'.normal = M g.normal ∧ g'.area = g.area ∧ g'.aspect = g.aspect ∧
    (leg.y = 0 → g'.v1 = M g.v4 ∧ g'.v4 = M g.v1) := by
  intro M g g'
  have hcast : (((nS - 1 - j : ℕ)) : ℝ) = nS - 1 - j := by
    have : nS = (nS - 1 - j) + j + 1 := by omega
    have h : (nS : ℝ) = ((nS - 1 - j : ℕ) : ℝ) + j + 1 := by exact_mod_cast this
    linarith
  have hS : (nS : ℝ) ≠ 0 := by
    have : nS ≠ 0 := by omega
    exact_mod_cast this
  have e1 : (1 / ((nS : ℤ) : ℝ)) * ((nS - 1 - j : ℕ) : ℝ) = 1 - (1 / ((nS : ℤ) : ℝ)) * (j + 1) := by
    rw [hcast]; push_cast; field_simp; ring
  have e2 : (1 / ((nS : ℤ) : ℝ)) * (((nS - 1 - j : ℕ) : ℝ) + 1) = 1 - (1 / ((nS : ℤ) : ℝ)) * j := by
    rw [hcast]; push_cast; field_simp; ring
  have hat : ∀ s c : ℝ, (Coef.of (⟨M pts.b, M pts.a, M pts.d, M pts.c⟩ : Corners (V3 ℝ))).at
      (1 - s) c = M ((Coef.of pts).at s c) := by
    intro s c
    simp only [Coef.of, Coef.at, M, reflect]
    generalize (symNormal 2 : V3 ℝ) = n
    ext <;> vsimp <;> ring
  have hlin : ∀ (a b : ℝ) (u v : V3 ℝ), M (a • u + b • v) = a • M u + b • M v := by
    intro a b u v
    simp only [M, reflect]
    ext <;> vsimp <;> ring
  have hp : g'.p = M g.q := by simp only [g', g, panelPts, e1, hat]
  have hq : g'.q = M g.p := by simp only [g', g, panelPts, e2, hat]
  have hr : g'.r = M g.s := by simp only [g', g, panelPts, e2, hat]
  have hs : g'.s = M g.r := by simp only [g', g, panelPts, e1, hat]
  have hv2 : g'.v2 = M g.v3 := by
    have a : g'.v2 = (3 / 4 : ℝ) • g'.p + (1 / 4 : ℝ) • g'.s := rfl
    have b : g.v3 = (3 / 4 : ℝ) • g.q + (1 / 4 : ℝ) • g.r := rfl
    rw [a, b, hlin, hp, hs]
  have hv3 : g'.v3 = M g.v2 := by
    have a : g'.v3 = (3 / 4 : ℝ) • g'.q + (1 / 4 : ℝ) • g'.r := rfl
    have b : g.v2 = (3 / 4 : ℝ) • g.p + (1 / 4 : ℝ) • g.s := rfl
    rw [a, b, hlin, hq, hr]
  have hcol : g'.col = M g.col := by
    have a : g'.col = (1 / 8 : ℝ) • (g'.p + g'.q) + (3 / 8 : ℝ) • (g'.r + g'.s) := rfl
    have b : g.col = (1 / 8 : ℝ) • (g.p + g.q) + (3 / 8 : ℝ) • (g.r + g.s) := rfl
    rw [a, b, hp, hq, hr, hs]
    simp only [M, reflect]
    ext <;> vsimp <;> ring
  have hcross : g'.crossVec = M g.crossVec := by
    have a : g.col = (1 / 8 : ℝ) • (g.p + g.q) + (3 / 8 : ℝ) • (g.r + g.s) := rfl
    unfold PanelPts.crossVec
    rw [hcol, hp, hq, hr, a]
    simp only [M, reflect, symNormal]
    norm_num
    ext <;> vsimp <;> ring
  have hspan : g'.spanVec = (-1 : ℝ) • M g.spanVec := by
    unfold PanelPts.spanVec
    rw [hp, hq, hr, hs]
    simp only [M, reflect]
    ext <;> vsimp <;> ring
  have hchord : g'.chordVec = M g.chordVec := by
    unfold PanelPts.chordVec
    rw [hp, hq, hr, hs]
    simp only [M, reflect]
    ext <;> vsimp <;> ring
  have nspan : g'.spanVec.norm = g.spanVec.norm := by
    rw [hspan, norm_smul, norm_reflect2]; norm_num
  have nchord : g'.chordVec.norm = g.chordVec.norm := by
    rw [hchord, norm_reflect2]
  refine ⟨hp, hq, hr, hs, hv2, hv3, ?_, hcol, ?_, ?_, ?_, ?_⟩
  · have a : g'.mid = (1 / 2 : ℝ) • (g'.v2 + g'.v3) := rfl
    have b : g.mid = (1 / 2 : ℝ) • (g.v2 + g.v3) := rfl
    rw [a, b, hv2, hv3]
    simp only [M, reflect]
    ext <;> vsimp <;> ring
  · rw [PanelPts.normal, PanelPts.normal, hcross, norm_reflect2]
    simp only [M, reflect]
    ext <;> vsimp <;> ring
  · rw [PanelPts.area, PanelPts.area, nspan, nchord]
  · rw [PanelPts.aspect, PanelPts.aspect, nspan, nchord]
  · intro hleg
    have a1 : g'.v1 = g'.v2 + leg := rfl
    have a4 : g'.v4 = g'.v3 + leg := rfl
    have b1 : g.v1 = g.v2 + leg := rfl
    have b4 : g.v4 = g.v3 + leg := rfl
    rw [a1, a4, b1, b4, hv2, hv3]
    simp only [M, reflect, symNormal]
    constructor <;> ext <;> norm_num <;> vsimp <;> rw [hleg] <;> ring

/-- The mirrored corners in C40 are those which the Python side delivers for symmetry 2. -/
theorem C40_corners_delivered (g : GeoEnv ℝ) (h : g.symmetry = 2) (hd : g.SymmetricDef)
    (s : Strip ℝ) (q : Quad ℝ) :
    ∃ v, subareaVertices g s q false = .ok v ∧ subareaVertices g s q true = .ok
      ⟨reflect (symNormal 2) v.b, reflect (symNormal 2) v.a,
       reflect (symNormal 2) v.d, reflect (symNormal 2) v.c⟩ := by
  obtain ⟨h0, -, h1, -⟩ := subareaVertices_mirror g (.inr (.inl h)) hd s q
  refine ⟨_, h0, ?_⟩
  rw [h1 h, h]

/-- Non-vacuity: panel 1 of 2 of the mirrored wing is panel 0 of the original. -/
example : (panelPts (Coef.of ⟨⟨1, -4, 1⟩, ⟨0, 0, 0⟩, ⟨2, 0, 0⟩, ⟨2, -4, 1⟩⟩ : Coef ℚ) 0 2 1 0 1).col =
      ⟨25/16, -1, 1/4⟩ ∧
    (panelPts (Coef.of (taperedSeg (K := ℚ))) 0 2 1 0 0).col = ⟨25/16, 1, 1/4⟩ := by
  decide +kernel

/-! ## C66 -/

/-- **C66**: the mirrored pass inside the native generator (symmetry flags 1, 2, 3) makes the same
panels as a pass over the corners which the Python side would deliver for the mirrored half of the
subarea. -/
theorem C66_native_mirror {K : Type*} [Field K] (pts : Corners (V3 K)) (leg : V3 K) (k : ℕ)
    (hk : SymFlag k) (start panS panC : ℤ) :
    ∃ w, mirrorVertices pts k = .ok w ∧
      passPanels (Coef.mirrored k pts) leg start panS panC =
        passPanels (Coef.of w) leg start panS panC := by
  rcases hk with rfl | rfl | rfl <;>
  · simp only [mirrorVertices, Corners.mapE, mirrorPoint, orderMirrored]
    norm_num
    congr 1
    simp only [Coef.mirrored, cReorder, Coef.of, cNegate]
    norm_num
    refine ⟨?_, ?_, ?_⟩ <;> ext <;> vsimp <;> ring

/-- **C66** for a whole table: replacing a row with a symmetry flag by two rows without flag, the
second one with the mirrored corners, gives the same panels with the same numbers. -/
theorem C66_native_mirror_table {K : Type*} [Field K] (l1 l2 : List (SubInput K))
    (pts : Corners (V3 K)) (leg : V3 K) (k : ℕ) (hk : SymFlag k) (panS panC : ℤ) :
    ∃ w, mirrorVertices pts k = .ok w ∧
      vlmLattice leg (l1 ++ ⟨pts, k, panS, panC⟩ :: l2) =
        vlmLattice leg (l1 ++ ⟨pts, 0, panS, panC⟩ :: ⟨w, 0, panS, panC⟩ :: l2) := by
  have hw : ∃ w, mirrorVertices pts k = .ok w := by
    obtain ⟨w, h, -⟩ := C66_native_mirror pts leg k hk 0 0 0
    exact ⟨w, h⟩
  obtain ⟨w, hw⟩ := hw
  refine ⟨w, hw, ?_⟩
  have hpos : ((k : ℤ)) > 0 := by rcases hk with rfl | rfl | rfl <;> norm_num
  suffices h : ∀ start, latticeFrom leg start (l1 ++ ⟨pts, k, panS, panC⟩ :: l2) =
      latticeFrom leg start (l1 ++ ⟨pts, 0, panS, panC⟩ :: ⟨w, 0, panS, panC⟩ :: l2) from h 0
  intro start
  induction l1 generalizing start with
  | nil =>
    obtain ⟨w', h', e⟩ := C66_native_mirror pts leg k hk (start + panS * panC) panS panC
    rw [hw] at h'
    cases h'
    simp only [List.nil_append, latticeFrom, if_pos hpos]
    rw [e]
    simp
  | cons u l1 ih =>
    simp only [List.cons_append, latticeFrom]
    split_ifs <;> simp only [ih]

/-- Non-vacuity: mirrored pass of a tapered segment. -/
example : mirrorVertices (taperedSeg (K := ℚ)) 2 =
    .ok ⟨⟨1, -4, 1⟩, ⟨0, 0, 0⟩, ⟨2, 0, 0⟩, ⟨2, -4, 1⟩⟩ := by decide +kernel

end Verif
