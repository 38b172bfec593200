import Verif.Lemmas.Control
import Mathlib.Logic.Function.Basic

/-! Helper lemmas for C88–C90: edge and hinge positions of the devices on a segment. -/

set_option linter.unusedSectionVars false

namespace Verif
variable {K : Type*} [Field K] [LinearOrder K]

/-- The strip carries a device of control `c` whose edge towards the main area is at the relative
chord position `y1` on the inner and `y2` on the outer border of the strip; its hinge line runs
from `g1` to `g2`. -/
def Strip.EdgeAt (s : Strip K) (c : Control) (y1 y2 g1 g2 : K) : Prop :=
  (∃ f, s.slat = some f ∧ f.ctrl = c ∧ f.xsiD = y1 ∧ f.xsiC = y2 ∧ f.h1 = g1 ∧ f.h2 = g2) ∨
  (∃ f, s.flap = some f ∧ f.ctrl = c ∧ f.xsiA = y1 ∧ f.xsiB = y2 ∧ f.h1 = g1 ∧ f.h2 = g2)

theorem Strip.carries_iff_edge (s : Strip K) (c : Control) :
    s.carries c ↔ ∃ y1 y2 g1 g2, s.EdgeAt c y1 y2 g1 g2 := by
  constructor
  · rintro (⟨f, h1, h2⟩ | ⟨f, h1, h2⟩)
    · exact ⟨_, _, _, _, Or.inl ⟨f, h1, h2, rfl, rfl, rfl, rfl⟩⟩
    · exact ⟨_, _, _, _, Or.inr ⟨f, h1, h2, rfl, rfl, rfl, rfl⟩⟩
  · rintro ⟨_, _, _, _, ⟨f, h1, h2, -⟩ | ⟨f, h1, h2, -⟩⟩
    · exact Or.inl ⟨f, h1, h2⟩
    · exact Or.inr ⟨f, h1, h2⟩

theorem ChordInv.edge_range {s : Strip K} (h : ChordInv s) {c : Control} {y1 y2 g1 g2 : K}
    (he : s.EdgeAt c y1 y2 g1 g2) :
    (0 < y1 ∧ y1 < 1 ∧ 0 < y2 ∧ y2 < 1) ∧ (0 ≤ g1 ∧ g1 ≤ 1 ∧ 0 ≤ g2 ∧ g2 ≤ 1) := by
  rcases he with ⟨f, h1, -, rfl, rfl, rfl, rfl⟩ | ⟨f, h1, -, rfl, rfl, rfl, rfl⟩
  · have := h.slat_some f h1
    exact ⟨this.2.2.2.2.2.1, this.2.2.2.2.2.2⟩
  · have := h.flap_some f h1
    exact ⟨this.2.2.2.2.2.1, this.2.2.2.2.2.2⟩

theorem ChordInv.edge_unique {s : Strip K} (h : ChordInv s) {c : Control}
    {y1 y2 g1 g2 z1 z2 k1 k2 : K} (he : s.EdgeAt c y1 y2 g1 g2) (hk : s.EdgeAt c z1 z2 k1 k2) :
    y1 = z1 ∧ y2 = z2 ∧ g1 = k1 ∧ g2 = k2 := by
  rcases he with ⟨f, h1, h2, rfl, rfl, rfl, rfl⟩ | ⟨f, h1, h2, rfl, rfl, rfl, rfl⟩ <;>
  rcases hk with ⟨f', h1', h2', rfl, rfl, rfl, rfl⟩ | ⟨f', h1', h2', rfl, rfl, rfl, rfl⟩
  · rw [h1] at h1'; cases h1'; simp
  · have a := (h.slat_some f h1).2.2.2.2.1
    have b := (h.flap_some f' h1').2.2.2.2.1
    rw [h2] at a; rw [h2', a] at b; simp at b
  · have a := (h.flap_some f h1).2.2.2.2.1
    have b := (h.slat_some f' h1').2.2.2.2.1
    rw [h2] at a; rw [h2', a] at b; simp at b
  · rw [h1] at h1'; cases h1'; simp

theorem addSubarea_edge {s s' : Strip K} {c d : Control} {x1 x2 : K} {h1 h2 : Option K}
    (h : s.addSubarea c x1 x2 h1 h2 = .ok s') {y1 y2 g1 g2 : K} :
    s'.EdgeAt d y1 y2 g1 g2 ↔
      (d = c ∧ y1 = x1 ∧ y2 = x2 ∧ g1 = h1.getD x1 ∧ g2 = h2.getD x2) ∨
        s.EdgeAt d y1 y2 g1 g2 := by
  obtain ⟨-, -, -, ⟨-, hn, rfl⟩ | ⟨-, hn, rfl⟩⟩ := addSubarea_ok h <;>
  simp only [Strip.EdgeAt, hn, Option.some.injEq, exists_eq_left', Quad.init]
  · constructor
    · rintro (⟨rfl, rfl, rfl, rfl, rfl⟩ | h)
      · left; simp
      · right; right; exact h
    · rintro (⟨rfl, rfl, rfl, rfl, rfl⟩ | ⟨f, h, -⟩ | h)
      · left; simp
      · simp at h
      · right; exact h
  · constructor
    · rintro (h | ⟨rfl, rfl, rfl, rfl, rfl⟩)
      · right; left; exact h
      · left; simp
    · rintro (⟨rfl, rfl, rfl, rfl, rfl⟩ | h | ⟨f, h, -⟩)
      · right; simp
      · left; exact h
      · simp at h

/-- what a successful inheritance does to the devices of a control -/
structure Inherits (interp : Interp K) (eA eB eta : K) (prev p n : Strip K) : Prop where
  left : ∀ {c : Control} {z1 z2 k1 k2 : K}, p.EdgeAt c z1 z2 k1 k2 →
    ∃ y2 g2, prev.EdgeAt c z1 y2 k1 g2 ∧ z2 = interp (eA, z1) (eB, y2) eta ∧
      k2 = interp (eA, k1) (eB, g2) eta
  right : ∀ {c : Control} {z1 z2 k1 k2 : K}, n.EdgeAt c z1 z2 k1 k2 →
    ∃ y1 g1, prev.EdgeAt c y1 z2 g1 k2 ∧ z1 = interp (eA, y1) (eB, z2) eta ∧
      k1 = interp (eA, g1) (eB, k2) eta
  keep : ∀ {c : Control}, prev.carries c → p.carries c ∧ n.carries c

theorem inheritDevices_edge {interp : Interp K} {eA eB eta : K} {prev new p n : Strip K}
    (hc : ChordInv prev) (hn : new.slat = none ∧ new.flap = none)
    (h : inheritDevices interp eA eB eta prev new = (.ok (), p, n)) :
    Inherits interp eA eB eta prev p n := by
  rcases inheritDevices_cases interp eA eB eta prev new with ⟨e, he⟩ | ⟨p', n', h1, h2⟩
  · rw [h] at he; simp at he
  rw [h] at h2
  have hnew : ∀ {c : Control} {y1 y2 g1 g2 : K}, ¬ new.EdgeAt c y1 y2 g1 g2 := by
    rintro c y1 y2 g1 g2 (⟨f, h, -⟩ | ⟨f, h, -⟩)
    · rw [hn.1] at h; simp at h
    · rw [hn.2] at h; simp at h
  -- the two parts
  have hflap : (prev.flap = none ∧ p' = prev ∧ n' = new) ∨ ∃ f, prev.flap = some f ∧
      new.addSubarea f.ctrl (interp (eA, f.xsiA) (eB, f.xsiB) eta) f.xsiB
        (some (interp (eA, f.h1) (eB, f.h2) eta)) (some f.h2) = .ok n' ∧
      p' = prev.updateFlap f.xsiA (interp (eA, f.xsiA) (eB, f.xsiB) eta) f.h1
          (interp (eA, f.h1) (eB, f.h2) eta) := by
    unfold inheritFlap at h1
    cases hf : prev.flap with
    | none => simp only [hf, Prod.mk.injEq, true_and] at h1; exact Or.inl ⟨rfl, h1.1.symm, h1.2.symm⟩
    | some f =>
      simp only [hf] at h1
      split at h1
      · simp at h1
      · rename_i n1 ha
        simp only [Prod.mk.injEq, true_and] at h1
        obtain ⟨rfl, rfl⟩ := h1
        exact Or.inr ⟨f, rfl, ha, rfl⟩
  have hslat : (p'.slat = none ∧ p = p' ∧ n = n') ∨ ∃ f, p'.slat = some f ∧
      n'.addSubarea f.ctrl (interp (eA, f.xsiD) (eB, f.xsiC) eta) f.xsiC
        (some (interp (eA, f.h1) (eB, f.h2) eta)) (some f.h2) = .ok n ∧
      p = p'.updateSlat f.xsiD (interp (eA, f.xsiD) (eB, f.xsiC) eta) f.h1
          (interp (eA, f.h1) (eB, f.h2) eta) := by
    unfold inheritSlat at h2
    cases hf : p'.slat with
    | none => simp only [hf, Prod.mk.injEq, true_and] at h2; exact Or.inl ⟨rfl, h2.1, h2.2⟩
    | some f =>
      simp only [hf] at h2
      split at h2
      · simp at h2
      · rename_i n1 ha
        simp only [Prod.mk.injEq, true_and] at h2
        obtain ⟨rfl, rfl⟩ := h2
        exact Or.inr ⟨f, rfl, ha, rfl⟩
  have hps : p'.slat = prev.slat := by
    rcases hflap with ⟨-, rfl, -⟩ | ⟨f, -, -, rfl⟩
    · rfl
    · simp [Strip.updateFlap]
  have hpf : p.flap = p'.flap := by
    rcases hslat with ⟨-, rfl, -⟩ | ⟨f, -, -, rfl⟩
    · rfl
    · simp [Strip.updateSlat]
  -- edges of the new strip
  have hnedge : ∀ {c : Control} {z1 z2 k1 k2 : K}, n.EdgeAt c z1 z2 k1 k2 ↔
      (∃ f, prev.slat = some f ∧ c = f.ctrl ∧ z1 = interp (eA, f.xsiD) (eB, f.xsiC) eta ∧
        z2 = f.xsiC ∧ k1 = interp (eA, f.h1) (eB, f.h2) eta ∧ k2 = f.h2) ∨
      (∃ f, prev.flap = some f ∧ c = f.ctrl ∧ z1 = interp (eA, f.xsiA) (eB, f.xsiB) eta ∧
        z2 = f.xsiB ∧ k1 = interp (eA, f.h1) (eB, f.h2) eta ∧ k2 = f.h2) := by
    intro c z1 z2 k1 k2
    have hn' : n'.EdgeAt c z1 z2 k1 k2 ↔
      (∃ f, prev.flap = some f ∧ c = f.ctrl ∧ z1 = interp (eA, f.xsiA) (eB, f.xsiB) eta ∧
        z2 = f.xsiB ∧ k1 = interp (eA, f.h1) (eB, f.h2) eta ∧ k2 = f.h2) := by
      rcases hflap with ⟨e0, -, rfl⟩ | ⟨f, hf, ha, -⟩
      · simp [e0, hnew]
      · rw [addSubarea_edge ha]
        simp [hf, hnew]
    rcases hslat with ⟨e0, -, rfl⟩ | ⟨f, hf, ha, -⟩
    · rw [hn', ← hps]; simp [e0]
    · rw [addSubarea_edge ha, hn', ← hps]
      simp [hf]
  have hpedge : ∀ {c : Control} {z1 z2 k1 k2 : K}, p.EdgeAt c z1 z2 k1 k2 ↔
      (∃ f, prev.slat = some f ∧ f.ctrl = c ∧ f.xsiD = z1 ∧
        interp (eA, f.xsiD) (eB, f.xsiC) eta = z2 ∧ f.h1 = k1 ∧
        interp (eA, f.h1) (eB, f.h2) eta = k2) ∨
      (∃ f, prev.flap = some f ∧ f.ctrl = c ∧ f.xsiA = z1 ∧
        interp (eA, f.xsiA) (eB, f.xsiB) eta = z2 ∧ f.h1 = k1 ∧
        interp (eA, f.h1) (eB, f.h2) eta = k2) := by
    intro c z1 z2 k1 k2
    unfold Strip.EdgeAt
    refine or_congr ?_ ?_
    · rcases hslat with ⟨e0, rfl, -⟩ | ⟨f, hf, -, rfl⟩
      · rw [e0, ← hps, e0]; simp
      · rw [← hps]; simp [Strip.updateSlat, hf]
    · rw [hpf]
      rcases hflap with ⟨e0, rfl, -⟩ | ⟨f, hf, -, rfl⟩
      · simp [e0]
      · simp [Strip.updateFlap, hf]
  refine ⟨?_, ?_, ?_⟩
  · intro c z1 z2 k1 k2 hp
    rcases hpedge.1 hp with ⟨f, hf, rfl, rfl, rfl, rfl, rfl⟩ | ⟨f, hf, rfl, rfl, rfl, rfl, rfl⟩
    · exact ⟨_, _, Or.inl ⟨f, hf, rfl, rfl, rfl, rfl, rfl⟩, rfl, rfl⟩
    · exact ⟨_, _, Or.inr ⟨f, hf, rfl, rfl, rfl, rfl, rfl⟩, rfl, rfl⟩
  · intro c z1 z2 k1 k2 hp
    rcases hnedge.1 hp with ⟨f, hf, rfl, rfl, rfl, rfl, rfl⟩ | ⟨f, hf, rfl, rfl, rfl, rfl, rfl⟩
    · exact ⟨_, _, Or.inl ⟨f, hf, rfl, rfl, rfl, rfl, rfl⟩, rfl, rfl⟩
    · exact ⟨_, _, Or.inr ⟨f, hf, rfl, rfl, rfl, rfl, rfl⟩, rfl, rfl⟩
  · intro c hcar
    simp only [Strip.carries_iff_edge, hpedge, hnedge]
    rcases hcar with ⟨f, hf, rfl⟩ | ⟨f, hf, rfl⟩
    · exact ⟨⟨_, _, _, _, Or.inl ⟨f, hf, rfl, rfl, rfl, rfl, rfl⟩⟩,
        ⟨_, _, _, _, Or.inl ⟨f, hf, rfl, rfl, rfl, rfl, rfl⟩⟩⟩
    · exact ⟨⟨_, _, _, _, Or.inr ⟨f, hf, rfl, rfl, rfl, rfl, rfl⟩⟩,
        ⟨_, _, _, _, Or.inr ⟨f, hf, rfl, rfl, rfl, rfl, rfl⟩⟩⟩

theorem Strip.edge_eta {s : Strip K} {b d : K} {c : Control} {y1 y2 g1 g2 : K} :
    ({ s with etaB := b, etaC := d } : Strip K).EdgeAt c y1 y2 g1 g2 ↔ s.EdgeAt c y1 y2 g1 g2 :=
  Iff.rfl

theorem mem_set_append_cases {α : Type*} {l : List α} {i : ℕ} {p n s : α}
    (hs : s ∈ l.set i p ++ [n]) : s = p ∨ s = n ∨ ∃ j, j ≠ i ∧ l[j]? = some s := by
  rw [List.mem_append, List.mem_singleton] at hs
  rcases hs with hs | rfl
  · obtain ⟨j, hj⟩ := List.mem_iff_getElem?.1 hs
    by_cases hji : j = i
    · subst hji
      rw [List.getElem?_set] at hj
      simp only [if_true] at hj
      split_ifs at hj
      simp only [Option.some.injEq] at hj
      exact Or.inl hj.symm
    · rw [List.getElem?_set_ne (Ne.symm hji)] at hj
      exact Or.inr (Or.inr ⟨j, hji, hj⟩)
  · exact Or.inr (Or.inl rfl)

/-! ### The invariant after a control has been placed -/

/-- Positions on a segment that belong to a family of straight lines, abstractly: closed under the
interpolation of the segment. -/
def InterpClosed (interp : Interp K) (L : K → K → Prop) : Prop :=
  ∀ e1 x1 e2 x2 e, 0 ≤ e1 → e1 < e → e < e2 → e2 ≤ 1 → 0 ≤ x1 → x1 ≤ 1 → 0 ≤ x2 → x2 ≤ 1 →
    L e1 x1 → L e2 x2 → L e (interp (e1, x1) (e2, x2) e)

/-- edge positions are a function of the spanwise coordinate -/
def EdgeFun (c : Control) (E H : K → K) (sds : List (Strip K)) : Prop :=
  ∀ s ∈ sds, ∀ y1 y2 g1 g2, s.EdgeAt c y1 y2 g1 g2 →
    y1 = E s.etaA ∧ y2 = E s.etaB ∧ g1 = H s.etaA ∧ g2 = H s.etaB

def EdgeLine (c : Control) (L LH : K → K → Prop) (sds : List (Strip K)) : Prop :=
  ∀ s ∈ sds, ∀ y1 y2 g1 g2, s.EdgeAt c y1 y2 g1 g2 →
    L s.etaA y1 ∧ L s.etaB y2 ∧ LH s.etaA g1 ∧ LH s.etaB g2

/-- a segment on which control `c` covers `[a, b)` with the given edge and hinge ends -/
structure Placed (c : Control) (a b x1 x2 h1 h2 : K) (L LH : K → K → Prop)
    (sds : List (Strip K)) : Prop where
  tile : TileInv sds
  chord : ∀ s ∈ sds, ChordInv s
  cov : Covers sds c a b
  edge : ∃ E H : K → K, E a = x1 ∧ E b = x2 ∧ H a = h1 ∧ H b = h2 ∧ EdgeFun c E H sds
  line : EdgeLine c L LH sds

theorem placed_closedOk [IsStrictOrderedRing K] {interp : Interp K} {c : Control}
    {a b x1 x2 h1 h2 : K} {L LH : K → K → Prop} (hL : InterpClosed interp L)
    (hLH : InterpClosed interp LH) :
    ClosedOk interp (fun d => d ≠ c) (Placed c a b x1 x2 h1 h2 L LH) where
  split := by
    intro sds idx prev p n e d hT hidx h0 h1' hA hB hm hi
    have hmem := List.mem_of_getElem? hidx
    have hpc := hT.chord prev hmem
    have hin := hT.tile.inside hmem
    have hinh := inheritDevices_edge (hpc.eta e d) (by simp [Strip.init]) hi
    obtain ⟨⟨pA, pB, -⟩, nA, nB, -⟩ := inheritDevices_eta hi
    simp only [Strip.init] at nA nB pA pB
    have hcarp : p.carries c ↔ prev.carries c := by
      refine ⟨fun h => ?_, fun h => (hinh.keep (c := c) h).1⟩
      obtain ⟨z1, z2, k1, k2, hz⟩ := (Strip.carries_iff_edge _ _).1 h
      obtain ⟨y2, g2, hy, -⟩ := hinh.left hz
      exact (Strip.carries_iff_edge _ _).2 ⟨_, _, _, _, hy⟩
    have hcarn : n.carries c ↔ prev.carries c := by
      refine ⟨fun h => ?_, fun h => (hinh.keep (c := c) h).2⟩
      obtain ⟨z1, z2, k1, k2, hz⟩ := (Strip.carries_iff_edge _ _).1 h
      obtain ⟨y2, g2, hy, -⟩ := hinh.right hz
      exact (Strip.carries_iff_edge _ _).2 ⟨_, _, _, _, hy⟩
    obtain ⟨hc1, hc2⟩ := (hpc.eta e d).inheritDevices (ChordInv.init _ _ _ _) hi
    refine ⟨(tileInv_closed interp).split hT.tile trivial hidx h0 h1' hA hB hm hi,
      mem_set_append hT.chord hc1 hc2, ?_, ?_, ?_⟩
    · refine mem_set_append hT.cov ?_ ?_
      · intro x hx1 hx2
        rw [pA] at hx1
        rw [pB] at hx2
        rw [hcarp]
        exact hT.cov prev hmem x hx1 (hx2.trans hB)
      · intro x hx1 hx2
        rw [nA] at hx1
        rw [nB] at hx2
        rw [hcarn]
        exact hT.cov prev hmem x (hA.le.trans hx1) hx2
    · obtain ⟨E, H, Ea, Eb, Ha, Hb, hE⟩ := hT.edge
      by_cases hcar : prev.carries c
      · obtain ⟨y1, y2, g1, g2, hy⟩ := (Strip.carries_iff_edge _ _).1 hcar
        obtain ⟨v1, v2, v3, v4⟩ := hE prev hmem _ _ _ _ hy
        have hab := (hT.cov prev hmem e hA.le hB).1 hcar
        have ha := (hT.cov prev hmem prev.etaA le_rfl hin.2.1).1 hcar
        have hae : a ≠ e := ne_of_lt (lt_of_le_of_lt ha.1 hA)
        have hbe : b ≠ e := ne_of_gt hab.2
        refine ⟨Function.update E e (interp (prev.etaA, y1) (prev.etaB, y2) e),
          Function.update H e (interp (prev.etaA, g1) (prev.etaB, g2) e), ?_, ?_, ?_, ?_, ?_⟩
        · rw [Function.update_of_ne hae, Ea]
        · rw [Function.update_of_ne hbe, Eb]
        · rw [Function.update_of_ne hae, Ha]
        · rw [Function.update_of_ne hbe, Hb]
        · intro s hs z1 z2 k1 k2 hz
          rcases mem_set_append_cases hs with rfl | rfl | ⟨j, hj, hjs⟩
          · obtain ⟨y2', g2', hy', rfl, rfl⟩ := hinh.left hz
            obtain ⟨rfl, rfl, rfl, rfl⟩ := hpc.edge_unique hy hy'
            rw [pA, pB, Function.update_of_ne hA.ne, Function.update_of_ne hA.ne,
              Function.update_self, Function.update_self]
            exact ⟨v1, rfl, v3, rfl⟩
          · obtain ⟨y2', g2', hy', rfl, rfl⟩ := hinh.right hz
            obtain ⟨rfl, rfl, rfl, rfl⟩ := hpc.edge_unique hy hy'
            rw [nA, nB, Function.update_of_ne hB.ne', Function.update_of_ne hB.ne',
              Function.update_self, Function.update_self]
            exact ⟨rfl, v2, rfl, v4⟩
          · have hsm := List.mem_of_getElem? hjs
            have hsi := hT.tile.inside hsm
            have hne1 : s.etaA ≠ e := by
              rintro rfl
              exact hj (hT.tile.index_unique hjs hidx ⟨le_rfl, hsi.2.1⟩ ⟨hA.le, hB⟩)
            have hne2 : s.etaB ≠ e := by
              intro he
              exact hj (hT.tile.index_unique hjs hidx (x := max s.etaA prev.etaA)
                ⟨le_max_left _ _, max_lt hsi.2.1 (he ▸ hA)⟩
                ⟨le_max_right _ _, max_lt ((he ▸ hsi.2.1).trans hB) hin.2.1⟩)
            rw [Function.update_of_ne hne1, Function.update_of_ne hne1,
              Function.update_of_ne hne2, Function.update_of_ne hne2]
            exact hE s hsm _ _ _ _ hz
      · refine ⟨E, H, Ea, Eb, Ha, Hb, ?_⟩
        intro s hs z1 z2 k1 k2 hz
        rcases mem_set_append_cases hs with rfl | rfl | ⟨j, hj, hjs⟩
        · exact absurd (hcarp.1 ((Strip.carries_iff_edge _ _).2 ⟨_, _, _, _, hz⟩)) hcar
        · exact absurd (hcarn.1 ((Strip.carries_iff_edge _ _).2 ⟨_, _, _, _, hz⟩)) hcar
        · exact hE s (List.mem_of_getElem? hjs) _ _ _ _ hz
    · refine mem_set_append hT.line ?_ ?_
      · intro z1 z2 k1 k2 hz
        obtain ⟨y2, g2, hy, rfl, rfl⟩ := hinh.left hz
        obtain ⟨l1, l2, l3, l4⟩ := hT.line prev hmem _ _ _ _ hy
        obtain ⟨⟨r1, r2, r3, r4⟩, q1, q2, q3, q4⟩ := hpc.edge_range hy
        rw [pA, pB]
        exact ⟨l1, hL _ _ _ _ _ hin.1 hA hB hin.2.2 r1.le r2.le r3.le r4.le l1 l2, l3,
          hLH _ _ _ _ _ hin.1 hA hB hin.2.2 q1 q2 q3 q4 l3 l4⟩
      · intro z1 z2 k1 k2 hz
        obtain ⟨y2, g2, hy, rfl, rfl⟩ := hinh.right hz
        obtain ⟨l1, l2, l3, l4⟩ := hT.line prev hmem _ _ _ _ hy
        obtain ⟨⟨r1, r2, r3, r4⟩, q1, q2, q3, q4⟩ := hpc.edge_range hy
        rw [nA, nB]
        exact ⟨hL _ _ _ _ _ hin.1 hA hB hin.2.2 r1.le r2.le r3.le r4.le l1 l2, l2,
          hLH _ _ _ _ _ hin.1 hA hB hin.2.2 q1 q2 q3 q4 l3 l4, l4⟩
  add := by
    intro sds idx s s' d y1 y2 g1 g2 hd hT hidx ha
    have hmem := List.mem_of_getElem? hidx
    obtain ⟨eA, eB, -⟩ := addSubarea_eta ha
    have hedge : ∀ {z1 z2 k1 k2 : K}, s'.EdgeAt c z1 z2 k1 k2 → s.EdgeAt c z1 z2 k1 k2 := by
      intro z1 z2 k1 k2 hz
      rcases (addSubarea_edge ha).1 hz with ⟨h, -⟩ | h
      · exact absurd h.symm hd
      · exact h
    refine ⟨(tileInv_closed interp).add hT.tile hidx ha,
      mem_set_P hT.chord ((hT.chord s hmem).addSubarea ha), ?_, ?_, ?_⟩
    · refine mem_set_P hT.cov ?_
      intro x hx1 hx2
      rw [addSubarea_carries ha]
      rw [eA] at hx1
      rw [eB] at hx2
      have := hT.cov s hmem x hx1 hx2
      rw [← this]
      constructor
      · rintro (h | h)
        · exact absurd h.symm hd
        · exact h
      · exact Or.inr
    · obtain ⟨E, H, Ea, Eb, Ha, Hb, hE⟩ := hT.edge
      refine ⟨E, H, Ea, Eb, Ha, Hb, mem_set_P hE ?_⟩
      intro z1 z2 k1 k2 hz
      rw [eA, eB]
      exact hE s hmem _ _ _ _ (hedge hz)
    · refine mem_set_P hT.line ?_
      intro z1 z2 k1 k2 hz
      rw [eA, eB]
      exact hT.line s hmem _ _ _ _ (hedge hz)

/-! ### Placing the control -/

theorem addRows_edge {c : Control} {rows : List (Row K)} {sds sds' : List (Strip K)}
    (h : addRows c rows sds = (.ok (), sds')) {j : ℕ} {s' : Strip K} (hj : sds'[j]? = some s')
    {y1 y2 g1 g2 : K} (he : s'.EdgeAt c y1 y2 g1 g2) :
    ∃ s, sds[j]? = some s ∧ s'.etaA = s.etaA ∧ s'.etaB = s.etaB ∧
      (s.EdgeAt c y1 y2 g1 g2 ∨
        ∃ r ∈ rows, r.idx = j ∧ y1 = r.xsi1 ∧ y2 = r.xsi2 ∧ g1 = r.h1 ∧ g2 = r.h2) := by
  induction rows generalizing sds with
  | nil =>
    simp only [addRows, Prod.mk.injEq, true_and] at h
    subst h
    exact ⟨s', hj, rfl, rfl, Or.inl he⟩
  | cons r rest ih =>
    unfold addRows at h
    cases hs : sds[r.idx]? with
    | none => simp [hs] at h
    | some s0 =>
      simp only [hs] at h
      cases ha : s0.addSubarea c r.xsi1 r.xsi2 (some r.h1) (some r.h2) with
      | error e => simp [ha] at h
      | ok s1 =>
        simp only [ha] at h
        obtain ⟨t, ht, tA, tB, hh⟩ := ih h
        have hrl : r.idx < sds.length := by
          rcases List.getElem?_eq_some_iff.1 hs with ⟨h, -⟩; exact h
        have hrest : (∃ r' ∈ rest, r'.idx = j ∧ y1 = r'.xsi1 ∧ y2 = r'.xsi2 ∧ g1 = r'.h1 ∧
            g2 = r'.h2) → ∃ r' ∈ r :: rest, r'.idx = j ∧ y1 = r'.xsi1 ∧ y2 = r'.xsi2 ∧
              g1 = r'.h1 ∧ g2 = r'.h2 := by
          rintro ⟨r', hr', h⟩
          exact ⟨r', List.mem_cons_of_mem _ hr', h⟩
        by_cases hjr : j = r.idx
        · subst hjr
          rw [List.getElem?_set_self hrl] at ht
          cases ht
          obtain ⟨f1, f2, -⟩ := addSubarea_eta ha
          refine ⟨s0, hs, by rw [tA, f1], by rw [tB, f2], ?_⟩
          rcases hh with hh | hh
          · rcases (addSubarea_edge ha).1 hh with ⟨-, q1, q2, q3, q4⟩ | h'
            · exact Or.inr ⟨r, by simp, rfl, q1, q2, q3, q4⟩
            · exact Or.inl h'
          · exact Or.inr (hrest hh)
        · rw [List.getElem?_set_ne (Ne.symm hjr)] at ht
          exact ⟨t, ht, tA, tB, hh.imp id hrest⟩

/-- the rows hold the values of `E` and `H` at the borders of their strips -/
def RowVals (sds : List (Strip K)) (E H : K → K) (rows : List (Row K)) : Prop :=
  ∀ r ∈ rows, ∀ s, sds[r.idx]? = some s →
    r.xsi1 = E s.etaA ∧ r.xsi2 = E s.etaB ∧ r.h1 = H s.etaA ∧ r.h2 = H s.etaB

theorem edgeFun_of_rows {c : Control} {rows : List (Row K)} {sds sds' : List (Strip K)}
    {E H : K → K} (hf : ∀ s ∈ sds, ¬ s.carries c) (hv : RowVals sds E H rows)
    (h : addRows c rows sds = (.ok (), sds')) : EdgeFun c E H sds' := by
  intro s' hs' y1 y2 g1 g2 he
  obtain ⟨j, hj⟩ := List.mem_iff_getElem?.1 hs'
  obtain ⟨s, hs, sA, sB, h1 | ⟨r, hr, rfl, rfl, rfl, rfl, rfl⟩⟩ := addRows_edge h hj he
  · exact absurd ((Strip.carries_iff_edge _ _).2 ⟨_, _, _, _, h1⟩)
      (hf s (List.mem_of_getElem? hs))
  · rw [sA, sB]
    exact hv r hr s hs

theorem controlLoop_vals [IsStrictOrderedRing K] {S : Set K} (hS : Separated S)
    {interp : Interp K} {sds : List (Strip K)} (hg : Grid S sds) {a b x1 x2 h1 h2 : K}
    (hb1 : b ≤ 1) {E H : K → K}
    (hE : ∀ e, a < e → e < b → E e = interp (a, x1) (b, x2) e)
    (hH : ∀ e, a < e → e < b → H e = interp (a, h1) (b, h2) e) :
    ∀ (fuel outer : ℕ) (e : K) (rows : List (Row K)) (last : Row K) (o : Strip K)
      (rows' : List (Row K)) (outer' : ℕ),
      last.idx = outer → sds[outer]? = some o → o.etaB = e → a ≤ o.etaA →
      RowVals sds E H rows → last.xsi1 = E o.etaA → last.h1 = H o.etaA → last.xsi2 = x2 →
      last.h2 = h2 →
      controlLoop interp sds a b x1 x2 h1 h2 fuel outer e rows last = .ok (rows', outer') →
      ∃ pre' last' o', rows' = pre' ++ [last'] ∧ last'.idx = outer' ∧ sds[outer']? = some o' ∧
        RowVals sds E H pre' ∧ last'.xsi1 = E o'.etaA ∧ last'.h1 = H o'.etaA ∧
        last'.xsi2 = x2 ∧ last'.h2 = h2 := by
  intro fuel
  induction fuel with
  | zero =>
    intro outer e rows last o rows' outer' hl ho he hao hv v1 v2 v3 v4 h
    unfold controlLoop at h
    split_ifs at h with hb
    · split at h
      · simp at h
      · split at h <;> simp at h
    · simp only [Except.ok.injEq, Prod.mk.injEq] at h
      obtain ⟨rfl, rfl⟩ := h
      exact ⟨rows, last, o, rfl, hl, ho, hv, v1, v2, v3, v4⟩
  | succ n ih =>
    intro outer e rows last o rows' outer' hl ho he hao hv v1 v2 v3 v4 h
    unfold controlLoop at h
    split_ifs at h with hb
    · have he1 : o.etaB < 1 := by rw [he]; exact lt_of_lt_of_le hb hb1
      obtain ⟨j, t, hj, ht⟩ := hg.tile.next (List.mem_of_getElem? ho) he1
      have hin := hg.tile.inside (List.mem_of_getElem? ho)
      have hn := getOuterNeighbour_eq hS hg hj
      rw [ht, he] at hn
      simp only [hn, hj, hl, ho] at h
      have hao' : a < o.etaB := lt_of_le_of_lt hao hin.2.1
      have hob : o.etaB < b := by rw [he]; exact hb
      refine ih j t.etaB _ _ t rows' outer' rfl hj rfl (by rw [ht]; exact hao'.le) ?_ ?_ ?_ rfl rfl h
      · intro r hr s hs
        rcases List.mem_append.1 hr with hr | hr
        · exact hv r hr s hs
        · simp only [List.mem_singleton] at hr
          subst hr
          simp only at hs
          rw [ho] at hs
          cases hs
          exact ⟨v1, (hE _ hao' hob).symm, v2, (hH _ hao' hob).symm⟩
      · rw [ht]; exact (hE _ hao' hob).symm
      · rw [ht]; exact (hH _ hao' hob).symm
    · simp only [Except.ok.injEq, Prod.mk.injEq] at h
      obtain ⟨rfl, rfl⟩ := h
      exact ⟨rows, last, o, rfl, hl, ho, hv, v1, v2, v3, v4⟩

theorem controlFrom_edge [IsStrictOrderedRing K] {S : Set K} (hS : Separated S)
    {interp : Interp K} {sds : List (Strip K)} (hg : Grid S sds) {a b x1 x2 h1 h2 : K}
    {c : Control} (hf : ∀ s ∈ sds, ¬ s.carries c) (hb : b ∈ S) (hab : a < b) (hb1 : b ≤ 1)
    {i : ℕ} {s : Strip K} (hi : sds[i]? = some s) (hs : s.etaA = a) {E H : K → K}
    (hE : ∀ e, a < e → e < b → E e = interp (a, x1) (b, x2) e)
    (hH : ∀ e, a < e → e < b → H e = interp (a, h1) (b, h2) e)
    (Ea : E a = x1) (Eb : E b = x2) (Ha : H a = h1) (Hb : H b = h2)
    {sds' : List (Strip K)}
    (hok : controlFrom interp a b c x1 x2 h1 h2 i sds = (.ok (), sds')) :
    EdgeFun c E H sds' := by
  have fin : ∀ (pre : List (Row K)) (last : Row K) (t : Strip K),
      sds[last.idx]? = some t → t.etaA < b → b < t.etaB →
      RowChain sds t.etaA a (pre.map Row.idx) → RowVals sds E H pre →
      last.xsi1 = E t.etaA → last.h1 = H t.etaA → last.xsi2 = x2 → last.h2 = h2 →
      (match addSubdivision interp b b false sds with
        | (.error e, sds') => ((.error e, sds') : Except PyErr Unit × List (Strip K))
        | (.ok _, sds') => addRows c (pre ++ [last]) sds') = (.ok (), sds') →
      EdgeFun c E H sds' := by
    intro pre last t hk htb hbt hch hv v1 v2 v3 v4 hok
    obtain ⟨p, n, r, hinh, hadd⟩ := addSubdivision_split (interp := interp) hS hg hb hk htb hbt
    have hf' := fresh_closed_sub (interp := interp) (e := b) (d := b) (ign := false) hf
    rw [hadd] at hf' hok
    cases r with
    | error e => simp [Except.map] at hok
    | ok u =>
      simp only [Except.map] at hok
      obtain ⟨⟨pA, pB, -⟩, -⟩ := inheritDevices_eta hinh
      have hkl : last.idx < sds.length := by
        rcases List.getElem?_eq_some_iff.1 hk with ⟨h, -⟩; exact h
      refine edgeFun_of_rows hf' ?_ hok
      intro r hr u hu
      rcases List.mem_append.1 hr with hr | hr
      · have hmem : r.idx ∈ pre.map Row.idx := List.mem_map.2 ⟨r, hr, rfl⟩
        have hne : last.idx ≠ r.idx := by
          intro h
          exact (hch.notin hg.tile hk rfl) (h ▸ hmem)
        have hlt := hch.lt_length _ hmem
        rw [List.getElem?_append_left (by simpa using hlt), List.getElem?_set_ne hne] at hu
        exact hv r hr u hu
      · simp only [List.mem_singleton] at hr
        subst hr
        rw [List.getElem?_append_left (by simpa using hkl), List.getElem?_set_self hkl] at hu
        cases hu
        rw [pA, pB]
        exact ⟨v1, by rw [v3, Eb], v2, by rw [v4, Hb]⟩
  unfold controlFrom at hok
  simp only [hi] at hok
  split_ifs at hok with c1 c2
  · refine edgeFun_of_rows hf ?_ hok
    intro r hr u hu
    simp only [List.mem_singleton] at hr
    subst hr
    simp only at hu
    rw [hi] at hu
    cases hu
    rw [hs, ← c1]
    exact ⟨Ea.symm, Eb.symm, Ha.symm, Hb.symm⟩
  · refine fin [] ⟨i, x1, x2, h1, h2⟩ s hi (by rw [hs]; exact hab) c2 hs.symm ?_ ?_ ?_ rfl rfl hok
    · intro r hr; simp at hr
    · rw [hs]; exact Ea.symm
    · rw [hs]; exact Ha.symm
  · have hlt : s.etaB < b := lt_of_le_of_ne (not_lt.1 c2) (fun h => c1 h.symm)
    have hsin := hg.tile.inside (List.mem_of_getElem? hi)
    have has : a < s.etaB := hs ▸ hsin.2.1
    obtain ⟨j, t, hj, htA⟩ := hg.tile.next (List.mem_of_getElem? hi) (lt_of_lt_of_le hlt hb1)
    have hn := getOuterNeighbour_eq hS hg hj
    rw [htA] at hn
    simp only [hn, hj] at hok
    have hin := hg.tile.inside (List.mem_of_getElem? hj)
    obtain ⟨rows', outer', o', pre, l1, l2, l3, l4, l5, l6⟩ := controlLoop_chain hS hg
      (interp := interp) (a := a) (x1 := x1) (x2 := x2) (h1 := h1) (h2 := h2) hb1 100 j t.etaB
      [{ idx := i, xsi1 := x1, xsi2 := interp (a, x1) (b, x2) s.etaB, h1 := h1,
         h2 := interp (a, h1) (b, h2) s.etaB }]
      ⟨j, interp (a, x1) (b, x2) s.etaB, x2, interp (a, h1) (b, h2) s.etaB, h2⟩ t rfl hj rfl
      (by rw [htA]; exact hlt) ⟨s, hi, hs, by simp [RowChain, htA]⟩ (by
        have : (0 : K) ≤ t.etaB := hin.1.trans hin.2.1.le
        push_cast
        linarith)
    obtain ⟨pre', last', o'', e1, e2, e3, e4, e5, e6, e7, e8⟩ := controlLoop_vals hS hg
      (interp := interp) hb1 hE hH 100 j t.etaB _ _ t rows' outer' rfl hj rfl
      (by rw [htA]; exact has.le) (by
        intro r hr u hu
        simp only [List.mem_singleton] at hr
        subst hr
        simp only at hu
        rw [hi] at hu
        cases hu
        rw [hs]
        exact ⟨Ea.symm, (hE _ has hlt).symm, Ha.symm, (hH _ has hlt).symm⟩)
      (by rw [htA]; exact (hE _ has hlt).symm) (by rw [htA]; exact (hH _ has hlt).symm) rfl rfl l1
    rw [l2] at e3
    cases e3
    rw [l1] at hok
    simp only [l2] at hok
    have hpre : pre'.map Row.idx = pre := by
      rw [e1, List.map_append, List.map_cons, List.map_nil] at l3
      exact (List.append_inj' l3 rfl).1
    split_ifs at hok with c3
    · rw [e1] at hok
      exact fin pre' last' o' (by rw [e2]; exact l2) l4 c3 (by rw [hpre]; exact l6) e4 e5 e6 e7 e8
        hok
    · have hbo : b = o'.etaB := le_antisymm l5 (not_lt.1 c3)
      refine edgeFun_of_rows hf ?_ hok
      intro r hr u hu
      rw [e1] at hr
      rcases List.mem_append.1 hr with hr | hr
      · exact e4 r hr u hu
      · simp only [List.mem_singleton] at hr
        subst hr
        rw [e2, l2] at hu
        cases hu
        rw [← hbo]
        exact ⟨e5, by rw [e7, Eb], e6, by rw [e8, Hb]⟩

theorem control_edge [IsStrictOrderedRing K] {S : Set K} (hS : Separated S)
    {interp : Interp K} {sds sds' : List (Strip K)} (hg : Grid S sds) {a b x1 x2 : K}
    {g1 g2 : Option K} {c : Control} (hf : ∀ s ∈ sds, ¬ s.carries c) (ha : a ∈ S) (hb : b ∈ S)
    (hab : a < b) (hb1 : b ≤ 1) {E H : K → K}
    (hE : ∀ e, a < e → e < b → E e = interp (a, x1) (b, x2) e)
    (hH : ∀ e, a < e → e < b → H e = interp (a, g1.getD x1) (b, g2.getD x2) e)
    (Ea : E a = x1) (Eb : E b = x2) (Ha : H a = g1.getD x1) (Hb : H b = g2.getD x2)
    (hok : addSubdivisionForControl interp a b c x1 x2 g1 g2 sds = (.ok (), sds')) :
    EdgeFun c E H sds' := by
  unfold addSubdivisionForControl at hok
  dsimp only at hok
  split_ifs at hok with h0
  · obtain ⟨s, hs, hs0⟩ := hg.zero
    exact controlFrom_edge hS hg hf hb hab hb1 hs (by rw [hs0, h0]) hE hH Ea Eb Ha Hb hok
  · rcases hr : addSubdivision interp a a false sds with ⟨r, sds1⟩
    have hf' := fresh_closed_sub (interp := interp) (e := a) (d := a) (ign := false) hf
    rw [hr] at hf' hok
    rcases r with e | (_ | i)
    · simp at hok
    · simp at hok
    · obtain ⟨hg', s, hs, hsa⟩ := addSubdivision_start hS hg ha hr
      exact controlFrom_edge hS hg' hf' hb hab hb1 hs hsa hE hH Ea Eb Ha Hb hok

/-- the outermost strip of the covered range -/
theorem Covers.last [IsStrictOrderedRing K] {sds : List (Strip K)} (ht : TileInv sds) {c : Control}
    {a b : K} (hc : Covers sds c a b) (ha0 : 0 ≤ a) (hab : a < b) (hb1 : b ≤ 1) :
    ∃ s ∈ sds, s.carries c ∧ s.etaB = b := by
  -- among the covered strips take one with the largest outer border
  have key : ∀ l : List (Strip K), (∃ s ∈ l, s.carries c) →
      ∃ s ∈ l, s.carries c ∧ ∀ t ∈ l, t.carries c → t.etaB ≤ s.etaB := by
    intro l
    induction l with
    | nil => simp
    | cons u rest ih =>
      rintro ⟨s, hs, hsc⟩
      by_cases hr : ∃ s ∈ rest, s.carries c
      · obtain ⟨m, hm, hmc, hmax⟩ := ih hr
        by_cases hu : u.carries c ∧ m.etaB ≤ u.etaB
        · refine ⟨u, by simp, hu.1, ?_⟩
          intro t ht htc
          rcases List.mem_cons.1 ht with rfl | ht
          · exact le_rfl
          · exact (hmax t ht htc).trans hu.2
        · refine ⟨m, List.mem_cons_of_mem _ hm, hmc, ?_⟩
          intro t ht htc
          rcases List.mem_cons.1 ht with h | ht
          · subst h
            by_contra hlt
            exact hu ⟨htc, (not_le.1 hlt).le⟩
          · exact hmax t ht htc
      · rcases List.mem_cons.1 hs with h | hs
        · subst h
          refine ⟨s, by simp, hsc, ?_⟩
          intro t ht htc
          rcases List.mem_cons.1 ht with h | ht
          · rw [h]
          · exact absurd ⟨t, ht, htc⟩ hr
        · exact absurd ⟨s, hs, hsc⟩ hr
  have hex : ∃ s ∈ sds, s.carries c := by
    obtain ⟨j, ⟨s, hs, h1, h2⟩, -⟩ := ht.existsUnique ha0 (lt_of_lt_of_le hab hb1)
    exact ⟨s, List.mem_of_getElem? hs,
      (hc s (List.mem_of_getElem? hs) a h1 h2).2 ⟨le_rfl, hab⟩⟩
  obtain ⟨s, hs, hsc, hmax⟩ := key sds hex
  have hin := ht.inside hs
  refine ⟨s, hs, hsc, le_antisymm ?_ ?_⟩
  · by_contra hlt
    have hlt := not_le.1 hlt
    have := (hc s hs (max s.etaA b) (le_max_left _ _) (max_lt hin.2.1 hlt)).1 hsc
    exact absurd this.2 (not_lt.2 (le_max_right _ _))
  · by_contra hlt
    have hlt := not_le.1 hlt
    obtain ⟨j, t, hj, htA⟩ := ht.next hs (lt_of_lt_of_le hlt hb1)
    have htm := List.mem_of_getElem? hj
    have htin := ht.inside htm
    have hA := (hc s hs s.etaA le_rfl hin.2.1).1 hsc
    have := (hc t htm t.etaA le_rfl htin.2.1).2 ⟨by rw [htA]; exact hA.1.trans hin.2.1.le,
      by rw [htA]; exact hlt⟩
    have h2 := hmax t htm this
    rw [← htA] at h2
    exact absurd htin.2.1 (not_lt.2 h2)

/-- the innermost strip of the covered range -/
theorem Covers.first [IsStrictOrderedRing K] {sds : List (Strip K)} (ht : TileInv sds) {c : Control}
    {a b : K} (hc : Covers sds c a b) (ha0 : 0 ≤ a) (hab : a < b) (hb1 : b ≤ 1) :
    ∃ s ∈ sds, s.carries c ∧ s.etaA = a := by
  obtain ⟨j, ⟨s, hs, h1, h2⟩, -⟩ := ht.existsUnique ha0 (lt_of_lt_of_le hab hb1)
  have hm := List.mem_of_getElem? hs
  have hcar := (hc s hm a h1 h2).2 ⟨le_rfl, hab⟩
  exact ⟨s, hm, hcar, le_antisymm h1 ((hc s hm s.etaA le_rfl (ht.inside hm).2.1).1 hcar).1⟩

/-- a successful call places the control -/
theorem control_placed [IsStrictOrderedRing K] {S : Set K} (hS : Separated S)
    {interp : Interp K} {sds sds' : List (Strip K)} (hg : Grid S sds)
    (hch : ∀ s ∈ sds, ChordInv s) {a b x1 x2 : K}
    {g1 g2 : Option K} {c : Control} (hf : ∀ s ∈ sds, ¬ s.carries c) (ha : a ∈ S) (hb : b ∈ S)
    (ha0 : 0 ≤ a) (hab : a < b) (hb1 : b ≤ 1)
    (hok : addSubdivisionForControl interp a b c x1 x2 g1 g2 sds = (.ok (), sds'))
    {L LH : K → K → Prop} (hL : InterpClosed interp L) (hLH : InterpClosed interp LH)
    (La : L a x1) (Lb : L b x2) (LHa : LH a (g1.getD x1)) (LHb : LH b (g2.getD x2)) :
    Placed c a b x1 x2 (g1.getD x1) (g2.getD x2) L LH sds' := by
  have hcov : Covers sds' c a b := by
    rcases control_outcome (interp := interp) (x1 := x1) (x2 := x2) (h1 := g1) (h2 := g2) hS hg hf
      ha hb ha0 hab hb1 with h | h
    · rw [hok] at h; simp at h
    · rw [hok] at h; exact h.2
  have hg' : Grid S sds' := by
    have := (grid_closed interp S).addSubdivisionForControl (a := a) (b := b) ha hb c x1 x2 g1 g2 hg
    rwa [hok] at this
  have hch' : ∀ s ∈ sds', ChordInv s := by
    have := (chordInv_closed interp).addSubdivisionForControl (a := a) (b := b) trivial trivial c
      x1 x2 g1 g2 hch
    rwa [hok] at this
  let mk : K → K → K → K := fun u v e => if e = a then u else if e = b then v else
    interp (a, u) (b, v) e
  have mkI : ∀ u v e, a < e → e < b → mk u v e = interp (a, u) (b, v) e := by
    intro u v e h1 h2
    simp only [mk, if_neg h1.ne', if_neg h2.ne]
  have mka : ∀ u v, mk u v a = u := by intro u v; simp [mk]
  have mkb : ∀ u v, mk u v b = v := by intro u v; simp [mk, hab.ne']
  have hedge := control_edge hS hg hf ha hb hab hb1 (E := mk x1 x2)
    (H := mk (g1.getD x1) (g2.getD x2)) (mkI _ _) (mkI _ _) (mka _ _) (mkb _ _) (mka _ _)
    (mkb _ _) hok
  -- the end values passed the tests of `_add_subarea`
  obtain ⟨s1, hs1, c1, e1⟩ := hcov.first hg'.tile ha0 hab hb1
  obtain ⟨s2, hs2, c2, e2⟩ := hcov.last hg'.tile ha0 hab hb1
  obtain ⟨y1, y2, k1, k2, hy⟩ := (Strip.carries_iff_edge _ _).1 c1
  obtain ⟨z1, z2, m1, m2, hz⟩ := (Strip.carries_iff_edge _ _).1 c2
  have r1 := (hch' s1 hs1).edge_range hy
  have r2 := (hch' s2 hs2).edge_range hz
  have v1 := hedge s1 hs1 _ _ _ _ hy
  have v2 := hedge s2 hs2 _ _ _ _ hz
  rw [e1, mka, mka] at v1
  rw [e2, mkb, mkb] at v2
  obtain ⟨rfl, -, rfl, -⟩ := v1
  obtain ⟨-, rfl, -, rfl⟩ := v2
  refine ⟨hg'.tile, hch', hcov, ⟨mk y1 z2, mk (g1.getD y1) (g2.getD z2), mka _ _, mkb _ _, mka _ _,
    mkb _ _, hedge⟩, ?_⟩
  have hmkL : ∀ (M : K → K → Prop) (u v : K), InterpClosed interp M → M a u → M b v →
      0 ≤ u → u ≤ 1 → 0 ≤ v → v ≤ 1 → ∀ e, a ≤ e → e ≤ b → M e (mk u v e) := by
    intro M u v hM Ma Mb u0 u1 v0 v1 e h1 h2
    rcases eq_or_lt_of_le h1 with rfl | h1
    · rw [mka]; exact Ma
    · rcases eq_or_lt_of_le h2 with rfl | h2
      · rw [mkb]; exact Mb
      · rw [mkI _ _ _ h1 h2]
        exact hM _ _ _ _ _ ha0 h1 h2 hb1 u0 u1 v0 v1 Ma Mb
  intro s hs w1 w2 n1 n2 hw
  obtain ⟨rfl, rfl, rfl, rfl⟩ := hedge s hs _ _ _ _ hw
  have hcar : s.carries c := (Strip.carries_iff_edge _ _).2 ⟨_, _, _, _, hw⟩
  have hin := hg'.tile.inside hs
  have hA := ((hcov s hs s.etaA le_rfl hin.2.1).1 hcar)
  have hB : s.etaB ≤ b := by
    by_contra hlt
    have hlt := not_le.1 hlt
    have := (hcov s hs (max s.etaA b) (le_max_left _ _) (max_lt hin.2.1 hlt)).1 hcar
    exact absurd this.2 (not_lt.2 (le_max_right _ _))
  have hx := hmkL L _ _ hL La Lb r1.1.1.le r1.1.2.1.le r2.1.2.2.1.le r2.1.2.2.2.le
  have hh := hmkL LH _ _ hLH LHa LHb r1.2.1 r1.2.2.1 r2.2.2.2.1 r2.2.2.2.2
  exact ⟨hx _ hA.1 hA.2.le, hx _ (hA.1.trans hin.2.1.le) hB, hh _ hA.1 hA.2.le,
    hh _ (hA.1.trans hin.2.1.le) hB⟩

end Verif
