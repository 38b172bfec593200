import Verif.Lemmas.Strips
import Mathlib.Tactic.NormNum

/-! Helper lemmas: chordwise tiling of a strip. -/

set_option linter.unusedSectionVars false

namespace Verif
variable {K : Type*} [Field K] [LinearOrder K]

/-- chordwise invariant of a strip -/
structure ChordInv (s : Strip K) : Prop where
  slat_none : s.slat = none → s.main.xsiA = 0 ∧ s.main.xsiB = 0
  slat_some : ∀ f, s.slat = some f → f.xsiA = 0 ∧ f.xsiB = 0 ∧ s.main.xsiA = f.xsiD ∧
    s.main.xsiB = f.xsiC ∧ f.ctrl.deviceType = "slat" ∧
    (0 < f.xsiD ∧ f.xsiD < 1 ∧ 0 < f.xsiC ∧ f.xsiC < 1) ∧
    (0 ≤ f.h1 ∧ f.h1 ≤ 1 ∧ 0 ≤ f.h2 ∧ f.h2 ≤ 1)
  flap_none : s.flap = none → s.main.xsiD = 1 ∧ s.main.xsiC = 1
  flap_some : ∀ f, s.flap = some f → f.xsiD = 1 ∧ f.xsiC = 1 ∧ s.main.xsiD = f.xsiA ∧
    s.main.xsiC = f.xsiB ∧ f.ctrl.deviceType = "flap" ∧
    (0 < f.xsiA ∧ f.xsiA < 1 ∧ 0 < f.xsiB ∧ f.xsiB < 1) ∧
    (0 ≤ f.h1 ∧ f.h1 ≤ 1 ∧ 0 ≤ f.h2 ∧ f.h2 ≤ 1)

theorem ChordInv.init (a b c d : K) : ChordInv (Strip.init a b c d) := by
  constructor <;> simp [Strip.init, Quad.init]

theorem ChordInv.eta {s : Strip K} (h : ChordInv s) (b c : K) :
    ChordInv { s with etaB := b, etaC := c } :=
  ⟨h.slat_none, h.slat_some, h.flap_none, h.flap_some⟩

theorem ChordInv.addSubarea {s s' : Strip K} (h : ChordInv s) {c : Control} {x1 x2 : K}
    {h1 h2 : Option K} (ha : s.addSubarea c x1 x2 h1 h2 = .ok s') : ChordInv s' := by
  obtain ⟨r, hh, -, ⟨ht, hn, rfl⟩ | ⟨ht, hn, rfl⟩⟩ := addSubarea_ok ha
  · refine ⟨by simp, ?_, ?_, ?_⟩
    · intro f hf
      simp only [Option.some.injEq] at hf
      subst hf
      exact ⟨rfl, rfl, rfl, rfl, ht, ⟨r.1, r.2.1, r.2.2.1, r.2.2.2⟩, hh⟩
    · exact h.flap_none
    · exact h.flap_some
  · refine ⟨h.slat_none, h.slat_some, by simp, ?_⟩
    intro f hf
    simp only [Option.some.injEq] at hf
    subst hf
    exact ⟨rfl, rfl, rfl, rfl, ht, ⟨r.1, r.2.1, r.2.2.1, r.2.2.2⟩, hh⟩

theorem ChordInv.updateFlap {s : Strip K} (h : ChordInv s) {f : Dev K} (hf : s.flap = some f)
    {x g : K} (hx : 0 < x) (hx1 : x < 1) (hg : 0 ≤ g) (hg1 : g ≤ 1) :
    ChordInv (s.updateFlap f.xsiA x f.h1 g) := by
  obtain ⟨a1, a2, a3, a4, a5, a6, a7⟩ := h.flap_some f hf
  refine ⟨h.slat_none, h.slat_some, by simp [Strip.updateFlap, hf], ?_⟩
  intro f' hf'
  simp only [Strip.updateFlap, hf, Option.map_some, Option.some.injEq] at hf'
  subst hf'
  simp [Strip.updateFlap, a1, a2, a5, a6.1, a6.2.1, hx, hx1, hg, hg1, a7.1, a7.2.1]

theorem ChordInv.updateSlat {s : Strip K} (h : ChordInv s) {f : Dev K} (hf : s.slat = some f)
    {x g : K} (hx : 0 < x) (hx1 : x < 1) (hg : 0 ≤ g) (hg1 : g ≤ 1) :
    ChordInv (s.updateSlat f.xsiD x f.h1 g) := by
  obtain ⟨a1, a2, a3, a4, a5, a6, a7⟩ := h.slat_some f hf
  refine ⟨by simp [Strip.updateSlat, hf], ?_, h.flap_none, h.flap_some⟩
  intro f' hf'
  simp only [Strip.updateSlat, hf, Option.map_some, Option.some.injEq] at hf'
  subst hf'
  simp [Strip.updateSlat, a1, a2, a5, a6.1, a6.2.1, hx, hx1, hg, hg1, a7.1, a7.2.1]

theorem ChordInv.inheritFlap {interp : Interp K} {eA eB eta : K} {prev new : Strip K}
    (hp : ChordInv prev) (hn : ChordInv new) :
    ChordInv (inheritFlap interp eA eB eta prev new).2.1 ∧
    ChordInv (inheritFlap interp eA eB eta prev new).2.2 := by
  rcases inheritFlap_cases interp eA eB eta prev new with h | ⟨f, n, hf, ha, h⟩
  · rw [h]; exact ⟨hp, hn⟩
  · rw [h]
    obtain ⟨r, hh, -⟩ := addSubarea_ok ha
    exact ⟨hp.updateFlap hf r.1 r.2.1 hh.1 hh.2.1, hn.addSubarea ha⟩

theorem ChordInv.inheritSlat {interp : Interp K} {eA eB eta : K} {prev new : Strip K}
    (hp : ChordInv prev) (hn : ChordInv new) :
    ChordInv (inheritSlat interp eA eB eta prev new).2.1 ∧
    ChordInv (inheritSlat interp eA eB eta prev new).2.2 := by
  rcases inheritSlat_cases interp eA eB eta prev new with h | ⟨f, n, hf, ha, h⟩
  · rw [h]; exact ⟨hp, hn⟩
  · rw [h]
    obtain ⟨r, hh, -⟩ := addSubarea_ok ha
    exact ⟨hp.updateSlat hf r.1 r.2.1 hh.1 hh.2.1, hn.addSubarea ha⟩

theorem ChordInv.inheritDevices {interp : Interp K} {eA eB eta : K} {prev new p n : Strip K}
    {r : Except PyErr Unit} (hp : ChordInv prev) (hn : ChordInv new)
    (h : inheritDevices interp eA eB eta prev new = (r, p, n)) : ChordInv p ∧ ChordInv n := by
  have hf := hp.inheritFlap (interp := interp) (eA := eA) (eB := eB) (eta := eta) hn
  rcases inheritDevices_cases interp eA eB eta prev new with ⟨e, he⟩ | ⟨p', n', h1, h2⟩
  · rw [h] at he
    have : (p, n) = (Verif.inheritFlap interp eA eB eta prev new).2 := by
      simpa using congrArg Prod.snd he
    simpa only [← this] using hf
  · rw [h1] at hf
    have := hf.1.inheritSlat (interp := interp) (eA := eA) (eB := eB) (eta := eta) hf.2
    rwa [← h2, h] at this

theorem mem_set_append {α : Type*} {P : α → Prop} {l : List α} {i : ℕ} {p n : α}
    (hl : ∀ s ∈ l, P s) (hp : P p) (hn : P n) : ∀ s ∈ l.set i p ++ [n], P s := by
  intro s hs
  rw [List.mem_append, List.mem_singleton] at hs
  rcases hs with hs | rfl
  · rcases List.mem_or_eq_of_mem_set hs with hs | rfl
    · exact hl s hs
    · exact hp
  · exact hn

theorem mem_set_P {α : Type*} {P : α → Prop} {l : List α} {i : ℕ} {p : α}
    (hl : ∀ s ∈ l, P s) (hp : P p) : ∀ s ∈ l.set i p, P s := by
  intro s hs
  rcases List.mem_or_eq_of_mem_set hs with hs | rfl
  · exact hl s hs
  · exact hp

theorem chordInv_closed (interp : Interp K) :
    Closed interp (fun _ _ => True) (fun sds : List (Strip K) => ∀ s ∈ sds, ChordInv s) where
  split := by
    intro sds idx prev p n e d r hT _ hidx _ _ hA hB _ hi
    have hm := hT prev (List.mem_of_getElem? hidx)
    obtain ⟨h1, h2⟩ := (hm.eta e d).inheritDevices (ChordInv.init _ _ _ _) hi
    exact mem_set_append hT h1 h2
  add := by
    intro sds idx s s' c x1 x2 h1 h2 hT hidx ha
    exact mem_set_P hT ((hT s (List.mem_of_getElem? hidx)).addSubarea ha)

theorem chordInv_init : ∀ s ∈ (initStrips : List (Strip K)), ChordInv s := by
  intro s hs
  simp only [initStrips, List.mem_singleton] at hs
  subst hs
  exact ChordInv.init _ _ _ _

/-! ### eta_a = eta_d and eta_b = eta_c -/

def EtaInv (s : Strip K) : Prop := s.etaA = s.etaD ∧ s.etaB = s.etaC

theorem etaInv_closed (interp : Interp K) :
    Closed interp Eq (fun sds : List (Strip K) => ∀ s ∈ sds, EtaInv s) where
  split := by
    intro sds idx prev p n e d r hT hed hidx _ _ hA hB _ hi
    have hm := hT prev (List.mem_of_getElem? hidx)
    obtain ⟨⟨pA, pB, pC, pD⟩, nA, nB, nC, nD⟩ := inheritDevices_eta hi
    simp only [Strip.init] at nA nB nC nD pA pB pC pD
    refine mem_set_append hT ⟨?_, ?_⟩ ⟨?_, ?_⟩
    · rw [pA, pD, hm.1]
    · rw [pB, pC, hed]
    · rw [nA, nD, hed]
    · rw [nB, nC, hm.2]
  add := by
    intro sds idx s s' c x1 x2 h1 h2 hT hidx ha
    obtain ⟨eA, eB, eC, eD⟩ := addSubarea_eta ha
    have := hT s (List.mem_of_getElem? hidx)
    refine mem_set_P hT ⟨?_, ?_⟩
    · rw [eA, eD, this.1]
    · rw [eB, eC, this.2]

/-! ### Strip 0 starts at the root -/

theorem zeroInv_closed (interp : Interp K) :
    Closed interp (fun _ _ => True)
      (fun sds : List (Strip K) => ∃ s, sds[0]? = some s ∧ s.etaA = 0) where
  split := by
    rintro sds idx prev p n e d r ⟨s, hs, h0⟩ _ hidx _ _ hA hB _ hi
    obtain ⟨⟨pA, -⟩, -⟩ := inheritDevices_eta hi
    simp only at pA
    cases sds with
    | nil => simp at hs
    | cons t rest =>
      simp only [List.getElem?_cons_zero, Option.some.injEq] at hs
      subst hs
      cases idx with
      | zero =>
        simp only [List.getElem?_cons_zero, Option.some.injEq] at hidx
        subst hidx
        exact ⟨p, by simp, by rw [pA, h0]⟩
      | succ i => exact ⟨t, by simp, h0⟩
  add := by
    rintro sds idx s s' c x1 x2 h1 h2 ⟨t, ht, h0⟩ hidx ha
    obtain ⟨eA, -⟩ := addSubarea_eta ha
    cases sds with
    | nil => simp at ht
    | cons u rest =>
      simp only [List.getElem?_cons_zero, Option.some.injEq] at ht
      subst ht
      cases idx with
      | zero =>
        simp only [List.getElem?_cons_zero, Option.some.injEq] at hidx
        subst hidx
        exact ⟨s', by simp, by rw [eA, h0]⟩
      | succ i => exact ⟨u, by simp, h0⟩

/-! ### Success-only histories -/

/-- as `Closed`, but splits are only considered when the inheritance of devices succeeds -/
structure ClosedOk (interp : Interp K) (C : Control → Prop) (P : List (Strip K) → Prop) : Prop where
  split : ∀ {sds : List (Strip K)} {idx : ℕ} {prev p n : Strip K} {e d : K},
    P sds → sds[idx]? = some prev → 0 < e → e < 1 → prev.etaA < e → e < prev.etaB →
    minEtaLimit ≤ e - prev.etaA →
    inheritDevices interp prev.etaA prev.etaB e { prev with etaB := e, etaC := d }
      (Strip.init e prev.etaB prev.etaC d) = (.ok (), p, n) →
    P (sds.set idx p ++ [n])
  add : ∀ {sds : List (Strip K)} {idx : ℕ} {s s' : Strip K} {c : Control} {x1 x2 : K}
    {h1 h2 : Option K},
    C c → P sds → sds[idx]? = some s → s.addSubarea c x1 x2 h1 h2 = .ok s' → P (sds.set idx s')

theorem ClosedOk.addSubdivision {interp : Interp K} {C : Control → Prop} {P : List (Strip K) → Prop}
    (hP : ClosedOk interp C P) {e d : K} {ign : Bool} {sds : List (Strip K)} {o : Option ℕ}
    (h : P sds) (hok : (addSubdivision interp e d ign sds).1 = .ok o) :
    P (addSubdivision interp e d ign sds).2 := by
  rcases addSubdivision_cases interp e d ign sds with ⟨h1, -⟩ |
    ⟨idx, prev, p, n, r, h1, h2, h3, h4, h5, h6, h7, h8⟩
  · rw [h1]; exact h
  · rw [h8] at hok ⊢
    cases r with
    | error e => simp [Except.map] at hok
    | ok u => exact hP.split h h1 h2 h3 h4 h5 h6 h7

theorem ClosedOk.addRows {interp : Interp K} {C : Control → Prop} {P : List (Strip K) → Prop}
    (hP : ClosedOk interp C P) {c : Control} (hc : C c) (rows : List (Row K)) {sds : List (Strip K)}
    (h : P sds) : P (addRows c rows sds).2 := by
  induction rows generalizing sds with
  | nil => simpa [Verif.addRows] using h
  | cons r rest ih =>
    unfold Verif.addRows
    cases hs : sds[r.idx]? with
    | none => exact h
    | some s =>
      simp only
      cases ha : s.addSubarea c r.xsi1 r.xsi2 (some r.h1) (some r.h2) with
      | error e => exact h
      | ok s' => exact ih (hP.add hc h hs ha)

theorem ClosedOk.controlFrom {interp : Interp K} {C : Control → Prop} {P : List (Strip K) → Prop}
    (hP : ClosedOk interp C P) (a b : K) {c : Control} (hc : C c) (x1 x2 h1 h2 : K) (i : ℕ)
    {sds : List (Strip K)} (h : P sds)
    (hok : (controlFrom interp a b c x1 x2 h1 h2 i sds).1 = .ok ()) :
    P (controlFrom interp a b c x1 x2 h1 h2 i sds).2 := by
  have hsub : ∀ r s', Verif.addSubdivision interp b b false sds = (.ok r, s') → P s' := by
    intro r s' hh
    have := hP.addSubdivision (e := b) (d := b) (ign := false) (o := r) h (by rw [hh])
    rwa [hh] at this
  unfold Verif.controlFrom at hok ⊢
  cases hs : sds[i]? with
  | none => exact h
  | some sd1 =>
    simp only [hs] at hok ⊢
    split_ifs at hok ⊢ with c1 c2
    · exact hP.addRows hc _ h
    · rcases ha : Verif.addSubdivision interp b b false sds with ⟨r, s'⟩
      rw [ha] at hok
      cases r with
      | error e => simp at hok
      | ok u => exact hP.addRows hc _ (hsub u s' ha)
    · cases ho : getOuterNeighbour sds sd1.etaB with
      | none => exact h
      | some outer =>
        simp only [ho] at hok ⊢
        cases hso : sds[outer]? with
        | none => exact h
        | some o =>
          simp only [hso] at hok ⊢
          split
          · exact h
          · rename_i rows' outer' hl
            simp only [hl] at hok
            split
            · exact h
            · rename_i o' hso'
              simp only [hso'] at hok
              split_ifs at hok ⊢ with c3
              · rcases ha : Verif.addSubdivision interp b b false sds with ⟨r, s'⟩
                rw [ha] at hok
                cases r with
                | error e => simp at hok
                | ok u => exact hP.addRows hc _ (hsub u s' ha)
              · exact hP.addRows hc _ h

/-- controls used in a call satisfy `C` -/
def SegOp.ctrlIn (C : Control → Prop) : SegOp K → Prop
  | .divide .. => True
  | .control _ _ c _ _ _ _ => C c

theorem SegOp.ctrlIn_true (op : SegOp K) : op.ctrlIn (fun _ => True) := by
  cases op <;> trivial

theorem ClosedOk.run {interp : Interp K} {C : Control → Prop} {P : List (Strip K) → Prop}
    (hP : ClosedOk interp C P) {op : SegOp K} (hc : op.ctrlIn C) {sds : List (Strip K)} (h : P sds)
    (hok : op.outcome interp sds = .ok ()) : P (op.run interp sds) := by
  cases op with
  | divide a d ign =>
    simp only [SegOp.outcome] at hok
    rcases ho : (Verif.addSubdivision interp a d ign sds).1 with e | o
    · rw [ho] at hok; simp [Except.map] at hok
    · exact hP.addSubdivision h ho
  | control a b c x1 x2 h1 h2 =>
    simp only [SegOp.outcome, SegOp.run] at hok ⊢
    unfold addSubdivisionForControl at hok ⊢
    simp only at hok ⊢
    split_ifs at hok ⊢ with h0
    · exact hP.controlFrom _ _ hc _ _ _ _ _ h hok
    · rcases ha : Verif.addSubdivision interp a a false sds with ⟨r, s'⟩
      rw [ha] at hok
      rcases r with e | (_ | i)
      · simp at hok
      · simp at hok
      · have := hP.addSubdivision (e := a) (d := a) (ign := false) (o := some i) h (by rw [ha])
        rw [ha] at this
        exact hP.controlFrom _ _ hc _ _ _ _ _ this hok

theorem ClosedOk.runOpsOk {interp : Interp K} {C : Control → Prop} {P : List (Strip K) → Prop}
    (hP : ClosedOk interp C P) {ops : List (SegOp K)} (hc : ∀ op ∈ ops, op.ctrlIn C)
    {s0 sds : List (Strip K)} (h0 : P s0) (h : runOpsOk interp ops s0 = .ok sds) : P sds := by
  induction ops generalizing s0 with
  | nil => simp only [Verif.runOpsOk, Except.ok.injEq] at h; rwa [← h]
  | cons op rest ih =>
    unfold Verif.runOpsOk at h
    cases ho : op.outcome interp s0 with
    | error e => simp [ho] at h
    | ok u => simp only [ho] at h; exact ih (fun o h => hc o (List.mem_cons_of_mem _ h)) (hP.run (hc op (by simp)) h0 ho) h

/-- a success-only history is a history -/
theorem runOpsOk_run {interp : Interp K} {ops : List (SegOp K)} {s0 sds : List (Strip K)}
    (h : runOpsOk interp ops s0 = .ok sds) :
    ops.foldl (fun sds op => op.run interp sds) s0 = sds := by
  induction ops generalizing s0 with
  | nil => simpa [Verif.runOpsOk] using h
  | cons op rest ih =>
    unfold Verif.runOpsOk at h
    cases ho : op.outcome interp s0 with
    | error e => simp [ho] at h
    | ok u => simp only [ho] at h; exact ih h

/-! ### Gap between slat and flap -/

def GapInv (s : Strip K) : Prop := ∀ f g, s.slat = some f → s.flap = some g →
  f.xsiD + minXsiLimit ≤ g.xsiA ∧ f.xsiC + minXsiLimit ≤ g.xsiB

theorem GapInv.addSubarea {s s' : Strip K} (_hs : GapInv s) {c : Control} {x1 x2 : K}
    {h1 h2 : Option K} (ha : s.addSubarea c x1 x2 h1 h2 = .ok s') : GapInv s' := by
  obtain ⟨r, hh, ho, ⟨ht, hn, rfl⟩ | ⟨ht, hn, rfl⟩⟩ := addSubarea_ok ha
  · intro f g hf hg
    simp only [Option.some.injEq] at hf
    subst hf
    simp only [Strip.overlaps, not_or, not_exists, not_and, not_lt, gt_iff_lt] at ho
    exact ho.2 g hg
  · intro f g hf hg
    simp only [Option.some.injEq] at hg
    subst hg
    simp only [Strip.overlaps, not_or, not_exists, not_and, not_lt, gt_iff_lt] at ho
    exact ho.1 f hf

/-- If the whole inheritance succeeds, both strips keep the gap. -/
theorem GapInv.inheritDevices {interp : Interp K} {eA eB eta : K} {prev new p n : Strip K}
    (hp : GapInv prev) (hc : ChordInv prev) (hn : new.slat = none ∧ new.flap = none)
    (h : inheritDevices interp eA eB eta prev new = (.ok (), p, n)) : GapInv p ∧ GapInv n := by
  rcases inheritDevices_cases interp eA eB eta prev new with ⟨e, he⟩ | ⟨p', n', h1, h2⟩
  · rw [h] at he; simp at he
  · rw [h] at h2
    have hgn : GapInv new := by intro f g hf; rw [hn.1] at hf; simp at hf
    -- the flap part
    unfold Verif.inheritFlap at h1
    unfold Verif.inheritSlat at h2
    cases hf : prev.flap with
    | none =>
      simp only [hf, Prod.mk.injEq, true_and] at h1
      obtain ⟨rfl, rfl⟩ := h1
      cases hs : prev.slat with
      | none =>
        simp only [hs, Prod.mk.injEq, true_and] at h2
        obtain ⟨rfl, rfl⟩ := h2
        exact ⟨hp, hgn⟩
      | some f =>
        simp only [hs] at h2
        split at h2
        · simp at h2
        · rename_i n1 ha
          simp only [Prod.mk.injEq, true_and] at h2
          obtain ⟨rfl, rfl⟩ := h2
          refine ⟨?_, hgn.addSubarea ha⟩
          intro f' g' _ hg'
          simp only [Strip.updateSlat, hf] at hg'
          simp at hg'
    | some g =>
      simp only [hf] at h1
      split at h1
      · simp at h1
      · rename_i n1 ha
        simp only [Prod.mk.injEq, true_and] at h1
        obtain ⟨rfl, rfl⟩ := h1
        have hgt := (hc.flap_some g hf).2.2.2.2.1
        obtain ⟨-, -, -, ⟨ht, -, -⟩ | ⟨-, -, hn1⟩⟩ := addSubarea_ok ha
        · rw [hgt] at ht; simp at ht
        cases hs : prev.slat with
        | none =>
          have : (prev.updateFlap g.xsiA (interp (eA, g.xsiA) (eB, g.xsiB) eta) g.h1
            (interp (eA, g.h1) (eB, g.h2) eta)).slat = none := by simp [Strip.updateFlap, hs]
          simp only [this, Prod.mk.injEq, true_and] at h2
          obtain ⟨rfl, rfl⟩ := h2
          refine ⟨?_, hgn.addSubarea ha⟩
          intro f' g' hf' _
          rw [this] at hf'; simp at hf'
        | some f =>
          have hps : (prev.updateFlap g.xsiA (interp (eA, g.xsiA) (eB, g.xsiB) eta) g.h1
            (interp (eA, g.h1) (eB, g.h2) eta)).slat = some f := by simp [Strip.updateFlap, hs]
          simp only [hps] at h2
          split at h2
          · simp at h2
          · rename_i n2 ha2
            simp only [Prod.mk.injEq, true_and] at h2
            obtain ⟨rfl, rfl⟩ := h2
            have hg2 := (hgn.addSubarea ha).addSubarea ha2
            refine ⟨?_, hg2⟩
            have hfl : n1.flap = some { Quad.init (interp (eA, g.xsiA) (eB, g.xsiB) eta) g.xsiB 1 1
                with h1 := interp (eA, g.h1) (eB, g.h2) eta, h2 := g.h2, ctrl := g.ctrl } := by
              rw [hn1]; simp
            obtain ⟨-, -, ho, -⟩ := addSubarea_ok ha2
            simp only [Strip.overlaps, not_or, not_exists, not_and, not_lt, gt_iff_lt] at ho
            have ho2 := ho.2 _ hfl
            intro f' g' hf' hg'
            simp only [Strip.updateSlat, Strip.updateFlap, hs, hf, Option.map_some,
              Option.some.injEq] at hf' hg'
            subst hf' hg'
            exact ⟨(hp f g hs hf).1, ho2.1⟩

theorem gapInv_closedOk (interp : Interp K) :
    ClosedOk interp (fun _ => True) (fun sds : List (Strip K) => ∀ s ∈ sds, ChordInv s ∧ GapInv s) where
  split := by
    intro sds idx prev p n e d hT hidx _ _ hA hB _ hi
    have hm := hT prev (List.mem_of_getElem? hidx)
    obtain ⟨h1, h2⟩ := (hm.1.eta e d).inheritDevices (ChordInv.init _ _ _ _) hi
    have hg : GapInv { prev with etaB := e, etaC := d } := hm.2
    obtain ⟨h3, h4⟩ := hg.inheritDevices (hm.1.eta e d) (by simp [Strip.init]) hi
    exact mem_set_append hT ⟨h1, h3⟩ ⟨h2, h4⟩
  add := by
    intro sds idx s s' c x1 x2 h1 h2 _ hT hidx ha
    have := hT s (List.mem_of_getElem? hidx)
    exact mem_set_P hT ⟨this.1.addSubarea ha, this.2.addSubarea ha⟩

theorem gapInv_init : ∀ s ∈ (initStrips : List (Strip K)), ChordInv s ∧ GapInv s := by
  intro s hs
  refine ⟨chordInv_init s hs, ?_⟩
  simp only [initStrips, List.mem_singleton] at hs
  subst hs
  intro f g hf; simp [Strip.init] at hf

end Verif
