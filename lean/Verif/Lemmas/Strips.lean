import Verif.Model.Strips

/-! Helper lemmas about strips; the properties themselves are in `Verif.Props.Strips`. -/

set_option linter.unusedSectionVars false

namespace Verif
variable {K : Type*} [Field K] [LinearOrder K]

/-! ### `_add_subarea` -/

theorem addSubarea_ok {s s' : Strip K} {c : Control} {x1 x2 : K} {h1 h2 : Option K}
    (h : s.addSubarea c x1 x2 h1 h2 = .ok s') :
    (0 < x1 ∧ x1 < 1 ∧ 0 < x2 ∧ x2 < 1) ∧
    (0 ≤ h1.getD x1 ∧ h1.getD x1 ≤ 1 ∧ 0 ≤ h2.getD x2 ∧ h2.getD x2 ≤ 1) ∧
    ¬ s.overlaps x1 x2 ∧
    ((c.deviceType = "slat" ∧ s.slat = none ∧ s' = { s with
        slat := some { Quad.init 0 0 x1 x2 with h1 := h1.getD x1, h2 := h2.getD x2, ctrl := c }
        main := { s.main with xsiA := x1, xsiB := x2 }
        keys := s.keys ++ ["slat"] }) ∨
     (c.deviceType = "flap" ∧ s.flap = none ∧ s' = { s with
        flap := some { Quad.init x1 x2 1 1 with h1 := h1.getD x1, h2 := h2.getD x2, ctrl := c }
        main := { s.main with xsiC := x2, xsiD := x1 }
        keys := s.keys ++ ["flap"] })) := by
  unfold Strip.addSubarea at h
  dsimp only at h
  split_ifs at h with h0 h3 h4 h5 h6 h7
  · have hs : s.slat = none := by
      by_contra hne
      exact h3 (Or.inl ⟨h7, by simpa [Option.isSome_iff_ne_none] using hne⟩)
    push Not at h4 h5
    refine ⟨⟨h4.2.1, h4.2.2, h4.1.1, h4.1.2⟩, ⟨h5.1.1, h5.1.2, h5.2.1, h5.2.2⟩, h6, Or.inl ⟨h7, hs, ?_⟩⟩
    simpa using h.symm
  · have hf : c.deviceType = "flap" := by
      by_contra hne
      exact h0 ⟨h7, hne⟩
    have hs : s.flap = none := by
      by_contra hne
      exact h3 (Or.inr ⟨hf, by simpa [Option.isSome_iff_ne_none] using hne⟩)
    push Not at h4 h5
    refine ⟨⟨h4.2.1, h4.2.2, h4.1.1, h4.1.2⟩, ⟨h5.1.1, h5.1.2, h5.2.1, h5.2.2⟩, h6, Or.inr ⟨hf, hs, ?_⟩⟩
    simpa using h.symm

theorem addSubarea_eta {s s' : Strip K} {c : Control} {x1 x2 : K} {h1 h2 : Option K}
    (h : s.addSubarea c x1 x2 h1 h2 = .ok s') :
    s'.etaA = s.etaA ∧ s'.etaB = s.etaB ∧ s'.etaC = s.etaC ∧ s'.etaD = s.etaD := by
  obtain ⟨-, -, -, ⟨-, -, rfl⟩ | ⟨-, -, rfl⟩⟩ := addSubarea_ok h <;> simp

/-! ### Inheritance of devices -/

theorem inheritFlap_cases (interp : Interp K) (eA eB eta : K) (prev new : Strip K) :
    (inheritFlap interp eA eB eta prev new).2 = (prev, new) ∨
    ∃ f new', prev.flap = some f ∧
      new.addSubarea f.ctrl (interp (eA, f.xsiA) (eB, f.xsiB) eta) f.xsiB
        (some (interp (eA, f.h1) (eB, f.h2) eta)) (some f.h2) = .ok new' ∧
      inheritFlap interp eA eB eta prev new = (.ok (),
        prev.updateFlap f.xsiA (interp (eA, f.xsiA) (eB, f.xsiB) eta) f.h1
          (interp (eA, f.h1) (eB, f.h2) eta), new') := by
  unfold inheritFlap
  cases hf : prev.flap with
  | none => left; simp
  | some f =>
    simp only
    cases hn : new.addSubarea f.ctrl (interp (eA, f.xsiA) (eB, f.xsiB) eta) f.xsiB
        (some (interp (eA, f.h1) (eB, f.h2) eta)) (some f.h2) with
    | error e => left; simp
    | ok new' => right; exact ⟨f, new', rfl, hn, by simp⟩

theorem inheritSlat_cases (interp : Interp K) (eA eB eta : K) (prev new : Strip K) :
    (inheritSlat interp eA eB eta prev new).2 = (prev, new) ∨
    ∃ f new', prev.slat = some f ∧
      new.addSubarea f.ctrl (interp (eA, f.xsiD) (eB, f.xsiC) eta) f.xsiC
        (some (interp (eA, f.h1) (eB, f.h2) eta)) (some f.h2) = .ok new' ∧
      inheritSlat interp eA eB eta prev new = (.ok (),
        prev.updateSlat f.xsiD (interp (eA, f.xsiD) (eB, f.xsiC) eta) f.h1
          (interp (eA, f.h1) (eB, f.h2) eta), new') := by
  unfold inheritSlat
  cases hf : prev.slat with
  | none => left; simp
  | some f =>
    simp only
    cases hn : new.addSubarea f.ctrl (interp (eA, f.xsiD) (eB, f.xsiC) eta) f.xsiC
        (some (interp (eA, f.h1) (eB, f.h2) eta)) (some f.h2) with
    | error e => left; simp
    | ok new' => right; exact ⟨f, new', rfl, hn, by simp⟩

theorem inheritFlap_eta (interp : Interp K) (eA eB eta : K) (prev new : Strip K) :
    let r := inheritFlap interp eA eB eta prev new
    (r.2.1.etaA = prev.etaA ∧ r.2.1.etaB = prev.etaB ∧ r.2.1.etaC = prev.etaC ∧
      r.2.1.etaD = prev.etaD) ∧
    (r.2.2.etaA = new.etaA ∧ r.2.2.etaB = new.etaB ∧ r.2.2.etaC = new.etaC ∧
      r.2.2.etaD = new.etaD) := by
  rcases inheritFlap_cases interp eA eB eta prev new with h | ⟨f, n, _, hn, h⟩
  · simp [h]
  · simp only [h]; exact ⟨by simp [Strip.updateFlap], addSubarea_eta hn⟩

theorem inheritSlat_eta (interp : Interp K) (eA eB eta : K) (prev new : Strip K) :
    let r := inheritSlat interp eA eB eta prev new
    (r.2.1.etaA = prev.etaA ∧ r.2.1.etaB = prev.etaB ∧ r.2.1.etaC = prev.etaC ∧
      r.2.1.etaD = prev.etaD) ∧
    (r.2.2.etaA = new.etaA ∧ r.2.2.etaB = new.etaB ∧ r.2.2.etaC = new.etaC ∧
      r.2.2.etaD = new.etaD) := by
  rcases inheritSlat_cases interp eA eB eta prev new with h | ⟨f, n, _, hn, h⟩
  · simp [h]
  · simp only [h]; exact ⟨by simp [Strip.updateSlat], addSubarea_eta hn⟩

theorem inheritDevices_cases (interp : Interp K) (eA eB eta : K) (prev new : Strip K) :
    (∃ e, inheritDevices interp eA eB eta prev new =
        (.error e, (inheritFlap interp eA eB eta prev new).2)) ∨
    (∃ p n, inheritFlap interp eA eB eta prev new = (.ok (), p, n) ∧
      inheritDevices interp eA eB eta prev new = inheritSlat interp eA eB eta p n) := by
  unfold inheritDevices
  rcases hf : inheritFlap interp eA eB eta prev new with ⟨r, p, n⟩
  cases r with
  | error e => left; exact ⟨e, rfl⟩
  | ok u => right; exact ⟨p, n, rfl, rfl⟩

theorem inheritDevices_eta {interp : Interp K} {eA eB eta : K} {prev new p n : Strip K}
    {r : Except PyErr Unit} (h : inheritDevices interp eA eB eta prev new = (r, p, n)) :
    (p.etaA = prev.etaA ∧ p.etaB = prev.etaB ∧ p.etaC = prev.etaC ∧ p.etaD = prev.etaD) ∧
    (n.etaA = new.etaA ∧ n.etaB = new.etaB ∧ n.etaC = new.etaC ∧ n.etaD = new.etaD) := by
  have hf := inheritFlap_eta interp eA eB eta prev new
  rcases inheritDevices_cases interp eA eB eta prev new with ⟨e, he⟩ | ⟨p', n', h1, h2⟩
  · rw [h] at he
    have : (p, n) = (inheritFlap interp eA eB eta prev new).2 := by
      simpa using congrArg Prod.snd he
    simp only [← this] at hf
    exact hf
  · have hs := inheritSlat_eta interp eA eB eta p' n'
    rw [← h2, h] at hs
    rw [h1] at hf
    simp only at hf hs
    obtain ⟨⟨a1, a2, a3, a4⟩, b1, b2, b3, b4⟩ := hf
    obtain ⟨⟨c1, c2, c3, c4⟩, d1, d2, d3, d4⟩ := hs
    simp only [a1, a2, a3, a4, b1, b2, b3, b4] at c1 c2 c3 c4 d1 d2 d3 d4
    exact ⟨⟨c1, c2, c3, c4⟩, d1, d2, d3, d4⟩

/-! ### Lookup -/

theorem getSubdivAtEtaFrom_some {eta : K} {sds : List (Strip K)} {k i : ℕ} {s : Strip K} {b : Bool}
    (h : getSubdivAtEtaFrom eta k sds = some (i, s, b)) :
    k ≤ i ∧ sds[i - k]? = some s ∧ s.etaA ≤ eta ∧ eta < s.etaB ∧ (b = true ↔ eta = s.etaA) := by
  induction sds generalizing k with
  | nil => simp [getSubdivAtEtaFrom] at h
  | cons t rest ih =>
    unfold getSubdivAtEtaFrom at h
    split_ifs at h with hc
    · simp only [Option.some.injEq, Prod.mk.injEq] at h
      obtain ⟨rfl, rfl, rfl⟩ := h
      exact ⟨le_refl _, by simp, hc.1, hc.2, by simp⟩
    · obtain ⟨h1, h2, h3⟩ := ih h
      refine ⟨by omega, ?_, h3⟩
      have : i - k = (i - (k + 1)) + 1 := by omega
      rw [this, List.getElem?_cons_succ]
      exact h2

theorem getSubdivAtEta_some {eta : K} {sds : List (Strip K)} {i : ℕ} {s : Strip K} {b : Bool}
    (h : getSubdivAtEta sds eta = some (i, s, b)) :
    sds[i]? = some s ∧ s.etaA ≤ eta ∧ eta < s.etaB ∧ (b = true ↔ eta = s.etaA) := by
  simpa using (getSubdivAtEtaFrom_some h).2

theorem getSubdivAtEtaFrom_none {eta : K} {sds : List (Strip K)} {k : ℕ}
    (h : getSubdivAtEtaFrom eta k sds = none) : ∀ s ∈ sds, ¬ (s.etaA ≤ eta ∧ eta < s.etaB) := by
  induction sds generalizing k with
  | nil => simp
  | cons t rest ih =>
    unfold getSubdivAtEtaFrom at h
    split_ifs at h with hc
    intro s hs
    rcases List.mem_cons.1 hs with rfl | hs
    · exact hc
    · exact ih h s hs

/-! ### A closure principle for histories -/

/-- `P` is preserved by a split of a strip (line pair `(e, d)` admitted by `Q`) and by adding a
subarea to a strip. -/
structure Closed (interp : Interp K) (Q : K → K → Prop) (P : List (Strip K) → Prop) : Prop where
  split : ∀ {sds : List (Strip K)} {idx : ℕ} {prev p n : Strip K} {e d : K}
    {r : Except PyErr Unit},
    P sds → Q e d → sds[idx]? = some prev → 0 < e → e < 1 → prev.etaA < e → e < prev.etaB →
    minEtaLimit ≤ e - prev.etaA →
    inheritDevices interp prev.etaA prev.etaB e { prev with etaB := e, etaC := d }
      (Strip.init e prev.etaB prev.etaC d) = (r, p, n) →
    P (sds.set idx p ++ [n])
  add : ∀ {sds : List (Strip K)} {idx : ℕ} {s s' : Strip K} {c : Control} {x1 x2 : K}
    {h1 h2 : Option K},
    P sds → sds[idx]? = some s → s.addSubarea c x1 x2 h1 h2 = .ok s' → P (sds.set idx s')

/-- Why a call of `add_subdivision` left the segment unchanged. -/
inductive Refused (e : K) (ign : Bool) (sds : List (Strip K)) : Except PyErr (Option ℕ) → Prop
  | invalid : e ≤ 0 ∨ 1 ≤ e → Refused e ign sds (if ign then .ok none else .error .valueError)
  | outside : 0 < e → e < 1 → (∀ s ∈ sds, ¬ (s.etaA ≤ e ∧ e < s.etaB)) →
      Refused e ign sds (.error .typeError)
  | close (i : ℕ) (s : Strip K) : 0 < e → e < 1 → sds[i]? = some s → s.etaA ≤ e → e < s.etaB →
      (e = s.etaA ∨ e - s.etaA < minEtaLimit) → Refused e ign sds (.ok (some i))

theorem addSubdivision_cases (interp : Interp K) (e d : K) (ign : Bool) (sds : List (Strip K)) :
    ((addSubdivision interp e d ign sds).2 = sds ∧
      Refused e ign sds (addSubdivision interp e d ign sds).1) ∨
    ∃ (idx : ℕ) (prev p n : Strip K) (r : Except PyErr Unit),
      sds[idx]? = some prev ∧ 0 < e ∧ e < 1 ∧ prev.etaA < e ∧ e < prev.etaB ∧
      minEtaLimit ≤ e - prev.etaA ∧
      inheritDevices interp prev.etaA prev.etaB e { prev with etaB := e, etaC := d }
        (Strip.init e prev.etaB prev.etaC d) = (r, p, n) ∧
      addSubdivision interp e d ign sds =
        (r.map (fun _ => some sds.length), sds.set idx p ++ [n]) := by
  unfold addSubdivision
  by_cases h0 : e ≤ 0 ∨ 1 ≤ e
  · left; simp only [h0, if_true]; exact ⟨trivial, Refused.invalid h0⟩
  · simp only [h0, if_false]
    push Not at h0
    cases hg : getSubdivAtEta sds e with
    | none =>
      left
      exact ⟨rfl, Refused.outside h0.1 h0.2 (getSubdivAtEtaFrom_none hg)⟩
    | some v =>
      obtain ⟨idx, prev, b⟩ := v
      obtain ⟨g1, g2, g3, g4⟩ := getSubdivAtEta_some hg
      by_cases hb : b = true
      · left; simp only [hb, if_true]
        exact ⟨trivial, Refused.close idx prev h0.1 h0.2 g1 g2 g3 (Or.inl (g4.1 hb))⟩
      · simp only [hb]
        by_cases hl : e - prev.etaA < minEtaLimit
        · left; simp only [hl, if_true]
          exact ⟨rfl, Refused.close idx prev h0.1 h0.2 g1 g2 g3 (Or.inr hl)⟩
        · right
          have hne : e ≠ prev.etaA := fun h => hb (g4.2 h)
          rcases hi : inheritDevices interp prev.etaA prev.etaB e
            { prev with etaB := e, etaC := d } (Strip.init e prev.etaB prev.etaC d) with ⟨r, p, n⟩
          refine ⟨idx, prev, p, n, r, g1, h0.1, h0.2, lt_of_le_of_ne g2 (Ne.symm hne), g3,
            not_lt.1 hl, hi, ?_⟩
          cases r <;> simp [hl, Except.map]

theorem Closed.addSubdivision {interp : Interp K} {Q : K → K → Prop} {P : List (Strip K) → Prop}
    (hP : Closed interp Q P) {e d : K} (hQ : Q e d) (ign : Bool) {sds : List (Strip K)}
    (h : P sds) : P (addSubdivision interp e d ign sds).2 := by
  rcases addSubdivision_cases interp e d ign sds with ⟨h1, -⟩ |
    ⟨idx, prev, p, n, r, h1, h2, h3, h4, h5, h6, h7, h8⟩
  · rw [h1]; exact h
  · rw [h8]; exact hP.split h hQ h1 h2 h3 h4 h5 h6 h7

theorem Closed.addRows {interp : Interp K} {Q : K → K → Prop} {P : List (Strip K) → Prop}
    (hP : Closed interp Q P) (c : Control) (rows : List (Row K)) {sds : List (Strip K)}
    (h : P sds) : P (addRows c rows sds).2 := by
  induction rows generalizing sds with
  | nil => simpa [Verif.addRows] using h
  | cons r rest ih =>
    unfold Verif.addRows
    cases hs : sds[r.idx]? with
    | none => exact h
    | some s =>
      simp only
      cases ha : s.addSubarea c r.xsi1 r.xsi2 (some r.h1) (some r.h2) with
      | error e => exact h
      | ok s' => exact ih (hP.add h hs ha)

theorem Closed.controlFrom {interp : Interp K} {Q : K → K → Prop} {P : List (Strip K) → Prop}
    (hP : Closed interp Q P) {a b : K} (hQ : Q b b) (c : Control) (x1 x2 h1 h2 : K) (i : ℕ)
    {sds : List (Strip K)} (h : P sds) : P (controlFrom interp a b c x1 x2 h1 h2 i sds).2 := by
  have hsub : ∀ r s', Verif.addSubdivision interp b b false sds = (r, s') → P s' := by
    intro r s' hh
    have := hP.addSubdivision hQ false h
    rwa [hh] at this
  unfold Verif.controlFrom
  cases hs : sds[i]? with
  | none => exact h
  | some sd1 =>
    simp only
    split_ifs with c1 c2
    · exact hP.addRows _ _ h
    · rcases ha : Verif.addSubdivision interp b b false sds with ⟨r, s'⟩
      have h' := hsub r s' ha
      cases r with
      | error e => exact h'
      | ok u => exact hP.addRows _ _ h'
    · cases ho : getOuterNeighbour sds sd1.etaB with
      | none => exact h
      | some outer =>
        simp only
        cases hso : sds[outer]? with
        | none => exact h
        | some o =>
          simp only
          split
          · exact h
          · split
            · exact h
            · split_ifs with c3
              · rcases ha : Verif.addSubdivision interp b b false sds with ⟨r, s'⟩
                have h' := hsub r s' ha
                cases r with
                | error e => exact h'
                | ok u => exact hP.addRows _ _ h'
              · exact hP.addRows _ _ h

theorem Closed.addSubdivisionForControl {interp : Interp K} {Q : K → K → Prop}
    {P : List (Strip K) → Prop}
    (hP : Closed interp Q P) {a b : K} (hQa : Q a a) (hQ : Q b b) (c : Control) (x1 x2 : K)
    (h1 h2 : Option K) {sds : List (Strip K)} (h : P sds) :
    P (addSubdivisionForControl interp a b c x1 x2 h1 h2 sds).2 := by
  unfold Verif.addSubdivisionForControl
  simp only
  split_ifs with h0
  · exact hP.controlFrom hQ _ _ _ _ _ _ h
  · have := hP.addSubdivision hQa false h
    rcases ha : Verif.addSubdivision interp a a false sds with ⟨r, s'⟩
    rw [ha] at this
    rcases r with e | (_ | i)
    · exact this
    · exact this
    · exact hP.controlFrom hQ _ _ _ _ _ _ this

/-- The line pairs that a call may request are admitted by `Q`. -/
def SegOp.Admits (Q : K → K → Prop) : SegOp K → Prop
  | .divide a d _ => Q a d
  | .control a b .. => Q a a ∧ Q b b

theorem Closed.run {interp : Interp K} {Q : K → K → Prop} {P : List (Strip K) → Prop}
    (hP : Closed interp Q P) {op : SegOp K} (hop : op.Admits Q)
    {sds : List (Strip K)} (h : P sds) : P (op.run interp sds) := by
  cases op with
  | divide a d ign => exact hP.addSubdivision hop ign h
  | control a b c x1 x2 h1 h2 => exact hP.addSubdivisionForControl hop.1 hop.2 _ _ _ _ _ h

theorem Closed.runOps {interp : Interp K} {Q : K → K → Prop} {P : List (Strip K) → Prop}
    (hP : Closed interp Q P) (h0 : P initStrips) {ops : List (SegOp K)}
    (hops : ∀ op ∈ ops, op.Admits Q) : P (runOps interp ops) := by
  unfold Verif.runOps
  generalize (initStrips : List (Strip K)) = s0 at h0 ⊢
  induction ops generalizing s0 with
  | nil => exact h0
  | cons op rest ih =>
    simp only [List.foldl_cons]
    exact ih (fun o ho => hops o (List.mem_cons_of_mem _ ho)) _
      (hP.run (hops op (by simp)) h0)

end Verif
