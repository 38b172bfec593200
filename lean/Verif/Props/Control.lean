import Verif.Lemmas.Control
import Verif.Props.Strips

/-!
# Property C07: a control surface covers exactly its requested spanwise range

Specification: for a strip and a spanwise coordinate on it, "the device of control `c` is there"
means that the strip's slat or flap belongs to `c` (`Strip.carries`).
-/

set_option linter.unusedSectionVars false

namespace Verif

instance {K : Type*} [Field K] [LinearOrder K] (s : Strip K) (c : Control) :
    Decidable (s.carries c) :=
  decidable_of_iff ((s.slat.any fun f => decide (f.ctrl = c)) = true ∨
      (s.flap.any fun f => decide (f.ctrl = c)) = true)
    (by unfold Strip.carries; cases s.slat <;> cases s.flap <;> simp)

variable {K : Type*} [Field K] [LinearOrder K] [IsStrictOrderedRing K]

/-- **C07** as stated is *false* in the code, even with the 0.01 snapping distance: a control
thinner than 0.01 is extended to the next border.  A flap requested from 0.5 to 0.505 on a plain
segment covers everything from 0.5 to 1. -/
theorem C07_control_range_false :
    ¬ ∀ (interp : Interp ℚ) (ops : List (SegOp ℚ)) (a b x1 x2 : ℚ) (c : Control),
      0 ≤ a → a < b → b ≤ 1 → (∀ s ∈ runOps interp ops, ¬ s.carries c) →
      (addSubdivisionForControl interp a b c x1 x2 none none (runOps interp ops)).1 = .ok () →
      ∀ s ∈ (addSubdivisionForControl interp a b c x1 x2 none none (runOps interp ops)).2,
        s.carries c → ∀ x, s.etaA ≤ x → x < s.etaB → a - 1/100 ≤ x ∧ x < b + 1/100 := by
  intro h
  have := h linInterp [] (1/2) (101/200) (7/10) (7/10) ⟨"flap", "flap"⟩ (by norm_num)
    (by norm_num) (by norm_num) (by decide +kernel) (by decide +kernel)
  have h2 : ∃ s ∈ (addSubdivisionForControl linInterp (1/2) (101/200) ⟨"flap", "flap"⟩ (7/10)
      (7/10) none none (runOps linInterp [])).2, s.carries ⟨"flap", "flap"⟩ ∧
      s.etaA ≤ 9/10 ∧ (9/10 : ℚ) < s.etaB := by decide +kernel
  obtain ⟨s, hs, hc, h3, h4⟩ := h2
  have := (this s hs hc (9/10) h3 h4).2
  norm_num at this

/-- The same with a range of ordinary width that ends 0.005 beyond an existing division line:
a flap from 0.2 to 0.505 on a segment divided at 0.5 covers 0.2 to 1. -/
theorem C07_control_range_false_at_border :
    ∃ s ∈ (addSubdivisionForControl linInterp (1/5) (101/200) ⟨"flap", "flap"⟩ (7/10) (7/10)
      none none (runOps linInterp [.divide (1/2) (1/2) true])).2,
      s.carries ⟨"flap", "flap"⟩ ∧ s.etaA = 1/2 ∧ s.etaB = 1 ∧
      (addSubdivisionForControl linInterp (1/5) (101/200) ⟨"flap", "flap"⟩ (7/10) (7/10)
        none none (runOps linInterp [.divide (1/2) (1/2) true])).1 = .ok () := by
  decide +kernel

/-- **C07** (partial).  Let all requested coordinates (of the history and of the new control),
together with 0 and 1, be pairwise equal or at least 0.01 apart, and let the control be new on
this segment.  Then the call either raises `ValueError` (device refused) or the device is present
at a coordinate exactly if `a ≤ x < b`; no other outcome (in particular no "Too many loops").
Missing: coordinates closer than 0.01 to each other, for which the claim is false. -/
theorem C07_control_range_partial (interp : Interp K) (ops : List (SegOp K)) (S : Set K)
    (h0 : (0 : K) ∈ S) (h1 : (1 : K) ∈ S)
    (hS : ∀ x ∈ S, ∀ y ∈ S, x < y → 1/100 ≤ y - x)
    (hops : ∀ op ∈ ops, ∀ x ∈ op.lines, x ∈ S)
    (a b x1 x2 : K) (g1 g2 : Option K) (c : Control) (ha : a ∈ S) (hb : b ∈ S)
    (ha0 : 0 ≤ a) (hab : a < b) (hb1 : b ≤ 1)
    (hnew : ∀ s ∈ runOps interp ops, ¬ s.carries c) :
    let res := addSubdivisionForControl interp a b c x1 x2 g1 g2 (runOps interp ops)
    res.1 = .error .valueError ∨
    (res.1 = .ok () ∧ ∀ s ∈ res.2, ∀ x, s.etaA ≤ x → x < s.etaB →
      (s.carries c ↔ a ≤ x ∧ x < b)) := by
  have hg : Grid S (runOps interp ops) := by
    refine (grid_closed interp S).runOps (grid_init h0 h1) ?_
    intro op hop
    have := hops op hop
    cases op with
    | divide a d ign => exact this a (by simp [SegOp.lines])
    | control a b c x1 x2 g1 g2 =>
      exact ⟨this a (by simp [SegOp.lines]), this b (by simp [SegOp.lines])⟩
  exact control_outcome hS hg hnew ha hb ha0 hab hb1

/-- Non-vacuity: a second flap from 0.65 to 0.9 after the demo history; the call succeeds. -/
example : ∃ S : Set ℚ, (0 : ℚ) ∈ S ∧ (1 : ℚ) ∈ S ∧
    (∀ x ∈ S, ∀ y ∈ S, x < y → 1/100 ≤ y - x) ∧
    (∀ op ∈ demoOps, ∀ x ∈ op.lines, x ∈ S) ∧ (13/20 : ℚ) ∈ S ∧ (9/10 : ℚ) ∈ S ∧
    (∀ s ∈ runOps linInterp demoOps, ¬ s.carries ⟨"flap2", "flap"⟩) ∧
    (addSubdivisionForControl linInterp (13/20) (9/10) ⟨"flap2", "flap"⟩ (4/5) (4/5) none none
      (runOps linInterp demoOps)).1 = .ok () := by
  refine ⟨{x | x ∈ [0, 1/5, 3/5, 1/2, 2/5, 1, 9/10, 9/20, 13/20]}, ?_, ?_, ?_, ?_, ?_, ?_, ?_, ?_⟩
  · simp
  · simp
  · simp only [Set.mem_ofPred_eq]; decide +kernel
  · simp only [Set.mem_ofPred_eq]; decide +kernel
  · simp
  · simp
  · decide +kernel
  · decide +kernel

end Verif
