import Verif.Lemmas.PrePanel
import Verif.Props.Strips
import Mathlib.Algebra.Order.BigOperators.Group.List
import Mathlib.Data.Rat.Floor

/-!
# Pre-panelling of whole aircraft: C01, C04, C05, C06 lifted to aircraft, C09, C10
-/

set_option linter.unusedSectionVars false

namespace Verif
variable {K : Type*} [Field K] [LinearOrder K] [IsStrictOrderedRing K]

/-- An aircraft as loaded: every segment is one undivided strip (`aircraft.py:619-626`). -/
def PAircraft.Unpanelled (ac : PAircraft K) : Prop :=
  ∀ w ∈ ac.wings, ∀ s ∈ w.segments, s.strips = initStrips

theorem panelled_history {ac ac' : PAircraft K} (hu : ac.Unpanelled)
    (h : prePanelling ac = .ok ac') : ∀ w ∈ ac'.wings, ∀ s ∈ w.segments,
      ∃ ops : List (SegOp K), (∀ op ∈ ops, op.chordLine) ∧
        runOpsOk s.interp ops initStrips = .ok s.strips := by
  intro w' hw' s' hs'
  obtain ⟨w, hw, hww⟩ := forall₂_mem_right (prePanelling_step h) hw'
  obtain ⟨s, hs, hr, ops, hc, hh⟩ := forall₂_mem_right hww.segs hs'
  refine ⟨ops, ?_, ?_⟩
  · intro op hop
    have := (hc op hop).1
    cases op <;> exact this
  · have : s'.interp = s.interp := by rw [hr]
    rw [this, ← hu w hw s hs]
    exact hh

theorem panelled_history' {ac ac' : PAircraft K} (hu : ac.Unpanelled)
    (h : prePanelling ac = .ok ac') : ∀ w ∈ ac'.wings, ∀ s ∈ w.segments,
      ∃ ops : List (SegOp K), (∀ op ∈ ops, op.chordLine) ∧ runOps s.interp ops = s.strips := by
  intro w hw s hs
  obtain ⟨ops, hc, hh⟩ := panelled_history hu h w hw s hs
  exact ⟨ops, hc, runOpsOk_run hh⟩

/-- **C01** for aircraft: after pre-panelling the strips of each segment tile `[0, 1)`. -/
theorem C01_aircraft_strips_tile (ac ac' : PAircraft K) (hu : ac.Unpanelled)
    (h : prePanelling ac = .ok ac') :
    ∀ w ∈ ac'.wings, ∀ s ∈ w.segments, TilesUnit (s.strips.map Strip.range) := by
  intro w hw s hs
  obtain ⟨ops, -, hh⟩ := panelled_history' hu h w hw s hs
  rw [← hh]
  exact C01_strips_tile _ _

/-- **C04** for aircraft: pre-panelling only draws chord lines. -/
theorem C04_aircraft_chord_lines (ac ac' : PAircraft K) (hu : ac.Unpanelled)
    (h : prePanelling ac = .ok ac') :
    ∀ w ∈ ac'.wings, ∀ s ∈ w.segments, ∀ st ∈ s.strips,
      st.etaA = st.etaD ∧ st.etaB = st.etaC := by
  intro w hw s hs
  obtain ⟨ops, hc, hh⟩ := panelled_history' hu h w hw s hs
  rw [← hh]
  exact C04_chord_lines _ _ hc

/-- **C05** for aircraft: slat, main area and flap tile every strip chordwise. -/
theorem C05_aircraft_chordwise_tiling (ac ac' : PAircraft K) (hu : ac.Unpanelled)
    (h : prePanelling ac = .ok ac') :
    ∀ w ∈ ac'.wings, ∀ s ∈ w.segments, ∀ st ∈ s.strips,
      Joins 1 0 st.innerExtents ∧ Joins 1 0 st.outerExtents := by
  intro w hw s hs st hst
  obtain ⟨ops, -, hh⟩ := panelled_history' hu h w hw s hs
  rw [← hh] at hst
  have := C05_chordwise_tiling _ _ st hst
  exact ⟨this.1, this.2.1⟩

/-- **C06** for aircraft: every subarea has positive chordwise extent, slat and flap stay 0.01
apart. -/
theorem C06_aircraft_gap (ac ac' : PAircraft K) (hu : ac.Unpanelled)
    (h : prePanelling ac = .ok ac') :
    ∀ w ∈ ac'.wings, ∀ s ∈ w.segments, ∀ st ∈ s.strips,
      (∀ p ∈ st.innerExtents, p.1 < p.2) ∧ (∀ p ∈ st.outerExtents, p.1 < p.2) ∧
      ∀ f ∈ st.slat, ∀ g ∈ st.flap, f.xsiD + 1/100 ≤ g.xsiA ∧ f.xsiC + 1/100 ≤ g.xsiB := by
  intro w hw s hs st hst
  obtain ⟨ops, -, hh⟩ := panelled_history hu h w hw s hs
  have := C06_gap_kept _ _ _ hh st hst
  exact ⟨this.1, this.2.1, fun f hf g hg => ⟨(this.2.2 f hf g hg).1, (this.2.2 f hf g hg).2.1⟩⟩

/-! ## Example aircraft -/

/-- Two segments, a flap reaching from the first to the second one, and a slat. -/
def demoWing : PWing ℚ :=
  { uid := "W", symmetry := 2
    segments :=
      [⟨"S1", 2, some 4, some 5, linInterp, fun a _ b _ => 2 * (b - a), initStrips⟩,
       ⟨"S2", 3, none, none, linInterp, fun a _ b _ => 3 * (b - a), initStrips⟩]
    controls :=
      [⟨"F", "flap", "S1", "S2", 1/2, 2/5, 7/10, 4/5, some (7/10), some (4/5), none⟩,
       ⟨"L", "slat", "S1", "S1", 1/5, 4/5, 1/5, 1/5, none, none, some 2⟩] }

/-- The demo aircraft after `set_autopanels`: a four-panel and a six-panel segment. -/
def demoAircraft : PAircraft ℚ :=
  { wings := [{ demoWing with segments := demoWing.segments.map fun s =>
      { s with numS := some (if s.uid = "S1" then 4 else 6) } }] }

/-- Pre-panelling the demo aircraft succeeds; its hypotheses are met. -/
example : demoAircraft.Unpanelled ∧
    (prePanelling demoAircraft).toOption.map
        (fun ac => ac.wings.map fun w => w.segments.map fun s => s.strips.map Strip.range) = some
        [[[(0, 1/5), (1/2, 3/4), (1/5, 1/4), (4/5, 1), (1/4, 1/2), (3/4, 4/5)],
          [(0, 1/6), (2/5, 1/2), (1/6, 1/3), (1/3, 2/5), (1/2, 2/3), (2/3, 5/6), (5/6, 1)]]] := by
  refine ⟨?_, ?_⟩
  · intro w hw s hs
    simp only [demoAircraft, demoWing, List.mem_singleton] at hw
    subst hw
    simp only [List.map_cons, List.map_nil, List.mem_cons, List.not_mem_nil, or_false] at hs
    rcases hs with rfl | rfl <;> rfl
  · decide +kernel

/-! ## C09 -/

/-- **C09.** A segment without devices and `1 ≤ num_s ≤ 100` gets exactly `num_s` strips, the
`k`-th from `k/num_s` to `(k+1)/num_s`.  (Exact arithmetic: with floating point numbers the limit
case `num_s = 100` is decided by rounding; see `C09_lines_delivered` for perturbed lines.) -/
theorem C09_num_strips (s : PSegment K) (n : ℕ) (h1 : 1 ≤ n) (h2 : n ≤ 100)
    (hn : s.numS = some (n : ℤ)) (hs : s.strips = initStrips) :
    ∃ s', s.addSpanLines = .ok s' ∧
      s'.strips.map Strip.range =
        (List.range n).map fun k : ℕ => ((k : K) / n, ((k : K) + 1) / n) := by
  have hn0 : (0 : K) < n := by exact_mod_cast h1
  have hn100 : (n : K) ≤ 100 := by exact_mod_cast h2
  have hl := addLines_plain s.interp (spanLines (K := K) n) 0 [] (by simp) le_rfl
    (spanLines_chain (by
      intro k _
      rw [← sub_div, add_sub_cancel_left]
      exact one_div_le_one_div_of_le hn0 hn100)) (fun x hx => (spanLines_mem hx).2)
  refine ⟨{ s with strips := plainStrips 0 (spanLines n) }, ?_, ?_⟩
  · unfold PSegment.addSpanLines
    simp only [hn, hs]
    rw [if_neg (by omega)]
    have : (initStrips : List (Strip K)) = [] ++ [Strip.init 0 1 1 0] := rfl
    simp only [Int.toNat_natCast]
    rw [this, hl]
    simp
  · exact plainStrips_spanLines h1

/-- **C09** for aircraft: all segments of wings without controls. -/
theorem C09_aircraft_num_strips (ac ac' : PAircraft K) (hu : ac.Unpanelled)
    (h : prePanelling ac = .ok ac') :
    ∀ w ∈ ac'.wings, w.controls = [] → ∀ s ∈ w.segments, ∀ n : ℕ, 1 ≤ n → n ≤ 100 →
      s.numS = some (n : ℤ) → s.strips.map Strip.range =
        (List.range n).map fun k : ℕ => ((k : K) / n, ((k : K) + 1) / n) := by
  intro w hw hc s hs n h1 h2 hn
  unfold prePanelling at h
  split at h
  · simp at h
  · rename_i ws e1
    split at h
    · simp at h
    · rename_i ws' e2
      simp only [Except.ok.injEq] at h
      subst h
      obtain ⟨w2, hw2, f2⟩ := forall₂_mem_right (mapE_ok e2) hw
      obtain ⟨w1, hw1, f1⟩ := forall₂_mem_right (mapE_ok e1) hw2
      unfold PWing.mapSegments at f1 f2
      split at f2
      · simp at f2
      · rename_i segs g2
        simp only [Except.ok.injEq] at f2
        subst f2
        split at f1
        · simp at f1
        · rename_i segs1 g1
          simp only [Except.ok.injEq] at f1
          subst f1
          simp only at hc hs g2
          rw [hc] at g1
          simp only [placeControls, Except.ok.injEq] at g1
          obtain ⟨s0, hs0, hss⟩ := forall₂_mem_right (mapE_ok g2) hs
          rw [← g1] at hs0
          have hi := hu w1 hw1 s0 hs0
          have hnum : s0.numS = some (n : ℤ) := by
            have := (addSpanLines_step (C := fun _ => True) hss).rest
            rw [this] at hn
            exact hn
          obtain ⟨s', hs', hr⟩ := C09_num_strips s0 n h1 h2 hnum hi
          rw [hss] at hs'
          cases hs'
          exact hr

/-- **C09**, robust form: any increasing lines that are at least 0.01 apart (for example the
rounded values of `k/num_s` for `num_s ≤ 99`) are all delivered, in order, and no others. -/
theorem C09_lines_delivered (interp : Interp K) (l : List K)
    (hgap : (0 :: l).IsChain (fun a b => 1/100 ≤ b - a)) (hlt : ∀ x ∈ l, x < 1) :
    ∃ sds, addLines interp l initStrips = .ok sds ∧ sds.map Strip.range =
      List.zip (0 :: l) (l ++ [1]) := by
  refine ⟨_, addLines_plain interp l 0 [] (by simp) le_rfl hgap hlt, ?_⟩
  simp only [List.nil_append]
  clear hgap hlt
  generalize (0 : K) = e
  induction l generalizing e with
  | nil => rfl
  | cons x rest ih =>
    simp only [plainStrips, List.map_cons, ih x]
    rfl

/-- **C09** is *false* beyond 100: for every `num_s > 100` fewer strips are made (at most 100). -/
theorem C09_too_many_false (s : PSegment K) (n : ℕ) (h : 100 < n)
    (hn : s.numS = some (n : ℤ)) (hs : s.strips = initStrips) :
    ∃ s', s.addSpanLines = .ok s' ∧ s'.strips.length ≤ 100 ∧ s'.strips.length < n := by
  have hn0 : (0 : K) < n := by exact_mod_cast (show 0 < n by omega)
  obtain ⟨e', L', h1, h2, h3⟩ := addLines_count s.interp (spanLines (K := K) n) 0 [] (by simp)
    le_rfl zero_lt_one (by simp) (spanLines_chain (by
      intro k _
      gcongr
      linarith)) (fun x hx => spanLines_mem hx)
  have hlen : L'.length < 100 := by
    have : (L'.length : K) < 100 := by linarith
    exact_mod_cast this
  refine ⟨{ s with strips := L' ++ [Strip.init e' 1 1 e'] }, ?_, ?_, ?_⟩
  · unfold PSegment.addSpanLines
    simp only [hn, hs]
    rw [if_neg (by omega)]
    simp only [Int.toNat_natCast]
    rw [show (initStrips : List (Strip K)) = [] ++ [Strip.init 0 1 1 0] from rfl, h1]
  · simp only [List.length_append, List.length_singleton]; omega
  · simp only [List.length_append, List.length_singleton]; omega

/-- Non-vacuity: a plain segment with seven panels. -/
example : ∃ s : PSegment ℚ, s.numS = some ((7 : ℕ) : ℤ) ∧ s.strips = initStrips :=
  ⟨⟨"S", 1, some 7, some 5, linInterp, fun _ _ _ _ => 1, initStrips⟩, rfl, rfl⟩

/-! ## C10 -/

theorem setAutopanels_segment [FloorRing K] {ws : K} {apC apS : ℤ} {s s' : PSegment K}
    (h : s.setAutopanels ws apC apS = .ok s') :
    (∀ n, s.numS = some n → s'.numS = some n) ∧ (∀ n, s.numC = some n → s'.numC = some n) ∧
    (s.numC = none → s'.numC = some apC) ∧
    (s.numS = none → ws ≠ 0 ∧ s'.numS = some ⌈s.span / ws * apS⌉) := by
  unfold PSegment.setAutopanels spanRatio at h
  dsimp only at h
  cases hc : s.numC <;> cases hS : s.numS <;> simp [hc, hS] at h
  · by_cases hw : ws = 0
    · simp [hw] at h
    · simp only [hw, if_false, Except.ok.injEq] at h
      subst h
      simp [hw]
  · subst h; simp
  · by_cases hw : ws = 0
    · simp [hw] at h
    · simp only [hw, if_false, Except.ok.injEq] at h
      subst h
      simp [hw]
  · subst h; simp [hS, hc]

/-- **C10**, user-given numbers are kept and missing chordwise numbers are filled in: for every
aircraft for which `set_autopanels` finishes, component by component. -/
theorem C10_user_numbers_kept [FloorRing K] (ac ac' : PAircraft K) (apC apS : ℤ)
    (h : setAutopanels apC apS ac = .ok ac') :
    List.Forall₂ (fun w w' =>
      w'.uid = w.uid ∧ w'.symmetry = w.symmetry ∧
      List.Forall₂ (fun s s' : PSegment K => s'.uid = s.uid ∧
        (∀ n, s.numS = some n → s'.numS = some n) ∧
        s'.numC = some (s.numC.getD apC) ∧ s'.numS ≠ none) w.segments w'.segments ∧
      List.Forall₂ (fun c c' : PControl K => c'.uid = c.uid ∧
        c'.numC = some (c.numC.getD apC)) w.controls w'.controls) ac.wings ac'.wings := by
  unfold setAutopanels at h
  split at h
  · simp at h
  · rename_i ws hws
    simp only [Except.ok.injEq] at h
    subst h
    refine (mapE_ok hws).imp ?_
    intro w w' hw
    unfold PWing.setAutopanels at hw
    split at hw
    · simp at hw
    · rename_i segs hsegs
      simp only [Except.ok.injEq] at hw
      subst hw
      refine ⟨rfl, rfl, (mapE_ok hsegs).imp ?_, ?_⟩
      · intro s s' hss
        obtain ⟨h1, h2, h3, h4⟩ := setAutopanels_segment hss
        refine ⟨?_, h1, ?_, ?_⟩
        · unfold PSegment.setAutopanels spanRatio at hss
          dsimp only at hss
          split_ifs at hss <;> simp only [Except.ok.injEq] at hss <;> subst hss <;> rfl
        · cases hc : s.numC with
          | none => simpa using h3 hc
          | some n => simpa using h2 n hc
        · cases hS : s.numS with
          | none => rw [(h4 hS).2]; simp
          | some n => rw [h1 n hS]; simp
      · rw [List.forall₂_map_right_iff]
        refine List.forall₂_same.2 ?_
        intro c _
        unfold PControl.setAutopanels
        split_ifs with hc
        · simp [hc]
        · cases hcc : c.numC with
          | none => exact absurd hcc hc
          | some n => simp

theorem list_ceil_sum [FloorRing K] (l : List K) (hne : l ≠ []) :
    l.sum ≤ (((l.map Int.ceil).sum : ℤ) : K) ∧
    (((l.map Int.ceil).sum : ℤ) : K) < l.sum + l.length := by
  induction l with
  | nil => exact absurd rfl hne
  | cons a rest ih =>
    have h1 := Int.le_ceil a
    have h2 := Int.ceil_lt_add_one a
    by_cases hr : rest = []
    · subst hr
      simp [h1, h2]
    · obtain ⟨i1, i2⟩ := ih hr
      simp only [List.map_cons, List.sum_cons, List.length_cons]
      push_cast at i1 i2 ⊢
      constructor <;> linarith

/-- **C10**, automatic spanwise numbers: with positive spans and a positive setting
`set_autopanels` never fails, each segment without own number gets at least one panel, and on a
wing without own numbers the total is at least the setting and less than the setting plus the
number of segments. -/
theorem C10_autopanels_sufficient [FloorRing K] (ac : PAircraft K) (apC apS : ℤ) (hap : 1 ≤ apS)
    (hspan : ∀ w ∈ ac.wings, ∀ s ∈ w.segments, 0 < s.span) :
    ∃ ac', setAutopanels apC apS ac = .ok ac' ∧
      List.Forall₂ (fun w w' =>
        (List.Forall₂ (fun s s' : PSegment K => s.numS = none → ∃ k, s'.numS = some k ∧ 1 ≤ k)
          w.segments w'.segments) ∧
        (w.segments ≠ [] → (∀ s ∈ w.segments, s.numS = none) →
          ∃ ks : List ℤ, w'.segments.map PSegment.numS = ks.map some ∧
            apS ≤ ks.sum ∧ ks.sum < apS + w.segments.length)) ac.wings ac'.wings := by
  have hapK : (0 : K) < (apS : K) := by exact_mod_cast (by omega : 0 < apS)
  have hpos : ∀ w ∈ ac.wings, ∀ s ∈ w.segments, 0 < w.span := by
    intro w hw s hs
    rw [wingSpan_eq]
    refine lt_of_lt_of_le (abs_pos.2 (hspan w hw s hs).ne') ?_
    exact List.single_le_sum (by
      intro x hx
      obtain ⟨t, -, rfl⟩ := List.mem_map.1 hx
      exact abs_nonneg _) _ (List.mem_map.2 ⟨s, hs, rfl⟩)
  have hsegs : ∀ w ∈ ac.wings,
      ∃ segs, mapE (PSegment.setAutopanels w.span apC apS) w.segments = .ok segs := by
    intro w hw
    refine mapE_total ?_
    intro s hs
    have := (hpos w hw s hs).ne'
    unfold PSegment.setAutopanels spanRatio
    dsimp only
    split_ifs <;> simp_all
  obtain ⟨ws, hws⟩ : ∃ ws, mapE (PWing.setAutopanels apC apS) ac.wings = .ok ws := by
    refine mapE_total ?_
    intro w hw
    obtain ⟨segs, h⟩ := hsegs w hw
    exact ⟨_, by unfold PWing.setAutopanels; rw [h]⟩
  refine ⟨{ ac with wings := ws }, by unfold setAutopanels; rw [hws], ?_⟩
  refine (mapE_ok_mem hws).imp ?_
  rintro w w' ⟨hw, hw'⟩
  obtain ⟨segs, hsegs⟩ := hsegs w hw
  unfold PWing.setAutopanels at hw'
  rw [hsegs] at hw'
  simp only [Except.ok.injEq] at hw'
  subst hw'
  have hfs := mapE_ok_mem hsegs
  refine ⟨hfs.imp ?_, ?_⟩
  · rintro s s' ⟨hs, hr⟩ hn
    obtain ⟨-, -, -, h4⟩ := setAutopanels_segment hr
    refine ⟨_, (h4 hn).2, Int.one_le_ceil_iff.2 ?_⟩
    have := hspan w hw s hs
    have := hpos w hw s hs
    positivity
  · intro hne hnone
    refine ⟨(w.segments.map fun s => s.span / w.span * (apS : K)).map Int.ceil, ?_, ?_, ?_⟩
    · have : ∀ l l' : List (PSegment K), (∀ s ∈ l, s.numS = none) →
          List.Forall₂ (fun s s' => PSegment.setAutopanels w.span apC apS s = .ok s') l l' →
          l'.map PSegment.numS =
            ((l.map fun s => s.span / w.span * (apS : K)).map Int.ceil).map some := by
        intro l l' hl h
        induction h with
        | nil => rfl
        | @cons s s' rest rest' hr _ ih =>
          simp only [List.map_cons]
          rw [ih (fun w hw => hl w (List.mem_cons_of_mem _ hw)),
            ((setAutopanels_segment hr).2.2.2 (hl s (by simp))).2]
      exact this _ _ hnone (mapE_ok hsegs)
    all_goals
      have hsum : (w.segments.map fun s => s.span / w.span * (apS : K)).sum = apS := by
        have h1 : w.span = (w.segments.map fun s => s.span).sum := by
          rw [wingSpan_eq]
          congr 1
          apply List.map_congr_left
          intro s hs
          exact abs_of_pos (hspan w hw s hs)
        have h2 : ∀ q : K, (w.segments.map fun s => s.span / q * (apS : K)).sum =
            (w.segments.map fun s => s.span).sum / q * apS := by
          intro q
          induction w.segments with
          | nil => simp
          | cons t rest ih => simp only [List.map_cons, List.sum_cons, ih]; ring
        obtain ⟨s, hs⟩ := List.exists_mem_of_ne_nil _ hne
        rw [h2, ← h1, div_self (hpos w hw s hs).ne', one_mul]
      have hc := list_ceil_sum (w.segments.map fun s => s.span / w.span * (apS : K))
        (by simpa using hne)
      rw [hsum] at hc
    · exact_mod_cast hc.1
    · have := hc.2
      rw [List.length_map] at this
      exact_mod_cast this

/-- Non-vacuity: the demo wing without own numbers, five panels requested. -/
example : (1 : ℤ) ≤ 5 ∧ (∀ s ∈ (demoWing).segments, (0 : ℚ) < s.span) ∧
    (setAutopanels (K := ℚ) 4 5 ⟨[{ demoWing with segments := demoWing.segments.map fun s =>
        { s with numS := none } }]⟩).toOption.map
      (fun ac => ac.wings.map fun w => w.segments.map PSegment.numS) =
      some [[some 2, some 3]] := by
  refine ⟨by norm_num, ?_, ?_⟩
  · intro s hs
    simp only [demoWing, List.mem_cons, List.not_mem_nil, or_false] at hs
    rcases hs with rfl | rfl <;> norm_num
  · decide +kernel

end Verif
