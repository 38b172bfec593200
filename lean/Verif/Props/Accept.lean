import Verif.Lemmas.AcceptWing
import Verif.Props.ControlWing

/-!
# Property C91: well-formed layouts of control surfaces are always accepted
-/

set_option linter.unusedSectionVars false

namespace Verif

section general
variable {K : Type*} [Field K] [LinearOrder K] [IsStrictOrderedRing K]

/-- A wing whose geometry and controls do not contradict themselves: the names of segments and
controls are unique, borders on a segment coincide or are at least 0.01 apart, and, if there are
controls, the interpolation of device edges stays between the end values, points at different spanwise
coordinates have a positive distance, and `GoodControls`: each control lies on existing segments from an inner to an outer
border, is a slat or a flap, has edge positions strictly between 0 and 1 and hinge positions (given
if it reaches over several segments) between 0 and 1; controls that overlap spanwise are a slat and
a flap that leave 0.01 of the chord between them. -/
structure GoodLayout (w : PWing K) : Prop where
  segs : (w.segments.map PSegment.uid).Nodup
  borders : BordersApart w
  between : w.controls ≠ [] → ∀ s ∈ w.segments, ∀ e1 x1 e2 x2 e, 0 ≤ e1 → e1 < e → e < e2 → e2 ≤ 1 →
    0 ≤ x1 → x1 ≤ 1 → 0 ≤ x2 → x2 ≤ 1 →
    min x1 x2 ≤ s.interp (e1, x1) (e2, x2) e ∧ s.interp (e1, x1) (e2, x2) e ≤ max x1 x2
  dist : w.controls ≠ [] → ∀ s ∈ w.segments, ∀ e1 x1 e2 x2, 0 ≤ e1 → e1 < e2 → e2 ≤ 1 → 0 ≤ x1 → x1 ≤ 1 →
    0 ≤ x2 → x2 ≤ 1 → 0 < s.dist e1 x1 e2 x2
  ctrls : GoodControls (w.segments.map PSegment.uid) w.controls

/-- Chord lines in strips without control surfaces: no interpolation takes place. -/
theorem addSubdivision_plain (interp interp' : Interp K) (e d : K) (ign : Bool) (sds : List (Strip K))
    (h : ∀ t ∈ sds, t.slat = none ∧ t.flap = none) :
    addSubdivision interp e d ign sds = addSubdivision interp' e d ign sds ∧
    ∀ t ∈ (addSubdivision interp e d ign sds).2, t.slat = none ∧ t.flap = none := by
  have hfind : ∀ (l : List (Strip K)) (i k : ℕ) (t : Strip K) (b : Bool),
      getSubdivAtEtaFrom e i l = some (k, t, b) → t ∈ l := by
    intro l
    induction l with
    | nil => intro i k t b hx; cases hx
    | cons a l ih =>
      intro i k t b hx
      unfold getSubdivAtEtaFrom at hx
      split_ifs at hx with hc
      · cases hx; simp
      · exact List.mem_cons_of_mem _ (ih _ _ _ _ hx)
  unfold addSubdivision
  split_ifs with h1 h2
  · exact ⟨rfl, h⟩
  · exact ⟨rfl, h⟩
  · cases hg : getSubdivAtEta sds e with
    | none => exact ⟨rfl, h⟩
    | some x =>
      obtain ⟨idx, prev, b⟩ := x
      obtain ⟨q1, q2⟩ := h prev (hfind _ _ _ _ _ hg)
      dsimp only
      split_ifs with h3 h4
      · exact ⟨rfl, h⟩
      · exact ⟨rfl, h⟩
      · have e1 : ∀ (i : Interp K) (x y z : K) (p n : Strip K), p.slat = none → p.flap = none →
            inheritDevices i x y z p n = (.ok (), p, n) := by
          intro i x y z p n hp1 hp2
          unfold inheritDevices inheritFlap
          rw [hp2]
          dsimp only
          unfold inheritSlat
          rw [hp1]
        have e2 : ∀ i : Interp K, inheritDevices i prev.etaA prev.etaB e
            { prev with etaB := e, etaC := d } (Strip.init e prev.etaB prev.etaC d) =
            (.ok (), { prev with etaB := e, etaC := d }, Strip.init e prev.etaB prev.etaC d) :=
          fun i => e1 i _ _ _ _ _ q1 q2
        rw [e2 interp, e2 interp']
        refine ⟨rfl, ?_⟩
        intro t ht
        simp only [List.mem_append, List.mem_singleton] at ht
        rcases ht with ht | rfl
        · rcases List.mem_or_eq_of_mem_set ht with ht | rfl
          · exact h t ht
          · exact ⟨q1, q2⟩
        · exact ⟨rfl, rfl⟩

theorem addLines_no_interp (interp interp' : Interp K) : ∀ (ls : List K) (sds : List (Strip K)),
    (∀ t ∈ sds, t.slat = none ∧ t.flap = none) →
    addLines interp ls sds = addLines interp' ls sds := by
  intro ls
  induction ls with
  | nil => intro sds _; rfl
  | cons e ls ih =>
    intro sds h
    obtain ⟨h1, h2⟩ := addSubdivision_plain interp interp' e e true sds h
    unfold addLines
    rw [← h1]
    revert h2
    obtain ⟨o, sds'⟩ := addSubdivision interp e e true sds
    intro h2
    cases o with
    | error x => rfl
    | ok x => exact ih sds' h2

/-- **C91** (partial).  Pre-panelling accepts every aircraft whose wings have a well-formed layout of
control surfaces, and then every control is present exactly between its borders.  Missing: borders
closer than 0.01, which may be moved (see C07). -/
theorem C91_layout_accepted_partial (ac : PAircraft K) (hu : ac.Unpanelled)
    (hg : ∀ w ∈ ac.wings, GoodLayout w)
    (hn : ∀ w ∈ ac.wings, ∀ s ∈ w.segments, ∃ n : ℤ, s.numS = some n ∧ 0 ≤ n) :
    ∃ ac', prePanelling ac = .ok ac' ∧ ac'.wings.length = ac.wings.length ∧
      ∀ (m : ℕ) (w w' : PWing K), ac.wings[m]? = some w → ac'.wings[m]? = some w' →
        ∀ c ∈ w.controls, ∃ i j : ℕ, OnSegs (w.segments.map PSegment.uid) c i j ∧
          ∀ (k : ℕ) (s' : PSegment K), w'.segments[k]? = some s' → ∀ t ∈ s'.strips, ∀ x,
            t.etaA ≤ x → x < t.etaB → (t.carries c.control ↔
              (i : K) + c.etaInner ≤ k + x ∧ (k : K) + x < j + c.etaOuter) := by
  have hpart1 : ∀ w ∈ ac.wings, ∃ segs' done', placeControls w.controls w.segments = .ok segs' ∧
      List.Forall₂ (fun s s' => s' = { s with strips := s'.strips } ∧
        SegSound (fun u => ({0, 1} ∪ {e | ∃ c ∈ w.controls, c.segInner = u ∧ e = c.etaInner} ∪
          {e | ∃ c ∈ w.controls, c.segOuter = u ∧ e = c.etaOuter} : Set K))
          (w.segments.map PSegment.uid) w.controls done' s') w.segments segs' := by
    intro w hw
    have h := hg w hw
    have h0 : ∀ s ∈ w.segments, SegSound (fun u => ({0, 1} ∪
        {e | ∃ c ∈ w.controls, c.segInner = u ∧ e = c.etaInner} ∪
        {e | ∃ c ∈ w.controls, c.segOuter = u ∧ e = c.etaOuter} : Set K))
        (w.segments.map PSegment.uid) w.controls [] s := by
      intro s hs
      unfold SegSound
      rw [hu w hw s hs]
      exact ⟨grid_init (by simp) (by simp), sound_init _ _⟩
    by_cases hc : w.controls = []
    · refine ⟨w.segments, [], by rw [hc]; rfl, List.forall₂_same.2 fun s hs => ⟨rfl, h0 s hs⟩⟩
    exact placeControls_accept h.segs h.borders.lines h.ctrls w.controls [] w.segments
      (fun d hd => hd) (by simp) (List.Nodup.of_map _ h.ctrls.uids) (by simp) rfl
      (fun s hs => ⟨h.between hc s hs, h.dist hc s hs⟩) h0
  have hall : ∃ ws, mapE (fun w : PWing K => w.mapSegments (placeControls w.controls)) ac.wings
      = .ok ws := by
    refine mapE_total ?_
    intro w hw
    obtain ⟨segs', -, h1, -⟩ := hpart1 w hw
    exact ⟨_, by unfold PWing.mapSegments; rw [h1]⟩
  obtain ⟨ws, hws⟩ := hall
  have hall2 : ∃ ws', mapE (fun w : PWing K => w.mapSegments (mapE PSegment.addSpanLines)) ws
      = .ok ws' := by
    refine mapE_total ?_
    intro w1 hw1
    obtain ⟨w, ⟨hw, e⟩⟩ := forall₂_mem_right (mapE_ok_mem hws) hw1
    obtain ⟨segs', done', h1, hf⟩ := hpart1 w hw
    unfold PWing.mapSegments at e
    rw [h1] at e
    simp only [Except.ok.injEq] at e
    obtain ⟨-, e⟩ := e
    subst e
    obtain ⟨segs2, h2⟩ : ∃ segs2, mapE PSegment.addSpanLines segs' = .ok segs2 := by
      refine mapE_total ?_
      intro s1 hs1
      obtain ⟨s, hs, r, hso⟩ := forall₂_mem_right hf hs1
      obtain ⟨n, hn1, hn2⟩ := hn w hw s hs
      have e1 : s1.numS = some n := by rw [r]; exact hn1
      have e2 : s1.interp = s.interp := by rw [r]
      obtain ⟨st, hst⟩ : ∃ st, addLines s1.interp (spanLines n.toNat) s1.strips = .ok st := by
        by_cases hc : w.controls = []
        · have hs1' : s1 ∈ w.segments := by
            rw [hc] at h1
            cases h1
            exact hs1
          obtain ⟨st, hst⟩ := addLines_accept (interp := fun a _ _ => a.2)
            (by
              intro e1 x1 e2 x2 e _ _ _ _ _ _ _ _
              exact ⟨min_le_left _ _, le_max_left _ _⟩) (hg w hw).ctrls.range (spanLines n.toNat)
            s1.strips hso.2
          refine ⟨st, ?_⟩
          rw [← hst]
          refine addLines_no_interp _ _ _ _ ?_
          rw [hu w hw s1 hs1']
          intro t ht
          simp only [initStrips, List.mem_singleton] at ht
          subst ht
          exact ⟨rfl, rfl⟩
        · exact addLines_accept (interp := s1.interp)
            (by rw [e2]; exact (hg w hw).between hc s hs) (hg w hw).ctrls.range (spanLines n.toNat)
            s1.strips hso.2
      unfold PSegment.addSpanLines
      rw [e1]
      simp only
      rw [if_neg (by omega), hst]
      exact ⟨_, rfl⟩
    exact ⟨_, by unfold PWing.mapSegments; simp only [h2]; rfl⟩
  obtain ⟨ws', hws'⟩ := hall2
  have hok : prePanelling ac = .ok { ac with wings := ws' } := by
    unfold prePanelling
    rw [hws]
    simp only [hws']
  refine ⟨_, hok, ?_, ?_⟩
  · rw [← (mapE_ok hws').length_eq, ← (mapE_ok hws).length_eq]
  · intro m w w' hm hm' c hc
    have h := hg w (List.mem_of_getElem? hm)
    obtain ⟨i, j, hij⟩ := h.ctrls.placed c hc
    refine ⟨i, j, hij, ?_⟩
    intro k s' hk
    exact C88_control_on_wing_partial ac _ w w' c i j ⟨hu, hok, ⟨m, hm, hm'⟩, h.segs, h.ctrls.uids,
      hc, hij.inner, hij.outer, hij.etaI, hij.etaO, hij.order⟩ h.borders k s' hk

/-- **C91**, the order of a standard run: the automatic panel numbers are set first.  Some segment of
each wing has a span. -/
theorem C91_autopanels_accepted_partial [FloorRing K] (ac : PAircraft K) (hu : ac.Unpanelled)
    (hg : ∀ w ∈ ac.wings, GoodLayout w) (apC apS : ℤ) (hap : 1 ≤ apS)
    (hspan : ∀ w ∈ ac.wings, ∀ s ∈ w.segments, 0 ≤ s.span ∧ ∃ t ∈ w.segments, 0 < t.span)
    (hn : ∀ w ∈ ac.wings, ∀ s ∈ w.segments, ∀ n : ℤ, s.numS = some n → 0 ≤ n) :
    ∃ ac1 ac2, setAutopanels apC apS ac = .ok ac1 ∧ prePanelling ac1 = .ok ac2 := by
  have hpos : ∀ w ∈ ac.wings, ∀ s ∈ w.segments, 0 < w.span := by
    intro w hw s hs
    rw [wingSpan_eq]
    obtain ⟨-, t, ht, ht0⟩ := hspan w hw s hs
    refine lt_of_lt_of_le (abs_pos.2 ht0.ne') ?_
    exact List.single_le_sum (by
      intro x hx
      obtain ⟨t, -, rfl⟩ := List.mem_map.1 hx
      exact abs_nonneg _) _ (List.mem_map.2 ⟨t, ht, rfl⟩)
  have hstep : ∀ w ∈ ac.wings, ∀ s ∈ w.segments, ∃ s', s.setAutopanels w.span apC apS = .ok s' ∧
      (∃ c n, s' = { s with numC := c, numS := some n } ∧ 0 ≤ n) := by
    intro w hw s hs
    have h0 := (hpos w hw s hs)
    unfold PSegment.setAutopanels spanRatio
    dsimp only
    have hceil : (0 : ℤ) ≤ ⌈s.span / w.span * (apS : K)⌉ := by
      refine Int.ceil_nonneg ?_
      have : (0 : K) < (apS : K) := by exact_mod_cast (by omega : 0 < apS)
      have := (hspan w hw s hs).1
      positivity
    cases hs0 : s.numS with
    | none =>
      refine ⟨{ s with
        numC := if s.numC = none then some apC else s.numC
        numS := some ⌈s.span / w.span * (apS : K)⌉ }, ?_, _, _, rfl, hceil⟩
      split_ifs with h1 h2 h3 <;> simp_all
    | some n =>
      refine ⟨{ s with
        numC := if s.numC = none then some apC else s.numC
        numS := some n }, ?_,
        _, _, rfl, hn w hw s hs n hs0⟩
      obtain ⟨a1, a2, a3, a4, a5, a6, a7⟩ := s
      simp only at hs0
      subst hs0
      split_ifs with h1 h2 h3 <;> simp_all
  have hsegs : ∀ w ∈ ac.wings, ∃ segs,
      mapE (PSegment.setAutopanels w.span apC apS) w.segments = .ok segs := by
    intro w hw
    refine mapE_total ?_
    intro s hs
    obtain ⟨s', h, -⟩ := hstep w hw s hs
    exact ⟨s', h⟩
  obtain ⟨ws, hws⟩ : ∃ ws, mapE (PWing.setAutopanels apC apS) ac.wings = .ok ws := by
    refine mapE_total ?_
    intro w hw
    obtain ⟨segs, h⟩ := hsegs w hw
    exact ⟨_, by unfold PWing.setAutopanels; rw [h]⟩
  have hrel : ∀ w1 ∈ ws, ∃ w ∈ ac.wings,
      w1.controls = w.controls.map (PControl.setAutopanels apC) ∧
      List.Forall₂ (fun s s' : PSegment K =>
        ∃ c n, s' = { s with numC := c, numS := some n } ∧ 0 ≤ n) w.segments w1.segments := by
    intro w1 hw1
    obtain ⟨w, _, hw, e⟩ := forall₂_mem_right (mapE_ok_mem hws) hw1
    refine ⟨w, hw, ?_⟩
    obtain ⟨segs, h⟩ := hsegs w hw
    unfold PWing.setAutopanels at e
    rw [h] at e
    simp only [Except.ok.injEq] at e
    subst e
    refine ⟨rfl, (mapE_ok_mem h).imp ?_⟩
    rintro s s' ⟨hs, hss⟩
    obtain ⟨s'', q1, q2⟩ := hstep w hw s hs
    rw [q1, Except.ok.injEq] at hss
    subst hss
    exact q2
  have hc' : ∀ c : PControl K, ∃ n, c.setAutopanels apC = { c with numC := n } := by
    intro c
    unfold PControl.setAutopanels
    split_ifs
    · exact ⟨_, rfl⟩
    · exact ⟨c.numC, rfl⟩
  obtain ⟨ac2, h2, -⟩ := C91_layout_accepted_partial { ac with wings := ws } (by
      intro w1 hw1 s1 hs1
      obtain ⟨w, hw, -, hf⟩ := hrel w1 hw1
      obtain ⟨s, hs, c, n, rfl, -⟩ := forall₂_mem_right hf hs1
      exact hu w hw s hs) (by
      intro w1 hw1
      obtain ⟨w, hw, hc, hf⟩ := hrel w1 hw1
      have h := hg w hw
      have hus := forall₂_uids hf (by rintro s s' ⟨c, n, rfl, -⟩; rfl)
      have huid : ∀ c : PControl K, (c.setAutopanels apC).uid = c.uid := by
        intro c; obtain ⟨n, e⟩ := hc' c; rw [e]
      refine ⟨hus ▸ h.segs, ?_, ?_, ?_, ?_⟩
      · have e1 : ∀ (u : String), {e : K | ∃ c ∈ w1.controls, c.segInner = u ∧ e = c.etaInner} =
            {e : K | ∃ c ∈ w.controls, c.segInner = u ∧ e = c.etaInner} := by
          intro u
          ext e
          simp only [hc, List.mem_map, Set.mem_ofPred_eq, exists_exists_and_eq_and]
          refine exists_congr fun c => ?_
          obtain ⟨n, e⟩ := hc' c
          rw [e]
        have e2 : ∀ (u : String), {e : K | ∃ c ∈ w1.controls, c.segOuter = u ∧ e = c.etaOuter} =
            {e : K | ∃ c ∈ w.controls, c.segOuter = u ∧ e = c.etaOuter} := by
          intro u
          ext e
          simp only [hc, List.mem_map, Set.mem_ofPred_eq, exists_exists_and_eq_and]
          refine exists_congr fun c => ?_
          obtain ⟨n, e⟩ := hc' c
          rw [e]
        unfold BordersApart
        simp only [e1, e2]
        exact h.borders
      · intro hne s1 hs1
        obtain ⟨s, hs, c, n, rfl, -⟩ := forall₂_mem_right hf hs1
        exact h.between (fun h0 => hne (by rw [hc, h0]; rfl)) s hs
      · intro hne s1 hs1
        obtain ⟨s, hs, c, n, rfl, -⟩ := forall₂_mem_right hf hs1
        exact h.dist (fun h0 => hne (by rw [hc, h0]; rfl)) s hs
      · rw [hus, hc]
        have g := h.ctrls
        have on : ∀ (us : List String) (c : PControl K) (i j : ℕ),
            OnSegs us (c.setAutopanels apC) i j ↔ OnSegs us c i j := by
          intro us c i j
          obtain ⟨n, e⟩ := hc' c
          rw [e]
          exact ⟨fun h => ⟨h.inner, h.outer, h.etaI, h.etaO, h.order⟩,
            fun h => ⟨h.inner, h.outer, h.etaI, h.etaO, h.order⟩⟩
        refine ⟨?_, ?_, ?_, ?_, ?_, ?_, ?_⟩
        · rw [List.map_map]
          have : PControl.uid ∘ PControl.setAutopanels (K := K) apC = PControl.uid := by
            funext c; exact huid c
          rw [this]
          exact g.uids
        all_goals
          intro c1 hc1
          obtain ⟨c, hc, rfl⟩ := List.mem_map.1 hc1
        · obtain ⟨i, j, q⟩ := g.placed c hc
          exact ⟨i, j, (on _ _ _ _).2 q⟩
        · obtain ⟨n, e⟩ := hc' c
          rw [e]
          exact g.kind c hc
        · obtain ⟨n, e⟩ := hc' c
          rw [e]
          exact g.edge c hc
        · obtain ⟨n, e⟩ := hc' c
          rw [e]
          exact g.hinge c hc
        · obtain ⟨n, e⟩ := hc' c
          rw [e]
          exact g.hinges c hc
        · intro d1 hd1 hne i j i' j' o1 o2 o3 o4
          obtain ⟨d, hd, rfl⟩ := List.mem_map.1 hd1
          obtain ⟨n, e⟩ := hc' c
          obtain ⟨n', e'⟩ := hc' d
          rw [on] at o1 o2
          have hne' : c ≠ d := fun h => hne (by rw [h])
          rw [e, e'] at o3 o4 ⊢
          exact g.apart c hc d hd hne' i j i' j' o1 o2 o3 o4) (by
      intro w1 hw1 s1 hs1
      obtain ⟨w, hw, -, hf⟩ := hrel w1 hw1
      obtain ⟨s, hs, c, n, rfl, h0⟩ := forall₂_mem_right hf hs1
      exact ⟨n, rfl, h0⟩)
  exact ⟨_, ac2, by unfold setAutopanels; rw [hws], h2⟩

end general

/-- The geometric conditions of `GoodLayout` hold for every planar convex segment: `interp` and
`dist` are the functions of its four vertices. -/
theorem C91_planar_segment (s : PSegment ℝ) (v : Corners (V3 ℝ)) (hv : ConvexOutline v)
    (hp : Planar v) (hi : s.interp = xsiInterpol v)
    (hd : s.dist = fun e1 x1 e2 x2 => (segPoint v e1 x1 - segPoint v e2 x2).norm) :
    (∀ e1 x1 e2 x2 e, 0 ≤ e1 → e1 < e → e < e2 → e2 ≤ 1 → 0 ≤ x1 → x1 ≤ 1 → 0 ≤ x2 → x2 ≤ 1 →
      min x1 x2 ≤ s.interp (e1, x1) (e2, x2) e ∧ s.interp (e1, x1) (e2, x2) e ≤ max x1 x2) ∧
    (∀ e1 x1 e2 x2, 0 ≤ e1 → e1 < e2 → e2 ≤ 1 → 0 ≤ x1 → x1 ≤ 1 → 0 ≤ x2 → x2 ≤ 1 →
      0 < s.dist e1 x1 e2 x2) := by
  constructor
  · intro e1 x1 e2 x2 e h0 h1 h2 h3 a0 a1 b0 b1
    rw [hi]
    obtain ⟨-, q1, q2, -⟩ := C08_between v hv hp e1 x1 e2 x2 e ⟨a0, a1⟩ ⟨b0, b1⟩ h0 h3
      (h1.trans h2) h1.le h2.le
    exact ⟨q1, q2⟩
  · intro e1 x1 e2 x2 h0 h1 h3 a0 a1 b0 b1
    rw [hd]
    refine V3.norm_pos ?_
    intro hz
    obtain ⟨q, -⟩ := C08_well_posed v hv e1 x1 e2 x2 e1 ⟨a0, a1⟩ ⟨b0, b1⟩ h0 h3 h1 le_rfl h1.le
    rw [hz] at q
    apply q
    simp only [V3.dot]
    simp

/-! ## Witness -/

theorem demo_good : ∀ w ∈ demoAircraft.wings, GoodLayout w := by
  intro w hw
  simp only [demoAircraft, List.mem_singleton] at hw
  subst hw
  have hseg : ∀ s ∈ demoWing.segments.map (fun s : PSegment ℚ =>
      { s with numS := some (if s.uid = "S1" then (4 : ℤ) else 6) }), s.interp = linInterp ∧
      ∀ a x b y, a < b → 0 < s.dist a x b y := by
    intro s hs
    simp only [demoWing, List.map_cons, List.map_nil, List.mem_cons, List.not_mem_nil,
      or_false] at hs
    rcases hs with rfl | rfl
    · exact ⟨rfl, fun a x b y h => by simp only; linarith⟩
    · exact ⟨rfl, fun a x b y h => by simp only; linarith⟩
  have hus : (demoWing.segments.map (fun s : PSegment ℚ =>
      { s with numS := some (if s.uid = "S1" then (4 : ℤ) else 6) })).map PSegment.uid
      = ["S1", "S2"] := by decide +kernel
  refine ⟨by simp only [hus]; decide, ?_, ?_, fun _ s hs e1 x1 e2 x2 _ h _ _ _ _ _ =>
    (hseg s hs).2 _ _ _ _ h, ?_⟩
  · intro u x hx y hy hxy
    simp only [demoWing, List.mem_cons, List.not_mem_nil, or_false, exists_eq_or_imp,
      exists_eq_left, Set.mem_union, Set.mem_insert_iff, Set.mem_singleton_iff,
      Set.mem_ofPred_eq] at hx hy
    rcases hx with ((rfl | rfl) | ⟨-, rfl⟩ | ⟨-, rfl⟩) | ⟨-, rfl⟩ | ⟨-, rfl⟩ <;>
    rcases hy with ((rfl | rfl) | ⟨-, rfl⟩ | ⟨-, rfl⟩) | ⟨-, rfl⟩ | ⟨-, rfl⟩ <;>
    first | (norm_num at hxy; done) | norm_num
  · intro _ s hs e1 x1 e2 x2 e h0 h1 h2 h3 _ _ _ _
    rw [(hseg s hs).1]
    have := linInterpol_between (K := ℚ) (y0 := x1) (y1 := x2) (l := e2 - e1) (x := e - e1)
      (by linarith) (by linarith) (by linarith)
    have e' : linInterp (e1, x1) (e2, x2) e = linInterpol x1 x2 (e2 - e1) (e - e1) := by
      simp only [linInterp, linInterpol]
      ring
    rw [e']
    exact this
  · simp only [hus]
    have hcs : demoWing.controls = [⟨"F", "flap", "S1", "S2", 1/2, 2/5, 7/10, 4/5, some (7/10),
      some (4/5), none⟩, ⟨"L", "slat", "S1", "S1", 1/5, 4/5, 1/5, 1/5, none, none, some 2⟩] := rfl
    simp only [hcs]
    refine ⟨by decide, ?_, by simp, by norm_num, ?_, by simp, ?_⟩
    · simp only [List.mem_cons, List.not_mem_nil, or_false, forall_eq_or_imp, forall_eq]
      exact ⟨⟨0, 1, rfl, rfl, by norm_num, by norm_num, by norm_num⟩,
        ⟨0, 0, rfl, rfl, by norm_num, by norm_num, by norm_num⟩⟩
    · simp only [List.mem_cons, List.not_mem_nil, or_false, forall_eq_or_imp, forall_eq]
      refine ⟨?_, by simp⟩
      rintro h (h' | h') <;> simp only [Option.some.injEq] at h' <;> subst h' <;> norm_num
    · simp only [List.mem_cons, List.not_mem_nil, or_false, forall_eq_or_imp, forall_eq]
      refine ⟨⟨fun h => absurd rfl h, ?_⟩, ?_, fun h => absurd rfl h⟩
      · intros
        right
        refine ⟨rfl, rfl, ?_⟩
        norm_num
      · intros
        left
        refine ⟨rfl, rfl, ?_⟩
        norm_num

/-- The demo aircraft (a flap over two segments and a slat that overlaps it) meets the hypotheses of
C91. -/
example : demoAircraft.Unpanelled ∧ (∀ w ∈ demoAircraft.wings, GoodLayout w) ∧
    (∀ w ∈ demoAircraft.wings, ∀ s ∈ w.segments, ∃ n : ℤ, s.numS = some n ∧ 0 ≤ n) ∧
    (∀ w ∈ demoAircraft.wings, ∀ s ∈ w.segments, 0 < s.span) ∧
    demoAircraft.wings.map (fun w => w.controls.map PControl.uid) = [["F", "L"]] := by
  refine ⟨?_, demo_good, ?_, ?_, by decide +kernel⟩
  · intro w hw s hs
    simp only [demoAircraft, demoWing, List.mem_singleton] at hw
    subst hw
    simp only [List.map_cons, List.map_nil, List.mem_cons, List.not_mem_nil, or_false] at hs
    rcases hs with rfl | rfl <;> rfl
  · intro w hw s hs
    simp only [demoAircraft, demoWing, List.mem_singleton] at hw
    subst hw
    simp only [List.map_cons, List.map_nil, List.mem_cons, List.not_mem_nil, or_false] at hs
    rcases hs with rfl | rfl
    · exact ⟨4, by simp, by norm_num⟩
    · exact ⟨6, by simp, by norm_num⟩
  · intro w hw s hs
    simp only [demoAircraft, demoWing, List.mem_singleton] at hw
    subst hw
    simp only [List.map_cons, List.map_nil, List.mem_cons, List.not_mem_nil, or_false] at hs
    rcases hs with rfl | rfl <;> norm_num

/-- The claim of C91 without the condition on borders that are close to each other. -/
def CloseLayoutsAccepted (K : Type) [Field K] [LinearOrder K] [IsStrictOrderedRing K] : Prop :=
  ∀ ac : PAircraft K, ac.Unpanelled →
    (∀ w ∈ ac.wings, (w.segments.map PSegment.uid).Nodup ∧
      (∀ s ∈ w.segments, InterpBetween s.interp ∧ DistPos s) ∧
      GoodControls (w.segments.map PSegment.uid) w.controls) →
    (∀ w ∈ ac.wings, ∀ s ∈ w.segments, ∃ n : ℤ, s.numS = some n ∧ 0 ≤ n) →
    ∃ ac', prePanelling ac = .ok ac'

/-- A slat up to the middle of a segment and two flaps that do not overlap: one from 0.505 to the
tip, one from 0.2 to 0.502. -/
def closeBorders : PAircraft ℚ :=
  ⟨[{ uid := "W", symmetry := 0
      segments := [⟨"S", 4, some 1, some 5, linInterp, fun a _ b _ => 4 * (b - a), initStrips⟩]
      controls := [⟨"L", "slat", "S", "S", 0, 1/2, 1/5, 1/5, none, none, none⟩,
        ⟨"A", "flap", "S", "S", 505/1000, 1, 7/10, 7/10, none, none, none⟩,
        ⟨"B", "flap", "S", "S", 1/5, 502/1000, 7/10, 7/10, none, none, none⟩] }]⟩

/-- **C91** is *false* for borders closer than 0.01: both flap borders are moved to the same strip,
and the second flap is refused because the strip already has one. -/
theorem C91_close_borders_false : ¬ CloseLayoutsAccepted ℚ := by
  intro h
  have hno : (prePanelling closeBorders).isOk = false := by decide +kernel
  obtain ⟨ac', hok⟩ := h closeBorders (by
      intro w hw s hs
      simp only [closeBorders, List.mem_singleton] at hw
      subst hw
      simp only [List.mem_singleton] at hs
      subst hs
      rfl) (by
      intro w hw
      simp only [closeBorders, List.mem_singleton] at hw
      subst hw
      refine ⟨by decide, ?_, ?_⟩
      · intro s hs
        simp only [List.mem_singleton] at hs
        subst hs
        refine ⟨?_, fun e1 x1 e2 x2 _ h _ _ _ _ _ => by simp only; linarith⟩
        intro e1 x1 e2 x2 e h0 h1 h2 h3 _ _ _ _
        have := linInterpol_between (K := ℚ) (y0 := x1) (y1 := x2) (l := e2 - e1) (x := e - e1)
          (by linarith) (by linarith) (by linarith)
        have e' : linInterp (e1, x1) (e2, x2) e = linInterpol x1 x2 (e2 - e1) (e - e1) := by
          simp only [linInterp, linInterpol]
          ring
        simp only [e']
        exact this
      · have idx : ∀ (c : PControl ℚ) (i j : ℕ), OnSegs ["S"] c i j → i = 0 ∧ j = 0 := by
          intro c i j h
          have h1 := h.inner
          have h2 := h.outer
          rw [List.getElem?_eq_some_iff] at h1 h2
          obtain ⟨h1, -⟩ := h1
          obtain ⟨h2, -⟩ := h2
          simp at h1 h2
          exact ⟨h1, h2⟩
        refine ⟨by decide, ?_, by simp, by norm_num, by simp, by simp, ?_⟩
        · simp only [List.mem_cons, List.not_mem_nil, or_false, forall_eq_or_imp, forall_eq]
          exact ⟨⟨0, 0, rfl, rfl, by norm_num, by norm_num, by norm_num⟩,
            ⟨0, 0, rfl, rfl, by norm_num, by norm_num, by norm_num⟩,
            ⟨0, 0, rfl, rfl, by norm_num, by norm_num, by norm_num⟩⟩
        · simp only [List.mem_cons, List.not_mem_nil, or_false, forall_eq_or_imp, forall_eq]
          refine ⟨⟨fun h => absurd rfl h, ?_, ?_⟩, ⟨?_, fun h => absurd rfl h, ?_⟩,
            ?_, ?_, fun h => absurd rfl h⟩
          all_goals
            intro _ i j i' j' o1 o2 o3 o4
            obtain ⟨rfl, rfl⟩ := idx _ _ _ o1
            obtain ⟨rfl, rfl⟩ := idx _ _ _ o2
            first
              | (norm_num at o3; done)
              | (norm_num at o4; done)
              | (left; exact ⟨rfl, rfl, by norm_num⟩)
              | (right; exact ⟨rfl, rfl, by norm_num⟩)) (by
      intro w hw s hs
      simp only [closeBorders, List.mem_singleton] at hw
      subst hw
      simp only [List.mem_singleton] at hs
      subst hs
      exact ⟨1, rfl, by norm_num⟩)
  rw [hok] at hno
  simp [Except.isOk, Except.toBool] at hno

end Verif
