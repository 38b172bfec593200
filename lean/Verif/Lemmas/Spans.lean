import Verif.Props.RunMoved

/-!
# The spans of segments only matter for automatic numbers of spanwise panels

Lemmas for property C144.
-/

namespace Verif

/-- A segment without its span. -/
def PSegment.noSpan (s : PSegment ℝ) : PSegment ℝ := { s with span := 0 }

/-- A wing without the spans of its segments. -/
def PWing.noSpans (w : PWing ℝ) : PWing ℝ := { w with segments := w.segments.map PSegment.noSpan }

/-- An aircraft without the spans of its segments. -/
def PAircraft.noSpans (ac : PAircraft ℝ) : PAircraft ℝ := ⟨ac.wings.map PWing.noSpans⟩

theorem mapE_mapOk {α β : Type} {f : α → Except PyErr β} {f' : α → Except PyErr β} {g : α → α} {h : β → β}
    {l : List α} (H : ∀ a ∈ l, f' (g a) = mapOk h (f a)) :
    mapE f' (l.map g) = mapOk (List.map h) (mapE f l) := by
  induction l with
  | nil => rfl
  | cons a l ih =>
    rw [List.map_cons]
    unfold mapE
    rw [H a (by simp), ih fun a ha => H a (List.mem_cons_of_mem _ ha)]
    cases f a with
    | error e => rfl
    | ok b =>
      simp only [mapOk]
      cases mapE f l <;> rfl

theorem update_noSpan {uid : String} {f : PSegment ℝ → Except PyErr (List (Strip ℝ))}
    (hf : ∀ s, f s.noSpan = f s) (segs : List (PSegment ℝ)) :
    PSegment.update uid f (segs.map PSegment.noSpan) =
      mapOk (List.map PSegment.noSpan) (PSegment.update uid f segs) := by
  induction segs with
  | nil => rfl
  | cons s segs ih =>
    rw [List.map_cons]
    unfold PSegment.update
    rw [hf, ih]
    show (if s.uid = uid then _ else _) = _
    split_ifs
    · cases f s <;> rfl
    · cases PSegment.update uid f segs <;> rfl

theorem applyRows_noSpan (c : Control) (rows : List (SegRow ℝ)) : ∀ segs : List (PSegment ℝ),
    applyRows c rows (segs.map PSegment.noSpan) =
      mapOk (List.map PSegment.noSpan) (applyRows c rows segs) := by
  induction rows with
  | nil => intro segs; rfl
  | cons r rows ih =>
    intro segs
    unfold applyRows
    rw [update_noSpan fun s => rfl]
    generalize PSegment.update _ _ segs = x
    cases x with
    | error e => rfl
    | ok segs' => exact ih segs'

theorem segDist_noSpan (segs : List (PSegment ℝ)) : segDist (segs.map PSegment.noSpan) = segDist segs := by
  funext uid e1 x1 e2 x2
  unfold segDist
  induction segs with
  | nil => rfl
  | cons s segs ih =>
    rw [List.map_cons, List.find?_cons, List.find?_cons]
    show (match decide (s.uid = uid) with
      | true => _
      | false => _ : Option _).map _ = _
    cases decide (s.uid = uid) with
    | true => rfl
    | false => exact ih

theorem placeControl_noSpan (c : PControl ℝ) (segs : List (PSegment ℝ)) :
    placeControl c (segs.map PSegment.noSpan) =
      mapOk (List.map PSegment.noSpan) (placeControl c segs) := by
  have hu : (segs.map PSegment.noSpan).map PSegment.uid = segs.map PSegment.uid := by
    rw [List.map_map]
    rfl
  unfold placeControl
  split_ifs with h
  · exact update_noSpan (fun s => rfl) segs
  · cases c.hInner with
    | none => rfl
    | some h1 =>
      cases c.hOuter with
      | none => rfl
      | some h2 =>
        simp only [hu, segDist_noSpan]
        cases adjustRows (segDist segs) c h1 h2 (collectRows c h1 h2 ((c.xsiInner + c.xsiOuter) / 2)
            ((h1 + h2) / 2) false (segs.map PSegment.uid)) with
        | error e => rfl
        | ok rows => exact applyRows_noSpan _ _ _

theorem placeControls_noSpan (cs : List (PControl ℝ)) : ∀ segs : List (PSegment ℝ),
    placeControls cs (segs.map PSegment.noSpan) =
      mapOk (List.map PSegment.noSpan) (placeControls cs segs) := by
  induction cs with
  | nil => intro segs; rfl
  | cons c cs ih =>
    intro segs
    unfold placeControls
    rw [placeControl_noSpan]
    cases placeControl c segs with
    | error e => rfl
    | ok segs' => exact ih segs'

theorem addSpanLines_noSpan (s : PSegment ℝ) :
    s.noSpan.addSpanLines = mapOk PSegment.noSpan s.addSpanLines := by
  obtain ⟨u, sp, nS, nC, i, d, st⟩ := s
  unfold PSegment.addSpanLines PSegment.noSpan
  cases nS with
  | none => rfl
  | some n =>
    simp only
    split_ifs
    · rfl
    · cases addLines i (spanLines n.toNat) st <;> rfl

theorem mapSegments_noSpan {f : List (PSegment ℝ) → Except PyErr (List (PSegment ℝ))}
    (hf : ∀ segs, f (segs.map PSegment.noSpan) = mapOk (List.map PSegment.noSpan) (f segs))
    (w : PWing ℝ) : w.noSpans.mapSegments f = mapOk PWing.noSpans (w.mapSegments f) := by
  unfold PWing.mapSegments
  rw [show w.noSpans.segments = w.segments.map PSegment.noSpan from rfl, hf]
  cases f w.segments <;> rfl

/-- Panelling does not look at the spans. -/
theorem prePanelling_noSpans (ac : PAircraft ℝ) :
    prePanelling ac.noSpans = mapOk PAircraft.noSpans (prePanelling ac) := by
  have h1 : mapE (fun w => w.mapSegments (placeControls w.controls)) (ac.wings.map PWing.noSpans) =
      mapOk (List.map PWing.noSpans) (mapE (fun w => w.mapSegments (placeControls w.controls)) ac.wings) :=
    mapE_mapOk fun w _ => mapSegments_noSpan (placeControls_noSpan w.controls) w
  have h2 : ∀ ws : List (PWing ℝ),
      mapE (fun w => w.mapSegments (mapE PSegment.addSpanLines)) (ws.map PWing.noSpans) =
      mapOk (List.map PWing.noSpans) (mapE (fun w => w.mapSegments (mapE PSegment.addSpanLines)) ws) :=
    fun ws => mapE_mapOk fun w _ =>
      mapSegments_noSpan (fun segs => mapE_mapOk fun s _ => addSpanLines_noSpan s) w
  unfold prePanelling
  rw [show ac.noSpans.wings = ac.wings.map PWing.noSpans from rfl, h1]
  cases mapE (fun w => w.mapSegments (placeControls w.controls)) ac.wings with
  | error e => rfl
  | ok ws =>
    simp only [mapOk]
    rw [h2]
    cases mapE (fun w => w.mapSegments (mapE PSegment.addSpanLines)) ws <;> rfl

/-- Every segment has a number of spanwise panels. -/
def PAircraft.NumbersGiven (ac : PAircraft ℝ) : Prop := ∀ w ∈ ac.wings, ∀ s ∈ w.segments, s.numS ≠ none

/-- With all numbers of spanwise panels given, the spans do not matter. -/
theorem setAutopanels_noSpans (apC apS : ℤ) {ac : PAircraft ℝ} (h : ac.NumbersGiven) :
    setAutopanels apC apS ac.noSpans = mapOk PAircraft.noSpans (setAutopanels apC apS ac) := by
  have hs : ∀ (b b' : ℝ) (s : PSegment ℝ), s.numS ≠ none →
      s.noSpan.setAutopanels b apC apS = mapOk PSegment.noSpan (s.setAutopanels b' apC apS) := by
    intro b b' s hs
    obtain ⟨u, sp, nS, nC, i, d, st⟩ := s
    unfold PSegment.setAutopanels PSegment.noSpan
    simp only at hs ⊢
    cases nC <;> simp [hs, mapOk]
  have hw : ∀ w ∈ ac.wings, w.noSpans.setAutopanels apC apS =
      mapOk PWing.noSpans (w.setAutopanels apC apS) := by
    intro w hw
    unfold PWing.setAutopanels
    have := mapE_mapOk (f := PSegment.setAutopanels w.span apC apS)
      (f' := PSegment.setAutopanels w.noSpans.span apC apS) (g := PSegment.noSpan) (h := PSegment.noSpan)
      (l := w.segments) fun s hs' => hs _ _ s (h w hw s hs')
    rw [show w.noSpans.segments = w.segments.map PSegment.noSpan from rfl, this]
    cases mapE (PSegment.setAutopanels w.span apC apS) w.segments <;> rfl
  unfold setAutopanels
  rw [show ac.noSpans.wings = ac.wings.map PWing.noSpans from rfl, mapE_mapOk hw]
  cases mapE (PWing.setAutopanels apC apS) ac.wings <;> rfl

theorem enum_noSpans {α : Type} (g : α → α) : ∀ (l : List α) (i : ℕ),
    enumFrom' i (l.map g) = (enumFrom' i l).map fun x => (x.1, g x.2) := by
  intro l
  induction l with
  | nil => intro i; rfl
  | cons a l ih =>
    intro i
    rw [List.map_cons]
    unfold enumFrom'
    rw [ih, List.map_cons]

theorem nested_comm {α β : Type} {f : α → List β} {g : α → α} {h : β → β}
    (H : ∀ a, f (g a) = (f a).map h) (l : List α) :
    nested f (l.map g) = (nested f l).map fun x => (h x.1, g x.2) := by
  induction l with
  | nil => rfl
  | cons a l ih =>
    rw [List.map_cons]
    unfold nested
    rw [H, ih, List.map_append, List.map_map, List.map_map]
    rfl

theorem genBook_noSpans (ac : PAircraft ℝ) : genBook ac.noSpans = genBook ac := by
  have e1 : allWings ac.noSpans = (allWings ac).map fun x => (x.1, x.2.noSpans) := enum_noSpans _ _ _
  have e2 : allSegments ac.noSpans =
      (allSegments ac).map fun x => ((x.1.1, x.1.2.noSpan), (x.2.1, x.2.2.noSpans)) := by
    unfold allSegments
    rw [e1]
    exact nested_comm (g := fun x : ℕ × PWing ℝ => (x.1, x.2.noSpans))
      (h := fun x : ℕ × PSegment ℝ => (x.1, x.2.noSpan)) (fun a => enum_noSpans _ _ _) _
  have e3 : allSubdivisions ac.noSpans = (allSubdivisions ac).map fun x =>
      (x.1, ((x.2.1.1, x.2.1.2.noSpan), (x.2.2.1, x.2.2.2.noSpans))) := by
    unfold allSubdivisions
    rw [e2]
    exact nested_comm (h := id)
      (g := fun x : (ℕ × PSegment ℝ) × (ℕ × PWing ℝ) => ((x.1.1, x.1.2.noSpan), (x.2.1, x.2.2.noSpans)))
      (fun a => (List.map_id _).symm) _
  have e4 : allSubareas ac.noSpans = (allSubareas ac).map fun x =>
      (x.1, (x.2.1, ((x.2.2.1.1, x.2.2.1.2.noSpan), (x.2.2.2.1, x.2.2.2.2.noSpans)))) := by
    unfold allSubareas
    rw [e3]
    exact nested_comm (h := id)
      (g := fun x : (ℕ × Strip ℝ) × (ℕ × PSegment ℝ) × (ℕ × PWing ℝ) =>
        (x.1, ((x.2.1.1, x.2.1.2.noSpan), (x.2.2.1, x.2.2.2.noSpans))))
      (fun a => (List.map_id _).symm) _
  unfold genBook
  rw [e4]
  generalize allSubareas ac = l
  generalize Book.empty = b
  induction l generalizing b with
  | nil => rfl
  | cons t l ih =>
    rw [List.map_cons]
    unfold countFrom
    show (match countStep b t with
      | .error e => _
      | .ok b' => _) = _
    cases countStep b t with
    | error e => rfl
    | ok b' => exact ih b'

theorem entryParts_noSpans (env : LatticeEnv) (ac : PAircraft ℝ) (e : BookEntry) :
    entryParts env ac.noSpans e = (entryParts env ac e).map fun p => { p with wing := p.wing.noSpans } := by
  unfold entryParts PAircraft.noSpans
  simp only [List.getElem?_map]
  cases ac.wings[e.path.wing]? with
  | none => rfl
  | some w =>
    simp only [Option.map_some]
    unfold PWing.noSpans
    simp only [List.getElem?_map]
    cases w.segments[e.path.seg]? with
    | none => rfl
    | some s =>
      simp only [Option.map_some]
      show (match s.strips[e.path.strip]? with
        | none => _
        | some d => _) = _
      cases s.strips[e.path.strip]? with
      | none => rfl
      | some d =>
        simp only
        cases d.subareas[e.path.sub]? <;> rfl

/-- The lattice does not depend on the spans. -/
theorem genLattice_noSpans (env : LatticeEnv) (doRot : Bool) (alpha beta : ℝ) (ac : PAircraft ℝ) :
    genLattice env doRot alpha beta ac.noSpans = genLattice env doRot alpha beta ac := by
  have h1 : entryCorners env ac.noSpans = entryCorners env ac := by
    funext e
    unfold entryCorners
    rw [entryParts_noSpans]
    cases entryParts env ac e <;> rfl
  have h2 : rotateEntry env ac.noSpans = rotateEntry env ac := by
    funext e n
    unfold rotateEntry
    rw [entryParts_noSpans]
    cases entryParts env ac e <;> rfl
  have h3 : ∀ es n, rotateAll env ac.noSpans es n = rotateAll env ac es n := by
    intro es
    induction es with
    | nil => intro n; rfl
    | cons e es ih =>
      intro n
      unfold rotateAll
      rw [h2]
      cases rotateEntry env ac e n with
      | error x => rfl
      | ok n' => exact ih n'
  unfold genLattice
  simp only [genBook_noSpans, h1, h3]

/-- Runs of aircraft which differ in the spans of segments only, the numbers of spanwise panels being
given. -/
theorem noSpans_run {env : RunEnv} (hd : Lapack env.dgesv) {ac ac2 : PAircraft ℝ}
    (h : ac2.noSpans = ac.noSpans) (hg : ac.NumbersGiven) (hg2 : ac2.NumbersGiven) {st : FlightSt ℝ}
    {out : RunOut} (hr : standardRun env ac st = .ok out) :
    ∃ out', standardRun env ac2 st = .ok out' ∧
      ∀ i < st.num, ∀ c ∈ runColumns, out'.value c.1 i = out.value c.1 i := by
  obtain ⟨out', h', hv⟩ := run_transfer (env := env) (env' := env) hd hd (ac2 := ac2) (st' := st) rfl
    (fun _ a a' => a' = a) (by
      rintro ac' ⟨ac1, p1, p2⟩
      have q1 := setAutopanels_noSpans env.autoC env.autoS hg
      have q2 := setAutopanels_noSpans env.autoC env.autoS hg2
      rw [h, q1, p1] at q2
      cases k1 : setAutopanels env.autoC env.autoS ac2 with
      | error e => rw [k1] at q2; cases q2
      | ok ac21 =>
      rw [k1] at q2
      simp only [mapOk, Except.ok.injEq] at q2
      have r1 := prePanelling_noSpans ac1
      have r2 := prePanelling_noSpans ac21
      rw [← q2, r1, p2] at r2
      cases k2 : prePanelling ac21 with
      | error e => rw [k2] at r2; cases r2
      | ok ac22 =>
      rw [k2] at r2
      simp only [mapOk, Except.ok.injEq] at r2
      refine ⟨ac22, ⟨ac21, k1, k2⟩, fun i _ a ha => ⟨a, ⟨ha.airspeed, ha.density, ha.alpha, ha.beta,
        ha.rateP, ha.rateQ, ha.rateR, ?_, ha.nonempty, ha.panels, ha.matrix, ha.solved, ha.singular,
        ha.results⟩, rfl⟩⟩
      rw [← genLattice_noSpans, ← r2, genLattice_noSpans]
      exact ha.lattice) hr
  refine ⟨out', h', fun i hi c hc => ?_⟩
  obtain ⟨ac', a, a', -, -, rfl, v1, v2⟩ := hv i hi
  rw [v1 c hc, v2 c hc]

end Verif
