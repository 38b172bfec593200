import Verif.Model.Run

/-!
# Panelling of an aircraft with other names

Everything up to the bookkeeping of the lattice, for an aircraft whose wings, segments and controls
have other names.
-/

namespace Verif

/-- Two outcomes: the same exception, or values that are related. -/
def SameE {ε α β : Type*} (R : α → β → Prop) : Except ε α → Except ε β → Prop
  | .error e, .error e' => e' = e
  | .ok a, .ok b => R a b
  | _, _ => False

theorem SameE.error {ε α β : Type*} {R : α → β → Prop} {x : Except ε α} {y : Except ε β}
    (h : SameE R x y) {e : ε} (hx : x = .error e) : y = .error e := by
  subst hx
  cases y with
  | error e' => exact congrArg _ h
  | ok b => exact h.elim

theorem SameE.ok {ε α β : Type*} {R : α → β → Prop} {x : Except ε α} {y : Except ε β}
    (h : SameE R x y) {a : α} (hx : x = .ok a) : ∃ b, y = .ok b ∧ R a b := by
  subst hx
  cases y with
  | error e' => exact h.elim
  | ok b => exact ⟨b, rfl, h⟩

theorem SameE.of_map {ε α β : Type*} {R : α → β → Prop} {x : Except ε α} {y : Except ε β} (f : α → β)
    (h : y = x.map f) (hR : ∀ a, R a (f a)) : SameE R x y := by
  subst h
  cases x with
  | error e => rfl
  | ok a => exact hR a

theorem mapE_ren {α β α' β' : Type*} {F : α → Except PyErr β} {F' : α' → Except PyErr β'} (f : α → α')
    (g : β → β') : ∀ (l : List α), (∀ a ∈ l, F' (f a) = (F a).map g) →
    mapE F' (l.map f) = (mapE F l).map (List.map g)
  | [], _ => rfl
  | a :: rest, h => by
    have ih := mapE_ren f g rest fun b hb => h b (List.mem_cons_of_mem _ hb)
    rw [List.map_cons]
    unfold mapE
    rw [h a (List.mem_cons_self ..), ih]
    cases F a with
    | error e => rfl
    | ok b => cases mapE F rest <;> rfl

section
variable {K : Type*} [Field K] [LinearOrder K]

/-- The control with another name. -/
def Control.ren (f : String → String) (c : Control) : Control := { c with uid := f c.uid }

/-- The device with another name of its control. -/
def Dev.ren (f : String → String) (d : Dev K) : Dev K := { d with ctrl := d.ctrl.ren f }

/-- The strip with other names of controls. -/
def Strip.ren (f : String → String) (s : Strip K) : Strip K :=
  { s with slat := s.slat.map (Dev.ren f), flap := s.flap.map (Dev.ren f) }

omit [LinearOrder K] in
theorem Strip.ren_init (f : String → String) (a b c d : K) :
    (Strip.init a b c d).ren f = Strip.init a b c d := rfl

theorem Strip.overlaps_ren (f : String → String) (s : Strip K) (x1 x2 : K) :
    (s.ren f).overlaps x1 x2 ↔ s.overlaps x1 x2 := by
  unfold Strip.overlaps Strip.ren
  cases s.slat <;> cases s.flap <;> simp [Dev.ren]

omit [Field K] [LinearOrder K] in
theorem Strip.hasDevice_ren (f : String → String) (s : Strip K) (d : String) :
    (s.ren f).hasDevice d ↔ s.hasDevice d := by
  unfold Strip.hasDevice Strip.ren
  simp

theorem Strip.addSubarea_ren (f : String → String) (s : Strip K) (c : Control) (x1 x2 : K)
    (h1 h2 : Option K) : (s.ren f).addSubarea (c.ren f) x1 x2 h1 h2 =
      (s.addSubarea c x1 x2 h1 h2).map (Strip.ren f) := by
  unfold Strip.addSubarea
  simp only [Strip.overlaps_ren, Strip.hasDevice_ren, show (c.ren f).deviceType = c.deviceType from rfl]
  split_ifs <;> rfl

omit [Field K] [LinearOrder K] in
theorem Strip.updateFlap_ren (f : String → String) (s : Strip K) (x1 x2 h1 h2 : K) :
    (s.ren f).updateFlap x1 x2 h1 h2 = (s.updateFlap x1 x2 h1 h2).ren f := by
  unfold Strip.updateFlap Strip.ren
  cases s.flap <;> rfl

omit [Field K] [LinearOrder K] in
theorem Strip.updateSlat_ren (f : String → String) (s : Strip K) (x1 x2 h1 h2 : K) :
    (s.ren f).updateSlat x1 x2 h1 h2 = (s.updateSlat x1 x2 h1 h2).ren f := by
  unfold Strip.updateSlat Strip.ren
  cases s.slat <;> rfl

/-- Two strips with other names. -/
def renTwo (f : String → String) (r : Except PyErr Unit × Strip K × Strip K) :
    Except PyErr Unit × Strip K × Strip K := (r.1, r.2.1.ren f, r.2.2.ren f)

theorem inheritFlap_ren (f : String → String) (interp : Interp K) (eA eB eta : K)
    (prev new : Strip K) : inheritFlap interp eA eB eta (prev.ren f) (new.ren f) =
      renTwo f (inheritFlap interp eA eB eta prev new) := by
  unfold inheritFlap
  cases h : prev.flap with
  | none => simp [Strip.ren, h, renTwo]
  | some d =>
    have e : (prev.ren f).flap = some (d.ren f) := by simp [Strip.ren, h]
    simp only [e]
    have := Strip.addSubarea_ren f new d.ctrl (interp (eA, d.xsiA) (eB, d.xsiB) eta) d.xsiB
      (some (interp (eA, d.h1) (eB, d.h2) eta)) (some d.h2)
    rw [show (d.ren f).ctrl = d.ctrl.ren f from rfl, show (d.ren f).xsiA = d.xsiA from rfl,
      show (d.ren f).xsiB = d.xsiB from rfl, show (d.ren f).h1 = d.h1 from rfl,
      show (d.ren f).h2 = d.h2 from rfl, this]
    cases new.addSubarea d.ctrl (interp (eA, d.xsiA) (eB, d.xsiB) eta) d.xsiB
      (some (interp (eA, d.h1) (eB, d.h2) eta)) (some d.h2) with
    | error e => rfl
    | ok n =>
      show (Except.ok (), (prev.ren f).updateFlap _ _ _ _, n.ren f) = _
      rw [Strip.updateFlap_ren]
      rfl

theorem inheritSlat_ren (f : String → String) (interp : Interp K) (eA eB eta : K)
    (prev new : Strip K) : inheritSlat interp eA eB eta (prev.ren f) (new.ren f) =
      renTwo f (inheritSlat interp eA eB eta prev new) := by
  unfold inheritSlat
  cases h : prev.slat with
  | none => simp [Strip.ren, h, renTwo]
  | some d =>
    have e : (prev.ren f).slat = some (d.ren f) := by simp [Strip.ren, h]
    simp only [e]
    have := Strip.addSubarea_ren f new d.ctrl (interp (eA, d.xsiD) (eB, d.xsiC) eta) d.xsiC
      (some (interp (eA, d.h1) (eB, d.h2) eta)) (some d.h2)
    rw [show (d.ren f).ctrl = d.ctrl.ren f from rfl, show (d.ren f).xsiD = d.xsiD from rfl,
      show (d.ren f).xsiC = d.xsiC from rfl, show (d.ren f).h1 = d.h1 from rfl,
      show (d.ren f).h2 = d.h2 from rfl, this]
    cases new.addSubarea d.ctrl (interp (eA, d.xsiD) (eB, d.xsiC) eta) d.xsiC
      (some (interp (eA, d.h1) (eB, d.h2) eta)) (some d.h2) with
    | error e => rfl
    | ok n =>
      show (Except.ok (), (prev.ren f).updateSlat _ _ _ _, n.ren f) = _
      rw [Strip.updateSlat_ren]
      rfl

theorem inheritDevices_ren (f : String → String) (interp : Interp K) (eA eB eta : K)
    (prev new : Strip K) : inheritDevices interp eA eB eta (prev.ren f) (new.ren f) =
      renTwo f (inheritDevices interp eA eB eta prev new) := by
  unfold inheritDevices
  rw [inheritFlap_ren]
  rcases inheritFlap interp eA eB eta prev new with ⟨_ | _, p, n⟩
  · rfl
  · exact inheritSlat_ren f interp eA eB eta p n

omit [Field K] in
theorem getSubdivAtEtaFrom_ren (f : String → String) (eta : K) : ∀ (i : ℕ) (l : List (Strip K)),
    getSubdivAtEtaFrom eta i (l.map (Strip.ren f)) =
      (getSubdivAtEtaFrom eta i l).map fun r => (r.1, r.2.1.ren f, r.2.2)
  | _, [] => rfl
  | i, s :: rest => by
    rw [List.map_cons]
    unfold getSubdivAtEtaFrom
    rw [getSubdivAtEtaFrom_ren f eta (i + 1) rest]
    show (if s.etaA ≤ eta ∧ eta < s.etaB then _ else _) = _
    split_ifs <;> rfl

/-- The strips with other names of controls. -/
def renStrips {α : Type*} (f : String → String) (r : α × List (Strip K)) : α × List (Strip K) :=
  (r.1, r.2.map (Strip.ren f))

theorem addSubdivision_ren (f : String → String) (interp : Interp K) (a d : K) (ign : Bool)
    (sds : List (Strip K)) : addSubdivision interp a d ign (sds.map (Strip.ren f)) =
      renStrips f (addSubdivision interp a d ign sds) := by
  unfold addSubdivision
  by_cases h0 : a ≤ 0 ∨ 1 ≤ a
  · rw [if_pos h0, if_pos h0]
    rfl
  rw [if_neg h0, if_neg h0]
  unfold getSubdivAtEta
  rw [getSubdivAtEtaFrom_ren]
  cases getSubdivAtEtaFrom a 0 sds with
  | none => rfl
  | some r =>
    obtain ⟨idx, prev, ob⟩ := r
    show (if ob then _ else if a - prev.etaA < minEtaLimit then _ else _) = _
    dsimp only
    split_ifs
    · rfl
    · rfl
    · have : inheritDevices interp prev.etaA prev.etaB a
          (({ prev with etaB := a, etaC := d } : Strip K).ren f)
          ((Strip.init a prev.etaB prev.etaC d).ren f) = _ := inheritDevices_ren ..
      show (match inheritDevices interp prev.etaA prev.etaB a
          (({ prev with etaB := a, etaC := d } : Strip K).ren f)
          ((Strip.init a prev.etaB prev.etaC d).ren f) with
        | (.error e, p, n) => _
        | (.ok (), p, n) => _) = _
      rw [this]
      rcases inheritDevices interp prev.etaA prev.etaB a { prev with etaB := a, etaC := d }
        (Strip.init a prev.etaB prev.etaC d) with ⟨_ | _, p, n⟩
      · simp [renTwo, renStrips, List.map_set]
      · simp [renTwo, renStrips, List.map_set]

theorem outerNeighbourLoop_ren (f : String → String) (a : K) : ∀ (l : List (Strip K)) (i : ℕ) (dm : K)
    (best : Option ℕ), outerNeighbourLoop a i dm best (l.map (Strip.ren f)) =
      outerNeighbourLoop a i dm best l
  | [], _, _, _ => rfl
  | s :: rest, i, dm, best => by
    rw [List.map_cons]
    unfold outerNeighbourLoop
    simp only [outerNeighbourLoop_ren f a rest]
    rfl

theorem getOuterNeighbour_ren (f : String → String) (l : List (Strip K)) (a : K) :
    getOuterNeighbour (l.map (Strip.ren f)) a = getOuterNeighbour l a :=
  outerNeighbourLoop_ren f _ l _ _ _

theorem controlLoop_ren (f : String → String) (interp : Interp K) (sds : List (Strip K))
    (a b x1 x2 h1 h2 : K) : ∀ (fuel outer : ℕ) (e : K) (rows : List (Row K)) (last : Row K),
    controlLoop interp (sds.map (Strip.ren f)) a b x1 x2 h1 h2 fuel outer e rows last =
      controlLoop interp sds a b x1 x2 h1 h2 fuel outer e rows last := by
  intro fuel
  induction fuel with
  | zero =>
    intro outer e rows last
    unfold controlLoop
    rw [getOuterNeighbour_ren]
    simp only [List.getElem?_map]
    split_ifs
    · cases getOuterNeighbour sds e with
      | none => rfl
      | some o => dsimp only; cases sds[o]? <;> cases sds[last.idx]? <;> rfl
    · rfl
  | succ fuel ih =>
    intro outer e rows last
    unfold controlLoop
    rw [getOuterNeighbour_ren]
    simp only [List.getElem?_map]
    split_ifs
    · cases getOuterNeighbour sds e with
      | none => rfl
      | some o =>
        dsimp only
        cases sds[o]? with
        | none => rfl
        | some s =>
          cases sds[last.idx]? with
          | none => rfl
          | some l => exact ih ..
    · rfl

theorem addRows_ren (f : String → String) (c : Control) : ∀ (rows : List (Row K))
    (sds : List (Strip K)), addRows (c.ren f) rows (sds.map (Strip.ren f)) =
      renStrips f (addRows c rows sds)
  | [], _ => rfl
  | r :: rest, sds => by
    unfold addRows
    rw [List.getElem?_map]
    cases sds[r.idx]? with
    | none => rfl
    | some s =>
      simp only [Option.map_some, Strip.addSubarea_ren]
      cases s.addSubarea c r.xsi1 r.xsi2 (some r.h1) (some r.h2) with
      | error e => rfl
      | ok s' =>
        show addRows (c.ren f) rest ((sds.map (Strip.ren f)).set r.idx (s'.ren f)) = _
        rw [← List.map_set]
        exact addRows_ren f c rest _

theorem controlFrom_ren (f : String → String) (interp : Interp K) (a b : K) (c : Control)
    (x1 x2 h1 h2 : K) (i1 : ℕ) (sds : List (Strip K)) :
    controlFrom interp a b (c.ren f) x1 x2 h1 h2 i1 (sds.map (Strip.ren f)) =
      renStrips f (controlFrom interp a b c x1 x2 h1 h2 i1 sds) := by
  unfold controlFrom
  rw [List.getElem?_map]
  cases sds[i1]? with
  | none => rfl
  | some s =>
    show (if b = s.etaB then _ else if b < s.etaB then _ else _) = _
    dsimp only
    rw [getOuterNeighbour_ren, addSubdivision_ren]
    split_ifs
    · exact addRows_ren ..
    · rcases addSubdivision interp b b false sds with ⟨_ | _, l⟩
      · rfl
      · exact addRows_ren ..
    · show (match getOuterNeighbour sds s.etaB with
        | none => _
        | some outer => _) = _
      cases getOuterNeighbour sds s.etaB with
      | none => rfl
      | some o =>
        dsimp only
        rw [List.getElem?_map]
        cases sds[o]? with
        | none => rfl
        | some so =>
          simp only [Option.map_some, controlLoop_ren,
            show ∀ x : Strip K, (x.ren f).etaB = x.etaB from fun _ => rfl]
          cases controlLoop interp sds a b x1 x2 h1 h2 100 o so.etaB
              [⟨i1, x1, interp (a, x1) (b, x2) s.etaB, h1, interp (a, h1) (b, h2) s.etaB⟩]
              ⟨o, interp (a, x1) (b, x2) s.etaB, x2, interp (a, h1) (b, h2) s.etaB, h2⟩ with
          | error e => rfl
          | ok r =>
            obtain ⟨rows, o'⟩ := r
            simp only [List.getElem?_map]
            cases sds[o']? with
            | none => rfl
            | some so' =>
              simp only [Option.map_some, show ∀ x : Strip K, (x.ren f).etaB = x.etaB from fun _ => rfl]
              split_ifs
              · rcases addSubdivision interp b b false sds with ⟨_ | _, l⟩
                · rfl
                · exact addRows_ren ..
              · exact addRows_ren ..

theorem addSubdivisionForControl_ren (f : String → String) (interp : Interp K) (a b : K) (c : Control)
    (x1 x2 : K) (h1 h2 : Option K) (sds : List (Strip K)) :
    addSubdivisionForControl interp a b (c.ren f) x1 x2 h1 h2 (sds.map (Strip.ren f)) =
      renStrips f (addSubdivisionForControl interp a b c x1 x2 h1 h2 sds) := by
  unfold addSubdivisionForControl
  dsimp only
  split_ifs
  · exact controlFrom_ren ..
  · rw [addSubdivision_ren]
    rcases addSubdivision interp a a false sds with ⟨_ | _ | _, l⟩
    · rfl
    · rfl
    · exact controlFrom_ren ..

/-! ## Panelling -/

/-- The segment with another name and other names of controls. -/
def PSegment.ren (g f : String → String) (s : PSegment K) : PSegment K :=
  { s with uid := g s.uid, strips := s.strips.map (Strip.ren f) }

/-- The control with another name and other names of segments. -/
def PControl.ren (g f : String → String) (c : PControl K) : PControl K :=
  { c with uid := f c.uid, segInner := g c.segInner, segOuter := g c.segOuter }

/-- A row with another name of the segment. -/
def SegRow.ren (g : String → String) (r : SegRow K) : SegRow K := { r with uid := g r.uid }

omit [Field K] [LinearOrder K] in
theorem PSegment.update_ren {g f : String → String} (hg : Function.Injective g)
    {F F' : PSegment K → Except PyErr (List (Strip K))} (uid : String) : ∀ (l : List (PSegment K)),
    (∀ s ∈ l, F' (s.ren g f) = (F s).map (List.map (Strip.ren f))) →
    PSegment.update (g uid) F' (l.map (PSegment.ren g f)) =
      (PSegment.update uid F l).map (List.map (PSegment.ren g f))
  | [], _ => rfl
  | s :: rest, h => by
    rw [List.map_cons]
    unfold PSegment.update
    rw [PSegment.update_ren hg uid rest fun t ht => h t (List.mem_cons_of_mem _ ht),
      h s (List.mem_cons_self ..)]
    show (if g s.uid = g uid then _ else _) = _
    by_cases hu : s.uid = uid
    · rw [if_pos hu, if_pos (by rw [hu])]
      cases F s <;> rfl
    · rw [if_neg hu, if_neg fun h => hu (hg h)]
      cases PSegment.update uid F rest <;> rfl

omit [LinearOrder K] in
theorem collectRows_ren {g : String → String} (hg : Function.Injective g) (f : String → String)
    (c : PControl K) (h1 h2 x h : K) : ∀ (b : Bool) (l : List String),
    collectRows (c.ren g f) h1 h2 x h b (l.map g) =
      (collectRows c h1 h2 x h b l).map (SegRow.ren g)
  | _, [] => rfl
  | b, uid :: rest => by
    rw [List.map_cons]
    unfold collectRows
    rw [collectRows_ren hg f c h1 h2 x h true rest, collectRows_ren hg f c h1 h2 x h b rest]
    show (if g uid = g c.segInner then _ else if b = true then
      if g uid = g c.segOuter then _ else _ else _) = _
    simp only [hg.eq_iff]
    split_ifs <;> rfl

omit [LinearOrder K] in
theorem rowLengths_ren {g : String → String} {d d' : String → K → K → K → K → Option K}
    (hd : ∀ uid e1 x1 e2 x2, d' (g uid) e1 x1 e2 x2 = d uid e1 x1 e2 x2) :
    ∀ (l : K) (rows : List (SegRow K)),
      rowLengths d' l (rows.map (SegRow.ren g)) = rowLengths d l rows
  | _, [] => rfl
  | l, r :: rest => by
    rw [List.map_cons]
    unfold rowLengths
    rw [show d' (r.ren g).uid (r.ren g).etaI (r.ren g).xsiI (r.ren g).etaO (r.ren g).xsiO =
      d r.uid r.etaI r.xsiI r.etaO r.xsiO from hd ..]
    cases d r.uid r.etaI r.xsiI r.etaO r.xsiO with
    | none => rfl
    | some x =>
      dsimp only
      rw [rowLengths_ren hd (l + x) rest]

theorem adjustRows_ren {g : String → String} (f : String → String)
    {d d' : String → K → K → K → K → Option K}
    (hd : ∀ uid e1 x1 e2 x2, d' (g uid) e1 x1 e2 x2 = d uid e1 x1 e2 x2) (c : PControl K) (h1 h2 : K)
    (rows : List (SegRow K)) : adjustRows d' (c.ren g f) h1 h2 (rows.map (SegRow.ren g)) =
      (adjustRows d c h1 h2 rows).map (List.map (SegRow.ren g)) := by
  unfold adjustRows
  rw [rowLengths_ren hd]
  show (if c.xsiInner ≠ c.xsiOuter ∨ h1 ≠ h2 then _ else _) = _
  split_ifs
  · cases rowLengths d 0 rows with
    | error e => rfl
    | ok ls =>
      simp only [Except.map, Except.ok.injEq]
      rw [List.zipWith_map_left, List.map_zipWith]
      rfl
  · rfl

theorem addForControl_ren (g f : String → String) (c : Control) (a b x1 x2 : K) (h1 h2 : Option K)
    (s : PSegment K) :
    asExcept (addSubdivisionForControl (s.ren g f).interp a b (c.ren f) x1 x2 h1 h2
        (s.ren g f).strips) =
      (asExcept (addSubdivisionForControl s.interp a b c x1 x2 h1 h2 s.strips)).map
        (List.map (Strip.ren f)) := by
  show asExcept (addSubdivisionForControl s.interp a b (c.ren f) x1 x2 h1 h2
        (s.strips.map (Strip.ren f))) = _
  rw [addSubdivisionForControl_ren]
  rcases addSubdivisionForControl s.interp a b c x1 x2 h1 h2 s.strips with ⟨_ | _, l⟩ <;> rfl

theorem applyRows_ren {g : String → String} (hg : Function.Injective g) (f : String → String)
    (c : Control) : ∀ (rows : List (SegRow K)) (l : List (PSegment K)),
    applyRows (c.ren f) (rows.map (SegRow.ren g)) (l.map (PSegment.ren g f)) =
      (applyRows c rows l).map (List.map (PSegment.ren g f))
  | [], _ => rfl
  | r :: rest, l => by
    rw [List.map_cons]
    unfold applyRows
    rw [show (r.ren g).uid = g r.uid from rfl,
      PSegment.update_ren (f := f) hg r.uid (F := fun s => asExcept (addSubdivisionForControl s.interp
        r.etaI r.etaO c r.xsiI r.xsiO (some r.hI) (some r.hO) s.strips)) l
        fun s _ => addForControl_ren g f c r.etaI r.etaO r.xsiI r.xsiO (some r.hI) (some r.hO) s]
    cases PSegment.update r.uid (fun s => asExcept (addSubdivisionForControl s.interp
        r.etaI r.etaO c r.xsiI r.xsiO (some r.hI) (some r.hO) s.strips)) l with
    | error e => rfl
    | ok l' => exact applyRows_ren hg f c rest l'

omit [Field K] [LinearOrder K] in
theorem segDist_ren {g : String → String} (hg : Function.Injective g) (f : String → String)
    (l : List (PSegment K)) (uid : String) (e1 x1 e2 x2 : K) :
    segDist (l.map (PSegment.ren g f)) (g uid) e1 x1 e2 x2 = segDist l uid e1 x1 e2 x2 := by
  unfold segDist
  rw [List.find?_map, Option.map_map]
  have : ((fun s : PSegment K => decide (s.uid = g uid)) ∘ PSegment.ren g f) =
      fun s => decide (s.uid = uid) := by
    funext s
    show decide (g s.uid = g uid) = _
    simp only [hg.eq_iff]
  rw [this]
  rfl

theorem placeControl_ren {g : String → String} (hg : Function.Injective g) (f : String → String)
    (c : PControl K) (l : List (PSegment K)) :
    placeControl (c.ren g f) (l.map (PSegment.ren g f)) =
      (placeControl c l).map (List.map (PSegment.ren g f)) := by
  unfold placeControl
  show (if g c.segInner = g c.segOuter then _ else _) = _
  simp only [hg.eq_iff]
  split_ifs
  · exact PSegment.update_ren hg c.segInner l fun s _ => addForControl_ren g f c.control
      c.etaInner c.etaOuter c.xsiInner c.xsiOuter c.hInner c.hOuter s
  · show (match c.hInner, c.hOuter with
      | some h1, some h2 => _
      | _, _ => _) = _
    cases c.hInner with
    | none => rfl
    | some h1 =>
      cases c.hOuter with
      | none => rfl
      | some h2 =>
        dsimp only
        rw [show (l.map (PSegment.ren g f)).map PSegment.uid = (l.map PSegment.uid).map g by
          rw [List.map_map, List.map_map]; rfl]
        rw [show collectRows (c.ren g f) h1 h2 (((c.ren g f).xsiInner + (c.ren g f).xsiOuter) / 2)
            ((h1 + h2) / 2) false ((l.map PSegment.uid).map g) = _ from
          collectRows_ren hg f c h1 h2 ((c.xsiInner + c.xsiOuter) / 2) ((h1 + h2) / 2) false _,
          adjustRows_ren f (fun uid e1 x1 e2 x2 => segDist_ren hg f l uid e1 x1 e2 x2)]
        cases adjustRows (segDist l) c h1 h2 (collectRows c h1 h2 ((c.xsiInner + c.xsiOuter) / 2)
            ((h1 + h2) / 2) false (l.map PSegment.uid)) with
        | error e => rfl
        | ok rows => exact applyRows_ren hg f c.control rows l

theorem placeControls_ren {g : String → String} (hg : Function.Injective g) (f : String → String) :
    ∀ (cs : List (PControl K)) (l : List (PSegment K)),
    placeControls (cs.map (PControl.ren g f)) (l.map (PSegment.ren g f)) =
      (placeControls cs l).map (List.map (PSegment.ren g f))
  | [], _ => rfl
  | c :: rest, l => by
    rw [List.map_cons]
    unfold placeControls
    rw [placeControl_ren hg]
    cases placeControl c l with
    | error e => rfl
    | ok l' => exact placeControls_ren hg f rest l'

theorem addLines_ren (f : String → String) (interp : Interp K) : ∀ (es : List K) (l : List (Strip K)),
    addLines interp es (l.map (Strip.ren f)) = (addLines interp es l).map (List.map (Strip.ren f))
  | [], _ => rfl
  | e :: rest, l => by
    unfold addLines
    rw [addSubdivision_ren]
    rcases addSubdivision interp e e true l with ⟨_ | _, l'⟩
    · rfl
    · exact addLines_ren f interp rest l'

theorem PSegment.addSpanLines_ren (g f : String → String) (s : PSegment K) :
    (s.ren g f).addSpanLines = s.addSpanLines.map (PSegment.ren g f) := by
  unfold PSegment.addSpanLines
  cases hn : s.numS with
  | none => simp only [show (s.ren g f).numS = none from hn]; rfl
  | some n =>
    simp only [show (s.ren g f).numS = some n from hn]
    split_ifs
    · rfl
    · rw [show addLines (s.ren g f).interp (spanLines n.toNat) (s.ren g f).strips =
        _ from addLines_ren f s.interp (spanLines n.toNat) s.strips]
      cases addLines s.interp (spanLines n.toNat) s.strips with
      | error e => rfl
      | ok st => simp only [Except.map, PSegment.ren, hn]

/-- New names: of wings, of the segments of a wing, of the controls of a wing. -/
structure Naming where
  wing : String → String
  seg : String → String → String
  ctl : String → String → String

/-- The wing with other names. -/
def PWing.ren (ρ : Naming) (w : PWing K) : PWing K :=
  ⟨ρ.wing w.uid, w.symmetry, w.segments.map (PSegment.ren (ρ.seg w.uid) (ρ.ctl w.uid)),
    w.controls.map (PControl.ren (ρ.seg w.uid) (ρ.ctl w.uid))⟩

/-- The aircraft with other names. -/
def PAircraft.ren (ρ : Naming) (ac : PAircraft K) : PAircraft K := ⟨ac.wings.map (PWing.ren ρ)⟩

theorem prePanelling_ren {ρ : Naming} (hs : ∀ w, Function.Injective (ρ.seg w)) (ac : PAircraft K) :
    prePanelling (ac.ren ρ) = (prePanelling ac).map (PAircraft.ren ρ) := by
  unfold prePanelling
  have h1 : mapE (fun w : PWing K => w.mapSegments (placeControls w.controls)) (ac.ren ρ).wings =
      (mapE (fun w : PWing K => w.mapSegments (placeControls w.controls)) ac.wings).map
        (List.map (PWing.ren ρ)) := by
    apply mapE_ren
    intro w _
    unfold PWing.mapSegments
    rw [show placeControls (w.ren ρ).controls (w.ren ρ).segments = _ from
      placeControls_ren (hs w.uid) (ρ.ctl w.uid) w.controls w.segments]
    cases placeControls w.controls w.segments <;> rfl
  rw [h1]
  cases mapE (fun w : PWing K => w.mapSegments (placeControls w.controls)) ac.wings with
  | error e => rfl
  | ok ws =>
    have h2 := mapE_ren (F := fun w : PWing K => w.mapSegments (mapE PSegment.addSpanLines)) 
      (F' := fun w : PWing K => w.mapSegments (mapE PSegment.addSpanLines)) (PWing.ren ρ)
      (PWing.ren ρ) ws fun w _ => by
        unfold PWing.mapSegments
        rw [show mapE PSegment.addSpanLines (w.ren ρ).segments = _ from
          mapE_ren (PSegment.ren (ρ.seg w.uid) (ρ.ctl w.uid)) (PSegment.ren (ρ.seg w.uid) (ρ.ctl w.uid))
            w.segments fun s _ => PSegment.addSpanLines_ren _ _ s]
        cases mapE PSegment.addSpanLines w.segments <;> rfl
    simp only [Except.map, h2]
    cases mapE (fun w : PWing K => w.mapSegments (mapE PSegment.addSpanLines)) ws <;> rfl

theorem PWing.span_ren (ρ : Naming) (w : PWing K) : (w.ren ρ).span = w.span := by
  unfold PWing.span PWing.ren
  rw [List.foldl_map]
  rfl

theorem PSegment.setAutopanels_ren [FloorRing K] (g f : String → String) (span : K) (apC apS : ℤ)
    (s : PSegment K) : (s.ren g f).setAutopanels span apC apS =
      (s.setAutopanels span apC apS).map (PSegment.ren g f) := by
  unfold PSegment.setAutopanels
  cases hc : s.numC <;> cases hS : s.numS <;>
    simp only [PSegment.ren, hc, hS, if_true, reduceCtorEq, if_false]
  · cases spanRatio s.span span <;> rfl
  · rfl
  · cases spanRatio s.span span <;> rfl
  · simp only [Except.map, PSegment.ren, hc, hS]

theorem PWing.setAutopanels_ren [FloorRing K] (ρ : Naming) (apC apS : ℤ) (w : PWing K) :
    (w.ren ρ).setAutopanels apC apS = (w.setAutopanels apC apS).map (PWing.ren ρ) := by
  unfold PWing.setAutopanels
  rw [PWing.span_ren, show mapE (PSegment.setAutopanels w.span apC apS) (w.ren ρ).segments = _ from
    mapE_ren (F := PSegment.setAutopanels w.span apC apS) (PSegment.ren (ρ.seg w.uid) (ρ.ctl w.uid))
      (PSegment.ren (ρ.seg w.uid) (ρ.ctl w.uid)) w.segments
      fun s _ => PSegment.setAutopanels_ren _ _ w.span apC apS s]
  cases mapE (PSegment.setAutopanels w.span apC apS) w.segments with
  | error e => rfl
  | ok segs =>
    simp only [Except.map, PWing.ren, Except.ok.injEq, PWing.mk.injEq, true_and, List.map_map]
    apply List.map_congr_left
    intro c _
    simp only [Function.comp, PControl.setAutopanels]
    cases hc : c.numC <;> simp [PControl.ren, hc]

theorem setAutopanels_ren [FloorRing K] (ρ : Naming) (apC apS : ℤ) (ac : PAircraft K) :
    setAutopanels apC apS (ac.ren ρ) = (setAutopanels apC apS ac).map (PAircraft.ren ρ) := by
  unfold setAutopanels
  rw [show mapE (PWing.setAutopanels apC apS) (ac.ren ρ).wings = _ from
    mapE_ren (F := PWing.setAutopanels apC apS) (PWing.ren ρ) (PWing.ren ρ) ac.wings
      fun w _ => PWing.setAutopanels_ren ρ apC apS w]
  cases mapE (PWing.setAutopanels apC apS) ac.wings <;> rfl

/-! ## Bookkeeping -/

/-- The subarea with another name of its control. -/
def Subarea.ren (f : String → String) (a : Subarea K) : Subarea K :=
  { a with ctrl := a.ctrl.map (Control.ren f) }

omit [Field K] [LinearOrder K] in
theorem Strip.subareas_ren (f : String → String) (s : Strip K) :
    (s.ren f).subareas = s.subareas.map (Subarea.ren f) := by
  unfold Strip.subareas
  rw [List.map_cons, List.map_filterMap]
  congr 1
  show List.filterMap _ s.keys = _
  congr 1
  funext k
  unfold Strip.ren
  split_ifs
  · cases s.slat <;> rfl
  · cases s.flap <;> rfl
  · rfl

theorem enumFrom'_map {α β : Type*} (h : α → β) : ∀ (i : ℕ) (l : List α),
    enumFrom' i (l.map h) = (enumFrom' i l).map fun x => (x.1, h x.2)
  | _, [] => rfl
  | i, a :: rest => by
    rw [List.map_cons, show enumFrom' i (h a :: rest.map h) = (i, h a) :: enumFrom' (i + 1) (rest.map h)
      from rfl, enumFrom'_map h (i + 1) rest]
    rfl

theorem nested_renamed {α β α' β' : Type*} {F : α → List β} {F' : α' → List β'} (h : α → α') (k : α → β → β')
    (hF : ∀ a, F' (h a) = (F a).map (k a)) : ∀ (l : List α),
    nested F' (l.map h) = (nested F l).map fun x => (k x.2 x.1, h x.2)
  | [] => rfl
  | a :: rest => by
    rw [List.map_cons]
    unfold nested
    rw [nested_renamed h k hF rest, hF, List.map_append, List.map_map, List.map_map]
    rfl

/-- A subarea with its parents, with other names. -/
def tupleRen (ρ : Naming)
    (t : (ℕ × Subarea K) × (ℕ × Strip K) × (ℕ × PSegment K) × (ℕ × PWing K)) :
    (ℕ × Subarea K) × (ℕ × Strip K) × (ℕ × PSegment K) × (ℕ × PWing K) :=
  let w := t.2.2.2.2
  ((t.1.1, t.1.2.ren (ρ.ctl w.uid)), (t.2.1.1, t.2.1.2.ren (ρ.ctl w.uid)),
    (t.2.2.1.1, t.2.2.1.2.ren (ρ.seg w.uid) (ρ.ctl w.uid)), (t.2.2.2.1, w.ren ρ))

omit [Field K] [LinearOrder K] in
theorem allSubareas_ren (ρ : Naming) (ac : PAircraft K) :
    allSubareas (ac.ren ρ) = (allSubareas ac).map (tupleRen ρ) := by
  unfold allSubareas allSubdivisions allSegments allWings
  rw [show (ac.ren ρ).wings = ac.wings.map (PWing.ren ρ) from rfl, enumFrom'_map,
    nested_renamed (F := fun w : ℕ × PWing K => enumFrom' 0 w.2.segments)
      (fun x : ℕ × PWing K => (x.1, x.2.ren ρ))
      (fun w s => (s.1, s.2.ren (ρ.seg w.2.uid) (ρ.ctl w.2.uid)))
      (fun w => enumFrom'_map _ 0 w.2.segments),
    nested_renamed (F := fun s : (ℕ × PSegment K) × (ℕ × PWing K) => enumFrom' 0 s.1.2.strips)
      (fun x : (ℕ × PSegment K) × (ℕ × PWing K) =>
        ((x.1.1, x.1.2.ren (ρ.seg x.2.2.uid) (ρ.ctl x.2.2.uid)), (x.2.1, x.2.2.ren ρ)))
      (fun w s => (s.1, s.2.ren (ρ.ctl w.2.2.uid)))
      (fun w => enumFrom'_map _ 0 w.1.2.strips),
    nested_renamed (F := fun s : (ℕ × Strip K) × (ℕ × PSegment K) × (ℕ × PWing K) =>
        enumFrom' 0 s.1.2.subareas)
      (fun x : (ℕ × Strip K) × (ℕ × PSegment K) × (ℕ × PWing K) =>
        ((x.1.1, x.1.2.ren (ρ.ctl x.2.2.2.uid)),
          ((x.2.1.1, x.2.1.2.ren (ρ.seg x.2.2.2.uid) (ρ.ctl x.2.2.2.uid)), (x.2.2.1, x.2.2.2.ren ρ))))
      (fun w s => (s.1, s.2.ren (ρ.ctl w.2.2.2.uid)))
      (fun w => by rw [← enumFrom'_map, ← Strip.subareas_ren])]
  rfl

/-- An entry with another name of the wing. -/
def BookEntry.ren (ρ : Naming) (e : BookEntry) : BookEntry := { e with wingUid := ρ.wing e.wingUid }

/-- The same bookkeeping with other names. -/
structure Book.Ren (ρ : Naming) (b b' : Book) : Prop where
  entries : b'.entries = b.entries.map (BookEntry.ren ρ)
  byWing : ∀ u, b'.byWing (ρ.wing u) = (b.byWing u).map (BookEntry.ren ρ)
  byWingMirror : ∀ u, b'.byWingMirror (ρ.wing u) = (b.byWingMirror u).map (BookEntry.ren ρ)
  numSub : b'.numSub = b.numSub
  numR : b'.numR = b.numR
  numP : b'.numP = b.numP

theorem Book.Ren.update {ρ : Naming} (hw : Function.Injective ρ.wing) {b b' : Book} (h : b.Ren ρ b')
    (e : BookEntry) : (b.update e).Ren ρ (b'.update (e.ren ρ)) := by
  unfold Book.update
  rw [show (e.ren ρ).mirror = e.mirror from rfl]
  cases e.mirror with
  | false =>
    refine ⟨by simp [h.entries], fun u => ?_, h.byWingMirror, h.numSub, h.numR, h.numP⟩
    show (if ρ.wing u = ρ.wing e.wingUid then _ else _) = _
    simp only [hw.eq_iff]
    by_cases hu : u = e.wingUid
    · simp [hu, h.byWing]
    · simp [hu, h.byWing]
  | true =>
    refine ⟨by simp [h.entries], h.byWing, fun u => ?_, h.numSub, h.numR, h.numP⟩
    show (if ρ.wing u = ρ.wing e.wingUid then _ else _) = _
    simp only [hw.eq_iff]
    by_cases hu : u = e.wingUid
    · simp [hu, h.byWingMirror]
    · simp [hu, h.byWingMirror]

theorem Book.Ren.add {ρ : Naming} (hw : Function.Injective ρ.wing) {b b' : Book} (h : b.Ren ρ b')
    (path : SubPath) (uid : String) (n : ℤ) (m : Bool) :
    (({ b with numSub := b.numSub + 1, numR := b.numR + n, numP := b.numP + n } : Book).update
      ⟨path, uid, b.numP, b.numP + n, n, m⟩).Ren ρ
    (({ b' with numSub := b'.numSub + 1, numR := b'.numR + n, numP := b'.numP + n } : Book).update
      ⟨path, ρ.wing uid, b'.numP, b'.numP + n, n, m⟩) := by
  have h1 : ({ b with numSub := b.numSub + 1, numR := b.numR + n, numP := b.numP + n } : Book).Ren ρ
      { b' with numSub := b'.numSub + 1, numR := b'.numR + n, numP := b'.numP + n } :=
    ⟨h.entries, h.byWing, h.byWingMirror, by rw [h.numSub], by rw [h.numR], by rw [h.numP]⟩
  have h2 := h1.update hw ⟨path, uid, b.numP, b.numP + n, n, m⟩
  rw [show BookEntry.ren ρ ⟨path, uid, b.numP, b.numP + n, n, m⟩ =
    ⟨path, ρ.wing uid, b'.numP, b'.numP + n, n, m⟩ by rw [h.numP]; rfl] at h2
  exact h2

variable [FloorRing K]

theorem chordPanels_ren {ρ : Naming} (hc : ∀ w, Function.Injective (ρ.ctl w)) (w : PWing K)
    (s : PSegment K) (a : Subarea K) :
    chordPanels (w.ren ρ) (s.ren (ρ.seg w.uid) (ρ.ctl w.uid)) (a.ren (ρ.ctl w.uid)) =
      chordPanels w s a := by
  unfold chordPanels
  cases ha : a.ctrl with
  | none => simp only [show (a.ren (ρ.ctl w.uid)).ctrl = none by simp [Subarea.ren, ha]]; rfl
  | some c =>
    simp only [show (a.ren (ρ.ctl w.uid)).ctrl = some (c.ren (ρ.ctl w.uid)) by simp [Subarea.ren, ha]]
    have : ((w.ren ρ).controls.find? fun p : PControl K => decide (p.uid = (c.ren (ρ.ctl w.uid)).uid)) =
        (w.controls.find? fun p : PControl K => decide (p.uid = c.uid)).map
          (PControl.ren (ρ.seg w.uid) (ρ.ctl w.uid)) := by
      show ((w.controls.map _).find? _) = _
      rw [List.find?_map]
      congr 2
      funext p
      show decide (ρ.ctl w.uid p.uid = ρ.ctl w.uid c.uid) = _
      simp only [(hc w.uid).eq_iff]
    rw [this, Option.bind_map]
    rfl

theorem countStep_ren {ρ : Naming} (hw : Function.Injective ρ.wing)
    (hc : ∀ w, Function.Injective (ρ.ctl w)) {b b' : Book} (h : b.Ren ρ b')
    (t : (ℕ × Subarea K) × (ℕ × Strip K) × (ℕ × PSegment K) × (ℕ × PWing K)) :
    SameE (Book.Ren ρ) (countStep b t) (countStep b' (tupleRen ρ t)) := by
  unfold countStep
  rw [show chordPanels (tupleRen ρ t).2.2.2.2 (tupleRen ρ t).2.2.1.2 (tupleRen ρ t).1.2 =
    chordPanels t.2.2.2.2 t.2.2.1.2 t.1.2 from chordPanels_ren hc ..]
  cases chordPanels t.2.2.2.2 t.2.2.1.2 t.1.2 with
  | error e => rfl
  | ok n =>
    have h2 := h.add hw ⟨t.2.2.2.1, t.2.2.1.1, t.2.1.1, t.1.1⟩ t.2.2.2.2.uid n false
    show SameE _ (if t.2.2.2.2.symmetry ≠ 0 then _ else _) (if t.2.2.2.2.symmetry ≠ 0 then _ else _)
    split_ifs
    · exact h2.add hw ⟨t.2.2.2.1, t.2.2.1.1, t.2.1.1, t.1.1⟩ t.2.2.2.2.uid n true
    · exact h2

theorem countFrom_ren {ρ : Naming} (hw : Function.Injective ρ.wing)
    (hc : ∀ w, Function.Injective (ρ.ctl w)) :
    ∀ (l : List ((ℕ × Subarea K) × (ℕ × Strip K) × (ℕ × PSegment K) × (ℕ × PWing K)))
      {b b' : Book}, b.Ren ρ b' →
      SameE (Book.Ren ρ) (countFrom b l) (countFrom b' (l.map (tupleRen ρ)))
  | [], _, _, h => h
  | t :: rest, b, b', h => by
    rw [List.map_cons]
    unfold countFrom
    have := countStep_ren hw hc h t
    cases h1 : countStep b t with
    | error e => rw [this.error h1]; rfl
    | ok b1 =>
      obtain ⟨b2, e, h2⟩ := this.ok h1
      rw [e]
      exact countFrom_ren hw hc rest h2

theorem genBook_ren {ρ : Naming} (hw : Function.Injective ρ.wing)
    (hc : ∀ w, Function.Injective (ρ.ctl w)) (ac : PAircraft K) :
    SameE (Book.Ren ρ) (genBook ac) (genBook (ac.ren ρ)) := by
  unfold genBook
  rw [allSubareas_ren]
  exact countFrom_ren hw hc _ ⟨rfl, fun _ => rfl, fun _ => rfl, rfl, rfl, rfl⟩

end

/-! ## Lattice -/

/-- The same lattice data, found by other names. -/
structure LatticeEnv.Ren (ρ : Naming) (env env' : LatticeEnv) : Prop where
  geo : env'.geo = env.geo
  camber : env'.camber = env.camber
  deflection : ∀ w c, env'.deflection (ρ.wing w) (ρ.ctl w c) = env.deflection w c

/-- The parts of an entry with other names. -/
def EntryParts.ren (ρ : Naming) (p : EntryParts) : EntryParts :=
  { p with wing := p.wing.ren ρ, strip := p.strip.ren (ρ.ctl p.wing.uid),
           sub := p.sub.ren (ρ.ctl p.wing.uid) }

theorem entryParts_ren {ρ : Naming} {env env' : LatticeEnv} (h : env.Ren ρ env') (ac : PAircraft ℝ)
    (e : BookEntry) : entryParts env' (ac.ren ρ) (e.ren ρ) = (entryParts env ac e).map
      (EntryParts.ren ρ) := by
  unfold entryParts
  rw [h.geo, h.camber]
  show (match (ac.wings.map (PWing.ren ρ))[e.path.wing]? with
    | none => none
    | some w => _) = _
  rw [List.getElem?_map]
  cases ac.wings[e.path.wing]? with
  | none => rfl
  | some w =>
    simp only [Option.map_some, PWing.ren, BookEntry.ren, List.getElem?_map]
    cases w.segments[e.path.seg]? with
    | none => rfl
    | some s =>
      simp only [Option.map_some, PSegment.ren, List.getElem?_map]
      cases s.strips[e.path.strip]? with
      | none => rfl
      | some d =>
        simp only [Option.map_some, Strip.subareas_ren, List.getElem?_map]
        cases d.subareas[e.path.sub]? <;> rfl

theorem Strip.absVertices_ren (f : String → String) (g : GeoEnv ℝ) (s : Strip ℝ) (m : Bool) :
    (s.ren f).absVertices g m = s.absVertices g m := rfl

theorem subareaVertices_ren (f : String → String) (g : GeoEnv ℝ) (s : Strip ℝ) (q : Quad ℝ) (m : Bool) :
    subareaVertices g (s.ren f) q m = subareaVertices g s q m := rfl

theorem Strip.hinge_ren (f : String → String) (s : Strip ℝ) (type : String) :
    (s.ren f).hinge type = s.hinge type := by
  unfold Strip.hinge Strip.ren
  cases s.slat <;> cases s.flap <;> rfl

theorem hingeRotation_ren {ρ : Naming} {env env' : LatticeEnv} (h : env.Ren ρ env') (p : EntryParts)
    (m : Bool) : hingeRotation env' (p.ren ρ) m = hingeRotation env p m := by
  unfold hingeRotation
  cases hp : p.sub.ctrl with
  | none => simp only [show (p.ren ρ).sub.ctrl = none by simp [EntryParts.ren, Subarea.ren, hp]]
  | some c =>
    simp only [show (p.ren ρ).sub.ctrl = some (c.ren (ρ.ctl p.wing.uid)) by
      simp [EntryParts.ren, Subarea.ren, hp]]
    rw [show (p.ren ρ).strip.hinge (p.ren ρ).sub.type = p.strip.hinge p.sub.type from
      Strip.hinge_ren ..]
    rw [show env'.deflection (p.ren ρ).wing.uid (c.ren (ρ.ctl p.wing.uid)).uid =
      env.deflection p.wing.uid c.uid from h.deflection ..]
    rfl

theorem rotateEntry_ren {ρ : Naming} {env env' : LatticeEnv} (h : env.Ren ρ env') (ac : PAircraft ℝ)
    (e : BookEntry) (n : ℤ → Option (V3 ℝ)) :
    rotateEntry env' (ac.ren ρ) (e.ren ρ) n = rotateEntry env ac e n := by
  unfold rotateEntry
  rw [entryParts_ren h]
  cases entryParts env ac e with
  | none => rfl
  | some p =>
    simp only [Option.map_some, hingeRotation_ren h]
    rfl

theorem rotateAll_ren {ρ : Naming} {env env' : LatticeEnv} (h : env.Ren ρ env') (ac : PAircraft ℝ) :
    ∀ (l : List BookEntry) (n : ℤ → Option (V3 ℝ)),
      rotateAll env' (ac.ren ρ) (l.map (BookEntry.ren ρ)) n = rotateAll env ac l n
  | [], _ => rfl
  | e :: rest, n => by
    rw [List.map_cons]
    unfold rotateAll
    rw [rotateEntry_ren h]
    cases rotateEntry env ac e n with
    | error x => rfl
    | ok n' => exact rotateAll_ren h ac rest n'

/-- The same lattice with other names in the bookkeeping. -/
structure LatticeData.Ren (ρ : Naming) (l l' : LatticeData) : Prop where
  book : l.book.Ren ρ l'.book
  pts : l'.pts = l.pts
  normal : l'.normal = l.normal

theorem inputsOf_ren {ρ : Naming} {b b' : Book} (h : b.Ren ρ b') (cs : List (Corners (V3 ℝ))) :
    b'.inputsOf cs = b.inputsOf cs := by
  unfold Book.inputsOf Book.panelTable
  rw [h.entries, List.map_map]
  rfl

theorem genLattice_ren {ρ : Naming} (hw : Function.Injective ρ.wing)
    (hc : ∀ w, Function.Injective (ρ.ctl w)) {env env' : LatticeEnv} (h : env.Ren ρ env') (doRot : Bool)
    (alpha beta : ℝ) (ac : PAircraft ℝ) :
    SameE (LatticeData.Ren ρ) (genLattice env doRot alpha beta ac)
      (genLattice env' doRot alpha beta (ac.ren ρ)) := by
  unfold genLattice
  have hb := genBook_ren hw hc ac
  cases h1 : genBook ac with
  | error e => rw [hb.error h1]; rfl
  | ok b =>
    obtain ⟨b', e, h2⟩ := hb.ok h1
    rw [e]
    dsimp only
    have h3 : mapE (entryCorners env' (ac.ren ρ)) b'.entries = mapE (entryCorners env ac) b.entries := by
      rw [h2.entries, mapE_ren (F := entryCorners env ac) (BookEntry.ren ρ) id b.entries]
      · cases mapE (entryCorners env ac) b.entries <;> simp [Except.map]
      · intro e _
        unfold entryCorners
        rw [entryParts_ren h]
        cases entryParts env ac e with
        | none => rfl
        | some p =>
          show subareaVertices p.geo p.strip p.sub.quad e.mirror = _
          dsimp only
          cases subareaVertices p.geo p.strip p.sub.quad e.mirror <;> rfl
    rw [h3, h2.numP]
    cases mapE (entryCorners env ac) b.entries with
    | error e => rfl
    | ok cs =>
      dsimp only
      rw [inputsOf_ren h2, h2.entries]
      split_ifs
      · rfl
      · rw [rotateAll_ren h]
        cases rotateAll env ac b.entries _ with
        | error x => rfl
        | ok n => exact ⟨h2, rfl, rfl⟩
      · exact ⟨h2, rfl, rfl⟩

end Verif
