import Verif.Props.CpacsControls
import Verif.Props.CpacsProject

/-!
# Which wings of CPACS files can be imported (C118)
-/

namespace Verif

section
variable {K : Type*} [Field K] [LinearOrder K]

/-! ## What the file must satisfy -/

/-- A control surface in the file whose data are complete; `leading` tells on which edge. -/
structure FileDevice (K : Type*) where
  sec : String
  uid : String
  leading : Bool
  data : CpacsDevice K

/-- The devices of a wing in the order of the file; of two devices with the same index the one at the
leading edge is first. -/
def devicesOf (secs : List (CpacsSection K)) : List (FileDevice K) :=
  secs.flatMap fun s => s.controls.flatMap fun c =>
    (c.leading.map (FileDevice.mk s.name c.uid true)).toList ++
      (c.trailing.map (FileDevice.mk s.name c.uid false)).toList

/-- The control surface lies where the device is, in coordinates of the segments.  Trailing edge devices
are placed by their front corners, leading edge devices by their rear corners projected to the trailing
edge of the wing. -/
structure DeviceAt (tigl : EtaXsi K) (d : FileDevice K) (c : ControlDef K) : Prop where
  inner : tigl d.sec (if d.leading then d.data.etaTEib else d.data.etaLEib)
    (if d.leading then 1 else d.data.xsiLEib) = some (c.segInner, c.etaInner, c.xsiInner)
  outer : tigl d.sec (if d.leading then d.data.etaTEob else d.data.etaLEob)
    (if d.leading then 1 else d.data.xsiLEob) = some (c.segOuter, c.etaOuter, c.xsiOuter)
  hingeInner : ∃ s e, tigl d.sec (if d.leading then d.data.etaTEib else d.data.etaLEib)
    d.data.hingeIb = some (s, e, c.hingeInner)
  hingeOuter : ∃ s e, tigl d.sec (if d.leading then d.data.etaTEob else d.data.etaLEob)
    d.data.hingeOb = some (s, e, c.hingeOuter)
  type : c.deviceType = some (if d.leading then "slat" else "flap")
  panels : c.numC = none

/-- The control surface in the aircraft model for a device; `o` is the entry with its deflections. -/
structure DeviceMade (tigl : EtaXsi K) (symmetry : ℕ) (o : Option (CpacsDeflection K))
    (d : FileDevice K) (c : ControlDef K) : Prop where
  place : DeviceAt tigl d c
  deflection : c.deflection = askedDeflection o
  mirror : c.deflectionMirror = askedMirror o symmetry

/-- The devices of a wing can be imported. -/
structure DevicesOk (tigl : EtaXsi K) (symmetry : ℕ) (entry : String → Option (CpacsDeflection K))
    (ds : List (FileDevice K)) : Prop where
  named : ∀ d ∈ ds, d.uid ≠ ""
  distinct : (ds.map (·.uid)).Nodup
  first : ∀ d, ds.head? = some d → d.leading = false
  usable : ∀ d ∈ ds, ∃ c, DeviceMade tigl symmetry (entry d.uid) d c ∧ c.Usable symmetry

/-- Name of the wing with the given number. -/
def wingNameOf (alnum : Char → Bool) (idx : ℕ) (w : CpacsWing K) : String :=
  match w.uid with
  | some u => cleaned alnum u
  | none => "WING" ++ fmt02 idx

/-- Name of the segment with the given number. -/
def segmentNameOf (alnum : Char → Bool) (wing : String) (idx : ℕ) (s : CpacsSegment K) : String :=
  match s.uid with
  | some u => cleaned alnum u
  | none => wing ++ "_SEGMENT" ++ fmt02 idx

/-- Names of the segments of a wing. -/
def segmentNamesOf (alnum : Char → Bool) (wing : String) (segs : List (CpacsSegment K)) : List String :=
  segs.mapIdx fun i s => segmentNameOf alnum wing (i + 1) s

/-- The segments of a wing can be imported. -/
structure SegmentsOk (alnum : Char → Bool) (wing : String) (segs : List (CpacsSegment K)) : Prop where
  named : "" ∉ segmentNamesOf alnum wing segs
  distinct : (segmentNamesOf alnum wing segs).Nodup
  airfoils : ∀ s ∈ segs, cleaned alnum s.airfoilInner ≠ "" ∧ cleaned alnum s.airfoilOuter ≠ ""

/-- Names of the wings in a file. -/
def wingNamesOf (alnum : Char → Bool) (ws : List (CpacsWing K)) : List String :=
  ws.mapIdx fun i w => wingNameOf alnum (i + 1) w

/-- The entry with the deflections of a control of the wing at the given position: only controls of the
first wing have one. -/
def entryOf (f : CpacsFile K) (pos : ℕ) (uid : String) : Option (CpacsDeflection K) :=
  if pos = 0 then lastListed f.deflections uid else none

/-- All wings of a file can be imported. -/
structure CpacsWingsOk (alnum : Char → Bool) (f : CpacsFile K) : Prop where
  named : "" ∉ wingNamesOf alnum f.wings
  distinct : (wingNamesOf alnum f.wings).Nodup
  symmetry : ∀ w ∈ f.wings, w.symmetry ≤ 3
  segments : ∀ i w, f.wings[i]? = some w →
    ∃ segs, w.segments = some segs ∧ SegmentsOk alnum (wingNameOf alnum (i + 1) w) segs
  devices : ∀ i w, f.wings[i]? = some w →
    DevicesOk f.tigl w.symmetry (entryOf f i) (devicesOf w.sections)
  listed : ∀ w, f.wings.head? = some w → ∀ e ∈ f.deflections,
    ∃ d ∈ devicesOf w.sections, d.uid = e.uid

/-! ## Lemmas: devices -/

/-- A control just imported. -/
def FreshAt (tigl : EtaXsi K) (d : FileDevice K) (c : ControlDef K) : Prop :=
  DeviceAt tigl d c ∧ c.deflection = .num (.fin 0) ∧ c.deflectionMirror = .none

omit [LinearOrder K] in
theorem makeControl_iff {tigl : EtaXsi K} {sec dev : String} {e1 x1 e2 x2 h1 h2 : K}
    {c : ControlDef K} : makeControl tigl sec dev e1 x1 e2 x2 h1 h2 = .ok c ↔
      tigl sec e1 x1 = some (c.segInner, c.etaInner, c.xsiInner) ∧
      tigl sec e2 x2 = some (c.segOuter, c.etaOuter, c.xsiOuter) ∧
      (∃ s e, tigl sec e1 h1 = some (s, e, c.hingeInner)) ∧
      (∃ s e, tigl sec e2 h2 = some (s, e, c.hingeOuter)) ∧
      c.deviceType = some dev ∧ c.numC = none ∧ c.deflection = .num (.fin 0) ∧
      c.deflectionMirror = .none := by
  unfold makeControl EtaXsi.call
  cases tigl sec e1 x1 with
  | none => simp
  | some i =>
    cases tigl sec e2 x2 with
    | none => simp
    | some o =>
      cases tigl sec e1 h1 with
      | none => simp
      | some a =>
        cases tigl sec e2 h2 with
        | none => simp
        | some b =>
          obtain ⟨i1, i2, i3⟩ := i
          obtain ⟨o1, o2, o3⟩ := o
          obtain ⟨a1, a2, a3⟩ := a
          obtain ⟨b1, b2, b3⟩ := b
          simp only [Except.ok.injEq, Option.some.injEq, Prod.mk.injEq]
          constructor
          · rintro rfl
            exact ⟨⟨rfl, rfl, rfl⟩, ⟨rfl, rfl, rfl⟩, ⟨_, _, rfl, rfl, rfl⟩, ⟨_, _, rfl, rfl, rfl⟩, rfl,
              rfl, rfl, rfl⟩
          · obtain ⟨c1, c2, c3, c4, c5, c6, c7, c8, c9, c10, c11, c12⟩ := c
            rintro ⟨⟨rfl, rfl, rfl⟩, ⟨rfl, rfl, rfl⟩, ⟨_, _, rfl, rfl, rfl⟩, ⟨_, _, rfl, rfl, rfl⟩, rfl,
              rfl, rfl, rfl⟩
            rfl

/-- The import of one device. -/
def importEvent (tigl : EtaXsi K) (st : CtrlSt K) (d : FileDevice K) : Except PyErr (CtrlSt K) :=
  if d.leading then importLeading tigl d.sec d.uid st (some d.data)
  else importTrailing tigl d.sec d.uid st (some d.data)

/-- The import of all devices. -/
def importEvents (tigl : EtaXsi K) : List (FileDevice K) → CtrlSt K → Except PyErr (CtrlSt K)
  | [], st => .ok st
  | d :: rest, st =>
    match importEvent tigl st d with
    | .error e => .error e
    | .ok st' => importEvents tigl rest st'

omit [LinearOrder K] in
theorem importEvents_append (tigl : EtaXsi K) (l r : List (FileDevice K)) (st : CtrlSt K) :
    importEvents tigl (l ++ r) st = match importEvents tigl l st with
      | .error e => .error e
      | .ok st' => importEvents tigl r st' := by
  induction l generalizing st with
  | nil => rfl
  | cons d l ih =>
    simp only [List.cons_append, importEvents]
    cases importEvent tigl st d with
    | error e => rfl
    | ok st1 => exact ih st1

omit [LinearOrder K] in
theorem importControls_events (tigl : EtaXsi K) (sec : String) (l : List (CpacsControl K))
    (st : CtrlSt K) : importControls tigl sec l st = importEvents tigl (l.flatMap fun c =>
      (c.leading.map (FileDevice.mk sec c.uid true)).toList ++
        (c.trailing.map (FileDevice.mk sec c.uid false)).toList) st := by
  induction l generalizing st with
  | nil => rfl
  | cons c l ih =>
    rw [List.flatMap_cons, importEvents_append, importEvents_append]
    unfold importControls
    have h1 : importLeading tigl sec c.uid st c.leading =
        importEvents tigl (c.leading.map (FileDevice.mk sec c.uid true)).toList st := by
      cases c.leading with
      | none => rfl
      | some d =>
        simp only [Option.map_some, Option.toList_some, importEvents, importEvent, if_true]
        cases importLeading tigl sec c.uid st (some d) <;> rfl
    rw [h1]
    cases importEvents tigl (c.leading.map (FileDevice.mk sec c.uid true)).toList st with
    | error e => rfl
    | ok st1 =>
      have h2 : importTrailing tigl sec c.uid st1 c.trailing =
          importEvents tigl (c.trailing.map (FileDevice.mk sec c.uid false)).toList st1 := by
        cases c.trailing with
        | none => rfl
        | some d =>
          simp only [Option.map_some, Option.toList_some, importEvents, importEvent,
            Bool.false_eq_true, if_false]
          cases importTrailing tigl sec c.uid st1 (some d) <;> rfl
      simp only [h2]
      cases importEvents tigl (c.trailing.map (FileDevice.mk sec c.uid false)).toList st1 with
      | error e => rfl
      | ok st2 => exact ih st2

omit [LinearOrder K] in
theorem importSections_events (tigl : EtaXsi K) (l : List (CpacsSection K)) (st : CtrlSt K) :
    importSections tigl l st = importEvents tigl (devicesOf l) st := by
  induction l generalizing st with
  | nil => rfl
  | cons s l ih =>
    unfold devicesOf
    rw [List.flatMap_cons, importEvents_append, ← importControls_events]
    unfold importSections
    cases importControls tigl s.name s.controls st with
    | error e => rfl
    | ok st1 => exact ih st1

theorem addNew_iff {α : Type*} {d d' : ODict α} {uid : String} {a : α} :
    d.addNew uid a = .ok d' ↔ uid ≠ "" ∧ d.has uid = false ∧ d' = d ++ [(uid, a)] := by
  refine ⟨addNew_ok, ?_⟩
  rintro ⟨h1, h2, rfl⟩
  unfold ODict.addNew
  rw [if_neg h1, if_neg (by simp [h2])]

/-- The variables `xsiTE_ib`, `xsiTE_ob`. -/
def teOf (K : Type*) [Field K] (te : Bool) : Option (K × K) := if te then some (1, 1) else none

omit [LinearOrder K] in
theorem importEvent_iff {tigl : EtaXsi K} {te : Bool} {cs : ODict (ControlDef K)} {d : FileDevice K}
    {st' : CtrlSt K} : importEvent tigl ⟨teOf K te, cs⟩ d = .ok st' ↔
      (te = true ∨ d.leading = false) ∧ d.uid ≠ "" ∧ cs.has d.uid = false ∧
      ∃ c, FreshAt tigl d c ∧ st' = ⟨some (1, 1), cs ++ [(d.uid, c)]⟩ := by
  obtain ⟨sec, uid, leading, data⟩ := d
  unfold importEvent
  cases leading with
  | true =>
    simp only [if_true, importLeading]
    cases te with
    | false => simp [teOf]
    | true =>
      simp only [teOf, if_true]
      constructor
      · intro h
        cases hm : makeControl tigl sec "slat" data.etaTEib 1 data.etaTEob 1 data.hingeIb
            data.hingeOb with
        | error e => simp [hm] at h
        | ok c =>
          simp only [hm] at h
          cases ha : cs.addNew uid c with
          | error e => simp [ha] at h
          | ok d' =>
            simp only [ha, Except.ok.injEq] at h
            obtain ⟨a1, a2, rfl⟩ := addNew_iff.1 ha
            obtain ⟨m1, m2, m3, m4, m5, m6, m7, m8⟩ := makeControl_iff.1 hm
            exact ⟨.inl trivial, a1, a2, c, ⟨⟨m1, m2, m3, m4, m5, m6⟩, m7, m8⟩, h.symm⟩
      · rintro ⟨-, a1, a2, c, ⟨⟨m1, m2, m3, m4, m5, m6⟩, m7, m8⟩, rfl⟩
        have hm : makeControl tigl sec "slat" data.etaTEib 1 data.etaTEob 1 data.hingeIb
            data.hingeOb = .ok c := makeControl_iff.2 ⟨m1, m2, m3, m4, m5, m6, m7, m8⟩
        have ha := (addNew_iff (a := c)).2 ⟨a1, a2, rfl⟩
        simp only [hm, ha]
  | false =>
    simp only [Bool.false_eq_true, if_false, importTrailing]
    constructor
    · intro h
      cases hm : makeControl tigl sec "flap" data.etaLEib data.xsiLEib data.etaLEob data.xsiLEob
          data.hingeIb data.hingeOb with
      | error e => simp [hm] at h
      | ok c =>
        simp only [hm] at h
        cases ha : cs.addNew uid c with
        | error e => simp [ha] at h
        | ok d' =>
          simp only [ha, Except.ok.injEq] at h
          obtain ⟨a1, a2, rfl⟩ := addNew_iff.1 ha
          obtain ⟨m1, m2, m3, m4, m5, m6, m7, m8⟩ := makeControl_iff.1 hm
          exact ⟨.inr trivial, a1, a2, c, ⟨⟨m1, m2, m3, m4, m5, m6⟩, m7, m8⟩, h.symm⟩
    · rintro ⟨-, a1, a2, c, ⟨⟨m1, m2, m3, m4, m5, m6⟩, m7, m8⟩, rfl⟩
      have hm : makeControl tigl sec "flap" data.etaLEib data.xsiLEib data.etaLEob data.xsiLEob
          data.hingeIb data.hingeOb = .ok c := makeControl_iff.2 ⟨m1, m2, m3, m4, m5, m6, m7, m8⟩
      have ha := (addNew_iff (a := c)).2 ⟨a1, a2, rfl⟩
      simp only [hm, ha]

theorem has_false_iff {α : Type*} {d : ODict α} {uid : String} :
    d.has uid = false ↔ uid ∉ d.map (·.1) := by
  unfold ODict.has
  rw [List.any_eq_false]
  constructor
  · intro h hm
    obtain ⟨x, hx, he⟩ := List.mem_map.1 hm
    exact h x hx (by simp [he])
  · intro h x hx he
    exact h (List.mem_map.2 ⟨x, hx, by simpa using he⟩)

theorem has_true_iff {α : Type*} {d : ODict α} {uid : String} :
    d.has uid = true ↔ uid ∈ d.map (·.1) := by
  rw [← not_iff_not, Bool.not_eq_true, has_false_iff]

omit [LinearOrder K] in
theorem importEvents_iff {tigl : EtaXsi K} : ∀ {ds : List (FileDevice K)} {te : Bool}
    {cs : ODict (ControlDef K)} {st' : CtrlSt K}, (cs.map (·.1)).Nodup →
    (importEvents tigl ds ⟨teOf K te, cs⟩ = .ok st' ↔
      (te = true ∨ ∀ d, ds.head? = some d → d.leading = false) ∧ (∀ d ∈ ds, d.uid ≠ "") ∧
      (cs.map (·.1) ++ ds.map (·.uid)).Nodup ∧
      ∃ new, List.Forall₂ (fun d kc => kc.1 = d.uid ∧ FreshAt tigl d kc.2) ds new ∧
        st' = ⟨if ds = [] then teOf K te else some (1, 1), cs ++ new⟩) := by
  intro ds
  induction ds with
  | nil =>
    intro te cs st' hn
    simp only [importEvents, Except.ok.injEq, List.map_nil, List.append_nil, if_true]
    constructor
    · rintro rfl
      exact ⟨.inr (by simp), by simp, hn, [], .nil, by simp⟩
    · rintro ⟨-, -, -, new, h, rfl⟩
      cases h
      simp
  | cons d ds ih =>
    intro te cs st' hn
    have ht : (some (1, 1) : Option (K × K)) = teOf K true := rfl
    unfold importEvents
    constructor
    · intro h
      cases he : importEvent tigl ⟨teOf K te, cs⟩ d with
      | error e => simp [he] at h
      | ok st1 =>
        simp only [he] at h
        obtain ⟨h1, h2, h3, c, h4, rfl⟩ := importEvent_iff.1 he
        rw [has_false_iff] at h3
        have hn1 : ((cs ++ [(d.uid, c)]).map (·.1)).Nodup := by
          rw [List.map_append, List.nodup_append]
          refine ⟨hn, by simp, ?_⟩
          intro a ha b hb
          rw [List.map_singleton, List.mem_singleton] at hb
          rintro rfl
          subst hb
          exact h3 ha
        rw [ht, ih hn1] at h
        obtain ⟨-, k2, k3, new, k4, rfl⟩ := h
        refine ⟨?_, ?_, ?_, (d.uid, c) :: new, .cons ⟨rfl, h4⟩ k4, ?_⟩
        · rcases h1 with h1 | h1
          · exact .inl h1
          · refine .inr ?_
            intro x hx
            cases hx
            exact h1
        · intro x hx
          rcases List.mem_cons.1 hx with rfl | hx
          · exact h2
          · exact k2 x hx
        · simpa using k3
        · simp [teOf]
    · rintro ⟨h1, h2, h3, new, h4, rfl⟩
      cases h4 with
      | @cons _ kc _ new h5 h6 =>
      obtain ⟨k, c⟩ := kc
      obtain ⟨rfl, h5⟩ := h5
      have hno : d.uid ∉ cs.map (·.1) := by
        intro hm
        rw [List.nodup_append] at h3
        exact h3.2.2 _ hm _ (by simp) rfl
      have he : importEvent tigl ⟨teOf K te, cs⟩ d = .ok ⟨some (1, 1), cs ++ [(d.uid, c)]⟩ := by
        refine importEvent_iff.2 ⟨?_, h2 d (by simp), has_false_iff.2 hno, c, h5, rfl⟩
        exact h1.imp id fun h => h d rfl
      have hn1 : ((cs ++ [(d.uid, c)]).map (·.1)).Nodup := by
        have : (cs.map (·.1) ++ [d.uid]).Sublist (cs.map (·.1) ++ (d :: ds).map (·.uid)) := by
          simp
        simpa using h3.sublist this
      simp only [he]
      rw [ht, ih hn1]
      refine ⟨.inl rfl, fun x hx => h2 x (List.mem_cons_of_mem _ hx), by simpa using h3, new, h6, ?_⟩
      simp [teOf]

/-! ## Lemmas: deflections and checks -/

/-- Deflections of an entry. -/
def setOne (o : Option (CpacsDeflection K)) (c : ControlDef K) : ControlDef K :=
  match o with
  | none => c
  | some e => { c with
      deflection := askedDeflection (some e)
      deflectionMirror := match e.mirror with
        | none => .none
        | some m => .num m }

theorem forall₂_eq_map {α β : Type*} {f : α → β} {l : List α} {r : List β}
    (h : List.Forall₂ (fun a b => b = f a) l r) : r = l.map f := by
  induction h with
  | nil => rfl
  | cons h _ ih => rw [List.map_cons, h, ih]

omit [LinearOrder K] in
theorem setAll_map (l : List (CpacsDeflection K)) (d : ODict (ControlDef K)) :
    setAll l d = d.map fun kc => (kc.1, setOne (lastListed l kc.1) kc.2) := by
  apply forall₂_eq_map
  refine (setAll_forall l d).imp ?_
  rintro ⟨k, c⟩ ⟨k', c'⟩ ⟨h1, h2⟩
  simp only at h1 h2 ⊢
  subst h1
  rw [h2]
  unfold setOne
  cases lastListed l k' <;> rfl

theorem checkControls_iff {w w' : ImpWing K} : checkControls w = .ok w' ↔
    (∀ kc ∈ w.controls, kc.2.Usable w.symmetry) ∧
    w' = { w with controls := w.controls.map fun kc => (kc.1, kc.2.completed w.symmetry) } := by
  have key : ∀ l cs : ODict (ControlDef K), mapE (fun kc : String × ControlDef K =>
      match kc.2.check w.symmetry with
      | .error e => .error e
      | .ok c => .ok (kc.1, c)) l = .ok cs ↔ (∀ kc ∈ l, kc.2.Usable w.symmetry) ∧
      cs = l.map fun kc => (kc.1, kc.2.completed w.symmetry) := by
    intro l
    induction l with
    | nil => intro cs; simp [mapE, eq_comm]
    | cons kc l ih =>
      intro cs
      cases hc : kc.2.check w.symmetry with
      | error e =>
        have : ¬ kc.2.Usable w.symmetry := by
          intro hu
          have := (C52_check kc.2 _ w.symmetry).2 ⟨hu, rfl⟩
          rw [hc] at this
          cases this
        simp [mapE, hc, this]
      | ok c =>
        obtain ⟨h1, h2⟩ := (C52_check _ _ _).1 hc
        simp only [mapE, hc]
        cases hm : mapE (fun kc : String × ControlDef K => match kc.2.check w.symmetry with
          | .error e => .error e
          | .ok c => .ok (kc.1, c)) l with
        | error e =>
          simp only [reduceCtorEq, false_iff, not_and]
          intro hu
          have := (ih _).2 ⟨fun x hx => hu x (List.mem_cons_of_mem _ hx), rfl⟩
          rw [hm] at this
          cases this
        | ok cs1 =>
          obtain ⟨k1, rfl⟩ := (ih _).1 hm
          simp only [Except.ok.injEq, List.map_cons, h2]
          constructor
          · rintro rfl
            exact ⟨by simpa using ⟨h1, fun a b => k1 (a, b)⟩, rfl⟩
          · rintro ⟨-, rfl⟩
            rfl
  unfold checkControls
  constructor
  · intro h
    split at h
    · cases h
    · rename_i cs hm
      cases h
      obtain ⟨h1, rfl⟩ := (key _ _).1 hm
      exact ⟨h1, rfl⟩
  · rintro ⟨h1, rfl⟩
    have hk := (key _ _).2 ⟨h1, rfl⟩
    split
    · rename_i e hm
      cases hm.symm.trans hk
    · rename_i cs hm
      cases hm.symm.trans hk
      rfl

theorem completed_usable {c : ControlDef K} {sym : ℕ} :
    (c.completed sym).Usable sym ↔ c.Usable sym := by
  constructor
  · rintro ⟨a1, a2, a3, a4, a5, a6, a7, a8, a9, a10, a11⟩
    refine ⟨a1, a2, a3, a4, a5, a6, a7, a8, a9, a10, ?_⟩
    intro h1 h2
    have := a11 h1
    simp only [ControlDef.completed, h2, false_and, if_false] at this
    exact this h2
  · rintro ⟨a1, a2, a3, a4, a5, a6, a7, a8, a9, a10, a11⟩
    refine ⟨a1, a2, a3, a4, a5, a6, a7, a8, a9, a10, ?_⟩
    intro h1 h2
    by_cases h3 : c.deflectionMirror = .none
    · simp only [ControlDef.completed, h3, h1, ne_eq, not_false_eq_true, and_self, if_true]
      exact a10
    · simp only [ControlDef.completed, h3, false_and, if_false]
      exact a11 h1 h3

omit [Field K] in
theorem completed_completed (c : ControlDef K) (sym : ℕ) :
    (c.completed sym).completed sym = c.completed sym := by
  unfold ControlDef.completed
  by_cases h1 : c.deflectionMirror = .none ∧ sym ≠ 0
  · simp [h1]
  · simp [h1]

theorem setOne_completed (o : Option (CpacsDeflection K)) (c : ControlDef K) (sym : ℕ) :
    (setOne o ((setOne o c).completed sym)).completed sym = (setOne o c).completed sym ∧
    ((setOne o c).Usable sym → (setOne o ((setOne o c).completed sym)).Usable sym) := by
  cases o with
  | none => exact ⟨completed_completed _ _, completed_usable.2⟩
  | some e => exact ⟨rfl, id⟩

omit [LinearOrder K] in
theorem setOne_made [LinearOrder K] {tigl : EtaXsi K} {o : Option (CpacsDeflection K)}
    {d : FileDevice K} {c : ControlDef K} (sym : ℕ) (h : FreshAt tigl d c) :
    DeviceMade tigl sym o d ((setOne o c).completed sym) := by
  obtain ⟨⟨a1, a2, a3, a4, a5, a6⟩, h2, h3⟩ := h
  cases o with
  | none =>
    refine ⟨⟨a1, a2, a3, a4, a5, a6⟩, h2, ?_⟩
    simp only [setOne, ControlDef.completed, h3, h2, true_and, askedMirror, askedDeflection,
      Option.bind_none]
  | some e =>
    refine ⟨⟨a1, a2, a3, a4, a5, a6⟩, rfl, ?_⟩
    simp only [setOne, ControlDef.completed, askedMirror, Option.bind_some]
    obtain ⟨u, dl, m⟩ := e
    cases m with
    | none => simp
    | some m => simp

omit [LinearOrder K] in
/-- A device is placed in one way only. -/
theorem deviceMade_unique {tigl : EtaXsi K} {o : Option (CpacsDeflection K)}
    {d : FileDevice K} {c c' : ControlDef K} {sym : ℕ} (h : DeviceMade tigl sym o d c)
    (h' : DeviceMade tigl sym o d c') : c = c' := by
  obtain ⟨⟨a1, a2, ⟨s, e, a3⟩, ⟨s2, e2, a4⟩, a5, a6⟩, a7, a8⟩ := h
  obtain ⟨⟨b1, b2, ⟨s', e', b3⟩, ⟨s2', e2', b4⟩, b5, b6⟩, b7, b8⟩ := h'
  rw [a1] at b1
  rw [a2] at b2
  rw [a3] at b3
  rw [a4] at b4
  simp only [Option.some.injEq, Prod.mk.injEq] at b1 b2 b3 b4
  obtain ⟨c1, c2, c3, c4, c5, c6, c7, c8, c9, c10, c11, c12⟩ := c
  obtain ⟨d1, d2, d3, d4, d5, d6, d7, d8, d9, d10, d11, d12⟩ := c'
  simp only at *
  simp [b1, b2, b3, b4, a5, b5, a6, b6, a7, b7, a8, b8]

/-! ## Lemmas: segments -/

theorem importAirfoil_iff {alnum : Char → Bool} {n : String} :
    (∃ file, importAirfoil alnum n = .ok file) ↔ cleaned alnum n ≠ "" := by
  have hp : parseStr alnum (.str n) "-_" = .ok (cleaned alnum n) := parseStr_stored alnum n
  unfold importAirfoil
  rw [hp]
  simp only
  by_cases h : cleaned alnum n = ""
  · simp [h]
  · simp [h]

theorem importSegment_iff {alnum : Char → Bool} {wing : String} {d : ODict (ImpSegment K)} {idx : ℕ}
    {s : CpacsSegment K} : (∃ d', importSegment alnum wing d idx s = .ok d') ↔
      (cleaned alnum s.airfoilInner ≠ "" ∧ cleaned alnum s.airfoilOuter ≠ "") ∧
      segmentNameOf alnum wing idx s ≠ "" ∧ segmentNameOf alnum wing idx s ∉ d.map (·.1) := by
  unfold importSegment
  extract_lets name p v
  have hname : name = .ok (segmentNameOf alnum wing idx s) := by
    simp only [name, segmentNameOf]
    cases s.uid with
    | none => rfl
    | some u => exact parseStr_stored alnum u
  rw [hname, ← importAirfoil_iff, ← importAirfoil_iff]
  simp only
  cases importAirfoil alnum s.airfoilInner with
  | error e => simp
  | ok i =>
    cases importAirfoil alnum s.airfoilOuter with
    | error e => simp
    | ok o =>
      simp only [addNew_iff, has_false_iff, exists_and_left, exists_eq, and_true, ne_eq,
        Except.ok.injEq, exists_eq', true_and]

theorem importSegment_key {alnum : Char → Bool} {wing : String} {d d' : ODict (ImpSegment K)}
    {idx : ℕ} {s : CpacsSegment K} (h : importSegment alnum wing d idx s = .ok d') :
    d'.map (·.1) = d.map (·.1) ++ [segmentNameOf alnum wing idx s] := by
  unfold importSegment at h
  extract_lets name p v at h
  have hname : name = .ok (segmentNameOf alnum wing idx s) := by
    simp only [name, segmentNameOf]
    cases s.uid with
    | none => rfl
    | some u => exact parseStr_stored alnum u
  rw [hname] at h
  simp only at h
  cases h1 : importAirfoil alnum s.airfoilInner with
  | error e => simp [h1] at h
  | ok i =>
    cases h2 : importAirfoil alnum s.airfoilOuter with
    | error e => simp [h1, h2] at h
    | ok o =>
      simp only [h1, h2] at h
      obtain ⟨-, -, rfl⟩ := addNew_iff.1 h
      simp

/-- Names of segments counted from some number on. -/
def segmentNamesFrom (alnum : Char → Bool) (wing : String) : ℕ → List (CpacsSegment K) → List String
  | _, [] => []
  | idx, s :: rest => segmentNameOf alnum wing idx s :: segmentNamesFrom alnum wing (idx + 1) rest

omit [Field K] [LinearOrder K] in
theorem segmentNamesFrom_eq (alnum : Char → Bool) (wing : String) (l : List (CpacsSegment K)) (n : ℕ) :
    segmentNamesFrom alnum wing n l = l.mapIdx fun i s => segmentNameOf alnum wing (i + n) s := by
  induction l generalizing n with
  | nil => rfl
  | cons s l ih =>
    rw [segmentNamesFrom, ih, List.mapIdx_cons]
    simp only [Nat.zero_add, List.cons.injEq, true_and]
    congr 1
    funext i s
    rw [Nat.add_right_comm, Nat.add_assoc]

theorem importSegments_iff {alnum : Char → Bool} {wing : String} :
    ∀ {l : List (CpacsSegment K)} {idx : ℕ} {d : ODict (ImpSegment K)}, (d.map (·.1)).Nodup →
    ((∃ d', importSegments alnum wing idx l d = .ok d') ↔
      (∀ s ∈ l, cleaned alnum s.airfoilInner ≠ "" ∧ cleaned alnum s.airfoilOuter ≠ "") ∧
      "" ∉ segmentNamesFrom alnum wing idx l ∧
      (d.map (·.1) ++ segmentNamesFrom alnum wing idx l).Nodup) := by
  intro l
  induction l with
  | nil =>
    intro idx d hn
    simp [importSegments, segmentNamesFrom, hn]
  | cons s l ih =>
    intro idx d hn
    unfold importSegments
    constructor
    · rintro ⟨d', h⟩
      cases h1 : importSegment alnum wing d idx s with
      | error e => simp [h1] at h
      | ok d1 =>
        simp only [h1] at h
        obtain ⟨a1, a2, a3⟩ := importSegment_iff.1 ⟨_, h1⟩
        have hk := importSegment_key h1
        have hn1 : (d1.map (·.1)).Nodup := by
          rw [hk, List.nodup_append]
          refine ⟨hn, by simp, ?_⟩
          intro a ha b hb
          rw [List.mem_singleton] at hb
          rintro rfl
          subst hb
          exact a3 ha
        obtain ⟨b1, b2, b3⟩ := (ih hn1).1 ⟨_, h⟩
        refine ⟨?_, ?_, ?_⟩
        · intro x hx
          rcases List.mem_cons.1 hx with rfl | hx
          · exact a1
          · exact b1 x hx
        · simp only [segmentNamesFrom, List.mem_cons, not_or]
          exact ⟨fun h => a2 h.symm, b2⟩
        · rw [hk] at b3
          simpa [segmentNamesFrom] using b3
    · rintro ⟨h1, h2, h3⟩
      simp only [segmentNamesFrom, List.mem_cons, not_or] at h2 h3
      have hno : segmentNameOf alnum wing idx s ∉ d.map (·.1) := by
        intro hm
        rw [List.nodup_append] at h3
        exact h3.2.2 _ hm _ (by simp) rfl
      obtain ⟨d1, hd⟩ := importSegment_iff.2 ⟨h1 s (by simp), fun h => h2.1 h.symm, hno⟩
      have hk := importSegment_key hd
      simp only [hd]
      have h3' : (d1.map (·.1) ++ segmentNamesFrom alnum wing (idx + 1) l).Nodup := by
        rw [hk]
        simpa using h3
      exact (ih (List.nodup_append.1 h3').1).2
        ⟨fun x hx => h1 x (List.mem_cons_of_mem _ hx), h2.2, h3'⟩

theorem importSegments_names {alnum : Char → Bool} {wing : String} :
    ∀ {l : List (CpacsSegment K)} {idx : ℕ} {d d' : ODict (ImpSegment K)},
    importSegments alnum wing idx l d = .ok d' →
      d'.map (·.1) = d.map (·.1) ++ segmentNamesFrom alnum wing idx l := by
  intro l
  induction l with
  | nil =>
    intro idx d d' h
    cases h
    simp [segmentNamesFrom]
  | cons s l ih =>
    intro idx d d' h
    unfold importSegments at h
    cases h1 : importSegment alnum wing d idx s with
    | error e => simp [h1] at h
    | ok d1 =>
      simp only [h1] at h
      rw [ih h, importSegment_key h1]
      simp [segmentNamesFrom]

theorem segmentsOk_iff {alnum : Char → Bool} {wing : String} {l : List (CpacsSegment K)} :
    (∃ d', importSegments alnum wing 1 l [] = .ok d') ↔ SegmentsOk alnum wing l := by
  rw [importSegments_iff (by simp), segmentNamesFrom_eq]
  constructor
  · rintro ⟨a, b, c⟩
    exact ⟨b, by simpa [segmentNamesOf] using c, a⟩
  · rintro ⟨a, b, c⟩
    exact ⟨c, a, by simpa [segmentNamesOf] using b⟩

/-! ## Lemmas: wings -/

/-- Deflections and checks leave these wings as they are. -/
def Settled (dl : List (CpacsDeflection K)) : List (ImpWing K) → Prop
  | [] => True
  | w :: rest => (∀ e ∈ dl, w.controls.has e.uid) ∧
      checkControls { w with controls := setAll dl w.controls } = .ok w ∧
      ∀ x ∈ rest, checkControls x = .ok x

theorem mapE_append {α β : Type*} (g : α → Except PyErr β) (l r : List α) :
    mapE g (l ++ r) = match mapE g l with
      | .error e => .error e
      | .ok a => match mapE g r with
        | .error e => .error e
        | .ok b => .ok (a ++ b) := by
  induction l with
  | nil =>
    simp only [List.nil_append, mapE]
    cases mapE g r <;> rfl
  | cons x l ih =>
    simp only [List.cons_append, mapE, ih]
    cases g x with
    | error e => rfl
    | ok y =>
      cases mapE g l with
      | error e => rfl
      | ok a =>
        cases mapE g r <;> rfl

theorem mapE_fixed {α : Type*} {g : α → Except PyErr α} {l : List α} (h : ∀ x ∈ l, g x = .ok x) :
    mapE g l = .ok l := by
  induction l with
  | nil => rfl
  | cons x l ih =>
    simp only [mapE, h x (by simp), ih fun y hy => h y (List.mem_cons_of_mem _ hy)]

/-- What one pass needs and makes. -/
structure WingPass (alnum : Char → Bool) (f : CpacsFile K) (idx : ℕ) (w : CpacsWing K)
    (ws : List (ImpWing K)) (st : CtrlSt K) (iw : ImpWing K) : Prop where
  name : iw.uid = wingNameOf alnum idx w
  named : wingNameOf alnum idx w ≠ ""
  new : wingNameOf alnum idx w ∉ ws.map (·.uid)
  symmetry : w.symmetry ≤ 3
  segments : ∃ segs, w.segments = some segs ∧
    importSegments alnum (wingNameOf alnum idx w) 1 segs [] = .ok iw.segments
  sections : importSections f.tigl w.sections ⟨none, []⟩ = .ok st
  listed : ws = [] → ∀ e ∈ f.deflections, st.controls.has e.uid
  check : checkControls ⟨wingNameOf alnum idx w, w.symmetry, iw.segments,
    if ws = [] then setAll f.deflections st.controls else st.controls⟩ = .ok iw

theorem settled_append {dl : List (CpacsDeflection K)} {ws : List (ImpWing K)} {uid : String}
    {sym : ℕ} {sd : ODict (ImpSegment K)} {cs : ODict (ControlDef K)} {iw : ImpWing K}
    (hs : Settled dl ws) (hl : ws = [] → ∀ e ∈ dl, cs.has e.uid)
    (hc : checkControls ⟨uid, sym, sd, if ws = [] then setAll dl cs else cs⟩ = .ok iw) :
    Settled dl (ws ++ [iw]) := by
  rw [checkControls_iff] at hc
  simp only at hc
  obtain ⟨hu, rfl⟩ := hc
  cases ws with
  | nil =>
    simp only [if_true] at hu ⊢
    refine ⟨?_, ?_, by simp⟩
    · intro e he
      have := hl rfl e he
      rw [has_true_iff] at this ⊢
      simp only [setAll_map, List.map_map] at this ⊢
      obtain ⟨x, hx, hxe⟩ := List.mem_map.1 this
      exact List.mem_map.2 ⟨x, hx, hxe⟩
    · rw [checkControls_iff]
      simp only [setAll_map, List.map_map, List.mem_map, forall_exists_index, and_imp] at hu ⊢
      refine ⟨?_, ?_⟩
      · rintro _ x hx rfl
        exact (setOne_completed _ _ _).2 (hu _ x hx rfl)
      · congr 1
        apply List.map_congr_left
        intro x _
        simp only [Function.comp]
        rw [(setOne_completed _ _ _).1]
  | cons w ws =>
    simp only [reduceCtorEq, if_false, List.cons_append] at hu ⊢
    obtain ⟨h1, h2, h3⟩ := hs
    refine ⟨h1, h2, ?_⟩
    intro x hx
    rcases List.mem_append.1 hx with hx | hx
    · exact h3 x hx
    · rw [List.mem_singleton] at hx
      subst hx
      rw [checkControls_iff]
      simp only [List.map_map, List.mem_map, forall_exists_index, and_imp]
      refine ⟨?_, ?_⟩
      · rintro _ y hy rfl
        exact completed_usable.2 (hu y hy)
      · congr 1
        apply List.map_congr_left
        intro y _
        simp only [Function.comp]
        rw [completed_completed]

theorem importWing_iff {alnum : Char → Bool} {f : CpacsFile K} {idx : ℕ} {w : CpacsWing K}
    {ws ws' : List (ImpWing K)} (hs : Settled f.deflections ws) :
    importWing alnum f idx w ws = .ok ws' ↔
      ∃ st iw, WingPass alnum f idx w ws st iw ∧ ws' = ws ++ [iw] := by
  have hname : (match w.uid with
    | some u => parseStr alnum (.str u) "-_"
    | none => .ok ("WING" ++ fmt02 idx)) = Except.ok (ε := PyErr) (wingNameOf alnum idx w) := by
    unfold wingNameOf
    cases w.uid with
    | none => rfl
    | some u => exact parseStr_stored alnum u
  have hany : (ws.any fun x => x.uid == wingNameOf alnum idx w) = true ↔
      wingNameOf alnum idx w ∈ ws.map (·.uid) := by
    rw [List.any_eq_true, List.mem_map]
    simp
  -- deflections and checks of one pass
  have hpass : ∀ (b : ImpWing K), (match assignDeflections f.deflections (ws ++ [b]) with
      | .error e => Except.error e
      | .ok ws' => mapE checkControls ws') = .ok ws' ↔
      (ws = [] → ∀ e ∈ f.deflections, b.controls.has e.uid) ∧ ∃ iw, checkControls
        { b with controls := if ws = [] then setAll f.deflections b.controls else b.controls } =
          .ok iw ∧ ws' = ws ++ [iw] := by
    intro b
    cases ws with
    | nil =>
      simp only [List.nil_append, if_true, true_implies]
      constructor
      · intro h
        cases ha : assignDeflections f.deflections [b] with
        | error e => simp [ha] at h
        | ok ws1 =>
          simp only [ha] at h
          have hb := assignDeflections_single ha
          rw [assignDeflections_first _ _ _ hb] at ha
          cases ha
          simp only [mapE] at h
          cases hc : checkControls { b with controls := setAll f.deflections b.controls } with
          | error e => simp [hc] at h
          | ok iw =>
            simp only [hc, Except.ok.injEq] at h
            exact ⟨hb, iw, rfl, h.symm⟩
      · rintro ⟨hb, iw, hc, rfl⟩
        rw [assignDeflections_first _ _ _ hb]
        simp only [mapE, hc]
    | cons x rest =>
      obtain ⟨h1, h2, h3⟩ := hs
      rw [List.cons_append, assignDeflections_first _ _ _ h1]
      simp only [mapE, h2, reduceCtorEq, if_false, false_implies, true_and]
      rw [mapE_append, mapE_fixed h3]
      simp only [mapE]
      cases hc : checkControls b with
      | error e => simp
      | ok iw =>
        simp only [Except.ok.injEq, exists_eq_left', List.cons_append]
        exact eq_comm
  unfold importWing
  extract_lets name
  rw [show name = _ from hname]
  simp only
  by_cases h1 : wingNameOf alnum idx w = ""
  · rw [if_pos h1]
    simp only [reduceCtorEq, false_iff]
    rintro ⟨st, iw, h, -⟩
    exact h.named h1
  rw [if_neg h1]
  by_cases h2 : wingNameOf alnum idx w ∈ ws.map (·.uid)
  · rw [if_pos (hany.2 h2)]
    simp only [reduceCtorEq, false_iff]
    rintro ⟨st, iw, h, -⟩
    exact h.new h2
  rw [if_neg fun h => h2 (hany.1 h)]
  by_cases h3 : 3 < w.symmetry
  · rw [if_pos h3]
    simp only [reduceCtorEq, false_iff]
    rintro ⟨st, iw, h, -⟩
    exact absurd h.symmetry (by omega)
  rw [if_neg h3]
  cases h4 : w.segments with
  | none =>
    simp only [reduceCtorEq, false_iff]
    rintro ⟨st, iw, h, -⟩
    obtain ⟨segs, h5, -⟩ := h.segments
    rw [h4] at h5
    cases h5
  | some segs =>
    simp only
    cases h5 : importSegments alnum (wingNameOf alnum idx w) 1 segs [] with
    | error e =>
      simp only [reduceCtorEq, false_iff]
      rintro ⟨st, iw, h, -⟩
      obtain ⟨segs', h6, h7⟩ := h.segments
      rw [h4] at h6
      cases h6
      rw [h5] at h7
      cases h7
    | ok sd =>
      simp only
      cases h6 : importSections f.tigl w.sections ⟨none, []⟩ with
      | error e =>
        simp only [reduceCtorEq, false_iff]
        rintro ⟨st, iw, h, -⟩
        have := h.sections
        rw [h6] at this
        cases this
      | ok st =>
        simp only
        refine Iff.trans (hpass ⟨wingNameOf alnum idx w, w.symmetry, sd, st.controls⟩) ?_
        simp only
        constructor
        · rintro ⟨k1, iw, k2, rfl⟩
          have hk := (checkControls_iff.1 k2).2
          refine ⟨st, iw, ⟨by rw [hk], h1, h2, by omega, ⟨segs, h4, ?_⟩, h6, k1, ?_⟩, rfl⟩
          · rw [h5, hk]
          · rw [hk] at k2 ⊢
            exact k2
        · rintro ⟨st', iw, k, rfl⟩
          have hst := k.sections
          rw [h6] at hst
          cases hst
          obtain ⟨segs', h7, h8⟩ := k.segments
          rw [h4] at h7
          cases h7
          rw [h5] at h8
          cases h8
          exact ⟨k.listed, iw, k.check, rfl⟩

/-- Passes one after the other. -/
inductive WingPasses (alnum : Char → Bool) (f : CpacsFile K) :
    ℕ → List (CpacsWing K) → List (ImpWing K) → List (ImpWing K) → Prop
  | nil (idx ws) : WingPasses alnum f idx [] ws ws
  | cons {idx w rest ws st iw ws'} : WingPass alnum f idx w ws st iw →
      WingPasses alnum f (idx + 1) rest (ws ++ [iw]) ws' → WingPasses alnum f idx (w :: rest) ws ws'

theorem importWingsFrom_iff {alnum : Char → Bool} {f : CpacsFile K} :
    ∀ {l : List (CpacsWing K)} {idx : ℕ} {ws ws' : List (ImpWing K)}, Settled f.deflections ws →
    (importWingsFrom alnum f idx l ws = .ok ws' ↔ WingPasses alnum f idx l ws ws') := by
  intro l
  induction l with
  | nil =>
    intro idx ws ws' _
    constructor
    · intro h
      cases h
      exact .nil _ _
    · intro h
      cases h
      rfl
  | cons w l ih =>
    intro idx ws ws' hs
    unfold importWingsFrom
    constructor
    · intro h
      cases h1 : importWing alnum f idx w ws with
      | error e => simp [h1] at h
      | ok ws1 =>
        simp only [h1] at h
        obtain ⟨st, iw, k, rfl⟩ := (importWing_iff hs).1 h1
        exact .cons k ((ih (settled_append hs k.listed k.check)).1 h)
    · intro h
      cases h with
      | cons k h =>
        rw [(importWing_iff hs).2 ⟨_, _, k, rfl⟩]
        exact (ih (settled_append hs k.listed k.check)).2 h

/-- Conditions for one wing. -/
structure WingGood (alnum : Char → Bool) (f : CpacsFile K) (pos : ℕ) (w : CpacsWing K) : Prop where
  symmetry : w.symmetry ≤ 3
  segments : ∃ segs, w.segments = some segs ∧ SegmentsOk alnum (wingNameOf alnum (pos + 1) w) segs
  devices : DevicesOk f.tigl w.symmetry (entryOf f pos) (devicesOf w.sections)
  listed : pos = 0 → ∀ e ∈ f.deflections, ∃ d ∈ devicesOf w.sections, d.uid = e.uid

omit [LinearOrder K] in
theorem assigned_map (f : CpacsFile K) (ws : List (ImpWing K)) (cs : ODict (ControlDef K)) :
    (if ws = [] then setAll f.deflections cs else cs) =
      cs.map fun kc => (kc.1, setOne (entryOf f ws.length kc.1) kc.2) := by
  cases ws with
  | nil => simp [setAll_map, entryOf]
  | cons x ws => simp [entryOf, setOne]

theorem forall₂_of_forall_exists {α β : Type*} {R : α → β → Prop} {l : List α}
    (h : ∀ a ∈ l, ∃ b, R a b) : ∃ r, List.Forall₂ R l r := by
  induction l with
  | nil => exact ⟨[], .nil⟩
  | cons a l ih =>
    obtain ⟨b, hb⟩ := h a (by simp)
    obtain ⟨r, hr⟩ := ih fun x hx => h x (List.mem_cons_of_mem _ hx)
    exact ⟨b :: r, .cons hb hr⟩

/-- What a pass makes of the devices. -/
theorem wingPass_controls {alnum : Char → Bool} {f : CpacsFile K} {idx : ℕ} {w : CpacsWing K}
    {ws : List (ImpWing K)} {st : CtrlSt K} {iw : ImpWing K}
    (h : WingPass alnum f idx w ws st iw) :
    iw.symmetry = w.symmetry ∧ List.Forall₂ (fun d kc => kc.1 = d.uid ∧
      DeviceMade f.tigl w.symmetry (entryOf f ws.length d.uid) d kc.2 ∧ kc.2.Usable w.symmetry)
      (devicesOf w.sections) iw.controls := by
  have h1 := h.sections
  rw [importSections_events] at h1
  obtain ⟨-, -, -, new, k4, rfl⟩ := (importEvents_iff (te := false) (cs := []) (by simp)).1 h1
  obtain ⟨c1, c2⟩ := checkControls_iff.1 h.check
  simp only [List.nil_append, assigned_map, List.map_map, List.mem_map, forall_exists_index,
    and_imp] at c1 c2
  refine ⟨by rw [c2], ?_⟩
  rw [c2]
  simp only [List.forall₂_map_right_iff]
  have : ∀ kc ∈ new, (setOne (entryOf f ws.length kc.1) kc.2).Usable w.symmetry :=
    fun kc hkc => c1 _ kc hkc rfl
  clear c1 c2 h1 h
  revert k4
  generalize devicesOf w.sections = ds
  intro k4
  induction k4 with
  | nil => exact .nil
  | @cons d kc ds new hd _ ih =>
    refine .cons ?_ (ih fun x hx => this x (List.mem_cons_of_mem _ hx))
    obtain ⟨e, hf⟩ := hd
    simp only [Function.comp]
    refine ⟨e, ?_, ?_⟩
    · rw [e]
      exact setOne_made _ hf
    · exact completed_usable.2 (this kc (by simp))

theorem wingPass_iff {alnum : Char → Bool} {f : CpacsFile K} {w : CpacsWing K}
    {ws : List (ImpWing K)} :
    (∃ st iw, WingPass alnum f (ws.length + 1) w ws st iw) ↔
      wingNameOf alnum (ws.length + 1) w ≠ "" ∧
      wingNameOf alnum (ws.length + 1) w ∉ ws.map (·.uid) ∧ WingGood alnum f ws.length w := by
  constructor
  · rintro ⟨st, iw, h⟩
    obtain ⟨segs, s1, s2⟩ := h.segments
    obtain ⟨-, hc⟩ := wingPass_controls h
    have h1 := h.sections
    rw [importSections_events] at h1
    obtain ⟨k1, k2, k3, new, k4, rfl⟩ := (importEvents_iff (te := false) (cs := []) (by simp)).1 h1
    refine ⟨h.named, h.new, h.symmetry, ⟨segs, s1, segmentsOk_iff.1 ⟨_, s2⟩⟩,
      ⟨k2, by simpa using k3, k1.resolve_left (by simp), ?_⟩, ?_⟩
    · intro d hd
      obtain ⟨kc, -, -, m1, m2⟩ := forall₂_mem_left hc hd
      exact ⟨kc.2, m1, m2⟩
    · intro h0 e he
      have := h.listed (List.length_eq_zero_iff.1 h0) e he
      rw [has_true_iff, List.nil_append] at this
      obtain ⟨kc, hkc, hke⟩ := List.mem_map.1 this
      obtain ⟨d, hd, hd', -⟩ := forall₂_mem_right k4 hkc
      exact ⟨d, hd, by rw [← hd', hke]⟩
  · rintro ⟨h1, h2, g⟩
    obtain ⟨segs, s1, s2⟩ := g.segments
    obtain ⟨sd, s3⟩ := segmentsOk_iff.2 s2
    obtain ⟨d1, d2, d3, d4⟩ := g.devices
    have hfresh : ∀ d ∈ devicesOf w.sections, ∃ kc : String × ControlDef K, kc.1 = d.uid ∧
        FreshAt f.tigl d kc.2 ∧ (setOne (entryOf f ws.length kc.1) kc.2).Usable w.symmetry := by
      intro d hd
      obtain ⟨c, hm, hu⟩ := d4 d hd
      have hf : FreshAt f.tigl d { c with deflection := .num (.fin 0), deflectionMirror := .none } := by
        obtain ⟨⟨a1, a2, a3, a4, a5, a6⟩, -, -⟩ := hm
        exact ⟨⟨a1, a2, a3, a4, a5, a6⟩, rfl, rfl⟩
      refine ⟨(d.uid, _), rfl, hf, ?_⟩
      have := deviceMade_unique (setOne_made (o := entryOf f ws.length d.uid) w.symmetry hf) hm
      rw [← completed_usable]
      simp only [this]
      exact hu
    obtain ⟨new, hnew⟩ := forall₂_of_forall_exists hfresh
    have hsec : importSections f.tigl w.sections ⟨none, []⟩ = .ok
        ⟨if devicesOf w.sections = [] then teOf K false else some (1, 1), [] ++ new⟩ := by
      rw [importSections_events]
      refine (importEvents_iff (te := false) (cs := []) (by simp)).2
        ⟨.inr d3, d1, by simpa using d2, new, hnew.imp fun d kc h => ⟨h.1, h.2.1⟩, rfl⟩
    refine ⟨_, ⟨wingNameOf alnum (ws.length + 1) w, w.symmetry, sd,
      (if ws = [] then setAll f.deflections ([] ++ new) else [] ++ new).map fun kc =>
        (kc.1, kc.2.completed w.symmetry)⟩, rfl, h1, h2, g.symmetry,
      ⟨segs, s1, s3⟩, hsec, ?_, ?_⟩
    · intro h0 e he
      obtain ⟨d, hd, hde⟩ := g.listed (by rw [h0]; rfl) e he
      obtain ⟨kc, hkc, hk, -⟩ := forall₂_mem_left hnew hd
      rw [has_true_iff, List.nil_append]
      exact List.mem_map.2 ⟨kc, hkc, by rw [hk, hde]⟩
    · refine checkControls_iff.2 ⟨?_, rfl⟩
      simp only [List.nil_append, assigned_map, List.mem_map, forall_exists_index, and_imp]
      rintro _ kc hkc rfl
      obtain ⟨d, hd, hd', -, hu⟩ := forall₂_mem_right hnew hkc
      exact hu

theorem wingPasses_iff {alnum : Char → Bool} {f : CpacsFile K} :
    ∀ {l : List (CpacsWing K)} {ws : List (ImpWing K)}, (ws.map (·.uid)).Nodup →
    ((∃ ws', WingPasses alnum f (ws.length + 1) l ws ws') ↔
      (ws.map (·.uid) ++ l.mapIdx fun i w => wingNameOf alnum (i + ws.length + 1) w).Nodup ∧
      "" ∉ (l.mapIdx fun i w => wingNameOf alnum (i + ws.length + 1) w) ∧
      ∀ i w, l[i]? = some w → WingGood alnum f (ws.length + i) w) := by
  intro l
  induction l with
  | nil =>
    intro ws hn
    simp only [List.mapIdx_nil, List.append_nil, List.not_mem_nil, not_false_eq_true,
      List.getElem?_nil, reduceCtorEq, false_implies, implies_true, and_true, hn]
    exact iff_of_true ⟨ws, .nil _ _⟩ trivial
  | cons w l ih =>
    intro ws hn
    have hidx : ∀ x : ImpWing K, (l.mapIdx fun i w => wingNameOf alnum (i + 1 + ws.length + 1) w) =
        l.mapIdx fun i w => wingNameOf alnum (i + (ws ++ [x]).length + 1) w := by
      intro x
      have : ∀ i, i + 1 + ws.length + 1 = i + (ws ++ [x]).length + 1 := by
        intro i
        rw [List.length_append, List.length_singleton]
        omega
      simp only [this]
    have hlen : ∀ x : ImpWing K, ws.length + 1 + 1 = (ws ++ [x]).length + 1 := by
      intro x
      simp
    rw [List.mapIdx_cons]
    simp only [Nat.zero_add, List.mem_cons, not_or]
    constructor
    · rintro ⟨ws', h⟩
      cases h with
      | @cons _ _ _ _ st iw _ hp hr =>
      obtain ⟨n1, n2, n3⟩ := wingPass_iff.1 ⟨st, iw, hp⟩
      have hn1 : ((ws ++ [iw]).map (·.uid)).Nodup := by
        rw [List.map_append, List.nodup_append]
        refine ⟨hn, by simp, ?_⟩
        intro a ha b hb
        rw [List.map_singleton, List.mem_singleton, hp.name] at hb
        rintro rfl
        subst hb
        exact n2 ha
      rw [hlen iw] at hr
      obtain ⟨r1, r2, r3⟩ := (ih hn1).1 ⟨_, hr⟩
      rw [hidx iw]
      refine ⟨?_, ⟨fun h => n1 h.symm, r2⟩, ?_⟩
      · rw [List.map_append, List.map_singleton, hp.name] at r1
        simpa using r1
      · intro i x hx
        cases i with
        | zero =>
          cases hx
          exact n3
        | succ i =>
          have := r3 i x (by simpa using hx)
          rw [List.length_append, List.length_singleton] at this
          rw [show ws.length + (i + 1) = ws.length + 1 + i by omega]
          exact this
    · rintro ⟨h1, ⟨h2, h3⟩, h4⟩
      have hno : wingNameOf alnum (ws.length + 1) w ∉ ws.map (·.uid) := by
        intro hm
        rw [List.nodup_append] at h1
        exact h1.2.2 _ hm _ (by simp) rfl
      obtain ⟨st, iw, hp⟩ := wingPass_iff.2 ⟨fun h => h2 h.symm, hno, h4 0 w rfl⟩
      have h1' : ((ws ++ [iw]).map (·.uid) ++
          l.mapIdx fun i w => wingNameOf alnum (i + (ws ++ [iw]).length + 1) w).Nodup := by
        rw [← hidx iw, List.map_append, List.map_singleton, hp.name]
        simpa using h1
      rw [hidx iw] at h3
      obtain ⟨ws', hr⟩ := (ih (List.nodup_append.1 h1').1).2 ⟨h1', h3, by
        intro i x hx
        have := h4 (i + 1) x (by simpa using hx)
        rw [List.length_append, List.length_singleton]
        rw [show ws.length + (i + 1) = ws.length + 1 + i by omega] at this
        exact this⟩
      rw [← hlen iw] at hr
      exact ⟨ws', .cons hp hr⟩

/-! ## Which files -/

/-- **C118**: the wings of a CPACS file can be imported exactly if names of wings, of segments and of
controls are neither empty nor used twice, all airfoils have names, TIGL can locate each device and the
first one of each wing is at the trailing edge, every control is usable with the deflections listed for
it, and deflections are listed for controls of the first wing only. -/
theorem C118_importable_iff (alnum : Char → Bool) (f : CpacsFile K) :
    (∃ ws, importWings alnum f = .ok ws) ↔ CpacsWingsOk alnum f := by
  unfold importWings
  simp only [importWingsFrom_iff (show Settled f.deflections [] from trivial)]
  rw [show (1 : ℕ) = ([] : List (ImpWing K)).length + 1 from rfl, wingPasses_iff (by simp)]
  simp only [List.map_nil, List.nil_append, List.length_nil, Nat.add_zero, Nat.zero_add]
  constructor
  · rintro ⟨h1, h2, h3⟩
    refine ⟨h2, h1, ?_, fun i w hw => (h3 i w hw).segments, fun i w hw => (h3 i w hw).devices, ?_⟩
    · intro w hw
      obtain ⟨i, hi⟩ := List.mem_iff_getElem?.1 hw
      exact (h3 i w hi).symmetry
    · intro w hw
      exact (h3 0 w (by rw [← List.head?_eq_getElem?]; exact hw)).listed rfl
  · rintro ⟨h1, h2, h3, h4, h5, h6⟩
    refine ⟨h2, h1, fun i w hw => ⟨h3 w (List.mem_of_getElem? hw), h4 i w hw, h5 i w hw, ?_⟩⟩
    rintro rfl
    exact h6 w (by rw [List.head?_eq_getElem?]; exact hw)

/-- What the import makes of the wing at position `pos`. -/
structure WingMade (alnum : Char → Bool) (f : CpacsFile K) (pos : ℕ) (w : CpacsWing K)
    (iw : ImpWing K) : Prop where
  name : iw.uid = wingNameOf alnum (pos + 1) w
  symmetry : iw.symmetry = w.symmetry
  segments : ∃ segs, w.segments = some segs ∧
    iw.segments.map (·.1) = segmentNamesOf alnum iw.uid segs
  controls : List.Forall₂ (fun d kc => kc.1 = d.uid ∧
    DeviceMade f.tigl w.symmetry (entryOf f pos d.uid) d kc.2) (devicesOf w.sections) iw.controls

theorem wingPasses_made {alnum : Char → Bool} {f : CpacsFile K} {idx : ℕ} {l : List (CpacsWing K)}
    {ws ws' : List (ImpWing K)} (h : WingPasses alnum f idx l ws ws') (hi : idx = ws.length + 1) :
    ∃ new, ws' = ws ++ new ∧ new.length = l.length ∧ ∀ (i : ℕ) (w : CpacsWing K) (iw : ImpWing K),
      l[i]? = some w → new[i]? = some iw → WingMade alnum f (ws.length + i) w iw := by
  induction h with
  | nil => exact ⟨[], by simp, rfl, by simp⟩
  | @cons idx w rest ws st iw ws' hp _ ih =>
    subst hi
    obtain ⟨new, rfl, e2, e3⟩ := ih (by simp)
    refine ⟨iw :: new, by simp, by simp [e2], ?_⟩
    intro i x ix hx hix
    cases i with
    | zero =>
      cases hx
      cases hix
      obtain ⟨c1, c2⟩ := wingPass_controls hp
      obtain ⟨segs, s1, s2⟩ := hp.segments
      refine ⟨hp.name, c1, ⟨segs, s1, ?_⟩, c2.imp fun d kc h => ⟨h.1, h.2.1⟩⟩
      rw [importSegments_names s2, segmentNamesFrom_eq, hp.name]
      rfl
    | succ i =>
      have := e3 i x ix (by simpa using hx) (by simpa using hix)
      rw [List.length_append, List.length_singleton] at this
      rw [show ws.length + (i + 1) = ws.length + 1 + i by omega]
      exact this

/-- **C118**: each wing of the file becomes one wing of the aircraft, with the names of the file (or
numbers where there is none), and each device a control: where the device is, with the deflections last
listed for it. -/
theorem C118_content (alnum : Char → Bool) (f : CpacsFile K) (ws : List (ImpWing K))
    (h : importWings alnum f = .ok ws) :
    ws.length = f.wings.length ∧ ∀ (i : ℕ) (w : CpacsWing K) (iw : ImpWing K), f.wings[i]? = some w →
      ws[i]? = some iw → WingMade alnum f i w iw := by
  unfold importWings at h
  rw [importWingsFrom_iff (show Settled f.deflections [] from trivial)] at h
  obtain ⟨new, rfl, e2, e3⟩ := wingPasses_made h rfl
  refine ⟨by simpa using e2, ?_⟩
  intro i w iw hw hiw
  have := e3 i w iw hw (by simpa using hiw)
  simpa using this

theorem importSegment_vertices {alnum : Char → Bool} {wing : String} {d d' : ODict (ImpSegment K)}
    {idx : ℕ} {s : CpacsSegment K} (h : importSegment alnum wing d idx s = .ok d') :
    d'.map (·.2.vertices) = d.map (·.2.vertices) ++ [reorderCorners (midPoints s)] := by
  unfold importSegment at h
  extract_lets name p v at h
  cases hname : name with
  | error e => rw [hname] at h; cases h
  | ok uid =>
    rw [hname] at h
    simp only at h
    cases h1 : importAirfoil alnum s.airfoilInner with
    | error e => simp [h1] at h
    | ok i =>
      cases h2 : importAirfoil alnum s.airfoilOuter with
      | error e => simp [h1, h2] at h
      | ok o =>
        simp only [h1, h2] at h
        obtain ⟨-, -, rfl⟩ := addNew_iff.1 h
        rw [List.map_append]
        rfl

theorem importSegments_vertices {alnum : Char → Bool} {wing : String} :
    ∀ {l : List (CpacsSegment K)} {idx : ℕ} {d d' : ODict (ImpSegment K)},
    importSegments alnum wing idx l d = .ok d' →
      d'.map (·.2.vertices) = d.map (·.2.vertices) ++ l.map fun s => reorderCorners (midPoints s) := by
  intro l
  induction l with
  | nil =>
    intro idx d d' h
    cases h
    simp
  | cons s l ih =>
    intro idx d d' h
    unfold importSegments at h
    cases h1 : importSegment alnum wing d idx s with
    | error e => simp [h1] at h
    | ok d1 =>
      simp only [h1] at h
      rw [ih h, importSegment_vertices h1]
      simp

theorem wingPasses_vertices {alnum : Char → Bool} {f : CpacsFile K} {idx : ℕ}
    {l : List (CpacsWing K)} {ws ws' : List (ImpWing K)} (h : WingPasses alnum f idx l ws ws') :
    ∃ new, ws' = ws ++ new ∧ List.Forall₂ (fun w iw => ∃ segs, w.segments = some segs ∧
      iw.segments.map (·.2.vertices) = segs.map fun s => reorderCorners (midPoints s)) l new := by
  induction h with
  | nil => exact ⟨[], by simp, .nil⟩
  | @cons idx w rest ws st iw ws' hp _ ih =>
    obtain ⟨new, rfl, e⟩ := ih
    obtain ⟨segs, s1, s2⟩ := hp.segments
    exact ⟨iw :: new, by simp, .cons ⟨segs, s1, by simpa using importSegments_vertices s2⟩ e⟩

end

/-! ## Whole projects -/

section
variable {α : Type*}

/-- What a CPACS file must hold besides wings that can be imported; `disk'` are the airfoil files there
are after the import. -/
structure CpacsRestOk (alnum : Char → Bool) (A : Airfoils α) (root : String) (dir : Bool)
    (disk' : Disk α) (doc : CpacsDoc α) : Prop where
  named : doc.model ≠ some none
  wings : doc.hasWings = true
  airfoils : ∃ l, doc.airfoils = some l ∧ (dir = true ∨ l = [])
  point : doc.point ≠ none
  area : ∃ x, doc.area = some x ∧ 0 < x
  length : ∃ x, doc.length = some x ∧ 0 < x
  readable : ∀ w ∈ doc.file.wings, ∀ segs, w.segments = some segs → ∀ s ∈ segs,
    A.ok disk' (bladeFile alnum root s.airfoilInner) = true ∧
    A.ok disk' (bladeFile alnum root s.airfoilOuter) = true
  span : ∀ w ∈ doc.file.wings, ∀ segs, w.segments = some segs → segs ≠ [] →
    ∃ s ∈ segs, ¬ NoSpan (reorderCorners (midPoints s))

/-- **C118**: a CPACS file is loaded exactly if its wings satisfy `CpacsWingsOk` and the rest of the file
`CpacsRestOk`. -/
theorem C118_loaded_iff (alnum : Char → Bool) (A : Airfoils α) (root : String) (dir : Bool)
    (disk : Disk α) (doc : CpacsDoc α) :
    (∃ ac, (cpacsLoad alnum A root dir disk doc).2 = .ok ac) ↔ CpacsWingsOk alnum doc.file ∧
      CpacsRestOk alnum A root dir (cpacsLoad alnum A root dir disk doc).1 doc := by
  rw [C113_accepted_iff, ← C118_importable_iff]
  have hv : ∀ ws, importWings alnum doc.file = .ok ws → List.Forall₂ (fun w (iw : ImpWing ℝ) =>
      ∃ segs, w.segments = some segs ∧ iw.segments.map (·.2.vertices) =
        segs.map fun s => reorderCorners (midPoints s)) doc.file.wings ws := by
    intro ws h
    unfold importWings at h
    rw [importWingsFrom_iff (show Settled doc.file.deflections [] from trivial)] at h
    obtain ⟨new, rfl, e⟩ := wingPasses_vertices h
    exact e
  constructor
  · rintro ⟨ws, h, k1, k2, k3, k4, k5, k6, k7, k8⟩
    refine ⟨⟨ws, h⟩, k1, k2, k3, k4, k5, k6, k7, ?_⟩
    intro w hw segs hs hne
    obtain ⟨iw, hiw, segs', h1, h2⟩ := forall₂_mem_left (hv ws h) hw
    rw [hs] at h1
    cases h1
    obtain ⟨e, he, hsp⟩ := k8 iw hiw (by
      rintro h0
      rw [h0] at h2
      exact hne (List.map_eq_nil_iff.1 h2.symm))
    have : e.2.vertices ∈ segs.map fun s => reorderCorners (midPoints s) := by
      rw [← h2]
      exact List.mem_map.2 ⟨e, he, rfl⟩
    obtain ⟨s, hs', hse⟩ := List.mem_map.1 this
    exact ⟨s, hs', by rw [hse]; exact hsp⟩
  · rintro ⟨⟨ws, h⟩, k1, k2, k3, k4, k5, k6, k7, k8⟩
    refine ⟨ws, h, k1, k2, k3, k4, k5, k6, k7, ?_⟩
    intro iw hiw hne
    obtain ⟨w, hw, segs, h1, h2⟩ := forall₂_mem_right (hv ws h) hiw
    obtain ⟨s, hs, hsp⟩ := k8 w hw segs h1 (by
      rintro rfl
      exact hne (List.map_eq_nil_iff.1 h2))
    have : reorderCorners (midPoints s) ∈ iw.segments.map (·.2.vertices) := by
      rw [h2]
      exact List.mem_map.2 ⟨s, hs, rfl⟩
    obtain ⟨e, he, hse⟩ := List.mem_map.1 this
    exact ⟨e, he, by rw [hse]; exact hsp⟩

end

/-! ### Cases -/

/-- The data of a slat. -/
def demoCpacsSlat : CpacsDevice ℚ := ⟨1 / 4, 1 / 4, 0, 3 / 4, 3 / 4, 0, 1 / 8, 1 / 8⟩

/-- A wing with a flap, and a slat of another number. -/
def slatWing : CpacsWing ℚ := ⟨some "main", 2, some [demoCpacsSegment "seg" 0],
  [⟨"comp", [⟨"flap1", none, some demoCpacsFlap⟩, ⟨"slat1", some demoCpacsSlat, none⟩]⟩]⟩

/-- File with this wing; the flap is deflected. -/
def slatFile : CpacsFile ℚ := ⟨[slatWing], [⟨"flap1", some (.fin 5), none⟩], demoTigl "seg"⟩

-- the file can be imported, hence satisfies the conditions; wing and slat are as `C118_content` says
example : CpacsWingsOk asciiAlnum slatFile ∧ devicesOf slatWing.sections =
    [⟨"comp", "flap1", false, demoCpacsFlap⟩, ⟨"comp", "slat1", true, demoCpacsSlat⟩] ∧
    (importWings asciiAlnum slatFile).toOption.map deflectionsOf =
      some [("flap1", .num (.fin 5), .num (.fin 5)), ("slat1", .num (.fin 0), .num (.fin 0))] := by
  refine ⟨(C118_importable_iff _ _).1 ?_, rfl, by decide +kernel⟩
  have : (importWings asciiAlnum slatFile).toBool = true := by decide +kernel
  cases h : importWings asciiAlnum slatFile with
  | error e => rw [h] at this; cases this
  | ok ws => exact ⟨ws, rfl⟩

-- with the slat in front of the flap the file cannot be imported
example : ¬ CpacsWingsOk asciiAlnum { slatFile with wings := [{ slatWing with
    sections := slatWing.sections.map fun s => { s with controls := s.controls.reverse } }] } := by
  intro h
  have := (h.devices 0 _ rfl).first _ rfl
  revert this
  decide

-- both sides of `C118_loaded_iff` hold for the tapered wing
example : CpacsWingsOk asciiAlnum (taperDoc 1).file ∧ CpacsRestOk asciiAlnum anyAirfoils "/home" true
    (cpacsLoad asciiAlnum anyAirfoils "/home" true (fun _ => none) (taperDoc 1)).1 (taperDoc 1) := by
  rw [← C118_loaded_iff]
  obtain ⟨disk', ac, h⟩ := taper_loads (tip := 1) (by norm_num) "/home"
  exact ⟨ac, by rw [h]⟩

end Verif
