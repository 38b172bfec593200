import Verif.Model.Cpacs
import Verif.Lemmas.PrePanel
import Verif.Props.Cpacs

/-!
# Control surfaces and deflections of CPACS files (C86)
-/

namespace Verif

section
variable {K : Type*} [Field K] [LinearOrder K]

/-! ## What the file says -/

/-- The trailing edge devices of a wing whose data are complete, in the order of the file: component
segment, `uID`, data. -/
def flapsOf (secs : List (CpacsSection K)) : List (String × String × CpacsDevice K) :=
  secs.flatMap fun s => s.controls.filterMap fun c => c.trailing.map fun d => (s.name, c.uid, d)

/-- The control surface lies where the device is: borders and hinge line, in coordinates of the
segments. -/
def FlapAt (tigl : EtaXsi K) (d : String × String × CpacsDevice K) (c : ControlDef K) : Prop :=
  tigl d.1 d.2.2.etaLEib d.2.2.xsiLEib = some (c.segInner, c.etaInner, c.xsiInner) ∧
  tigl d.1 d.2.2.etaLEob d.2.2.xsiLEob = some (c.segOuter, c.etaOuter, c.xsiOuter) ∧
  (∃ s e, tigl d.1 d.2.2.etaLEib d.2.2.hingeIb = some (s, e, c.hingeInner)) ∧
  (∃ s e, tigl d.1 d.2.2.etaLEob d.2.2.hingeOb = some (s, e, c.hingeOuter)) ∧
  c.deviceType = some "flap" ∧ c.numC = none

/-- The last entry listed for a control. -/
def lastListed (l : List (CpacsDeflection K)) (uid : String) : Option (CpacsDeflection K) :=
  l.reverse.find? fun e => e.uid == uid

/-- The deflection asked for: zero if the control is not listed, or its value cannot be read. -/
def askedDeflection : Option (CpacsDeflection K) → Val K
  | none => .num (.fin 0)
  | some e => .num (e.deflection.getD (.fin 0))

/-- The mirror deflection: as listed; otherwise that of the deflection on a wing with symmetry, and
none on a wing without. -/
def askedMirror (o : Option (CpacsDeflection K)) (symmetry : ℕ) : Val K :=
  match o.bind (·.mirror) with
  | some m => .num m
  | none => if symmetry ≠ 0 then askedDeflection o else .none

/-- Mid points between lower and upper surface at the four corners of a segment. -/
def midPoints (s : CpacsSegment K) : Corners (V3 K) :=
  let p (eta xsi : K) : V3 K := ⟨((s.lower eta xsi).x + (s.upper eta xsi).x) / 2,
    ((s.lower eta xsi).y + (s.upper eta xsi).y) / 2, ((s.lower eta xsi).z + (s.upper eta xsi).z) / 2⟩
  ⟨p 0 0, p 1 0, p 1 1, p 0 1⟩

/-- A name without characters other than letters, digits, `-` and `_`. -/
def cleaned (alnum : Char → Bool) (n : String) : String :=
  String.ofList (n.toList.filter fun c => alnum c || c == '-' || c == '_')

/-! ## Lemmas -/

omit [LinearOrder K] in
theorem makeControl_flap {tigl : EtaXsi K} {sec uid : String} {dev : CpacsDevice K} {c : ControlDef K}
    (h : makeControl tigl sec "flap" dev.etaLEib dev.xsiLEib dev.etaLEob dev.xsiLEob dev.hingeIb
      dev.hingeOb = .ok c) :
    FlapAt tigl (sec, uid, dev) c ∧ c.deflection = .num (.fin 0) ∧ c.deflectionMirror = .none := by
  unfold makeControl EtaXsi.call at h
  cases h1 : tigl sec dev.etaLEib dev.xsiLEib with
  | none => simp [h1] at h
  | some i =>
    cases h2 : tigl sec dev.etaLEob dev.xsiLEob with
    | none => simp [h1, h2] at h
    | some o =>
      cases h3 : tigl sec dev.etaLEib dev.hingeIb with
      | none => simp [h1, h2, h3] at h
      | some a =>
        cases h4 : tigl sec dev.etaLEob dev.hingeOb with
        | none => simp [h1, h2, h3, h4] at h
        | some b =>
          simp only [h1, h2, h3, h4, Except.ok.injEq] at h
          subst h
          exact ⟨⟨h1, h2, ⟨_, _, h3⟩, ⟨_, _, h4⟩, rfl, rfl⟩, rfl, rfl⟩

theorem addNew_ok {α : Type*} {d d' : ODict α} {uid : String} {a : α} (h : d.addNew uid a = .ok d') :
    uid ≠ "" ∧ d.has uid = false ∧ d' = d ++ [(uid, a)] := by
  unfold ODict.addNew at h
  split_ifs at h with h1 h2
  cases h
  exact ⟨h1, by simpa using h2, rfl⟩

/-- A control just imported. -/
def FreshFlap (tigl : EtaXsi K) (d : String × String × CpacsDevice K) (kc : String × ControlDef K) :
    Prop :=
  kc.1 = d.2.1 ∧ FlapAt tigl d kc.2 ∧ kc.2.deflection = .num (.fin 0) ∧ kc.2.deflectionMirror = .none

omit [LinearOrder K] in
theorem importControls_ok {tigl : EtaXsi K} {sec : String} :
    ∀ {l : List (CpacsControl K)} {st st' : CtrlSt K}, (∀ c ∈ l, c.leading = none) →
    importControls tigl sec l st = .ok st' →
    ∃ new, st'.controls = st.controls ++ new ∧ List.Forall₂ (FreshFlap tigl)
      (l.filterMap fun c => c.trailing.map fun d => (sec, c.uid, d)) new := by
  intro l
  induction l with
  | nil =>
    intro st st' _ h
    cases h
    exact ⟨[], by simp, .nil⟩
  | cons c rest ih =>
    intro st st' hl h
    unfold importControls at h
    rw [hl c (by simp)] at h
    simp only [importLeading] at h
    have hrest : ∀ c ∈ rest, c.leading = none := fun c hc => hl c (List.mem_cons_of_mem _ hc)
    cases ht : c.trailing with
    | none =>
      simp only [ht, importTrailing] at h
      obtain ⟨new, e, hf⟩ := ih hrest h
      refine ⟨new, e, ?_⟩
      rw [List.filterMap_cons_none (by simp [ht])]
      exact hf
    | some dev =>
      simp only [ht, importTrailing] at h
      cases hm : makeControl tigl sec "flap" dev.etaLEib dev.xsiLEib dev.etaLEob dev.xsiLEob
          dev.hingeIb dev.hingeOb with
      | error e => simp [hm] at h
      | ok k =>
        simp only [hm] at h
        cases ha : st.controls.addNew c.uid k with
        | error e => simp [ha] at h
        | ok d =>
          simp only [ha] at h
          obtain ⟨new, e, hf⟩ := ih hrest h
          obtain ⟨-, -, hd⟩ := addNew_ok ha
          refine ⟨(c.uid, k) :: new, by rw [e, hd]; simp, ?_⟩
          rw [List.filterMap_cons_some (b := (sec, c.uid, dev)) (by simp [ht])]
          exact .cons ⟨rfl, makeControl_flap hm⟩ hf

omit [LinearOrder K] in
theorem importSections_ok {tigl : EtaXsi K} : ∀ {l : List (CpacsSection K)} {st st' : CtrlSt K},
    (∀ s ∈ l, ∀ c ∈ s.controls, c.leading = none) → importSections tigl l st = .ok st' →
    ∃ new, st'.controls = st.controls ++ new ∧ List.Forall₂ (FreshFlap tigl) (flapsOf l) new := by
  intro l
  induction l with
  | nil =>
    intro st st' _ h
    cases h
    exact ⟨[], by simp, .nil⟩
  | cons s rest ih =>
    intro st st' hl h
    unfold importSections at h
    cases h1 : importControls tigl s.name s.controls st with
    | error e => simp [h1] at h
    | ok st1 =>
      simp only [h1] at h
      obtain ⟨n1, e1, f1⟩ := importControls_ok (hl s (by simp)) h1
      obtain ⟨n2, e2, f2⟩ := ih (fun s hs => hl s (List.mem_cons_of_mem _ hs)) h
      refine ⟨n1 ++ n2, by rw [e2, e1]; simp, ?_⟩
      unfold flapsOf
      rw [List.flatMap_cons]
      exact List.rel_append f1 f2

omit [LinearOrder K] in
theorem setDeflection_has (e : CpacsDeflection K) (d : ODict (ControlDef K)) (uid : String) :
    (setDeflection e d).has uid = d.has uid := by
  unfold setDeflection ODict.has
  rw [List.any_map]
  congr 1
  funext kc
  simp only [Function.comp]
  split_ifs <;> rfl

/-- All deflections assigned to one wing. -/
def setAll (l : List (CpacsDeflection K)) (d : ODict (ControlDef K)) : ODict (ControlDef K) :=
  l.foldl (fun d e => setDeflection e d) d

omit [LinearOrder K] in
theorem assignDeflections_first : ∀ (l : List (CpacsDeflection K)) (w : ImpWing K)
    (rest : List (ImpWing K)), (∀ e ∈ l, w.controls.has e.uid) →
    assignDeflections l (w :: rest) = .ok ({ w with controls := setAll l w.controls } :: rest) := by
  intro l
  induction l with
  | nil => intro w rest _; rfl
  | cons e l ih =>
    intro w rest h
    have h1 := h e (by simp)
    unfold assignDeflections assignDeflection
    simp only [h1, if_true]
    rw [ih _ _ fun e' he' => ?_]
    · rfl
    · simp only [setDeflection_has]
      exact h e' (List.mem_cons_of_mem _ he')

omit [LinearOrder K] in
theorem assignDeflections_single : ∀ {l : List (CpacsDeflection K)} {w : ImpWing K}
    {ws : List (ImpWing K)}, assignDeflections l [w] = .ok ws → ∀ e ∈ l, w.controls.has e.uid := by
  intro l
  induction l with
  | nil => intro w ws _ e he; cases he
  | cons e l ih =>
    intro w ws h
    unfold assignDeflections assignDeflection at h
    by_cases h1 : w.controls.has e.uid
    · simp only [h1, if_true] at h
      intro e' he'
      rcases List.mem_cons.1 he' with rfl | h2
      · exact h1
      · have := ih h e' h2
        simpa only [setDeflection_has] using this
    · simp [h1, assignDeflection] at h

omit [LinearOrder K] in
/-- What `setAll` does to one control. -/
theorem setAll_forall (l : List (CpacsDeflection K)) (d : ODict (ControlDef K)) :
    List.Forall₂ (fun kc kc' : String × ControlDef K => kc'.1 = kc.1 ∧
      kc'.2 = match lastListed l kc.1 with
        | none => kc.2
        | some e => { kc.2 with
            deflection := askedDeflection (some e)
            deflectionMirror := match e.mirror with
              | none => .none
              | some m => .num m }) d (setAll l d) := by
  induction l using List.reverseRecOn with
  | nil =>
    show List.Forall₂ _ d d
    exact List.forall₂_same.2 fun kc _ => ⟨rfl, rfl⟩
  | append_singleton l e ih =>
    unfold setAll at ih ⊢
    rw [List.foldl_append]
    show List.Forall₂ _ d (setDeflection e (l.foldl (fun d e => setDeflection e d) d))
    unfold setDeflection
    rw [List.forall₂_map_right_iff]
    refine ih.imp ?_
    rintro ⟨k, c⟩ ⟨k', c'⟩ ⟨h1, h2⟩
    simp only at h1 h2
    subst h1
    unfold lastListed at h2 ⊢
    rw [List.reverse_append, List.reverse_singleton, List.singleton_append]
    by_cases hk : k' = e.uid
    · rw [List.find?_cons_of_pos (by simp [hk])]
      simp only [hk, if_true]
      refine ⟨trivial, ?_⟩
      rw [h2]
      cases List.find? (fun e => e.uid == k') l.reverse <;> rfl
    · rw [List.find?_cons_of_neg (by simpa using fun h => hk h.symm)]
      simp only [hk, if_false]
      exact ⟨trivial, h2⟩

theorem checkDeflection_ok {v v' : Val K} (h : checkDeflection v = .ok v') : v' = v := by
  unfold checkDeflection at h
  split_ifs at h
  cases h
  rfl

theorem check_ok {c c' : ControlDef K} {sym : ℕ} (h : c.check sym = .ok c') :
    c' = { c with deflectionMirror :=
      match c.deflectionMirror with
      | .none => if sym ≠ 0 then c.deflection else .none
      | v => v } := by
  unfold ControlDef.check at h
  by_cases h1 : (!((c.numC.all fun n => decide (n > 0)) &&
      in01 c.etaInner && in01 c.etaOuter && in01 c.xsiInner && in01 c.xsiOuter &&
      in01 c.hingeInner && in01 c.hingeOuter)) = true
  · rw [if_pos h1] at h; cases h
  rw [if_neg h1] at h
  by_cases h2 : c.deviceType = none
  · rw [if_pos h2] at h; cases h
  rw [if_neg h2] at h
  by_cases h3 : c.segInner = c.segOuter ∧ c.etaOuter ≤ c.etaInner
  · rw [if_pos h3] at h; cases h
  rw [if_neg h3] at h
  by_cases h4 : c.deflection = .none
  · rw [if_pos h4] at h; cases h
  rw [if_neg h4] at h
  cases h5 : checkDeflection c.deflection with
  | error e => simp [h5] at h
  | ok d =>
    rw [h5] at h
    simp only at h
    have hd := checkDeflection_ok h5
    subst hd
    by_cases h6 : c.deflectionMirror = .none
    · simp only [h6, if_true] at h ⊢
      by_cases h7 : sym = 0
      · simp only [h7, ne_eq, not_true_eq_false, if_false, Except.ok.injEq] at h ⊢
        rw [← h, ← h6]
      · simp only [h7, ne_eq, not_false_eq_true, if_true, Except.ok.injEq] at h ⊢
        rw [← h]
    · simp only [h6, if_false] at h
      have hc : c = { c with deflectionMirror :=
          match c.deflectionMirror with
          | .none => if sym ≠ 0 then c.deflection else .none
          | v => v } := by
        cases c with
        | mk a1 a2 a3 a4 a5 a6 a7 a8 a9 a10 a11 a12 =>
          cases a12 <;> first | rfl | exact absurd rfl h6
      by_cases h7 : sym = 0
      · simp only [h7, if_true, Except.ok.injEq] at h
        exact h.symm.trans hc
      · simp only [h7, if_false] at h
        cases h8 : checkDeflection c.deflectionMirror with
        | error e => simp [h8] at h
        | ok m =>
          simp only [h8, Except.ok.injEq] at h
          have hm := checkDeflection_ok h8
          subst hm
          rw [← hc, ← h]

theorem checkControls_ok {w w' : ImpWing K} (h : checkControls w = .ok w') :
    w'.uid = w.uid ∧ w'.symmetry = w.symmetry ∧ w'.segments = w.segments ∧
    List.Forall₂ (fun kc kc' : String × ControlDef K => kc'.1 = kc.1 ∧
      kc.2.check w.symmetry = .ok kc'.2) w.controls w'.controls := by
  unfold checkControls at h
  split at h
  · cases h
  · rename_i cs hm
    cases h
    refine ⟨rfl, rfl, rfl, ?_⟩
    refine (mapE_ok hm).imp ?_
    intro kc kc' h
    cases hc : kc.2.check w.symmetry with
    | error e => simp [hc] at h
    | ok c =>
      simp only [hc, Except.ok.injEq] at h
      subst h
      exact ⟨rfl, rfl⟩

/-! ## Import of all wings -/

/-- A control of an imported wing; `o` is the entry with its deflections. -/
def FlapImported (tigl : EtaXsi K) (symmetry : ℕ) (entry : String → Option (CpacsDeflection K))
    (d : String × String × CpacsDevice K) (kc : String × ControlDef K) : Prop :=
  kc.1 = d.2.1 ∧ FlapAt tigl d kc.2 ∧ kc.2.deflection = askedDeflection (entry kc.1) ∧
  kc.2.deflectionMirror = askedMirror (entry kc.1) symmetry

/-- A control before its check. -/
def FlapUnchecked (tigl : EtaXsi K) (symmetry : ℕ) (entry : String → Option (CpacsDeflection K))
    (d : String × String × CpacsDevice K) (kc : String × ControlDef K) : Prop :=
  kc.1 = d.2.1 ∧ FlapAt tigl d kc.2 ∧ kc.2.deflection = askedDeflection (entry kc.1) ∧
  (kc.2.deflectionMirror = askedMirror (entry kc.1) symmetry ∨
    kc.2.deflectionMirror = .none ∧ (entry kc.1).bind (·.mirror) = none)

theorem checked {tigl : EtaXsi K} {symmetry : ℕ} {entry : String → Option (CpacsDeflection K)}
    {d : String × String × CpacsDevice K} {kc kc' : String × ControlDef K}
    (h : FlapUnchecked tigl symmetry entry d kc) (h1 : kc'.1 = kc.1)
    (h2 : kc.2.check symmetry = .ok kc'.2) : FlapImported tigl symmetry entry d kc' := by
  obtain ⟨a, b, c, e⟩ := h
  have := check_ok h2
  refine ⟨h1.trans a, ?_, ?_, ?_⟩
  · rw [this]
    exact b
  · rw [this, h1]
    exact c
  · rw [this, h1]
    simp only
    rcases e with e | ⟨e1, e2⟩
    · rw [e, c]
      unfold askedMirror
      cases hb : (entry kc.1).bind (·.mirror) with
      | some m => rfl
      | none =>
        simp only
        by_cases hs : symmetry = 0
        · simp [hs]
        · simp only [ne_eq, hs, not_false_eq_true, if_true]
          cases askedDeflection (entry kc.1) <;> rfl
    · rw [e1, c]
      unfold askedMirror
      rw [e2]

theorem forall₂_trans {α β γ : Type*} {P : α → β → Prop} {Q : β → γ → Prop} {R : α → γ → Prop}
    (hR : ∀ a b c, P a b → Q b c → R a c) : ∀ {l m n}, List.Forall₂ P l m → List.Forall₂ Q m n →
    List.Forall₂ R l n := by
  intro l m n h1
  induction h1 generalizing n with
  | nil => intro h2; cases h2; exact .nil
  | cons h _ ih =>
    intro h2
    cases h2 with
    | cons h' t' => exact .cons (hR _ _ _ h h') (ih t')

/-- The deflections of a wing: for the first wing those listed. -/
def FlapsImported (f : CpacsFile K) (first : Bool) (w : CpacsWing K) (iw : ImpWing K) : Prop :=
  iw.symmetry = w.symmetry ∧
  List.Forall₂ (FlapImported f.tigl w.symmetry
    (fun uid => if first then lastListed f.deflections uid else none)) (flapsOf w.sections) iw.controls

/-- A wing before its check. -/
def FlapsUnchecked (f : CpacsFile K) (first : Bool) (w : CpacsWing K) (iw : ImpWing K) : Prop :=
  iw.symmetry = w.symmetry ∧
  List.Forall₂ (FlapUnchecked f.tigl w.symmetry
    (fun uid => if first then lastListed f.deflections uid else none)) (flapsOf w.sections) iw.controls

theorem wing_checked {f : CpacsFile K} {first : Bool} {w : CpacsWing K} {iw iw' : ImpWing K}
    (h : FlapsUnchecked f first w iw) (hc : checkControls iw = .ok iw') :
    FlapsImported f first w iw' := by
  obtain ⟨-, h1, -, h2⟩ := checkControls_ok hc
  refine ⟨h1.trans h.1, ?_⟩
  refine forall₂_trans ?_ h.2 h2
  rintro d kc kc' a ⟨b1, b2⟩
  rw [h.1] at b2
  exact checked a b1 b2

omit [LinearOrder K] in
theorem wing_unchecked {f : CpacsFile K} {first : Bool} {w : CpacsWing K} {iw : ImpWing K}
    (h : FlapsImported f first w iw) : FlapsUnchecked f first w iw :=
  ⟨h.1, h.2.imp fun _ _ ⟨a, b, c, d⟩ => ⟨a, b, c, .inl d⟩⟩

omit [LinearOrder K] in
/-- Assigning all deflections to the first wing, whose controls have been imported or are fresh. -/
theorem wing_assigned {f : CpacsFile K} {w : CpacsWing K} {iw : ImpWing K}
    (h : FlapsUnchecked f true w iw ∨ FlapsUnchecked f false w iw ∧
      ∀ kc ∈ iw.controls, kc.2.deflectionMirror = .none) :
    FlapsUnchecked f true w { iw with controls := setAll f.deflections iw.controls } := by
  have hs : iw.symmetry = w.symmetry := by rcases h with h | h; exacts [h.1, h.1.1]
  have hall := setAll_forall f.deflections iw.controls
  refine ⟨hs, ?_⟩
  have h' : List.Forall₂ (fun d (kc : String × ControlDef K) => kc.1 = d.2.1 ∧ FlapAt f.tigl d kc.2 ∧
      (lastListed f.deflections kc.1 = none → kc.2.deflection = .num (.fin 0) ∧
        (kc.2.deflectionMirror = .none ∨
          kc.2.deflectionMirror = askedMirror (none : Option (CpacsDeflection K)) w.symmetry)))
      (flapsOf w.sections) iw.controls := by
    rcases h with h | ⟨h, hm⟩
    · refine h.2.imp ?_
      rintro d kc ⟨a, b, c, e⟩
      refine ⟨a, b, fun hn => ?_⟩
      simp only [if_true, hn] at c e
      refine ⟨c, ?_⟩
      rcases e with e | e
      · exact .inr e
      · exact .inl e.1
    · refine h.2.imp ?_
      rintro d kc ⟨a, b, c, e⟩
      refine ⟨a, b, fun hn => ⟨c, ?_⟩⟩
      rcases e with e | e
      · exact .inr e
      · exact .inl e.1
  refine forall₂_trans ?_ h' hall
  rintro d kc kc' ⟨a, b, c⟩ ⟨e1, e2⟩
  refine ⟨e1.trans a, ?_, ?_, ?_⟩
  · rw [e2]
    cases lastListed f.deflections kc.1 <;> exact b
  · rw [e1]
    simp only [if_true]
    cases hl : lastListed f.deflections kc.1 with
    | none =>
      rw [hl] at e2
      rw [e2]
      exact (c hl).1
    | some e =>
      rw [hl] at e2
      rw [e2]
  · rw [e1]
    simp only [if_true]
    cases hl : lastListed f.deflections kc.1 with
    | none =>
      rw [hl] at e2
      rw [e2]
      rcases (c hl).2 with h0 | h0
      · exact .inr ⟨h0, rfl⟩
      · exact .inl h0
    | some e =>
      rw [hl] at e2
      rw [e2]
      simp only [Option.bind_some]
      cases hm : e.mirror with
      | none => exact .inr ⟨rfl, rfl⟩
      | some m =>
        left
        unfold askedMirror
        simp [hm]

/-- State between the passes of the loop over wings. -/
def WingsSoFar (f : CpacsFile K) (done : List (CpacsWing K)) (ws : List (ImpWing K)) : Prop :=
  match done, ws with
  | [], [] => True
  | w :: done, iw :: ws => FlapsImported f true w iw ∧ (∀ e ∈ f.deflections, iw.controls.has e.uid) ∧
      List.Forall₂ (FlapsImported f false) done ws
  | _, _ => False

omit [Field K] [LinearOrder K] in
theorem has_of_forall₂ {c c' : ODict (ControlDef K)} {R : ControlDef K → ControlDef K → Prop}
    (h : List.Forall₂ (fun kc kc' : String × ControlDef K => kc'.1 = kc.1 ∧ R kc.2 kc'.2) c c')
    (uid : String) : c'.has uid = c.has uid := by
  unfold ODict.has
  induction h with
  | nil => rfl
  | cons h _ ih => rw [List.any_cons, List.any_cons, ih, h.1]

/-- A pass that succeeds. -/
theorem importWing_inv {alnum : Char → Bool} {f : CpacsFile K} {idx : ℕ} {w : CpacsWing K}
    {ws ws' : List (ImpWing K)} (h : importWing alnum f idx w ws = .ok ws') :
    ∃ uid segs sd st ws1, (∀ u, w.uid = some u → parseStr alnum (.str u) "-_" = .ok uid) ∧
      (w.uid = none → uid = "WING" ++ fmt02 idx) ∧ w.segments = some segs ∧ w.symmetry ≤ 3 ∧
      uid ≠ "" ∧ (∀ x ∈ ws, x.uid ≠ uid) ∧
      importSegments alnum uid 1 segs [] = .ok sd ∧
      importSections f.tigl w.sections ⟨none, []⟩ = .ok st ∧
      assignDeflections f.deflections (ws ++ [⟨uid, w.symmetry, sd, st.controls⟩]) = .ok ws1 ∧
      mapE checkControls ws1 = .ok ws' := by
  unfold importWing at h
  extract_lets name at h
  cases hname : name with
  | error e => rw [hname] at h; cases h
  | ok uid =>
    rw [hname] at h
    simp only at h
    by_cases h1 : uid = ""
    · rw [if_pos h1] at h; cases h
    rw [if_neg h1] at h
    by_cases h2 : (ws.any fun x => x.uid == uid) = true
    · rw [if_pos h2] at h; cases h
    rw [if_neg h2] at h
    by_cases h3 : 3 < w.symmetry
    · rw [if_pos h3] at h; cases h
    rw [if_neg h3] at h
    cases h4 : w.segments with
    | none => simp [h4] at h
    | some segs =>
      simp only [h4] at h
      cases h5 : importSegments alnum uid 1 segs [] with
      | error e => simp [h5] at h
      | ok sd =>
        simp only [h5] at h
        cases h6 : importSections f.tigl w.sections ⟨none, []⟩ with
        | error e => simp [h6] at h
        | ok st =>
          simp only [h6] at h
          cases h7 : assignDeflections f.deflections
              (ws ++ [⟨uid, w.symmetry, sd, st.controls⟩]) with
          | error e => simp [h7] at h
          | ok ws1 =>
            simp only [h7] at h
            refine ⟨uid, segs, sd, st, ws1, ?_, ?_, rfl, by omega, h1, ?_, h5, rfl, h7, h⟩
            · intro u hu
              simp only [name, hu] at hname
              exact hname
            · intro hu
              simp only [name, hu, Except.ok.injEq] at hname
              exact hname.symm
            · intro x hx e
              exact h2 (List.any_eq_true.2 ⟨x, hx, by simp [e]⟩)

theorem importWing_ok {alnum : Char → Bool} {f : CpacsFile K} {idx : ℕ} {w : CpacsWing K}
    {done : List (CpacsWing K)} {ws ws' : List (ImpWing K)}
    (hl : ∀ s ∈ w.sections, ∀ c ∈ s.controls, c.leading = none) (hd : WingsSoFar f done ws)
    (h : importWing alnum f idx w ws = .ok ws') : WingsSoFar f (done ++ [w]) ws' := by
  obtain ⟨uid, segs, sd, st, ws1, -, -, -, -, -, -, -, hst, hws1, h⟩ := importWing_inv h
  obtain ⟨new, e, hf⟩ := importSections_ok hl hst
  rw [List.nil_append] at e
  have hnew : FlapsUnchecked f false w ⟨uid, w.symmetry, sd, st.controls⟩ := by
    refine ⟨rfl, ?_⟩
    rw [e]
    refine hf.imp ?_
    rintro d kc ⟨a, b, c, g⟩
    exact ⟨a, b, c, .inr ⟨g, rfl⟩⟩
  have hnone : ∀ kc ∈ st.controls, kc.2.deflectionMirror = .none := by
    rw [e]
    intro kc hkc
    obtain ⟨d, -, hd⟩ := forall₂_mem_right hf hkc
    exact hd.2.2.2
  have hset : ∀ (d : ODict (ControlDef K)) uid, (setAll f.deflections d).has uid = d.has uid := by
    intro d uid
    exact has_of_forall₂ (R := fun _ _ => True)
      ((setAll_forall f.deflections d).imp fun _ _ h => ⟨h.1, trivial⟩) uid
  cases ws with
  | nil =>
    cases done with
    | cons _ _ => exact hd.elim
    | nil =>
      rw [List.nil_append] at hws1
      have hhas := assignDeflections_single hws1
      rw [assignDeflections_first _ _ _ hhas] at hws1
      cases hws1
      cases mapE_ok h with
      | cons ha hb =>
        cases hb
        obtain ⟨-, -, -, k⟩ := checkControls_ok ha
        refine ⟨wing_checked (wing_assigned (.inr ⟨hnew, hnone⟩)) ha, ?_, .nil⟩
        intro e' he'
        rw [has_of_forall₂ (R := fun c c' => c.check _ = .ok c') k, hset]
        exact hhas e' he'
  | cons iw ws =>
    cases done with
    | nil => exact hd.elim
    | cons w0 done =>
      obtain ⟨d1, d2, d3⟩ := hd
      rw [List.cons_append, assignDeflections_first _ _ _ d2] at hws1
      cases hws1
      cases mapE_ok h with
      | cons ha hb =>
        obtain ⟨-, -, -, k⟩ := checkControls_ok ha
        refine ⟨wing_checked (wing_assigned (.inl (wing_unchecked d1))) ha, ?_, ?_⟩
        · intro e' he'
          rw [has_of_forall₂ (R := fun c c' => c.check _ = .ok c') k, hset]
          exact d2 e' he'
        · have hr : List.Forall₂ (FlapsUnchecked f false) (done ++ [w])
              (ws ++ [⟨uid, w.symmetry, sd, st.controls⟩]) :=
            List.rel_append (d3.imp fun _ _ => wing_unchecked) (.cons hnew .nil)
          exact forall₂_trans (P := FlapsUnchecked f false) (fun _ _ _ a b => wing_checked a b) hr hb

theorem importWingsFrom_ok {alnum : Char → Bool} {f : CpacsFile K} :
    ∀ {l : List (CpacsWing K)} {idx : ℕ} {done : List (CpacsWing K)} {ws ws' : List (ImpWing K)},
    (∀ w ∈ l, ∀ s ∈ w.sections, ∀ c ∈ s.controls, c.leading = none) → WingsSoFar f done ws →
    importWingsFrom alnum f idx l ws = .ok ws' → WingsSoFar f (done ++ l) ws' := by
  intro l
  induction l with
  | nil =>
    intro idx done ws ws' _ hd h
    cases h
    rw [List.append_nil]
    exact hd
  | cons w l ih =>
    intro idx done ws ws' hl hd h
    unfold importWingsFrom at h
    cases h1 : importWing alnum f idx w ws with
    | error e => simp [h1] at h
    | ok ws1 =>
      simp only [h1] at h
      have := ih (fun w' hw' => hl w' (List.mem_cons_of_mem _ hw'))
        (importWing_ok (hl w (by simp)) hd h1) h
      simpa using this

/-- The first wing has each control whose deflection is listed. -/
def FirstHas (f : CpacsFile K) (ws : List (ImpWing K)) : Prop :=
  ∃ iw irest, ws = iw :: irest ∧ ∀ e ∈ f.deflections, iw.controls.has e.uid

theorem importWing_has {alnum : Char → Bool} {f : CpacsFile K} {idx : ℕ} {w : CpacsWing K}
    {ws ws' : List (ImpWing K)} (hd : ws = [] ∨ FirstHas f ws)
    (h : importWing alnum f idx w ws = .ok ws') : FirstHas f ws' := by
  obtain ⟨uid, segs, sd, st, ws1, -, -, -, -, -, -, -, hst, hws1, h⟩ := importWing_inv h
  have hset : ∀ (d : ODict (ControlDef K)) uid, (setAll f.deflections d).has uid = d.has uid := by
    intro d uid
    exact has_of_forall₂ (R := fun _ _ => True)
      ((setAll_forall f.deflections d).imp fun _ _ h => ⟨h.1, trivial⟩) uid
  have hx : ∃ iw irest, ws ++ [⟨uid, w.symmetry, sd, st.controls⟩] = iw :: irest ∧
      ∀ e ∈ f.deflections, iw.controls.has e.uid := by
    rcases hd with rfl | ⟨iw, irest, rfl, hh⟩
    · exact ⟨_, _, rfl, assignDeflections_single hws1⟩
    · exact ⟨_, _, rfl, hh⟩
  obtain ⟨iw, irest, e, hh⟩ := hx
  rw [e, assignDeflections_first _ _ _ hh] at hws1
  cases hws1
  cases mapE_ok h with
  | cons ha hb =>
    obtain ⟨-, -, -, k⟩ := checkControls_ok ha
    refine ⟨_, _, rfl, ?_⟩
    intro e' he'
    rw [has_of_forall₂ (R := fun c c' => c.check _ = .ok c') k, hset]
    exact hh e' he'

theorem importWingsFrom_has {alnum : Char → Bool} {f : CpacsFile K} :
    ∀ {l : List (CpacsWing K)} {idx : ℕ} {ws ws' : List (ImpWing K)}, FirstHas f ws →
    importWingsFrom alnum f idx l ws = .ok ws' → FirstHas f ws' := by
  intro l
  induction l with
  | nil =>
    intro idx ws ws' hd h
    cases h
    exact hd
  | cons w l ih =>
    intro idx ws ws' hd h
    unfold importWingsFrom at h
    cases h1 : importWing alnum f idx w ws with
    | error e => simp [h1] at h
    | ok ws1 =>
      simp only [h1] at h
      exact ih (importWing_has (.inr hd) h1) h

/-! ## Names, segments -/

/-- What the import makes of a segment. -/
def SegmentImported (alnum : Char → Bool) (s : CpacsSegment K) (e : String × ImpSegment K) : Prop :=
  (∀ u, s.uid = some u → e.1 = cleaned alnum u) ∧
  e.2.vertices.toList.Perm (midPoints s).toList ∧
  e.2.vertices.a.x ≤ e.2.vertices.d.x ∧ e.2.vertices.b.x ≤ e.2.vertices.c.x ∧
  (OrderedCorners (midPoints s) → e.2.vertices = midPoints s) ∧
  e.2.airfoilInner = "airfoils/blade." ++ cleaned alnum s.airfoilInner ∧
  e.2.airfoilOuter = "airfoils/blade." ++ cleaned alnum s.airfoilOuter

theorem importAirfoil_ok {alnum : Char → Bool} {n file : String} (h : importAirfoil alnum n = .ok file) :
    file = "airfoils/blade." ++ cleaned alnum n := by
  unfold importAirfoil at h
  rw [parseStr_stored] at h
  simp only at h
  split_ifs at h
  cases h
  rfl

theorem importSegment_ok [IsStrictOrderedRing K] {alnum : Char → Bool} {wing : String}
    {d d' : ODict (ImpSegment K)} {idx : ℕ} {s : CpacsSegment K}
    (h : importSegment alnum wing d idx s = .ok d') :
    ∃ e, d' = d ++ [e] ∧ d.has e.1 = false ∧ SegmentImported alnum s e := by
  unfold importSegment at h
  extract_lets name p v at h
  cases hname : name with
  | error e => rw [hname] at h; cases h
  | ok uid =>
    rw [hname] at h
    simp only at h
    cases h1 : importAirfoil alnum s.airfoilInner with
    | error e => simp [h1] at h
    | ok i =>
      cases h2 : importAirfoil alnum s.airfoilOuter with
      | error e => simp [h1, h2] at h
      | ok o =>
        simp only [h1, h2] at h
        obtain ⟨-, a2, rfl⟩ := addNew_ok h
        have hp : v = reorderCorners (midPoints s) := rfl
        refine ⟨_, rfl, a2, ?_, ?_, ?_, ?_, ?_, importAirfoil_ok h1, importAirfoil_ok h2⟩
        · intro u hu
          simp only [name, hu, parseStr_stored, Except.ok.injEq] at hname
          exact hname.symm
        · rw [hp]; exact C62_permutation _
        · rw [hp]; exact (C62_leading_edge _).1
        · rw [hp]; exact (C62_leading_edge _).2
        · intro ho
          rw [hp]
          exact C62_ordered_kept _ ho

theorem importSegments_ok [IsStrictOrderedRing K] {alnum : Char → Bool} {wing : String} :
    ∀ {l : List (CpacsSegment K)} {idx : ℕ} {d d' : ODict (ImpSegment K)}, (d.map (·.1)).Nodup →
    importSegments alnum wing idx l d = .ok d' →
    (d'.map (·.1)).Nodup ∧ ∃ new, d' = d ++ new ∧ List.Forall₂ (SegmentImported alnum) l new := by
  intro l
  induction l with
  | nil =>
    intro idx d d' hn h
    cases h
    exact ⟨hn, [], by simp, .nil⟩
  | cons s l ih =>
    intro idx d d' hn h
    unfold importSegments at h
    cases h1 : importSegment alnum wing d idx s with
    | error e => simp [h1] at h
    | ok d1 =>
      simp only [h1] at h
      obtain ⟨e, rfl, e2, e3⟩ := importSegment_ok h1
      have hn1 : ((d ++ [e]).map (·.1)).Nodup := by
        rw [List.map_append, List.map_singleton, List.nodup_append]
        refine ⟨hn, by simp, ?_⟩
        intro a ha b hb hab
        rw [List.mem_singleton] at hb
        subst hb hab
        obtain ⟨x, hx, hxe⟩ := List.mem_map.1 ha
        have : d.has e.1 = true := List.any_eq_true.2 ⟨x, hx, by simp [hxe]⟩
        rw [this] at e2
        cases e2
      obtain ⟨k1, new, rfl, k2⟩ := ih hn1 h
      exact ⟨k1, e :: new, by simp, .cons e3 k2⟩

/-- What the import makes of a wing, as far as names, symmetry and segments go. -/
def WingImported (alnum : Char → Bool) (w : CpacsWing K) (iw : ImpWing K) : Prop :=
  iw.symmetry = w.symmetry ∧ w.symmetry ≤ 3 ∧ (∀ u, w.uid = some u → iw.uid = cleaned alnum u) ∧
  (iw.segments.map (·.1)).Nodup ∧
  ∃ segs, w.segments = some segs ∧ List.Forall₂ (SegmentImported alnum) segs iw.segments

omit [LinearOrder K] in
theorem assignDeflection_same {e : CpacsDeflection K} : ∀ {ws ws' : List (ImpWing K)},
    assignDeflection e ws = some ws' → List.Forall₂ (fun w w' : ImpWing K => w'.uid = w.uid ∧
      w'.symmetry = w.symmetry ∧ w'.segments = w.segments) ws ws' := by
  intro ws
  induction ws with
  | nil => intro ws' h; cases h
  | cons w ws ih =>
    intro ws' h
    unfold assignDeflection at h
    split_ifs at h
    · cases h
      exact .cons ⟨rfl, rfl, rfl⟩ (List.forall₂_same.2 fun _ _ => ⟨rfl, rfl, rfl⟩)
    · cases h1 : assignDeflection e ws with
      | none => simp [h1] at h
      | some ws1 =>
        simp only [h1, Option.some.injEq] at h
        subst h
        exact .cons ⟨rfl, rfl, rfl⟩ (ih h1)

omit [LinearOrder K] in
theorem assignDeflections_same : ∀ {l : List (CpacsDeflection K)} {ws ws' : List (ImpWing K)},
    assignDeflections l ws = .ok ws' → List.Forall₂ (fun w w' : ImpWing K => w'.uid = w.uid ∧
      w'.symmetry = w.symmetry ∧ w'.segments = w.segments) ws ws' := by
  intro l
  induction l with
  | nil =>
    intro ws ws' h
    cases h
    exact List.forall₂_same.2 fun _ _ => ⟨rfl, rfl, rfl⟩
  | cons e l ih =>
    intro ws ws' h
    unfold assignDeflections at h
    cases h1 : assignDeflection e ws with
    | none => simp [h1] at h
    | some ws1 =>
      simp only [h1] at h
      exact forall₂_trans (fun _ _ _ a b => ⟨b.1.trans a.1, b.2.1.trans a.2.1, b.2.2.trans a.2.2⟩)
        (assignDeflection_same h1) (ih h)

omit [Field K] [LinearOrder K] in
theorem uids_same {l m : List (ImpWing K)} (h : List.Forall₂ (fun w w' : ImpWing K => w'.uid = w.uid ∧
    w'.symmetry = w.symmetry ∧ w'.segments = w.segments) l m) :
    l.map (·.uid) = m.map (·.uid) := by
  induction h with
  | nil => rfl
  | cons h _ ih => rw [List.map_cons, List.map_cons, ih, h.1]

theorem importWing_names [IsStrictOrderedRing K] {alnum : Char → Bool} {f : CpacsFile K} {idx : ℕ}
    {w : CpacsWing K} {done : List (CpacsWing K)} {ws ws' : List (ImpWing K)}
    (hd : List.Forall₂ (WingImported alnum) done ws) (hn : (ws.map (·.uid)).Nodup)
    (h : importWing alnum f idx w ws = .ok ws') :
    List.Forall₂ (WingImported alnum) (done ++ [w]) ws' ∧ (ws'.map (·.uid)).Nodup := by
  obtain ⟨uid, segs, sd, st, ws1, n1, -, n3, n4, -, n6, n7, -, hws1, h⟩ := importWing_inv h
  have same : List.Forall₂ (fun w w' : ImpWing K => w'.uid = w.uid ∧
      w'.symmetry = w.symmetry ∧ w'.segments = w.segments)
      (ws ++ [⟨uid, w.symmetry, sd, st.controls⟩]) ws' := by
    refine forall₂_trans ?_ (assignDeflections_same hws1) (mapE_ok h)
    intro a b c h1 h2
    obtain ⟨c1, c2, c3, -⟩ := checkControls_ok h2
    exact ⟨c1.trans h1.1, c2.trans h1.2.1, c3.trans h1.2.2⟩
  have hnew : WingImported alnum w ⟨uid, w.symmetry, sd, st.controls⟩ := by
    obtain ⟨k1, new, k2, k3⟩ := importSegments_ok (d := []) (by simp) n7
    rw [List.nil_append] at k2
    subst k2
    refine ⟨rfl, n4, ?_, k1, segs, n3, k3⟩
    intro u hu
    have := n1 u hu
    rw [parseStr_stored] at this
    cases this
    rfl
  constructor
  · refine forall₂_trans ?_ (List.rel_append hd (List.Forall₂.cons hnew .nil)) same
    rintro a b c ⟨h1, h2, h3, h4, h5⟩ ⟨g1, g2, g3⟩
    unfold WingImported
    rw [g1, g2, g3]
    exact ⟨h1, h2, h3, h4, h5⟩
  · have : ws'.map (·.uid) = ws.map (·.uid) ++ [uid] := by
      have e : (ws ++ [(⟨uid, w.symmetry, sd, st.controls⟩ : ImpWing K)]).map (·.uid) =
          ws'.map (·.uid) := by
        exact uids_same same
      rw [← e]
      simp
    rw [this, List.nodup_append]
    refine ⟨hn, by simp, ?_⟩
    intro a ha b hb hab
    rw [List.mem_singleton] at hb
    subst hb hab
    obtain ⟨x, hx, hxe⟩ := List.mem_map.1 ha
    exact n6 x hx hxe

theorem importWingsFrom_names [IsStrictOrderedRing K] {alnum : Char → Bool} {f : CpacsFile K} :
    ∀ {l : List (CpacsWing K)} {idx : ℕ} {done : List (CpacsWing K)} {ws ws' : List (ImpWing K)},
    List.Forall₂ (WingImported alnum) done ws → (ws.map (·.uid)).Nodup →
    importWingsFrom alnum f idx l ws = .ok ws' →
    List.Forall₂ (WingImported alnum) (done ++ l) ws' ∧ (ws'.map (·.uid)).Nodup := by
  intro l
  induction l with
  | nil =>
    intro idx done ws ws' hd hn h
    cases h
    rw [List.append_nil]
    exact ⟨hd, hn⟩
  | cons w l ih =>
    intro idx done ws ws' hd hn h
    unfold importWingsFrom at h
    cases h1 : importWing alnum f idx w ws with
    | error e => simp [h1] at h
    | ok ws1 =>
      simp only [h1] at h
      obtain ⟨a, b⟩ := importWing_names hd hn h1
      have := ih a b h
      simpa using this

/-- **C62** for a whole file: if the import succeeds, there is one wing for each of the file, with its
symmetry and a name of its own, and it has one segment for each of the file, with a name of its own,
whose corners are the mid points between lower and upper surface, the front ones not behind the rear
ones, and exactly as in the file if they were in order. -/
theorem C62_import [IsStrictOrderedRing K] (alnum : Char → Bool) (f : CpacsFile K)
    (ws : List (ImpWing K)) (h : importWings alnum f = .ok ws) :
    List.Forall₂ (WingImported alnum) f.wings ws ∧ (ws.map (·.uid)).Nodup := by
  have := importWingsFrom_names (done := []) (ws := []) .nil (by simp) h
  simpa using this

/-- **C87** for a whole file (in part): if the import succeeds, each wing of the file has its imported
wing, each segment its imported segment, and the inner and outer airfoil file of that segment hold the
coordinates of the airfoils with the names given for its inner and outer end.  Missing: files in which
two airfoils are stored under the same name (`C87_airfoils_false`). -/
theorem C87_segments_partial [IsStrictOrderedRing K] {α : Type*} (alnum : Char → Bool) (f : CpacsFile K)
    (ws : List (ImpWing K)) (h : importWings alnum f = .ok ws) (l : List (CpacsAirfoil α))
    (hn : (storedNames alnum 1 l).Nodup) (coords : String → α)
    (hl : ∀ w ∈ f.wings, ∀ segs, w.segments = some segs → ∀ s ∈ segs,
      ∀ n ∈ [s.airfoilInner, s.airfoilOuter], (⟨some n, coords n⟩ : CpacsAirfoil α) ∈ l) :
    ∃ fs, writeAirfoils alnum 1 l = .ok fs ∧
      List.Forall₂ (fun (w : CpacsWing K) (iw : ImpWing K) => ∃ segs, w.segments = some segs ∧
        List.Forall₂ (fun (s : CpacsSegment K) (e : String × ImpSegment K) =>
          fileAfter fs e.2.airfoilInner = some (coords s.airfoilInner) ∧
          fileAfter fs e.2.airfoilOuter = some (coords s.airfoilOuter)) segs iw.segments) f.wings ws := by
  refine ⟨_, writeAirfoils_eq alnum 1 l, ?_⟩
  have key : ∀ n, (⟨some n, coords n⟩ : CpacsAirfoil α) ∈ l → ∀ file,
      file = "airfoils/blade." ++ cleaned alnum n →
      fileAfter (List.zipWith (fun n a => (airfoilFile n, a.coords)) (storedNames alnum 1 l) l) file =
        some (coords n) := by
    rintro n hm file rfl
    apply fileAfter_mem
    · rw [storedNames_zip]
      exact hn.map airfoilFile_injective
    · exact storedNames_mem alnum rfl 1 l hm
  have h1 := (C62_import alnum f ws h).1
  have fin : ∀ (wl : List (CpacsWing K)) (il : List (ImpWing K)), (∀ w ∈ wl, w ∈ f.wings) →
      List.Forall₂ (WingImported alnum) wl il →
      List.Forall₂ (fun (w : CpacsWing K) (iw : ImpWing K) => ∃ segs, w.segments = some segs ∧
        List.Forall₂ (fun (s : CpacsSegment K) (e : String × ImpSegment K) =>
          fileAfter (List.zipWith (fun n a => (airfoilFile n, a.coords)) (storedNames alnum 1 l) l)
            e.2.airfoilInner = some (coords s.airfoilInner) ∧
          fileAfter (List.zipWith (fun n a => (airfoilFile n, a.coords)) (storedNames alnum 1 l) l)
            e.2.airfoilOuter = some (coords s.airfoilOuter)) segs iw.segments) wl il := by
    intro wl il hw hf
    induction hf with
    | nil => exact .nil
    | @cons w iw wl il hwi _ ih =>
      refine .cons ?_ (ih fun w' hw' => hw w' (List.mem_cons_of_mem _ hw'))
      obtain ⟨-, -, -, -, segs, hs, hfs⟩ := hwi
      refine ⟨segs, hs, ?_⟩
      have hmem := hl w (hw w List.mem_cons_self) segs hs
      clear hs
      generalize iw.segments = isegs at hfs
      induction hfs with
      | nil => exact .nil
      | @cons s e _ _ hse _ ih2 =>
        obtain ⟨-, -, -, -, -, i1, i2⟩ := hse
        refine .cons ⟨key _ (hmem s List.mem_cons_self _ (by simp)) _ i1,
          key _ (hmem s List.mem_cons_self _ (by simp)) _ i2⟩ ?_
        exact ih2 fun s' hs' => hmem s' (List.mem_cons_of_mem _ hs')
  exact fin _ _ (fun _ h => h) h1

/-- **C86** (names of segments, in part): a control refers to segments of its own wing, if each
segment that TIGL names for the wing's devices is one of the wing and its name has letters, digits,
`-` and `_` only.  Missing: other names (`C86_segment_name_false`). -/
theorem C86_segments_partial [IsStrictOrderedRing K] (alnum : Char → Bool) (f : CpacsFile K)
    (ws : List (ImpWing K)) (hl : ∀ w ∈ f.wings, ∀ s ∈ w.sections, ∀ c ∈ s.controls, c.leading = none)
    (ht : ∀ w ∈ f.wings, ∀ segs, w.segments = some segs → ∀ d ∈ flapsOf w.sections, ∀ eta xsi r,
      f.tigl d.1 eta xsi = some r → (∃ s ∈ segs, s.uid = some r.1) ∧ cleaned alnum r.1 = r.1)
    (h : importWings alnum f = .ok ws) :
    ∀ iw ∈ ws, ∀ kc ∈ iw.controls, iw.segments.has kc.2.segInner ∧ iw.segments.has kc.2.segOuter := by
  have h1 := (C62_import alnum f ws h).1
  have h2 : List.Forall₂ (fun (w : CpacsWing K) (iw : ImpWing K) =>
      List.Forall₂ (fun d (kc : String × ControlDef K) => FlapAt f.tigl d kc.2)
      (flapsOf w.sections) iw.controls) f.wings ws := by
    have key := importWingsFrom_ok (done := []) (ws := []) hl trivial h
    rw [List.nil_append] at key
    cases hw : f.wings with
    | nil =>
      rw [hw] at key
      cases ws with
      | nil => exact .nil
      | cons _ _ => exact key.elim
    | cons w rest =>
      rw [hw] at key
      cases ws with
      | nil => exact key.elim
      | cons iw irest =>
        obtain ⟨a, -, b⟩ := key
        exact .cons (a.2.imp fun _ _ h => h.2.1) (b.imp fun _ _ h => h.2.imp fun _ _ h => h.2.1)
  have key : ∀ (l : List (CpacsWing K)) (m : List (ImpWing K)), (∀ w ∈ l, w ∈ f.wings) →
      List.Forall₂ (WingImported alnum) l m →
      List.Forall₂ (fun (w : CpacsWing K) (iw : ImpWing K) =>
        List.Forall₂ (fun d (kc : String × ControlDef K) => FlapAt f.tigl d kc.2)
        (flapsOf w.sections) iw.controls) l m →
      ∀ iw ∈ m, ∀ kc ∈ iw.controls, iw.segments.has kc.2.segInner ∧ iw.segments.has kc.2.segOuter := by
    intro l m hlm a b
    induction a with
    | nil => intro iw hiw; cases hiw
    | @cons w iw l m a1 _ ih =>
      cases b with
      | cons b1 b2 =>
        intro iw' hiw'
        rcases List.mem_cons.1 hiw' with rfl | h3
        · intro kc hkc
          obtain ⟨d, hd, g1, g2, -⟩ := forall₂_mem_right b1 hkc
          obtain ⟨-, -, -, -, segs, hs1, hs2⟩ := a1
          have hhas : ∀ eta xsi r, f.tigl d.1 eta xsi = some r → iw'.segments.has r.1 := by
            intro eta xsi r hr
            obtain ⟨⟨s, hs, hsu⟩, hc⟩ := ht w (hlm w (by simp)) segs hs1 d hd eta xsi r hr
            obtain ⟨e, he, hi⟩ := forall₂_mem_left hs2 hs
            have := hi.1 _ hsu
            rw [hc] at this
            exact List.any_eq_true.2 ⟨e, he, by simp [this]⟩
          exact ⟨hhas _ _ _ g1, hhas _ _ _ g2⟩
        · exact ih (fun w hw => hlm w (List.mem_cons_of_mem _ hw)) b2 iw' h3
  exact key _ _ (fun _ h => h) h1 h2

/-! ## C86 -/

/-- **C86** (in part): if the import succeeds, the control surfaces of each wing are the trailing edge
devices of the file, in order, each at its place, and those of the first wing have the deflections
listed for them.  Missing: leading edge devices (`C86_slat_and_flap_false`), deflections of controls on
other wings (`C86_other_wing_false`), and names of segments (`C86_segment_name_false`). -/
theorem C86_controls_partial (alnum : Char → Bool) (f : CpacsFile K) (ws : List (ImpWing K))
    (hl : ∀ w ∈ f.wings, ∀ s ∈ w.sections, ∀ c ∈ s.controls, c.leading = none)
    (h : importWings alnum f = .ok ws) :
    (f.wings = [] ∧ ws = []) ∨
    ∃ w rest iw irest, f.wings = w :: rest ∧ ws = iw :: irest ∧
      iw.symmetry = w.symmetry ∧
      List.Forall₂ (fun (d : String × String × CpacsDevice K) kc => kc.1 = d.2.1 ∧
        FlapAt f.tigl d kc.2 ∧
        kc.2.deflection = askedDeflection (lastListed f.deflections d.2.1) ∧
        kc.2.deflectionMirror = askedMirror (lastListed f.deflections d.2.1) w.symmetry)
        (flapsOf w.sections) iw.controls ∧
      List.Forall₂ (fun (w' : CpacsWing K) iw' => iw'.symmetry = w'.symmetry ∧
        List.Forall₂ (fun (d : String × String × CpacsDevice K) kc => kc.1 = d.2.1 ∧
          FlapAt f.tigl d kc.2 ∧ kc.2.deflection = .num (.fin 0)) (flapsOf w'.sections) iw'.controls)
        rest irest := by
  have key := importWingsFrom_ok (done := []) (ws := []) hl trivial h
  rw [List.nil_append] at key
  cases hw : f.wings with
  | nil =>
    rw [hw] at key
    cases ws with
    | nil => exact .inl ⟨rfl, rfl⟩
    | cons _ _ => exact key.elim
  | cons w rest =>
    rw [hw] at key
    cases ws with
    | nil => exact key.elim
    | cons iw irest =>
      obtain ⟨a, -, b⟩ := key
      refine .inr ⟨w, rest, iw, irest, rfl, rfl, a.1, ?_, ?_⟩
      · refine a.2.imp ?_
        rintro d kc ⟨a1, a2, a3, a4⟩
        simp only [if_true, a1] at a3 a4
        exact ⟨a1, a2, a3, a4⟩
      · refine b.imp ?_
        rintro w' iw' ⟨b1, b2⟩
        refine ⟨b1, b2.imp ?_⟩
        rintro d kc ⟨a1, a2, a3, -⟩
        exact ⟨a1, a2, a3⟩

/-- **C86**: the import succeeds only if each deflection listed is for a control of the first wing. -/
theorem C86_first_wing (alnum : Char → Bool) (f : CpacsFile K) (ws : List (ImpWing K))
    (hw : f.wings ≠ []) (h : importWings alnum f = .ok ws) (e : CpacsDeflection K)
    (he : e ∈ f.deflections) :
    ∃ iw irest, ws = iw :: irest ∧ ∃ kc ∈ iw.controls, kc.1 = e.uid := by
  unfold importWings at h
  cases hws : f.wings with
  | nil => exact absurd hws hw
  | cons w rest =>
    rw [hws] at h
    unfold importWingsFrom at h
    cases h1 : importWing alnum f 1 w [] with
    | error e => simp [h1] at h
    | ok ws1 =>
      simp only [h1] at h
      obtain ⟨iw, irest, rfl, hall⟩ := importWingsFrom_has (importWing_has (.inl rfl) h1) h
      refine ⟨iw, irest, rfl, ?_⟩
      simpa [ODict.has] using hall e he

omit [LinearOrder K] in
theorem slat_and_flap_controls {tigl : EtaXsi K} {sec : String} :
    ∀ {l : List (CpacsControl K)} {st st' : CtrlSt K}, importControls tigl sec l st = .ok st' →
    ∀ c ∈ l, c.leading = none ∨ c.trailing = none := by
  intro l
  induction l with
  | nil => intro st st' _ c hc; cases hc
  | cons c rest ih =>
    intro st st' h
    unfold importControls at h
    cases h1 : importLeading tigl sec c.uid st c.leading with
    | error e => simp [h1] at h
    | ok st1 =>
      simp only [h1] at h
      cases h2 : importTrailing tigl sec c.uid st1 c.trailing with
      | error e => simp [h2] at h
      | ok st2 =>
        simp only [h2] at h
        intro c' hc'
        rcases List.mem_cons.1 hc' with rfl | h3
        · cases hlead : c'.leading with
          | none => exact .inl rfl
          | some d1 =>
            cases htrail : c'.trailing with
            | none => exact .inr rfl
            | some d2 =>
              exfalso
              rw [hlead] at h1
              rw [htrail] at h2
              simp only [importLeading] at h1
              split at h1
              · cases h1
              · split at h1
                · cases h1
                · split at h1
                  · cases h1
                  · rename_i d hd
                    cases h1
                    simp only [importTrailing] at h2
                    split at h2
                    · cases h2
                    · split at h2
                      · cases h2
                      · rename_i d' hd'
                        obtain ⟨-, -, e1⟩ := addNew_ok hd
                        obtain ⟨-, e2, -⟩ := addNew_ok hd'
                        rw [e1] at e2
                        simp [ODict.has] at e2
        · exact ih h _ h3

omit [LinearOrder K] in
theorem slat_and_flap_sections {tigl : EtaXsi K} :
    ∀ {l : List (CpacsSection K)} {st st' : CtrlSt K}, importSections tigl l st = .ok st' →
    ∀ s ∈ l, ∀ c ∈ s.controls, c.leading = none ∨ c.trailing = none := by
  intro l
  induction l with
  | nil => intro st st' _ s hs; cases hs
  | cons s rest ih =>
    intro st st' h
    unfold importSections at h
    cases h1 : importControls tigl s.name s.controls st with
    | error e => simp [h1] at h
    | ok st1 =>
      simp only [h1] at h
      intro s' hs'
      rcases List.mem_cons.1 hs' with rfl | h2
      · exact slat_and_flap_controls h1
      · exact ih h _ h2

theorem importWingsFrom_each {alnum : Char → Bool} {f : CpacsFile K} :
    ∀ {l : List (CpacsWing K)} {idx : ℕ} {ws ws' : List (ImpWing K)},
    importWingsFrom alnum f idx l ws = .ok ws' → ∀ w ∈ l, ∃ st,
      importSections f.tigl w.sections ⟨none, []⟩ = .ok st := by
  intro l
  induction l with
  | nil => intro _ _ _ _ w hw; cases hw
  | cons w l ih =>
    intro idx ws ws' h
    unfold importWingsFrom at h
    cases h1 : importWing alnum f idx w ws with
    | error e => simp [h1] at h
    | ok ws1 =>
      simp only [h1] at h
      intro w' hw'
      rcases List.mem_cons.1 hw' with rfl | h2
      · obtain ⟨_, _, _, st, _, -, -, -, -, -, -, -, hst, -, -⟩ := importWing_inv h1
        exact ⟨st, hst⟩
      · exact ih h _ h2

/-- **C86** fails for wings with slats and flaps: if the leading and the trailing edge device with the
same number are both complete, the import raises an exception, whatever else the file holds. -/
theorem C86_slat_and_flap_false (alnum : Char → Bool) (f : CpacsFile K) (w : CpacsWing K)
    (hw : w ∈ f.wings) (s : CpacsSection K) (hs : s ∈ w.sections) (c : CpacsControl K)
    (hc : c ∈ s.controls) (h1 : c.leading ≠ none) (h2 : c.trailing ≠ none) :
    ∃ e, importWings alnum f = .error e := by
  cases h : importWings alnum f with
  | error e => exact ⟨e, rfl⟩
  | ok ws =>
    obtain ⟨st, hst⟩ := importWingsFrom_each h w hw
    rcases slat_and_flap_sections hst s hs c hc with h | h
    · exact absurd h h1
    · exact absurd h h2

end

/-! ### Cases -/

/-- Component segment and segment coincide, with the name given. -/
def demoTigl (seg : String) : EtaXsi ℚ := fun _ eta xsi => some (seg, eta, xsi)

/-- A flap over the last quarter of the chord. -/
def demoCpacsFlap : CpacsDevice ℚ := ⟨1 / 4, 1 / 4, 3 / 4, 3 / 4, 3 / 4, 3 / 4, 3 / 4, 3 / 4⟩

/-- A rectangular segment without thickness. -/
def demoCpacsSegment (uid : String) (y : ℚ) : CpacsSegment ℚ :=
  ⟨some uid, fun eta xsi => ⟨xsi, y + eta, 0⟩, fun eta xsi => ⟨xsi, y + eta, 0⟩, "NACA0010", "NACA0010"⟩

/-- Wing with one segment and one flap. -/
def demoCpacsWing (uid seg flap : String) (symmetry : ℕ) (y : ℚ) : CpacsWing ℚ :=
  ⟨some uid, symmetry, some [demoCpacsSegment seg y], [⟨"comp", [⟨flap, none, some demoCpacsFlap⟩]⟩]⟩

/-- Two wings with one flap each; deflection of the first one. -/
def demoCpacsFile (e : List (CpacsDeflection ℚ)) : CpacsFile ℚ :=
  ⟨[demoCpacsWing "main" "seg" "flap1" 2 0, demoCpacsWing "tail" "seg" "flap2" 2 0], e, demoTigl "seg"⟩

/-- The imported deflections: name, deflection, mirror deflection. -/
def deflectionsOf (ws : List (ImpWing ℚ)) : List (String × Val ℚ × Val ℚ) :=
  ws.flatMap fun w => w.controls.map fun kc => (kc.1, kc.2.deflection, kc.2.deflectionMirror)

example : (importWings asciiAlnum (demoCpacsFile [⟨"flap1", some (.fin 5), none⟩])).toOption.map deflectionsOf =
    some [("flap1", .num (.fin 5), .num (.fin 5)), ("flap2", .num (.fin 0), .num (.fin 0))] := by
  decide +kernel

example : (∀ w ∈ (demoCpacsFile []).wings, ∀ s ∈ w.sections, ∀ c ∈ s.controls, c.leading = none) ∧
    (∀ w ∈ (demoCpacsFile []).wings, ∀ segs, w.segments = some segs → ∀ d ∈ flapsOf w.sections,
      ∀ eta xsi r, (demoCpacsFile []).tigl d.1 eta xsi = some r →
        (∃ s ∈ segs, s.uid = some r.1) ∧ cleaned asciiAlnum r.1 = r.1) := by
  constructor
  · simp [demoCpacsFile, demoCpacsWing]
  · intro w hw segs hs d _ eta xsi r hr
    simp only [demoCpacsFile, demoTigl, Option.some.injEq] at hr
    subst hr
    refine ⟨?_, (by decide : cleaned asciiAlnum "seg" = "seg")⟩
    simp only [demoCpacsFile, List.mem_cons, List.not_mem_nil, or_false] at hw
    rcases hw with rfl | rfl <;> simp only [demoCpacsWing, Option.some.injEq] at hs <;> subst hs <;>
      exact ⟨_, List.mem_singleton.2 rfl, rfl⟩

-- the hypotheses of `C87_segments_partial` are met
example : (∃ ws, importWings asciiAlnum (demoCpacsFile []) = .ok ws) ∧
    (storedNames asciiAlnum 1 ([⟨some "NACA0010", 1⟩, ⟨none, 2⟩] : List (CpacsAirfoil ℕ))).Nodup ∧
    ∀ w ∈ (demoCpacsFile []).wings, ∀ segs, w.segments = some segs → ∀ s ∈ segs,
      ∀ n ∈ [s.airfoilInner, s.airfoilOuter],
        (⟨some n, 1⟩ : CpacsAirfoil ℕ) ∈ ([⟨some "NACA0010", 1⟩, ⟨none, 2⟩] : List (CpacsAirfoil ℕ)) := by
  refine ⟨?_, by decide, ?_⟩
  · have : (importWings asciiAlnum (demoCpacsFile [])).toBool = true := by decide +kernel
    cases h : importWings asciiAlnum (demoCpacsFile []) with
    | error e => rw [h] at this; cases this
    | ok ws => exact ⟨ws, rfl⟩
  · intro w hw segs hs s hsm n hn
    simp only [demoCpacsFile, List.mem_cons, List.not_mem_nil, or_false] at hw
    rcases hw with rfl | rfl <;> simp only [demoCpacsWing, Option.some.injEq] at hs <;> subst hs <;>
      (simp only [List.mem_singleton] at hsm
       subst hsm
       simp only [demoCpacsSegment, List.mem_cons, List.not_mem_nil, or_false, or_self] at hn
       subst hn
       simp)

-- a wing with slat and flap of the same number
example : ∃ c : CpacsControl ℚ, c.leading ≠ none ∧ c.trailing ≠ none :=
  ⟨⟨"slat", some demoCpacsFlap, some demoCpacsFlap⟩, by simp, by simp⟩

theorem ok_of_check {α : Type*} {x : Except PyErr α} {p : α → Bool}
    (h : (match x with | .ok a => p a | .error _ => false) = true) : ∃ a, x = .ok a ∧ p a = true := by
  cases x with
  | error e => simp at h
  | ok a => exact ⟨a, rfl, h⟩

/-- **C86** fails for controls of the second wing: a file that lists the deflection of its flap is
rejected. -/
theorem C86_other_wing_false : (∃ ws, importWings asciiAlnum (demoCpacsFile []) = .ok ws ∧
      ∃ w ∈ ws, ∃ kc ∈ w.controls, kc.1 = "flap2") ∧
    ∃ e, importWings asciiAlnum (demoCpacsFile [⟨"flap2", some (.fin 5), none⟩]) = .error e := by
  constructor
  · obtain ⟨ws, h, hp⟩ := ok_of_check (x := importWings asciiAlnum (demoCpacsFile []))
      (p := fun ws => ws.any fun w => w.controls.any fun kc => kc.1 == "flap2") (by decide +kernel)
    refine ⟨ws, h, ?_⟩
    simpa using hp
  · cases h : importWings asciiAlnum (demoCpacsFile [⟨"flap2", some (.fin 5), none⟩]) with
    | error e => exact ⟨e, rfl⟩
    | ok ws =>
      exfalso
      have : (importWings asciiAlnum (demoCpacsFile [⟨"flap2", some (.fin 5), none⟩])).toBool = false := by
        decide +kernel
      rw [h] at this
      cases this

/-- **C86** fails if the name of a segment has characters which the import removes: the control refers
to a segment that is not there. -/
theorem C86_segment_name_false : ∃ ws, importWings asciiAlnum
      (⟨[demoCpacsWing "main" "seg 1" "flap1" 2 0], [], demoTigl "seg 1"⟩ : CpacsFile ℚ) = .ok ws ∧
    ∃ w ∈ ws, ∃ kc ∈ w.controls, w.segments.has kc.2.segInner = false := by
  obtain ⟨ws, h, hp⟩ := ok_of_check (x := importWings asciiAlnum
      (⟨[demoCpacsWing "main" "seg 1" "flap1" 2 0], [], demoTigl "seg 1"⟩ : CpacsFile ℚ))
    (p := fun ws => ws.any fun w => w.controls.any fun kc => w.segments.has kc.2.segInner == false)
    (by decide +kernel)
  refine ⟨ws, h, ?_⟩
  simpa using hp

end Verif
