import Verif.Model.PrePanel
import Verif.Lemmas.StripChord
import Mathlib.Tactic.FieldSimp
import Mathlib.Tactic.Ring

/-! Helper lemmas: pre-panelling. -/

set_option linter.unusedSectionVars false

namespace Verif

/-! ### `mapE` -/

theorem mapE_ok {α β : Type*} {f : α → Except PyErr β} {l : List α} {l' : List β}
    (h : mapE f l = .ok l') : List.Forall₂ (fun a b => f a = .ok b) l l' := by
  induction l generalizing l' with
  | nil => simp only [mapE, Except.ok.injEq] at h; subst h; exact .nil
  | cons a rest ih =>
    unfold mapE at h
    split at h
    · simp at h
    · rename_i b hb
      split at h
      · simp at h
      · rename_i bs hbs
        simp only [Except.ok.injEq] at h
        subst h
        exact .cons hb (ih hbs)

theorem mapE_eq_ok {α β : Type*} {f : α → Except PyErr β} {l : List α} {l' : List β}
    (h : List.Forall₂ (fun a b => f a = .ok b) l l') : mapE f l = .ok l' := by
  induction h with
  | nil => rfl
  | cons hb _ ih => unfold mapE; simp [hb, ih]

theorem mapE_total {α β : Type*} {f : α → Except PyErr β} {l : List α}
    (h : ∀ a ∈ l, ∃ b, f a = .ok b) : ∃ l', mapE f l = .ok l' := by
  induction l with
  | nil => exact ⟨[], rfl⟩
  | cons a rest ih =>
    obtain ⟨b, hb⟩ := h a (by simp)
    obtain ⟨bs, hbs⟩ := ih (fun x hx => h x (List.mem_cons_of_mem _ hx))
    exact ⟨b :: bs, by unfold mapE; simp [hb, hbs]⟩

theorem mapE_ok_mem {α β : Type*} {f : α → Except PyErr β} {l : List α} {l' : List β}
    (h : mapE f l = .ok l') : List.Forall₂ (fun a b => a ∈ l ∧ f a = .ok b) l l' := by
  have : ∀ m : List α, ∀ m' : List β, (∀ a ∈ m, a ∈ l) →
      List.Forall₂ (fun a b => f a = .ok b) m m' →
      List.Forall₂ (fun a b => a ∈ l ∧ f a = .ok b) m m' := by
    intro m m' hm hf
    induction hf with
    | nil => exact .nil
    | cons hr _ ih =>
      exact .cons ⟨hm _ (by simp), hr⟩ (ih fun a ha => hm a (List.mem_cons_of_mem _ ha))
  exact this _ _ (fun _ ha => ha) (mapE_ok h)

theorem forall₂_mem_right {α β : Type*} {R : α → β → Prop} {l : List α} {l' : List β}
    (h : List.Forall₂ R l l') {b : β} (hb : b ∈ l') : ∃ a ∈ l, R a b := by
  induction h with
  | nil => simp at hb
  | cons hr _ ih =>
    rcases List.mem_cons.1 hb with rfl | hb
    · exact ⟨_, by simp, hr⟩
    · obtain ⟨a, ha, h⟩ := ih hb
      exact ⟨a, List.mem_cons_of_mem _ ha, h⟩

theorem forall₂_mem_left {α β : Type*} {R : α → β → Prop} {l : List α} {l' : List β}
    (h : List.Forall₂ R l l') {a : α} (ha : a ∈ l) : ∃ b ∈ l', R a b := by
  induction h with
  | nil => simp at ha
  | cons hr _ ih =>
    rcases List.mem_cons.1 ha with rfl | ha
    · exact ⟨_, by simp, hr⟩
    · obtain ⟨b, hb, h⟩ := ih ha
      exact ⟨b, List.mem_cons_of_mem _ hb, h⟩

variable {K : Type*} [Field K] [LinearOrder K]

/-! ### Histories of single segments -/

theorem runOpsOk_append {interp : Interp K} {ops ops' : List (SegOp K)}
    {s0 s1 s2 : List (Strip K)} (h1 : runOpsOk interp ops s0 = .ok s1)
    (h2 : runOpsOk interp ops' s1 = .ok s2) : runOpsOk interp (ops ++ ops') s0 = .ok s2 := by
  induction ops generalizing s0 with
  | nil => simp only [runOpsOk, Except.ok.injEq] at h1; subst h1; exact h2
  | cons op rest ih =>
    rw [List.cons_append]
    unfold runOpsOk at h1 ⊢
    cases ho : op.outcome interp s0 with
    | error e => simp [ho] at h1
    | ok u => simp only [ho] at h1 ⊢; exact ih h1

/-- one uses equal coordinates on leading and trailing edge -/
def SegOp.isChord : SegOp K → Prop
  | .divide a d _ => a = d
  | .control .. => True

/-- `s'` is `s` after a history of calls without exception -/
structure SegStep (C : Control → Prop) (s s' : PSegment K) : Prop where
  rest : s' = { s with strips := s'.strips }
  hist : ∃ ops, (∀ op ∈ ops, op.isChord ∧ op.ctrlIn C) ∧ runOpsOk s.interp ops s.strips = .ok s'.strips

theorem SegStep.refl {C : Control → Prop} (s : PSegment K) : SegStep C s s :=
  ⟨rfl, [], by simp, rfl⟩

theorem SegStep.trans {C : Control → Prop} {a b c : PSegment K} (h1 : SegStep C a b)
    (h2 : SegStep C b c) : SegStep C a c := by
  obtain ⟨r1, o1, q1, p1⟩ := h1
  obtain ⟨r2, o2, q2, p2⟩ := h2
  refine ⟨?_, o1 ++ o2, ?_, ?_⟩
  · rw [r2, r1]
  · intro op hop
    rcases List.mem_append.1 hop with h | h
    · exact q1 op h
    · exact q2 op h
  · have : b.interp = a.interp := by rw [r1]
    rw [this] at p2
    exact runOpsOk_append p1 p2

theorem SegStep.control {C : Control → Prop} {s : PSegment K} {a b : K} {c : Control} {x1 x2 : K} {h1 h2 : Option K}
    {st : List (Strip K)} (hC : C c)
    (h : asExcept (addSubdivisionForControl s.interp a b c x1 x2 h1 h2 s.strips) = .ok st) :
    SegStep C s { s with strips := st } := by
  refine ⟨rfl, [.control a b c x1 x2 h1 h2], by simp [SegOp.isChord, SegOp.ctrlIn, hC], ?_⟩
  unfold asExcept at h
  split at h
  · simp at h
  · rename_i x h'
    simp only [Except.ok.injEq] at h
    subst h
    simp [runOpsOk, SegOp.outcome, SegOp.run, h']

theorem update_forall₂ {C : Control → Prop} {uid : String} {f : PSegment K → Except PyErr (List (Strip K))}
    (hf : ∀ s st, f s = .ok st → SegStep C s { s with strips := st })
    {segs segs' : List (PSegment K)} (h : PSegment.update uid f segs = .ok segs') :
    List.Forall₂ (SegStep C) segs segs' := by
  induction segs generalizing segs' with
  | nil => simp [PSegment.update] at h
  | cons s rest ih =>
    unfold PSegment.update at h
    split_ifs at h with hu
    · split at h
      · simp at h
      · rename_i st hst
        simp only [Except.ok.injEq] at h
        subst h
        exact .cons (hf s st hst) (List.forall₂_same.2 fun x _ => SegStep.refl x)
    · split at h
      · simp at h
      · rename_i rest' hr
        simp only [Except.ok.injEq] at h
        subst h
        exact .cons (SegStep.refl s) (ih hr)

theorem forall₂_trans' {α : Type*} {R : α → α → Prop} (hR : ∀ {a b c}, R a b → R b c → R a c)
    {a b c : List α} (h1 : List.Forall₂ R a b) (h2 : List.Forall₂ R b c) :
    List.Forall₂ R a c := by
  induction h1 generalizing c with
  | nil => cases h2; exact .nil
  | cons hr _ ih =>
    cases h2 with
    | cons hr2 hs2 => exact .cons (hR hr hr2) (ih hs2)

theorem forall₂_segStep_trans {C : Control → Prop} {a b c : List (PSegment K)}
    (h1 : List.Forall₂ (SegStep C) a b) (h2 : List.Forall₂ (SegStep C) b c) :
    List.Forall₂ (SegStep C) a c :=
  forall₂_trans' (R := SegStep C) SegStep.trans h1 h2

theorem applyRows_forall₂ {C : Control → Prop} {c : Control} (hC : C c) {rows : List (SegRow K)} {segs segs' : List (PSegment K)}
    (h : applyRows c rows segs = .ok segs') : List.Forall₂ (SegStep C) segs segs' := by
  induction rows generalizing segs with
  | nil =>
    simp only [applyRows, Except.ok.injEq] at h
    subst h
    exact List.forall₂_same.2 fun x _ => SegStep.refl x
  | cons r rest ih =>
    unfold applyRows at h
    split at h
    · simp at h
    · rename_i segs1 h1
      exact forall₂_segStep_trans (update_forall₂ (fun s st hs => SegStep.control hC hs) h1) (ih h)

theorem placeControl_forall₂ {C : Control → Prop} {c : PControl K} (hC : C c.control) {segs segs' : List (PSegment K)}
    (h : placeControl c segs = .ok segs') : List.Forall₂ (SegStep C) segs segs' := by
  unfold placeControl at h
  split_ifs at h with hc
  · exact update_forall₂ (fun s st hs => SegStep.control hC hs) h
  · split at h
    · dsimp only at h
      split at h
      · simp at h
      · exact applyRows_forall₂ hC h
    · simp at h

theorem placeControls_forall₂ {C : Control → Prop} {cs : List (PControl K)} {segs segs' : List (PSegment K)}
    (hC : ∀ c ∈ cs, C c.control) (h : placeControls cs segs = .ok segs') : List.Forall₂ (SegStep C) segs segs' := by
  induction cs generalizing segs with
  | nil =>
    simp only [placeControls, Except.ok.injEq] at h
    subst h
    exact List.forall₂_same.2 fun x _ => SegStep.refl x
  | cons c rest ih =>
    unfold placeControls at h
    split at h
    · simp at h
    · rename_i segs1 h1
      exact forall₂_segStep_trans (placeControl_forall₂ (hC c (by simp)) h1)
        (ih (fun c hc => hC c (List.mem_cons_of_mem _ hc)) h)

theorem addLines_hist (C : Control → Prop) {interp : Interp K} {l : List K} {sds sds' : List (Strip K)}
    (h : addLines interp l sds = .ok sds') :
    ∃ ops, (∀ op ∈ ops, SegOp.isChord op ∧ op.ctrlIn C) ∧ runOpsOk interp ops sds = .ok sds' := by
  induction l generalizing sds with
  | nil =>
    simp only [addLines, Except.ok.injEq] at h
    subst h
    exact ⟨[], by simp, rfl⟩
  | cons e rest ih =>
    unfold addLines at h
    split at h
    · simp at h
    · rename_i o sds1 h1
      obtain ⟨ops, q, hr⟩ := ih h
      refine ⟨.divide e e true :: ops, ?_, ?_⟩
      · intro op hop
        rcases List.mem_cons.1 hop with rfl | hop
        · exact ⟨rfl, trivial⟩
        · exact q op hop
      · unfold runOpsOk
        simp [SegOp.outcome, SegOp.run, h1, Except.map, hr]

theorem addSpanLines_step {C : Control → Prop} {s s' : PSegment K}
    (h : s.addSpanLines = .ok s') : SegStep C s s' := by
  unfold PSegment.addSpanLines at h
  split at h
  · simp at h
  · split_ifs at h
    split at h
    · simp at h
    · rename_i st hst
      simp only [Except.ok.injEq] at h
      subst h
      exact ⟨rfl, addLines_hist C hst⟩

/-- `w'` is `w` with segments after histories without exception -/
structure WingStep (w w' : PWing K) : Prop where
  rest : w' = { w with segments := w'.segments }
  segs : List.Forall₂ (SegStep fun c => c ∈ w.controls.map PControl.control) w.segments w'.segments

theorem mapSegments_step {f : List (PSegment K) → Except PyErr (List (PSegment K))}
    {w w' : PWing K}
    (hf : ∀ a b, f a = .ok b →
      List.Forall₂ (SegStep fun c => c ∈ w.controls.map PControl.control) a b)
    (h : w.mapSegments f = .ok w') : WingStep w w' := by
  unfold PWing.mapSegments at h
  split at h
  · simp at h
  · rename_i segs hs
    simp only [Except.ok.injEq] at h
    subst h
    exact ⟨rfl, hf _ _ hs⟩

theorem WingStep.trans {a b c : PWing K} (h1 : WingStep a b) (h2 : WingStep b c) :
    WingStep a c := by
  have : b.controls = a.controls := by rw [h1.rest]
  refine ⟨?_, forall₂_segStep_trans h1.segs (this ▸ h2.segs)⟩
  rw [h2.rest, h1.rest]

theorem prePanelling_step {ac ac' : PAircraft K} (h : prePanelling ac = .ok ac') :
    List.Forall₂ WingStep ac.wings ac'.wings := by
  unfold prePanelling at h
  split at h
  · simp at h
  · rename_i ws h1
    split at h
    · simp at h
    · rename_i ws' h2
      simp only [Except.ok.injEq] at h
      subst h
      have f1 := mapE_ok h1
      have f2 := mapE_ok h2
      have g1 : List.Forall₂ WingStep ac.wings ws :=
        f1.imp fun w w' hw => mapSegments_step (fun a b hab => placeControls_forall₂
          (fun c hc => List.mem_map.2 ⟨c, hc, rfl⟩) hab) hw
      have g2 : List.Forall₂ WingStep ws ws' :=
        f2.imp fun w w' hw => mapSegments_step (f := mapE PSegment.addSpanLines)
          (fun a b hab => (mapE_ok hab).imp fun s s' hs => addSpanLines_step hs) hw
      exact forall₂_trans' (R := WingStep) WingStep.trans g1 g2

/-! ### Equally spaced lines on a plain segment -/

/-- one line on a segment whose last strip is plain and contains the line -/
theorem addSubdivision_last [IsStrictOrderedRing K] (interp : Interp K) {e x : K}
    (L : List (Strip K)) (hL : ∀ s ∈ L, s.etaB ≤ e) (h0 : 0 < x) (h1 : x < 1) (hex : e < x)
    (hw : 1 / 100 ≤ x - e) :
    addSubdivision interp x x true (L ++ [Strip.init e 1 1 e]) =
      (.ok (some (L.length + 1)), L ++ [Strip.init e x x e, Strip.init x 1 1 x]) := by
  have hget : ∀ (k : ℕ) (L : List (Strip K)), (∀ s ∈ L, s.etaB ≤ e) →
      getSubdivAtEtaFrom x k (L ++ [Strip.init e 1 1 e]) =
        some (k + L.length, Strip.init e 1 1 e, decide (x = e)) := by
    intro k L
    induction L generalizing k with
    | nil => intro _; simp [getSubdivAtEtaFrom, Strip.init, hex.le, h1]
    | cons t rest ih =>
      intro hL
      have : ¬ (t.etaA ≤ x ∧ x < t.etaB) := by
        rintro ⟨-, h⟩
        exact absurd (hL t (by simp)) (not_le.2 (hex.trans h))
      rw [List.cons_append]
      unfold getSubdivAtEtaFrom
      rw [if_neg this, ih (k + 1) (fun s hs => hL s (List.mem_cons_of_mem _ hs))]
      simp only [List.length_cons]
      congr 2
      omega
  unfold addSubdivision
  rw [if_neg (by push Not; exact ⟨h0, h1⟩)]
  unfold getSubdivAtEta
  rw [hget 0 L hL]
  have hne : x ≠ e := ne_of_gt hex
  have hnl : ¬ (x - e < minEtaLimit) := by unfold minEtaLimit; exact not_lt.2 hw
  simp [hne, Strip.init, hnl, inheritDevices, inheritFlap, inheritSlat]

/-- a line closer than 0.01 to the start of the last strip is refused -/
theorem addSubdivision_last_refused [IsStrictOrderedRing K] (interp : Interp K) {e x : K}
    (L : List (Strip K)) (hL : ∀ s ∈ L, s.etaB ≤ e) (h0 : 0 < x) (h1 : x < 1) (hex : e ≤ x)
    (hw : x - e < 1 / 100) :
    ∃ o, addSubdivision interp x x true (L ++ [Strip.init e 1 1 e]) =
      (.ok o, L ++ [Strip.init e 1 1 e]) := by
  have hget : ∀ (k : ℕ) (L : List (Strip K)), (∀ s ∈ L, s.etaB ≤ e) →
      getSubdivAtEtaFrom x k (L ++ [Strip.init e 1 1 e]) =
        some (k + L.length, Strip.init e 1 1 e, decide (x = e)) := by
    intro k L
    induction L generalizing k with
    | nil => intro _; simp [getSubdivAtEtaFrom, Strip.init, hex, h1]
    | cons t rest ih =>
      intro hL
      have : ¬ (t.etaA ≤ x ∧ x < t.etaB) := by
        rintro ⟨-, h⟩
        exact absurd (hL t (by simp)) (not_le.2 (lt_of_le_of_lt hex h))
      rw [List.cons_append]
      unfold getSubdivAtEtaFrom
      rw [if_neg this, ih (k + 1) (fun s hs => hL s (List.mem_cons_of_mem _ hs))]
      simp only [List.length_cons]
      congr 2
      omega
  unfold addSubdivision
  rw [if_neg (by push Not; exact ⟨h0, h1⟩)]
  unfold getSubdivAtEta
  rw [hget 0 L hL]
  by_cases hne : x = e
  · exact ⟨_, by simp [hne]; rfl⟩
  · refine ⟨some (0 + L.length), ?_⟩
    simp only [hne, decide_false, Bool.false_eq_true, if_false]
    rw [if_pos (by unfold minEtaLimit; simpa [Strip.init] using hw)]

/-- strips between consecutive coordinates -/
def plainStrips : K → List K → List (Strip K)
  | e, [] => [Strip.init e 1 1 e]
  | e, x :: rest => Strip.init e x x e :: plainStrips x rest

theorem addLines_plain [IsStrictOrderedRing K] (interp : Interp K) :
    ∀ (l : List K) (e : K) (L : List (Strip K)), (∀ s ∈ L, s.etaB ≤ e) → 0 ≤ e →
      (e :: l).IsChain (fun a b => 1 / 100 ≤ b - a) → (∀ x ∈ l, x < 1) →
      addLines interp l (L ++ [Strip.init e 1 1 e]) = .ok (L ++ plainStrips e l) := by
  intro l
  induction l with
  | nil => intro e L _ _ _ _; rfl
  | cons x rest ih =>
    intro e L hL he hc hx
    rw [List.isChain_cons_cons] at hc
    have hex : e < x := by
      have : (0 : K) < 1 / 100 := by norm_num
      linarith [hc.1]
    unfold addLines
    rw [addSubdivision_last interp L hL (lt_of_le_of_lt he hex) (hx x (by simp)) hex hc.1]
    simp only
    have := ih x (L ++ [Strip.init e x x e]) (by
      intro s hs
      rcases List.mem_append.1 hs with hs | hs
      · exact (hL s hs).trans hex.le
      · simp only [List.mem_singleton] at hs
        subst hs
        exact le_refl _) (he.trans hex.le) hc.2 (fun y hy => hx y (List.mem_cons_of_mem _ hy))
    simpa [plainStrips] using this

/-- with increasing lines every strip but the last is at least 0.01 wide -/
theorem addLines_count [IsStrictOrderedRing K] (interp : Interp K) :
    ∀ (l : List K) (e : K) (L : List (Strip K)), (∀ s ∈ L, s.etaB ≤ e) → 0 ≤ e → e < 1 →
      (L.length : K) * (1 / 100) ≤ e →
      (e :: l).IsChain (fun a b => a ≤ b) → (∀ x ∈ l, 0 < x ∧ x < 1) →
      ∃ (e' : K) (L' : List (Strip K)),
        addLines interp l (L ++ [Strip.init e 1 1 e]) = .ok (L' ++ [Strip.init e' 1 1 e']) ∧
        (L'.length : K) * (1 / 100) ≤ e' ∧ e' < 1 := by
  intro l
  induction l with
  | nil => intro e L _ _ he hc _ _; exact ⟨e, L, rfl, hc, he⟩
  | cons x rest ih =>
    intro e L hL he he1 hc hch hx
    rw [List.isChain_cons_cons] at hch
    obtain ⟨x0, x1⟩ := hx x (by simp)
    unfold addLines
    have hchx := hch.2
    rcases lt_or_ge (x - e) (1 / 100) with hw | hw
    · obtain ⟨o, ho⟩ := addSubdivision_last_refused interp L hL x0 x1 hch.1 hw
      rw [ho]
      simp only
      refine ih e L hL he he1 hc ?_ (fun y hy => hx y (List.mem_cons_of_mem _ hy))
      cases rest with
      | nil => simp
      | cons y rest' =>
        rw [List.isChain_cons_cons] at hchx ⊢
        exact ⟨hch.1.trans hchx.1, hchx.2⟩
    · have hex : e < x := by
        have : (0 : K) < 1 / 100 := by norm_num
        linarith
      rw [addSubdivision_last interp L hL x0 x1 hex hw]
      simp only
      have := ih x (L ++ [Strip.init e x x e]) (by
        intro s hs
        rcases List.mem_append.1 hs with hs | hs
        · exact (hL s hs).trans hex.le
        · simp only [List.mem_singleton] at hs
          subst hs
          exact le_refl _) x0.le x1 (by
            simp only [List.length_append, List.length_singleton]
            push_cast
            linarith) hchx (fun y hy => hx y (List.mem_cons_of_mem _ hy))
      simpa using this

theorem spanLines_mem [IsStrictOrderedRing K] {n : ℕ} {x : K} (h : x ∈ spanLines (K := K) n) :
    0 < x ∧ x < 1 := by
  unfold spanLines at h
  obtain ⟨k, hk, rfl⟩ := List.mem_map.1 h
  rw [List.mem_range] at hk
  have hn : (0 : K) < n := by exact_mod_cast (show 0 < n by omega)
  refine ⟨by positivity, ?_⟩
  rw [div_lt_one hn]
  have : k + 1 < n := by omega
  exact_mod_cast this

theorem spanLines_chain [IsStrictOrderedRing K] {n : ℕ} {R : K → K → Prop}
    (h : ∀ k : ℕ, k + 1 < n → R ((k : K) / n) (((k : K) + 1) / n)) :
    (0 :: spanLines (K := K) n).IsChain R := by
  have key : ∀ (m s : ℕ), s + m < n →
      (((s : K) / n) :: (List.range' s m).map fun k : ℕ => ((k : K) + 1) / (n : K)).IsChain R := by
    intro m
    induction m with
    | zero => intro s _; simp
    | succ m ih =>
      intro s hs
      rw [List.range'_succ, List.map_cons, List.isChain_cons_cons]
      refine ⟨h s (by omega), ?_⟩
      have := ih (s + 1) (by omega)
      push_cast at this
      exact this
  unfold spanLines
  cases n with
  | zero => simp
  | succ n =>
    have := key n 0 (by omega)
    simpa [List.range_eq_range'] using this

theorem plainStrips_spanLines [IsStrictOrderedRing K] {n : ℕ} (hn : 0 < n) :
    (plainStrips (0 : K) (spanLines n)).map (fun s => (s.etaA, s.etaB)) =
      (List.range n).map fun k : ℕ => ((k : K) / n, ((k : K) + 1) / n) := by
  have hn' : (n : K) ≠ 0 := by exact_mod_cast hn.ne'
  have key : ∀ (m s : ℕ), s + m + 1 = n →
      (plainStrips ((s : K) / n) ((List.range' s m).map fun k : ℕ => ((k : K) + 1) / (n : K))).map
        (fun s => (s.etaA, s.etaB)) =
      (List.range' s (m + 1)).map fun k : ℕ => ((k : K) / n, ((k : K) + 1) / n) := by
    intro m
    induction m with
    | zero =>
      intro s hs
      simp only [List.range'_zero, List.map_nil, plainStrips, Strip.init, List.map_cons,
        List.range'_succ]
      congr 2
      rw [eq_div_iff hn', one_mul]
      exact_mod_cast hs.symm
    | succ m ih =>
      intro s hs
      have := ih (s + 1) (by omega)
      push_cast at this
      rw [List.range'_succ, List.map_cons]
      rw [List.range'_succ, List.map_cons, ← this]
      simp [plainStrips, Strip.init]
  obtain ⟨m, rfl⟩ : ∃ m, n = m + 1 := ⟨n - 1, by omega⟩
  have := key m 0 (by omega)
  unfold spanLines
  simpa [List.range_eq_range'] using this

/-! ### Automatic panel numbers -/

theorem wingSpan_eq (w : PWing K) : w.span = (w.segments.map fun s => |s.span|).sum := by
  unfold PWing.span
  have : ∀ (l : List (PSegment K)) (a : K),
      l.foldl (fun acc s => acc + |s.span|) a = a + (l.map fun s => |s.span|).sum := by
    intro l
    induction l with
    | nil => simp
    | cons t rest ih => intro a; simp [ih, add_assoc]
  simp [this]

end Verif
