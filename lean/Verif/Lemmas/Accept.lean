import Verif.Lemmas.WingControls

/-! Helper lemmas for C91: a well-formed control layout is accepted. -/

set_option linter.unusedSectionVars false

namespace Verif
variable {K : Type*} [Field K] [LinearOrder K]

/-- the interpolated chord position lies between the two given ones -/
def InterpBetween (interp : Interp K) : Prop :=
  ∀ e1 x1 e2 x2 e, 0 ≤ e1 → e1 < e → e < e2 → e2 ≤ 1 → 0 ≤ x1 → x1 ≤ 1 → 0 ≤ x2 → x2 ≤ 1 →
    min x1 x2 ≤ interp (e1, x1) (e2, x2) e ∧ interp (e1, x1) (e2, x2) e ≤ max x1 x2

/-- admitted edge positions of the controls: intervals inside (0, 1) -/
structure EdgeRange (B : Control → K → Prop) : Prop where
  pos : ∀ {c x}, B c x → 0 < x ∧ x < 1
  mid : ∀ {c x y z}, B c x → B c y → min x y ≤ z → z ≤ max x y → B c z

theorem InterpBetween.range {interp : Interp K} (h : InterpBetween interp)
    {B : Control → K → Prop} (hB : EdgeRange B) {c : Control} {e1 x1 e2 x2 e : K} (h0 : 0 ≤ e1)
    (h1 : e1 < e) (h2 : e < e2) (h3 : e2 ≤ 1) (b1 : B c x1) (b2 : B c x2) :
    B c (interp (e1, x1) (e2, x2) e) := by
  have p1 := hB.pos b1
  have p2 := hB.pos b2
  have := h e1 x1 e2 x2 e h0 h1 h2 h3 p1.1.le p1.2.le p2.1.le p2.2.le
  exact hB.mid b1 b2 this.1 this.2

theorem InterpBetween.unit {interp : Interp K} (h : InterpBetween interp) {e1 x1 e2 x2 e : K}
    (h0 : 0 ≤ e1) (h1 : e1 < e) (h2 : e < e2) (h3 : e2 ≤ 1) (b1 : 0 ≤ x1 ∧ x1 ≤ 1)
    (b2 : 0 ≤ x2 ∧ x2 ≤ 1) :
    0 ≤ interp (e1, x1) (e2, x2) e ∧ interp (e1, x1) (e2, x2) e ≤ 1 := by
  have := h e1 x1 e2 x2 e h0 h1 h2 h3 b1.1 b1.2 b2.1 b2.2
  exact ⟨(le_min b1.1 b2.1).trans this.1, this.2.trans (max_le b1.2 b2.2)⟩

/-- the admitted edges of slat `c` are in front of those of flap `d` -/
def InFront (B : Control → K → Prop) (c d : Control) : Prop :=
  c.deviceType = "slat" ∧ d.deviceType = "flap" ∧ ∀ x y, B c x → B d y → x + 1/100 ≤ y

/-- a strip whose devices stay in their ranges -/
structure Fits (B : Control → K → Prop) (s : Strip K) : Prop where
  chord : ChordInv s
  edge : ∀ c y1 y2 g1 g2, s.EdgeAt c y1 y2 g1 g2 → B c y1 ∧ B c y2
  gap : ∀ c d, s.carries c → s.carries d → c.deviceType = "slat" → d.deviceType = "flap" →
    InFront B c d

theorem Fits.init (B : Control → K → Prop) (a b c d : K) : Fits B (Strip.init a b c d) :=
  ⟨ChordInv.init _ _ _ _, by simp [Strip.EdgeAt, Strip.init],
    by simp [Strip.carries, Strip.init]⟩

/-- when `_add_subarea` accepts -/
theorem addSubarea_accept {s : Strip K} {c : Control} {x1 x2 h1 h2 : K}
    (ht : (c.deviceType = "slat" ∧ s.slat = none) ∨ (c.deviceType = "flap" ∧ s.flap = none))
    (hx : (0 < x1 ∧ x1 < 1) ∧ 0 < x2 ∧ x2 < 1) (hh : (0 ≤ h1 ∧ h1 ≤ 1) ∧ 0 ≤ h2 ∧ h2 ≤ 1)
    (ho : ¬ s.overlaps x1 x2) : ∃ s', s.addSubarea c x1 x2 (some h1) (some h2) = .ok s' := by
  unfold Strip.addSubarea
  have a1 : ¬ (c.deviceType ≠ "slat" ∧ c.deviceType ≠ "flap") := by
    rcases ht with h | h <;> simp [h.1]
  have a2 : ¬ s.hasDevice c.deviceType := by
    rintro (h | h) <;> rcases ht with h' | h'
    · simp [h'.2] at h
    · rw [h'.1] at h; simp at h
    · rw [h'.1] at h; simp at h
    · simp [h'.2] at h
  rw [if_neg a1, if_neg a2]
  simp only [Option.getD_some]
  rw [if_neg (by push Not; exact ⟨⟨hx.2.1, hx.2.2⟩, hx.1⟩), if_neg (by push Not; exact hh),
    if_neg ho]
  split_ifs <;> exact ⟨_, rfl⟩

theorem inheritDevices_accept {interp : Interp K} (hint : InterpBetween interp)
    {B : Control → K → Prop} (hB : EdgeRange B) {eA eB eta : K} {prev new : Strip K}
    (hp : Fits B prev) (hn : new.slat = none ∧ new.flap = none) (h0 : 0 ≤ eA) (h1 : eA < eta)
    (h2 : eta < eB) (h3 : eB ≤ 1) :
    ∃ p n, inheritDevices interp eA eB eta prev new = (.ok (), p, n) := by
  unfold inheritDevices
  have slat : ∀ p n : Strip K, p.slat = prev.slat → n.slat = none →
      (∀ f, n.flap = some f → prev.carries f.ctrl ∧ f.ctrl.deviceType = "flap" ∧ B f.ctrl f.xsiA ∧
        B f.ctrl f.xsiB) →
      ∃ p' n', inheritSlat interp eA eB eta p n = (.ok (), p', n') := by
    intro p n hps hns hnf
    unfold inheritSlat
    rw [hps]
    cases hs : prev.slat with
    | none => exact ⟨_, _, rfl⟩
    | some f =>
      simp only
      obtain ⟨-, -, -, -, ht, -, hh⟩ := hp.chord.slat_some f hs
      obtain ⟨b1, b2⟩ := hp.edge f.ctrl _ _ _ _ (Or.inl ⟨f, hs, rfl, rfl, rfl, rfl, rfl⟩)
      have b3 := hint.range hB h0 h1 h2 h3 b1 b2
      obtain ⟨s', hs'⟩ := addSubarea_accept (s := n) (c := f.ctrl)
        (x1 := interp (eA, f.xsiD) (eB, f.xsiC) eta) (x2 := f.xsiC)
        (h1 := interp (eA, f.h1) (eB, f.h2) eta) (h2 := f.h2) (Or.inl ⟨ht, hns⟩)
        ⟨hB.pos b3, hB.pos b2⟩
        ⟨hint.unit h0 h1 h2 h3 ⟨hh.1, hh.2.1⟩ ⟨hh.2.2.1, hh.2.2.2⟩, hh.2.2.1, hh.2.2.2⟩ (by
          rintro (⟨sl, h, -⟩ | ⟨fl, h, ho⟩)
          · rw [hns] at h; simp at h
          · obtain ⟨q1, q2, q3, q4⟩ := hnf fl h
            have hg := (hp.gap f.ctrl fl.ctrl (Or.inl ⟨f, hs, rfl⟩) q1 ht q2).2.2
            have g1 := hg _ _ b3 q3
            have g2 := hg _ _ b2 q4
            unfold minXsiLimit at ho
            rcases ho with ho | ho
            · exact absurd g1 (not_le.2 ho)
            · exact absurd g2 (not_le.2 ho))
      rw [hs']
      exact ⟨_, _, rfl⟩
  unfold inheritFlap
  cases hf : prev.flap with
  | none =>
    simp only
    exact slat prev new rfl hn.1 (by intro f h; rw [hn.2] at h; simp at h)
  | some f =>
    simp only
    obtain ⟨-, -, -, -, ht, -, hh⟩ := hp.chord.flap_some f hf
    obtain ⟨b1, b2⟩ := hp.edge f.ctrl _ _ _ _ (Or.inr ⟨f, hf, rfl, rfl, rfl, rfl, rfl⟩)
    have b3 := hint.range hB h0 h1 h2 h3 b1 b2
    obtain ⟨s', hs'⟩ := addSubarea_accept (s := new) (c := f.ctrl)
      (x1 := interp (eA, f.xsiA) (eB, f.xsiB) eta) (x2 := f.xsiB)
      (h1 := interp (eA, f.h1) (eB, f.h2) eta) (h2 := f.h2) (Or.inr ⟨ht, hn.2⟩)
      ⟨hB.pos b3, hB.pos b2⟩
      ⟨hint.unit h0 h1 h2 h3 ⟨hh.1, hh.2.1⟩ ⟨hh.2.2.1, hh.2.2.2⟩, hh.2.2.1, hh.2.2.2⟩ (by
        simp [Strip.overlaps, hn.1, hn.2])
    rw [hs']
    simp only
    refine slat _ s' rfl ?_ ?_
    · obtain ⟨-, -, -, ⟨h, -⟩ | ⟨-, -, rfl⟩⟩ := addSubarea_ok hs'
      · rw [ht] at h; simp at h
      · exact hn.1
    · intro g hg
      obtain ⟨-, -, -, ⟨h, -⟩ | ⟨-, -, rfl⟩⟩ := addSubarea_ok hs'
      · rw [ht] at h; simp at h
      · simp only [Option.some.injEq] at hg
        subst hg
        exact ⟨Or.inr ⟨f, hf, rfl⟩, ht, b3, b2⟩

/-- where the controls may be: `R c a b` means that control `c` was requested on `[a, b)` -/
structure Sound (B : Control → K → Prop) (R : Control → K → K → Prop) (sds : List (Strip K)) :
    Prop where
  tile : TileInv sds
  fits : ∀ s ∈ sds, Fits B s
  place : ∀ s ∈ sds, ∀ c, s.carries c → ∃ a b, R c a b ∧ a ≤ s.etaA ∧ s.etaB ≤ b

theorem Sound.mono {B : Control → K → Prop} {R R' : Control → K → K → Prop}
    {sds : List (Strip K)} (h : Sound B R sds) (hR : ∀ c a b, R c a b → R' c a b) :
    Sound B R' sds :=
  ⟨h.tile, h.fits, fun s hs c hc => by
    obtain ⟨a, b, h1, h2⟩ := h.place s hs c hc
    exact ⟨a, b, hR _ _ _ h1, h2⟩⟩

theorem sound_init [IsStrictOrderedRing K] (B : Control → K → Prop) (R : Control → K → K → Prop) :
    Sound B R initStrips :=
  ⟨tileInv_init, by simp [initStrips, Fits.init], by simp [initStrips, Strip.carries, Strip.init]⟩

theorem addSubdivision_accept [IsStrictOrderedRing K] {interp : Interp K}
    (hint : InterpBetween interp) {B : Control → K → Prop} (hB : EdgeRange B)
    {R : Control → K → K → Prop} {sds : List (Strip K)} (hs : Sound B R sds) {e d : K} {ign : Bool}
    (he : ign = true ∨ (0 < e ∧ e < 1)) :
    ∃ o sds', addSubdivision interp e d ign sds = (.ok o, sds') ∧ Sound B R sds' ∧
      (ign = false → ∃ i, o = some i) := by
  rcases addSubdivision_cases interp e d ign sds with ⟨h1, h2⟩ |
    ⟨idx, prev, p, n, r, h1, h2, h3, h4, h5, h6, h7, h8⟩
  · rcases hr : addSubdivision interp e d ign sds with ⟨r, sds'⟩
    rw [hr] at h1 h2
    simp only at h1 h2
    subst h1
    cases h2 with
    | invalid h =>
      rcases he with he | he
      · exact ⟨none, sds', by simp [he], hs, by simp [he]⟩
      · rcases h with h | h
        · exact absurd h (not_le.2 he.1)
        · exact absurd h (not_le.2 he.2)
    | outside q1 q2 q3 =>
      obtain ⟨j, ⟨s, hj, hp⟩, -⟩ := hs.tile.existsUnique q1.le q2
      exact absurd hp (q3 s (List.mem_of_getElem? hj))
    | close i s => exact ⟨some i, sds', rfl, hs, fun _ => ⟨i, rfl⟩⟩
  · have hmem := List.mem_of_getElem? h1
    have hin := hs.tile.inside hmem
    have hpf := hs.fits prev hmem
    have hpf' : Fits B { prev with etaB := e, etaC := d } :=
      ⟨hpf.chord.eta e d, hpf.edge, hpf.gap⟩
    obtain ⟨p', n', hok⟩ := inheritDevices_accept hint hB hpf'
      (new := Strip.init e prev.etaB prev.etaC d) (by simp [Strip.init]) hin.1 h4 h5 hin.2.2
    rw [h7, Prod.mk.injEq] at hok
    obtain ⟨rfl, -⟩ := hok
    rw [h8]
    refine ⟨some sds.length, _, rfl, ?_, fun _ => ⟨_, rfl⟩⟩
    have hinh := inheritDevices_edge (hpf.chord.eta e d) (by simp [Strip.init]) h7
    obtain ⟨⟨pA, pB, -⟩, nA, nB, -⟩ := inheritDevices_eta h7
    simp only [Strip.init] at nA nB pA pB
    obtain ⟨hc1, hc2⟩ := (hpf.chord.eta e d).inheritDevices (ChordInv.init _ _ _ _) h7
    have hcarp : ∀ c, p.carries c → prev.carries c := by
      intro c h
      obtain ⟨z1, z2, k1, k2, hz⟩ := (Strip.carries_iff_edge _ _).1 h
      obtain ⟨y2, g2, hy, -⟩ := hinh.left hz
      exact (Strip.carries_iff_edge _ _).2 ⟨_, _, _, _, hy⟩
    have hcarn : ∀ c, n.carries c → prev.carries c := by
      intro c h
      obtain ⟨z1, z2, k1, k2, hz⟩ := (Strip.carries_iff_edge _ _).1 h
      obtain ⟨y2, g2, hy, -⟩ := hinh.right hz
      exact (Strip.carries_iff_edge _ _).2 ⟨_, _, _, _, hy⟩
    refine ⟨(tileInv_closed interp).split hs.tile trivial h1 h2 h3 h4 h5 h6 h7, ?_, ?_⟩
    · refine mem_set_append hs.fits ⟨hc1, ?_, ?_⟩ ⟨hc2, ?_, ?_⟩
      · intro c z1 z2 k1 k2 hz
        obtain ⟨y2, g2, hy, rfl, -⟩ := hinh.left hz
        obtain ⟨b1, b2⟩ := hpf'.edge c _ _ _ _ hy
        exact ⟨b1, hint.range hB hin.1 h4 h5 hin.2.2 b1 b2⟩
      · intro c c' q1 q2
        exact hpf.gap c c' (hcarp c q1) (hcarp c' q2)
      · intro c z1 z2 k1 k2 hz
        obtain ⟨y2, g2, hy, rfl, -⟩ := hinh.right hz
        obtain ⟨b1, b2⟩ := hpf'.edge c _ _ _ _ hy
        exact ⟨hint.range hB hin.1 h4 h5 hin.2.2 b1 b2, b2⟩
      · intro c c' q1 q2
        exact hpf.gap c c' (hcarn c q1) (hcarn c' q2)
    · refine mem_set_append hs.place ?_ ?_
      · intro c hc
        obtain ⟨a, b, q1, q2, q3⟩ := hs.place prev hmem c (hcarp c hc)
        exact ⟨a, b, q1, by rw [pA]; exact q2, by rw [pB]; exact h5.le.trans q3⟩
      · intro c hc
        obtain ⟨a, b, q1, q2, q3⟩ := hs.place prev hmem c (hcarn c hc)
        exact ⟨a, b, q1, by rw [nA]; exact q2.trans h4.le, by rw [nB]; exact q3⟩

/-- rows whose values are admitted -/
def RowOk (B : Control → K → Prop) (c : Control) (r : Row K) : Prop :=
  (B c r.xsi1 ∧ B c r.xsi2) ∧ (0 ≤ r.h1 ∧ r.h1 ≤ 1) ∧ 0 ≤ r.h2 ∧ r.h2 ≤ 1

theorem addRows_accept [IsStrictOrderedRing K] {B : Control → K → Prop} (hB : EdgeRange B)
    {R : Control → K → K → Prop} {c : Control}
    (hc : c.deviceType = "slat" ∨ c.deviceType = "flap") {a b : K}
    (hpair : ∀ d x y, R d x y → x < b → a < y → InFront B c d ∨ InFront B d c) :
    ∀ (rows : List (Row K)) (sds : List (Strip K)) (m : K), a ≤ m →
      Sound B (fun d x y => R d x y ∨ (d = c ∧ x = a ∧ y = m)) sds →
      RowChain sds b m (rows.map Row.idx) → (∀ r ∈ rows, RowOk B c r) →
      ∃ sds', addRows c rows sds = (.ok (), sds') ∧
        Sound B (fun d x y => R d x y ∨ (d = c ∧ x = a ∧ y = b)) sds' := by
  intro rows
  induction rows with
  | nil =>
    intro sds m _ hs hch _
    simp only [List.map_nil, RowChain] at hch
    subst hch
    exact ⟨sds, rfl, hs⟩
  | cons r rest ih =>
    intro sds m ham hs hch hr
    simp only [List.map_cons, RowChain] at hch
    obtain ⟨s, hsi, hsm, hch⟩ := hch
    have hmem := List.mem_of_getElem? hsi
    have hin := hs.tile.inside hmem
    have hsb : s.etaB ≤ b := hch.le hs.tile.1
    obtain ⟨⟨x1, x2⟩, hh1, hh2⟩ := hr r (by simp)
    -- the devices that are already there
    have hold : ∀ d, s.carries d → InFront B c d ∨ InFront B d c := by
      intro d hd
      obtain ⟨x, y, hR | ⟨rfl, rfl, rfl⟩, q1, q2⟩ := hs.place s hmem d hd
      · refine hpair d x y hR (lt_of_le_of_lt q1 (lt_of_lt_of_le hin.2.1 hsb)) ?_
        exact lt_of_le_of_lt ham (lt_of_lt_of_le (hsm ▸ hin.2.1) q2)
      · exact absurd (lt_of_lt_of_le (hsm ▸ hin.2.1) q2) (lt_irrefl _)
    have hsl : ∀ f, s.slat = some f → f.ctrl.deviceType = "slat" ∧ InFront B f.ctrl c := by
      intro f hf
      have ht := (hs.fits s hmem).chord.slat_some f hf
      refine ⟨ht.2.2.2.2.1, ?_⟩
      rcases hold f.ctrl (Or.inl ⟨f, hf, rfl⟩) with h | h
      · have := h.2.1
        rw [ht.2.2.2.2.1] at this
        simp at this
      · exact h
    have hfl : ∀ f, s.flap = some f → f.ctrl.deviceType = "flap" ∧ InFront B c f.ctrl := by
      intro f hf
      have ht := (hs.fits s hmem).chord.flap_some f hf
      refine ⟨ht.2.2.2.2.1, ?_⟩
      rcases hold f.ctrl (Or.inr ⟨f, hf, rfl⟩) with h | h
      · exact h
      · have := h.1
        rw [ht.2.2.2.2.1] at this
        simp at this
    obtain ⟨s', hs'⟩ := addSubarea_accept (s := s) (c := c) (x1 := r.xsi1) (x2 := r.xsi2)
      (h1 := r.h1) (h2 := r.h2) (by
        rcases hc with hc | hc
        · left
          refine ⟨hc, ?_⟩
          cases hf : s.slat with
          | none => rfl
          | some f =>
            have := (hsl f hf).2.2.1
            rw [hc] at this
            simp at this
        · right
          refine ⟨hc, ?_⟩
          cases hf : s.flap with
          | none => rfl
          | some f =>
            have := (hfl f hf).2.1
            rw [hc] at this
            simp at this)
      ⟨hB.pos x1, hB.pos x2⟩ ⟨hh1, hh2⟩ (by
        rintro (⟨f, hf, ho⟩ | ⟨f, hf, ho⟩)
        · have hi := (hsl f hf).2.2.2
          obtain ⟨b1, b2⟩ := (hs.fits s hmem).edge f.ctrl _ _ _ _
            (Or.inl ⟨f, hf, rfl, rfl, rfl, rfl, rfl⟩)
          unfold minXsiLimit at ho
          rcases ho with ho | ho
          · exact absurd (hi _ _ b1 x1) (not_le.2 ho)
          · exact absurd (hi _ _ b2 x2) (not_le.2 ho)
        · have hi := (hfl f hf).2.2.2
          obtain ⟨b1, b2⟩ := (hs.fits s hmem).edge f.ctrl _ _ _ _
            (Or.inr ⟨f, hf, rfl, rfl, rfl, rfl, rfl⟩)
          unfold minXsiLimit at ho
          rcases ho with ho | ho
          · exact absurd (hi _ _ x1 b1) (not_le.2 ho)
          · exact absurd (hi _ _ x2 b2) (not_le.2 ho))
    obtain ⟨eA, eB, -⟩ := addSubarea_eta hs'
    unfold addRows
    simp only [hsi, hs']
    refine ih (sds.set r.idx s') s.etaB (ham.trans (hsm ▸ hin.2.1.le)) ?_ ?_
      (fun r' hr' => hr r' (by simp [hr']))
    · refine ⟨(tileInv_closed (fun _ _ _ => 0)).add hs.tile hsi hs', mem_set_P hs.fits ?_, ?_⟩
      · refine ⟨(hs.fits s hmem).chord.addSubarea hs', ?_, ?_⟩
        · intro d y1 y2 g1 g2 he
          rcases (addSubarea_edge hs').1 he with ⟨rfl, rfl, rfl, -⟩ | he
          · exact ⟨x1, x2⟩
          · exact (hs.fits s hmem).edge d _ _ _ _ he
        · intro d d' q1 q2 t1 t2
          rcases (addSubarea_carries hs').1 q1 with rfl | q1 <;>
          rcases (addSubarea_carries hs').1 q2 with rfl | q2
          · rw [t1] at t2; simp at t2
          · rcases hold d' q2 with h | h
            · exact h
            · have := h.1; rw [t2] at this; simp at this
          · rcases hold d q1 with h | h
            · have := h.2.1; rw [t1] at this; simp at this
            · exact h
          · exact (hs.fits s hmem).gap d d' q1 q2 t1 t2
      · refine mem_set_P ?_ ?_
        · intro t ht d hd
          obtain ⟨x, y, hR | ⟨rfl, rfl, rfl⟩, q1, q2⟩ := hs.place t ht d hd
          · exact ⟨x, y, Or.inl hR, q1, q2⟩
          · exact ⟨x, s.etaB, Or.inr ⟨rfl, rfl, rfl⟩, q1, q2.trans (hsm ▸ hin.2.1.le)⟩
        · intro d hd
          rcases (addSubarea_carries hs').1 hd with rfl | hd
          · exact ⟨a, s.etaB, Or.inr ⟨rfl, rfl, rfl⟩, by rw [eA, hsm]; exact ham, eB.le⟩
          · obtain ⟨x, y, hR | ⟨rfl, rfl, rfl⟩, q1, q2⟩ := hs.place s hmem d hd
            · exact ⟨x, y, Or.inl hR, by rw [eA]; exact q1, by rw [eB]; exact q2⟩
            · exact absurd (lt_of_lt_of_le (hsm ▸ hin.2.1) q2) (lt_irrefl _)
    · refine hch.congr ?_
      intro i _ t hti
      by_cases hir : r.idx = i
      · subst hir
        rw [hsi] at hti
        cases hti
        have hl : r.idx < sds.length := by
          rcases List.getElem?_eq_some_iff.1 hsi with ⟨h, -⟩; exact h
        exact ⟨s', List.getElem?_set_self hl, eA, eB⟩
      · exact ⟨t, by rw [List.getElem?_set_ne hir]; exact hti, rfl, rfl⟩

theorem controlLoop_good [IsStrictOrderedRing K] {S : Set K} (hS : Separated S)
    {interp : Interp K} (hint : InterpBetween interp) {B : Control → K → Prop} (hB : EdgeRange B)
    {c : Control} {sds : List (Strip K)} (hg : Grid S sds) {a b x1 x2 h1 h2 : K} (ha0 : 0 ≤ a)
    (hb1 : b ≤ 1) (b1 : B c x1) (b2 : B c x2) (u1 : 0 ≤ h1 ∧ h1 ≤ 1) (u2 : 0 ≤ h2 ∧ h2 ≤ 1) :
    ∀ (fuel outer : ℕ) (e : K) (rows : List (Row K)) (last : Row K) (o : Strip K)
      (rows' : List (Row K)) (outer' : ℕ),
      last.idx = outer → sds[outer]? = some o → o.etaB = e → a ≤ o.etaA →
      (∀ r ∈ rows, RowOk B c r) → RowOk B c last →
      controlLoop interp sds a b x1 x2 h1 h2 fuel outer e rows last = .ok (rows', outer') →
      ∀ r ∈ rows', RowOk B c r := by
  intro fuel
  induction fuel with
  | zero =>
    intro outer e rows last o rows' outer' hl ho he hao hv v h
    unfold controlLoop at h
    split_ifs at h with hb
    · split at h
      · simp at h
      · split at h <;> simp at h
    · simp only [Except.ok.injEq, Prod.mk.injEq] at h
      obtain ⟨rfl, rfl⟩ := h
      intro r hr
      rcases List.mem_append.1 hr with hr | hr
      · exact hv r hr
      · rw [List.mem_singleton.1 hr]; exact v
  | succ n ih =>
    intro outer e rows last o rows' outer' hl ho he hao hv v h
    unfold controlLoop at h
    split_ifs at h with hb
    · have he1 : o.etaB < 1 := by rw [he]; exact lt_of_lt_of_le hb hb1
      obtain ⟨j, t, hj, ht⟩ := hg.tile.next (List.mem_of_getElem? ho) he1
      have hin := hg.tile.inside (List.mem_of_getElem? ho)
      have hn := getOuterNeighbour_eq hS hg hj
      rw [ht, he] at hn
      simp only [hn, hj, hl, ho] at h
      have hao' : a < o.etaB := lt_of_le_of_lt hao hin.2.1
      have hob : o.etaB < b := by rw [he]; exact hb
      have bm := hint.range hB ha0 hao' hob hb1 b1 b2
      have um := hint.unit ha0 hao' hob hb1 u1 u2
      refine ih j t.etaB _ _ t rows' outer' rfl hj rfl (by rw [ht]; exact hao'.le) ?_ ?_ h
      · intro r hr
        rcases List.mem_append.1 hr with hr | hr
        · exact hv r hr
        · simp only [List.mem_singleton] at hr
          subst hr
          exact ⟨⟨v.1.1, bm⟩, v.2.1, um⟩
      · exact ⟨⟨bm, b2⟩, um, u2⟩
    · simp only [Except.ok.injEq, Prod.mk.injEq] at h
      obtain ⟨rfl, rfl⟩ := h
      intro r hr
      rcases List.mem_append.1 hr with hr | hr
      · exact hv r hr
      · rw [List.mem_singleton.1 hr]; exact v

theorem controlFrom_accept [IsStrictOrderedRing K] {S : Set K} (hS : Separated S)
    {interp : Interp K} (hint : InterpBetween interp) {B : Control → K → Prop} (hB : EdgeRange B)
    {R : Control → K → K → Prop} {c : Control}
    (hc : c.deviceType = "slat" ∨ c.deviceType = "flap") {sds : List (Strip K)}
    (hg : Grid S sds) (hs0 : Sound B R sds) {a b x1 x2 h1 h2 : K}
    (hpair : ∀ d x y, R d x y → x < b → a < y → InFront B c d ∨ InFront B d c) (ha0 : 0 ≤ a)
    (hb : b ∈ S) (hab : a < b) (hb1 : b ≤ 1) (b1 : B c x1) (b2 : B c x2)
    (u1 : 0 ≤ h1 ∧ h1 ≤ 1) (u2 : 0 ≤ h2 ∧ h2 ≤ 1) {i : ℕ} {s : Strip K} (hi : sds[i]? = some s)
    (hs : s.etaA = a) :
    ∃ sds', controlFrom interp a b c x1 x2 h1 h2 i sds = (.ok (), sds') ∧
      Sound B (fun d x y => R d x y ∨ (d = c ∧ x = a ∧ y = b)) sds' := by
  have fin : ∀ (rows : List (Row K)) (pre : List ℕ) (k : ℕ) (t : Strip K),
      rows.map Row.idx = pre ++ [k] → sds[k]? = some t → t.etaA < b → b < t.etaB →
      RowChain sds t.etaA a pre → (∀ r ∈ rows, RowOk B c r) →
      ∃ sds'', (match addSubdivision interp b b false sds with
        | (.error e, sds') => ((.error e, sds') : Except PyErr Unit × List (Strip K))
        | (.ok _, sds') => addRows c rows sds') = (.ok (), sds'') ∧
        Sound B (fun d x y => R d x y ∨ (d = c ∧ x = a ∧ y = b)) sds'' := by
    intro rows pre k t hrows hk htb hbt hch hr
    obtain ⟨p, n, r, hinh, hadd⟩ := addSubdivision_split (interp := interp) hS hg hb hk htb hbt
    have hin := hs0.tile.inside (List.mem_of_getElem? hk)
    obtain ⟨o, sds', q1, q2, -⟩ := addSubdivision_accept hint hB hs0 (e := b) (d := b)
      (ign := false) (Or.inr ⟨lt_of_le_of_lt hin.1 htb, lt_of_lt_of_le hbt hin.2.2⟩)
    rw [q1]
    rw [q1] at hadd
    simp only
    refine addRows_accept hB hc hpair rows sds' a le_rfl
      (q2.mono (fun _ _ _ h => Or.inl h)) ?_ hr
    simp only [Prod.mk.injEq] at hadd
    obtain ⟨-, rfl⟩ := hadd
    obtain ⟨⟨pA, pB, -⟩, -⟩ := inheritDevices_eta hinh
    rw [hrows]
    exact hch.shorten (hch.notin hg.tile hk rfl) hk rfl pA pB n
  unfold controlFrom
  simp only [hi]
  split_ifs with c1 c2
  · refine addRows_accept hB hc hpair _ sds a le_rfl (hs0.mono (fun _ _ _ h => Or.inl h)) ?_ ?_
    · exact ⟨s, hi, hs, c1.symm⟩
    · intro r hr
      rw [List.mem_singleton.1 hr]
      exact ⟨⟨b1, b2⟩, u1, u2⟩
  · refine fin [⟨i, x1, x2, h1, h2⟩] [] i s rfl hi (by rw [hs]; exact hab) c2 hs.symm ?_
    intro r hr
    rw [List.mem_singleton.1 hr]
    exact ⟨⟨b1, b2⟩, u1, u2⟩
  · have hlt : s.etaB < b := lt_of_le_of_ne (not_lt.1 c2) (fun h => c1 h.symm)
    have hsin := hg.tile.inside (List.mem_of_getElem? hi)
    have has : a < s.etaB := hs ▸ hsin.2.1
    obtain ⟨j, t, hj, htA⟩ := hg.tile.next (List.mem_of_getElem? hi) (lt_of_lt_of_le hlt hb1)
    have hn := getOuterNeighbour_eq hS hg hj
    rw [htA] at hn
    simp only [hn, hj]
    have hin := hg.tile.inside (List.mem_of_getElem? hj)
    have bm := hint.range hB ha0 has hlt hb1 b1 b2
    have um := hint.unit ha0 has hlt hb1 u1 u2
    obtain ⟨rows', outer', o', pre, l1, l2, l3, l4, l5, l6⟩ := controlLoop_chain hS hg
      (interp := interp) (a := a) (x1 := x1) (x2 := x2) (h1 := h1) (h2 := h2) hb1 100 j t.etaB
      [{ idx := i, xsi1 := x1, xsi2 := interp (a, x1) (b, x2) s.etaB, h1 := h1,
         h2 := interp (a, h1) (b, h2) s.etaB }]
      ⟨j, interp (a, x1) (b, x2) s.etaB, x2, interp (a, h1) (b, h2) s.etaB, h2⟩ t rfl hj rfl
      (by rw [htA]; exact hlt) ⟨s, hi, hs, by simp [RowChain, htA]⟩ (by
        have : (0 : K) ≤ t.etaB := hin.1.trans hin.2.1.le
        push_cast
        linarith)
    have good := controlLoop_good hS hint hB (c := c) hg ha0 hb1 b1 b2 u1 u2 100 j t.etaB _ _ t
      rows' outer' rfl hj rfl (by rw [htA]; exact has.le) (by
        intro r hr
        rw [List.mem_singleton.1 hr]
        exact ⟨⟨b1, bm⟩, u1, um⟩) ⟨⟨bm, b2⟩, um, u2⟩ l1
    rw [l1]
    simp only [l2]
    split_ifs with c3
    · exact fin rows' pre outer' o' l3 l2 l4 c3 l6 good
    · refine addRows_accept hB hc hpair rows' sds a le_rfl
        (hs0.mono (fun _ _ _ h => Or.inl h)) ?_ good
      rw [l3]
      have := l6.append l2 rfl
      rwa [le_antisymm (not_lt.1 c3) l5] at this

theorem control_accept [IsStrictOrderedRing K] {S : Set K} (hS : Separated S)
    {interp : Interp K} (hint : InterpBetween interp) {B : Control → K → Prop} (hB : EdgeRange B)
    {R : Control → K → K → Prop} {c : Control}
    (hc : c.deviceType = "slat" ∨ c.deviceType = "flap") {sds : List (Strip K)}
    (hg : Grid S sds) (hs0 : Sound B R sds) {a b x1 x2 : K} {h1 h2 : Option K}
    (hpair : ∀ d x y, R d x y → x < b → a < y → InFront B c d ∨ InFront B d c)
    (ha : a ∈ S) (hb : b ∈ S) (ha0 : 0 ≤ a) (hab : a < b) (hb1 : b ≤ 1) (b1 : B c x1)
    (b2 : B c x2) (u1 : ∀ h, h1 = some h → 0 ≤ h ∧ h ≤ 1) (u2 : ∀ h, h2 = some h → 0 ≤ h ∧ h ≤ 1) :
    ∃ sds', addSubdivisionForControl interp a b c x1 x2 h1 h2 sds = (.ok (), sds') ∧
      Sound B (fun d x y => R d x y ∨ (d = c ∧ x = a ∧ y = b)) sds' := by
  have w1 : 0 ≤ h1.getD x1 ∧ h1.getD x1 ≤ 1 := by
    cases h1 with
    | none => exact ⟨(hB.pos b1).1.le, (hB.pos b1).2.le⟩
    | some h => exact u1 h rfl
  have w2 : 0 ≤ h2.getD x2 ∧ h2.getD x2 ≤ 1 := by
    cases h2 with
    | none => exact ⟨(hB.pos b2).1.le, (hB.pos b2).2.le⟩
    | some h => exact u2 h rfl
  unfold addSubdivisionForControl
  dsimp only
  split_ifs with h0
  · obtain ⟨s, hs, hsz⟩ := hg.zero
    exact controlFrom_accept hS hint hB hc hg hs0 hpair ha0 hb hab hb1 b1 b2 w1 w2 hs
      (by rw [hsz, h0])
  · have hpos : 0 < a := lt_of_le_of_ne ha0 (Ne.symm h0)
    obtain ⟨o, sds', q1, q2, q3⟩ := addSubdivision_accept hint hB hs0 (e := a) (d := a)
      (ign := false) (Or.inr ⟨hpos, lt_of_lt_of_le hab hb1⟩)
    obtain ⟨i, rfl⟩ := q3 rfl
    obtain ⟨hg', s, hs, hsa⟩ := addSubdivision_start hS hg ha q1
    rw [q1]
    exact controlFrom_accept hS hint hB hc hg' q2 hpair ha0 hb hab hb1 b1 b2 w1 w2 hs hsa

end Verif
