import Verif.Lemmas.Accept

/-! Helper lemmas for C91: controls over several segments are accepted. -/

set_option linter.unusedSectionVars false

namespace Verif
variable {K : Type*} [Field K] [LinearOrder K]

theorem update_accept {uid : String} {f : PSegment K → Except PyErr (List (Strip K))}
    {segs : List (PSegment K)} (hu : uid ∈ segs.map PSegment.uid)
    (hf : ∀ s ∈ segs, s.uid = uid → ∃ st, f s = .ok st) :
    ∃ segs', PSegment.update uid f segs = .ok segs' := by
  induction segs with
  | nil => simp at hu
  | cons s rest ih =>
    unfold PSegment.update
    by_cases h : s.uid = uid
    · obtain ⟨st, hst⟩ := hf s (by simp) h
      rw [if_pos h, hst]
      exact ⟨_, rfl⟩
    · simp only [List.map_cons, List.mem_cons] at hu
      obtain ⟨r', hr'⟩ := ih (hu.resolve_left (fun e => h e.symm))
        (fun s hs => hf s (List.mem_cons_of_mem _ hs))
      rw [if_neg h, hr']
      exact ⟨_, rfl⟩

theorem applyRows_accept {c : Control} {rows : List (SegRow K)} {segs : List (PSegment K)}
    (hn : (segs.map PSegment.uid).Nodup) (hr : (rows.map SegRow.uid).Nodup)
    (hu : ∀ r ∈ rows, r.uid ∈ segs.map PSegment.uid)
    (hf : ∀ r ∈ rows, ∀ s ∈ segs, s.uid = r.uid → ∃ st, addSubdivisionForControl s.interp r.etaI
      r.etaO c r.xsiI r.xsiO (some r.hI) (some r.hO) s.strips = (.ok (), st)) :
    ∃ segs', applyRows c rows segs = .ok segs' := by
  induction rows generalizing segs with
  | nil => exact ⟨segs, rfl⟩
  | cons r rest ih =>
    simp only [List.map_cons, List.nodup_cons] at hr
    obtain ⟨segs1, h1⟩ := update_accept (uid := r.uid) (f := fun s => asExcept
        (addSubdivisionForControl s.interp r.etaI r.etaO c r.xsiI r.xsiO (some r.hI) (some r.hO)
          s.strips)) (hu r (by simp)) (by
      intro s hs hsu
      obtain ⟨st, hst⟩ := hf r (by simp) s hs hsu
      exact ⟨st, by rw [hst]; rfl⟩)
    have f1 := update_spec hn h1
    have huid := forall₂_uids f1 (fun s s' h => by rw [h.1])
    unfold applyRows
    rw [h1]
    simp only
    refine ih (huid ▸ hn) hr.2 (fun r' hr' => huid ▸ hu r' (List.mem_cons_of_mem _ hr')) ?_
    intro r' hr' s1 hs1 hsu
    obtain ⟨s, hs, q1, q2, -⟩ := forall₂_mem_right f1 hs1
    have hu1 : s1.uid = s.uid := by rw [q1]
    have hi1 : s1.interp = s.interp := by rw [q1]
    rw [hi1, q2 (by
      intro e
      refine hr.1 (List.mem_map.2 ⟨r', hr', ?_⟩)
      rw [← hsu, hu1, e])]
    exact hf r' (List.mem_cons_of_mem _ hr') s hs (hu1 ▸ hsu)

theorem rowLengths_accept [IsStrictOrderedRing K] {dist : String → K → K → K → K → Option K}
    {rows : List (SegRow K)} {l : K}
    (hd : ∀ r ∈ rows, ∃ d, dist r.uid r.etaI r.xsiI r.etaO r.xsiO = some d ∧ 0 < d) :
    ∃ ls, rowLengths dist l rows = .ok ls ∧ l ≤ (ls.getLast?.map Prod.snd).getD l ∧
      ∀ p ∈ ls, l ≤ p.1 ∧ p.1 < p.2 ∧ p.2 ≤ (ls.getLast?.map Prod.snd).getD l := by
  induction rows generalizing l with
  | nil => exact ⟨[], rfl, by simp, by simp⟩
  | cons r rest ih =>
    obtain ⟨d, hd0, hpos⟩ := hd r (by simp)
    obtain ⟨ls, h1, h2, h3⟩ := ih (l := l + d) (fun r hr => hd r (List.mem_cons_of_mem _ hr))
    refine ⟨(l, l + d) :: ls, by unfold rowLengths; simp [hd0, h1], ?_⟩
    have e : (((l, l + d) :: ls).getLast?.map Prod.snd).getD l =
        (ls.getLast?.map Prod.snd).getD (l + d) := by
      cases ls with
      | nil => simp
      | cons p ls =>
        rw [List.getLast?_cons_cons]
        cases hl : (p :: ls).getLast? with
        | none => simp at hl
        | some q => simp
    rw [e]
    refine ⟨by linarith, ?_⟩
    intro p hp
    rcases List.mem_cons.1 hp with rfl | hp
    · exact ⟨le_rfl, by simpa using hpos, h2⟩
    · have := h3 p hp
      exact ⟨by linarith [this.1], this.2⟩

theorem linInterpol_between [IsStrictOrderedRing K] {y0 y1 l x : K} (h0 : 0 ≤ x) (h1 : x ≤ l)
    (hl : 0 < l) : min y0 y1 ≤ linInterpol y0 y1 l x ∧ linInterpol y0 y1 l x ≤ max y0 y1 := by
  have t0 : 0 ≤ x / l := div_nonneg h0 hl.le
  have t1 : x / l ≤ 1 := (div_le_one hl).2 h1
  unfold linInterpol
  generalize x / l = t at t0 t1
  have e : y0 + (y1 - y0) * t = (1 - t) * y0 + t * y1 := by ring
  rw [e]
  have s0 : 0 ≤ 1 - t := by linarith
  have a0 := min_le_left y0 y1
  have a1 := min_le_right y0 y1
  have b0 := le_max_left y0 y1
  have b1 := le_max_right y0 y1
  constructor
  · nlinarith [mul_le_mul_of_nonneg_left a0 s0, mul_le_mul_of_nonneg_left a1 t0]
  · nlinarith [mul_le_mul_of_nonneg_left b0 s0, mul_le_mul_of_nonneg_left b1 t0]

theorem adjustRows_accept [IsStrictOrderedRing K] {dist : String → K → K → K → K → Option K}
    {c : PControl K} {h1 h2 : K} {rows : List (SegRow K)}
    (hx : ∀ r ∈ rows, (min c.xsiInner c.xsiOuter ≤ r.xsiI ∧ r.xsiI ≤ max c.xsiInner c.xsiOuter) ∧
      (min c.xsiInner c.xsiOuter ≤ r.xsiO ∧ r.xsiO ≤ max c.xsiInner c.xsiOuter) ∧
      (min h1 h2 ≤ r.hI ∧ r.hI ≤ max h1 h2) ∧ min h1 h2 ≤ r.hO ∧ r.hO ≤ max h1 h2)
    (hd : ∀ r ∈ rows, ∃ d, dist r.uid r.etaI r.xsiI r.etaO r.xsiO = some d ∧ 0 < d) :
    ∃ rows', adjustRows dist c h1 h2 rows = .ok rows' ∧ ∀ r ∈ rows',
      (min c.xsiInner c.xsiOuter ≤ r.xsiI ∧ r.xsiI ≤ max c.xsiInner c.xsiOuter) ∧
      (min c.xsiInner c.xsiOuter ≤ r.xsiO ∧ r.xsiO ≤ max c.xsiInner c.xsiOuter) ∧
      (min h1 h2 ≤ r.hI ∧ r.hI ≤ max h1 h2) ∧ min h1 h2 ≤ r.hO ∧ r.hO ≤ max h1 h2 := by
  unfold adjustRows
  split_ifs with hne
  · obtain ⟨ls, q1, q2, q3⟩ := rowLengths_accept (l := 0) hd
    rw [q1]
    refine ⟨_, rfl, ?_⟩
    intro r hr
    obtain ⟨m, hm⟩ := List.mem_iff_getElem?.1 hr
    rw [List.getElem?_zipWith_eq_some] at hm
    obtain ⟨r0, p, -, hp, rfl⟩ := hm
    obtain ⟨p0, p1, p2⟩ := q3 p (List.mem_of_getElem? hp)
    have hl := lt_of_lt_of_le (lt_of_le_of_lt p0 p1) p2
    exact ⟨linInterpol_between p0 (p1.le.trans p2) hl, linInterpol_between (p0.trans p1.le) p2 hl,
      linInterpol_between p0 (p1.le.trans p2) hl, linInterpol_between (p0.trans p1.le) p2 hl⟩
  · exact ⟨rows, rfl, hx⟩

/-- a control whose inner and outer segments are number `i` and number `j` -/
structure OnSegs (us : List String) (c : PControl K) (i j : ℕ) : Prop where
  inner : us[i]? = some c.segInner
  outer : us[j]? = some c.segOuter
  etaI : 0 ≤ c.etaInner ∧ c.etaInner < 1
  etaO : 0 < c.etaOuter ∧ c.etaOuter ≤ 1
  order : (i : K) + c.etaInner < j + c.etaOuter

/-- control `c` is requested on the part `[a, b)` of segment `u` -/
def ReqOn (us : List String) (c : PControl K) (u : String) (a b : K) : Prop :=
  ∃ i j k, OnSegs us c i j ∧ us[k]? = some u ∧ i ≤ k ∧ k ≤ j ∧
    a = (if k = i then c.etaInner else 0) ∧ b = (if k = j then c.etaOuter else 1)

theorem OnSegs.le [IsStrictOrderedRing K] {us : List String} {c : PControl K} {i j : ℕ}
    (h : OnSegs us c i j) : i ≤ j := by
  have h1 : (i : K) < j + 1 := by linarith [h.order, h.etaI.1, h.etaO.2]
  have : i < j + 1 := by exact_mod_cast h1
  omega

theorem ReqOn.range [IsStrictOrderedRing K] {us : List String} {c : PControl K} {u : String}
    {a b : K} (h : ReqOn us c u a b) : 0 ≤ a ∧ a < b ∧ b ≤ 1 := by
  obtain ⟨i, j, k, h, -, h1, h2, rfl, rfl⟩ := h
  have e0 := h.etaI
  have e1 := h.etaO
  split_ifs with z1 z2 z2
  · have e2 := h.order
    have : i = j := by omega
    subst this
    exact ⟨e0.1, by linarith, e1.2⟩
  · exact ⟨e0.1, e0.2, le_rfl⟩
  · exact ⟨le_rfl, e1.1, e1.2⟩
  · exact ⟨le_rfl, zero_lt_one, le_rfl⟩

/-- requests that overlap on a segment belong to controls that overlap on the wing -/
theorem ReqOn.overlap [IsStrictOrderedRing K] {us : List String} (hn : us.Nodup)
    {c d : PControl K} {u : String} {a b x y : K} (hc : ReqOn us c u a b) (hd : ReqOn us d u x y)
    (h1 : x < b) (h2 : a < y) : ∃ i j i' j', OnSegs us c i j ∧ OnSegs us d i' j' ∧
      (i' : K) + d.etaInner < j + c.etaOuter ∧ (i : K) + c.etaInner < j' + d.etaOuter := by
  obtain ⟨i, j, k, h, hk, k1, k2, rfl, rfl⟩ := hc
  obtain ⟨i', j', k', h', hk', k1', k2', rfl, rfl⟩ := hd
  have hkl : k < us.length := by
    rcases List.getElem?_eq_some_iff.1 hk with ⟨h, -⟩; exact h
  have := (List.getElem?_inj hkl hn).1 (hk.trans hk'.symm)
  subst this
  refine ⟨i, j, i', j', h, h', ?_, ?_⟩
  · have e1 : (i' : K) + d.etaInner ≤ k + (if k = i' then d.etaInner else 0) := by
      split_ifs with z
      · subst z; exact le_rfl
      · have : (i' : K) + 1 ≤ k := by exact_mod_cast (by omega : i' + 1 ≤ k)
        linarith [h'.etaI.2]
    have e2 : (k : K) + (if k = j then c.etaOuter else 1) ≤ j + c.etaOuter := by
      split_ifs with z
      · subst z; exact le_rfl
      · have : (k : K) + 1 ≤ j := by exact_mod_cast (by omega : k + 1 ≤ j)
        linarith [h.etaO.1]
    linarith
  · have e1 : (i : K) + c.etaInner ≤ k + (if k = i then c.etaInner else 0) := by
      split_ifs with z
      · subst z; exact le_rfl
      · have : (i : K) + 1 ≤ k := by exact_mod_cast (by omega : i + 1 ≤ k)
        linarith [h.etaI.2]
    have e2 : (k : K) + (if k = j' then d.etaOuter else 1) ≤ j' + d.etaOuter := by
      split_ifs with z
      · subst z; exact le_rfl
      · have : (k : K) + 1 ≤ j' := by exact_mod_cast (by omega : k + 1 ≤ j')
        linarith [h'.etaO.1]
    linarith

/-- slat `c` is in front of flap `d` everywhere -/
def SlatBefore (c d : PControl K) : Prop :=
  c.deviceType = "slat" ∧ d.deviceType = "flap" ∧
    max c.xsiInner c.xsiOuter + 1/100 ≤ min d.xsiInner d.xsiOuter

/-- a layout of controls without contradictions on segments named `us` -/
structure GoodControls (us : List String) (cs : List (PControl K)) : Prop where
  uids : (cs.map PControl.uid).Nodup
  placed : ∀ c ∈ cs, ∃ i j, OnSegs us c i j
  kind : ∀ c ∈ cs, c.deviceType = "slat" ∨ c.deviceType = "flap"
  edge : ∀ c ∈ cs, (0 < c.xsiInner ∧ c.xsiInner < 1) ∧ 0 < c.xsiOuter ∧ c.xsiOuter < 1
  hinge : ∀ c ∈ cs, ∀ h, c.hInner = some h ∨ c.hOuter = some h → 0 ≤ h ∧ h ≤ 1
  hinges : ∀ c ∈ cs, c.segInner ≠ c.segOuter → c.hInner ≠ none ∧ c.hOuter ≠ none
  apart : ∀ c ∈ cs, ∀ d ∈ cs, c ≠ d → ∀ i j i' j' : ℕ, OnSegs us c i j → OnSegs us d i' j' →
    (i' : K) + d.etaInner < j + c.etaOuter → (i : K) + c.etaInner < j' + d.etaOuter →
      SlatBefore c d ∨ SlatBefore d c

/-- the admitted range of a control: between its inner and outer edge position -/
def CtrlRange (cs : List (PControl K)) (c : Control) (x : K) : Prop :=
  ∃ p ∈ cs, p.control = c ∧ min p.xsiInner p.xsiOuter ≤ x ∧ x ≤ max p.xsiInner p.xsiOuter

theorem GoodControls.unique {us : List String} {cs : List (PControl K)} (h : GoodControls us cs)
    {p q : PControl K} (hp : p ∈ cs) (hq : q ∈ cs) (e : p.control = q.control) : p = q := by
  have := congrArg Control.uid e
  obtain ⟨n, hn⟩ := List.mem_iff_getElem?.1 hp
  obtain ⟨m, hm⟩ := List.mem_iff_getElem?.1 hq
  have hl : n < (cs.map PControl.uid).length := by
    rcases List.getElem?_eq_some_iff.1 hn with ⟨h, -⟩; simpa using h
  have := (List.getElem?_inj hl h.uids (j := m)).1 (by
    rw [List.getElem?_map, List.getElem?_map, hn, hm]
    exact congrArg some this)
  subst this
  rw [hn, Option.some.injEq] at hm
  exact hm

theorem GoodControls.range [IsStrictOrderedRing K] {us : List String} {cs : List (PControl K)}
    (h : GoodControls us cs) : EdgeRange (CtrlRange cs) where
  pos := by
    rintro c x ⟨p, hp, -, h1, h2⟩
    obtain ⟨⟨a, b⟩, e, f⟩ := h.edge p hp
    exact ⟨lt_of_lt_of_le (lt_min a e) h1, lt_of_le_of_lt h2 (max_lt b f)⟩
  mid := by
    rintro c x y z ⟨p, hp, rfl, h1, h2⟩ ⟨q, hq, e, h3, h4⟩ z1 z2
    have := h.unique hq hp e
    subst this
    exact ⟨q, hq, rfl, (le_min h1 h3).trans z1, z2.trans (max_le h2 h4)⟩

theorem SlatBefore.inFront [IsStrictOrderedRing K] {us : List String} {cs : List (PControl K)}
    (h : GoodControls us cs) {c d : PControl K} (hc : c ∈ cs) (hd : d ∈ cs) (hb : SlatBefore c d) :
    InFront (CtrlRange cs) c.control d.control := by
  refine ⟨hb.1, hb.2.1, ?_⟩
  rintro x y ⟨p, hp, e1, -, h1⟩ ⟨q, hq, e2, h2, -⟩
  have := h.unique hp hc e1
  subst this
  have := h.unique hq hd e2
  subst this
  have := hb.2.2
  linarith

/-- the invariant: only controls of `done` are present, in their ranges -/
def SegSound (S : String → Set K) (us : List String) (cs done : List (PControl K))
    (s : PSegment K) : Prop :=
  Grid (S s.uid) s.strips ∧
    Sound (CtrlRange cs) (fun d a b => ∃ p ∈ done, p.control = d ∧ ReqOn us p s.uid a b) s.strips

/-- requests for one control that are admitted -/
structure GoodReqs (us : List String) (cs : List (PControl K)) (c : PControl K)
    (reqs : List (Req K)) : Prop where
  on : ∀ r ∈ reqs, ReqOn us c r.uid r.a r.b
  edge : ∀ r ∈ reqs, CtrlRange cs c.control r.x1 ∧ CtrlRange cs c.control r.x2
  hinge : ∀ r ∈ reqs, ∀ h, r.g1 = some h ∨ r.g2 = some h → 0 ≤ h ∧ h ≤ 1

theorem ReqOn.lines {us : List String} {cs : List (PControl K)} {S : String → Set K}
    (hS : LinesApart cs S) {c : PControl K} (hc : c ∈ cs) {u : String} {a b : K}
    (h : ReqOn us c u a b) : a ∈ S u ∧ b ∈ S u := by
  obtain ⟨i, j, k, h, hk, -, -, rfl, rfl⟩ := h
  constructor
  · split_ifs with z
    · subst z
      rw [h.inner, Option.some.injEq] at hk
      exact hk ▸ hS.inner c hc
    · exact hS.zero u
  · split_ifs with z
    · subst z
      rw [h.outer, Option.some.injEq] at hk
      exact hk ▸ hS.outer c hc
    · exact hS.one u

/-- an admitted request succeeds -/
theorem GoodReqs.call [IsStrictOrderedRing K] {us : List String} (hus : us.Nodup)
    {cs done : List (PControl K)} {S : String → Set K} (hS : LinesApart cs S)
    (hg : GoodControls us cs) (hdone : ∀ d ∈ done, d ∈ cs) {c : PControl K} (hc : c ∈ cs)
    (hcd : c ∉ done) {reqs : List (Req K)} (hr : GoodReqs us cs c reqs) {s : PSegment K}
    (hb : InterpBetween s.interp) (hs : SegSound S us cs done s) {r : Req K} (hm : r ∈ reqs)
    (hu : r.uid = s.uid) :
    ∃ st, addSubdivisionForControl s.interp r.a r.b c.control r.x1 r.x2 r.g1 r.g2 s.strips =
      (.ok (), st) ∧ Sound (CtrlRange cs)
        (fun d a b => ∃ p ∈ c :: done, p.control = d ∧ ReqOn us p s.uid a b) st := by
  have hon := hu ▸ hr.on r hm
  have hl := hon.lines hS hc
  have hrg := hon.range
  obtain ⟨st, h1, h2⟩ := control_accept (hS.sep s.uid) hb hg.range (hg.kind c hc) hs.1 hs.2
    (a := r.a) (b := r.b) (x1 := r.x1) (x2 := r.x2) (h1 := r.g1) (h2 := r.g2) (by
      rintro d x y ⟨p, hp, rfl, hx⟩ q1 q2
      obtain ⟨i, j, i', j', o1, o2, o3, o4⟩ := hon.overlap hus hx q1 q2
      rcases hg.apart c hc p (hdone p hp) (by rintro rfl; exact hcd hp) i j i' j' o1 o2 o3 o4
        with h | h
      · exact Or.inl (h.inFront hg hc (hdone p hp))
      · exact Or.inr (h.inFront hg (hdone p hp) hc))
    hl.1 hl.2 hrg.1 hrg.2.1 hrg.2.2 (hr.edge r hm).1 (hr.edge r hm).2
    (fun h e => hr.hinge r hm h (Or.inl e)) (fun h e => hr.hinge r hm h (Or.inr e))
  refine ⟨st, h1, h2.mono ?_⟩
  rintro d a b (⟨p, hp, q⟩ | ⟨rfl, rfl, rfl⟩)
  · exact ⟨p, List.mem_cons_of_mem _ hp, q⟩
  · exact ⟨c, by simp, rfl, hon⟩

theorem ReqStep.sound [IsStrictOrderedRing K] {us : List String} (hus : us.Nodup)
    {cs done : List (PControl K)} {S : String → Set K} (hS : LinesApart cs S)
    (hg : GoodControls us cs) (hdone : ∀ d ∈ done, d ∈ cs) {c : PControl K} (hc : c ∈ cs)
    (hcd : c ∉ done) {reqs : List (Req K)} (hr : GoodReqs us cs c reqs) {s s' : PSegment K}
    (hb : InterpBetween s.interp) (hs : SegSound S us cs done s)
    (h : ReqStep c.control reqs s s') : SegSound S us cs (c :: done) s' := by
  have hl := h.grid (S := S) (fun r hm => (hr.on r hm).lines hS hc)
    ⟨hs.1, fun t ht => (hs.2.fits t ht).chord⟩
  refine ⟨hl.1, ?_⟩
  have hu : s'.uid = s.uid := by rw [h.rest]
  rw [hu]
  by_cases hin : ∃ r ∈ reqs, r.uid = s.uid
  · obtain ⟨r, hm, hru⟩ := hin
    obtain ⟨st, q1, q2⟩ := hr.call hus hS hg hdone hc hcd hb hs hm hru
    have := h.hit r hm hru
    rw [q1] at this
    simp only [Prod.mk.injEq, true_and] at this
    rw [← this]
    exact q2
  · push Not at hin
    rw [h.out hin]
    refine hs.2.mono ?_
    rintro d a b ⟨p, hp, q⟩
    exact ⟨p, List.mem_cons_of_mem _ hp, q⟩

theorem placeControl_accept [IsStrictOrderedRing K] {us : List String} (hus : us.Nodup)
    {cs done : List (PControl K)} {S : String → Set K} (hS : LinesApart cs S)
    (hg : GoodControls us cs) (hdone : ∀ d ∈ done, d ∈ cs) {c : PControl K} (hc : c ∈ cs)
    (hcd : c ∉ done) {segs : List (PSegment K)} (hu : segs.map PSegment.uid = us)
    (hb : ∀ s ∈ segs, InterpBetween s.interp ∧ DistPos s)
    (hs : ∀ s ∈ segs, SegSound S us cs done s) :
    ∃ segs', placeControl c segs = .ok segs' ∧
      List.Forall₂ (fun s s' => s' = { s with strips := s'.strips } ∧
        SegSound S us cs (c :: done) s') segs segs' := by
  have hn : (segs.map PSegment.uid).Nodup := hu ▸ hus
  obtain ⟨i, j, hij⟩ := hg.placed c hc
  have hed := hg.edge c hc
  have rng : ∀ x, min c.xsiInner c.xsiOuter ≤ x → x ≤ max c.xsiInner c.xsiOuter →
      CtrlRange cs c.control x := fun x h1 h2 => ⟨c, hc, rfl, h1, h2⟩
  -- the two ways to give the requests
  have fin : ∀ (reqs : List (Req K)) (segs' : List (PSegment K)), GoodReqs us cs c reqs →
      List.Forall₂ (ReqStep c.control reqs) segs segs' →
      List.Forall₂ (fun s s' => s' = { s with strips := s'.strips } ∧
        SegSound S us cs (c :: done) s') segs segs' := by
    intro reqs segs' hr hf
    refine (forall₂_and_right hf (P := fun s => s ∈ segs) (fun s h => h)).imp ?_
    rintro s s' ⟨hst, hsm⟩
    exact ⟨hst.rest, hst.sound hus hS hg hdone hc hcd hr (hb s hsm).1 (hs s hsm)⟩
  unfold placeControl
  split_ifs with hse
  · have hji : j = i := by
      have hil : i < us.length := by
        rcases List.getElem?_eq_some_iff.1 hij.inner with ⟨h, -⟩; exact h
      exact ((List.getElem?_inj hil hus).1 (hij.inner.trans (hse ▸ hij.outer.symm))).symm
    have hr : GoodReqs us cs c [⟨c.segInner, c.etaInner, c.etaOuter, c.xsiInner, c.xsiOuter,
        c.hInner, c.hOuter⟩] := by
      refine ⟨?_, ?_, ?_⟩ <;> intro r hr <;> rw [List.mem_singleton.1 hr]
      · exact ⟨i, j, i, hij, hij.inner, le_rfl, hji.ge, by simp, by simp [hji]⟩
      · exact ⟨rng _ (min_le_left _ _) (le_max_left _ _), rng _ (min_le_right _ _)
          (le_max_right _ _)⟩
      · exact hg.hinge c hc
    obtain ⟨segs', h'⟩ := update_accept (uid := c.segInner) (segs := segs) (f := fun s => asExcept
      (addSubdivisionForControl s.interp c.etaInner c.etaOuter c.control c.xsiInner c.xsiOuter
        c.hInner c.hOuter s.strips)) (by rw [hu]; exact List.mem_of_getElem? hij.inner) (by
        intro s hsm hsu
        obtain ⟨st, q1, -⟩ := hr.call hus hS hg hdone hc hcd (hb s hsm).1 (hs s hsm)
          (List.mem_singleton.2 rfl) hsu.symm
        simp only at q1
        exact ⟨st, by rw [q1]; rfl⟩)
    refine ⟨segs', h', fin _ _ hr ((update_spec hn h').imp ?_)⟩
    rintro s s' ⟨q1, q2, q3⟩
    refine ⟨q1, ?_, ?_⟩
    · intro ho
      exact q2 (fun e => ho _ (List.mem_singleton.2 rfl) e.symm)
    · intro r hr hu
      rw [List.mem_singleton.1 hr] at hu ⊢
      exact asExcept_ok (q3 hu.symm)
  · obtain ⟨n1, n2⟩ := hg.hinges c hc hse
    obtain ⟨h1, e1⟩ := Option.ne_none_iff_exists'.1 n1
    obtain ⟨h2, e2⟩ := Option.ne_none_iff_exists'.1 n2
    have u1 := hg.hinge c hc h1 (Or.inl e1)
    have u2 := hg.hinge c hc h2 (Or.inr e2)
    rw [e1, e2]
    simp only
    have hlt : i < j := by
      refine lt_of_le_of_ne hij.le ?_
      rintro rfl
      have := hij.inner.symm.trans hij.outer
      simp only [Option.some.injEq] at this
      exact hse this
    obtain ⟨c1, c2⟩ := collectRows_false (h1 := h1) (h2 := h2)
      (xa := (c.xsiInner + c.xsiOuter) / 2) (ha := (h1 + h2) / 2) hus hij.inner hij.outer hlt
    rw [hu]
    generalize hrows : collectRows c h1 h2 ((c.xsiInner + c.xsiOuter) / 2) ((h1 + h2) / 2) false us
      = rows at c1 c2 ⊢
    have mid : ∀ x y : K, min x y ≤ (x + y) / 2 ∧ (x + y) / 2 ≤ max x y := by
      intro x y
      have a0 := min_le_left x y
      have a1 := min_le_right x y
      have b0 := le_max_left x y
      have b1 := le_max_right x y
      constructor <;> linarith
    have hvals : ∀ r ∈ rows, (min c.xsiInner c.xsiOuter ≤ r.xsiI ∧
        r.xsiI ≤ max c.xsiInner c.xsiOuter) ∧
        (min c.xsiInner c.xsiOuter ≤ r.xsiO ∧ r.xsiO ≤ max c.xsiInner c.xsiOuter) ∧
        (min h1 h2 ≤ r.hI ∧ r.hI ≤ max h1 h2) ∧ min h1 h2 ≤ r.hO ∧ r.hO ≤ max h1 h2 := by
      intro r hr
      obtain ⟨-, -, r1, r2, r3, r4⟩ := collectRows_lines (hrows ▸ hr)
      refine ⟨?_, ?_, ?_, ?_⟩
      · rcases r1 with r1 | r1 <;> rw [r1]
        · exact ⟨min_le_left _ _, le_max_left _ _⟩
        · exact mid _ _
      · rcases r2 with r2 | r2 <;> rw [r2]
        · exact ⟨min_le_right _ _, le_max_right _ _⟩
        · exact mid _ _
      · rcases r3 with r3 | r3 <;> rw [r3]
        · exact ⟨min_le_left _ _, le_max_left _ _⟩
        · exact mid _ _
      · rcases r4 with r4 | r4 <;> rw [r4]
        · exact ⟨min_le_right _ _, le_max_right _ _⟩
        · exact mid _ _
    have hon : ∀ r ∈ rows, ReqOn us c r.uid r.etaI r.etaO := by
      intro r hr
      obtain ⟨m, hm⟩ := List.mem_iff_getElem?.1 hr
      obtain ⟨t1, t2, t3⟩ := c2 m r hm
      have hml : m < rows.length := by
        rcases List.getElem?_eq_some_iff.1 hm with ⟨h, -⟩; exact h
      refine ⟨i, j, i + m, hij, t1, by omega, by omega, ?_, ?_⟩
      · rw [t2]; congr 1; simp
      · rw [t3]; congr 1; simp only [eq_iff_iff]; omega
    have hx01 : ∀ x, min c.xsiInner c.xsiOuter ≤ x → x ≤ max c.xsiInner c.xsiOuter →
        0 ≤ x ∧ x ≤ 1 := fun x h1 h2 =>
      ⟨(le_min hed.1.1.le hed.2.1.le).trans h1, h2.trans (max_le hed.1.2.le hed.2.2.le)⟩
    obtain ⟨rows', ha, hv'⟩ := adjustRows_accept (dist := segDist segs) (c := c) hvals (by
      intro r hr
      have hr0 := (hon r hr).range
      obtain ⟨_, _, _, _, hk, _⟩ := hon r hr
      have hmem : r.uid ∈ segs.map PSegment.uid := hu ▸ List.mem_of_getElem? hk
      have hfind : (segs.find? (fun s => s.uid = r.uid)).isSome := by
        rw [List.find?_isSome]
        obtain ⟨s, hs, e⟩ := List.mem_map.1 hmem
        exact ⟨s, hs, by simpa using e⟩
      obtain ⟨s, hs⟩ := Option.isSome_iff_exists.1 hfind
      obtain ⟨v1, v2, -⟩ := hvals r hr
      refine ⟨_, by unfold segDist; rw [hs]; rfl, ?_⟩
      have w1 := hx01 _ v1.1 v1.2
      have w2 := hx01 _ v2.1 v2.2
      exact (hb s (List.mem_of_find?_eq_some hs)).2 _ _ _ _ hr0.1 hr0.2.1 hr0.2.2 w1.1 w1.2 w2.1 w2.2)
    have heq : c.xsiInner = c.xsiOuter → h1 = h2 → ∀ r ∈ rows, r.xsiI = c.xsiInner ∧
        r.xsiO = c.xsiOuter ∧ r.hI = h1 ∧ r.hO = h2 := by
      intro q1 q2 r hr
      obtain ⟨v1, v2, v3, v4⟩ := hvals r hr
      rw [← q1, min_self, max_self] at v1 v2
      rw [← q2, min_self, max_self] at v3 v4
      exact ⟨le_antisymm v1.2 v1.1, q1 ▸ le_antisymm v2.2 v2.1, le_antisymm v3.2 v3.1,
        q2 ▸ le_antisymm v4.2 v4.1⟩
    have s1 := (adjustRows_spec heq ha).1
    have hget : ∀ r ∈ rows', ∃ r0 ∈ rows, r.uid = r0.uid ∧ r.etaI = r0.etaI ∧ r.etaO = r0.etaO := by
      intro r hr
      have : (r.uid, r.etaI, r.etaO) ∈ rows.map (fun r => (r.uid, r.etaI, r.etaO)) := by
        rw [← s1]
        exact List.mem_map.2 ⟨r, hr, rfl⟩
      obtain ⟨r0, hr0, e⟩ := List.mem_map.1 this
      simp only [Prod.mk.injEq] at e
      exact ⟨r0, hr0, e.1.symm, e.2.1.symm, e.2.2.symm⟩
    have huids : rows'.map SegRow.uid = rows.map SegRow.uid := by
      have := congrArg (List.map Prod.fst) s1
      simpa [List.map_map, Function.comp_def] using this
    have hnd : (rows'.map SegRow.uid).Nodup := by
      rw [huids, ← hrows]
      exact hus.sublist collectRows_uids
    have hr : GoodReqs us cs c (rows'.map SegRow.req) := by
      refine ⟨?_, ?_, ?_⟩ <;> intro q hq <;> obtain ⟨r, hr, rfl⟩ := List.mem_map.1 hq
      · obtain ⟨r0, hr0, g1, g2, g3⟩ := hget r hr
        simp only [SegRow.req, g1, g2, g3]
        exact hon r0 hr0
      · obtain ⟨v1, v2, -⟩ := hv' r hr
        exact ⟨rng _ v1.1 v1.2, rng _ v2.1 v2.2⟩
      · obtain ⟨-, -, v3, v4⟩ := hv' r hr
        intro h hh
        simp only [SegRow.req, Option.some.injEq] at hh
        have l0 := le_min u1.1 u2.1
        have l1 := max_le u1.2 u2.2
        rcases hh with rfl | rfl
        · exact ⟨l0.trans v3.1, v3.2.trans l1⟩
        · exact ⟨l0.trans v4.1, v4.2.trans l1⟩
    rw [ha]
    simp only
    obtain ⟨segs', h'⟩ := applyRows_accept (c := c.control) hn hnd (by
      intro r hr
      obtain ⟨r0, hr0, g1, -⟩ := hget r hr
      obtain ⟨_, _, _, _, hk, _⟩ := hon r0 hr0
      rw [g1, hu]
      exact List.mem_of_getElem? hk) (by
      intro r hr0 s hsm hsu
      obtain ⟨st, q1, -⟩ := hr.call hus hS hg hdone hc hcd (hb s hsm).1 (hs s hsm)
        (List.mem_map.2 ⟨r, hr0, rfl⟩) hsu.symm
      exact ⟨st, q1⟩)
    exact ⟨segs', h', fin _ _ hr (applyRows_reqs hn hnd h')⟩

theorem placeControls_accept [IsStrictOrderedRing K] {us : List String} (hus : us.Nodup)
    {cs : List (PControl K)} {S : String → Set K} (hS : LinesApart cs S)
    (hg : GoodControls us cs) :
    ∀ (todo done : List (PControl K)) (segs : List (PSegment K)), (∀ d ∈ todo, d ∈ cs) →
      (∀ d ∈ done, d ∈ cs) → todo.Nodup → (∀ d ∈ todo, d ∉ done) →
      segs.map PSegment.uid = us → (∀ s ∈ segs, InterpBetween s.interp ∧ DistPos s) →
      (∀ s ∈ segs, SegSound S us cs done s) →
      ∃ segs' done', placeControls todo segs = .ok segs' ∧
        List.Forall₂ (fun s s' => s' = { s with strips := s'.strips } ∧
          SegSound S us cs done' s') segs segs' := by
  intro todo
  induction todo with
  | nil =>
    intro done segs _ _ _ _ _ _ hs
    exact ⟨segs, done, rfl, List.forall₂_same.2 fun s h => ⟨rfl, hs s h⟩⟩
  | cons c rest ih =>
    intro done segs ht hd hnd hdis hu hb hs
    simp only [List.nodup_cons] at hnd
    obtain ⟨segs1, h1, f1⟩ := placeControl_accept hus hS hg hd (ht c (by simp)) (hdis c (by simp))
      hu hb hs
    have hu1 := forall₂_uids f1 (fun s s' h => by rw [h.1])
    obtain ⟨segs', done', h2, f2⟩ := ih (c :: done) segs1 (fun d h => ht d (List.mem_cons_of_mem _ h))
      (by
        intro d h
        rcases List.mem_cons.1 h with rfl | h
        · exact ht _ (by simp)
        · exact hd d h) hnd.2 (by
        intro d h h'
        rcases List.mem_cons.1 h' with rfl | h'
        · exact hnd.1 h
        · exact hdis d (List.mem_cons_of_mem _ h) h')
      (hu1.trans hu) (by
        intro s1 hs1
        obtain ⟨s, hs, q, -⟩ := forall₂_mem_right f1 hs1
        have e1 : s1.interp = s.interp := by rw [q]
        have e2 : s1.dist = s.dist := by rw [q]
        unfold DistPos
        rw [e1, e2]
        exact hb s hs) (by
        intro s1 hs1
        obtain ⟨s, hs, -, q⟩ := forall₂_mem_right f1 hs1
        exact q)
    refine ⟨segs', done', ?_, ?_⟩
    · unfold placeControls
      rw [h1]
      exact h2
    · refine forall₂_comp ?_ f1 f2
      rintro a b e ⟨r1, -⟩ ⟨r2, q⟩
      exact ⟨by rw [r2, r1], q⟩

theorem addLines_accept [IsStrictOrderedRing K] {interp : Interp K} (hint : InterpBetween interp)
    {B : Control → K → Prop} (hB : EdgeRange B) {R : Control → K → K → Prop} :
    ∀ (ls : List K) (sds : List (Strip K)), Sound B R sds → ∃ sds', addLines interp ls sds = .ok sds' := by
  intro ls
  induction ls with
  | nil => intro sds _; exact ⟨sds, rfl⟩
  | cons e rest ih =>
    intro sds hs
    obtain ⟨o, sds', h1, h2, -⟩ := addSubdivision_accept hint hB hs (e := e) (d := e) (ign := true)
      (Or.inl rfl)
    unfold addLines
    rw [h1]
    exact ih sds' h2

end Verif
