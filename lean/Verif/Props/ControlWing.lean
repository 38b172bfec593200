import Verif.Lemmas.WingControls
import Verif.Props.Control
import Verif.Props.PrePanel
import Verif.Props.Geometry

/-!
# Properties C88–C90: control surfaces on whole wings

Spanwise positions on a wing are measured by *segment number plus relative coordinate on the
segment*: the point at relative coordinate `x` of segment `k` (counted from 0) is at `k + x`.
-/

set_option linter.unusedSectionVars false

namespace Verif

section general
variable {K : Type*} [Field K] [LinearOrder K] [IsStrictOrderedRing K]

/-- The setting of C88–C90: a wing `w` of an aircraft as loaded, the same wing `w'` after
`pre_panelling`, and a control `c` of it whose inner and outer segment are the segments number
`i` and `j`. -/
structure OnWing (ac ac' : PAircraft K) (w w' : PWing K) (c : PControl K) (i j : ℕ) : Prop where
  loaded : ac.Unpanelled
  done : prePanelling ac = .ok ac'
  wing : ∃ n : ℕ, ac.wings[n]? = some w ∧ ac'.wings[n]? = some w'
  segs : (w.segments.map PSegment.uid).Nodup
  ctrls : (w.controls.map PControl.uid).Nodup
  mem : c ∈ w.controls
  inner : (w.segments.map PSegment.uid)[i]? = some c.segInner
  outer : (w.segments.map PSegment.uid)[j]? = some c.segOuter
  etaI : 0 ≤ c.etaInner ∧ c.etaInner < 1
  etaO : 0 < c.etaOuter ∧ c.etaOuter ≤ 1
  order : (i : K) + c.etaInner < j + c.etaOuter

/-- On every segment the requested borders of all controls of the wing, together with the two
ends of the segment, are equal or at least 0.01 apart. -/
def BordersApart (w : PWing K) : Prop :=
  ∀ u : String, ∀ x ∈ ({0, 1} ∪ {e | ∃ c ∈ w.controls, c.segInner = u ∧ e = c.etaInner} ∪
      {e | ∃ c ∈ w.controls, c.segOuter = u ∧ e = c.etaOuter} : Set K),
    ∀ y ∈ ({0, 1} ∪ {e | ∃ c ∈ w.controls, c.segInner = u ∧ e = c.etaInner} ∪
      {e | ∃ c ∈ w.controls, c.segOuter = u ∧ e = c.etaOuter} : Set K), x < y → 1/100 ≤ y - x

theorem BordersApart.lines {w : PWing K} (h : BordersApart w) : LinesApart w.controls fun u =>
    ({0, 1} ∪ {e | ∃ c ∈ w.controls, c.segInner = u ∧ e = c.etaInner} ∪
      {e | ∃ c ∈ w.controls, c.segOuter = u ∧ e = c.etaOuter} : Set K) :=
  ⟨h, fun _ => by simp, fun _ => by simp, fun c hc => Or.inl (Or.inr ⟨c, hc, rfl, rfl⟩),
    fun c hc => Or.inr ⟨c, hc, rfl, rfl⟩⟩

theorem OnWing.placed {ac ac' : PAircraft K} {w w' : PWing K} {c : PControl K} {i j : ℕ}
    (h : OnWing ac ac' w w' c i j) (hb : BordersApart w) :
    i ≤ j ∧ ∃ reqs : List (Req K), List.Forall₂ (SegPlaced c reqs) w.segments w'.segments ∧
      ReqSpec c w.segments i j reqs := by
  have hij : i ≤ j := by
    have h1 : (i : K) < j + 1 := by linarith [h.order, h.etaI.1, h.etaO.2]
    have : i < j + 1 := by exact_mod_cast h1
    omega
  refine ⟨hij, ?_⟩
  have hd := h.done
  obtain ⟨n, hn, hn'⟩ := h.wing
  unfold prePanelling at hd
  split at hd
  · simp at hd
  · rename_i ws e1
    split at hd
    · simp at hd
    · rename_i ws' e2
      simp only [Except.ok.injEq] at hd
      subst hd
      simp only at hn'
      have f1 := mapE_ok e1
      have f2 := mapE_ok e2
      obtain ⟨w1, hw1⟩ : ∃ w1, ws[n]? = some w1 := by
        have hl : n < ac.wings.length := by
          rcases List.getElem?_eq_some_iff.1 hn with ⟨h, -⟩; exact h
        rw [f1.length_eq] at hl
        exact ⟨_, List.getElem?_eq_getElem hl⟩
      have getF : ∀ {R : PWing K → PWing K → Prop} {l l' : List (PWing K)},
          List.Forall₂ R l l' → ∀ {m : ℕ} {a b : PWing K}, l[m]? = some a → l'[m]? = some b →
            R a b := by
        intro R l l' hf
        induction hf with
        | nil => intro m a b ha; simp at ha
        | cons hr _ ih =>
          intro m a b ha hb
          cases m with
          | zero => simp at ha hb; rw [← ha, ← hb]; exact hr
          | succ m => simp at ha hb; exact ih ha hb
      have g1 := getF f1 hn hw1
      have g2 := getF f2 hw1 hn'
      unfold PWing.mapSegments at g1 g2
      split at g1
      · simp at g1
      · rename_i segs1 q1
        simp only [Except.ok.injEq] at g1
        subst g1
        split at g2
        · simp at g2
        · rename_i segs2 q2
          simp only [Except.ok.injEq] at g2
          subst g2
          simp only at q2 ⊢
          have hcn : (w.controls.map PControl.control).Nodup := by
            refine List.Nodup.of_map Control.uid ?_
            rw [List.map_map]
            exact h.ctrls
          obtain ⟨reqs, r1, r2⟩ := placeControls_placed hb.lines (c := c) (fun d hd => hd) hcn h.mem
            h.segs (by
              intro s hs
              rw [h.loaded w (List.mem_of_getElem? hn) s hs]
              refine ⟨⟨grid_init (by simp) (by simp), chordInv_init⟩, ?_⟩
              simp [initStrips, Strip.init, Strip.carries]) q1
          refine ⟨reqs, ?_, r2 i j h.inner h.outer hij⟩
          refine forall₂_comp (R := SegPlaced c reqs) (Q := SegStep fun d => d ≠ c.control)
            (T := SegPlaced c reqs) (fun a b => a.step b) r1 ?_
          exact (mapE_ok q2).imp fun s s' hs => addSpanLines_step hs

/-- the request for segment `k` -/
theorem OnWing.request {ac ac' : PAircraft K} {w w' : PWing K} {c : PControl K} {i j : ℕ}
    (h : OnWing ac ac' w w' c i j) {reqs : List (Req K)} (hij : i ≤ j)
    (hr : ReqSpec c w.segments i j reqs) {k : ℕ} {s : PSegment K} (hk : w.segments[k]? = some s) :
    ((k < i ∨ j < k) ∧ ∀ r ∈ reqs, r.uid ≠ s.uid) ∨
    (i ≤ k ∧ k ≤ j ∧ ∃ r, reqs[k - i]? = some r ∧ r.uid = s.uid ∧ 0 ≤ r.a ∧ r.a < r.b ∧ r.b ≤ 1) := by
  have hku : (w.segments.map PSegment.uid)[k]? = some s.uid := by simp [hk]
  have hkl : k < (w.segments.map PSegment.uid).length := by
    rcases List.getElem?_eq_some_iff.1 hku with ⟨h, -⟩; exact h
  by_cases hin : i ≤ k ∧ k ≤ j
  · right
    have hlt : k - i < reqs.length := by rw [hr.len]; omega
    refine ⟨hin.1, hin.2, reqs[k - i], List.getElem?_eq_getElem hlt, ?_⟩
    obtain ⟨q1, q2, q3⟩ := hr.here _ _ (List.getElem?_eq_getElem hlt)
    rw [show i + (k - i) = k by omega, hku, Option.some.injEq] at q1
    refine ⟨q1.symm, ?_⟩
    rw [q2, q3]
    have h0 := h.etaI
    have h1 := h.etaO
    split_ifs with z1 z2 z2
    · have : i = j := by omega
      subst this
      have := h.order
      exact ⟨h0.1, by linarith, h1.2⟩
    · exact ⟨h0.1, h0.2, le_rfl⟩
    · exact ⟨le_rfl, h1.1, h1.2⟩
    · exact ⟨le_rfl, zero_lt_one, le_rfl⟩
  · left
    refine ⟨by omega, ?_⟩
    intro r hrm hu
    obtain ⟨m, hm⟩ := List.mem_iff_getElem?.1 hrm
    obtain ⟨q1, -⟩ := hr.here m r hm
    have hml : m < reqs.length := by
      rcases List.getElem?_eq_some_iff.1 hm with ⟨h, -⟩; exact h
    rw [hr.len] at hml
    rw [hu] at q1
    have := (List.getElem?_inj hkl h.segs).1 (hku.trans q1.symm)
    omega

theorem forall₂_get {α β : Type*} {R : α → β → Prop} {l : List α} {l' : List β}
    (hf : List.Forall₂ R l l') {m : ℕ} {b : β} (hb : l'[m]? = some b) :
    ∃ a, l[m]? = some a ∧ R a b := by
  induction hf generalizing m with
  | nil => simp at hb
  | cons hr _ ih =>
    cases m with
    | zero => simp at hb; exact ⟨_, by simp, hb ▸ hr⟩
    | succ m => simp at hb; obtain ⟨a, ha, h⟩ := ih hb; exact ⟨a, by simpa using ha, h⟩

/-! ## C88 -/

/-- **C88** (partial).  After pre-panelling, a control surface is present at a spanwise position of
its wing exactly if the position lies between its requested inner and outer border, whether the
control lies on one segment or reaches over several.  Missing: borders on a segment that are closer
than 0.01 to each other (see C07, where the claim is false), and controls that name segments in the
wrong order or segments that do not exist, for which the claim is false (below). -/
theorem C88_control_on_wing_partial (ac ac' : PAircraft K) (w w' : PWing K) (c : PControl K)
    (i j : ℕ) (h : OnWing ac ac' w w' c i j) (hb : BordersApart w) (k : ℕ) (s' : PSegment K)
    (hk : w'.segments[k]? = some s') :
    ∀ t ∈ s'.strips, ∀ x, t.etaA ≤ x → x < t.etaB →
      (t.carries c.control ↔
        (i : K) + c.etaInner ≤ k + x ∧ (k : K) + x < j + c.etaOuter) := by
  intro t ht x hx1 hx2
  obtain ⟨hij, reqs, hf, hr⟩ := h.placed hb
  obtain ⟨s, hs, hp⟩ := forall₂_get hf hk
  have hin := hp.tile.inside ht
  have hx0 : 0 ≤ x := hin.1.trans hx1
  have hx3 : x < 1 := lt_of_lt_of_le hx2 hin.2.2
  rcases h.request hij hr hs with ⟨hout, hne⟩ | ⟨h1, h2, r, hm, hu, a0, ab, b1⟩
  · refine iff_of_false (hp.out hne t ht) ?_
    rintro ⟨q1, q2⟩
    rcases hout with hout | hout
    · have : (k : K) + 1 ≤ i := by exact_mod_cast hout
      linarith [h.etaI.1]
    · have : (j : K) + 1 ≤ k := by exact_mod_cast hout
      linarith [h.etaO.2]
  · have hpl := hp.hit r (List.mem_of_getElem? hm) hu a0 ab b1 (fun _ _ => True) (fun _ _ => True)
      (fun _ _ _ _ _ _ _ _ _ _ _ _ _ _ _ => trivial)
      (fun _ _ _ _ _ _ _ _ _ _ _ _ _ _ _ => trivial) trivial trivial trivial trivial
    rw [hpl.cov t ht x hx1 hx2]
    obtain ⟨-, qa, qb⟩ := hr.here _ _ hm
    rw [qa, qb]
    refine and_congr ?_ ?_
    · split_ifs with z
      · have : k = i := by omega
        subst this
        simp
      · have : (i : K) + 1 ≤ k := by exact_mod_cast (by omega : i + 1 ≤ k)
        exact iff_of_true hx0 (by linarith [h.etaI.2])
    · split_ifs with z
      · have : k = j := by omega
        subst this
        simp
      · have : (k : K) + 1 ≤ j := by exact_mod_cast (by omega : k + 1 ≤ j)
        exact iff_of_true hx3 (by linarith [h.etaO.1])

/-! ## C89 -/

/-- **C89** (partial).  Devices have no steps: where two strips of the wing with the same control
surface meet -- on a segment or at a border of two segments -- the edge of the device and its hinge
line have the same relative chord positions on both sides.  At the inner end of the control the
positions are the requested inner ones, and at the outer end the requested outer ones (the latter
if points at different spanwise coordinates of a segment have a positive distance).  Missing: as
for C88. -/
theorem C89_no_steps_partial (ac ac' : PAircraft K) (w w' : PWing K) (c : PControl K)
    (i j : ℕ) (h : OnWing ac ac' w w' c i j) (hb : BordersApart w) (k : ℕ) (s' : PSegment K)
    (hk : w'.segments[k]? = some s') (t : Strip K) (ht : t ∈ s'.strips) (y1 y2 g1 g2 : K)
    (he : t.EdgeAt c.control y1 y2 g1 g2) :
    (∀ (k₂ : ℕ) (s₂ : PSegment K), w'.segments[k₂]? = some s₂ → ∀ t₂ ∈ s₂.strips,
      ∀ z1 z2 m1 m2, t₂.EdgeAt c.control z1 z2 m1 m2 → (k : K) + t.etaB = k₂ + t₂.etaA →
        y2 = z1 ∧ g2 = m1) ∧
    ((k : K) + t.etaA = i + c.etaInner → y1 = c.xsiInner ∧ g1 = c.hInner.getD c.xsiInner) ∧
    ((∀ s ∈ w.segments, ∀ e1 x1 e2 x2, 0 ≤ e1 → e1 < e2 → e2 ≤ 1 → 0 ≤ x1 → x1 ≤ 1 → 0 ≤ x2 →
        x2 ≤ 1 → 0 < s.dist e1 x1 e2 x2) →
      0 ≤ c.xsiInner ∧ c.xsiInner ≤ 1 → 0 ≤ c.xsiOuter ∧ c.xsiOuter ≤ 1 →
      (k : K) + t.etaB = j + c.etaOuter → y2 = c.xsiOuter ∧ g2 = c.hOuter.getD c.xsiOuter) := by
  obtain ⟨hij, reqs, hf, hr⟩ := h.placed hb
  -- the functions `E`, `H` of a segment with the control
  have key : ∀ (k : ℕ) (s' : PSegment K), w'.segments[k]? = some s' → ∀ t ∈ s'.strips,
      t.carries c.control → i ≤ k ∧ k ≤ j ∧ ∃ r, reqs[k - i]? = some r ∧ TileInv s'.strips ∧
        t.etaB ≤ 1 ∧ 0 ≤ t.etaA ∧ t.etaA < t.etaB ∧
        ∃ E H : K → K, E r.a = r.x1 ∧ E r.b = r.x2 ∧ H r.a = r.g1.getD r.x1 ∧
          H r.b = r.g2.getD r.x2 ∧ EdgeFun c.control E H s'.strips := by
    intro k s' hk t ht hc
    obtain ⟨s, hs, hp⟩ := forall₂_get hf hk
    have hin := hp.tile.inside ht
    rcases h.request hij hr hs with ⟨-, hne⟩ | ⟨h1, h2, r, hm, hu, a0, ab, b1⟩
    · exact absurd hc (hp.out hne t ht)
    · have hpl := hp.hit r (List.mem_of_getElem? hm) hu a0 ab b1 (fun _ _ => True)
        (fun _ _ => True) (fun _ _ _ _ _ _ _ _ _ _ _ _ _ _ _ => trivial)
        (fun _ _ _ _ _ _ _ _ _ _ _ _ _ _ _ => trivial) trivial trivial trivial trivial
      exact ⟨h1, h2, r, hm, hp.tile, hin.2.2, hin.1, hin.2.1, hpl.edge⟩
  have hcar : t.carries c.control := (Strip.carries_iff_edge _ _).2 ⟨_, _, _, _, he⟩
  obtain ⟨h1, h2, r, hm, -, tB, tA, tAB, E, H, Ea, Eb, Ha, Hb, hE⟩ := key k s' hk t ht hcar
  obtain ⟨v1, v2, v3, v4⟩ := hE t ht _ _ _ _ he
  obtain ⟨-, qa, qb⟩ := hr.here _ _ hm
  refine ⟨?_, ?_, ?_⟩
  · intro k₂ s₂ hk₂ t₂ ht₂ z1 z2 m1 m2 he₂ hpos
    have hcar₂ : t₂.carries c.control := (Strip.carries_iff_edge _ _).2 ⟨_, _, _, _, he₂⟩
    obtain ⟨n1, n2, r₂, hm₂, -, uB, uA, uAB, E₂, H₂, Ea₂, Eb₂, Ha₂, Hb₂, hE₂⟩ :=
      key k₂ s₂ hk₂ t₂ ht₂ hcar₂
    obtain ⟨w1, w2, w3, w4⟩ := hE₂ t₂ ht₂ _ _ _ _ he₂
    have hlt1 : (k₂ : K) < k + 2 := by linarith
    have hlt2 : (k : K) < k₂ + 1 := by linarith
    have hlt1' : k₂ < k + 2 := by exact_mod_cast hlt1
    have hlt2' : k < k₂ + 1 := by exact_mod_cast hlt2
    rcases (by omega : k₂ = k ∨ k₂ = k + 1) with hkk | hkk
    · subst hkk
      rw [hk] at hk₂
      cases hk₂
      obtain ⟨w1, -, w3, -⟩ := hE t₂ ht₂ _ _ _ _ he₂
      have : t.etaB = t₂.etaA := by linarith
      rw [v2, w1, v4, w3, this]
      exact ⟨rfl, rfl⟩
    · subst hkk
      push_cast at hpos
      have hB : t.etaB = 1 := by linarith
      have hA : t₂.etaA = 0 := by linarith
      rw [if_neg (by omega)] at qb
      obtain ⟨-, qa₂, -⟩ := hr.here _ _ hm₂
      rw [if_neg (by omega)] at qa₂
      have hm₂' : reqs[k - i + 1]? = some r₂ := by
        rw [show k - i + 1 = k + 1 - i by omega]
        exact hm₂
      obtain ⟨c1, c2⟩ := hr.next _ _ _ hm hm₂'
      rw [v2, v4, w1, w3, hB, hA, ← qb, ← qa₂, Eb, Hb, Ea₂, Ha₂]
      exact ⟨c1, c2⟩
  · intro hpos
    have hk0 : k = i := by
      have e1 : (k : K) < i + 1 := by linarith [h.etaI.2]
      have : k < i + 1 := by exact_mod_cast e1
      omega
    subst hk0
    have hA : t.etaA = c.etaInner := by linarith
    rw [Nat.sub_self, if_pos rfl] at qa
    rw [Nat.sub_self] at hm
    obtain ⟨f1, f2⟩ := hr.first r hm
    rw [v1, v3, hA, ← qa, Ea, Ha]
    exact ⟨f1, f2⟩
  · intro hd hxI hxO hpos
    have hk0 : k = j := by
      have e1 : (j : K) < k + 1 := by linarith [h.etaO.1]
      have : j < k + 1 := by exact_mod_cast e1
      omega
    subst hk0
    have hB : t.etaB = c.etaOuter := by linarith
    rw [if_pos rfl] at qb
    obtain ⟨f1, f2⟩ := hr.last hd h.etaI h.etaO hxI hxO r hm
    rw [v2, v4, hB, ← qb, Eb, Hb]
    exact ⟨f1, f2⟩

end general

/-! ## C90 -/

/-- The point `r` lies on the straight line from `p` to `q`. -/
def OnLine (p q r : V3 ℝ) : Prop := ∃ τ : ℝ, 0 ≤ τ ∧ τ ≤ 1 ∧ r = p + τ • (q - p)

open V3 in
theorem OnLine.between {p q a b r : V3 ℝ} (ha : OnLine p q a) (hb : OnLine p q b)
    (hr : OnLine a b r) : OnLine p q r := by
  obtain ⟨α, a0, a1, rfl⟩ := ha
  obtain ⟨β, b0, b1, rfl⟩ := hb
  obtain ⟨τ, t0, t1, rfl⟩ := hr
  refine ⟨α + τ * (β - α), ?_, ?_, ?_⟩
  · have : α + τ * (β - α) = (1 - τ) * α + τ * β := by ring
    rw [this]
    have : 0 ≤ 1 - τ := by linarith
    positivity
  · have : α + τ * (β - α) = (1 - τ) * α + τ * β := by ring
    rw [this]
    nlinarith
  · ext <;> vsimp <;> ring

theorem onLine_closed (v : Corners (V3 ℝ)) (hv : ConvexOutline v) (hp : Planar v) (p q : V3 ℝ) :
    InterpClosed (xsiInterpol v) (fun e x => OnLine p q (segPoint v e x)) := by
  intro e1 x1 e2 x2 e h1 h2 h3 h4 a0 a1 b0 b1 l1 l2
  obtain ⟨⟨τ, t0, t1, ht⟩, -⟩ := C08_between v hv hp e1 x1 e2 x2 e ⟨a0, a1⟩ ⟨b0, b1⟩ h1 h4
    (h2.trans h3) h2.le h3.le
  exact l1.between l2 ⟨τ, t0, t1, ht⟩

/-- **C90** (partial).  On a planar convex segment all corners of the panels along the edge of a
device lie on the straight line between the inner corner of its innermost strip and the outer corner
of its outermost strip on that segment, and the same holds for the hinge line -- however often the
device is divided spanwise by other controls and by panel lines.  Missing: as for C88; twisted
segments (where an edge of constant kind is not straight). -/
theorem C90_straight_edges_partial (ac ac' : PAircraft ℝ) (w w' : PWing ℝ) (c : PControl ℝ)
    (i j : ℕ) (h : OnWing ac ac' w w' c i j) (hb : BordersApart w) (s' : PSegment ℝ)
    (hs' : s' ∈ w'.segments) (v : Corners (V3 ℝ)) (hv : ConvexOutline v) (hp : Planar v)
    (hi : s'.interp = xsiInterpol v) (t tI tO : Strip ℝ) (ht : t ∈ s'.strips)
    (htI : tI ∈ s'.strips) (htO : tO ∈ s'.strips)
    (hI : ∀ u ∈ s'.strips, u.carries c.control → tI.etaA ≤ u.etaA)
    (hO : ∀ u ∈ s'.strips, u.carries c.control → u.etaB ≤ tO.etaB)
    (y1 y2 g1 g2 yI gI yO gO yI' gI' yO' gO' : ℝ)
    (he : t.EdgeAt c.control y1 y2 g1 g2)
    (heI : tI.EdgeAt c.control yI yI' gI gI') (heO : tO.EdgeAt c.control yO' yO gO' gO) :
    OnLine (segPoint v tI.etaA yI) (segPoint v tO.etaB yO) (segPoint v t.etaA y1) ∧
    OnLine (segPoint v tI.etaA yI) (segPoint v tO.etaB yO) (segPoint v t.etaB y2) ∧
    OnLine (segPoint v tI.etaA gI) (segPoint v tO.etaB gO) (segPoint v t.etaA g1) ∧
    OnLine (segPoint v tI.etaA gI) (segPoint v tO.etaB gO) (segPoint v t.etaB g2) := by
  obtain ⟨hij, reqs, hf, hr⟩ := h.placed hb
  obtain ⟨k, hk⟩ := List.mem_iff_getElem?.1 hs'
  obtain ⟨s, hs, hpl⟩ := forall₂_get hf hk
  have hcar : ∀ {u : Strip ℝ} {a b e f : ℝ}, u.EdgeAt c.control a b e f → u.carries c.control :=
    fun he => (Strip.carries_iff_edge _ _).2 ⟨_, _, _, _, he⟩
  have his : s.interp = xsiInterpol v := by
    rw [← hi, hpl.rest]
  rcases h.request hij hr hs with ⟨-, hne⟩ | ⟨h1, h2, r, hm, hu, a0, ab, b1⟩
  · exact absurd (hcar he) (hpl.out hne t ht)
  · have hit := fun L LH hL hLH => hpl.hit r (List.mem_of_getElem? hm) hu a0 ab b1 L LH hL hLH
    rw [his] at hit
    have hl := hit _ _
      (onLine_closed v hv hp (segPoint v r.a r.x1) (segPoint v r.b r.x2))
      (onLine_closed v hv hp (segPoint v r.a (r.g1.getD r.x1)) (segPoint v r.b (r.g2.getD r.x2)))
    have pA : ∀ p q : V3 ℝ, OnLine p q p := fun p q => ⟨0, le_rfl, zero_le_one, by
      ext <;> simp⟩
    have pB : ∀ p q : V3 ℝ, OnLine p q q := fun p q => ⟨1, zero_le_one, le_rfl, by
      ext <;> simp⟩
    replace hl := hl (pA _ _) (pB _ _) (pA _ _) (pB _ _)
    obtain ⟨f, hfm, hfc, hfA⟩ := hl.cov.first hl.tile a0 ab b1
    obtain ⟨o, hom, hoc, hoB⟩ := hl.cov.last hl.tile a0 ab b1
    have hIa : tI.etaA = r.a := by
      refine le_antisymm (hfA ▸ hI f hfm hfc) ?_
      have := hl.tile.inside htI
      exact ((hl.cov tI htI tI.etaA le_rfl this.2.1).1 (hcar heI)).1
    have hOb : tO.etaB = r.b := by
      refine le_antisymm ?_ (hoB ▸ hO o hom hoc)
      have hin := hl.tile.inside htO
      by_contra hlt
      have hlt := not_le.1 hlt
      have := (hl.cov tO htO (max tO.etaA r.b) (le_max_left _ _) (max_lt hin.2.1 hlt)).1 (hcar heO)
      exact absurd this.2 (not_lt.2 (le_max_right _ _))
    obtain ⟨E, H, Ea, Eb, Ha, Hb, hE⟩ := hl.edge
    obtain ⟨v1, -, v3, -⟩ := hE tI htI _ _ _ _ heI
    obtain ⟨-, w2, -, w4⟩ := hE tO htO _ _ _ _ heO
    rw [hIa, hOb, v1, v3, w2, w4, hIa, hOb, Ea, Eb, Ha, Hb]
    exact hl.line t ht _ _ _ _ he

/-! ## Witnesses -/

/-- Spanwise ranges of the strips of the segments and chord positions of the flap edges. -/
def flapView (w : PWing ℚ) : List (List ((ℚ × ℚ) × Option (ℚ × ℚ))) :=
  w.segments.map fun s => s.strips.map fun t => (t.range, t.flap.map fun f => (f.xsiA, f.xsiB))

/-- The hypotheses of C88 and C89 hold for the flap of the demo aircraft, which reaches from the
middle of the first segment over the border to the second one and is divided by panel lines and by
the border of a slat. -/
example : ∃ (ac' : PAircraft ℚ) (w w' : PWing ℚ) (c : PControl ℚ),
    OnWing demoAircraft ac' w w' c 0 1 ∧ BordersApart w ∧ c.uid = "F" ∧
    (∀ s ∈ w.segments, ∀ e1 x1 e2 x2 : ℚ, 0 ≤ e1 → e1 < e2 → e2 ≤ 1 → 0 ≤ x1 → x1 ≤ 1 → 0 ≤ x2 →
      x2 ≤ 1 → 0 < s.dist e1 x1 e2 x2) ∧
    (0 ≤ c.xsiInner ∧ c.xsiInner ≤ 1) ∧ (0 ≤ c.xsiOuter ∧ c.xsiOuter ≤ 1) ∧
    flapView w' =
      [[((0, 1/5), none), ((1/2, 3/4), some (7/10, 159/220)), ((1/5, 1/4), none),
        ((4/5, 1), some (8/11, 41/55)), ((1/4, 1/2), none),
        ((3/4, 4/5), some (159/220, 8/11))],
       [((0, 1/6), some (41/55, 169/220)), ((2/5, 1/2), none), ((1/6, 1/3), some (169/220, 87/110)),
        ((1/3, 2/5), some (87/110, 4/5)), ((1/2, 2/3), none), ((2/3, 5/6), none),
        ((5/6, 1), none)]] := by
  set_option synthInstance.maxSize 1000 in
  have hok : (prePanelling demoAircraft).toOption.map (fun ac' => ac'.wings.map flapView)
      = some [[[((0, 1/5), none), ((1/2, 3/4), some (7/10, 159/220)), ((1/5, 1/4), none),
        ((4/5, 1), some (8/11, 41/55)), ((1/4, 1/2), none),
        ((3/4, 4/5), some (159/220, 8/11))],
       [((0, 1/6), some (41/55, 169/220)), ((2/5, 1/2), none), ((1/6, 1/3), some (169/220, 87/110)),
        ((1/3, 2/5), some (87/110, 4/5)), ((1/2, 2/3), none), ((2/3, 5/6), none),
        ((5/6, 1), none)]]] := by decide +kernel
  cases h : prePanelling demoAircraft with
  | error e => rw [h] at hok; simp [Except.toOption] at hok
  | ok ac' =>
    rw [h] at hok
    simp only [Except.toOption, Option.map_some, Option.some.injEq] at hok
    obtain ⟨ws⟩ := ac'
    rcases ws with - | ⟨w', - | ⟨w₂, ws⟩⟩
    · simp at hok
    · simp only [List.map_cons, List.map_nil, List.cons.injEq, and_true] at hok
      refine ⟨⟨[w']⟩, _, w', _, ⟨?_, h, ⟨0, rfl, rfl⟩, by decide +kernel, by decide +kernel,
        List.mem_cons_self, by decide +kernel, by decide +kernel, by decide +kernel,
        by decide +kernel, by decide +kernel⟩, ?_, rfl, ?_, by norm_num, by norm_num, hok⟩
      · intro w hw s hs
        simp only [demoAircraft, demoWing, List.mem_singleton] at hw
        subst hw
        simp only [List.map_cons, List.map_nil, List.mem_cons, List.not_mem_nil, or_false] at hs
        rcases hs with rfl | rfl <;> rfl
      · intro u x hx y hy hxy
        simp only [demoWing, List.mem_cons, List.not_mem_nil, or_false, exists_eq_or_imp,
          exists_eq_left, Set.mem_union, Set.mem_insert_iff, Set.mem_singleton_iff,
          Set.mem_ofPred_eq] at hx hy
        rcases hx with ((rfl | rfl) | ⟨-, rfl⟩ | ⟨-, rfl⟩) | ⟨-, rfl⟩ | ⟨-, rfl⟩ <;>
        rcases hy with ((rfl | rfl) | ⟨-, rfl⟩ | ⟨-, rfl⟩) | ⟨-, rfl⟩ | ⟨-, rfl⟩ <;>
        first | (norm_num at hxy; done) | norm_num
      · intro s hs e1 x1 e2 x2 _ he _ _ _ _ _
        simp only [demoWing, List.map_cons, List.map_nil, List.mem_cons, List.not_mem_nil,
          or_false] at hs
        rcases hs with rfl | rfl <;> simp <;> linarith
    · simp at hok

/-- The claim that is missing in C88: `pre_panelling` accepts a control only if its two segments
exist and its inner border is inboard of its outer border. -/
def OnlyOrderedControls (K : Type) [Field K] [LinearOrder K] [IsStrictOrderedRing K] : Prop :=
  ∀ ac ac' : PAircraft K, ac.Unpanelled → prePanelling ac = .ok ac' → ∀ w ∈ ac.wings,
    ∀ c ∈ w.controls, ∃ i j : ℕ, (w.segments.map PSegment.uid)[i]? = some c.segInner ∧
      (w.segments.map PSegment.uid)[j]? = some c.segOuter ∧
      (i : K) + c.etaInner < j + c.etaOuter

/-- The demo aircraft with one flap from `(si, ei)` to `(so, eo)`. -/
def flapFromTo (si so : String) (ei eo : ℚ) : PAircraft ℚ :=
  ⟨demoAircraft.wings.map fun w => { w with
    controls := [⟨"F", "flap", si, so, ei, eo, 7/10, 4/5, some (7/10), some (4/5), none⟩] }⟩

/-- **C88** is *false* for controls whose segments are named in the wrong order or do not exist.
The flap from the middle of the segment `S2` to the middle of `S1` is accepted, as is a flap whose
outer or inner segment does not exist ... -/
theorem C88_wrong_segments_false : ¬ OnlyOrderedControls ℚ := by
  intro h
  have hok : (prePanelling (flapFromTo "S2" "S1" (1/2) (1/2))).isOk = true := by decide +kernel
  cases hp : prePanelling (flapFromTo "S2" "S1" (1/2) (1/2)) with
  | error e => rw [hp] at hok; simp [Except.isOk, Except.toBool] at hok
  | ok ac' =>
    obtain ⟨i, j, h1, h2, h3⟩ := h _ ac' (by
      intro w hw s hs
      simp only [flapFromTo, demoAircraft, demoWing, List.map_cons, List.map_nil,
        List.mem_singleton] at hw
      subst hw
      simp only [List.mem_cons, List.not_mem_nil, or_false] at hs
      rcases hs with rfl | rfl <;> rfl) hp _ List.mem_cons_self _ List.mem_cons_self
    simp only [demoWing, List.map_cons, List.map_nil] at h1 h2 h3
    match i, j, h1, h2 with
    | 1, 0, _, _ => norm_num at h3
    | 0, _, h1, _ => simp at h1
    | _ + 2, _, h1, _ => simp at h1
    | 1, 1, _, h2 => simp at h2
    | 1, _ + 2, _, h2 => simp at h2

/-- ... The first two run from the inner border to the wing tip, the last one is left out:
spanwise ranges of the strips with a flap. -/
example :
    ([flapFromTo "S2" "S1" (1/2) (1/2), flapFromTo "S2" "X" (1/2) (1/2),
      flapFromTo "X" "S2" (1/2) (1/2)].map fun ac =>
        (prePanelling ac).toOption.map fun ac' => ac'.wings.map fun w' => w'.segments.map fun s =>
          (s.strips.filter fun t => t.flap.isSome).map Strip.range) =
      [some [[[], [(1/2, 2/3), (2/3, 5/6), (5/6, 1)]]],
       some [[[], [(1/2, 2/3), (2/3, 5/6), (5/6, 1)]]], some [[[], []]]] := by decide +kernel

section general
variable {K : Type*} [Field K] [LinearOrder K] [IsStrictOrderedRing K]

/-- In general: a control with hinge positions whose inner segment does not exist (and is not also
its outer segment) is silently left out. -/
theorem C88_unknown_inner_ignored (c : PControl K) (cs : List (PControl K))
    (segs : List (PSegment K)) (hne : c.segInner ≠ c.segOuter)
    (hu : ∀ s ∈ segs, s.uid ≠ c.segInner) (h1 h2 : K) (e1 : c.hInner = some h1)
    (e2 : c.hOuter = some h2) : placeControls (c :: cs) segs = placeControls cs segs := by
  have hc : ∀ us : List String, (∀ u ∈ us, u ≠ c.segInner) → ∀ a b,
      collectRows c h1 h2 a b false us = [] := by
    intro us
    induction us with
    | nil => intros; rfl
    | cons u us ih =>
      intro hu a b
      rw [collectRows, if_neg (hu u (by simp))]
      simpa using ih (fun v hv => hu v (by simp [hv])) a b
  have : placeControl c segs = .ok segs := by
    unfold placeControl
    rw [if_neg hne, e1, e2]
    simp only []
    rw [hc _ (by simpa using hu)]
    unfold adjustRows
    split_ifs <;> simp [rowLengths, applyRows]
  simp [placeControls, this]

end general

/-- The claim of C88 without the condition on borders that are close to each other: the strips with
a control lie between its two requested borders. -/
def ControlsInRange (K : Type) [Field K] [LinearOrder K] [IsStrictOrderedRing K] : Prop :=
  ∀ (ac ac' : PAircraft K) (w w' : PWing K) (c : PControl K) (i j : ℕ), OnWing ac ac' w w' c i j →
    ∀ (k : ℕ) (s' : PSegment K), w'.segments[k]? = some s' → ∀ t ∈ s'.strips,
      t.carries c.control → (i : K) + c.etaInner ≤ k + t.etaA ∧ (k : K) + t.etaB ≤ j + c.etaOuter

/-- The claim of C89 without that condition, for rectangular segments (where positions along a
straight edge are interpolated linearly): where the outer border of a control lies on one of its
strips, the edge of the device is at the requested outer position there. -/
def EndsAsRequested : Prop :=
  ∀ (ac ac' : PAircraft ℚ) (w w' : PWing ℚ) (c : PControl ℚ) (i j : ℕ), OnWing ac ac' w w' c i j →
    (∀ s ∈ w.segments, s.interp = linInterp) →
    ∀ s' : PSegment ℚ, w'.segments[j]? = some s' → ∀ t ∈ s'.strips,
      ∀ y1 y2 g1 g2, t.EdgeAt c.control y1 y2 g1 g2 → t.etaA < c.etaOuter → c.etaOuter ≤ t.etaB →
        linInterp (t.etaA, y1) (t.etaB, y2) c.etaOuter = c.xsiOuter

/-- The claim of C90 without that condition, for rectangular segments: the edges of a device on two
strips next to each other are parts of the same straight line. -/
def EdgesStraight : Prop :=
  ∀ (ac ac' : PAircraft ℚ) (w w' : PWing ℚ) (c : PControl ℚ) (i j : ℕ), OnWing ac ac' w w' c i j →
    (∀ s ∈ w.segments, s.interp = linInterp) →
    ∀ s' ∈ w'.segments, ∀ t ∈ s'.strips, ∀ u ∈ s'.strips,
      t.etaB = u.etaA → ∀ y1 y2 g1 g2 z1 z2 m1 m2, t.EdgeAt c.control y1 y2 g1 g2 →
        u.EdgeAt c.control z1 z2 m1 m2 →
          (y2 - y1) * (u.etaB - u.etaA) = (z2 - z1) * (t.etaB - t.etaA)

/-- A rectangular segment with a slat up to its middle and a flap from 0.1 to 0.505, whose edge runs
from 70 to 80 % of the chord. -/
def longFlap : PAircraft ℚ :=
  ⟨[{ uid := "W", symmetry := 0
      segments := [⟨"S", 4, some 1, some 5, linInterp, fun a _ b _ => 4 * (b - a), initStrips⟩]
      controls := [⟨"L", "slat", "S", "S", 0, 1/2, 1/5, 1/5, none, none, none⟩,
        ⟨"F", "flap", "S", "S", 1/10, 505/1000, 7/10, 4/5, none, none, none⟩] }]⟩

/-- What becomes of it: the outer border of the flap is left out because it is close to that of the
slat, and the flap reaches to the wing tip. -/
theorem longFlap_strips : ∃ (ac' : PAircraft ℚ) (w w' : PWing ℚ) (c : PControl ℚ)
    (s' : PSegment ℚ) (t u : Strip ℚ), OnWing longFlap ac' w w' c 0 0 ∧
    (∀ s ∈ w.segments, s.interp = linInterp) ∧ w'.segments[0]? = some s' ∧
    t ∈ s'.strips ∧ u ∈ s'.strips ∧ t.range = (1/10, 1/2) ∧ u.range = (1/2, 1) ∧
    c.etaOuter = 505/1000 ∧ c.xsiOuter = 4/5 ∧
    t.EdgeAt c.control (7/10) (647/810) (7/10) (647/810) ∧
    u.EdgeAt c.control (647/810) (4/5) (647/810) (4/5) := by
  let f : Control := ⟨"F", "flap"⟩
  have hok : (prePanelling longFlap).toOption.map (fun ac' => ac'.wings.map fun w => w.segments.map
      fun s => s.strips.drop 1) = some [[[
        ⟨1/2, 1, 1, 1/2, ⟨0, 0, 4/5, 647/810⟩, none,
          some ⟨⟨647/810, 4/5, 1, 1⟩, 647/810, 4/5, f⟩, ["flap"]⟩,
        ⟨1/10, 1/2, 1/2, 1/10, ⟨1/5, 1/5, 647/810, 7/10⟩,
          some ⟨⟨0, 0, 1/5, 1/5⟩, 1/5, 1/5, ⟨"L", "slat"⟩⟩,
          some ⟨⟨7/10, 647/810, 1, 1⟩, 7/10, 647/810, f⟩, ["slat", "flap"]⟩]]] := by
    decide +kernel
  cases h : prePanelling longFlap with
  | error e => rw [h] at hok; simp [Except.toOption] at hok
  | ok ac' =>
    rw [h] at hok
    simp only [Except.toOption, Option.map_some, Option.some.injEq] at hok
    obtain ⟨ws⟩ := ac'
    rcases ws with - | ⟨w', - | ⟨w₂, ws⟩⟩
    · simp at hok
    · simp only [List.map_cons, List.map_nil, List.cons.injEq, and_true] at hok
      rcases hs : w'.segments with - | ⟨s', - | ⟨s₂, ss⟩⟩
      · simp [hs] at hok
      · simp only [hs, List.map_cons, List.map_nil, List.cons.injEq, and_true] at hok
        refine ⟨⟨[w']⟩, _, w', _, s', _, _, ⟨?_, h, ⟨0, rfl, rfl⟩, by decide +kernel,
          by decide +kernel, List.mem_cons_of_mem _ List.mem_cons_self, by decide +kernel,
          by decide +kernel, by decide +kernel, by decide +kernel, by decide +kernel⟩, ?_, by simp [hs],
          List.mem_of_mem_drop (i := 1) (by rw [hok]; exact List.mem_cons_of_mem _ List.mem_cons_self),
          List.mem_of_mem_drop (i := 1) (by rw [hok]; exact List.mem_cons_self), rfl, rfl, rfl, rfl,
          Or.inr ⟨_, rfl, rfl, rfl, rfl, rfl, rfl⟩, Or.inr ⟨_, rfl, rfl, rfl, rfl, rfl, rfl⟩⟩
        · intro w hw s hs
          simp only [longFlap, List.mem_singleton] at hw
          subst hw
          simp only [List.mem_singleton] at hs
          subst hs
          rfl
        · intro s hs
          simp only [List.mem_singleton] at hs
          subst hs
          rfl
      · simp [hs] at hok
    · simp at hok

/-- **C88** is *false* for borders closer than 0.01 to each other: the flap that was placed between
0.1 and 0.505 covers the wing up to its tip. -/
theorem C88_close_borders_false : ¬ ControlsInRange ℚ := by
  intro h
  obtain ⟨ac', w, w', c, s', t, u, ho, -, hs, ht, hu, rt, ru, e1, e2, et, eu⟩ := longFlap_strips
  have := (h _ _ _ _ _ _ _ ho 0 s' hs u hu ((Strip.carries_iff_edge _ _).2 ⟨_, _, _, _, eu⟩)).2
  rw [e1, (Prod.mk.inj ru).2] at this
  norm_num at this

/-- **C89** is *false* for borders closer than 0.01 to each other: at the requested outer border of
that flap its edge is not at the requested position. -/
theorem C89_close_borders_false : ¬ EndsAsRequested := by
  intro h
  obtain ⟨ac', w, w', c, s', t, u, ho, hi, hs, ht, hu, rt, ru, e1, e2, et, eu⟩ := longFlap_strips
  obtain ⟨r1, r2⟩ := Prod.mk.inj ru
  have := h _ _ _ _ _ _ _ ho hi s' hs u hu _ _ _ _ eu (by rw [r1, e1]; norm_num)
    (by rw [r2, e1]; norm_num)
  rw [r1, r2, e1, e2] at this
  norm_num [linInterp] at this

/-- **C90** is *false* for borders closer than 0.01 to each other: the edge of that flap has a bend
at the border of the slat. -/
theorem C90_close_borders_false : ¬ EdgesStraight := by
  intro h
  obtain ⟨ac', w, w', c, s', t, u, ho, hi, hs, ht, hu, rt, ru, e1, e2, et, eu⟩ := longFlap_strips
  obtain ⟨r1, r2⟩ := Prod.mk.inj ru
  obtain ⟨q1, q2⟩ := Prod.mk.inj rt
  have := h _ _ _ _ _ _ _ ho hi s' (List.mem_of_getElem? hs) t ht u hu (by rw [q2, r1])
    _ _ _ _ _ _ _ _ et eu
  rw [r1, r2, q1, q2] at this
  norm_num at this

/-- A planar wing with one tapered segment and one flap along the whole segment, whose edge runs
from 70 to 80 % of the chord; the segment is divided in the middle. -/
noncomputable def straightWing : PWing ℝ :=
  { uid := "W", symmetry := 0
    segments := [⟨"S", 4, some 2, some 5, xsiInterpol taperedSeg,
      fun e1 x1 e2 x2 => (segPoint taperedSeg e1 x1 - segPoint taperedSeg e2 x2).norm, initStrips⟩]
    controls := [⟨"F", "flap", "S", "S", 0, 1, 7/10, 4/5, none, none, none⟩] }

/-- The hypotheses of C90 hold for it: the flap has two parts, and the theorem says that the
corners at the panel line are on the straight line between the requested end points. -/
example : ∃ (ac' : PAircraft ℝ) (w' : PWing ℝ) (c : PControl ℝ) (s' : PSegment ℝ)
    (t₁ t₂ : Strip ℝ) (y : ℝ), OnWing ⟨[straightWing]⟩ ac' straightWing w' c 0 0 ∧
    BordersApart straightWing ∧ s' ∈ w'.segments ∧ ConvexOutline taperedSeg ∧ Planar taperedSeg ∧
    s'.interp = xsiInterpol taperedSeg ∧ s'.strips = [t₁, t₂] ∧ t₁.etaB = 1/2 ∧ t₂.etaA = 1/2 ∧
    t₁.EdgeAt c.control (7/10) y (7/10) y ∧ t₂.EdgeAt c.control y (4/5) y (4/5) := by
  have hv : ConvexOutline taperedSeg := by
    refine ⟨?_, ?_, ?_, ?_⟩ <;> simp only [taperedSeg] <;> vsimp <;> norm_num
  have hp : Planar taperedSeg := by simp only [taperedSeg, Planar]; vsimp; norm_num
  obtain ⟨-, y1, y2, -⟩ := C08_between taperedSeg hv hp 0 (7/10) 1 (4/5) (1/2) (by norm_num)
    (by norm_num) (by norm_num) (by norm_num) (by norm_num) (by norm_num) (by norm_num)
  generalize hy : xsiInterpol taperedSeg (0, 7/10) (1, 4/5) (1/2) = y at y1 y2
  have z1 : 0 < y := lt_of_lt_of_le (by norm_num) y1
  have z2 : y < 1 := lt_of_le_of_lt y2 (by norm_num)
  let c : PControl ℝ := ⟨"F", "flap", "S", "S", 0, 1, 7/10, 4/5, none, none, none⟩
  let t₁ : Strip ℝ := ⟨0, 1/2, 1/2, 0, ⟨0, 0, y, 7/10⟩, none,
    some ⟨⟨7/10, y, 1, 1⟩, 7/10, y, c.control⟩, ["flap"]⟩
  let t₂ : Strip ℝ := ⟨1/2, 1, 1, 1/2, ⟨0, 0, 4/5, y⟩, none,
    some ⟨⟨y, 4/5, 1, 1⟩, y, 4/5, c.control⟩, ["flap"]⟩
  let s : PSegment ℝ := ⟨"S", 4, some 2, some 5, xsiInterpol taperedSeg,
      fun e1 x1 e2 x2 => (segPoint taperedSeg e1 x1 - segPoint taperedSeg e2 x2).norm, initStrips⟩
  have hok : prePanelling ⟨[straightWing]⟩ =
      .ok ⟨[{ straightWing with segments := [{ s with strips := [t₁, t₂] }] }]⟩ := by
    have hf : ∀ (st : Strip ℝ) (x1 x2 h1 h2 : ℝ), st.slat = none → st.flap = none → 0 < x1 → x1 < 1 →
        0 < x2 → x2 < 1 → 0 < h1 → h1 < 1 → 0 < h2 → h2 < 1 →
        st.addSubarea c.control x1 x2 (some h1) (some h2) = .ok { st with
          flap := some ⟨⟨x1, x2, 1, 1⟩, h1, h2, c.control⟩
          main := { st.main with xsiC := x2, xsiD := x1 }
          keys := st.keys ++ ["flap"] } := by
      intro st x1 x2 h1 h2 e1 e2 a1 a2 a3 a4 a5 a6 a7 a8
      unfold Strip.addSubarea
      rw [if_neg (by simp [c, PControl.control]), if_neg (by simp [Strip.hasDevice, e1, e2])]
      simp only [Option.getD_some]
      rw [if_neg (by push Not; exact ⟨⟨a3, a4⟩, a1, a2⟩),
        if_neg (by push Not; exact ⟨⟨a5.le, a6.le⟩, a7.le, a8.le⟩),
        if_neg (by simp [Strip.overlaps, e1, e2]), if_neg (by decide)]
      rfl
    have h1 : placeControls [c] [s] = .ok [{ s with strips :=
        [⟨0, 1, 1, 0, ⟨0, 0, 4/5, 7/10⟩, none, some ⟨⟨7/10, 4/5, 1, 1⟩, 7/10, 4/5, c.control⟩,
          ["flap"]⟩] }] := by
      have := hf (Strip.init 0 1 1 0) (7/10) (4/5) (7/10) (4/5) rfl rfl (by norm_num) (by norm_num)
        (by norm_num) (by norm_num) (by norm_num) (by norm_num) (by norm_num) (by norm_num)
      simp only [placeControls, placeControl, c, if_true, PSegment.update, s,
        addSubdivisionForControl, controlFrom, initStrips, Option.getD_none]
      simp only [List.getElem?_cons_zero, show (Strip.init (0:ℝ) 1 1 0).etaB = 1 from rfl, if_true,
        addRows]
      simp only [c] at this
      rw [this]
      simp [asExcept, Strip.init, Quad.init]
    have h2 : PSegment.addSpanLines { s with strips :=
        [⟨0, 1, 1, 0, ⟨0, 0, 4/5, 7/10⟩, none, some ⟨⟨7/10, 4/5, 1, 1⟩, 7/10, 4/5, c.control⟩,
          ["flap"]⟩] } = .ok { s with strips := [t₁, t₂] } := by
      have := hf (Strip.init (1/2) 1 1 (1/2)) y (4/5) y (4/5) rfl rfl z1 z2
        (by norm_num) (by norm_num) z1 z2 (by norm_num) (by norm_num)
      have hl : spanLines (K := ℝ) (Int.toNat 2) = [1/2] := by
        rw [show Int.toNat 2 = 2 from rfl]
        norm_num [spanLines, List.range_succ]
      simp only [PSegment.addSpanLines, s, hl, addLines]
      norm_num [addSubdivision, getSubdivAtEta,
        getSubdivAtEtaFrom, minEtaLimit, inheritDevices, inheritFlap]
      norm_num at this hy
      rw [hy, this]
      simp [inheritSlat, Strip.updateFlap, Strip.init, Quad.init, t₁, t₂]
    have e : (straightWing).segments = [s] ∧ (straightWing).controls = [c] := ⟨rfl, rfl⟩
    simp only [prePanelling, mapE, PWing.mapSegments, e.1, e.2, h1, h2]
  refine ⟨_, _, c, _, t₁, t₂, y, ⟨?_, hok, ⟨0, rfl, rfl⟩, by simp [straightWing],
    by simp [straightWing], by simp [straightWing, c], by simp [straightWing, c],
    by simp [straightWing, c], by simp [c], by simp [c], by simp [c]⟩, ?_, List.mem_cons_self, hv, hp, rfl, rfl, rfl, rfl,
    Or.inr ⟨_, rfl, rfl, rfl, rfl, rfl, rfl⟩, Or.inr ⟨_, rfl, rfl, rfl, rfl, rfl, rfl⟩⟩
  · intro w hw s hs
    simp only [List.mem_singleton] at hw
    subst hw
    simp only [straightWing, List.mem_singleton] at hs
    subst hs
    rfl
  · intro u x hx y hy hxy
    simp only [straightWing, List.mem_singleton, exists_eq_left, Set.mem_union, Set.mem_insert_iff, Set.mem_singleton_iff,
          Set.mem_ofPred_eq] at hx hy
    rcases hx with ((rfl | rfl) | ⟨-, rfl⟩) | ⟨-, rfl⟩ <;>
    rcases hy with ((rfl | rfl) | ⟨-, rfl⟩) | ⟨-, rfl⟩ <;>
        first | (norm_num at hxy; done) | norm_num

end Verif
