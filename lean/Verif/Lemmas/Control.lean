import Verif.Lemmas.StripTiling
import Verif.Lemmas.StripChord

/-! Helper lemmas for C07: which strips `add_subdivision_for_control` equips. -/

set_option linter.unusedSectionVars false

namespace Verif
variable {K : Type*} [Field K] [LinearOrder K]

/-- the strip carries a device that belongs to the control `c` -/
def Strip.carries (s : Strip K) (c : Control) : Prop :=
  (∃ f, s.slat = some f ∧ f.ctrl = c) ∨ (∃ f, s.flap = some f ∧ f.ctrl = c)

/-- tiling whose borders lie in `S` -/
structure Grid (S : Set K) (sds : List (Strip K)) : Prop where
  tile : TileInv sds
  mem : ∀ s ∈ sds, s.etaA ∈ S ∧ s.etaB ∈ S
  zero : ∃ s, sds[0]? = some s ∧ s.etaA = 0

theorem grid_closed (interp : Interp K) (S : Set K) :
    Closed interp (fun e _ => e ∈ S) (Grid S (K := K)) where
  split := by
    intro sds idx prev p n e d r hT hQ hidx h0 h1 hA hB hm hi
    refine ⟨(tileInv_closed interp).split hT.tile trivial hidx h0 h1 hA hB hm hi, ?_,
      (zeroInv_closed interp).split hT.zero trivial hidx h0 h1 hA hB hm hi⟩
    obtain ⟨⟨pA, pB, -⟩, nA, nB, -⟩ := inheritDevices_eta hi
    have := hT.mem prev (List.mem_of_getElem? hidx)
    refine mem_set_append hT.mem ⟨?_, ?_⟩ ⟨?_, ?_⟩
    · rw [pA]; exact this.1
    · rw [pB]; exact hQ
    · rw [nA]; exact hQ
    · rw [nB]; exact this.2
  add := by
    intro sds idx s s' c x1 x2 h1 h2 hT hidx ha
    refine ⟨(tileInv_closed interp).add hT.tile hidx ha, ?_,
      (zeroInv_closed interp).add hT.zero hidx ha⟩
    obtain ⟨eA, eB, -⟩ := addSubarea_eta ha
    refine mem_set_P hT.mem ?_
    rw [eA, eB]
    exact hT.mem s (List.mem_of_getElem? hidx)

theorem grid_init [IsStrictOrderedRing K] {S : Set K} (h0 : 0 ∈ S) (h1 : 1 ∈ S) :
    Grid S (initStrips : List (Strip K)) :=
  ⟨tileInv_init, by simp [initStrips, Strip.init, h0, h1], by simp [initStrips, Strip.init]⟩

/-- two strips with a common point are the same strip -/
theorem TileInv.index_unique [IsStrictOrderedRing K] {sds : List (Strip K)} (h : TileInv sds)
    {i j : ℕ} {s t : Strip K} (hi : sds[i]? = some s) (hj : sds[j]? = some t) {x : K}
    (hs : s.etaA ≤ x ∧ x < s.etaB) (ht : t.etaA ≤ x ∧ x < t.etaB) : i = j := by
  have hin := h.inside (List.mem_of_getElem? hi)
  exact (h.existsUnique (hin.1.trans hs.1) (lt_of_lt_of_le hs.2 hin.2.2)).unique
    ⟨s, hi, hs⟩ ⟨t, hj, ht⟩

/-- the strip outboard of a strip -/
theorem TileInv.next [IsStrictOrderedRing K] {sds : List (Strip K)} (h : TileInv sds)
    {s : Strip K} (hs : s ∈ sds) (hlt : s.etaB < 1) :
    ∃ (j : ℕ) (t : Strip K), sds[j]? = some t ∧ t.etaA = s.etaB := by
  obtain ⟨i, hi⟩ := List.mem_iff_getElem?.1 hs
  have hin := h.inside hs
  obtain ⟨j, ⟨t, hj, ht⟩, -⟩ := h.existsUnique (hin.1.trans hin.2.1.le) hlt
  refine ⟨j, t, hj, le_antisymm ht.1 ?_⟩
  by_contra hc
  replace hc := not_le.1 hc
  have := h.index_unique hi hj (x := max s.etaA t.etaA) ⟨le_max_left _ _, max_lt hin.2.1 hc⟩
    ⟨le_max_right _ _, max_lt (hin.2.1.trans ht.2) (hc.trans ht.2)⟩
  subst this
  rw [hi] at hj
  cases hj
  exact lt_irrefl _ ht.2

/-! ### `_get_outer_neighbour_subdiv` -/

theorem outerNeighbourLoop_rest {eta d : K} {best : Option ℕ} {l : List (Strip K)} {i : ℕ}
    (h : ∀ s ∈ l, ¬ (d > eta - s.etaA ∧ eta - s.etaA ≥ 0)) :
    outerNeighbourLoop eta i d best l = best := by
  induction l generalizing i with
  | nil => rfl
  | cons t rest ih =>
    unfold outerNeighbourLoop
    simp only
    rw [if_neg (h t (by simp))]
    exact ih (fun s hs => h s (List.mem_cons_of_mem _ hs))

theorem outerNeighbourLoop_find [IsStrictOrderedRing K] {eta e : K} (he : e ≤ eta)
    {l : List (Strip K)} {k : ℕ} {t : Strip K} (hk : l[k]? = some t) (ht : t.etaA = e)
    (hoth : ∀ s ∈ l, s.etaA ≤ e ∨ eta < s.etaA)
    (huniq : ∀ j s, l[j]? = some s → s.etaA = e → j = k)
    {d : K} (hd : eta - e < d) {best : Option ℕ} {i : ℕ} :
    outerNeighbourLoop eta i d best l = some (i + k) := by
  induction l generalizing i k d best with
  | nil => simp at hk
  | cons u rest ih =>
    unfold outerNeighbourLoop
    simp only
    cases k with
    | zero =>
      simp only [List.getElem?_cons_zero, Option.some.injEq] at hk
      subst hk
      rw [ht, if_pos ⟨hd, by linarith⟩]
      refine outerNeighbourLoop_rest ?_
      intro s hs hc
      rcases hoth s (List.mem_cons_of_mem _ hs) with h | h
      · have : s.etaA = e := le_antisymm h (by linarith [hc.1])
        obtain ⟨j, hj⟩ := List.mem_iff_getElem?.1 hs
        have := huniq (j + 1) s (by simpa using hj) this
        omega
      · linarith [hc.2]
    | succ k =>
      simp only [List.getElem?_cons_succ] at hk
      have hoth' : ∀ s ∈ rest, s.etaA ≤ e ∨ eta < s.etaA :=
        fun s hs => hoth s (List.mem_cons_of_mem _ hs)
      have huniq' : ∀ j s, rest[j]? = some s → s.etaA = e → j = k := by
        intro j s hj hs
        have := huniq (j + 1) s (by simpa using hj) hs
        omega
      have hidx : i + (k + 1) = i + 1 + k := by omega
      rw [hidx]
      split_ifs with hc
      · refine ih hk hoth' huniq' ?_
        have hne : u.etaA ≠ e := by
          intro h
          have := huniq 0 u (by simp) h
          omega
        rcases hoth u (by simp) with h | h
        · have := lt_of_le_of_ne h hne
          linarith
        · linarith [hc.2]
      · exact ih hk hoth' huniq' hd

/-- separation of the admissible coordinates -/
def Separated (S : Set K) : Prop := ∀ x ∈ S, ∀ y ∈ S, x < y → 1 / 100 ≤ y - x

theorem getOuterNeighbour_eq [IsStrictOrderedRing K] {S : Set K} (hS : Separated S)
    {sds : List (Strip K)} (h : Grid S sds) {j : ℕ} {t : Strip K} (hj : sds[j]? = some t) :
    getOuterNeighbour sds t.etaA = some j := by
  have hin := h.tile.inside (List.mem_of_getElem? hj)
  have hpos : (0 : K) < minEtaLimit / 10 := by unfold minEtaLimit; norm_num
  unfold getOuterNeighbour
  have := outerNeighbourLoop_find (eta := t.etaA + minEtaLimit / 10) (e := t.etaA)
    (by linarith) hj rfl (l := sds) ?_ ?_ (d := 1) ?_ (best := none) (i := 0)
  · simpa using this
  · intro s hs
    by_contra hc
    push Not at hc
    have := hS _ (h.mem t (List.mem_of_getElem? hj)).1 _ (h.mem s hs).1 hc.1
    have h2 : s.etaA ≤ t.etaA + minEtaLimit / 10 := hc.2
    unfold minEtaLimit at h2
    have h3 : (1 : K) / 100 / 10 < 1 / 100 := by norm_num
    linarith
  · intro i s hi hs
    have hin' := h.tile.inside (List.mem_of_getElem? hi)
    exact h.tile.index_unique hi hj (x := t.etaA) ⟨hs.le, hs ▸ hin'.2.1⟩ ⟨le_rfl, hin.2.1⟩
  · have : (minEtaLimit : K) / 10 < 1 := by unfold minEtaLimit; norm_num
    linarith

/-! ### Starting a line on the grid -/

theorem addSubdivision_start [IsStrictOrderedRing K] {interp : Interp K} {S : Set K}
    (hS : Separated S) {sds sds' : List (Strip K)} (h : Grid S sds) {e : K} (he : e ∈ S)
    {i : ℕ} (ha : addSubdivision interp e e false sds = (.ok (some i), sds')) :
    Grid S sds' ∧ ∃ s, sds'[i]? = some s ∧ s.etaA = e := by
  have hg := (grid_closed interp S).addSubdivision (d := e) he false h
  rw [ha] at hg
  refine ⟨hg, ?_⟩
  rcases addSubdivision_cases interp e e false sds with ⟨h1, h2⟩ |
    ⟨idx, prev, p, n, r, h1, h2, h3, h4, h5, h6, h7, h8⟩
  · rw [ha] at h1 h2
    simp only at h1 h2
    subst h1
    generalize hr : (Except.ok (some i) : Except PyErr (Option ℕ)) = r at h2
    cases h2 with
    | invalid h => simp at hr
    | outside _ _ h => simp at hr
    | close k s _ _ e1 e2 e3 e4 =>
      simp only [Except.ok.injEq, Option.some.injEq] at hr
      subst hr
      refine ⟨s, e1, ?_⟩
      rcases e4 with e4 | e4
      · exact e4.symm
      · by_contra hne
        have hlt := lt_of_le_of_ne e2 hne
        have := hS _ (h.mem s (List.mem_of_getElem? e1)).1 _ he hlt
        unfold minEtaLimit at e4
        exact absurd e4 (not_lt.2 this)
  · rw [ha] at h8
    simp only [Prod.mk.injEq] at h8
    obtain ⟨h81, rfl⟩ := h8
    cases r with
    | error e => simp [Except.map] at h81
    | ok u =>
      simp only [Except.map, Except.ok.injEq, Option.some.injEq] at h81
      subst h81
      obtain ⟨-, nA, -⟩ := inheritDevices_eta h7
      exact ⟨n, by simp, nA⟩

/-- splitting strip `k` at an interior grid coordinate -/
theorem addSubdivision_split [IsStrictOrderedRing K] {interp : Interp K} {S : Set K}
    (hS : Separated S) {sds : List (Strip K)} (h : Grid S sds) {e : K} (he : e ∈ S)
    {k : ℕ} {t : Strip K} (hk : sds[k]? = some t) (h1 : t.etaA < e) (h2 : e < t.etaB) :
    ∃ p n r, inheritDevices interp t.etaA t.etaB e { t with etaB := e, etaC := e }
        (Strip.init e t.etaB t.etaC e) = (r, p, n) ∧
      addSubdivision interp e e false sds =
        (r.map (fun _ => some sds.length), sds.set k p ++ [n]) := by
  have hin := h.tile.inside (List.mem_of_getElem? hk)
  rcases addSubdivision_cases interp e e false sds with ⟨g1, g2⟩ |
    ⟨idx, prev, p, n, r, g1, g2, g3, g4, g5, g6, g7, g8⟩
  · exfalso
    generalize (addSubdivision interp e e false sds).1 = o at g2
    cases g2 with
    | invalid h =>
      rcases h with h | h
      · linarith [hin.1]
      · linarith [hin.2.2]
    | outside _ _ h => exact h t (List.mem_of_getElem? hk) ⟨h1.le, h2⟩
    | close i s _ _ e1 e2 e3 e4 =>
      have := h.tile.index_unique hk e1 ⟨h1.le, h2⟩ ⟨e2, e3⟩
      subst this
      rw [hk] at e1
      cases e1
      rcases e4 with rfl | e4
      · exact lt_irrefl _ h1
      · have := hS _ (h.mem t (List.mem_of_getElem? hk)).1 _ he h1
        unfold minEtaLimit at e4
        exact absurd e4 (not_lt.2 this)
  · have := h.tile.index_unique hk g1 ⟨h1.le, h2⟩ ⟨g4.le, g5⟩
    subst this
    rw [hk] at g1
    cases g1
    exact ⟨p, n, r, g7, g8⟩

/-! ### Chains of strips -/

/-- the strips with these keys follow each other from `a` to `b` -/
def RowChain (sds : List (Strip K)) (b : K) : K → List ℕ → Prop
  | a, [] => a = b
  | a, i :: rest => ∃ s, sds[i]? = some s ∧ s.etaA = a ∧ RowChain sds b s.etaB rest

theorem RowChain.append {sds : List (Strip K)} {a b : K} {is : List ℕ}
    (h : RowChain sds b a is) {j : ℕ} {t : Strip K} (hj : sds[j]? = some t) (ht : t.etaA = b) :
    RowChain sds t.etaB a (is ++ [j]) := by
  induction is generalizing a with
  | nil =>
    simp only [RowChain] at h
    subst h
    exact ⟨t, hj, ht, rfl⟩
  | cons i rest ih =>
    obtain ⟨s, hs, hsa, hr⟩ := h
    exact ⟨s, hs, hsa, ih hr⟩

theorem RowChain.cover {sds : List (Strip K)} {a b : K} {is : List ℕ}
    (h : RowChain sds b a is) {x : K} (h1 : a ≤ x) (h2 : x < b) :
    ∃ i ∈ is, ∃ s, sds[i]? = some s ∧ s.etaA ≤ x ∧ x < s.etaB := by
  induction is generalizing a with
  | nil => simp only [RowChain] at h; subst h; exact absurd h1 (not_le.2 h2)
  | cons i rest ih =>
    obtain ⟨s, hs, hsa, hr⟩ := h
    rcases lt_or_ge x s.etaB with hx | hx
    · exact ⟨i, by simp, s, hs, hsa ▸ h1, hx⟩
    · obtain ⟨j, hj, hh⟩ := ih hr hx
      exact ⟨j, List.mem_cons_of_mem _ hj, hh⟩

theorem RowChain.le {sds : List (Strip K)} (hpos : ∀ s ∈ sds, s.etaA < s.etaB) {a b : K}
    {is : List ℕ} (h : RowChain sds b a is) : a ≤ b := by
  induction is generalizing a with
  | nil => exact le_of_eq h
  | cons i rest ih =>
    obtain ⟨s, hs, hsa, hr⟩ := h
    exact hsa ▸ (hpos s (List.mem_of_getElem? hs)).le.trans (ih hr)

theorem RowChain.inside {sds : List (Strip K)} (hpos : ∀ s ∈ sds, s.etaA < s.etaB) {a b : K}
    {is : List ℕ} (h : RowChain sds b a is) {i : ℕ} (hi : i ∈ is) :
    ∃ s, sds[i]? = some s ∧ a ≤ s.etaA ∧ s.etaB ≤ b := by
  induction is generalizing a with
  | nil => simp at hi
  | cons j rest ih =>
    obtain ⟨s, hs, hsa, hr⟩ := h
    rcases List.mem_cons.1 hi with rfl | hi
    · exact ⟨s, hs, hsa.ge, hr.le hpos⟩
    · obtain ⟨t, ht, h1, h2⟩ := ih hr hi
      exact ⟨t, ht, hsa ▸ ((hpos s (List.mem_of_getElem? hs)).le.trans h1), h2⟩

/-- only the borders of the strips in the chain matter -/
theorem RowChain.congr {sds sds' : List (Strip K)} {a b : K} {is : List ℕ}
    (h : RowChain sds b a is)
    (hc : ∀ i ∈ is, ∀ s, sds[i]? = some s →
      ∃ s', sds'[i]? = some s' ∧ s'.etaA = s.etaA ∧ s'.etaB = s.etaB) : RowChain sds' b a is := by
  induction is generalizing a with
  | nil => exact h
  | cons j rest ih =>
    obtain ⟨s, hs, hsa, hr⟩ := h
    obtain ⟨s', h1, h2, h3⟩ := hc j (by simp) s hs
    refine ⟨s', h1, by rw [h2, hsa], ?_⟩
    rw [h3]
    exact ih hr (fun i hi => hc i (List.mem_cons_of_mem _ hi))

/-- shortening the last strip of a chain -/
theorem RowChain.shorten {sds : List (Strip K)} {a m b : K} {is : List ℕ} {k : ℕ} {t p : Strip K}
    (h : RowChain sds m a is) (hnotin : k ∉ is) (hk : sds[k]? = some t) (ht : t.etaA = m)
    (hpA : p.etaA = t.etaA) (hpB : p.etaB = b) (n : Strip K) :
    RowChain (sds.set k p ++ [n]) b a (is ++ [k]) := by
  have hlen : k < sds.length := by
    rcases List.getElem?_eq_some_iff.1 hk with ⟨h, -⟩; exact h
  have hkp : (sds.set k p ++ [n])[k]? = some p := by
    rw [List.getElem?_append_left (by simpa using hlen)]
    simp [hlen]
  have h' : RowChain (sds.set k p ++ [n]) m a is := by
    refine h.congr ?_
    intro i hi s hs
    have hil : i < sds.length := by
      rcases List.getElem?_eq_some_iff.1 hs with ⟨h, -⟩; exact h
    refine ⟨s, ?_, rfl, rfl⟩
    rw [List.getElem?_append_left (by simpa using hil),
      List.getElem?_set_ne (by rintro rfl; exact hnotin hi)]
    exact hs
  have := h'.append hkp (by rw [hpA, ht])
  rwa [hpB] at this

/-! ### The `while` loop -/

theorem controlLoop_chain [IsStrictOrderedRing K] {S : Set K} (hS : Separated S)
    {interp : Interp K} {sds : List (Strip K)} (hg : Grid S sds) {a b x1 x2 h1 h2 : K}
    (hb1 : b ≤ 1) :
    ∀ (fuel outer : ℕ) (e : K) (rows : List (Row K)) (last : Row K) (o : Strip K),
      last.idx = outer → sds[outer]? = some o → o.etaB = e → o.etaA < b →
      RowChain sds o.etaA a (rows.map Row.idx) →
      (1 : K) ≤ e + fuel * (1 / 100) →
      ∃ rows' outer' o' pre,
        controlLoop interp sds a b x1 x2 h1 h2 fuel outer e rows last = .ok (rows', outer') ∧
        sds[outer']? = some o' ∧ rows'.map Row.idx = pre ++ [outer'] ∧ o'.etaA < b ∧
        b ≤ o'.etaB ∧ RowChain sds o'.etaA a pre := by
  intro fuel
  induction fuel with
  | zero =>
    intro outer e rows last o hl ho he hob hch hf
    have hb : ¬ b > e := by
      have : (1 : K) ≤ e := by simpa using hf
      exact not_lt.2 (hb1.trans this)
    unfold controlLoop
    rw [if_neg hb]
    exact ⟨_, _, o, rows.map Row.idx, rfl, ho, by simp [hl], hob, he ▸ not_lt.1 hb, hch⟩
  | succ n ih =>
    intro outer e rows last o hl ho he hob hch hf
    unfold controlLoop
    split_ifs with hb
    · have he1 : o.etaB < 1 := by rw [he]; exact lt_of_lt_of_le hb hb1
      obtain ⟨j, t, hj, ht⟩ := hg.tile.next (List.mem_of_getElem? ho) he1
      have hin := hg.tile.inside (List.mem_of_getElem? hj)
      have hm := hg.mem t (List.mem_of_getElem? hj)
      have hw := hS _ hm.1 _ hm.2 hin.2.1
      have hn := getOuterNeighbour_eq hS hg hj
      rw [ht, he] at hn
      simp only [hn, hj, hl, ho]
      refine ih j t.etaB _ _ t rfl hj rfl (by rw [ht, he]; exact hb) ?_ ?_
      · have := hch.append ho rfl
        rw [ht]
        simpa [hl] using this
      · rw [ht, he] at hw
        push_cast at hf
        linarith
    · exact ⟨_, _, o, rows.map Row.idx, rfl, ho, by simp [hl], hob, he ▸ not_lt.1 hb, hch⟩

/-! ### Adding the subareas -/

theorem addSubarea_carries {s s' : Strip K} {c d : Control} {x1 x2 : K} {h1 h2 : Option K}
    (h : s.addSubarea c x1 x2 h1 h2 = .ok s') : s'.carries d ↔ (d = c ∨ s.carries d) := by
  obtain ⟨-, -, -, ⟨-, hn, rfl⟩ | ⟨-, hn, rfl⟩⟩ := addSubarea_ok h
  · simp only [Strip.carries, hn, Option.some.injEq, exists_eq_left']
    constructor
    · rintro (h | h)
      · exact Or.inl h.symm
      · exact Or.inr (Or.inr h)
    · rintro (h | h | h)
      · exact Or.inl h.symm
      · simp at h
      · exact Or.inr h
  · simp only [Strip.carries, hn, Option.some.injEq, exists_eq_left']
    constructor
    · rintro (h | h)
      · exact Or.inr (Or.inl h)
      · exact Or.inl h.symm
    · rintro (h | h | h)
      · exact Or.inr h.symm
      · exact Or.inl h
      · simp at h

theorem addRows_spec {c : Control} {rows : List (Row K)} {sds sds' : List (Strip K)}
    (h : addRows c rows sds = (.ok (), sds')) :
    sds'.length = sds.length ∧
    ∀ j s, sds[j]? = some s → ∃ s', sds'[j]? = some s' ∧ s'.etaA = s.etaA ∧ s'.etaB = s.etaB ∧
      (s'.carries c ↔ j ∈ rows.map Row.idx ∨ s.carries c) := by
  induction rows generalizing sds with
  | nil =>
    simp only [addRows, Prod.mk.injEq, true_and] at h
    subst h
    exact ⟨rfl, fun j s hs => ⟨s, hs, rfl, rfl, by simp⟩⟩
  | cons r rest ih =>
    unfold addRows at h
    cases hs : sds[r.idx]? with
    | none => simp [hs] at h
    | some s0 =>
      simp only [hs] at h
      cases ha : s0.addSubarea c r.xsi1 r.xsi2 (some r.h1) (some r.h2) with
      | error e => simp [ha] at h
      | ok s1 =>
        simp only [ha] at h
        obtain ⟨hl, hk⟩ := ih h
        refine ⟨by simpa using hl, ?_⟩
        intro j s hj
        have hjl : j < sds.length := by
          rcases List.getElem?_eq_some_iff.1 hj with ⟨h, -⟩; exact h
        by_cases hjr : j = r.idx
        · subst hjr
          rw [hs] at hj
          cases hj
          obtain ⟨s', e1, e2, e3, e4⟩ := hk r.idx s1 (by simp [hjl])
          obtain ⟨f1, f2, -⟩ := addSubarea_eta ha
          refine ⟨s', e1, by rw [e2, f1], by rw [e3, f2], ?_⟩
          rw [e4, addSubarea_carries ha]
          simp
        · obtain ⟨s', e1, e2, e3, e4⟩ := hk j s (by
            rw [List.getElem?_set_ne (Ne.symm hjr)]; exact hj)
          refine ⟨s', e1, e2, e3, ?_⟩
          rw [e4]
          simp [hjr]

/-! ### Splits do not create devices of a control that is not there -/

theorem updateFlap_carries (s : Strip K) (x1 x2 h1 h2 : K) (c : Control) :
    (s.updateFlap x1 x2 h1 h2).carries c ↔ s.carries c := by
  unfold Strip.updateFlap Strip.carries
  cases s.flap <;> simp

theorem updateSlat_carries (s : Strip K) (x1 x2 h1 h2 : K) (c : Control) :
    (s.updateSlat x1 x2 h1 h2).carries c ↔ s.carries c := by
  unfold Strip.updateSlat Strip.carries
  cases s.slat <;> simp

theorem inheritDevices_carries {interp : Interp K} {eA eB eta : K} {prev new p n : Strip K}
    {r : Except PyErr Unit} (h : inheritDevices interp eA eB eta prev new = (r, p, n))
    {c : Control} (hp : ¬ prev.carries c) (hn : ¬ new.carries c) :
    ¬ p.carries c ∧ ¬ n.carries c := by
  have hflap : ¬ (inheritFlap interp eA eB eta prev new).2.1.carries c ∧
      ¬ (inheritFlap interp eA eB eta prev new).2.2.carries c := by
    rcases inheritFlap_cases interp eA eB eta prev new with h | ⟨f, n', hf, ha, h⟩
    · rw [h]; exact ⟨hp, hn⟩
    · rw [h]
      refine ⟨by rwa [updateFlap_carries], ?_⟩
      rw [addSubarea_carries ha]
      rintro (rfl | h)
      · exact hp (Or.inr ⟨f, hf, rfl⟩)
      · exact hn h
  rcases inheritDevices_cases interp eA eB eta prev new with ⟨e, he⟩ | ⟨p', n', h1, h2⟩
  · rw [h] at he
    have : (p, n) = (inheritFlap interp eA eB eta prev new).2 := by
      simpa using congrArg Prod.snd he
    simpa only [← this] using hflap
  · rw [h1] at hflap
    rw [h] at h2
    rcases inheritSlat_cases interp eA eB eta p' n' with h3 | ⟨f, n'', hf, ha, h3⟩
    · rw [← h2] at h3
      simp only [Prod.mk.injEq] at h3
      rw [h3.1, h3.2]; exact hflap
    · rw [← h2] at h3
      simp only [Prod.mk.injEq] at h3
      rw [h3.2.1, h3.2.2]
      refine ⟨by rw [updateSlat_carries]; exact hflap.1, ?_⟩
      rw [addSubarea_carries ha]
      rintro (rfl | h)
      · exact hflap.1 (Or.inl ⟨f, hf, rfl⟩)
      · exact hflap.2 h

theorem fresh_closed_sub {interp : Interp K} {c : Control} {e d : K} {ign : Bool}
    {sds : List (Strip K)} (h : ∀ s ∈ sds, ¬ s.carries c) :
    ∀ s ∈ (addSubdivision interp e d ign sds).2, ¬ s.carries c := by
  rcases addSubdivision_cases interp e d ign sds with ⟨h1, -⟩ |
    ⟨idx, prev, p, n, r, h1, h2, h3, h4, h5, h6, h7, h8⟩
  · rw [h1]; exact h
  · rw [h8]
    have := inheritDevices_carries h7 (c := c) (h prev (List.mem_of_getElem? h1))
      (by simp [Strip.carries, Strip.init])
    exact mem_set_append h this.1 this.2

/-! ### The whole call -/

/-- coverage, pointwise -/
def Covers (sds : List (Strip K)) (c : Control) (a b : K) : Prop :=
  ∀ s ∈ sds, ∀ x, s.etaA ≤ x → x < s.etaB → (s.carries c ↔ a ≤ x ∧ x < b)

theorem covers_of_chain [IsStrictOrderedRing K] {sds sds' : List (Strip K)} {c : Control}
    {rows : List (Row K)} {a b : K} (ht : TileInv sds) (hf : ∀ s ∈ sds, ¬ s.carries c)
    (hch : RowChain sds b a (rows.map Row.idx)) (h : addRows c rows sds = (.ok (), sds')) :
    Covers sds' c a b := by
  obtain ⟨hl, hk⟩ := addRows_spec h
  intro s' hs' x hx1 hx2
  obtain ⟨j, hj⟩ := List.mem_iff_getElem?.1 hs'
  have hjl : j < sds.length := by
    rcases List.getElem?_eq_some_iff.1 hj with ⟨h, -⟩; omega
  have hjs : sds[j]? = some sds[j] := List.getElem?_eq_getElem hjl
  obtain ⟨s'', e1, e2, e3, e4⟩ := hk j _ hjs
  rw [hj] at e1
  cases e1
  have hnc := hf _ (List.mem_of_getElem? hjs)
  rw [e4]
  simp only [hnc, or_false]
  rw [e2] at hx1
  rw [e3] at hx2
  constructor
  · intro hmem
    obtain ⟨t, ht1, ht2, ht3⟩ := hch.inside ht.1 hmem
    rw [hjs] at ht1
    cases ht1
    exact ⟨ht2.trans hx1, lt_of_lt_of_le hx2 ht3⟩
  · rintro ⟨h1, h2⟩
    obtain ⟨i, hi, t, ht1, ht2⟩ := hch.cover h1 h2
    have := ht.index_unique hjs ht1 ⟨hx1, hx2⟩ ht2
    subst this
    exact hi

theorem RowChain.notin [IsStrictOrderedRing K] {sds : List (Strip K)} (ht : TileInv sds)
    {a m : K} {is : List ℕ} {k : ℕ} {t : Strip K} (h : RowChain sds m a is)
    (hk : sds[k]? = some t) (htm : t.etaA = m) : k ∉ is := by
  intro hki
  obtain ⟨s, hs, -, h2⟩ := h.inside ht.1 hki
  rw [hk] at hs
  cases hs
  have := ht.1 t (List.mem_of_getElem? hk)
  rw [htm] at this
  exact absurd this (not_lt.2 h2)

/-- exception of a single row comes from `_add_subarea`, hence is a `ValueError` -/
theorem addSubarea_error {s : Strip K} {c : Control} {x1 x2 : K} {h1 h2 : Option K} {e : PyErr}
    (h : s.addSubarea c x1 x2 h1 h2 = .error e) : e = .valueError := by
  unfold Strip.addSubarea at h
  dsimp only at h
  split_ifs at h <;> first | (cases h; rfl)

theorem inheritDevices_error {interp : Interp K} {eA eB eta : K} {prev new p n : Strip K}
    {e : PyErr} (h : inheritDevices interp eA eB eta prev new = (.error e, p, n)) :
    e = .valueError := by
  unfold inheritDevices at h
  split at h
  · rename_i e' p' n' hf
    simp only [Prod.mk.injEq, Except.error.injEq] at h
    obtain ⟨rfl, -⟩ := h
    unfold inheritFlap at hf
    split at hf
    · simp at hf
    · dsimp only at hf
      split at hf
      · rename_i ha
        simp only [Prod.mk.injEq, Except.error.injEq] at hf
        obtain ⟨rfl, -⟩ := hf
        exact addSubarea_error ha
      · simp at hf
  · unfold inheritSlat at h
    split at h
    · simp at h
    · dsimp only at h
      split at h
      · rename_i ha
        simp only [Prod.mk.injEq, Except.error.injEq] at h
        obtain ⟨rfl, -⟩ := h
        exact addSubarea_error ha
      · simp at h

theorem addRows_error {c : Control} {rows : List (Row K)} {sds sds' : List (Strip K)} {e : PyErr}
    (h : addRows c rows sds = (.error e, sds')) (hi : ∀ r ∈ rows, r.idx < sds.length) :
    e = .valueError := by
  induction rows generalizing sds with
  | nil => simp [addRows] at h
  | cons r rest ih =>
    unfold addRows at h
    rw [List.getElem?_eq_getElem (hi r (by simp))] at h
    simp only at h
    split at h
    · rename_i ha
      simp only [Prod.mk.injEq, Except.error.injEq] at h
      obtain ⟨rfl, -⟩ := h
      exact addSubarea_error ha
    · exact ih h (fun r hr => by simpa using hi r (List.mem_cons_of_mem _ hr))

theorem RowChain.lt_length {sds : List (Strip K)} {a b : K} {is : List ℕ}
    (h : RowChain sds b a is) : ∀ i ∈ is, i < sds.length := by
  induction is generalizing a with
  | nil => simp
  | cons j rest ih =>
    obtain ⟨s, hs, -, hr⟩ := h
    intro i hi
    rcases List.mem_cons.1 hi with rfl | hi
    · rcases List.getElem?_eq_some_iff.1 hs with ⟨h, -⟩; exact h
    · exact ih hr i hi

theorem addRows_outcome [IsStrictOrderedRing K] {sds : List (Strip K)} {c : Control}
    {rows : List (Row K)} {a b : K} (ht : TileInv sds) (hf : ∀ s ∈ sds, ¬ s.carries c)
    (hch : RowChain sds b a (rows.map Row.idx)) :
    (addRows c rows sds).1 = .error .valueError ∨
      ((addRows c rows sds).1 = .ok () ∧ Covers (addRows c rows sds).2 c a b) := by
  rcases h : addRows c rows sds with ⟨r, sds'⟩
  cases r with
  | error e =>
    left
    rw [addRows_error h (fun r hr => hch.lt_length _ (List.mem_map.2 ⟨r, hr, rfl⟩))]
  | ok u => exact Or.inr ⟨rfl, covers_of_chain ht hf hch h⟩

theorem controlFrom_outcome [IsStrictOrderedRing K] {S : Set K} (hS : Separated S)
    {interp : Interp K} {sds : List (Strip K)} (hg : Grid S sds) {a b x1 x2 h1 h2 : K}
    {c : Control} (hf : ∀ s ∈ sds, ¬ s.carries c) (hb : b ∈ S) (hab : a < b) (hb1 : b ≤ 1)
    {i : ℕ} {s : Strip K} (hi : sds[i]? = some s) (hs : s.etaA = a) :
    (controlFrom interp a b c x1 x2 h1 h2 i sds).1 = .error .valueError ∨
      ((controlFrom interp a b c x1 x2 h1 h2 i sds).1 = .ok () ∧
        Covers (controlFrom interp a b c x1 x2 h1 h2 i sds).2 c a b) := by
  -- a division of strip `k` at `b`, followed by the rows
  have fin : ∀ (rows : List (Row K)) (pre : List ℕ) (k : ℕ) (t : Strip K),
      rows.map Row.idx = pre ++ [k] → sds[k]? = some t → t.etaA < b → b < t.etaB →
      RowChain sds t.etaA a pre →
      let res := (match addSubdivision interp b b false sds with
        | (.error e, sds') => ((.error e, sds') : Except PyErr Unit × List (Strip K))
        | (.ok _, sds') => addRows c rows sds')
      res.1 = .error .valueError ∨ (res.1 = .ok () ∧ Covers res.2 c a b) := by
    intro rows pre k t hrows hk htb hbt hch
    obtain ⟨p, n, r, hinh, hadd⟩ := addSubdivision_split (interp := interp) hS hg hb hk htb hbt
    have hg' := (grid_closed interp S).addSubdivision (d := b) hb false hg
    have hf' := fresh_closed_sub (interp := interp) (e := b) (d := b) (ign := false) hf
    rw [hadd] at hg' hf' ⊢
    cases r with
    | error e =>
      left
      simp only [Except.map]
      rw [inheritDevices_error hinh]
    | ok u =>
      simp only [Except.map]
      obtain ⟨⟨pA, pB, -⟩, -⟩ := inheritDevices_eta hinh
      refine addRows_outcome hg'.tile hf' ?_
      rw [hrows]
      exact hch.shorten (hch.notin hg.tile hk rfl) hk rfl pA pB n
  unfold controlFrom
  simp only [hi]
  split_ifs with c1 c2
  · refine addRows_outcome hg.tile hf ?_
    exact ⟨s, hi, hs, c1.symm⟩
  · exact fin [⟨i, x1, x2, h1, h2⟩] [] i s rfl hi (by rw [hs]; exact hab) c2 hs.symm
  · have hlt : s.etaB < b := lt_of_le_of_ne (not_lt.1 c2) (fun h => c1 h.symm)
    obtain ⟨j, t, hj, htA⟩ := hg.tile.next (List.mem_of_getElem? hi) (lt_of_lt_of_le hlt hb1)
    have hn := getOuterNeighbour_eq hS hg hj
    rw [htA] at hn
    simp only [hn, hj]
    have hin := hg.tile.inside (List.mem_of_getElem? hj)
    obtain ⟨rows', outer', o', pre, l1, l2, l3, l4, l5, l6⟩ := controlLoop_chain hS hg
      (interp := interp) (a := a) (x1 := x1) (x2 := x2) (h1 := h1) (h2 := h2) hb1 100 j t.etaB
      [{ idx := i, xsi1 := x1, xsi2 := interp (a, x1) (b, x2) s.etaB, h1 := h1,
         h2 := interp (a, h1) (b, h2) s.etaB }]
      ⟨j, interp (a, x1) (b, x2) s.etaB, x2, interp (a, h1) (b, h2) s.etaB, h2⟩ t rfl hj rfl
      (by rw [htA]; exact hlt) ⟨s, hi, hs, by simp [RowChain, htA]⟩ (by
        have : (0 : K) ≤ t.etaB := hin.1.trans hin.2.1.le
        push_cast
        linarith)
    rw [l1]
    simp only [l2]
    split_ifs with c3
    · exact fin rows' pre outer' o' l3 l2 l4 c3 l6
    · refine addRows_outcome hg.tile hf ?_
      rw [l3]
      have := l6.append l2 rfl
      rwa [le_antisymm (not_lt.1 c3) l5] at this

theorem control_outcome [IsStrictOrderedRing K] {S : Set K} (hS : Separated S)
    {interp : Interp K} {sds : List (Strip K)} (hg : Grid S sds) {a b x1 x2 : K}
    {h1 h2 : Option K} {c : Control} (hf : ∀ s ∈ sds, ¬ s.carries c) (ha : a ∈ S) (hb : b ∈ S)
    (ha0 : 0 ≤ a) (hab : a < b) (hb1 : b ≤ 1) :
    (addSubdivisionForControl interp a b c x1 x2 h1 h2 sds).1 = .error .valueError ∨
      ((addSubdivisionForControl interp a b c x1 x2 h1 h2 sds).1 = .ok () ∧
        Covers (addSubdivisionForControl interp a b c x1 x2 h1 h2 sds).2 c a b) := by
  unfold addSubdivisionForControl
  dsimp only
  split_ifs with h0
  · obtain ⟨s, hs, hs0⟩ := hg.zero
    exact controlFrom_outcome hS hg hf hb hab hb1 hs (by rw [hs0, h0])
  · have hpos : 0 < a := lt_of_le_of_ne ha0 (Ne.symm h0)
    rcases hr : addSubdivision interp a a false sds with ⟨r, sds'⟩
    have hf' := fresh_closed_sub (interp := interp) (e := a) (d := a) (ign := false) hf
    rw [hr] at hf'
    rcases r with e | (_ | i)
    · left
      simp only
      rcases addSubdivision_cases interp a a false sds with ⟨g1, g2⟩ |
        ⟨idx, prev, p, n, r, g1, g2, g3, g4, g5, g6, g7, g8⟩
      · rw [hr] at g2
        generalize hq : (Except.error e : Except PyErr (Option ℕ)) = o at g2
        cases g2 with
        | invalid h => simpa using hq
        | outside _ h1 h =>
          obtain ⟨j, ⟨s, hs, hp⟩, -⟩ := hg.tile.existsUnique ha0 h1
          exact absurd hp (h s (List.mem_of_getElem? hs))
        | close i s => simp at hq
      · rw [hr] at g8
        cases r with
        | error e' =>
          simp only [Except.map, Prod.mk.injEq, Except.error.injEq] at g8
          rw [g8.1, inheritDevices_error g7]
        | ok u => simp [Except.map] at g8
    · exfalso
      rcases addSubdivision_cases interp a a false sds with ⟨g1, g2⟩ |
        ⟨idx, prev, p, n, r, g1, g2, g3, g4, g5, g6, g7, g8⟩
      · rw [hr] at g2
        generalize hq : (Except.ok none : Except PyErr (Option ℕ)) = o at g2
        cases g2 <;> simp at hq
      · rw [hr] at g8
        cases r <;> simp [Except.map] at g8
    · obtain ⟨hg', s, hs, hsa⟩ := addSubdivision_start hS hg ha hr
      exact controlFrom_outcome hS hg' hf' hb hab hb1 hs hsa

end Verif
