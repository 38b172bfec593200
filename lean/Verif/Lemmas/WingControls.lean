import Verif.Lemmas.DeviceEdge
import Verif.Lemmas.PrePanel

/-! Helper lemmas for C88–C90: control surfaces over several segments. -/

set_option linter.unusedSectionVars false

namespace Verif
variable {K : Type*} [Field K] [LinearOrder K]

/-- one call of `add_subdivision_for_control` requested by `pre_panelling` -/
structure Req (K : Type*) where
  uid : String
  a : K
  b : K
  x1 : K
  x2 : K
  g1 : Option K
  g2 : Option K

def SegRow.req (r : SegRow K) : Req K := ⟨r.uid, r.etaI, r.etaO, r.xsiI, r.xsiO, some r.hI, some r.hO⟩

/-- what the requests do to one segment -/
structure ReqStep (c : Control) (reqs : List (Req K)) (s s' : PSegment K) : Prop where
  rest : s' = { s with strips := s'.strips }
  out : (∀ r ∈ reqs, r.uid ≠ s.uid) → s'.strips = s.strips
  hit : ∀ r ∈ reqs, r.uid = s.uid →
    addSubdivisionForControl s.interp r.a r.b c r.x1 r.x2 r.g1 r.g2 s.strips = (.ok (), s'.strips)

theorem asExcept_ok {α : Type*} {r : Except PyErr Unit × α} {a : α} (h : asExcept r = .ok a) :
    r = (.ok (), a) := by
  unfold asExcept at h
  split at h
  · simp at h
  · simp only [Except.ok.injEq] at h
    subst h
    rfl

theorem update_spec {uid : String} {f : PSegment K → Except PyErr (List (Strip K))}
    {segs segs' : List (PSegment K)} (hn : (segs.map PSegment.uid).Nodup)
    (h : PSegment.update uid f segs = .ok segs') :
    List.Forall₂ (fun s s' => s' = { s with strips := s'.strips } ∧
      (s.uid ≠ uid → s'.strips = s.strips) ∧ (s.uid = uid → f s = .ok s'.strips)) segs segs' := by
  induction segs generalizing segs' with
  | nil => simp [PSegment.update] at h
  | cons s rest ih =>
    simp only [List.map_cons, List.nodup_cons] at hn
    unfold PSegment.update at h
    split_ifs at h with hu
    · split at h
      · simp at h
      · rename_i st hst
        simp only [Except.ok.injEq] at h
        subst h
        refine .cons ⟨rfl, fun h => absurd hu h, fun _ => hst⟩ (List.forall₂_same.2 fun x hx => ?_)
        refine ⟨rfl, fun _ => rfl, fun h => ?_⟩
        exact absurd (List.mem_map.2 ⟨x, hx, h.trans hu.symm⟩) hn.1
    · split at h
      · simp at h
      · rename_i rest' hr
        simp only [Except.ok.injEq] at h
        subst h
        exact .cons ⟨rfl, fun _ => rfl, fun h => absurd h hu⟩ (ih hn.2 hr)

theorem applyRows_reqs {c : Control} {rows : List (SegRow K)} {segs segs' : List (PSegment K)}
    (hn : (segs.map PSegment.uid).Nodup) (hr : (rows.map SegRow.uid).Nodup)
    (h : applyRows c rows segs = .ok segs') :
    List.Forall₂ (ReqStep c (rows.map SegRow.req)) segs segs' := by
  induction rows generalizing segs with
  | nil =>
    simp only [applyRows, Except.ok.injEq] at h
    subst h
    exact List.forall₂_same.2 fun x _ => ⟨rfl, fun _ => rfl, by simp⟩
  | cons r rest ih =>
    simp only [List.map_cons, List.nodup_cons] at hr
    unfold applyRows at h
    split at h
    · simp at h
    · rename_i segs1 h1
      have f1 := update_spec hn h1
      have huid : segs1.map PSegment.uid = segs.map PSegment.uid := by
        clear h h1 hn ih
        induction f1 with
        | nil => rfl
        | cons hh _ ih =>
          simp only [List.map_cons, ih]
          rw [hh.1]
      have f2 := ih (huid ▸ hn) hr.2 h
      clear h h1 ih hn huid
      induction f1 generalizing segs' with
      | nil => cases f2; exact .nil
      | @cons s s1 l l1 hh _ ih =>
        cases f2 with
        | @cons _ s2 _ l2 hh2 t2 =>
          refine .cons ?_ (ih t2)
          obtain ⟨q1, q2, q3⟩ := hh
          have hu1 : s1.uid = s.uid := by rw [q1]
          have hi1 : s1.interp = s.interp := by rw [q1]
          refine ⟨?_, ?_, ?_⟩
          · rw [hh2.rest, q1]
          · intro ho
            simp only [List.map_cons, List.mem_cons, forall_eq_or_imp] at ho
            rw [hh2.out (by rw [hu1]; exact ho.2), q2 (fun e => ho.1 e.symm)]
          · intro r' hr' hu
            simp only [List.map_cons, List.mem_cons] at hr'
            rcases hr' with rfl | hr'
            · have := asExcept_ok (q3 hu.symm)
              have hs2 : s2.strips = s1.strips := by
                refine hh2.out ?_
                intro r'' hr'' hu''
                obtain ⟨r0, hr0, rfl⟩ := List.mem_map.1 hr''
                refine hr.1 (List.mem_map.2 ⟨r0, hr0, ?_⟩)
                rw [hu1, ← hu] at hu''
                exact hu''
              rw [hs2]
              exact this
            · have hne : s.uid ≠ r.uid := by
                intro e
                obtain ⟨r0, hr0, rfl⟩ := List.mem_map.1 hr'
                refine hr.1 (List.mem_map.2 ⟨r0, hr0, ?_⟩)
                rw [← e]
                exact hu
              have := hh2.hit r' hr' (hu.trans hu1.symm)
              rw [hi1, q2 hne] at this
              exact this

/-! ### The rows of a control over several segments -/

theorem collectRows_uids {c : PControl K} {h1 h2 xa ha : K} {b : Bool} {uids : List String} :
    ((collectRows c h1 h2 xa ha b uids).map SegRow.uid).Sublist uids := by
  induction uids generalizing b with
  | nil => simp [collectRows]
  | cons u rest ih =>
    unfold collectRows
    split_ifs with h1' h2' h3
    · simpa using ih
    · simp
    · simpa using ih
    · exact ih.cons u

theorem collectRows_lines {c : PControl K} {h1 h2 xa ha : K} {b : Bool} {uids : List String}
    {r : SegRow K} (hr : r ∈ collectRows c h1 h2 xa ha b uids) :
    (r.etaI = 0 ∨ r.uid = c.segInner ∧ r.etaI = c.etaInner) ∧
    (r.etaO = 1 ∨ r.uid = c.segOuter ∧ r.etaO = c.etaOuter) ∧
    (r.xsiI = c.xsiInner ∨ r.xsiI = xa) ∧ (r.xsiO = c.xsiOuter ∨ r.xsiO = xa) ∧
    (r.hI = h1 ∨ r.hI = ha) ∧ (r.hO = h2 ∨ r.hO = ha) := by
  induction uids generalizing b with
  | nil => simp [collectRows] at hr
  | cons u rest ih =>
    unfold collectRows at hr
    split_ifs at hr with h1' h2' h3
    · rcases List.mem_cons.1 hr with rfl | hr
      · simp [h1']
      · exact ih hr
    · simp only [List.mem_singleton] at hr
      subst hr
      simp [h3]
    · rcases List.mem_cons.1 hr with rfl | hr
      · simp
      · exact ih hr
    · exact ih hr

theorem collectRows_true {c : PControl K} {h1 h2 xa ha : K} {uids : List String} {j : ℕ}
    (hi : c.segInner ∉ uids) (hn : uids.Nodup) (hj : uids[j]? = some c.segOuter) :
    (collectRows c h1 h2 xa ha true uids).length = j + 1 ∧
    ∀ m r, (collectRows c h1 h2 xa ha true uids)[m]? = some r →
      uids[m]? = some r.uid ∧ r.etaI = 0 ∧ r.etaO = if m = j then c.etaOuter else 1 := by
  induction uids generalizing j with
  | nil => simp at hj
  | cons u rest ih =>
    simp only [List.mem_cons, not_or] at hi
    simp only [List.nodup_cons] at hn
    unfold collectRows
    rw [if_neg (Ne.symm hi.1)]
    simp only [if_true]
    cases j with
    | zero =>
      simp only [List.getElem?_cons_zero, Option.some.injEq] at hj
      rw [if_pos hj]
      refine ⟨rfl, ?_⟩
      intro m r hm
      cases m with
      | zero =>
        simp only [List.getElem?_cons_zero, Option.some.injEq] at hm
        subst hm
        simp
      | succ m => simp at hm
    | succ j =>
      simp only [List.getElem?_cons_succ] at hj
      rw [if_neg (by
        rintro rfl
        exact hn.1 (List.mem_of_getElem? hj))]
      obtain ⟨hl, hh⟩ := ih hi.2 hn.2 hj
      refine ⟨by simp [hl], ?_⟩
      intro m r hm
      cases m with
      | zero =>
        simp only [List.getElem?_cons_zero, Option.some.injEq] at hm
        subst hm
        simp
      | succ m =>
        simp only [List.getElem?_cons_succ] at hm ⊢
        obtain ⟨q1, q2, q3⟩ := hh m r hm
        refine ⟨q1, q2, ?_⟩
        rw [q3]
        simp

theorem collectRows_false {c : PControl K} {h1 h2 xa ha : K} {uids : List String} {i j : ℕ}
    (hn : uids.Nodup) (hi : uids[i]? = some c.segInner) (hj : uids[j]? = some c.segOuter)
    (hij : i < j) :
    (collectRows c h1 h2 xa ha false uids).length = j - i + 1 ∧
    ∀ m r, (collectRows c h1 h2 xa ha false uids)[m]? = some r →
      uids[i + m]? = some r.uid ∧ r.etaI = (if m = 0 then c.etaInner else 0) ∧
      r.etaO = if m = j - i then c.etaOuter else 1 := by
  induction uids generalizing i j with
  | nil => simp at hj
  | cons u rest ih =>
    simp only [List.nodup_cons] at hn
    obtain ⟨j, rfl⟩ : ∃ j', j = j' + 1 := ⟨j - 1, by omega⟩
    simp only [List.getElem?_cons_succ] at hj
    unfold collectRows
    cases i with
    | zero =>
      simp only [List.getElem?_cons_zero, Option.some.injEq] at hi
      rw [if_pos hi]
      obtain ⟨hl, hh⟩ := collectRows_true (h1 := h1) (h2 := h2) (xa := xa) (ha := ha)
        (hi ▸ hn.1) hn.2 hj
      refine ⟨by simp [hl], ?_⟩
      intro m r hm
      cases m with
      | zero =>
        simp only [List.getElem?_cons_zero, Option.some.injEq] at hm
        subst hm
        simp
      | succ m =>
        simp only [List.getElem?_cons_succ] at hm
        obtain ⟨q1, q2, q3⟩ := hh m r hm
        refine ⟨by simpa using q1, by simpa using q2, ?_⟩
        rw [q3]
        simp
    | succ i =>
      simp only [List.getElem?_cons_succ] at hi
      rw [if_neg (by
        rintro rfl
        exact hn.1 (List.mem_of_getElem? hi))]
      simp only [Bool.false_eq_true, if_false]
      obtain ⟨hl, hh⟩ := ih hn.2 hi hj (by omega)
      refine ⟨by rw [hl]; omega, ?_⟩
      intro m r hm
      obtain ⟨q1, q2, q3⟩ := hh m r hm
      refine ⟨?_, q2, ?_⟩
      · rw [show i + 1 + m = (i + m) + 1 by omega, List.getElem?_cons_succ]
        exact q1
      · rw [q3]
        congr 2
        omega

theorem rowLengths_spec [IsStrictOrderedRing K] {dist : String → K → K → K → K → Option K} {l : K}
    {rows : List (SegRow K)} {ls : List (K × K)} (h : rowLengths dist l rows = .ok ls) :
    ls.length = rows.length ∧ (∀ p, ls[0]? = some p → p.1 = l) ∧
    (∀ m p q, ls[m]? = some p → ls[m + 1]? = some q → p.2 = q.1) ∧
    ((∀ r ∈ rows, ∀ d, dist r.uid r.etaI r.xsiI r.etaO r.xsiO = some d → 0 < d) →
      ∀ p ∈ ls, l < p.2) := by
  induction rows generalizing l ls with
  | nil =>
    simp only [rowLengths, Except.ok.injEq] at h
    subst h
    simp
  | cons r rest ih =>
    unfold rowLengths at h
    split at h
    · simp at h
    · rename_i d hd
      split at h
      · simp at h
      · rename_i ls' hls
        simp only [Except.ok.injEq] at h
        subst h
        obtain ⟨i1, i2, i3, i4⟩ := ih hls
        refine ⟨by simp [i1], by simp, ?_, ?_⟩
        · intro m p q hp hq
          cases m with
          | zero =>
            simp only [List.getElem?_cons_zero, Option.some.injEq] at hp
            simp only [zero_add, List.getElem?_cons_succ] at hq
            subst hp
            exact (i2 q hq).symm
          | succ m =>
            simp only [List.getElem?_cons_succ] at hp hq
            exact i3 m p q hp hq
        · intro hpos p hp
          have h0 := hpos r (by simp) d hd
          rcases List.mem_cons.1 hp with rfl | hp
          · simpa using h0
          · have := i4 (fun r hr => hpos r (List.mem_cons_of_mem _ hr)) p hp
            linarith

theorem linInterpol_zero (y0 y1 l : K) : linInterpol y0 y1 l 0 = y0 := by
  simp [linInterpol]

theorem linInterpol_end (y0 y1 : K) {l : K} (h : l ≠ 0) : linInterpol y0 y1 l l = y1 := by
  simp [linInterpol, div_self h]

/-- what `adjustRows` does -/
theorem adjustRows_spec [IsStrictOrderedRing K] {dist : String → K → K → K → K → Option K}
    {c : PControl K} {h1 h2 : K} {rows rows' : List (SegRow K)}
    (heq : c.xsiInner = c.xsiOuter → h1 = h2 → ∀ r ∈ rows, r.xsiI = c.xsiInner ∧
      r.xsiO = c.xsiOuter ∧ r.hI = h1 ∧ r.hO = h2)
    (h : adjustRows dist c h1 h2 rows = .ok rows') :
    rows'.map (fun r => (r.uid, r.etaI, r.etaO)) = rows.map (fun r => (r.uid, r.etaI, r.etaO)) ∧
    (∀ r, rows'[0]? = some r → r.xsiI = c.xsiInner ∧ r.hI = h1) ∧
    (∀ m r r', rows'[m]? = some r → rows'[m + 1]? = some r' → r.xsiO = r'.xsiI ∧ r.hO = r'.hI) ∧
    ((∀ r ∈ rows, ∀ d, dist r.uid r.etaI r.xsiI r.etaO r.xsiO = some d → 0 < d) →
      ∀ r, rows'.getLast? = some r → r.xsiO = c.xsiOuter ∧ r.hO = h2) := by
  unfold adjustRows at h
  split_ifs at h with hne
  · split at h
    · simp at h
    · rename_i ls hls
      simp only [Except.ok.injEq] at h
      subst h
      obtain ⟨e1, e2, e3, e4⟩ := rowLengths_spec hls
      have hget : ∀ (m : ℕ) (r : SegRow K), (List.zipWith (fun (r : SegRow K) (p : K × K) =>
          { r with
            xsiI := linInterpol c.xsiInner c.xsiOuter ((ls.getLast?.map Prod.snd).getD 0) p.1
            xsiO := linInterpol c.xsiInner c.xsiOuter ((ls.getLast?.map Prod.snd).getD 0) p.2
            hI := linInterpol h1 h2 ((ls.getLast?.map Prod.snd).getD 0) p.1
            hO := linInterpol h1 h2 ((ls.getLast?.map Prod.snd).getD 0) p.2 }) rows ls)[m]? =
          some r → ∃ (r0 : SegRow K) (p : K × K), rows[m]? = some r0 ∧ ls[m]? = some p ∧ r = { r0 with
            xsiI := linInterpol c.xsiInner c.xsiOuter ((ls.getLast?.map Prod.snd).getD 0) p.1
            xsiO := linInterpol c.xsiInner c.xsiOuter ((ls.getLast?.map Prod.snd).getD 0) p.2
            hI := linInterpol h1 h2 ((ls.getLast?.map Prod.snd).getD 0) p.1
            hO := linInterpol h1 h2 ((ls.getLast?.map Prod.snd).getD 0) p.2 } := by
        intro m r hm
        rw [List.getElem?_zipWith_eq_some] at hm
        obtain ⟨r0, p, q1, q2, q3⟩ := hm
        exact ⟨r0, p, q1, q2, q3.symm⟩
      refine ⟨?_, ?_, ?_, ?_⟩
      · clear hget e2 e3 e4 hls
        generalize (Option.map Prod.snd ls.getLast?).getD 0 = l
        induction rows generalizing ls with
        | nil => simp
        | cons r rest ih =>
          cases ls with
          | nil => simp at e1
          | cons p ls =>
            simp only [List.length_cons, Nat.add_right_cancel_iff] at e1
            simp only [List.zipWith_cons_cons, List.map_cons]
            rw [ih (fun h1 h2 r hr => heq h1 h2 r (List.mem_cons_of_mem _ hr)) ls e1]
      · intro r hr
        obtain ⟨r0, p, q1, q2, rfl⟩ := hget 0 r hr
        simp only [e2 p q2, linInterpol_zero]
        simp
      · intro m r r' hr hr'
        obtain ⟨r0, p, q1, q2, rfl⟩ := hget m r hr
        obtain ⟨r0', p', q1', q2', rfl⟩ := hget (m + 1) r' hr'
        simp only [e3 m p p' q2 q2']
        simp
      · intro hpos r hr
        rw [List.getLast?_eq_getElem?] at hr
        obtain ⟨r0, p, q1, q2, rfl⟩ := hget _ r hr
        simp only [List.length_zipWith, e1, min_self] at q2
        rw [← e1, ← List.getLast?_eq_getElem?] at q2
        have hp := e4 hpos p (List.mem_of_getLast? q2)
        simp only [q2, Option.map_some, Option.getD_some, linInterpol_end _ _ hp.ne']
        simp
  · simp only [Except.ok.injEq] at h
    subst h
    push Not at hne
    have := heq hne.1 hne.2
    refine ⟨rfl, ?_, ?_, ?_⟩
    · intro r hr
      have := this r (List.mem_of_getElem? hr)
      exact ⟨this.1, this.2.2.1⟩
    · intro m r r' hr hr'
      have q := this r (List.mem_of_getElem? hr)
      have q' := this r' (List.mem_of_getElem? hr')
      rw [q.2.1, q'.1, q.2.2.2, q'.2.2.1, hne.1, hne.2]
      exact ⟨rfl, rfl⟩
    · intro _ r hr
      have := this r (List.mem_of_getLast? hr)
      exact ⟨this.2.1, this.2.2.2⟩

/-- points of a segment at different spanwise coordinates have a positive distance -/
def DistPos (s : PSegment K) : Prop :=
  ∀ e1 x1 e2 x2, 0 ≤ e1 → e1 < e2 → e2 ≤ 1 → 0 ≤ x1 → x1 ≤ 1 → 0 ≤ x2 → x2 ≤ 1 →
    0 < s.dist e1 x1 e2 x2

/-- the requests of a control whose inner segment is number `i` and whose outer one is number `j` -/
structure ReqSpec (c : PControl K) (segs : List (PSegment K)) (i j : ℕ) (reqs : List (Req K)) :
    Prop where
  len : reqs.length = j - i + 1
  here : ∀ m r, reqs[m]? = some r → (segs.map PSegment.uid)[i + m]? = some r.uid ∧
    r.a = (if m = 0 then c.etaInner else 0) ∧ r.b = (if m = j - i then c.etaOuter else 1)
  first : ∀ r, reqs[0]? = some r → r.x1 = c.xsiInner ∧ r.g1.getD r.x1 = c.hInner.getD c.xsiInner
  next : ∀ m r r', reqs[m]? = some r → reqs[m + 1]? = some r' → r.x2 = r'.x1 ∧
    r.g2.getD r.x2 = r'.g1.getD r'.x1
  last : (∀ s ∈ segs, DistPos s) → 0 ≤ c.etaInner ∧ c.etaInner < 1 →
    0 < c.etaOuter ∧ c.etaOuter ≤ 1 → 0 ≤ c.xsiInner ∧ c.xsiInner ≤ 1 →
    0 ≤ c.xsiOuter ∧ c.xsiOuter ≤ 1 →
    ∀ r, reqs[j - i]? = some r → r.x2 = c.xsiOuter ∧ r.g2.getD r.x2 = c.hOuter.getD c.xsiOuter

theorem placeControl_reqs [IsStrictOrderedRing K] {c : PControl K} {segs segs' : List (PSegment K)}
    (hn : (segs.map PSegment.uid).Nodup) (h : placeControl c segs = .ok segs') :
    ∃ reqs : List (Req K), List.Forall₂ (ReqStep c.control reqs) segs segs' ∧
      (∀ r ∈ reqs, (r.a = 0 ∨ r.uid = c.segInner ∧ r.a = c.etaInner) ∧
        (r.b = 1 ∨ r.uid = c.segOuter ∧ r.b = c.etaOuter)) ∧
      ∀ i j, (segs.map PSegment.uid)[i]? = some c.segInner →
        (segs.map PSegment.uid)[j]? = some c.segOuter → i ≤ j → ReqSpec c segs i j reqs := by
  unfold placeControl at h
  split_ifs at h with hc
  · refine ⟨[⟨c.segInner, c.etaInner, c.etaOuter, c.xsiInner, c.xsiOuter, c.hInner, c.hOuter⟩],
      ?_, ?_, ?_⟩
    · refine (update_spec hn h).imp ?_
      rintro s s' ⟨q1, q2, q3⟩
      refine ⟨q1, ?_, ?_⟩
      · intro ho
        exact q2 (fun e => ho _ (List.mem_singleton.2 rfl) e.symm)
      · intro r hr hu
        simp only [List.mem_singleton] at hr
        subst hr
        exact asExcept_ok (q3 hu.symm)
    · intro r hr
      simp only [List.mem_singleton] at hr
      subst hr
      exact ⟨Or.inr ⟨rfl, rfl⟩, Or.inr ⟨hc, rfl⟩⟩
    · intro i j hi hj hij
      have hij' : i = j := by
        rw [← hc] at hj
        have hil : i < (segs.map PSegment.uid).length := by
          rcases List.getElem?_eq_some_iff.1 hi with ⟨h, -⟩; exact h
        exact (List.getElem?_inj hil hn).1 (hi.trans hj.symm)
      subst hij'
      refine ⟨by simp, ?_, ?_, ?_, ?_⟩
      · intro m r hm
        cases m with
        | zero =>
          simp only [List.getElem?_cons_zero, Option.some.injEq] at hm
          subst hm
          simp [hi]
        | succ m => simp at hm
      · intro r hr
        simp only [List.getElem?_cons_zero, Option.some.injEq] at hr
        subst hr
        exact ⟨rfl, rfl⟩
      · intro m r r' _ hr'
        simp at hr'
      · intro _ _ _ _ _ r hr
        simp only [Nat.sub_self, List.getElem?_cons_zero, Option.some.injEq] at hr
        subst hr
        exact ⟨rfl, rfl⟩
  · split at h
    · rename_i h1 h2 e1 e2
      dsimp only at h
      split at h
      · simp at h
      · rename_i rows' hadj
        have heq : c.xsiInner = c.xsiOuter → h1 = h2 → ∀ r ∈ collectRows c h1 h2
            ((c.xsiInner + c.xsiOuter) / 2) ((h1 + h2) / 2) false (segs.map PSegment.uid),
            r.xsiI = c.xsiInner ∧ r.xsiO = c.xsiOuter ∧ r.hI = h1 ∧ r.hO = h2 := by
          intro q1 q2 r hr
          obtain ⟨-, -, r1, r2, r3, r4⟩ := collectRows_lines hr
          have hx : (c.xsiInner + c.xsiOuter) / 2 = c.xsiInner := by rw [← q1]; ring
          have hh : (h1 + h2) / 2 = h1 := by rw [← q2]; ring
          rw [hx] at r1 r2
          rw [hh] at r3 r4
          refine ⟨by simpa using r1, ?_, by simpa using r3, ?_⟩
          · rcases r2 with r2 | r2
            · exact r2
            · rw [r2, q1]
          · rcases r4 with r4 | r4
            · exact r4
            · rw [r4, q2]
        obtain ⟨s1, s2, s3, s4⟩ := adjustRows_spec heq hadj
        have hget : ∀ (m : ℕ) (r : SegRow K), rows'[m]? = some r → ∃ r0 : SegRow K, (collectRows c h1 h2
            ((c.xsiInner + c.xsiOuter) / 2) ((h1 + h2) / 2) false (segs.map PSegment.uid))[m]? =
              some r0 ∧ r.uid = r0.uid ∧ r.etaI = r0.etaI ∧ r.etaO = r0.etaO := by
          intro m r hm
          have := congrArg (fun l => l[m]?) s1
          simp only [List.getElem?_map, hm, Option.map_some] at this
          cases h0 : (collectRows c h1 h2 ((c.xsiInner + c.xsiOuter) / 2) ((h1 + h2) / 2) false
            (segs.map PSegment.uid))[m]? with
          | none => rw [h0] at this; simp at this
          | some r0 =>
            rw [h0] at this
            simp only [Option.map_some, Option.some.injEq, Prod.mk.injEq] at this
            exact ⟨r0, rfl, this⟩
        have huids : rows'.map SegRow.uid = (collectRows c h1 h2 ((c.xsiInner + c.xsiOuter) / 2)
            ((h1 + h2) / 2) false (segs.map PSegment.uid)).map SegRow.uid := by
          have := congrArg (List.map Prod.fst) s1
          simpa [List.map_map, Function.comp_def] using this
        have hlen : rows'.length = (collectRows c h1 h2 ((c.xsiInner + c.xsiOuter) / 2)
            ((h1 + h2) / 2) false (segs.map PSegment.uid)).length := by
          simpa using congrArg List.length s1
        refine ⟨rows'.map SegRow.req, applyRows_reqs hn ?_ h, ?_, ?_⟩
        · rw [huids]
          exact hn.sublist collectRows_uids
        · intro q hq
          obtain ⟨r, hr, rfl⟩ := List.mem_map.1 hq
          obtain ⟨m, hm⟩ := List.mem_iff_getElem?.1 hr
          obtain ⟨r0, hr0, u1, u2, u3⟩ := hget m r hm
          obtain ⟨t1, t2, -⟩ := collectRows_lines (List.mem_of_getElem? hr0)
          simp only [SegRow.req, u1, u2, u3]
          exact ⟨t1, t2⟩
        · intro i j hi hj hij
          have hlt : i < j := by
            refine lt_of_le_of_ne hij ?_
            rintro rfl
            rw [hi] at hj
            simp only [Option.some.injEq] at hj
            exact hc hj
          obtain ⟨c1, c2⟩ := collectRows_false (h1 := h1) (h2 := h2)
            (xa := (c.xsiInner + c.xsiOuter) / 2) (ha := (h1 + h2) / 2) hn hi hj hlt
          refine ⟨by simp [hlen, c1], ?_, ?_, ?_, ?_⟩
          · intro m q hm
            rw [List.getElem?_map, Option.map_eq_some_iff] at hm
            obtain ⟨r, hm, rfl⟩ := hm
            obtain ⟨r0, hr0, u1, u2, u3⟩ := hget m r hm
            simp only [SegRow.req, u1, u2, u3]
            exact c2 m r0 hr0
          · intro q hm
            rw [List.getElem?_map, Option.map_eq_some_iff] at hm
            obtain ⟨r, hm, rfl⟩ := hm
            have := s2 r hm
            simp [SegRow.req, this.1, this.2, e1]
          · intro m q q' hq hq'
            rw [List.getElem?_map, Option.map_eq_some_iff] at hq hq'
            obtain ⟨r, hm, rfl⟩ := hq
            obtain ⟨r', hm', rfl⟩ := hq'
            have := s3 m r r' hm hm'
            simp [SegRow.req, this.1, this.2]
          · intro hpos hI hO hxI hxO q hq
            rw [List.getElem?_map, Option.map_eq_some_iff] at hq
            obtain ⟨r, hm, rfl⟩ := hq
            have hlast : rows'.getLast? = some r := by
              rw [List.getLast?_eq_getElem?, hlen, c1]
              simpa using hm
            have := s4 ?_ r hlast
            · simp [SegRow.req, this.1, this.2, e2]
            · intro r0 hr0 d hd
              unfold segDist at hd
              rw [Option.map_eq_some_iff] at hd
              obtain ⟨s, hs, rfl⟩ := hd
              obtain ⟨m, hm0⟩ := List.mem_iff_getElem?.1 hr0
              obtain ⟨-, t1, t2⟩ := c2 m r0 hm0
              obtain ⟨-, -, r1, r2, -⟩ := collectRows_lines hr0
              have w1 : 0 ≤ r0.xsiI ∧ r0.xsiI ≤ 1 := by
                rcases r1 with r1 | r1 <;> rw [r1]
                · exact hxI
                · constructor <;> linarith [hxI.1, hxI.2, hxO.1, hxO.2]
              have w2 : 0 ≤ r0.xsiO ∧ r0.xsiO ≤ 1 := by
                rcases r2 with r2 | r2 <;> rw [r2]
                · exact hxO
                · constructor <;> linarith [hxI.1, hxI.2, hxO.1, hxO.2]
              have w3 : 0 ≤ r0.etaI ∧ r0.etaI < r0.etaO ∧ r0.etaO ≤ 1 := by
                rw [t1, t2]
                split_ifs with z1 z2 z3
                · omega
                · exact ⟨hI.1, hI.2, le_rfl⟩
                · exact ⟨le_rfl, hO.1, hO.2⟩
                · exact ⟨le_rfl, zero_lt_one, le_rfl⟩
              exact hpos s (List.mem_of_find?_eq_some hs) _ _ _ _ w3.1 w3.2.1 w3.2.2 w1.1 w1.2
                w2.1 w2.2
    · simp at h

/-! ### All controls of a wing -/

theorem fresh_closedOk (interp : Interp K) (c : Control) :
    ClosedOk interp (fun d => d ≠ c) (fun sds : List (Strip K) => ∀ s ∈ sds, ¬ s.carries c) where
  split := by
    intro sds idx prev p n e d hT hidx _ _ hA hB _ hi
    have := inheritDevices_carries hi (c := c) (hT prev (List.mem_of_getElem? hidx))
      (by simp [Strip.carries, Strip.init])
    exact mem_set_append hT this.1 this.2
  add := by
    intro sds idx s s' d x1 x2 h1 h2 hd hT hidx ha
    refine mem_set_P hT ?_
    rw [addSubarea_carries ha]
    rintro (h | h)
    · exact hd h.symm
    · exact hT s (List.mem_of_getElem? hidx) h

theorem SegStep.closedOk {C : Control → Prop} {s s' : PSegment K} (h : SegStep C s s')
    {P : List (Strip K) → Prop} (hP : ClosedOk s.interp C P) (h0 : P s.strips) : P s'.strips := by
  obtain ⟨-, ops, hc, hr⟩ := h
  exact hP.runOpsOk (fun op hop => (hc op hop).2) h0 hr

/-- requested lines of a wing: for each segment a set of coordinates that contains 0, 1 and the
borders of all controls, and whose members are equal or at least 0.01 apart -/
structure LinesApart (cs : List (PControl K)) (S : String → Set K) : Prop where
  sep : ∀ u, Separated (S u)
  zero : ∀ u, (0 : K) ∈ S u
  one : ∀ u, (1 : K) ∈ S u
  inner : ∀ c ∈ cs, c.etaInner ∈ S c.segInner
  outer : ∀ c ∈ cs, c.etaOuter ∈ S c.segOuter

theorem reqs_in {c : PControl K} {cs : List (PControl K)} {S : String → Set K}
    (hS : LinesApart cs S) (hc : c ∈ cs) {reqs : List (Req K)}
    (h : ∀ r ∈ reqs, (r.a = 0 ∨ r.uid = c.segInner ∧ r.a = c.etaInner) ∧
        (r.b = 1 ∨ r.uid = c.segOuter ∧ r.b = c.etaOuter)) :
    ∀ r ∈ reqs, r.a ∈ S r.uid ∧ r.b ∈ S r.uid := by
  intro r hr
  obtain ⟨h1, h2⟩ := h r hr
  constructor
  · rcases h1 with h1 | ⟨h0, h1⟩
    · rw [h1]; exact hS.zero _
    · rw [h0, h1]; exact hS.inner c hc
  · rcases h2 with h2 | ⟨h0, h2⟩
    · rw [h2]; exact hS.one _
    · rw [h0, h2]; exact hS.outer c hc

theorem ReqStep.grid {c : Control} {reqs : List (Req K)} {s s' : PSegment K}
    (h : ReqStep c reqs s s') {S : String → Set K}
    (hr : ∀ r ∈ reqs, r.a ∈ S r.uid ∧ r.b ∈ S r.uid)
    (hg : Grid (S s.uid) s.strips ∧ ∀ t ∈ s.strips, ChordInv t) :
    Grid (S s'.uid) s'.strips ∧ ∀ t ∈ s'.strips, ChordInv t := by
  have hu : s'.uid = s.uid := by rw [h.rest]
  rw [hu]
  by_cases hin : ∃ r ∈ reqs, r.uid = s.uid
  · obtain ⟨r, hr0, hru⟩ := hin
    have hok := h.hit r hr0 hru
    have hl := hr r hr0
    rw [hru] at hl
    have g1 := (grid_closed s.interp (S s.uid)).addSubdivisionForControl (a := r.a) (b := r.b)
      hl.1 hl.2 c r.x1 r.x2 r.g1 r.g2 hg.1
    have g2 := (chordInv_closed s.interp).addSubdivisionForControl (a := r.a) (b := r.b)
      trivial trivial c r.x1 r.x2 r.g1 r.g2 hg.2
    rw [hok] at g1 g2
    exact ⟨g1, g2⟩
  · push Not at hin
    rw [h.out hin]
    exact hg

theorem forall₂_uids {R : PSegment K → PSegment K → Prop} {segs segs' : List (PSegment K)}
    (h : List.Forall₂ R segs segs') (hR : ∀ s s', R s s' → s'.uid = s.uid) :
    segs'.map PSegment.uid = segs.map PSegment.uid := by
  induction h with
  | nil => rfl
  | cons hh _ ih => simp only [List.map_cons, ih, hR _ _ hh]

/-- the state of one segment after all controls of the wing (and later lines) -/
structure SegPlaced (c : PControl K) (reqs : List (Req K)) (s s' : PSegment K) : Prop where
  rest : s' = { s with strips := s'.strips }
  tile : TileInv s'.strips
  chord : ∀ t ∈ s'.strips, ChordInv t
  out : (∀ r ∈ reqs, r.uid ≠ s.uid) → ∀ t ∈ s'.strips, ¬ t.carries c.control
  hit : ∀ r ∈ reqs, r.uid = s.uid → 0 ≤ r.a → r.a < r.b → r.b ≤ 1 →
    ∀ L LH : K → K → Prop, InterpClosed s.interp L → InterpClosed s.interp LH →
      L r.a r.x1 → L r.b r.x2 → LH r.a (r.g1.getD r.x1) → LH r.b (r.g2.getD r.x2) →
      Placed c.control r.a r.b r.x1 r.x2 (r.g1.getD r.x1) (r.g2.getD r.x2) L LH s'.strips

theorem SegPlaced.step [IsStrictOrderedRing K] {c : PControl K} {reqs : List (Req K)}
    {s s1 s2 : PSegment K} (h : SegPlaced c reqs s s1)
    (hs : SegStep (fun d => d ≠ c.control) s1 s2) : SegPlaced c reqs s s2 := by
  have hi : s1.interp = s.interp := by rw [h.rest]
  have hrun : TileInv s2.strips ∧ ∀ t ∈ s2.strips, ChordInv t := by
    obtain ⟨-, ops, -, hr⟩ := hs
    have hr := runOpsOk_run hr
    rw [← hr]
    have key : ∀ (P : List (Strip K) → Prop), Closed s1.interp (fun _ _ => True) P →
        ∀ (ops : List (SegOp K)) (s0 : List (Strip K)), P s0 →
          P (ops.foldl (fun sds op => op.run s1.interp sds) s0) := by
      intro P hP ops
      induction ops with
      | nil => intro s0 h0; exact h0
      | cons op rest ih =>
        intro s0 h0
        simp only [List.foldl_cons]
        refine ih _ (hP.run ?_ h0)
        cases op <;> simp [SegOp.Admits]
    exact ⟨key _ (tileInv_closed _) _ _ h.tile, key _ (chordInv_closed _) _ _ h.chord⟩
  refine ⟨by rw [hs.rest, h.rest], hrun.1, hrun.2, ?_, ?_⟩
  · intro ho
    exact hs.closedOk (fresh_closedOk _ _) (h.out ho)
  · intro r hr hu h0 h1 h2 L LH hL hLH q1 q2 q3 q4
    refine hs.closedOk ?_ (h.hit r hr hu h0 h1 h2 L LH hL hLH q1 q2 q3 q4)
    rw [← hi] at hL hLH
    exact placed_closedOk hL hLH

theorem forall₂_comp {α : Type*} {R Q T : α → α → Prop} (hR : ∀ {a b c}, R a b → Q b c → T a c)
    {a b c : List α} (h1 : List.Forall₂ R a b) (h2 : List.Forall₂ Q b c) :
    List.Forall₂ T a c := by
  induction h1 generalizing c with
  | nil => cases h2; exact .nil
  | cons hr _ ih =>
    cases h2 with
    | cons hr2 hs2 => exact .cons (hR hr hr2) (ih hs2)

theorem forall₂_and_right {α : Type*} {R : α → α → Prop} {P : α → Prop} {a b : List α}
    (h : List.Forall₂ R a b) (hP : ∀ x ∈ a, P x) : List.Forall₂ (fun x y => R x y ∧ P x) a b := by
  induction h with
  | nil => exact .nil
  | cons hh _ ih =>
    exact .cons ⟨hh, hP _ (by simp)⟩ (ih fun x hx => hP x (List.mem_cons_of_mem _ hx))

theorem placeControls_placed [IsStrictOrderedRing K] {all : List (PControl K)} {S : String → Set K}
    (hS : LinesApart all S) {c : PControl K} :
    ∀ {cs : List (PControl K)} {segs segs' : List (PSegment K)}, (∀ d ∈ cs, d ∈ all) →
      (cs.map PControl.control).Nodup → c ∈ cs → (segs.map PSegment.uid).Nodup →
      (∀ s ∈ segs, (Grid (S s.uid) s.strips ∧ ∀ t ∈ s.strips, ChordInv t) ∧
        ∀ t ∈ s.strips, ¬ t.carries c.control) →
      placeControls cs segs = .ok segs' →
      ∃ reqs : List (Req K), List.Forall₂ (SegPlaced c reqs) segs segs' ∧
        ∀ i j, (segs.map PSegment.uid)[i]? = some c.segInner →
          (segs.map PSegment.uid)[j]? = some c.segOuter → i ≤ j → ReqSpec c segs i j reqs := by
  intro cs
  induction cs with
  | nil => intro segs segs' _ _ hc; simp at hc
  | cons d rest ih =>
    intro segs segs' hall hnd hc hn hinv h
    unfold placeControls at h
    split at h
    · simp at h
    · rename_i segs1 h1
      obtain ⟨reqs, f1, hl, hspec⟩ := placeControl_reqs hn h1
      simp only [List.map_cons, List.nodup_cons] at hnd
      have hlines := reqs_in hS (hall d (by simp)) hl
      have huid := forall₂_uids f1 (fun s s' h => by rw [h.rest])
      rcases List.mem_cons.1 hc with hcd | hc'
      · subst hcd
        refine ⟨reqs, ?_, hspec⟩
        have g1 : List.Forall₂ (SegPlaced c reqs) segs segs1 := by
          refine (forall₂_and_right f1 hinv).imp ?_
          rintro s s1 ⟨hst, ⟨hg, hch⟩, hfr⟩
          have := hst.grid hlines ⟨hg, hch⟩
          refine ⟨hst.rest, this.1.tile, this.2, ?_, ?_⟩
          · intro ho
            rw [hst.out ho]
            exact hfr
          · intro r hr hu a0 ab b1 L LH hL hLH q1 q2 q3 q4
            have hlr := hlines r hr
            rw [hu] at hlr
            exact control_placed (hS.sep s.uid) hg hch hfr hlr.1 hlr.2 a0 ab b1 (hst.hit r hr hu)
              hL hLH q1 q2 q3 q4
        have g2 := placeControls_forall₂ (C := fun d => d ≠ c.control) (by
          intro d hd e
          exact hnd.1 (List.mem_map.2 ⟨d, hd, e⟩)) h
        exact forall₂_comp (R := SegPlaced c reqs) (Q := SegStep fun d => d ≠ c.control)
          (T := SegPlaced c reqs) (fun a b => SegPlaced.step a b) g1 g2
      · have hne : d.control ≠ c.control := by
          intro e
          exact hnd.1 (e ▸ List.mem_map.2 ⟨c, hc', rfl⟩)
        have f1' := placeControl_forall₂ (C := fun d => d ≠ c.control) hne h1
        have hinv1 : ∀ s ∈ segs1, (Grid (S s.uid) s.strips ∧ ∀ t ∈ s.strips, ChordInv t) ∧
            ∀ t ∈ s.strips, ¬ t.carries c.control := by
          intro s1 hs1
          obtain ⟨s, hs, hst, hss⟩ := forall₂_mem_right (R := fun s s1 => ReqStep d.control reqs s s1
            ∧ SegStep (fun d => d ≠ c.control) s s1) (by
              have : ∀ (l l' : List (PSegment K)), List.Forall₂ (ReqStep d.control reqs) l l' →
                  List.Forall₂ (SegStep fun d => d ≠ c.control) l l' →
                  List.Forall₂ (fun s s1 => ReqStep d.control reqs s s1
                    ∧ SegStep (fun d => d ≠ c.control) s s1) l l' := by
                intro l l' h1
                induction h1 with
                | nil => intro _; exact .nil
                | cons hh _ ih =>
                  intro h2
                  cases h2 with
                  | cons hh2 ht2 => exact .cons ⟨hh, hh2⟩ (ih ht2)
              exact this _ _ f1 f1') hs1
          exact ⟨hst.grid hlines (hinv s hs).1, hss.closedOk (fresh_closedOk _ _) (hinv s hs).2⟩
        obtain ⟨reqs2, g2, spec2⟩ := ih (fun d hd => hall d (List.mem_cons_of_mem _ hd)) hnd.2 hc'
          (huid ▸ hn) hinv1 h
        refine ⟨reqs2, ?_, ?_⟩
        · refine forall₂_comp ?_ f1 g2
          intro a b e ha hb
          have hu : b.uid = a.uid := by rw [ha.rest]
          have hi : b.interp = a.interp := by rw [ha.rest]
          refine ⟨by rw [hb.rest, ha.rest], hb.tile, hb.chord, ?_, ?_⟩
          · intro ho
            exact hb.out (by rw [hu]; exact ho)
          · intro r hr hru
            rw [← hi]
            exact hb.hit r hr (hru.trans hu.symm)
        · intro i j hi hj hij
          have := spec2 i j (by rw [huid]; exact hi) (by rw [huid]; exact hj) hij
          refine ⟨this.len, ?_, this.first, this.next, ?_⟩
          · intro m r hm
            have := this.here m r hm
            rw [huid] at this
            exact this
          · intro hpos
            refine this.last ?_
            intro s1 hs1
            obtain ⟨s, hs, hst⟩ := forall₂_mem_right f1 hs1
            have : s1.dist = s.dist := by rw [hst.rest]
            unfold DistPos
            rw [this]
            exact hpos s hs

end Verif
