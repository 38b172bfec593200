import Verif.Model.Cpacs
import Verif.Props.State
import Verif.Props.Run

/-!
# Properties C62, C63, C85, C87: CPACS import and export
-/

namespace Verif

/-! ## C62 -/

section
variable {K : Type*} [Field K] [LinearOrder K]

/-- The corners in the order of their names. -/
def Corners.toList {P : Type*} (v : Corners P) : List P := [v.a, v.b, v.c, v.d]

/-- `p` is not further out than `q`: spanwise coordinate y, for equal y the height z. -/
def NotFurtherOut (p q : V3 K) : Prop := p.y < q.y ∨ (p.y = q.y ∧ p.z ≤ q.z)

/-- Corners as the code expects them: `a`, `d` at the root and `b`, `c` at the tip, `a`, `b` on the
leading edge and `d`, `c` on the trailing edge. -/
structure OrderedCorners (v : Corners (V3 K)) : Prop where
  leading : NotFurtherOut v.a v.b
  trailing : NotFurtherOut v.d v.c
  root : v.a.x ≤ v.d.x
  tip : v.b.x ≤ v.c.x

/-- Ordered pairs of opposite corners. -/
def Corners.diagonals {P : Type*} (v : Corners P) : List (P × P) :=
  [(v.a, v.c), (v.c, v.a), (v.b, v.d), (v.d, v.b)]

/-- The edges of the outline are the same: opposite corners stay opposite. -/
def SameOutline {P : Type*} (v w : Corners P) : Prop :=
  (w.a, w.c) ∈ v.diagonals ∧ (w.b, w.d) ∈ v.diagonals

section
variable [IsStrictOrderedRing K]

theorem pointBefore_iff (q p : V3 K) : pointBefore q p = true ↔ ¬ NotFurtherOut p q := by
  unfold pointBefore NotFurtherOut
  simp only [Bool.or_eq_true, Bool.and_eq_true, decide_eq_true_eq, sub_neg]
  constructor
  · rintro (h | ⟨h1, h2⟩) (h3 | ⟨h3, h4⟩)
    · exact lt_asymm h h3
    · exact ne_of_gt h h3
    · exact ne_of_gt h3 h1
    · exact not_lt.2 h4 h2
  · intro h
    rcases lt_trichotomy q.y p.y with h1 | h1 | h1
    · exact .inl h1
    · refine .inr ⟨h1, ?_⟩
      by_contra h2
      exact h (.inr ⟨h1.symm, not_lt.1 h2⟩)
    · exact absurd (.inl h1) h

/-- Step 1 of the re-ordering. -/
def reorder1 (v : Corners (V3 K)) : Corners (V3 K) :=
  if pointBefore v.b v.a then ⟨v.b, v.a, v.c, v.d⟩ else v
/-- Step 2 of the re-ordering. -/
def reorder2 (v : Corners (V3 K)) : Corners (V3 K) :=
  if pointBefore v.c v.d then ⟨v.a, v.b, v.d, v.c⟩ else v
/-- Step 3 of the re-ordering. -/
def reorder3 (v : Corners (V3 K)) : Corners (V3 K) :=
  if v.d.x - v.a.x < 0 then ⟨v.d, v.b, v.c, v.a⟩ else v
/-- Step 4 of the re-ordering. -/
def reorder4 (v : Corners (V3 K)) : Corners (V3 K) :=
  if v.c.x - v.b.x < 0 then ⟨v.a, v.c, v.b, v.d⟩ else v

omit [IsStrictOrderedRing K] in
theorem reorder_eq (v : Corners (V3 K)) :
    reorderCorners v = reorder4 (reorder3 (reorder2 (reorder1 v))) := rfl

omit [IsStrictOrderedRing K] in
/-- **C62**: the result holds the same four corners, each once. -/
theorem C62_permutation (v : Corners (V3 K)) : (reorderCorners v).toList.Perm v.toList := by
  classical
  have h1 : ∀ v : Corners (V3 K), (reorder1 v).toList.Perm v.toList := by
    intro v
    unfold reorder1 Corners.toList
    split_ifs
    · exact List.Perm.swap _ _ _
    · exact List.Perm.refl _
  have h2 : ∀ v : Corners (V3 K), (reorder2 v).toList.Perm v.toList := by
    intro v
    unfold reorder2 Corners.toList
    split_ifs
    · exact ((List.Perm.swap _ _ _).cons _).cons _
    · exact List.Perm.refl _
  have h3 : ∀ v : Corners (V3 K), (reorder3 v).toList.Perm v.toList := by
    intro v
    unfold reorder3 Corners.toList
    split_ifs
    · rw [List.perm_iff_count]
      intro x
      simp only [List.count_cons]
      omega
    · exact List.Perm.refl _
  have h4 : ∀ v : Corners (V3 K), (reorder4 v).toList.Perm v.toList := by
    intro v
    unfold reorder4 Corners.toList
    split_ifs
    · exact (List.Perm.swap _ _ _).cons _
    · exact List.Perm.refl _
  rw [reorder_eq]
  exact (h4 _).trans ((h3 _).trans ((h2 _).trans (h1 _)))

/-- **C62**: corners in order are left alone. -/
theorem C62_ordered_kept (v : Corners (V3 K)) (h : OrderedCorners v) : reorderCorners v = v := by
  have e1 : reorder1 v = v := if_neg fun h1 => (pointBefore_iff _ _).1 h1 h.leading
  have e2 : reorder2 v = v := if_neg fun h1 => (pointBefore_iff _ _).1 h1 h.trailing
  have e3 : reorder3 v = v := if_neg (by rw [sub_neg]; exact not_lt.2 h.root)
  have e4 : reorder4 v = v := if_neg (by rw [sub_neg]; exact not_lt.2 h.tip)
  rw [reorder_eq, e1, e2, e3, e4]

/-- **C62**: afterwards the corners of the leading edge are not behind those of the trailing edge. -/
theorem C62_leading_edge (v : Corners (V3 K)) :
    (reorderCorners v).a.x ≤ (reorderCorners v).d.x ∧
    (reorderCorners v).b.x ≤ (reorderCorners v).c.x := by
  have h3 : ∀ w : Corners (V3 K), (reorder3 w).a.x ≤ (reorder3 w).d.x := by
    intro w
    unfold reorder3
    split_ifs with h
    · exact le_of_lt (sub_neg.1 h)
    · exact not_lt.1 fun h2 => h (sub_neg.2 h2)
  have h4 : ∀ w : Corners (V3 K), (reorder4 w).b.x ≤ (reorder4 w).c.x ∧
      (reorder4 w).a = w.a ∧ (reorder4 w).d = w.d := by
    intro w
    unfold reorder4
    split_ifs with h
    · exact ⟨le_of_lt (sub_neg.1 h), rfl, rfl⟩
    · exact ⟨not_lt.1 fun h2 => h (sub_neg.2 h2), rfl, rfl⟩
  rw [reorder_eq]
  obtain ⟨a1, a2, a3⟩ := h4 (reorder3 (reorder2 (reorder1 v)))
  refine ⟨?_, a1⟩
  rw [a2, a3]
  exact h3 _

/-- The chord `a`-`d` lies not further out than the chord `b`-`c`. -/
def ChordsInOrder (v : Corners (V3 K)) : Prop :=
  NotFurtherOut v.a v.b ∧ NotFurtherOut v.a v.c ∧ NotFurtherOut v.d v.b ∧ NotFurtherOut v.d v.c

omit [Field K] [IsStrictOrderedRing K] in
theorem NotFurtherOut.trans {p q r : V3 K} (h1 : NotFurtherOut p q) (h2 : NotFurtherOut q r) :
    NotFurtherOut p r := by
  rcases h1 with h1 | ⟨h1, h1'⟩ <;> rcases h2 with h2 | ⟨h2, h2'⟩
  · exact .inl (h1.trans h2)
  · exact .inl (h2 ▸ h1)
  · exact .inl (h1 ▸ h2)
  · exact .inr ⟨h1.trans h2, h1'.trans h2'⟩

/-- **C62** (spanwise order, in part): if one of the two chords lies as a whole not further out than the
other, the corners are in order afterwards.  Missing: segments whose chords overlap spanwise (see
`C62_spanwise_false`). -/
theorem C62_spanwise_partial (v : Corners (V3 K))
    (h : ChordsInOrder v ∨ ChordsInOrder ⟨v.b, v.a, v.d, v.c⟩) :
    OrderedCorners (reorderCorners v) := by
  have key : ChordsInOrder (reorder2 (reorder1 v)) := by
    rcases h with h | h
    · have e1 : reorder1 v = v := if_neg fun h1 => (pointBefore_iff _ _).1 h1 h.1
      have e2 : reorder2 v = v := if_neg fun h1 => (pointBefore_iff _ _).1 h1 h.2.2.2
      rw [e1, e2]
      exact h
    · obtain ⟨a, b, c, d⟩ := v
      obtain ⟨h1, h2, h3, h4⟩ := h
      simp only at h1 h2 h3 h4
      unfold reorder1
      simp only
      split_ifs with g1
      · unfold reorder2
        simp only
        split_ifs with g2
        · exact ⟨h1, h2, h3, h4⟩
        · have g2' : NotFurtherOut d c := by
            by_contra hx
            exact g2 ((pointBefore_iff _ _).2 hx)
          exact ⟨h1, h2.trans g2', g2'.trans h3, g2'⟩
      · have g1' : NotFurtherOut a b := by
          by_contra hx
          exact g1 ((pointBefore_iff _ _).2 hx)
        unfold reorder2
        simp only
        split_ifs with g2
        · exact ⟨g1', g1'.trans h2, h3.trans g1', h4⟩
        · have g2' : NotFurtherOut d c := by
            by_contra hx
            exact g2 ((pointBefore_iff _ _).2 hx)
          exact ⟨g1', (g1'.trans h2).trans g2', (g2'.trans h3).trans g1', g2'⟩
  have k3 : ChordsInOrder (reorder3 (reorder2 (reorder1 v))) := by
    generalize reorder2 (reorder1 v) = w at key
    unfold reorder3
    split_ifs
    · exact ⟨key.2.2.1, key.2.2.2, key.1, key.2.1⟩
    · exact key
  have k4 : ChordsInOrder (reorderCorners v) := by
    rw [reorder_eq]
    generalize reorder3 (reorder2 (reorder1 v)) = w at k3
    unfold reorder4
    split_ifs
    · exact ⟨k3.2.1, k3.1, k3.2.2.2, k3.2.2.1⟩
    · exact k3
  obtain ⟨x1, x2⟩ := C62_leading_edge v
  exact ⟨k4.1, k4.2.2.2, x1, x2⟩

/-- **C62** (outline, in part): if one chord lies further out than the other and both chords run in the
same direction, the re-ordering keeps the outline.  Missing: other segments (see
`C62_outline_false`). -/
theorem C62_outline_partial (v : Corners (V3 K))
    (hs : (NotFurtherOut v.a v.b ∧ NotFurtherOut v.d v.c) ∨
      (¬ NotFurtherOut v.a v.b ∧ ¬ NotFurtherOut v.d v.c))
    (hc : (v.a.x ≤ v.d.x ∧ v.b.x ≤ v.c.x) ∨ (v.d.x < v.a.x ∧ v.c.x < v.b.x)) :
    SameOutline v (reorderCorners v) := by
  obtain ⟨a, b, c, d⟩ := v
  simp only at hs hc
  have key : reorder2 (reorder1 ⟨a, b, c, d⟩) = ⟨a, b, c, d⟩ ∨
      reorder2 (reorder1 ⟨a, b, c, d⟩) = ⟨b, a, d, c⟩ := by
    rcases hs with ⟨h1, h2⟩ | ⟨h1, h2⟩
    · left
      have e1 : reorder1 ⟨a, b, c, d⟩ = ⟨a, b, c, d⟩ := if_neg fun h => (pointBefore_iff _ _).1 h h1
      have e2 : reorder2 ⟨a, b, c, d⟩ = ⟨a, b, c, d⟩ := if_neg fun h => (pointBefore_iff _ _).1 h h2
      rw [e1, e2]
    · right
      have e1 : reorder1 ⟨a, b, c, d⟩ = ⟨b, a, c, d⟩ := if_pos ((pointBefore_iff _ _).2 h1)
      have e2 : reorder2 ⟨b, a, c, d⟩ = ⟨b, a, d, c⟩ := if_pos ((pointBefore_iff _ _).2 h2)
      rw [e1, e2]
  rw [reorder_eq]
  have r3 : ∀ w : Corners (V3 K), w.a.x ≤ w.d.x → reorder3 w = w := fun w h =>
    if_neg (by rw [sub_neg]; exact not_lt.2 h)
  have r4 : ∀ w : Corners (V3 K), w.b.x ≤ w.c.x → reorder4 w = w := fun w h =>
    if_neg (by rw [sub_neg]; exact not_lt.2 h)
  have s3 : ∀ w : Corners (V3 K), w.d.x < w.a.x → reorder3 w = ⟨w.d, w.b, w.c, w.a⟩ := fun w h =>
    if_pos (sub_neg.2 h)
  have s4 : ∀ w : Corners (V3 K), w.c.x < w.b.x → reorder4 w = ⟨w.a, w.c, w.b, w.d⟩ := fun w h =>
    if_pos (sub_neg.2 h)
  rcases key with e | e <;> rw [e] <;> rcases hc with ⟨h1, h2⟩ | ⟨h1, h2⟩
  · rw [r3 _ h1, r4 _ h2]; simp [SameOutline, Corners.diagonals]
  · rw [s3 _ h1, s4 _ h2]; simp [SameOutline, Corners.diagonals]
  · rw [r3 _ h2, r4 _ h1]; simp [SameOutline, Corners.diagonals]
  · rw [s3 _ h2, s4 _ h1]; simp [SameOutline, Corners.diagonals]

end

/-- **C62** does not hold for the outline: a fin whose tip is turned about the vertical is imported
with root and tip of the leading edge exchanged, those of the trailing edge not. -/
theorem C62_outline_false :
    ∃ v : Corners (V3 ℚ), reorderCorners v = ⟨v.b, v.a, v.c, v.d⟩ ∧
      ¬ SameOutline v (reorderCorners v) ∧
      v = ⟨⟨0, 0, 0⟩, ⟨1 / 2, -(1 / 10), 2⟩, ⟨3 / 2, 1 / 10, 2⟩, ⟨1, 0, 0⟩⟩ := by
  refine ⟨⟨⟨0, 0, 0⟩, ⟨1 / 2, -(1 / 10), 2⟩, ⟨3 / 2, 1 / 10, 2⟩, ⟨1, 0, 0⟩⟩, ?_, ?_, rfl⟩
  · decide +kernel
  · unfold SameOutline Corners.diagonals
    decide +kernel

/-- **C62** does not hold for the spanwise order. -/
theorem C62_spanwise_false :
    ∃ v : Corners (V3 ℚ), ¬ NotFurtherOut (reorderCorners v).a (reorderCorners v).b := by
  refine ⟨⟨⟨1, 0, 0⟩, ⟨0, 1, 0⟩, ⟨2, 4, 0⟩, ⟨0, 3, 0⟩⟩, ?_⟩
  unfold NotFurtherOut
  decide +kernel

-- a left wing with the tip first and the chord against the flow is put in order
example : reorderCorners (⟨⟨2, -1, 0⟩, ⟨2, -5, 0⟩, ⟨1, -5, 0⟩, ⟨0, -1, 0⟩⟩ : Corners (V3 ℚ)) =
    ⟨⟨1, -5, 0⟩, ⟨0, -1, 0⟩, ⟨2, -1, 0⟩, ⟨2, -5, 0⟩⟩ := by decide +kernel

example : ChordsInOrder (⟨⟨2, -5, 0⟩, ⟨2, -1, 0⟩, ⟨0, -1, 0⟩, ⟨1, -5, 0⟩⟩ : Corners (V3 ℚ)) := by
  unfold ChordsInOrder NotFurtherOut
  decide +kernel

end

/-! ## C63 -/

/-- Path of a column of the aeroperformance map. -/
def columnPath (p : Name) (col : String) : Name := p ++ '/' :: col.toList

theorem lastComponent_column (p k : Name) (h : '/' ∉ k) : lastComponent (p ++ '/' :: k) = k := by
  unfold lastComponent
  have e : (p ++ '/' :: k).reverse = k.reverse ++ '/' :: p.reverse := by simp
  rw [e, List.takeWhile_append_of_pos]
  · simp
  · intro c hc
    simp only [bne_iff_ne]
    rintro rfl
    exact h (List.mem_reverse.1 hc)

/-- A column of the map is written to its own path; nothing else changes. -/
theorem addVector_column (doc : XmlDoc) (p : Name) (col : String) (v : List (Flt ℝ))
    (h : '/' ∉ col.toList) (h0 : col.toList ≠ []) (hp : (doc p).isSome = true) :
    addVector doc (columnPath p col) v = .ok (Function.update doc (columnPath p col) (some v)) := by
  unfold addVector columnPath
  have hl : (p ++ '/' :: col.toList).getLast? ≠ some '/' := by
    rw [List.getLast?_append, List.getLast?_cons]
    simp only [Option.some_or, ne_eq, Option.some.injEq]
    intro e
    cases hg : col.toList.getLast? with
    | none => exact h0 (List.getLast?_eq_none_iff.1 hg)
    | some c =>
      rw [hg, Option.getD_some] at e
      subst e
      exact h (List.mem_of_getLast? hg)
  rw [if_neg hl]
  simp only [lastComponent_column p _ h]
  have hpar : (p ++ '/' :: col.toList).take ((p ++ '/' :: col.toList).length -
      (col.toList.length + 1)) = p := by
    simp
  rw [hpar]
  obtain ⟨w, hw⟩ := Option.isSome_iff_exists.1 hp
  cases doc (p ++ '/' :: col.toList) with
  | some _ => rfl
  | none => rw [hw]

/-- The six columns and the global coefficients that belong to them: lift, drag, side force, rolling,
pitching and yawing moment. -/
def apmColumns : List (String × String) :=
  [("cl", "CL"), ("cd", "CD"), ("cs", "CC"), ("cmd", "Cl"), ("cms", "Cm"), ("cml", "Cn")]

theorem columnPath_inj {p : Name} {c c' : String} : columnPath p c = columnPath p c' ↔ c = c' := by
  unfold columnPath
  constructor
  · intro h
    have := List.append_cancel_left h
    rw [List.cons.injEq] at this
    exact String.toList_injective this.2
  · rintro rfl
    rfl

theorem columnPath_ne {p : Name} {c : String} : columnPath p c ≠ p := by
  intro h
  have := congrArg List.length h
  simp [columnPath] at this

theorem saveColumns_ok (t : ApmInfo) (p : Name) (ht : t.path = .ok p) (results : Table)
    (val : String → List (Flt ℝ)) : ∀ (order : List (String × String)) (doc : XmlDoc),
    (∀ m ∈ order, results m.2 = some (val m.2)) → (∀ m ∈ order, '/' ∉ m.1.toList ∧ m.1.toList ≠ []) →
    (order.map Prod.fst).Nodup → (doc p).isSome = true →
    ∃ doc', saveColumns t results order doc = (doc', none) ∧
      (∀ m ∈ order, doc' (columnPath p m.1) = some (val m.2)) ∧
      ∀ q, (∀ m ∈ order, q ≠ columnPath p m.1) → doc' q = doc q := by
  intro order
  induction order with
  | nil =>
    intro doc _ _ _ _
    exact ⟨doc, rfl, by simp, fun _ _ => rfl⟩
  | cons m rest ih =>
    intro doc hr hk hn hp
    rw [List.map_cons, List.nodup_cons] at hn
    have hp' : ((Function.update doc (columnPath p m.1) (some (val m.2))) p).isSome = true := by
      rw [Function.update_of_ne columnPath_ne.symm]
      exact hp
    obtain ⟨doc', h1, h2, h3⟩ := ih _ (fun m' hm => hr m' (by simp [hm]))
      (fun m' hm => hk m' (by simp [hm])) hn.2 hp'
    refine ⟨doc', ?_, ?_, ?_⟩
    · unfold saveColumns
      have := addVector_column doc p m.1 (val m.2) (hk m (by simp)).1 (hk m (by simp)).2 hp
      unfold columnPath at this h1
      simp only [ht, hr m (by simp), this]
      exact h1
    · intro m' hm
      rcases List.mem_cons.1 hm with rfl | hm2
      · rw [h3, Function.update_self]
        intro m'' hm'' e
        rw [columnPath_inj] at e
        exact hn.1 (List.mem_map.2 ⟨m'', hm'', e.symm⟩)
      · exact h2 m' hm2
    · intro q hq
      rw [h3 q fun m' hm => hq m' (by simp [hm]), Function.update_of_ne (hq m (by simp))]

/-- The element of the aeroperformance map in use: the only one there is, whatever the settings of the
tool say; otherwise the one named in the settings of the tool. -/
def ChosenMap (t : ApmInfo) (x : Name) : Prop :=
  (t.count = 1 ∧ ∃ u, t.singleUid = some u ∧ t.xpathOf u = some x) ∨
  (t.count ≠ 1 ∧ ∃ u, t.toolUid = some u ∧ t.xpathOf u = some x)

/-- The element below which the columns are. -/
def mapElement (x : Name) : Name := x ++ "/aeroPerformanceMap".toList

theorem chosen_path {t : ApmInfo} {x : Name} (h : ChosenMap t x) : t.path = .ok (mapElement x) := by
  unfold ApmInfo.path ApmInfo.uid
  rcases h with ⟨hc, u, h1, h2⟩ | ⟨hc, u, h1, h2⟩
  · rw [if_pos hc, h1]
    simp only [h2]
    rfl
  · rw [if_neg hc, h1]
    simp only [h2]
    rfl

theorem path_chosen {t : ApmInfo} {p : Name} (h : t.path = .ok p) :
    ∃ x, ChosenMap t x ∧ p = mapElement x := by
  unfold ApmInfo.path at h
  split at h
  · simp at h
  · rename_i u hu
    split at h
    · simp at h
    · rename_i x hx
      refine ⟨x, ?_, (Except.ok.inj h).symm⟩
      unfold ApmInfo.uid at hu
      split_ifs at hu with hc
      · exact .inl ⟨hc, u, hu, hx⟩
      · exact .inr ⟨hc, u, hu, hx⟩

/-- **C63**: in a document that has the aeroperformance map in question, the six columns are written,
whatever the order in which the code runs through its set of columns; each holds the global results of
its own coefficient, and every other element of the document is as before. -/
theorem C63_columns (t : ApmInfo) (x p : Name) (hx : ChosenMap t x) (hpx : p = mapElement x) (results : Table)
    (val : String → List (Flt ℝ)) (hr : ∀ m ∈ apmColumns, results m.2 = some (val m.2)) (doc : XmlDoc)
    (hp : (doc p).isSome = true) (order : List (String × String)) (ho : order.Perm cpacsMappings) :
    ∃ doc', saveColumns t results order doc = (doc', none) ∧
      (∀ m ∈ apmColumns, doc' (columnPath p m.1) = some (val m.2)) ∧
      ∀ q, (∀ m ∈ apmColumns, q ≠ columnPath p m.1) → doc' q = doc q := by
  have hmem : ∀ m, m ∈ order ↔ m ∈ apmColumns := fun m => ho.mem_iff
  have hk : ∀ m ∈ apmColumns, '/' ∉ m.1.toList ∧ m.1.toList ≠ [] := by decide
  have hn : (order.map Prod.fst).Nodup := (ho.map Prod.fst).nodup_iff.2 (by decide)
  obtain ⟨doc', h1, h2, h3⟩ := saveColumns_ok t p (hpx ▸ chosen_path hx) results val order doc
    (fun m hm => hr m ((hmem m).1 hm)) (fun m hm => hk m ((hmem m).1 hm)) hn hp
  exact ⟨doc', h1, fun m hm => h2 m ((hmem m).2 hm), fun q hq => h3 q fun m hm => hq m ((hmem m).1 hm)⟩

/-- **C63**: without that map in the document nothing is written. -/
theorem C63_no_map (t : ApmInfo) (results : Table) (doc : XmlDoc) (order : List (String × String))
    (ho : order.Perm cpacsMappings)
    (h : ∀ x, ChosenMap t x → doc (mapElement x) = none ∧
      ∀ m ∈ apmColumns, doc (columnPath (mapElement x) m.1) = none) :
    ∃ e, saveColumns t results order doc = (doc, some e) := by
  replace h : (∃ e, t.path = .error e) ∨ ∃ p, t.path = .ok p ∧ doc p = none ∧
      ∀ m ∈ apmColumns, doc (columnPath p m.1) = none := by
    cases hp : t.path with
    | error e => exact .inl ⟨e, rfl⟩
    | ok p =>
      obtain ⟨x, hx, rfl⟩ := path_chosen hp
      exact .inr ⟨_, rfl, h x hx⟩
  cases order with
  | nil => exact absurd ho.length_eq (by decide)
  | cons m rest =>
    have hm : m ∈ apmColumns := ho.mem_iff.1 (by simp)
    unfold saveColumns
    rcases h with ⟨e, he⟩ | ⟨p, hp, h1, h2⟩
    · exact ⟨e, by rw [he]⟩
    · rw [hp]
      simp only
      cases hr : results m.2 with
      | none => exact ⟨_, rfl⟩
      | some v =>
        have hk : ∀ m ∈ apmColumns, '/' ∉ m.1.toList ∧ m.1.toList.getLast? ≠ some '/' ∧
            m.1.toList ≠ [] := by decide
        obtain ⟨k1, k2, k3⟩ := hk m hm
        have ha : addVector doc (p ++ '/' :: m.1.toList) v = .error .external := by
          unfold addVector
          have hl : (p ++ '/' :: m.1.toList).getLast? ≠ some '/' := by
            rw [List.getLast?_append, List.getLast?_cons]
            simp only [Option.some_or, ne_eq, Option.some.injEq]
            cases hg : m.1.toList.getLast? with
            | none => exact absurd (List.getLast?_eq_none_iff.1 hg) k3
            | some c =>
              rw [hg] at k2
              simpa using k2
          rw [if_neg hl]
          simp only [lastComponent_column p _ k1]
          have hpar : (p ++ '/' :: m.1.toList).take ((p ++ '/' :: m.1.toList).length -
              (m.1.toList.length + 1)) = p := by
            simp
          have := h2 m hm
          unfold columnPath at this
          rw [hpar, this, h1]
        simp only [ha]
        exact ⟨_, rfl⟩

/-- **C63**: after a finished run, each of the six columns has one value per flight state, in the order
of the states, computed from that state. -/
theorem C63_after_run (env : RunEnv) (hd : Lapack env.dgesv) (ac : PAircraft ℝ) (st : FlightSt ℝ)
    (out : RunOut) (h : standardRun env ac st = .ok out) (t : ApmInfo) (x p : Name)
    (hx : ChosenMap t x) (hpx : p = mapElement x) (doc : XmlDoc) (hp : (doc p).isSome = true)
    (order : List (String × String)) (ho : order.Perm cpacsMappings) :
    ∃ ac' as doc', Panelled env ac ac' ∧ AllAnalysed env ac' st as ∧
      saveColumns t out.table order doc = (doc', none) ∧
      (∀ m ∈ apmColumns, ∃ g, (m.2, g) ∈ runColumns ∧
        doc' (columnPath p m.1) = some (as.map g)) ∧
      ∀ q, (∀ m ∈ apmColumns, q ≠ columnPath p m.1) → doc' q = doc q := by
  obtain ⟨ac', as, h1, h2, -, h3, -⟩ := C59_one_row_per_state env hd ac st out h
  have hk : ∀ m ∈ apmColumns, ∃ g, (m.2, g) ∈ runColumns := by
    intro m hm
    simp only [apmColumns, List.mem_cons, List.not_mem_nil, or_false] at hm
    rcases hm with rfl | rfl | rfl | rfl | rfl | rfl <;> (simp [runColumns])
  obtain ⟨doc', g1, g2, g3⟩ := C63_columns t x p hx hpx out.table
    (fun k => (out.table k).getD []) (fun m hm => by
      obtain ⟨g, hg⟩ := hk m hm
      rw [h3 _ hg]
      rfl) doc hp order ho
  refine ⟨ac', as, doc', h1, h2, g1, fun m hm => ?_, g3⟩
  obtain ⟨g, hg⟩ := hk m hm
  refine ⟨g, hg, ?_⟩
  rw [g2 m hm, h3 _ hg]
  rfl


/-- A file with two maps, the second selected. -/
def twoMaps : ApmInfo :=
  ⟨2, some "m1".toList, some "m2".toList,
    fun u => if u = "m2".toList then some "/cpacs/x/aeroMap[2]".toList else none⟩

-- the hypotheses of `C63_columns` are met: a map whose column `cl` exists
example : ∃ doc : XmlDoc, ChosenMap twoMaps "/cpacs/x/aeroMap[2]".toList ∧
    mapElement "/cpacs/x/aeroMap[2]".toList = "/cpacs/x/aeroMap[2]/aeroPerformanceMap".toList ∧
    (doc "/cpacs/x/aeroMap[2]/aeroPerformanceMap".toList).isSome = true ∧
    doc "/cpacs/x/aeroMap[2]/aeroPerformanceMap/cl".toList = some [.fin 7] := by
  refine ⟨fun q => if q = "/cpacs/x/aeroMap[2]/aeroPerformanceMap/cl".toList then some [.fin 7]
    else some [], .inr ⟨by decide, "m2".toList, rfl, by decide⟩, by decide,
    by simp only []; split_ifs <;> rfl,
    if_pos rfl⟩

/-! ## C85 -/

section
variable {K : Type*} [Field K] [LinearOrder K] [IsStrictOrderedRing K]

/-- The four vectors of the map are there and have the same length `n`. -/
structure ApmVectors (apm : String → Option (List (Flt K))) (n : ℕ) (h m a b : List (Flt K)) : Prop where
  altitude : apm "altitude" = some h
  mach : apm "machNumber" = some m
  alpha : apm "angleOfAttack" = some a
  beta : apm "angleOfSideslip" = some b
  lenH : h.length = n
  lenM : m.length = n
  lenA : a.length = n
  lenB : b.length = n

omit [LinearOrder K] [IsStrictOrderedRing K] in
theorem cpacsAeroDict_ok {apm : String → Option (List (Flt K))} {n : ℕ} {h m a b : List (Flt K)}
    (H : ApmVectors apm n h m a b) : cpacsAeroDict apm =
      .ok [("altitude", .list (h.map .num)), ("alpha", .list (a.map .num)),
        ("beta", .list (b.map .num)), ("mach", .list (m.map .num)),
        ("rate_P", .list (List.replicate n (.num (.fin 0)))),
        ("rate_Q", .list (List.replicate n (.num (.fin 0)))),
        ("rate_R", .list (List.replicate n (.num (.fin 0))))] := by
  unfold cpacsAeroDict
  simp [H.altitude, H.mach, H.alpha, H.beta, H.lenH, H.lenM, H.lenA, H.lenB]

omit [LinearOrder K] [IsStrictOrderedRing K] in
/-- The vectors of the map are complete and of equal length if they are accepted. -/
theorem cpacsAeroDict_vectors {apm : String → Option (List (Flt K))} {d : List (String × Arg K)}
    (hd : cpacsAeroDict apm = .ok d) : ∃ n h m a b, ApmVectors apm n h m a b := by
  unfold cpacsAeroDict at hd
  cases h1 : apm "altitude" with
  | none => rw [h1] at hd; cases hd
  | some h =>
    rw [h1] at hd
    simp only at hd
    cases h2 : apm "machNumber" with
    | none => rw [h2] at hd; cases hd
    | some m =>
      rw [h2] at hd
      simp only at hd
      cases h3 : apm "angleOfAttack" with
      | none => rw [h3] at hd; cases hd
      | some a =>
        rw [h3] at hd
        simp only at hd
        cases h4 : apm "angleOfSideslip" with
        | none => rw [h4] at hd; cases hd
        | some b =>
          rw [h4] at hd
          simp only at hd
          split_ifs at hd with hl
          have hsame : ∀ x ∈ [h.length, m.length, a.length, b.length], x = b.length := by
            cases hdd : [h.length, m.length, a.length, b.length].dedup with
            | nil => rw [List.dedup_eq_nil] at hdd; cases hdd
            | cons x r =>
              rw [hdd] at hl
              cases r with
              | cons y r => simp at hl
              | nil =>
                have := (dedup_singleton hdd).2
                intro y hy
                rw [this y hy, this b.length (by simp)]
          exact ⟨b.length, h, m, a, b, h1, h2, h3, h4, hsame _ (by simp), hsame _ (by simp),
            hsame _ (by simp), rfl⟩

/-- The dictionary of the four vectors. -/
def apmDict (n : ℕ) (h m a b : List (Flt K)) : List (String × Arg K) :=
  [("altitude", .list (h.map .num)), ("alpha", .list (a.map .num)),
    ("beta", .list (b.map .num)), ("mach", .list (m.map .num)),
    ("rate_P", .list (List.replicate n (.num (.fin 0)))),
    ("rate_Q", .list (List.replicate n (.num (.fin 0)))),
    ("rate_R", .list (List.replicate n (.num (.fin 0))))]

omit [LinearOrder K] [IsStrictOrderedRing K] in
theorem apmDict_nodup (n : ℕ) (h m a b : List (Flt K)) :
    ((apmDict n h m a b).map Prod.fst).Nodup := by
  simp only [apmDict, List.map_cons, List.map_nil]
  decide

omit [LinearOrder K] [IsStrictOrderedRing K] in
theorem apmDict_num {n : ℕ} {h m a b : List (Flt K)} {x : String × Arg K}
    (hx : x ∈ apmDict n h m a b) : ∀ v ∈ x.2.toList, v.isNum = true := by
  simp only [apmDict, List.mem_cons, List.not_mem_nil, or_false] at hx
  rcases hx with rfl | rfl | rfl | rfl | rfl | rfl | rfl <;> intro v hv <;>
    simp only [Arg.toList, List.mem_map, List.mem_replicate] at hv
  all_goals (obtain ⟨f, -, rfl⟩ := hv; rfl)

omit [LinearOrder K] [IsStrictOrderedRing K] in
theorem apmDict_acceptable (atm : Atm K) {n : ℕ} {h m a b : List (Flt K)}
    {apm : String → Option (List (Flt K))} (H : ApmVectors apm n h m a b) :
    Acceptable atm (apmDict n h m a b) ↔ ∀ z ∈ h, atm z ≠ none := by
  have hg : ∀ p x, (p, x) ∈ apmDict n h m a b → Given (apmDict n h m a b) p :=
    fun p x hx => ⟨x, hx, apmDict_num hx⟩
  have hh : ("altitude", Arg.list (h.map Val.num)) ∈ apmDict n h m a b := by simp [apmDict]
  have hm : ("mach", Arg.list (m.map Val.num)) ∈ apmDict n h m a b := by simp [apmDict]
  constructor
  · intro A z hz
    have := A.altitude (hg _ _ hh) _ hh (.num z) (by simpa [Arg.toList] using hz)
    exact this
  · intro hz
    refine ⟨⟨n, ?_⟩, .inr (.inr ⟨hg _ _ hm, hg _ _ hh, ?_, ?_⟩), ?_, ?_, ?_, ?_⟩
    · intro x hx
      simp only [apmDict, List.mem_cons, List.not_mem_nil, or_false] at hx
      rcases hx with rfl | rfl | rfl | rfl | rfl | rfl | rfl <;>
        simp [Arg.toList, H.lenH, H.lenM, H.lenA, H.lenB]
    · rintro ⟨x, hx, -⟩
      simp [apmDict] at hx
    · rintro ⟨x, hx, -⟩
      simp [apmDict] at hx
    · intro p _ x hx v hv
      exact (conv_of_isNum (apmDict_num hx v hv)).2
    · intro _ x hx v hv
      simp only [apmDict, List.mem_cons, Prod.mk.injEq, List.not_mem_nil, or_false] at hx
      have e : x = .list (h.map .num) := by simpa using hx
      subst e
      simp only [Arg.toList, List.mem_map] at hv
      obtain ⟨z, hz', rfl⟩ := hv
      exact hz z hz'
    · exact ⟨.list (a.map .num), by simp [apmDict]⟩
    · exact ⟨.list (b.map .num), by simp [apmDict]⟩

/-- **C85**: the flight states of a CPACS file.  They are accepted exactly if the four vectors are there,
have the same length and the atmosphere model covers the altitudes; then there is one flight state per
entry, with the angles of that entry, zero rotation rates, the density of its altitude, and its Mach
number times the speed of sound as airspeed. -/
theorem C85_cpacs_states (atm : Atm K) (apm : String → Option (List (Flt K))) :
    ((∃ s, cpacsLoadState atm apm = .ok s) ↔
      ∃ n h m a b, ApmVectors apm n h m a b ∧ ∀ z ∈ h, atm z ≠ none) ∧
    ∀ s, cpacsLoadState atm apm = .ok s → ∀ n h m a b, ApmVectors apm n h m a b →
      s.num = n ∧ ∃ cs, s.iterStates = .ok cs ∧ cs.length = n ∧
        ∀ (i : ℕ) (c : CurSt K), cs[i]? = some c →
          c.aero "alpha" = a[i]? ∧ c.aero "beta" = b[i]? ∧
          (∀ p ∈ ["rate_P", "rate_Q", "rate_R"], c.aero p = some (.fin 0)) ∧
          ∃ z M rho sound, h[i]? = some z ∧ m[i]? = some M ∧ atm z = some (rho, sound) ∧
            c.aero "density" = some rho ∧ c.aero "airspeed" = some (M.mul sound) := by
  have load : ∀ n h m a b, ApmVectors apm n h m a b →
      cpacsLoadState atm apm = updateFromDict atm Store.fresh (apmDict n h m a b) := by
    intro n h m a b H
    unfold cpacsLoadState
    rw [cpacsAeroDict_ok H]
    rfl
  constructor
  · constructor
    · rintro ⟨s, hs⟩
      have hs' := hs
      unfold cpacsLoadState at hs'
      cases hd : cpacsAeroDict apm with
      | error e => rw [hd] at hs'; cases hs'
      | ok d =>
        obtain ⟨n, h, m, a, b, H⟩ := cpacsAeroDict_vectors hd
        rw [load n h m a b H] at hs
        exact ⟨n, h, m, a, b, H, (apmDict_acceptable atm H).1
          ((C41_accepted_iff atm _ (apmDict_nodup n h m a b)).1 ⟨s, hs⟩)⟩
    · rintro ⟨n, h, m, a, b, H, hz⟩
      rw [load n h m a b H]
      exact (C41_accepted_iff atm _ (apmDict_nodup n h m a b)).2 ((apmDict_acceptable atm H).2 hz)
  · intro s hs n h m a b H
    rw [load n h m a b H] at hs
    have hnd := apmDict_nodup n h m a b
    obtain ⟨hn, F⟩ := (accepted angle_limits atm _ hnd).2 s hs
    have hmem : ∀ p l, (p, Arg.list l) ∈ apmDict n h m a b → p ∈ stateAllParams → p ≠ "airspeed" →
        p ≠ "density" → s.aero p = some l := by
      intro p l hp h1 h2 h3
      have hnum : ∀ v ∈ l, v.isNum = true := apmDict_num hp
      rw [(F.other p h1 h2 h3).1 l ⟨_, hp, rfl⟩, map_conv_of_num hnum]
    have hg : ∀ p x, (p, x) ∈ apmDict n h m a b → Given (apmDict n h m a b) p :=
      fun p x hx => ⟨x, hx, apmDict_num hx⟩
    have hh : ("altitude", Arg.list (h.map Val.num)) ∈ apmDict n h m a b := by simp [apmDict]
    have hma : ("mach", Arg.list (m.map Val.num)) ∈ apmDict n h m a b := by simp [apmDict]
    have hnum : s.num = n := by
      have := hn _ hh
      simpa [Arg.toList, H.lenH] using this.symm
    obtain ⟨-, cs, hcs, hlen, hrow⟩ := C44_iteration atm _ hnd s hs (by
      intro p hp
      simp only [List.mem_cons, List.not_mem_nil, or_false] at hp
      rcases hp with rfl | rfl | rfl <;>
        exact ⟨.list (List.replicate n (.num (.fin 0))), by simp [apmDict]⟩)
    refine ⟨hnum, cs, hcs, by rw [hlen, hnum], ?_⟩
    intro i c hc
    obtain ⟨hi, rfl⟩ := List.getElem?_eq_some_iff.1 hc
    obtain ⟨r1, -, -⟩ := hrow i hi
    have hi' : i < s.num := by rwa [hlen] at hi
    have hin : i < n := by rwa [hnum] at hi'
    have val : ∀ (p : String) (l : List (Flt K)), (p, Arg.list (l.map Val.num)) ∈ apmDict n h m a b → p ∈ statePrimaryParams →
        p ≠ "airspeed" → p ≠ "density" → cs[i].aero p = l[i]? := by
      intro p l hp h1 h2 h3
      obtain ⟨f, e1, e2⟩ := r1 p h1
      have h1' : p ∈ stateAllParams :=
        (by decide : ∀ p ∈ statePrimaryParams, p ∈ stateAllParams) p h1
      unfold FlightSt.valueAt at e2
      rw [hmem p _ hp h1' h2 h3] at e2
      simp only [Option.bind_some, List.getElem?_map, Option.map_eq_some_iff, Val.num.injEq] at e2
      obtain ⟨g, e3, rfl⟩ := e2
      rw [e1, e3]
    refine ⟨val "alpha" a (by simp [apmDict]) (by decide) (by decide) (by decide),
      val "beta" b (by simp [apmDict]) (by decide) (by decide) (by decide), ?_, ?_⟩
    · intro p hp
      have e := val p (List.replicate n (.fin 0)) (by
        simp only [List.mem_cons, List.not_mem_nil, or_false] at hp
        rcases hp with rfl | rfl | rfl <;> simp [apmDict]) (by
          revert p
          decide) (by
          revert p
          decide) (by
          revert p
          decide)
      rw [e]
      simp [hin]
    · obtain ⟨V, rho, e1, e2, -, -, e5⟩ := C42_airspeed_density atm _ hnd s hs i hi'
      obtain ⟨z, sound, z1, z2, z3⟩ := e5 _ hh (hg _ _ hh)
      obtain ⟨M, m1, m2⟩ := z3 _ hma (hg _ _ hma)
      simp only [Arg.toList, List.getElem?_map, Option.map_eq_some_iff, Val.num.injEq] at z1 m1
      obtain ⟨z', z1, rfl⟩ := z1
      obtain ⟨M', m1, rfl⟩ := m1
      obtain ⟨f1, d1, d2⟩ := r1 "density" (by decide)
      obtain ⟨f2, d3, d4⟩ := r1 "airspeed" (by decide)
      rw [e2] at d2
      rw [e1] at d4
      cases d2
      cases d4
      exact ⟨_, _, rho, sound, z1, m1, z2, d1, by rw [d3, m2]⟩

/-- A map with two entries. -/
def demoApm : String → Option (List (Flt ℚ)) := fun k =>
  if k = "altitude" then some [.fin 0, .fin 1000] else if k = "machNumber" then some [.fin 1, .fin 2]
  else if k = "angleOfAttack" then some [.fin 3, .fin 4]
  else if k = "angleOfSideslip" then some [.fin 5, .fin 6] else none

example : ApmVectors demoApm 2 [.fin 0, .fin 1000] [.fin 1, .fin 2] [.fin 3, .fin 4] [.fin 5, .fin 6] ∧
    ∀ z ∈ [Flt.fin (0 : ℚ), .fin 1000], demoAtm z ≠ none := by
  refine ⟨⟨rfl, rfl, rfl, rfl, rfl, rfl, rfl, rfl⟩, ?_⟩
  decide +kernel

end

/-! ## C87 -/

/-- The name under which an airfoil is stored: its own without characters other than letters, digits,
`-` and `_`, or a number. -/
def storedName {α : Type*} (alnum : Char → Bool) (i : ℕ) (a : CpacsAirfoil α) : String :=
  match a.name with
  | some n => String.ofList (n.toList.filter fun c => alnum c || c == '-' || c == '_')
  | none => "AIRFOIL" ++ fmt02 i

/-- The names of all airfoils, numbered from `i`. -/
def storedNames {α : Type*} (alnum : Char → Bool) : ℕ → List (CpacsAirfoil α) → List String
  | _, [] => []
  | i, a :: rest => storedName alnum i a :: storedNames alnum (i + 1) rest

theorem parseStr_stored (alnum : Char → Bool) (n : String) : parseStr alnum (.str n) "-_" =
    .ok (String.ofList (n.toList.filter fun c => alnum c || c == '-' || c == '_')) := by
  unfold parseStr
  simp only [Except.ok.injEq]
  congr 2
  funext c
  have : "-_".toList.contains c = (c == '-' || c == '_') := by
    show ['-', '_'].contains c = _
    simp only [List.contains_cons, List.contains_nil, Bool.or_false]
  rw [this, Bool.or_assoc]

theorem writeAirfoils_eq {α : Type*} (alnum : Char → Bool) : ∀ (i : ℕ) (l : List (CpacsAirfoil α)),
    writeAirfoils alnum i l = .ok (List.zipWith (fun n a => (airfoilFile n, a.coords))
      (storedNames alnum i l) l) := by
  intro i l
  induction l generalizing i with
  | nil => rfl
  | cons a rest ih =>
    unfold writeAirfoils
    cases hn : a.name with
    | none =>
      simp only [ih, storedNames, storedName, hn, List.zipWith_cons_cons]
    | some n =>
      simp only [parseStr_stored, ih, storedNames, storedName, hn, List.zipWith_cons_cons]

theorem airfoilFile_injective : Function.Injective airfoilFile := by
  intro a b h
  have := congrArg String.toList h
  unfold airfoilFile at this
  rw [String.toList_append, String.toList_append] at this
  exact String.toList_injective (List.append_cancel_left this)

theorem fileAfter_mem {α : Type*} {fs : List (String × α)} (hn : (fs.map Prod.fst).Nodup)
    {path : String} {c : α} (h : (path, c) ∈ fs) : fileAfter fs path = some c := by
  unfold fileAfter
  have key : fs.filter (fun f => f.1 == path) = [(path, c)] := by
    induction fs with
    | nil => cases h
    | cons f fs ih =>
      rw [List.map_cons, List.nodup_cons] at hn
      rcases List.mem_cons.1 h with rfl | h2
      · rw [List.filter_cons_of_pos (by simp)]
        congr 1
        rw [List.filter_eq_nil_iff]
        intro g hg e
        simp only [beq_iff_eq] at e
        exact hn.1 (List.mem_map.2 ⟨g, hg, e⟩)
      · rw [List.filter_cons_of_neg, ih hn.2 h2]
        simp only [beq_iff_eq]
        intro e
        exact hn.1 (List.mem_map.2 ⟨_, h2, e.symm⟩)
  rw [key]
  rfl

theorem storedNames_zip {α : Type*} (alnum : Char → Bool) : ∀ (i : ℕ) (l : List (CpacsAirfoil α)),
    (List.zipWith (fun n a => (airfoilFile n, a.coords)) (storedNames alnum i l) l).map Prod.fst =
      (storedNames alnum i l).map airfoilFile := by
  intro i l
  induction l generalizing i with
  | nil => rfl
  | cons a rest ih => simp [storedNames, ih]

theorem storedNames_mem {α : Type*} (alnum : Char → Bool) {n : String} {a : CpacsAirfoil α}
    (ha : a.name = some n) : ∀ (i : ℕ) (l : List (CpacsAirfoil α)), a ∈ l →
    (airfoilFile (storedName alnum 0 a), a.coords) ∈
      List.zipWith (fun n a => (airfoilFile n, a.coords)) (storedNames alnum i l) l := by
  intro i l
  induction l generalizing i with
  | nil => intro h; cases h
  | cons b rest ih =>
    intro h
    rcases List.mem_cons.1 h with rfl | h2
    · simp only [storedNames, List.zipWith_cons_cons, List.mem_cons]
      left
      simp [storedName, ha]
    · simp only [storedNames, List.zipWith_cons_cons, List.mem_cons]
      exact .inr (ih _ h2)

/-- **C87** (in part): the airfoil file a segment refers to holds the coordinates of the airfoil with
the name given for that segment.  Missing: files in which two airfoils are stored under the same name
(see `C87_airfoils_false`). -/
theorem C87_airfoils_partial {α : Type*} (alnum : Char → Bool) (l : List (CpacsAirfoil α))
    (hn : (storedNames alnum 1 l).Nodup) (a : CpacsAirfoil α) (ha : a ∈ l) (n : String)
    (hname : a.name = some n) (file : String) (hf : importAirfoil alnum n = .ok file) :
    ∃ fs, writeAirfoils alnum 1 l = .ok fs ∧ fileAfter fs file = some a.coords := by
  refine ⟨_, writeAirfoils_eq alnum 1 l, ?_⟩
  have e : file = airfoilFile (storedName alnum 0 a) := by
    unfold importAirfoil at hf
    rw [parseStr_stored] at hf
    simp only at hf
    split_ifs at hf
    cases hf
    simp [storedName, hname]
  rw [e]
  apply fileAfter_mem
  · rw [storedNames_zip]
    exact hn.map airfoilFile_injective
  · exact storedNames_mem alnum hname 1 l ha

/-- Letters and digits (ASCII). -/
def asciiAlnum (c : Char) : Bool := c.isAlphanum

/-- **C87** fails if two names differ only in characters which are left out: both airfoils go to one
file, and segments with the first airfoil get the coordinates of the second. -/
theorem C87_airfoils_false :
    ∃ (l : List (CpacsAirfoil ℕ)) (fs : List (String × ℕ)) (file : String),
      (⟨some "NACA 0010", 1⟩ : CpacsAirfoil ℕ) ∈ l ∧ (l.map (·.name)).Nodup ∧
      importAirfoil asciiAlnum "NACA 0010" = .ok file ∧
      writeAirfoils asciiAlnum 1 l = .ok fs ∧ fileAfter fs file = some 2 := by
  refine ⟨[⟨some "NACA 0010", 1⟩, ⟨some "NACA0010", 2⟩],
    [("airfoils/blade.NACA0010", 1), ("airfoils/blade.NACA0010", 2)], "airfoils/blade.NACA0010",
    by simp, by decide, by decide, by decide, by decide⟩

example : storedNames asciiAlnum 1 ([⟨some "NACA 0010", 1⟩, ⟨none, 2⟩, ⟨some "RAE-2822", 3⟩] :
    List (CpacsAirfoil ℕ)) = ["NACA0010", "AIRFOIL02", "RAE-2822"] := by decide

end Verif
