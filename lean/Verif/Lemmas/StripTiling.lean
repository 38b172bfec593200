import Verif.Lemmas.Strips
import Mathlib.Tactic.FieldSimp
import Mathlib.Tactic.NormNum

/-! Helper lemmas: tiling of the spanwise range. -/

set_option linter.unusedSectionVars false

namespace Verif
variable {K : Type*} [Field K] [LinearOrder K]

/-- the strip contains the spanwise coordinate (half-open) -/
def Strip.contains (x : K) (s : Strip K) : Bool := decide (s.etaA ≤ x ∧ x < s.etaB)

/-- counting form of the tiling invariant -/
def TileInv (sds : List (Strip K)) : Prop :=
  (∀ s ∈ sds, s.etaA < s.etaB) ∧
  ∀ x : K, sds.countP (Strip.contains x) = if 0 ≤ x ∧ x < 1 then 1 else 0

theorem countP_set_of_congr {α : Type*} (p : α → Bool) (l : List α) (i : ℕ) (a b : α)
    (ha : l[i]? = some a) (hab : p a = p b) : (l.set i b).countP p = l.countP p := by
  induction l generalizing i with
  | nil => simp
  | cons t rest ih =>
    cases i with
    | zero =>
      simp only [List.getElem?_cons_zero, Option.some.injEq] at ha
      subst ha
      simp [List.countP_cons, hab]
    | succ i =>
      simp only [List.getElem?_cons_succ] at ha
      simp [List.countP_cons, ih i ha]

theorem countP_set_add {α : Type*} (p : α → Bool) (l : List α) (i : ℕ) (a b : α)
    (ha : l[i]? = some a) :
    (l.set i b).countP p + (if p a then 1 else 0) = l.countP p + (if p b then 1 else 0) := by
  induction l generalizing i with
  | nil => simp at ha
  | cons t rest ih =>
    cases i with
    | zero =>
      simp only [List.getElem?_cons_zero, Option.some.injEq] at ha
      subst ha
      simp only [List.set_cons_zero, List.countP_cons]
      omega
    | succ i =>
      simp only [List.getElem?_cons_succ] at ha
      have := ih i ha
      simp only [List.set_cons_succ, List.countP_cons]
      omega

theorem mem_set_cases {α : Type*} {l : List α} {i : ℕ} {a b : α} (h : a ∈ l.set i b) :
    a = b ∨ a ∈ l := by
  rcases List.mem_or_eq_of_mem_set h with h | h
  · exact Or.inr h
  · exact Or.inl h

theorem tileInv_closed (interp : Interp K) : Closed interp (fun _ _ => True) (TileInv (K := K)) where
  split := by
    intro sds idx prev p n e d r hT _ hidx _ _ hA hB _ hi
    obtain ⟨⟨pA, pB, -, -⟩, nA, nB, -, -⟩ := inheritDevices_eta hi
    simp only [Strip.init] at nA nB pA pB
    refine ⟨?_, ?_⟩
    · intro s hs
      rw [List.mem_append, List.mem_singleton] at hs
      rcases hs with hs | rfl
      · rcases mem_set_cases hs with rfl | hs
        · rw [pA, pB]; exact hA
        · exact hT.1 s hs
      · rw [nA, nB]; exact hB
    · intro x
      rw [← hT.2 x, List.countP_append]
      have h1 := countP_set_add (Strip.contains x) sds idx prev p hidx
      have h2 : (if Strip.contains x prev then 1 else 0)
          = (if Strip.contains x p then 1 else 0) + (if Strip.contains x n then 1 else 0) := by
        simp only [Strip.contains, pA, pB, nA, nB, decide_eq_true_eq]
        by_cases c1 : prev.etaA ≤ x <;> by_cases c2 : x < e <;> by_cases c3 : x < prev.etaB <;>
          by_cases c4 : e ≤ x <;> simp [c1, c2, c3, c4] <;>
          first
            | exact absurd c4 (not_le.2 c2)
            | exact absurd (lt_trans c2 hB) c3
            | exact absurd (le_trans hA.le c4) c1
            | exact absurd (not_lt.1 c2) c4
      simp only [List.countP_singleton]
      omega
  add := by
    intro sds idx s s' c x1 x2 h1 h2 hT hidx ha
    obtain ⟨eA, eB, -, -⟩ := addSubarea_eta ha
    have hm : s ∈ sds := List.mem_of_getElem? hidx
    refine ⟨?_, fun x => ?_⟩
    · intro t ht
      rcases mem_set_cases ht with rfl | ht
      · rw [eA, eB]; exact hT.1 s hm
      · exact hT.1 t ht
    · rw [countP_set_of_congr _ sds idx s s' hidx (by simp [Strip.contains, eA, eB])]
      exact hT.2 x

theorem tileInv_init [IsStrictOrderedRing K] : TileInv (initStrips : List (Strip K)) := by
  refine ⟨by simp [initStrips, Strip.init], fun x => ?_⟩
  simp [initStrips, Strip.init, Strip.contains, List.countP_singleton]

theorem countP_eq_one {α : Type*} {p : α → Bool} {l : List α} (h : l.countP p = 1) :
    ∃! i : ℕ, ∃ s, l[i]? = some s ∧ p s = true := by
  induction l with
  | nil => simp at h
  | cons t rest ih =>
    rw [List.countP_cons] at h
    by_cases ht : p t = true
    · simp only [ht, if_true] at h
      have h0 : rest.countP p = 0 := by omega
      rw [List.countP_eq_zero] at h0
      refine ⟨0, ⟨t, by simp, ht⟩, ?_⟩
      rintro (_ | j) ⟨s, hs, hp⟩
      · rfl
      · simp only [List.getElem?_cons_succ] at hs
        exact absurd hp (h0 s (List.mem_of_getElem? hs))
    · simp only [ht] at h
      obtain ⟨i, ⟨s, hs, hp⟩, hu⟩ := ih (by simpa using h)
      refine ⟨i + 1, ⟨s, by simpa using hs, hp⟩, ?_⟩
      rintro (_ | j) ⟨s', hs', hp'⟩
      · simp only [List.getElem?_cons_zero, Option.some.injEq] at hs'
        subst hs'; exact absurd hp' ht
      · simp only [List.getElem?_cons_succ] at hs'
        rw [hu j ⟨s', hs', hp'⟩]

theorem TileInv.inside [IsStrictOrderedRing K] {sds : List (Strip K)} (h : TileInv sds) {s : Strip K} (hs : s ∈ sds) :
    0 ≤ s.etaA ∧ s.etaA < s.etaB ∧ s.etaB ≤ 1 := by
  have hlt := h.1 s hs
  have key : ∀ x, s.etaA ≤ x → x < s.etaB → 0 ≤ x ∧ x < 1 := by
    intro x h1 h2
    by_contra hc
    have h0 := h.2 x
    rw [if_neg hc, List.countP_eq_zero] at h0
    exact h0 s hs (by simp [Strip.contains, h1, h2])
  refine ⟨(key _ le_rfl hlt).1, hlt, ?_⟩
  by_contra hB
  have hB := not_le.1 hB
  have := (key (max s.etaA 1) (le_max_left _ _) (max_lt hlt hB)).2
  exact absurd this (not_lt.2 (le_max_right _ _))

theorem TileInv.existsUnique {sds : List (Strip K)} (h : TileInv sds) {x : K} (h0 : 0 ≤ x)
    (h1 : x < 1) : ∃! i : ℕ, ∃ s, sds[i]? = some s ∧ s.etaA ≤ x ∧ x < s.etaB := by
  have := h.2 x
  rw [if_pos ⟨h0, h1⟩] at this
  simpa [Strip.contains] using countP_eq_one this

end Verif
