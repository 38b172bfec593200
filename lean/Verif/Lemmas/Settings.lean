import Verif.Model.Settings
import Mathlib.Data.List.Basic
import Mathlib.Tactic.Common

/-!
# Lemmas about dictionaries, templates and settings
-/

namespace Verif

theorem lookup_set (d : PyDict) (key k : String) (v : PyVal) :
    (PyDict.set d key v).lookup k = if k = key then some v else d.lookup k := by
  induction d with
  | nil =>
    unfold PyDict.set
    by_cases h : k = key
    · subst h
      simp
    · have : (k == key) = false := by simpa using h
      simp [List.lookup, this, h]
  | cons x d ih =>
    obtain ⟨k', v'⟩ := x
    unfold PyDict.set
    by_cases h1 : k' = key
    · subst h1
      rw [if_pos rfl]
      by_cases h : k = k'
      · subst h
        simp
      · have : (k == k') = false := by simpa using h
        simp [List.lookup, this, h]
    · rw [if_neg h1]
      by_cases h : k = k'
      · subst h
        simp [h1]
      · have : (k == k') = false := by simpa using h
        simp [List.lookup, this, ih]

theorem lookup_mem {β : Type*} {d : List (String × β)} {k : String} {v : β}
    (h : d.lookup k = some v) : (k, v) ∈ d := by
  induction d with
  | nil => simp at h
  | cons x d ih =>
    obtain ⟨k', v'⟩ := x
    by_cases hk : k = k'
    · subst hk
      simp at h
      simp [h]
    · have : (k == k') = false := by simpa using hk
      rw [List.lookup, this] at h
      exact List.mem_cons_of_mem _ (ih h)

theorem lookup_none {β : Type*} {d : List (String × β)} {k : String} :
    d.lookup k = none ↔ ∀ v, (k, v) ∉ d := by
  induction d with
  | nil => simp
  | cons x d ih =>
    obtain ⟨k', v'⟩ := x
    by_cases hk : k = k'
    · subst hk
      simp only [List.lookup_cons_self]
      constructor
      · intro h; cases h
      · intro h; exact absurd (List.mem_cons_self) (h v')
    · have : (k == k') = false := by simpa using hk
      rw [List.lookup, this]
      simp only
      rw [ih]
      simp [hk]

theorem lookup_of_mem {β : Type*} {d : List (String × β)} (hd : (d.map Prod.fst).Nodup) {k : String}
    {v : β} (h : (k, v) ∈ d) : d.lookup k = some v := by
  induction d with
  | nil => simp at h
  | cons x d ih =>
    obtain ⟨k', v'⟩ := x
    rw [List.map_cons, List.nodup_cons] at hd
    rcases List.mem_cons.1 h with h' | h'
    · cases h'
      simp
    · have hk : k ≠ k' := by
        rintro rfl
        exact hd.1 (List.mem_map.2 ⟨_, h', rfl⟩)
      have : (k == k') = false := by simpa using hk
      rw [List.lookup, this]
      exact ih hd.2 h'

theorem lookup_updateAll (s d : PyDict) (hd : (d.map Prod.fst).Nodup) (k : String) :
    (updateAll s d).lookup k = (d.lookup k).or (s.lookup k) := by
  induction d generalizing s with
  | nil => simp [updateAll]
  | cons x d ih =>
    obtain ⟨k', v'⟩ := x
    rw [List.map_cons, List.nodup_cons] at hd
    rw [updateAll, ih _ hd.2, lookup_set]
    by_cases hk : k = k'
    · subst hk
      have : d.lookup k = none := lookup_none.2 fun v hv =>
        hd.1 (List.mem_map.2 ⟨_, hv, rfl⟩)
      simp [this]
    · have : (k == k') = false := by simpa using hk
      rw [List.lookup, this, if_neg hk]

/-! ## Templates -/

theorem checkDict_iff (es : List (String × Tmpl)) (d : PyDict) :
    checkDict es d = .ok () ↔ ∀ x ∈ es, checkEntry x.2 (d.lookup x.1) = .ok () := by
  induction es with
  | nil => simp [checkDict]
  | cons x es ih =>
    obtain ⟨k, t⟩ := x
    rw [checkDict]
    cases h : checkEntry t (d.lookup k) with
    | error e => simp [h]
    | ok u => simp [h, ih]

mutual
theorem checkEntry_error : ∀ (t : Tmpl) (v : Option PyVal) (e : PyErr),
    checkEntry t v = .error e → e = .keyError ∨ e = .typeError
  | .leaf dv types, v, e, h => by
    cases v with
    | none =>
      simp only [checkEntry] at h
      split_ifs at h
      cases h
      exact Or.inl rfl
    | some v =>
      simp only [checkEntry] at h
      split_ifs at h
      cases h
      exact Or.inr rfl
  | .group es, none, e, h => by
    rw [checkEntry] at h
    cases h
    exact Or.inl rfl
  | .group es, some (.dict d), e, h => by
    rw [checkEntry] at h
    exact checkDict_error es d e h
  | .group es, some .none, e, h => by rw [checkEntry] at h <;> simp at h ⊢; exact Or.inr h.symm
  | .group es, some (.bool _), e, h => by rw [checkEntry] at h <;> simp at h ⊢; exact Or.inr h.symm
  | .group es, some (.int _), e, h => by rw [checkEntry] at h <;> simp at h ⊢; exact Or.inr h.symm
  | .group es, some (.float _), e, h => by rw [checkEntry] at h <;> simp at h ⊢; exact Or.inr h.symm
  | .group es, some (.str _), e, h => by rw [checkEntry] at h <;> simp at h ⊢; exact Or.inr h.symm
  | .group es, some (.list _), e, h => by rw [checkEntry] at h <;> simp at h ⊢; exact Or.inr h.symm
theorem checkDict_error : ∀ (es : List (String × Tmpl)) (d : PyDict) (e : PyErr),
    checkDict es d = .error e → e = .keyError ∨ e = .typeError
  | [], d, e, h => by
    rw [checkDict] at h
    cases h
  | (k, t) :: rest, d, e, h => by
    rw [checkDict] at h
    cases hc : checkEntry t (d.lookup k) with
    | error e' =>
      rw [hc] at h
      cases h
      exact checkEntry_error t _ _ hc
    | ok u =>
      rw [hc] at h
      exact checkDict_error rest d e h
end

/-! ## Cleaning -/

theorem lookup_clean (d : PyDict) (k : String) :
    (cleanDict d).lookup k = if hidden k then none else (d.lookup k).map cleanVal := by
  induction d with
  | nil => simp [cleanDict]
  | cons x d ih =>
    obtain ⟨k', v'⟩ := x
    rw [cleanDict]
    by_cases hk : k = k'
    · subst hk
      by_cases hh : hidden k
      · rw [if_pos hh, ih, if_pos hh, if_pos hh]
      · simp [hh]
    · have : (k == k') = false := by simpa using hk
      by_cases hh : hidden k'
      · rw [if_pos hh, ih, List.lookup, this]
      · rw [if_neg hh, List.lookup, this, ih, List.lookup, this]

theorem clean_nodup {d : PyDict} (hd : (d.map Prod.fst).Nodup) :
    ((cleanDict d).map Prod.fst).Nodup := by
  have hsub : ((cleanDict d).map Prod.fst).Sublist (d.map Prod.fst) := by
    clear hd
    induction d with
    | nil => simp [cleanDict]
    | cons x d ih =>
      obtain ⟨k, v⟩ := x
      rw [cleanDict]
      split_ifs
      · exact ih.trans (List.sublist_cons_self _ _)
      · exact ih.cons_cons k
  exact hd.sublist hsub

/-- No key of the template starts with an underscore. -/
inductive Visible : Tmpl → Prop
  | leaf (v ts) : Visible (.leaf v ts)
  | group (es) : (∀ x ∈ es, hidden x.1 = false) → (∀ x ∈ es, Visible x.2) → Visible (.group es)

theorem cleanVal_isInst (v : PyVal) (t : PyType) : (cleanVal v).isInst t = v.isInst t := by
  cases v <;> cases t <;> simp [cleanVal, PyVal.isInst]

theorem cleanVal_hasType (v : PyVal) (t : Option PyType) : (cleanVal v).hasType t = v.hasType t := by
  cases t with
  | none => rfl
  | some t => exact cleanVal_isInst v t

theorem checkEntry_group_ok {es : List (String × Tmpl)} {v : Option PyVal} :
    checkEntry (.group es) v = .ok () ↔ ∃ d, v = some (.dict d) ∧ checkDict es d = .ok () := by
  cases v with
  | none => simp [checkEntry]
  | some v =>
    cases v <;> simp [checkEntry]

theorem check_clean {t : Tmpl} (ht : Visible t) : ∀ v, checkEntry t v = .ok () →
    checkEntry t (v.map cleanVal) = .ok () := by
  induction ht with
  | leaf dv ts =>
    intro v h
    cases v with
    | none => exact h
    | some v =>
      simp only [checkEntry] at h
      simp only [Option.map_some, checkEntry]
      have : ts.any (cleanVal v).hasType = ts.any v.hasType := by
        congr 1
        funext t
        exact cleanVal_hasType v t
      rw [this]
      exact h
  | group es h1 h2 ih =>
    intro v h
    obtain ⟨d, rfl, hd⟩ := checkEntry_group_ok.1 h
    rw [checkEntry_group_ok]
    refine ⟨cleanDict d, by simp [cleanVal], ?_⟩
    rw [checkDict_iff] at hd ⊢
    intro x hx
    rw [lookup_clean, h1 x hx]
    exact ih x hx _ (hd x hx)

theorem lookup_default (es : List (String × Tmpl)) (k : String) :
    (defaultDict es).lookup k = (es.lookup k).map Tmpl.default := by
  induction es with
  | nil => simp [defaultDict]
  | cons x es ih =>
    obtain ⟨k', t⟩ := x
    rw [defaultDict]
    by_cases hk : k = k'
    · subst hk
      simp
    · have : (k == k') = false := by simpa using hk
      rw [List.lookup, this, List.lookup, this, ih]

end Verif
