import Verif.Model.State
import Mathlib.Data.List.Nodup

/-!
# Helper lemmas on flight states
-/

namespace Verif

section
variable {K : Type*}

/-! ## mapE -/

theorem mapE_map {α β : Type*} {f : α → Except PyErr β} {g : α → β} {l : List α}
    (h : ∀ a ∈ l, f a = .ok (g a)) : mapE f l = .ok (l.map g) := by
  induction l with
  | nil => rfl
  | cons a l ih =>
    unfold mapE
    rw [h a (by simp), ih fun x hx => h x (List.mem_cons_of_mem _ hx)]
    rfl

theorem mapE_mem {α β : Type*} {f : α → Except PyErr β} {l : List α} {r : List β}
    (h : mapE f l = .ok r) : ∀ a ∈ l, ∃ b, f a = .ok b := by
  induction l generalizing r with
  | nil => simp
  | cons a l ih =>
    unfold mapE at h
    cases h1 : f a with
    | error e => simp [h1] at h
    | ok b =>
      cases h2 : mapE f l with
      | error e => simp [h1, h2] at h
      | ok bs =>
        intro x hx
        rcases List.mem_cons.1 hx with rfl | hx
        · exact ⟨b, h1⟩
        · exact ih h2 x hx

/-! ## Storing the items -/

theorem storeItems_snd (σ : Store K) (lens : List ℕ) (d : List (String × Arg K)) :
    (storeItems σ lens d).2 = (d.map fun x => x.2.toList.length).reverse ++ lens := by
  induction d generalizing σ lens with
  | nil => rfl
  | cons x d ih =>
    unfold storeItems
    rw [ih]
    simp

theorem storeItems_notMem (σ : Store K) (lens : List ℕ) (d : List (String × Arg K)) (p : String)
    (h : p ∉ d.map Prod.fst) : (storeItems σ lens d).1 p = σ p := by
  induction d generalizing σ lens with
  | nil => rfl
  | cons x d ih =>
    rw [List.map_cons, List.mem_cons, not_or] at h
    unfold storeItems
    rw [ih _ _ h.2, Function.update_of_ne h.1]

theorem storeItems_mem (σ : Store K) (lens : List ℕ) (d : List (String × Arg K))
    (hd : (d.map Prod.fst).Nodup) {p : String} {a : Arg K} (h : (p, a) ∈ d) :
    (storeItems σ lens d).1 p = some a.toList := by
  induction d generalizing σ lens with
  | nil => simp at h
  | cons x d ih =>
    rw [List.map_cons, List.nodup_cons] at hd
    unfold storeItems
    rcases List.mem_cons.1 h with h | h
    · subst h
      rw [storeItems_notMem _ _ _ _ hd.1, Function.update_self]
    · exact ih _ _ hd.2 h

/-- What is stored for a parameter of a fresh state. -/
theorem stored_iff (d : List (String × Arg K)) (hd : (d.map Prod.fst).Nodup) (p : String)
    (l : List (Val K)) :
    (storeItems Store.fresh [] d).1 p = some l ↔ ∃ a, (p, a) ∈ d ∧ a.toList = l := by
  by_cases h : p ∈ d.map Prod.fst
  · obtain ⟨⟨p', a⟩, hm, rfl⟩ := List.mem_map.1 h
    rw [storeItems_mem _ _ d hd hm]
    constructor
    · intro h'
      exact ⟨a, hm, Option.some.inj h'⟩
    · rintro ⟨a', ha', rfl⟩
      have h1 := storeItems_mem Store.fresh [] d hd hm
      have h2 := storeItems_mem Store.fresh [] d hd ha'
      rw [h1] at h2
      exact h2
  · rw [storeItems_notMem _ _ _ _ h]
    constructor
    · intro h'
      exact absurd h' (by simp [Store.fresh])
    · rintro ⟨a, ha, -⟩
      exact absurd (List.mem_map_of_mem ha) h

/-! ## Conversion -/

/-- Result of the conversion where it succeeds. -/
def Val.conv : Val K → Val K
  | .num f => .num f
  | .text (.some f) => .num f
  | _ => .num .nonfin

/-- Elements which numpy can convert to a float. -/
def Val.Convertible (v : Val K) : Prop :=
  match v with
  | .num _ => True
  | .none => True
  | .text t => t.isSome
  | .obj => False

theorem toFloat_ok {v : Val K} (h : v.Convertible) : v.toFloat = .ok v.conv := by
  cases v with
  | text t =>
    cases t with
    | none => exact absurd h (by simp [Val.Convertible])
    | some f => rfl
  | obj => exact absurd h id
  | _ => rfl

theorem convertible_of_ok {v r : Val K} (h : v.toFloat = .ok r) : v.Convertible := by
  cases v with
  | text t =>
    cases t with
    | none => simp [Val.toFloat] at h
    | some f => rfl
  | obj => simp [Val.toFloat] at h
  | _ => exact trivial

theorem conv_of_isNum {v : Val K} (h : v.isNum = true) : v.conv = v ∧ v.Convertible := by
  cases v <;> simp_all [Val.isNum, Val.conv, Val.Convertible]

theorem conv_num {v : Val K} (h : v.Convertible) : v.conv.isNum = true := by
  cases v with
  | text t =>
    cases t with
    | none => exact absurd h (by simp [Val.Convertible])
    | some f => rfl
  | obj => exact absurd h id
  | _ => rfl

/-- The converted store. -/
def Store.conv (σ : Store K) (ps : List String) : Store K :=
  fun p => if p ∈ ps then (σ p).map (List.map Val.conv) else σ p

theorem convertAll_ok {ps : List String} (hp : ps.Nodup) {σ : Store K}
    (h : ∀ p ∈ ps, ∀ l, σ p = some l → ∀ v ∈ l, v.Convertible) :
    convertAll ps σ = .ok (σ.conv ps) := by
  induction ps generalizing σ with
  | nil =>
    unfold convertAll Store.conv
    simp
  | cons p ps ih =>
    rw [List.nodup_cons] at hp
    unfold convertAll
    cases hs : σ p with
    | none =>
      simp only
      rw [ih hp.2 fun q hq => h q (List.mem_cons_of_mem _ hq)]
      congr 1
      funext q
      unfold Store.conv
      by_cases hq : q = p
      · subst hq
        simp [hp.1, hs]
      · simp [hq]
    | some l =>
      simp only
      rw [mapE_map (g := Val.conv) fun v hv => toFloat_ok (h p (by simp) l hs v hv)]
      simp only
      rw [ih hp.2]
      · congr 1
        funext q
        unfold Store.conv
        by_cases hq : q = p
        · subst hq
          simp [hp.1, hs]
        · simp [hq]
      · intro q hq l' hl'
        have : q ≠ p := by rintro rfl; exact hp.1 hq
        rw [Function.update_of_ne this] at hl'
        exact h q (List.mem_cons_of_mem _ hq) l' hl'

theorem convertAll_needs {ps : List String} (hp : ps.Nodup) {σ σ' : Store K}
    (h : convertAll ps σ = .ok σ') :
    ∀ p ∈ ps, ∀ l, σ p = some l → ∀ v ∈ l, v.Convertible := by
  induction ps generalizing σ with
  | nil => simp
  | cons p ps ih =>
    rw [List.nodup_cons] at hp
    unfold convertAll at h
    intro q hq l hl v hv
    cases hs : σ p with
    | none =>
      simp only [hs] at h
      rcases List.mem_cons.1 hq with rfl | hq
      · rw [hs] at hl; cases hl
      · exact ih hp.2 h q hq l hl v hv
    | some lp =>
      simp only [hs] at h
      cases hm : mapE Val.toFloat lp with
      | error e => simp [hm] at h
      | ok l' =>
        simp only [hm] at h
        rcases List.mem_cons.1 hq with hq1 | hq1
        · subst hq1
          rw [hs] at hl
          cases hl
          obtain ⟨r, hr⟩ := mapE_mem hm v hv
          exact convertible_of_ok hr
        · refine ih hp.2 h q hq1 l ?_ v hv
          have : q ≠ p := fun e => hp.1 (e ▸ hq1)
          rw [Function.update_of_ne this]
          exact hl

theorem stateAllParams_nodup : stateAllParams.Nodup := by decide

/-! ## Lengths -/

theorem dedup_singleton {l : List ℕ} {n : ℕ} (h : l.dedup = [n]) : l ≠ [] ∧ ∀ x ∈ l, x = n := by
  constructor
  · rintro rfl
    simp at h
  · intro x hx
    rw [← List.mem_dedup, h] at hx
    simpa using hx

theorem dedup_const {l : List ℕ} {n : ℕ} (h0 : l ≠ []) (h : ∀ x ∈ l, x = n) : l.dedup = [n] := by
  have : l = List.replicate l.length n := List.eq_replicate_iff.2 ⟨rfl, h⟩
  rw [this]
  exact List.replicate_dedup (by simpa using h0)

/-! ## Atmosphere -/

theorem atm_apply {atm : Atm K} {l : List (Val K)} {g : Val K → Flt K × Flt K}
    (h : ∀ v ∈ l, atm v.flt = some (g v)) : atm.apply l = .ok (l.map g) := by
  unfold Atm.apply
  apply mapE_map
  intro v hv
  unfold Atm.one
  rw [h v hv]

theorem mapE_rel {α β : Type*} {f : α → Except PyErr β} {l : List α} {r : List β}
    (h : mapE f l = .ok r) : List.Forall₂ (fun a b => f a = .ok b) l r := by
  induction l generalizing r with
  | nil =>
    cases h
    exact .nil
  | cons a l ih =>
    unfold mapE at h
    cases h1 : f a with
    | error e => simp [h1] at h
    | ok b =>
      cases h2 : mapE f l with
      | error e => simp [h1, h2] at h
      | ok bs =>
        simp only [h1, h2, Except.ok.injEq] at h
        subst h
        exact .cons h1 (ih h2)

theorem atm_apply_ok {atm : Atm K} {l : List (Val K)} {r : List (Flt K × Flt K)}
    (h : atm.apply l = .ok r) : List.Forall₂ (fun v t => atm v.flt = some t) l r := by
  refine (mapE_rel h).imp ?_
  intro v t hv
  unfold Atm.one at hv
  cases h1 : atm v.flt with
  | none => simp [h1] at hv
  | some t' =>
    simp only [h1, Except.ok.injEq] at hv
    rw [hv]

variable [LinearOrder K] [IntCast K]

/-- `check_values` only looks whether both angles are set. -/
theorem checkValues_eq (hk : ((-90 : ℤ) : K) ≤ ((90 : ℤ) : K)) (σ : Store K) :
    checkValues σ = if (σ "alpha").isSome ∧ (σ "beta").isSome then .ok () else .error .typeError := by
  have ho : ∀ l : List (Val K), l.any Val.outside = false := by
    intro l
    rw [List.any_eq_false]
    intro v _
    unfold Val.outside
    cases v.flt with
    | nonfin => simp
    | fin x =>
      simp only [Bool.and_eq_true, decide_eq_true_eq, not_and, not_lt]
      intro h
      exact (h.le.trans hk)
  unfold checkValues
  cases σ "alpha" with
  | none => simp
  | some l =>
    simp only [ho]
    cases σ "beta" with
    | none => simp
    | some l => simp

end

end Verif
