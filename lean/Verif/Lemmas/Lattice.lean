import Verif.Model.Lattice
import Verif.Lemmas.Geometry
import Verif.Props.Book
import Mathlib.Data.List.Perm.Basic
import Mathlib.Data.List.Nodup

/-! Helper lemmas: lattice. -/

namespace Verif

open V3

/-! ### Panel numbers -/

theorem mem_pyRange {a b x : ℤ} : x ∈ pyRange a b ↔ a ≤ x ∧ x < b := by
  unfold pyRange
  rw [List.mem_map]
  constructor
  · rintro ⟨k, hk, rfl⟩
    have := List.mem_range.1 hk
    omega
  · rintro ⟨h1, h2⟩
    exact ⟨(x - a).toNat, List.mem_range.2 (by omega), by omega⟩

theorem nodup_pyRange (a b : ℤ) : (pyRange a b).Nodup := by
  unfold pyRange
  refine List.Nodup.map ?_ List.nodup_range
  intro k l h
  simpa using h

section
variable {K : Type*} [Field K]

theorem passPanels_fst (k : Coef K) (leg : V3 K) (start panS panC : ℤ) :
    (passPanels k leg start panS panC).map Prod.fst =
      (List.range panC.toNat).flatMap fun i : ℕ =>
        (List.range panS.toNat).map fun j : ℕ => start + (j * panC + i) := by
  unfold passPanels
  rw [List.map_flatMap]
  simp only [List.map_map, Function.comp_def]

theorem passPanels_perm (k : Coef K) (leg : V3 K) (start panS panC : ℤ) (hS : 0 ≤ panS)
    (hC : 0 ≤ panC) :
    ((passPanels k leg start panS panC).map Prod.fst).Perm
      (pyRange start (start + panS * panC)) := by
  rw [passPanels_fst]
  refine (List.perm_ext_iff_of_nodup ?_ (nodup_pyRange _ _)).2 ?_
  · rw [List.nodup_flatMap]
    constructor
    · intro i hi
      refine List.Nodup.map ?_ List.nodup_range
      intro j j' h
      have hi' := List.mem_range.1 hi
      have hC' : 0 < panC := by omega
      have : (j : ℤ) * panC = j' * panC := by linarith
      have := mul_right_cancel₀ hC'.ne' this
      exact_mod_cast this
    · refine List.nodup_range.imp_of_mem ?_
      intro i i' hi hi' hne
      rw [Function.onFun, List.disjoint_left]
      intro x hx hx'
      obtain ⟨j, -, rfl⟩ := List.mem_map.1 hx
      obtain ⟨j', -, h⟩ := List.mem_map.1 hx'
      have hi := List.mem_range.1 hi
      have hi' := List.mem_range.1 hi'
      have e : (j : ℤ) * panC + i = j' * panC + i' := by linarith
      have hjj : (j : ℤ) = j' := by
        rcases lt_trichotomy (j : ℤ) j' with h | h | h
        · have : ((j : ℤ) + 1) * panC ≤ j' * panC := by gcongr; omega
          have : (j : ℤ) * panC + panC ≤ j' * panC := by linarith
          omega
        · exact h
        · have : ((j' : ℤ) + 1) * panC ≤ j * panC := by gcongr; omega
          have : (j' : ℤ) * panC + panC ≤ j * panC := by linarith
          omega
      rw [hjj] at e
      apply hne
      omega
  · intro x
    rw [mem_pyRange, List.mem_flatMap]
    constructor
    · rintro ⟨i, hi, hx⟩
      obtain ⟨j, hj, rfl⟩ := List.mem_map.1 hx
      have hi := List.mem_range.1 hi
      have hj := List.mem_range.1 hj
      have h1 : ((j : ℤ) + 1) * panC ≤ panS * panC := by gcongr; omega
      have h2 : (j : ℤ) * panC + panC ≤ panS * panC := by linarith
      have h3 : 0 ≤ (j : ℤ) * panC := by positivity
      omega
    · rintro ⟨h1, h2⟩
      have hC' : 0 < panC := by
        rcases hC.eq_or_lt with h | h
        · rw [← h] at h2; simp at h2; omega
        · exact h
      have hd0 : 0 ≤ (x - start) / panC := Int.ediv_nonneg (by omega) hC
      have hm0 := Int.emod_nonneg (x - start) hC'.ne'
      have hm1 := Int.emod_lt_of_pos (x - start) hC'
      have hdm := Int.emod_add_mul_ediv (x - start) panC
      have hd1 : (x - start) / panC < panS := by
        apply Int.ediv_lt_of_lt_mul hC'
        linarith
      refine ⟨((x - start) % panC).toNat, List.mem_range.2 (by omega), List.mem_map.2
        ⟨((x - start) / panC).toNat, List.mem_range.2 (by omega), ?_⟩⟩
      rw [Int.toNat_of_nonneg hd0, Int.toNat_of_nonneg hm0]
      linarith

theorem passPanels_one (k : Coef K) (leg : V3 K) (start panC : ℤ) :
    (passPanels k leg start 1 panC).map Prod.fst = pyRange start (start + panC) := by
  rw [passPanels_fst, pyRange]
  have : (start + panC - start).toNat = panC.toNat := by congr 1; ring
  rw [this]
  generalize panC.toNat = n
  induction n with
  | zero => rfl
  | succ m ih => rw [List.range_succ, List.flatMap_append, ih]; simp

end

theorem pyRange_self (a : ℤ) : pyRange a a = [] := by simp [pyRange]

theorem flatMap_pyRange (w : ℤ) (hw : 0 ≤ w) (n : ℕ) :
    (pyRange 0 n).flatMap (fun k => pyRange (k * w) (k * w + w)) = pyRange 0 (n * w) := by
  induction n with
  | zero => simp [pyRange]
  | succ m ih =>
    have h1 : pyRange 0 ((m + 1 : ℕ) : ℤ) = pyRange 0 m ++ [(m : ℤ)] := by
      rw [← pyRange_append (a := 0) (b := m) (c := ((m + 1 : ℕ) : ℤ)) (by omega) (by omega)]
      congr 1
      simp [pyRange]
    rw [h1, List.flatMap_append, ih]
    have h2 : (0 : ℤ) ≤ m * w := by positivity
    have h3 : (((m + 1 : ℕ) : ℤ)) * w = m * w + w := by push_cast; ring
    rw [h3, ← pyRange_append h2 (by omega : (m : ℤ) * w ≤ m * w + w)]
    simp

/-! ### Element writes of a panel -/

theorem panelWrites_idx (kp : ℤ × PanelPts ℝ) (arr : Arr) :
    ((panelWrites kp).filter (fun t => t.1 = arr)).map (fun t => t.2.1) =
      pyRange (kp.1 * arr.width) (kp.1 * arr.width + arr.width) := by
  have e : ∀ (a : ℤ) (n : ℕ), pyRange a (a + n) = (List.range n).map fun k : ℕ => a + k := by
    intro a n; simp [pyRange]
  rw [e]
  cases arr <;>
    simp [panelWrites, write3, Arr.width, List.range_succ] <;>
    omega

/-- The last write to an element decides. -/
noncomputable def lastWrite (arr : Arr) (i : ℤ) (l : List (Arr × ℤ × ℝ)) : Option ℝ :=
  ((l.filter fun t => decide (t.1 = arr) && decide (t.2.1 = i)).getLast?).map fun t => t.2.2

theorem lastWrite_of_unique {l : List (Arr × ℤ × ℝ)} {arr : Arr} {i : ℤ} {x : ℝ}
    (hn : ((l.filter (fun t => t.1 = arr)).map (fun t => t.2.1)).Nodup)
    (hm : (arr, i, x) ∈ l) : lastWrite arr i l = some x := by
  unfold lastWrite
  have h1 : l.filter (fun t => decide (t.1 = arr) && decide (t.2.1 = i)) =
      (l.filter (fun t => t.1 = arr)).filter (fun t => t.2.1 = i) := by
    rw [List.filter_filter]
    congr 1
    funext t
    rw [Bool.and_comm]
  rw [h1]
  have hm' : (arr, i, x) ∈ l.filter (fun t => t.1 = arr) := by simp [hm]
  generalize l.filter (fun t => t.1 = arr) = l' at *
  have : ∀ t ∈ l'.filter (fun t => t.2.1 = i), t = (arr, i, x) := by
    intro t ht
    obtain ⟨ht1, ht2⟩ := List.mem_filter.1 ht
    have ht2 : t.2.1 = i := by simpa using ht2
    exact List.inj_on_of_nodup_map hn ht1 hm' ht2
  have hne : (arr, i, x) ∈ l'.filter (fun t => t.2.1 = i) := by simp [hm']
  cases hl : (l'.filter (fun t => t.2.1 = i)).getLast? with
  | none =>
    rw [List.getLast?_eq_none_iff] at hl
    rw [hl] at hne
    cases hne
  | some t =>
    have := this t (List.mem_of_getLast? hl)
    rw [this]
    rfl

/-! ### Points -/

section
variable {K : Type*} [Field K]

theorem coef_corners (p : Corners (V3 K)) :
    (Coef.of p).at 0 0 = p.a ∧ (Coef.of p).at 1 0 = p.b ∧
    (Coef.of p).at 1 1 = p.c ∧ (Coef.of p).at 0 1 = p.d := by
  unfold Coef.of Coef.at
  refine ⟨?_, ?_, ?_, ?_⟩ <;> ext <;> vsimp <;> ring

theorem coef_at_eq (p : Corners (V3 K)) (s c : K) :
    (Coef.of p).at s c = p.a + s • (p.b - p.a) +
      c • ((p.d - p.a) + s • ((p.c - p.d) - (p.b - p.a))) := by
  unfold Coef.of Coef.at
  ext <;> vsimp <;> ring

end

/-- The input arrays entry by entry: one spanwise panel, the number of chordwise panels of the
entry, no symmetry flag. -/
theorem Book.inputs_eq {K : Type*} (b : Book) (corners : BookEntry → Corners (V3 K)) :
    b.inputs corners = b.entries.map fun e => ⟨corners e, 0, 1, e.numC⟩ := by
  unfold Book.inputs Book.inputsOf Book.panelTable
  induction b.entries with
  | nil => rfl
  | cons e l ih => simp only [List.map_cons, List.zipWith_cons_cons, ih]

end Verif
