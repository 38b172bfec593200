import Verif.Lemmas.Native

/-!
# Lemmas about the arrays filled by the lattice generator
-/

namespace Verif

/-- The row of panel `g` in an output array. -/
noncomputable def rowOf (arr : Arr) (g : PanelPts ℝ) (nrm : Mem) : Mem :=
  match arr with
  | .P => g.p.mem ++ g.q.mem ++ g.r.mem ++ g.s.mem
  | .V => g.v1.mem ++ g.v2.mem ++ g.v3.mem ++ g.v4.mem
  | .C => g.col.mem
  | .BoundLegMidpoint => g.mid.mem
  | .N => nrm
  | .A => [.fin g.area]

/-- Row of a normal vector. -/
def normalMem : Option (V3 ℝ) → Mem
  | some v => v.mem
  | none => [.nonfin, .nonfin, .nonfin]

theorem normalMem_length (v : Option (V3 ℝ)) : (normalMem v).length = 3 := by
  cases v <;> rfl

theorem rowOf_length (arr : Arr) (g : PanelPts ℝ) {nrm : Mem} (h : nrm.length = 3) :
    (rowOf arr g nrm).length = arr.width := by
  cases arr <;> first | rfl | exact h

/-- Elements of an array by rows. -/
noncomputable def cellOf (pts : ℕ → PanelPts ℝ) (arr : Arr) (k : ℕ) : Flt ℝ :=
  (rowOf arr (pts (k / arr.width)) (normalMem (pts (k / arr.width)).finNormal)).getD
    (k % arr.width) .nonfin

theorem cellOf_at (pts : ℕ → PanelPts ℝ) (arr : Arr) {k c j : ℕ} (hc : c < arr.width)
    (hj : j = k * arr.width + c) :
    cellOf pts arr j = (rowOf arr (pts k) (normalMem (pts k).finNormal)).getD c .nonfin := by
  subst hj
  have h0 : 0 < arr.width := by omega
  unfold cellOf
  have e1 : (k * arr.width + c) / arr.width = k := by
    rw [mul_comm, Nat.mul_add_div h0, Nat.div_eq_of_lt hc, add_zero]
  have e2 : (k * arr.width + c) % arr.width = c := by
    rw [mul_comm, Nat.mul_add_mod, Nat.mod_eq_of_lt hc]
  rw [e1, e2]

/-- The arrays with the first `h arr` elements written. -/
noncomputable def latAt (n : ℕ) (eps : ℝ) (pts : ℕ → PanelPts ℝ) (h : Arr → ℕ) : LatMem where
  p := fill (h .P) (n * 12) (cellOf pts .P)
  v := fill (h .V) (n * 12) (cellOf pts .V)
  c := fill (h .C) (n * 3) (cellOf pts .C)
  mid := fill (h .BoundLegMidpoint) (n * 3) (cellOf pts .BoundLegMidpoint)
  n := fill (h .N) (n * 3) (cellOf pts .N)
  a := fill (h .A) (n * 1) (cellOf pts .A)
  eps := eps

theorem latAt_get (n : ℕ) (eps : ℝ) (pts : ℕ → PanelPts ℝ) (h : Arr → ℕ) (arr : Arr) :
    (latAt n eps pts h).get arr = fill (h arr) (n * arr.width) (cellOf pts arr) := by
  cases arr <;> rfl

theorem latAt_put (n : ℕ) (eps : ℝ) (pts : ℕ → PanelPts ℝ) (h : Arr → ℕ) (arr : Arr) (m : ℕ) :
    (latAt n eps pts h).put arr (fill m (n * arr.width) (cellOf pts arr)) =
      latAt n eps pts (Function.update h arr m) := by
  cases arr <;> simp [LatMem.put, latAt, Arr.width]

theorem write_ok {n : ℕ} {eps : ℝ} {pts : ℕ → PanelPts ℝ} {h : Arr → ℕ} {arr : Arr} {i : ℤ}
    {x : Flt ℝ} (hi : i = h arr) (hn : h arr < n * arr.width) (hx : x = cellOf pts arr (h arr)) :
    (latAt n eps pts h).write arr i x =
      .ok (latAt n eps pts (Function.update h arr (h arr + 1))) := by
  subst hi
  unfold LatMem.write
  rw [if_neg (by omega), latAt_get, Int.toNat_natCast, wr_fill _ hn hx]
  simp only [latAt_put]

/-- Three elements of an array. -/
theorem writeAll_three {n : ℕ} {eps : ℝ} {pts : ℕ → PanelPts ℝ} {h : Arr → ℕ} {arr : Arr} {i : ℤ}
    {x y z : Flt ℝ} {rest : List (Arr × ℤ × Flt ℝ)} (k c : ℕ) (hm : h arr = k * arr.width + c)
    (hi : i = ((k * arr.width + c : ℕ) : ℤ)) (hk : k < n) (hc : c + 3 ≤ arr.width)
    (hx : x = (rowOf arr (pts k) (normalMem (pts k).finNormal)).getD c .nonfin)
    (hy : y = (rowOf arr (pts k) (normalMem (pts k).finNormal)).getD (c + 1) .nonfin)
    (hz : z = (rowOf arr (pts k) (normalMem (pts k).finNormal)).getD (c + 2) .nonfin) :
    writeAll ((arr, i, x) :: (arr, i + 1, y) :: (arr, i + 2, z) :: rest) (latAt n eps pts h) =
      writeAll rest (latAt n eps pts (Function.update h arr (k * arr.width + (c + 3)))) := by
  have hn : k * arr.width + c + 3 ≤ n * arr.width :=
    calc k * arr.width + c + 3 ≤ k * arr.width + arr.width := by omega
      _ = (k + 1) * arr.width := by ring
      _ ≤ n * arr.width := Nat.mul_le_mul_right _ hk
  have hx' : x = cellOf pts arr (h arr) := by rw [hx, cellOf_at (k := k) (c := c) pts arr (by omega) hm]
  have e := write_ok (eps := eps) (hi.trans (by rw [hm])) (show h arr < n * arr.width by omega) hx'
  simp only [writeAll]
  rw [e]
  simp only
  rw [write_ok (by rw [Function.update_self, hi, hm]; push_cast; ring)
    (by rw [Function.update_self]; omega)
    (by rw [Function.update_self, hy, cellOf_at (k := k) (c := c + 1) pts arr (by omega) (by omega)])]
  simp only
  rw [write_ok (by rw [Function.update_self, Function.update_self, hi, hm]; push_cast; ring)
    (by rw [Function.update_self, Function.update_self]; omega)
    (by rw [Function.update_self, Function.update_self, hz,
      cellOf_at (k := k) (c := c + 2) pts arr (by omega) (by omega)])]
  simp only [Function.update_self, Function.update_idem, hm]
  rfl

/-- Elements written for one panel. -/
noncomputable def elementsOf (kp : ℤ × PanelPts ℝ) : List (Arr × ℤ × Flt ℝ) :=
  (panelWrites kp).map fun w => nElement w kp.2

theorem finNormal_none {g : PanelPts ℝ} (h : g.crossVec.norm = 0) : g.finNormal = none := by
  unfold PanelPts.finNormal
  rw [if_pos h]

theorem finNormal_ok {g : PanelPts ℝ} (h : g.crossVec.norm ≠ 0) :
    g.finNormal = some g.normal := by
  unfold PanelPts.finNormal
  rw [if_neg h]

/-- Row of a normal vector as written. -/
theorem normal_cell {g : PanelPts ℝ} (c : ℕ) (y : ℝ) (hy : (g.normal.mem).getD c .nonfin = .fin y)
    (hc : c < 3) (i : ℤ) :
    (nElement (.N, i, y) g).2.2 = (normalMem g.finNormal).getD c .nonfin := by
  unfold nElement
  by_cases h : g.crossVec.norm = 0
  · rw [finNormal_none h]
    simp only [h, and_self, if_true, normalMem]
    interval_cases c <;> rfl
  · rw [finNormal_ok h]
    simp only [h, and_false, if_false, normalMem, hy]

theorem writeAll_panel {n : ℕ} {eps : ℝ} {pts : ℕ → PanelPts ℝ} {k : ℕ} (hk : k < n)
    (rest : List (Arr × ℤ × Flt ℝ)) :
    writeAll (elementsOf ((k : ℤ), pts k) ++ rest) (latAt n eps pts fun a => k * a.width) =
      writeAll rest (latAt n eps pts fun a => (k + 1) * a.width) := by
  have hw : ∀ w, (k + 1) * w ≤ n * w := fun w => Nat.mul_le_mul_right _ hk
  unfold elementsOf panelWrites write3
  simp only [List.map_cons, List.map_nil, List.cons_append, List.nil_append]
  have other : ∀ (arr : Arr) (i : ℤ) (y : ℝ), arr ≠ .N →
      nElement (arr, i, y) (pts k) = (arr, i, .fin y) := by
    intro arr i y h
    simp [nElement, h]
  have nrm : ∀ (c : ℕ) (i : ℤ) (y : ℝ), c < 3 → ((pts k).normal.mem).getD c .nonfin = .fin y →
      nElement (.N, i, y) (pts k) = (.N, i, (normalMem (pts k).finNormal).getD c .nonfin) := by
    intro c i y hc hy
    rw [← normal_cell c y hy hc i]
    rfl
  rw [nrm 0 _ _ (by omega) rfl, nrm 1 _ _ (by omega) rfl, nrm 2 _ _ (by omega) rfl]
  simp only [other .P _ _ (by decide), other .V _ _ (by decide), other .C _ _ (by decide),
    other .BoundLegMidpoint _ _ (by decide), other .A _ _ (by decide)]
  refine (writeAll_three k 0 (by simp) (by simp [Arr.width]; ring) hk (by decide) rfl rfl rfl).trans ?_
  refine (writeAll_three k 3 (by simp) (by simp [Arr.width]; ring) hk (by decide) rfl rfl rfl).trans ?_
  refine (writeAll_three k 6 (by simp) (by simp [Arr.width]; ring) hk (by decide) rfl rfl rfl).trans ?_
  refine (writeAll_three k 9 (by simp) (by simp [Arr.width]; ring) hk (by decide) rfl rfl rfl).trans ?_
  refine (writeAll_three k 0 (by simp) (by simp [Arr.width]; ring) hk (by decide) rfl rfl rfl).trans ?_
  refine (writeAll_three k 3 (by simp) (by simp [Arr.width]; ring) hk (by decide) rfl rfl rfl).trans ?_
  refine (writeAll_three k 6 (by simp) (by simp [Arr.width]; ring) hk (by decide) rfl rfl rfl).trans ?_
  refine (writeAll_three k 9 (by simp) (by simp [Arr.width]; ring) hk (by decide) rfl rfl rfl).trans ?_
  refine (writeAll_three k 0 (by simp) (by simp [Arr.width]) hk (by decide) rfl rfl rfl).trans ?_
  refine (writeAll_three k 0 (by simp) (by simp [Arr.width]) hk (by decide) rfl rfl rfl).trans ?_
  refine (writeAll_three k 0 (by simp) (by simp [Arr.width]) hk (by decide) rfl rfl rfl).trans ?_
  simp only [writeAll]
  rw [write_ok (by simp [Arr.width]) (by simpa [Arr.width] using hk) (by
    symm
    refine (cellOf_at (k := k) (c := 0) pts .A (by decide) ?_).trans rfl
    simp)]
  simp only
  congr 2
  funext a
  cases a <;> simp [Arr.width] <;> ring

/-- All panels are written one after another. -/
theorem writeAll_panels {n : ℕ} {eps : ℝ} {pts : ℕ → PanelPts ℝ} {m : ℕ} (hm : m ≤ n)
    (rest : List (Arr × ℤ × Flt ℝ)) :
    writeAll (((List.range m).flatMap fun k : ℕ => elementsOf ((k : ℤ), pts k)) ++ rest)
      (latAt n eps pts fun _ => 0) = writeAll rest (latAt n eps pts fun a => m * a.width) := by
  induction m generalizing rest with
  | zero => simp
  | succ m ih =>
    rw [List.range_succ, List.flatMap_append, List.append_assoc, ih (by omega)]
    simp only [List.flatMap_cons, List.flatMap_nil, List.append_nil]
    exact writeAll_panel (by omega) rest

/-- A filled array by rows. -/
theorem fill_rows (pts : ℕ → PanelPts ℝ) (n : ℕ) (arr : Arr) :
    fill (n * arr.width) (n * arr.width) (cellOf pts arr) =
      (List.range n).flatMap fun k => rowOf arr (pts k) (normalMem (pts k).finNormal) := by
  have hlen : ∀ i < n, (rowOf arr (pts i) (normalMem (pts i).finNormal)).length = arr.width :=
    fun i _ => rowOf_length arr _ (normalMem_length _)
  have h0 : 0 < arr.width := by cases arr <;> decide
  apply List.ext_getElem?
  intro k
  by_cases hk : k < n * arr.width
  · rw [fill_get _ hk, if_pos hk]
    have hd : k / arr.width < n := Nat.div_lt_of_lt_mul (by rwa [mul_comm])
    have hmod := Nat.mod_lt k h0
    have e : k = k / arr.width * arr.width + k % arr.width := by
      rw [mul_comm]; exact (Nat.div_add_mod k _).symm
    rw [show ((List.range n).flatMap fun k => rowOf arr (pts k) (normalMem (pts k).finNormal))[k]? =
      (rowOf arr (pts (k / arr.width)) (normalMem (pts (k / arr.width)).finNormal))[k % arr.width]?
      from by
        conv_lhs => rw [e]
        exact flatMap_get hlen hd hmod]
    unfold cellOf
    rw [List.getD_eq_getElem?_getD, List.getElem?_eq_getElem (by
      rw [rowOf_length arr _ (normalMem_length _)]; exact hmod)]
    rfl
  · rw [List.getElem?_eq_none (by simpa using hk),
      List.getElem?_eq_none (by rw [flatMap_length hlen]; omega)]

/-- Three elements of a row. -/
theorem rd3_flatMap {n w : ℕ} {f : ℕ → Mem} (hf : ∀ i < n, (f i).length = w) {i c j : ℕ}
    (hi : i < n) (hc : c + 3 ≤ w) {v : V3 ℝ} (hj : j = i * w + c)
    (h0 : (f i)[c]? = some (.fin v.x)) (h1 : (f i)[c + 1]? = some (.fin v.y))
    (h2 : (f i)[c + 2]? = some (.fin v.z)) : rd3 ((List.range n).flatMap f) j = .ok v := by
  subst hj
  refine rd3_fin ?_ ?_ ?_
  · rw [flatMap_get hf hi (by omega), h0]
  · rw [add_assoc, flatMap_get hf hi (by omega), h1]
  · rw [add_assoc, flatMap_get hf hi (by omega), h2]

/-- Rows of normals can be read back. -/
theorem rd3_normals {n : ℕ} (f : ℕ → Option (V3 ℝ)) {i : ℕ} (hi : i < n) :
    rd3 ((List.range n).flatMap fun k => normalMem (f k)) (i * 3) = match f i with
      | some m => .ok m
      | none => .error .notFinite := by
  have hf : ∀ i < n, (normalMem (f i)).length = 3 := fun i _ => normalMem_length _
  cases h : f i with
  | some v =>
    exact rd3_flatMap (c := 0) hf hi (by omega) rfl (by rw [h]; rfl) (by rw [h]; rfl)
      (by rw [h]; rfl)
  | none =>
    apply rd3_nonfin
    have := flatMap_get (c := 0) hf hi (by omega)
    rw [add_zero] at this
    rw [this, h]
    rfl

/-- Arrays by rows, with normals given separately. -/
noncomputable def latRows (n : ℕ) (eps : ℝ) (pts : ℕ → PanelPts ℝ) (nrm : ℕ → Option (V3 ℝ)) :
    LatMem where
  p := (List.range n).flatMap fun k => (pts k).p.mem ++ (pts k).q.mem ++ (pts k).r.mem ++ (pts k).s.mem
  v := (List.range n).flatMap fun k =>
    (pts k).v1.mem ++ (pts k).v2.mem ++ (pts k).v3.mem ++ (pts k).v4.mem
  c := (List.range n).flatMap fun k => (pts k).col.mem
  mid := (List.range n).flatMap fun k => (pts k).mid.mem
  n := (List.range n).flatMap fun k => normalMem (nrm k)
  a := (List.range n).flatMap fun k => [.fin (pts k).area]
  eps := eps

theorem latAt_full (n : ℕ) (eps : ℝ) (pts : ℕ → PanelPts ℝ) :
    (latAt n eps pts fun a => n * a.width) = latRows n eps pts fun k => (pts k).finNormal := by
  unfold latAt latRows
  rw [LatMem.mk.injEq]
  exact ⟨fill_rows pts n .P, fill_rows pts n .V, fill_rows pts n .C,
    fill_rows pts n .BoundLegMidpoint, fill_rows pts n .N, fill_rows pts n .A, rfl⟩

theorem latRows_holds (n : ℕ) (eps : ℝ) (pts : ℕ → PanelPts ℝ) (nrm : ℕ → Option (V3 ℝ)) :
    (latRows n eps pts nrm).Holds n pts nrm := by
  refine ⟨?_, ?_, ?_, ?_, ?_⟩
  · intro j hj k hk
    have hf : ∀ i < n, ((pts i).v1.mem ++ (pts i).v2.mem ++ (pts i).v3.mem ++
        (pts i).v4.mem).length = 12 := fun _ _ => rfl
    interval_cases k
    · exact rd3_flatMap (c := 0) hf hj (by omega) (by ring) rfl rfl rfl
    · exact rd3_flatMap (c := 3) hf hj (by omega) (by ring) rfl rfl rfl
    · exact rd3_flatMap (c := 6) hf hj (by omega) (by ring) rfl rfl rfl
    · exact rd3_flatMap (c := 9) hf hj (by omega) (by ring) rfl rfl rfl
  · intro j hj
    exact rd3_flatMap (w := 3) (c := 0) (fun _ _ => rfl) hj (by omega) rfl rfl rfl rfl
  · intro j hj
    exact rd3_flatMap (w := 3) (c := 0) (fun _ _ => rfl) hj (by omega) rfl rfl rfl rfl
  · intro j hj
    exact rd3_normals nrm hj
  · intro j hj
    apply rd_fin
    have := flatMap_get (w := 1) (c := 0) (f := fun k => [(.fin (pts k).area : Flt ℝ)])
      (fun _ _ => rfl) hj (by omega)
    rw [mul_one, add_zero] at this
    exact this

end Verif
