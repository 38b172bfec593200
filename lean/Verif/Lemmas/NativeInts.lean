import Verif.Model.NativeInts
import Verif.Lemmas.NativeSteps

/-!
# Machine integers and integers of any size

`Near b e r s`: `r` is the same as `s`, or (only if `b`) it is the error `e`.
-/

namespace Verif

/-- The same, or, if `b` holds, the error `e`. -/
def Near {ε α : Type*} (b : Prop) (e : ε) (r s : Except ε α) : Prop := r = s ∨ (b ∧ r = .error e)

/-- `r` is the error `e`, or `r` and `s` are the same error. -/
def Stops {ε α : Type*} (e : ε) (r s : Except ε α) : Prop :=
  ∃ x, r = .error x ∧ (x = e ∨ s = .error x)

theorem Near.refl {ε α : Type*} {b : Prop} {e : ε} (r : Except ε α) : Near b e r r := .inl rfl

theorem Near.bind {ε : Type*} {α β : Type} {b : Prop} {e : ε} {r s : Except ε α} {f g : α → Except ε β}
    (h : Near b e r s) (hf : ∀ a, s = .ok a → Near b e (f a) (g a)) :
    Near b e (r >>= f) (s >>= g) := by
  rcases h with rfl | ⟨hb, rfl⟩
  · cases r with
    | error x => exact .inl rfl
    | ok a => exact hf a rfl
  · exact .inr ⟨hb, rfl⟩

theorem Stops.bind {ε : Type*} {α β : Type} {b : Prop} {e : ε} {r s : Except ε α} {f g : α → Except ε β}
    (h : Near b e r s) (hf : ∀ a, Stops e (f a) (g a)) : Stops e (r >>= f) (s >>= g) := by
  rcases h with rfl | ⟨-, rfl⟩
  · cases r with
    | error x => exact ⟨x, rfl, .inr rfl⟩
    | ok a => exact hf a
  · exact ⟨e, rfl, .inl rfl⟩

variable {b : Prop}

local notation "oob" => NErr.outOfBounds

theorem forLoop_near {σ : Type*} {n : ℕ} {f g : ℕ → σ → Except NErr σ}
    (h : ∀ k < n, ∀ t, Near b oob (f k t) (g k t)) (s : σ) :
    Near b oob (forLoop n f s) (forLoop n g s) := by
  induction n with
  | zero => exact .inl rfl
  | succ n ih =>
    unfold forLoop
    rcases ih fun k hk => h k (by omega) with e | ⟨hb, e⟩
    · rw [e]
      cases forLoop n g s with
      | error x => exact .inl rfl
      | ok t => exact h n (by omega) t
    · rw [e]
      exact .inr ⟨hb, rfl⟩

theorem forLoop_stops {σ : Type*} {n m : ℕ} (hm : m < n) {f g : ℕ → σ → Except NErr σ}
    (h : ∀ k < m, ∀ t, Near True oob (f k t) (g k t)) (h' : ∀ t, Stops oob (f m t) (g m t)) (s : σ) :
    Stops oob (forLoop n f s) (forLoop n g s) := by
  induction n with
  | zero => omega
  | succ n ih =>
    unfold forLoop
    rcases Nat.lt_or_ge m n with hlt | hge
    · obtain ⟨x, e1, e2⟩ := ih hlt
      rw [e1]
      refine ⟨x, rfl, e2.imp_right fun e2 => ?_⟩
      rw [e2]
    · obtain rfl : m = n := by omega
      rcases forLoop_near h s with e | ⟨-, e⟩
      · rw [e]
        cases forLoop m g s with
        | error x => exact ⟨x, rfl, .inr rfl⟩
        | ok t => exact h' t
      · rw [e]
        exact ⟨_, rfl, .inl rfl⟩

/-! ## Access to arrays -/

theorem cint_nat {i : ℕ} (h : i < 2147483648) : cint (i : ℤ) = .ok (i : ℤ) := by
  refine if_pos ?_
  unfold IsInt
  omega

theorem cint_near {i : ℕ} (h : ¬ b → i < 2147483648) : Near b oob (cint (i : ℤ)) (.ok (i : ℤ)) := by
  by_cases hi : i < 2147483648
  · exact .inl (cint_nat hi)
  · refine .inr ⟨by_contra fun hb => hi (h hb), ?_⟩
    refine if_neg ?_
    unfold IsInt
    omega

theorem toInt_nat {i : ℕ} (h : i < 2147483648) : toInt (i : ℤ) = i := by
  unfold toInt
  omega

theorem toInt_of {z : ℤ} (h : IsInt z) : toInt z = z := by
  unfold toInt
  unfold IsInt at h
  omega

theorem iRd_near {a : Mem} {z : ℤ} {i : ℕ} (hz : z = i) (h : ¬ b → i < 2147483648) :
    Near b oob (iRd a z) (rd a i) := by
  subst hz
  unfold iRd
  refine Near.bind (s := .ok (i : ℤ)) (g := fun z : ℤ => rd a z.toNat) (cint_near h) ?_
  rintro z e
  cases e
  rw [if_neg (by omega)]
  exact .inl rfl

theorem iRdInt_near {a : List ℤ} {z : ℤ} {i : ℕ} (hz : z = i) (h : ¬ b → i < 2147483648) :
    Near b oob (iRdInt a z) (rdInt a i) := by
  subst hz
  unfold iRdInt
  refine Near.bind (s := .ok (i : ℤ)) (g := fun z : ℤ => rdInt a z.toNat) (cint_near h) ?_
  rintro z e
  cases e
  rw [if_neg (by omega)]
  exact .inl rfl

theorem iWr_near {a : Mem} {x : Flt ℝ} {z : ℤ} {i : ℕ} (hz : z = i) (h : ¬ b → i < 2147483648) :
    Near b oob (iWr a z x) (wr a i x) := by
  subst hz
  unfold iWr
  refine Near.bind (s := .ok (i : ℤ)) (g := fun z : ℤ => wr a z.toNat x) (cint_near h) ?_
  rintro z e
  cases e
  rw [if_neg (by omega)]
  exact .inl rfl

theorem iRd3_near {a : Mem} {z : ℤ} {i : ℕ} (hz : z = i) (h : ¬ b → i + 2 < 2147483648) :
    Near b oob (iRd3 a z) (rd3 a i) := by
  unfold iRd3 rd3
  refine .bind (iRd_near hz fun hb => by have := h hb; omega) fun x _ => ?_
  refine .bind (iRd_near (by rw [hz]; push_cast; rfl) fun hb => by have := h hb; omega) fun y _ => ?_
  exact .bind (iRd_near (by rw [hz]; push_cast; rfl) h) fun z _ => .inl rfl

/-! ## The loops -/

theorem iLeg_near (L : LatMem) (x : V3 ℝ) {j k : ℕ} (h : ¬ b → j * 12 + k * 3 + 5 < 2147483648) :
    Near b oob (iLeg L x j k) (nLeg L x j k) := by
  unfold iLeg nLeg
  refine .bind (iRd3_near (by push_cast; ring) fun hb => by have := h hb; omega) fun a _ => ?_
  exact .bind (iRd3_near (by push_cast; ring) fun hb => by have := h hb; omega) fun c _ => .inl rfl

theorem iHorseshoe_near (L : LatMem) (x : V3 ℝ) {j : ℕ} (h : ¬ b → j < 100000000) :
    Near b oob (iHorseshoe L x j) (nHorseshoe L x j) := by
  unfold iHorseshoe nHorseshoe
  refine forLoop_near (fun k hk t => ?_) _
  exact .bind (iLeg_near L x fun hb => by have := h hb; omega) fun v _ => .inl rfl

theorem iDownwash_step_near (L : LatMem) {n i j : ℕ} (dw : Mem) (hi : ¬ b → i < 100000000)
    (hj : ¬ b → j < 100000000) (hij : i * n + j < 2147483648) :
    Near b oob (do
      let x ← iRd3 L.c (i * 3)
      let w ← iHorseshoe L x j
      let m ← iRd3 L.n (i * 3)
      iWr dw (toInt (i * n + j)) (.fin (w.x * m.x + w.y * m.y + w.z * m.z)))
    (do
      let x ← rd3 L.c (i * 3)
      let w ← nHorseshoe L x j
      let m ← rd3 L.n (i * 3)
      wr dw (i * n + j) (.fin (w.x * m.x + w.y * m.y + w.z * m.z))) := by
  refine .bind (iRd3_near (by push_cast; ring) fun hb => by have := hi hb; omega) fun x _ => ?_
  refine .bind (iHorseshoe_near L x hj) fun w _ => ?_
  refine .bind (iRd3_near (by push_cast; ring) fun hb => by have := hi hb; omega) fun m _ => ?_
  refine iWr_near ?_ fun _ => hij
  have := toInt_nat hij
  push_cast at this ⊢
  exact this

theorem iDownwash_step_stops (L : LatMem) {n i j : ℕ} (dw : Mem) (hij : i * n + j = 2147483648) :
    Stops oob (do
      let x ← iRd3 L.c (i * 3)
      let w ← iHorseshoe L x j
      let m ← iRd3 L.n (i * 3)
      iWr dw (toInt (i * n + j)) (.fin (w.x * m.x + w.y * m.y + w.z * m.z)))
    (do
      let x ← rd3 L.c (i * 3)
      let w ← nHorseshoe L x j
      let m ← rd3 L.n (i * 3)
      wr dw (i * n + j) (.fin (w.x * m.x + w.y * m.y + w.z * m.z))) := by
  refine .bind (b := True) (iRd3_near (by push_cast; ring) (by simp)) fun x => ?_
  refine .bind (b := True) (iHorseshoe_near L x (by simp)) fun w => ?_
  refine .bind (b := True) (iRd3_near (by push_cast; ring) (by simp)) fun m => ?_
  have hz : toInt ((i : ℤ) * n + j) = -2147483648 := by
    have : (i : ℤ) * n + j = 2147483648 := by exact_mod_cast hij
    rw [this]
    rfl
  rw [hz]
  exact ⟨_, rfl, .inl rfl⟩

theorem iDownwash_near (L : LatMem) {n : ℕ} (dw : Mem) (h : n ≤ 46340) :
    Near b oob (iDownwash L n dw) (nDownwash L n dw) := by
  unfold iDownwash nDownwash
  refine forLoop_near (fun i hi t => forLoop_near (fun j hj t => ?_) _) _
  refine iDownwash_step_near L t (fun _ => by omega) (fun _ => by omega) ?_
  nlinarith

theorem iDownwash_stops (L : LatMem) {n : ℕ} (dw : Mem) (h : 46341 ≤ n) :
    Stops oob (iDownwash L n dw) (nDownwash L n dw) := by
  unfold iDownwash nDownwash
  have hn : 0 < n := by omega
  have hd := Nat.div_add_mod 2147483648 n
  have hr := Nat.mod_lt 2147483648 hn
  have hq : 2147483648 / n < n := by
    rw [Nat.div_lt_iff_lt_mul hn]
    nlinarith
  refine forLoop_stops hq (fun i hi t => forLoop_near (fun j hj t => ?_) _) (fun t => ?_) _
  · refine iDownwash_step_near L t (by simp) (by simp) ?_
    have h1 : (i + 1) * n ≤ 2147483648 / n * n := Nat.mul_le_mul_right _ hi
    have h2 : 2147483648 / n * n ≤ 2147483648 := Nat.div_mul_le_self _ _
    have h3 : (i + 1) * n = i * n + n := by ring
    omega
  · refine forLoop_stops hr (fun j hj t => ?_) (fun t => ?_) _
    · refine iDownwash_step_near L t (by simp) (by simp) ?_
      rw [mul_comm]
      omega
    · refine iDownwash_step_stops L t ?_
      rw [mul_comm]
      exact hd

theorem iBoundary_near (L : LatMem) (s : FlowState) (R : RefMem) {n : ℕ} (rhs : Mem)
    (h : ¬ b → n ≤ 46340) : Near b oob (iBoundary L s R n rhs) (nBoundary L s R n rhs) := by
  unfold iBoundary nBoundary
  refine forLoop_near (fun i hi t => ?_) _
  refine .bind (iRd3_near (by push_cast; ring) fun hb => by have := h hb; omega) fun x _ => ?_
  refine .bind (.refl _) fun cg _ => ?_
  refine .bind (iRd3_near (by push_cast; ring) fun hb => by have := h hb; omega) fun m _ => ?_
  exact iWr_near rfl fun hb => by have := h hb; omega

theorem iClear_near {i : ℕ} (r : ResMem) (h : ¬ b → i < 2147483648) :
    Near b oob (iClear i r) (nClear i r) := by
  unfold iClear nClear
  refine .bind (iWr_near rfl h) fun _ _ => ?_
  refine .bind (iWr_near rfl h) fun _ _ => ?_
  refine .bind (iWr_near rfl h) fun _ _ => ?_
  exact .bind (iWr_near rfl h) fun _ _ => .inl rfl

theorem iInwash_near (L : LatMem) (x : V3 ℝ) {i j : ℕ} (r : ResMem) (hi : ¬ b → i < 100000000)
    (hj : ¬ b → j < 100000000) : Near b oob (iInwash L x i j r) (nInwash L x i j r) := by
  have hi' : ¬ b → i < 2147483648 := fun hb => by have := hi hb; omega
  have hj' : ¬ b → j < 2147483648 := fun hb => by have := hj hb; omega
  unfold iInwash nInwash
  refine .bind (iHorseshoe_near L x hj) fun w _ => ?_
  refine .bind (iRd_near rfl hj') fun _ _ => ?_
  refine .bind (iRd_near rfl hi') fun _ _ => ?_
  refine .bind (iWr_near rfl hi') fun _ _ => ?_
  refine .bind (iRd_near rfl hi') fun _ _ => ?_
  refine .bind (iWr_near rfl hi') fun _ _ => ?_
  refine .bind (iRd_near rfl hi') fun _ _ => ?_
  refine .bind (iWr_near rfl hi') fun _ _ => ?_
  refine .bind (iRd_near rfl hi') fun _ _ => ?_
  refine .bind (iRd_near rfl hi') fun _ _ => ?_
  refine .bind (iRd_near rfl hi') fun _ _ => ?_
  exact .bind (iWr_near rfl hi') fun _ _ => .inl rfl

theorem iLoads_near (L : LatMem) (s : FlowState) (R : RefMem) (x : V3 ℝ) {i : ℕ} (r : ResMem)
    (hi : ¬ b → i < 100000000) : Near b oob (iLoads L s R x i r) (nLoads L s R x i r) := by
  have hi' : ¬ b → i < 2147483648 := fun hb => by have := hi hb; omega
  unfold iLoads nLoads
  refine .bind (iRd3_near (by push_cast; ring) fun hb => by have := hi hb; omega) fun _ _ => ?_
  refine .bind (iRd3_near (by push_cast; ring) fun hb => by have := hi hb; omega) fun _ _ => ?_
  refine .bind (.refl _) fun _ _ => ?_
  refine .bind (iRd_near rfl hi') fun _ _ => ?_
  refine .bind (iRd_near rfl hi') fun _ _ => ?_
  refine .bind (iRd_near rfl hi') fun _ _ => ?_
  refine .bind (iRd_near rfl hi') fun _ _ => ?_
  refine .bind (iWr_near rfl hi') fun _ _ => ?_
  refine .bind (iWr_near rfl hi') fun _ _ => ?_
  refine .bind (iWr_near rfl hi') fun _ _ => ?_
  refine .bind (iWr_near rfl hi') fun _ _ => ?_
  refine .bind (.refl _) fun _ _ => ?_
  refine .bind (iRd3_near (by push_cast; ring) fun hb => by have := hi hb; omega) fun _ _ => ?_
  refine .bind (iRd_near rfl hi') fun _ _ => ?_
  exact .bind (iWr_near rfl hi') fun _ _ => .inl rfl

theorem iResults_near (L : LatMem) (s : FlowState) (R : RefMem) {n : ℕ} (r : ResMem)
    (h : ¬ b → n ≤ 46340) : Near b oob (iResults L s R n r) (nResults L s R n r) := by
  unfold iResults nResults
  refine forLoop_near (fun i hi t => ?_) _
  refine .bind (iRd3_near (by push_cast; ring) fun hb => by have := h hb; omega) fun x _ => ?_
  refine .bind (iClear_near _ fun hb => by have := h hb; omega) fun r _ => ?_
  refine .bind (forLoop_near (fun j hj t => iInwash_near L x t (fun hb => by have := h hb; omega)
    fun hb => by have := h hb; omega) _) fun r _ => ?_
  exact iLoads_near L s R x r fun hb => by have := h hb; omega

/-! ## The lattice -/

theorem rdInt_mem {a : List ℤ} {i : ℕ} {x : ℤ} (h : rdInt a i = .ok x) : x ∈ a := by
  unfold rdInt at h
  cases hx : a[i]? with
  | none => rw [hx] at h; cases h
  | some y =>
    rw [hx] at h
    cases h
    exact List.mem_of_getElem? hx

theorem iReadSub_near (pts : Mem) (sym : List ℤ) {pan : List ℤ} (hpan : ∀ x ∈ pan, IsInt x) {i : ℕ}
    (h : ¬ b → i < 100000000) : Near b oob (iReadSub pts sym pan i) (readSub pts sym pan i) := by
  unfold iReadSub readSub
  refine .bind (iRdInt_near (by push_cast; ring) fun hb => by have := h hb; omega) fun x hx => ?_
  refine .bind (iRdInt_near (by push_cast; ring) fun hb => by have := h hb; omega) fun y hy => ?_
  refine .bind (iRdInt_near rfl fun hb => by have := h hb; omega) fun _ _ => ?_
  refine .bind (iRd3_near (by push_cast; ring) fun hb => by have := h hb; omega) fun _ _ => ?_
  refine .bind (iRd3_near (by push_cast; ring) fun hb => by have := h hb; omega) fun _ _ => ?_
  refine .bind (iRd3_near (by push_cast; ring) fun hb => by have := h hb; omega) fun _ _ => ?_
  refine .bind (iRd3_near (by push_cast; ring) fun hb => by have := h hb; omega) fun _ _ => ?_
  rw [toInt_of (hpan x (rdInt_mem hx)), toInt_of (hpan y (rdInt_mem hy))]
  exact .inl rfl

/-- No array has more than 2³¹ elements. -/
def LatMem.Short (L : LatMem) : Prop := ∀ arr, (L.get arr).length ≤ 2147483648

theorem LatMem.write_length {L L' : LatMem} {arr : Arr} {i : ℤ} {x : Flt ℝ}
    (h : L.write arr i x = .ok L') (a : Arr) : (L'.get a).length = (L.get a).length := by
  unfold LatMem.write at h
  split_ifs at h with h0
  unfold wr at h
  split_ifs at h with h1
  cases h
  cases arr <;> cases a <;> simp [LatMem.put, LatMem.get]

theorem iWriteAll_near (l : List (Arr × ℤ × Flt ℝ)) {L : LatMem} (h : ¬ b → L.Short) :
    Near b oob (iWriteAll l L) (writeAll l L) := by
  induction l generalizing L with
  | nil => exact .inl rfl
  | cons w rest ih =>
    unfold iWriteAll writeAll
    by_cases hw : IsInt w.2.1
    · have hc : cint w.2.1 = .ok w.2.1 := if_pos hw
      rw [hc]
      simp only []
      cases hx : L.write w.1 w.2.1 w.2.2 with
      | error e => exact .inl rfl
      | ok L' =>
        exact ih fun hb a => by rw [LatMem.write_length hx]; exact h hb a
    · have hc : cint w.2.1 = .error oob := if_neg hw
      rw [hc]
      by_cases hb : b
      · exact .inr ⟨hb, rfl⟩
      · left
        have hs := h hb w.1
        have : L.write w.1 w.2.1 w.2.2 = .error oob := by
          unfold LatMem.write
          split_ifs with h0
          · rfl
          · unfold wr
            rw [if_neg]
            unfold IsInt at hw
            omega
        rw [this]

theorem iLattice_near {L : LatMem} (numPan : ℤ) {numSeg : ℤ} (s : FlowState) (pts : Mem)
    (sym : List ℤ) {pan : List ℤ} (hpan : ∀ x ∈ pan, IsInt x) (hs : ¬ b → numSeg ≤ 46340)
    (hL : ¬ b → L.Short) :
    Near b oob (iLattice L numPan numSeg s pts sym pan) (nLattice L numPan numSeg s pts sym pan) := by
  unfold iLattice nLattice
  refine .bind (forLoop_near (fun i hi t => ?_) _) fun ins _ => ?_
  · exact .bind (iReadSub_near pts sym hpan fun hb => by have := hs hb; omega) fun _ _ => .inl rfl
  · exact .bind (iWriteAll_near _ hL) fun _ _ => .inl rfl

/-! ## The native functions -/

local notation "mem" => NStop.memory

theorem nCall_near {α : Type} (strict : Bool) {r s : Except NErr α} (old : α) (h : Near b oob r s) :
    Near b mem (nCall strict r old) (nCall strict s old) := by
  rcases h with rfl | ⟨hb, rfl⟩
  · exact .inl rfl
  · exact .inr ⟨hb, rfl⟩

theorem iPy2cLattice_near (lat st : NObj) (pts : Mem) (sym : List ℤ) {pan : List ℤ}
    (hpan : ∀ x ∈ pan, IsInt x) (hL : ¬ b → ∀ L, getLattice lat = .ok L → L.Short)
    (hi : ¬ b → ∀ i, getInfo lat = .ok i → i.2 ≤ 46340) :
    Near b oob (iPy2cLattice lat st pts sym pan) (py2cLattice lat st pts sym pan) := by
  unfold iPy2cLattice py2cLattice
  refine .bind (.refl _) fun L h1 => ?_
  refine .bind (.refl _) fun i h2 => ?_
  refine .bind (.refl _) fun s _ => ?_
  refine .bind (iLattice_near _ s pts sym hpan (fun hb => hi hb i h2) fun hb => hL hb L h1)
    fun out _ => ?_
  exact .refl _

theorem iPy2cBoundary_near (lat st : NObj) (rhs : Mem)
    (hi : ¬ b → ∀ i, getInfo lat = .ok i → i.1 ≤ 46340) :
    Near b oob (iPy2cBoundary lat st rhs) (py2cBoundary lat st rhs) := by
  unfold iPy2cBoundary py2cBoundary
  refine .bind (.refl _) fun L _ => ?_
  refine .bind (.refl _) fun i h2 => ?_
  refine .bind (.refl _) fun s _ => ?_
  refine .bind (.refl _) fun r _ => ?_
  exact iBoundary_near L s r rhs fun hb => by have := hi hb i h2; omega

theorem iPy2cResults_near (lat st res : NObj)
    (hi : ¬ b → ∀ i, getInfo lat = .ok i → i.1 ≤ 46340) :
    Near b oob (iPy2cResults lat st res) (py2cResults lat st res) := by
  unfold iPy2cResults py2cResults
  refine .bind (.refl _) fun L _ => ?_
  refine .bind (.refl _) fun i h2 => ?_
  refine .bind (.refl _) fun s _ => ?_
  refine .bind (.refl _) fun r _ => ?_
  refine .bind (.refl _) fun m _ => ?_
  exact .bind (iResults_near L s r m fun hb => by have := hi hb i h2; omega) fun m _ => .refl _

theorem iPy2cDownwash_small (lat : NObj) (dw : Mem)
    (hi : ∀ i, getInfo lat = .ok i → i.1 ≤ 46340) :
    iPy2cDownwash lat dw = py2cDownwash lat dw := by
  have : Near False oob (iPy2cDownwash lat dw) (py2cDownwash lat dw) := by
    unfold iPy2cDownwash py2cDownwash
    refine .bind (.refl _) fun L _ => ?_
    refine .bind (.refl _) fun i h2 => ?_
    exact iDownwash_near L dw (by have := hi i h2; omega)
  exact this.resolve_right fun h => h.1

theorem iPy2cDownwash_large (lat : NObj) (dw : Mem) {i : ℤ × ℤ} (hi : getInfo lat = .ok i)
    (hn : 46341 ≤ i.1) {m : Mem} (h : py2cDownwash lat dw = .ok m) :
    iPy2cDownwash lat dw = .error oob := by
  unfold py2cDownwash at h
  unfold iPy2cDownwash
  cases hL : getLattice lat with
  | error e => rw [hL] at h; cases h
  | ok L =>
    rw [hL, hi] at h
    rw [hi]
    obtain ⟨x, e1, e2⟩ := iDownwash_stops L dw (n := i.1.toNat) (by omega)
    have h' : nDownwash L i.1.toNat dw = .ok m := h
    rw [h'] at e2
    rcases e2 with rfl | e2
    · exact e1
    · cases e2

/-! ## A pass -/

section
variable {strict : Bool} {env : RunEnv} {ac : PAircraft ℝ} {cur : CurSt ℝ} {bk : Book}

theorem iGenLattice_near (hb : genBook ac = .ok bk) (hn : ∀ e ∈ bk.entries, IsInt e.numC)
    (h : ¬ b → bk.numP ≤ 46340 ∧ bk.numSub ≤ 46340) :
    Near b mem (iGenLattice strict env ac cur) (nGenLattice strict env ac cur) := by
  unfold iGenLattice nGenLattice
  rw [hb]
  simp only []
  cases mapE (entryCorners env.lat ac) bk.entries with
  | error x => exact .refl _
  | ok cs =>
    simp only []
    by_cases h0 : bk.numP < 0
    · simp only [if_pos h0]
      exact .refl _
    simp only [if_neg h0]
    have key := fun h1 h2 h3 => nCall_near (b := b) strict
      (latticeObject0 env.eps (countAllWings ac) (countAllControls ac) bk) (iPy2cLattice_near
        (latticeObject0 env.eps (countAllWings ac) (countAllControls ac) bk) (stateObject cur env.refs)
        (cornersMem cs) (List.replicate bk.symLength.toNat 0)
        (pan := bk.panelTable.flatMap fun t => [t.1, t.2]) h1 h2 h3)
    have key := key ?_ (fun hb' L hL arr => ?_) fun hb' i hi => ?_
    · rcases key with e | ⟨hb', e⟩
      · rw [e]
        exact .inl rfl
      · rw [e]
        exact .inr ⟨hb', rfl⟩
    · intro x hx
      simp only [Book.panelTable, List.mem_flatMap, List.mem_map] at hx
      obtain ⟨t, ⟨e, he, rfl⟩, hx⟩ := hx
      simp only [List.mem_cons, List.not_mem_nil, or_false] at hx
      rcases hx with rfl | rfl
      · unfold IsInt; omega
      · exact hn e he
    · rw [latticeObject0_eq _ _ _ _ fun _ => ⟨0, 0, 0, 0, 0, 0, 0, 0, 0, 0⟩, getLattice_obj] at hL
      cases hL
      have := (h hb').1
      rw [latAt_get]
      have hw : arr.width ≤ 12 := by cases arr <;> simp [Arr.width]
      have hl : ∀ m N g, (fill m N g).length = N := fun m N g => by simp [fill]
      rw [hl]
      have : bk.numP.toNat ≤ 46340 := by omega
      calc _ ≤ 46340 * 12 := Nat.mul_le_mul this hw
        _ ≤ _ := by norm_num
    · rw [latticeObject0_eq _ _ _ _ fun _ => ⟨0, 0, 0, 0, 0, 0, 0, 0, 0, 0⟩,
        getInfo_obj (a := bk.numP) (b := bk.numSub) _ _ rfl rfl] at hi
      cases hi
      exact (h hb').2

theorem iCalc_small {lat : NObj} (hi : ∀ i, getInfo lat = .ok i → i.1 ≤ 46340) (st d : NObj) :
    iCalcDownwash strict lat d = nCalcDownwash strict lat d ∧
    iCalcBoundary strict lat st d = nCalcBoundary strict lat st d ∧
    iCalcResults strict lat st d = nCalcResults strict lat st d := by
  have e1 : ∀ rhs, iPy2cBoundary lat st rhs = py2cBoundary lat st rhs := fun rhs =>
    (iPy2cBoundary_near (b := False) lat st rhs fun _ => hi).resolve_right fun h => h.1
  have e2 : ∀ res, iPy2cResults lat st res = py2cResults lat st res := fun res =>
    (iPy2cResults_near (b := False) lat st res fun _ => hi).resolve_right fun h => h.1
  unfold iCalcDownwash nCalcDownwash iCalcBoundary nCalcBoundary iCalcResults nCalcResults
  simp only [iPy2cDownwash_small lat _ hi, e1, e2]
  exact ⟨rfl, rfl, rfl⟩

/-- Once the objects are made, a pass needs only the number of panels. -/
theorem iAnalyse_small (hb : genBook ac = .ok bk) (hn : ∀ e ∈ bk.entries, IsInt e.numC)
    (h : bk.numP ≤ 46340 ∧ bk.numSub ≤ 46340) (hi : ∀ lat, nGenLattice strict env ac cur = .ok lat →
      ∀ i, getInfo lat = .ok i → i.1 ≤ 46340) (d : NObj) :
    iAnalyse strict env ac cur d = nAnalyse strict env ac cur d := by
  have e := (iGenLattice_near (b := False) (strict := strict) (env := env) (cur := cur) hb hn
    fun _ => h).resolve_right fun h => h.1
  unfold iAnalyse nAnalyse
  rw [e]
  cases hl : nGenLattice strict env ac cur with
  | error x => rfl
  | ok lat =>
    have hc := fun st d => iCalc_small (strict := strict) (hi lat hl) st d
    have h1 : iCalcDownwash strict lat = nCalcDownwash strict lat := funext fun d => (hc d d).1
    have h2 : iCalcBoundary strict lat = nCalcBoundary strict lat :=
      funext fun st => funext fun d => (hc st d).2.1
    have h3 : iCalcResults strict lat = nCalcResults strict lat :=
      funext fun st => funext fun d => (hc st d).2.2
    simp only [h1, h2, h3]
    cases nCalcDownwash strict lat d with
    | error x => rfl
    | ok d1 =>
      simp only []
      cases nCalcBoundary strict lat (stateObject cur env.refs) d1 with
      | error x => rfl
      | ok d2 =>
        simp only []
        cases nSolver env d2 with
        | error x => rfl
        | ok d3 =>
          simp only []
          cases nCalcResults strict lat (stateObject cur env.refs) d3 with
          | error x => rfl
          | ok d4 => rfl

/-- With too many panels the first native call after the lattice leaves its array. -/
theorem iAnalyse_large (hb : genBook ac = .ok bk) (hn : ∀ e ∈ bk.entries, IsInt e.numC) {lat d : NObj}
    (hl : nGenLattice strict env ac cur = .ok lat) {i : ℤ × ℤ} (hi : getInfo lat = .ok i)
    (hbig : 46341 ≤ i.1) {m : Mem}
    (hd : py2cDownwash lat (List.replicate (i.1.toNat * i.1.toNat) (.fin 0)) = .ok m) :
    iAnalyse strict env ac cur d = .error mem := by
  rcases iGenLattice_near (b := True) (strict := strict) (env := env) (cur := cur) hb hn (by simp) with
    e | ⟨-, e⟩
  · unfold iAnalyse
    rw [e, hl]
    simp only []
    have hp : infoPanels lat = .ok i.1 := by unfold infoPanels; rw [hi]
    unfold iCalcDownwash
    rw [hp]
    simp only [iPy2cDownwash_large lat _ hi hbig hd, nCall]
  · unfold iAnalyse
    rw [e]

end

end Verif
