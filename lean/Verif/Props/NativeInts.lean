import Verif.Lemmas.NativeInts
import Verif.Props.NativeProject
import Verif.Props.ProgramExamples

/-!
# C146: how many panels the integers of the native code can count

`iStandardRun` is the run with 32-bit `int` indices (`Model/NativeInts`), `nStandardRun` the same run
with integers of any size, `standardRun` the run on panels.
-/

namespace Verif

/-- `standard_run` (`run.py:84-182`) with 32-bit `int` indices in the native code. -/
noncomputable def iRunProject (strict : Bool) (W : World) (P : Project) :
    Except (NStop × Files) NRunOut :=
  match loadProject W P with
  | .error e => .error (.stop (.raised e), [])
  | .ok x => iStandardRun strict (x.env W P) x.aircraft.toP x.state

theorem Contig.numC_le {a b : ℤ} {es : List BookEntry} (hc : Contig a es b)
    (hn : ∀ e ∈ es, 1 ≤ e.numC) : ∀ e ∈ es, e.numC ≤ b - a := by
  induction es generalizing a with
  | nil => simp
  | cons e rest ih =>
    obtain ⟨h1, h2, h3⟩ := hc
    have hn' : ∀ x ∈ rest, 1 ≤ x.numC := fun x hx => hn x (List.mem_cons_of_mem _ hx)
    have hle := h3.le hn'
    have h1' := hn e (by simp)
    intro x hx
    rcases List.mem_cons.1 hx with rfl | hx
    · omega
    · have := ih h3 hn' x hx
      omega

section
variable {strict : Bool} {env : RunEnv} {st : FlightSt ℝ}

theorem iRunStep_small {ac : PAircraft ℝ} (h : ∀ cur s d, cur.toFlow = some s →
    iAnalyse strict env ac cur d = nAnalyse strict env ac cur d) (i : ℕ) {x : NLoopSt}
    (hx : ∀ ac', prePanelFirst i x.ac = .ok ac' → ac' = ac) :
    iRunStep strict env st i x = nRunStep strict env st i x := by
  unfold iRunStep nRunStep
  cases st.current i with
  | error e => rfl
  | ok cur =>
    simp only [orNStop]
    cases hp : prePanelFirst i x.ac with
    | error e => rfl
    | ok ac' =>
      simp only []
      cases hs : cur.toFlow with
      | none => rfl
      | some s =>
        simp only []
        rw [hx ac' hp, h cur s _ hs]
        rfl

theorem nRunStep_ac {i : ℕ} {x x' : NLoopSt} (h : nRunStep strict env st i x = .ok x') :
    prePanelFirst i x.ac = .ok x'.ac := by
  unfold nRunStep at h
  cases h1 : st.current i with
  | error e => rw [h1] at h; cases h
  | ok cur =>
    rw [h1] at h
    simp only [orNStop] at h
    cases hp : prePanelFirst i x.ac with
    | error e => rw [hp] at h; cases h
    | ok ac' =>
      rw [hp] at h
      simp only at h
      cases hs : cur.toFlow with
      | none => rw [hs] at h; cases h
      | some s =>
        rw [hs] at h
        simp only at h
        cases ha : nAnalyse strict env ac' cur x.vlm with
        | error e => rw [ha] at h; cases h
        | ok lv =>
          rw [ha] at h
          simp only at h
          split at h
          · cases h
          · split at h
            · cases h
            · split at h
              · cases h
              · cases h
                rfl

theorem iRunLoop_small {ac : PAircraft ℝ} (h : ∀ cur s d, cur.toFlow = some s →
    iAnalyse strict env ac cur d = nAnalyse strict env ac cur d) : ∀ (k i : ℕ) (x : NLoopSt),
    (∀ ac', prePanelFirst i x.ac = .ok ac' → ac' = ac) →
    iRunLoop strict env st k i x = nRunLoop strict env st k i x := by
  intro k
  induction k with
  | zero => intro i x hx; rfl
  | succ k ih =>
    intro i x hx
    unfold iRunLoop nRunLoop
    rw [iRunStep_small h i hx]
    cases hr : nRunStep strict env st i x with
    | error e => rfl
    | ok x' =>
      simp only []
      refine ih (i + 1) x' fun ac' hp => ?_
      unfold prePanelFirst at hp
      rw [if_neg (by omega)] at hp
      cases hp
      exact hx _ (nRunStep_ac hr)

end

/-- **C146**, up to 46340 panels.  The run with 32-bit indices does the same as the run with integers of
any size: the same exception, or the same objects, table and files.  So with `C121_run_partial` all
that is shown about `standardRun` holds for it. -/
theorem C146_small_partial (strict : Bool) (env : RunEnv) (ac : PAircraft ℝ) (hu : ac.Unpanelled)
    (hn : ac.OnePanel env.autoC) (hsmall : ∀ ac' b, Panelled env ac ac' → genBook ac' = .ok b →
      b.numP ≤ 46340) (st : FlightSt ℝ) :
    iStandardRun strict env ac st = nStandardRun strict env ac st := by
  unfold iStandardRun nStandardRun
  cases h1 : setAutopanels env.autoC env.autoS ac with
  | error e => rfl
  | ok ac1 =>
    simp only []
    obtain ⟨hu1, hn1⟩ := autopanels_numC hu hn h1
    have hloop : iRunLoop strict env st st.num 0 ⟨ac1, VlmData.fresh.obj, Table.fresh, [], none⟩ =
        nRunLoop strict env st st.num 0 ⟨ac1, VlmData.fresh.obj, Table.fresh, [], none⟩ := by
      cases hp : prePanelling ac1 with
      | error e =>
        cases st.num with
        | zero => rfl
        | succ k =>
          unfold iRunLoop nRunLoop iRunStep nRunStep prePanelFirst
          simp only [if_true, hp]
          cases st.current 0 <;> rfl
      | ok ac' =>
        obtain ⟨b, gs, hb, -, -, g3, g4, -, g6, -, -⟩ := genBook_facts hu1 hp (by norm_num) hn1
        have hone : ∀ e ∈ b.entries, 1 ≤ e.numC := fun e he => (g6 e he).2 le_rfl
        have hP := hsmall ac' b ⟨ac1, h1, hp⟩ hb
        have hlen := g3.le hone
        have hS : b.numSub ≤ 46340 := by omega
        refine iRunLoop_small (ac := ac') (fun cur s d hs => ?_) _ _ _ fun ac2 h2 => ?_
        · refine iAnalyse_small hb (fun e he => ?_) ⟨hP, hS⟩ (fun lat hlat i hi => ?_) d
          · have := hone e he
            have := g3.numC_le hone e he
            unfold IsInt
            omega
          · obtain ⟨a1, a2⟩ := nGenLattice_eq (strict := strict) (env := env) (cur := cur) hs hb g3 g4 hone
            cases hg : genLattice env.lat env.doRot s.alpha s.beta ac' with
            | error x => rw [a1 x hg] at hlat; cases hlat
            | ok l =>
              obtain ⟨-, cs, -, hobj⟩ := a2 l hg
              obtain ⟨-, k1, -⟩ := genLattice_ok hg
              rw [hb] at k1
              cases k1
              rw [hobj] at hlat
              cases hlat
              cases hi
              exact hP
        · unfold prePanelFirst at h2
          rw [if_pos rfl, hp] at h2
          cases h2
          rfl
    rw [hloop]
    rfl

/-- **C146**, from 46341 panels on.  A run that would finish leaves its array instead: the index
`i*num_pan + j` of the downwash matrix no longer fits into an `int` and becomes negative.  This happens
in the first flight state, before any file is written. -/
theorem C146_large (strict : Bool) (env : RunEnv) (hd : Lapack env.dgesv) (ac ac' : PAircraft ℝ)
    (hu : ac.Unpanelled) (hn : ac.OnePanel env.autoC) (hp : Panelled env ac ac') (b : Book)
    (hb : genBook ac' = .ok b) (hbig : 46341 ≤ b.numP) (hint : b.numP < 2147483648) (st : FlightSt ℝ)
    (out : RunOut) (h : standardRun env ac st = .ok out) :
    iStandardRun strict env ac st = .error (.memory, []) := by
  obtain ⟨h0, ac2, hp2, hall⟩ := (C93_finishes_iff env hd ac st).1 ⟨out, h⟩
  obtain ⟨ac1, h1, h2⟩ := hp
  obtain ⟨ac1', h1', h2'⟩ := hp2
  rw [h1] at h1'
  cases h1'
  rw [h2] at h2'
  cases h2'
  obtain ⟨hu1, hn1⟩ := autopanels_numC hu hn h1
  obtain ⟨b', gs, hb', -, -, g3, g4, -, g6, -, -⟩ := genBook_facts hu1 h2 (by norm_num) hn1
  rw [hb] at hb'
  cases hb'
  have hone : ∀ e ∈ b.entries, 1 ≤ e.numC := fun e he => (g6 e he).2 le_rfl
  obtain ⟨a, ha⟩ := hall 0 (by omega)
  obtain ⟨p, hpass, -, hps, -⟩ := ha.pass hd
  have hlat := ha.lattice
  rw [hps] at hlat
  obtain ⟨-, a2⟩ := nGenLattice_eq (strict := strict) (env := env) (cur := p.cur) hpass.flow hb g3 g4 hone
  obtain ⟨hsome, cs, hcs, hobj⟩ := a2 a.l hlat
  obtain ⟨-, k1, -⟩ := genLattice_ok hlat
  rw [hb] at k1
  cases k1
  have hpts : ∃ pts : ℕ → PanelPts ℝ, ∀ k < a.l.num, a.l.pts ((k : ℕ) : ℤ) = some (pts k) := by
    classical
    refine ⟨fun k => (a.l.pts (k : ℤ)).getD ⟨0, 0, 0, 0, 0, 0, 0, 0, 0, 0⟩, fun k hk => ?_⟩
    obtain ⟨g, hg⟩ := Option.isSome_iff_exists.1 (hsome k hk)
    simp only [hg, Option.getD_some]
  obtain ⟨pts, hpts⟩ := hpts
  set t := latticeStats (trailLeg p.s.alpha p.s.beta) (a.l.book.inputsOf cs) a.l.book.numP with ht
  have hO := latticeObj_eq (env := env) (ac := ac') hpts t
  rw [hO] at hobj
  obtain ⟨w, hw⟩ : ∃ w, calcDownwash env a.l VlmData.fresh = .ok w := by
    have hr := hpass.result
    unfold analyse at hr
    rw [hlat] at hr
    simp only [orStop] at hr
    cases hc : calcDownwash env a.l VlmData.fresh with
    | error e => rw [hc] at hr; cases hr
    | ok w => exact ⟨w, rfl⟩
  have hcalc := (nCalcDownwash_eq (strict := true) (env := env) (ac := ac') t hpts VlmData.fresh).2 w hw
  obtain ⟨m, hm⟩ : ∃ m, py2cDownwash (latObj env ac' a.l.book pts (fun k => a.l.normal (k : ℤ)) t)
      (List.replicate (a.l.book.numP.toNat * a.l.book.numP.toNat) (.fin 0)) = .ok m := by
    unfold nCalcDownwash at hcalc
    simp only [infoPanels_eq] at hcalc
    cases hc : py2cDownwash (latObj env ac' a.l.book pts (fun k => a.l.normal (k : ℤ)) t)
      (List.replicate (a.l.book.numP.toNat * a.l.book.numP.toNat) (.fin 0)) with
    | ok m => exact ⟨m, rfl⟩
    | error e => rw [hc] at hcalc; cases e <;> simp [nCall] at hcalc
  have hi : getInfo (latObj env ac' a.l.book pts (fun k => a.l.normal (k : ℤ)) t) =
      .ok (a.l.book.numP, a.l.book.numSub) := getInfo_obj _ _ rfl rfl
  have hA : iAnalyse strict env ac' p.cur VlmData.fresh.obj = .error .memory :=
    iAnalyse_large hb (fun e he => by
      have := hone e he
      have := g3.numC_le hone e he
      unfold IsInt
      omega) hobj hi hbig hm
  unfold iStandardRun
  simp only [h1]
  obtain ⟨k, hk⟩ := Nat.exists_eq_succ_of_ne_zero h0
  have hstep : iRunStep strict env st 0 ⟨ac1, VlmData.fresh.obj, Table.fresh, [], none⟩ =
      .error .memory := by
    unfold iRunStep prePanelFirst
    simp only [hpass.cur, orNStop, if_true, h2, hpass.flow, hA]
  rw [hk]
  unfold iRunLoop
  rw [hstep]

/-- The lattice of a finished run is numbered by the book-keeping of the panelled aircraft. -/
theorem finished_book {env : RunEnv} {ac : PAircraft ℝ} {st : FlightSt ℝ} {out : RunOut}
    (h : standardRun env ac st = .ok out) :
    ∃ ac', Panelled env ac ac' ∧ genBook ac' = .ok out.lattice.book := by
  obtain ⟨ac', ps, fs, cs, p, h1, h2, -, h4, h5, -⟩ := standardRun_ok h
  obtain ⟨j, hj⟩ := List.mem_iff_getElem?.1 (List.mem_of_getLast? h4)
  obtain ⟨hp, -⟩ := h2.get j p hj
  have hr := hp.result
  unfold analyse at hr
  cases hl : genLattice env.lat env.doRot p.s.alpha p.s.beta ac' with
  | error x => rw [hl] at hr; cases hr
  | ok l =>
    obtain ⟨-, k1, -⟩ := genLattice_ok hl
    rw [hl] at hr
    simp only [orStop] at hr
    refine ⟨ac', h1, ?_⟩
    have : p.l = l := by
      split at hr
      · cases hr
      · split at hr
        · cases hr
        · split at hr
          · cases hr
          · split at hr
            · cases hr
            · cases hr
              rfl
    rw [h5, this, k1]

/-- **C146**, finished runs.  Up to 46340 panels the run with 32-bit indices finishes with the same
table, files and results; from 46341 panels on it leaves an array. -/
theorem C146_run (strict : Bool) (env : RunEnv) (hd : Lapack env.dgesv) (ac : PAircraft ℝ)
    (hu : ac.Unpanelled) (hn : ac.OnePanel env.autoC) (st : FlightSt ℝ) (out : RunOut)
    (h : standardRun env ac st = .ok out) :
    (out.lattice.num ≤ 46340 → ∃ nout, iStandardRun strict env ac st = .ok nout ∧
      nout.table = out.table ∧ nout.files = out.files ∧ nout.vlm = out.vlm.obj) ∧
    (46341 ≤ out.lattice.num → out.lattice.num < 2147483648 →
      iStandardRun strict env ac st = .error (.memory, [])) := by
  obtain ⟨ac', hp, hb⟩ := finished_book h
  refine ⟨fun hs => ?_, fun hs hs' => ?_⟩
  · obtain ⟨_, t, -, hN⟩ := (C121_run_partial strict env hd ac hu hn st).2 out h
    refine ⟨_, (C146_small_partial strict env ac hu hn (fun ac2 b hp2 hb2 => ?_) st).trans hN,
      rfl, rfl, rfl⟩
    obtain ⟨ac1, q1, q2⟩ := hp
    obtain ⟨ac1', q1', q2'⟩ := hp2
    rw [q1] at q1'
    cases q1'
    rw [q2] at q2'
    cases q2'
    rw [hb] at hb2
    cases hb2
    unfold LatticeData.num at hs
    omega
  · unfold LatticeData.num at hs hs'
    exact C146_large strict env hd ac ac' hu hn hp _ hb (by omega) (by omega) st out h

/-- **C146**, whole projects whose setting `vlm_autopanels_c` is positive, if given. -/
theorem C146_project (strict : Bool) (W : World) (hW : Lapack W.dgesv) (P : Project) (d : PyDict)
    (a b : String) (hn : NativeProject W P d a b)
    (hC : IfGiven d "vlm_autopanels_c" PyVal.IsPositive) (out : RunOut)
    (h : runProject W P = .ok out) :
    (out.lattice.num ≤ 46340 → ∃ nout, iRunProject strict W P = .ok nout ∧
      nout.table = out.table ∧ nout.files = out.files ∧ nout.vlm = out.vlm.obj) ∧
    (46341 ≤ out.lattice.num → out.lattice.num < 2147483648 →
      iRunProject strict W P = .error (.memory, [])) := by
  unfold runProject at h
  unfold iRunProject
  cases hx : loadProject W P with
  | error e => rw [hx] at h; cases h
  | ok x =>
    rw [hx] at h
    obtain ⟨f, sd, hf, -⟩ := loaded_reads hn hx
    have hs := loaded_settings hn hx
    have hac := loaded_aircraft hn hx hf
    obtain ⟨k1, k2, -, -⟩ := C98_content W.suffix d hn.keys _ hs
    have h1 : 1 ≤ (x.env W P).autoC := int_positive (fun v hv => k1 "vlm_autopanels_c" v (by decide) hv)
      (k2 ("vlm_autopanels_c", .int 4) (by simp [settingsLeftOut])) hC
    exact C146_run strict (x.env W P) hW x.aircraft.toP (loaded_unpanelled _)
      (loaded_onePanel hac h1) x.state out h

/-! ## A wing with many panels -/

open V3

/-- Panel `k` of `m` panels behind one another on a flat half. -/
noncomputable def manyPts (leg : V3 ℝ) (m : ℤ) (y0 : ℝ) (k : ℕ) : PanelPts ℝ :=
  panelPts (Coef.of (flatCorners y0)) leg 1 m k 0

theorem manyPts_y (leg : V3 ℝ) (m : ℤ) (y0 : ℝ) (k : ℕ) :
    (manyPts leg m y0 k).v2.y = y0 ∧ (manyPts leg m y0 k).v3.y = y0 + 2/25 ∧
    (manyPts leg m y0 k).v1.y = y0 + leg.y ∧ (manyPts leg m y0 k).v4.y = y0 + 2/25 + leg.y ∧
    (manyPts leg m y0 k).col.y = y0 + 1/25 ∧ (manyPts leg m y0 k).mid.y = y0 + 1/25 := by
  refine ⟨?_, ?_, ?_, ?_, ?_, ?_⟩ <;>
  · simp only [manyPts, panelPts, Coef.of, Coef.at, flatCorners]
    vsimp
    norm_num
    try ring

theorem many_finNormal (leg : V3 ℝ) {m : ℤ} (hm : 1 ≤ m) (y0 : ℝ) (k : ℕ) :
    (manyPts leg m y0 k).finNormal = some ⟨0, 0, -1⟩ := by
  have hm' : (0 : ℝ) < m := by exact_mod_cast (by omega : 0 < m)
  have hx : (manyPts leg m y0 k).crossVec = (9/5000 * (1 / m) : ℝ) • ⟨0, 0, -1⟩ := by
    ext <;> simp only [manyPts, PanelPts.crossVec, panelPts, Coef.of, Coef.at, flatCorners] <;> vsimp <;>
      (norm_num; try ring)
  have h1 : (⟨0, 0, -1⟩ : V3 ℝ).norm = 1 := by
    unfold V3.norm
    norm_num
  have hc : (0 : ℝ) < 9/5000 * (1 / m) := by positivity
  unfold PanelPts.finNormal PanelPts.normal
  rw [hx, V3.norm_smul, h1, abs_of_pos hc, mul_one, if_neg hc.ne']
  congr 1
  ext <;> vsimp <;> field_simp

/-- The panel as the solver sees it. -/
noncomputable def manyPanel (leg : V3 ℝ) (m : ℤ) (y0 : ℝ) (k : ℕ) : Panel :=
  { (manyPts leg m y0 k).toPanel with n := ⟨0, 0, -1⟩ }

theorem many_horseshoeOk {eps : ℝ} (he : 0 < eps) {leg : V3 ℝ} (hy : leg.y = 0) {x : V3 ℝ} {y0 y1 : ℝ}
    (h0 : y0 = 0 ∨ y0 = -2/25) (h1 : y1 = 0 ∨ y1 = -2/25) (hx : x.y = y0 + 1/25) (m : ℤ) (k : ℕ) :
    HorseshoeOk eps x (manyPanel leg m y1 k) := by
  obtain ⟨p2, p3, p1, p4, -⟩ := manyPts_y leg m y1 k
  have key : ∀ v : V3 ℝ, v.y = y1 ∨ v.y = y1 + 2/25 → x ≠ v := by
    rintro v hv rfl
    rcases h0 with rfl | rfl <;> rcases h1 with rfl | rfl <;> rcases hv with hv | hv <;>
      rw [hx] at hv <;> norm_num at hv
  rw [hy, add_zero] at p1 p4
  exact ⟨(kernelOk_iff he _ _ _).2 ⟨key _ (.inl p1), key _ (.inl p2)⟩,
    (kernelOk_iff he _ _ _).2 ⟨key _ (.inl p2), key _ (.inr p3)⟩,
    (kernelOk_iff he _ _ _).2 ⟨key _ (.inr p3), key _ (.inr p4)⟩⟩

/-- A flat wing with one strip of `m` panels on each side. -/
noncomputable def manyAc (m : ℤ) : PAircraft ℝ :=
  ⟨[⟨"W", 2, [⟨"S", 1, some 1, some m, fun _ _ _ => 0, fun _ _ _ _ => 1, initStrips⟩], []⟩]⟩

theorem manyAc_panelled (m : ℤ) : prePanelling (manyAc m) = .ok (manyAc m) := by
  have h2 : mapE PSegment.addSpanLines
      [(⟨"S", 1, some 1, some m, fun _ _ _ => 0, fun _ _ _ _ => 1, initStrips⟩ : PSegment ℝ)] =
      .ok [⟨"S", 1, some 1, some m, fun _ _ _ => 0, fun _ _ _ _ => 1, initStrips⟩] := by
    simp [mapE, PSegment.addSpanLines, spanLines, addLines, initStrips]
  unfold prePanelling manyAc
  simp only [mapE, PWing.mapSegments, placeControls]
  simp only [mapE] at h2
  simp only [h2]

theorem manyAc_autopanels (m c s : ℤ) : setAutopanels c s (manyAc m) = .ok (manyAc m) := by
  unfold setAutopanels manyAc
  simp only [mapE, PWing.setAutopanels, PSegment.setAutopanels, reduceCtorEq, if_false, List.map_nil]

theorem manyAc_ok {m : ℤ} (hm : 1 ≤ m) : (manyAc m).Unpanelled ∧ (manyAc m).NumC 0 ∧
    (manyAc m).OnePanel exampleEnv.autoC := by
  refine ⟨?_, ?_, by simp [exampleEnv], fun w hw => ?_⟩
  · intro w hw s hs
    simp only [manyAc, List.mem_singleton] at hw
    subst hw
    simp only [List.mem_singleton] at hs
    subst hs
    rfl
  · intro w hw
    simp only [manyAc, List.mem_singleton] at hw
    subst hw
    simp
    omega
  · simp only [manyAc, List.mem_singleton] at hw
    subst hw
    refine ⟨fun s hs n hn => ?_, fun c hc => by cases hc⟩
    simp only [List.mem_singleton] at hs
    subst hs
    cases hn
    exact hm

/-- The only subarea. -/
noncomputable def manySub (m : ℤ) : SubTuple ℝ :=
  ((0, ⟨"segment", Quad.init 0 0 1 1, none⟩), (0, Strip.init 0 1 1 0),
    (0, ⟨"S", 1, some 1, some m, fun _ _ _ => 0, fun _ _ _ _ => 1, initStrips⟩),
    (0, ⟨"W", 2, [⟨"S", 1, some 1, some m, fun _ _ _ => 0, fun _ _ _ _ => 1, initStrips⟩], []⟩))

theorem manyAc_subareas (m : ℤ) : allSubareas (manyAc m) = [manySub m] := rfl

theorem manyAc_book (m : ℤ) : ∃ b, genBook (manyAc m) = .ok b ∧
    b.entries = [⟨⟨0, 0, 0, 0⟩, "W", 0, m, m, false⟩, ⟨⟨0, 0, 0, 0⟩, "W", m, m + m, m, true⟩] ∧
    b.numP = m + m := by
  have h1 : chordPanels (manySub m).2.2.2.2 (manySub m).2.2.1.2 (manySub m).1.2 = .ok m := by
    unfold chordPanels manySub
    simp only [if_true]
    congr 1
    rw [Int.ceil_eq_iff]
    norm_num [Quad.relLength, Quad.init]
  have hsy : (manySub m).2.2.2.2.symmetry = 2 := rfl
  have hb : ∃ b, genBook (manyAc m) = .ok b := by
    unfold genBook
    rw [manyAc_subareas]
    simp only [countFrom, countStep, h1, hsy, ne_eq, OfNat.ofNat_ne_zero, not_false_eq_true, if_true]
    exact ⟨_, rfl⟩
  obtain ⟨b, hb⟩ := hb
  refine ⟨b, hb, ?_⟩
  unfold genBook at hb
  rw [manyAc_subareas] at hb
  simp only [countFrom, countStep, h1, hsy, ne_eq, OfNat.ofNat_ne_zero, not_false_eq_true,
    if_true] at hb
  cases hb
  refine ⟨?_, ?_⟩ <;> simp [Book.empty, Book.update, manySub]

/-- The panels of this wing. -/
theorem many_lattice {m : ℤ} (hm : 1 ≤ m) {alpha beta : ℝ} {l : LatticeData}
    (hl : genLattice flatLat true alpha beta (manyAc m) = .ok l) :
    ∀ e ∈ l.book.entries, e.numC = m → ∀ k : ℕ, (k : ℤ) < m →
      l.panelAt (e.start + k) =
        some (manyPanel (trailLeg alpha beta) m (if e.mirror then -2/25 else 0) k) := by
  intro e he h1 k hk
  obtain ⟨hu, hn, -⟩ := manyAc_ok hm
  obtain ⟨t, ht, -, v, hv, hp⟩ := C71_own_rotations _ _ hu (manyAc_panelled m) hn flatLat alpha beta l
    hl e he
  rw [manyAc_subareas, List.mem_singleton] at ht
  subst ht
  have hcor : v = flatCorners (if e.mirror then -2/25 else 0) := by
    cases hm : e.mirror <;> rw [hm] at hv <;>
    · simp only [subareaVertices, Strip.absVertices, flatLat, flatGeo, manySub, GeoEnv.isDeformed,
        Strip.init, Quad.init, mirrorVertices, Corners.mapE, mirrorPoint, orderMirrored] at hv
      norm_num at hv
      subst hv
      simp only [flatCorners, Bool.false_eq_true, if_false, if_true, Corners.mk.injEq]
      refine ⟨?_, ?_, ?_, ?_⟩ <;> ext <;> vsimp <;> norm_num
  obtain ⟨p1, n1, q1, q2⟩ := hp k (by rw [h1]; exact hk)
  rw [h1, hcor] at p1 q1
  have e1 : n1 = some ⟨0, 0, -1⟩ := by
    rcases q1 with ⟨-, hq⟩ | ⟨f, ⟨-, hf⟩ | ⟨-, hf⟩, -⟩
    · rw [hq]
      exact many_finNormal _ hm _ _
    · have := congrArg Subarea.ctrl hf
      cases this
    · have := congrArg Subarea.ctrl hf
      cases this
  have e2 := turnedBy_zero q2 (by simp [flatLat])
  rw [e1] at e2
  unfold LatticeData.panelAt
  simp only [p1, e2]
  rfl

/-- The run over this wing finishes, on real numbers and with integers of any size. -/
theorem many_finishes {m : ℤ} (hm : 1 ≤ m) :
    ∃ out, standardRun exampleEnv (manyAc m) runStates = .ok out ∧ (out.lattice.num : ℤ) = m + m := by
  have hfin : ∃ out, standardRun exampleEnv (manyAc m) runStates = .ok out := by
    rw [C93_finishes_iff exampleEnv exactDgesv_lapack]
    refine ⟨by simp [runStates], manyAc m, ⟨_, manyAc_autopanels m _ _, manyAc_panelled m⟩, ?_⟩
    intro i hi
    obtain ⟨s, b0, e1, e2, e3, e4, e5, e6, e7⟩ : ∃ s : FlowState, s.beta = 0 ∧
        runStates.aero.entry "airspeed" i = .ok (.fin s.airspeed) ∧
        runStates.aero.entry "density" i = .ok (.fin s.rho) ∧
        runStates.aero.entry "alpha" i = .ok (.fin s.alpha) ∧
        runStates.aero.entry "beta" i = .ok (.fin s.beta) ∧
        runStates.aero.entry "rate_P" i = .ok (.fin s.p) ∧
        runStates.aero.entry "rate_Q" i = .ok (.fin s.q) ∧
        runStates.aero.entry "rate_R" i = .ok (.fin s.r) := by
      have hi' : i < 2 := hi
      obtain rfl | rfl : i = 0 ∨ i = 1 := by omega
      · exact ⟨⟨10, 1, 0, 0, 0, 0, 0⟩, rfl, rfl, rfl, rfl, rfl, rfl, rfl, rfl⟩
      · exact ⟨⟨20, 1, 5, 0, 0, 0, 0⟩, rfl, rfl, rfl, rfl, rfl, rfl, rfl, rfl⟩
    obtain ⟨hu, hn, -⟩ := manyAc_ok hm
    obtain ⟨l, hl⟩ := C76_lattice_generated _ _ hu (manyAc_panelled m) hn flatLat true s.alpha s.beta
      (fun _ _ _ => .inr (.inl rfl))
    obtain ⟨b, hb, he, hp⟩ := manyAc_book m
    obtain ⟨-, k1, -⟩ := genLattice_ok hl
    rw [hb] at k1
    cases k1
    have hF := many_lattice hm hl
    rw [he] at hF
    have hnum : (l.num : ℤ) = m + m := by unfold LatticeData.num; rw [hp]; omega
    have hpan : ∀ k : Fin l.num, ∃ y k', (y = 0 ∨ y = -2/25) ∧
        l.panel k = some (manyPanel (trailLeg s.alpha s.beta) m y k') := by
      intro k
      have hk : ((k : ℕ) : ℤ) < m + m := by rw [← hnum]; exact_mod_cast k.2
      by_cases hlt : ((k : ℕ) : ℤ) < m
      · refine ⟨0, k, .inl rfl, ?_⟩
        have := hF _ (List.mem_cons_self ..) rfl k hlt
        simpa [LatticeData.panel] using this
      · refine ⟨-2/25, (((k : ℕ) : ℤ) - m).toNat, .inr rfl, ?_⟩
        have := hF _ (List.mem_cons_of_mem _ (List.mem_singleton.2 rfl)) rfl
          (((k : ℕ) : ℤ) - m).toNat (by omega)
        rw [Int.toNat_of_nonneg (by omega)] at this
        simpa [LatticeData.panel] using this
    choose y k' hy hP using hpan
    let P : Fin l.num → Panel := fun k => manyPanel (trailLeg s.alpha s.beta) m (y k) (k' k)
    have hleg : (trailLeg s.alpha s.beta).y = 0 := by rw [b0]; exact trailLeg_y _
    have hA : ∃ A, vlmDownwash exampleEnv.eps P = some A := by
      unfold vlmDownwash
      have hok : ∀ i j, HorseshoeOk exampleEnv.eps (P i).col (P j) := fun i j =>
        many_horseshoeOk exampleEnv_eps hleg (hy i) (hy j) (manyPts_y (trailLeg s.alpha s.beta) m _ _).2.2.2.2.1 m _
      rw [if_pos hok]
      exact ⟨_, rfl⟩
    obtain ⟨A, hA⟩ := hA
    obtain ⟨R, hR⟩ : ∃ R, vlmResults exampleEnv.eps s exampleEnv.refs P
        (gammaOf exampleEnv A (vlmBoundary s exampleEnv.refs P)) = some R := by
      unfold vlmResults
      have hok : ∀ i j, HorseshoeOk exampleEnv.eps (P i).mid (P j) := fun i j =>
        many_horseshoeOk exampleEnv_eps hleg (hy i) (hy j) (manyPts_y (trailLeg s.alpha s.beta) m _ _).2.2.2.2.2 m _
      rw [if_pos hok]
      exact ⟨_, rfl⟩
    obtain ⟨g1, g2, -⟩ := gammaOf_lapack (env := exampleEnv) exactDgesv_lapack A
      (vlmBoundary s exampleEnv.refs P)
    exact ⟨⟨s, l, P, A, gammaOf exampleEnv A (vlmBoundary s exampleEnv.refs P), R⟩,
      e1, e2, e3, e4, e5, e6, e7, hl, by intro h0; simp only at h0; omega, hP, hA, g1, g2, hR⟩
  obtain ⟨out, h⟩ := hfin
  refine ⟨out, h, ?_⟩
  obtain ⟨ac', ⟨ac1, q1, q2⟩, hb'⟩ := finished_book h
  rw [manyAc_autopanels] at q1
  cases q1
  rw [manyAc_panelled] at q2
  cases q2
  obtain ⟨b, hb, -, hp⟩ := manyAc_book m
  rw [hb] at hb'
  cases hb'
  unfold LatticeData.num
  rw [hp]
  omega

/-- What one would like: a run that finishes on integers of any size finishes on 32-bit indices. -/
def IntegersSuffice : Prop :=
  ∀ (env : RunEnv) (ac : PAircraft ℝ) (st : FlightSt ℝ) (out : RunOut), Lapack env.dgesv →
    ac.Unpanelled → ac.OnePanel env.autoC → standardRun env ac st = .ok out →
    ∃ nout, iStandardRun false env ac st = .ok nout

/-- **C146**: this is false.  Two halves with 23171 chordwise panels each. -/
theorem C146_integers_false : ¬ IntegersSuffice := by
  intro h
  obtain ⟨out, ho, hn⟩ := many_finishes (m := 23171) (by norm_num)
  obtain ⟨hu, -, h1⟩ := manyAc_ok (m := 23171) (by norm_num)
  obtain ⟨nout, hi⟩ := h _ _ _ out exactDgesv_lapack hu h1 ho
  rw [(C146_run false _ exactDgesv_lapack _ hu h1 _ out ho).2 (by omega) (by omega)] at hi
  cases hi

/-- Example: with 23170 panels on each side the run finishes. -/
example : ∃ out, iStandardRun true exampleEnv (manyAc 23170) runStates = .ok out := by
  obtain ⟨out, ho, hn⟩ := many_finishes (m := 23170) (by norm_num)
  obtain ⟨hu, -, h1⟩ := manyAc_ok (m := 23170) (by norm_num)
  obtain ⟨nout, hi, -⟩ := (C146_run true _ exactDgesv_lapack _ hu h1 _ out ho).1 (by omega)
  exact ⟨nout, hi⟩

/-- Example: with one panel more it does not. -/
example : iStandardRun true exampleEnv (manyAc 23171) runStates = .error (.memory, []) := by
  obtain ⟨out, ho, hn⟩ := many_finishes (m := 23171) (by norm_num)
  obtain ⟨hu, -, h1⟩ := manyAc_ok (m := 23171) (by norm_num)
  exact (C146_run true _ exactDgesv_lapack _ hu h1 _ out ho).2 (by omega) (by omega)

/-- The project with the flat wing has two panels. -/
theorem rect_num {out : RunOut} (h : runProject exampleWorld (exampleProject rectFile) = .ok out) :
    out.lattice.num = 2 := by
  unfold runProject at h
  cases hx : loadProject exampleWorld (exampleProject rectFile) with
  | error e => rw [hx] at h; cases h
  | ok x =>
    rw [hx] at h
    obtain ⟨f, sd, h1, h2, -, -, h5, hr⟩ := loaded_reads (example_native rectFile) hx
    have h1' : some rectFile = some f := h1
    cases h1'
    obtain ⟨w, hw, hwr⟩ := forall₂_singleton_left hr.wings
    obtain ⟨s, hs, hsr⟩ := forall₂_singleton_left hwr.segments
    have hstrips : s.strips = initStrips := by
      have hw' : x.aircraft.wings.map LoadedWing.toP = [w] := hw
      have : w ∈ x.aircraft.wings.map LoadedWing.toP := by rw [hw']; simp
      obtain ⟨w0, -, rfl⟩ := List.mem_map.1 this
      have : s ∈ w0.segments.map LoadedSegment.toP := by
        have hs' : w0.segments.map LoadedSegment.toP = [s] := hs
        rw [hs']; simp
      obtain ⟨s0, -, rfl⟩ := List.mem_map.1 this
      rfl
    have hac : x.aircraft.toP = onePanelOf s.span s.interp s.dist := by
      have e1 : x.aircraft.toP = ⟨[w]⟩ := by
        rw [← hw]
      have e2 : w = ⟨"W", 2, [s], []⟩ := by
        have a1 := hwr.uid
        have a2 := hwr.symmetry
        have a3 := hwr.controls
        cases w
        simp only at a1 a2 a3 hs
        subst a1 a2 a3 hs
        rfl
      have e3 : s = ⟨"S", s.span, some 1, some 1, s.interp, s.dist, initStrips⟩ := by
        have a1 := hsr.uid
        have a2 := hsr.numC
        have a3 := hsr.numS
        cases s
        simp only at a1 a2 a3 hstrips
        subst a1 a2 a3 hstrips
        rfl
      rw [e1, e2]
      unfold onePanelOf
      rw [← e3]
    simp only at h
    rw [hac] at h
    obtain ⟨ac', ⟨ac1, q1, q2⟩, hb'⟩ := finished_book h
    rw [onePanelOf_autopanels] at q1
    cases q1
    rw [onePanelOf_panelled] at q2
    cases q2
    obtain ⟨b, hb, -, hp⟩ := onePanelOf_book s.span s.interp s.dist
    rw [hb] at hb'
    cases hb'
    unfold LatticeData.num
    rw [hp]
    rfl

/-- Example of a project: the flat wing, two panels. -/
example : ∃ out nout, runProject exampleWorld (exampleProject rectFile) = .ok out ∧
    iRunProject true exampleWorld (exampleProject rectFile) = .ok nout ∧ nout.table = out.table := by
  obtain ⟨out, h⟩ := rect_finishes
  obtain ⟨nout, h1, h2, -⟩ := (C146_project true exampleWorld exactDgesv_lapack
    (exampleProject rectFile) exampleSettings "plane.json" "cruise.json" (example_native _)
    (by simp [IfGiven, exampleSettings]) out h).1 (by rw [rect_num h]; norm_num)
  exact ⟨out, nout, h, h1, h2⟩

end Verif
