import Verif.Props.CpacsRun
import Verif.Props.Fin

/-!
# Property C154: aircraft from CPACS files with the usual layout are always analysed
-/

namespace Verif

variable {α : Type*}

/-- All numbers of the flight states are finite, and the atmosphere model answers with finite numbers: those of
the state file, or those of the aeroperformance map if the settings say so. -/
structure CpacsStatesFinite (W : World) (P : Project) (b : String) (doc : CpacsDoc α) : Prop where
  native : W.upper b ≠ "__CPACS" → ∀ sd, P.state b = some sd → StatesFinite W.atm sd
  cpacs : W.upper b = "__CPACS" → ∀ p ∈ ["altitude", "machNumber", "angleOfAttack", "angleOfSideslip"],
    ∀ l, doc.apm p = some l → .nonfin ∉ l
  atmosphere : ∀ z rho c, W.atm (.fin z) = some (rho, c) → rho ≠ .nonfin ∧ c ≠ .nonfin

theorem apmDict_finite {atm : Atm ℝ}
    (h : ∀ z rho c, atm (.fin z) = some (rho, c) → rho ≠ .nonfin ∧ c ≠ .nonfin) (n : ℕ)
    {z m al be : List (Flt ℝ)} (h1 : .nonfin ∉ z) (h2 : .nonfin ∉ m) (h3 : .nonfin ∉ al) (h4 : .nonfin ∉ be) :
    StatesFinite atm (apmDict n z m al be) := by
  refine ⟨?_, ?_, h⟩
  · intro x hx v hv e
    subst e
    simp only [apmDict, List.mem_cons, List.not_mem_nil, or_false] at hx
    rcases hx with rfl | rfl | rfl | rfl | rfl | rfl | rfl <;> simp [Arg.toList] at hv <;> contradiction
  · intro p _ a ha v hv
    simp only [apmDict, List.mem_cons, List.not_mem_nil, or_false, Prod.mk.injEq] at ha
    rcases ha with ⟨-, rfl⟩ | ⟨-, rfl⟩ | ⟨-, rfl⟩ | ⟨-, rfl⟩ | ⟨-, rfl⟩ | ⟨-, rfl⟩ | ⟨-, rfl⟩ <;>
      simp [Arg.toList] at hv <;> (obtain ⟨_, -, rfl⟩ := hv; rfl)

/-- **C154**: a CPACS project in order, with wings, tailplanes and fins that do not meet (see C153) and nothing
deformed, is analysed in all flight states of the state file or of the aeroperformance map. -/
theorem C154_cpacs_analysed (W : World) (hW : Lapack W.dgesv) (alnum : Char → Bool) (A : Airfoils α)
    (disk : Disk α) (docs : String → Option (CpacsDoc α)) (P : Project) (d : PyDict) (a b : String)
    (doc : CpacsDoc α) (hdoc : docs a = some doc) (ws : List (ImpWing ℝ))
    (h : CpacsProjectOk W alnum A disk P d a b doc ws) (hdef : IfGiven d "deformation" PyVal.IsEmpty)
    (hb : ∀ uid refs, (importedFile uid refs ws).Conventional fun _ => none)
    (hfin : CpacsStatesFinite W P b doc) : ∃ out, runCpacs W alnum A disk docs P = .ok out := by
  obtain ⟨s, hs⟩ := (C98_accepted_iff W.suffix d h.project.keys).2 h.settings
  obtain ⟨ac, hac⟩ := (C113_accepted_iff alnum A P.root true disk doc).2 ⟨ws, h.wings, h.document⟩
  generalize hd' : (cpacsLoad alnum A P.root true disk doc).1 = disk'
  replace hac : cpacsLoad alnum A P.root true disk doc = (disk', .ok ac) := Prod.ext hd' hac
  obtain ⟨l, refs, ws', st⟩ := cpacsLoad_steps hac
  obtain rfl : ws' = ws := by
    have := st.wings
    rw [h.wings] at this
    cases this
    rfl
  obtain ⟨-, hrun, hload⟩ := loadProject_cpacs (alnum := alnum) (A := A) (disk := disk) h.project hs hdoc hac
  obtain ⟨-, -, hw, -⟩ := C92_content _ _ _ _ st.load
  have hnames := ((C92_accepted_iff _ _ _).1 ⟨_, st.load⟩).names.2
  obtain ⟨defs, hdefs⟩ := loadDeformation_ok h.project.keys hs hnames hw (h.deformation ac.uid refs)
  have hstate : ∃ sd state, StatesOk W.atm sd ∧ StatesFinite W.atm sd ∧
      updateFromDict W.atm Store.fresh sd = .ok state ∧
      loadProject (W.withCpacs alnum A P.root disk docs a) P =
        .ok ⟨s, decide (W.upper b = "__CPACS"), ac, state, defs⟩ := by
    rcases h.states with ⟨hb, sd, hsd, hok⟩ | ⟨hb, n, z, m, al, be, hv, hn, hz⟩
    · obtain ⟨state, he⟩ := (C41_accepted_iff W.atm sd hok.keys).2 hok.acceptable
      refine ⟨sd, state, hok, hfin.native hb sd hsd, he, ?_⟩
      rw [hload, if_neg hb, hsd]
      simp only [he, hdefs]
    · have hok : StatesOk W.atm (apmDict n z m al be) := by
        refine ⟨apmDict_nodup _ _ _ _ _, (apmDict_acceptable W.atm hv).2 hz, ?_, ?_⟩
        · intro p hp
          simp only [List.mem_cons, List.not_mem_nil, or_false] at hp
          rcases hp with rfl | rfl | rfl <;>
            exact ⟨.list (List.replicate n (.num (.fin 0))), by simp [apmDict]⟩
        · refine ⟨("rate_P", .list (List.replicate n (.num (.fin 0)))), by simp [apmDict], ?_⟩
          simp [Arg.toList, hn]
      obtain ⟨state, he⟩ := (C41_accepted_iff W.atm _ hok.keys).2 hok.acceptable
      have hf := hfin.cpacs hb
      refine ⟨_, state, hok, apmDict_finite hfin.atmosphere n (hf _ (by simp) _ hv.altitude)
        (hf _ (by simp) _ hv.mach) (hf _ (by simp) _ hv.alpha) (hf _ (by simp) _ hv.beta), he, ?_⟩
      have he' : cpacsLoadState W.atm doc.apm = .ok state := by
        unfold cpacsLoadState
        rw [cpacsAeroDict_ok hv]
        exact he
      rw [hload, if_pos hb]
      simp only [he', hdefs]
  obtain ⟨sd, state, hok, hsf, he, hx⟩ := hstate
  rw [hrun]
  have hload' : loadAircraft P.root (W.withCpacs alnum A P.root disk docs a).airfoilOk
      (importedFile ac.uid refs ws') = .ok ac := by
    have e : (W.withCpacs alnum A P.root disk docs a).airfoilOk = A.ok disk' := by
      unfold World.withCpacs World.withAirfoils
      simp only [hdoc, hac]
    rw [e]
    exact st.load
  have hr := reads_of_loaded (W := W.withCpacs alnum A P.root disk docs a) (P := P) h.project.keys hs hload' hdefs
    (decide (W.upper b = "__CPACS")) state
  refine finishes_of_loaded (W := W.withCpacs alnum A P.root disk docs a) hW hx h.project.keys hs
    h.panelsC h.panelsS hload' ?_ ?_ he hok hr rfl (D := fun _ => none) (.inl ⟨hdef, fun _ => rfl⟩)
    (hb ac.uid refs).rigid hsf ?_
  · intro w hw
    obtain ⟨iw, hiw, rfl⟩ := List.mem_map.1 hw
    exact h.layout _ hiw
  · obtain ⟨iw, hiw, hne⟩ := h.segment
    refine ⟨_, List.mem_map.2 ⟨iw, hiw, rfl⟩, ?_⟩
    simpa [ImpWing.fileEntry] using hne
  · intro ac ac' hu h2 hN env doRot alpha beta l _ hl key eps heps
    exact C153_lattice ac ac' hu h2 hN env doRot alpha beta l hl ((hb _ refs).lattice key) eps heps

/-- Example for C154: the tapered wing, with the flight states of the CPACS file. -/
example : ∃ out, runCpacs cpacsWorld asciiAlnum anyAirfoils (fun _ => none)
    (fun _ => some { taperDoc (1 / 2) with apm := oneApm }) (cpacsExample "__cpacs") = .ok out := by
  refine C154_cpacs_analysed _ exactDgesv_lapack _ _ _ _ _ _ _ _ _ rfl _ cpacsExample_ok
    (by simp [IfGiven, cpacsSettings]) (fun uid refs => ?_) ⟨fun h => absurd (by simp [cpacsWorld]) h, ?_, ?_⟩
  · have hw : ∀ {w}, w ∈ (importedFile uid refs
        [⟨"main", 2, [("inner", ⟨⟨⟨0, 0, 0⟩, ⟨0, 2, 0⟩, ⟨1 / 2, 2, 0⟩, ⟨1, 0, 0⟩⟩,
        "airfoils/blade.NACA0010", "airfoils/blade.NACA0010"⟩)], []⟩]).wings → w.symmetry = 2 ∧
        w.segments.length = 1 ∧
        ∀ s ∈ w.segments, ∀ v, AllGiven s.vertices v → v = ⟨⟨0, 0, 0⟩, ⟨0, 2, 0⟩, ⟨1 / 2, 2, 0⟩, ⟨1, 0, 0⟩⟩ := by
      intro w hw
      simp only [importedFile, List.map_cons, List.map_nil, List.mem_singleton] at hw
      subst hw
      refine ⟨rfl, rfl, ?_⟩
      intro s hs v hv
      simp only [ImpWing.fileEntry, List.map_cons, List.map_nil, List.mem_singleton] at hs
      subst hs
      exact noSpan_given hv ⟨rfl, rfl, rfl, rfl⟩
    refine ⟨fun _ _ => ⟨rfl, rfl⟩, ?_, ?_, ?_, ?_⟩
    · intro w h1 s h2 v h3
      rw [(hw h1).2.2 s h2 v h3]
      left
      constructor <;> norm_num
    · intro w h1 s h2 v h3 p hp
      rw [(hw h1).2.2 s h2 v h3] at hp
      simp only [Corners.list, List.mem_cons, List.not_mem_nil, or_false] at hp
      rcases hp with rfl | rfl | rfl | rfl <;> simp only [abs_le] <;> norm_num
    · intro w h1 _
      refine ⟨(hw h1).1, ?_⟩
      intro w' h1' s h2 v h3 _
      rw [(hw h1').2.2 s h2 v h3]
    · intro m m' k k' w w' s s' v v' h1 h2 h3 h4 _ _
      left
      have l1 := (List.getElem?_eq_some_iff.1 h1).1
      have l2 := (List.getElem?_eq_some_iff.1 h2).1
      have l3 := (List.getElem?_eq_some_iff.1 h3).1
      have l4 := (List.getElem?_eq_some_iff.1 h4).1
      rw [(hw (List.mem_of_getElem? h1)).2.1] at l3
      rw [(hw (List.mem_of_getElem? h2)).2.1] at l4
      simp only [importedFile, List.map_cons, List.map_nil, List.length_singleton] at l1 l2
      omega
  · intro _ p hp l hl
    simp only [oneApm] at hl
    rw [if_pos hp] at hl
    cases hl
    simp
  · simp [cpacsWorld]

end Verif
