import Verif.Model.FileIO
import Verif.Props.Aircraft
import Verif.Lemmas.State

/-!
# Properties C56–C58: deformation files, aircraft files, names
-/

set_option linter.unusedSectionVars false

namespace Verif

/-! ## C58 -/

/-- **C58.** Cleaning a name keeps the allowed characters in their order: the result consists of
allowed characters only, is contained in the name in order, and contains in order everything
allowed that is contained in the name.  It is not longer than the name, and cleaning again changes
nothing.  A non-string raises `ValueError`. -/
theorem C58_clean (alnum : Char → Bool) (s allow : String) :
    ∃ t, parseStr alnum (.str s) allow = .ok t ∧
      (∀ c ∈ t.toList, alnum c = true ∨ c ∈ allow.toList) ∧
      t.toList.Sublist s.toList ∧
      (∀ u : List Char, u.Sublist s.toList → (∀ c ∈ u, alnum c = true ∨ c ∈ allow.toList) →
        u.Sublist t.toList) ∧
      t.toList.length ≤ s.toList.length ∧
      parseStr alnum (.str t) allow = .ok t := by
  refine ⟨_, rfl, ?_, ?_, ?_, ?_, ?_⟩
  · intro c hc
    simp only [String.toList_ofList, List.mem_filter, Bool.or_eq_true,
      List.contains_iff_mem] at hc
    exact hc.2
  · rw [String.toList_ofList]; exact List.filter_sublist
  · intro u hu hc
    rw [String.toList_ofList]
    have : u = u.filter fun c => alnum c || allow.toList.contains c := by
      rw [eq_comm, List.filter_eq_self]
      intro c hcu
      simpa using hc c hcu
    rw [this]
    exact hu.filter _
  · rw [String.toList_ofList]; exact List.length_filter_le _ _
  · simp [parseStr, List.filter_filter]

/-- **C58.** Anything but a string raises `ValueError`. -/
theorem C58_no_string (alnum : Char → Bool) (v : PyVal) (allow : String)
    (h : ∀ s, v ≠ .str s) : parseStr alnum v allow = .error .valueError := by
  cases v <;> first | rfl | exact absurd rfl (h _)

example : parseStr Char.isAlphanum (.str "wing #1 / left_m") "-_" = .ok "wing1left_m" := by
  decide

/-! ## C56 -/

/-- A non-empty wing name without the substring `_m` that does not start with an underscore. -/
def PlainName (s : String) : Prop :=
  ¬ ['_', 'm'] <:+: s.toList ∧ ¬ ['_'] <+: s.toList ∧ s ≠ ""

theorem removeM_append : ∀ l : List Char, ¬ ['_', 'm'] <:+: l → removeM (l ++ ['_', 'm']) = l
  | [], _ => by simp [removeM]
  | [c], _ => by
    show removeM (c :: '_' :: ['m']) = [c]
    simp [removeM]
  | c :: d :: rest, h => by
    have h1 : ¬ (c = '_' ∧ d = 'm') := by
      rintro ⟨rfl, rfl⟩
      exact h ⟨[], rest, rfl⟩
    have h2 : ¬ ['_', 'm'] <:+: d :: rest := fun hi => h (hi.trans (List.infix_cons (List.infix_refl _)))
    have ih := removeM_append (d :: rest) h2
    simp only [List.cons_append] at ih ⊢
    rw [removeM, if_neg h1, ih]

/-- The name of the mirrored half of a wing. -/
def mirrorName (w : String) : String := w ++ "_m"

theorem mirrorName_toList (w : String) : (mirrorName w).toList = w.toList ++ ['_', 'm'] := by
  simp [mirrorName, String.toList_append]

theorem endsM_iff (s : String) : endsM s = true ↔ ['_', 'm'] <:+ s.toList := by
  simp [endsM, List.isSuffixOf_iff_suffix]

theorem starts_iff (s : String) : startsUnderscore s = true ↔ ['_'] <+: s.toList := by
  simp [startsUnderscore, List.isPrefixOf_iff_prefix]

theorem setWing_eq {α : Type*} (uid : String) (f : DefWing α → DefWing α) :
    ∀ ws : ODict (DefWing α), ws.keys.Nodup → uid ∈ ws.keys →
      setWing uid f ws = .ok (ws.map fun e => (e.1, if e.1 = uid then f e.2 else e.2))
  | [], _, h => by simp [ODict.keys] at h
  | (k, w) :: rest, hn, h => by
    simp only [ODict.keys, List.map_cons, List.nodup_cons] at hn
    unfold setWing ODict.modifyE
    by_cases hk : k = uid
    · subst hk
      simp only [if_true]
      have : rest.map (fun e : String × DefWing α => (e.1, if e.1 = k then f e.2 else e.2)) = rest := by
        conv_rhs => rw [← List.map_id rest]
        refine List.map_congr_left fun e he => ?_
        have : e.1 ≠ k := fun h => hn.1 (h ▸ List.mem_map_of_mem he)
        simp [this]
      simp only [List.map_cons, if_true]
      rw [this]
    · have h' : uid ∈ ODict.keys rest := by
        simp only [ODict.keys, List.map_cons, List.mem_cons] at h
        rcases h with h | h
        · exact absurd h.symm hk
        · exact h
      have ih := setWing_eq uid f rest hn.2 h'
      unfold setWing at ih
      simp only [hk, if_false, ih, List.map_cons]

theorem setWing_missing {α : Type*} (uid : String) (f : DefWing α → DefWing α) :
    ∀ ws : ODict (DefWing α), uid ∉ ws.keys → setWing uid f ws = .error .keyError
  | [], _ => rfl
  | (k, w) :: rest, h => by
    simp only [ODict.keys, List.map_cons, List.mem_cons, not_or] at h
    have ih := setWing_missing uid f rest h.2
    unfold setWing at ih ⊢
    unfold ODict.modifyE
    rw [if_neg (Ne.symm h.1)]
    simp only [ih]

/-- What the deformation file says about the wings: the field named after a wing belongs to its
main half, the one with `_m` at the end to its mirrored half; everything else stays. -/
def deformed {α : Type*} (fields : List (String × α)) (ws : ODict (DefWing α)) :
    ODict (DefWing α) :=
  ws.map fun e => (e.1,
    ⟨(fields.lookup e.1).or e.2.defField, (fields.lookup (mirrorName e.1)).or e.2.defFieldMirror⟩)

/-- The name belongs to a half of a wing. -/
def Belongs {α : Type*} (ws : ODict (DefWing α)) (name : String) : Prop :=
  name ∈ ws.keys ∨ ∃ w ∈ ws.keys, name = mirrorName w

/-- The property as stated: every deformation file whose (not ignored) names belong to wings is
read, and the fields reach the halves they are named after. -/
def DeformationReaches : Prop :=
  ∀ (fields : List (String × ℕ)) (ws : ODict (DefWing ℕ)), ws.keys.Nodup →
    (fields.map (·.1)).Nodup →
    (∀ e ∈ fields, ¬ ['_'] <+: e.1.toList → Belongs ws e.1) →
    loadDeformation fields ws = .ok (deformed (fields.filter fun e => !startsUnderscore e.1) ws)

/-- **C56.** The property is false: the mirrored half of a wing named `left_main` is not found,
since every occurrence of `_m` is removed from the name. -/
theorem C56_mirror_name_false : ¬ DeformationReaches ∧
    ∀ field : ℕ, loadDeformation [("left_main_m", field)] [("left_main", ⟨none, none⟩)] =
      .error .keyError := by
  have h1 : ∀ field : ℕ, loadDeformation [("left_main_m", field)] [("left_main", ⟨none, none⟩)] =
      .error .keyError := by
    intro field
    have hs : startsUnderscore "left_main_m" = false := by decide
    have he : endsM "left_main_m" = true := by decide
    have hr : String.ofList (removeM "left_main_m".toList) = "leftain" := by decide
    unfold loadDeformation
    simp only [hs, he, hr, if_true, Bool.false_eq_true, if_false]
    rw [setWing_missing _ _ _ (by decide)]
  refine ⟨fun h => ?_, h1⟩
  have := h [("left_main_m", 0)] [("left_main", ⟨none, none⟩)] (by decide) (by decide) (by
    intro e he _
    simp only [List.mem_singleton] at he
    subst he
    exact Or.inr ⟨"left_main", by decide, by decide⟩)
  rw [h1 0] at this
  cases this

section
variable {α : Type*}

theorem setWing_keys (uid : String) (f : DefWing α → DefWing α) (ws : ODict (DefWing α))
    (hn : ws.keys.Nodup) :
    setWing uid f ws = .error .keyError ∨ ∃ ws', setWing uid f ws = .ok ws' ∧ ws'.keys = ws.keys := by
  by_cases h : uid ∈ ws.keys
  · refine Or.inr ⟨_, setWing_eq uid f ws hn h, ?_⟩
    simp [ODict.keys]
  · exact Or.inl (setWing_missing uid f ws h)

theorem removeM_mirrorName {w : String} (h : ¬ ['_', 'm'] <:+: w.toList) :
    String.ofList (removeM (mirrorName w).toList) = w := by
  rw [mirrorName_toList, removeM_append _ h, String.ofList_toList]

theorem endsM_mirrorName (w : String) : endsM (mirrorName w) = true := by
  rw [endsM_iff, mirrorName_toList]
  exact List.suffix_append _ _

theorem not_endsM {w : String} (h : ¬ ['_', 'm'] <:+: w.toList) : endsM w = false := by
  rw [← Bool.not_eq_true, endsM_iff]
  exact fun hs => h hs.isInfix

theorem deformation_step (uid : String) (field : α) (rest : List (String × α))
    (ws : ODict (DefWing α)) (hn : ws.keys.Nodup) :
    loadDeformation ((uid, field) :: rest) ws = .error .keyError ∨
    ∃ ws', ws'.keys = ws.keys ∧
      loadDeformation ((uid, field) :: rest) ws = loadDeformation rest ws' := by
  rw [loadDeformation]
  split_ifs
  · exact Or.inr ⟨ws, rfl, rfl⟩
  · rcases setWing_keys (String.ofList (removeM uid.toList))
      (fun w : DefWing α => { w with defFieldMirror := some field }) ws hn with h | ⟨ws', h, hk⟩
    · left; rw [h]
    · right; exact ⟨ws', hk, by rw [h]⟩
  · rcases setWing_keys uid (fun w : DefWing α => { w with defField := some field }) ws hn
      with h | ⟨ws', h, hk⟩
    · left; rw [h]
    · right; exact ⟨ws', hk, by rw [h]⟩

/-- **C56.** A field that belongs to no wing raises `KeyError` (for names that contain `_m` at
most at their end). -/
theorem C56_unknown_wing (fields : List (String × α)) (ws : ODict (DefWing α))
    (hn : ws.keys.Nodup) (base : String) (hb : ¬ ['_', 'm'] <:+: base.toList)
    (hk : base ∉ ws.keys) (h : base ∈ fields.map (·.1) ∨ mirrorName base ∈ fields.map (·.1))
    (hu : ¬ ['_'] <+: base.toList) (h0 : base ≠ "") :
    loadDeformation fields ws = .error .keyError := by
  induction fields generalizing ws with
  | nil => simp at h
  | cons x rest ih =>
    obtain ⟨uid, field⟩ := x
    by_cases hrest : base ∈ rest.map (·.1) ∨ mirrorName base ∈ rest.map (·.1)
    · rcases deformation_step uid field rest ws hn with h1 | ⟨ws', hkeys, h1⟩
      · exact h1
      · rw [h1]
        exact ih ws' (hkeys ▸ hn) (hkeys ▸ hk) hrest
    · have hx : base = uid ∨ mirrorName base = uid := by
        simp only [List.map_cons, List.mem_cons] at h
        tauto
      rw [loadDeformation]
      rcases hx with rfl | rfl
      · have h1 : startsUnderscore base = false := by
          rw [← Bool.not_eq_true, starts_iff]; exact hu
        rw [h1, not_endsM hb, setWing_missing _ _ _ hk]
        simp
      · have h1 : startsUnderscore (mirrorName base) = false := by
          rw [← Bool.not_eq_true, starts_iff, mirrorName_toList]
          intro hp
          cases hw : base.toList with
          | nil => exact h0 (String.toList_eq_nil_iff.1 hw)
          | cons c l =>
            rw [hw] at hp
            refine hu ?_
            rw [hw]
            simpa using hp
        rw [h1, endsM_mirrorName, removeM_mirrorName hb, setWing_missing _ _ _ hk]
        simp

/-- **C56 (partial).** If the wing names are not empty, do not contain `_m` and do not start with
an underscore, and each name in the file that does not start with an underscore belongs to a half
of a wing, then the file is read and every field reaches exactly the half it is named after;
nothing else changes.  Missing: wing names that contain `_m`. -/
theorem C56_fields_partial (fields : List (String × α)) (ws : ODict (DefWing α))
    (hn : ws.keys.Nodup) (hp : ∀ w ∈ ws.keys, PlainName w) (hf : (fields.map (·.1)).Nodup)
    (hb : ∀ e ∈ fields, ¬ ['_'] <+: e.1.toList → Belongs ws e.1) :
    loadDeformation fields ws = .ok (deformed fields ws) := by
  induction fields generalizing ws with
  | nil =>
    simp only [loadDeformation, deformed, List.lookup_nil, Option.none_or]
    rw [List.map_id']
  | cons x rest ih =>
    obtain ⟨uid, field⟩ := x
    simp only [List.map_cons, List.nodup_cons] at hf
    have hnone : rest.lookup uid = none := by
      rw [List.lookup_eq_none_iff]
      intro p hp'
      rw [bne_iff_ne]
      rintro rfl
      exact hf.1 (List.mem_map_of_mem hp')
    have lk : ∀ k, k ≠ uid → List.lookup k ((uid, field) :: rest) = rest.lookup k := by
      intro k hk
      rw [List.lookup_cons, beq_eq_false_iff_ne.2 hk]
    have lk' : List.lookup uid ((uid, field) :: rest) = some field := by
      rw [List.lookup_cons, beq_self_eq_true]
    have mirror_ne : ∀ w k, k ∈ ws.keys → mirrorName w ≠ k := by
      rintro w k hk rfl
      refine (hp _ hk).1 ?_
      rw [mirrorName_toList]
      exact ⟨w.toList, [], by simp⟩
    have mirror_inj : ∀ w k, mirrorName w = mirrorName k → w = k := by
      intro w k h
      have := congrArg String.toList h
      rw [mirrorName_toList, mirrorName_toList] at this
      exact String.toList_inj.1 (List.append_cancel_right this)
    have mirror_start : ∀ k ∈ ws.keys, ¬ ['_'] <+: (mirrorName k).toList := by
      intro k hk hu
      rw [mirrorName_toList] at hu
      cases hw : k.toList with
      | nil => exact (hp _ hk).2.2 (String.toList_eq_nil_iff.1 hw)
      | cons c l =>
        rw [hw] at hu
        refine (hp _ hk).2.1 ?_
        rw [hw]
        simpa using hu
    have hbrest : ∀ ws' : ODict (DefWing α), ws'.keys = ws.keys →
        loadDeformation rest ws' = .ok (deformed rest ws') := by
      intro ws' hkeys
      refine ih ws' (hkeys ▸ hn) (hkeys ▸ hp) hf.2 fun e he hu => ?_
      have := hb e (List.mem_cons_of_mem _ he) hu
      unfold Belongs at this ⊢
      rwa [hkeys]
    by_cases hu : ['_'] <+: uid.toList
    · -- ignored
      rw [loadDeformation, if_pos ((starts_iff uid).2 hu), hbrest ws rfl]
      congr 1
      refine List.map_congr_left fun e he => ?_
      have hk : e.1 ∈ ws.keys := List.mem_map_of_mem he
      have h1 : e.1 ≠ uid := by rintro rfl; exact (hp _ hk).2.1 hu
      have h2 : mirrorName e.1 ≠ uid := by rintro rfl; exact mirror_start _ hk hu
      rw [lk _ h1, lk _ h2]
    · have hs : startsUnderscore uid = false := by
        rw [← Bool.not_eq_true, starts_iff]; exact hu
      rcases hb (uid, field) (by simp) hu with hk | ⟨w, hw, hwm⟩
      · -- main half
        simp only at hk
        rw [loadDeformation, hs, not_endsM (hp _ hk).1, setWing_eq _ _ _ hn hk]
        simp only [Bool.false_eq_true, if_false]
        rw [hbrest _ (by simp [ODict.keys])]
        congr 1
        simp only [deformed, List.map_map]
        refine List.map_congr_left fun e he => ?_
        have hke : e.1 ∈ ws.keys := List.mem_map_of_mem he
        simp only [Function.comp_apply]
        rw [lk _ (mirror_ne e.1 uid hk)]
        by_cases h1 : e.1 = uid
        · rw [h1, lk', hnone]; simp
        · rw [lk _ h1]; simp [h1]
      · -- mirrored half
        simp only at hwm
        subst hwm
        rw [loadDeformation, hs, endsM_mirrorName, removeM_mirrorName (hp _ hw).1,
          setWing_eq _ _ _ hn hw]
        simp only [Bool.false_eq_true, if_false, if_true]
        rw [hbrest _ (by simp [ODict.keys])]
        congr 1
        simp only [deformed, List.map_map]
        refine List.map_congr_left fun e he => ?_
        have hke : e.1 ∈ ws.keys := List.mem_map_of_mem he
        simp only [Function.comp_apply]
        rw [lk _ (Ne.symm (mirror_ne w e.1 hke))]
        by_cases h1 : e.1 = w
        · rw [h1, lk', hnone]; simp
        · rw [lk _ fun h => h1 (mirror_inj _ _ h)]; simp [h1]

end

example : loadDeformation [("wing", 1), ("_cfd", 2), ("tail_m", 3)]
    [("wing", ⟨none, none⟩), ("tail", ⟨none, none⟩)] =
    .ok [("wing", ⟨some 1, none⟩), ("tail", ⟨none, some 3⟩)] :=
  C56_fields_partial [("wing", 1), ("_cfd", 2), ("tail_m", 3)]
    [("wing", ⟨none, none⟩), ("tail", ⟨none, none⟩)] (by decide)
    (by
      intro w hw
      simp only [ODict.keys, List.map_cons, List.map_nil, List.mem_cons, List.not_mem_nil,
        or_false] at hw
      rcases hw with rfl | rfl <;> exact ⟨by decide, by decide, by decide⟩) (by decide)
    (by
      intro e he hu
      simp only [List.mem_cons, List.not_mem_nil, or_false] at he
      rcases he with rfl | rfl | rfl
      · exact Or.inl (by decide)
      · exact absurd (by decide) hu
      · exact Or.inr ⟨"tail", by decide, by decide⟩)

end Verif
