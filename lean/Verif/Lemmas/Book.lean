import Verif.Model.Book
import Verif.Lemmas.PrePanel
import Mathlib.Data.List.Pairwise
import Mathlib.Algebra.BigOperators.Group.List.Basic
import Mathlib.Algebra.Order.Floor.Ring

/-! Helper lemmas: iterators and bookkeeping. -/

set_option linter.unusedSectionVars false

namespace Verif

/-! ### Iterators -/

theorem mem_enumFrom' {α : Type*} (l : List α) (n i : ℕ) (a : α) :
    (i, a) ∈ enumFrom' n l ↔ n ≤ i ∧ l[i - n]? = some a := by
  induction l generalizing n with
  | nil => simp [enumFrom']
  | cons b rest ih =>
    simp only [enumFrom', List.mem_cons, Prod.mk.injEq, ih]
    constructor
    · rintro (⟨rfl, rfl⟩ | ⟨h1, h2⟩)
      · simp
      · refine ⟨by omega, ?_⟩
        have : i - n = (i - (n + 1)) + 1 := by omega
        rw [this, List.getElem?_cons_succ]
        exact h2
    · rintro ⟨h1, h2⟩
      rcases Nat.eq_or_lt_of_le h1 with rfl | hlt
      · left
        simpa using h2.symm
      · right
        have : i - n = (i - (n + 1)) + 1 := by omega
        rw [this, List.getElem?_cons_succ] at h2
        exact ⟨by omega, h2⟩

theorem enumFrom'_sorted {α : Type*} (l : List α) (n : ℕ) :
    (enumFrom' n l).Pairwise (fun p q => p.1 < q.1) := by
  induction l generalizing n with
  | nil => exact List.Pairwise.nil
  | cons b rest ih =>
    refine List.Pairwise.cons ?_ (ih (n + 1))
    rintro ⟨i, a⟩ h
    have := (mem_enumFrom' rest (n + 1) i a).1 h
    simp only
    omega

theorem length_enumFrom' {α : Type*} (l : List α) (n : ℕ) : (enumFrom' n l).length = l.length := by
  induction l generalizing n with
  | nil => rfl
  | cons b rest ih => simp [enumFrom', ih]

theorem map_enumFrom' {α β : Type*} (g : α → β) (l : List α) (n : ℕ) :
    (enumFrom' n l).map (fun p => g p.2) = l.map g := by
  induction l generalizing n with
  | nil => rfl
  | cons b rest ih => simp [enumFrom', ih]

theorem mem_nested {α β : Type*} (f : α → List β) (l : List α) (b : β) (a : α) :
    (b, a) ∈ nested f l ↔ a ∈ l ∧ b ∈ f a := by
  induction l with
  | nil => simp [nested]
  | cons c rest ih =>
    simp only [nested, List.mem_append, List.mem_map, Prod.mk.injEq, ih, List.mem_cons]
    constructor
    · rintro (⟨b', hb, rfl, rfl⟩ | ⟨h1, h2⟩)
      · exact ⟨Or.inl rfl, hb⟩
      · exact ⟨Or.inr h1, h2⟩
    · rintro ⟨rfl | h1, h2⟩
      · exact Or.inl ⟨b, h2, rfl, rfl⟩
      · exact Or.inr ⟨h1, h2⟩

theorem nested_sorted {α β : Type*} {R : α → α → Prop} {S : β → β → Prop} {f : α → List β}
    {l : List α} (hl : l.Pairwise R) (hf : ∀ a, (f a).Pairwise S) :
    (nested f l).Pairwise (fun p q => R p.2 q.2 ∨ (p.2 = q.2 ∧ S p.1 q.1)) := by
  induction hl with
  | nil => exact List.Pairwise.nil
  | @cons a rest hR _ ih =>
    rw [nested, List.pairwise_append]
    refine ⟨?_, ih, ?_⟩
    · rw [List.pairwise_map]
      exact (hf a).imp fun h => Or.inr ⟨rfl, h⟩
    · rintro x hx ⟨b, a'⟩ hy
      obtain ⟨b', -, rfl⟩ := List.mem_map.1 hx
      exact Or.inl (hR a' ((mem_nested f rest b a').1 hy).1)

theorem length_nested {α β : Type*} (f : α → List β) (l : List α) :
    (nested f l).length = (l.map fun a => (f a).length).sum := by
  induction l with
  | nil => rfl
  | cons c rest ih => simp [nested, ih]

theorem countLoop_eq {α : Type*} (l : List α) (n : ℕ) : countLoop n l = n + l.length := by
  induction l generalizing n with
  | nil => rfl
  | cons c rest ih => simp [countLoop, ih]; omega

/-! ### Devices of a strip -/

variable {K : Type*} [Field K] [LinearOrder K]

/-- what is known about the dictionary of subareas of a strip -/
structure DevInv (C : Control → Prop) (s : Strip K) : Prop where
  slat : ∀ f, s.slat = some f → C f.ctrl ∧ f.ctrl.deviceType = "slat"
  flap : ∀ f, s.flap = some f → C f.ctrl ∧ f.ctrl.deviceType = "flap"
  nodup : s.keys.Nodup
  mem_slat : "slat" ∈ s.keys ↔ s.slat.isSome
  mem_flap : "flap" ∈ s.keys ↔ s.flap.isSome
  keys : ∀ k ∈ s.keys, k = "slat" ∨ k = "flap"

theorem DevInv.init {C : Control → Prop} (a b c d : K) : DevInv C (Strip.init a b c d) where
  slat := by simp [Strip.init]
  flap := by simp [Strip.init]
  nodup := by simp [Strip.init]
  mem_slat := by simp [Strip.init]
  mem_flap := by simp [Strip.init]
  keys := by simp [Strip.init]

theorem DevInv.addSubarea {C : Control → Prop} {s s' : Strip K} (hs : DevInv C s) {c : Control}
    (hc : C c) {x1 x2 : K} {h1 h2 : Option K} (ha : s.addSubarea c x1 x2 h1 h2 = .ok s') :
    DevInv C s' := by
  obtain ⟨-, -, -, ⟨ht, hn, rfl⟩ | ⟨ht, hn, rfl⟩⟩ := addSubarea_ok ha
  · have hk : "slat" ∉ s.keys := by rw [hs.mem_slat, hn]; simp
    constructor
    · intro f hf
      simp only [Option.some.injEq] at hf
      subst hf
      exact ⟨hc, ht⟩
    · exact hs.flap
    · rw [List.nodup_append]
      refine ⟨hs.nodup, by simp, ?_⟩
      intro a ha b hb hab
      rw [List.mem_singleton.1 hb] at hab
      exact hk (hab ▸ ha)
    · simp
    · simp [hs.mem_flap]
    · intro k hk
      rcases List.mem_append.1 hk with h | h
      · exact hs.keys k h
      · left; simpa using h
  · have hk : "flap" ∉ s.keys := by rw [hs.mem_flap, hn]; simp
    constructor
    · exact hs.slat
    · intro f hf
      simp only [Option.some.injEq] at hf
      subst hf
      exact ⟨hc, ht⟩
    · rw [List.nodup_append]
      refine ⟨hs.nodup, by simp, ?_⟩
      intro a ha b hb hab
      rw [List.mem_singleton.1 hb] at hab
      exact hk (hab ▸ ha)
    · simp [hs.mem_slat]
    · simp
    · intro k hk
      rcases List.mem_append.1 hk with h | h
      · exact hs.keys k h
      · right; simpa using h

theorem DevInv.updateFlap {C : Control → Prop} {s : Strip K} (hs : DevInv C s) (a b c d : K) :
    DevInv C (s.updateFlap a b c d) := by
  constructor
  · exact hs.slat
  · intro f hf
    simp only [Strip.updateFlap, Option.map_eq_some_iff] at hf
    obtain ⟨g, hg, rfl⟩ := hf
    exact hs.flap g hg
  · exact hs.nodup
  · exact hs.mem_slat
  · simp [Strip.updateFlap, hs.mem_flap]
  · exact hs.keys

theorem DevInv.updateSlat {C : Control → Prop} {s : Strip K} (hs : DevInv C s) (a b c d : K) :
    DevInv C (s.updateSlat a b c d) := by
  constructor
  · intro f hf
    simp only [Strip.updateSlat, Option.map_eq_some_iff] at hf
    obtain ⟨g, hg, rfl⟩ := hf
    exact hs.slat g hg
  · exact hs.flap
  · exact hs.nodup
  · simp [Strip.updateSlat, hs.mem_slat]
  · exact hs.mem_flap
  · exact hs.keys

theorem DevInv.inheritFlap {C : Control → Prop} {interp : Interp K} {eA eB eta : K}
    {prev new : Strip K} (hp : DevInv C prev) (hn : DevInv C new) :
    DevInv C (inheritFlap interp eA eB eta prev new).2.1 ∧
    DevInv C (inheritFlap interp eA eB eta prev new).2.2 := by
  rcases inheritFlap_cases interp eA eB eta prev new with h | ⟨f, n, hf, ha, h⟩
  · simp [h, hp, hn]
  · rw [h]
    exact ⟨hp.updateFlap _ _ _ _, hn.addSubarea (hp.flap f hf).1 ha⟩

theorem DevInv.inheritSlat {C : Control → Prop} {interp : Interp K} {eA eB eta : K}
    {prev new : Strip K} (hp : DevInv C prev) (hn : DevInv C new) :
    DevInv C (inheritSlat interp eA eB eta prev new).2.1 ∧
    DevInv C (inheritSlat interp eA eB eta prev new).2.2 := by
  rcases inheritSlat_cases interp eA eB eta prev new with h | ⟨f, n, hf, ha, h⟩
  · simp [h, hp, hn]
  · rw [h]
    exact ⟨hp.updateSlat _ _ _ _, hn.addSubarea (hp.slat f hf).1 ha⟩

theorem DevInv.inheritDevices {C : Control → Prop} {interp : Interp K} {eA eB eta : K}
    {prev new p n : Strip K} {r : Except PyErr Unit} (hp : DevInv C prev) (hn : DevInv C new)
    (h : inheritDevices interp eA eB eta prev new = (r, p, n)) : DevInv C p ∧ DevInv C n := by
  have h1 := DevInv.inheritFlap (interp := interp) (eA := eA) (eB := eB) (eta := eta) hp hn
  rcases inheritDevices_cases interp eA eB eta prev new with ⟨e, he⟩ | ⟨p', n', h2, h3⟩
  · rw [he] at h
    have : (Verif.inheritFlap interp eA eB eta prev new).2 = (p, n) := by
      simpa using congrArg Prod.snd h
    rwa [this] at h1
  · rw [h2] at h1
    rw [h3] at h
    have h4 := DevInv.inheritSlat (interp := interp) (eA := eA) (eB := eB) (eta := eta) h1.1 h1.2
    rwa [h] at h4

theorem devInv_closedOk (interp : Interp K) (C : Control → Prop) :
    ClosedOk interp C (fun sds : List (Strip K) => ∀ s ∈ sds, DevInv C s) where
  split := by
    intro sds idx prev p n e d hT hidx _ _ _ _ _ hi
    have hm := hT prev (List.mem_of_getElem? hidx)
    have hm' : DevInv C { prev with etaB := e, etaC := d } :=
      ⟨hm.slat, hm.flap, hm.nodup, hm.mem_slat, hm.mem_flap, hm.keys⟩
    obtain ⟨h1, h2⟩ := hm'.inheritDevices (DevInv.init _ _ _ _) hi
    exact mem_set_append hT h1 h2
  add := by
    intro sds idx s s' c x1 x2 h1 h2 hc hT hidx ha
    exact mem_set_P hT ((hT s (List.mem_of_getElem? hidx)).addSubarea hc ha)

theorem devInv_init (C : Control → Prop) : ∀ s ∈ (initStrips : List (Strip K)), DevInv C s := by
  intro s hs
  simp only [initStrips, List.mem_singleton] at hs
  subst hs
  exact DevInv.init _ _ _ _

/-! ### Counting -/

/-- entries follow each other without gap, from panel `a` up to panel `b` -/
def Contig : ℤ → List BookEntry → ℤ → Prop
  | a, [], b => a = b
  | a, e :: rest, b => e.start = a ∧ e.stop = a + e.numC ∧ Contig e.stop rest b

theorem Contig.append {a b c : ℤ} {l l' : List BookEntry} (h1 : Contig a l b)
    (h2 : Contig b l' c) : Contig a (l ++ l') c := by
  induction l generalizing a with
  | nil => simp only [Contig] at h1; subst h1; exact h2
  | cons e rest ih => exact ⟨h1.1, h1.2.1, ih h1.2.2⟩

theorem update_fields (b : Book) (e : BookEntry) :
    (b.update e).entries = b.entries ++ [e] ∧ (b.update e).numSub = b.numSub ∧
    (b.update e).numR = b.numR ∧ (b.update e).numP = b.numP ∧
    (∀ u, (b.update e).byWing u = b.byWing u ++ [e].filter (fun x => !x.mirror && x.wingUid == u)) ∧
    (∀ u, (b.update e).byWingMirror u =
      b.byWingMirror u ++ [e].filter (fun x => x.mirror && x.wingUid == u)) := by
  unfold Book.update
  cases hm : e.mirror
  · refine ⟨by simp, by simp, by simp, by simp, fun u => ?_, fun u => ?_⟩
    · by_cases hu : u = e.wingUid
      · simp [hm, hu]
      · simp [hm, hu, Ne.symm hu]
    · simp [hm]
  · refine ⟨by simp, by simp, by simp, by simp, fun u => ?_, fun u => ?_⟩
    · simp [hm]
    · by_cases hu : u = e.wingUid
      · simp [hm, hu]
      · simp [hm, hu, Ne.symm hu]

section
variable [FloorRing K]

/-- type of what `all_subareas` yields -/
abbrev SubTuple (K : Type*) :=
  (ℕ × Subarea K) × (ℕ × Strip K) × (ℕ × PSegment K) × (ℕ × PWing K)

def SubTuple.path (t : SubTuple K) : SubPath := ⟨t.2.2.2.1, t.2.2.1.1, t.2.1.1, t.1.1⟩

/-- the entries made for one subarea -/
def GroupOf (t : SubTuple K) (g : List BookEntry) : Prop :=
  ∃ n s : ℤ, chordPanels t.2.2.2.2 t.2.2.1.2 t.1.2 = .ok n ∧
    g = if t.2.2.2.2.symmetry = 0 then [⟨t.path, t.2.2.2.2.uid, s, s + n, n, false⟩]
      else [⟨t.path, t.2.2.2.2.uid, s, s + n, n, false⟩,
        ⟨t.path, t.2.2.2.2.uid, s + n, s + n + n, n, true⟩]

theorem countStep_ok {b b' : Book} {t : SubTuple K} (h : countStep b t = .ok b') :
    ∃ g, GroupOf t g ∧ b'.entries = b.entries ++ g ∧ Contig b.numP g b'.numP ∧
      b'.numSub = b.numSub + g.length ∧ b'.numR - b.numR = b'.numP - b.numP ∧
      (∀ u, b'.byWing u = b.byWing u ++ g.filter (fun x => !x.mirror && x.wingUid == u)) ∧
      (∀ u, b'.byWingMirror u =
        b.byWingMirror u ++ g.filter (fun x => x.mirror && x.wingUid == u)) := by
  unfold countStep at h
  split at h
  · simp at h
  · rename_i n hn
    dsimp only at h
    obtain ⟨a1, a2, a3, a4, a5, a6⟩ := update_fields
      { b with numSub := b.numSub + 1, numR := b.numR + n, numP := b.numP + n }
      ⟨⟨t.2.2.2.1, t.2.2.1.1, t.2.1.1, t.1.1⟩, t.2.2.2.2.uid, b.numP, b.numP + n, n, false⟩
    set b1 := Book.update { b with numSub := b.numSub + 1, numR := b.numR + n, numP := b.numP + n }
      ⟨⟨t.2.2.2.1, t.2.2.1.1, t.2.1.1, t.1.1⟩, t.2.2.2.2.uid, b.numP, b.numP + n, n, false⟩
      with hb1
    clear_value b1
    simp only at a1 a2 a3 a4 a5 a6
    split_ifs at h with hs
    · obtain ⟨c1, c2, c3, c4, c5, c6⟩ := update_fields
        { b1 with numSub := b1.numSub + 1, numR := b1.numR + n, numP := b1.numP + n }
        ⟨⟨t.2.2.2.1, t.2.2.1.1, t.2.1.1, t.1.1⟩, t.2.2.2.2.uid, b1.numP, b1.numP + n, n, true⟩
      simp only [Except.ok.injEq] at h
      rw [h] at c1 c2 c3 c4 c5 c6
      simp only at c1 c2 c3 c4 c5 c6
      refine ⟨_, ⟨n, b.numP, hn, rfl⟩, ?_, ?_, ?_, ?_, ?_, ?_⟩
      · rw [if_neg hs, c1, a1, a4, List.append_assoc]; rfl
      · rw [if_neg hs, c4, a4]
        exact ⟨rfl, rfl, rfl, rfl, rfl⟩
      · rw [if_neg hs, c2, a2]; simp; ring
      · rw [c3, c4, a3, a4]; ring
      · intro u
        rw [if_neg hs, c5, a5, List.append_assoc, ← List.filter_append, a4]; rfl
      · intro u
        rw [if_neg hs, c6, a6, List.append_assoc, ← List.filter_append, a4]; rfl
    · push Not at hs
      simp only [Except.ok.injEq] at h
      rw [h] at a1 a2 a3 a4 a5 a6
      refine ⟨_, ⟨n, b.numP, hn, rfl⟩, ?_, ?_, ?_, ?_, ?_, ?_⟩
      · rw [if_pos hs, a1]; rfl
      · rw [if_pos hs, a4]; exact ⟨rfl, rfl, rfl⟩
      · rw [if_pos hs, a2]; simp
      · rw [a3, a4]; ring
      · intro u; rw [if_pos hs, a5]; rfl
      · intro u; rw [if_pos hs, a6]; rfl

theorem countFrom_ok {b b' : Book} {L : List (SubTuple K)} (h : countFrom b L = .ok b') :
    ∃ gs, List.Forall₂ GroupOf L gs ∧ b'.entries = b.entries ++ gs.flatten ∧
      Contig b.numP gs.flatten b'.numP ∧
      b'.numSub = b.numSub + gs.flatten.length ∧ b'.numR - b.numR = b'.numP - b.numP ∧
      (∀ u, b'.byWing u =
        b.byWing u ++ gs.flatten.filter (fun x => !x.mirror && x.wingUid == u)) ∧
      (∀ u, b'.byWingMirror u =
        b.byWingMirror u ++ gs.flatten.filter (fun x => x.mirror && x.wingUid == u)) := by
  induction L generalizing b with
  | nil =>
    simp only [countFrom, Except.ok.injEq] at h
    subst h
    exact ⟨[], .nil, by simp, rfl, by simp, by ring, by simp, by simp⟩
  | cons t rest ih =>
    unfold countFrom at h
    split at h
    · simp at h
    · rename_i b1 h1
      obtain ⟨g, g1, g2, g3, g4, g5, g6, g7⟩ := countStep_ok h1
      obtain ⟨gs, k1, k2, k3, k4, k5, k6, k7⟩ := ih h
      refine ⟨g :: gs, .cons g1 k1, ?_, ?_, ?_, ?_, ?_, ?_⟩
      · rw [k2, g2, List.flatten_cons, List.append_assoc]
      · rw [List.flatten_cons]; exact g3.append k3
      · rw [k4, g4, List.flatten_cons, List.length_append]; push_cast; ring
      · linarith
      · intro u; rw [k6, g6, List.flatten_cons, List.filter_append, List.append_assoc]
      · intro u; rw [k7, g7, List.flatten_cons, List.filter_append, List.append_assoc]

theorem countFrom_total {b : Book} {L : List (SubTuple K)}
    (h : ∀ t ∈ L, ∃ n, chordPanels t.2.2.2.2 t.2.2.1.2 t.1.2 = .ok n) :
    ∃ b', countFrom b L = .ok b' := by
  induction L generalizing b with
  | nil => exact ⟨b, rfl⟩
  | cons t rest ih =>
    obtain ⟨n, hn⟩ := h t (by simp)
    have : ∃ b1, countStep b t = .ok b1 := by
      unfold countStep
      rw [hn]
      dsimp only
      split_ifs <;> exact ⟨_, rfl⟩
    obtain ⟨b1, hb1⟩ := this
    obtain ⟨b', hb'⟩ := ih (b := b1) (fun t ht => h t (List.mem_cons_of_mem _ ht))
    exact ⟨b', by unfold countFrom; rw [hb1]; exact hb'⟩

end

end Verif
