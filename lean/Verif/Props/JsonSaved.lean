import Verif.Props.JsonFaults
import Verif.Props.Setup

/-!
# Properties C130 and C133: the meaning of an aircraft file, and files written by the program
-/

namespace Verif

/-! ## Specification -/

/-- No entry of the geometry is NaN. -/
def SegGeo.Finite (g : SegGeo) : Prop :=
  ∀ v ∈ [g.innerChord, g.innerAlpha, g.innerBeta, g.innerAxis, g.outerChord, g.outerAlpha, g.outerBeta,
    g.outerAxis, g.span, g.sweep, g.dihedral], v ≠ some .nonfin

/-! ## Data have one meaning -/

theorem given_unique {α : Type} {R : Json → α → Prop} (hR : ∀ v a b, R v a → R v b → a = b)
    (hn : ∀ a, ¬ R .null a) {d : JDict} {key : String} {x y : Option α} (h : GivenAt R d key x)
    (h' : GivenAt R d key y) : x = y := by
  rcases h with ⟨rfl, h⟩ | ⟨v, a, h, ha, rfl⟩ <;> rcases h' with ⟨rfl, h'⟩ | ⟨w, b, h', hb, rfl⟩
  · rfl
  · rcases h with h | h <;> rw [h] at h' <;> cases h'
    exact absurd hb (hn _)
  · rcases h' with h' | h' <;> rw [h] at h' <;> cases h'
    exact absurd ha (hn _)
  · rw [h] at h'
    cases h'
    rw [hR _ _ _ ha hb]

theorem isNumber_unique {E : JsonEnv} {v : Json} {a b : ℝ} (h : IsNumber E v a) (h' : IsNumber E v b) : a = b := by
  rw [← numberOf_iff] at h h'
  rw [h] at h'
  exact Option.some.inj h'

theorem isPoint_unique {E : JsonEnv} {v : Json} {a b : V3 ℝ} (h : IsPoint E v a) (h' : IsPoint E v b) : a = b := by
  rw [← xyzOf_iff] at h h'
  rw [h] at h'
  exact Option.some.inj h'

theorem isCount_unique {E : JsonEnv} {v : Json} {a b : ℤ} (h : IsCount E v a) (h' : IsCount E v b) : a = b := by
  rcases h with rfl | ⟨-, ⟨rfl, rfl⟩ | ⟨rfl, rfl⟩⟩ <;> rcases h' with h' | ⟨-, ⟨h', rfl⟩ | ⟨h', rfl⟩⟩ <;>
    first | rfl | (cases h'; done) | (cases h'; rfl)

theorem isFloatable_unique {E : JsonEnv} {v : Json} {a b : ℝ} (h : IsFloatable E v a) (h' : IsFloatable E v b) :
    a = b := by
  rw [← jsonFloat_ok] at h h'
  rw [h] at h'
  exact Except.ok.inj h'

theorem isSymmetry_unique {v : Json} {a b : ℕ} (h : IsSymmetry v a) (h' : IsSymmetry v b) : a = b := by
  rcases h with rfl | rfl | ⟨rfl, rfl⟩ | ⟨rfl, rfl⟩ <;> rcases h' with h' | h' | ⟨h', rfl⟩ | ⟨h', rfl⟩ <;>
    first | rfl | (cases h'; done) | (simpa using h')

theorem isList_unique {v : Json} {a b : List Json} (h : v.IsList a) (h' : v.IsList b) : a = b := by
  rcases h with rfl | ⟨rfl, rfl | rfl⟩ <;> rcases h' with h' | ⟨rfl, h' | h'⟩ <;>
    first | rfl | (cases h'; done) | (cases h'; rfl)

theorem group_unique {e : Json} {key : String} {a b : JDict} (h : Group e key a) (h' : Group e key b) : a = b := by
  rw [← group_ok] at h h'
  rw [h] at h'
  exact Except.ok.inj h'

theorem lookup_unique {d : JDict} {key : String} {v w : Json} (h : d.lookup key = some v)
    (h' : d.lookup key = some w) : v = w := by
  rw [h] at h'
  exact Option.some.inj h'

theorem decimalAt_unique {d : JDict} {key : String} {a b : ℝ} (h : DecimalAt d key a) (h' : DecimalAt d key b) :
    a = b := by
  obtain ⟨v, h1, h2⟩ := h
  obtain ⟨w, h3, h4⟩ := h'
  have := lookup_unique h1 h3
  subst this
  rw [h2] at h4
  cases h4
  rfl

theorem geoAt_unique {d : JDict} {key : String} {a b : Option (Flt ℝ)} (h : GeoAt d key a) (h' : GeoAt d key b) :
    a = b := by
  refine given_unique ?_ ?_ h h'
  · rintro v a b ⟨r, h1, rfl⟩ ⟨s, h2, rfl⟩
    rw [h1] at h2
    cases h2
    rfl
  · rintro a ⟨r, h, -⟩
    cases h

theorem has_lacks {j : Json} {key : String} {v : Json} (h : j.Has key v) : ¬ j.Lacks key := by
  rintro ⟨d, rfl, h'⟩
  obtain ⟨d', hd, hv⟩ := h
  cases hd
  rw [h'] at hv
  cases hv

theorem has_obj_unique {j : Json} {key : String} {a b : JDict} (h : j.Has key (.obj a)) (h' : j.Has key (.obj b)) :
    a = b := by
  have := has_unique h h'
  cases this
  rfl

theorem has_str_unique {j : Json} {key : String} {a b : String} (h : j.Has key (.str a)) (h' : j.Has key (.str b)) :
    a = b := by
  have := has_unique h h'
  cases this
  rfl

theorem lookup_str_unique {d : JDict} {key : String} {a b : String} (h : d.lookup key = some (.str a))
    (h' : d.lookup key = some (.str b)) : a = b := by
  have := lookup_unique h h'
  cases this
  rfl

theorem forall₂_unique {α β : Type} {R : α → β → Prop} (hR : ∀ a x y, R a x → R a y → x = y) {l : List α}
    {xs ys : List β} (h : List.Forall₂ R l xs) (h' : List.Forall₂ R l ys) : xs = ys := by
  induction h generalizing ys with
  | nil => cases h'; rfl
  | cons h1 _ ih =>
    cases h' with
    | cons h2 h3 => rw [hR _ _ _ h1 h2, ih h3]

theorem segmentJson_unique {E : JsonEnv} {e : Json} {s t : FileSegment} (h : SegmentJson E e s)
    (h' : SegmentJson E e t) : s = t := by
  obtain ⟨h1, ⟨dv, h2, v1, v2, v3, v4, -, -⟩, ⟨dg, h3, g1, g2, g3, g4, g5, g6, g7, g8, g9, g10, g11, -⟩,
    ⟨as, h4, -, hi, ho, -⟩, ⟨dp, h5, hc, hs, -⟩⟩ := h
  obtain ⟨k1, ⟨ev, k2, w1, w2, w3, w4, -, -⟩, ⟨eg, k3, i1, i2, i3, i4, i5, i6, i7, i8, i9, i10, i11, -⟩,
    ⟨bs, k4, -, ki, ko, -⟩, ⟨ep, k5, kc, ks, -⟩⟩ := h'
  obtain rfl := has_obj_unique h2 k2
  obtain rfl := group_unique h3 k3
  obtain rfl := has_obj_unique h4 k4
  obtain rfl := group_unique h5 k5
  have hp : ∀ a, ¬ IsPoint E .null a := by rintro a ⟨x, y, z, h, -⟩; cases h
  have hq : ∀ a, ¬ IsCount E .null a := by rintro a (h | ⟨-, ⟨h, -⟩ | ⟨h, -⟩⟩) <;> cases h
  obtain ⟨su, ⟨sa, sb, sc, sd⟩, ⟨a1, a2, a3, a4, a5, a6, a7, a8, a9, a10, a11⟩, si, so', snc, sns⟩ := s
  obtain ⟨tu, ⟨ta, tb, tc, td⟩, ⟨b1, b2, b3, b4, b5, b6, b7, b8, b9, b10, b11⟩, ti, to', tnc, tns⟩ := t
  simp only at h1 v1 v2 v3 v4 g1 g2 g3 g4 g5 g6 g7 g8 g9 g10 g11 hi ho hc hs
  simp only at k1 w1 w2 w3 w4 i1 i2 i3 i4 i5 i6 i7 i8 i9 i10 i11 ki ko kc ks
  obtain rfl := has_str_unique h1 k1
  obtain rfl := given_unique (R := IsPoint E) (fun _ _ _ => isPoint_unique) hp v1 w1
  obtain rfl := given_unique (R := IsPoint E) (fun _ _ _ => isPoint_unique) hp v2 w2
  obtain rfl := given_unique (R := IsPoint E) (fun _ _ _ => isPoint_unique) hp v3 w3
  obtain rfl := given_unique (R := IsPoint E) (fun _ _ _ => isPoint_unique) hp v4 w4
  obtain rfl := geoAt_unique g1 i1
  obtain rfl := geoAt_unique g2 i2
  obtain rfl := geoAt_unique g3 i3
  obtain rfl := geoAt_unique g4 i4
  obtain rfl := geoAt_unique g5 i5
  obtain rfl := geoAt_unique g6 i6
  obtain rfl := geoAt_unique g7 i7
  obtain rfl := geoAt_unique g8 i8
  obtain rfl := geoAt_unique g9 i9
  obtain rfl := geoAt_unique g10 i10
  obtain rfl := geoAt_unique g11 i11
  obtain rfl := lookup_str_unique hi ki
  obtain rfl := lookup_str_unique ho ko
  obtain rfl := given_unique (R := IsCount E) (fun _ _ _ => isCount_unique) hq hc kc
  obtain rfl := given_unique (R := IsCount E) (fun _ _ _ => isCount_unique) hq hs ks
  rfl

theorem controlJson_unique {E : JsonEnv} {e : Json} {s t : FileControl} (h : ControlJson E e s)
    (h' : ControlJson E e t) : s = t := by
  obtain ⟨h1, ⟨t1, h2, h2'⟩, ⟨df, h3, h3'⟩, h4, ⟨seg, h5, s1, s2, -⟩, ⟨rel, h6, e1, e2, x1, x2, -⟩,
    ⟨hi, h7, g1, g2, -⟩, ⟨p, v, h8, h8', h8''⟩⟩ := h
  obtain ⟨k1, ⟨t2, k2, k2'⟩, ⟨dg, k3, k3'⟩, k4, ⟨seg', k5, s1', s2', -⟩, ⟨rel', k6, e1', e2', x1', x2', -⟩,
    ⟨hi', k7, g1', g2', -⟩, ⟨p', v', k8, k8', k8''⟩⟩ := h'
  obtain rfl := has_obj_unique h5 k5
  obtain rfl := has_obj_unique h6 k6
  obtain rfl := has_obj_unique h7 k7
  obtain rfl := has_unique h8 k8
  obtain rfl := has_unique h8' k8'
  obtain rfl := has_unique h3 k3
  obtain rfl := has_str_unique h2 k2
  obtain ⟨su, ⟨a1, a2, a3, a4, a5, a6, a7, a8, a9, a10, a11, a12⟩⟩ := s
  obtain ⟨tu, ⟨b1, b2, b3, b4, b5, b6, b7, b8, b9, b10, b11, b12⟩⟩ := t
  simp only at h1 h2' h3' h4 s1 s2 e1 e2 x1 x2 g1 g2 h8''
  simp only at k1 k2' k3' k4 s1' s2' e1' e2' x1' x2' g1' g2' k8''
  obtain rfl := has_str_unique h1 k1
  obtain rfl : a10 = b10 := h2'.trans k2'.symm
  obtain rfl : a11 = b11 := ((angle_iff _ _).2 h3').symm.trans ((angle_iff _ _).2 k3')
  obtain rfl : a12 = b12 := by
    rcases h4 with ⟨v, h4, ha⟩ | ⟨h4, rfl⟩ <;> rcases k4 with ⟨w, k4, kb⟩ | ⟨k4, rfl⟩
    · obtain rfl := has_unique h4 k4
      exact ((angle_iff _ _).2 ha).symm.trans ((angle_iff _ _).2 kb)
    · exact absurd k4 (has_lacks h4)
    · exact absurd h4 (has_lacks k4)
    · rfl
  obtain rfl := lookup_str_unique s1 s1'
  obtain rfl := lookup_str_unique s2 s2'
  obtain rfl := decimalAt_unique e1 e1'
  obtain rfl := decimalAt_unique e2 e2'
  obtain rfl := decimalAt_unique x1 x1'
  obtain rfl := decimalAt_unique x2 x2'
  obtain rfl := decimalAt_unique g1 g1'
  obtain rfl := decimalAt_unique g2 g2'
  obtain rfl : a9 = b9 := by
    have hq : ∀ a, ¬ IsCount E .null a := by rintro a (h | ⟨-, ⟨h, -⟩ | ⟨h, -⟩⟩) <;> cases h
    exact given_unique (R := IsCount E) (fun _ _ _ => isCount_unique) hq (given_one.2 h8'') (given_one.2 k8'')
  rfl

theorem wingJson_unique {E : JsonEnv} {e : Json} {s t : FileWing} (h : WingJson E e s)
    (h' : WingJson E e t) : s = t := by
  obtain ⟨h1, ⟨y, h2, h2'⟩, ⟨v, l, h3, h3', h3''⟩, h4⟩ := h
  obtain ⟨k1, ⟨y', k2, k2'⟩, ⟨v', l', k3, k3', k3''⟩, k4⟩ := h'
  obtain rfl := has_unique h2 k2
  obtain rfl := has_unique h3 k3
  obtain rfl := isList_unique h3' k3'
  obtain ⟨su, sy, ss, sc⟩ := s
  obtain ⟨tu, ty, ts, tc⟩ := t
  simp only at h1 h2' h3'' h4 k1 k2' k3'' k4
  obtain rfl := has_str_unique h1 k1
  obtain rfl := isSymmetry_unique h2' k2'
  obtain rfl := forall₂_unique (R := SegmentJson E) (fun _ _ _ => segmentJson_unique) h3'' k3''
  obtain rfl : sc = tc := by
    rcases h4 with ⟨v, l, h4, h5, h6⟩ | ⟨h4, rfl⟩ <;> rcases k4 with ⟨w, m, k4, k5, k6⟩ | ⟨k4, rfl⟩
    · obtain rfl := has_unique h4 k4
      obtain rfl := isList_unique h5 k5
      exact forall₂_unique (R := ControlJson E) (fun _ _ _ => controlJson_unique) h6 k6
    · exact absurd k4 (has_lacks h4)
    · exact absurd h4 (has_lacks k4)
    · rfl
  rfl

/-- **C130.** JSON data describe at most one aircraft. -/
theorem C130_one_meaning (E : JsonEnv) (j : Json) (f f' : FileAircraft) (h : AircraftJson E j f)
    (h' : AircraftJson E j f') : f = f' := by
  obtain ⟨h1, ⟨d, h2, ⟨a, ha, ha'⟩, ⟨c, hc, hc'⟩, ⟨s, hs, hs'⟩, ⟨g, hg, hg'⟩, ⟨r, hr, hr'⟩, hm, -⟩,
    ⟨v, l, h3, h3', h3''⟩⟩ := h
  obtain ⟨k1, ⟨d', k2, ⟨a', ka, ka'⟩, ⟨c', kc, kc'⟩, ⟨s', ks, ks'⟩, ⟨g', kg, kg'⟩, ⟨r', kr, kr'⟩, km, -⟩,
    ⟨v', l', k3, k3', k3''⟩⟩ := h'
  obtain rfl := has_obj_unique h2 k2
  obtain rfl := has_unique h3 k3
  obtain rfl := isList_unique h3' k3'
  obtain rfl := lookup_unique ha ka
  obtain rfl := lookup_unique hc kc
  obtain rfl := lookup_unique hs ks
  obtain rfl := lookup_unique hg kg
  obtain rfl := lookup_unique hr kr
  obtain ⟨fu, ⟨f1, f2, f3, f4, f5, f6⟩, fw⟩ := f
  obtain ⟨gu, ⟨g1, g2, g3, g4, g5, g6⟩, gw⟩ := f'
  simp only at h1 ha' hc' hs' hg' hr' hm h3'' k1 ka' kc' ks' kg' kr' km k3''
  obtain rfl := has_str_unique h1 k1
  obtain rfl := isFloatable_unique ha' ka'
  obtain rfl := isFloatable_unique hc' kc'
  obtain rfl := isFloatable_unique hs' ks'
  obtain rfl := isPoint_unique hg' kg'
  obtain rfl := isPoint_unique hr' kr'
  obtain rfl := given_unique (fun _ _ _ h h' => by rw [h] at h'; cases h'; rfl) (by rintro a h; cases h) hm km
  obtain rfl := forall₂_unique (R := WingJson E) (fun _ _ _ => wingJson_unique) h3'' k3''
  rfl

/-- **C130.** A whole number written without decimal point is not taken for the relative position of a
control, although it is taken for reference values, corners and deflections: no file with such an entry is
accepted. -/
theorem C130_whole_numbers (E : JsonEnv) (root : String) (airfoilOk : String → Bool) (j e c : Json)
    (d : JDict) (lw lc : List Json) (key : String) (z : ℤ)
    (hw : j.Has "wings" (.arr lw)) (he : e ∈ lw) (hc : e.Has "controls" (.arr lc)) (hm : c ∈ lc)
    (hd : c.Has "rel_vertices" (.obj d) ∨ c.Has "rel_hinge_vertices" (.obj d))
    (hk : key ∈ ["xsi_inner", "xsi_outer"] ∨
      key ∈ ["eta_inner", "eta_outer"] ∧ c.Has "rel_vertices" (.obj d))
    (hz : d.lookup key = some (.int z)) : ¬ ∃ ac, loadJson E root airfoilOk j = .ok ac := by
  rintro ⟨ac, h⟩
  obtain ⟨f, hf, -⟩ := (C130_loaded_iff _ _ _ _ _).1 h
  obtain ⟨v, l, h1, h2, h3⟩ := hf.wings
  obtain rfl := has_unique hw h1
  rcases h2 with h2 | ⟨-, h2 | h2⟩ <;> cases h2
  obtain ⟨w, -, hw'⟩ := forall₂_mem_left h3 he
  rcases hw'.controls with ⟨v, m, h4, h5, h6⟩ | ⟨h4, -⟩
  · obtain rfl := has_unique hc h4
    rcases h5 with h5 | ⟨-, h5 | h5⟩ <;> cases h5
    obtain ⟨x, -, hx⟩ := forall₂_mem_left h6 hm
    obtain ⟨d1, r1, r2, r3, r4, r5, -⟩ := hx.rel
    obtain ⟨d2, s1, s2, s3, -⟩ := hx.hinge
    have no : ∀ {y}, ¬ DecimalAt d key y := by
      rintro y ⟨v, a, b⟩
      rw [hz] at a
      cases a
      cases b
    rcases hk with hk | ⟨hk, hr⟩
    · rcases hd with hd | hd
      · obtain rfl := has_obj_unique hd r1
        simp only [List.mem_cons, List.not_mem_nil, or_false] at hk
        rcases hk with rfl | rfl
        · exact no r4
        · exact no r5
      · obtain rfl := has_obj_unique hd s1
        simp only [List.mem_cons, List.not_mem_nil, or_false] at hk
        rcases hk with rfl | rfl
        · exact no s2
        · exact no s3
    · obtain rfl := has_obj_unique hr r1
      simp only [List.mem_cons, List.not_mem_nil, or_false] at hk
      rcases hk with rfl | rfl
      · exact no r2
      · exact no r3
  · exact has_lacks hc h4

/-! ## Files written by the program -/

theorem has_intro {d : JDict} {key : String} {v : Json} (h : d.lookup key = some v) :
    (Json.obj d).Has key v := ⟨d, rfl, h⟩

theorem point_json (E : JsonEnv) (p : V3 ℝ) : IsPoint E (pointJson p) p :=
  ⟨_, _, _, rfl, .inl rfl, .inl rfl, .inl rfl⟩

theorem geo_json {d : JDict} {key : String} {x : Option (Flt ℝ)} (h : d.lookup key = some (geoJson x))
    (hx : x ≠ some .nonfin) : GeoAt d key x := by
  cases x with
  | none => exact .inl ⟨rfl, .inr h⟩
  | some y =>
    cases y with
    | fin r => exact .inr ⟨_, _, h, ⟨r, rfl, rfl⟩, rfl⟩
    | nonfin => exact absurd rfl hx

theorem count_json (E : JsonEnv) {d : JDict} {key : String} {n : Option ℤ} (h : d.lookup key = some (countJson n)) :
    GivenAt (IsCount E) d key n := by
  cases n with
  | none => exact .inl ⟨rfl, .inr h⟩
  | some k => exact .inr ⟨_, _, h, .inl rfl, rfl⟩

theorem segment_saved (E : JsonEnv) (s : LoadedSegment) (h : s.gen.geometry.Finite) :
    SegmentJson E (segmentJson s) (saveSegment s) := by
  unfold SegGeo.Finite at h
  simp only [List.forall_mem_cons, List.not_mem_nil, false_implies, implies_true, and_true] at h
  obtain ⟨f1, f2, f3, f4, f5, f6, f7, f8, f9, f10, f11⟩ := h
  refine ⟨has_intro (by simp [List.lookup, saveSegment]), ?_, ?_, ?_, ?_⟩
  · refine ⟨_, has_intro rfl, ?_, ?_, ?_, ?_, .inr (by simp), by simp⟩ <;>
      exact .inr ⟨_, _, rfl, point_json E _, rfl⟩
  · exact ⟨_, .inl (has_intro rfl), geo_json rfl f1, geo_json rfl f2, geo_json rfl f3, geo_json rfl f4,
      geo_json rfl f5, geo_json rfl f6, geo_json rfl f7, geo_json rfl f8, geo_json rfl f9, geo_json rfl f10,
      geo_json rfl f11, .inr (by simp)⟩
  · exact ⟨_, has_intro rfl, by simp, rfl, rfl, .inr (by simp)⟩
  · exact ⟨_, .inl (has_intro rfl), count_json E rfl, count_json E rfl, .inr (by simp)⟩

/-- Angles that come from JSON data. -/
def Val.FromJson (x : Val ℝ) : Prop := x ≠ .num .nonfin ∧ ∀ y, x ≠ .text (some y)

theorem fromJson_val (v : Json) : (jsonVal v).FromJson := by
  cases v <;> simp [jsonVal, Val.FromJson]

theorem angle_json {x : Val ℝ} (h : x.FromJson) : IsAngle (angleJson x) x := by
  rw [← angle_iff]
  cases x with
  | num y =>
    cases y with
    | fin r => rfl
    | nonfin => exact absurd rfl h.1
  | text y =>
    cases y with
    | none => rfl
    | some y => exact absurd rfl (h.2 y)
  | _ => rfl

theorem control_saved (E : JsonEnv) (c : FileControl) (t : String) (ht : c.data.deviceType = some t)
    (hd : c.data.deflection.FromJson) (hm : c.data.deflectionMirror.FromJson) :
    ControlJson E (controlJson c) c := by
  refine ⟨has_intro rfl, ⟨t, has_intro (by simp [List.lookup, ht, textJson]), ht⟩,
    ⟨_, has_intro rfl, angle_json hd⟩, .inl ⟨_, has_intro rfl, angle_json hm⟩, ?_, ?_, ?_, ?_⟩
  · exact ⟨_, has_intro rfl, rfl, rfl, .inr (by simp)⟩
  · exact ⟨_, has_intro rfl, ⟨_, rfl, rfl⟩, ⟨_, rfl, rfl⟩, ⟨_, rfl, rfl⟩, ⟨_, rfl, rfl⟩, .inr (by simp)⟩
  · exact ⟨_, has_intro rfl, ⟨_, rfl, rfl⟩, ⟨_, rfl, rfl⟩, .inr (by simp)⟩
  · refine ⟨_, _, has_intro rfl, has_intro rfl, ?_⟩
    cases hn : c.data.numC with
    | none => exact .inl ⟨rfl, rfl⟩
    | some n => exact .inr ⟨n, .inl rfl, rfl⟩

theorem check_fromJson {c d : ControlDef ℝ} {sym : ℕ} (h : c.check sym = .ok d) (h1 : c.deflection.FromJson)
    (h2 : c.deflectionMirror.FromJson) :
    d.deviceType = c.deviceType ∧ d.deflection.FromJson ∧ d.deflectionMirror.FromJson := by
  obtain ⟨-, rfl⟩ := (C52_check _ _ _).1 h
  unfold ControlDef.completed
  split_ifs
  all_goals first
    | exact ⟨rfl, h1, h2⟩
    | exact ⟨rfl, h1, h1⟩

/-- **C133.** The file which the program writes for an aircraft that it has loaded describes this aircraft:
it has all entries, with the types that the loader asks for. -/
theorem C133_saved (E : JsonEnv) (root : String) (airfoilOk : String → Bool) (j : Json) (ac : LoadedAircraft)
    (h : loadJson E root airfoilOk j = .ok ac)
    (hg : ∀ w ∈ ac.wings, ∀ s ∈ w.segments, s.gen.geometry.Finite) :
    AircraftJson E (saveJson ac) (saveAircraft ac) := by
  obtain ⟨f, hf, hl⟩ := (C130_loaded_iff _ _ _ _ _).1 h
  refine ⟨has_intro rfl, ?_, ?_⟩
  · refine ⟨_, has_intro rfl, ⟨_, rfl, .inl rfl⟩, ⟨_, rfl, .inl rfl⟩, ⟨_, rfl, .inl rfl⟩,
      ⟨_, rfl, point_json E _⟩, ⟨_, rfl, point_json E _⟩, ?_, .inr (by simp)⟩
    cases hc : ac.refs.comment with
    | none => exact .inl ⟨hc, .inr (by simp [List.lookup, textJson])⟩
    | some s => exact .inr ⟨_, _, by simp only [List.lookup, textJson]; rfl, rfl, hc⟩
  · refine ⟨_, _, has_intro rfl, .inl rfl, ?_⟩
    obtain ⟨-, -, ws, hws, rfl⟩ := loadAircraft_ok.1 hl
    obtain ⟨_, _, _, _, hfw⟩ := hf.wings
    have key : ∀ w ∈ ws, WingJson E (wingJson w) (saveWing w) := by
      intro w hw
      obtain ⟨fw, hfm, hlw⟩ := forall₂_mem_right (mapE_ok hws) hw
      obtain ⟨e, -, hwe⟩ := forall₂_mem_right hfw hfm
      obtain ⟨-, -, -, cs, gs, ps, hcs, -, -, rfl⟩ := loadWing_ok.1 hlw
      refine ⟨has_intro rfl, ⟨_, has_intro rfl, .inl rfl⟩, ⟨_, _, has_intro rfl, .inl rfl, ?_⟩,
        .inl ⟨_, _, has_intro rfl, .inl rfl, ?_⟩⟩
      · simp only [saveWing]
        rw [List.forall₂_map_left_iff, List.forall₂_map_right_iff, List.forall₂_same]
        exact fun s hs => segment_saved E s (hg _ hw s hs)
      · simp only [saveWing]
        rw [List.forall₂_map_left_iff, List.forall₂_same]
        intro c hc
        obtain ⟨c0, hc0, hlc⟩ := forall₂_mem_right (mapE_ok hcs) hc
        obtain ⟨t, x, ht, -, hx, rfl⟩ := loadControl_ok.1 hlc
        have hj : ∃ e', ControlJson E e' c0 := by
          rcases hwe.controls with ⟨_, _, -, -, h6⟩ | ⟨-, h6⟩
          · obtain ⟨e', -, he'⟩ := forall₂_mem_right h6 hc0
            exact ⟨e', he'⟩
          · rw [h6] at hc0; cases hc0
        obtain ⟨e', he'⟩ := hj
        have a1 : c0.data.deflection.FromJson := by
          obtain ⟨v, -, hv⟩ := he'.deflection
          rw [← (angle_iff _ _).2 hv]; exact fromJson_val v
        have a2 : c0.data.deflectionMirror.FromJson := by
          rcases he'.mirror with ⟨v, -, hv⟩ | ⟨-, hv⟩
          · rw [← (angle_iff _ _).2 hv]; exact fromJson_val v
          · rw [hv]; simp [Val.FromJson]
        obtain ⟨b1, b2, b3⟩ := check_fromJson hx a1 a2
        exact control_saved E ⟨c0.uid, x⟩ t (b1.trans ht) b2 b3
    show List.Forall₂ (WingJson E) (ws.map wingJson) (ws.map saveWing)
    rw [List.forall₂_map_left_iff, List.forall₂_map_right_iff, List.forall₂_same]
    exact key

theorem chordData_some {e : V3 ℝ} (h : Backward e) : ∃ k, chordData e = some k := by
  unfold chordData
  simp only
  rw [if_neg]
  · exact ⟨_, rfl⟩
  · intro h0
    rw [Real.sqrt_eq_zero (by nlinarith [mul_self_nonneg e.x, mul_self_nonneg e.y])] at h0
    refine h.2 ⟨?_, ?_⟩ <;> nlinarith [mul_self_nonneg e.x, mul_self_nonneg e.y]

theorem survives_finite {root root' : String} {airfoilOk : String → Bool} {s : LoadedSegment}
    (hg : GoodSegment root airfoilOk s) (hs : Survives root' s) : s.gen.geometry.Finite := by
  obtain ⟨g, h1, hi, ho, ⟨x, hx⟩, ⟨y, hy⟩⟩ := hg.geometry
  obtain ⟨k, hk⟩ := chordData_some hs.1
  obtain ⟨m, hm⟩ := chordData_some hs.2.1
  have ix : x ≠ .nonfin := by rintro rfl; rw [hx] at hi; exact hi
  have iy : y ≠ .nonfin := by rintro rfl; rw [hy] at ho; exact ho
  rw [h1]
  unfold SegGeo.Finite
  simp only [derivedGeo, hk, hm, optFlt, dihedralOf, hx, hy, List.forall_mem_cons, List.not_mem_nil,
    false_implies, implies_true, and_true, ne_eq, Option.some.injEq, reduceCtorEq, not_false_eq_true, ix, iy]

theorem good_segments {root : String} {airfoilOk : String → Bool} {f : FileAircraft} {ac : LoadedAircraft}
    (h : loadAircraft root airfoilOk f = .ok ac) :
    ∀ w ∈ ac.wings, ∀ s ∈ w.segments, GoodSegment root airfoilOk s := by
  obtain ⟨-, -, ws, hws, rfl⟩ := loadAircraft_ok.1 h
  intro w hw
  obtain ⟨a, _, ha⟩ := forall₂_mem_right (mapE_ok hws) hw
  exact (goodWing ha).1.segments

theorem read_finite {E : JsonEnv} {ac : LoadedAircraft} {f : FileAircraft} (h : AircraftJson E (saveJson ac) f) :
    ∀ w ∈ ac.wings, ∀ s ∈ w.segments, s.gen.geometry.Finite := by
  intro w hw s hs
  obtain ⟨v, l, h1, h2, h3⟩ := h.wings
  obtain rfl := has_unique (has_intro rfl) h1
  rcases h2 with h2 | ⟨-, h2 | h2⟩ <;> cases h2
  obtain ⟨fw, -, h4⟩ := forall₂_mem_left h3 (List.mem_map_of_mem hw)
  obtain ⟨v, l, h5, h6, h7⟩ := h4.segments
  obtain rfl := has_unique (has_intro rfl) h5
  rcases h6 with h6 | ⟨-, h6 | h6⟩ <;> cases h6
  obtain ⟨fs, -, h8⟩ := forall₂_mem_left h7 (List.mem_map_of_mem hs)
  obtain ⟨d, h9, g1, g2, g3, g4, g5, g6, g7, g8, g9, g10, g11, -⟩ := h8.geometry
  rcases h9 with h9 | ⟨-, h9⟩
  · obtain rfl := has_obj_unique (has_intro rfl) h9
    have no : ∀ {d : JDict} {key : String} {x : Option (Flt ℝ)} {y : Option (Flt ℝ)},
        d.lookup key = some (geoJson x) → GeoAt d key y → x ≠ some .nonfin := by
      rintro d key x y h (⟨-, h' | h'⟩ | ⟨v, a, h', ⟨r, hv, -⟩, -⟩) rfl
      · rw [h'] at h; cases h
      · rw [h'] at h; cases h
      · rw [h'] at h; cases h; cases hv
    unfold SegGeo.Finite
    simp only [List.forall_mem_cons, List.not_mem_nil, false_implies, implies_true, and_true]
    exact ⟨no rfl g1, no rfl g2, no rfl g3, no rfl g4, no rfl g5, no rfl g6, no rfl g7, no rfl g8, no rfl g9,
      no rfl g10, no rfl g11⟩
  · rcases h9 with h9 | h9
    · exact absurd h9 (has_lacks (has_intro rfl))
    · obtain ⟨v, h9, he⟩ := h9
      obtain rfl := has_unique (has_intro rfl) h9
      simp [Json.Empty] at he

/-- **C133.** A loaded aircraft that is written to a file and read again from the data in this file comes back
unchanged exactly if all section chords run backwards and all airfoil files mentioning `blade.` lie in the
directory `airfoils`. -/
theorem C133_reload_iff (E : JsonEnv) (root : String) (airfoilOk : String → Bool) (j : Json) (ac : LoadedAircraft)
    (hr : ['/'] <+: root.toList) (h : loadJson E root airfoilOk j = .ok ac) :
    loadJson E root airfoilOk (saveJson ac) = .ok ac ↔ ∀ w ∈ ac.wings, ∀ s ∈ w.segments, Survives root s := by
  obtain ⟨f, hf, hl⟩ := (C130_loaded_iff _ _ _ _ _).1 h
  rw [← C57_reload_iff root airfoilOk f ac hr hl]
  constructor
  · intro h'
    obtain ⟨f', hf', hl'⟩ := (C130_loaded_iff _ _ _ _ _).1 h'
    rw [C130_one_meaning E _ _ _ (C133_saved E root airfoilOk j ac h (read_finite hf')) hf']
    exact hl'
  · intro h'
    refine (C130_loaded_iff _ _ _ _ _).2 ⟨_, C133_saved E root airfoilOk j ac h ?_, h'⟩
    have hs := (C57_reload_iff root airfoilOk f ac hr hl).1 h'
    exact fun w hw s hm => survives_finite (good_segments hl w hw s hm) (hs w hw s hm)

/-! ## Examples -/

/-- The wing of `flapFile` without its controls. -/
noncomputable def flapWingData : JDict :=
  [("uid", .str "wing"), ("symmetry", .int 2),
    ("segments", .arr [.obj [("uid", .str "seg"),
      ("vertices", .obj [("a", .arr [.int 0, .int 0, .int 0]), ("b", .arr [.num 1, .int 4, .int 1]),
        ("c", .arr [.num 2, .int 4, .int 1]), ("d", .arr [.int 2, .int 0, .int 0])]),
      ("airfoils", .obj [("inner", .str "airfoils/blade.x"), ("outer", .str "NACA0012")])]])]

/-- The flap. -/
noncomputable def flapData : Json :=
  .obj [("uid", .str "F"), ("device_type", .str "flap"), ("deflection", .int 5),
    ("segment_uid", .obj [("inner", .str "seg"), ("outer", .str "seg")]),
    ("rel_vertices", .obj [("eta_inner", .num (1/5)), ("eta_outer", .num (4/5)), ("xsi_inner", .num (3/4)),
      ("xsi_outer", .num (3/4))]),
    ("rel_hinge_vertices", .obj [("xsi_inner", .num (3/4)), ("xsi_outer", .num (3/4))]),
    ("panels", .obj [("num_c", .null)])]

/-- An aircraft file with the given wings. -/
noncomputable def planeData (wings : List Json) : Json :=
  .obj [("uid", .str "plane"),
    ("refs", .obj [("area", .int 8), ("chord", .num 2), ("span", .int 4),
      ("gcenter", .arr [.int 0, .int 0, .int 0]), ("rcenter", .arr [.int 0, .int 0, .int 0])]),
    ("wings", .arr wings)]

/-- The file for `flapFile`. -/
noncomputable def flapJson : Json :=
  planeData [.obj (flapWingData ++ [("controls", .arr [flapData])])]

theorem flapSegment_meaning (E : JsonEnv) {s : Json}
    (h : (Json.obj flapWingData).Has "segments" (.arr [s])) :
    SegmentJson E s ⟨"seg", ⟨some taperedSeg.a, some taperedSeg.b, some taperedSeg.c, some taperedSeg.d⟩,
      SegGeo.fresh, "airfoils/blade.x", "NACA0012", none, none⟩ := by
  have := has_unique (has_intro (d := flapWingData) rfl) h
  cases this
  refine ⟨has_intro rfl, ?_, ⟨[], .inr ⟨rfl, .inl ⟨_, rfl, by simp [List.lookup]⟩⟩, ?_⟩, ?_,
    ⟨[], .inr ⟨rfl, .inl ⟨_, rfl, by simp [List.lookup]⟩⟩, .inl ⟨rfl, .inl rfl⟩, .inl ⟨rfl, .inl rfl⟩, .inr (by simp)⟩⟩
  · refine ⟨_, has_intro rfl, .inr ⟨_, _, rfl, ⟨_, _, _, rfl, ?_, ?_, ?_⟩, rfl⟩,
      .inr ⟨_, _, rfl, ⟨_, _, _, rfl, ?_, ?_, ?_⟩, rfl⟩, .inr ⟨_, _, rfl, ⟨_, _, _, rfl, ?_, ?_, ?_⟩, rfl⟩,
      .inr ⟨_, _, rfl, ⟨_, _, _, rfl, ?_, ?_, ?_⟩, rfl⟩, .inr (by simp), by simp⟩ <;>
    first
      | exact .inl rfl
      | exact .inr (.inl ⟨_, rfl, by simp [taperedSeg]⟩)
  · simp [GeoAt, GivenAt, SegGeo.fresh, KnownKeys]
  · exact ⟨_, has_intro rfl, by simp, rfl, rfl, .inr (by simp)⟩

theorem flapControl_meaning (E : JsonEnv) : ControlJson E flapData
    ⟨"F", ⟨"seg", "seg", 1/5, 4/5, 3/4, 3/4, 3/4, 3/4, none, some "flap", .num (.fin 5), .none⟩⟩ := by
  refine ⟨has_intro rfl, ⟨_, has_intro rfl, rfl⟩,
    ⟨_, has_intro rfl, .inr (.inr (.inl ⟨5, rfl, by norm_num⟩))⟩, .inr ⟨⟨_, rfl, by simp [List.lookup]⟩, rfl⟩, ?_, ?_, ?_, ?_⟩
  · exact ⟨_, has_intro rfl, rfl, rfl, .inr (by simp)⟩
  · exact ⟨_, has_intro rfl, ⟨_, rfl, rfl⟩, ⟨_, rfl, rfl⟩, ⟨_, rfl, rfl⟩, ⟨_, rfl, rfl⟩, .inr (by simp)⟩
  · exact ⟨_, has_intro rfl, ⟨_, rfl, rfl⟩, ⟨_, rfl, rfl⟩, .inr (by simp)⟩
  · exact ⟨_, _, has_intro rfl, has_intro rfl, .inl ⟨rfl, rfl⟩⟩

theorem planeData_meaning (E : JsonEnv) {l : List Json} {ws : List FileWing} (h : List.Forall₂ (WingJson E) l ws) :
    AircraftJson E (planeData l) ⟨"plane", ⟨8, 4, 2, 0, 0, none⟩, ws⟩ := by
  refine ⟨has_intro rfl, ?_, ⟨_, _, has_intro rfl, .inl rfl, h⟩⟩
  refine ⟨_, has_intro rfl, ⟨_, rfl, .inr (.inl ⟨8, rfl, by norm_num⟩)⟩, ⟨_, rfl, .inl rfl⟩,
    ⟨_, rfl, .inr (.inl ⟨4, rfl, by norm_num⟩)⟩,
    ⟨_, rfl, ⟨_, _, _, rfl, ?_, ?_, ?_⟩⟩, ⟨_, rfl, ⟨_, _, _, rfl, ?_, ?_, ?_⟩⟩, .inl ⟨rfl, .inl rfl⟩, .inr (by simp)⟩ <;>
  exact .inr (.inl ⟨0, rfl, by vsimp; norm_num⟩)

theorem flapJson_meaning (E : JsonEnv) : AircraftJson E flapJson flapFile := by
  refine planeData_meaning E (.cons ⟨has_intro rfl, ⟨_, has_intro rfl, .inl rfl⟩,
    ⟨_, _, has_intro rfl, .inl rfl, .cons (flapSegment_meaning E (has_intro rfl)) .nil⟩,
    .inl ⟨_, _, has_intro rfl, .inl rfl, .cons (flapControl_meaning E) .nil⟩⟩ .nil)

/-- Example for C130: a file with a flapped wing, whole numbers and decimals side by side, is loaded. -/
theorem flapJson_loaded (E : JsonEnv) : ∃ ac, loadJson E "/home" (fun _ => true) flapJson = .ok ac := by
  obtain ⟨ac, h⟩ := (C92_accepted_iff _ _ _).2 flapFile_ok
  exact ⟨ac, (C130_loaded_iff _ _ _ _ _).2 ⟨_, flapJson_meaning E, h⟩⟩

/-- Example for `C130_whole_numbers`: the flap ends at the wing tip, and the file says `1` instead of `1.0`. -/
example (E : JsonEnv) : ¬ ∃ ac, loadJson E "/home" (fun _ => true) (planeData [.obj (flapWingData ++
    [("controls", .arr [flapData.put "rel_vertices" (.obj [("eta_inner", .num (1/5)), ("eta_outer", .int 1),
      ("xsi_inner", .num (3/4)), ("xsi_outer", .num (3/4))])])])]) = .ok ac :=
  C130_whole_numbers E _ _ _ _ _ _ _ _ "eta_outer" 1 (has_intro rfl) (List.mem_singleton.2 rfl) (has_intro rfl)
    (List.mem_singleton.2 rfl) (.inl (has_intro rfl)) (.inr ⟨by simp, has_intro rfl⟩) rfl

/-- Example for C131: the flap lies on a wing whose symmetry is forgotten. -/
example (E : JsonEnv) : loadJson E "/home" (fun _ => true) (flapJson.put "wings"
    (.arr ([] ++ (Json.obj (flapWingData ++ [("controls", .arr [flapData])])).without "symmetry" :: []))) =
    .error .keyError := by
  obtain ⟨ac, h⟩ := flapJson_loaded E
  exact C131_fault E _ _ _ _ ac _ h (.wing (has_intro rfl) (.missing (by simp)))

/-- Example for C132: a wing with a remark. -/
example (E : JsonEnv) : loadJson E "/home" (fun _ => true) (flapJson.put "wings"
    (.arr ([] ++ (Json.obj (flapWingData ++ [("controls", .arr [flapData])])).put "remark" (.str "main wing") :: []))) =
    loadJson E "/home" (fun _ => true) flapJson :=
  C132_extra E _ _ _ _ (.wing (has_intro rfl) (.here (.add (by simp))))

/-- What one would like to hold: a file in which the key `controls` of a wing is misspelt is refused. -/
def MisspeltRefused : Prop :=
  ∀ (E : JsonEnv) (root : String) (airfoilOk : String → Bool) (j e v : Json) (l r : List Json) (key : String)
    (ac : LoadedAircraft), loadJson E root airfoilOk j = .ok ac → j.Has "wings" (.arr (l ++ e :: r)) →
    e.Has "controls" v → v ≠ .arr [] → key ∉ ["uid", "symmetry", "segments", "controls"] →
    ∃ x, loadJson E root airfoilOk
      (j.put "wings" (.arr (l ++ (e.without "controls").put key v :: r))) = .error x

/-- The wing of `flapFile` without the flap. -/
noncomputable def bareFile : FileAircraft :=
  { flapFile with wings := flapFile.wings.map fun w => { w with controls := [] } }

theorem bareFile_ok : FileOk "/home" (fun _ => true) bareFile := by
  have h := flapFile_ok
  refine ⟨⟨by simp [bareFile, flapFile], by simp [bareFile, flapFile]⟩, h.area, h.span, h.chord, ?_⟩
  intro w hw
  simp only [bareFile, flapFile, List.map_cons, List.map_nil, List.mem_singleton] at hw
  subst hw
  obtain ⟨h1, h2, h3, h4, h5, h6⟩ := h.wings _ (List.mem_singleton.2 rfl)
  exact ⟨h1, h2, ⟨by simp, by simp⟩, h4, by simp, h6⟩

/-- **C132.** A misspelt key for the controls is not noticed: the wing just has no controls. -/
theorem C132_misspelt_false : ¬ MisspeltRefused := by
  intro h
  let E : JsonEnv := ⟨.valueError, false, false, fun _ => none⟩
  obtain ⟨ac, hac⟩ := flapJson_loaded E
  obtain ⟨x, hx⟩ := h E "/home" (fun _ => true) flapJson _ (.arr [flapData]) [] [] "control" ac hac (has_intro rfl)
    (has_intro rfl) (by simp) (by simp)
  obtain ⟨b, hb⟩ := (C92_accepted_iff _ _ _).2 bareFile_ok
  have key : AircraftJson E (flapJson.put "wings" (.arr ([] ++
      ((Json.obj (flapWingData ++ [("controls", .arr [flapData])])).without "controls").put "control"
        (.arr [flapData]) :: []))) bareFile := by
    have hm : List.Forall₂ (WingJson E) [((Json.obj (flapWingData ++ [("controls", .arr [flapData])])).without
        "controls").put "control" (.arr [flapData])] bareFile.wings :=
      .cons ⟨has_intro rfl, ⟨_, has_intro rfl, .inl rfl⟩,
        ⟨_, _, has_intro rfl, .inl rfl, .cons (flapSegment_meaning E (has_intro rfl)) .nil⟩,
        .inr ⟨⟨_, rfl, by simp [List.lookup, flapWingData]⟩, rfl⟩⟩ .nil
    obtain ⟨d, hd, hrest⟩ := (planeData_meaning E hm).refs
    obtain rfl := has_obj_unique (has_intro rfl) hd
    exact ⟨has_intro rfl, ⟨_, has_intro rfl, hrest⟩, ⟨_, _, has_intro rfl, .inl rfl, hm⟩⟩
  rw [(C130_loaded_iff _ _ _ _ _).2 ⟨_, key, hb⟩] at hx
  cases hx

/-- Example for C133: the flapped wing, written and read again. -/
example (E : JsonEnv) : ∃ ac, loadJson E "/home" (fun _ => true) flapJson = .ok ac ∧
    loadJson E "/home" (fun _ => true) (saveJson ac) = .ok ac := by
  obtain ⟨ac, h⟩ := flapJson_loaded E
  refine ⟨ac, h, (C133_reload_iff E _ _ _ _ ⟨_, rfl⟩ h).2 ?_⟩
  obtain ⟨f, hf, hl⟩ := (C130_loaded_iff _ _ _ _ _).1 h
  obtain rfl := C130_one_meaning E _ _ _ hf (flapJson_meaning E)
  exact flap_survives hl

end Verif
