import Verif.Model.Plot
import Verif.Props.Aero
import Verif.Props.Aircraft

/-!
# Properties C107 to C109: plots show the aircraft, the views agree, colours follow the values
-/

namespace Verif

/-! ## C107: axes -/

/-- A point on the surface of a segment or on its mirror image. -/
inductive SurfacePoint (ac : LoadedAircraft) : V3 ℝ → Prop
  | own {w s eta xsi} : w ∈ ac.wings → s ∈ w.segments → 0 ≤ eta → eta ≤ 1 → 0 ≤ xsi → xsi ≤ 1 →
      SurfacePoint ac (segPoint s.gen.vertices eta xsi)
  | mirror {w s eta xsi q} : w ∈ ac.wings → s ∈ w.segments → 0 ≤ eta → eta ≤ 1 → 0 ≤ xsi → xsi ≤ 1 →
      mirrorPoint (segPoint s.gen.vertices eta xsi) w.symmetry = .ok q → SurfacePoint ac q

/-- A coordinate lies in the range of an axis. -/
def OnAxis (r : ℝ × ℝ) (t : ℝ) : Prop := r.1 ≤ t ∧ t ≤ r.2

/-- A point lies inside the axes of all four views. -/
structure InsideAxes (L : AxesLimits) (p : V3 ℝ) : Prop where
  d3 : OnAxis L.d3.1 p.x ∧ OnAxis L.d3.2.1 p.y ∧ OnAxis L.d3.2.2 p.z
  yz : OnAxis L.yz.1 p.y ∧ OnAxis L.yz.2 p.z
  xz : OnAxis L.xz.1 p.x ∧ OnAxis L.xz.2 p.z
  xy : OnAxis L.xy.1 p.x ∧ OnAxis L.xy.2 p.y

/-- The axes around a box: in all views the range of a coordinate has the centre of the box, and its
length is that of the longest edge of the box and a margin of five percent. -/
structure AxesAround (L : AxesLimits) (lo hi : V3 ℝ) : Prop where
  x : L.d3.1.1 + L.d3.1.2 = lo.x + hi.x
  y : L.d3.2.1.1 + L.d3.2.1.2 = lo.y + hi.y
  z : L.d3.2.2.1 + L.d3.2.2.2 = lo.z + hi.z
  yz : L.yz = (L.d3.2.1, L.d3.2.2)
  xz : L.xz = (L.d3.1, L.d3.2.2)
  xy : L.xy = (L.d3.1, L.d3.2.1)
  length : ∃ e, IsGreatest {hi.x - lo.x, hi.y - lo.y, hi.z - lo.z} e ∧
    ∀ r ∈ [L.d3.1, L.d3.2.1, L.d3.2.2], r.2 - r.1 = 105 / 100 * e

theorem coord_outline (f : V3 ℝ → ℝ) (v : Corners (V3 ℝ)) :
    coordMin f v.outline = min (min (min (f v.a) (f v.b)) (f v.c)) (f v.d) ∧
    coordMax f v.outline = max (max (max (f v.a) (f v.b)) (f v.c)) (f v.d) := by
  constructor
  · simp only [Corners.outline, coordMin, List.foldl_cons, List.foldl_nil]
    apply min_eq_left
    simp
  · simp only [Corners.outline, coordMax, List.foldl_cons, List.foldl_nil]
    apply max_eq_left
    simp

theorem getLimits_step (b : BBox) (v : Corners (V3 ℝ)) (sym : ℕ) :
    b.getLimits v.outline sym = b.step sym v := by
  unfold BBox.getLimits BBox.step Corners.minPt Corners.maxPt
  simp only [(coord_outline _ v).1, (coord_outline _ v).2]

theorem limits_eq (ac : LoadedAircraft) : ac.limits = bboxOf ac.shape := by
  unfold LoadedAircraft.limits LoadedAircraft.segmentsOf bboxOf LoadedAircraft.shape
  generalize (⟨0, 0⟩ : BBox) = b
  induction ac.wings generalizing b with
  | nil => rfl
  | cons w rest ih =>
    rw [List.flatMap_cons, List.foldl_append, List.map_cons, List.foldl_cons, ih]
    congr 1
    simp only [List.foldl_map]
    congr 1
    funext box s
    exact getLimits_step _ _ _

theorem bbox_isBox (wings : List (ℕ × List (Corners (V3 ℝ)))) :
    IsBoxOf {p | AircraftPoint wings p} (bboxOf wings).lo (bboxOf wings).hi := by
  have h0 : IsBoxOf {(⟨0, 0, 0⟩ : V3 ℝ)} (BBox.mk 0 0).lo (BBox.mk 0 0).hi := by
    simp [IsBoxOf, isLeast_singleton, isGreatest_singleton]
  have := box_wings wings _ _ h0
  have e : {p | AircraftPoint wings p} =
      {⟨0, 0, 0⟩} ∪ {q | ∃ w ∈ wings, ∃ v ∈ w.2, q ∈ segPts w.1 v} := ?_
  · rw [e]; exact this
  ext q
  constructor
  · rintro (_ | ⟨hw, hv, hp⟩ | ⟨hw, hv, hp, hq⟩)
    · exact Or.inl rfl
    · exact Or.inr ⟨_, hw, _, hv, _, hp, Or.inl rfl⟩
    · exact Or.inr ⟨_, hw, _, hv, _, hp, Or.inr hq⟩
  · rintro (rfl | ⟨w, hw, v, hv, p, hp, rfl | hq⟩)
    · exact .origin
    · exact .vertex hw hv hp
    · exact .mirror hw hv hp hq

theorem bilinear_between {a b c d lo hi s t : ℝ} (ha : lo ≤ a ∧ a ≤ hi) (hb : lo ≤ b ∧ b ≤ hi)
    (hc : lo ≤ c ∧ c ≤ hi) (hd : lo ≤ d ∧ d ≤ hi) (hs : 0 ≤ s) (hs1 : s ≤ 1) (ht : 0 ≤ t)
    (ht1 : t ≤ 1) :
    lo ≤ (a + s * (b - a)) + t * ((d + s * (c - d)) - (a + s * (b - a))) ∧
    (a + s * (b - a)) + t * ((d + s * (c - d)) - (a + s * (b - a))) ≤ hi := by
  have line : ∀ {x y u : ℝ}, lo ≤ x ∧ x ≤ hi → lo ≤ y ∧ y ≤ hi → 0 ≤ u → u ≤ 1 →
      lo ≤ x + u * (y - x) ∧ x + u * (y - x) ≤ hi := by
    intro x y u hx hy h0 h1
    constructor <;> nlinarith [hx.1, hx.2, hy.1, hy.2]
  exact line (line ha hb hs hs1) (line hd hc hs hs1) ht ht1

/-- Points of the surface lie in every box that contains the vertices and their images. -/
theorem surface_in_box {ac : LoadedAircraft} {p : V3 ℝ} (h : SurfacePoint ac p) :
    (ac.limits.lo.x ≤ p.x ∧ p.x ≤ ac.limits.hi.x) ∧ (ac.limits.lo.y ≤ p.y ∧ p.y ≤ ac.limits.hi.y) ∧
    (ac.limits.lo.z ≤ p.z ∧ p.z ≤ ac.limits.hi.z) := by
  have hb := bbox_isBox ac.shape
  rw [← limits_eq] at hb
  have inb : ∀ q, AircraftPoint ac.shape q →
      (ac.limits.lo.x ≤ q.x ∧ q.x ≤ ac.limits.hi.x) ∧ (ac.limits.lo.y ≤ q.y ∧ q.y ≤ ac.limits.hi.y) ∧
      (ac.limits.lo.z ≤ q.z ∧ q.z ≤ ac.limits.hi.z) := fun q hq =>
    ⟨⟨hb.1.1.2 ⟨q, hq, rfl⟩, hb.1.2.2 ⟨q, hq, rfl⟩⟩,
      ⟨hb.2.1.1.2 ⟨q, hq, rfl⟩, hb.2.1.2.2 ⟨q, hq, rfl⟩⟩,
      ⟨hb.2.2.1.2 ⟨q, hq, rfl⟩, hb.2.2.2.2 ⟨q, hq, rfl⟩⟩⟩
  have wing : ∀ {w : LoadedWing} {s : LoadedSegment}, w ∈ ac.wings → s ∈ w.segments →
      (w.symmetry, w.segments.map fun s => s.gen.vertices) ∈ ac.shape ∧
      s.gen.vertices ∈ (w.symmetry, w.segments.map fun s => s.gen.vertices).2 := fun hw hs =>
    ⟨List.mem_map.2 ⟨_, hw, rfl⟩, List.mem_map.2 ⟨_, hs, rfl⟩⟩
  cases h with
  | @own w s eta xsi hw hs h1 h2 h3 h4 =>
    obtain ⟨k1, k2⟩ := wing hw hs
    have ha := inb _ (.vertex k1 k2 (p := s.gen.vertices.a) (by simp))
    have hb := inb _ (.vertex k1 k2 (p := s.gen.vertices.b) (by simp))
    have hc := inb _ (.vertex k1 k2 (p := s.gen.vertices.c) (by simp))
    have hd := inb _ (.vertex k1 k2 (p := s.gen.vertices.d) (by simp))
    exact ⟨bilinear_between ha.1 hb.1 hc.1 hd.1 h1 h2 h3 h4,
      bilinear_between ha.2.1 hb.2.1 hc.2.1 hd.2.1 h1 h2 h3 h4,
      bilinear_between ha.2.2 hb.2.2 hc.2.2 hd.2.2 h1 h2 h3 h4⟩
  | @mirror w s eta xsi q hw hs h1 h2 h3 h4 hm =>
    obtain ⟨k1, k2⟩ := wing hw hs
    set v := s.gen.vertices with hv
    by_cases s1 : w.symmetry = 1
    · have hm' : ∀ p : V3 ℝ, mirrorPoint p w.symmetry = .ok ⟨p.x, p.y, -p.z⟩ := fun p => by
        simp [mirrorPoint, s1]
      rw [hm'] at hm
      cases hm
      have ha := inb _ (.mirror k1 k2 (p := v.a) (by simp) (hm' _))
      have hb := inb _ (.mirror k1 k2 (p := v.b) (by simp) (hm' _))
      have hc := inb _ (.mirror k1 k2 (p := v.c) (by simp) (hm' _))
      have hd := inb _ (.mirror k1 k2 (p := v.d) (by simp) (hm' _))
      refine ⟨bilinear_between ha.1 hb.1 hc.1 hd.1 h1 h2 h3 h4,
        bilinear_between ha.2.1 hb.2.1 hc.2.1 hd.2.1 h1 h2 h3 h4, ?_⟩
      have := bilinear_between ha.2.2 hb.2.2 hc.2.2 hd.2.2 h1 h2 h3 h4
      convert this using 2 <;> simp [segPoint] <;> ring
    · by_cases s2 : w.symmetry = 2
      · have hm' : ∀ p : V3 ℝ, mirrorPoint p w.symmetry = .ok ⟨p.x, -p.y, p.z⟩ := fun p => by
          simp [mirrorPoint, s2]
        rw [hm'] at hm
        cases hm
        have ha := inb _ (.mirror k1 k2 (p := v.a) (by simp) (hm' _))
        have hb := inb _ (.mirror k1 k2 (p := v.b) (by simp) (hm' _))
        have hc := inb _ (.mirror k1 k2 (p := v.c) (by simp) (hm' _))
        have hd := inb _ (.mirror k1 k2 (p := v.d) (by simp) (hm' _))
        refine ⟨bilinear_between ha.1 hb.1 hc.1 hd.1 h1 h2 h3 h4, ?_,
          bilinear_between ha.2.2 hb.2.2 hc.2.2 hd.2.2 h1 h2 h3 h4⟩
        have := bilinear_between ha.2.1 hb.2.1 hc.2.1 hd.2.1 h1 h2 h3 h4
        convert this using 2 <;> simp [segPoint] <;> ring
      · by_cases s3 : w.symmetry = 3
        · have hm' : ∀ p : V3 ℝ, mirrorPoint p w.symmetry = .ok ⟨-p.x, p.y, p.z⟩ := fun p => by
            simp [mirrorPoint, s3]
          rw [hm'] at hm
          cases hm
          have ha := inb _ (.mirror k1 k2 (p := v.a) (by simp) (hm' _))
          have hb := inb _ (.mirror k1 k2 (p := v.b) (by simp) (hm' _))
          have hc := inb _ (.mirror k1 k2 (p := v.c) (by simp) (hm' _))
          have hd := inb _ (.mirror k1 k2 (p := v.d) (by simp) (hm' _))
          refine ⟨?_, bilinear_between ha.2.1 hb.2.1 hc.2.1 hd.2.1 h1 h2 h3 h4,
            bilinear_between ha.2.2 hb.2.2 hc.2.2 hd.2.2 h1 h2 h3 h4⟩
          have := bilinear_between ha.1 hb.1 hc.1 hd.1 h1 h2 h3 h4
          convert this using 2 <;> simp [segPoint] <;> ring
        · simp [mirrorPoint, s1, s2, s3] at hm

theorem axisRange_on {lo hi half t : ℝ} (h : hi - lo ≤ 2 * half) (h1 : lo ≤ t) (h2 : t ≤ hi) :
    OnAxis (axisRange (1 / 2 * (hi + lo)) half) t := by
  unfold OnAxis axisRange
  constructor <;> simp only <;> linarith

theorem in_box_inside {box : BBox} {p : V3 ℝ} (h : (box.lo.x ≤ p.x ∧ p.x ≤ box.hi.x) ∧
    (box.lo.y ≤ p.y ∧ p.y ≤ box.hi.y) ∧ (box.lo.z ≤ p.z ∧ p.z ≤ box.hi.z)) :
    InsideAxes (scalePlots box) p := by
  obtain ⟨⟨x1, x2⟩, ⟨y1, y2⟩, z1, z2⟩ := h
  have hx : box.hi.x - box.lo.x ≤ 2 * (1 / 2 * max (max (box.hi.x - box.lo.x)
      (box.hi.y - box.lo.y)) (box.hi.z - box.lo.z)) := by
    rw [← mul_assoc]; norm_num
  have hy : box.hi.y - box.lo.y ≤ 2 * (1 / 2 * max (max (box.hi.x - box.lo.x)
      (box.hi.y - box.lo.y)) (box.hi.z - box.lo.z)) := by
    rw [← mul_assoc]; norm_num
  have hz : box.hi.z - box.lo.z ≤ 2 * (1 / 2 * max (max (box.hi.x - box.lo.x)
      (box.hi.y - box.lo.y)) (box.hi.z - box.lo.z)) := by
    rw [← mul_assoc]; norm_num
  have ax := axisRange_on hx x1 x2
  have ay := axisRange_on hy y1 y2
  have az := axisRange_on hz z1 z2
  exact ⟨⟨ax, ay, az⟩, ⟨ay, az⟩, ⟨ax, az⟩, ⟨ax, ay⟩⟩

theorem isBoxOf_between {S T : Set (V3 ℝ)} {lo hi : V3 ℝ} (h : IsBoxOf S lo hi) (hST : S ⊆ T)
    (hT : ∀ p ∈ T, (lo.x ≤ p.x ∧ p.x ≤ hi.x) ∧ (lo.y ≤ p.y ∧ p.y ≤ hi.y) ∧ (lo.z ≤ p.z ∧ p.z ≤ hi.z)) :
    IsBoxOf T lo hi := by
  obtain ⟨⟨x1, x2⟩, ⟨y1, y2⟩, z1, z2⟩ := h
  refine ⟨⟨⟨Set.image_mono hST x1.1, ?_⟩, Set.image_mono hST x2.1, ?_⟩,
    ⟨⟨Set.image_mono hST y1.1, ?_⟩, Set.image_mono hST y2.1, ?_⟩,
    ⟨Set.image_mono hST z1.1, ?_⟩, Set.image_mono hST z2.1, ?_⟩
  all_goals rintro _ ⟨p, hp, rfl⟩
  · exact (hT p hp).1.1
  · exact (hT p hp).1.2
  · exact (hT p hp).2.1.1
  · exact (hT p hp).2.1.2
  · exact (hT p hp).2.2.1
  · exact (hT p hp).2.2.2

theorem segPoint_corner (v : Corners (V3 ℝ)) {p : V3 ℝ} (h : p ∈ [v.a, v.b, v.c, v.d]) :
    ∃ eta xsi : ℝ, (0 ≤ eta ∧ eta ≤ 1) ∧ (0 ≤ xsi ∧ xsi ≤ 1) ∧ p = segPoint v eta xsi := by
  simp only [List.mem_cons, List.not_mem_nil, or_false] at h
  rcases h with rfl | rfl | rfl | rfl
  · exact ⟨0, 0, by norm_num, by norm_num, by ext <;> simp [segPoint]⟩
  · exact ⟨1, 0, by norm_num, by norm_num, by ext <;> simp [segPoint]⟩
  · exact ⟨1, 1, by norm_num, by norm_num, by ext <;> simp [segPoint]⟩
  · exact ⟨0, 1, by norm_num, by norm_num, by ext <;> simp [segPoint]⟩

/-- **C107**: the axes of a plot have the same scale in all directions and all views.  They are laid
around the smallest box that contains the origin and the whole surface of the aircraft with its mirror
images, with a margin of five percent of the longest edge; so nothing of the surface is cut off. -/
theorem C107_axes (ac : LoadedAircraft) :
    (∃ lo hi, IsBoxOf {p | p = ⟨0, 0, 0⟩ ∨ SurfacePoint ac p} lo hi ∧
      AxesAround (scalePlots ac.limits) lo hi) ∧
    ∀ p, SurfacePoint ac p → InsideAxes (scalePlots ac.limits) p := by
  refine ⟨⟨ac.limits.lo, ac.limits.hi, ?_, ?_⟩, fun p h => in_box_inside (surface_in_box h)⟩
  · have hb := bbox_isBox ac.shape
    rw [← limits_eq] at hb
    refine isBoxOf_between hb ?_ ?_
    · rintro q (_ | ⟨hw, hv, hp⟩ | ⟨hw, hv, hp, hq⟩)
      · exact Or.inl rfl
      · obtain ⟨w, hw', rfl⟩ := List.mem_map.1 hw
        obtain ⟨s, hs, rfl⟩ := List.mem_map.1 hv
        obtain ⟨eta, xsi, h1, h2, rfl⟩ := segPoint_corner _ hp
        exact Or.inr (.own hw' hs h1.1 h1.2 h2.1 h2.2)
      · obtain ⟨w, hw', rfl⟩ := List.mem_map.1 hw
        obtain ⟨s, hs, rfl⟩ := List.mem_map.1 hv
        obtain ⟨eta, xsi, h1, h2, rfl⟩ := segPoint_corner _ hp
        exact Or.inr (.mirror hw' hs h1.1 h1.2 h2.1 h2.2 hq)
    · rintro p (rfl | hp)
      · have h0 : (⟨0, 0, 0⟩ : V3 ℝ) ∈ {p | AircraftPoint ac.shape p} := .origin
        exact ⟨⟨hb.1.1.2 ⟨_, h0, rfl⟩, hb.1.2.2 ⟨_, h0, rfl⟩⟩,
          ⟨hb.2.1.1.2 ⟨_, h0, rfl⟩, hb.2.1.2.2 ⟨_, h0, rfl⟩⟩,
          ⟨hb.2.2.1.2 ⟨_, h0, rfl⟩, hb.2.2.2.2 ⟨_, h0, rfl⟩⟩⟩
      · exact surface_in_box hp
  · refine ⟨?_, ?_, ?_, rfl, rfl, rfl, max (max (ac.limits.hi.x - ac.limits.lo.x)
      (ac.limits.hi.y - ac.limits.lo.y)) (ac.limits.hi.z - ac.limits.lo.z), ⟨?_, ?_⟩, ?_⟩
    · simp only [scalePlots, axisRange]; ring
    · simp only [scalePlots, axisRange]; ring
    · simp only [scalePlots, axisRange]; ring
    · rcases max_choice (max (ac.limits.hi.x - ac.limits.lo.x) (ac.limits.hi.y - ac.limits.lo.y))
        (ac.limits.hi.z - ac.limits.lo.z) with h | h <;> rw [h]
      · rcases max_choice (ac.limits.hi.x - ac.limits.lo.x) (ac.limits.hi.y - ac.limits.lo.y) with h | h <;>
          rw [h] <;> simp
      · simp
    · rintro t (rfl | rfl | rfl) <;> simp
    · intro r hr
      simp only [scalePlots, List.mem_cons, List.not_mem_nil, or_false] at hr
      rcases hr with rfl | rfl | rfl <;>
        · simp only [axisRange]
          ring

/-- A wing of one segment with a flap, mirrored at the x-z-plane. -/
noncomputable def plotAc : LoadedAircraft :=
  ⟨"plane", ⟨8, 4, 2, ⟨1, 0, 0⟩, 0, none⟩, [⟨"wing", 2,
    [⟨"seg", ⟨⟨⟨0, 0, 0⟩, ⟨1, 4, 0⟩, ⟨2, 4, 0⟩, ⟨2, 0, 0⟩⟩, SegGeo.fresh⟩, "NACA0000", "NACA0000", none,
      none, (0, 1)⟩],
    [⟨"F", ⟨"seg", "seg", 1/5, 4/5, 3/4, 3/4, 3/4, 3/4, none, some "flap", .num (.fin 5), .none⟩⟩]⟩]⟩

/-- Example for C107: the tip of the mirrored half is inside the axes. -/
example : InsideAxes (scalePlots plotAc.limits) ⟨1, -4, 0⟩ :=
  (C107_axes plotAc).2 _ (.mirror (List.mem_singleton.2 rfl) (List.mem_singleton.2 rfl) (eta := 1) (xsi := 0)
    (by norm_num) (by norm_num) (by norm_num) (by norm_num) (by norm_num [mirrorPoint, segPoint]))

/-! ## C108: views -/

/-- An object seen along an axis. -/
def Mark.project {α β : Type*} (f : α → β) : Mark α → Mark β
  | .line colour pts => .line colour (pts.map f)
  | .cross p => .cross (f p)
  | .arrow t v => .arrow (f t) (f v)
  | .patch x g => .patch x (g.map fun r => r.map f)

/-- The objects of a plane view are those of the 3D view, seen along the third axis; the arrow of the
free stream is in the 3D view only. -/
def SeenAs (f : V3 ℝ → ℝ × ℝ) (d3 : List (Mark (V3 ℝ))) (view : List (Mark (ℝ × ℝ))) : Prop :=
  ∀ m, m ∈ view ↔ ∃ m3 ∈ d3, (∀ t v, m3 ≠ .arrow t v) ∧ m = m3.project f

/-- The four views of a plot show the same. -/
structure ViewsAgree (c : Canvas) : Prop where
  yz : SeenAs (fun p => (p.y, p.z)) c.d3 c.yz
  xz : SeenAs (fun p => (p.x, p.z)) c.d3 c.xz
  xy : SeenAs (fun p => (p.x, p.y)) c.d3 c.xy

theorem SeenAs.nil (f : V3 ℝ → ℝ × ℝ) : SeenAs f [] [] := by simp [SeenAs]

theorem SeenAs.append {f : V3 ℝ → ℝ × ℝ} {a b : List (Mark (V3 ℝ))} {a' b' : List (Mark (ℝ × ℝ))}
    (h : SeenAs f a a') (h' : SeenAs f b b') : SeenAs f (a ++ b) (a' ++ b') := by
  intro m
  rw [List.mem_append, h m, h' m]
  constructor
  · rintro (⟨x, h1, h2⟩ | ⟨x, h1, h2⟩)
    · exact ⟨x, List.mem_append_left _ h1, h2⟩
    · exact ⟨x, List.mem_append_right _ h1, h2⟩
  · rintro ⟨x, h1, h2⟩
    rcases List.mem_append.1 h1 with h1 | h1
    · exact Or.inl ⟨x, h1, h2⟩
    · exact Or.inr ⟨x, h1, h2⟩

theorem Canvas.agree_plotXYZ {c : Canvas} (h : ViewsAgree c) (colour : String) (pts : List (V3 ℝ))
    (sym : Option ℕ) : ViewsAgree (c.plotXYZ colour pts sym) := by
  obtain ⟨h1, h2, h3⟩ := h
  unfold Canvas.plotXYZ
  dsimp only
  split_ifs <;> refine ⟨?_, ?_, ?_⟩ <;>
    simp only [List.append_assoc, List.cons_append, List.nil_append] <;>
    first
      | exact h1.append fun m => by simp [Mark.project, Function.comp_def]
      | exact h2.append fun m => by simp [Mark.project, Function.comp_def]
      | exact h3.append fun m => by simp [Mark.project, Function.comp_def]

theorem Canvas.agree_addCG {c : Canvas} (h : ViewsAgree c) (g : V3 ℝ) : ViewsAgree (c.addCG g) := by
  obtain ⟨h1, h2, h3⟩ := h
  exact ⟨h1.append fun m => by simp [Mark.project], h2.append fun m => by simp [Mark.project],
    h3.append fun m => by simp [Mark.project]⟩

theorem Canvas.agree_foldl {α : Type*} {f : Canvas → α → Canvas}
    (hf : ∀ c x, ViewsAgree c → ViewsAgree (f c x)) : ∀ (l : List α) {c : Canvas}, ViewsAgree c →
    ViewsAgree (l.foldl f c)
  | [], _, h => h
  | x :: l, _, h => Canvas.agree_foldl hf l (hf _ x h)

theorem Canvas.agree_addControls : ∀ (l : List (FileControl × LoadedWing)) {c : Canvas},
    ViewsAgree c → ViewsAgree (c.addControls l).1
  | [], _, h => h
  | (k, w) :: rest, c, h => by
    unfold Canvas.addControls
    split
    · exact h
    · dsimp only
      split
      · exact agree_plotXYZ h _ _ _
      · exact agree_addControls rest (agree_plotXYZ (agree_plotXYZ h _ _ _) _ _ _)

theorem Canvas.agree_addFreestream {c : Canvas} (h : ViewsAgree c) (s : FlowState) :
    ViewsAgree (c.addFreestream s) := by
  unfold Canvas.addFreestream
  dsimp only
  split_ifs
  · exact h
  · have arrow : ∀ (f : V3 ℝ → ℝ × ℝ) (view : List (Mark (ℝ × ℝ))) (t v : V3 ℝ), SeenAs f c.d3 view →
        SeenAs f (c.d3 ++ [.arrow t v]) view := by
      intro f view t v hs
      have := hs.append (b := [.arrow t v]) (b' := []) fun m => by simp
      rwa [List.append_nil] at this
    exact ⟨arrow _ _ _ _ h.1, arrow _ _ _ _ h.2, arrow _ _ _ _ h.3⟩

theorem Canvas.agree_addPatches (size : ℝ) : ∀ (l : List (Corners (V3 ℝ) × Flt ℝ)) {c : Canvas},
    ViewsAgree c → ViewsAgree (c.addPatches size l).1
  | [], _, h => h
  | (v, x) :: rest, c, h => by
    unfold Canvas.addPatches
    split
    · exact h
    · obtain ⟨h1, h2, h3⟩ := h
      exact agree_addPatches size rest
        ⟨h1.append fun m => by simp [Mark.project], h2.append fun m => by simp [Mark.project],
          h3.append fun m => by simp [Mark.project]⟩

theorem Canvas.agree_addResults {c : Canvas} (h : ViewsAgree c) (ac : LoadedAircraft) (l : LatticeData)
    (v : VlmData) (key : PyVal) : ViewsAgree (c.addResults ac l v key).1 := by
  unfold Canvas.addResults
  split
  · exact h
  · split
    · exact h
    · exact agree_addPatches _ _ h

theorem Canvas.agree_empty : ViewsAgree Canvas.empty := ⟨SeenAs.nil _, SeenAs.nil _, SeenAs.nil _⟩

/-- Every plot with views satisfies a condition. -/
def AllViews (Q : AxesLimits → Canvas → Prop) (p : List Plot × Option PyErr) : Prop :=
  ∀ plot ∈ p.1, ∀ L c, plot.content = .views L c → Q L c

theorem AllViews.then {Q : AxesLimits → Canvas → Prop} {p q : List Plot × Option PyErr}
    (hp : AllViews Q p) (hq : AllViews Q q) : AllViews Q (thenPlot p q) := by
  unfold thenPlot
  split
  · exact hp
  · intro plot h
    rcases List.mem_append.1 h with h | h
    · exact hp plot h
    · exact hq plot h

theorem AllViews.ite {Q : AxesLimits → Canvas → Prop} {p : List Plot × Option PyErr} {o : PlotOpts}
    (hp : AllViews Q p) : AllViews Q (plotIf o p) := by
  unfold plotIf
  split_ifs
  · exact hp
  · intro plot h
    simp at h

theorem AllViews.single {Q : AxesLimits → Canvas → Prop} {ac : LoadedAircraft} {name : String}
    {o : PlotOpts} {d : Canvas × Option PyErr} (h : Q (scalePlots ac.limits) d.1) :
    AllViews Q (plot2d3d ac name o d) := by
  intro plot hp L c hv
  simp only [plot2d3d, List.mem_singleton] at hp
  subst hp
  cases hv
  exact h

/-- **C108**: in every plot of every run the three plane views show exactly the objects of the 3D
view, each seen along the missing axis: also for mirrored wings, for which the code draws the images
separately in each view; and all views have the limits of C107. -/
theorem C108_views_agree (set : SettingsObj) (ac : LoadedAircraft) (defs : ODict (DefWing (DefField ℝ)))
    (s : FlowState) (v : VlmData) (l : LatticeData) (plot : Plot)
    (hp : plot ∈ (makeAll set ac defs s v l).1) (L : AxesLimits) (c : Canvas)
    (hv : plot.content = .views L c) : ViewsAgree c ∧ L = scalePlots ac.limits := by
  have h0 := Canvas.agree_addCG Canvas.agree_empty ac.refs.gcenter
  have hres : ∀ keys, AllViews (fun L c => ViewsAgree c ∧ L = scalePlots ac.limits)
      (plotResults ac s l v (set.plot "results") keys) := by
    intro keys
    induction keys with
    | nil => intro plot h; simp [plotResults] at h
    | cons k rest ih =>
      exact (AllViews.single ⟨Canvas.agree_addResults
        (Canvas.agree_addFreestream Canvas.agree_empty s) ac l v k, rfl⟩).then ih
  have hlat : ViewsAgree ((Canvas.empty.addCG ac.refs.gcenter).addLattice l) :=
    Canvas.agree_foldl (fun c x h => Canvas.agree_plotXYZ h _ _ _) _ h0
  refine ((AllViews.ite ?_).then ((AllViews.ite ?_).then ((AllViews.ite ?_).then
    (AllViews.ite (hres _))))) plot hp L c hv
  · intro plot h L c hc
    unfold viewDownwash at h
    split at h
    · simp at h
    · simp only [List.mem_singleton] at h
      subst h
      cases hc
  · exact AllViews.single ⟨Canvas.agree_addControls _
      (Canvas.agree_foldl (fun c x h => Canvas.agree_plotXYZ h _ _ _) _ h0), rfl⟩
  · refine AllViews.single ⟨?_, rfl⟩
    split_ifs
    · exact hlat
    · exact Canvas.agree_addControls _ hlat

/-! ### Content of the geometry plot -/

/-- Settings with which the geometry is saved. -/
def geometrySettings : SettingsObj :=
  ⟨[("plot", .dict [("geometry", .dict [("opt", .list []), ("show", .bool false), ("save", .bool true)])])],
   false⟩

/-- Example for C108: the flap of the left half in the view from behind. -/
example (s : FlowState) (v : VlmData) (l : LatticeData) : ∃ plot ∈ (makeAll geometrySettings plotAc [] s v l).1,
    ∃ L c, plot.content = .views L c ∧ ViewsAgree c ∧
      Mark.line "blue" [(-(4/5), 0), (-(16/5), 0)] ∈ c.yz := by
  have hp : (⟨"geometry", true, false, .views (scalePlots plotAc.limits)
      (((Canvas.empty.addCG plotAc.refs.gcenter).addWings plotAc).addControls plotAc.controlsOf).1⟩ : Plot) ∈
      (makeAll geometrySettings plotAc [] s v l).1 := by
    have h1 : geometrySettings.plot "geometry" = ⟨[], false, true⟩ := rfl
    have h2 : geometrySettings.plot "matrix_downwash" = ⟨[], false, false⟩ := rfl
    unfold makeAll
    rw [h1, h2]
    simp only [plotIf, PlotOpts.wanted, Bool.or_false, Bool.or_self, Bool.false_eq_true, if_false, if_true,
      thenPlot, List.nil_append]
    split
    · exact List.mem_singleton.2 rfl
    · exact List.mem_append_left _ (List.mem_singleton.2 rfl)
  refine ⟨_, hp, _, _, rfl, (C108_views_agree _ _ _ _ _ _ _ hp _ _ rfl).1, ?_⟩
  simp [plotAc, LoadedAircraft.controlsOf, Canvas.addControls, LoadedWing.controlVertices, LoadedWing.hingeVertices,
    LoadedWing.verticesOf, Canvas.plotXYZ, segPoint]
  norm_num

/-- A line or its mirror image. -/
def WithImage (symmetry : ℕ) (pts qs : List (V3 ℝ)) : Prop :=
  qs = pts ∨ List.Forall₂ (fun p q => mirrorPoint p symmetry = .ok q) pts qs

/-- The lines that show a control: its edges within the wing, and its hinge line. -/
inductive ControlLine (w : LoadedWing) (k : ControlDef ℝ) : String → List (V3 ℝ) → Prop
  | flap {s1 s2} : k.deviceType = some "flap" →
      w.segments.find? (fun s => s.uid == k.segInner) = some s1 →
      w.segments.find? (fun s => s.uid == k.segOuter) = some s2 →
      ControlLine w k "red" [segPoint s1.gen.vertices k.etaInner 1,
        segPoint s1.gen.vertices k.etaInner k.xsiInner, segPoint s2.gen.vertices k.etaOuter k.xsiOuter,
        segPoint s2.gen.vertices k.etaOuter 1]
  | slat {s1 s2} : k.deviceType = some "slat" →
      w.segments.find? (fun s => s.uid == k.segInner) = some s1 →
      w.segments.find? (fun s => s.uid == k.segOuter) = some s2 →
      ControlLine w k "green" [segPoint s2.gen.vertices k.etaOuter 0,
        segPoint s2.gen.vertices k.etaOuter k.xsiOuter, segPoint s1.gen.vertices k.etaInner k.xsiInner,
        segPoint s1.gen.vertices k.etaInner 0]
  | hinge {s1 s2} : w.segments.find? (fun s => s.uid == k.segInner) = some s1 →
      w.segments.find? (fun s => s.uid == k.segOuter) = some s2 →
      ControlLine w k "blue" [segPoint s1.gen.vertices k.etaInner k.hingeInner,
        segPoint s2.gen.vertices k.etaOuter k.hingeOuter]

/-- What belongs on the geometry plot: the centre of gravity, the outlines of all segments, the
controls, and the mirror images of the lines. -/
inductive GeometryMark (ac : LoadedAircraft) : Mark (V3 ℝ) → Prop
  | cg : GeometryMark ac (.cross ac.refs.gcenter)
  | segment {w s qs} : w ∈ ac.wings → s ∈ w.segments →
      WithImage w.symmetry [s.gen.vertices.a, s.gen.vertices.b, s.gen.vertices.c, s.gen.vertices.d,
        s.gen.vertices.a] qs → GeometryMark ac (.line "grey" qs)
  | control {w k colour pts qs} : w ∈ ac.wings → k ∈ w.controls → ControlLine w k.data colour pts →
      WithImage w.symmetry pts qs → GeometryMark ac (.line colour qs)

theorem forall₂_mirror {n : ℕ} {f : V3 ℝ → V3 ℝ} (hf : ∀ p, mirrorPoint p n = .ok (f p)) :
    ∀ (pts qs : List (V3 ℝ)), List.Forall₂ (fun p q => mirrorPoint p n = .ok q) pts qs ↔ qs = pts.map f
  | [], qs => by simp [List.forall₂_nil_left_iff]
  | p :: pts, qs => by
    rw [List.forall₂_cons_left_iff]
    constructor
    · rintro ⟨b, u, h1, h2, rfl⟩
      rw [hf] at h1
      cases h1
      rw [(forall₂_mirror hf pts u).1 h2]
      rfl
    · rintro rfl
      exact ⟨f p, pts.map f, hf p, (forall₂_mirror hf pts _).2 rfl, rfl⟩

theorem mem_plotXYZ {c : Canvas} {colour : String} {pts : List (V3 ℝ)} (hne : pts ≠ []) {n : ℕ}
    {m : Mark (V3 ℝ)} : m ∈ (c.plotXYZ colour pts (some n)).d3 ↔
      m ∈ c.d3 ∨ ∃ qs, WithImage n pts qs ∧ m = .line colour qs := by
  unfold Canvas.plotXYZ WithImage
  dsimp only
  by_cases h1 : n = 1
  · subst h1
    have := fun qs => forall₂_mirror (n := 1) (f := fun p => ⟨p.x, p.y, -p.z⟩)
      (fun p => by simp [mirrorPoint]) pts qs
    simp [this, or_assoc]
  · by_cases h2 : n = 2
    · subst h2
      have := fun qs => forall₂_mirror (n := 2) (f := fun p => ⟨p.x, -p.y, p.z⟩)
        (fun p => by simp [mirrorPoint]) pts qs
      simp [this, or_assoc]
    · by_cases h3 : n = 3
      · subst h3
        have := fun qs => forall₂_mirror (n := 3) (f := fun p => ⟨-p.x, p.y, p.z⟩)
          (fun p => by simp [mirrorPoint]) pts qs
        simp [this, or_assoc]
      · have : ∀ qs, ¬ List.Forall₂ (fun p q => mirrorPoint p n = .ok q) pts qs := by
          intro qs h
          cases pts with
          | nil => exact hne rfl
          | cons p pts =>
            cases h with
            | cons h _ => simp [mirrorPoint, h1, h2, h3] at h
        simp [this, h1, h2, h3]

theorem mem_addWings {c : Canvas} {ac : LoadedAircraft} {m : Mark (V3 ℝ)} :
    m ∈ (c.addWings ac).d3 ↔ m ∈ c.d3 ∨ ∃ w ∈ ac.wings, ∃ s ∈ w.segments, ∃ qs,
      WithImage w.symmetry s.gen.vertices.outline qs ∧ m = .line "grey" qs := by
  have key : ∀ (l : List (LoadedSegment × LoadedWing)) (c : Canvas),
      m ∈ (l.foldl (fun c s => c.plotXYZ "grey" s.1.gen.vertices.outline (some s.2.symmetry)) c).d3 ↔
        m ∈ c.d3 ∨ ∃ x ∈ l, ∃ qs, WithImage x.2.symmetry x.1.gen.vertices.outline qs ∧
          m = .line "grey" qs := by
    intro l
    induction l with
    | nil => intro c; simp
    | cons x l ih =>
      intro c
      rw [List.foldl_cons, ih, mem_plotXYZ (by simp [Corners.outline]), or_assoc]
      simp
  unfold Canvas.addWings
  rw [key]
  apply or_congr_right
  constructor
  · rintro ⟨x, hx, qs, h⟩
    simp only [LoadedAircraft.segmentsOf, List.mem_flatMap, List.mem_map] at hx
    obtain ⟨w, hw, s, hs, rfl⟩ := hx
    exact ⟨w, hw, s, hs, qs, h⟩
  · rintro ⟨w, hw, s, hs, qs, h⟩
    refine ⟨(s, w), ?_, qs, h⟩
    simp only [LoadedAircraft.segmentsOf, List.mem_flatMap, List.mem_map]
    exact ⟨w, hw, s, hs, rfl⟩

theorem verticesOf_ok {w : LoadedWing} {name : String} {v : Corners (V3 ℝ)}
    (h : w.verticesOf name = .ok v) : ∃ s, w.segments.find? (fun s => s.uid == name) = some s ∧
      v = s.gen.vertices := by
  unfold LoadedWing.verticesOf at h
  split at h
  · cases h
  · rename_i s hs
    cases h
    exact ⟨s, hs, rfl⟩

theorem mem_addControls {m : Mark (V3 ℝ)} : ∀ (l : List (FileControl × LoadedWing)) {c : Canvas},
    (m ∈ (c.addControls l).1.d3 → m ∈ c.d3 ∨ ∃ x ∈ l, ∃ colour pts qs,
        ControlLine x.2 x.1.data colour pts ∧ WithImage x.2.symmetry pts qs ∧ m = .line colour qs) ∧
    ((c.addControls l).2 = none → (m ∈ c.d3 ∨ ∃ x ∈ l, ∃ colour pts qs,
        ControlLine x.2 x.1.data colour pts ∧ WithImage x.2.symmetry pts qs ∧ m = .line colour qs) →
      m ∈ (c.addControls l).1.d3)
  | [], c => by simp [Canvas.addControls]
  | (k, w) :: rest, c => by
    unfold Canvas.addControls
    split
    · rename_i e he
      exact ⟨fun h => Or.inl h, fun h => by cases h⟩
    · rename_i v hv
      unfold LoadedWing.controlVertices at hv
      split at hv
      · cases hv
      · rename_i inner hi
        split at hv
        · cases hv
        · rename_i outer ho
          obtain ⟨s1, f1, rfl⟩ := verticesOf_ok hi
          obtain ⟨s2, f2, rfl⟩ := verticesOf_ok ho
          have hh : w.hingeVertices k.data = .ok (segPoint s1.gen.vertices k.data.etaInner k.data.hingeInner,
              segPoint s2.gen.vertices k.data.etaOuter k.data.hingeOuter) := by
            unfold LoadedWing.hingeVertices
            rw [hi, ho]
          dsimp only
          rw [hh]
          dsimp only
          have ih := mem_addControls (m := m) rest (c := ((c.plotXYZ
            (if k.data.deviceType = some "flap" then "red" else "green") (k.data.visible v)
            (some w.symmetry)).plotXYZ "blue" [segPoint s1.gen.vertices k.data.etaInner k.data.hingeInner,
              segPoint s2.gen.vertices k.data.etaOuter k.data.hingeOuter] (some w.symmetry)))
          have hne : k.data.visible v ≠ [] := by unfold ControlDef.visible; split_ifs <;> simp
          rw [mem_plotXYZ (by simp), mem_plotXYZ hne] at ih
          have hline : ∀ colour pts, ControlLine w k.data colour pts ↔
              (colour = (if k.data.deviceType = some "flap" then "red" else "green") ∧
                pts = k.data.visible v) ∨ (colour = "blue" ∧
                pts = [segPoint s1.gen.vertices k.data.etaInner k.data.hingeInner,
                  segPoint s2.gen.vertices k.data.etaOuter k.data.hingeOuter]) := by
            intro colour pts
            constructor
            · intro h
              cases h with
              | flap hd g1 g2 =>
                rw [g1] at f1; rw [g2] at f2; cases f1; cases f2
                rw [if_pos hd] at hv
                cases hv
                left
                simp [ControlDef.visible, hd]
              | slat hd g1 g2 =>
                rw [g1] at f1; rw [g2] at f2; cases f1; cases f2
                have hn : ¬ k.data.deviceType = some "flap" := by rw [hd]; decide
                rw [if_neg hn, if_pos hd] at hv
                cases hv
                left
                simp only [ControlDef.visible, hn, if_false, and_self]
              | hinge g1 g2 =>
                rw [g1] at f1; rw [g2] at f2; cases f1; cases f2
                exact Or.inr ⟨rfl, rfl⟩
            · rintro (⟨rfl, rfl⟩ | ⟨rfl, rfl⟩)
              · split_ifs at hv with hd hs
                · cases hv
                  rw [if_pos hd]
                  unfold ControlDef.visible
                  rw [if_pos hd]
                  exact .flap hd f1 f2
                · cases hv
                  rw [if_neg hd]
                  unfold ControlDef.visible
                  rw [if_neg hd]
                  exact .slat hs f1 f2
              · exact .hinge f1 f2
          have hrw : (∃ x ∈ (k, w) :: rest, ∃ colour pts qs, ControlLine x.2 x.1.data colour pts ∧
                WithImage x.2.symmetry pts qs ∧ m = .line colour qs) ↔
              (∃ qs, WithImage w.symmetry (k.data.visible v) qs ∧
                m = .line (if k.data.deviceType = some "flap" then "red" else "green") qs) ∨
              (∃ qs, WithImage w.symmetry [segPoint s1.gen.vertices k.data.etaInner k.data.hingeInner,
                segPoint s2.gen.vertices k.data.etaOuter k.data.hingeOuter] qs ∧ m = .line "blue" qs) ∨
              (∃ x ∈ rest, ∃ colour pts qs, ControlLine x.2 x.1.data colour pts ∧
                WithImage x.2.symmetry pts qs ∧ m = .line colour qs) := by
            constructor
            · rintro ⟨x, hx, colour, pts, qs, h1, h2, h3⟩
              rcases List.mem_cons.1 hx with rfl | hx
              · rcases (hline _ _).1 h1 with ⟨rfl, rfl⟩ | ⟨rfl, rfl⟩
                · exact Or.inl ⟨qs, h2, h3⟩
                · exact Or.inr (Or.inl ⟨qs, h2, h3⟩)
              · exact Or.inr (Or.inr ⟨x, hx, colour, pts, qs, h1, h2, h3⟩)
            · rintro (⟨qs, h2, h3⟩ | ⟨qs, h2, h3⟩ | ⟨x, hx, h⟩)
              · exact ⟨(k, w), by simp, _, _, qs, (hline _ _).2 (Or.inl ⟨rfl, rfl⟩), h2, h3⟩
              · exact ⟨(k, w), by simp, _, _, qs, (hline _ _).2 (Or.inr ⟨rfl, rfl⟩), h2, h3⟩
              · exact ⟨x, List.mem_cons_of_mem _ hx, h⟩
          rw [hrw]
          simp only [or_assoc] at ih
          exact ih

/-- **C108**: the geometry plot shows every segment, every control with its hinge line, and the
centre of gravity, and nothing else; mirrored wings are shown on both sides. -/
theorem C108_geometry (ac : LoadedAircraft) (o : PlotOpts) (plots : List Plot)
    (h : plotGeometry ac o = (plots, none)) :
    ∃ c, plots = [⟨"geometry", o.save, o.show_, .views (scalePlots ac.limits) c⟩] ∧
      ∀ m, m ∈ c.d3 ↔ GeometryMark ac m := by
  unfold plotGeometry plot2d3d at h
  simp only [Prod.mk.injEq] at h
  obtain ⟨rfl, h⟩ := h
  refine ⟨_, rfl, fun m => ?_⟩
  have key := mem_addControls (m := m) ac.controlsOf
    (c := (Canvas.empty.addCG ac.refs.gcenter).addWings ac)
  rw [mem_addWings] at key
  have iff : _ ↔ _ := ⟨key.1, key.2 h⟩
  rw [iff]
  have hc : ∀ x, x ∈ ac.controlsOf ↔ x.2 ∈ ac.wings ∧ x.1 ∈ x.2.controls := by
    intro x
    simp only [LoadedAircraft.controlsOf, List.mem_flatMap, List.mem_map]
    constructor
    · rintro ⟨w, hw, s, hs, rfl⟩
      exact ⟨hw, hs⟩
    · rintro ⟨hw, hs⟩
      exact ⟨x.2, hw, x.1, hs, rfl⟩
  constructor
  · rintro ((h | ⟨w, hw, s, hs, qs, hq, rfl⟩) | ⟨x, hx, colour, pts, qs, h1, h2, rfl⟩)
    · simp only [Canvas.addCG, Canvas.empty, List.nil_append, List.mem_singleton] at h
      subst h
      exact .cg
    · exact .segment hw hs hq
    · exact .control ((hc x).1 hx).1 ((hc x).1 hx).2 h1 h2
  · rintro (_ | ⟨hw, hs, hq⟩ | ⟨hw, hk, h1, h2⟩)
    · exact Or.inl (Or.inl (by simp [Canvas.addCG, Canvas.empty]))
    · exact Or.inl (Or.inr ⟨_, hw, _, hs, _, hq, rfl⟩)
    · exact Or.inr ⟨(_, _), (hc (_, _)).2 ⟨hw, hk⟩, _, _, _, h1, h2, rfl⟩

/-- Example for C108: the geometry plot of the wing shows the mirrored hinge line. -/
example : ∃ c, plotGeometry plotAc ⟨[], true, false⟩ =
    ([⟨"geometry", false, true, .views (scalePlots plotAc.limits) c⟩], none) ∧
    Mark.line "blue" [⟨31/20, -(4/5), 0⟩, ⟨17/10, -(16/5), 0⟩] ∈ c.d3 := by
  have h0 : (plotGeometry plotAc ⟨[], true, false⟩).2 = none := by
    simp [plotGeometry, plot2d3d, plotAc, LoadedAircraft.controlsOf, Canvas.addControls,
      LoadedWing.controlVertices, LoadedWing.hingeVertices, LoadedWing.verticesOf]
  have h : plotGeometry plotAc ⟨[], true, false⟩ =
    ((plotGeometry plotAc ⟨[], true, false⟩).1, none) := Prod.ext rfl h0
  obtain ⟨c, h1, h2⟩ := C108_geometry _ _ _ h
  refine ⟨c, by rw [h, h1], (h2 _).2 (.control (List.mem_singleton.2 rfl) (List.mem_singleton.2 rfl)
    (.hinge (by rfl) (by rfl)) (Or.inr ?_))⟩
  refine .cons ?_ (.cons ?_ .nil) <;> norm_num [mirrorPoint, segPoint]

theorem geometry_marks {ac : LoadedAircraft} {m : Mark (V3 ℝ)} (h : m ∈ (Canvas.addControls
    ((Canvas.empty.addCG ac.refs.gcenter).addWings ac) ac.controlsOf).1.d3) : GeometryMark ac m := by
  have h1 := (mem_addControls (m := m) ac.controlsOf).1 h
  rw [mem_addWings] at h1
  rcases h1 with (h | ⟨w, hw, s, hs, qs, hq, rfl⟩) | ⟨x, hx, colour, pts, qs, h1, h2, rfl⟩
  · simp only [Canvas.addCG, Canvas.empty, List.nil_append, List.mem_singleton] at h
    subst h
    exact .cg
  · exact .segment hw hs hq
  · simp only [LoadedAircraft.controlsOf, List.mem_flatMap, List.mem_map] at hx
    obtain ⟨w, hw, k, hk, rfl⟩ := hx
    exact .control hw hk h1 h2

theorem withImage_mem {n : ℕ} {pts qs : List (V3 ℝ)} (h : WithImage n pts qs) {q : V3 ℝ} (hq : q ∈ qs) :
    q ∈ pts ∨ ∃ p ∈ pts, mirrorPoint p n = .ok q := by
  rcases h with rfl | h
  · exact Or.inl hq
  · right
    induction h with
    | nil => cases hq
    | cons h _ ih =>
      rcases List.mem_cons.1 hq with rfl | hq
      · exact ⟨_, by simp, h⟩
      · obtain ⟨p, hp, h⟩ := ih hq
        exact ⟨p, List.mem_cons_of_mem _ hp, h⟩

/-- A point of a segment of a wing with relative coordinates between 0 and 1. -/
def OnWingPlot (w : LoadedWing) (p : V3 ℝ) : Prop :=
  ∃ s ∈ w.segments, ∃ eta xsi : ℝ, (0 ≤ eta ∧ eta ≤ 1) ∧ (0 ≤ xsi ∧ xsi ≤ 1) ∧
    p = segPoint s.gen.vertices eta xsi

theorem onWingPlot_surface {ac : LoadedAircraft} {w : LoadedWing} (hw : w ∈ ac.wings) {pts qs : List (V3 ℝ)}
    (hp : ∀ p ∈ pts, OnWingPlot w p) (h : WithImage w.symmetry pts qs) {q : V3 ℝ} (hq : q ∈ qs) :
    SurfacePoint ac q := by
  rcases withImage_mem h hq with hq | ⟨p, hp', hm⟩
  · obtain ⟨s, hs, eta, xsi, h1, h2, rfl⟩ := hp q hq
    exact .own hw hs h1.1 h1.2 h2.1 h2.2
  · obtain ⟨s, hs, eta, xsi, h1, h2, rfl⟩ := hp p hp'
    exact .mirror hw hs h1.1 h1.2 h2.1 h2.2 hm

theorem corners_segPoint (v : Corners (V3 ℝ)) : v.a = segPoint v 0 0 ∧ v.b = segPoint v 1 0 ∧
    v.c = segPoint v 1 1 ∧ v.d = segPoint v 0 1 := by
  refine ⟨?_, ?_, ?_, ?_⟩ <;> ext <;> simp [segPoint]

theorem geometry_inside (ac : LoadedAircraft) (o : PlotOpts)
    (hc : ∀ w ∈ ac.wings, ∀ k ∈ w.controls, ∀ t ∈ [k.data.etaInner, k.data.etaOuter, k.data.xsiInner,
      k.data.xsiOuter, k.data.hingeInner, k.data.hingeOuter], 0 ≤ t ∧ t ≤ 1)
    (plot : Plot) (hp : plot ∈ (plotGeometry ac o).1) (L : AxesLimits) (c : Canvas)
    (hv : plot.content = .views L c) (colour : String) (pts : List (V3 ℝ))
    (hl : Mark.line colour pts ∈ c.d3) (p : V3 ℝ) (h : p ∈ pts) : InsideAxes L p := by
  unfold plotGeometry plot2d3d at hp
  simp only [List.mem_singleton] at hp
  subst hp
  cases hv
  refine in_box_inside (surface_in_box ?_)
  have hm := geometry_marks hl
  cases hm with
  | segment hw hs hq =>
    rename_i w s
    refine onWingPlot_surface hw (fun p hp => ?_) hq h
    obtain ⟨ea, eb, ec, ed⟩ := corners_segPoint s.gen.vertices
    have h01 : (0 : ℝ) ≤ 0 ∧ (0 : ℝ) ≤ 1 := ⟨le_rfl, zero_le_one⟩
    have h11 : (0 : ℝ) ≤ 1 ∧ (1 : ℝ) ≤ 1 := ⟨zero_le_one, le_rfl⟩
    simp only [List.mem_cons, List.not_mem_nil, or_false] at hp
    rcases hp with rfl | rfl | rfl | rfl | rfl
    · exact ⟨s, hs, 0, 0, h01, h01, ea⟩
    · exact ⟨s, hs, 1, 0, h11, h01, eb⟩
    · exact ⟨s, hs, 1, 1, h11, h11, ec⟩
    · exact ⟨s, hs, 0, 1, h01, h11, ed⟩
    · exact ⟨s, hs, 0, 0, h01, h01, ea⟩
  | control hw hk hl hq =>
    rename_i w k pts
    refine onWingPlot_surface hw (fun p hp => ?_) hq h
    have hc := hc w hw k hk
    have h01 : (0 : ℝ) ≤ 0 ∧ (0 : ℝ) ≤ 1 := ⟨le_rfl, zero_le_one⟩
    have h11 : (0 : ℝ) ≤ 1 ∧ (1 : ℝ) ≤ 1 := ⟨zero_le_one, le_rfl⟩
    simp only [List.mem_cons, List.not_mem_nil, or_false, forall_eq_or_imp, forall_eq] at hc
    obtain ⟨c1, c2, c3, c4, c5, c6⟩ := hc
    cases hl with
    | flap _ f1 f2 =>
      have m1 := List.mem_of_find?_eq_some f1
      have m2 := List.mem_of_find?_eq_some f2
      simp only [List.mem_cons, List.not_mem_nil, or_false] at hp
      rcases hp with rfl | rfl | rfl | rfl
      · exact ⟨_, m1, _, _, c1, h11, rfl⟩
      · exact ⟨_, m1, _, _, c1, c3, rfl⟩
      · exact ⟨_, m2, _, _, c2, c4, rfl⟩
      · exact ⟨_, m2, _, _, c2, h11, rfl⟩
    | slat _ f1 f2 =>
      have m1 := List.mem_of_find?_eq_some f1
      have m2 := List.mem_of_find?_eq_some f2
      simp only [List.mem_cons, List.not_mem_nil, or_false] at hp
      rcases hp with rfl | rfl | rfl | rfl
      · exact ⟨_, m2, _, _, c2, h01, rfl⟩
      · exact ⟨_, m2, _, _, c2, c4, rfl⟩
      · exact ⟨_, m1, _, _, c1, c3, rfl⟩
      · exact ⟨_, m1, _, _, c1, h01, rfl⟩
    | hinge f1 f2 =>
      have m1 := List.mem_of_find?_eq_some f1
      have m2 := List.mem_of_find?_eq_some f2
      simp only [List.mem_cons, List.not_mem_nil, or_false] at hp
      rcases hp with rfl | rfl
      · exact ⟨_, m1, _, _, c1, c5, rfl⟩
      · exact ⟨_, m2, _, _, c2, c6, rfl⟩

/-! ## C109: results -/

/-- The colour of panel number `i` is the position of its value between the smallest and the largest
value: an increasing map, affine, from 0 to 1. -/
structure ColoursOf (xs vals : List ℝ) : Prop where
  length : vals.length = xs.length
  range : ∀ t ∈ vals, 0 ≤ t ∧ t ≤ 1
  mono : ∀ i j, ∀ (hi : i < xs.length) (hj : j < xs.length), xs[i] ≤ xs[j] ↔ vals[i] ≤ vals[j]
  lowest : 0 ∈ vals
  highest : (∃ a ∈ xs, ∃ b ∈ xs, a ≠ b) → 1 ∈ vals
  affine : ∃ d, ∀ i j, ∀ (hi : i < xs.length) (hj : j < xs.length), xs[i] - xs[j] = d * (vals[i] - vals[j])

/-- A grid of points on the surface of a panel that reaches the four corners. -/
structure GridOn (v : Corners (V3 ℝ)) (g : List (List (V3 ℝ))) : Prop where
  rows : 2 ≤ g.length
  width : ∃ n, 2 ≤ n ∧ ∀ r ∈ g, r.length = n
  on : ∀ r ∈ g, ∀ p ∈ r, ∃ eta xsi : ℝ, (0 ≤ eta ∧ eta ≤ 1) ∧ (0 ≤ xsi ∧ xsi ≤ 1) ∧ p = segPoint v eta xsi
  corners : (g.head?.bind List.head?) = some v.a ∧ (g.head?.bind List.getLast?) = some v.b ∧
    (g.getLast?.bind List.getLast?) = some v.c ∧ (g.getLast?.bind List.head?) = some v.d

theorem linspace01_facts {n : ℕ} (h : 2 ≤ n) : (linspace01 n).length = n ∧
    (∀ t ∈ linspace01 n, 0 ≤ t ∧ t ≤ 1) ∧ (linspace01 n).head? = some 0 ∧
    (linspace01 n).getLast? = some 1 := by
  have hn : (0 : ℝ) < n - 1 := by
    have : (2 : ℝ) ≤ n := by exact_mod_cast h
    linarith
  refine ⟨by simp [linspace01], ?_, ?_, ?_⟩
  · intro t ht
    simp only [linspace01, List.mem_map, List.mem_range] at ht
    obtain ⟨i, hi, rfl⟩ := ht
    have : (i : ℝ) ≤ n - 1 := by
      have : ((i + 1 : ℕ) : ℝ) ≤ n := by exact_mod_cast hi
      push_cast at this
      linarith
    exact ⟨div_nonneg (Nat.cast_nonneg i) hn.le, (div_le_one hn).2 this⟩
  · obtain ⟨k, rfl⟩ : ∃ k, n = k + 1 := ⟨n - 1, by omega⟩
    simp [linspace01, List.range_succ_eq_map]
  · obtain ⟨k, rfl⟩ : ∃ k, n = k + 1 := ⟨n - 1, by omega⟩
    have hk : (k : ℝ) ≠ 0 := by
      push_cast at hn
      intro h0
      rw [h0] at hn
      norm_num at hn
    simp [linspace01, List.range_succ, hk]

theorem quadPoints_two {f size : ℝ} (hf : 0 ≤ f) (hs : 0 ≤ size) : 2 ≤ quadPoints f size := by
  unfold quadPoints
  have : 0 ≤ ⌈100 * f / size⌉ := Int.ceil_nonneg (by positivity)
  omega

theorem interpolateQuad_grid {v : Corners (V3 ℝ)} {size : ℝ} (hs : 0 ≤ size) {g : List (List (V3 ℝ))}
    (h : interpolateQuad v size = .ok g) : GridOn v g := by
  unfold interpolateQuad at h
  split_ifs at h with h0
  dsimp only at h
  cases h
  have nn : ∀ a b : V3 ℝ, 0 ≤ 1 / 2 * a.norm + 1 / 2 * b.norm := fun a b => by
    have := V3.norm_nonneg a
    have := V3.norm_nonneg b
    positivity
  have hr := quadPoints_two (nn (v.b - v.a) (v.c - v.d)) hs
  have hq := quadPoints_two (nn (v.d - v.a) (v.c - v.b)) hs
  generalize quadPoints (1 / 2 * (v.b - v.a).norm + 1 / 2 * (v.c - v.d).norm) size = nr at *
  generalize quadPoints (1 / 2 * (v.d - v.a).norm + 1 / 2 * (v.c - v.b).norm) size = ns at *
  obtain ⟨r1, r2, r3, r4⟩ := linspace01_facts hr
  obtain ⟨s1, s2, s3, s4⟩ := linspace01_facts hq
  have hp : ∀ r s : ℝ, v.a + r • (v.b - v.a) + s • (v.d - v.a) + (r * s) • (v.a - v.b + v.c - v.d) =
      segPoint v r s := by
    intro r s
    ext <;> simp [segPoint] <;> ring
  simp only [hp]
  obtain ⟨ea, eb, ec, ed⟩ := corners_segPoint v
  refine ⟨by simp [s1, hq], ⟨nr, hr, ?_⟩, ?_, ?_, ?_, ?_, ?_⟩
  · intro r h
    obtain ⟨s, _, rfl⟩ := List.mem_map.1 h
    simp [r1]
  · intro r h p hp'
    obtain ⟨s, hs', rfl⟩ := List.mem_map.1 h
    obtain ⟨t, ht, rfl⟩ := List.mem_map.1 hp'
    exact ⟨t, s, r2 t ht, s2 s hs', rfl⟩
  · simp [List.head?_map, s3, r3, ← ea]
  · simp [List.head?_map, List.getLast?_map, s3, r4, ← eb]
  · simp [List.getLast?_map, s4, r4, ← ec]
  · simp [List.head?_map, List.getLast?_map, s4, r3, ← ed]


theorem foldl_max_spec : ∀ (l : List ℝ) (x : ℝ), (∀ y ∈ x :: l, y ≤ l.foldl max x) ∧
    l.foldl max x ∈ x :: l
  | [], x => by simp
  | z :: l, x => by
    obtain ⟨h1, h2⟩ := foldl_max_spec l (max x z)
    rw [List.foldl_cons]
    have hm := h1 (max x z) (by simp)
    constructor
    · intro y hy
      rcases List.mem_cons.1 hy with rfl | hy
      · exact (le_max_left _ _).trans hm
      · rcases List.mem_cons.1 hy with rfl | hy
        · exact (le_max_right _ _).trans hm
        · exact h1 y (List.mem_cons_of_mem _ hy)
    · rcases List.mem_cons.1 h2 with h2 | h2
      · rw [h2]
        rcases max_choice x z with h | h <;> rw [h] <;> simp
      · simp [h2]

theorem foldl_min_spec : ∀ (l : List ℝ) (x : ℝ), (∀ y ∈ x :: l, l.foldl min x ≤ y) ∧
    l.foldl min x ∈ x :: l
  | [], x => by simp
  | z :: l, x => by
    obtain ⟨h1, h2⟩ := foldl_min_spec l (min x z)
    rw [List.foldl_cons]
    have hm := h1 (min x z) (by simp)
    constructor
    · intro y hy
      rcases List.mem_cons.1 hy with rfl | hy
      · exact hm.trans (min_le_left _ _)
      · rcases List.mem_cons.1 hy with rfl | hy
        · exact hm.trans (min_le_right _ _)
        · exact h1 y (List.mem_cons_of_mem _ hy)
    · rcases List.mem_cons.1 h2 with h2 | h2
      · rw [h2]
        rcases min_choice x z with h | h <;> rw [h] <;> simp
      · simp [h2]

theorem allFinite_map : ∀ xs : List ℝ, allFinite (xs.map .fin) = some xs
  | [] => rfl
  | x :: xs => by simp [allFinite, allFinite_map xs]

theorem normaliseValues_colours {xs : List ℝ} {ys : List (Flt ℝ)}
    (h : normaliseValues (xs.map .fin) = .ok ys) : ∃ vals, ys = vals.map .fin ∧ ColoursOf xs vals := by
  unfold normaliseValues at h
  rw [allFinite_map] at h
  cases xs with
  | nil => cases h
  | cons x rest =>
    dsimp only at h
    obtain ⟨u1, u2⟩ := foldl_max_spec rest x
    obtain ⟨l1, l2⟩ := foldl_min_spec rest x
    generalize rest.foldl max x = hi at *
    generalize rest.foldl min x = lo at *
    generalize x :: rest = xs at *
    split_ifs at h with hd
    · cases h
      have hpos : 0 < hi - lo := lt_of_le_of_ne (by linarith [u1 lo l2]) (Ne.symm hd)
      refine ⟨xs.map fun y => (y - lo) / (hi - lo), by simp, by simp, ?_, ?_, ?_, ?_, hi - lo, ?_⟩
      · intro t ht
        obtain ⟨y, hy, rfl⟩ := List.mem_map.1 ht
        exact ⟨div_nonneg (by linarith [l1 y hy]) hpos.le, (div_le_one hpos).2 (by linarith [u1 y hy])⟩
      · intro i j hi' hj'
        simp only [List.getElem_map]
        rw [div_le_div_iff_of_pos_right hpos]
        constructor <;> intro h <;> linarith
      · exact List.mem_map.2 ⟨lo, l2, by simp⟩
      · intro _
        exact List.mem_map.2 ⟨hi, u2, div_self hd⟩
      · intro i j hi' hj'
        simp only [List.getElem_map]
        field_simp
        ring
    · cases h
      have hd : hi = lo := by linarith [not_not.1 hd]
      have same : ∀ y ∈ xs, y = lo := fun y hy => le_antisymm (hd ▸ u1 y hy) (l1 y hy)
      refine ⟨xs.map fun _ => 0, by simp, by simp, ?_, ?_, ?_, ?_, 0, ?_⟩
      · intro t ht
        obtain ⟨y, hy, rfl⟩ := List.mem_map.1 ht
        exact ⟨le_rfl, zero_le_one⟩
      · intro i j hi' hj'
        simp only [List.getElem_map]
        rw [same _ (List.getElem_mem hi'), same _ (List.getElem_mem hj')]
        simp
      · exact List.mem_map.2 ⟨lo, l2, rfl⟩
      · rintro ⟨a, ha, b, hb, hab⟩
        exact absurd ((same a ha).trans (same b hb).symm) hab
      · intro i j hi' hj'
        rw [same _ (List.getElem_mem hi'), same _ (List.getElem_mem hj')]
        simp

theorem addPatches_ok {size : ℝ} (hs : 0 ≤ size) : ∀ (l : List (Corners (V3 ℝ) × Flt ℝ)) {c c' : Canvas},
    c.addPatches size l = (c', none) → ∃ gs : List (List (List (V3 ℝ))),
      List.Forall₂ (fun x g => GridOn x.1 g) l gs ∧
      c'.d3 = c.d3 ++ List.zipWith (fun x g => .patch x.2 g) l gs
  | [], c, c', h => by
    cases h
    exact ⟨[], .nil, by simp⟩
  | (v, x) :: rest, c, c', h => by
    unfold Canvas.addPatches at h
    split at h
    · cases h
    · rename_i g hg
      obtain ⟨gs, h1, h2⟩ := addPatches_ok hs rest h
      refine ⟨g :: gs, .cons (interpolateQuad_grid hs hg) h1, ?_⟩
      rw [h2]
      simp

/-- The arrow of the free stream: it points to the origin, has length 3 and the direction of the
flow. -/
def StreamArrow (s : FlowState) (tail vector : V3 ℝ) : Prop :=
  tail + vector = 0 ∧ vector.norm = 3 ∧ ∃ k : ℝ, 0 < k ∧ vector = k • freestream s

theorem addFreestream_arrow (c : Canvas) {s : FlowState} (hs : s.airspeed ≠ 0) :
    ∃ t u, StreamArrow s t u ∧ (c.addFreestream s).d3 = c.d3 ++ [.arrow t u] := by
  have hn : (pyFreestream s.airspeed s.alpha s.beta).norm ≠ 0 := by
    rw [(C33_same_freestream s).2.2]
    exact abs_ne_zero.2 hs
  have hp : 0 < (pyFreestream s.airspeed s.alpha s.beta).norm :=
    lt_of_le_of_ne (V3.norm_nonneg _) (Ne.symm hn)
  have he : pyFreestream s.airspeed s.alpha s.beta = freestream s := rfl
  unfold Canvas.addFreestream
  dsimp only
  rw [if_neg hn]
  refine ⟨_, _, ⟨?_, ?_, 3 * (1 / (freestream s).norm), ?_, ?_⟩, rfl⟩
  · ext <;> simp
  · rw [V3.norm_smul, V3.norm_smul, abs_of_pos (by norm_num : (0 : ℝ) < 3), abs_of_pos (by positivity)]
    field_simp
  · rw [← he]; positivity
  · rw [he]
    ext <;> simp <;> ring

/-- **C109**: a plot of results shows the free stream and one patch per panel, in the order of the
panels: the patch covers the panel and reaches its corners, and its colour is the position of the value
of the panel between the smallest and the largest value. -/
theorem C109_results (ac : LoadedAircraft) (s : FlowState) (hs : s.airspeed ≠ 0) (l : LatticeData)
    (v : VlmData) (o : PlotOpts) (keys : List PyVal) (plots : List Plot)
    (hv : ∀ k, PyVal.str k ∈ keys → ∀ data, v.panelwise k = some data →
      ∃ xs : List ℝ, data = xs.map .fin ∧ xs.length = l.num)
    (h : plotResults ac s l v o keys = (plots, none)) :
    List.Forall₂ (fun key plot => ∃ k c xs vals gs t u, key = PyVal.str k ∧
      v.panelwise k = some (xs.map .fin) ∧
      plot = ⟨"results_" ++ k, o.save, o.show_, .views (scalePlots ac.limits) c⟩ ∧
      StreamArrow s t u ∧ ColoursOf xs vals ∧ gs.length = l.num ∧
      (∀ (i : ℕ) (hi : i < gs.length) (g : PanelPts ℝ), l.pts i = some g →
        GridOn ⟨g.p, g.q, g.r, g.s⟩ gs[i]) ∧
      c.d3 = .arrow t u :: List.zipWith (fun x g => .patch (.fin x) g) vals gs) keys plots := by
  induction keys generalizing plots with
  | nil => cases h; exact .nil
  | cons key rest ih =>
    unfold plotResults thenPlot at h
    split at h
    · cases h
    · rename_i hn
      simp only [Prod.mk.injEq] at h
      obtain ⟨rfl, hr⟩ := h
      refine .cons ?_ (ih _ (fun k hk => hv k (List.mem_cons_of_mem _ hk)) (Prod.ext rfl hr))
      simp only [plot2d3d] at hn ⊢
      obtain ⟨t, u, ha, hd⟩ := addFreestream_arrow Canvas.empty hs
      cases hc : (Canvas.empty.addFreestream s).addResults ac l v key with
      | mk c e =>
        rw [hc] at hn
        cases hn
        unfold Canvas.addResults at hc
        split at hc
        · cases hc
        · rename_i data hdata
          unfold VlmData.panelwiseAt at hdata
          split at hdata <;> try cases hdata
          rename_i k
          split_ifs at hdata with hk
          split at hdata
          · rename_i data' hd'
            cases hdata
            obtain ⟨xs, rfl, hl⟩ := hv k (by simp) _ hd'
            split at hc
            · cases hc
            · rename_i ys hy
              obtain ⟨vals, rfl, hcol⟩ := normaliseValues_colours hy
              obtain ⟨gs, hg, hd3⟩ := addPatches_ok (by
                obtain ⟨lo, hi, _, e⟩ := C54_size ac.shape
                rw [e]; exact V3.norm_nonneg _) _ hc
              have hlen : l.corners.length = l.num := by simp [LatticeData.corners]
              have hgl : gs.length = l.num := by
                rw [← hg.length_eq, List.length_zip, hlen, List.length_map, hcol.length, hl, min_self]
              refine ⟨k, c, xs, vals, gs, t, u, rfl, hd', rfl, ha, hcol, hgl, ?_, ?_⟩
              · intro i hi g hgi
                have hi' : i < (l.corners.zip (vals.map Flt.fin)).length := hg.length_eq ▸ hi
                have := List.Forall₂.get hg hi' hi
                simpa [LatticeData.corners, hgi] using this
              · rw [hd3, hd]
                simp only [Canvas.empty, List.nil_append, List.cons_append, List.cons.injEq, true_and]
                apply List.ext_getElem
                · simp [hlen, hcol.length, hl, hgl]
                · intro i h1 h2
                  simp
          · cases hdata

theorem addPatches_none {size : ℝ} (hs : size ≠ 0) : ∀ (l : List (Corners (V3 ℝ) × Flt ℝ)) {c : Canvas},
    (c.addPatches size l).2 = none
  | [], c => rfl
  | (v, x) :: rest, c => by
    unfold Canvas.addPatches interpolateQuad
    rw [if_neg hs]
    exact addPatches_none hs rest


theorem normaliseValues_ok {data : List (Flt ℝ)} (h : data ≠ []) : ∃ ys, normaliseValues data = .ok ys := by
  unfold normaliseValues
  split
  · exact ⟨_, rfl⟩
  · rename_i he
    cases data with
    | nil => exact absurd rfl h
    | cons x rest =>
      cases x with
      | nonfin => cases he
      | fin y => simp [allFinite] at he
  · dsimp only
    split_ifs <;> exact ⟨_, rfl⟩

/-- Two panels side by side. -/
def plotPanels : LatticeData :=
  ⟨{ Book.empty with numP := 2 }, fun k => if k = 0 then some ⟨⟨0, 0, 0⟩, ⟨0, 1, 0⟩, ⟨1, 1, 0⟩, ⟨1, 0, 0⟩, 0, 0, 0, 0, 0, 0⟩
    else some ⟨⟨0, 1, 0⟩, ⟨0, 2, 0⟩, ⟨1, 2, 0⟩, ⟨1, 1, 0⟩, 0, 0, 0, 0, 0, 0⟩, fun _ => none⟩

theorem eq_none {p : List Plot × Option PyErr} (h : p.2 = none) : p = (p.1, none) := Prod.ext rfl h

/-- Example for C109: a plot of the two values 3 and -1. -/
example : ∃ plots, plotResults plotAc ⟨10, 1, 0, 0, 0, 0, 0⟩ plotPanels
    { VlmData.fresh with panelwise := fun _ => some [.fin 3, .fin (-1)] } ⟨[.str "cp"], true, true⟩
    [.str "cp"] = (plots, none) ∧ ∃ name L c t u g1 g2, plots = [⟨name, true, true, .views L c⟩] ∧
    c.d3 = [.arrow t u, .patch (.fin 1) g1, .patch (.fin 0) g2] := by
  have hsize : aircraftSize plotAc.shape ≠ 0 := by
    intro h0
    have h1 := C54_distance plotAc.shape (p := ⟨1, 4, 0⟩) (q := ⟨0, 0, 0⟩)
      (.vertex (List.mem_singleton.2 rfl) (List.mem_singleton.2 rfl) (by simp)) .origin
    rw [h0] at h1
    have h2 := V3.norm_eq_zero.1 (le_antisymm h1 (V3.norm_nonneg _))
    have := congrArg V3.x h2
    norm_num at this
  have h0 : (plotResults plotAc ⟨10, 1, 0, 0, 0, 0, 0⟩ plotPanels
      { VlmData.fresh with panelwise := fun _ => some [.fin 3, .fin (-1)] } ⟨[.str "cp"], true, true⟩
      [.str "cp"]).2 = none := by
    have hk : "cp" ∈ panelwiseKeys := by decide
    obtain ⟨ys, hy⟩ := normaliseValues_ok (data := [.fin 3, .fin (-1)]) (by simp)
    simp only [plotResults, thenPlot, plot2d3d, Canvas.addResults, VlmData.panelwiseAt, if_pos hk, hy,
      addPatches_none hsize]
  have h := eq_none h0
  refine ⟨_, h, ?_⟩
  have key := C109_results _ _ (by norm_num) _ _ _ _ _ ?_ h
  · obtain ⟨plot, rest, ⟨k, c, xs, vals, gs, t, u, -, h2, h3, -, h4, h5, -, h6⟩, h7, h8⟩ :=
      List.forall₂_cons_left_iff.1 key
    rw [List.forall₂_nil_left_iff] at h7
    subst h7
    have h2 : [Flt.fin (3 : ℝ), .fin (-1)] = xs.map .fin := Option.some.inj h2
    have hx : xs = [3, -1] := by
      match xs, h2 with
      | [a, b], h2 => simpa [eq_comm] using h2
    subst hx
    have h5 : gs.length = 2 := h5
    obtain ⟨g1, g2, rfl⟩ := List.length_eq_two.1 h5
    obtain ⟨v1, v2, rfl⟩ := List.length_eq_two.1 h4.length
    have r1 := h4.range v1 (by simp)
    have r2 := h4.range v2 (by simp)
    have m := h4.mono 0 1 (by simp) (by simp)
    have lo := h4.lowest
    have hi := h4.highest ⟨3, by simp, -1, by simp, by norm_num⟩
    norm_num at m
    simp only [List.mem_cons, List.not_mem_nil, or_false] at lo hi
    have e1 : v1 = 1 := by
      rcases hi with hi | hi
      · exact hi.symm
      · rcases lo with lo | lo <;> linarith
    have e2 : v2 = 0 := by
      rcases lo with lo | lo
      · linarith
      · exact lo.symm
    subst e1 e2
    exact ⟨_, _, c, t, u, g1, g2, by rw [h8, h3], h6⟩
  · intro k _ data hd
    cases hd
    exact ⟨[3, -1], rfl, rfl⟩

end Verif
