import Verif.Model.PrePanel

/-!
# Component iterators and panel bookkeeping

Model of `/repo/src/lib/pytornado/objects/objecttools.py`, of the bookkeeping part of
`objects/vlm_struct.py` and of the counting part of `gen_lattice` (`aero/vlm.py:269-354`).
-/

namespace Verif

/-- A `StripSubdivision` as the iterators hand it out (`objects/aircraft.py:1762-1805`): its
type, its corners and its parent control (`None` for the `'segment'` subarea). -/
structure Subarea (K : Type*) where
  type : String
  quad : Quad K
  ctrl : Option Control
  deriving DecidableEq, Repr

section
variable {K : Type*}

/-- `SegmentStrip.subarea.items()` (`objects/aircraft.py:1568-1575, 1688-1708`): `'segment'`
first, then the devices in the order in which they were added. -/
def Strip.subareas (s : Strip K) : List (Subarea K) :=
  ⟨"segment", s.main, none⟩ :: s.keys.filterMap fun k =>
    if k = "slat" then s.slat.map fun d => ⟨"slat", d.toQuad, some d.ctrl⟩
    else if k = "flap" then s.flap.map fun d => ⟨"flap", d.toQuad, some d.ctrl⟩
    else none

/-- `enumerate(l)`. -/
def enumFrom' {α : Type*} : ℕ → List α → List (ℕ × α)
  | _, [] => []
  | n, a :: rest => (n, a) :: enumFrom' (n + 1) rest

/-- A generator with an inner loop: what `for x in xs: for y in f x: yield (y, x)` yields. -/
def nested {α β : Type*} (f : α → List β) : List α → List (β × α)
  | [] => []
  | a :: rest => (f a).map (fun b => (b, a)) ++ nested f rest

/-- `all_wings` (`objecttools.py:30-43`).  Simplification here and below: the name in the yielded
tuple is not repeated, it is part of the object. -/
def allWings (ac : PAircraft K) : List (ℕ × PWing K) := enumFrom' 0 ac.wings

/-- `all_segments` (`objecttools.py:46-61`). -/
def allSegments (ac : PAircraft K) : List ((ℕ × PSegment K) × (ℕ × PWing K)) :=
  nested (fun w => enumFrom' 0 w.2.segments) (allWings ac)

/-- `all_controls` (`objecttools.py:64-79`). -/
def allControls (ac : PAircraft K) : List ((ℕ × PControl K) × (ℕ × PWing K)) :=
  nested (fun w => enumFrom' 0 w.2.controls) (allWings ac)

/-- `all_subdivisions` (`objecttools.py:82-98`). -/
def allSubdivisions (ac : PAircraft K) :
    List ((ℕ × Strip K) × (ℕ × PSegment K) × (ℕ × PWing K)) :=
  nested (fun s => enumFrom' 0 s.1.2.strips) (allSegments ac)

/-- `all_subareas` (`objecttools.py:101-118`). -/
def allSubareas (ac : PAircraft K) :
    List ((ℕ × Subarea K) × (ℕ × Strip K) × (ℕ × PSegment K) × (ℕ × PWing K)) :=
  nested (fun s => enumFrom' 0 s.1.2.subareas) (allSubdivisions ac)

/-- The counting loops `n += 1` of `count_all_*` (`objecttools.py:138-203`). -/
def countLoop {α : Type*} : ℕ → List α → ℕ
  | n, [] => n
  | n, _ :: rest => countLoop (n + 1) rest

/-- `count_all_wings` (`objecttools.py:138-152`). -/
def countAllWings (ac : PAircraft K) : ℕ := countLoop 0 (allWings ac)
/-- `count_all_segments` (`objecttools.py:155-169`). -/
def countAllSegments (ac : PAircraft K) : ℕ := countLoop 0 (allSegments ac)
/-- `count_all_controls` (`objecttools.py:172-186`). -/
def countAllControls (ac : PAircraft K) : ℕ := countLoop 0 (allControls ac)
/-- `count_all_subareas` (`objecttools.py:189-203`). -/
def countAllSubareas (ac : PAircraft K) : ℕ := countLoop 0 (allSubareas ac)

/-- `list(all_subareas_of_control(aircraft, uid))` (`objecttools.py:121-135`): the attribute
access `parent_control.uid` raises if the parent control is `None`. -/
def subareasOfControl (uid : String) : List (ℕ × Subarea K) → Except PyErr (List (ℕ × Subarea K))
  | [] => .ok []
  | s :: rest =>
    match s.2.ctrl with
    | none => .error .attributeError
    | some c =>
      match subareasOfControl uid rest with
      | .error e => .error e
      | .ok l => .ok (if c.uid = uid then s :: l else l)

/-- `list(all_subareas_of_control(aircraft, uid))` (`objecttools.py:121-135`). -/
def allSubareasOfControl (ac : PAircraft K) (uid : String) :
    Except PyErr (List (ℕ × Subarea K)) :=
  subareasOfControl uid ((allSubareas ac).map Prod.fst)

end

/-- Where a subarea sits: numbers of wing, segment, strip and subarea.  It stands for the object
reference kept in `BookKeepingEntry.subarea`. -/
structure SubPath where
  wing : ℕ
  seg : ℕ
  strip : ℕ
  sub : ℕ
  deriving DecidableEq, Repr

/-- `BookKeepingEntry` (`objects/vlm_struct.py:33-36`); `pan_idx = range(start, stop)`,
`wingUid` is `subarea.parent_wing.uid`. -/
structure BookEntry where
  path : SubPath
  wingUid : String
  start : ℤ
  stop : ℤ
  numC : ℤ
  mirror : Bool
  deriving DecidableEq, Repr

/-- Bookkeeping part of `VLMLattice` (`vlm_struct.py:85-87`) together with the counters of
`gen_lattice` (`vlm.py:275-277`).  The two `defaultdict(list)` are functions. -/
structure Book where
  entries : List BookEntry
  byWing : String → List BookEntry
  byWingMirror : String → List BookEntry
  numSub : ℤ
  numR : ℤ
  numP : ℤ

/-- `clean_bookkeeping` (`vlm_struct.py:103-110`) and the zeros of `vlm.py:275-277`. -/
def Book.empty : Book := ⟨[], fun _ => [], fun _ => [], 0, 0, 0⟩

/-- `update_bookkeeping` (`vlm_struct.py:89-101`). -/
def Book.update (b : Book) (e : BookEntry) : Book :=
  if e.mirror then
    { b with
      entries := b.entries ++ [e]
      byWingMirror := fun u => if u = e.wingUid then b.byWingMirror u ++ [e] else b.byWingMirror u }
  else
    { b with
      entries := b.entries ++ [e]
      byWing := fun u => if u = e.wingUid then b.byWing u ++ [e] else b.byWing u }

section
variable {K : Type*} [Field K] [LinearOrder K] [FloorRing K]

/-- Number of chordwise panels of a subarea (`vlm.py:289-297`).  The parent control is found
through its uid in the wing (in the code it is an object reference).  A missing number (`None`)
raises `TypeError` in the product or in the following `+=`. -/
def chordPanels (w : PWing K) (seg : PSegment K) (sa : Subarea K) : Except PyErr ℤ :=
  let numC := match sa.ctrl with
    | some c => (w.controls.find? fun p : PControl K => decide (p.uid = c.uid)).bind PControl.numC
    | none => seg.numC
  match numC with
  | none => .error .typeError
  | some n => .ok (if sa.type = "segment" then ⌈sa.quad.relLength * (n : K)⌉ else n)

/-- Body of the counting loop (`vlm.py:280-314`). -/
def countStep (b : Book)
    (t : (ℕ × Subarea K) × (ℕ × Strip K) × (ℕ × PSegment K) × (ℕ × PWing K)) :
    Except PyErr Book :=
  match chordPanels t.2.2.2.2 t.2.2.1.2 t.1.2 with
  | .error e => .error e
  | .ok n =>
    let path : SubPath := ⟨t.2.2.2.1, t.2.2.1.1, t.2.1.1, t.1.1⟩
    let wing := t.2.2.2.2
    let b1 := { b with numSub := b.numSub + 1, numR := b.numR + n, numP := b.numP + n }.update
      ⟨path, wing.uid, b.numP, b.numP + n, n, false⟩
    if wing.symmetry ≠ 0 then
      .ok ({ b1 with numSub := b1.numSub + 1, numR := b1.numR + n, numP := b1.numP + n }.update
        ⟨path, wing.uid, b1.numP, b1.numP + n, n, true⟩)
    else .ok b1

/-- The counting loop from a given state. -/
def countFrom : Book →
    List ((ℕ × Subarea K) × (ℕ × Strip K) × (ℕ × PSegment K) × (ℕ × PWing K)) → Except PyErr Book
  | b, [] => .ok b
  | b, t :: rest =>
    match countStep b t with
    | .error e => .error e
    | .ok b' => countFrom b' rest

/-- "PANEL COUNT AND BOOK KEEPING" of `gen_lattice` (`vlm.py:269-321`). -/
def genBook (ac : PAircraft K) : Except PyErr Book := countFrom Book.empty (allSubareas ac)

end

/-- `array_panels` (`vlm.py:333-351`): row `[1, num_chordwise_panels]` for each entry. -/
def Book.panelTable (b : Book) : List (ℤ × ℤ) := b.entries.map fun e => (1, e.numC)

/-- Length of `array_symmetry` after the override (`vlm.py:354`): one flag per *panel*. -/
def Book.symLength (b : Book) : ℤ := b.numP

/-- Positions of `sym` read by `vlm_lattice` (`c_lattice.cpp:74-98`): one per subarea
(`info->num_seg` is `info['num_segments'] = num_subareas`, `vlm.py:324`). -/
def Book.symReads (b : Book) : List ℕ := List.range b.numSub.toNat

end Verif
