import Verif.Model.Program

/-!
# Plots

Model of `/repo/src/lib/pytornado/plot/plottools.py`, `plot/makeplots.py`, `plot/downwash.py` and of
their call in `standard_run` (`stdfun/run.py:139`): what is drawn into which view, the limits of the
axes, which figures are made, and the exceptions of this code.

Simplifications: exact real arithmetic; matplotlib only collects what it is told to draw and never
fails; titles, labels, line widths, markers, text and the colour bar are left out; a figure that is saved
gets the name of the plot, time and extension are left out; that `make_all` writes the directory of the
plots into the settings (`makeplots.py:54`) is left out; the points of deformation fields are left
out (fields are functions here).
-/

namespace Verif

/-! ## What is drawn -/

/-- One object on a pair of axes; points are of type `α`. -/
inductive Mark (α : Type*)
  /-- `axes.plot` -/
  | line (colour : String) (points : List α)
  /-- `axes.scatter` of one point -/
  | cross (point : α)
  /-- `axes.quiver` -/
  | arrow (tail : α) (vector : α)
  /-- `axes.plot_surface`, `axes.fill` with the colour at a position of the colour map -/
  | patch (value : Flt ℝ) (points : List (List α))

/-- The content of the four axes of a plot: 3D, and the three planes. -/
structure Canvas where
  d3 : List (Mark (V3 ℝ))
  yz : List (Mark (ℝ × ℝ))
  xz : List (Mark (ℝ × ℝ))
  xy : List (Mark (ℝ × ℝ))

/-- Empty axes. -/
def Canvas.empty : Canvas := ⟨[], [], [], []⟩

/-- `_plot_XYZ_points` (`plottools.py:709-751`).  All lines have the colour of the primary side. -/
def Canvas.plotXYZ (c : Canvas) (colour : String) (pts : List (V3 ℝ)) (symmetry : Option ℕ) : Canvas :=
  let c1 : Canvas :=
    ⟨c.d3 ++ [.line colour pts], c.yz ++ [.line colour (pts.map fun p => (p.y, p.z))],
     c.xz ++ [.line colour (pts.map fun p => (p.x, p.z))],
     c.xy ++ [.line colour (pts.map fun p => (p.x, p.y))]⟩
  if symmetry = some 1 then
    { c1 with
      d3 := c1.d3 ++ [.line colour (pts.map fun p => ⟨p.x, p.y, -p.z⟩)]
      yz := c1.yz ++ [.line colour (pts.map fun p => (p.y, -p.z))]
      xz := c1.xz ++ [.line colour (pts.map fun p => (p.x, -p.z))] }
  else if symmetry = some 2 then
    { c1 with
      d3 := c1.d3 ++ [.line colour (pts.map fun p => ⟨p.x, -p.y, p.z⟩)]
      yz := c1.yz ++ [.line colour (pts.map fun p => (-p.y, p.z))]
      xy := c1.xy ++ [.line colour (pts.map fun p => (p.x, -p.y))] }
  else if symmetry = some 3 then
    { c1 with
      d3 := c1.d3 ++ [.line colour (pts.map fun p => ⟨-p.x, p.y, p.z⟩)]
      xz := c1.xz ++ [.line colour (pts.map fun p => (-p.x, p.z))]
      xy := c1.xy ++ [.line colour (pts.map fun p => (-p.x, p.y))] }
  else c1

/-- `add_CG` (`plottools.py:360-401`). -/
def Canvas.addCG (c : Canvas) (g : V3 ℝ) : Canvas :=
  ⟨c.d3 ++ [.cross g], c.yz ++ [.cross (g.y, g.z)], c.xz ++ [.cross (g.x, g.z)],
   c.xy ++ [.cross (g.x, g.y)]⟩

/-- The segments with their wings in the order of `all_segments` (`objecttools.py:46-61`). -/
def LoadedAircraft.segmentsOf (ac : LoadedAircraft) : List (LoadedSegment × LoadedWing) :=
  ac.wings.flatMap fun w => w.segments.map fun s => (s, w)

/-- The controls with their wings in the order of `all_controls` (`objecttools.py:64-79`). -/
def LoadedAircraft.controlsOf (ac : LoadedAircraft) : List (FileControl × LoadedWing) :=
  ac.wings.flatMap fun w => w.controls.map fun s => (s, w)

/-- The closed outline of a segment (`plottools.py:346-350`, `416-422`). -/
def Corners.outline (v : Corners (V3 ℝ)) : List (V3 ℝ) := [v.a, v.b, v.c, v.d, v.a]

/-- `add_wings` (`plottools.py:404-423`). -/
def Canvas.addWings (c : Canvas) (ac : LoadedAircraft) : Canvas :=
  ac.segmentsOf.foldl (fun c s =>
    c.plotXYZ "grey" s.1.gen.vertices.outline (some s.2.symmetry)) c

/-- `parent_wing.segments[name].vertices`. -/
def LoadedWing.verticesOf (w : LoadedWing) (name : String) : Except PyErr (Corners (V3 ℝ)) :=
  match w.segments.find? fun s => s.uid == name with
  | none => .error .keyError
  | some s => .ok s.gen.vertices

/-- `WingControl.abs_vertices` (`aircraft.py:1438-1464`). -/
noncomputable def LoadedWing.controlVertices (w : LoadedWing) (c : ControlDef ℝ) :
    Except PyErr (Corners (V3 ℝ)) :=
  match w.verticesOf c.segInner with
  | .error e => .error e
  | .ok inner =>
    match w.verticesOf c.segOuter with
    | .error e => .error e
    | .ok outer =>
      if c.deviceType = some "flap" then
        .ok ⟨segPoint inner c.etaInner c.xsiInner, segPoint outer c.etaOuter c.xsiOuter,
          segPoint outer c.etaOuter 1, segPoint inner c.etaInner 1⟩
      else if c.deviceType = some "slat" then
        .ok ⟨segPoint inner c.etaInner 0, segPoint outer c.etaOuter 0,
          segPoint outer c.etaOuter c.xsiOuter, segPoint inner c.etaInner c.xsiInner⟩
      else .error .unboundLocal

/-- `WingControl.abs_hinge_vertices` (`aircraft.py:1466-1483`). -/
noncomputable def LoadedWing.hingeVertices (w : LoadedWing) (c : ControlDef ℝ) :
    Except PyErr (V3 ℝ × V3 ℝ) :=
  match w.verticesOf c.segInner with
  | .error e => .error e
  | .ok inner =>
    match w.verticesOf c.segOuter with
    | .error e => .error e
    | .ok outer => .ok (segPoint inner c.etaInner c.hingeInner, segPoint outer c.etaOuter c.hingeOuter)

/-- The three visible edges of a control (`plottools.py:446-448`). -/
def ControlDef.visible (c : ControlDef ℝ) (v : Corners (V3 ℝ)) : List (V3 ℝ) :=
  if c.deviceType = some "flap" then [v.d, v.a, v.b, v.c] else [v.b, v.c, v.d, v.a]

/-- `add_controls` (`plottools.py:433-456`): what has been drawn when an exception ends the loop stays
drawn. -/
noncomputable def Canvas.addControls (c : Canvas) : List (FileControl × LoadedWing) → Canvas × Option PyErr
  | [] => (c, none)
  | (k, w) :: rest =>
    match w.controlVertices k.data with
    | .error e => (c, some e)
    | .ok v =>
      let colour := if k.data.deviceType = some "flap" then "red" else "green"
      let c1 := c.plotXYZ colour (k.data.visible v) (some w.symmetry)
      match w.hingeVertices k.data with
      | .error e => (c1, some e)
      | .ok h => Canvas.addControls (c1.plotXYZ "blue" [h.1, h.2] (some w.symmetry)) rest

/-- `lattice.p`: the corner points of the panels. -/
noncomputable def LatticeData.corners (l : LatticeData) : List (Corners (V3 ℝ)) :=
  (List.range l.num).map fun k : ℕ => match l.pts (k : ℤ) with
    | some g => ⟨g.p, g.q, g.r, g.s⟩
    | none => ⟨0, 0, 0, 0⟩

/-- `add_lattice` (`plottools.py:506-520`). -/
noncomputable def Canvas.addLattice (c : Canvas) (l : LatticeData) : Canvas :=
  l.corners.foldl (fun c v => c.plotXYZ "black" v.outline none) c

open scoped Classical in
/-- `add_freestream_vector` (`plottools.py:653-666`) with the tip at the origin and length 3.  Without
airspeed the direction is not a number and nothing is drawn. -/
noncomputable def Canvas.addFreestream (c : Canvas) (s : FlowState) : Canvas :=
  let v := pyFreestream s.airspeed s.alpha s.beta
  if v.norm = 0 then c
  else
    let u := (3 : ℝ) • ((1 / v.norm) • v)
    { c with d3 := c.d3 ++ [.arrow (0 - u) u] }

/-! ## Results -/

/-- `np.linspace(0.0, 1.0, num=n)` for at least two points. -/
noncomputable def linspace01 (n : ℕ) : List ℝ := (List.range n).map fun i : ℕ => (i : ℝ) / ((n : ℝ) - 1)

/-- The number of points in a direction (`plottools.py:191-192`). -/
noncomputable def quadPoints (f size : ℝ) : ℕ := (2 + ⌈100 * f / size⌉).toNat

open scoped Classical in
/-- `interpolate_quad` (`plottools.py:176-214`): rows of points.  Without size the numbers of points are
not numbers: `int` raises ValueError for NaN (OverflowError for infinity, not distinguished). -/
noncomputable def interpolateQuad (v : Corners (V3 ℝ)) (size : ℝ) :
    Except PyErr (List (List (V3 ℝ))) :=
  if size = 0 then .error .valueError
  else
    let fr := 1 / 2 * (v.b - v.a).norm + 1 / 2 * (v.c - v.d).norm
    let fs := 1 / 2 * (v.d - v.a).norm + 1 / 2 * (v.c - v.b).norm
    .ok ((linspace01 (quadPoints fs size)).map fun s => (linspace01 (quadPoints fr size)).map fun r =>
      v.a + r • (v.b - v.a) + s • (v.d - v.a) + (r * s) • (v.a - v.b + v.c - v.d))

/-- All numbers of a list, if all of them are finite. -/
def allFinite : List (Flt ℝ) → Option (List ℝ)
  | [] => some []
  | .fin x :: rest => (allFinite rest).map (x :: ·)
  | .nonfin :: _ => none

open scoped Classical in
/-- Values scaled to the range from 0 to 1 (`plottools.py:685-691`); `max` and `min` raise ValueError
for an empty list.  Simplification: if a value is not finite then none of the scaled values is. -/
noncomputable def normaliseValues (data : List (Flt ℝ)) : Except PyErr (List (Flt ℝ)) :=
  match allFinite data with
  | none => .ok (data.map fun _ => .nonfin)
  | some [] => .error .valueError
  | some (x :: rest) =>
    let hi := rest.foldl max x
    let lo := rest.foldl min x
    if hi - lo ≠ 0 then .ok ((x :: rest).map fun y => .fin ((y - lo) / (hi - lo)))
    else .ok ((x :: rest).map fun _ => .fin 0)

/-- The loop over panels and values (`plottools.py:693-701`). -/
noncomputable def Canvas.addPatches (c : Canvas) (size : ℝ) :
    List (Corners (V3 ℝ) × Flt ℝ) → Canvas × Option PyErr
  | [] => (c, none)
  | (v, x) :: rest =>
    match interpolateQuad v size with
    | .error e => (c, some e)
    | .ok g => Canvas.addPatches
        ⟨c.d3 ++ [.patch x g], c.yz ++ [.patch x (g.map fun r => r.map fun p => (p.y, p.z))],
         c.xz ++ [.patch x (g.map fun r => r.map fun p => (p.x, p.z))],
         c.xy ++ [.patch x (g.map fun r => r.map fun p => (p.x, p.y))]⟩ size rest

/-- The sizes read by `Aircraft.size` and the axes. -/
def LoadedAircraft.shape (ac : LoadedAircraft) : List (ℕ × List (Corners (V3 ℝ))) :=
  ac.wings.map fun w => (w.symmetry, w.segments.map fun s => s.gen.vertices)

/-- `vlmdata.panelwise[key]` for an entry of the settings: only strings are keys, lists and
dictionaries cannot be looked up. -/
def VlmData.panelwiseAt (v : VlmData) : PyVal → Except PyErr (List (Flt ℝ))
  | .str k =>
    if k ∈ panelwiseKeys then
      match v.panelwise k with
      | some c => .ok c
      | none => .error .typeError
    else .error .keyError
  | .list _ => .error .typeError
  | .dict _ => .error .typeError
  | _ => .error .keyError

/-- `add_results` (`plottools.py:669-706`). -/
noncomputable def Canvas.addResults (c : Canvas) (ac : LoadedAircraft) (l : LatticeData) (v : VlmData)
    (key : PyVal) : Canvas × Option PyErr :=
  match v.panelwiseAt key with
  | .error e => (c, some e)
  | .ok data =>
    match normaliseValues data with
    | .error e => (c, some e)
    | .ok values => c.addPatches (aircraftSize ac.shape) (l.corners.zip values)

/-! ## Axes -/

/-- `points.min(axis=0)`, `points.max(axis=0)` for one coordinate. -/
noncomputable def coordMin (f : V3 ℝ → ℝ) : List (V3 ℝ) → ℝ
  | [] => 0
  | p :: rest => rest.foldl (fun m q => min m (f q)) (f p)

@[inherit_doc coordMin] noncomputable def coordMax (f : V3 ℝ → ℝ) : List (V3 ℝ) → ℝ
  | [] => 0
  | p :: rest => rest.foldl (fun m q => max m (f q)) (f p)

/-- `_get_limits` (`plottools.py:91-138`): the box of lower and upper limits is widened. -/
noncomputable def BBox.getLimits (box : BBox) (points : List (V3 ℝ)) (symmetry : ℕ) : BBox :=
  let mn : V3 ℝ := ⟨coordMin V3.x points, coordMin V3.y points, coordMin V3.z points⟩
  let mx : V3 ℝ := ⟨coordMax V3.x points, coordMax V3.y points, coordMax V3.z points⟩
  let b : BBox :=
    ⟨⟨lower box.lo.x mn.x, lower box.lo.y mn.y, lower box.lo.z mn.z⟩,
     ⟨raise box.hi.x mx.x, raise box.hi.y mx.y, raise box.hi.z mx.z⟩⟩
  if symmetry = 1 then
    ⟨{ b.lo with z := lower b.lo.z (-mx.z) }, { b.hi with z := raise b.hi.z (-mn.z) }⟩
  else if symmetry = 2 then
    ⟨{ b.lo with y := lower b.lo.y (-mx.y) }, { b.hi with y := raise b.hi.y (-mn.y) }⟩
  else if symmetry = 3 then
    ⟨{ b.lo with x := lower b.lo.x (-mx.x) }, { b.hi with x := raise b.hi.x (-mn.x) }⟩
  else b

/-- The limits of all segments (`plottools.py:343-351`). -/
noncomputable def LoadedAircraft.limits (ac : LoadedAircraft) : BBox :=
  ac.segmentsOf.foldl (fun box s => box.getLimits s.1.gen.vertices.outline s.2.symmetry) ⟨0, 0⟩

/-- The range of a coordinate with centre `mid` (`plottools.py:156-165`; `SCALE_FACTOR` is 1.05). -/
noncomputable def axisRange (mid half : ℝ) : ℝ × ℝ :=
  (mid - 105 / 100 * half, mid + 105 / 100 * half)

/-- Limits of the axes of a plot: 3D (x, y, z), and the planes (`plottools.py:331-357`). -/
structure AxesLimits where
  d3 : (ℝ × ℝ) × (ℝ × ℝ) × (ℝ × ℝ)
  yz : (ℝ × ℝ) × (ℝ × ℝ)
  xz : (ℝ × ℝ) × (ℝ × ℝ)
  xy : (ℝ × ℝ) × (ℝ × ℝ)

/-- `_scale_plots` with `_scale_fig` (`plottools.py:141-173`, `331-357`). -/
noncomputable def scalePlots (box : BBox) : AxesLimits :=
  let half := 1 / 2 * max (max (box.hi.x - box.lo.x) (box.hi.y - box.lo.y)) (box.hi.z - box.lo.z)
  let x := axisRange (1 / 2 * (box.hi.x + box.lo.x)) half
  let y := axisRange (1 / 2 * (box.hi.y + box.lo.y)) half
  let z := axisRange (1 / 2 * (box.hi.z + box.lo.z)) half
  ⟨(x, y, z), (y, z), (x, z), (x, y)⟩

/-! ## Figures -/

/-- Settings of one kind of plots (`settings.py:39-43`). -/
structure PlotOpts where
  opt : List PyVal
  show_ : Bool
  save : Bool

/-- `any((save, show))` (`makeplots.py:57-60`). -/
def PlotOpts.wanted (o : PlotOpts) : Bool := o.save || o.show_

/-- `settings.settings['plot'][name]`. -/
def SettingsObj.plot (s : SettingsObj) (name : String) : PlotOpts :=
  match s.settings.lookup "plot" with
  | some (.dict p) =>
    match p.lookup name with
    | some (.dict g) =>
      ⟨match g.lookup "opt" with
        | some (.list l) => l
        | _ => [],
       match g.lookup "show" with
        | some v => v.truthy
        | none => false,
       match g.lookup "save" with
        | some v => v.truthy
        | none => false⟩
    | _ => ⟨[], false, false⟩
  | _ => ⟨[], false, false⟩

/-- What `show_and_save` (`plottools.py:481-503`) gets: the matrix, or a plot in 2D and 3D. -/
inductive PlotContent
  | matrix (rows : List (List ℝ))
  | views (limits : AxesLimits) (canvas : Canvas)

/-- A plot that has been made: its name, whether it has been saved and shown, and what is on it. -/
structure Plot where
  name : String
  saved : Bool
  shown : Bool
  content : PlotContent

/-- `plot2d3d` (`plottools.py:217-250`): the plot is shown and saved also if the drawing ends in an
exception. -/
noncomputable def plot2d3d (ac : LoadedAircraft) (name : String) (o : PlotOpts)
    (drawn : Canvas × Option PyErr) : List Plot × Option PyErr :=
  ([⟨name, o.save, o.show_, .views (scalePlots ac.limits) drawn.1⟩], drawn.2)

/-- One statement after another; an exception ends the sequence. -/
def thenPlot (p : List Plot × Option PyErr) (q : List Plot × Option PyErr) : List Plot × Option PyErr :=
  match p.2 with
  | some e => (p.1, some e)
  | none => (p.1 ++ q.1, q.2)

/-- `if evaluate_plot(plot_settings): …` (`makeplots.py:62-77`). -/
def plotIf (o : PlotOpts) (p : List Plot × Option PyErr) : List Plot × Option PyErr :=
  if o.wanted then p else ([], none)

/-- `view_downwash` (`downwash.py:40-66`). -/
def viewDownwash (v : VlmData) (o : PlotOpts) : List Plot × Option PyErr :=
  match v.matrix with
  | none => ([], some .typeError)
  | some A => ([⟨"downwash", o.save, o.show_, .matrix A⟩], none)

/-- `plot_geometry_aircraft` (`makeplots.py:80-93`). -/
noncomputable def plotGeometry (ac : LoadedAircraft) (o : PlotOpts) : List Plot × Option PyErr :=
  plot2d3d ac "geometry" o (((Canvas.empty.addCG ac.refs.gcenter).addWings ac).addControls ac.controlsOf)

/-- `Aircraft.has_deformed_wings` (`aircraft.py:217-224`). -/
def hasDeformedWings (defs : ODict (DefWing (DefField ℝ))) : Bool :=
  defs.any fun d => d.2.defField.isSome || d.2.defFieldMirror.isSome

/-- `plot_lattice_aircraft` (`makeplots.py:96-115`). -/
noncomputable def plotLattice (ac : LoadedAircraft) (defs : ODict (DefWing (DefField ℝ)))
    (l : LatticeData) (o : PlotOpts) : List Plot × Option PyErr :=
  let c := (Canvas.empty.addCG ac.refs.gcenter).addLattice l
  plot2d3d ac "lattice" o (if hasDeformedWings defs then (c, none) else c.addControls ac.controlsOf)

/-- `f'results_{key}'` for strings; other values stand for themselves by an empty name. -/
def resultsPlotName : PyVal → String
  | .str k => "results_" ++ k
  | _ => "results_"

/-- `plot_results_aircraft` (`makeplots.py:118-131`): one plot after another. -/
noncomputable def plotResults (ac : LoadedAircraft) (s : FlowState) (l : LatticeData) (v : VlmData)
    (o : PlotOpts) : List PyVal → List Plot × Option PyErr
  | [] => ([], none)
  | key :: rest =>
    thenPlot (plot2d3d ac (resultsPlotName key) o
        ((Canvas.empty.addFreestream s).addResults ac l v key))
      (plotResults ac s l v o rest)

/-- `make_all` (`makeplots.py:37-77`). -/
noncomputable def makeAll (set : SettingsObj) (ac : LoadedAircraft)
    (defs : ODict (DefWing (DefField ℝ))) (s : FlowState) (v : VlmData) (l : LatticeData) :
    List Plot × Option PyErr :=
  thenPlot (plotIf (set.plot "matrix_downwash") (viewDownwash v (set.plot "matrix_downwash")))
    (thenPlot (plotIf (set.plot "geometry") (plotGeometry ac (set.plot "geometry")))
      (thenPlot (plotIf (set.plot "lattice") (plotLattice ac defs l (set.plot "lattice")))
        (plotIf (set.plot "results")
          (plotResults ac s l v (set.plot "results") (set.plot "results").opt))))

/-! ## Runs with plots -/

/-- Plots of a run: number of the flight state and plot. -/
abbrev Plots := List (ℕ × Plot)

/-- The plots of flight state `i` after the pass with result `x` (`run.py:139`). -/
noncomputable def stepPlots (set : SettingsObj) (ac : LoadedAircraft)
    (defs : ODict (DefWing (DefField ℝ))) (st : FlightSt ℝ) (i : ℕ) (x : LoopSt) :
    List Plot × Option PyErr :=
  match st.current i, x.lattice with
  | .ok cur, some l =>
    match cur.toFlow with
    | some s => makeAll set ac defs s x.vlm l
    | none => ([], none)
  | _, _ => ([], none)

/-- The loop of a run with plots (`run.py:110-164`).  Simplification: the values of a flight state are
appended to the table before its plots are made, not after; the table is not observable if the plots
end in an exception. -/
noncomputable def runLoopPlots (env : RunEnv) (set : SettingsObj) (acl : LoadedAircraft)
    (defs : ODict (DefWing (DefField ℝ))) (st : FlightSt ℝ) : ℕ → ℕ → LoopSt → Plots →
    Except (Stop × Files × Plots) (LoopSt × Plots)
  | 0, _, x, ps => .ok (x, ps)
  | k + 1, i, x, ps =>
    match runStep env st i x with
    | .error e => .error (e, x.files, ps)
    | .ok x' =>
      let p := stepPlots set acl defs st i x'
      let ps' := ps ++ p.1.map fun q => (i, q)
      match p.2 with
      | some e => .error (.raised e, x'.files, ps')
      | none => runLoopPlots env set acl defs st k (i + 1) x' ps'

/-- `standard_run` with plots, after loading (`run.py:104-182`). -/
noncomputable def standardRunPlots (env : RunEnv) (set : SettingsObj) (acl : LoadedAircraft)
    (defs : ODict (DefWing (DefField ℝ))) (ac : PAircraft ℝ) (st : FlightSt ℝ) :
    Except (Stop × Files × Plots) (RunOut × Plots) :=
  match setAutopanels env.autoC env.autoS ac with
  | .error e => .error (.raised e, [], [])
  | .ok ac1 =>
    match runLoopPlots env set acl defs st st.num 0 ⟨ac1, VlmData.fresh, Table.fresh, [], none⟩ [] with
    | .error e => .error e
    | .ok (x, ps) =>
      match saveCpacsMap env x.table with
      | .error e => .error (.raised e, x.files, ps)
      | .ok fs =>
        let files := x.files ++ fs ++ saveNativeMap env st.aero x.table
        match x.lattice with
        | none => .error (.raised .unboundLocal, files, ps)
        | some l => .ok (⟨l, x.vlm, x.table, files⟩, ps)

/-- `standard_run` (`run.py:84-182`) with plots. -/
noncomputable def runProjectPlots (W : World) (P : Project) :
    Except (Stop × Files × Plots) (RunOut × Plots) :=
  match loadProject W P with
  | .error e => .error (.raised e, [], [])
  | .ok x => standardRunPlots (x.env W P) x.settings x.aircraft x.defs x.aircraft.toP x.state

end Verif
