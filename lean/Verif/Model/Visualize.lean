/-
`nuto/visualize`: the unstructured grid, the handlers that fill it, the visualizer, the binary vtu file and
the pvd collection.

Simplifications: values are elements of a type `K`, their conversion to `float` is a parameter of the
export (`enc`, giving the four bytes as a number).  The xml text of a vtu file is represented by the attributes
of its `DataArray` elements in order; the appended data block is modelled byte by byte (little endian).
Only the binary format is modelled.  A cell is what the handlers see of it: its shape and its functions
`Interpolate` and `Eval`.  Files open successfully.
-/
import Verif.Model.Serialize
import Mathlib.Algebra.Field.Defs

namespace NuTo.Visualize

/-- `nuto/visualize/VisualizeEnum.h` 6-22 -/
inductive CellType where
  | vertex | line | triangle | quad | tetraeder | hexahedron | polygon | wedge | pyramid
  | line2 | triangle2 | quad2 | tetraeder2 | hexahedron2
deriving DecidableEq, Repr

/-- `nuto/visualize/XMLWriter.cpp` 12-46 -/
def CellType.toVtk : CellType → Nat
  | .vertex => 1
  | .hexahedron => 12
  | .line => 3
  | .quad => 9
  | .tetraeder => 10
  | .triangle => 5
  | .polygon => 7
  | .wedge => 13
  | .pyramid => 14
  | .line2 => 21
  | .triangle2 => 22
  | .quad2 => 23
  | .tetraeder2 => 24
  | .hexahedron2 => 25

/-- `nuto/visualize/Point.h` 15-34 -/
structure Point (K : Type) where
  coords : K × K × K
  data : List (List K)
deriving DecidableEq

/-- `nuto/visualize/Cell.h` 12-46 -/
structure Cell (K : Type) where
  pointIds : List Int
  cellType : CellType
  data : List (List K)
deriving DecidableEq

/-- `nuto/visualize/UnstructuredGrid.h` 18-95 -/
structure Grid (K : Type) where
  points : List (Point K)
  cells : List (Cell K)
  pointDataNames : List String
  cellDataNames : List String
deriving DecidableEq

/-- an empty grid -/
def Grid.empty {K : Type} : Grid K := ⟨[], [], [], []⟩

section grid
variable {K : Type}

/-- `nuto/math/EigenCompanion.h` 16-22: an assertion of Eigen fails for more than three components. -/
def to3D [Zero K] : List K → Res (K × K × K)
  | [] => .ok (0, 0, 0)
  | [x] => .ok (x, 0, 0)
  | [x, y] => .ok (x, y, 0)
  | [x, y, z] => .ok (x, y, z)
  | _ => .ub

/-- `nuto/visualize/UnstructuredGrid.cpp` 14-18 and `Point.cpp` 7-10 -/
def Grid.addPoint [Zero K] (g : Grid K) (coords : List K) : Res (Grid K × Nat) :=
  (to3D coords).bind fun c => .ok ({ g with points := g.points ++ [⟨c, []⟩] }, g.points.length)

/-- `nuto/visualize/UnstructuredGrid.cpp` 20-33: only too large ids are rejected. -/
def Grid.addCell (g : Grid K) (pointIds : List Int) (t : CellType) : Res (Grid K × Nat) :=
  if pointIds.any fun i => decide ((g.points.length : Int) ≤ i) then .throw
  else .ok ({ g with cells := g.cells ++ [⟨pointIds, t, []⟩] }, g.cells.length)

/-- `nuto/visualize/UnstructuredGrid.cpp` 35-41 -/
def Grid.definePointData (g : Grid K) (name : String) : Grid K :=
  if name ∈ g.pointDataNames then g else { g with pointDataNames := g.pointDataNames ++ [name] }

/-- `nuto/visualize/UnstructuredGrid.cpp` 43-49 -/
def Grid.defineCellData (g : Grid K) (name : String) : Grid K :=
  if name ∈ g.cellDataNames then g else { g with cellDataNames := g.cellDataNames ++ [name] }

/-- `nuto/visualize/UnstructuredGrid.cpp` 71-85: the position of the first equal name. -/
def dataIndex (names : List String) (name : String) : Res Nat :=
  if name ∈ names then .ok (names.findIdx (· == name)) else .throw

/-- `nuto/visualize/Cell.cpp` 39-44 and `Point.cpp` 12-17 -/
def setData (d : List (List K)) (i : Nat) (v : List K) : List (List K) :=
  (if d.length ≤ i then d ++ List.replicate (i + 1 - d.length) [] else d).set i v

/-- `nuto/visualize/UnstructuredGrid.cpp` 56-59 -/
def Grid.setPointData (g : Grid K) (i : Nat) (name : String) (v : List K) : Res (Grid K) :=
  (dataIndex g.pointDataNames name).bind fun j =>
    match g.points[i]? with
    | none => .ub
    | some p => .ok { g with points := g.points.set i { p with data := setData p.data j v } }

/-- `nuto/visualize/UnstructuredGrid.cpp` 66-69 -/
def Grid.setCellData (g : Grid K) (i : Nat) (name : String) (v : List K) : Res (Grid K) :=
  (dataIndex g.cellDataNames name).bind fun j =>
    match g.cells[i]? with
    | none => .ub
    | some c => .ok { g with cells := g.cells.set i { c with data := setData c.data j v } }

end grid

/-! ### Handlers -/

/-- `nuto/visualize/AverageHandler.cpp` 15-32: the shapes with and without a geometry. -/
inductive Shape where
  | line | quadrilateral | triangle | tetrahedron | prism | hexahedron | pyramid
deriving DecidableEq, Repr

/-- What a handler uses of `nuto/mechanics/cell/CellInterface.h`: `GetShape`, `Interpolate(xi)` and
`Interpolate(xi, dof)`; `Eval(f)`, the values of `f` at the integration points, is given with the call. -/
structure CellI (K D : Type) where
  shape : Shape
  interpolate : List K → List K
  interpolateDof : List K → D → List K

section handlers
variable {K D : Type} [Field K]

/-- `nuto/visualize/AverageGeometries.h` 19-58 and `AverageHandler.cpp` 15-32 -/
def averageGeometry : Shape → Res (List (List K) × CellType)
  | .line => .ok ([[-1], [1]], .line)
  | .quadrilateral => .ok ([[-1, -1], [1, -1], [1, 1], [-1, 1]], .quad)
  | .triangle => .ok ([[0, 0], [1, 0], [0, 1]], .triangle)
  | .tetrahedron => .ok ([[0, 0, 0], [1, 0, 0], [0, 1, 0], [0, 0, 1]], .tetraeder)
  | .prism => .ok ([[0, 0, -1], [1, 0, -1], [0, 1, -1], [0, 0, 1], [1, 0, 1], [0, 1, 1]], .wedge)
  | .hexahedron => .throw
  | .pyramid => .throw

/-- The handlers with their state: `AverageHandler`; `VoronoiHandler` (`mGeometry`, `mSubCells`);
`PointHandler` (`mIntegrationPointCoords`). -/
inductive Handler (K : Type) where
  | average
  | voronoi (points : List (List K)) (cells : List (List Nat × CellType)) (subCells : List (List Nat))
  | point (ips : List (List K))

/-- The loop `pointIds.push_back(grid->AddPoint(cell.Interpolate(x)))` of `AverageHandler.cpp` 39-40,
`VoronoiHandler.cpp` 20-22, `PointHandler.cpp` 28-34. -/
def addPoints (c : CellI K D) (g : Grid K) (xs : List (List K)) : Res (Grid K × List Nat) :=
  Res.foldlM (fun (s : Grid K × List Nat) (x : List K) =>
    (s.1.addPoint (c.interpolate x)).bind fun r => .ok (r.1, s.2 ++ [r.2])) (g, []) xs

/-- `nuto/visualize/VoronoiHandler.cpp` 27-30: the corner ids of one Voronoi cell. -/
def voronoiIds (pointIds : List Nat) (corners : List Nat) : Res (List Int) :=
  Res.foldlM (fun (ids : List Int) (i : Nat) =>
    match pointIds[i]? with
    | none => .ub
    | some p => .ok (ids ++ [(p : Int)])) [] corners

/-- `nuto/visualize/VoronoiHandler.cpp` 24-31 -/
def voronoiCells (pointIds : List Nat) (g : Grid K) (cells : List (List Nat × CellType)) :
    Res (Grid K × List Nat) :=
  Res.foldlM (fun (s : Grid K × List Nat) (v : List Nat × CellType) =>
    (voronoiIds pointIds v.1).bind fun ids =>
      (s.1.addCell ids v.2).bind fun r => .ok (r.1, s.2 ++ [r.2])) (g, []) cells

/-- `WriteGeometry`: `AverageHandler.cpp` 33-43, `VoronoiHandler.cpp` 18-34, `PointHandler.cpp` 26-35. -/
def writeGeometry (h : Handler K) (c : CellI K D) (g : Grid K) : Res (Handler K × Grid K × List Nat) :=
  match h with
  | .average =>
    (averageGeometry (K := K) c.shape).bind fun geo =>
      (addPoints c g geo.1).bind fun p =>
        (p.1.addCell (p.2.map fun i : Nat => (i : Int)) geo.2).bind fun r => .ok (.average, r.1, p.2)
  | .voronoi pts cells sub =>
    (addPoints c g pts).bind fun p =>
      (voronoiCells p.2 p.1 cells).bind fun r => .ok (.voronoi pts cells (sub ++ [r.2]), r.1, p.2)
  | .point ips => (addPoints c g ips).bind fun p => .ok (.point ips, p.1, p.2)

/-- The loop setting the data of the points of one cell (`AverageHandler.cpp` 51-59, `VoronoiHandler.cpp`
41-49, `PointHandler.cpp` 41-45): coordinate `i` belongs to point `pointIds[i]`. -/
def setPoints (name : String) (pointIds : List Nat) (val : List K → Res (List K)) (g : Grid K)
    (xs : List (List K)) : Res (Grid K) :=
  Res.foldlM (fun (g : Grid K) (xi : List K × Nat) =>
    match pointIds[xi.2]? with
    | none => .ub
    | some p => (val xi.1).bind fun v => g.setPointData p name v) g xs.zipIdx

/-- The local coordinates the handler evaluates. -/
def Handler.coords (h : Handler K) (c : CellI K D) : Res (List (List K)) :=
  match h with
  | .average => (averageGeometry (K := K) c.shape).bind fun geo => .ok geo.1
  | .voronoi pts _ _ => .ok pts
  | .point ips => .ok ips

/-- The value written for a dof (`AverageHandler.cpp` 49-58, `VoronoiHandler.cpp` 40-48, `PointHandler.cpp`
43-44): two components become three except for the `PointHandler`. -/
def Handler.dofValue (h : Handler K) (num : Nat) (v : List K) : Res (List K) :=
  match h with
  | .point _ => .ok v
  | _ => if num = 2 then (to3D v).bind fun t => .ok [t.1, t.2.1, t.2.2] else .ok v

/-- `WriteDofValues`: `AverageHandler.cpp` 45-60, `VoronoiHandler.cpp` 36-50, `PointHandler.cpp` 37-46. -/
def writeDofValues (h : Handler K) (c : CellI K D) (dof : D) (num : Nat) (name : String) (pointIds : List Nat)
    (g : Grid K) : Res (Grid K) :=
  (h.coords c).bind fun xs =>
    setPoints name pointIds (fun x => h.dofValue num (c.interpolateDof x dof)) (g.definePointData name) xs

/-- `PointData`: `AverageHandler.cpp` 72-83, `VoronoiHandler.cpp` 60-70, `PointHandler.cpp` 57-67. -/
def pointData (h : Handler K) (c : CellI K D) (f : List K → List K) (name : String) (pointIds : List Nat)
    (g : Grid K) : Res (Grid K) :=
  (h.coords c).bind fun xs =>
    setPoints name pointIds (fun x => .ok (f (c.interpolate x))) (g.definePointData name) xs

/-- `sum += val` of `Eigen` vectors. -/
def addVec (a b : List K) : Res (List K) := Res.require (a.length = b.length) (.ok (List.zipWith (· + ·) a b))

/-- `nuto/visualize/AverageHandler.cpp` 65-69: the mean of the values. -/
def average (values : List (List K)) : Res (List K) :=
  match values with
  | [] => .ub
  | v :: _ =>
    (Res.foldlM addVec (List.replicate v.length 0) values).bind fun sum =>
      .ok (sum.map (· / (values.length : K)))

/-- The writes `grid->SetCellData(i, name, v)`. -/
def setCells (name : String) (g : Grid K) (ws : List (Nat × List K)) : Res (Grid K) :=
  Res.foldlM (fun (g : Grid K) (w : Nat × List K) => g.setCellData w.1 name w.2) g ws

/-- The writes `grid->SetPointData(i, name, v)`. -/
def setPointsAt (name : String) (g : Grid K) (ws : List (Nat × List K)) : Res (Grid K) :=
  Res.foldlM (fun (g : Grid K) (w : Nat × List K) => g.setPointData w.1 name w.2) g ws

/-- `CellData`: `AverageHandler.cpp` 62-70, `VoronoiHandler.cpp` 52-58, `PointHandler.cpp` 48-55. -/
def cellData (h : Handler K) (cellId : Nat) (values : List (List K)) (name : String) (g : Grid K) :
    Res (Grid K) :=
  match h with
  | .average => (average values).bind fun v => (g.defineCellData name).setCellData cellId name v
  | .voronoi _ _ sub =>
    match sub[cellId]? with
    | none => .ub
    | some s => Res.require (values.length = s.length) (setCells name (g.defineCellData name) (s.zip values))
  | .point ips =>
    Res.require (values.length = ips.length)
      (setPointsAt name (g.definePointData name)
        (values.zipIdx.map fun vi => (vi.2 + cellId * values.length, vi.1)))

/-! ### Visualizer -/

/-- `nuto/visualize/Visualizer.h` 46-52 -/
structure Visualizer (K D : Type) where
  cells : List (CellI K D)
  pointIds : List (List Nat)
  handler : Handler K
  grid : Grid K

/-- `nuto/visualize/Visualizer.cpp` 6-11, 49-53 -/
def construct (cells : List (CellI K D)) (h : Handler K) : Res (Visualizer K D) :=
  Res.foldlM (fun (v : Visualizer K D) (c : CellI K D) =>
    (writeGeometry v.handler c v.grid).bind fun r =>
      .ok { v with pointIds := v.pointIds ++ [r.2.2], handler := r.1, grid := r.2.1 })
    ⟨cells, [], h, Grid.empty⟩ cells

/-- `nuto/visualize/Visualizer.cpp` 23-32: `values` is what `Eval` of each cell returns. -/
def Visualizer.cellData (v : Visualizer K D) (eval : CellI K D → List (List K)) (name : String) :
    Res (Visualizer K D) :=
  (Res.foldlM (fun (g : Grid K) (ci : CellI K D × Nat) =>
    Visualize.cellData v.handler ci.2 (eval ci.1) name g) v.grid v.cells.zipIdx).bind fun g =>
      .ok { v with grid := g }

/-- The loops of `nuto/visualize/Visualizer.cpp` 13-21 and 34-42. -/
def Visualizer.forCells (v : Visualizer K D) (f : CellI K D → List Nat → Grid K → Res (Grid K)) :
    Res (Visualizer K D) :=
  (Res.foldlM (fun (g : Grid K) (ci : CellI K D × Nat) =>
    match v.pointIds[ci.2]? with
    | none => .ub
    | some ids => f ci.1 ids g) v.grid v.cells.zipIdx).bind fun g => .ok { v with grid := g }

/-- `nuto/visualize/Visualizer.cpp` 13-21 -/
def Visualizer.dofValues (v : Visualizer K D) (dof : D) (num : Nat) (name : String) : Res (Visualizer K D) :=
  v.forCells fun c ids g => writeDofValues v.handler c dof num name ids g

/-- `nuto/visualize/Visualizer.cpp` 34-42 -/
def Visualizer.pointData (v : Visualizer K D) (f : List K → List K) (name : String) : Res (Visualizer K D) :=
  v.forCells fun c ids g => Visualize.pointData v.handler c f name ids g

end handlers

/-! ### The binary vtu file -/

/-- `nuto/visualize/DataArray.h`: name, number of components, `sizeof(TDataType)`, the data as object
representations. -/
structure DataArray where
  name : String
  numComponents : Nat
  width : Nat
  data : List Nat
deriving DecidableEq

/-- The attributes of a `DataArray` element with `format="appended"`. -/
structure Header where
  name : String
  numComponents : Nat
  width : Nat
  offset : Int
deriving DecidableEq

/-- Conversion of an unsigned 64 bit number to `int`. -/
def toInt32 (n : Nat) : Int := ((n + 2 ^ 31) % 2 ^ 32 : Nat) - 2 ^ 31

/-- `nuto/visualize/DataArray.cpp` 51-55 -/
def DataArray.offset (a : DataArray) : Int := toInt32 (8 + a.width * a.data.length)

/-- `nuto/visualize/DataArray.cpp` 86-96: the header and the new offset; overflow of `int` is undefined. -/
def writeBinaryHeader (a : DataArray) (offset : Int) : Res (Header × Int) :=
  Res.require (-2 ^ 31 ≤ offset + a.offset ∧ offset + a.offset < 2 ^ 31)
    (.ok (⟨a.name, a.numComponents, a.width, offset⟩, offset + a.offset))

/-- `nuto/visualize/DataArray.cpp` 98-104: the size as `uint64_t`, then the data. -/
def writeBinaryData (a : DataArray) : List (Fin 256) :=
  Serialize.toBytes 8 ((a.offset - 8) % 2 ^ 64).toNat ++ a.data.flatMap (Serialize.toBytes a.width)

/-- The loops over headers (`nuto/visualize/XMLWriter.cpp` 162-184). -/
def writeHeaders (arrays : List DataArray) : Res (List Header × Int) :=
  Res.foldlM (fun (s : List Header × Int) (a : DataArray) =>
    (writeBinaryHeader a s.2).bind fun r => .ok (s.1 ++ [r.1], r.2)) ([], 0) arrays

/-- `std::swap(data[i], data[j])` -/
def swap {K : Type} (l : List K) (i j : Nat) : List K :=
  match l[i]?, l[j]? with
  | some x, some y => (l.set i y).set j x
  | _, _ => l

/-- `nuto/visualize/XMLWriter.cpp` 48-60 -/
def transformData {K : Type} (data : List K) : List K :=
  if data.length = 6 then swap (swap data 3 5) 4 5 else data

section vtu
variable {K : Type}

/-- `nuto/visualize/Point.cpp` 24-27: no check. -/
def Point.getData (p : Point K) (i : Nat) : Res (List K) :=
  match p.data[i]? with
  | none => .ub
  | some v => .ok v

/-- `nuto/visualize/Cell.cpp` 32-37 -/
def Cell.getData (c : Cell K) (i : Nat) : Res (List K) :=
  match c.data[i]? with
  | none => .throw
  | some v => .ok v

/-- `nuto/visualize/XMLWriter.cpp` 65-80: without points or cells the first one is read anyway. -/
def extractData (enc : K → Nat) (items : List (Nat → Res (List K))) (name : String) (idx : Nat) :
    Res DataArray :=
  match items with
  | [] => .ub
  | first :: _ =>
    (first idx).bind fun d =>
      (Res.foldlM (fun (data : List Nat) (item : Nat → Res (List K)) =>
        (item idx).bind fun v =>
          Res.require (d.length = (transformData v).length) (.ok (data ++ (transformData v).map enc)))
        [] items).bind fun data => .ok ⟨name, d.length, 4, data⟩

/-- `nuto/visualize/XMLWriter.cpp` 82-94 -/
def extractCoordinates (enc : K → Nat) (points : List (Point K)) : DataArray :=
  ⟨"points", 3, 4, points.foldl (fun (data : List Nat) (p : Point K) =>
    data ++ [enc p.coords.1] ++ [enc p.coords.2.1] ++ [enc p.coords.2.2]) []⟩

/-- Conversion of `int` to `unsigned`. -/
def toUnsigned (i : Int) : Nat := (i % 2 ^ 32).toNat

/-- `nuto/visualize/XMLWriter.cpp` 104-126: connectivity, offsets (modulo 2^32) and types. -/
def extractCellInfos (cells : List (Cell K)) : DataArray × DataArray × DataArray :=
  let r := cells.foldl (fun (s : Nat × List Nat × List Nat × List Nat) (c : Cell K) =>
    let offset := (s.1 + c.pointIds.length) % 2 ^ 32
    (offset, s.2.1 ++ c.pointIds.map toUnsigned, s.2.2.1 ++ [offset], s.2.2.2 ++ [c.cellType.toVtk]))
    (0, [], [], [])
  (⟨"connectivity", 0, 4, r.2.1⟩, ⟨"offsets", 0, 4, r.2.2.1⟩, ⟨"types", 0, 1, r.2.2.2⟩)

/-- The file: numbers of points and cells, the `DataArray` elements below `PointData`, `CellData`, `Points` and `Cells`,
the appended data after the underscore. -/
structure VtuFile where
  numPoints : Nat
  numCells : Nat
  pointData : List Header
  cellData : List Header
  points : List Header
  cells : List Header
  appended : List (Fin 256)
deriving DecidableEq

/-- The loops `nuto/visualize/XMLWriter.cpp` 142-148 -/
def extractAll (enc : K → Nat) (items : List (Nat → Res (List K))) (names : List String) :
    Res (List DataArray) :=
  Res.foldlM (fun (s : List DataArray) (name : String) =>
    (dataIndex names name).bind fun idx =>
      (extractData enc items name idx).bind fun a => .ok (s ++ [a])) [] names

/-- `nuto/visualize/XMLWriter.cpp` 137-206 with `binary = true` -/
def exportBinary (enc : K → Nat) (g : Grid K) : Res VtuFile :=
  (extractAll enc (g.points.map Point.getData) g.pointDataNames).bind fun pointData =>
  (extractAll enc (g.cells.map Cell.getData) g.cellDataNames).bind fun cellData =>
    let coords := extractCoordinates enc g.points
    let infos := extractCellInfos g.cells
    let arrays := pointData ++ cellData ++ [coords, infos.1, infos.2.1, infos.2.2]
    (writeHeaders arrays).bind fun h =>
      let n := pointData.length
      let m := cellData.length
      .ok ⟨g.points.length, g.cells.length, h.1.take n, (h.1.drop n).take m, (h.1.drop (n + m)).take 1,
        (h.1.drop (n + m)).drop 1, arrays.flatMap writeBinaryData⟩

end vtu

/-! ### The pvd collection -/

/-- `nuto/visualize/PostProcess.cpp` 112-114 -/
def pvdFooter : List Char := "</Collection>\n".toList ++ "</VTKFile>\n".toList

/-- `nuto/visualize/PostProcess.cpp` 118-120 -/
def pvdHeader : List Char :=
  "<?xml version=\"1.0\"?>\n".toList ++ "<VTKFile type=\"Collection\">\n".toList ++ "<Collection>\n".toList

/-- `nuto/visualize/PostProcess.cpp` 127: `time` is the output of `FormatTime`. -/
def pvdEntry (time vtuFileName : List Char) : List Char :=
  "<DataSet timestep=\"".toList ++ time ++ "\" file=\"".toList ++ vtuFileName ++ "\"/>\n".toList

/-- Writing to an open file at a position: overwrites what is there and extends the file. -/
def writeAt (file : List Char) (pos : Nat) (text : List Char) : List Char :=
  file.take pos ++ text ++ file.drop (pos + text.length)

/-- `nuto/visualize/PostProcess.cpp` 98-129: `none` is a file that does not exist.  Seeking to a position
before the start of the file fails and nothing is written. -/
def addToPvdFile (file : Option (List Char)) (vtuFileName time : List Char) : List Char :=
  let text := pvdEntry time vtuFileName ++ pvdFooter
  match file with
  | none => pvdHeader ++ text
  | some old =>
    if pvdFooter.length ≤ old.length then writeAt old (old.length - pvdFooter.length) text else old

/-- The files of the result directory: content by name. -/
abbrev Dir := List Char → Option (List Char)

/-- Write the file of this name. -/
def Dir.set (d : Dir) (name : List Char) (content : List Char) : Dir :=
  fun n => if n = name then some content else d n

/-- `nuto/visualize/PostProcess.h` 62-91: names of the visualizers in the order of the map, `mStep`, the
result directory. -/
structure PostProcess where
  names : List (List Char)
  step : Nat
  dir : Dir

/-- `nuto/visualize/PostProcess.cpp` 153 -/
def vtuName (name : List Char) (step : Nat) : List Char := name ++ Nat.toDigits 10 step ++ ".vtu".toList

/-- `nuto/visualize/PostProcess.cpp` 155 -/
def pvdName (name : List Char) : List Char := name ++ ".pvd".toList

/-- `nuto/visualize/PostProcess.cpp` 137-160 for one visualizer: `vtu` is the content of the exported file. -/
def plotOne (step : Nat) (time : List Char) (vtu : List Char → List Char) (d : Dir) (name : List Char) : Dir :=
  let d1 := d.set (vtuName name step) (vtu name)
  d1.set (pvdName name) (addToPvdFile (d1 (pvdName name)) (vtuName name step) time)

/-- `nuto/visualize/PostProcess.cpp` 131-162: overflow of `mStep` is not modelled. -/
def PostProcess.plot (p : PostProcess) (time : List Char) (vtu : List Char → List Char) : PostProcess :=
  { p with dir := p.names.foldl (plotOne p.step time vtu) p.dir, step := p.step + 1 }

/-- `nuto/visualize/PostProcess.cpp` 12-31, 49-54: a new result directory is empty; names are unique keys
of a map. -/
def PostProcess.make (names : List (List Char)) : PostProcess := ⟨names, 0, fun _ => none⟩

end NuTo.Visualize
