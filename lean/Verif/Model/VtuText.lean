import Verif.Model.Visualize
import Verif.Model.Chars

/-!
The text of vtu files: `nuto/visualize/DataArray.cpp` and `nuto/visualize/XMLWriter.cpp`.

`Verif/Model/Visualize.lean` has the arrays and the appended data of binary files; here are the characters that are written.
A `float` is printed by `fmt`, given its object representation.  Files open successfully.
-/

namespace NuTo.Visualize

/-- The template argument of `DataArray` -/
inductive Scalar where
  | float32 | uint32 | uint8

/-- `VtkTypeString`, `DataArray.cpp` 27-46 (`DataArray<double>` is not used) -/
def Scalar.vtk : Scalar → List Char
  | .float32 => chars! "Float32"
  | .uint32 => chars! "UInt32"
  | .uint8 => chars! "UInt8"

/-- One value, `DataArray.cpp` 76-81: numbers of type `uint8_t` are converted to `int` -/
def Scalar.print (fmt : Nat → List Char) : Scalar → Nat → List Char
  | .float32, v => fmt v
  | .uint32, v => Nat.toDigits 10 v
  | .uint8, v => Nat.toDigits 10 v

/-- An `int` -/
def printInt (i : Int) : List Char :=
  if i < 0 then '-' :: Nat.toDigits 10 i.natAbs else Nat.toDigits 10 i.natAbs

/-- `WriteCommonHeader`, `DataArray.cpp` 57-65 -/
def commonHeader (k : Scalar) (name : List Char) (numComponents : Nat) : List Char :=
  chars! "<DataArray " ++ (chars! "type=\"" ++ (k.vtk ++ (chars! "\" " ++ (chars! "Name=\"" ++ (name ++ (chars! "\" " ++
    if numComponents ≠ 0 then chars! " NumberOfComponents=\"" ++ (Nat.toDigits 10 numComponents ++ chars! "\" ") else []))))))

/-- `WriteAscii`, `DataArray.cpp` 67-84 -/
def writeAscii (fmt : Nat → List Char) (k : Scalar) (a : DataArray) : List Char :=
  commonHeader k a.name.toList a.numComponents ++ (chars! "format=\"" ++ (chars! "ascii" ++ (chars! "\" " ++ (chars! ">\n" ++
    ((a.data.flatMap fun v => ' ' :: k.print fmt v) ++ chars! "\n</DataArray>")))))

/-- `WriteBinaryHeader`, `DataArray.cpp` 86-94, of an array with the given attributes -/
def binaryHeaderText (k : Scalar) (h : Header) : List Char :=
  commonHeader k h.name.toList h.numComponents ++ (chars! "format=\"" ++ (chars! "appended" ++ (chars! "\" " ++
    (chars! "offset=\"" ++ (printInt h.offset ++ (chars! "\" " ++ chars! "/>\n"))))))

/-- The text from the opening of `Piece` to the end of `UnstructuredGrid`, `XMLWriter.cpp` 160-187; the parameters are the
texts of the arrays -/
def pieceText (numPoints numCells : Nat) (pointData cellData points cells : List Char) : List Char :=
  chars! ">\n <UnstructuredGrid>\n" ++ (chars! "  <Piece NumberOfPoints=\"" ++ (Nat.toDigits 10 numPoints ++
    (chars! "\" NumberOfCells=\"" ++ (Nat.toDigits 10 numCells ++ (chars! "\">\n" ++
    (chars! "   <PointData>\n" ++ (pointData ++ (chars! "   </PointData>\n" ++
    (chars! "   <CellData>\n" ++ (cellData ++ (chars! "   </CellData>\n" ++
    (chars! "   <Points>\n" ++ (points ++ (chars! "   </Points>\n" ++
    (chars! "   <Cells>\n" ++ (cells ++ (chars! "   </Cells>\n" ++
    (chars! "  </Piece>\n" ++ chars! " </UnstructuredGrid>\n"))))))))))))))))))

/-- `Export`, `XMLWriter.cpp` 137-206 with `binary = false` -/
def exportAscii {K : Type} (fmt : Nat → List Char) (enc : K → Nat) (g : Grid K) : Res (List Char) :=
  (extractAll enc (g.points.map Point.getData) g.pointDataNames).bind fun pointData =>
  (extractAll enc (g.cells.map Cell.getData) g.cellDataNames).bind fun cellData =>
    let coords := extractCoordinates enc g.points
    let infos := extractCellInfos g.cells
    .ok (chars! "<VTKFile type=\"UnstructuredGrid\" version=\"0.1\" byte_order=\"LittleEndian\"" ++
      (pieceText g.points.length g.cells.length (pointData.flatMap (writeAscii fmt .float32))
        (cellData.flatMap (writeAscii fmt .float32)) (writeAscii fmt .float32 coords)
        (writeAscii fmt .uint32 infos.1 ++ (writeAscii fmt .uint32 infos.2.1 ++ writeAscii fmt .uint8 infos.2.2)) ++
        chars! "</VTKFile>\n"))

/-- The text of a binary file before the appended data, `XMLWriter.cpp` 157-191 with `binary = true` -/
def binaryText (f : VtuFile) : List Char :=
  chars! "<VTKFile type=\"UnstructuredGrid\" version=\"0.1\" byte_order=\"LittleEndian\"" ++
    (chars! " header_type=\"UInt64\"" ++
    (pieceText f.numPoints f.numCells (f.pointData.flatMap (binaryHeaderText .float32))
      (f.cellData.flatMap (binaryHeaderText .float32)) (f.points.flatMap (binaryHeaderText .float32))
      ((f.cells.take 2).flatMap (binaryHeaderText .uint32) ++ (f.cells.drop 2).flatMap (binaryHeaderText .uint8)) ++
      chars! " <AppendedData encoding=\"raw\">\n_"))

/-- The text after the appended data, `XMLWriter.cpp` 202-204 -/
def binaryEnd : List Char := chars! "\n </AppendedData>\n</VTKFile>\n"

end NuTo.Visualize
