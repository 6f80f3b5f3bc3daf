/-
`nuto/visualize/PostProcess.cpp`: the visualizers of a `PostProcess`, its result directory and the files in it.

Simplifications: paths are lists of names below an existing directory, without symbolic links; reading a path from a string is
left to boost.  A name of a visualizer contains no `/`.  There are only directories and regular files, and all of them may be
written and removed.  What a visualizer exports is a parameter of each call of `Plot`; it depends on the functions that were
added.  The step `mStep` does not overflow.
-/
import Verif.Model.Visualize
import Mathlib.Data.List.Lex
import Mathlib.Data.Char

namespace NuTo.ResultFiles

open Visualize (addToPvdFile vtuName pvdName)

/-- A file or directory name, a formatted time, the content of a file -/
abbrev Text := List Char

/-- `boost::filesystem::path` as its components -/
abbrev Path := List Text

/-- What a path of an existing entry leads to -/
inductive Entry where
  | directory
  | file (content : Text)
deriving DecidableEq

/-- The file system -/
abbrev Disk := Path → Option Entry

/-- `boost::filesystem::remove_all` -/
def Disk.removeAll (d : Disk) (p : Path) : Disk := fun q => if p <+: q then none else d q

/-- Change of one entry -/
def Disk.put (d : Disk) (p : Path) (e : Entry) : Disk := fun q => if q = p then some e else d q

/-- `boost::filesystem::create_directory` for a path that does not exist: `none` is an exception -/
def Disk.createDirectory (d : Disk) (p : Path) : Option Disk :=
  if d p.dropLast = some .directory then some (d.put p .directory) else none

/-- Opening a file in the directory `dir` for writing and writing it: `none` is a file that cannot be opened -/
def Disk.write (d : Disk) (dir : Path) (name content : Text) : Option Disk :=
  if d dir = some .directory ∧ d (dir ++ [name]) ≠ some .directory then some (d.put (dir ++ [name]) (.file content)) else none

/-- `nuto/visualize/PostProcess.h` 71-82: what was added to a visualizer -/
structure Info (α : Type) where
  dofs : List α := []
  cellFunctions : List α := []
  pointFunctions : List α := []
deriving DecidableEq

/-- `nuto/visualize/PostProcess.h` 84-88; an empty `mResultDir` is `none` -/
structure PostProcess (α : Type) where
  visualize : OMap Text (Info α) := []
  resultDir : Option Path := none
  step : Nat := 0

/-- The public functions, `nuto/visualize/PostProcess.h` 16-68.  An empty name of a directory is `none`.  `content` is what
the visualizer of this name and with these functions exports; `none` if one of the functions throws. -/
inductive Call (α : Type) where
  | resultDirectory (p : Option Path)
  | defineVisualizer (name : Text)
  | addDof (name : Text) (x : α)
  | addCellFunction (name : Text) (x : α)
  | addPointFunction (name : Text) (x : α)
  | plot (time : Text) (content : Text → Info α → Option Text)

variable {α : Type}

/-- `nuto/visualize/PostProcess.cpp` 12-31; `true`: an exception is thrown -/
def resultDirectory (d : Disk) (s : PostProcess α) : Option Path → Disk × PostProcess α × Bool
  | none => (d, s, true)
  | some p =>
    -- 21-22
    let d := if d p = some .directory then d.removeAll p else d
    match d p with
    | some (.file _) => (d, s, true)
    | some .directory => (d, { s with resultDir := some p }, false)
    | none =>
      match d.createDirectory p with
      | none => (d, s, true)
      | some d' => (d', { s with resultDir := some p }, false)

/-- `nuto/visualize/PostProcess.cpp` 38-42 and 56-83: the functions `Add` -/
def add (d : Disk) (s : PostProcess α) (name : Text) (f : Info α → Info α) : Disk × PostProcess α × Bool :=
  match s.visualize.find? name with
  | none => (d, s, true)
  | some i => (d, { s with visualize := s.visualize.set name (f i) }, false)

/-- `nuto/visualize/PostProcess.cpp` 98-129: `AddToPvdFile` -/
def addToPvd (d : Disk) (dir : Path) (name vtu time : Text) : Option Disk :=
  match d (dir ++ [pvdName name]) with
  | some .directory => none
  | some (.file old) => d.write dir (pvdName name) (addToPvdFile (some old) vtu time)
  | none => d.write dir (pvdName name) (addToPvdFile none vtu time)

/-- `nuto/visualize/PostProcess.cpp` 137-160: the body of the loop of `Plot`; `true`: an exception is thrown -/
def plotOne (dir : Path) (step : Nat) (time : Text) (content : Text → Info α → Option Text) (d : Disk) (v : Text × Info α) :
    Disk × Bool :=
  match content v.1 v.2 with
  | none => (d, true)
  | some c =>
    match d.write dir (vtuName v.1 step) c with
    | none => (d, true)
    | some d1 =>
      match addToPvd d1 dir v.1 (vtuName v.1 step) time with
      | none => (d1, true)
      | some d2 => (d2, false)

/-- `nuto/visualize/PostProcess.cpp` 137-160: the loop, left by an exception -/
def plotAll (dir : Path) (step : Nat) (time : Text) (content : Text → Info α → Option Text) :
    List (Text × Info α) → Disk → Disk × Bool
  | [], d => (d, false)
  | v :: vs, d =>
    match plotOne dir step time content d v with
    | (d1, true) => (d1, true)
    | (d1, false) => plotAll dir step time content vs d1

/-- `nuto/visualize/PostProcess.cpp` 44-54: `DefineVisualizer` -/
def defineVisualizer (d : Disk) (s : PostProcess α) (name : Text) : Disk × PostProcess α × Bool :=
  match s.visualize.find? name with
  | some _ => (d, s, true)
  | none => (d, { s with visualize := s.visualize.set name {} }, false)

/-- `nuto/visualize/PostProcess.cpp` 131-162: `Plot` -/
def plot (d : Disk) (s : PostProcess α) (time : Text) (content : Text → Info α → Option Text) : Disk × PostProcess α × Bool :=
  match s.resultDir with
  | none => (d, s, true)
  | some dir =>
    match plotAll dir s.step time content s.visualize d with
    | (d1, true) => (d1, s, true)
    | (d1, false) => (d1, { s with step := s.step + 1 }, false)

/-- A call: the new state and whether it threw an exception -/
def call (d : Disk) (s : PostProcess α) : Call α → Disk × PostProcess α × Bool
  | .resultDirectory p => resultDirectory d s p
  | .defineVisualizer name => defineVisualizer d s name
  | .addDof name x => add d s name fun i => { i with dofs := i.dofs ++ [x] }
  | .addCellFunction name x => add d s name fun i => { i with cellFunctions := i.cellFunctions ++ [x] }
  | .addPointFunction name x => add d s name fun i => { i with pointFunctions := i.pointFunctions ++ [x] }
  | .plot time content => plot d s time content

/-- Calls on a new object (the last call comes first in the list): the state, and what the caller has seen: the calls, and which
of them threw -/
def session (d : Disk) : List (Call α) → Disk × PostProcess α × List (Call α × Bool)
  | [] => (d, {}, [])
  | c :: earlier =>
    let r := session d earlier
    let t := call r.1 r.2.1 c
    (t.1, t.2.1, (c, t.2.2) :: r.2.2)

end NuTo.ResultFiles
