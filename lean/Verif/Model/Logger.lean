/-
`nuto/base/Logger.h` and `Logger.cpp`.

Simplifications: the console and the log file are the lists of characters written so far, opening a file
succeeds, text printed for an object of another type is given as a list of characters.
-/
import Verif.Model.Basic

namespace NuTo.Logging

/-- The argument of `operator<<` (`nuto/base/Logger.h` 68-77): a character, a string (`std::string` or
`const char*`), any other object with its printed text. -/
inductive Msg where
  | char (c : Char)
  | string (s : List Char)
  | other (printed : List Char)
deriving DecidableEq

/-- The text printed for the message. -/
def Msg.text : Msg → List Char
  | .char c => [c]
  | .string s => s
  | .other p => p

/-- `nuto/base/Logger.h` 57-63 -/
structure Logger where
  pfx : List Char
  isQuiet : Bool
  fileOpen : Bool
  printPrefix : Bool
  console : List Char
  file : List Char
deriving DecidableEq

/-- `nuto/base/Logger.cpp` 4-10 and `Logger.h` 62 -/
def make (pfx : List Char) (isQuiet : Bool) : Logger := ⟨pfx, isQuiet, false, true, [], []⟩

/-- `nuto/base/Logger.cpp` 34-45: the prefix to print and the new flag. -/
def optionalPrefix (l : Logger) : List Char × Bool :=
  if l.printPrefix then (l.pfx, false) else ([], l.printPrefix)

/-- `nuto/base/Logger.h` 31-46 -/
def out (l : Logger) (text : List Char) (withNewline : Bool) : Logger :=
  let p := optionalPrefix l
  { l with
    console := if l.isQuiet then l.console else l.console ++ (p.1 ++ text)
    file := if l.fileOpen then l.file ++ (p.1 ++ text) else l.file
    printPrefix := withNewline }

/-- `nuto/base/Logger.h` 68-72 and `Logger.cpp` 50-68: the last character of a string is read without
a check for the empty string. -/
def write (l : Logger) : Msg → Res Logger
  | .char c => .ok (out l [c] (c == '\n'))
  | .string s =>
    match s.getLast? with
    | none => .ub
    | some c => .ok (out l s (c == '\n'))
  | .other p => .ok (out l p false)

/-- `nuto/base/Logger.cpp` 12-20: opening a file (an existing file is emptied). -/
def openFile (l : Logger) : Logger := { l with fileOpen := true, file := [] }

/-- `nuto/base/Logger.cpp` 22-25 -/
def closeFile (l : Logger) : Logger := { l with fileOpen := false }

/-- `nuto/base/Logger.cpp` 27-30 -/
def setQuiet (l : Logger) (q : Bool) : Logger := { l with isQuiet := q }

/-- `logger << m1 << m2 << …` -/
def writeAll (l : Logger) (ms : List Msg) : Res Logger := Res.foldlM write l ms

end NuTo.Logging
