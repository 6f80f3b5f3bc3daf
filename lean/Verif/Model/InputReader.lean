import Verif.Model.GmshText

/-!
Model of the reading of the parameters of a particle simulation (/repo/nuto/geometryConcrete/InputReader.cpp 26-190).

A file is a list of characters, streams as in `Model/GmshText`.  Numbers are rational (the code rounds to the nearest double).  The file has
only characters that `isspace` accepts as an argument and no NUL character.  The loop of `ReadVector` need not end: all functions that
use it get the number `fuel` of rounds it may do, `none` means that more rounds are needed.  A file that cannot be opened raises an
exception (lines 19-27), not part of the model.
-/
namespace NuTo
namespace InputReader

open GmshText

/-- `std::istream::get(text, n, delim)`: at most `n - 1` characters, up to the delimiter, which stays in the stream; fails without a
character -/
def getText (n : Nat) (delim : Char) (s : Stream) : List Char × Stream :=
  if s.eof || s.fail then ([], { s with fail := true })
  else
    let t := (s.rest.takeWhile (· != delim)).take (n - 1)
    let r := s.rest.drop t.length
    (t, ⟨r, r.isEmpty, t.isEmpty⟩)

/-- `std::istream::get(c)`: `none` if the variable is not written -/
def getChar (s : Stream) : Option Char × Stream :=
  if s.eof || s.fail then (none, { s with fail := true })
  else match s.rest with
    | [] => (none, ⟨[], true, true⟩)
    | c :: r => (some c, ⟨r, false, false⟩)

/-- `mFile >> value` for a `char`: `none` if the variable is not written -/
def extractChar (s : Stream) : Option Char × Stream :=
  let (s, ok) := skip s
  if ok then match s.rest with
    | [] => (none, s)
    | c :: r => (some c, ⟨r, false, false⟩)
  else (none, s)

/-- `SkipToNextData`, InputReader.cpp 93-100 -/
def skipToNextData (s : Stream) : Stream := (getChar (getText 1000 '=' s).2).2

/-- `ReadBool`, InputReader.cpp 102-114; `value` has no initial value -/
def readBool (s : Stream) : Res (Bool × Stream) :=
  let v := extractChar (skipToNextData s)
  match v.1 with
  | none => .ub
  | some c => .ok (['T', 't', 'Y', 'y', '1'].contains c, v.2)

/-- `ReadNumber`, InputReader.cpp 116-123; `number` has no initial value -/
def readNumber (s : Stream) : Res (ℚ × Stream) :=
  let v := extractDouble (skipToNextData s)
  match v.1 with
  | none => .ub
  | some x => .ok (x, v.2)

/-- The loop of `ReadVector`, InputReader.cpp 134-139: `last` is the variable `number`, `none` as long as it has no value; a character that
is not read leaves the comma in `skipComma`. -/
def vectorLoop : Nat → Option ℚ → List ℚ → Stream → Option (Res (List ℚ × Stream))
  | 0, _, _, _ => none
  | fuel + 1, last, acc, s =>
    let v := extractDouble s
    match v.1.orElse fun _ => last with
    | none => some .ub
    | some x =>
      let c := getChar v.2
      if c.1.getD ',' = ',' then vectorLoop fuel (some x) (acc ++ [x]) c.2 else some (.ok (acc ++ [x], c.2))

/-- `ReadVector`, InputReader.cpp 125-142 -/
def readVector (fuel : Nat) (s : Stream) : Option (Res (List ℚ × Stream)) := vectorLoop fuel none [] (skipToNextData s)

/-- `ReadString`, InputReader.cpp 144-158: `get(directory, ';')` is `get(directory, 59, '\n')`; `erase` throws for an empty string. -/
def readString (s : Stream) : Res (List Char × Stream) :=
  let t := getText ';'.toNat '\n' (skipToNextData s)
  if t.1 = [] then .throw else .ok (t.1.dropLast.filter fun c => !space c, t.2)

/-- The members, InputReader.h 103-123 -/
structure Input where
  directory : List Char
  numEventsMax : Int
  timeMax : ℚ
  timePrintOut : ℚ
  initialTimeBarrier : ℚ
  randomVelocityRange : ℚ
  relativeGrowthRate : ℚ
  absoluteGrowthRate : ℚ
  numThreads : Int
  typeOfSpecimen : Int
  boundingBox : List ℚ
  is2D : Bool
  gradingCurve : List (List ℚ)
  volumeFraction : ℚ
  absoluteDistance : ℚ
  shrinkage : ℚ
deriving DecidableEq

/-- Conversion of a `double` to an integer type with `bits` bits: the fraction is dropped, out of range is undefined. -/
def toInt (bits : Nat) (x : ℚ) : Res Int :=
  let i := x.num.tdiv x.den
  if -(2 : Int) ^ (bits - 1) ≤ i ∧ i < 2 ^ (bits - 1) then .ok i else .ub

/-- `ReadNumber` into an integer member -/
def readInt (bits : Nat) (s : Stream) : Res (Int × Stream) :=
  (readNumber s).bind fun x => (toInt bits x.1).bind fun i => .ok (i, x.2)

/-- The parameters of the simulation -/
structure Simulation where
  directory : List Char
  numEventsMax : Int
  timeMax : ℚ
  timePrintOut : ℚ
  initialTimeBarrier : ℚ
  randomVelocityRange : ℚ
  relativeGrowthRate : ℚ
  absoluteGrowthRate : ℚ
  numThreads : Int

/-- `ReadSimulationParameters`, InputReader.cpp 42-54; `long` has 64 bits -/
def readSimulation (s : Stream) : Res (Simulation × Stream) :=
  (readString s).bind fun directory => (readInt 64 directory.2).bind fun numEventsMax =>
  (readNumber numEventsMax.2).bind fun timeMax => (readNumber timeMax.2).bind fun timePrintOut =>
  (readNumber timePrintOut.2).bind fun initialTimeBarrier => (readNumber initialTimeBarrier.2).bind fun randomVelocityRange =>
  (readNumber randomVelocityRange.2).bind fun relativeGrowthRate => (readNumber relativeGrowthRate.2).bind fun absoluteGrowthRate =>
  (readInt 32 absoluteGrowthRate.2).bind fun numThreads =>
    .ok (⟨directory.1, numEventsMax.1, timeMax.1, timePrintOut.1, initialTimeBarrier.1, randomVelocityRange.1, relativeGrowthRate.1,
      absoluteGrowthRate.1, numThreads.1⟩, numThreads.2)

/-- Go on with a result that may need more rounds. -/
def next {α β : Type} (x : Option (Res α)) (f : α → Option (Res β)) : Option (Res β) :=
  match x with
  | none => none
  | some (.ok a) => f a
  | some .throw => some .throw
  | some .ub => some .ub

/-- `ReadBoundingBox`, InputReader.cpp 56-71; the matrix is filled row by row -/
def readBoundingBox (fuel : Nat) (s : Stream) : Option (Res ((Int × List ℚ × Bool) × Stream)) :=
  next (some (readInt 32 s)) fun type => next (readVector fuel type.2) fun box =>
    if box.1.length ≠ 6 then some .throw
    else next (some (readBool box.2)) fun is2D => some (.ok ((type.1, box.1, is2D.1), is2D.2))

/-- The loop of `ReadGradingCurve`, InputReader.cpp 77-88 -/
def readSieves (fuel : Nat) : Nat → Stream → Option (Res (List (List ℚ) × Stream))
  | 0, s => some (.ok ([], s))
  | n + 1, s => next (readVector fuel s) fun v =>
      if v.1.length ≠ 3 then some .throw
      else next (readSieves fuel n v.2) fun r => some (.ok (v.1 :: r.1, r.2))

/-- `ReadGradingCurve`, InputReader.cpp 73-91; a matrix with a negative number of rows is an assertion of Eigen -/
def readGradingCurve (fuel : Nat) (s : Stream) : Option (Res ((List (List ℚ) × ℚ × ℚ) × Stream)) :=
  next (some (readInt 32 s)) fun n =>
    if n.1 < 0 then some .ub
    else next (readSieves fuel n.1.toNat n.2) fun sieves => next (some (readNumber sieves.2)) fun fraction =>
      next (some (readNumber fraction.2)) fun distance => some (.ok ((sieves.1, fraction.1, distance.1), distance.2))

/-- `CheckInputs`, InputReader.cpp 170-185 -/
def checkInputs (i : Input) : Res Input :=
  if i.relativeGrowthRate < 0 then .throw
  else if i.absoluteDistance < 0 then .throw
  else if i.volumeFraction ≤ 0 then .throw
  else if 1 ≤ i.shrinkage ∨ i.shrinkage < 0 then .throw
  else .ok i

/-- `ReadFile`, InputReader.cpp 29-40 -/
def readFile (fuel : Nat) (text : List Char) : Option (Res Input) :=
  next (some (readSimulation ⟨text, false, false⟩)) fun sim => next (readBoundingBox fuel sim.2) fun box =>
  next (readGradingCurve fuel box.2) fun curve => next (some (readNumber curve.2)) fun shrinkage =>
    some (checkInputs ⟨sim.1.directory, sim.1.numEventsMax, sim.1.timeMax, sim.1.timePrintOut, sim.1.initialTimeBarrier,
      sim.1.randomVelocityRange, sim.1.relativeGrowthRate, sim.1.absoluteGrowthRate, sim.1.numThreads, box.1.1, box.1.2.1, box.1.2.2,
      curve.1.1, curve.1.2.1, curve.1.2.2, shrinkage.1⟩)

end InputReader
end NuTo
