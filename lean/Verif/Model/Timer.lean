import Verif.Model.Logger
import Mathlib.Data.Real.Basic

/-!
`nuto/base/Timer.h` and `Timer.cpp`.

Simplifications: every reading of the clock is an argument (the clock is read once to measure and once more after printing), the
text of a number and the text about the CPU time (only with OpenMP) are arguments, lengths are natural numbers (the code converts
them to `int`).
-/
namespace NuTo.Timing

/-- Members of `Timer`, Timer.h 45-56, without the CPU time -/
structure Timer where
  msg : List Char
  showTime : Bool
  wallTimeInit : ℝ

/-- Constructors, Timer.cpp 14-34, at time `now` -/
def make (msg : List Char) (showTime : Bool) (now : ℝ) : Timer := ⟨msg, showTime, now⟩

/-- `GetTimeDifference`, Timer.cpp 82-87, at time `now` -/
def Timer.getTimeDifference (t : Timer) (now : ℝ) : ℝ := now - t.wallTimeInit

/-- One call of `Reset`: the clock when the time is measured, the text about the CPU time, the clock after printing -/
structure Reading where
  now : ℝ
  cpu : List Char
  again : ℝ

/-- `mMinOutputLength`, Timer.h 54 -/
def minOutputLength : Int := 90

/-- `timing`, Timer.cpp 50-55; `num` prints a number -/
def timingText (num : ℝ → List Char) (wall : ℝ) (cpu : List Char) : List Char :=
  ['W', ':'] ++ num wall ++ ['s'] ++ cpu

/-- `out`, Timer.cpp 58-64 -/
def lineText (msg timing : List Char) : List Char :=
  let numAdditionalBlanks := max 0 (minOutputLength - msg.length - timing.length - 2)
  ['['] ++ msg ++ [']'] ++ List.replicate numAdditionalBlanks.toNat '.' ++ timing ++ ['\n']

/-- `Reset()`, Timer.cpp 41-74: the new timer and what is printed -/
def Timer.reset (num : ℝ → List Char) (t : Timer) (r : Reading) : Timer × List (List Char) :=
  ({ t with wallTimeInit := r.again },
    if t.showTime then [lineText t.msg (timingText num (t.getTimeDifference r.now) r.cpu)] else [])

/-- `Reset(rMsg)`, Timer.cpp 76-80 -/
def Timer.resetMsg (num : ℝ → List Char) (t : Timer) (msg : List Char) (r : Reading) : Timer × List (List Char) :=
  let p := t.reset num r
  ({ p.1 with msg := msg }, p.2)

/-- A call of one of the two functions `Reset` -/
def Timer.call (num : ℝ → List Char) (t : Timer) (op : Option (List Char) × Reading) : Timer × List (List Char) :=
  match op.1 with
  | none => t.reset num op.2
  | some msg => t.resetMsg num msg op.2

/-- A timer used for some calls of `Reset` and then destroyed (Timer.cpp 36-39): everything it prints -/
def Timer.life (num : ℝ → List Char) : Timer → List (Option (List Char) × Reading) → Reading → List (List Char)
  | t, [], last => (t.reset num last).2
  | t, op :: ops, last => (t.call num op).2 ++ (t.call num op).1.life num ops last

/-- With a logger (Timer.cpp 67-68) every line is written with `operator<<` for strings. -/
def Timer.lifeLogged (num : ℝ → List Char) (l : Logging.Logger) (t : Timer) (ops : List (Option (List Char) × Reading)) (last : Reading) :
    Res Logging.Logger :=
  Logging.writeAll l ((t.life num ops last).map .string)

end NuTo.Timing
