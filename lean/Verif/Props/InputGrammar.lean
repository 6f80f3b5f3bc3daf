import Verif.Model.InputReader
import Verif.Props.GmshGrammar

/-!
The files that `InputReader` reads (/repo/nuto/geometryConcrete/InputReader.h 15-53): a value follows an equal sign, everything up to the
next equal sign is a comment.
-/
namespace NuTo
namespace InputReader

open GmshText

/-- The text before an equal sign: at least one and at most 999 characters -/
def Comment (c : List Char) : Prop := c ≠ [] ∧ c.length ≤ 999 ∧ '=' ∉ c

/-- The first character ends a number. -/
def Ends (c : List Char) : Prop := ∃ a r, c = a :: r ∧ a.isDigit = false ∧ a ≠ '.' ∧ a ≠ 'e' ∧ a ≠ 'E'

/-- `comment = number` -/
structure Number where
  comment : List Char
  pad : List Char
  value : RealText

def Number.text (n : Number) : List Char := n.comment ++ '=' :: (n.pad ++ n.value.text)

def Number.Valid (n : Number) : Prop := Comment n.comment ∧ (∀ c ∈ n.pad, space c = true) ∧ n.value.Valid

/-- numbers with a comma between them -/
def itemsText : List (List Char × RealText) → List Char
  | [] => []
  | [x] => x.1 ++ x.2.text
  | x :: y :: l => x.1 ++ x.2.text ++ ',' :: itemsText (y :: l)

/-- `comment = number, number, … ;` where any character but a comma can follow the last number -/
structure Numbers where
  comment : List Char
  items : List (List Char × RealText)
  stop : Char

def Numbers.text (v : Numbers) : List Char := v.comment ++ '=' :: (itemsText v.items ++ [v.stop])

def Numbers.value (v : Numbers) : List ℚ := v.items.map fun x => x.2.value

def Numbers.Valid (v : Numbers) : Prop :=
  Comment v.comment ∧ v.items ≠ [] ∧ (∀ x ∈ v.items, (∀ c ∈ x.1, space c = true) ∧ x.2.Valid) ∧ Ends [v.stop] ∧ v.stop ≠ ','

/-- A file -/
structure File where
  header : List Char
  directory : List Char
  numEventsMax : Number
  timeMax : Number
  timePrintOut : Number
  initialTimeBarrier : Number
  randomVelocityRange : Number
  relativeGrowthRate : Number
  absoluteGrowthRate : Number
  numThreads : Number
  boxType : Number
  boundingBox : Numbers
  is2DComment : List Char
  is2DPad : List Char
  is2D : Char
  numSieves : Number
  sieves : List Numbers
  volumeFraction : Number
  absoluteDistance : Number
  shrinkage : Number

def File.text (f : File) : List Char :=
  f.header ++ '=' :: (f.directory ++ ';' :: (f.numEventsMax.text ++ (f.timeMax.text ++ (f.timePrintOut.text ++ (f.initialTimeBarrier.text ++
    (f.randomVelocityRange.text ++ (f.relativeGrowthRate.text ++ (f.absoluteGrowthRate.text ++ (f.numThreads.text ++ (f.boxType.text ++
    (f.boundingBox.text ++ (f.is2DComment ++ '=' :: (f.is2DPad ++ f.is2D :: (f.numSieves.text ++ (f.sieves.flatMap Numbers.text ++
    (f.volumeFraction.text ++ (f.absoluteDistance.text ++ f.shrinkage.text)))))))))))))))))

/-- The directory has at most 57 characters, the line ends behind its semicolon, and a number is not followed by a character that
could belong to it. -/
def File.Valid (f : File) : Prop :=
  Comment f.header ∧ '\n' ∉ f.directory ∧ f.directory.length ≤ 57 ∧ (∃ r, f.numEventsMax.comment = '\n' :: r) ∧
  (∀ n ∈ [f.numEventsMax, f.timeMax, f.timePrintOut, f.initialTimeBarrier, f.randomVelocityRange, f.relativeGrowthRate,
    f.absoluteGrowthRate, f.numThreads, f.boxType, f.volumeFraction, f.absoluteDistance, f.shrinkage], n.Valid ∧ Ends n.comment) ∧
  f.numSieves.Valid ∧ (∀ v ∈ f.boundingBox :: f.sieves, v.Valid ∧ Ends v.comment) ∧
  Comment f.is2DComment ∧ (∀ c ∈ f.is2DPad, space c = true) ∧ space f.is2D = false

end InputReader
end NuTo
