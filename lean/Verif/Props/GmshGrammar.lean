import Verif.Model.GmshText
import Mathlib.Tactic.Linarith
import Mathlib.Tactic.Ring

/-!
The text format of gmsh, as used in the statement of C93
-/

set_option linter.unusedSectionVars false
set_option linter.unusedSimpArgs false

namespace NuTo

namespace GmshText

open Gmsh

/-! ### The format, following the documentation of gmsh -/

/-- The characters of digits -/
def digitChar (d : Fin 10) : Char := Char.ofNat (48 + d.val)

/-- The number written as digits -/
def decimal (l : List (Fin 10)) : Nat := l.foldl (fun n d => 10 * n + d.val) 0

/-- The text of an integer -/
structure IntText where
  neg : Bool
  digits : List (Fin 10)

/-- The characters -/
def IntText.text (t : IntText) : List Char := (if t.neg then ['-'] else []) ++ t.digits.map digitChar

/-- The number -/
def IntText.value (t : IntText) : Int := if t.neg then -(decimal t.digits : Int) else decimal t.digits

/-- Some digits, and the number is an `int`. -/
def IntText.Valid (t : IntText) : Prop := t.digits ≠ [] ∧ -2 ^ 31 ≤ t.value ∧ t.value < 2 ^ 31

/-- The text of a number: sign, digits, fraction, exponent -/
structure RealText where
  neg : Bool
  int : List (Fin 10)
  frac : Option (List (Fin 10))
  exp : Option (Option Bool × List (Fin 10))

/-- The characters of the exponent -/
def expText : Option (Option Bool × List (Fin 10)) → List Char
  | none => []
  | some (none, d) => 'e' :: d.map digitChar
  | some (some true, d) => 'e' :: '-' :: d.map digitChar
  | some (some false, d) => 'e' :: '+' :: d.map digitChar

/-- The exponent -/
def expValue : Option (Option Bool × List (Fin 10)) → Int
  | none => 0
  | some (some true, d) => -(decimal d : Int)
  | some (_, d) => decimal d

/-- The characters of the fraction -/
def fracText : Option (List (Fin 10)) → List Char
  | none => []
  | some d => '.' :: d.map digitChar

/-- The characters -/
def RealText.text (t : RealText) : List Char :=
  (if t.neg then ['-'] else []) ++ t.int.map digitChar ++ fracText t.frac ++ expText t.exp

/-- The number -/
def RealText.value (t : RealText) : ℚ :=
  (if t.neg then -1 else 1) * decimal (t.int ++ t.frac.getD []) * 10 ^ (expValue t.exp - (t.frac.getD []).length)

/-- Some digits before or after the point, some digits in the exponent -/
def RealText.Valid (t : RealText) : Prop := t.int ++ t.frac.getD [] ≠ [] ∧ ∀ e ∈ t.exp, e.2 ≠ []

/-- A line of the section of nodes -/
structure NodeLine where
  id : IntText
  x : RealText
  y : RealText
  z : RealText

def NodeLine.text (eol : List Char) (n : NodeLine) : List Char :=
  n.id.text ++ ' ' :: n.x.text ++ ' ' :: n.y.text ++ ' ' :: n.z.text ++ eol

def NodeLine.Valid (n : NodeLine) : Prop := n.id.Valid ∧ n.x.Valid ∧ n.y.Valid ∧ n.z.Valid

def NodeLine.record (n : NodeLine) : NodeRecord ℚ := ⟨n.id.value, n.x.value, n.y.value, n.z.value⟩

/-- A line of the section of elements: number, type, number of tags, tags, nodes -/
structure ElementLine where
  id : IntText
  type : IntText
  numTags : IntText
  tags : List IntText
  nodes : List IntText

def intsText (l : List IntText) : List Char := l.flatMap fun t => ' ' :: t.text

def ElementLine.text (eol : List Char) (e : ElementLine) : List Char :=
  e.id.text ++ ' ' :: e.type.text ++ ' ' :: e.numTags.text ++ intsText e.tags ++ intsText e.nodes ++ eol

/-- The types of elements known to `NumNodes`, with the number of nodes -/
def ElementLine.Valid (e : ElementLine) : Prop :=
  e.id.Valid ∧ e.type.Valid ∧ e.numTags.Valid ∧ e.numTags.value = e.tags.length ∧ (∀ t ∈ e.tags, t.Valid) ∧ (∀ t ∈ e.nodes, t.Valid) ∧
    numNodes e.type.value = .ok e.nodes.length

def ElementLine.record (e : ElementLine) : Element := ⟨e.id.value, e.type.value, e.tags.map IntText.value, e.nodes.map IntText.value⟩

/-- A line of the section of names -/
structure NameLine where
  dimension : IntText
  id : IntText
  name : List Char

def NameLine.text (eol : List Char) (n : NameLine) : List Char :=
  n.dimension.text ++ ' ' :: n.id.text ++ ' ' :: '"' :: n.name ++ '"' :: eol

/-- The name is one word. -/
def NameLine.Valid (n : NameLine) : Prop := n.dimension.Valid ∧ n.id.Valid ∧ ∀ c ∈ n.name, space c = false ∧ c ≠ '"'

def NameLine.record (n : NameLine) : PhysicalName := ⟨n.dimension.value, n.id.value, n.name⟩

/-- A section -/
inductive Section where
  | names (count : IntText) (lines : List NameLine)
  | nodes (count : IntText) (lines : List NodeLine)
  | elements (count : IntText) (lines : List ElementLine)

def Section.text (eol : List Char) : Section → List Char
  | .names n l => "$PhysicalNames".toList ++ eol ++ n.text ++ eol ++ l.flatMap (NameLine.text eol) ++ "$EndPhysicalNames".toList ++ eol
  | .nodes n l => "$Nodes".toList ++ eol ++ n.text ++ eol ++ l.flatMap (NodeLine.text eol) ++ "$EndNodes".toList ++ eol
  | .elements n l => "$Elements".toList ++ eol ++ n.text ++ eol ++ l.flatMap (ElementLine.text eol) ++ "$EndElements".toList ++ eol

/-- The lines are as documented and as many as announced. -/
def Section.Valid : Section → Prop
  | .names n l => n.Valid ∧ n.value = l.length ∧ ∀ x ∈ l, x.Valid
  | .nodes n l => n.Valid ∧ n.value = l.length ∧ ∀ x ∈ l, x.Valid
  | .elements n l => n.Valid ∧ n.value = l.length ∧ ∀ x ∈ l, x.Valid

/-- What the section says -/
def Section.put (c : Content) : Section → Content
  | .names _ l => { c with names := l.map NameLine.record }
  | .nodes _ l => { c with nodes := l.map NodeLine.record }
  | .elements _ l => { c with elements := l.map ElementLine.record }

/-- The first lines of the file: version, 0 for text, size of numbers -/
def headerText (eol : List Char) (version : RealText) (size : IntText) : List Char :=
  "$MeshFormat".toList ++ eol ++ version.text ++ ' ' :: '0' :: ' ' :: size.text ++ eol ++ "$EndMeshFormat".toList ++ eol

end GmshText
end NuTo
