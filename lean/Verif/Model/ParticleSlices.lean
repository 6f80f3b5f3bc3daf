import Verif.Model.CylinderRun
import Mathlib.Analysis.SpecialFunctions.Pow.Real

/-!
Planar sections of the particles and the reported smallest distance of particles:
`nuto/geometryConcrete/collision/handler/ParticleHandler.cpp`.

`double` is `ℝ`, `int` is unbounded.  `INFINITY` is `none`.
-/

namespace NuTo.Collision

/-! ### `GetParticles2D` -/

/-- A row of the matrix `circles`: `x`, `y`, radius -/
structure Circle where
  x : ℝ
  y : ℝ
  radius : ℝ

/-- `conservativeResize(n, 3)`: kept rows stay, new rows are not initialised -/
def resizeRows (rows : List (Option Circle)) (n : ℕ) : List (Option Circle) :=
  rows.take n ++ List.replicate (n - rows.length) none

/-- `ParticleHandler.cpp:377-385`: writing a row, after growing the matrix by 1000 rows if it is full.  Writing a row
that does not exist is undefined. -/
def addCircle (s : List (Option Circle) × ℕ) (c : Circle) : Res (List (Option Circle) × ℕ) :=
  let rows := if s.2 = s.1.length then resizeRows s.1 (s.2 + 1000) else s.1
  if s.2 < rows.length then .ok (rows.set s.2 (some c), s.2 + 1) else .ub

/-- The body of the loop over the particles, `ParticleHandler.cpp:369-388` (the row of the particle is `GetParticles(false)`,
position and current radius) -/
noncomputable def sliceStep (z minRadius : ℝ) (s : List (Option Circle) × ℕ) (p : Ball ℝ) :
    Res (List (Option Circle) × ℕ) :=
  let delta := p.position 2 - z
  if |delta| < p.radius then
    let radius := √(p.radius * p.radius - delta * delta)
    if radius > minRadius then addCircle s ⟨p.position 0, p.position 1, radius⟩ else .ok s
  else .ok s

/-- `GetParticles2D`, `ParticleHandler.cpp:362-393` -/
noncomputable def particles2D (ps : List (Ball ℝ)) (z minRadius : ℝ) : Res (List (Option Circle)) :=
  (Res.foldlM (sliceStep z minRadius) (List.replicate 1000 none, 0) ps).bind fun s => .ok (resizeRows s.1 s.2)

/-! ### `GetAbsoluteMininimalDistance` -/

/-- `ParticleHandler.cpp:236-250`: the position in `boxes` of the sub box of a corner.  The lower corner of the specimen
is not subtracted. -/
noncomputable def Grid.statIndex (g : Grid ℝ) (x : Fin 3 → ℝ) : ℤ :=
  g.linearIndex fun i => clampIndex (g.divisions i) ⌊x i / g.subLength i⌋

/-- `ParticleHandler.cpp:249-260`: `boxes[boxIndex]` must exist -/
noncomputable def Grid.statAdd (g : Grid ℝ) (s : ℕ) (boxes : ℤ → List ℕ) (x : Fin 3 → ℝ) : Res (ℤ → List ℕ) :=
  if g.statIndex x < 0 ∨ g.size ≤ g.statIndex x then .ub
  else if (boxes (g.statIndex x)).getLast? = some s then .ok boxes
  else .ok (Function.update boxes (g.statIndex x) (boxes (g.statIndex x) ++ [s]))

/-- `ParticleHandler.cpp:217-262`; the radius is `GetRadius0()`, the radius at the start of the simulation -/
noncomputable def Grid.statBoxes (g : Grid ℝ) (ps : List (Ball ℝ)) : Res (ℤ → List ℕ) :=
  Res.foldlM (fun boxes (x : Ball ℝ × ℕ) => Res.foldlM (g.statAdd x.2) boxes x.1.corners) (fun _ => []) ps.zipIdx

/-- The loops over `i` and `j = i + 1, …`, `ParticleHandler.cpp:272-277` -/
def pairs : List ℕ → List (ℕ × ℕ)
  | [] => []
  | i :: l => l.map (fun j => (i, j)) ++ pairs l

/-- `ParticleHandler.cpp:279-282` -/
noncomputable def gap (p q : Ball ℝ) : ℝ :=
  √(∑ i, (p.position i - q.position i) * (p.position i - q.position i)) - (p.radius + q.radius)

/-- `std::min(minDistance, ijDistance)`, `none` is `INFINITY` -/
noncomputable def minInf (m : Option ℝ) (d : ℝ) : Option ℝ :=
  match m with
  | none => some d
  | some a => some (min a d)

/-- `ParticleHandler.cpp:274-283`; a particle that does not exist is undefined -/
noncomputable def compare (ps : List (Ball ℝ)) (m : Option ℝ) (ij : ℕ × ℕ) : Res (Option ℝ) :=
  match ps[ij.1]?, ps[ij.2]? with
  | some p, some q => .ok (minInf m (gap p q))
  | _, _ => .ub

/-- `ParticleHandler.cpp:195-286` for given divisions -/
noncomputable def Grid.minimalDistance (g : Grid ℝ) (ps : List (Ball ℝ)) : Res (Option ℝ) :=
  (g.statBoxes ps).bind fun boxes =>
    Res.foldlM (compare ps) none ((intSpan 0 (g.size - 1)).flatMap fun b => pairs (boxes b))

/-- `GetAbsoluteMininimalDistance`, `ParticleHandler.cpp:186-287` -/
noncomputable def absoluteMinimalDistance (volume : ℝ) (lower upper : Fin 3 → ℝ) (ps : List (Ball ℝ)) : Res (Option ℝ) :=
  (subBoxDivisions volume (fun i => upper i - lower i) ps.length 10).bind fun d =>
    Grid.minimalDistance ⟨d, lower, upper⟩ ps

end NuTo.Collision
