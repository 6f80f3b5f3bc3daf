/-
Constitutive laws: strain invariants, linear elasticity, damage laws, the modified Mises strain
norm, isotropic damage with history data.

Simplification: exact arithmetic (a field, or the reals where square roots and exponentials
occur). The Voigt length `n` of a vector is a separate parameter: the C++ template argument
`TDim` fixes it to `Voigt::Dim(TDim)` = 1, 3, 6.
-/
import Verif.Model.Basic
import Mathlib.LinearAlgebra.Matrix.Notation
import Mathlib.Analysis.Real.Sqrt
import Mathlib.Analysis.SpecialFunctions.Exp

namespace NuTo

/-- `nuto/mechanics/constitutive/ConstitutivePlaneStateEnum.h` 4-8: `ePlaneState`. -/
inductive PlaneState where
  | planeStress
  | planeStrain
deriving DecidableEq, Repr

/-- `nuto/mechanics/constitutive/LinearElasticDamage.h` 14-18: `eDamageApplication`. -/
inductive DamageApplication where
  | full
  | unilateral
deriving DecidableEq, Repr

/-- `nuto/mechanics/constitutive/damageLaws/SofteningMaterial.h` 12-37: `Softening`. -/
structure Softening (K : Type) where
  E : K
  nu : K
  ft : K
  fc : K
  gf : K
  c : K
  fMin : K
  planeState : PlaneState := .planeStrain

namespace StrainInvariants

variable {K : Type} [Field K]

/-- `nuto/mechanics/constitutive/EngineeringStrainInvariants.h` 12-28: `ToTensor`. -/
def toTensor (v : Fin 6 → K) : Matrix (Fin 3) (Fin 3) K :=
  !![v 0, 1 / 2 * v 5, 1 / 2 * v 4;
     1 / 2 * v 5, v 1, 1 / 2 * v 3;
     1 / 2 * v 4, 1 / 2 * v 3, v 2]

/-- `nuto/mechanics/constitutive/EngineeringStrainInvariants.h` 32-35: `I1`. -/
def I1 (v : Fin 6 → K) : K := v 0 + v 1 + v 2

/-- `nuto/mechanics/constitutive/EngineeringStrainInvariants.h` 39-44: `I2`. -/
def I2 (v : Fin 6 → K) : K :=
  v 0 * v 1 + v 1 * v 2 + v 2 * v 0 - 1 / 4 * (v 3 * v 3 + v 4 * v 4 + v 5 * v 5)

/-- `nuto/mechanics/constitutive/EngineeringStrainInvariants.h` 48-54: `I3`. -/
def I3 (v : Fin 6 → K) : K :=
  v 0 * v 1 * v 2 + 1 / 4 * v 3 * v 4 * v 5 -
    1 / 4 * (v 5 * v 5 * v 2 + v 3 * v 3 * v 0 + v 4 * v 4 * v 1)

/-- `nuto/mechanics/constitutive/EngineeringStrainInvariants.h` 59-71: `J2`. -/
def J2 (v : Fin 6 → K) : K :=
  let xx := v 0
  let yy := v 1
  let zz := v 2
  let yz := 1 / 2 * v 3
  let zx := 1 / 2 * v 4
  let xy := 1 / 2 * v 5
  1 / 6 * ((xx - yy) * (xx - yy) + (yy - zz) * (yy - zz) + (zz - xx) * (zz - xx)) +
    xy * xy + yz * yz + zx * zx

/-- `nuto/mechanics/constitutive/EngineeringStrainInvariants.h` 75-82: `Deviatoric`. -/
def deviatoric (v : Fin 6 → K) : Fin 6 → K :=
  let third := I1 v / 3
  ![v 0 - third, v 1 - third, v 2 - third, v 3, v 4, v 5]

end StrainInvariants

namespace LinearElastic

variable {K : Type} [Field K]

/-- `nuto/mechanics/constitutive/LinearElastic.h` 50-56:
`CalculateCoefficients2DPlaneStress`; `C11, C12, C33`. -/
def coefficients2DPlaneStress (E nu : K) : K × K × K :=
  let factor := E / (1 - nu * nu)
  (factor, factor * nu, factor * (1 / 2) * (1 - nu))

/-- `nuto/mechanics/constitutive/LinearElastic.h` 62-68: `CalculateCoefficients3D`. -/
def coefficients3D (E nu : K) : K × K × K :=
  let factor := E / ((1 + nu) * (1 - 2 * nu))
  (factor * (1 - nu), factor * nu, E / (2 * (1 + nu)))

/-- `nuto/mechanics/constitutive/LinearElastic.h` 70-74: `LinearElastic<1>::CalculateC`. -/
def calculateC1 (E : K) : Matrix (Fin 1) (Fin 1) K := !![E]

/-- `nuto/mechanics/constitutive/LinearElastic.h` 76-96: `LinearElastic<2>::CalculateC`. -/
def calculateC2 (E nu : K) (planeState : PlaneState) : Matrix (Fin 3) (Fin 3) K :=
  let c := if planeState = .planeStress then coefficients2DPlaneStress E nu
    else coefficients3D E nu
  !![c.1, c.2.1, 0;
     c.2.1, c.1, 0;
     0, 0, c.2.2]

/-- `nuto/mechanics/constitutive/LinearElastic.h` 98-123: `LinearElastic<3>::CalculateC`. -/
def calculateC3 (E nu : K) : Matrix (Fin 6) (Fin 6) K :=
  let c := coefficients3D E nu
  !![c.1, c.2.1, c.2.1, 0, 0, 0;
     c.2.1, c.1, c.2.1, 0, 0, 0;
     c.2.1, c.2.1, c.1, 0, 0, 0;
     0, 0, 0, c.2.2, 0, 0;
     0, 0, 0, 0, c.2.2, 0;
     0, 0, 0, 0, 0, c.2.2]

/-- `nuto/mechanics/constitutive/LinearElastic.h` 23-26: `Stress`. -/
def stress {n : Nat} (C : Matrix (Fin n) (Fin n) K) (strain : Fin n → K) : Fin n → K :=
  C.mulVec strain

end LinearElastic

/-- `nuto/mechanics/constitutive/LinearElasticDamage.h` 102-128: the members of
`LinearElasticDamage`. -/
structure LinearElasticDamage (K : Type) (n : Nat) where
  m3K : K
  m2G : K
  application : DamageApplication
  planeState : PlaneState
  mD : Fin n → K
  mD2 : Fin n → K
  mPinvDiag : Fin n → K
  mIv : Matrix (Fin n) (Fin n) K
  mPinvId : Matrix (Fin n) (Fin n) K

namespace LinearElasticDamage

variable {K : Type} [Field K] {n : Nat}

/-- `nuto/mechanics/constitutive/LinearElasticDamage.h` 32-57: the constructor. -/
def make (dim n : Nat) (E nu : K) (application : DamageApplication) (planeState : PlaneState) :
    LinearElasticDamage K n :=
  let mD : Fin n → K := fun i => if i.val < dim then 1 else 0
  let mD2 : Fin n → K := fun i =>
    if dim = 2 ∧ planeState = .planeStress then mD i * (1 + nu / (nu - 1)) else mD i
  let mPinvDiag : Fin n → K := fun i => if i.val < dim then 1 else 1 / 2
  let mIv : Matrix (Fin n) (Fin n) K := fun i j => 1 / 3 * mD i * mD2 j
  { m3K := if dim = 1 then E else 3 * E / (3 - 6 * nu)
    m2G := if dim = 1 then E else 2 * E / (2 + 2 * nu)
    application := application
    planeState := planeState
    mD := mD
    mD2 := mD2
    mPinvDiag := mPinvDiag
    mIv := mIv
    mPinvId := fun i j => mPinvDiag i * ((if i = j then 1 else 0) - mIv i j) }

/-- `nuto/mechanics/constitutive/LinearElasticDamage.h` 59-62: the constructor from material
parameters. -/
def ofSoftening (dim n : Nat) (m : Softening K) (application : DamageApplication) :
    LinearElasticDamage K n :=
  make dim n m.E m.nu application m.planeState

variable [LinearOrder K]

/-- `nuto/mechanics/constitutive/LinearElasticDamage.h` 93-99: `H`. -/
def H (l : LinearElasticDamage K n) (eV : K) : K :=
  if l.application = .unilateral then (if eV < 0 then 0 else 1) else 1

/-- `nuto/mechanics/constitutive/LinearElasticDamage.h` 67, 76, 86: the volumetric strain. -/
def volumetric (l : LinearElasticDamage K n) (strain : Fin n → K) : K :=
  1 / 3 * ∑ j, l.mD2 j * strain j

/-- `nuto/mechanics/constitutive/LinearElasticDamage.h` 65-72: `Stress`. -/
def stress (l : LinearElasticDamage K n) (strain : Fin n → K) (omega : K) : Fin n → K :=
  let eV := l.volumetric strain
  let e : Fin n → K := fun i => strain i - l.mD i * eV
  let sV := (1 - omega * l.H eV) * l.m3K * eV
  fun i => l.mD i * sV + (1 - omega) * l.m2G * l.mPinvDiag i * e i

/-- `nuto/mechanics/constitutive/LinearElasticDamage.h` 74-82: `DstressDstrain`. -/
def dStressDStrain (l : LinearElasticDamage K n) (strain : Fin n → K) (omega : K) :
    Matrix (Fin n) (Fin n) K :=
  let eV := l.volumetric strain
  fun i j => l.m3K * (1 - omega * l.H eV) * l.mIv i j + (1 - omega) * l.m2G * l.mPinvId i j

/-- `nuto/mechanics/constitutive/LinearElasticDamage.h` 84-91: `DstressDomega`. -/
def dStressDOmega (l : LinearElasticDamage K n) (strain : Fin n → K) : Fin n → K :=
  let eV := l.volumetric strain
  let e : Fin n → K := fun i => strain i - l.mD i * eV
  let d := -l.m3K * eV * l.H eV
  fun i => l.mD i * d - l.m2G * l.mPinvDiag i * e i

end LinearElasticDamage

/-- `nuto/mechanics/constitutive/damageLaws/DamageLaw.h` 9-22: a damage law and its derivative. -/
structure DamageLaw where
  damage : ℝ → ℝ
  derivative : ℝ → ℝ

namespace DamageLaw

/-- `nuto/mechanics/constitutive/damageLaws/DamageLawExponential.h` 26-31, 39-53. -/
noncomputable def exponential (kappa0 beta alpha : ℝ) : DamageLaw where
  damage kappa :=
    if kappa < kappa0 then 0
    else 1 - kappa0 / kappa * (1 - alpha + alpha * Real.exp (beta * (kappa0 - kappa)))
  derivative kappa :=
    if kappa < kappa0 then 0
    else kappa0 / kappa *
      ((1 / kappa + beta) * alpha * Real.exp (beta * (kappa0 - kappa)) + (1 - alpha) / kappa)

/-- `nuto/mechanics/constitutive/damageLaws/DamageLawExponential.h` 32-37. -/
noncomputable def exponentialOf (m : Softening ℝ) : DamageLaw :=
  exponential (m.ft / m.E) (m.ft / m.gf) (1 - m.fMin / m.ft)

/-- `nuto/mechanics/constitutive/damageLaws/DamageLawLinear.h` 25-30, 39-54. -/
noncomputable def linear (kappa0 kappaC omegaMax : ℝ) : DamageLaw :=
  let damage : ℝ → ℝ := fun kappa =>
    if kappa < kappa0 then 0
    else min (kappaC / kappa * (kappa - kappa0) / (kappaC - kappa0)) omegaMax
  { damage := damage
    derivative := fun kappa =>
      if kappa < kappa0 then 0
      else if damage kappa < omegaMax then
        kappaC * kappa0 / (kappa * kappa * (kappaC - kappa0))
      else 0 }

/-- `nuto/mechanics/constitutive/damageLaws/DamageLawLinear.h` 32-37. -/
noncomputable def linearOf (m : Softening ℝ) : DamageLaw :=
  linear (m.ft / m.E) (m.ft / m.E + 2 * m.gf / m.ft) (1 - m.fMin / m.ft)

/-- `nuto/mechanics/constitutive/damageLaws/DamageLawNoSoftening.h` 23-45. -/
noncomputable def noSoftening (kappa0 : ℝ) : DamageLaw where
  damage kappa := if kappa < kappa0 then 0 else 1 - kappa0 / kappa
  derivative kappa := if kappa < kappa0 then 0 else kappa0 / (kappa * kappa)

end DamageLaw

/-- `nuto/mechanics/constitutive/ModifiedMisesStrainNorm.h` 60-67: the members. -/
structure MisesNorm where
  nu : ℝ
  k : ℝ
  planeState : PlaneState
  k1 : ℝ
  k2 : ℝ

namespace MisesNorm

open StrainInvariants

/-- `nuto/mechanics/constitutive/ModifiedMisesStrainNorm.h` 70-78: the constructor. -/
noncomputable def make (nu k : ℝ) (planeState : PlaneState := .planeStrain) : MisesNorm :=
  { nu := nu
    k := k
    planeState := planeState
    k1 := (k - 1) / (2 * k * (1 - 2 * nu))
    k2 := 3 / (k * (1 + nu) * (1 + nu)) }

/-- `nuto/mechanics/constitutive/ModifiedMisesStrainNorm.h` 80-84: the constructor from material
parameters; the plane state of the material is not used. -/
noncomputable def ofSoftening (m : Softening ℝ) (planeState : PlaneState := .planeStrain) :
    MisesNorm :=
  make m.nu (m.fc / m.ft) planeState

/-- `nuto/mechanics/constitutive/ModifiedMisesStrainNorm.h` 86-98: `Strain3D` in 1D. -/
def strain3D1 (nu : ℝ) (strain : Fin 1 → ℝ) : Fin 6 → ℝ :=
  ![strain 0, -nu * strain 0, -nu * strain 0, 0, 0, 0]

/-- `nuto/mechanics/constitutive/ModifiedMisesStrainNorm.h` 100-126: `Strain3D` in 2D. -/
noncomputable def strain3D2 (nu : ℝ) (planeState : PlaneState) (strain : Fin 3 → ℝ) :
    Fin 6 → ℝ :=
  match planeState with
  | .planeStrain => ![strain 0, strain 1, 0, 0, 0, strain 2]
  | .planeStress => ![strain 0, strain 1, nu / (nu - 1) * (strain 0 + strain 1), 0, 0, strain 2]

/-- `nuto/mechanics/constitutive/ModifiedMisesStrainNorm.h` 143: `A`. -/
noncomputable def A (m : MisesNorm) (strain3D : Fin 6 → ℝ) : ℝ :=
  Real.sqrt (m.k1 * m.k1 * I1 strain3D * I1 strain3D + m.k2 * J2 strain3D)

/-- `nuto/mechanics/constitutive/ModifiedMisesStrainNorm.h` 136-146: `Value` for the completed
strain. -/
noncomputable def value3 (m : MisesNorm) (strain : Fin 6 → ℝ) : ℝ :=
  m.k1 * I1 strain + m.A strain

/-- `Value` in 1D. -/
noncomputable def value1 (m : MisesNorm) (strain : Fin 1 → ℝ) : ℝ :=
  m.value3 (strain3D1 m.nu strain)

/-- `Value` in 2D. -/
noncomputable def value2 (m : MisesNorm) (strain : Fin 3 → ℝ) : ℝ :=
  m.value3 (strain3D2 m.nu m.planeState strain)

/-- `nuto/mechanics/constitutive/ModifiedMisesStrainNorm.h` 149-169: `Derivative` in 1D. -/
noncomputable def derivative1 (m : MisesNorm) (strain : Fin 1 → ℝ) : Fin 1 → ℝ :=
  let dJ2dexx := 2 / 3 * strain 0 * (1 + m.nu) * (1 + m.nu)
  let dI1dexx := 1 - 2 * m.nu
  let s := strain3D1 m.nu strain
  let a := m.A s
  if a = 0 then ![m.k1 * dI1dexx]
  else ![m.k1 * dI1dexx + 1 / (2 * a) * (2 * m.k1 * m.k1 * I1 s * dI1dexx + m.k2 * dJ2dexx)]

/-- `nuto/mechanics/constitutive/ModifiedMisesStrainNorm.h` 171-229: `Derivative` in 2D. -/
noncomputable def derivative2 (m : MisesNorm) (strain : Fin 3 → ℝ) : Fin 3 → ℝ :=
  let s := strain3D2 m.nu m.planeState strain
  let a := m.A s
  match m.planeState with
  | .planeStrain =>
    if a = 0 then ![m.k1, m.k1, 0]
    else
      let dJ2dexx := 1 / 3 * (2 * strain 0 - strain 1)
      let dJ2deyy := 1 / 3 * (2 * strain 1 - strain 0)
      let dJ2dgxy := 1 / 2 * strain 2
      ![m.k1 + 1 / (2 * a) * (2 * m.k1 * m.k1 * I1 s + m.k2 * dJ2dexx),
        m.k1 + 1 / (2 * a) * (2 * m.k1 * m.k1 * I1 s + m.k2 * dJ2deyy),
        1 / (2 * a) * (m.k2 * dJ2dgxy)]
  | .planeStress =>
    let dI1 := 1 + m.nu / (m.nu - 1)
    if a = 0 then ![dI1 * m.k1, dI1 * m.k1, 0]
    else
      let strainxy := m.nu / (m.nu - 1) * (strain 0 + strain 1)
      let dJ2dexx := 1 / 3 * (2 * strain 0 - strain 1 - 2 * strainxy +
        2 * m.nu / (m.nu - 1) * strainxy)
      let dJ2deyy := 1 / 3 * (2 * strain 1 - strain 0 - 2 * strainxy +
        2 * m.nu / (m.nu - 1) * strainxy)
      let dJ2dgxy := 1 / 2 * strain 2
      ![dI1 * m.k1 + 1 / (2 * a) * (2 * dI1 * m.k1 * m.k1 * I1 s + m.k2 * dJ2dexx),
        dI1 * m.k1 + 1 / (2 * a) * (2 * dI1 * m.k1 * m.k1 * I1 s + m.k2 * dJ2deyy),
        1 / (2 * a) * (m.k2 * dJ2dgxy)]

/-- `nuto/mechanics/constitutive/ModifiedMisesStrainNorm.h` 231-268: `Derivative` in 3D. -/
noncomputable def derivative3 (m : MisesNorm) (strain : Fin 6 → ℝ) : Fin 6 → ℝ :=
  let a := m.A strain
  if a = 0 then ![m.k1, m.k1, m.k1, 0, 0, 0]
  else
    let dJ2dexx := 1 / 3 * (2 * strain 0 - strain 1 - strain 2)
    let dJ2deyy := 1 / 3 * (2 * strain 1 - strain 0 - strain 2)
    let dJ2dezz := 1 / 3 * (2 * strain 2 - strain 0 - strain 1)
    let dJ2dgyz := 1 / 2 * strain 3
    let dJ2dgzx := 1 / 2 * strain 4
    let dJ2dgxy := 1 / 2 * strain 5
    ![m.k1 + 1 / (2 * a) * (2 * m.k1 * m.k1 * I1 strain + m.k2 * dJ2dexx),
      m.k1 + 1 / (2 * a) * (2 * m.k1 * m.k1 * I1 strain + m.k2 * dJ2deyy),
      m.k1 + 1 / (2 * a) * (2 * m.k1 * m.k1 * I1 strain + m.k2 * dJ2dezz),
      1 / (2 * a) * m.k2 * dJ2dgyz,
      1 / (2 * a) * m.k2 * dJ2dgzx,
      1 / (2 * a) * m.k2 * dJ2dgxy]

end MisesNorm

/-- The history data `Eigen::MatrixXd mKappas`. -/
structure History where
  rows : Nat
  cols : Nat
  val : Nat → Nat → ℝ

namespace History

/-- Access `mKappas(cellId, ipId)`; an index outside of the matrix is undefined. -/
noncomputable def get (h : History) (cellId ipId : Int) : Res ℝ :=
  if 0 ≤ cellId ∧ cellId < h.rows ∧ 0 ≤ ipId ∧ ipId < h.cols then
    .ok (h.val cellId.toNat ipId.toNat)
  else .ub

/-- Assignment `mKappas(cellId, ipId) = x`. -/
noncomputable def set (h : History) (cellId ipId : Int) (x : ℝ) : Res History :=
  if 0 ≤ cellId ∧ cellId < h.rows ∧ 0 ≤ ipId ∧ ipId < h.cols then
    .ok { h with val := fun c i => if c = cellId.toNat ∧ i = ipId.toNat then x else h.val c i }
  else .ub

/-- `nuto/mechanics/constitutive/LocalIsotropicDamage.h` 135-138: `ResizeHistoryData`. -/
def resize (numCells numIpsPerCell : Nat) : History := ⟨numCells, numIpsPerCell, fun _ _ => 0⟩

/-- `nuto/mechanics/constitutive/LocalIsotropicDamage.h` 118-121: `EvolutionImplicit::Kappa`;
`eeq` is `mStrainNorm.Value(strain)`. `nuto/mechanics/integrands/GradientDamage.h` 127-130 is the
same with the nonlocal equivalent strain. -/
noncomputable def kappa (h : History) (eeq : ℝ) (cellId ipId : Int) : Res ℝ := do
  let old ← h.get cellId ipId
  pure (max eeq old)

/-- `nuto/mechanics/constitutive/LocalIsotropicDamage.h` 130-133: `Update`
(`nuto/mechanics/integrands/GradientDamage.h` 122-125). -/
noncomputable def update (h : History) (eeq : ℝ) (cellId ipId : Int) : Res History := do
  let k ← h.kappa eeq cellId ipId
  h.set cellId ipId k

end History

/-- `nuto/mechanics/constitutive/LocalIsotropicDamage.h` 80-82: the members of
`LocalIsotropicDamage` with `EvolutionImplicit`; the strain norm and its derivative are given as
functions (`MisesNorm` in the code). -/
structure LocalDamage (n : Nat) where
  elastic : LinearElasticDamage ℝ n
  law : DamageLaw
  norm : (Fin n → ℝ) → ℝ
  dNorm : (Fin n → ℝ) → Fin n → ℝ
  history : History

namespace LocalDamage

variable {n : Nat}

/-- `nuto/mechanics/constitutive/LocalIsotropicDamage.h` 52-57: `Stress`. -/
noncomputable def stress (l : LocalDamage n) (strain : Fin n → ℝ) (cellId ipId : Int) :
    Res (Fin n → ℝ) := do
  let kappa ← l.history.kappa (l.norm strain) cellId ipId
  pure (l.elastic.stress strain (l.law.damage kappa))

/-- `nuto/mechanics/constitutive/LocalIsotropicDamage.h` 123-128: `DkappaDstrain`. -/
noncomputable def dKappaDStrain (l : LocalDamage n) (strain : Fin n → ℝ) (cellId ipId : Int) :
    Res (Fin n → ℝ) := do
  let old ← l.history.get cellId ipId
  pure (if l.norm strain ≥ old then l.dNorm strain else fun _ => 0)

/-- `nuto/mechanics/constitutive/LocalIsotropicDamage.h` 59-68: `Tangent`. -/
noncomputable def tangent (l : LocalDamage n) (strain : Fin n → ℝ) (cellId ipId : Int) :
    Res (Matrix (Fin n) (Fin n) ℝ) := do
  let kappa ← l.history.kappa (l.norm strain) cellId ipId
  let omega := l.law.damage kappa
  let dOmega := l.law.derivative kappa
  let dKappa ← l.dKappaDStrain strain cellId ipId
  pure (fun i j => l.elastic.dStressDStrain strain omega i j +
    l.elastic.dStressDOmega strain i * dOmega * dKappa j)

/-- `nuto/mechanics/constitutive/LocalIsotropicDamage.h` 70-73: `Update`. -/
noncomputable def update (l : LocalDamage n) (strain : Fin n → ℝ) (cellId ipId : Int) :
    Res (LocalDamage n) := do
  let h ← l.history.update (l.norm strain) cellId ipId
  pure { l with history := h }

end LocalDamage

end NuTo
