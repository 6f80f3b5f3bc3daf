/-
Integrands: momentum balance, mass, Neumann loads and gradient enhanced damage at one integration point.

Simplification: exact real arithmetic. An integrand sees the N and B matrices of an integration point and
the node values of the element (`nuto/mechanics/cell/CellIpData.h` 77-95, modelled in `Model/Cell`); here they are
given as matrices whose sizes match.
-/
import Verif.Model.Constitutive

namespace NuTo.Integrands

open Matrix

/-- What an integrand reads of `CellIpData` for one dof type: `N(dofType)`, `B(dofType, op)`,
`NodeValueVector(dofType)`. -/
structure DofAt (rowsN rowsB dofs : Nat) where
  N : Matrix (Fin rowsN) (Fin dofs) ℝ
  B : Matrix (Fin rowsB) (Fin dofs) ℝ
  values : Fin dofs → ℝ

/-- `nuto/mechanics/cell/CellIpData.h` 48-51: `Value`. -/
def DofAt.value {a b n : Nat} (x : DofAt a b n) : Fin a → ℝ := x.N *ᵥ x.values

/-- `nuto/mechanics/cell/CellIpData.h` 70-73: `Apply`. -/
def DofAt.apply {a b n : Nat} (x : DofAt a b n) : Fin b → ℝ := x.B *ᵥ x.values

/-- `nuto/mechanics/integrands/MomentumBalance.h` 26-35: `Gradient`; `stress` is `mLaw.Stress` for the given time
step and ids. -/
def momentumGradient {a n d : Nat} (stress : (Fin n → ℝ) → Fin n → ℝ) (x : DofAt a n d) : Fin d → ℝ :=
  x.Bᵀ *ᵥ stress x.apply

/-- `nuto/mechanics/integrands/MomentumBalance.h` 37-46: `Hessian0`; `tangent` is `mLaw.Tangent`. -/
def momentumHessian0 {a n d : Nat} (tangent : (Fin n → ℝ) → Matrix (Fin n) (Fin n) ℝ) (x : DofAt a n d) :
    Matrix (Fin d) (Fin d) ℝ :=
  x.Bᵀ * tangent x.apply * x.B

/-- `nuto/mechanics/integrands/DynamicMomentumBalance.h` 22-30: `Hessian2`. -/
def hessian2 {a b d : Nat} (rho : ℝ) (x : DofAt a b d) : Matrix (Fin d) (Fin d) ℝ :=
  rho • (x.Nᵀ * x.N)

/-- `nuto/mechanics/integrands/NeumannBc.h` 29-37: `ExternalLoad`. -/
def externalLoad {a b d : Nat} (factor : Fin a → ℝ) (x : DofAt a b d) : Fin d → ℝ := x.Nᵀ *ᵥ factor

/-- The template argument `TInteraction` of `GradientDamage`: `Factor` and `Derivative`. -/
structure Interaction where
  factor : ℝ → ℝ
  derivative : ℝ → ℝ

/-- `nuto/mechanics/integrands/GradientDamage.h` 152-163: `NonlocalInteraction::Constant`. -/
def Interaction.constant : Interaction := ⟨fun _ => 1, fun _ => 0⟩

/-- `nuto/mechanics/integrands/GradientDamage.h` 165-184: `NonlocalInteraction::Decreasing`. -/
noncomputable def Interaction.decreasing (R eta : ℝ) : Interaction where
  factor omega := ((1 - R) * Real.exp (-eta * omega) + R - Real.exp (-eta)) / (1 - Real.exp (-eta))
  derivative omega := (1 - R) * Real.exp (-eta * omega) / (1 - Real.exp (-eta)) * -eta

/-- `nuto/mechanics/integrands/GradientDamage.h` 137-145: the members of `GradientDamage`; the strain norm and its
derivative are given as functions (`MisesNorm` in the code). -/
structure GradientDamage (n : Nat) where
  history : History
  c : ℝ
  elastic : LinearElasticDamage ℝ n
  law : DamageLaw
  norm : (Fin n → ℝ) → ℝ
  dNorm : (Fin n → ℝ) → Fin n → ℝ
  interaction : Interaction

namespace GradientDamage

variable {n : Nat}

/-- `nuto/mechanics/integrands/GradientDamage.h` 36-46, 55-66: the constructors; `mKappas` stays empty. -/
def make (c : ℝ) (elastic : LinearElasticDamage ℝ n) (law : DamageLaw) (norm : (Fin n → ℝ) → ℝ)
    (dNorm : (Fin n → ℝ) → Fin n → ℝ) (interaction : Interaction) : GradientDamage n :=
  ⟨History.resize 0 0, c, elastic, law, norm, dNorm, interaction⟩

/-- The data of an integration point: displacements, nonlocal equivalent strains, `Ids()`. -/
structure Ip (n dim nd ne : Nat) where
  disp : DofAt dim n nd
  eeq : DofAt 1 dim ne
  cellId : Int
  ipId : Int

variable {dim nd ne : Nat}

/-- `nuto/mechanics/cell/CellIpData.h` 58-61: `Value` of a scalar dof. -/
def Ip.eeqValue (x : Ip n dim nd ne) : ℝ := x.eeq.value 0

/-- `nuto/mechanics/integrands/GradientDamage.h` 127-130: `Kappa`. -/
noncomputable def kappa (g : GradientDamage n) (x : Ip n dim nd ne) : Res ℝ :=
  (g.history.get x.cellId x.ipId).bind fun old => .ok (max old x.eeqValue)

/-- `nuto/mechanics/integrands/GradientDamage.h` 132-135: `DkappaDeeq`. -/
noncomputable def dKappaDEeq (g : GradientDamage n) (x : Ip n dim nd ne) : Res ℝ :=
  (g.history.get x.cellId x.ipId).bind fun old => .ok (if x.eeqValue ≥ old then 1 else 0)

/-- `nuto/mechanics/integrands/GradientDamage.h` 122-125: `Update`. -/
noncomputable def update (g : GradientDamage n) (x : Ip n dim nd ne) : Res (GradientDamage n) :=
  (g.kappa x).bind fun k => (g.history.set x.cellId x.ipId k).bind fun h => .ok { g with history := h }

/-- `nuto/mechanics/integrands/GradientDamage.h` 70-90: `Gradient`; the blocks of the displacements and of the
nonlocal equivalent strains. -/
noncomputable def gradient (g : GradientDamage n) (x : Ip n dim nd ne) : Res ((Fin nd → ℝ) × (Fin ne → ℝ)) :=
  (g.kappa x).bind fun kappa =>
    let omega := g.law.damage kappa
    let strain := x.disp.apply
    let f := g.interaction.factor omega
    .ok (x.disp.Bᵀ *ᵥ g.elastic.stress strain omega,
      x.eeq.Nᵀ *ᵥ (fun _ => x.eeqValue - g.norm strain) + x.eeq.Bᵀ *ᵥ ((g.c * f) • x.eeq.apply))

/-- The blocks of `Hessian0`, row dof type first. -/
structure Blocks (nd ne : Nat) where
  dd : Matrix (Fin nd) (Fin nd) ℝ
  de : Matrix (Fin nd) (Fin ne) ℝ
  ed : Matrix (Fin ne) (Fin nd) ℝ
  ee : Matrix (Fin ne) (Fin ne) ℝ

/-- A vector as a matrix with one column. -/
def column {m : Nat} (v : Fin m → ℝ) : Matrix (Fin m) (Fin 1) ℝ := fun i _ => v i

/-- `nuto/mechanics/integrands/GradientDamage.h` 92-120: `Hessian0`. -/
noncomputable def hessian0 (g : GradientDamage n) (x : Ip n dim nd ne) : Res (Blocks nd ne) :=
  (g.kappa x).bind fun kappa =>
    (g.dKappaDEeq x).bind fun dKappa =>
      let omega := g.law.damage kappa
      let dOmega := g.law.derivative kappa
      let strain := x.disp.apply
      let f := g.interaction.factor omega
      let df := g.interaction.derivative omega
      .ok
        { dd := x.disp.Bᵀ * g.elastic.dStressDStrain strain omega * x.disp.B
          ed := -x.eeq.Nᵀ * (column (g.dNorm strain))ᵀ * x.disp.B
          ee := x.eeq.Nᵀ * x.eeq.N + (g.c * f) • (x.eeq.Bᵀ * x.eeq.B) +
            (g.c * df * dOmega * dKappa) • (x.eeq.Bᵀ * column x.eeq.apply * x.eeq.N)
          de := x.disp.Bᵀ * column ((dOmega * dKappa) • g.elastic.dStressDOmega strain) * x.eeq.N }

end GradientDamage

end NuTo.Integrands
