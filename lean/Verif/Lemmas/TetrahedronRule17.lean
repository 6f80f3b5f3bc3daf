import Verif.Lemmas.TetrahedronRule

/-! The moments of the tetrahedron rule of order 17 (a file of its own to limit the memory of the check). -/
namespace NuTo.SimplexRule

theorem tetrahedron_check_12 : Close tetrahedron12 17 :=
  fastAll_spec (by decide +kernel) (by decide +kernel) (by decide +kernel) (by decide +kernel)

end NuTo.SimplexRule
