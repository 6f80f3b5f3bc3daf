import Verif.Lemmas.TetrahedronRule

/-! The moments of the tetrahedron rule of order 19 (a file of its own to limit the memory of the check). -/
namespace NuTo.SimplexRule

theorem tetrahedron_check_13 : Close tetrahedron13 19 :=
  fastAll_spec (by decide +kernel) (by decide +kernel) (by decide +kernel) (by decide +kernel)

end NuTo.SimplexRule
