{"id": "C01", "title": "Groups behave as insertion-ordered sets under every set operation", "statement": "After any sequence of Add calls a group iterates over exactly the added items, each once, in order of first insertion, and Contains answers true exactly for those items. Unite, Difference, Intersection and SymmetricDifference return groups whose membership is the corresponding set operation and which again contain no item twice; the operands are never altered.", "quantifier": "all groups, all items, all finite sequences of Add/Unite/Difference/Intersection/SymmetricDifference", "why_tests_cant": "Tests sample a handful of groups; the set laws range over all groups and operation sequences, including repeated insertion and overlapping operands.", "anchors": ["nuto/base/Group.h: Group, Unite, Difference, Intersection, SymmetricDifference"]}
{"id": "C02", "title": "Block vector to flat vector and back loses nothing", "statement": "Writing a DofVector to one flat vector with ToEigen for a list of distinct dof types and reading it back with FromEigen restores every selected block exactly, leaves unselected blocks untouched, and the flat vector has exactly the sum of the block sizes; conversely reading a flat vector of the right size and writing it again returns the same flat vector.", "quantifier": "all block vectors, all duplicate-free lists of dof types, all flat vectors", "why_tests_cant": "The number of dof types, their order and block sizes are unbounded; a wrong offset shows only for particular combinations.", "anchors": ["nuto/mechanics/dofs/DofVectorConvertEigen.h: ToEigen, FromEigen"]}
{"id": "C03", "title": "Block vector arithmetic is arithmetic of vectors with absent blocks as zero", "statement": "For DofVector the operators +=, -=, *=, +, -, * and AddScaled give, for each dof type, the usual vector result where a block missing on one side counts as zero; they therefore form a vector space up to absent blocks (associative, commutative, distributive) and evaluation order of a sum does not matter.", "quantifier": "all block vectors, scalars and dof types, all orders of summation", "why_tests_cant": "Missing blocks on either side, repeated additions and all orders cannot be enumerated.", "anchors": ["nuto/mechanics/dofs/DofVector.h: operator+=, operator-=, operator*=, AddScaled", "nuto/mechanics/dofs/DofMatrixContainer.h: operator+=, AddScaled"]}
{"id": "C04", "title": "Flattened block matrix acts on the flattened vector as the block matrix does", "statement": "ToEigen of a block matrix for a list of dof types places entry (i,j) of block (r,c) at row offset(r)+i and column offset(c)+j, offsets being the cumulated block sizes in list order, so multiplying the flat matrix with the flat vector gives the flat version of the blockwise product.", "quantifier": "all block matrices with consistent block sizes, all duplicate-free lists of dof types (length 1 included), all vectors", "why_tests_cant": "Offsets depend on all previous block sizes and on the list order; tests use one or two fixed layouts.", "anchors": ["nuto/mechanics/dofs/DofMatrixSparseConvertEigen.h: ToEigen"]}
{"id": "C05", "title": "Dof numbering is a bijection onto 0..n-1", "statement": "Building a dof numbering for a group of nodes assigns to every (node, component) pair a distinct number, the numbers used are exactly 0..n-1 with n the total number of components, consecutive in group order, and the reported independent and dependent counts add up to n.", "quantifier": "all node groups with any number of components per node, all constraint sets", "why_tests_cant": "Meshes have arbitrarily many nodes of arbitrary size.", "anchors": ["nuto/mechanics/dofs/DofNumbering.cpp: InitialUnconstrainedNumbering, Build"]}
{"id": "C06", "title": "Numbering rejects constraints on foreign nodes", "statement": "Build raises an exception exactly when some constraint equation mentions (as dependent or independent term) a node that is not in the numbered group; when it does not raise, every constrained dof has a number in 0..n-1.", "quantifier": "all node groups, all constraint sets", "why_tests_cant": "Which of arbitrarily many terms refers to a foreign node is not enumerable by tests.", "anchors": ["nuto/mechanics/dofs/DofNumbering.cpp: CheckConstraintNodes / Build"]}
{"id": "C07", "title": "Merging nodal values and extracting them are inverse", "statement": "After Merge(v), Extract returns v for all numbered dof types; after Extract, Merge of the extracted vector leaves all nodal values as they were; no node value that belongs to another dof type changes.", "quantifier": "all node sets with a valid numbering, all vectors", "why_tests_cant": "Requires a bijective numbering over meshes of every size.", "anchors": ["nuto/mechanics/tools/NodalValueMerger.cpp: Merge, Extract"]}
{"id": "C08", "title": "Accepted constraint sets are resolvable in one pass", "statement": "For every history of Constraints::Add calls, after those calls that did not raise no dof is dependent in two equations and no dependent dof occurs as an independent term of any equation, in whichever order the equations were added; a rejected single equation leaves the constraint set unchanged.", "quantifier": "all finite histories of Add calls with arbitrary equations", "why_tests_cant": "Conflicts may arise between any pair of equations in any order.", "anchors": ["nuto/mechanics/constraints/Constraints.cpp: Add, TermChecker::CheckEquation"]}
{"id": "C09", "title": "Constraint matrix and right-hand side satisfy every constraint", "statement": "For a valid constraint set with a numbering, every vector C*q + b, with C from BuildUnitConstraintMatrix, b from GetSparseGlobalRhs at time t and arbitrary q, satisfies every constraint equation at time t exactly.", "quantifier": "all valid constraint sets, all numbers of dofs, all q, all times", "why_tests_cant": "Universally quantified over unbounded numbers of equations, terms and real coefficients.", "anchors": ["nuto/mechanics/constraints/Constraints.cpp: BuildUnitConstraintMatrix, GetSparseGlobalRhs"]}
{"id": "C10", "title": "Constraint matrix reaches every admissible vector", "statement": "Every vector u that satisfies all constraint equations at time t equals C*q + b where q lists the values of u at the independent dofs in ascending order; q is unique.", "quantifier": "all valid constraint sets, all u satisfying them", "why_tests_cant": "Completeness of the parametrisation is a statement about all solutions.", "anchors": ["nuto/mechanics/constraints/Constraints.cpp: BuildUnitConstraintMatrix, GetJKNumbering"]}
{"id": "C11", "title": "JK numbering is a permutation with the dependents last", "statement": "GetJKNumbering returns each of 0..n-1 exactly once, first all unconstrained dofs in ascending order, then the constrained ones in the order of their equations; it raises if a dependent dof is unnumbered or too large.", "quantifier": "all constraint sets and all dof counts", "why_tests_cant": "Permutation property over all sizes and equation orders.", "anchors": ["nuto/mechanics/constraints/Constraints.cpp: GetJKNumbering"]}
{"id": "C12", "title": "Prescribing a displacement along a direction prescribes its projection", "statement": "The equation made by Constraint::Direction(node, d, value) is satisfied by a nodal vector u exactly when the component of u along the normalised direction d equals value; the equations made by Component and Value fix exactly the named components to the value.", "quantifier": "all directions of any dimension with an entry of at least 1e-6, all nodal vectors, all times", "why_tests_cant": "Universally quantified over real directions and vectors.", "anchors": ["nuto/mechanics/constraints/ConstraintCompanion.cpp: Direction, Component, Value"]}
{"id": "C13", "title": "Global vector assembly does not depend on the thread schedule", "statement": "BuildVector returns, for every dof type, the vector whose i-th entry is the sum of all cell contributions to global dof i, each cell counted exactly once, whatever the number of threads, the assignment of cells to threads and the order in which threads merge their results (exact arithmetic).", "quantifier": "all cell sets, all partitions of cells among threads, all merge orders", "why_tests_cant": "Schedules are exponentially many and not controllable from a test.", "anchors": ["nuto/mechanics/cell/SimpleAssembler.cpp: BuildVector"]}
{"id": "C14", "title": "Global matrix assembly does not depend on the thread schedule", "statement": "BuildMatrix returns, for every pair of dof types, the matrix whose (i,j) entry is the sum of all cell contributions to (i,j), for every number of threads, every partition and every merge order (exact arithmetic).", "quantifier": "all cell sets, all schedules", "why_tests_cant": "As for vectors.", "anchors": ["nuto/mechanics/cell/SimpleAssembler.cpp: BuildMatrix"]}
{"id": "C15", "title": "Diagonal lumping preserves mass", "statement": "BuildDiagonallyLumpedMatrix replaces each cell's block by a diagonal that is proportional to the block's own diagonal and whose sum equals the sum of all entries of the block, for dof types with any number of components; the assembled result is the sum over the cells, so the total mass per dof type equals that of the consistent matrix, independent of the schedule.", "quantifier": "all cells, all local matrices with non-zero diagonal sum, all dof types", "why_tests_cant": "A conservation law over all element matrices.", "anchors": ["nuto/mechanics/cell/SimpleAssembler.cpp: BuildDiagonallyLumpedMatrix"]}
{"id": "C16", "title": "Matrix assembler returns the sum of what was added since the last reset", "statement": "For every sequence of Resize, Add, SetZero and Finish calls on a MatrixAssembler, Get returns the matrix that is the sum of the contributions added since the last SetZero (or Resize), and Get before Finish raises; likewise for every sequence of Resize, Add and SetZero calls on a VectorAssembler.", "quantifier": "all call sequences", "why_tests_cant": "Histories are unbounded; the error needs a particular interleaving of Add, SetZero and Finish.", "anchors": ["nuto/mechanics/cell/Assembler.cpp: MatrixAssembler::Resize, Add, SetZero, Finish, Get, VectorAssembler::Resize, Add, SetZero"]}
{"id": "C17", "title": "Constrained linear solve returns an equilibrium that satisfies the constraints", "statement": "Solve(K, f, bcs, dofs, ...) returns u, blocked by dof type, such that u satisfies the homogeneous constraints and the residual K u - f is orthogonal to every admissible variation (C^T(Ku-f)=0); SolveTrialState returns du satisfying the incremental constraints likewise; dof type blocks of the result carry the values of the dof type they are labelled with.", "quantifier": "all systems for which the inner linear solver returns a solution, all lists of dof types", "why_tests_cant": "Quantifies over all matrices, right hand sides and dof type orders.", "anchors": ["nuto/mechanics/solver/Solve.cpp: Solve, SolveTrialState"]}
{"id": "C18", "title": "A converged quasi-static step has a small constrained residual in every dof type", "statement": "When the quasi-static solver reports convergence, the norm of the complete projected residual (C^T r over all active dof types) is below the tolerance.", "quantifier": "all residual vectors, all constraint matrices, any number of active dof types", "why_tests_cant": "False convergence needs residuals of two dof types cancelling; tests never hit this.", "anchors": ["nuto/mechanics/tools/QuasistaticSolver.cpp: SetConstraints, Norm, DoStep"]}
{"id": "C19", "title": "A failed load step leaves the committed state unchanged", "statement": "If DoStep does not converge (raises), the stored solution, global time, step size and history data are those before the call; if it succeeds the history is updated exactly once with the converged solution and the time advances by the step.", "quantifier": "all sequences of DoStep/SetGlobalTime calls with arbitrary success and failure", "why_tests_cant": "Crash-point property over all histories.", "anchors": ["nuto/mechanics/tools/QuasistaticSolver.cpp: DoStep, SetGlobalTime"]}
{"id": "C20", "title": "Newton-Raphson only returns converged solutions", "statement": "Solve either raises a no-convergence exception after the maximum number of iterations or returns x with Norm(Residual(x)) < tolerance; it performs at most maxIterations linear solves; with line search a step is never accepted that does not fulfil the descent condition while better step lengths remain.", "quantifier": "all residual/derivative functions, start values, tolerances, iteration limits and solvers", "why_tests_cant": "Function-valued quantification.", "anchors": ["nuto/math/NewtonRaphson.h: Solve", "nuto/math/LineSearch.h"]}
{"id": "C21", "title": "Adaptive time stepping terminates at the end time", "statement": "Solve(tEnd) either raises because the step fell below the minimum or ends; accepted times strictly increase, the last accepted time is exactly tEnd and no accepted time exceeds tEnd, whatever pattern of convergence failures occurs and whatever iteration numbers are reported.", "quantifier": "all parameter sets (0<decrease<1<increase etc.), all failure patterns, all end times", "why_tests_cant": "Liveness and safety over all infinite failure patterns.", "anchors": ["nuto/mechanics/tools/AdaptiveSolve.cpp: Solve"]}
{"id": "C22", "title": "Sub-box lookup finds a node iff a brute-force scan would", "statement": "The duplicate-node search through sub boxes returns a node within the search radius of the query point whenever one was added, and only such nodes, provided the constructor accepted the box parameters and points lie in the domain.", "quantifier": "all point sets, radii, subdivisions, query points", "why_tests_cant": "Spatial quantification over reals; boundary cases at box faces.", "anchors": ["nuto/mechanics/mesh/MeshFemDofConvert.cpp: SubBoxes"]}
{"id": "C23", "title": "Adding a dof interpolation shares nodes exactly between touching elements", "statement": "AddDofInterpolation creates one node per distinct coordinate: two element nodes at the same coordinates obtain the same node, two that are farther apart than the tolerance obtain different nodes, and the node values equal the interpolated coordinates' requested initial value.", "quantifier": "all meshes and interpolations", "why_tests_cant": "Quantifies over all meshes.", "anchors": ["nuto/mechanics/mesh/MeshFemDofConvert.cpp: AddDofInterpolation"]}
{"id": "C24", "title": "Unit meshes tile the unit domain with positively oriented elements", "statement": "CreateLines/Triangles/Quads/Bricks(n...) create (n+1)... nodes at the regular grid points; every element connects exactly the corners of its grid cell in counter-clockwise (positive Jacobian) order; each cell is covered once and the element measures sum to one.", "quantifier": "all positive numbers of divisions in each direction", "why_tests_cant": "Sizes are unbounded; index formulas may be wrong only for non-square grids.", "anchors": ["nuto/mechanics/mesh/UnitMeshFem.cpp: CreateLines, CreateTriangles, CreateQuads, CreateBricks"]}
{"id": "C25", "title": "Gmsh node orders are mapped to NuTo's node orders", "statement": "For every element type the reader supports, the node that ends up at local index i of the created element is the gmsh node whose reference coordinates equal (up to the affine map between reference cells) the local coordinates of shape function i; so positively oriented gmsh elements keep a positive Jacobian and are accepted.", "quantifier": "all supported gmsh element types, all nodes, all element geometries", "why_tests_cant": "High-order permutations of up to 27 entries are easy to get wrong in one place.", "anchors": ["nuto/mechanics/mesh/MeshGmsh.cpp: CreateElementInterpolation, GetElementNodes, CheckJacobian"]}
{"id": "C26", "title": "Binary gmsh element blocks are read completely", "statement": "Reading the elements of a binary gmsh file returns exactly the elements written in the file, in order, for every split of the elements into header blocks.", "quantifier": "all files: all sequences of element blocks of all sizes", "why_tests_cant": "Blocks with more than one element are file dependent and unbounded.", "anchors": ["nuto/mechanics/mesh/MeshGmsh.cpp: ReadElementsBinary"]}
{"id": "C27", "title": "Shape functions sum to one everywhere", "statement": "For every interpolation class and every local coordinate (not only inside the element) the shape functions add up to one and their derivatives add up to zero in every direction.", "quantifier": "all interpolation types (any order for Lobatto types), all real local coordinates", "why_tests_cant": "All real coordinates; orders unbounded for Lobatto.", "anchors": ["nuto/mechanics/interpolation/InterpolationTriangleQuadratic.cpp: ShapeFunctions*, DerivativeShapeFunctions*", "nuto/mechanics/interpolation/InterpolationBrickQuadratic.cpp: ShapeFunctions*, DerivativeShapeFunctions*", "nuto/mechanics/interpolation/InterpolationTrussLobatto.cpp: ShapeFunctions*, DerivativeShapeFunctions*"]}
{"id": "C28", "title": "Shape functions are nodal", "statement": "For every interpolation class, shape function i is one at local node i and zero at every other local node.", "quantifier": "all interpolation types, all pairs of nodes", "why_tests_cant": "Whole-table statement, any order for Lobatto.", "anchors": ["nuto/mechanics/interpolation/InterpolationTriangleQuadratic.cpp: LocalCoords*, ShapeFunctions*", "nuto/mechanics/interpolation/InterpolationBrickQuadratic.cpp: LocalCoords*, ShapeFunctions*", "nuto/mechanics/interpolation/InterpolationTrussLobatto.cpp: LocalCoords*, ShapeFunctions*"]}
{"id": "C29", "title": "Shape function derivatives are the derivatives", "statement": "DerivativeShapeFunctions returns the exact partial derivatives of ShapeFunctions at every local coordinate.", "quantifier": "all interpolation types, all real local coordinates", "why_tests_cant": "Finite differences in tests have tolerances and sample points.", "anchors": ["nuto/mechanics/interpolation/InterpolationTriangleQuadratic.cpp: DerivativeShapeFunctions*", "nuto/mechanics/interpolation/InterpolationBrickQuadratic.cpp: DerivativeShapeFunctions*", "nuto/mechanics/interpolation/InterpolationTrussLobatto.cpp: DerivativeShapeFunctions*"]}
{"id": "C30", "title": "Barycentric Lobatto interpolation reproduces polynomials", "statement": "For any number of distinct nodes the one-dimensional Lobatto shape functions are the Lagrange basis: interpolating the nodal values of any polynomial of degree less than the number of nodes returns the polynomial's value at every coordinate, at nodes and in between.", "quantifier": "all node counts, all polynomials of admissible degree, all coordinates", "why_tests_cant": "Polynomials and coordinates are infinite families.", "anchors": ["nuto/mechanics/interpolation/InterpolationTrussLobatto.cpp: BarycentricWeights, ShapeFunctions, DerivativeShapeFunctions"]}
{"id": "C31", "title": "Tensor-product quadrature integrates products", "statement": "The d-dimensional tensor-product rule has n^d points, each combination of one-dimensional points exactly once, weights the product of the one-dimensional weights; so it integrates a product of univariate functions to the product of the one-dimensional quadratures, and the weights add up to the d-th power of the one-dimensional weight sum.", "quantifier": "all one-dimensional rules, d in 1,2,3 (all d), all functions", "why_tests_cant": "Functions are arbitrary.", "anchors": ["nuto/mechanics/integrationtypes/IntegrationTypeTensorProduct.cpp"]}
{"id": "C32", "title": "Legendre evaluation yields the derivatives of the Legendre polynomials", "statement": "Legendre(n, x, k) equals the k-th derivative of the n-th Legendre polynomial at x.", "quantifier": "all degrees n, all derivative orders k, all x", "why_tests_cant": "Unbounded degree and order.", "anchors": ["nuto/math/Legendre.cpp"]}
{"id": "C33", "title": "Strain invariants are those of the strain tensor", "statement": "I1, I2, I3 are the coefficients of the characteristic polynomial of the tensor represented by the engineering strain vector, J2 is the second invariant of its deviator and non-negative, and Deviatoric removes exactly the volumetric part.", "quantifier": "all engineering strains in 1D, 2D (with the documented out-of-plane completion) and 3D", "why_tests_cant": "Polynomial identities over the reals.", "anchors": ["nuto/mechanics/constitutive/EngineeringStrainInvariants.h"]}
{"id": "C34", "title": "Linear elasticity is symmetric, positive definite and dimensionally consistent", "statement": "The stiffness of LinearElastic is symmetric and positive definite for every E>0 and -1<nu<1/2 in 1D, 2D plane stress, 2D plane strain and 3D; plane strain is the 3D law with zero out-of-plane strain, plane stress the 3D law with the out-of-plane strain that makes the out-of-plane stress vanish.", "quantifier": "all admissible material parameters and strains", "why_tests_cant": "Continuous parameter range.", "anchors": ["nuto/mechanics/constitutive/LinearElastic.h: CalculateC"]}
{"id": "C35", "title": "Elastic damage law is consistent", "statement": "For zero damage LinearElasticDamage gives the LinearElastic stress in every dimension and plane state; the tangent with respect to strain times the strain is the stress; the stress is affine in the damage with slope DstressDomega; volumetric compression is not degraded with unilateral damage.", "quantifier": "all strains, damage values, material parameters, damage applications", "why_tests_cant": "Algebraic identities over the reals.", "anchors": ["nuto/mechanics/constitutive/LinearElasticDamage.h"]}
{"id": "C36", "title": "Damage never heals along any loading history", "statement": "For every sequence of strain updates the history variable never decreases, equals the maximum of its initial value and all equivalent strains seen, repeating an update changes nothing, and the damage computed from it never decreases and stays in [0,1].", "quantifier": "all loading histories of any length, all integration points", "why_tests_cant": "Arbitrary long histories.", "anchors": ["nuto/mechanics/constitutive/LocalIsotropicDamage.h: EvolutionImplicit", "nuto/mechanics/integrands/GradientDamage.h: Update, Kappa", "nuto/mechanics/constitutive/damageLaws/DamageLawLinear.h"]}
{"id": "C37", "title": "Damage laws are continuous, monotone and bounded", "statement": "Linear and exponential damage laws are zero up to the elastic limit, continuous there, non-decreasing, bounded by their maximum below one, and Derivative is the derivative of Damage wherever Damage is differentiable.", "quantifier": "all kappa, all admissible parameters", "why_tests_cant": "Real-valued functions.", "anchors": ["nuto/mechanics/constitutive/damageLaws/DamageLawLinear.h", "nuto/mechanics/constitutive/damageLaws/DamageLawExponential.h"]}
{"id": "C38", "title": "Modified von Mises norm is calibrated in tension and compression", "statement": "The modified von Mises equivalent strain of uniaxial tension with strain e is e, of uniaxial compression with strain k*e is e, it is non-negative, positively homogeneous, and Derivative is its derivative; a plane stress material is evaluated with the plane stress completion of the strain.", "quantifier": "all strains, all k>=1, all admissible nu, both plane states", "why_tests_cant": "Real-valued quantification; the mismatch shows only in combination with plane stress.", "anchors": ["nuto/mechanics/constitutive/ModifiedMisesStrainNorm.h", "nuto/mechanics/constitutive/LocalIsotropicDamage.h"]}
{"id": "C39", "title": "Strain operator gives the symmetric gradient in Voigt notation", "statement": "Multiplying the strain operator with nodal displacements yields the engineering strain (xx,yy,zz,yz,xz,xy) of the interpolated displacement gradient in 1D, 2D, 3D; rigid body motions give zero strain.", "quantifier": "all numbers of nodes, all shape function gradients, all displacements", "why_tests_cant": "Unbounded element sizes.", "anchors": ["nuto/mechanics/cell/DifferentialOperators.h: Strain, Gradient", "nuto/mechanics/cell/Matrix.h: N"]}
{"id": "C40", "title": "Jacobian determinant and inverse are correct for all embeddings", "statement": "For volume, surface and line elements Jacobian yields dx/dxi from nodal coordinates and shape derivatives, the determinant is the local volume ratio (square root of Gram determinant for embedded elements), and the global derivative of shape functions satisfies the chain rule.", "quantifier": "all nodal coordinates and shape gradients", "why_tests_cant": "Real-valued.", "anchors": ["nuto/mechanics/cell/Jacobian.h"]}
{"id": "C41", "title": "Fracture energy is the area under the curve up to the threshold", "statement": "The fracture energy integrator returns the area under the piecewise linear force-displacement curve divided by the crack area, cut at the first point where the interpolated force falls to the threshold.", "quantifier": "all admissible curves, thresholds and areas", "why_tests_cant": "All curves of any length.", "anchors": ["nuto/mechanics/tools/GlobalFractureEnergyIntegrator.cpp"]}
{"id": "C42", "title": "Table interpolation brackets and reproduces the data", "statement": "Linear table interpolation returns for x in the range the value on the chord of the two neighbouring points containing x, reproduces the data at its points, lies between the neighbouring values, and its derivative is the chord's slope; outside the range it raises.", "quantifier": "all tables with distinct sorted abscissae, all x", "why_tests_cant": "Unbounded tables.", "anchors": ["nuto/math/Interpolation.cpp", "nuto/math/LinearInterpolation.cpp"]}
{"id": "C43", "title": "Morton encoding is a bijection", "statement": "Decoding an encoded triple of 10-bit coordinates returns it, different triples get different codes, every 30-bit code is the code of its decoded triple, and neighbour codes decode to the neighbouring coordinates.", "quantifier": "all 2^30 coordinate triples / codes", "why_tests_cant": "2^30 cases with bit-parallel masks.", "anchors": ["nuto/math/MortonOrder.h"]}
{"id": "C44", "title": "Serialised data is read back unchanged", "statement": "A sequence of values and matrices written to a text or binary stream and read in the same order with matrices of the same size is recovered exactly, with separators between them; a reader that meets a missing separator raises.", "quantifier": "all sequences of values, matrices and separators", "why_tests_cant": "All sequences.", "anchors": ["nuto/base/serializeStream/SerializeStreamOut.cpp", "nuto/base/serializeStream/SerializeStreamIn.cpp"]}
{"id": "C45", "title": "Knot span search finds the containing span", "statement": "For a non-decreasing knot vector and a parameter in the domain, the span returned by FindSpan contains the parameter (the last non-empty span for the right end), the search always terminates without raising; outside it raises.", "quantifier": "all knot vectors, degrees, parameters", "why_tests_cant": "Bisection over arbitrary knot vectors with repeated knots.", "anchors": ["nuto/mechanics/iga/Nurbs.h: FindSpan"]}
{"id": "C46", "title": "B-spline basis is a non-negative partition of unity", "statement": "In the span containing the parameter the computed basis functions are non-negative, add up to one, satisfy the Cox-de Boor recursion, and the rational basis adds up to one for positive weights.", "quantifier": "all degrees, all knot vectors with the span non-empty, all parameters", "why_tests_cant": "Unbounded degree.", "anchors": ["nuto/mechanics/iga/Nurbs.h: BasisFunctions, BasisFunctionsRational"]}
{"id": "C47", "title": "Memoisation never changes a result", "statement": "Cached shape functions, shape derivatives, B and N matrices and node values returned by a cell or memoizer equal what the uncached computation returns for the same arguments, for every sequence of queries.", "quantifier": "all query sequences, all functions", "why_tests_cant": "The error requires particular query histories.", "anchors": ["nuto/math/NaturalCoordinateMemoizer.h", "nuto/mechanics/cell/CellData.h", "nuto/mechanics/cell/CellIpData.h"]}
{"id": "C48", "title": "VTU files declare the true offsets of their appended data", "statement": "In a binary vtu file each declared data array offset is the position of that array's length header in the appended block, arrays do not overlap and a reader following the offsets recovers every array.", "quantifier": "all grids, all data array sizes", "why_tests_cant": "Unbounded numbers and sizes of arrays.", "anchors": ["nuto/visualize/XMLWriter.cpp: Export", "nuto/visualize/DataArray.h"]}
{"id": "C49", "title": "PVD collection is well-formed after every plot", "statement": "After n successful Plot calls the pvd file consists of the header, exactly one entry per call in call order with its time and file name, and the footer.", "quantifier": "all n, all times and file names", "why_tests_cant": "In-place overwrite of the footer for any history.", "anchors": ["nuto/visualize/PostProcess.cpp: Plot, AddToPvdFile"]}
{"id": "C50", "title": "Event order is a strict weak order consistent with equality", "statement": "The ordering used for the collision event queue is irreflexive, asymmetric, transitive; two events are equivalent under it exactly if they compare equal: same time and same unordered pair of partners; so the queue holds each event once and its first element is an earliest event.", "quantifier": "all events", "why_tests_cant": "Violations need special coincidences of times and addresses.", "anchors": ["nuto/geometryConcrete/collision/Event.cpp: operator<, operator==", "nuto/geometryConcrete/collision/handler/EventListHandler.cpp: AddEvent, GetNextEventTime"]}
{"id": "C51", "title": "Event lists stay consistent and memory safe", "statement": "After any sequence of adding events and performing events each partner's local list contains exactly the queued events it takes part in, and no event is accessed after it was destroyed.", "quantifier": "all sequences of event insertion and processing", "why_tests_cant": "Use-after-free depends on histories.", "anchors": ["nuto/geometryConcrete/collision/Event.cpp: AddLocalEvent, EraseOldEvents, ~Event", "nuto/geometryConcrete/collision/handler/EventListHandler.cpp: DeleteOldEvents"]}
{"id": "C52", "title": "Sphere collisions separate the partners and conserve momentum and energy", "statement": "After PerformCollision two touching spheres do not approach each other faster than they grow (no immediate second collision); without growth total momentum and, for spheres approaching each other, kinetic energy are conserved; reflection at walls preserves speed without growth and leaves the sphere moving away from the wall at least as fast as it grows.", "quantifier": "all positions, velocities, growth rates, masses", "why_tests_cant": "Real-valued.", "anchors": ["nuto/geometryConcrete/collision/collidables/CollidableParticleSphere.cpp: PerformCollision, SphereCollision1D", "nuto/geometryConcrete/collision/collidables/CollidableWallPhysical.cpp: PerformCollision"]}
{"id": "C53", "title": "Collision prediction returns the first contact", "statement": "For non-overlapping spheres the predicted time is the earliest time not before the current one at which their distance equals the sum of their (growing) radii, and no event is returned only if they never touch; likewise for plane walls.", "quantifier": "all positions, velocities, radii, growth rates", "why_tests_cant": "Quadratic case analysis over the reals.", "anchors": ["nuto/geometryConcrete/collision/collidables/CollidableParticleSphere.cpp: PredictCollision", "nuto/geometryConcrete/collision/collidables/CollidableWallPhysical.cpp: PredictCollision"]}
{"id": "C54", "title": "Placed particles never overlap and all lie in the specimen", "statement": "When particle placement finishes, any two placed spheres keep at least the requested distance, every sphere lies in the box and every created particle was placed, for every sequence of random numbers.", "quantifier": "all random sequences, all particle size lists, boxes, distances", "why_tests_cant": "Random placement; overlap missed only in rare box neighbourhoods.", "anchors": ["nuto/geometryConcrete/takeAndPlace/ParticleCreator.cpp: PerformPlacePhase, InsertParticleIntoBox, GetSizeClasses, GetNumParticlesPerSizeClass"]}
{"id": "C55", "title": "Unique identifiers are unique", "statement": "Objects constructed by default construction in any order obtain pairwise different ids, copies keep the id of their source, so containers keyed by id never confuse two separately created dof types.", "quantifier": "all histories of constructions and copies", "why_tests_cant": "Histories are unbounded.", "anchors": ["nuto/base/UniqueId.h", "nuto/mechanics/dofs/DofContainer.h", "nuto/mechanics/dofs/DofType.h"]}
{"id": "C56", "title": "Dof containers behave as maps", "statement": "For every sequence of Insert, operator[] access and writes a DofContainer returns the last value written for a dof type, Insert raises exactly when the type is present, At and const access raise exactly when it is absent.", "quantifier": "all operation sequences", "why_tests_cant": "Unbounded histories.", "anchors": ["nuto/mechanics/dofs/DofContainer.h"]}
{"id": "C57", "title": "Cell integration is linear in the integrand and exact for constants", "statement": "Integrating over a cell sums integrand times Jacobian determinant times weight over the integration points; it is additive and homogeneous in the integrand, so integrating over all cells any constant gives the constant times the mesh volume.", "quantifier": "all integrands, integration rules and cells", "why_tests_cant": "Function-valued quantification.", "anchors": ["nuto/mechanics/cell/Cell.h: IntegrateGeneric"]}
{"id": "C58", "title": "Visualised cell data is attached to the right cell", "statement": "For every sequence of cells written by a visualizer, grid cell k carries the data computed for the k-th cell and refers to existing points; averages are the mean of the integration point values.", "quantifier": "all sequences of cells with any numbers of points and values", "why_tests_cant": "Offsets depend on all previously written cells.", "anchors": ["nuto/visualize/UnstructuredGrid.cpp", "nuto/visualize/AverageHandler.cpp", "nuto/visualize/VoronoiHandler.cpp", "nuto/visualize/PointHandler.cpp"]}
{"id": "C59", "title": "Log output carries the prefix exactly at line starts", "statement": "For every sequence of log messages the output is the concatenation of the messages with the prefix inserted exactly where a new line begins.", "quantifier": "all message sequences", "why_tests_cant": "State machine over arbitrary messages.", "anchors": ["nuto/base/Logger.h", "nuto/base/Logger.cpp"]}
{"id": "C60", "title": "Gauss and Lobatto quadrature are exact to their order", "statement": "Given the roots of the Legendre polynomial (or of its derivative) the computed n-point Gauss weights and points integrate every polynomial of degree up to 2n-1 over [-1,1] exactly, the n-point Lobatto ones up to 2n-3, tensor product rules integrate products of such polynomials over the cube, and the nodes of the Lobatto interpolation of order n are the n+1 Lobatto points.", "quantifier": "all numbers of points and all polynomials within the order", "why_tests_cant": "Exactness is a statement about all polynomials and all rule sizes; tests check monomials for a few sizes.", "anchors": ["nuto/math/Quadrature.cpp: ComputeWeightsAndPoints1DGauss, ComputeWeightsAndPoints1DLobatto", "nuto/mechanics/integrationtypes/IntegrationTypeTensorProduct.cpp", "nuto/mechanics/interpolation/InterpolationTrussLobatto.cpp: LocalCoords"]}
{"id": "C61", "title": "Softening laws dissipate the prescribed fracture energy", "statement": "For a softening material with positive E, ft and gf the stress under monotonic uniaxial loading reaches ft at the elastic limit and the area under the softening branch of the exponential law above the residual strength fMin is gf (1 - fMin/ft); without residual strength the area under the linear law is gf and the stress is zero afterwards.", "quantifier": "all real material parameters", "why_tests_cant": "The property is an improper integral over all strains for all parameters; tests sum a few points.", "anchors": ["nuto/mechanics/constitutive/damageLaws/DamageLawExponential.h", "nuto/mechanics/constitutive/damageLaws/DamageLawLinear.h", "nuto/mechanics/constitutive/damageLaws/SofteningMaterial.h"]}
{"id": "C62", "title": "The tangent of the local damage law is the derivative of its stress", "statement": "For every strain off the loading threshold and the points where norm or law are not differentiable, LocalIsotropicDamage::Tangent is the Frechet derivative of LocalIsotropicDamage::Stress with the history held fixed, in loading and unloading.", "quantifier": "all strains, histories, damage laws and applications", "why_tests_cant": "Derivative statement over a continuum of strains; tests use central differences at a few points.", "anchors": ["nuto/mechanics/constitutive/LocalIsotropicDamage.h: Stress, Tangent"]}
{"id": "C63", "title": "Node values and dof numbers of an element are in the same order", "statement": "ExtractNodeValues and GetDofNumbering of a finite element return one entry per node and component, ordered node by node with the components of a node together, so entry dim*i+a of both belongs to component a of node i; interpolating with them gives the sum of shape functions times node values. Nodes with another number of components or without the requested instance are never read silently.", "quantifier": "all elements, numbers of nodes, dimensions, instances and values", "why_tests_cant": "A permuted order only shows with particular node numberings and dimensions.", "anchors": ["nuto/mechanics/elements/ElementFem.h: ExtractNodeValues, GetDofNumbering, GetNMatrix", "nuto/mechanics/cell/Matrix.h: N", "nuto/mechanics/elements/ElementInterface.h: Interpolate"]}
{"id": "C64", "title": "Element integrands are the weak forms and their tangents", "statement": "The gradient of the momentum balance integrand is B^T stress and Hessian0 is its derivative with respect to the node values for a law whose tangent is the derivative of its stress; the mass integrand is symmetric and positive semidefinite for non-negative density; the gradient damage blocks are the derivatives of its residual blocks; Neumann loads of a partition of unity add up to the applied traction.", "quantifier": "all element matrices, node values, laws and parameters", "why_tests_cant": "Derivative identities over a continuum of states; tests compare finite differences at a few points.", "anchors": ["nuto/mechanics/integrands/MomentumBalance.h", "nuto/mechanics/integrands/DynamicMomentumBalance.h", "nuto/mechanics/integrands/GradientDamage.h", "nuto/mechanics/integrands/NeumannBc.h"]}
{"id": "C65", "title": "Triangle, tetrahedron and prism rules are exact to their order", "statement": "The fixed rules on the reference triangle, tetrahedron and prism integrate every polynomial up to their stated order up to the rounding of their tabulated constants, and their points lie in the reference element.", "quantifier": "all polynomials of the stated order", "why_tests_cant": "Exactness is a statement about all polynomials; tests check a few monomials.", "anchors": ["nuto/mechanics/integrationtypes/IntegrationTypeTriangle.cpp", "nuto/mechanics/integrationtypes/IntegrationTypeTetrahedron.cpp"]}
{"id": "C66", "title": "Cubic spline interpolation is the natural twice differentiable spline", "statement": "CubicSplineInterpolation passes through all data points, is a cubic polynomial between neighbouring points, is twice continuously differentiable with vanishing second derivative at both ends, and its derivative function returns the derivative of the interpolant.", "quantifier": "all tables with increasing abscissae, all x in the range", "why_tests_cant": "Smoothness at the knots for unbounded tables cannot be sampled.", "anchors": ["nuto/math/CubicSplineInterpolation.cpp", "nuto/math/CubicSplineInterpolation.h"]}
{"id": "C67", "title": "Derivatives of NURBS basis functions are the true derivatives", "statement": "BasisFunctionsAndDerivatives returns in row k the k-th derivatives of the B-spline basis functions; the rational variants of curves and surfaces return the first and second (partial) derivatives of the rational basis functions.", "quantifier": "all degrees, knot vectors, spans, parameters, weights and derivative orders", "why_tests_cant": "Derivative identities over a continuum of parameters and all degrees; tests compare a few points with equal weights.", "anchors": ["nuto/mechanics/iga/Nurbs.h: BasisFunctionsAndDerivatives, BasisFunctionsAndDerivativesRational"]}
{"id": "C68", "title": "Created particles follow the grading curve and the requested volume", "statement": "Creating spheres from a grading curve only yields diameters inside the ranges of its classes, sorted from large to small, and their total volume before shrinking is at most the requested volume and falls short of it by at most one largest sphere of the last class; a curve is accepted exactly if it has a class, no smallest diameter exceeds the largest of its class and all fractions are in [0,1], any other curve is reported with an exception; the creation ends for every sequence of random numbers and every accepted curve.", "quantifier": "all random sequences, all grading curves, all volumes", "why_tests_cant": "The number of particles depends on a random sequence; volumes and cube roots are real numbers.", "anchors": ["nuto/geometryConcrete/takeAndPlace/ParticleCreator.cpp: PerformTakePhase, CheckGradingCurve"]}
{"id": "C69", "title": "Nodes are selected by where they are", "statement": "NodeAtCoordinate returns a node of the requested kind whose position is within the tolerance of the given point and throws exactly if there is none; NodesAtAxis returns exactly the nodes whose coordinate in the given direction differs from the offset by less than the tolerance, each once; NodesTotal returns every node of the mesh or of the dof type, each once. For dof nodes the position is the image of the local node coordinate under the geometry of the element.", "quantifier": "all well formed meshes, points, directions, offsets, tolerances and dof types", "why_tests_cant": "Depends on the mesh, on nodes shared by elements and on the order of the elements; an example mesh cannot show that no node is missed.", "anchors": ["nuto/mechanics/mesh/MeshFem.cpp: 14-123"]}
{"id": "C70", "title": "A node returns the values and dof numbers written last", "statement": "For every sequence of legal calls of SetValues, SetValue, SetDofNumber and AllocateInstances, GetValues(instance) and GetDofNumber(component) return what was written last, new instances hold zeros, all other instances and components keep their values; an instance or component that does not exist is outside of the contract. AllocateDofInstances does so for exactly the nodes of the dof type.", "quantifier": "all call sequences, dimensions and instances", "why_tests_cant": "Call histories are unbounded; interference between instances only shows for particular orders of calls.", "anchors": ["nuto/mechanics/nodes/NodeSimple.h: 18-89", "nuto/mechanics/mesh/MeshFem.cpp: 125-129"]}
{"id": "C71", "title": "Physical groups of a gmsh file contain exactly the tagged elements", "statement": "After reading a file, GetPhysicalGroup(id) contains exactly the elements with that physical tag, GetPhysicalGroup(name) exactly the elements of the named group, nodes keep their coordinates and identity, and the mesh dimension follows from the element types.", "quantifier": "all node, element and physical name lists of a file", "why_tests_cant": "Example files contain only a few harmless names and ids.", "anchors": ["nuto/mechanics/mesh/MeshGmsh.cpp: 133-147, 293-314, 430-525"]}
{"id": "C72", "title": "Voronoi cells of the integration points tile the element", "statement": "VoronoiGeometryLine, Quad and Brick return one cell per integration point of the tensor product rule with the same order; the cells have disjoint interiors and cover the reference element exactly, corner ids are valid and belong to the cell; for Gauss and Lobatto spacing every integration point lies in its own cell and the cell walls are half way between neighbouring points.", "quantifier": "all numbers of points per direction, all spacings", "why_tests_cant": "Every number of points gives another grid; covering and disjointness are statements about all points of the element.", "anchors": ["nuto/visualize/VoronoiGeometries.cpp: 9-148"]}
{"id": "C73", "title": "The polynomial fit is the best fit with the required values", "statement": "PolynomialLeastSquaresFitting::SolvePolynomial returns the coefficients of the polynomial of the chosen degree with the least sum of squared errors at the support points among those that take the required values at the added boundary conditions; support points of such a polynomial are reproduced; Interpolate evaluates it.", "quantifier": "all degrees, support points and boundary conditions", "why_tests_cant": "Optimality compares with all polynomials; tests fit a few data sets.", "anchors": ["nuto/math/PolynomialLeastSquaresFitting.cpp: 8-135", "nuto/math/SupportPoints.h"]}
{"id": "C74", "title": "GMRES returns a solution of the requested accuracy", "statement": "Gmres improves the solution until the residual is at most the tolerance times the norm of the right-hand side; if it reports fewer restarts than allowed the returned vector has this accuracy; the residual never grows, each cycle minimises it over the Krylov space, and for a regular matrix no division by zero and no index error happens.", "quantifier": "all matrices, preconditioners, right-hand sides, initial guesses, tolerances, Krylov dimensions and numbers of restarts", "why_tests_cant": "Convergence and breakdown depend on the matrix; tests solve three small systems.", "anchors": ["nuto/math/Gmres.h: 15-116"]}
{"id": "C75", "title": "A created interpolation reproduces polynomials of the requested order", "statement": "CreateLagrangeInterpolation and CreateLobattoInterpolation return an interpolation of the requested shape exactly for the supported orders and throw for every other integer; interpolating the nodal values of any polynomial up to the requested order (for Lobatto: up to that order in each variable) with GetShapeFunctions returns the polynomial at every coordinate.", "quantifier": "all shapes, integers, polynomials and coordinates", "why_tests_cant": "Completeness quantifies over all polynomials and all coordinates; tests check a few values of single shape functions.", "anchors": ["nuto/mechanics/interpolation/InterpolationCompanion.cpp: 23-177", "nuto/mechanics/interpolation/Interpolation*.cpp"]}
{"id": "C76", "title": "IsWithinShape accepts the reference element and only points close to it", "statement": "With a positive tolerance, IsWithinShape of each shape accepts every point of the reference element (the convex hull of the nodes of the linear interpolation) and every accepted point is at most the tolerance away from it; all nodes of all interpolations lie in their shape.", "quantifier": "all shapes, points and tolerances", "why_tests_cant": "Tests check one point inside and one outside of each shape.", "anchors": ["nuto/math/shapes/Shape.h: 9-24", "nuto/math/shapes/Line.h: 16-20", "nuto/math/shapes/Triangle.h", "nuto/math/shapes/Quadrilateral.h", "nuto/math/shapes/Tetrahedron.h", "nuto/math/shapes/Hexahedron.h", "nuto/math/shapes/Prism.h: 16-22", "nuto/math/shapes/Pyramid.h: 16-22"]}
{"id": "C77", "title": "Internal forces do the work of the stresses and are self-equilibrated", "statement": "The vector that SimpleAssembler::BuildVector assembles from MomentumBalance::Gradient does, on every virtual displacement of the dofs, the work that the integrated stresses do on the virtual strains, whatever the material law and the distribution of the cells over the threads; it does no work on rigid body motions, so resultant force and resultant moment of the internal forces vanish.", "quantifier": "all meshes of elements with regular Jacobian, states, material laws, thread schedules, virtual displacements", "why_tests_cant": "Tests integrate one element or one patch test; the statement is about all meshes and all states.", "anchors": ["nuto/mechanics/integrands/MomentumBalance.h: 26-35", "nuto/mechanics/cell/CellIpData.h: 70-113", "nuto/mechanics/cell/SimpleAssembler.cpp: 38-65", "nuto/mechanics/cell/Cell.h: 32-35, 60-63, 105-119"]}
{"id": "C78", "title": "Loads and mass matrices keep total force and total mass", "statement": "The assembled vector of NeumannBc::ExternalLoad does the work of the given load on every interpolated displacement, its entries of one direction add up to the load component times the size of the loaded cells; the assembled matrix of DynamicMomentumBalance::Hessian2 is the bilinear form of the density: the entries of one direction add up to the mass, different directions are not coupled, and the kinetic energy is not negative.", "quantifier": "all meshes, interpolations, integration rules, thread schedules", "why_tests_cant": "Tests check single cells with given numbers.", "anchors": ["nuto/mechanics/integrands/NeumannBc.h: 29-37", "nuto/mechanics/integrands/DynamicMomentumBalance.h: 22-30", "nuto/mechanics/cell/Matrix.h: 8-14", "nuto/mechanics/cell/SimpleAssembler.cpp: 38-65, 100-156"]}
{"id": "C79", "title": "Sub boxes of the collision simulation", "statement": "`SubBoxHandler` cuts a box specimen into a grid of sub boxes. Each sub box gets six walls: they lie exactly on its faces, look inwards, are physical exactly at the sides of the specimen, and the virtual ones name the neighbouring sub box; different sub boxes have different numbers. At the start every particle inside the specimen is registered in exactly those sub boxes its bounding cube meets, and in no other, and two particles that overlap share a sub box.", "quantifier": "all specimens with positive extent, all numbers of divisions \u2265 1, all sub boxes, all lists of particles", "why_tests_cant": "An off-by-one in the grid numbering or in the wall orientation only shows for particular combinations of divisions and particle positions; a particle missing from a sub box silently loses collisions.", "anchors": ["nuto/geometryConcrete/collision/handler/SubBoxHandler.cpp:44-142", "nuto/geometryConcrete/collision/handler/SubBoxHandler.cpp:264-382", "nuto/geometryConcrete/collision/SubBox.cpp:33-72"]}
{"id": "C80", "title": "Collision simulation: particles never leave the box and never overlap", "statement": "A simulation in a box specimen that starts with non-overlapping particles inside the specimen keeps it that way: at every moment, between any two events of any length of run, each particle (moved along its path and grown at its rate) lies inside the specimen, no two particles overlap, each particle is registered in every sub box it shares an inner point with, no prediction and no performed event throws or is undefined, events never lie in the past, and no particle is lost or changes its growth law.", "quantifier": "all grids, all numbers of particles, positions, velocities, radii and growth rates \u2265 0, all orders of simultaneous events, runs of every length, all times between events", "why_tests_cant": "It is a statement about unbounded interleavings of events: a missed sub box transfer or a prediction with a wrong sign would show only after many collisions, and sampling states at the end of a run does not see overlaps in between.", "anchors": ["nuto/geometryConcrete/collision/handler/CollisionHandler.cpp:58-185", "nuto/geometryConcrete/collision/collidables/CollidableWallVirtual.cpp:19-105", "nuto/geometryConcrete/collision/collidables/CollidableWallPhysical.cpp:19-110", "nuto/geometryConcrete/collision/collidables/CollidableParticleSphere.cpp:33-190", "nuto/geometryConcrete/collision/SubBox.cpp:74-83", "nuto/geometryConcrete/collision/Event.cpp:42-56"]}
{"id": "C81", "title": "How a collision simulation ends, and what it guarantees", "statement": "`CollisionHandler::Simulate` returns normally only with the particles in a state reachable by events, inside the specimen and without overlap, and with the end time reached or the wall time used up; it throws only after more than `rNumEventsMax` events that advanced the time by less than 1e-6. `MaximizeParticleDistance` thereby exports particles with their original radii whose mutual distances are at least the requested distance, and `MaximizeParticleVolumeFraction` particles that are no smaller than requested, none overlapping, all inside the specimen.", "quantifier": "all box specimens, grids, particle sets, growth rates, end times, event limits, wall times and timer readings, all orders of simultaneous events", "why_tests_cant": "The result depends on the whole event history and on timer readings; a run that is cut off or one event too late still looks like a success to a test.", "anchors": ["nuto/geometryConcrete/collision/handler/CollisionHandler.cpp:58-185", "nuto/geometryConcrete/GeometryConcrete.cpp:30-106", "nuto/geometryConcrete/collision/handler/EventListHandler.cpp:52-80", "nuto/geometryConcrete/collision/handler/EventListHandler.cpp:111-178", "nuto/geometryConcrete/collision/handler/ParticleHandler.cpp:293-311"]}
{"id": "C82", "title": "Collision simulations in cylinder specimens", "statement": "In a simulation in a cylinder specimen (round section, equal numbers of sub boxes in both lateral directions, at least two) every particle lies inside the cylinder at every moment until a particle outgrows the radius, no two particles overlap, no particle is lost, no prediction throws, and an event throws only if the hitting particle is centred on the axis. The number of lateral sub boxes chosen by `GetSubBoxDivisions` is at least two exactly if pi/4 H < q D.", "quantifier": "all cylinder specimens, divisions, particle sets, growth rates and event orders; all specimen sizes and particle numbers for the divisions", "why_tests_cant": "Which sub boxes get the curved wall depends on the grid; a sub box that needs it and does not get it is only visible for particles that happen to reach it.", "anchors": ["nuto/geometryConcrete/collision/handler/SubBoxHandler.cpp:144-262", "nuto/geometryConcrete/collision/collidables/CollidableWallCylinder.cpp:16-86", "nuto/geometryConcrete/collision/collidables/CollidableWallCylinder.cpp:170-176", "nuto/geometryConcrete/collision/handler/ParticleHandler.cpp:346-360", "nuto/geometryConcrete/Specimen.cpp:51-63", "nuto/geometryConcrete/GeometryConcrete.cpp:30-106"]}
{"id": "C83", "title": "Geometry files of concrete structures", "statement": "The gmsh geometry file written for a specimen and a list of particles describes exactly these particles: aggregate number k of the file is the ball (3D) or disc (2D) with centre and radius of row k of the particle matrix, rounded to six significant digits, the interface layer around it has the requested thickness, and the matrix material is the volume (surface) of the box, cylinder or rectangle of the specimen minus all aggregates. Particles that keep a distance of more than the rounding stay apart and inside the specimen in the file. Exporting a 2D slice that lies outside the specimen throws.", "quantifier": "for all particle matrices, bounding boxes, interface thicknesses, mesh sizes and slice heights", "why_tests_cant": "A test compares one written file with a stored one; that numbering, loops and volumes fit together for every number of particles, and what six printed digits do to distances, are statements about all particle lists.", "anchors": ["nuto/geometryConcrete/GmshWriter.cpp:4-47", "nuto/geometryConcrete/GmshWriter.cpp:115-189", "nuto/geometryConcrete/GmshWriter.cpp:191-219", "nuto/geometryConcrete/GmshWriter.cpp:265-278", "nuto/geometryConcrete/GmshWriter.cpp:288-375", "nuto/geometryConcrete/collision/handler/ParticleHandler.cpp:395-432", "nuto/geometryConcrete/GeometryConcrete.cpp:108-132"]}
{"id": "C84", "title": "Plane sections of particles and the reported smallest distance", "statement": "The circles GetParticles2D returns for a plane are the sections of the particles: a point of the plane is inside a circle exactly if it is inside a particle, only particles cut in more than the minimal radius are listed, in their order, circles are at least as far apart as their particles and inside the section of the specimen. GetAbsoluteMininimalDistance returns the smallest distance between the surfaces of two particles, so that a negative value means overlap.", "quantifier": "for all lists of particles (any number), planes, minimal radii, specimen bounds and numbers of sub boxes", "why_tests_cant": "Tests have a handful of particles in one sub box; which pairs are compared depends on how the corners of particles fall into the sub boxes, and the growing matrix of circles only matters beyond 1000 circles.", "anchors": ["nuto/geometryConcrete/collision/handler/ParticleHandler.cpp:186-287", "nuto/geometryConcrete/collision/handler/ParticleHandler.cpp:346-393", "nuto/geometryConcrete/collision/handler/ParticleHandler.cpp:128-148"]}
{"id": "C85", "title": "New constraints keep the solution of a time dependent problem", "statement": "RenumberDofs numbers the nodes of each listed dof type 0..n-1 and returns a vector with one entry per number such that the entry of every nodal component, and the value stored at the node, equal what the component had before: the entry of the old vector at the old dof number, or the nodal value if there is no old vector. Handing over new constraints to a problem with a solution therefore keeps every block of the solution and every dof number, overwriting whatever values a failed load step left at the nodes. Other value instances, nodes and dof types are untouched; the numbers of independent and dependent dofs add up to the number of components. Constraints on foreign nodes raise and change nothing.", "quantifier": "all meshes, dof type lists, constraints, old vectors, nodal values and dof numbers", "why_tests_cant": "Tests renumber one small mesh once. That the solution survives any sequence of changes of constraints, for any number of dof types and whatever the nodes were left with, needs a proof over all states.", "anchors": ["nuto/mechanics/tools/TimeDependentProblem.cpp:11-32 (RenumberDofs)", "nuto/mechanics/tools/NodalValueMerger.cpp:10-40", "nuto/mechanics/tools/QuasistaticSolver.cpp:29-35 (SetConstraints)", "nuto/mechanics/dofs/DofInfo.h:12-16"]}
{"id": "C86", "title": "Gradient, hessian and history update are the sums over all functions and cells at the requested state and time", "statement": "Gradient(x, dofs, t, dt) and Hessian0(x, dofs, t, dt) write x to the nodes and return, entry by entry, the sum over all added functions and over all cells of their groups of the cell contributions at exactly that time and time step, independent of the values the nodes of the listed dof types held before; UpdateHistory applies each function exactly once to each cell of its group in the order of addition. WriteTimeDofResidual writes the current time, the mean of the dof values and the sum of the residual entries at that time and solution.", "quantifier": "all lists of functions, groups, thread schedules, dof types, dof vectors, nodal values, times and time steps", "why_tests_cant": "Tests use one function and one or two cells at a time. That no function, cell or time is missed or used twice for any combination, and that leftovers at the nodes do not matter, is a statement about all states.", "anchors": ["nuto/mechanics/tools/TimeDependentProblem.cpp:34-85", "nuto/mechanics/tools/TimeDependentProblem.h:20-65", "nuto/mechanics/tools/QuasistaticSolver.cpp:98-114 (WriteTimeDofResidual)"]}
{"id": "C87", "title": "Matrices written to text files are read back", "statement": "WriteToFile followed by ReadFromFile returns a matrix of the same shape whose entries are the written ones rounded to 13 significant digits: relative error at most 5e-13, numbers with at most 13 significant decimal digits unchanged, and writing the result again gives the identical file. Reading any table gives one row per line, one column per word of the first line and one entry per word, with or without a newline at the end.", "quantifier": "all matrices, delimiters and files", "why_tests_cant": "A test writes one small matrix. The rounding carry (9.9999999999996 becomes 1.0e+01), exponents with three digits, negative numbers, empty matrices, delimiters and irregular tables are different cases of formatting and parsing; only a proof covers all numbers and shapes.", "anchors": ["nuto/math/EigenIO.cpp:10-89", "nuto/math/EigenIO.h:12-26"]}
{"id": "C88", "title": "Patch test: affine displacements leave the nodes inside of a mesh free of forces", "statement": "If every node of an isoparametric mesh of linear elements (trusses on a line, triangles and bilinear quadrilaterals in the plane, tetrahedra in space) is displaced by t + W x and the material is homogeneous, then the strain at every integration point is the symmetric part of W in Voigt notation, and the assembled internal forces of the MomentumBalance are zero at every component of every node that lies inside of the mesh, i.e. whose edges (faces) are shared by elements on both sides.", "quantifier": "all meshes of the named element types (any number, shape and connection of elements with non-zero Jacobian determinants), all integration rules with the same sum of weights (for quadrilaterals symmetric ones), all affine displacement fields, all homogeneous stress laws (linear or not), all distributions of the cells over threads", "why_tests_cant": "the existing patch tests run a few meshes and materials; that no mesh of the element types fails needs the cancellation of the integrals of the shape function gradients around every interior node, which is a property of the mesh topology", "anchors": ["nuto/mechanics/integrands/MomentumBalance.h", "nuto/mechanics/cell/Cell.h", "nuto/mechanics/cell/Jacobian.h", "nuto/mechanics/cell/DifferentialOperators.h", "nuto/mechanics/cell/SimpleAssembler.cpp", "nuto/mechanics/interpolation/InterpolationTriangleLinear.cpp", "nuto/mechanics/interpolation/InterpolationQuadLinear.cpp", "nuto/mechanics/interpolation/InterpolationTetrahedronLinear.cpp", "nuto/mechanics/interpolation/InterpolationTrussLinear.cpp"]}
{"id": "C89", "title": "A specimen is refused unless it has extent, and its volume is the volume of its points", "statement": "Specimen accepts a 3x2 bounding box exactly if every upper bound is larger than the lower one, and throws otherwise; a copy equals the original. GetVolume of a box is the volume of the set of points between the bounds, of a round cylinder the volume of the set of points within the radius of the axis. Matrices of any other size are refused.", "quantifier": "for all bounding boxes (sizes and values), specimen types", "why_tests_cant": "Tests take the volume of one box; that the number is the measure of the set of points, and that no malformed matrix gets through, quantifies over all boxes.", "anchors": ["nuto/geometryConcrete/Specimen.cpp:11-24", "nuto/geometryConcrete/Specimen.cpp:26-72", "nuto/geometryConcrete/Specimen.cpp:74-86", "nuto/geometryConcrete/Specimen.cpp:113-120"]}
{"id": "C90", "title": "GeometryConcrete uses and frees its memory correctly", "statement": "Whatever calls a user makes on a GeometryConcrete object (catching exceptions), neither the calls nor the destructor touch freed or null memory, and the destructor leaves nothing behind on the heap. SetGradingCurve accepts 1 to 6 classes and gives a contiguous curve from 16 mm down that the particle creator accepts.", "quantifier": "for all sequences of calls on the object, with all outcomes of the simulations; for all curves and numbers of classes", "why_tests_cant": "Tests run one or two call sequences, each of them successful; a dangling pointer after an exception or a leak shows up in sequences nobody wrote down.", "anchors": ["nuto/geometryConcrete/GeometryConcrete.cpp:24-106", "nuto/geometryConcrete/GeometryConcrete.cpp:109-154", "nuto/geometryConcrete/GeometryConcrete.cpp:156-185", "nuto/geometryConcrete/GeometryConcrete.cpp:205-222"]}
{"id": "C91", "title": "The triangulation of a set of points is the Delaunay triangulation", "statement": "For points in the plane, GetDelaunayTriangulation returns triangles whose corners are the points, that are not flat, whose circumscribed circles have no other point strictly inside, that do not overlap and that cover the convex hull of the points; every point is a corner of a triangle. GetCircumcenter has the same distance from the three corners and CircumcircleContainsPoint is true exactly for the points nearer to it.", "quantifier": "for all lists of points (any number, repeated points, points on common circles or lines)", "why_tests_cant": "Tests triangulate a few fixed sets of integration points; that the incremental insertion keeps the empty-circle and the covering property is an invariant over all point sets and insertion orders, and a double removal does not show in a test that does not run under a memory checker.", "anchors": ["nuto/math/DelaunayVoronoi.h:49-60", "nuto/math/DelaunayVoronoi.h:117-163", "nuto/math/DelaunayVoronoi.h:166-220", "nuto/math/DelaunayVoronoi.h:499-575"]}
{"id": "C92", "title": "Interpolated values are continuous across element boundaries", "statement": "If two elements touch along a whole facet (an edge in 2D, a face in 3D), their nodes on it coincide and the coinciding nodes carry the same value, then the interpolated value (coordinate or dof component) of the two elements is the same at every point of the facet, whatever the element types and the orientation of the facet in the two elements.", "quantifier": "all pairs of the twelve polynomial classes with facets (triangle, quadrilateral, tetrahedron, brick, prism, pyramid) and the Lobatto quadrilateral/brick of any order, all facets of both, all symmetries of the facet, all node values, all points of the facet", "why_tests_cant": "A test evaluates single elements at single points; continuity is about every pair of classes, every facet, orientation and point.", "anchors": ["nuto/mechanics/interpolation/InterpolationTriangleQuadratic.cpp", "nuto/mechanics/interpolation/InterpolationPrismQuadratic.cpp:60-154", "nuto/mechanics/interpolation/InterpolationPyramidLinear.cpp", "nuto/mechanics/interpolation/InterpolationBrickLobatto.cpp", "nuto/mechanics/interpolation/InterpolationTriangle4thOrder.cpp:76-113"]}
{"id": "C93", "title": "A gmsh text file is read as written or refused", "statement": "MeshGmsh reads any text file in the documented format (header with version 2 or higher, sections of physical names, nodes and elements in any order, line ends with or without carriage return, numbers with sign, fraction and exponent) to exactly the numbers, elements and names written in it. Reading ends for every file. A file whose sections announce a wrong number of records, are not closed or have another name raises an exception; no file leads to undefined behaviour.", "quantifier": "all lists of characters as files; all valid headers, lists of sections, numbers and rests of files", "why_tests_cant": "Tests read a few small files; the property is about every sequence of characters, including truncated ones.", "anchors": ["nuto/mechanics/mesh/MeshGmsh.cpp:67-131", "nuto/mechanics/mesh/MeshGmsh.cpp:158-203", "nuto/mechanics/mesh/MeshGmsh.cpp:293-349", "nuto/mechanics/mesh/MeshGmsh.cpp:533-550"]}
{"id": "C94", "title": "NURBS curves, surfaces and isogeometric elements", "statement": "Evaluating a NURBS curve or surface with sorted knots and positive weights at a parameter of its domain returns the mean of its control points with the weighted B-spline functions as weights. The point lies in the convex hull of the control points, follows affine maps of them, agrees with a control point at a knot of full multiplicity and at the end of the domain, and evaluating with derivative order one or two returns the derivatives. Outside of the domain an exception is raised. An isogeometric element interpolates its control points to the point of the curve in its knot span, also at its ends, and its derivative shape functions are derivatives by the coordinates of the element.", "quantifier": "all degrees, knot vectors, positive weights, control points of any dimension, parameters, elements and element coordinates", "why_tests_cant": "Tests evaluate a few points of a few curves. The claims hold for every parameter and knot vector; the faults at the right end of an element and in the scale of the derivative do not show on the single knot spans and interior points that tests use.", "anchors": ["nuto/mechanics/iga/Nurbs.h:89-110 Evaluate", "nuto/mechanics/iga/Nurbs.h:337-376 GetControlPointsElement", "nuto/mechanics/elements/ElementIga.h:22-53"]}
{"id": "C95", "title": "The assembled stiffness matrix is the derivative of the internal forces, symmetric, semidefinite, and its kernel is exactly the rigid motions on meshes of simplices, of linear or straight quadratic triangles with quadrilaterals, and of such tetrahedra with parallelepipeds", "statement": "For every mesh of bodies and every schedule of the assembler threads, BuildMatrix with MomentumBalance::Hessian0 delivers a matrix K whose form R.K.S is the integral of strain(R).Tangent.strain(S). K is symmetric if the tangents are, semidefinite if the tangents are and the weights are positive, and the energy of R vanishes exactly if all strains of R at integration points vanish (definite tangents). Rigid motions are in the kernel for every law. If the law's tangent is the derivative of its stress, K is the derivative of the vector that BuildVector assembles with MomentumBalance::Gradient; for a linear law the internal forces are K u. Solutions with the same prescribed values and the same loads have the same strains. On face-connected meshes of linear triangles or tetrahedra with at least one integration point per cell, and on edge-connected plane meshes of linear triangles and bilinear quadrilaterals of any shape whose rules have a point with two neighbours along the coordinate lines (all tensor product rules with at least two different points), and on meshes of linear tetrahedra and linear bricks that are parallelepipeds with such rules (in both cases also with quadratic triangles or tetrahedra with straight edges and three points not on a line or four points not on a plane; in the plane also with eight-node parallelograms and nine points on a grid and with straight cubic triangles and points not on a conic, in space also with linear prisms with parallel triangles and three points not on a line in each of two planes), and on connected lines of linear, quadratic and cubic trusses with as many different points as their order, the kernel consists of the rigid motions only, and with supports that exclude rigid motions the equations have exactly one solution for all loads. All of it applies to LinearElastic in 1D, 2D and 3D for E > 0 and -1 < nu < 1/2. For bilinear quads with one integration point and for eight-node quads with the four-point Gauss rule the kernel is larger (hourglass modes), whatever the law.", "quantifier": "all meshes, dimensions, thread schedules, laws, vectors, supports and loads", "why_tests_cant": "Tests compare single stiffness matrices with reference numbers; that K is symmetric, consistent with the forces, and regular after support for every mesh and every law is a statement about all meshes.", "anchors": ["nuto/mechanics/integrands/MomentumBalance.h:26-46", "nuto/mechanics/cell/SimpleAssembler.cpp:100-156", "nuto/mechanics/constitutive/LinearElastic.h:23-123", "nuto/mechanics/cell/CellIpData.h:89-113"]}
{"id": "C96", "title": "The input file of a particle simulation is read as written, or refused", "statement": "For every input file in the documented form (comment, equal sign, value; comments of at most 999 characters; directory of at most 57 characters whose line ends behind the semicolon) InputReader returns exactly the numbers of the text, the directory without white space, is2D for a value that begins with T, t, Y, y or 1; it throws if the growth rate or distance is negative, the volume fraction not positive or the shrinkage not in [0,1). Whatever the file, a result has passed these checks, has six box components and three numbers per sieve.", "quantifier": "all files of the grammar with any comments, padding, number texts (sign, fraction, exponent), any number of sieves; all texts for the checks; all fuel for non-termination", "why_tests_cant": "The space of texts is infinite; the tests read two files. Buffer lengths (999 skipped characters, 58 characters of directory because ';' is passed as a length), values left unset and loops that do not end show only on files no test has.", "anchors": ["nuto/geometryConcrete/InputReader.cpp:29-185", "nuto/geometryConcrete/InputReader.h:15-55"]}
{"id": "C97", "title": "The Voronoi cells of a triangle rule partition the triangle by nearest integration point", "statement": "VoronoiGeometryTriangle(n, order) returns one polygon per integration point; polygon i is the set of all points of the reference triangle whose nearest integration point, measured in the equilateral triangle, is point i. So the polygons cover the triangle, contain their own integration point and meet only in lines.", "quantifier": "all triangle integration rules, all corner diagrams of boost::polygon that are correct for the sites", "why_tests_cant": "The partition is a statement about every point of the triangle and every rule; tests visualise a few rules and look at the number of cells.", "anchors": ["nuto/visualize/VoronoiGeometries.cpp:156-279", "nuto/mechanics/integrationtypes/IntegrationTypeTriangle.cpp:1-330"]}
{"id": "C98", "title": "A rule created for a shape and an order integrates polynomials of that order", "statement": "CreateGaussIntegrationType(shape, order) and CreateLobattoIntegrationType(shape, order) either throw, or return a rule all of whose points can be read and which integrates every polynomial of total degree up to order over the reference element of the shape.", "quantifier": "all shapes, all orders, all polynomials of the order in the dimension of the shape", "why_tests_cant": "The claim ranges over all orders and all multivariate polynomials; tests only count the points of the rule of order 3.", "anchors": ["nuto/mechanics/integrationtypes/IntegrationCompanion.cpp:18-137", "nuto/mechanics/integrationtypes/IntegrationTypeTensorProduct.cpp:4-61", "nuto/math/Quadrature.cpp:6-40"]}
{"id": "C99", "title": "References to nodes and elements stay valid while their container grows, shrinks and moves", "statement": "A reference returned by ValueVector::Add (so every node and element of a MeshFem) refers to the same value after any sequence of Add, Erase of other values, moves of the container and operations on other containers; the values keep the order they were added in; no value is deleted twice or leaked; an operation used within its documented range is always defined.", "quantifier": "all programs, i.e. all sequences of construct, Add, Erase, range Erase, write, move, move assignment and destruction on any number of containers, all growth strategies of std::vector", "why_tests_cant": "It is a statement about all sequences of operations; the test checks one sequence with the capacity growth of one standard library.", "anchors": ["nuto/base/ValueVector.h:16-83", "nuto/mechanics/mesh/MeshFem.h:18-81"]}
{"id": "C100", "title": "Particle lists hold the particles they were given and give them back when exported", "statement": "A ParticleHandler made from a matrix has one particle per row with that position and radius, growth rate radius*relative+absolute, consecutive numbers and a random velocity with components in [-range/2, range/2]; GetParticles returns the matrix again; Sync(t) moves every particle by velocity*t and grows its radius linearly whatever it was synchronised to before; a handler made from a file written by ExportParticlesToFile has the exported particles; ExportParticlesToVTU3D of the steps 0,1,2,... yields a complete collection with the positions, radii and velocities of every step.", "quantifier": "all matrices, ranges, growth rates and random engines, all times, all sequences of exports into any directory", "why_tests_cant": "The constructors are only called in integration tests whose criterion is that nothing crashes; the constructor from a file is never called; the claims are about every matrix, every random sequence and every order of evaluation.", "anchors": ["nuto/geometryConcrete/collision/handler/ParticleHandler.cpp:24-178", "nuto/geometryConcrete/collision/handler/ParticleHandler.cpp:293-344", "nuto/geometryConcrete/collision/collidables/CollidableParticleSphere.cpp:21-42", "nuto/geometryConcrete/collision/collidables/CollidableParticleSphere.cpp:180-248", "nuto/base/serializeStream/SerializeStreamIn.h:54-74"]}
{"id": "C101", "title": "The displacements computed for a linear elastic body minimise the potential energy", "statement": "Take a body of linear elastic cells with valid material parameters and positive volumes at the integration points, assemble its stiffness matrix with SimpleAssembler::BuildMatrix and the integrand Hessian0, and call Solve with valid constraints and forces F. Whatever linear solver is used, the returned displacements satisfy the homogeneous constraints and their potential energy (integral of half strain times stress, minus the work of F) is the least among all displacements that satisfy them; others with the same energy have the same strains. If the constraints leave no rigid motion, Solve returns a result for every linear solver that finds solutions, and all of these results are equal. SolveTrialState gives the same for a load step: subtracting its result from displacements that satisfy the constraints at the old time gives the displacements of least potential energy among those that satisfy the constraints at the new time.", "quantifier": "for all bodies (1 to 3 dimensions, any number and order of cells, any assignment of cells to threads), material parameters E > 0 and -1 < nu < 1/2, valid sets of constraint equations, forces, times and linear solvers", "why_tests_cant": "Tests compare the displacements of a few meshes with known solutions. That no other admissible displacement has less energy is a statement about infinitely many competitors, and independence from mesh, thread schedule, constraint set and linear solver cannot be sampled.", "anchors": ["nuto/mechanics/solver/Solve.cpp:8-81", "nuto/mechanics/cell/SimpleAssembler.cpp:100-156", "nuto/mechanics/integrands/MomentumBalance.h", "nuto/mechanics/constitutive/LinearElastic.h:23-123", "nuto/mechanics/constraints/Constraints.cpp"]}
{"id": "C102", "title": "Polygons of the Voronoi code answer geometric queries correctly", "statement": "A Polygon of the Delaunay/Voronoi code has the given points as its corners, each once and in clockwise order independent of the order in which they were given; PointIsInside holds exactly for the points inside, SegmentIntersects exactly if the open segment crosses an edge, GetClosestIntersection returns the first point of the ray on the boundary, GetEdgeIndex the edge that contains a point (or -1), GetPointOnBothEdges the corner two edges have in common.", "quantifier": "for all point sets, all convex polygons with any number of corners, all query points, segments and directions", "why_tests_cant": "Tests query a few points of one polygon; the claim is a geometric equivalence over all convex polygons and all points, and the failures need a corner at exactly the height of the point, a point on the extension of an edge or a ray that misses.", "anchors": ["nuto/math/DelaunayVoronoi.h"]}
{"id": "C103", "title": "Prescribing affine displacements on the boundary of an elastic body makes the load step compute exactly these displacements inside", "statement": "A body of homogeneous linear elastic material is meshed with linear trusses, with linear triangles and bilinear quadrilaterals, or with linear tetrahedra. The constraints prescribe the displacements of all nodes that do not lie inside of the mesh, with the values of an affine field t + W x, and leave no motion without strains. Then the load step (assembled stiffness, SolveTrialState with any linear solver that solves symmetric positive definite systems) started from any displacements that satisfy the constraints at the old time returns, and the displacements after subtracting its result are the affine field at every node, also at the inner nodes. All integration points then have the strain of W.", "quantifier": "For all meshes of these element types with any number of elements and any node positions with positive Jacobians, all material parameters with E > 0 and -1 < nu < 1/2, plane stress and plane strain, all affine fields, all start displacements that satisfy the constraints, all assignments of cells to threads and all linear solvers that solve symmetric positive definite systems.", "why_tests_cant": "The patch test of the repository runs a handful of meshes; whether the solved displacements are exact on every mesh, with distorted quadrilaterals, and from every start state, quantifies over unboundedly many meshes.", "anchors": ["nuto/mechanics/solver/Solve.cpp:36-81", "nuto/mechanics/cell/SimpleAssembler.cpp:100-156", "nuto/mechanics/integrands/MomentumBalance.h", "nuto/mechanics/constitutive/LinearElastic.h:23-123", "nuto/mechanics/constraints/Constraints.cpp"]}
{"id": "C104", "title": "Every solver name of the documentation solves the linear systems of elastic bodies", "statement": "EigenSparseSolve accepts exactly the documented solver names whose library is part of the build, says for the others whether the library is missing or the name unknown, and returns the solution of A x = b: with every documented solver if A is symmetric positive definite (so for the constrained stiffness matrices of elastic bodies, and load steps then compute the exact displacements), and otherwise either the solution or an exception.", "quantifier": "for all names, all builds with or without SuiteSparse and MUMPS, all matrices of any size and all right-hand sides", "why_tests_cant": "The test solves one symmetric 3x3 system with the solvers that happen to be installed; it cannot show that every symmetric positive definite system is passed on correctly (one triangle, one-based coordinates), nor what happens to matrices that are not symmetric or singular.", "anchors": ["nuto/math/EigenSparseSolve.cpp:22-73", "nuto/math/EigenSparseSolve.h:13-33", "external/EigenMumpsSupport/src/MUMPSSupport/MUMPSSupport.h:435-562", "nuto/mechanics/solver/Solve.cpp:8-81"]}
{"id": "C105", "title": "Load steps of linear elastic bodies reach the equilibrium of the new time, whatever the path", "statement": "QuasistaticSolver::DoStep for a linear elastic body (MomentumBalance with LinearElastic, constraints that exclude motions without strains, any number of threads, any linear solver that solves symmetric positive definite systems, any positive tolerance) stores the one vector of displacements that satisfies the constraints at the new time and has the least potential energy under the forces at the new time; it needs no Newton iteration. After any sequence of steps the stored displacements are those of the last time, independent of the times in between.", "quantifier": "all meshes of linear elastic cells in one to three dimensions, all constraint systems, all forces as functions of time, all first displacements, all sequences of times (forwards and backwards), all schedules, solvers and tolerances", "why_tests_cant": "tests run a few load steps of one mesh; path independence and uniqueness quantify over all sequences of times and all competitors", "anchors": ["nuto/mechanics/tools/QuasistaticSolver.cpp:29-90", "nuto/mechanics/tools/QuasistaticSolver.cpp:116-147", "nuto/mechanics/tools/TimeDependentProblem.cpp:56-76", "nuto/math/NewtonRaphson.h:62-94", "nuto/mechanics/tools/NodalValueMerger.cpp:18-28"]}
{"id": "C106", "title": "Voronoi cells are bounded by bisectors and the visualisation cells decode to them", "statement": "For a DelaunayVoronoi object every corner of the cell of a point p is a corner of the boundary or has the same distance to p and to another corner of a triangle of p; for points whose triangles surround them and have their circumcentres in the boundary no point is nearer to a corner than p; the same holds for points at the hull if no circumcentre lies on an edge of the hull. The points of CalculateVisualizationCellsPolygon are different, all are used, and the indices of cell i are the corners of cell i in the system of the user. CalculateVisualizationCellsTriangle divides a cell with n corners into n-2 triangles of its corners, marked with its number, whose areas add up to the area of the cell. TransformInverse undoes Transform. (Fails: an ordinary set of three points in a square ends in an exception because a cell contains two corners of the square; a query after that succeeds with cells that have no corners, and their triangles read out of range; for right-angled triangles at the hull the cell can extend to the wrong side; a boundary that is set after the first query is not used.)", "quantifier": "all point sets, triangulations, boundaries, iteration orders of the edge map and all sequences of calls of an object", "why_tests_cant": "The corner and the decoding claims range over all point sets and triangulations; tests of single patterns do not show the cells that need two corners of the boundary, the direction of the bisector for a circumcentre on the edge, or what a second query returns after an exception.", "anchors": ["nuto/math/DelaunayVoronoi.h:363-425", "nuto/math/DelaunayVoronoi.h:439-496", "nuto/math/DelaunayVoronoi.h:592-785"]}
{"id": "C107", "title": "A structure with local damage never delivers more energy than is stored in it", "statement": "Take any mesh whose cells use LocalIsotropicDamage (any of the damage laws, FULL or UNILATERAL damage, 1D to 3D, plane stress or plane strain, any strain norm) with MomentumBalance and a registered update function. Along every sequence of load steps - internal forces at the new displacements, then UpdateHistory - and for every schedule of the assembler threads, the work of the assembled internal forces f_k on the displacement increments, sum f_k.(u_k - u_(k-1)), is at least 1/2 f_K.u_K - 1/2 f_0.u_0, and the stored energy 1/2 f_K.u_K is not negative. From the undeformed state the work is never negative; from any other state at most the stored energy 1/2 f_0.u_0 is recovered. The cell ids may even coincide. Without the update function the damage heals and energy is produced.", "quantifier": "all meshes with non-negative weights times Jacobians, displacement sequences of any length, thread schedules, initial histories, materials with E > 0 and -1 < nu < 1/2, monotone damage laws in [0,1], strain norms", "why_tests_cant": "The inequality holds for the sum over all integration points and over all load paths; a test runs one path of one specimen and energy production would appear only on particular cycles.", "anchors": ["nuto/mechanics/constitutive/LocalIsotropicDamage.h:51-73", "nuto/mechanics/constitutive/LocalIsotropicDamage.h:118-133", "nuto/mechanics/constitutive/LinearElasticDamage.h:65-99", "nuto/mechanics/integrands/MomentumBalance.h:26-35", "nuto/mechanics/tools/TimeDependentProblem.cpp:56-85", "nuto/mechanics/tools/QuasistaticSolver.cpp:128-147", "nuto/mechanics/cell/Cell.h:47-58"]}
{"id": "C108", "title": "Internal forces do not depend on the coordinate frame", "statement": "Describe the same structure in a frame that is turned by any rotation Q and shifted by any vector t: the node coordinates become t + Q x, the node displacements Q u. Then the internal forces that MomentumBalance and SimpleAssembler deliver become Q f at every node, for LinearElastic and for LocalIsotropicDamage with ModifiedMisesStrainNorm (FULL and UNILATERAL damage), in 1D, plane stress, plane strain and 3D, for every mesh, element type, integration rule and schedule of the threads. The history data after UpdateHistory are the same in both frames, so that along every sequence of load steps the answer in the turned frame is the turned answer.", "quantifier": "all rotations and shifts, meshes with regular Jacobians and partition-of-unity interpolations, displacements, load step sequences, thread schedules, materials with E > 0 and -1 < nu < 1/2", "why_tests_cant": "Invariance ties together Jacobian, B matrix, Voigt factors, plane-state corrections and strain norm for infinitely many frames; a test checks a few axis-aligned examples, where a wrong shear factor does not show.", "anchors": ["nuto/mechanics/cell/Jacobian.h:16-147", "nuto/mechanics/cell/DifferentialOperators.h:24-84", "nuto/mechanics/integrands/MomentumBalance.h:26-35", "nuto/mechanics/constitutive/LinearElastic.h:20-90", "nuto/mechanics/constitutive/LinearElasticDamage.h:65-99", "nuto/mechanics/constitutive/ModifiedMisesStrainNorm.h:20-110", "nuto/mechanics/constitutive/LocalIsotropicDamage.h:51-73", "nuto/mechanics/cell/SimpleAssembler.cpp:38-65"]}
{"id": "C109", "title": "Nonlocal equivalent strains keep the total of the local strains, are bounded by them in the mean, are determined by them and leave homogeneous states homogeneous", "statement": "For gradient enhanced damage on a mesh (elements for displacements and nonlocal equivalent strains, integrand GradientDamage, SimpleAssembler) the residual of every state exists and is the same for every schedule of the threads: its displacement block is the virtual work of the stresses at the damage of the nonlocal strains, its second block the weak form of e - c g laplace(e) = local strain. The entries of the second block add up to the integral of e minus that of the local strain. If the block vanishes, nonlocal and local strains have the same integral and the mean square of e (plus twice the gradient term) is at most that of the local strains. With a constant interaction the nonlocal strains depend continuously on the local strains and are unique at all integration points. If the displacements are affine, uniform nonlocal strains with the value of the local strain solve the equation for every history and interaction; with a uniform history the forces at inner nodes of meshes of triangles, quadrilaterals or tetrahedra vanish, whatever the damage is.", "quantifier": "all meshes, partition-of-unity interpolations, integration rules, states, histories, damage laws, strain norms, thread schedules; weights positive (nonnegative) and c >= 0 for the bounds", "why_tests_cant": "The statements are about all meshes and states and about the solution of an assembled equation; a test compares single numbers at an integration point and cannot see that the gradient term only redistributes.", "anchors": ["nuto/mechanics/integrands/GradientDamage.h:70-90", "nuto/mechanics/integrands/GradientDamage.h:127-135", "nuto/mechanics/integrands/GradientDamage.h:152-184", "nuto/mechanics/cell/CellIpData.h:39-113", "nuto/mechanics/cell/Cell.h:32-63", "nuto/mechanics/cell/SimpleAssembler.cpp:38-65", "nuto/mechanics/tools/NodalValueMerger.cpp:18-28", "nuto/mechanics/tools/TimeDependentProblem.cpp:56-65"]}
{"id": "C110", "title": "Newton steps of gradient enhanced damage use the exact tangent of the assembled residual", "statement": "Let a mesh carry displacement and nonlocal equivalent strain dofs, and let gradient and Hessian0 of the GradientDamage integrand be added for all cells. At every state whose integration points are away from the loading threshold, from the switch of the unilateral law and from the points where damage law or strain norm have no derivative, TimeDependentProblem::Hessian0 returns four blocks with the sizes of the dof types, and they are the total derivatives of the two blocks of TimeDependentProblem::Gradient with respect to all displacements and all nonlocal strains, with the history held fixed. This holds for every distribution of the cells to threads in both assemblies and whatever the uninitialised memory of the N matrices contained. For solids with the modified von Mises norm, exponential softening and either interaction the conditions are: a deviatoric strain (and a change of volume for unilateral damage), nonlocal strain neither equal to the history value nor to the elastic limit.", "quantifier": "all meshes (1 to 3 dimensions, all element types with partition of unity, all numberings), all integration rules, all node values, all histories, all schedules of the threads", "why_tests_cant": "Tests compare one hand-picked element with finite differences up to a tolerance. Exactness at all states on all meshes, through the scattering of four blocks by threads, is a statement about the derivative.", "anchors": ["nuto/mechanics/integrands/GradientDamage.h:70-120", "nuto/mechanics/cell/SimpleAssembler.cpp:38-156", "nuto/mechanics/tools/TimeDependentProblem.cpp:56-76", "nuto/mechanics/cell/Cell.h:37-63"]}
{"id": "C111", "title": "Particles, walls, sub boxes and events of a simulation are released once and not used afterwards", "statement": "A simulation by GeometryConcrete makes particles, a wall for each side of each sub box, and events that point to both. Whatever sequence of calls is made, however the simulations end and whichever events are then left, no particle, wall or handler is accessed after its release or released twice, and after the destructor none is left. This includes sub boxes added by SubBoxHandler::AddSubBox and copies of a GeometryConcrete. (C90 treats the members of GeometryConcrete alone, without events, walls and sub boxes.)", "quantifier": "all sequences of calls, all numbers of particles and walls, all ways a simulation ends and all events that are then in the list", "why_tests_cant": "An access to released memory usually goes unnoticed in a test, and a test runs one sequence of calls; leaks have no effect on the values it compares.", "anchors": ["nuto/geometryConcrete/GeometryConcrete.cpp:24-154", "nuto/geometryConcrete/GeometryConcrete.cpp:188-209", "nuto/geometryConcrete/collision/handler/SubBoxHandler.cpp:60-262", "nuto/geometryConcrete/collision/SubBox.cpp:22-95", "nuto/geometryConcrete/collision/Event.cpp:25-35", "nuto/geometryConcrete/collision/handler/ParticleHandler.cpp:42-65"]}
{"id": "C112", "title": "PostProcess: each plot is written to the result directory and listed in its collection", "statement": "After any sequence of ResultDirectory, DefineVisualizer, Add and Plot calls (exceptions are caught), each successful Plot has written for each visualizer defined so far the exported data to <directory>/<name><step>.vtu, and <directory>/<name>.pvd lists exactly the successful plots of this visualizer since the directory was set, in order. Names are defined once and before something is added. ResultDirectory gives an empty directory or throws without effect; no other file changes.", "quantifier": "all sequences of calls, all file systems, all numbers of visualizers and all outcomes of their exports", "why_tests_cant": "Tests plot a few times into one directory with functions that never fail; repeated, failing and interleaved calls are not covered.", "anchors": ["nuto/visualize/PostProcess.cpp:12-90", "nuto/visualize/PostProcess.cpp:98-162", "nuto/visualize/PostProcess.h:14-91"]}
{"id": "C113", "title": "Mass matrices can be inverted exactly if the integration points determine the interpolation", "statement": "The assembled mass matrix (DynamicMomentumBalance::Hessian2) is symmetric and never has negative kinetic energy. For positive density and positive weighted determinants, the motions without kinetic energy, which are the motions without inertia forces, are exactly those whose interpolation vanishes at every integration point. So the matrix is definite and invertible if the rule of each cell determines its interpolation (two points for linear trusses, three for quadratic ones, three that are not on a line for linear triangles, two by two for linear quads, nodal rules for all interpolations), and it is singular if the mesh has fewer integration points than nodes. BuildDiagonallyLumpedMatrix then has nonnegative entries, distributes the mass of each element in proportion to the integrals of the squared shape functions, and an entry is positive exactly if the shape function does not vanish at an integration point.", "quantifier": "all meshes, interpolations, integration rules, densities, numberings, thread schedules", "why_tests_cant": "Tests build the mass matrix of one mesh and compare numbers; whether it can be inverted depends on rule, interpolation and mesh.", "anchors": ["nuto/mechanics/integrands/DynamicMomentumBalance.h:22-30", "nuto/mechanics/cell/Matrix.h:8-14", "nuto/mechanics/cell/SimpleAssembler.cpp:67-156"]}
{"id": "C114", "title": "Reactions balance the loads, and elastic results obey Clapeyron, Betti and superposition", "statement": "For a linear elastic body with arbitrary linear constraints and nodal loads, the reactions of a state that `SimpleAssembler`, `ConstrainedSystemSolver`/`Solve` or a converged `QuasistaticSolver` step returns (the value of the residual `Gradient`) do no work on any motion that the constraints allow, vanish at every dof that no constraint mentions, and together with the loads have no resultant force and no resultant moment. Loads and reactions do twice the work of the strain energy; with homogeneous constraints the loads alone do. The displacement at one dof by a unit load at another one is the same with the dofs exchanged. Results for combined loads and prescribed values are the combined results.", "quantifier": "all meshes of 1D to 3D cells with positive volumes at the integration points, all Young's moduli and admissible Poisson ratios, both plane states, all numberings and thread schedules, all valid constraint equations, all loads, times and prescribed values, all rigid motions, all supported bodies for time steps", "why_tests_cant": "A test compares one support reaction with a hand calculation. Balance of forces and moments couples interpolation, integration, assembly, numbering, elimination and time stepping, and must hold for every mesh and every constraint.", "anchors": ["nuto/mechanics/tools/QuasistaticSolver.cpp:51-165", "nuto/mechanics/solver/Solve.cpp", "nuto/mechanics/integrands/MomentumBalance.h", "nuto/mechanics/constitutive/LinearElastic.h", "nuto/mechanics/constraints/Constraints.cpp"]}
{"id": "C115", "title": "The root finder of the Legendre polynomials ends at all roots, in increasing order", "statement": "LegendreRoots(n) ends for every n >= 0: every Newton iteration, started at the cosines of FirstGuess, terminates without dividing by zero, and the result has n strictly increasing entries, the i-th within the tolerance 1e-15 of the i-th root of the n-th Legendre polynomial. LegendreDerivRoots(n), n >= 1, started in the middle between the starts of LegendreRoots, ends likewise with n - 1 strictly increasing entries, the i-th within 1e-15 of the i-th root of the derivative. No root is found twice and none is missed.", "quantifier": "all n (exact arithmetic, exact cosines)", "why_tests_cant": "unit tests call it for a few n; that Newton's method from these starts never leaves the neighbourhood of its root needs the distribution of the zeros for all n", "anchors": ["nuto/math/Legendre.cpp:23-66"]}
{"id": "C116", "title": "Integrating a function of the position over the cells of a mesh gives the integral over the meshed domain", "statement": "Summing Cell::Integrate of a function of CellIpData::GlobalCoordinates over all cells gives the integral of the function over the meshed domain. For one cell of any polynomial element type this holds for every function whose pulled back integrand the rule integrates, provided that the element is not folded; elements with shape functions of degree two at most are not folded when the Jacobian determinant does not vanish. For elements that do not overlap and fill a domain the errors of the cells add up. Polynomials up to the order of the factory's rules are integrated over triangles and tetrahedra at any place (up to the rounding of the tables), polynomials of total degree 2n-2 over convex quadrilaterals with n Gauss points per direction, and polynomials up to degree 2n-1 in each variable over UnitMeshFem's lines, quadrilaterals and bricks, for all numbers of divisions. An element that is numbered in the wrong direction is accepted and counts negative.", "quantifier": "all functions and polynomials, all polynomial element types, all node coordinates, all orders of the rules, all numbers of elements and all meshes that fill a domain", "why_tests_cant": "Tests integrate a few constants on a few meshes; the claim is about every polynomial, every place of the nodes and every mesh size, and needs the change of variables formula.", "anchors": ["nuto/mechanics/cell/CellIpData.h:31-36", "nuto/mechanics/cell/Cell.h:42-45", "nuto/mechanics/cell/Cell.h:105-119", "nuto/mechanics/cell/Jacobian.h:21-60", "nuto/mechanics/mesh/UnitMeshFem.cpp:10-114", "nuto/mechanics/integrationtypes/IntegrationCompanion.cpp:96-117"]}
{"id": "C117", "title": "The pictures of walls and cylinders show the walls of the simulation", "statement": "SubBoxHandler::VisualizeBorders writes one square per wall of every sub box, around the position of the wall, in its plane, with the direction of the wall as cell data; CollidableWallCylinder::VisualizationStatic writes a closed polygonal cylinder whose points lie on the cylinder at the given height and whose cells carry unit normals that point to the inside. The drawn borders are those of the specimen.", "quantifier": "all specimens and divisions, all walls with any unit direction, all cylinders with any axis, radius and height, any picture that is being extended", "why_tests_cant": "Tests call the function and look at the file at best; that all points lie on the wall and all normals point inwards for every direction is a geometric statement, and the wrong place of the cylinder and the lost cylinder for one axis need the right inputs.", "anchors": ["nuto/geometryConcrete/collision/collidables/CollidableWallBase.cpp:65-106", "nuto/geometryConcrete/collision/collidables/CollidableWallCylinder.cpp:85-171", "nuto/geometryConcrete/collision/handler/SubBoxHandler.cpp:210-262", "nuto/geometryConcrete/collision/handler/SubBoxHandler.cpp:335-344"]}
{"id": "C118", "title": "The text of vtu files is xml from which a reader gets the grid back", "statement": "A file written by Visualize::UnstructuredGrid::ExportVtuDataFile is well-formed xml. Read back in ascii format, it contains the numbers of points and cells, every point field and cell field under its name with its number of components and its values item by item (tensors in the order of vtk), three coordinates per point, and ids, ends of ids and types of the cells as decimal numbers. In binary format the elements have the same names and component counts and the declared offsets, and the data starts after the underscore of AppendedData.", "quantifier": "For all grids (any number of points, cells, fields, components, names), and all printed forms of floats that are words without white space and markup.", "why_tests_cant": "Tests read back one file with two fields; well-formedness for all names, field counts and empty lists is a statement about all texts the writer can produce.", "anchors": ["nuto/visualize/XMLWriter.cpp:137-206", "nuto/visualize/DataArray.cpp:57-94", "nuto/visualize/DataArray.cpp:27-46"]}
{"id": "C119", "title": "Computed elastic displacements are the best ones the interpolation allows", "statement": "For a linear elastic body, the displacements that Solve computes minimise the energy of the strain error: whenever the stresses of some strain field (e.g. of the exact solution) balance the applied forces on all motions that the constraints allow, no other admissible vector of nodal displacements has strains closer to that field in the energy norm, and the energy of the error of any admissible vector is that of the computed one plus the energy of the difference. Replacing the dof elements of the same cells by elements of higher order (linear to quadratic to cubic trusses and triangles, bilinear to serendipity quads, linear to quadratic tetrahedra) does not raise the potential energy of the equilibrium; with homogeneous constraints the loads do at least as much work and the stored energy is at least as large, so refinement never makes a body stiffer.", "quantifier": "all linear elastic problems in 1 to 3 dimensions with positive integration volumes, all constraints, forces, strain fields, admissible vectors, all pairs of coarse and fine problems with the same cells, and all linear solvers whose results solve the system", "why_tests_cant": "tests compare single refinements of single meshes with a tolerance; the claim is an inequality over all meshes, loads, constraints and competing displacement fields", "anchors": ["nuto/mechanics/integrands/MomentumBalance.h", "nuto/mechanics/solver/Solve.cpp", "nuto/mechanics/constraints/Constraints.cpp", "nuto/mechanics/interpolation/InterpolationTriangleQuadratic.cpp", "nuto/mechanics/interpolation/InterpolationTrussQuadratic.cpp"]}
{"id": "C120", "title": "Every integration point has its own history data", "statement": "CellStorage::AddCells creates one cell per element in the order of the group, with consecutive ids from the given start id, appends them to the storage without touching earlier cells and returns exactly the new cells; an element whose shape differs from that of the integration type is refused with an exception, and the cells of the elements before it stay in the storage. If the id ranges of all calls are disjoint and the history data is allocated for all ids and integration points, then after any sequence of history updates the history variable of an integration point is the maximum of its initial value and the equivalent strains of this very point.", "quantifier": "all sequences of AddCells calls, groups of elements, integration types, start ids, sizes of history data, and all sequences of history updates of the stored cells with any equivalent strains", "why_tests_cant": "tests use one group of cells with the default start id; the claim is about all combinations of groups and all update sequences, and only fails for ids that overlap", "anchors": ["nuto/mechanics/tools/CellStorage.cpp", "nuto/mechanics/tools/CellStorage.h", "nuto/mechanics/cell/Cell.h", "nuto/mechanics/constitutive/LocalIsotropicDamage.h", "nuto/mechanics/tools/TimeDependentProblem.cpp"]}
{"id": "C121", "title": "The tabulated density of water rises up to 4 degrees Celsius and falls above", "statement": "DensityLiquidWater(T) raises outside of [243.15 K, 373.15 K]; inside it returns the tabulated densities at the tabulated temperatures, lies between 958.4 and 999.972, takes the largest value at 277.15 K only and the smallest at 373.15 K only, and is strictly increasing up to 277.15 K and strictly decreasing from there on. More generally every LinearInterpolation is strictly monotone between two table points between which the tabulated values are.", "quantifier": "all temperatures; for the general part all tables with increasing abscissae and all pairs of their points", "why_tests_cant": "a test evaluates single temperatures; monotonicity and the position of the maximum are statements about all temperatures and depend on every entry of the table", "anchors": ["nuto/physics/PhysicalEquationsSI.h", "nuto/math/LinearInterpolation.cpp", "nuto/math/Interpolation.cpp"]}
{"id": "C122", "title": "Elastic results do not depend on the numbering of dofs, the order of cells and constraints or the choice of dependent dofs", "statement": "Two programs that describe the same linear elastic body (the same cells in any order and any partition over threads, any cell ids, dof numbers permuted), the same forces and the same constraints (equations in any order, terms in any order, any of the terms as the dependent one) compute the same results: the stiffness matrix is the permuted one, the residual of the same state is the same (hence the reactions), the constraints exclude motions without strains in one numbering if and only if in the other, equilibria have the same strains, and if motions without strains are excluded then Solve and a step of QuasistaticSolver give the same displacement at every node, whatever linear solvers and tolerances are used.", "quantifier": "all linear elastic bodies in one, two and three dimensions (both plane states), all meshes and rules with positive weights, all permutations of the numbers, all valid constraints with unit dependent coefficients, all loads, all exact linear solvers", "why_tests_cant": "a test can compare two numberings of one mesh; independence is a statement about all permutations, meshes and constraints, and numbering mistakes show only for particular orders", "anchors": ["nuto/mechanics/dofs/DofNumbering.cpp", "nuto/mechanics/constraints/Constraints.cpp", "nuto/mechanics/tools/QuasistaticSolver.cpp", "nuto/mechanics/solver/Solve.cpp", "nuto/mechanics/cell/SimpleAssembler.cpp"]}
{"id": "C123", "title": "Elastic results do not depend on the units of length and force", "statement": "If all coordinates and prescribed displacements of a linear elastic problem are multiplied by l > 0 (another unit of length), Young's modulus by mu > 0 and the forces by kappa with kappa*l = mu*l^dim (another unit of stress), then the strain energy is multiplied by mu*l^dim, the entries of the stiffness matrix by mu*l^(dim-2), the residual (hence the reactions) by kappa, the constraints exclude motions without strains in one unit if and only if in the other, the equilibria are the equilibria times l, and Solve and a step of QuasistaticSolver give the displacements times l, whatever linear solvers are used. The last is true for the computed displacements but not for their acceptance: a step is rejected if the norm of the free displacements exceeds the number 1e10, in whatever unit, so the same step of the same body converges in metres and does not in millimetres.", "quantifier": "all linear elastic bodies in one, two and three dimensions (both plane states), all meshes and rules with positive weights, all positive factors of length and stress, all valid constraints with unit dependent coefficients, all loads, all exact linear solvers", "why_tests_cant": "a test uses one set of units; independence of the units is a statement about all factors, meshes and loads, and absolute constants hidden in the code only show in some units", "anchors": ["nuto/mechanics/tools/QuasistaticSolver.cpp", "nuto/mechanics/solver/Solve.cpp", "nuto/mechanics/cell/Jacobian.h", "nuto/mechanics/constitutive/LinearElastic.h", "nuto/mechanics/integrands/MomentumBalance.h"]}
{"id": "C124", "title": "A stiffened elastic body yields less", "statement": "If a linear elastic body is stiffened - cells added (also on top of existing ones), constraints added, Young's modulus E raised to E', plane strain instead of plane stress - then the stiffness never decreases (E times the new energy of any displacements is at least E' times the old one), supports that exclude motions without strains still do, the work of the same forces on the displacements of Solve or of a step of QuasistaticSolver does not increase (at most E/E' of the old one, and never negative), in particular the displacement of a point in the direction of a single force there does not increase; under prescribed displacements the energy and the work of the reactions do not decrease.", "quantifier": "all linear elastic bodies in one, two and three dimensions (both plane states), all meshes and rules with positive weights, all additional cells and constraints, all pairs of Young's moduli, all loads, all prescribed displacements, all exact linear solvers", "why_tests_cant": "a test compares two computed bodies; monotonicity is a statement about all loads and all ways to stiffen a body, and is not visible in any single function", "anchors": ["nuto/mechanics/tools/QuasistaticSolver.cpp", "nuto/mechanics/solver/Solve.cpp", "nuto/mechanics/constitutive/LinearElastic.h", "nuto/mechanics/integrands/MomentumBalance.h", "nuto/mechanics/cell/SimpleAssembler.cpp"]}
{"id": "C125", "title": "A timer reports every phase once, under the name given to it", "statement": "A Timer prints one line per call of Reset and one on destruction (none if it shall not show the time): the line shows in brackets the message in force (of the last Reset with a message, or of the constructor), at the end the time since the previous Reset or construction, dots between, and has 90 characters unless message and time need more. The measured times and the times for printing add up to the lifetime. On a Logger at the start of a line, every line gets the prefix exactly once if the messages contain no line breaks.", "quantifier": "all messages, all sequences of Reset and Reset(msg), all readings of the clock, all loggers", "why_tests_cant": "a test looks at one line; which message and which interval belong together is a statement about all sequences of calls", "anchors": ["nuto/base/Timer.h", "nuto/base/Timer.cpp", "nuto/base/Logger.h"]}
{"id": "C126", "title": "Computed displacements and reactions turn with the frame, and symmetric bodies deform symmetrically", "statement": "Describe the same linear elastic body in a coordinate frame that is rotated and shifted: node coordinates, forces and constraints are the turned ones. Then the assembled stiffness has the same virtual work, `Solve` returns the turned displacements, the gradient (the reactions) of the turned state is the turned gradient, and the state that a step of `QuasistaticSolver` computes from the turned state is the turned one, whatever solvers, threads and storage are used. Constraints leave no motion without strains in one frame if and only if they do in the other. If a rotation maps body, forces and constraints to themselves, the displacements that `Solve` returns have the same symmetry.", "quantifier": "for all meshes in one, two or three dimensions, all rotations and shifts, all admissible elastic constants and plane states, all loads and constraint equations, all solvers, thread schedules and initial states", "why_tests_cant": "There are infinitely many frames; a test can compare a few rotations of one mesh, within a tolerance, with one solver.", "anchors": ["nuto/mechanics/tools/QuasistaticSolver.cpp", "nuto/mechanics/solver/Solve.cpp", "nuto/mechanics/cell/Jacobian.h", "nuto/mechanics/constitutive/LinearElastic.h", "nuto/mechanics/integrands/MomentumBalance.h", "nuto/mechanics/constraints/Constraints.cpp"]}
{"id": "C127", "title": "A binary gmsh file is read byte for byte as written or refused", "statement": "For every binary gmsh file with the documented header and any documented sections, ReadGmshFile gets exactly the node numbers, the coordinates (the IEEE 754 numbers of the bytes), the elements and the names of the file, whatever bytes the numbers consist of (also bytes that look like ends of lines). A file written with another order of bytes raises an exception, as do node data that end early; reading ends for every sequence of bytes; text files are read as before.", "quantifier": "all versions from 2 on, all sizes in the header, all sequences of sections, all node numbers and finite doubles, all elements of known type, both kinds of line ends; termination, end markers and definedness for all sequences of bytes", "why_tests_cant": "A test reads a few sample files. Whether some coordinate or number has bytes that derail reading, some order of sections confuses it, or some garbage makes it loop forever is a question about all byte sequences.", "anchors": ["nuto/mechanics/mesh/MeshGmsh.cpp"]}
