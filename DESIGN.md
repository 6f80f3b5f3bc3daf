# Formal model of NuTo: design

Source: /repo (C++), read as text, never built or run.  Model and proofs: /verif/lean (Lean 4.33.0, Mathlib single-module imports).

## Conventions

* `Verif/Model/*.lean` -- definitions only.  Every definition cites file and lines in /repo; simplifications are stated there.
* `Verif/Lemmas/*.lean` -- helper lemmas about the model.
* `Verif/Props/*.lean` -- specifications, property theorems (`C01_...`), and beside each an `example` that meets its hypotheses.
* Floating point `double` is modelled by exact arithmetic: rational numbers, a generic (ordered) field `K`, or reals where
  roots/exponentials occur.  Rounding is outside the model.
* Exceptions, failed asserts and undefined behaviour (out of bounds access, use after free, ...) are distinct outcomes.
* Where model and code agree and the property is false, the negation is proved with a concrete witness
  (`..._counterexample`) and the part that holds is a theorem with suffix `_partial`.

## Trusted base

* Lean's kernel; axioms `propext`, `Classical.choice`, `Quot.sound` only (checked with `#print axioms` for every theorem of the manifest before each commit).
* The reading of the C++ text: each definition's citation.
* Eigen, the STL, OpenMP and the file system are modelled by their documented contract (e.g. `setFromTriplets` sums
  duplicates, `std::set` keeps one element per equivalence class, `omp critical` sections are executed one at a time).
* Not modelled: floating point rounding, memory allocation failure, time measurement, graphics output text formatting
  except where a property is about the text.

* Eigen's `JacobiRotation::makeGivens`, triangular solve (C74) as documented; `SparseLU` (C73) and the sparse solvers (C17) are only
  assumed to return a solution of a regular system.

## Plan per property

| id | model | proof |
|----|-------|-------|
| C01 | Group as insertion list + sorted index | invariant by induction over operations; membership lemmas |
| C02 | ToEigen/FromEigen on blocks as lists | round trip by induction over the dof list |
| C03 | DofVector as finite map | pointwise refinement to zero-extended functions |
| C04 | triplets with running offsets | block placement + matrix-vector refinement by induction |
| C05 | numbering fold over nodes | induction: numbers = range n |
| C06 | Build with constraint node check | decision logic |
| C07 | merge/extract over numbered nodes | round trip from injectivity of the numbering |
| C08 | Add + TermChecker | invariant over histories; self reference not checked: counterexample + partial |
| C09, C10 | triplet matrix from the code | linear algebra over a field, sums over Finset |
| C11 | GetJKNumbering | permutation proof |
| C12 | Direction/Component/Value | sign: counterexample; what is really constrained: partial |
| C13, C14 | omp schedule = any partition + any merge order | permutation invariance of sums |
| C15 | HRZ scaling | field algebra |
| C16 | MatrixAssembler state machine | SetZero keeps pending triplets: counterexample; partial for histories where SetZero follows Finish |
| C17 | Solve with abstract linear solver contract | linear algebra; label mix-up counterexample, partial when f's dof order is `dofs` |
| C18 | Norm with missing off-diagonal blocks | counterexample for two dof types; partial for one |
| C19 | DoStep transition system | invariant, step size counterexample, partial for the rest |
| C20 | Newton loop, line search loop | induction on iterations |
| C21 | AdaptiveSolve loop | safety invariant, termination measure; first step overshoot counterexample |
| C22 | SubBoxes grid | floor arithmetic; refinement to brute-force |
| C23 | node creation loop | invariant over element list |
| C24 | index formulas | arithmetic over all n; orientation by determinants |
| C25 | permutation tables + reference coordinates | finite tables checked by kernel + determinant identities; pyramid counterexample |
| C26 | reader loop over blocks | element counter bug: counterexample; partial for blocks of one element |
| C27-C29 | shape functions over a field, derivatives as polynomial identities (formal or analytic) | ring |
| C30 | barycentric weights over node list | Lagrange basis from Mathlib |
| C31 | index arithmetic digits base n | Finset product of sums |
| C32 | recurrence | induction against Polynomial.derivative of Legendre polynomials |
| C33-C35 | algebraic formulas | ring / linear arithmetic |
| C36, C37 | history fold, damage laws | induction; order lemmas; analysis for the exponential |
| C38 | norm over reals | algebra with sqrt |
| C39, C40 | operator matrices | Finset sums |
| C41 | integrator loops | counterexample at the threshold; partial without threshold cut |
| C42 | bisection | loop invariant |
| C43 | BitVec 32 masks | bit-level reasoning for all bits (no bv_decide) |
| C44 | byte stream | round trip; separator reads/writes out of bounds: counterexample |
| C45, C46 | bisection and triangular tables | loop invariant, induction on degree |
| C47 | memo tables | refinement; B keyed by dof only: counterexample |
| C48, C49 | byte offsets, file overwrite | induction over arrays / plots |
| C50, C51 | event order, set + local lists with object lifetime | order proofs; double deletion: counterexample |
| C52, C53 | sphere kinematics over reals | algebra, quadratic roots |
| C54 | placement loop with arbitrary random stream | invariant over insertions |
| C55, C56 | id counter, map | induction over histories |
| C57, C58, C59 | sums, grid builder, logger automaton | induction |
| C60 | Gauss and Lobatto weights at exact roots | Lagrange interpolation at the roots, orthogonality of the Legendre polynomials, integral over [-1,1] |
| C61 | softening laws built from material parameters | improper / interval integrals of the uniaxial stress |
| C62 | local damage law with history | chain rule; loading and unloading branches |
| C63 | N and B matrices, element values, dof numbers | list indexing; same order in all four |
| C64 | integrands as matrix expressions | `HasFDerivAt` of the gradient is the Hessian |
| C65 | tables of the simplex rules, copied digit by digit | exact integrals of monomials over the simplex, rational error bounds by kernel evaluation of the finite tables |
| C66 | tridiagonal spline solver | loop invariants; C2 interpolation from the solved system |
| C67 | derivative algorithm of the NURBS book as coded | induction; quotient rule |
| C68 | take phase with arbitrary random numbers | invariants of the take loop; measure for termination |
| C69 | mesh as lists of elements, nodes with identity | membership in the result by induction over elements |
| C70 | node state machine | last write wins for all call sequences |
| C71 | gmsh element/name lists to groups | membership in the maps after folding over the file |
| C72 | grids of the Voronoi helpers | tiling of the cube; half way walls; roots of Legendre polynomials |
| C73 | assembly of the normal equations, trusted solver | quadratic minimisation over all polynomials |
| C74 | Arnoldi, Givens rotations, triangular solve in a real inner product space | ghost Hessenberg matrix, rotated residual, Krylov spans |
| C75 | factories and tables of all interpolation types | reduction to monomials of the multivariate polynomial; Lagrange basis for Lobatto |
| C76 | `IsWithinShape`, corners from the linear interpolations | convex hull with the shape functions as weights |
| C77 | `Model/Balance`: integrand on the matrices of a point, integration, assembly | `dot (Bᵀ s) r = dot s (B r)`, C39, C57, C13 |
| C78 | `Model/Balance` | shape functions add up to one; C39_N, C57, C13, C14 |
| C79 | Model/CollisionBoxes: grid, walls, registration with `Res` | cells as integer triples, planes `lower + k·length`, floor/plane Galois connection; walls characterised as the six faces; registration = cells between the floors of the two corners |
| C80 | Model/CollisionRun: virtual walls, registration transfer, states and rounds of the main loop | inductive invariant; chain lemma: a particle moving through virtual walls has an entry event before it crosses, so the registration covers it until the next event; the last layer's physical wall and the shared sub box then give containment and non-overlap |
| C81 | Model/Simulate: time barriers, main loop, counters, timer readings as arbitrary input | loop result by induction over the rounds on top of the C80 invariant; `queued` set of event times, first event = least element |
| C82 | Model/CylinderRun: AddCylinder (corner test, deletion of side walls, `cylinderWalls`), steps with shell events, `subBoxDivisions` | every box touched by a particle that touches the shell has the wall; quiet + inside the cylinder implies quiet for the box specimen, so the C80 invariant carries over |
| C83 | gmsh statements (points, arcs, loops, surfaces, volumes) as data; decimal rounding to six digits | the writer's counters followed by induction over the rows; a reader of the statements recovers centre and radius |
| C84 | matrix rows with capacity, boxes as lists of particle numbers | induction over particles and corners; Cauchy-Schwarz for the distance of sections; clamped floors of meeting intervals |
| C85 | `Model/TimeProblem`: merge, number, resize (uninitialised entries are an arbitrary parameter), extract per dof type; remembered node groups | loop invariant over the dof types on top of C05 and C07; two numberings of the same group are equal |
| C86 | `Model/TimeProblem`: merge, then fold of assembled vectors/matrices over the added functions | C13/C14 per function, sums of block vectors (C03), fold over cells for the history |
| C87 | `Model/EigenIO`: characters; decimal formatting with 13 digits, half to even; getline, white space separated words, decimal parser | digits of a number parse to the number, log10 bounds for the mantissa, induction over lines and words |
| C88 | Verif/Props/PatchTest.lean over the models of Cell, Jacobian, MomentumBalance, assembler | strain is constant, the force is stress times flux; det times gradient is a rotated edge (area of the opposite face), edges shared from both sides cancel by counting |
| C89 | Model/Specimen.lean (`Specimen.make`, `getVolume` over ℝ) | case analysis; `Real.volume_Icc_pi`, `EuclideanSpace.volume_ball` for the sets of points |
| C90 | Model/Specimen.lean (`World`: members and heap of addresses; `call`, `destroy`, `session`) | invariant `Alive` (pointers point to living objects), `Tidy` (nothing else lives), induction over calls |
| C91 | Model/Delaunay.lean (list nodes with addresses, `insertPoint`, `withSuperPoints`, `calculate`) | Bowyer–Watson step keeps: counter-clockwise, empty circles, every antisymmetric edge function sums to its sum over the box; crossing numbers of rays give the covering and the uniqueness of oriented edges, an inversion argument shows that no corner disappears |
| C92 | Model/Interpolation, Model/Factory (classes); Lemmas/Continuity (traces on facets), Lemmas/ContinuityLobatto | the trace of every class on every facet is one of the classes of the facet (9 node quadrilateral added); traces are invariant under the symmetries of the facet; nodes on the facet determine the trace |
| C93 | Model/GmshText.lean: streams with eofbit/failbit, operator>>, getline, stoi, the readers of the sections and the loop | Props/GmshGrammar.lean states the format independently; induction over lines and sections; suffix order of the stream gives termination |
| C94 | Model/Iga.lean on top of Model/Nurbs.lean | sums over all functions reduce to the window of the span, the rest from the table of basis functions proved in C46 and C67 |
| C95 | Model/Stiffness (over Model/Balance, Model/Cell, Model/Assembler) | virtual work of C77 and the matrix assembly of C14; zero strains give an antisymmetric gradient, which on a simplex is a rigid motion; motions that agree on a face agree on the neighbour; on a quadrilateral the derivative along a coordinate line is the same at both points of the line, so their rotations agree; on a parallelepiped the components along the edges form a trilinear field whose coefficients are compared |
| C96 | `Model/InputReader` with the streams of `Model/GmshText`; `get(buf, n, delim)`, `get(c)`, loop of `ReadVector` with fuel | a grammar of files (`Props/InputGrammar`) and one lemma per kind of entry; the loop keeps its comma when the stream has failed, induction on fuel |
| C97 | VoronoiTriangle: mirror images on the hull, cells of the diagram as a parameter, unique corners, back transformation over ℝ | A point is closer to p than to the mirror image of p at an edge iff it is on the side of p, so the cell of p in the mirrored set is the nearest-point region inside the hull; the corners found unique survive and their hull is the cell |
| C98 | RuleFactory: the factory and the list of points read from its result, roots as a parameter | Fubini on the cube and C60_tensor for monomials; C65 for the tables |
| C99 | ValueVector: heap of values, buffers with capacity, unique pointers moved down one by one by erase | invariant: the containers partition the live addresses; erase deletes exactly the erased values |
| C100 | `Verif/Model/ParticleHandler.lean`: constructors with the random engine as a parameter, `Sync`, `GetParticles`, export to text (model of `Serialize`) and to vtu/pvd | loop invariant one particle per row; file round trip from C44; the file constructor computes to no particles |
| C101 | assembled stiffness matrix of C95 (made from cells, elements and LinearElastic), constraint matrices of C09/C10, `Solve` and `SolveTrialState` of C17, chained without intermediate assumptions | the image of the unit constraint matrix is exactly the set of admissible vectors and the matrix is injective; orthogonality of the residual (C17) and the expansion of the quadratic form give the minimum; definiteness of the reduced matrix gives solvability by injective = surjective |
| C102 | Edge and Polygon of DelaunayVoronoi.h over an ordered field, atan2 an arbitrary function of centre and point | ray casting for convex polygons: at most one edge goes up and one down through the height, their crossings bound the interior; lowest/highest corner argument if none does |
| C103 | no new model: `stiffness`, `assembleMatrix`, `solveTrialState`, `Constraints.bcs` | the affine vector satisfies the constraints and its internal forces vanish at inner nodes, so it also minimises the potential energy; minimisers differ by motions without strains, and the constraints leave none |
| C104 | `choose`, triangles and MUMPS coordinate formats, libraries as a trusted contract | entries of the part that is read equal those of symmetric matrices; congruence of the stiffness matrix with the constraint matrix is positive definite |
| C105 | Model/ElasticStep fills Model/Quasistatic with the assembly of Model/Balance and Model/Stiffness, the solver of Model/Solve and the constraints; `moved` is the element after NodalValueMerger::Merge | the gradient is the matrix times the displacements (C95), so the trial state of C101 has a residual that does no work on admissible motions, its norm (C18) is zero and Newton returns at once; induction over the times with the error of the constraints as invariant |
| C106 | VoronoiCells (the object with its caches; triangulation, iteration order, atan2 and the root are parameters) | all computed points move along the bisector of an edge; at the hull the line from the circumcentre to the edge meets another edge beyond it exactly if it points into the triangle; telescoping shoelace sums for the fans |
| C107 | Model/DamageRun: load steps of a structure with LocalIsotropicDamage (forces, then history update) | the stored energy is convex in the strain for fixed damage and decreases with the damage; history variables grow; virtual work (C77) |
| C108 | Model/DamageRun and Model/Stiffness (no new definitions) | Jacobians turn as Q J, gradients as G Q^T, the displacement gradient as Q g Q^T; trace and symmetric scalar product are invariant and the laws depend on nothing else; virtual work (C77) |
| C109 | Model/GradientMesh | both blocks of the assembled vector as sums over integration points (C57, C13), weighted with a test vector; testing with 1, with e and with differences of solutions; affine displacements by C103, inner nodes by C88 |
| C110 | Model/GradientTangent (with GradientMesh) | the matrices an integration point reads do not depend on the state (nor on junk memory), so C64_gradient_damage composed with the linear gathering of node values gives the derivative at a point; four blocks are scattered by C57_matrix and C14_buildMatrix; sums over cells and points |
| C111 | Model/Ownership | the objects that exist as a list without repetition; each call keeps the invariant that specimen and particles exist and are different, and the number of objects changes by what the call owns and loses; sub boxes only contain fresh walls |
| C112 | Model/ResultFiles | induction over calls; the members agree with what follows from the observed calls; a plot touches only the files of its step and the collections |
| C113 | Model/MassMatrix, Model/Balance | the form of C78 is a sum of squares, so zero energy means zero at each point; a linear map into fewer values has a kernel; local blocks of the lumped matrix computed from partition of unity |
| C114 | Model/{Balance,Stiffness,Solve,Quasistatic}.lean (no new definitions of code) | an equilibrium is a least potential energy under the constraints; its derivative along every admissible motion vanishes (equilibrium_iff), and conversely; the rest follows from symmetry of the assembled matrix and from C95_rigid |
| C115 | Model/Legendre (findRoot, firstGuess, findRoots, roots; a loop with fuel, the theorem says that enough fuel gives the result) | sqrt(sin t) P(cos t) solves u'' = -(N^2 + 1/(4 sin^2)) u (Lemmas/Sturm, Lemmas/LegendreZeros): Sturm comparison gives exactly one zero behind each start, comparison with sine and cosine bounds value and derivative at the start, hence the polynomial is increasing and convex (up to a sign) between root and start and Newton's method descends monotonically; parity gives the other half. For the derivative (Lemmas/LobattoNewton, Props/LobattoRoots) the same comparison bounds value and derivative in the middle of two starts; the first Newton step may overshoot the extremum but stays before the next zero, where the third derivative has one sign, so that the descent is monotone from there |
| C116 | `Model/MeshIntegral`; `Props/MeshIntegral` (one element, change of variables), `Props/MeshIntegralDomain` (errors add up, affine elements), `Props/MeshIntegralShapes` (triangles, tetrahedra, quadrilaterals at any place), `Props/MeshIntegralUnit` (unit meshes), `Lemmas/ReferenceIntegral` |
| C117 | pictures of walls and cylinders | false: fixed sizes of squares, cylinder of a specimen half a height too high, axis -x collapses; proved otherwise |
| C118 | `Verif/Model/VtuText.lean` writes the characters of ascii files and of the xml part of binary files; `Verif/Lemmas/Xml.lean` is the specification, an xml reader (state machine for tags, attributes and words, stack for nesting).  Simplification: appended raw bytes are not part of the text given to the reader. |
| C119 | Galerkin orthogonality on top of C101/C114: the potential is quadratic with the strain energy, so distance and potential differ by a constant; `Richer` says that the shape functions of the coarse type are reproduced by the fine type from their nodal values, and is proved for eight pairs of types by evaluating the coded tables. |
| C120 | Model/CellStorage.lean models AddCells with a storage that survives exceptions and the update loop over cells and integration points on top of the history matrix of C36; the equivalent strains are parameters. |
| C121 | Model/Water.lean holds the table and the call of the linear interpolation of C42. |
| C122 | No new model: relates two instances of the models of C95, C101 and C105. `Same` compares cells, `SameEquation` compares equations as multisets of terms; the proof goes through the minimum of the potential energy, so no property of the elimination of dependent dofs is used twice. |
| C123 | No new model: relates two instances of the models of C95, C101 and C105 as in C122. `Scaled` compares cells, `Times` compares vectors. |
| C124 | No new model: relates two instances of the models of C95, C101 and C105 as in C122; `Stiffened` compares them. |
| C125 | `Model/Timer.lean`: readings of the clock, number printing and the CPU time text are arguments; a timer's life is the list of calls of Reset and the destruction. |
| C126 | Props/Objectivity.lean. The dofs are vectors at nodes (`NodeNumbers`); `Turns` relates the components in both frames. The energy is invariant because strains at matching points are turned (C108) and the law is isotropic; computed results are the unique minimisers (C101, C105), so they turn as well. `C126_symmetry` composes this with the independence of numbering (C122). Reflections are not covered: `Rotation` has determinant one. |
| C127 | Model/GmshBytes.lean reads bytes (characters with codes below 256) with the stream of the text model; int and IEEE 754 double are decoded from little-endian bytes; the loops over element blocks are those of C26 on the ints that can be read. |

## Findings: where the code does not do what its users may expect

Each item is a theorem about the model (`..._counterexample`) unless marked (read), which means that it was only seen when reading.

* C08: an equation may refer to its own dependent dof; the check only looks at earlier equations.
* C09, C10: the right-hand side passes through `float`; coefficients up to 1e-18 are dropped.
* C12: `Direction` has the wrong sign for oblique directions.
* C15: lumping divides the mass by the number of components.
* C16: `SetZero`/`Resize` keep contributions that were added but not finished.
* C17: dof types in another order than stored give mislabelled result blocks.
* C18: the norm adds the projected residuals of different dof types.
* C19: a failed step changes the stored step size.  C21: the first step is not shortened to the end time; the documented
  meaning of -1 differs from the code (read).
* C23: curved elements have dof nodes outside the box of the coordinate nodes, so they are duplicated or throw; a flat mesh in
  space throws in the constructor of `SubBoxes`.
* C25: exactly the negatively oriented gmsh pyramids are accepted; lines in space are rejected.
* C26: the element counter is advanced by the loop index: elements are lost or written out of bounds.
* C27-C29: truncated decimals in the fourth order truss and triangle; derivative of the pyramid in the plane of the apex;
  Lobatto derivative inside the window of 1e-15 (also C30).
* C32: `int` factorial overflows for the derivative orders 7 and up.
* C38: the plane state of a softening material is ignored by the constructor.
* C41: with a threshold the wrong segment is extrapolated; equal loads divide by zero; index -1 is read.
* C43: neighbours wrap around at the border.
* C44: a separator in a binary stream is undefined behaviour.  Number formatting laws are assumed of the library
  (`std::stod` throws for subnormal numbers, which is excluded there).
* C45: at the right end an empty span may be returned.
* C47: the B matrix is memoised by dof type only; references to cached node values dangle; the memoizer compares at most three
  coordinates.  The memoizer is also not protected against concurrent insertion (read).
* C48: offsets are `int` (2 GiB); empty containers are read; negative point ids are accepted.  C49: file names collide; names with quotes make the collection unreadable.
* C51: performing a sphere-sphere event uses an event after its destruction; an empty queue is dereferenced.
* C52: receding spheres lose energy.  C53: axis test, discriminant window, growth rate set at another time; a sphere larger than a cylinder wall is not reported as overlapping, because only the square of the difference of the radii is used.
* C54: lost particles, moved boundary spheres, large distances not kept, too large particles read outside of the sub boxes,
  endless loop in a cylinder.  C68: endless loop for a smallest diameter of zero.
* C58: the average handler throws for hexahedra and pyramids.  C59: text after an inner newline has no prefix.
* C64: the history of `GradientDamage` is not allocated by the class.
* C65: wrong digit in the triangle rule of order 20 (`0.45513668695...` for `0.45513668195...`); points outside of the element.
* C66: the constructor writes to reserved but empty vectors; the derivative is the slope of the chord.
* C67: second derivatives of surfaces in the second direction and mixed ones are wrong for unequal weights.
* C69: `NodesAtAxis` with a direction the nodes do not have is undefined behaviour.
* C70: `NodeSimple(double)` starts with dof number 0, the vector constructor with -1; `AllocateDofInstances` is documented to add
  instances but sets their number.
* C71: physical ids of different dimensions are merged; names equal up to case hide each other; names are cut at blanks.
* C72: equidistant spacing with 0 cells divides by zero.
* C73: with boundary conditions the fit satisfies them but is not the best such polynomial; the matrix may be singular although the
  best polynomial is unique; lowering the degree after adding conditions writes out of range.
* C74: the preconditioned residual is compared with the unpreconditioned right-hand side: for `1e9 x = 1` and a tolerance of `1e-6`
  the default preconditioner returns the initial guess 0 as the solution.  A Krylov dimension that is not below the number of rows
  writes behind the end of a vector.  The returned number does not tell success in the last cycle from failure.
* C76: `Pyramid::IsWithinShape` does not test the base, every point far below it and inside of the extended cone is accepted.
* C79: C79: a particle whose upper side touches the upper side of the specimen is registered with an index one past the last layer: in the last direction this is the number of another sub box row (particle registered in a box it does not meet), in the outermost one `AddSpheresToBoxes` throws.
* C79: C79: the guard in `AddSpheresToBoxes` takes `std::abs` of the index, so a particle over the lower side of the specimen gives a small negative index that passes and is used as a vector index (undefined behaviour).
* C81: `Simulate` returns normally when the wall time is used up: `MaximizeParticleDistance` then silently exports particles closer than requested (`C81_wall_time_counterexample`).
* C81: if no event lies before the initial time barrier 10, the barrier is reset to 0, the event list stays empty and `*mEvents.begin()` is read: undefined behaviour (`C81_undefined_counterexample`, one particle in a large cube).
* C81: the end time is only compared between events, so the last event may lie far after it and the particles grow larger than requested (`C81_overshoot_counterexample`: radius 10 instead of 2).
* C82: with fewer than 10 particles `GetSubBoxDivisions` returns one sub box; none of its corners is inside, so `AddCylinder` adds no curved wall but still deletes the four side walls: particles fly out of the specimen (`C82_escape_counterexample`; the criterion for two lateral divisions is pi/4 H < q D, `C82_divided`).
* C82: a growing particle that slides along the shell towards the axis has no predicted collision and becomes larger than the cylinder (`C82_growth_counterexample`).
* C82: `CollidableWallCylinder::PerformCollision` throws for a particle centred on the axis; `SubBoxHandler::AddCylinder`'s wall is only deleted if some sub box holds it (read from the text, not modelled).
* C83: numbers are printed with six significant digits: touching particles may overlap in the file.
* C83: the cylinder is written with radius `bounds(0,1)` and height `bounds(2,1)` around the origin, right only for bounds (-r,r) x (-r,r) x (0,h); its surface loop is not consistently oriented.
* C83: `ExportGmshGeo2D` writes the bounding rectangle of a cylinder specimen as the slice.
* C83: the interface is the shell [R, R+h] in one dimension and [R-h/2, R+h/2] in the other; half circles are written as single arcs, which gmsh documents as not allowed (from the text only).
* C84: `GetAbsoluteMininimalDistance` compares only particles that have a corner of their bounding cubes in a common sub box, so the printed "min Dist." can be too large; corners are divided by the box length without subtracting the lower corner of the specimen; it uses the radii before growth.
* C85: NodalValueMerger::Nodes remembers the node group of the first call for ever. Nodes added to the mesh later (AddDofInterpolation, mesh refinement) never get dof numbers: RenumberDofs leaves -1, and constraints on the new nodes are rejected.
* C85: QuasistaticSolver::SetConstraints stores the constraints before they are checked: after an exception the object works with the rejected constraints and the old solution.
* C86: WriteTimeDofResidual evaluates the gradient at mGlobalTime - mTimeStep but writes mGlobalTime: for loads that depend on the time the written residual is that of the previous time.
* C86: WriteTimeDofResidual writes only the dof type asked for to the nodes: after a load step that failed, the other dof types still hold the values of the last failed iteration, and the written residual is that of a mixture.
* C86: without any gradient function Gradient returns a vector without dof types, and the conversion in Norm raises.
* C87: EigenIO::ReadFromFile splits at white space only: a matrix written with the delimiter "," is read back with its first column only, without an error.
* C87: EigenIO::ReadFromFile writes out of range if a line has more numbers than the first one, and leaves entries uninitialised if it has fewer; words that are no numbers (a header) are read as 0.
* C87: EigenIO: n x 0 matrices are read back as (n-1) x 0, 0 x n matrices as 0 x 0.
* C89: `CheckBoundingBox` joins its two tests with `&&`, so a matrix with only one wrong dimension passes and is read out of range (`C89_dimension_counterexample`).
* C89: `GetVolume` throws for every dog bone although it contains the branch that computes its volume (`C89_dogbone_counterexample`), and throws "negative volume" for positive volumes below 1e-14 (`C89_small_counterexample`).
* C90: `SetSpecimenBox` deletes the old specimen before constructing the new one; if the constructor throws, `mSpecimen` dangles and the destructor deletes it again (`C90_dangling_counterexample`).
* C90: `ExportGmshGeo2D/3D` dereference `mSpecimen` without a test: undefined after `SetParticles` without a specimen (`C90_null_counterexample`).
* C90: `SetSpecimenCylinder` leaks the previous specimen, `SetParticles` (and a second simulation) the previous particles (`C90_specimen_leak_counterexample`, `C90_particles_leak_counterexample`).
* C91: `CalculateDelaunayTriangulation` pushes a pointer to a triangle once for every super point in it and then calls `mTriangulation.remove(*pointer)` for each: the second one reads a removed list element. A triangle with two super points always exists (`C91_removal_counterexample`).
* C91: `auto size = superMax - superMin` is a lazy Eigen expression: after `superMin -= 3 * size` it is evaluated again with the new `superMin`, so the super quad is 3 sizes larger below and 12 sizes larger above.
* C91: The super points are at a finite distance, so the triangulation without them need not cover the convex hull (`C91_hull_counterexample`).
* C92: Triangle4thOrder: the function of a node does not vanish exactly on the opposite edge because of coefficients with 12 digits; values of neighbouring elements differ by about 1e-11 times the values inside.
* C92: PrismQuadratic (18 nodes, 9 on a rectangular face) and BrickQuadratic (20 nodes, 8 on a face) are not conforming.
* C93: MeshGmsh.cpp 187-195: a file whose element section has fewer lines than announced leaves `numTags` uninitialised after the stream has failed and resizes a vector with it; for nodes and names the same defect raises an exception.
* C93: MeshGmsh.cpp 101-112: for an empty file or a header without numbers `header.version` and `binary` are read without a value.
* C94: `ElementIga::GetShapeFunctions` at the coordinate 1 of an element evaluates the functions of the next knot span (`FindSpan` is right-continuous) while `ExtractNodeValues` returns the nodes of this one: with degree 1 the interpolation at the right end is the value of the left node.
* C94: `ElementIga::GetDerivativeShapeFunctions` returns derivatives by the knot parameter without the factor of `Transformation`, half the length of the knot span; a line of length 1 with knots 0 0 1 1 integrates to the length 2.
* C94: `Nurbs<2>::Evaluate` with derivative order 1 reads column 0 of the derivatives only, so the derivative in the second direction cannot be had.
* C94: `ElementIga::GetDofNumbering` always throws, so isogeometric elements cannot be assembled.
* C95: the stiffness matrices of bilinear quads with a one-point rule and of eight-node quads with the four-point Gauss rule have hourglass modes in their kernel, and nothing in the library (cells accept every rule) checks that the rule suffices for the element.
* C96: The example file in the documentation of InputReader (InputReader.h 17-55) makes ReadFile run forever: absoluteGrowthRate is missing, values shift by one, and ReadVector loops on the text "false" until memory is exhausted.
* C96: ReadString calls get(directory, ';'), which is get(buffer, 59, '\\n'): the directory is cut after 57 characters and remarks behind the semicolon become part of it.
* C96: SkipToNextData skips at most 1000 characters: a longer comment makes the reader take the text behind them for the value.
* C96: ReadVector does not end when the stream fails (no number, or the file ends behind a number); ReadNumber and ReadBool return undefined values then.
* C97: The triangle rules of orders 11, 15, 16, 18 and 20 have integration points outside of the triangle; their mirror images lie inside, so part of the triangle belongs to no cell.
* C97: AddUnique merges Voronoi corners closer than 0.01 although the integer grid is 1e-6: in the rules of orders 9, 10, 11 and 13 to 20 different corners are merged and the cells are no longer the Voronoi cells.
* C97: An infinite edge of the diagram (edge.vertex0() null) is dereferenced without a check.
* C98: CreateLobattoIntegrationType(shape, 2) returns the trapezoidal rule, which is not exact for polynomials of order 2; for all tensor product rules `order` is in fact the number of points in each direction, so Gauss rules of order n use n^d points where about (n/2)^d would do.
* C99: Iterators of a ValueVector are invalid after an Add that grows the buffer, so a range loop that adds to its own container is undefined; Erase(std::find(...)) is undefined if nothing is found; operator[] is not checked.
* C100: the constructor `ParticleHandler(fileName, …)` reads into a default constructed `Eigen::MatrixXd`; `LoadMatrix` keeps the size of the matrix it is given, so no number is read, no particle is created and no error is reported; its visualisation files are called `_0.vtu` and `.pvd`.
* C102: Polygon::PointIsInside counts a corner at the height of the point twice: inner points at the height of a corner are reported outside (the centre of a square standing on a corner)
* C102: Polygon::GetEdgeIndex measures the distance from the infinite line, so points far away on the extension of an edge are 'on' it
* C102: Polygon::GetClosestIntersection returns rPoint + 1e10 * rDirection if there is no intersection (the throw is commented out)
* C104: `EigenSimplicialLLT`, `EigenSimplicialLDLT`, `EigenConjugateGradient`, `SuiteSparseSupernodalLLT` and `MumpsLDLT` read one triangle of the matrix; for a matrix that is not symmetric the returned vector is wrong and nothing reports it.
* C104: `SolveWithSolver` never reads `solver.info()`: for a singular matrix an arbitrary vector is returned.
* C104: Without MUMPS the documented name `MumpsLDLT` gives "Unknown solver" because the check compares with `MUMPSLDLT`.
* C105: QuasistaticSolver::DoStep prescribes only the change of the constraint right-hand sides: values that are constant in time (or a start at a time with nonzero values) are never applied; all steps report convergence (C105_start_counterexample).
* C105: QuasistaticSolver::DoStep rejects exact solutions whose projected displacements are larger than 1e10 as `no convergence`: the check compares the norm of the solution, not of the residual (C105_large_counterexample).
* C106: `DelaunayVoronoi::CalculateVoronoiPolygons` throws when a cell contains two corners of the boundary (`GetPointOnBothEdges` of edges without a common corner), e.g. for the points (0,5), (-3,-4), (3,-4) in the square from (-10,-10) to (10,10).
* C106: `mVoronoiPolygons` is resized before the calculation: after an exception the next `GetVoronoiCells` returns cells without corners and no error.
* C106: For a circumcentre on the edge (right angle) `n` is (e_y, -e_x), whose side depends on the order of the end points; the test `t > 1` never reverses it, so the cell can get a corner on the wrong side (points (0,0), (2,0), (0,2) in this order).
* C106: `SetBoundary` after the first `GetVoronoiCells` has no effect.
* C109: C109: the nonlocal equivalent strains that solve the assembled equation can be negative and can exceed the largest local strain (two linear trusses, c = 1/3, local strains 0 and 1: values -1/10 and 11/10). Only the mean is bounded.
* C111: GeometryConcrete::MaximizeParticleDistance (GeometryConcrete.cpp:69) deletes the particles while the CollisionHandler still holds events; at the closing brace each event removes itself from the lists of released particles (Event.cpp:25-35). This happens whenever an event is left in the list when Simulate ends (C111_distance_counterexample). Witness: two spheres in a box, one event with a wall left (C111_box_counterexample).
* C111: BuildCylinder does not release wallCylinder (SubBoxHandler.cpp:222), in addition to the leaks found for C90 (C111_lost_counterexample).
* C111: SubBox owns its walls but is copied by SubBoxHandler::AddSubBox and when the vector grows; the walls are then released twice (C111_addSubBox_counterexample, C111_grow_counterexample). The implicit copy of GeometryConcrete has the same defect (C111_copy_counterexample).
* C112: PostProcess::Plot is not atomic: if a function of one visualizer throws, those before it in the map already have an entry in their pvd file and mStep is not increased; the next Plot lists and overwrites the same vtu file again (C112_retry_counterexample).
* C112: PostProcess::ResultDirectory removes an existing directory with all its content, whatever it contains (C112_directory); a second PostProcess with the same directory removes the results of the first one (C112_shared_counterexample). The documentation says 'Setter for the result directory'.
* C116: elements numbered clockwise (or mirrored) are accepted by `Cell` and their integrals are negative (`C116_clockwise`).
* C117: C117: `SubBoxHandler::BuildCylinder` places the cylinder wall at the top of the specimen (`+ height` instead of `+ height / 2`), so `VisualizeBorders` draws it half a height too high; `CollidableWallCylinder::VisualizationStatic` only replaces its auxiliary vector for the axis +x, so a cylinder with axis -x collapses to a line; plane walls are drawn with side 1 or 2 whatever the size of the box.
* C118: Names of data fields are written into attributes without escaping: a name with a double quote or `<` yields a file that is not xml (`C118_name_counterexample`).  Exporting a grid with a defined point field but no points dereferences `begin()` of an empty vector (`C118_empty_counterexample`).
* C120: CellStorage::AddCells numbers the cells of every call from 0 by default although one storage serves several groups: two groups with a damage law share the rows of its history data (C120_default_counterexample).
* C123: `QuasistaticSolver` rejects a step if the norm of the free displacements exceeds the absolute number `1e10` (QuasistaticSolver.cpp 139), so whether a step is accepted depends on the unit of length.
* C125: `Timer::GetTimeDifference` is documented as the time from the constructor to now (Timer.h 37, Timer.cpp 82); it is the time since the last `Reset`. It uses `system_clock`, so an adjusted clock gives negative times.
* C127: a binary gmsh file that ends before the control number leads to the use of an uninitialised variable (`one` in ReadGmshHeader) instead of an exception; a valid binary file whose element header announces two elements loses the first of them and gets an element of type 0 without nodes; the size of doubles in the header is not checked.
* (read) `DofNumbering.h` says constrained dofs have the highest numbers, the numbering is in node order; the order of components in
  the comment of `EngineeringStrain.h` is wrong; the solver name "MUMPSLDLT" is compared with a different spelling;
  `IntegrationTypeTensorProduct` has no Gauss rule for pyramids.

## Specification objects the theorems refer to

* Reference node positions of gmsh elements (Gmsh manual), VTK cell numbers and Voigt order (VTK manual).
* Legendre polynomials by the Rodrigues formula; integrals by Mathlib's interval integral; derivatives by `HasDerivAt`/`HasFDerivAt`;
  determinants and inverses by Mathlib matrices; sums by `Finset.sum`/`List.sum`.
* Quadrature tables (`Model/TriangleTable.lean`, `Model/TetrahedronTable.lean`) were copied from the C++ text by a script; they are
  part of the model and so of the trusted reading.

## Not modelled

The file output of `math/DelaunayVoronoi.h`, the Voronoi diagram of boost polygon (a parameter of C97),
`math/EigenOdeintCompatibility.h`, XML text other than what C48, C49 and C118
need, wall-clock time, thread interleavings below the granularity of OpenMP critical sections.
