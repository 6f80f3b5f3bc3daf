import Verif.Lemmas.Assembler
import Verif.Lemmas.Balance
import Verif.Lemmas.Constraints
import Verif.Lemmas.Continuity
import Verif.Lemmas.ContinuityLobatto
import Verif.Lemmas.Delaunay
import Verif.Lemmas.DelaunayChain
import Verif.Lemmas.DelaunayGeometry
import Verif.Lemmas.DofVector
import Verif.Lemmas.Gmres
import Verif.Lemmas.GmshBytes
import Verif.Lemmas.GmshText
import Verif.Lemmas.GmshWriter
import Verif.Lemmas.Group
import Verif.Lemmas.Iga
import Verif.Lemmas.InputReader
import Verif.Lemmas.Legendre
import Verif.Lemmas.LegendreZeros
import Verif.Lemmas.Lobatto
import Verif.Lemmas.LobattoNewton
import Verif.Lemmas.Loops
import Verif.Lemmas.MatrixAssembler
import Verif.Lemmas.MeshFemDofConvert
import Verif.Lemmas.Numbering
import Verif.Lemmas.Nurbs
import Verif.Lemmas.NurbsDeriv
import Verif.Lemmas.OMap
import Verif.Lemmas.ParticleHandler
import Verif.Lemmas.Quadrature
import Verif.Lemmas.ReferenceIntegral
import Verif.Lemmas.SimplexIntegral
import Verif.Lemmas.Solve
import Verif.Lemmas.SpMat
import Verif.Lemmas.Statics
import Verif.Lemmas.Sturm
import Verif.Lemmas.TetrahedronRule
import Verif.Lemmas.TetrahedronRule17
import Verif.Lemmas.TetrahedronRule19
import Verif.Lemmas.TetrahedronRule21
import Verif.Lemmas.TriangleRule
import Verif.Lemmas.Visualize
import Verif.Lemmas.VoronoiTriangle
import Verif.Lemmas.Xml
import Verif.Model.Adaptive
import Verif.Model.Assembler
import Verif.Model.Balance
import Verif.Model.Basic
import Verif.Model.BorderVisual
import Verif.Model.Cell
import Verif.Model.CellStorage
import Verif.Model.Chars
import Verif.Model.CollisionBoxes
import Verif.Model.CollisionRun
import Verif.Model.Companion
import Verif.Model.Constitutive
import Verif.Model.Constraints
import Verif.Model.CylinderRun
import Verif.Model.DamageRun
import Verif.Model.Delaunay
import Verif.Model.DofVector
import Verif.Model.EigenIO
import Verif.Model.EigenSolve
import Verif.Model.ElasticStep
import Verif.Model.EventList
import Verif.Model.Factory
import Verif.Model.Gmres
import Verif.Model.Gmsh
import Verif.Model.GmshBytes
import Verif.Model.GmshGroups
import Verif.Model.GmshText
import Verif.Model.GmshWriter
import Verif.Model.GradientMesh
import Verif.Model.GradientTangent
import Verif.Model.Group
import Verif.Model.Iga
import Verif.Model.InputReader
import Verif.Model.Integrands
import Verif.Model.Interpolation
import Verif.Model.Jacobian
import Verif.Model.LeastSquares
import Verif.Model.Legendre
import Verif.Model.Lobatto
import Verif.Model.Logger
import Verif.Model.MassMatrix
import Verif.Model.MeshFemDofConvert
import Verif.Model.MeshIntegral
import Verif.Model.Morton
import Verif.Model.Newton
import Verif.Model.NodeSelection
import Verif.Model.Nurbs
import Verif.Model.Ownership
import Verif.Model.ParticleHandler
import Verif.Model.ParticleSlices
import Verif.Model.Placement
import Verif.Model.Polygon
import Verif.Model.Quasistatic
import Verif.Model.ResultFiles
import Verif.Model.RuleFactory
import Verif.Model.Serialize
import Verif.Model.SimplexRule
import Verif.Model.Simulate
import Verif.Model.Solve
import Verif.Model.SpMat
import Verif.Model.Specimen
import Verif.Model.Sphere
import Verif.Model.Stiffness
import Verif.Model.SubBoxes
import Verif.Model.Tables
import Verif.Model.TakePhase
import Verif.Model.TetrahedronTable
import Verif.Model.TimeProblem
import Verif.Model.Timer
import Verif.Model.TriangleTable
import Verif.Model.UnitMesh
import Verif.Model.ValueVector
import Verif.Model.Visualize
import Verif.Model.Voronoi
import Verif.Model.VoronoiCells
import Verif.Model.VoronoiTriangle
import Verif.Model.VtuText
import Verif.Model.Water
import Verif.Props.Adaptive
import Verif.Props.Assembler
import Verif.Props.Balance
import Verif.Props.BestApproximation
import Verif.Props.BorderVisual
import Verif.Props.CellIntegration
import Verif.Props.CellStorage
import Verif.Props.CollisionBoxes
import Verif.Props.CollisionRun
import Verif.Props.Companion
import Verif.Props.Completeness
import Verif.Props.CompletenessLobatto
import Verif.Props.Constraints
import Verif.Props.Continuity
import Verif.Props.CylinderRun
import Verif.Props.DamageLaws
import Verif.Props.DamageRun
import Verif.Props.Delaunay
import Verif.Props.DofMatrix
import Verif.Props.DofVector
import Verif.Props.EigenIO
import Verif.Props.EigenSolve
import Verif.Props.Elastic
import Verif.Props.ElasticDamage
import Verif.Props.ElasticStep
import Verif.Props.EventList
import Verif.Props.FractureEnergy
import Verif.Props.FrameInvariance
import Verif.Props.Gmres
import Verif.Props.Gmsh
import Verif.Props.GmshBinary
import Verif.Props.GmshBytes
import Verif.Props.GmshGrammar
import Verif.Props.GmshGroups
import Verif.Props.GmshText
import Verif.Props.GmshWriter
import Verif.Props.GradientMesh
import Verif.Props.GradientMeshExample
import Verif.Props.GradientTangent
import Verif.Props.Group
import Verif.Props.Iga
import Verif.Props.InputGrammar
import Verif.Props.InputReader
import Verif.Props.InputReaderExamples
import Verif.Props.Integrands
import Verif.Props.Interpolation
import Verif.Props.InterpolationDeriv
import Verif.Props.InterpolationDerivOther
import Verif.Props.Jacobian
import Verif.Props.KnotSpan
import Verif.Props.LeastSquares
import Verif.Props.Legendre
import Verif.Props.LegendreRoots
import Verif.Props.LoadCurve
import Verif.Props.Lobatto
import Verif.Props.LobattoDeriv
import Verif.Props.LobattoRoots
import Verif.Props.LocalDamage
import Verif.Props.Logger
import Verif.Props.MassMatrix
import Verif.Props.MatrixAssembler
import Verif.Props.Memo
import Verif.Props.MeshFemDofConvert
import Verif.Props.MeshIntegral
import Verif.Props.MeshIntegralDomain
import Verif.Props.MeshIntegralShapes
import Verif.Props.MeshIntegralUnit
import Verif.Props.MisesNorm
import Verif.Props.Morton
import Verif.Props.Newton
import Verif.Props.NodeSelection
import Verif.Props.NodeValues
import Verif.Props.Numbering
import Verif.Props.Nurbs
import Verif.Props.NurbsDeriv
import Verif.Props.Objectivity
import Verif.Props.Ownership
import Verif.Props.ParticleHandler
import Verif.Props.ParticleSlices
import Verif.Props.PatchSolve
import Verif.Props.PatchTest
import Verif.Props.Placement
import Verif.Props.Polygon
import Verif.Props.Pvd
import Verif.Props.PvdXml
import Verif.Props.Quadrature
import Verif.Props.QuadraturePoints
import Verif.Props.Quasistatic
import Verif.Props.Reactions
import Verif.Props.Renumbering
import Verif.Props.ResultFiles
import Verif.Props.RicherExample
import Verif.Props.RicherTypes
import Verif.Props.RuleFactory
import Verif.Props.Scaling
import Verif.Props.Serialize
import Verif.Props.Shapes
import Verif.Props.SimplexRule
import Verif.Props.Simulate
import Verif.Props.Solve
import Verif.Props.Specimen
import Verif.Props.SphereCollision
import Verif.Props.SpherePrediction
import Verif.Props.Statics
import Verif.Props.Stiffening
import Verif.Props.Stiffness
import Verif.Props.StiffnessAffine
import Verif.Props.StiffnessBrick
import Verif.Props.StiffnessCubic
import Verif.Props.StiffnessKernel
import Verif.Props.StiffnessLine
import Verif.Props.StiffnessPrism
import Verif.Props.StiffnessQuad
import Verif.Props.StiffnessReduced
import Verif.Props.StiffnessSerendipity
import Verif.Props.StiffnessTangent
import Verif.Props.StiffnessTruss
import Verif.Props.StrainOperator
import Verif.Props.SubBoxes
import Verif.Props.Tables
import Verif.Props.TakePhase
import Verif.Props.TimeGradient
import Verif.Props.TimeProblem
import Verif.Props.Timer
import Verif.Props.Totals
import Verif.Props.UnitMesh
import Verif.Props.UnitMeshBricks
import Verif.Props.ValueVector
import Verif.Props.Visualizer
import Verif.Props.Voronoi
import Verif.Props.VoronoiCells
import Verif.Props.VoronoiOuter
import Verif.Props.VoronoiTriangle
import Verif.Props.VoronoiTriangleExamples
import Verif.Props.Vtu
import Verif.Props.VtuText
import Verif.Props.Water
