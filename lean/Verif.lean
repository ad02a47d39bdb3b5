import Verif.Props.Ident
import Verif.Model.Lookup
import Verif.Spec.Order
import Verif.Lemmas.Lookup
import Verif.Props.Lookup
import Verif.Props.PolygonStore
import Verif.Props.MeshTopo
import Verif.Props.Util
import Verif.Props.Bases
import Verif.Props.Legendre
import Verif.Props.Rational
import Verif.Props.Neighbours
import Verif.Props.BoundaryCond
import Verif.Props.Assembly
import Verif.Props.Condensation
import Verif.Props.Adaptivity
import Verif.Props.Elements
import Verif.Props.SparseRaw
import Verif.Props.UniformMesh
import Verif.Props.MappedFile
import Verif.Props.Hypercube
import Verif.Props.BoundingBox
import Verif.Props.ConjGrad
import Verif.Props.Locate
import Verif.Props.LocalMatrix
import Verif.Props.Polygon
import Verif.Props.Simplex
import Verif.Props.ElementSize
import Verif.Props.Gauss
import Verif.Props.PlaneQuad
import Verif.Props.Dunavant
import Verif.Props.TimeSteps
import Verif.Props.Tensor
import Verif.Props.TensorConv
import Verif.Props.SingleMesh
import Verif.Props.TriRefine
import Verif.Props.Hierarchy
import Verif.Props.MeshFiles
import Verif.Props.PolyFile
import Verif.Props.HexMesh
import Verif.Props.HexMesher
import Verif.Props.TetRefine
import Verif.Props.HhoLaplacian
import Verif.Props.HhoStab
import Verif.Props.HhoDegrees
import Verif.Props.Mech
import Verif.Props.Plastic
import Verif.Props.PlasticCurve
import Verif.Props.Hencky
import Verif.Props.Hyper
import Verif.Props.LogStrain
import Verif.Props.Cfem
import Verif.Props.NewtonParams
import Verif.Props.Newton
import Verif.Props.Rigidity
import Verif.Props.Slapl
import Verif.Props.Dga
import Verif.Props.HhoVector
import Verif.Props.HhoCurl
import Verif.Props.VectorAsm
import Verif.Props.StokesAsm
import Verif.Props.ScalarAsm
import Verif.Props.Behavior
import Verif.Props.MeshFile
import Verif.Props.QuadRefine
import Verif.Props.VemDofs
import Verif.Props.Vem
import Verif.Props.VemSystem
import Verif.Props.GrundMoeller
import Verif.Props.Polyhedron
import Verif.Props.Arbq
import Verif.Props.Obstacle
import Verif.Props.Fvca5
import Verif.Props.Medit
import Verif.Props.GolubWelsch
import Verif.Props.Gmsh
import Verif.Props.GmshPrism
import Verif.Props.Earcut
import Verif.Props.PostMesh
import Verif.Props.Contact
import Verif.Props.GmshOut
import Verif.Props.Silo
import Verif.Props.Bingham
import Verif.Props.HhoSolver
import Verif.Props.TestData
import Verif.Props.DgSolver
import Verif.Props.CfemSolver
import Verif.Props.Nitsche
import Verif.Props.Heat
import Verif.Props.PoissonApp
import Verif.Props.PoissonJump
