import Verif.Props.SharedPointer
import Verif.Props.Containers
import Verif.Props.Repository
import Verif.Props.Combinatorics
import Verif.Props.Topology
import Verif.Props.Mesh
import Verif.Props.Boundary
import Verif.Props.Refine
import Verif.Props.Partition
import Verif.Props.FlipDiagonal
import Verif.Props.Summit
import Verif.Props.VTK
import Verif.Props.Discretizer
import Verif.Props.DiscreteField
import Verif.Props.DiscreteSystem
import Verif.Props.Functions
import Verif.Props.Elements
import Verif.Props.Blocks
import Verif.Props.Quadrature
import Verif.Props.Forms
import Verif.Props.Coordinates
import Verif.Props.Parametrization
import Verif.Props.Integrator
import Verif.Props.CoordinateSystem
import Verif.Props.Materials
import Verif.Props.Options
import Verif.Props.Stokes
import Verif.Props.Poisson
import Verif.Props.PoissonElements
import Verif.Props.Nodal
import Verif.Props.Components
import Verif.Props.Dirichlet
import Verif.Props.MaximumPrinciple
import Verif.Props.PatchTest
import Verif.Props.Sanity
import Verif.Props.GeometricFlip
import Verif.Props.Handles
import Verif.Props.Renumber
import Verif.Props.Tetrahedron
import Verif.Props.RefineShape
import Verif.Props.RefineIntegral
import Verif.Props.RefineSteps
import Verif.Props.PoissonConvergence
import Verif.Props.SummitDamaged
import Verif.Props.RefinedPoisson
import Verif.Props.SegmentConvergence
import Verif.Props.PetscHandles
import Verif.Props.Rounding
import Verif.Props.DivergenceTheorem
import Verif.Props.QuadraticConvergence
import Verif.Props.Load
import Verif.Props.H1Norm
import Verif.Props.Conditioning
import Verif.Props.Discontinuous
import Verif.Props.Teardown
import Verif.Props.Parallel
import Verif.Props.Session
import Verif.Props.Cloud
import Verif.Props.FileNames
import Verif.Props.Weakforms
import Verif.Props.Lifetimes
import Verif.Props.Snapshot
import Verif.Props.Distributed
import Verif.Props.Calculus
import Verif.Props.Gradient
import Verif.Props.LoadSimplices
import Verif.Props.VTKFields
import Verif.Props.Edges
import Verif.Props.Addresses
import Verif.Props.TopologyTests
import Verif.Props.Slots
import Verif.Props.PointerTests
import Verif.Props.Matrices
import Verif.Props.MeshPrograms
import Verif.Props.Doubles
import Verif.Props.Arithmetic
import Verif.Props.CalculusTests
import Verif.Props.Contraction
import Verif.Props.FieldTests
import Verif.Props.Python
import Verif.Props.Manifolds
import Verif.Props.CosineTests
import Verif.Props.Benchmarks
import Verif.Props.FilterChains
import Verif.Props.ClosedBoundary
import Verif.Props.NodalFields
import Verif.Props.DiskConstraints
import Verif.Props.RepeatedCells
import Verif.Props.Functors
import Verif.Props.WrittenCoordinates
import Verif.Props.Characters
import Verif.Props.CutFiles
import Verif.Props.Extraction
import Verif.Props.Galerkin
import Verif.Props.Midpoints
import Verif.Props.RoundedBlocks
import Verif.Props.Barycentric
import Verif.Props.GentEnergy
import Verif.Props.Ellipticity
import Verif.Props.RoundedNorms
import Verif.Props.RoundedVolumes
import Verif.Props.PlaneMeshes
import Verif.Props.FlipVolumes
import Verif.Props.FourthOrder
import Verif.Props.SpaceTests
import Verif.Props.NamedClass
import Verif.Props.StdSharedPointer
import Verif.Props.Quotients
import Verif.Props.RoundedMidpoint
import Verif.Props.MovedVectors
import Verif.Props.RoundedForms
import Verif.Audit
