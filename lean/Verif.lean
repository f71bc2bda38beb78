import Verif.Common.Theorems
import Verif.Lagrange.Theorems
import Verif.LagrangeElement.Theorems
import Verif.Legendre.Theorems
import Verif.Legendre.ElementTheorems
import Verif.Points.Theorems
import Verif.LU.Theorems
import Verif.Jacobian.Theorems
import Verif.Shape.Theorems
import Verif.Shape.Select
import Verif.HexN.Theorems
import Verif.Swage.NodeCellTheorems
import Verif.Swage.CellCellTheorems
import Verif.Swage.ElemTheorems
import Verif.Swage.PatchTheorems
import Verif.Swage.PatchGrid
import Verif.Swage.PatchKeyTheorems
import Verif.Quad.Theorems
import Verif.Swage.RefineTheorems
import Verif.Swage.RefineHash
import Verif.Swage.RefineLattice
import Verif.Swage.RefineGrid
import Verif.Swage.RefineNegation
import Verif.Swage.RefineConform
import Verif.Swage.HighOrderNegation
import Verif.RefElem.IndexTheorems
import Verif.RefElem.PatchTheorems
import Verif.RefElem.SurfaceTheorems
import Verif.RefElem.TableTheorems
import Verif.Geometry.JacobianTheorems
import Verif.Geometry.VolTheorems
import Verif.Geometry.HexTheorems
import Verif.Geometry.Measure
import Verif.Geometry.CurvedExamples
import Verif.Geometry.CheckExamples
import Verif.MeshBox.Theorems
import Verif.MeshFile.Theorems
import Verif.Average.Setup
import Verif.Average.Cycle
import Verif.Average.Example
import Verif.Average.Fill
import Verif.Average.DriverTheorems
import Verif.Average.VtuTheorems
import Verif.Average.MainTheorems
import Verif.Average.FromFile
import Verif.Tensor.Theorems
import Verif.Blas.Invert
import Verif.Golub.Theorems
import Verif.SubWeights.Theorems
import Verif.Vtk.GridTheorems
import Verif.Vtk.FileTheorems
import Verif.Lagrange.Error
import Verif.DetJac.AnnulusError
import Verif.DetJac.ProgramTheorems
import Verif.ComplexStep.Theorems
import Verif.Average.Converge
import Verif.Average.GridConverge
import Verif.Average.Profile
import Verif.Average.Steady
import Verif.Fp.Arith
import Verif.Fp.AverageModel
import Verif.Fp.LUUnstable
import Verif.Fp.LUGrowth
import Verif.Fp.Average
import Verif.Fp.AverageGrid
import Verif.Int32.Model
import Verif.Int32.Lemmas
import Verif.Int32.Runs
import Verif.Int32.Refine
import Verif.Int32.Patches
import Verif.Int32.High
import Verif.Swage.World
import Verif.Swage.WorldTheorems
import Verif.Fp.Eval64
import Verif.Fp.RefineModel
import Verif.Fp.RefineSwap
import Verif.Fp.RefineError
import Verif.Fp.RefineBins
import Verif.Fp.RefineTheorems
import Verif.Fp.RefineGridFp
import Verif.Fp.RefineRotated
import Verif.Fp.PatchModel
import Verif.Fp.PatchError
import Verif.Fp.PatchGridFp
import Verif.Fp.PatchTheorems
import Verif.Fp.PatchRotated
import Verif.Fp.Rel
import Verif.Fp.LagrangeModel
import Verif.Fp.LagrangeLemmas
import Verif.Fp.LagrangeElement
import Verif.Fp.LagrangeTheorems
import Verif.Fp.LagrangeDer
import Verif.Fp.LagrangeDerTheorems
import Verif.Fp.LagrangeDerBad
import Verif.Fp.Expr
import Verif.Fp.EvalInt
import Verif.Fp.GeomModel
import Verif.Fp.HexLemmas
import Verif.Fp.HexTheorems
import Verif.Fp.JacModel
import Verif.Fp.JacLemmas
import Verif.Fp.JacTheorems
import Verif.Fp.VolJacTheorems
import Verif.Fp.LegendreModel
import Verif.Fp.LegendreLemmas
import Verif.Fp.LegendreTheorems
import Verif.Fp.JacobiLemmas
import Verif.Fp.LegendreDerTheorems
import Verif.MeshFile.Mono
import Verif.Fp.BoxModel
import Verif.Fp.BoxTheorems
import Verif.MeshFile.CutModel
import Verif.MeshFile.CutLemmas
import Verif.MeshFile.CutRead
import Verif.MeshFile.CutTheorems
import Verif.Legendre.RecModel
import Verif.Legendre.RecTheorems
import Verif.Fp.ShapeModel
import Verif.Fp.ShapeExpr
import Verif.Fp.ShapeLemmas
import Verif.Fp.ShapeTheorems
import Verif.Ensight.Spec
import Verif.Ensight.Model
import Verif.Ensight.DiskLemmas
import Verif.Ensight.Session
import Verif.Ensight.CaseLemmas
import Verif.Ensight.FrameLemmas
import Verif.Ensight.Theorems
import Verif.Ensight.BoxTheorems
import Verif.VtuFile.Spec
import Verif.VtuFile.Model
import Verif.VtuFile.Lemmas
import Verif.VtuFile.Read
import Verif.VtuFile.File
import Verif.VtuFile.Theorems
import Verif.Fp.HexNModel
import Verif.Fp.HexNLemmas
import Verif.Fp.HexNTheorems
import Verif.Ieee.AverageTheorems
import Verif.Ieee.HexTheorems
import Verif.Ieee.ShapeTheorems
import Verif.Fp.ComplexTheorems
import Verif.Geometry.BoundaryFlux
import Verif.Geometry.BoundaryTheorems
import Verif.Geometry.BoundaryRefine
import Verif.Concurrent.Prog
import Verif.Concurrent.Lagrange
import Verif.Concurrent.LagrangeLemmas
import Verif.Concurrent.Legendre
import Verif.Concurrent.Theorems
import Verif.Heap.Model
import Verif.Heap.Theorems
import Verif.Fp.HexTotal
import Verif.Geometry.CurvedSurface
import Verif.Geometry.CurvedMesh
import Verif.Geometry.CurvedBoxes
import Verif.Geometry.CurvedTurned
import Verif.Geometry.CurvedOuter
import Verif.Geometry.CurvedSkin
