import Verif.Props.Parallel
import Verif.Props.Bucket
import Verif.Props.Tree
import Verif.Props.Jrrle
import Verif.Props.FwdSlice
import Verif.Props.Select
import Verif.Props.FillSel
import Verif.Props.Interp
import Verif.Props.Amr
import Verif.Props.Streamline
import Verif.Props.Integrate
import Verif.Props.Vjson
import Verif.Props.Calc
import Verif.Props.PointDeriv
import Verif.Props.Cluster
import Verif.Props.LineInt
import Verif.Props.Crds
import Verif.Props.Dataset
import Verif.Props.Readers
import Verif.Props.Ecfc
import Verif.Props.Rotation
import Verif.Props.AxisAngle
import Verif.Props.GreatCircle
import Verif.Props.Euler
import Verif.Props.Cotr
import Verif.Props.Igrf
import Verif.Props.SphCart
import Verif.Props.Dipole
import Verif.Props.SeedGrid
import Verif.Props.Plane
import Verif.Props.Sphere
import Verif.Props.Nulls
import Verif.Props.NullKinds
import Verif.Props.Layout
import Verif.Props.Grid
import Verif.Props.PrepLines
import Verif.Props.LazySlice
import Verif.Model.Separator
import Verif.Spec.Separator
import Verif.Lemmas.Separator
import Verif.Props.Separator
import Verif.Props.NpTime
import Verif.Props.TimeDelta
import Verif.Props.TimeText
import Verif.Props.GgcmFile
import Verif.Props.Evaluator
import Verif.Props.LogFile
import Verif.Props.SelText
import Verif.Props.Interior
import Verif.Props.Plasma
import Verif.Props.Loc
import Verif.Props.Resolve
import Verif.Props.Colors
import Verif.Props.Fluid
import Verif.Props.Minvar
import Verif.Props.Mpause
import Verif.Props.MapField
import Verif.Props.Polar
import Verif.Props.Globbed
import Verif.Props.Loader
import Verif.Props.AthenaBin
import Verif.Props.Xdmf
import Verif.Props.Npz
import Verif.Props.XdmfGeo
import Verif.Props.Vpic
import Verif.Props.Hdf5
import Verif.Props.MakeField
import Verif.Props.Arith
import Verif.Props.ArithReduce
import Verif.Props.ArithInt
import Verif.Props.Recenter
import Verif.Props.Dims
import Verif.Props.DimsFewer
import Verif.Props.Frames
import Verif.Props.FramesBack
import Verif.Props.PMap
import Verif.Props.Resample
import Verif.Props.VecAlg
import Verif.Props.AlongLine
import Verif.Props.Nested
import Verif.Props.NestedTimes
import Verif.Props.Region
import Verif.Props.Yee
import Verif.Props.YeeFill
import Verif.Props.AmrSlice
import Verif.Props.AmrParts
import Verif.Props.InterpSlice
import Verif.Props.SetSlice
import Verif.Props.Fortbin
import Verif.Props.DsetEdit
import Verif.Props.Turn
import Verif.Props.CrdNames
import Verif.Props.Athena
import Verif.Props.Gkeyll
import Verif.Props.TextFile
import Verif.Props.Hdf5Wrap
import Verif.Props.RotStack
import Verif.Props.Angle
import Verif.Props.A2b
import Verif.Props.A2bHeap
import Verif.Props.AsCotr
import Verif.Props.Mats
import Verif.Props.Rc
import Verif.Props.KlsNames
import Verif.Props.RotConv
import Verif.Props.LogValue
import Verif.Props.Plot2d
import Verif.Props.PlotNorm
import Verif.Props.PlotOpts
import Verif.Props.Ath2Xdmf
import Verif.Props.Scripts
import Verif.Props.PlotAxes
import Verif.Props.SegLines
import Verif.Props.DipValue
import Verif.Props.FileCrds
import Verif.Props.TimeLike
import Verif.Props.VpicGlobal
import Verif.Props.PointSeeds
import Verif.Props.RFind
import Verif.Props.Multiplot
import Verif.Props.Series
import Verif.Props.MeshGrid
import Verif.Props.ManyVecs
import Verif.Props.Psc
import Verif.Props.FileOpts
import Verif.Props.Extent
import Verif.Props.Vtk
import Verif.Props.Quiver
import Verif.Props.Earth
import Verif.Props.Cmap
import Verif.Props.CmTools
import Verif.Props.Labels
import Verif.Props.MapPlot
import Verif.Props.Lines2d
import Verif.Props.Helix
import Verif.Props.AxesKeep
import Verif.Props.Scene3d
import Verif.Props.Injector
import Verif.Props.Extools
import Verif.Props.Timeit
import Verif.Props.CapGuess
import Verif.Props.Elementwise
import Verif.Props.Plot1d
import Verif.Props.AmrCall
import Verif.Props.SphereNear
import Verif.Props.TsTool
import Verif.Props.SceneBox
import Verif.Props.Colorbar
import Verif.Props.LineColors
import Verif.Props.Marble
import Verif.Props.FortUnit
import Verif.Props.LogMsg
import Verif.Props.IonoFile
import Verif.Props.Contig
import Verif.Props.XdmfInfo
import Verif.Props.FieldWrites
import Verif.Props.Parents
import Verif.Props.BucketLists
import Verif.Props.VecLoad
import Verif.Props.AxFmt
import Verif.Props.WrapMesh
