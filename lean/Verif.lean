import Verif.Lemmas.Basic
import Verif.Lemmas.BuildCand
import Verif.Lemmas.BuildInputs
import Verif.Lemmas.BuildStages
import Verif.Lemmas.Calibrated
import Verif.Lemmas.Config
import Verif.Lemmas.Double
import Verif.Lemmas.DoubleLanczos
import Verif.Lemmas.DoubleSinc
import Verif.Lemmas.EpochMap
import Verif.Lemmas.ExRel
import Verif.Lemmas.Fits
import Verif.Lemmas.Flags
import Verif.Lemmas.Interp
import Verif.Lemmas.Lanczos
import Verif.Lemmas.LanczosMoments
import Verif.Lemmas.MakeSwap
import Verif.Lemmas.MaskedBuild
import Verif.Lemmas.MaskedCand
import Verif.Lemmas.MaskedResample
import Verif.Lemmas.MaskedStages
import Verif.Lemmas.MaskedVals
import Verif.Lemmas.Median
import Verif.Lemmas.Moved
import Verif.Lemmas.NoiseFill
import Verif.Lemmas.Order
import Verif.Lemmas.Planes
import Verif.Lemmas.PolyBound
import Verif.Lemmas.Process
import Verif.Lemmas.ProcessSlice
import Verif.Lemmas.Program
import Verif.Lemmas.SEObject
import Verif.Lemmas.Sinc
import Verif.Lemmas.SincLip
import Verif.Lemmas.SincSeries
import Verif.Lemmas.Slice
import Verif.Lemmas.Wcs
import Verif.Lemmas.WcsGrid
import Verif.Lemmas.ZeroPoint
import Verif.Model.Basic
import Verif.Model.BuildInputs
import Verif.Model.Cache
import Verif.Model.CheckInfo
import Verif.Model.Cli
import Verif.Model.CliRun
import Verif.Model.Coadd
import Verif.Model.Config
import Verif.Model.ConfigFiles
import Verif.Model.Constants
import Verif.Model.DesInfo
import Verif.Model.DesTile
import Verif.Model.Double
import Verif.Model.DoubleAffine
import Verif.Model.DoubleCoadd
import Verif.Model.DoubleCut
import Verif.Model.DoubleGeom
import Verif.Model.DoubleJac
import Verif.Model.DoubleLanczos
import Verif.Model.DoubleScale
import Verif.Model.DoubleSky
import Verif.Model.DoubleStore
import Verif.Model.DoubleWrap
import Verif.Model.EpochsInfo
import Verif.Model.Files
import Verif.Model.Fits
import Verif.Model.Flags
import Verif.Model.Gaia
import Verif.Model.GsUtils
import Verif.Model.ImageInfo
import Verif.Model.Interp
import Verif.Model.Lanczos
import Verif.Model.LoadInfo
import Verif.Model.Locate
import Verif.Model.Make
import Verif.Model.MakeProc
import Verif.Model.Measure
import Verif.Model.Noise
import Verif.Model.NoiseImage
import Verif.Model.Numerals
import Verif.Model.PiffMask
import Verif.Model.PrepTile
import Verif.Model.Process
import Verif.Model.ProcessRun
import Verif.Model.Program
import Verif.Model.Publish
import Verif.Model.Run
import Verif.Model.SEGeom
import Verif.Model.SEInit
import Verif.Model.SEObject
import Verif.Model.Schedule
import Verif.Model.SincDirect
import Verif.Model.SkyBounds
import Verif.Model.Slice
import Verif.Model.SliceMask
import Verif.Model.SliceRange
import Verif.Model.Symmetrize
import Verif.Model.TapeBumps
import Verif.Model.TileGeom
import Verif.Model.Wcs
import Verif.Model.WcsGrid
import Verif.Model.WcsIdentity
import Verif.Model.WcsSearch
import Verif.Props.Again
import Verif.Props.BuildExamples
import Verif.Props.BuildInputs
import Verif.Props.Cache
import Verif.Props.Calibrated
import Verif.Props.CalibratedExamples
import Verif.Props.CheckInfo
import Verif.Props.Cli
import Verif.Props.CliRun
import Verif.Props.Coadd
import Verif.Props.Combine
import Verif.Props.CombineExamples
import Verif.Props.Config
import Verif.Props.Constants
import Verif.Props.DesInfo
import Verif.Props.DesTile
import Verif.Props.DoubleAffine
import Verif.Props.DoubleCoadd
import Verif.Props.DoubleCut
import Verif.Props.DoubleGeom
import Verif.Props.DoubleJac
import Verif.Props.DoubleLanczos
import Verif.Props.DoublePixel
import Verif.Props.DoubleScale
import Verif.Props.DoubleSky
import Verif.Props.DoubleStore
import Verif.Props.DoubleWrap
import Verif.Props.EpochsInfo
import Verif.Props.Files
import Verif.Props.FilesExamples
import Verif.Props.Fits
import Verif.Props.Flags
import Verif.Props.Gaia
import Verif.Props.GsUtils
import Verif.Props.ImageInfo
import Verif.Props.Interp
import Verif.Props.Interp2
import Verif.Props.Lanczos
import Verif.Props.LanczosMove
import Verif.Props.LanczosQuadratic
import Verif.Props.Layout
import Verif.Props.LeastNoise
import Verif.Props.LeastNoiseExamples
import Verif.Props.Linear
import Verif.Props.LinearExamples
import Verif.Props.LoadInfo
import Verif.Props.Locate
import Verif.Props.Looser
import Verif.Props.LooserExamples
import Verif.Props.Make
import Verif.Props.MakeExamples
import Verif.Props.MakeProc
import Verif.Props.MakeProcExamples
import Verif.Props.Masked
import Verif.Props.MaskedExamples
import Verif.Props.MaskedFiles
import Verif.Props.MaskedFilesExamples
import Verif.Props.Measure
import Verif.Props.MoreMasked
import Verif.Props.MoreMaskedExamples
import Verif.Props.Moved
import Verif.Props.MovedExamples
import Verif.Props.Noise
import Verif.Props.NoiseCovariance
import Verif.Props.NoiseCovarianceExamples
import Verif.Props.NoiseFill
import Verif.Props.NoiseImage
import Verif.Props.OneSky
import Verif.Props.OneSkyExamples
import Verif.Props.Order
import Verif.Props.OrderExamples
import Verif.Props.Photometry
import Verif.Props.PhotometryExamples
import Verif.Props.PhotometryFilesExamples
import Verif.Props.PiffMask
import Verif.Props.Pipeline
import Verif.Props.PipelineExamples
import Verif.Props.PixelLaw
import Verif.Props.PixelLawExamples
import Verif.Props.PointSource
import Verif.Props.PointSourceExamples
import Verif.Props.PrepTile
import Verif.Props.PrepTileExamples
import Verif.Props.Process
import Verif.Props.ProcessExamples
import Verif.Props.Program
import Verif.Props.ProgramExamples
import Verif.Props.ProgramFile
import Verif.Props.PsfDistorted
import Verif.Props.PsfMoments
import Verif.Props.PsfMomentsExamples
import Verif.Props.Publish
import Verif.Props.Resample
import Verif.Props.ResampleDistorted
import Verif.Props.Run
import Verif.Props.RunExamples
import Verif.Props.SEGeom
import Verif.Props.SEInit
import Verif.Props.SEObject
import Verif.Props.Schedule
import Verif.Props.Sinc
import Verif.Props.SincDirect
import Verif.Props.SkyBounds
import Verif.Props.Slice
import Verif.Props.SliceExamples
import Verif.Props.SliceMask
import Verif.Props.SliceRange
import Verif.Props.SmoothSky
import Verif.Props.SmoothSkyExamples
import Verif.Props.Symmetrize
import Verif.Props.TileGeom
import Verif.Props.Transposed
import Verif.Props.TransposedExamples
import Verif.Props.Turned
import Verif.Props.TurnedExamples
import Verif.Props.UniformSky
import Verif.Props.UniformSkyExamples
import Verif.Props.Wcs
import Verif.Props.WcsCover
import Verif.Props.WcsDistorted
import Verif.Props.WcsGrid
import Verif.Props.WcsGridExamples
import Verif.Props.WcsIdentity
import Verif.Props.WcsSearch
import Verif.Props.WeightUnits
import Verif.Props.WeightUnitsExamples
import Verif.Props.ZeroPoint
import Verif.Props.ZeroPointExamples
import Verif.Spec.BuildInputs
import Verif.Spec.BuildOutcome
import Verif.Spec.Calibrated
import Verif.Spec.CheckInfo
import Verif.Spec.Coadd
import Verif.Spec.Combine
import Verif.Spec.Config
import Verif.Spec.DesInfo
import Verif.Spec.DesTile
import Verif.Spec.EpochsInfo
import Verif.Spec.Files
import Verif.Spec.Fits
import Verif.Spec.Gaia
import Verif.Spec.Interp
import Verif.Spec.Lanczos
import Verif.Spec.Linear
import Verif.Spec.LoadInfo
import Verif.Spec.Looser
import Verif.Spec.Make
import Verif.Spec.MakeProc
import Verif.Spec.Masked
import Verif.Spec.MaskedFiles
import Verif.Spec.Masks
import Verif.Spec.Median
import Verif.Spec.MoreMasked
import Verif.Spec.Moved
import Verif.Spec.OneSky
import Verif.Spec.Order
import Verif.Spec.Photometry
import Verif.Spec.Pipeline
import Verif.Spec.PixelLaw
import Verif.Spec.PointSource
import Verif.Spec.PrepTile
import Verif.Spec.Process
import Verif.Spec.Program
import Verif.Spec.PsfMoments
import Verif.Spec.SEObject
import Verif.Spec.Schedule
import Verif.Spec.Slice
import Verif.Spec.SliceRange
import Verif.Spec.TileGeom
import Verif.Spec.Transposed
import Verif.Spec.Turned
import Verif.Spec.WcsGrid
import Verif.Spec.WeightUnits
import Verif.Spec.ZeroPoint
