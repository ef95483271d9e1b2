import Verif.Model.Basic
import Verif.Model.Cache
import Verif.Model.CoaddMemory
import Verif.Model.CoaddMeta
import Verif.Model.Columns
import Verif.Model.Combine
import Verif.Model.Config
import Verif.Model.Detect
import Verif.Model.DetectSx
import Verif.Model.Driver
import Verif.Model.ExpMemory
import Verif.Model.FitPsfs
import Verif.Model.Flags
import Verif.Model.Interp
import Verif.Model.Joint
import Verif.Model.LsstCoadd
import Verif.Model.LsstConfig
import Verif.Model.LsstDetect
import Verif.Model.LsstDraw
import Verif.Model.LsstEntry
import Verif.Model.LsstExp
import Verif.Model.LsstFits
import Verif.Model.LsstFootprints
import Verif.Model.LsstGeom
import Verif.Model.LsstHeavy
import Verif.Model.LsstMasking
import Verif.Model.LsstMeasure
import Verif.Model.LsstMetacal
import Verif.Model.LsstPhotometry
import Verif.Model.LsstPlanes
import Verif.Model.LsstPsf
import Verif.Model.LsstReplacer
import Verif.Model.LsstRun
import Verif.Model.LsstSky
import Verif.Model.LsstSkyOnce
import Verif.Model.LsstSubStamp
import Verif.Model.LsstSubtract
import Verif.Model.LsstTasks
import Verif.Model.LsstVis
import Verif.Model.MaskMemory
import Verif.Model.Masking
import Verif.Model.Measure
import Verif.Model.Memory
import Verif.Model.Obs
import Verif.Model.Pipeline
import Verif.Model.PyDict
import Verif.Model.PyM
import Verif.Model.Runners
import Verif.Model.ShearMeas
import Verif.Model.ShearPos
import Verif.Model.Wavg
import Verif.Lemmas.Cache
import Verif.Lemmas.Coadd
import Verif.Lemmas.Detect
import Verif.Lemmas.Driver
import Verif.Lemmas.Img
import Verif.Lemmas.Interp
import Verif.Lemmas.LsstExp
import Verif.Lemmas.LsstMeasure
import Verif.Lemmas.LsstMetacal
import Verif.Lemmas.Masking
import Verif.Lemmas.PyDict
import Verif.Lemmas.Wavg
import Verif.Props.BandInput
import Verif.Props.BandInputBoth
import Verif.Props.BandInputJoint
import Verif.Props.BandInputRun
import Verif.Props.BandInputState
import Verif.Props.BandOrder
import Verif.Props.BandsAgree
import Verif.Props.Cache
import Verif.Props.Coadd
import Verif.Props.CoaddMemory
import Verif.Props.CoaddMeta
import Verif.Props.CoaddOrder
import Verif.Props.Columns
import Verif.Props.Combine
import Verif.Props.Config
import Verif.Props.Detect
import Verif.Props.DetectSx
import Verif.Props.Driver
import Verif.Props.DriverAgain
import Verif.Props.DriverFitters
import Verif.Props.DriverRandom
import Verif.Props.DriverRetry
import Verif.Props.DriverSeparate
import Verif.Props.DriverTypes
import Verif.Props.ExpMemory
import Verif.Props.FitList
import Verif.Props.FitPsfs
import Verif.Props.Flags
import Verif.Props.Interp
import Verif.Props.Joint
import Verif.Props.JointCols
import Verif.Props.LsstBandFits
import Verif.Props.LsstBandInput
import Verif.Props.LsstBandRun
import Verif.Props.LsstCoadd
import Verif.Props.LsstColumns
import Verif.Props.LsstConfig
import Verif.Props.LsstDetect
import Verif.Props.LsstDraw
import Verif.Props.LsstEntry
import Verif.Props.LsstExp
import Verif.Props.LsstFootprints
import Verif.Props.LsstFrame
import Verif.Props.LsstGeom
import Verif.Props.LsstHeavy
import Verif.Props.LsstLocal
import Verif.Props.LsstMaskErr
import Verif.Props.LsstMaskOrder
import Verif.Props.LsstMasking
import Verif.Props.LsstMeasure
import Verif.Props.LsstMeasureSpec
import Verif.Props.LsstMetacal
import Verif.Props.LsstMfrac
import Verif.Props.LsstPhotometry
import Verif.Props.LsstPlanes
import Verif.Props.LsstPsf
import Verif.Props.LsstPsfFit
import Verif.Props.LsstReplacer
import Verif.Props.LsstReplacerErr
import Verif.Props.LsstRun
import Verif.Props.LsstSingle
import Verif.Props.LsstSky
import Verif.Props.LsstSkyOnce
import Verif.Props.LsstStamp
import Verif.Props.LsstSubStamp
import Verif.Props.LsstSubtract
import Verif.Props.LsstTasks
import Verif.Props.LsstTypes
import Verif.Props.LsstUnits
import Verif.Props.LsstUnitsMask
import Verif.Props.LsstVis
import Verif.Props.MaskAlone
import Verif.Props.MaskApply
import Verif.Props.MaskCommute
import Verif.Props.MaskHidden
import Verif.Props.MaskMemory
import Verif.Props.MaskSerial
import Verif.Props.MaskSymmetry
import Verif.Props.MaskTwice
import Verif.Props.Masking
import Verif.Props.Measure
import Verif.Props.Memory
import Verif.Props.Mirror
import Verif.Props.MirrorJoint
import Verif.Props.NoiseCoadd
import Verif.Props.NoiseLevel
import Verif.Props.Pipeline
import Verif.Props.PipelineColour
import Verif.Props.PipelineFitters
import Verif.Props.PipelineLocal
import Verif.Props.PipelineRows
import Verif.Props.PipelineShift
import Verif.Props.PipelineStamps
import Verif.Props.PipelineTable
import Verif.Props.PipelineUnused
import Verif.Props.Refusals
import Verif.Props.Runners
import Verif.Props.ShearMeas
import Verif.Props.ShearPos
import Verif.Props.Turn
import Verif.Props.TurnJoint
import Verif.Props.Units
import Verif.Props.UnitsCoadd
import Verif.Props.UnitsJoint
import Verif.Props.UnitsMask
import Verif.Props.UnitsRun
import Verif.Props.ValidCov
import Verif.Props.Wavg
import Verif.Props.WavgExact
