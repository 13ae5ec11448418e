import Verif.Basic
import Verif.Props.MeltML
import Verif.Props.SublML
import Verif.Props.RunoffML
import Verif.Props.RelayerML
import Verif.Props.StepML
import Verif.Lemmas.RelayerDef
import Verif.Lemmas.StepDef
import Verif.Props.StepDef
import Verif.Props.Tridiag
import Verif.Props.HeatConduction
import Verif.Props.Snow
import Verif.Props.AlbedoHistory
import Verif.Props.CryoMass
import Verif.Props.CryoEnergy
import Verif.Props.CryoStep
import Verif.Props.Run
import Verif.Props.Time
import Verif.Props.Grid
import Verif.Props.StateVars
import Verif.Props.Precip
import Verif.Props.Idw
import Verif.Props.Canopy
import Verif.Props.Evapo
import Verif.Props.CropCoeff
import Verif.Props.Glacier
import Verif.Props.PointOutput
import Verif.Props.Gridded
import Verif.Props.RoiPixel
import Verif.Props.Stations
import Verif.Props.Resample
import Verif.Props.SameStep
import Verif.Props.Config
import Verif.Props.Atmosphere
import Verif.Props.MeteoInterp
import Verif.Props.PrecipCorr
import Verif.Props.Amounts
import Verif.Props.Conventions
import Verif.Props.Terrain
import Verif.Props.Openness
import Verif.Props.Sun
import Verif.Props.Shadows
import Verif.Props.SkyView
import Verif.Props.ClearSky
import Verif.Props.Irradiance
import Verif.Props.AirDensity
import Verif.Props.Soil
import Verif.Props.Surface
import Verif.Props.SurfaceTemp
import Verif.Props.SecantHumidity
import Verif.Props.Forcing
import Verif.Props.GridGeom
import Verif.Props.WriteDates
import Verif.Props.GlacierYear
import Verif.Props.Piecewise
import Verif.Props.Freq
import Verif.Props.PointDef
import Verif.Props.GridDef
import Verif.Props.WindDir
import Verif.Props.SealedEvap
import Verif.Props.ShadowGrid
import Verif.Props.LandCover
import Verif.Props.Terminus
import Verif.Props.FillStations
import Verif.Props.Shift
import Verif.Props.SoilWater
import Verif.Props.InputGrids
import Verif.Props.MeteoFields
import Verif.Props.DerivedMeteo
import Verif.Model.WetBulbGrid
import Verif.Lemmas.WetBulb
import Verif.Props.WetBulb
import Verif.Model.Meteorology
import Verif.Props.Meteorology
import Verif.Props.DataFlow
import Verif.Model.PixelWater
import Verif.Props.PixelWater
import Verif.Model.RefEvapo
import Verif.Props.RefEvapo
import Verif.Model.EvapoClass
import Verif.Props.EvapoClass
import Verif.Model.ClearSkyField
import Verif.Props.ClearSkyField
import Verif.Props.OutputsAgree
import Verif.Model.StationFiles
import Verif.Props.StationFiles
import Verif.Model.GridDataset
import Verif.Props.GridDataset
import Verif.Model.SimTime
import Verif.Props.SimTime
import Verif.Model.SvfFile
import Verif.Props.SvfFile
import Verif.Model.PrecipTable
import Verif.Props.PrecipTable
import Verif.Model.PixelBudget
import Verif.Props.PixelBudget
import Verif.Props.Declared
import Verif.Props.ForcingPath
import Verif.Model.Coupled
import Verif.Lemmas.Coupled
import Verif.Props.Coupled
import Verif.Lemmas.ColdSnow
import Verif.Props.ColdSnow
import Verif.Lemmas.CoupledCryo
import Verif.Props.CoupledCryo
import Verif.Lemmas.DenseSnow
import Verif.Props.DenseSnow
import Verif.Props.SurfaceRange
import Verif.Lemmas.TempRange
import Verif.Props.TempRange
import Verif.Props.CoupledEnergy
import Verif.Model.CanopySubl
import Verif.Props.CanopySubl
import Verif.Model.GlacierMass
import Verif.Props.GlacierMass
import Verif.Model.TerrainGaps
import Verif.Props.TerrainGaps
import Verif.Model.Callback
import Verif.Model.Parallel
import Verif.Props.Callback
import Verif.Props.Parallel
import Verif.Props.ParallelLayers
import Verif.Props.ParallelMore
import Verif.Model.Rounded
import Verif.Lemmas.Rounded
import Verif.Props.Rounded
import Verif.Props.RoundedFormat
import Verif.Props.RoundedExact
import Verif.Model.RoundedLayers
import Verif.Lemmas.RoundedLayers
import Verif.Props.RoundedLayers
import Verif.Props.Symmetry
import Verif.Props.Period
import Verif.Props.PeriodResample
import Verif.Props.InitForcing
import Verif.Props.Bounds
import Verif.Model.Gaps
import Verif.Lemmas.Gaps
import Verif.Props.Gaps
import Verif.Model.GapsMeteo
import Verif.Props.GapsMeteo
import Verif.Model.GapsCanopy
import Verif.Props.GapsCanopy
import Verif.Props.GapsEvapo
import Verif.Model.GapsCryo
import Verif.Lemmas.GapsCryo
import Verif.Props.GapsCryo
import Verif.Model.ExtIrradiance
import Verif.Props.ExtIrradiance
import Verif.Model.AppendOutput
import Verif.Lemmas.AppendOutput
import Verif.Props.AppendOutput
import Verif.Lemmas.StationOrder
import Verif.Props.StationOrder
import Verif.Props.StationFileOrder
import Verif.Model.CsvOutput
import Verif.Props.CsvOutput
import Verif.Props.DrySoil
import Verif.Props.RoiIndependence
import Verif.Model.LongwaveField
import Verif.Props.RadiationRoi
import Verif.Props.SurfaceBounds
import Verif.Props.TimeSplit
import Verif.Props.Comparison
import Verif.Props.Forgetting
import Verif.Props.ForgettingMulti
import Verif.Props.Sensitivity
import Verif.Props.SoilComparison
import Verif.Model.Layouts
import Verif.Props.Layouts
import Verif.Props.HeatComparison
import Verif.Props.HeatFreezing
import Verif.Props.StationErrors
import Verif.Model.OpennessMap
import Verif.Props.OpennessMap
import Verif.Props.HigherTerrain
import Verif.Props.IdwNear
