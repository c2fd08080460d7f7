import Verif.Float
import Verif.Np
import Verif.Model.Baseline
import Verif.Props.BaselineConstant
import Verif.Props.BaselineLinear
import Verif.Props.Blackout
import Verif.Props.WaaSchleiss
import Verif.Props.MinMax
import Verif.Props.StatsWetDry
import Verif.Props.StatsRain
import Verif.Props.KR
import Verif.Props.AB
import Verif.Props.WaaModels
import Verif.Props.Leijnse
import Verif.Props.Film
import Verif.Props.Wrapper
import Verif.Props.Haversine
import Verif.Props.HaversineFloat
import Verif.Props.HaversineAccuracy
import Verif.Props.NearbyClose
import Verif.Props.NearbyDoubles
import Verif.Props.NearbyDelta
import Verif.Props.Nearby
import Verif.Props.NearbyRel
import Verif.Props.NearbyLocal
import Verif.Props.Recovery
import Verif.Props.StatsPooled
import Verif.Props.IdwDetermined
import Verif.Props.LookupRecovery
import Verif.Props.NearbyRain
import Verif.Props.Idw
import Verif.Props.Grid
import Verif.Props.Interpolator
import Verif.Props.Torch
import Verif.Props.TfInference
import Verif.Props.TfScale
import Verif.Props.Mlp
import Verif.Props.Stft
import Verif.Props.StftDry
import Verif.Props.ModelCache
import Verif.Props.ModelSource
import Verif.Props.Temporal
import Verif.Props.Validator
import Verif.Props.Coverage
import Verif.Props.Reader
import Verif.Props.Chain
import Verif.Props.NearbyChain
import Verif.Rounding
import Verif.Binary64
import Verif.Props.Rounding
import Verif.Model.Kriging
import Verif.Model.Calendar
import Verif.Model.CalcStats
import Verif.Model.LazyTf
import Verif.Props.Kriging
import Verif.Props.Calendar
import Verif.Props.CalcStats
import Verif.Props.LazyTf
import Verif.RoundingReal
import Verif.Props.RoundedStats
import Verif.Props.RoundedNearby
import Verif.Model.Specgram
import Verif.Props.StftSpectrum
import Verif.Props.StftInvariance
import Verif.Model.OrdinaryKriging
import Verif.Lemmas.Spherical
import Verif.Lemmas.KrigingSystem
import Verif.Props.OrdinaryKriging
import Verif.Props.KrigingExact
import Verif.Props.KrigingSpherical
import Verif.Props.ItuSpline
import Verif.Props.RoundedRain
import Verif.Props.FrequencyPipelines
import Verif.Props.RoundedIdw
import Verif.Props.StatsShape
import Verif.Props.RoundedRainStats
import Verif.Props.RoundedRate
import Verif.Props.RoundedWaa
import Verif.Props.RoundedMinMax
import Verif.Props.MinMaxOffset
import Verif.Props.RainMap
import Verif.Props.RateClose
import Verif.Props.RoundedRetrieval
import Verif.Props.Stability
import Verif.Props.RoundedBaseline
import Verif.Props.RoundedChain
import Verif.Props.Pieces
import Verif.Props.TemporalTwice
import Verif.Props.BlackoutPieces
import Verif.Props.MapRecovery
import Verif.Props.RecoveryPastorek
import Verif.Props.ClassifierPieces
import Verif.Props.MinMaxRecovery
import Verif.Props.NearbyDetects
import Verif.Props.Api
import Verif.Props.ApiRain
import Verif.Props.Labels
import Verif.Props.NearbyRainClose
import Verif.Props.NearbyF
import Verif.Props.DatasetRecovery
import Verif.Props.RoundedMinMaxRain
import Verif.Props.Windows
import Verif.Props.CoverageDistance
import Verif.Props.ReaderTimes
import Verif.Props.ScoreBounds
import Verif.Props.RoundedPastorek
import Verif.Props.StftDetect
import Verif.Props.LinearChain
import Verif.Props.LevelsToRain
import Verif.Props.DoubleMap
import Verif.Props.IntGrid
import Verif.Props.NearbyInt
import Verif.Props.TfSingle
import Verif.Props.ApiSucceeds
import Verif.Props.WrongFlags
import Verif.Conformance
import Verif.Props.LookupLin
import Verif.Props.RoundedLookup
import Verif.Props.LookupAccuracy
import Verif.Props.LookupGrid
import Verif.Props.LookupChain
import Verif.Props.LookupChainAvg
import Verif.Props.RainScores
import Verif.Props.Debye
import Verif.Props.Gaps
import Verif.Props.StftErrors
import Verif.Props.GapsDoubles
import Verif.Props.GapScores
import Verif.Props.TfIndices
import Verif.Props.TfMerge
import Verif.Props.GapScoresDoubles
import Verif.Props.RetrievalErrors
import Verif.Props.GapMap
import Verif.Props.GapMapDoubles
import Verif.Props.BlackoutRecord
import Verif.Model.RollingStd
import Verif.Props.RollingStdRain
import Verif.Props.RollingStdDoubles
import Verif.Model.Preprocess
import Verif.Props.PreprocessRain
import Verif.Model.HourlyMap
import Verif.Props.HourlyMap
import Verif.Model.NearbyWorkflow
import Verif.Props.NearbyWorkflow
import Verif.Props.PreprocessOrder
