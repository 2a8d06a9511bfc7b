import Verif.Props.Param
import Verif.Props.Selection
import Verif.Props.SelectionReal
import Verif.Props.Sampler
import Verif.Props.Distance
import Verif.Props.DistanceReal
import Verif.Props.Survey
import Verif.Props.SurveyNoise
import Verif.Props.SurveyTruth
import Verif.Props.SurveyState
import Verif.Props.Reproducible
import Verif.Props.SimVar
import Verif.Props.Population
import Verif.Props.Stan
import Verif.Props.SubPopulation
import Verif.Props.Synth
import Verif.Props.SynthDisplay
import Verif.Props.Settings
import Verif.Props.ModelSpace
import Verif.Props.Graph
import Verif.Props.Logging
import Verif.Props.Hdf5
import Verif.Props.PopulationFile
import Verif.Props.Config
import Verif.Props.ConfigMore
import Verif.Props.ConfigOrder
import Verif.Props.ConfigRead
import Verif.Props.Builtins
import Verif.Props.Declarations
import Verif.Props.PowerLaw
import Verif.Props.Luminosity
import Verif.Props.Truncated
import Verif.Props.Sky
import Verif.Props.SkyDraw
import Verif.Props.Cosmology
import Verif.Props.Populations
import Verif.Props.SurveySources
import Verif.Props.Setters
import Verif.Props.AuxSamplers
import Verif.Props.SelectionReturns
import Verif.Props.SurveyReturns
import Verif.Props.Failure
import Verif.Props.ExpectedCount
import Verif.Props.Display
import Verif.Props.RebuildExample
import Verif.Props.ReadyMade
import Verif.Props.ReadyMadeClasses
import Verif.Props.Detected
import Verif.Props.DetectedExample
import Verif.Props.Law
import Verif.Props.LawClasses
import Verif.Props.LawNormalized
import Verif.Props.LawSky
import Verif.Props.LawDetect
import Verif.Props.LawSurvey
import Verif.Props.LawThinning
import Verif.Props.LawSurveyExample
import Verif.Model.LumClasses
import Verif.Spec.LumLaw
import Verif.Lemmas.LumLaw
import Verif.Props.LawLum
import Verif.Props.LawCounts
import Verif.Props.LawEuclid
import Verif.Props.LawLumExample
import Verif.Spec.AuxLaw
import Verif.Props.LawAux
import Verif.Props.LawAuxExample
import Verif.Props.LawTrunc10
import Verif.Spec.Attached
import Verif.Lemmas.SurveyAux
import Verif.Lemmas.LoneDraw
import Verif.Props.LawAttached
import Verif.Props.LawAttachedCounts
import Verif.Props.LawAttachedBuiltin
import Verif.Props.LawAttachedChoice
import Verif.Props.LawAttachedExample
import Verif.Model.Subclass
import Verif.Spec.Subclass
import Verif.Props.Subclass
import Verif.Model.Version
import Verif.Spec.Version
import Verif.Props.Version
import Verif.Model.UserClass
import Verif.Spec.UserClass
import Verif.Props.UserClass
import Verif.Model.DemoSampler
import Verif.Spec.Troupe
import Verif.Spec.Family
import Verif.Lemmas.SurveyCore
import Verif.Lemmas.TroupeAux
import Verif.Lemmas.FamilyDraw
import Verif.Props.LawTroupe
import Verif.Props.LawFamily
import Verif.Props.LawFamilyParts
import Verif.Props.LawFamilyDemo
import Verif.Props.DemoFailures
import Verif.Props.LawFamilyExample
import Verif.Props.LawTroupeCounts
import Verif.Spec.FileFormat
import Verif.Props.FileErrors
import Verif.Spec.ConfigFaults
import Verif.Props.ConfigErrors
import Verif.Model.BuiltinClasses
import Verif.Props.ConfigLaw
import Verif.Props.ConfigLawExample
import Verif.Props.ConfigNoise
import Verif.Lemmas.Marks
import Verif.Props.LawKnown
import Verif.Props.LawKnownExample
import Verif.Model.Derived
import Verif.Props.Derived
import Verif.Lemmas.CosmologySlope
import Verif.Spec.FlatUniverse
import Verif.Props.CosmologyExact
import Verif.Props.CosmologyCount
import Verif.Model.SynthFile
import Verif.Props.SynthFile
import Verif.Props.SynthRewrite
import Verif.Lemmas.ProcessSums
import Verif.Lemmas.ProcessSquares
import Verif.Lemmas.ProcessAppend
import Verif.Lemmas.Files
import Verif.Lemmas.ProcessAverage
import Verif.Lemmas.TotalPositivity
import Verif.Props.Malmquist
import Verif.Props.Vmax
import Verif.Props.VoverVmax
import Verif.Props.Eddington
import Verif.Props.FluxBias
import Verif.Props.Correlation
import Verif.Model.VersionRun
import Verif.Props.VersionRun
import Verif.Props.Weights
import Verif.Props.MalmquistMeans
import Verif.Props.Unrelated
import Verif.Props.Files
import Verif.Props.Combined
import Verif.Props.WeightsAll
import Verif.Model.LogText
import Verif.Props.LogText
import Verif.Model.SoftDraw
import Verif.Props.SoftDraw
import Verif.Lemmas.Histogram
import Verif.Props.Histogram
import Verif.Props.SamplerNames
import Verif.Props.ConfigHistogram
import Verif.Props.ConfigHistogramNoise
import Verif.Props.ConfigHistogramFlux
