import Verif.Basic
import Verif.Model.Libphysica
import Verif.Model.Nucleus
import Verif.Model.Particle
import Verif.Spec.Particle
import Verif.Lemmas.Particle
import Verif.Props.Particle
import Verif.Model.Angles
import Verif.Spec.CrossSections
import Verif.Lemmas.CrossSections
import Verif.Lemmas.Angles
import Verif.Props.CrossSections
import Verif.Props.Angles
import Verif.Model.Kinematics
import Verif.Props.Kinematics
import Verif.Model.Vector
import Verif.Model.Astronomy
import Verif.Spec.Calendar
import Verif.Props.Astronomy
import Verif.Model.Halo
import Verif.Spec.Halo
import Verif.Lemmas.Halo
import Verif.Props.Halo
import Verif.Lemmas.Sphere
import Verif.Props.HaloAngular
import Verif.Model.HaloPP
import Verif.Lemmas.HaloPP
import Verif.Props.HaloPP
import Verif.Model.Distribution
import Verif.Props.Distribution
import Verif.Model.Detector
import Verif.Spec.Detector
import Verif.Spec.Poisson
import Verif.Lemmas.Detector
import Verif.Lemmas.Poisson
import Verif.Props.Detector
import Verif.Props.Statistics
import Verif.Lemmas.Limits
import Verif.Lemmas.LimitSearch
import Verif.Props.Limits
import Verif.Props.EnergyBins
import Verif.Model.NuclearData
import Verif.Model.NuclearTable
import Verif.Spec.NuclearData
import Verif.Props.NuclearData
import Verif.Model.NuclearText
import Verif.Spec.NuclearText
import Verif.Lemmas.NuclearText
import Verif.Props.NuclearText
import Verif.Model.NuclearDetector
import Verif.Props.ParticleSettings
import Verif.Spec.NuclearDetector
import Verif.Lemmas.NuclearDetector
import Verif.Lemmas.NuclearRange
import Verif.Props.NuclearDetector
import Verif.Props.NuclearRange
import Verif.Model.Crystal
import Verif.Spec.Crystal
import Verif.Lemmas.Crystal
import Verif.Props.Crystal
import Verif.Model.Atom
import Verif.Model.Ionization
import Verif.Spec.Ionization
import Verif.Lemmas.Ionization
import Verif.Props.Atom
import Verif.Props.Ionization
import Verif.Props.IonizationRates
import Verif.Props.IonizationSample
import Verif.Spec.MaximumGap
import Verif.Lemmas.MaximumGap
import Verif.Props.MaximumGap
import Verif.Props.Interface
import Verif.Props.Configuration
import Verif.Props.Files
import Verif.Spec.Experiments
import Verif.Lemmas.Experiments
import Verif.Lemmas.ExperimentsBuilt
import Verif.Lemmas.NoUB
import Verif.Props.Experiments
import Verif.Props.ExperimentsSample
import Verif.Props.ExperimentsDefined
import Verif.Spec.Configured
import Verif.Props.Configured
import Verif.Props.ConfiguredTargets
import Verif.Model.AverageVelocity
import Verif.Lemmas.AverageVelocity
import Verif.Props.AverageVelocity
import Verif.Model.Export
import Verif.Props.Export
import Verif.Lemmas.Configured
import Verif.Model.Main
import Verif.Spec.Main
import Verif.Lemmas.Main
import Verif.Props.Main
import Verif.Spec.EtaBounds
import Verif.Lemmas.EtaBounds
import Verif.Props.EtaBounds
import Verif.Spec.Signals
import Verif.Props.Signals
import Verif.Spec.Runs
import Verif.Props.Runs
import Verif.Props.Fraction
import Verif.Model.BaseParticle
import Verif.Lemmas.BaseParticle
import Verif.Props.BaseParticle
import Verif.Spec.Histories
import Verif.Props.Histories
import Verif.Spec.Exposure
import Verif.Lemmas.Exposure
import Verif.Props.Exposure
import Verif.Model.Summary
import Verif.Spec.Summary
import Verif.Lemmas.Summary
import Verif.Props.Summary
import Verif.Props.SummaryContent
import Verif.Model.SingleIsotope
import Verif.Spec.SingleIsotope
import Verif.Props.SingleIsotope
import Verif.Model.Defaults
import Verif.Props.Defaults
import Verif.Props.HaloGuards
import Verif.Props.EtaAccuracy
import Verif.Model.Examples
import Verif.Spec.Examples
import Verif.Props.Examples
import Verif.Spec.LimitTrends
import Verif.Props.LimitTrends
import Verif.Props.LimitTrendsBinned
import Verif.Props.BaseIonization
import Verif.Spec.Configuration
import Verif.Spec.Files
import Verif.Lemmas.Configuration
import Verif.Lemmas.Files
import Verif.Model.Configuration
import Verif.Model.Experiments
import Verif.Spec.Precession
import Verif.Props.Precession
import Verif.Model.Rounding
import Verif.Spec.Rounding
import Verif.Lemmas.Rounding
import Verif.Props.Rounding
import Verif.Spec.Composition
import Verif.Lemmas.Composition
import Verif.Props.Composition
import Verif.Props.CompositionIonization
import Verif.Props.HaloPPConstructors
import Verif.Props.Windows
import Verif.Spec.Mixture
import Verif.Props.Mixture
import Verif.Props.MixtureRange
import Verif.Props.MixtureSample
import Verif.Props.MixtureIonization
import Verif.Props.WindowsResolution
import Verif.Lemmas.GapTrend
import Verif.Spec.LimitTolerance
import Verif.Props.LimitTolerance
import Verif.Props.LimitComparison
import Verif.Spec.Density
import Verif.Lemmas.Density
import Verif.Props.Density
import Verif.Lemmas.AnnualModulation
import Verif.Props.AnnualModulation
import Verif.Spec.Reach
import Verif.Props.Reach
import Verif.Spec.FallingSpectra
import Verif.Props.FallingSpectra
import Verif.Spec.Cancellation
import Verif.Props.Cancellation
import Verif.Model.ManualConfiguration
import Verif.Spec.ManualConfiguration
import Verif.Props.ManualConfiguration
import Verif.Spec.ForceRange
import Verif.Props.ForceRange
import Verif.Spec.Isotropy
import Verif.Lemmas.Turn
import Verif.Props.Isotropy
import Verif.Spec.Masses
import Verif.Props.Masses
import Verif.Props.MassesElectron
import Verif.Lemmas.ScaledRates
import Verif.Props.MassesMigdal
import Verif.Spec.Pieces
import Verif.Props.Pieces
import Verif.Model.Terminal
import Verif.Spec.Terminal
import Verif.Props.Terminal
import Verif.Spec.Dimension
import Verif.Lemmas.Dimension
import Verif.Lemmas.DimensionNuclear
import Verif.Lemmas.DimensionDetector
import Verif.Lemmas.DimensionElectrons
import Verif.Props.Dimension
import Verif.Model.Warnings
import Verif.Spec.Warnings
import Verif.Props.Warnings
import Verif.Spec.DimensionProgram
import Verif.Lemmas.DimensionExperiments
import Verif.Props.DimensionProgram
import Verif.Spec.BestFit
import Verif.Props.BestFit
import Verif.Spec.MoreBins
import Verif.Props.MoreBins
import Verif.Spec.MissingFiles
import Verif.Lemmas.MissingFiles
import Verif.Props.MissingFiles
import Verif.Spec.Coverage
import Verif.Props.Coverage
import Verif.Spec.Session
import Verif.Lemmas.Session
import Verif.Props.Session
import Verif.Lemmas.HeavyMasses
import Verif.Props.HeavyMasses
import Verif.Spec.Spin
import Verif.Props.Spin
import Verif.Props.HeavyElectrons
import Verif.Spec.Quadrature
import Verif.Lemmas.Quadrature
import Verif.Props.Quadrature
import Verif.Props.QuadratureDefined
import Verif.Spec.Sampling
import Verif.Lemmas.Sampling
import Verif.Lemmas.SampledAngles
import Verif.Props.Sampling
import Verif.Spec.Continuity
import Verif.Lemmas.Continuity
import Verif.Props.Continuity
import Verif.Lemmas.ContinuousEvents
import Verif.Props.ContinuousEvents
import Verif.Spec.HaloComparison
import Verif.Lemmas.HaloComparison
import Verif.Props.HaloComparison
import Verif.Props.HaloCurves
import Verif.Spec.HaloMixture
import Verif.Lemmas.HaloMixture
import Verif.Props.HaloMixture
import Verif.Props.HaloMixtureSamples
import Verif.Lemmas.Resolution
import Verif.Props.Resolution
import Verif.Props.ResolutionBlind
import Verif.Spec.PointNuclei
import Verif.Props.PointNuclei
import Verif.Props.ForceRangeResolution
import Verif.Spec.LowMass
import Verif.Props.LowMassElectrons
import Verif.Spec.Targets
import Verif.Props.Targets
