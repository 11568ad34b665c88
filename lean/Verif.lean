import Verif.Props.Voting
import Verif.Props.Tmr
import Verif.Props.Crc
import Verif.Props.EnhancedTmr
import Verif.Props.SpaceTmr
import Verif.Props.HealthTmr
import Verif.Props.ApproximateTmr
import Verif.Props.TemporalRedundancy
import Verif.Props.Checkpoint
import Verif.Props.StuckBit
import Verif.Props.FixedContainers
import Verif.Props.StaticAllocator
import Verif.Props.FixedPoint
import Verif.Props.MathOps
import Verif.Props.AlignedMemory
import Verif.Props.GaloisField
import Verif.Props.ReedSolomon
import Verif.Props.Multibit
import Verif.Props.MultibitRs
import Verif.Props.Scrubber
import Verif.Props.MappedAllocator
import Verif.Props.ErrorTracker
import Verif.Props.ErrorResult
import Verif.Props.AdaptiveFramework
import Verif.Props.AdaptiveProtection
import Verif.Props.MultibitObject
import Verif.Props.UnifiedMemory
import Verif.Props.UnifiedProtection
import Verif.Props.UnifiedPtr
import Verif.Props.MonitoredTmr
import Verif.Props.Strategies
import Verif.Props.StrategyPolicy
import Verif.Props.MonitoredTmrStats
import Verif.Props.FaultTools
import Verif.Props.ProtectionTechniques
import Verif.Props.ProtectedNetwork
import Verif.Props.BasicTmr
import Verif.Props.PhysicsDriven
import Verif.Props.PhysicsScales
import Verif.Props.PhysicsSystem
import Verif.Props.ConvLayer
import Verif.Props.ScrubThread
import Verif.Props.PowerAware
import Verif.Props.PowerAware2
import Verif.Props.Diversity
import Verif.Props.Diversity2
import Verif.Props.ErrorLookup
import Verif.Props.Logger
import Verif.Props.HwAccel
import Verif.Props.ErrorPredictor
import Verif.Props.ResidualNet
import Verif.Props.ResidualNet2
import Verif.Props.RadEnvironment
import Verif.Props.RadEnvironment2
import Verif.Props.ArchTester
import Verif.Props.ArchTester2
import Verif.Props.AutoSearch
import Verif.Props.AutoSearch2
import Verif.Props.AutoSearch3
import Verif.Props.RadTraining
import Verif.Props.RadTraining2
import Verif.Props.SpaceMission
import Verif.Props.Autoencoder
import Verif.Props.Autoencoder2
import Verif.Props.RadSimulator
import Verif.Props.MissionSim
import Verif.Props.QuantumField
import Verif.Props.QuantumPhysics
import Verif.Props.QuantumRadiation
import Verif.Props.NasaProtocol
import Verif.Props.PhysicsSim
import Verif.Props.UpsetTmr
import Verif.Props.MissionProfile
import Verif.Props.Hardening
import Verif.Props.Topology
import Verif.Props.LayerPolicy
import Verif.Props.FineTuning
import Verif.Props.QuantumIntegration
import Verif.Props.CustomDefense
import Verif.Props.CrossSection
import Verif.Props.ValidationTools
import Verif.Props.NeuralAdaptive
import Verif.Props.Benchmark
import Verif.Props.NasaRunner
import Verif.Props.LetSimulator
import Verif.Props.PythonDefense
import Verif.Props.TestRs
import Verif.Props.PyCodec
import Verif.Props.PyMethods
import Verif.Props.RsTests
import Verif.Props.Materials
import Verif.Props.Facade
import Verif.Props.MonteCarlo
import Verif.Props.Visualizer
import Verif.Props.Industry
import Verif.Props.MissionValidation
import Verif.Props.EnhancementComparison
import Verif.Props.StressTest
import Verif.Props.RadStress
import Verif.Props.EnhancedMonteCarlo
import Verif.Props.MissionSimTest
import Verif.Props.SimpleMonteCarlo
import Verif.Props.TmrDemo
import Verif.Props.NeuralMission
import Verif.Props.SpaceValidation
import Verif.Props.SystematicFault
import Verif.Props.RealisticSpace
import Verif.Props.LeoMission
import Verif.Props.ExtremeStress
import Verif.Props.MissionCritical
import Verif.Props.UnitTests
import Verif.Props.MaterialPhysics
import Verif.Props.Ieee754Test
import Verif.Props.MissionDemo
import Verif.Props.ModelAccuracy
import Verif.Props.FrameworkVerif
import Verif.Props.EnhancedTmrTest
import Verif.Props.VoterDemos
import Verif.Props.NetValidation
import Verif.Props.RsDemos
import Verif.Props.SimpleNN
import Verif.Props.ExampleDetails
