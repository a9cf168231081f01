import Verif.Props.State
import Verif.Props.Scheduler
import Verif.Props.Transform
import Verif.Props.Limiters
import Verif.Props.ParOps
import Verif.Props.ParPositivity
import Verif.Props.ParMomentum
import Verif.Props.ParConduction
import Verif.Props.PerpOps
import Verif.Props.ExB
import Verif.Props.Reactions
import Verif.Props.AdasTable
import Verif.Props.Collisions
import Verif.Props.CollisionNaming
import Verif.Props.CollisionExamples
import Verif.Props.Closures
import Verif.Props.ReactionAmounts
import Verif.Props.Sheath
import Verif.Props.SheathPhysics
import Verif.Props.SheathCurrent
import Verif.Props.SheathMirror
import Verif.Props.SheathExamples
import Verif.Props.SheathSimple
import Verif.Props.SheathSimplePhysics
import Verif.Props.SheathSimpleCurrent
import Verif.Props.SheathSimpleExamples
import Verif.Props.SheathInsulating
import Verif.Props.NoFlow
import Verif.Props.Recycling
import Verif.Props.RecyclingPhysics
import Verif.Props.RecyclingExamples
import Verif.Props.NeutralBoundary
import Verif.Props.Radiation
import Verif.Props.SheathClosure
import Verif.Props.ScaleDerivs
import Verif.Props.PIControllers
import Verif.Props.Detachment
import Verif.Props.Metric
import Verif.Props.PhiBoundary
import Verif.Props.Classical
import Verif.Props.Electromagnetic
import Verif.Props.NeutralMixed
import Verif.Props.IonViscosity
import Verif.Props.SimpleReactions
import Verif.Props.ExBPoloidal
import Verif.Props.DensityEquation
import Verif.Props.PressureEquation
import Verif.Props.MomentumEquation
import Verif.Props.AnomalousDiffusion
import Verif.Props.NeutralDiffusion
import Verif.Props.ParallelTransport
import Verif.Props.Drifts
import Verif.Props.DriftBalance
import Verif.Props.VorticityEquation
import Verif.Props.RelaxPotential
import Verif.Props.DriftExamples
import Verif.Props.EnergyEquation
import Verif.Props.Preconditioning
import Verif.Props.FullVelocity
import Verif.Props.Registry
import Verif.Props.Diagnostics
import Verif.Props.Units
import Verif.Props.UnitsCollisions
import Verif.Props.UnitsFloors
import Verif.Props.NeutralGas
import Verif.Props.Nuclei
import Verif.Props.NucleiExamples
import Verif.Props.Restart
import Verif.Props.OutputUnits
import Verif.Props.Sharing
import Verif.Props.UnitsTransport
import Verif.Props.InputSources
import Verif.Props.AverageEdge
import Verif.Props.UnitsSheath
import Verif.Lemmas.Access
import Verif.Lemmas.AccessTac
import Verif.Props.ComponentOrder
import Verif.Props.ComponentFootprints
import Verif.Lemmas.Marks
import Verif.Props.ComponentOrderUses
import Verif.Props.ClosedPlasma
import Verif.Props.ClosedPlasmaExamples
import Verif.Props.Evaluations
import Verif.Lemmas.LogBounds
import Verif.Model.AtomicFits
import Verif.Model.NeutralPrecon
import Verif.Model.AdasFile
import Verif.Model.AdasData
import Verif.Props.Curves
import Verif.Props.RateFits
import Verif.Props.AdasShipped
import Verif.Props.RadialWalls
import Verif.Props.RadialWallsExamples
import Verif.Props.HyperDiffusion
import Verif.Props.AmjuelFits
import Verif.Props.ThermalForces
import Verif.Props.CollisionFrequencies
import Verif.Props.HeatConductivity
import Verif.Props.GalileanInvariance
import Verif.Props.Direction
import Verif.Props.DirectionPerp
import Verif.Props.DirectionPoloidal
import Verif.Props.Viscosity
import Verif.Props.Friction
import Verif.Props.Entropy
import Verif.Props.ConductionEntropy
import Verif.Props.Ohm
import Verif.Props.ThermalWork
import Verif.Props.CxEntropy
import Verif.Props.CollisionExtremes
import Verif.Props.ParSmoothing
import Verif.Props.VorticityDamping
import Verif.Props.SheathTransmission
import Verif.Props.SheathHeat
import Verif.Props.SheathBudget
import Verif.Props.SheathCooling
import Verif.Props.SheathHeatBudget
