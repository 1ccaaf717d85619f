import Verif.Model.Arm2D
import Verif.Model.BasisFunctions
import Verif.Model.ContextualPlots
import Verif.Model.CppApproximators
import Verif.Model.CppBasisFunctions
import Verif.Model.CppDmp
import Verif.Model.CppJson
import Verif.Model.CppStates
import Verif.Model.CppSystems
import Verif.Model.CppTrajectory
import Verif.Model.DemoBbo
import Verif.Model.DemoDmp
import Verif.Model.DemoTraining
import Verif.Model.Dmp
import Verif.Model.DmpContextual
import Verif.Model.DmpDynParams
import Verif.Model.DmpPlots
import Verif.Model.DmpWithSchedules
import Verif.Model.DynamicalSystem
import Verif.Model.Ellipse
import Verif.Model.Exploration
import Verif.Model.Exponential
import Verif.Model.FaPlots
import Verif.Model.ForceField
import Verif.Model.FunctionApproximator
import Verif.Model.IntegrationTests
import Verif.Model.LowPass
import Verif.Model.Optimization
import Verif.Model.PlotOptimization
import Verif.Model.Py
import Verif.Model.Richards
import Verif.Model.RobotDemo
import Verif.Model.RobotExploration
import Verif.Model.RobotTrajectories
import Verif.Model.RobotWorkflow
import Verif.Model.RolloutPlots
import Verif.Model.Session
import Verif.Model.SessionPlots
import Verif.Model.Sigmoid
import Verif.Model.SpringDamper
import Verif.Model.TaskSolverDmp
import Verif.Model.TaskViapoint
import Verif.Model.ThrowBall
import Verif.Model.TimeSystem
import Verif.Model.TrainScript
import Verif.Model.Trajectory
import Verif.Model.Updaters
import Verif.Model.Vec
import Verif.Proofs.Converge
import Verif.Proofs.CppDmp
import Verif.Proofs.CppDmpRead
import Verif.Proofs.CppDmpRuns
import Verif.Proofs.CppJson
import Verif.Proofs.CppSteps
import Verif.Proofs.Digits
import Verif.Proofs.Dmp
import Verif.Proofs.DmpAnalytical
import Verif.Proofs.DmpCore
import Verif.Proofs.DmpDynParams
import Verif.Proofs.DmpKept
import Verif.Proofs.DmpMotion
import Verif.Proofs.DmpParts
import Verif.Proofs.DmpRest
import Verif.Proofs.DmpSetters
import Verif.Proofs.DmpStart
import Verif.Proofs.DmpTargets
import Verif.Proofs.DmpTrain
import Verif.Proofs.FaBound
import Verif.Proofs.FaSmooth
import Verif.Proofs.ForceField
import Verif.Proofs.ForceFieldRuns
import Verif.Proofs.Gaussians
import Verif.Proofs.Grid
import Verif.Proofs.Integration
import Verif.Proofs.IntegrationTests
import Verif.Proofs.Lists
import Verif.Proofs.Loop
import Verif.Proofs.LowPass
import Verif.Proofs.LowPassTime
import Verif.Proofs.MotionExists
import Verif.Proofs.Names
import Verif.Proofs.NumLimits
import Verif.Proofs.NumSteps
import Verif.Proofs.Optimization
import Verif.Proofs.ParamOverwrite
import Verif.Proofs.ParamVector
import Verif.Proofs.RobotWorkflow
import Verif.Proofs.Session
import Verif.Proofs.StepByStep
import Verif.Proofs.StepRelation
import Verif.Proofs.StepsConverge
import Verif.Proofs.Sub
import Verif.Proofs.SubClose
import Verif.Proofs.SubExact
import Verif.Proofs.SubMotion
import Verif.Proofs.SubSteps
import Verif.Proofs.Throw
import Verif.Proofs.ThrowCpp
import Verif.Proofs.ThrowPython
import Verif.Proofs.Tracking
import Verif.Proofs.TrainOutcome
import Verif.Proofs.TunableDmp
import Verif.Proofs.Vec
import Verif.Props.Approximators
import Verif.Props.Arm2D
import Verif.Props.Base
import Verif.Props.BasisFunctions
import Verif.Props.ContextualPlots
import Verif.Props.CppApproximators
import Verif.Props.CppBasisFunctions
import Verif.Props.CppConstructors
import Verif.Props.CppDmp
import Verif.Props.CppJson
import Verif.Props.CppJsonErrors
import Verif.Props.CppSpring
import Verif.Props.CppStates
import Verif.Props.CppSystems
import Verif.Props.CppTrajectory
import Verif.Props.CppTrajectoryOps
import Verif.Props.Decouple
import Verif.Props.DemoBbo
import Verif.Props.DemoDmp
import Verif.Props.DemoTraining
import Verif.Props.DmpClose
import Verif.Props.DmpCloseRun
import Verif.Props.DmpContextual
import Verif.Props.DmpConverges
import Verif.Props.DmpDecoupled
import Verif.Props.DmpDynParams
import Verif.Props.DmpExists
import Verif.Props.DmpInvariance
import Verif.Props.DmpLayout
import Verif.Props.DmpMotions
import Verif.Props.DmpParams
import Verif.Props.DmpPlots
import Verif.Props.DmpPure
import Verif.Props.DmpStartGoal
import Verif.Props.DmpSteps
import Verif.Props.DmpStepsBound
import Verif.Props.DmpStepsRates
import Verif.Props.DmpStepsRun
import Verif.Props.DmpTau
import Verif.Props.DmpTraining
import Verif.Props.DmpWithSchedules
import Verif.Props.Ellipse
import Verif.Props.Exploration
import Verif.Props.Exponential
import Verif.Props.FaPlots
import Verif.Props.ForceField
import Verif.Props.ForceFieldArrives
import Verif.Props.ForceFieldCases
import Verif.Props.ForceFieldCost
import Verif.Props.ForceFieldExamples
import Verif.Props.ForceFieldSolver
import Verif.Props.FromTraj
import Verif.Props.Integrate
import Verif.Props.IntegrationTests
import Verif.Props.LowPass
import Verif.Props.Optimization
import Verif.Props.PlotOptimization
import Verif.Props.Predictions
import Verif.Props.RaisesCpp
import Verif.Props.RaisesDmp
import Verif.Props.RaisesFa
import Verif.Props.RaisesOptim
import Verif.Props.RaisesSystems
import Verif.Props.RaisesTasks
import Verif.Props.RaisesTrajectory
import Verif.Props.RaisesVariants
import Verif.Props.Regression
import Verif.Props.Richards
import Verif.Props.RobotDemo
import Verif.Props.RobotExploration
import Verif.Props.RobotPlot
import Verif.Props.RobotTrajectories
import Verif.Props.RobotWorkflow
import Verif.Props.RolloutPlots
import Verif.Props.RungeKutta
import Verif.Props.Scaling
import Verif.Props.SchedulesParams
import Verif.Props.SessionCurve
import Verif.Props.SessionKeys
import Verif.Props.SessionMap
import Verif.Props.SessionPlots
import Verif.Props.SessionSave
import Verif.Props.SessionUpdates
import Verif.Props.Sigmoid
import Verif.Props.Spring
import Verif.Props.StepByStep
import Verif.Props.StepByStepDmp
import Verif.Props.StepCrash
import Verif.Props.StepEquals
import Verif.Props.TaskSolverDmp
import Verif.Props.TaskViapoint
import Verif.Props.ThrowBall
import Verif.Props.ThrowBallCost
import Verif.Props.ThrowBallCpp
import Verif.Props.Time
import Verif.Props.TrainDmp
import Verif.Props.TrainScript
import Verif.Props.TrainTypes
import Verif.Props.Trainable
import Verif.Props.TrajectoryCrop
import Verif.Props.TrajectoryFiles
import Verif.Props.TrajectoryGen
import Verif.Props.TrajectoryOps
import Verif.Props.TrajectoryShape
import Verif.Props.TrajectoryVia
import Verif.Props.Updates
import Verif.Props.Weights
import Verif.Spec.Arm
import Verif.Spec.Attributes
import Verif.Spec.Calculus
import Verif.Spec.ContextualPlots
import Verif.Spec.CppConstructors
import Verif.Spec.CppJson
import Verif.Spec.Demonstration
import Verif.Spec.DmpPlots
import Verif.Spec.Exploration
import Verif.Spec.FunctionApproximation
import Verif.Spec.Grid
import Verif.Spec.Integration
import Verif.Spec.LowPass
import Verif.Spec.Motion
import Verif.Spec.Optimisation
import Verif.Spec.Raises
import Verif.Spec.Schedules
import Verif.Spec.Session
import Verif.Spec.Steps
import Verif.Spec.StepsOn
import Verif.Spec.Throw
import Verif.Spec.TimeScaling
import Verif.Spec.Tracking
import Verif.Spec.Trainable
import Verif.Spec.Trajectory
import Verif.Spec.Viapoint
