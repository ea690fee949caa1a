import Verif.Base
import Verif.Model.Battery
import Verif.Spec.Battery
import Verif.Props.Battery
import Verif.Model.HeatPump
import Verif.Model.FixedOrder
import Verif.Spec.FixedOrder
import Verif.Lemmas.FixedOrder
import Verif.Lemmas.FixedOrderInv
import Verif.Lemmas.FixedOrderSoc
import Verif.Props.FixedOrder
import Verif.Props.HeatPump
import Verif.Model.Checks
import Verif.Model.Run
import Verif.Props.Checks
import Verif.Spec.Run
import Verif.Lemmas.Run
import Verif.Props.Run
import Verif.Model.Enums
import Verif.Model.AuxHeater
import Verif.Model.Regression
import Verif.Model.HeatPumpConfig
import Verif.Model.Lorentz
import Verif.Spec.HeatPumpConfig
import Verif.Lemmas.HeatPumpConfig
import Verif.Props.HeatPumpConfig
import Verif.Props.Regression
import Verif.Props.Lorentz
import Verif.Props.Enums
import Verif.Model.Tank
import Verif.Model.TankGeometry
import Verif.Spec.Tank
import Verif.Lemmas.Tank
import Verif.Props.Tank
import Verif.Props.TankRun
import Verif.Props.TankStart
import Verif.Props.TankGeometry
import Verif.Model.Grid
import Verif.Model.Findhorn
import Verif.Spec.Grid
import Verif.Lemmas.ListM
import Verif.Lemmas.Grid
import Verif.Props.Grid
import Verif.Props.Findhorn
import Verif.Model.Para
import Verif.Props.Para
import Verif.Model.Kpi
import Verif.Spec.Kpi
import Verif.Lemmas.Kpi
import Verif.Props.Kpi
import Verif.Props.KpiShares
import Verif.Props.KpiNoDemand
import Verif.Props.TankDispatch
import Verif.Model.OutputProcess
import Verif.Spec.OutputProcess
import Verif.Lemmas.OutputProcess
import Verif.Props.OutputProcess
import Verif.Model.Files
import Verif.Props.Files
import Verif.Model.Main
import Verif.Lemmas.Main
import Verif.Props.Main
import Verif.Model.Mpc
import Verif.Lemmas.Mpc
import Verif.Props.Mpc
import Verif.Props.MpcBalance
import Verif.Lemmas.MpcTank
import Verif.Props.MpcTank
import Verif.Model.Demand
import Verif.Model.Renewables
import Verif.Props.Demand
import Verif.Props.Renewables
import Verif.Props.KpiMore
import Verif.Model.Figures
import Verif.Spec.Figures
import Verif.Lemmas.Figures
import Verif.Props.Figures
import Verif.Model.KpiTables
import Verif.Props.KpiTables
import Verif.Model.Frame
import Verif.Model.Workbook
import Verif.Model.Inputs
import Verif.Model.Simulation
import Verif.Spec.Workbook
import Verif.Lemmas.Frame
import Verif.Lemmas.Workbook
import Verif.Lemmas.Simulation
import Verif.Lemmas.TestData
import Verif.Lemmas.Objects
import Verif.Lemmas.Template
import Verif.Props.Workbook
import Verif.Props.TestRows
import Verif.Props.Template
import Verif.Lemmas.Total
import Verif.Lemmas.Filled
import Verif.Lemmas.FilledHp
import Verif.Lemmas.Needed
import Verif.Props.Objects
import Verif.Props.Start
import Verif.Lemmas.Sample
import Verif.Model.Programme
import Verif.Lemmas.Programme
import Verif.Spec.Programme
import Verif.Props.RunCosts
import Verif.Props.Programme
import Verif.Props.Completes
import Verif.Props.SampleObjects
import Verif.Props.SampleLayout
import Verif.Spec.Weather
import Verif.Props.Weather
import Verif.Spec.Depends
import Verif.Props.Depends
import Verif.Props.Ignored
import Verif.Props.SampleIgnored
import Verif.Spec.Power
import Verif.Props.Power
import Verif.Props.SamplePower
import Verif.Props.Gaps
import Verif.Lemmas.Predictive
import Verif.Props.Predictive
import Verif.Props.SamplePredictive
import Verif.Props.IgnoredStudy
import Verif.Model.Report
import Verif.Lemmas.Report
import Verif.Lemmas.ReportStage
import Verif.Props.Report
import Verif.Lemmas.IgnoredReport
import Verif.Props.IgnoredReport
import Verif.Props.Words
import Verif.Props.TankIdle
import Verif.Props.UnusedStore
import Verif.Spec.Compare
import Verif.Lemmas.NoStores
import Verif.Props.MoreGeneration
import Verif.Props.Prices
import Verif.Props.Scaling
import Verif.Model.Rounding
import Verif.Model.Rounded
import Verif.Spec.Rounding
import Verif.Lemmas.Rounding
import Verif.Lemmas.Rounded
import Verif.Lemmas.RoundedLoop
import Verif.Lemmas.RoundedRun
import Verif.Lemmas.RoundedFloats
import Verif.Props.Rounded
import Verif.Model.MpcPlan
import Verif.Spec.MpcPlan
import Verif.Props.MpcPlan
import Verif.Lemmas.Ledger
import Verif.Spec.BothControllers
import Verif.Props.BothControllers
import Verif.Lemmas.Polyhedron
import Verif.Props.CheapestPlan
import Verif.Props.BetterPlan
import Verif.Props.MpcBattery
import Verif.Spec.LargerBattery
import Verif.Lemmas.LargerBattery
import Verif.Props.LargerBattery
import Verif.Model.Logging
import Verif.Spec.Logging
import Verif.Lemmas.Logging
import Verif.Props.Logging
import Verif.Props.LoggingDefault
import Verif.Model.DemandFiles
import Verif.Props.DemandFiles
import Verif.Spec.BiggerPump
import Verif.Lemmas.BiggerPump
import Verif.Props.BiggerPump
import Verif.Spec.PumpStudy
import Verif.Props.PumpStudy
import Verif.Props.SamplePumpStudy
import Verif.Props.OrderText
import Verif.Model.Disk
import Verif.Lemmas.Disk
import Verif.Lemmas.DiskRun
import Verif.Lemmas.DiskLoop
import Verif.Lemmas.DiskBody
import Verif.Props.Disk
import Verif.Props.DiskRun
import Verif.Model.DiskTwo
import Verif.Lemmas.DiskTwo
import Verif.Lemmas.DiskMachine
import Verif.Lemmas.DiskSchedule
import Verif.Lemmas.DiskApart
import Verif.Lemmas.DiskEnds
import Verif.Lemmas.DiskMoments
import Verif.Lemmas.DiskLate
import Verif.Props.DiskTwo
import Verif.Model.Together
import Verif.Lemmas.Together
import Verif.Lemmas.TogetherLocal
import Verif.Lemmas.TogetherAlone
import Verif.Lemmas.TogetherPool
import Verif.Lemmas.TogetherEnds
import Verif.Lemmas.TogetherSame
import Verif.Props.Together
import Verif.Props.SameFolder
import Verif.Model.RoundedKpi
import Verif.Model.RoundedLevelised
import Verif.Lemmas.RoundedKpi
import Verif.Props.RoundedKpi
import Verif.Props.RoundedShares
import Verif.Props.RoundedSubsidy
import Verif.Props.RoundedLevelised
import Verif.Props.RoundedEnergyCost
import Verif.Props.RoundedCostOrder
import Verif.Props.RoundedPumpShare
import Verif.Props.StoreStops
import Verif.Props.StudyStops
import Verif.Spec.Serves
import Verif.Lemmas.TankServes
import Verif.Props.StoreServes
import Verif.Props.StoreStudy
import Verif.Model.TimeIndex
import Verif.Spec.TimeIndex
import Verif.Props.TimeIndex
import Verif.Model.TankSolver
import Verif.Spec.TankSolver
import Verif.Lemmas.TankSolver
import Verif.Props.TankSolver
import Verif.Spec.StoreBalance
import Verif.Lemmas.StoreBalance
import Verif.Props.StoreBalance
import Verif.Props.BatteryRun
import Verif.Props.MpcStore
import Verif.Props.PredictiveStore
import Verif.Props.PerfectPlan
import Verif.Spec.RunBalance
import Verif.Props.RunBalance
import Verif.Props.SupplyStudy
import Verif.Spec.PlanBalance
import Verif.Props.PlanBalance
import Verif.Props.PlanStudy
import Verif.Spec.OtherSheets
import Verif.Props.OtherSheets
import Verif.Props.SampleSheets
import Verif.Props.OtherSettings
import Verif.Props.SampleSettings
import Verif.Props.SheetTables
import Verif.Props.SampleTables
import Verif.Spec.LowerDemand
import Verif.Lemmas.LowerDemand
import Verif.Props.LowerDemand
import Verif.Spec.LowerDemandSheet
import Verif.Props.LowerDemandSheet
import Verif.Props.LowerDemandTables
import Verif.Props.Retrofit
import Verif.Props.GridServices
