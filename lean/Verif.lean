import Verif.Py.Loop
import Verif.Py.Num
import Verif.Model.Constants
import Verif.Model.Planck
import Verif.Spec.Radiance
import Verif.Lemmas.Radiance
import Verif.Lemmas.Opacity
import Verif.Lemmas.PlanckLoop
import Verif.Lemmas.Bright
import Verif.Lemmas.PlanckOut
import Verif.Props.Radiance
import Verif.Py.Err
import Verif.Model.Integration
import Verif.Spec.Integration
import Verif.Lemmas.Integration
import Verif.Props.Integration
import Verif.Model.Cloud
import Verif.Model.Vapor
import Verif.Model.RayTracing
import Verif.Props.Cloud
import Verif.Lemmas.RayTracing
import Verif.Spec.Ray
import Verif.Props.RayTracing
import Verif.Model.Simulator
import Verif.Lemmas.Simulator
import Verif.Lemmas.SimulatorCell
import Verif.Props.Simulator
import Verif.Props.Opacity
import Verif.Model.History
import Verif.Spec.History
import Verif.Props.Hidden
import Verif.Props.History
import Verif.Model.Construct
import Verif.Props.Construct
import Verif.Model.Utils
import Verif.Model.Reanalysis
import Verif.Props.Utils
import Verif.Model.Frequencies
import Verif.Props.Tables
import Verif.Model.Weighting
import Verif.Props.Weighting
import Verif.Model.Extrapolation
import Verif.Props.Extrapolation
import Verif.Props.ExtrapolationHeights
import Verif.Props.Atmosphere
import Verif.Model.Uncertainty
import Verif.Props.Uncertainty
import Verif.Py.Str
import Verif.Model.Igra
import Verif.Props.Igra
import Verif.Model.IgraTable
import Verif.Lemmas.IgraText
import Verif.Props.IgraTable
import Verif.Model.Wyoming
import Verif.Props.Wyoming
import Verif.Model.Endpoint
import Verif.Props.Endpoint
import Verif.Model.Plot
import Verif.Props.Plot
import Verif.Model.AbsLiquid
import Verif.Model.AbsNitrogen
import Verif.Lemmas.Liquid
import Verif.Props.LiquidNitrogen
import Verif.Model.TableBase
import Verif.Model.TablesWater
import Verif.Model.TablesOzone
import Verif.Model.TablesOxygen
import Verif.Model.LineLists
import Verif.Model.ErrorFn
import Verif.Model.AbsWater
import Verif.Spec.Water
import Verif.Lemmas.Water
import Verif.Lemmas.WaterTables
import Verif.Lemmas.WaterSum
import Verif.Props.Water
import Verif.Props.Continuum
import Verif.Model.AbsOxygen
import Verif.Lemmas.ErrorFn
import Verif.Lemmas.Oxygen
import Verif.Props.Oxygen
import Verif.Model.AbsOzone
import Verif.Lemmas.Ozone
import Verif.Props.Ozone
import Verif.Model.Shipped
import Verif.Lemmas.WaterSD
import Verif.Lemmas.Runs
import Verif.Props.Dispatch
import Verif.Props.EndToEnd
import Verif.Model.Parameters
import Verif.Lemmas.WaterParams
import Verif.Lemmas.OxygenParams
import Verif.Props.Parameters
import Verif.Props.OxygenParameters
import Verif.Spec.WaterFormula
import Verif.Lemmas.WaterFormula
import Verif.Props.Formula
import Verif.Spec.OxygenFormula
import Verif.Lemmas.OxygenFormula
import Verif.Props.OxygenFormula
import Verif.Props.ErrorFn
import Verif.Props.OzoneVoigt
import Verif.Model.TablesAtmosphere
import Verif.Model.Profiles
import Verif.Props.Profiles
import Verif.Props.Reanalysis
import Verif.Spec.CloudNitrogen
import Verif.Props.CloudNitrogen
import Verif.Props.Conversions
import Verif.Lemmas.Refine
import Verif.Props.Scaling
import Verif.Model.ParamAlias
import Verif.Lemmas.ParamAlias
import Verif.Props.ParamAlias
import Verif.Lemmas.TableRat
import Verif.Spec.LineTables
import Verif.Props.LineTables
import Verif.Props.SameModels
import Verif.Model.OxygenAlias
import Verif.Props.OxygenAlias
import Verif.Model.OzoneParams
import Verif.Props.OzoneParams
import Verif.Spec.Sensitivity
import Verif.Lemmas.PlanckShift
import Verif.Lemmas.OpacityError
import Verif.Props.Sensitivity
import Verif.Props.OpacityError
import Verif.Spec.Continuous
import Verif.Lemmas.Continuous
import Verif.Lemmas.AbsContinuous
import Verif.Lemmas.AbsSmooth
import Verif.Lemmas.OxygenLow
import Verif.Props.Discretisation
import Verif.Props.Opaque
import Verif.Props.SimulatorLimit
import Verif.Props.ShippedLimit
import Verif.Props.ShippedRun
import Verif.Spec.ClearSky
import Verif.Props.ClearSky
import Verif.Props.ClosedForm
import Verif.Spec.Sky
import Verif.Spec.AllGases
import Verif.Props.SkyForm
import Verif.Props.AllGases
import Verif.Props.FullSky
import Verif.Model.ClassAttr
import Verif.Model.Sessions
import Verif.Spec.ClassAttr
import Verif.Props.ClassAttr
import Verif.Props.Sessions
import Verif.Spec.Curvature
import Verif.Lemmas.SecondOrder
import Verif.Props.SecondOrder
import Verif.Props.Smooth
import Verif.Spec.Weights
import Verif.Lemmas.Trapezoid
import Verif.Props.WeightingSky
import Verif.Props.WeightingInputs
import Verif.Model.Listing
import Verif.Props.Listing
import Verif.Spec.BentRay
import Verif.Lemmas.RaySnell
import Verif.Props.SlantRay
import Verif.Props.Ducting
import Verif.Spec.Refractivity
import Verif.Props.Refractivity
import Verif.Model.TablesCovariance
import Verif.Model.Covariance
import Verif.Lemmas.GramCheck
import Verif.Lemmas.CovarianceCert
import Verif.Lemmas.Covariance
import Verif.Spec.Variance
import Verif.Props.Covariance
import Verif.Lemmas.LayerMono
import Verif.Props.Absorbing
import Verif.Spec.WaterParameters
import Verif.Lemmas.WaterDirection
import Verif.Props.Direction
import Verif.Lemmas.Humidity
import Verif.Props.Humidity
import Verif.Lemmas.SpeedShape
import Verif.Lemmas.SpeedSign
import Verif.Lemmas.Dimers
import Verif.Props.SpeedSign
import Verif.Props.CloudEffect
import Verif.Props.MoreOzone
import Verif.Model.Rounded
import Verif.Lemmas.Rounded
import Verif.Lemmas.RoundErr
import Verif.Lemmas.RoundTotal
import Verif.Props.Rounding
import Verif.Model.RoundedInt
import Verif.Lemmas.RoundInt
import Verif.Props.RoundedLayer
import Verif.Props.RoundedRun
import Verif.Model.RoundedPath
import Verif.Props.RoundedPath
import Verif.Props.Locality
import Verif.Props.RoundedAll
import Verif.Props.StrictOpacity
import Verif.Props.Stretch
import Verif.Props.StrictEffect
import Verif.Props.SmoothRun
import Verif.Props.SmoothShipped
import Verif.Props.TipCurve
import Verif.Lemmas.RayleighJeans
import Verif.Props.LinearMixing
import Verif.Lemmas.MeanTemperature
import Verif.Props.MeanTemperature
import Verif.Props.ViewSide
import Verif.Model.IgraRequest
import Verif.Props.IgraRequest
import Verif.Model.ReanalysisRequest
import Verif.Props.ReanalysisRequest
import Verif.Spec.Jacobian
import Verif.Props.Jacobian
import Verif.Spec.LayerResponse
import Verif.Props.LayerResponse
import Verif.Props.OpacityCurve
import Verif.Model.WyomingRequest
import Verif.Props.WyomingRequest
import Verif.Props.StationsRequest
import Verif.Props.TotalResponse
import Verif.Props.SlantView
