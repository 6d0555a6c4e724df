import Verif.EnumBitset.Props
import Verif.Mat2D.Props
import Verif.Heap.Lemmas
import Verif.Factorial.Props
import Verif.Harmonic.Props
import Verif.Harmonic.MemProps
import Verif.SystemInfo.Props
import Verif.SystemInfo.StationProps
import Verif.Pcv.Props
import Verif.Rinex.HeaderProps
import Verif.Rinex.HeaderMeaning
import Verif.Rinex.DataProps
import Verif.Eop.Props
import Verif.Eop.C04Props
import Verif.SpaceWeather.Props
import Verif.Icgem.CountProps
import Verif.Icgem.DataProps
import Verif.Icgem.HeaderProps
import Verif.Icgem.LoadModel
import Verif.Icgem.LoadProps
import Verif.Filters.LayoutProps
import Verif.Filters.EkfProps
import Verif.Filters.EkfBatch
import Verif.Filters.RfoProps
import Verif.Attitude.Props
import Verif.Corrections.Props
import Verif.Stations.Props
import Verif.Sgode.Props
import Verif.Sgode.AdamsSpec
import Verif.Sgode.AdamsLoops
import Verif.Sgode.AdamsInv
import Verif.Sgode.AdamsRun
import Verif.Sgode.AdamsProps
import Verif.Sgode.DriverProps
import Verif.Sgode.MemModel
import Verif.Sgode.MemLemmas
import Verif.Sgode.MemPieces
import Verif.Sgode.MemProps
import Verif.Astro.Kepler
import Verif.Orbit.Angles
import Verif.Orbit.Overloads
import Verif.Orbit.PartialsProps
import Verif.Orbit.Transition
import Verif.Forces.Props
import Verif.Forces.Frames
import Verif.Gravity.Props
import Verif.Gravity.Gradient
import Verif.Gravity.Hessian
import Verif.Gravity.DebugModel
import Verif.Gravity.DebugProps
import Verif.BeaconTable.Props
import Verif.RfoFit.Props
import Verif.RfoFit.AllModel
import Verif.RfoFit.AllProps
import Verif.Doppler.Props
import Verif.Atmosphere.SplineCalc
import Verif.Atmosphere.SplineProps
import Verif.Atmosphere.SwitchProps
import Verif.Atmosphere.ExpProps
import Verif.Atmosphere.MsisUnits
import Verif.Atmosphere.ProfileCalc
import Verif.Atmosphere.ProfileProps
import Verif.Atmosphere.ProfileLow
import Verif.Atmosphere.ProfileExample
import Verif.Atmosphere.MsisHistory
import Verif.Atmosphere.MsisRuns
import Verif.Atmosphere.MsisData
import Verif.Atmosphere.MsisCounter
import Verif.Atmosphere.MsisExamples
import Verif.Web.Props
import Verif.Spice.Props
import Verif.Poly.Props
import Verif.SunMoon.Props
import Verif.Yaml.Props
import Verif.Variational.Props
import Verif.Variational.AtmosModel
import Verif.Variational.AtmosProps
import Verif.Variational.GravityModel
import Verif.Variational.GravityProps
import Verif.Eop.InterpProps
import Verif.Sgode.Refused
import Verif.Orbit.ClassicProps
import Verif.Forces.ShadowProps
import Verif.Filters.FitProps
import Verif.Atmosphere.GhpProps
import Verif.Atmosphere.EffectProps
import Verif.Atmosphere.SphereProps
import Verif.Pod.StatProps
import Verif.Pod.TrackProps
import Verif.Pod.ObsProps
import Verif.Pod.OrbitProps
import Verif.Pod.SiteProps
import Verif.Float.Format
import Verif.Float.Arith
import Verif.Float.StatModel
import Verif.Float.StatProps
import Verif.Float.DenormModel
import Verif.Float.DenormProps
import Verif.Float.ClockModel
import Verif.Float.ClockProps
import Verif.Float.DateModel
import Verif.Float.DateProps
import Verif.Float.Norm
import Verif.Float.AngleModel
import Verif.Float.AngleProps
import Verif.Float.ShadowModel
import Verif.Float.ShadowProps
import Verif.Float.CylinderLemmas
import Verif.Float.CylinderProps
import Verif.Float.AdvanceModel
import Verif.Float.AdvanceProps
import Verif.Atmosphere.CorrectionProps
import Verif.Atmosphere.RequestProps
import Verif.Atmosphere.RequestNitrogen
import Verif.Sgode.ContinueProps
import Verif.Atmosphere.HeightCalc
import Verif.Atmosphere.HeightProps
import Verif.Script.FetchModel
import Verif.Script.FetchProps
import Verif.Script.BulletinModel
import Verif.Script.BulletinProps
import Verif.Script.LogModel
import Verif.Script.LogProps
import Verif.Script.GfcModel
import Verif.Script.GfcProps
import Verif.Forces.PassModel
import Verif.Forces.PassProps
import Verif.Pod.OnePassModel
import Verif.Pod.OnePassProps
import Verif.Rkf.Model
import Verif.Rkf.Formula
import Verif.Rkf.Props
import Verif.Pod.Sp3Model
import Verif.Pod.Sp3Props
import Verif.Var.InterpModel
import Verif.Var.InterpProps
import Verif.Var.LegendreModel
import Verif.Var.LegendreProps
import Verif.Var.FlagsModel
import Verif.Var.FlagsProps
import Verif.Var.KeplerModel
import Verif.Var.KeplerLemmas
import Verif.Var.KeplerProps
import Verif.Astro.KeplerConverge
import Verif.Astro.KeplerTestModel
import Verif.Astro.KeplerTestProps
import Verif.Astro.KeplerPerturb
import Verif.Float.KeplerModel
import Verif.Float.KeplerLemmas
import Verif.Float.KeplerProps
import Verif.Mat2D.IntModel
import Verif.Mat2D.IntProps
import Verif.Var.IcgemModel
import Verif.Var.IcgemProps
import Verif.Filters.KalmanPyModel
import Verif.Filters.KalmanPyProps
import Verif.Pod.SetupModel
import Verif.Pod.SetupProps
import Verif.Exc.Model
import Verif.Exc.Props
import Verif.Script.PlotModel
import Verif.Script.PlotProps
import Verif.Rinex.WriteSpec
import Verif.Rinex.WriteLemmas
import Verif.Rinex.WriteHeader
import Verif.Rinex.WriteProps
import Verif.SpaceWeather.WriteSpec
import Verif.SpaceWeather.WriteLemmas
import Verif.SpaceWeather.WriteProps
import Verif.Float.ExactProps
import Verif.Icgem.WriteSpec
import Verif.Icgem.WriteProps
import Verif.Script.ToolsModel
import Verif.Script.ToolsProps
import Verif.Script.TableModel
import Verif.Script.TableProps
import Verif.Rinex.MetaModel
import Verif.Rinex.MetaProps
import Verif.Rinex.IdProps
import Verif.Float.PcvModel
import Verif.Float.PcvProps
import Verif.RfoFit.TextModel
import Verif.RfoFit.TextProps
import Verif.RfoFit.ProgModel
import Verif.RfoFit.ProgProps
import Verif.Icgem.AskModel
import Verif.Icgem.AskProps
import Verif.SunMoon.RefModel
import Verif.SunMoon.RefProps
import Verif.SpaceWeather.FeedTestModel
import Verif.SpaceWeather.FeedTestProps
import Verif.Eop.ExampleModel
import Verif.Eop.ExampleProps
import Verif.Float.EkfModel
import Verif.Float.EkfProps
import Verif.Float.FreqModel
import Verif.Float.FreqProps
import Verif.Float.RangeRateModel
import Verif.Float.RangeRateProps
import Verif.Float.InterpModel
import Verif.Float.InterpProps
import Verif.Float.EopModel
import Verif.Float.EopProps
import Verif.Var.ProtoModel
import Verif.Var.ProtoProps
import Verif.Pod.NameModel
import Verif.Pod.NameProps
import Verif.Float.ResidualModel
import Verif.Float.ResidualProps
import Verif.Float.PolyModel
import Verif.Float.PolyProps
import Verif.Float.AttitudeModel
import Verif.Float.AttitudeProps
import Verif.Float.Rel
import Verif.Float.ForceModel
import Verif.Float.ForceProps
import Verif.Float.DragModel
import Verif.Float.DragProps
import Verif.Float.StationModel
import Verif.Float.StationProps
import Verif.Float.GravityModel
import Verif.Float.GravityProps
import Verif.Float.RecurModel
import Verif.Float.RecurProps
import Verif.Float.FieldProps
import Verif.Float.StateModel
import Verif.Float.StateProps
import Verif.Float.HessModel
import Verif.Float.HessProps
import Verif.Float.ForcePartModel
import Verif.Float.ForcePartProps
import Verif.Float.FrameModel
import Verif.Float.FrameProps
import Verif.Float.QuatModel
import Verif.Float.QuatProps
import Verif.Float.PeriModel
import Verif.Float.PeriProps
import Verif.Float.InertialModel
import Verif.Float.InertialProps
