import Verif.Beam.AnaDuhamel
import Verif.Beam.Ding
import Verif.Beam.DingClaims
import Verif.Beam.DingGalerkin
import Verif.Beam.DingModes
import Verif.Beam.DingOut
import Verif.Beam.DingQuad
import Verif.Beam.DingSpec
import Verif.Beam.DingWeights
import Verif.Beam.Infinite
import Verif.Beam.InfiniteAlg
import Verif.Beam.InfiniteDaf
import Verif.Beam.InfiniteDecay
import Verif.Beam.InfiniteProps
import Verif.Beam.InfiniteRoots
import Verif.Beam.InfiniteStatic
import Verif.Beam.InfiniteUnique
import Verif.Beam.Moving
import Verif.Beam.SpecAna
import Verif.Beam.SpecAnaAgree
import Verif.Beam.SpecAnaClaims
import Verif.Beam.SpecAnaEx
import Verif.Beam.SpecAnaLoads
import Verif.Beam.SpecAnaMore
import Verif.Beam.SpecAnaPhys
import Verif.Beam.SpecAnaStill
import Verif.Beam.SpecBeam
import Verif.Beam.SpecBeamSpec
import Verif.Beam.SpecClaims
import Verif.Beam.SpecDing
import Verif.Beam.SpecEnergy
import Verif.Beam.SpecEx
import Verif.Beam.SpecLoads
import Verif.Beam.SpecMotion
import Verif.Beam.SpecUnique
import Verif.Beam.Transition
import Verif.Beam.TransitionClaims
import Verif.Beam.TransitionProps
import Verif.Consol.BesselZero
import Verif.Consol.CellModes
import Verif.Consol.Cosenza
import Verif.Consol.CosenzaProps
import Verif.Consol.Deng
import Verif.Consol.Deng14Props
import Verif.Consol.DengProps
import Verif.Consol.Heat
import Verif.Consol.LayerModes
import Verif.Consol.LuEtAl
import Verif.Consol.LuEtAlProps
import Verif.Consol.Nogami
import Verif.Consol.NogamiClaims
import Verif.Consol.NogamiErr
import Verif.Consol.NogamiEx
import Verif.Consol.NogamiMode
import Verif.Consol.NogamiOut
import Verif.Consol.NogamiRad
import Verif.Consol.NogamiThm
import Verif.Consol.NogamiTrig
import Verif.Consol.Schiffman
import Verif.Consol.SchiffmanClaims
import Verif.Consol.SchiffmanErr
import Verif.Consol.SchiffmanEx
import Verif.Consol.SchiffmanMode
import Verif.Consol.SchiffmanOut
import Verif.Consol.SchiffmanProps
import Verif.Consol.Series
import Verif.Consol.Shan
import Verif.Consol.ShanClaims
import Verif.Consol.ShanEx
import Verif.Consol.ShanGalerkin
import Verif.Consol.ShanLong
import Verif.Consol.ShanMode
import Verif.Consol.ShanProps
import Verif.Consol.ShanUnique
import Verif.Consol.Spec
import Verif.Consol.SpecCell
import Verif.Consol.SpecCosenza
import Verif.Consol.SpecDeng
import Verif.Consol.SpecLayers
import Verif.Consol.SpecLu
import Verif.Consol.SpecShan
import Verif.Consol.SpecTang
import Verif.Consol.SpecVary
import Verif.Consol.SpecXie
import Verif.Consol.Tang
import Verif.Consol.TangProps
import Verif.Consol.Terzaghi
import Verif.Consol.TerzaghiProps
import Verif.Consol.VaryModes
import Verif.Consol.XieLeo
import Verif.Consol.XieLeoFlow
import Verif.Consol.XieLeoPlot
import Verif.Consol.XieLeoPlotProps
import Verif.Consol.XieLeoProps
import Verif.Consol.XieLeoTime
import Verif.Consol.ZhuYin
import Verif.Consol.ZhuYinClaims
import Verif.Consol.ZhuYinCoef
import Verif.Consol.ZhuYinEx
import Verif.Consol.ZhuYinMode
import Verif.Consol.ZhuYinProps
import Verif.Constitutive.Curves
import Verif.Constitutive.Epus
import Verif.Constitutive.EpusBase
import Verif.Constitutive.EpusElastic
import Verif.Constitutive.EpusEx
import Verif.Constitutive.EpusFlag
import Verif.Constitutive.EpusHist
import Verif.Constitutive.EpusOut
import Verif.Constitutive.EpusPath
import Verif.Constitutive.EpusProf
import Verif.Constitutive.EpusProfBase
import Verif.Constitutive.EpusProfIdx
import Verif.Constitutive.EpusProfile
import Verif.Constitutive.EpusRepro
import Verif.Constitutive.EpusRun
import Verif.Constitutive.EpusSwcc
import Verif.Constitutive.EpusTables
import Verif.Constitutive.EpusTotal
import Verif.Constitutive.Model
import Verif.Constitutive.ModelSwcc
import Verif.Constitutive.ModelYG
import Verif.Constitutive.Props
import Verif.Constitutive.PropsHansbo
import Verif.Constitutive.PropsPwise
import Verif.Constitutive.PropsPwiseAv
import Verif.Constitutive.PropsSwcc
import Verif.Constitutive.PropsSwccDisc
import Verif.Constitutive.PropsSwccK
import Verif.Constitutive.PropsSwccShape
import Verif.Constitutive.PropsYG
import Verif.Constitutive.PropsYG2
import Verif.Constitutive.PropsYGCrsn
import Verif.Constitutive.PropsYGInit
import Verif.Constitutive.PropsYGSim
import Verif.Constitutive.Pwise
import Verif.Constitutive.PwiseLemmas
import Verif.Constitutive.SpecYG
import Verif.Geometry.Lemmas
import Verif.Geometry.Model
import Verif.Geometry.Props
import Verif.Geometry.PropsCentroid
import Verif.Geometry.PropsVolume
import Verif.Geometry.Spec
import Verif.IO.Attrs
import Verif.IO.AttrsProps
import Verif.IO.AttrsProps2
import Verif.IO.AttrsProps3
import Verif.IO.Exn
import Verif.IO.GenCode
import Verif.IO.GenCodeProps
import Verif.IO.MakeAll
import Verif.IO.MakeAllProps
import Verif.IO.Misc
import Verif.IO.MiscProps
import Verif.IO.SaveRuns
import Verif.IO.SaveRunsProps
import Verif.IO.Session
import Verif.IO.SessionProps
import Verif.IO.Setups
import Verif.IO.Stem
import Verif.IO.StemProps
import Verif.IO.Syntax
import Verif.IO.SyntaxProps
import Verif.IO.Timeout
import Verif.IO.TimeoutProps
import Verif.IO.Words
import Verif.IO.WorkDir
import Verif.IO.WorkDirProps
import Verif.Piecewise.CommonSegs
import Verif.Piecewise.Convert
import Verif.Piecewise.Integral
import Verif.Piecewise.LayerCoords
import Verif.Piecewise.Lemmas
import Verif.Piecewise.Lemmas2
import Verif.Piecewise.Merge
import Verif.Piecewise.Merge2
import Verif.Piecewise.Model
import Verif.Piecewise.ModelPoly
import Verif.Piecewise.ModelProd
import Verif.Piecewise.ModelSub
import Verif.Piecewise.Mono
import Verif.Piecewise.PolyOps
import Verif.Piecewise.Props
import Verif.Piecewise.PropsMerge
import Verif.Piecewise.PropsPoly
import Verif.Piecewise.PropsSub
import Verif.Piecewise.SegIntegral
import Verif.Piecewise.SegLemmas
import Verif.Piecewise.Spec
import Verif.Piecewise.Superfluous
import Verif.Piecewise.Wrappers
import Verif.Plot.Demo
import Verif.Plot.DemoProps
import Verif.Plot.Loads
import Verif.Plot.LoadsProps
import Verif.Plot.Model
import Verif.Plot.Palette
import Verif.Plot.Props
import Verif.Plot.PropsCalls
import Verif.Plot.Results
import Verif.Plot.ResultsProps
import Verif.Plot.Spec
import Verif.Plot.SpecCalls
import Verif.Plot.Unsat
import Verif.Plot.UnsatProps
import Verif.Quad.Lemmas
import Verif.Quad.Model
import Verif.Quad.Props
import Verif.Quad.PropsGK
import Verif.Quad.PropsShanks
import Verif.Quad.ShanksRows
import Verif.Quad.Tables
import Verif.Roots.Hop
import Verif.Roots.Model
import Verif.Roots.Props
import Verif.Roots.PropsEnd
import Verif.Roots.PropsFixed
import Verif.Smear.Antideriv
import Verif.Smear.Lemmas
import Verif.Smear.LemmasU
import Verif.Smear.Model
import Verif.Smear.ModelND
import Verif.Smear.ModelU
import Verif.Smear.NDAnti
import Verif.Smear.NDClaims
import Verif.Smear.NDClaims2
import Verif.Smear.NDClaims3
import Verif.Smear.NDEta
import Verif.Smear.NDLemmas
import Verif.Smear.NDSeries
import Verif.Smear.Props
import Verif.Smear.PropsDrain
import Verif.Smear.PropsTol
import Verif.Smear.PropsU
import Verif.Smear.PropsZones
import Verif.Smear.Spec
import Verif.Smear.SpecND
import Verif.Speccon.Antideriv
import Verif.Speccon.Bounded
import Verif.Speccon.CxForms
import Verif.Speccon.CxFormulas
import Verif.Speccon.CxLoads
import Verif.Speccon.Duhamel
import Verif.Speccon.Eigen
import Verif.Speccon.ExampleLoads
import Verif.Speccon.ExampleSuperpose
import Verif.Speccon.ExampleSuperposeVRW
import Verif.Speccon.Formulas
import Verif.Speccon.FormulasEDc
import Verif.Speccon.FormulasEc
import Verif.Speccon.FormulasEs
import Verif.Speccon.FormulasLoad
import Verif.Speccon.HarmForms
import Verif.Speccon.HarmForms2
import Verif.Speccon.History
import Verif.Speccon.LayerForms
import Verif.Speccon.LineSub
import Verif.Speccon.LoadForms
import Verif.Speccon.LoadLemmas
import Verif.Speccon.LoadMatrices
import Verif.Speccon.Mirror
import Verif.Speccon.Model
import Verif.Speccon.ModelLoad
import Verif.Speccon.ModelOut
import Verif.Speccon.ModelUnsat
import Verif.Speccon.ModelVR
import Verif.Speccon.ModelVRC
import Verif.Speccon.ModelVRW
import Verif.Speccon.Ortho
import Verif.Speccon.OutLemmas
import Verif.Speccon.Props
import Verif.Speccon.PropsEigen
import Verif.Speccon.PropsHarm
import Verif.Speccon.PropsLoad
import Verif.Speccon.PropsOut
import Verif.Speccon.PropsRun
import Verif.Speccon.PropsRunOther
import Verif.Speccon.PropsSuperpose
import Verif.Speccon.PropsUnsat
import Verif.Speccon.PropsUnsatOut
import Verif.Speccon.PropsVR
import Verif.Speccon.PropsVRC
import Verif.Speccon.PropsVRCParts
import Verif.Speccon.PropsVRW
import Verif.Speccon.PropsVRWell
import Verif.Speccon.Run
import Verif.Speccon.RunIdx
import Verif.Speccon.RunOther
import Verif.Speccon.Spec
import Verif.Speccon.SpecCombine
import Verif.Speccon.SpecUnsat
import Verif.Speccon.SpecUnsatCombine
import Verif.Speccon.SpecVR
import Verif.Speccon.SpecVRC
import Verif.Speccon.SpecVRW
import Verif.Speccon.Superpose
import Verif.Speccon.SuperposeUnsat
import Verif.Speccon.SuperposeVRC
import Verif.Speccon.SuperposeVRW
import Verif.Speccon.ThetaLemmas
import Verif.Speccon.UnsatEigen
import Verif.Speccon.UnsatSystem
import Verif.Speccon.UnsatWeak
import Verif.Speccon.VRCEigen
import Verif.Speccon.VRCSystem
import Verif.Speccon.VRCWeak
import Verif.Speccon.VRLemmas
import Verif.Speccon.VRSystem
import Verif.Speccon.VRWEigen
import Verif.Speccon.VRWSystem
import Verif.Speccon.VRWWeak
import Verif.Speccon.VRWeak
import Verif.Speccon.Volterra
import Verif.Transform.Cosine
import Verif.Transform.Fourier
import Verif.Transform.Hankel
import Verif.Transform.ModelCosine
import Verif.Transform.ModelFourier
import Verif.Transform.ModelHankel
import Verif.Transform.ModelMulti
import Verif.Transform.ModelTalbot
import Verif.Transform.Multi
import Verif.Transform.SpecFourier
import Verif.Transform.SpecHankel
import Verif.Transform.SpecMulti
import Verif.Transform.SpecTalbot
import Verif.Transform.Talbot
