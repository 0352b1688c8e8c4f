import Verif.Base.Interp
import Verif.Base.Num
import Verif.Base.Py
import Verif.Lemmas.Bayesn
import Verif.Lemmas.DepGraph
import Verif.Lemmas.EffectAdd
import Verif.Lemmas.Fuel
import Verif.Lemmas.GraphHeap
import Verif.Lemmas.GraphState
import Verif.Lemmas.GraphState2
import Verif.Lemmas.GraphState3
import Verif.Lemmas.Kernel
import Verif.Lemmas.Lclib
import Verif.Lemmas.Lens
import Verif.Lemmas.Live
import Verif.Lemmas.NodeApi
import Verif.Lemmas.NodeApi2
import Verif.Lemmas.Nodes
import Verif.Lemmas.ObsTable
import Verif.Lemmas.Passband
import Verif.Lemmas.PassbandShare
import Verif.Lemmas.Physical
import Verif.Lemmas.PhysicalInit
import Verif.Lemmas.Positions
import Verif.Lemmas.Recorded
import Verif.Lemmas.SkyDisc
import Verif.Lemmas.Template
import Verif.Lemmas.TemplateSed
import Verif.Lemmas.Translate
import Verif.Model.Agn
import Verif.Model.Analyse
import Verif.Model.AskAny
import Verif.Model.BasicModels
import Verif.Model.Bayesn
import Verif.Model.BayesnSed
import Verif.Model.Bicubic
import Verif.Model.BicubicGrid
import Verif.Model.BinaryStar
import Verif.Model.CompositeRun
import Verif.Model.CoverageRun
import Verif.Model.DepApi
import Verif.Model.DepGraph
import Verif.Model.Direct
import Verif.Model.Drw
import Verif.Model.Dust
import Verif.Model.EffectLib
import Verif.Model.EndToEnd
import Verif.Model.FakeObs
import Verif.Model.Footprint
import Verif.Model.FullRun
import Verif.Model.GraphEq
import Verif.Model.GraphHeap
import Verif.Model.GraphState
import Verif.Model.GridIO
import Verif.Model.Iterate
import Verif.Model.Lclib
import Verif.Model.LclibTemplate
import Verif.Model.MathNode
import Verif.Model.MocChain
import Verif.Model.MultiObject
import Verif.Model.NodeApi
import Verif.Model.NodeMore
import Verif.Model.Nodes
import Verif.Model.NoiseFree
import Verif.Model.ObsTable
import Verif.Model.Oversample
import Verif.Model.Passband
import Verif.Model.PassbandFiles
import Verif.Model.PassbandGroup
import Verif.Model.PassbandShare
import Verif.Model.Periodic
import Verif.Model.Persist
import Verif.Model.Photometry
import Verif.Model.Physical
import Verif.Model.PhysicalInit
import Verif.Model.PointingRun
import Verif.Model.PointingSampler
import Verif.Model.PostProcess
import Verif.Model.RandomNodes
import Verif.Model.RandomRun
import Verif.Model.RandomSurvey
import Verif.Model.Redback
import Verif.Model.Roman
import Verif.Model.Salt2
import Verif.Model.Salt2Files
import Verif.Model.SamplerShare
import Verif.Model.Samplers
import Verif.Model.Samplers2
import Verif.Model.Samplers3
import Verif.Model.SeedHistory
import Verif.Model.SeededSim
import Verif.Model.Simulate
import Verif.Model.SnCoord
import Verif.Model.Sncosmo
import Verif.Model.SniaRates
import Verif.Model.SniaRun
import Verif.Model.SniaSource
import Verif.Model.SniaSurvey
import Verif.Model.StaticFiles
import Verif.Model.Template
import Verif.Model.TemplateSed
import Verif.Model.TemplateShare
import Verif.Model.Units
import Verif.Model.ZtfPersist
import Verif.Props.Agn
import Verif.Props.AgnDisk
import Verif.Props.Analyse
import Verif.Props.AskAny
import Verif.Props.Bandfluxes
import Verif.Props.BasicModels
import Verif.Props.BasicModels2
import Verif.Props.Batches
import Verif.Props.Bayesn
import Verif.Props.BayesnSed
import Verif.Props.Bicubic
import Verif.Props.Bicubic2
import Verif.Props.BicubicGrid
import Verif.Props.BinaryArea
import Verif.Props.BinaryStar
import Verif.Props.Brighter
import Verif.Props.Composite
import Verif.Props.Compute
import Verif.Props.ConstGraph
import Verif.Props.CoverageExample
import Verif.Props.CoverageRun
import Verif.Props.DepApi
import Verif.Props.DepGraph
import Verif.Props.Dimming
import Verif.Props.Direct
import Verif.Props.Distribution
import Verif.Props.Drw
import Verif.Props.Dust
import Verif.Props.Effects
import Verif.Props.EndToEnd
import Verif.Props.EvalExamples
import Verif.Props.Extinction
import Verif.Props.Extrapolation
import Verif.Props.FakeObs
import Verif.Props.Footprint
import Verif.Props.FullRun
import Verif.Props.Generate
import Verif.Props.GraphEq
import Verif.Props.GraphHeap
import Verif.Props.GraphHeap2
import Verif.Props.GraphState1
import Verif.Props.GraphState2
import Verif.Props.GraphState3
import Verif.Props.GridIO
import Verif.Props.GroupExample
import Verif.Props.GroupFileExample
import Verif.Props.Iterate
import Verif.Props.Lclib
import Verif.Props.LclibTemplate
import Verif.Props.MathNode
import Verif.Props.Microlensing
import Verif.Props.MocChain
import Verif.Props.MultiObject
import Verif.Props.MultiTemplate
import Verif.Props.Narrow
import Verif.Props.NarrowExample
import Verif.Props.NodeApi
import Verif.Props.NodeExamples
import Verif.Props.Nodes1
import Verif.Props.Nodes2
import Verif.Props.Nodes3
import Verif.Props.NoiseFree
import Verif.Props.ObsTable
import Verif.Props.Oversample
import Verif.Props.Passband1
import Verif.Props.Passband2
import Verif.Props.PassbandFiles
import Verif.Props.PassbandGroup
import Verif.Props.PassbandGroup2
import Verif.Props.PassbandGroupFiles
import Verif.Props.PassbandPresets
import Verif.Props.PassbandShare
import Verif.Props.PassbandShare2
import Verif.Props.Periodic
import Verif.Props.Persist
import Verif.Props.Photometry
import Verif.Props.Physical
import Verif.Props.PhysicalInit
import Verif.Props.PhysicalInit2
import Verif.Props.PointingExample
import Verif.Props.PointingRun
import Verif.Props.PointingSampler
import Verif.Props.PostProcess
import Verif.Props.Pytree
import Verif.Props.RandomNodes
import Verif.Props.RandomRun
import Verif.Props.RandomSurvey
import Verif.Props.RangeSearch
import Verif.Props.Rearrange
import Verif.Props.Recorded
import Verif.Props.RectExample
import Verif.Props.RectSurvey
import Verif.Props.Redback
import Verif.Props.Roman
import Verif.Props.Salt2
import Verif.Props.Salt2Files
import Verif.Props.SamplerShare
import Verif.Props.Samplers1
import Verif.Props.Samplers2
import Verif.Props.Samplers3
import Verif.Props.Scaled
import Verif.Props.SeedHistory
import Verif.Props.SeededSim
import Verif.Props.Simulate
import Verif.Props.SimulateOk
import Verif.Props.SkyTurn
import Verif.Props.SnCoord
import Verif.Props.Sncosmo
import Verif.Props.SniaRates
import Verif.Props.SniaRun
import Verif.Props.SniaSource
import Verif.Props.SniaSurvey
import Verif.Props.StaticFiles
import Verif.Props.SumOfParts
import Verif.Props.SurveyErrors
import Verif.Props.SurveyZp
import Verif.Props.Template
import Verif.Props.TemplateSed
import Verif.Props.TemplateSed2
import Verif.Props.TemplateShare
import Verif.Props.Translate
import Verif.Props.Units
import Verif.Props.WhiteNoise
import Verif.Props.Zeropoint
import Verif.Props.ZtfPersist
import Verif.Spec.Analyse
import Verif.Spec.AskAny
import Verif.Spec.Bayesn
import Verif.Spec.BayesnSed
import Verif.Spec.BinaryStar
import Verif.Spec.Brighter
import Verif.Spec.Composite
import Verif.Spec.DepApi
import Verif.Spec.DepGraph
import Verif.Spec.Direct
import Verif.Spec.EndToEnd
import Verif.Spec.Footprint
import Verif.Spec.FullRun
import Verif.Spec.GraphHeap
import Verif.Spec.GraphState
import Verif.Spec.Iterate
import Verif.Spec.Lclib
import Verif.Spec.LclibTemplate
import Verif.Spec.MathNode
import Verif.Spec.MocChain
import Verif.Spec.MultiTemplate
import Verif.Spec.Narrow
import Verif.Spec.NodeApi
import Verif.Spec.NodeMore
import Verif.Spec.Nodes
import Verif.Spec.NoiseFree
import Verif.Spec.ObsTable
import Verif.Spec.Passband
import Verif.Spec.PassbandFiles
import Verif.Spec.PassbandShare
import Verif.Spec.Persist
import Verif.Spec.Photometry
import Verif.Spec.Physical
import Verif.Spec.PostProcess
import Verif.Spec.Rearrange
import Verif.Spec.Recorded
import Verif.Spec.RectSurvey
import Verif.Spec.Salt2
import Verif.Spec.Salt2Files
import Verif.Spec.Samplers
import Verif.Spec.Scaled
import Verif.Spec.SeedHistory
import Verif.Spec.Simulate
import Verif.Spec.Sky
import Verif.Spec.SkyTurn
import Verif.Spec.SniaRates
import Verif.Spec.SniaSurvey
import Verif.Spec.Template
import Verif.Spec.TemplateSed
import Verif.Spec.Translate
import Verif.Spec.Units
