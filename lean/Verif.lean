import Verif.AllRad.Lemmas
import Verif.AllRad.Model
import Verif.AllRad.Props
import Verif.AllRad.Spec
import Verif.Allocator.Lemmas
import Verif.Allocator.Model
import Verif.Allocator.Props
import Verif.Application.Model
import Verif.Application.Props
import Verif.Application.Spec
import Verif.ArrayConfig.Accept
import Verif.ArrayConfig.Lemmas
import Verif.ArrayConfig.Loading
import Verif.ArrayConfig.Loops
import Verif.ArrayConfig.Model
import Verif.ArrayConfig.Props
import Verif.ArrayConfig.Result
import Verif.ArrayConfig.Spec
import Verif.ArrayConfig.Virtuals
import Verif.ArraySetup.Lemmas
import Verif.ArraySetup.Model
import Verif.ArraySetup.Props
import Verif.ArraySetup.Spec
import Verif.Biquad.Lemmas
import Verif.Biquad.Model
import Verif.Biquad.Props
import Verif.Biquad.Spec
import Verif.Cap.Lemmas
import Verif.Cap.Model
import Verif.Cap.Props
import Verif.Cap.PropsFlat
import Verif.Cap.Spec
import Verif.ChannelList.Lemmas
import Verif.ChannelList.Model
import Verif.ChannelList.Props
import Verif.ChannelList.Sequence
import Verif.ChannelObject.Model
import Verif.ChannelObject.Props
import Verif.CircularBuffer.Lemmas
import Verif.CircularBuffer.Model
import Verif.CircularBuffer.Props
import Verif.CircularBuffer.Spec
import Verif.Clock.Lemmas
import Verif.Clock.Model
import Verif.Clock.Props
import Verif.Clock.Spec
import Verif.Compensation.Model
import Verif.Compensation.Props
import Verif.Conversion.Model
import Verif.Conversion.Props
import Verif.Convolver.Dft
import Verif.Convolver.Lemmas
import Verif.Convolver.Model
import Verif.Convolver.Props
import Verif.Convolver.Spec
import Verif.ConvolverApp.Model
import Verif.ConvolverApp.Props
import Verif.ConvolverApp.PropsRefused
import Verif.ConvolverApp.Spec
import Verif.CoreRenderer.Lemmas
import Verif.CoreRenderer.Model
import Verif.CoreRenderer.Props
import Verif.CoreRenderer.Spec
import Verif.CoreRenderer.Wiring
import Verif.Crossfade.Model
import Verif.Crossfade.Props
import Verif.Crossfade.Spec
import Verif.Crossover.Lemmas
import Verif.Crossover.Model
import Verif.Crossover.Props
import Verif.Decoder.PositionModel
import Verif.Decoder.PositionProps
import Verif.Decoder.SceneModel
import Verif.Decoder.SceneProps
import Verif.Decorrelation.Lemmas
import Verif.Decorrelation.Model
import Verif.Decorrelation.Props
import Verif.Decorrelation.PropsAccepted
import Verif.Decorrelation.PropsLibrary
import Verif.Decorrelation.Spec
import Verif.DelayLine.Lemmas
import Verif.DelayLine.Model
import Verif.DelayLine.Props
import Verif.DelayLine.Spec
import Verif.DelayMatrix.Model
import Verif.DelayMatrix.Props
import Verif.DelayVector.Model
import Verif.DelayVector.Props
import Verif.DelayVector.Spec
import Verif.Delivery.Model
import Verif.Delivery.Props
import Verif.Delivery.Spec
import Verif.Denormals.Model
import Verif.Denormals.Props
import Verif.Efl.Aligned
import Verif.Efl.Matrix
import Verif.Efl.PropsAligned
import Verif.Efl.PropsMatrix
import Verif.Efl.PropsRamp
import Verif.Efl.Ramp
import Verif.Efl.SpecMatrix
import Verif.Encode.Lemmas
import Verif.Encode.Model
import Verif.Encode.Props
import Verif.Encode.Spec
import Verif.EqDesign.Lemmas
import Verif.EqDesign.Model
import Verif.EqDesign.Props
import Verif.EqDesign.Spec
import Verif.Execute.Lemmas
import Verif.Execute.Model
import Verif.Execute.Props
import Verif.Execute.Spec
import Verif.FeedthroughApp.Model
import Verif.FeedthroughApp.Props
import Verif.FilterFile.Lemmas
import Verif.FilterFile.Model
import Verif.FilterFile.Props
import Verif.FilterFile.Spec
import Verif.FilterMatrix.Lemmas
import Verif.FilterMatrix.Model
import Verif.FilterMatrix.Props
import Verif.FilterMatrix.Spec
import Verif.Fir.Model
import Verif.Fir.Props
import Verif.Fir.Spec
import Verif.FirMatrix.Model
import Verif.FirMatrix.Props
import Verif.FlexibleBuffer.Lemmas
import Verif.FlexibleBuffer.Model
import Verif.FlexibleBuffer.Props
import Verif.FlexibleBuffer.Spec
import Verif.FloatSequence.Lemmas
import Verif.FloatSequence.Model
import Verif.FloatSequence.Props
import Verif.FloatSequence.Spec
import Verif.Flow.Model
import Verif.Flow.Props
import Verif.Flow.Spec
import Verif.GainFader.Lemmas
import Verif.GainFader.Model
import Verif.GainFader.Spec
import Verif.GainMatrix.Model
import Verif.GainMatrix.Props
import Verif.GainVector.Model
import Verif.GainVector.Props
import Verif.Hosts.Lemmas
import Verif.Hosts.Model
import Verif.Hosts.Props
import Verif.Hosts.Spec
import Verif.InterpConvolver.Lemmas
import Verif.InterpConvolver.Model
import Verif.InterpConvolver.Props
import Verif.InterpConvolver.Spec
import Verif.InterpParam.Model
import Verif.InterpParam.Props
import Verif.Jack.History
import Verif.Jack.Lemmas
import Verif.Jack.Model
import Verif.Jack.Names
import Verif.Jack.Props
import Verif.Jack.Spec
import Verif.KissFft.Lemmas
import Verif.KissFft.Model
import Verif.KissFft.Props
import Verif.KissFft.RealLemmas
import Verif.Lagrange.Model
import Verif.Lagrange.Props
import Verif.LateFilter.Lemmas
import Verif.LateFilter.Model
import Verif.LateFilter.Props
import Verif.LateFilter.Spec
import Verif.Layout.Assign
import Verif.Layout.Lemmas
import Verif.Layout.Model
import Verif.Layout.Props
import Verif.Layout.Spec
import Verif.MatrixText.Lemmas
import Verif.MatrixText.Model
import Verif.MatrixText.Props
import Verif.MatrixText.Spec
import Verif.NdArray.Lemmas
import Verif.NdArray.Model
import Verif.NdArray.Props
import Verif.NdArray.Spec
import Verif.Neon.Lemmas
import Verif.Neon.Model
import Verif.Neon.Props
import Verif.Neon.Spec
import Verif.Neon.Steps
import Verif.ObjectAttr.Model
import Verif.ObjectAttr.Props
import Verif.ObjectAttr.PropsOutputs
import Verif.ObjectEq.Model
import Verif.ObjectEq.Props
import Verif.ObjectEq.Spec
import Verif.ObjectVector.Model
import Verif.ObjectVector.Props
import Verif.ObjectVector.Spec
import Verif.Options.Lemmas
import Verif.Options.Model
import Verif.Options.Props
import Verif.Options.PropsRefused
import Verif.Options.Spec
import Verif.Osc.Lemmas
import Verif.Osc.Model
import Verif.Osc.Props
import Verif.Osc.Spec
import Verif.Outcome
import Verif.PTree
import Verif.Panning.Lemmas
import Verif.Panning.Model
import Verif.Panning.Props
import Verif.Panning.Spec
import Verif.PanningDsp.Lemmas
import Verif.PanningDsp.Model
import Verif.PanningDsp.Props
import Verif.PanningDsp.PropsPython
import Verif.PanningDsp.PyModel
import Verif.PanningDsp.Spec
import Verif.ParamConfig.Model
import Verif.ParamConfig.Props
import Verif.ParamConfig.PropsAssign
import Verif.ParamConfig.Spec
import Verif.ParamFlow.Components
import Verif.ParamFlow.Lemmas
import Verif.ParamFlow.Model
import Verif.ParamFlow.Props
import Verif.ParamFlow.Spec
import Verif.ParamFlow.Tree
import Verif.ParamFlow.TreeLemmas
import Verif.Placeholder.Model
import Verif.Placeholder.Props
import Verif.Placeholder.Spec
import Verif.PortAudio.History
import Verif.PortAudio.Lemmas
import Verif.PortAudio.Model
import Verif.PortAudio.Props
import Verif.PortAudio.Spec
import Verif.Profiler.Lemmas
import Verif.Profiler.Model
import Verif.Profiler.Props
import Verif.Profiler.Spec
import Verif.Protocol.Model
import Verif.Protocol.Props
import Verif.Protocol.PropsBuffering
import Verif.PyLock.Model
import Verif.PyLock.Props
import Verif.PyPort.Model
import Verif.PyPort.Props
import Verif.PyProfiler.Model
import Verif.PyProfiler.Props
import Verif.PyProfiler.Spec
import Verif.PyVector.Lemmas
import Verif.PyVector.Model
import Verif.PyVector.Props
import Verif.PyVector.PropsConvert
import Verif.PyVector.Spec
import Verif.PyWrapper.Model
import Verif.PyWrapper.Props
import Verif.PyWrapper.PropsLookup
import Verif.RealText.Lemmas
import Verif.RealText.Model
import Verif.RealText.Spec
import Verif.Registry.Lemmas
import Verif.Registry.Model
import Verif.Registry.Props
import Verif.Reverb.Lemmas
import Verif.Reverb.Model
import Verif.Reverb.Process
import Verif.Reverb.Props
import Verif.Reverb.Spec
import Verif.ReverbAttr.Model
import Verif.ReverbAttr.Props
import Verif.ReverbRenderer.Lemmas
import Verif.ReverbRenderer.Model
import Verif.ReverbRenderer.Props
import Verif.ReverbRenderer.Spec
import Verif.Rotation.Model
import Verif.Rotation.Props
import Verif.Rotation.PropsListener
import Verif.Routing.Lemmas
import Verif.Routing.Model
import Verif.Routing.Props
import Verif.RoutingParameter.Lemmas
import Verif.RoutingParameter.Model
import Verif.RoutingParameter.Props
import Verif.RoutingParameter.PropsParse
import Verif.Run
import Verif.SceneLink.Model
import Verif.SceneLink.Props
import Verif.SceneLink.Spec
import Verif.Schedule.Lemmas
import Verif.Schedule.Model
import Verif.Schedule.Props
import Verif.Schedule.Spec
import Verif.SignalFlows.Baseline
import Verif.SignalFlows.Lemmas
import Verif.SignalFlows.Model
import Verif.SignalFlows.Props
import Verif.SignalRouting.Model
import Verif.SignalRouting.Props
import Verif.Simd.Calls
import Verif.Simd.Complex
import Verif.Simd.Lemmas
import Verif.Simd.Model
import Verif.Simd.Props
import Verif.Simd.Spec
import Verif.SparseGain.Model
import Verif.SparseGain.Props
import Verif.SparseGain.Spec
import Verif.Startup.Process
import Verif.Startup.Props
import Verif.Startup.Spec
import Verif.TFParameter.Model
import Verif.TFParameter.Props
import Verif.TFParameter.PropsPython
import Verif.TFParameter.PyModel
import Verif.TFParameter.Spec
import Verif.TimeFreq.Lemmas
import Verif.TimeFreq.Model
import Verif.TimeFreq.Props
import Verif.TimeFreq.Spec
import Verif.Tree.Lemmas
import Verif.Tree.Model
import Verif.Tree.Props
import Verif.Tree.Spec
import Verif.TypeId.Model
import Verif.TypeId.Props
import Verif.Udp.Model
import Verif.Udp.Props
import Verif.UdpSender.Lemmas
import Verif.UdpSender.Model
import Verif.UdpSender.Props
import Verif.UdpSender.Spec
import Verif.Vbap.Lemmas
import Verif.Vbap.Model
import Verif.Vbap.Props
import Verif.Vbap.Spec
import Verif.VectorFn.Lemmas
import Verif.VectorFn.Model
import Verif.VectorFn.Props
import Verif.VectorFn.Spec
import Verif.Wiring.Lemmas
import Verif.Wiring.Model
import Verif.Wiring.Spec
