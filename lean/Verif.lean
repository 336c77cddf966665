import Verif.Lemmas.Acc
import Verif.Lemmas.AnyAxis
import Verif.Lemmas.AnyAxisAuto
import Verif.Lemmas.AnyAxisBody
import Verif.Lemmas.AnyAxisCcorr
import Verif.Lemmas.AnyAxisFft
import Verif.Lemmas.Api
import Verif.Lemmas.Arr2
import Verif.Lemmas.CamFrame
import Verif.Lemmas.Ccorr
import Verif.Lemmas.CcorrAny
import Verif.Lemmas.CcorrReject
import Verif.Lemmas.Chain
import Verif.Lemmas.ChunkSum
import Verif.Lemmas.Core
import Verif.Lemmas.Counts
import Verif.Lemmas.Crop
import Verif.Lemmas.Density
import Verif.Lemmas.Dft
import Verif.Lemmas.Draw
import Verif.Lemmas.DrawParallel
import Verif.Lemmas.Fastmath
import Verif.Lemmas.FastmathRun
import Verif.Lemmas.Fft2
import Verif.Lemmas.FftApi
import Verif.Lemmas.FftCorr
import Verif.Lemmas.Filters
import Verif.Lemmas.FlRound
import Verif.Lemmas.Fold
import Verif.Lemmas.FormFactor
import Verif.Lemmas.FrameShow
import Verif.Lemmas.Gauss
import Verif.Lemmas.GaussEst
import Verif.Lemmas.GaussExample
import Verif.Lemmas.GaussPair
import Verif.Lemmas.IntFrame
import Verif.Lemmas.IterAnyBuf
import Verif.Lemmas.IterAnyCalls
import Verif.Lemmas.IterAnyCore
import Verif.Lemmas.IterAnyLoop
import Verif.Lemmas.IterArgs
import Verif.Lemmas.IterAuto
import Verif.Lemmas.IterBg
import Verif.Lemmas.IterBin
import Verif.Lemmas.IterBuf
import Verif.Lemmas.IterChunk
import Verif.Lemmas.IterClosed
import Verif.Lemmas.IterFull
import Verif.Lemmas.IterFwd
import Verif.Lemmas.IterIdeal
import Verif.Lemmas.IterLevels
import Verif.Lemmas.IterLoop
import Verif.Lemmas.IterMain
import Verif.Lemmas.IterPlain
import Verif.Lemmas.IterRun
import Verif.Lemmas.IterSize
import Verif.Lemmas.IterSum
import Verif.Lemmas.IterTotal
import Verif.Lemmas.IterView
import Verif.Lemmas.IterYield
import Verif.Lemmas.IterYieldVal
import Verif.Lemmas.KSelect
import Verif.Lemmas.KSelectAny
import Verif.Lemmas.KeepLen
import Verif.Lemmas.Kernels
import Verif.Lemmas.Laws
import Verif.Lemmas.LogAny
import Verif.Lemmas.LogAvg
import Verif.Lemmas.MaskAny
import Verif.Lemmas.Mirror
import Verif.Lemmas.Mixed
import Verif.Lemmas.MultiAny
import Verif.Lemmas.MultiAnyAuto
import Verif.Lemmas.MultiApi
import Verif.Lemmas.MultiReshape
import Verif.Lemmas.MultiRow
import Verif.Lemmas.Multitau
import Verif.Lemmas.Norm
import Verif.Lemmas.NormAny
import Verif.Lemmas.NormApi
import Verif.Lemmas.NormGlue
import Verif.Lemmas.NormModes
import Verif.Lemmas.NormMulti
import Verif.Lemmas.NormRound
import Verif.Lemmas.NormRoundRun
import Verif.Lemmas.NormRoundSelf
import Verif.Lemmas.NormWeighted
import Verif.Lemmas.Pairs
import Verif.Lemmas.ParallelKernel
import Verif.Lemmas.Process
import Verif.Lemmas.ProcessM
import Verif.Lemmas.RandomTimes
import Verif.Lemmas.RandomVideo
import Verif.Lemmas.Regular
import Verif.Lemmas.RegularSum
import Verif.Lemmas.Reshape
import Verif.Lemmas.Rounding
import Verif.Lemmas.RoundingApi
import Verif.Lemmas.RoundingAuto
import Verif.Lemmas.RoundingSum
import Verif.Lemmas.Scatter
import Verif.Lemmas.Sector
import Verif.Lemmas.Shift
import Verif.Lemmas.SimWalk
import Verif.Lemmas.Slice
import Verif.Lemmas.Stamp64
import Verif.Lemmas.Stamp64Fft
import Verif.Lemmas.Stamp64Vec
import Verif.Lemmas.Threads
import Verif.Lemmas.TimeCount
import Verif.Lemmas.Trigger
import Verif.Lemmas.Unsafe
import Verif.Lemmas.Vec
import Verif.Lemmas.Video
import Verif.Lemmas.VideoCrop
import Verif.Lemmas.ViewerAvg
import Verif.Model.AnyAxis
import Verif.Model.AnyAxisCcorr
import Verif.Model.AnyAxisFft
import Verif.Model.Arr2
import Verif.Model.ArrViewer
import Verif.Model.CamFrame
import Verif.Model.Ccorr
import Verif.Model.Chain
import Verif.Model.Conf
import Verif.Model.ConfStart
import Verif.Model.Core
import Verif.Model.CorrViewer
import Verif.Model.Counts
import Verif.Model.CropAny
import Verif.Model.Cx
import Verif.Model.Decorators
import Verif.Model.DrawParallel
import Verif.Model.Err
import Verif.Model.Fastmath
import Verif.Model.Fft
import Verif.Model.Fft2
import Verif.Model.Filters
import Verif.Model.Fold
import Verif.Model.FormFactor
import Verif.Model.FrameShow
import Verif.Model.IntFrame
import Verif.Model.IterAny
import Verif.Model.IterApi
import Verif.Model.IterYield
import Verif.Model.KSelect
import Verif.Model.KSelectAny
import Verif.Model.Kernels
import Verif.Model.LogAny
import Verif.Model.LogAvg
import Verif.Model.MaskAny
import Verif.Model.Mixed
import Verif.Model.MultiAny
import Verif.Model.Multitau
import Verif.Model.MultitauIter
import Verif.Model.Noise
import Verif.Model.Norm
import Verif.Model.NormAny
import Verif.Model.NormMulti
import Verif.Model.NormMultiAny
import Verif.Model.NormRound
import Verif.Model.ParallelKernel
import Verif.Model.PointKernel
import Verif.Model.Py
import Verif.Model.RandomVideo
import Verif.Model.RealStamp
import Verif.Model.Regular
import Verif.Model.Reshape
import Verif.Model.Rfft2
import Verif.Model.Rounding
import Verif.Model.Sector
import Verif.Model.Sim
import Verif.Model.SimWalk
import Verif.Model.Slice
import Verif.Model.Stamp64
import Verif.Model.Stamp64Fft
import Verif.Model.Stamp64Vec
import Verif.Model.Stats
import Verif.Model.TimeCount
import Verif.Model.Vec
import Verif.Model.Video
import Verif.Model.VideoCrop
import Verif.Model.Viewer
import Verif.Model.ViewerAvg
import Verif.Model.Window
import Verif.Props.AnyAxis
import Verif.Props.AnyAxisCcorr
import Verif.Props.ArrViewer
import Verif.Props.Blocks
import Verif.Props.CamFrame
import Verif.Props.Ccorr
import Verif.Props.Chain
import Verif.Props.ChainFirst
import Verif.Props.ChainLevels
import Verif.Props.ChainMerge
import Verif.Props.CompSubtracted
import Verif.Props.Compensated
import Verif.Props.Conf
import Verif.Props.ConfStart
import Verif.Props.CorrViewer
import Verif.Props.CorrViewerCases
import Verif.Props.CorrViewerLog
import Verif.Props.CorrViewerLogCases
import Verif.Props.Correlation
import Verif.Props.Counts
import Verif.Props.CountsMulti
import Verif.Props.Crop
import Verif.Props.CropAny
import Verif.Props.Decorators
import Verif.Props.Display
import Verif.Props.Dls
import Verif.Props.DrawParallel
import Verif.Props.Fastmath
import Verif.Props.FastmathSum
import Verif.Props.Fft2
import Verif.Props.FftCorr
import Verif.Props.FftNorm
import Verif.Props.Filters
import Verif.Props.Fold
import Verif.Props.FormFactor
import Verif.Props.FrameShow
import Verif.Props.GaussSigma
import Verif.Props.GaussSigmaCases
import Verif.Props.IntFrame
import Verif.Props.IterAny
import Verif.Props.IterBuf
import Verif.Props.IterChunk
import Verif.Props.IterDefault
import Verif.Props.IterFirst
import Verif.Props.IterFrames
import Verif.Props.IterFull
import Verif.Props.IterFwd
import Verif.Props.IterMulti
import Verif.Props.IterYield
import Verif.Props.KSelect
import Verif.Props.KSelectAny
import Verif.Props.Laws
import Verif.Props.LogAny
import Verif.Props.LogAvg
import Verif.Props.MaskAny
import Verif.Props.Mixed
import Verif.Props.MultiAny
import Verif.Props.Multitau
import Verif.Props.Noise
import Verif.Props.Norm
import Verif.Props.NormAny
import Verif.Props.NormMulti
import Verif.Props.NormMultiAny
import Verif.Props.NormReject
import Verif.Props.NormRound
import Verif.Props.NormRoundSelf
import Verif.Props.NormString
import Verif.Props.ParallelKernel
import Verif.Props.PointKernel
import Verif.Props.RandomTimes
import Verif.Props.RandomTimesCases
import Verif.Props.RandomVideo
import Verif.Props.RealStamp
import Verif.Props.Regular
import Verif.Props.Reshape
import Verif.Props.Rfft2
import Verif.Props.Rounding
import Verif.Props.RoundingAuto
import Verif.Props.RoundingSum
import Verif.Props.Sector
import Verif.Props.SimAdc
import Verif.Props.SimBox
import Verif.Props.SimCorr
import Verif.Props.SimDraw
import Verif.Props.SimTime
import Verif.Props.SimVideo
import Verif.Props.SimWalk
import Verif.Props.Stamp64
import Verif.Props.Stamp64Fft
import Verif.Props.Stamp64Vec
import Verif.Props.Stats
import Verif.Props.Threads
import Verif.Props.TimeCount
import Verif.Props.TimeCountCases
import Verif.Props.TimeCountSpaced
import Verif.Props.Unbiased
import Verif.Props.UnbiasedMulti
import Verif.Props.UnbiasedSpace
import Verif.Props.Vec
import Verif.Props.Video
import Verif.Props.VideoCrop
import Verif.Props.Viewer
import Verif.Props.ViewerAvg
import Verif.Props.ViewerAvgCases
import Verif.Props.Weight
import Verif.Props.WeightPrime
import Verif.Props.WeightedNorm
import Verif.Props.Window
import Verif.Spec.Adc
import Verif.Spec.AnyAxis
import Verif.Spec.AnyAxisCcorr
import Verif.Spec.Api
import Verif.Spec.ArrViewer
import Verif.Spec.CamFrame
import Verif.Spec.Ccorr
import Verif.Spec.Chain
import Verif.Spec.Conf
import Verif.Spec.ConfStart
import Verif.Spec.CorrViewer
import Verif.Spec.Counts
import Verif.Spec.Decorators
import Verif.Spec.DrawParallel
import Verif.Spec.Fastmath
import Verif.Spec.Fft2
import Verif.Spec.Filters
import Verif.Spec.FormFactor
import Verif.Spec.FrameShow
import Verif.Spec.Freq
import Verif.Spec.Gauss
import Verif.Spec.IntFrame
import Verif.Spec.IterAny
import Verif.Spec.IterApi
import Verif.Spec.IterYield
import Verif.Spec.KSelect
import Verif.Spec.KSelectAny
import Verif.Spec.LogAny
import Verif.Spec.LogAvg
import Verif.Spec.MaskAny
import Verif.Spec.Mixed
import Verif.Spec.MultiAny
import Verif.Spec.Multitau
import Verif.Spec.MultitauIter
import Verif.Spec.Noise
import Verif.Spec.Norm
import Verif.Spec.NormAny
import Verif.Spec.NormCall
import Verif.Spec.NormMulti
import Verif.Spec.NormMultiAny
import Verif.Spec.NormReject
import Verif.Spec.NormRound
import Verif.Spec.NormString
import Verif.Spec.Pairs
import Verif.Spec.ParallelKernel
import Verif.Spec.Process
import Verif.Spec.ProcessM
import Verif.Spec.RandomTimes
import Verif.Spec.RandomVideo
import Verif.Spec.RealStamp
import Verif.Spec.Reshape
import Verif.Spec.Rounding
import Verif.Spec.Sector
import Verif.Spec.Sim
import Verif.Spec.SimCorr
import Verif.Spec.SimWalk
import Verif.Spec.Stamp64
import Verif.Spec.Stats
import Verif.Spec.TimeCount
import Verif.Spec.Trigger
import Verif.Spec.Video
import Verif.Spec.VideoCrop
import Verif.Spec.Viewer
import Verif.Spec.ViewerAvg
import Verif.Spec.Window
