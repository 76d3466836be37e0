import Verif.Inst.F53
import Verif.Inst.Phase
import Verif.Inst.Real
import Verif.Inst.XR
import Verif.Inst.XREmbeds
import Verif.Lib.Affine
import Verif.Lib.Attr
import Verif.Lib.Binding
import Verif.Lib.CallArgs
import Verif.Lib.CallArgsTorch
import Verif.Lib.CdistLaws
import Verif.Lib.Comp
import Verif.Lib.Consistency
import Verif.Lib.Control
import Verif.Lib.Control2
import Verif.Lib.Depend
import Verif.Lib.Displace
import Verif.Lib.Draws
import Verif.Lib.Effects
import Verif.Lib.Equiv
import Verif.Lib.Examples
import Verif.Lib.FShape
import Verif.Lib.Fan
import Verif.Lib.FanStoch
import Verif.Lib.Flags
import Verif.Lib.Flow
import Verif.Lib.FlowReal
import Verif.Lib.Gaussian
import Verif.Lib.Gram
import Verif.Lib.GridReal
import Verif.Lib.Hard
import Verif.Lib.Import
import Verif.Lib.InPlace
import Verif.Lib.InPlaceTotal
import Verif.Lib.Kuramoto
import Verif.Lib.KuramotoLoop
import Verif.Lib.KuramotoModel
import Verif.Lib.KuramotoReal
import Verif.Lib.KuramotoTotal
import Verif.Lib.Law
import Verif.Lib.LawNumpy
import Verif.Lib.LawReweight
import Verif.Lib.LawSym
import Verif.Lib.LeastSquares
import Verif.Lib.LenScale
import Verif.Lib.LenScaleTorch
import Verif.Lib.Lift
import Verif.Lib.LiftFlat
import Verif.Lib.LiftFlow
import Verif.Lib.LiftQuery
import Verif.Lib.LiftRun
import Verif.Lib.LiftTorch
import Verif.Lib.LiftTorchFail
import Verif.Lib.LiftTorchRun
import Verif.Lib.Limit
import Verif.Lib.LimitCycle
import Verif.Lib.LimitRun
import Verif.Lib.Loop
import Verif.Lib.LoopLaw
import Verif.Lib.LoopReal
import Verif.Lib.Measures
import Verif.Lib.MeasuresXR
import Verif.Lib.Monad
import Verif.Lib.Monitor
import Verif.Lib.Nan
import Verif.Lib.NanBox
import Verif.Lib.NanFlow
import Verif.Lib.Obj
import Verif.Lib.Onset
import Verif.Lib.OnsetOut
import Verif.Lib.OnsetRun
import Verif.Lib.Periodic
import Verif.Lib.Phenotype
import Verif.Lib.PhenotypeLoop
import Verif.Lib.PhenotypeModel
import Verif.Lib.PhenotypeReal
import Verif.Lib.Pice
import Verif.Lib.PiceIter
import Verif.Lib.PiceRun
import Verif.Lib.Potential
import Verif.Lib.QueryEquiv
import Verif.Lib.RecReal
import Verif.Lib.RecReal2
import Verif.Lib.Rotate
import Verif.Lib.Rounding
import Verif.Lib.ScoreLaws
import Verif.Lib.ScoreReal
import Verif.Lib.Shape
import Verif.Lib.ShapeFlow
import Verif.Lib.ShapeRec
import Verif.Lib.ShapeTorch
import Verif.Lib.Signature
import Verif.Lib.Solver
import Verif.Lib.States
import Verif.Lib.Steps
import Verif.Lib.SymReweight
import Verif.Lib.Symmetry
import Verif.Lib.TorchControl
import Verif.Lib.TorchFail
import Verif.Lib.TorchFlow
import Verif.Lib.TorchReal
import Verif.Lib.TorchTrue
import Verif.Lib.TorchVerdict
import Verif.Lib.Transport
import Verif.Lib.Verdict
import Verif.Lib.XRRuns
import Verif.Lib.XRTotal
import Verif.Model.Attr
import Verif.Model.Base
import Verif.Model.Binding
import Verif.Model.Cdist
import Verif.Model.Coverage
import Verif.Model.DPFC
import Verif.Model.Effects
import Verif.Model.FShape
import Verif.Model.Flags
import Verif.Model.Gaussian
import Verif.Model.Import
import Verif.Model.Kuramoto
import Verif.Model.LenScale
import Verif.Model.LimitCycle
import Verif.Model.Loop
import Verif.Model.Measures
import Verif.Model.Onset
import Verif.Model.Phenotype
import Verif.Model.Pice
import Verif.Model.Potential
import Verif.Model.Score
import Verif.Model.Session
import Verif.Model.Shape
import Verif.Model.States
import Verif.Model.Torch
import Verif.Model.TorchDPFC
import Verif.Props.Attr
import Verif.Props.Binding
import Verif.Props.Bridge
import Verif.Props.Consistency
import Verif.Props.Continuity
import Verif.Props.Control
import Verif.Props.ControlBound
import Verif.Props.Coverage
import Verif.Props.Depend
import Verif.Props.Displace
import Verif.Props.Draws
import Verif.Props.Effects
import Verif.Props.Embeds
import Verif.Props.EmbedsTorch
import Verif.Props.Equivariance
import Verif.Props.Estimators
import Verif.Props.FShape
import Verif.Props.Far
import Verif.Props.Flags
import Verif.Props.Gauge
import Verif.Props.Gaussian
import Verif.Props.Grid
import Verif.Props.Hard
import Verif.Props.HardTorch
import Verif.Props.Import
import Verif.Props.InPlace
import Verif.Props.Inducing
import Verif.Props.Kuramoto
import Verif.Props.KuramotoLoop
import Verif.Props.KuramotoModel
import Verif.Props.Law
import Verif.Props.LawNumpy
import Verif.Props.LawReweight
import Verif.Props.LawSym
import Verif.Props.LenScale
import Verif.Props.LenScaleTorch
import Verif.Props.LiftQuery
import Verif.Props.LimitCycle
import Verif.Props.Loop
import Verif.Props.LoopLaw
import Verif.Props.Measures
import Verif.Props.NoNoise
import Verif.Props.Onset
import Verif.Props.Periodic
import Verif.Props.PeriodicNan
import Verif.Props.Phenotype
import Verif.Props.PhenotypeLoop
import Verif.Props.PhenotypeModel
import Verif.Props.Pice
import Verif.Props.PiceFit
import Verif.Props.PiceRun
import Verif.Props.Pins
import Verif.Props.Potential
import Verif.Props.QueryEquiv
import Verif.Props.QueryVerdict
import Verif.Props.Recurrence
import Verif.Props.Reweight
import Verif.Props.ReweightRun
import Verif.Props.Rotate
import Verif.Props.Rounding
import Verif.Props.Score
import Verif.Props.Shapes
import Verif.Props.ShapesTorch
import Verif.Props.Signature
import Verif.Props.Solver
import Verif.Props.Special
import Verif.Props.States
import Verif.Props.Stein
import Verif.Props.SymReweight
import Verif.Props.Symmetry
import Verif.Props.TorchControl
import Verif.Props.TorchFail
import Verif.Props.TorchTrue
import Verif.Props.TorchVerdict
import Verif.Props.Verdict
import Verif.Spec.Arrays
import Verif.Spec.ArraysTorch
import Verif.Spec.Attr
import Verif.Spec.Binding
import Verif.Spec.Calls
import Verif.Spec.Consistency
import Verif.Spec.Control
import Verif.Spec.Effects
import Verif.Spec.Embeds
import Verif.Spec.Equivariance
import Verif.Spec.FShape
import Verif.Spec.Far
import Verif.Spec.Flow
import Verif.Spec.Gaussian
import Verif.Spec.Hard
import Verif.Spec.Ieee
import Verif.Spec.Import
import Verif.Spec.InPlace
import Verif.Spec.Kuramoto
import Verif.Spec.Law
import Verif.Spec.LawReweight
import Verif.Spec.Limit
import Verif.Spec.LimitCycle
import Verif.Spec.Loop
import Verif.Spec.LoopLaw
import Verif.Spec.Measures
import Verif.Spec.Object
import Verif.Spec.Onset
import Verif.Spec.Periodic
import Verif.Spec.Phenotype
import Verif.Spec.Pice
import Verif.Spec.Potential
import Verif.Spec.QueryVerdict
import Verif.Spec.Recurrence
import Verif.Spec.Rotate
import Verif.Spec.Rounding
import Verif.Spec.Score
import Verif.Spec.Signature
import Verif.Spec.Solver
import Verif.Spec.States
import Verif.Spec.Stein
import Verif.Spec.SymReweight
import Verif.Spec.Symmetry
import Verif.Spec.TorchTrue
import Verif.Spec.Transport
import Verif.Spec.Verdict
