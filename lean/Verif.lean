import Verif.Props.Concat
import Verif.Props.Dense
import Verif.Props.Slide
import Verif.Props.Activation
import Verif.Props.Loss
import Verif.Props.Recurrent
import Verif.Props.Optimizer
import Verif.Props.Dropout
import Verif.Props.Graph
import Verif.Props.Net
import Verif.Props.Data
import Verif.Props.DataOps
import Verif.Props.DataNorm
import Verif.Props.DataConcat
import Verif.Props.DataMat
import Verif.Props.DataHist
import Verif.Props.Encoding
import Verif.Props.Training
import Verif.Props.World
import Verif.Props.Parallel
import Verif.Props.TypeChecker
import Verif.Props.Json
import Verif.Props.JsonText
import Verif.Props.JsonHeap
import Verif.Props.Csv
import Verif.Props.Number
import Verif.Props.CsvRef
import Verif.Props.Rounding
import Verif.Props.RoundingNet
import Verif.Props.Finite
import Verif.Props.ClassGrad
import Verif.Props.Images
import Verif.Props.Dump
import Verif.Props.DumpModel
import Verif.Props.ConcatLayer
import Verif.Props.Init
import Verif.Props.Backprop
import Verif.Proofs.History
import Verif.Proofs.NnEval
import Verif.Props.Nn
import Verif.Props.Dynamic
import Verif.Spec.Session
import Verif.Proofs.Bisim
import Verif.Proofs.BisimStep
import Verif.Proofs.Session
import Verif.Props.Session
import Verif.Proofs.Frame
import Verif.Proofs.Refit
import Verif.Proofs.RefitFnn
import Verif.Props.Refit
import Verif.Proofs.Total
import Verif.Proofs.TotalNet
import Verif.Proofs.TotalFnn
import Verif.Props.Total
import Verif.Model.Memory
import Verif.Spec.Memory
import Verif.Proofs.Memory
import Verif.Props.Memory
import Verif.Props.MemorySlide
import Verif.Props.MemoryConcat
import Verif.Spec.Descent
import Verif.Proofs.Joint
import Verif.Proofs.Descent
import Verif.Proofs.JointTheta
import Verif.Proofs.Small
import Verif.Props.Descent
import Verif.Proofs.Barrier
import Verif.Props.ParallelFit
import Verif.Audit
import Verif.Proofs.Calls
import Verif.Props.Calls
import Verif.Spec.Star
import Verif.Proofs.StarRun
import Verif.Proofs.Star
import Verif.Proofs.StarStep
import Verif.Proofs.StarAll
import Verif.Props.Star
import Verif.Props.Thin
import Verif.Props.Drift
import Verif.Props.FloatTrain
import Verif.Props.Shape
import Verif.Props.Array
import Verif.Props.ShapeHistory
import Verif.Props.ShapeDrift
import Verif.Props.ShapeRnn
import Verif.Props.LeastSquares
import Verif.Props.Grid
import Verif.Props.Print
import Verif.Props.Scores
import Verif.Props.Exceptions
import Verif.Props.Copies
import Verif.Props.BatchOrder
import Verif.Props.ShapeScores
import Verif.Props.SeenScores
import Verif.Props.LastScores
import Verif.Props.Multi
import Verif.Props.AdamBound
import Verif.Props.Gain
import Verif.Spec.Still
import Verif.Proofs.Still
import Verif.Props.Still
import Verif.Props.Range
import Verif.Props.Field
import Verif.Props.Marks
import Verif.Props.Idle
import Verif.Props.GraphVector
import Verif.Props.JsonAs
import Verif.Props.Arma
import Verif.Spec.Spare
import Verif.Proofs.Spare
import Verif.Props.Spare
import Verif.Spec.Aside
import Verif.Proofs.Aside
import Verif.Props.Aside
import Verif.Props.IdleModel
import Verif.Spec.Reorder
import Verif.Proofs.Reorder
import Verif.Props.Reorder
import Verif.Spec.Rescale
import Verif.Proofs.Rescale
import Verif.Props.Rescale
import Verif.Spec.Origin
import Verif.Proofs.Origin
import Verif.Props.Origin
