import Verif.Spec.Arith
import Verif.Model.Math
import Verif.Lemmas.Math
import Verif.Props.Math
import Verif.Spec.Tensor
import Verif.Model.Tensor
import Verif.Lemmas.Tensor
import Verif.Props.Tensor
import Verif.Model.Mem
import Verif.Lemmas.Mem
import Verif.Model.Permute
import Verif.Lemmas.Generic
import Verif.Props.Permute
import Verif.Model.Dma
import Verif.Props.Dma
import Verif.Model.Mov
import Verif.Lemmas.Contig
import Verif.Props.Mov
import Verif.Model.Iter
import Verif.Props.Iter
import Verif.Spec.View
import Verif.Model.View
import Verif.Props.View
import Verif.Model.MoveCs
import Verif.Props.MoveCs
import Verif.Spec.Traverse
import Verif.Model.Squash
import Verif.Lemmas.Walk
import Verif.Props.Squash
import Verif.Spec.Lut
import Verif.Lemmas.Round
import Verif.Lemmas.Map
import Verif.Model.Lut
import Verif.Props.Lut
import Verif.Spec.Relu
import Verif.Model.Relu
import Verif.Props.Relu
import Verif.Model.Eltwise
import Verif.Props.Eltwise
import Verif.Lemmas.Emit
import Verif.Spec.Window
import Verif.Model.Pool
import Verif.Lemmas.Window
import Verif.Props.Pool
import Verif.Model.AvePool
import Verif.Props.AvePool
import Verif.Spec.Conv
import Verif.Spec.Scale
import Verif.Model.Quant
import Verif.Model.Conv
import Verif.Lemmas.Sum
import Verif.Lemmas.Dot
import Verif.Lemmas.ConvRun
import Verif.Props.Quant
import Verif.Props.Conv
import Verif.Props.ConvSa8
import Verif.Props.ConvMore
import Verif.Props.ConvRuntime
import Verif.Model.Batch
import Verif.Props.Batch
import Verif.Spec.Fc
import Verif.Model.Fc
import Verif.Props.Fc
import Verif.Spec.TopK
import Verif.Model.Argmax
import Verif.Lemmas.Heap
import Verif.Lemmas.Lex
import Verif.Props.Argmax
import Verif.Lemmas.Pos
import Verif.Spec.Rescale
import Verif.Model.Rescale
import Verif.Props.Rescale
import Verif.Spec.Reduce
import Verif.Model.Reduce
import Verif.Props.Reduce
import Verif.Spec.Resize
import Verif.Model.Resize
import Verif.Props.Resize
import Verif.Spec.MatMul
import Verif.Model.MatMul
import Verif.Props.MatMul
import Verif.Spec.Broadcast
import Verif.Model.Broadcast
import Verif.Props.Broadcast
import Verif.Model.Convert
import Verif.Lemmas.Slices
import Verif.Props.ConvertVal
import Verif.Props.Convert
import Verif.Spec.TransposeConv
import Verif.Model.TransposeConv
import Verif.Lemmas.ConvGen
import Verif.Lemmas.TransposeConv
import Verif.Props.TransposeConv
import Verif.Model.GroupConv
import Verif.Props.GroupConv
import Verif.Model.LeakyRelu
import Verif.Spec.LeakyRelu
import Verif.Lemmas.Leaky
import Verif.Props.LeakyRelu
import Verif.Spec.EltSa
import Verif.Lemmas.EltSa
import Verif.Props.EltSa
import Verif.Spec.AvePool
import Verif.Props.AvePoolSa
import Verif.Props.FcIssue
import Verif.Spec.Real
import Verif.Lemmas.RealFun
import Verif.Lemmas.LutReal
import Verif.Lemmas.LutNodes
import Verif.Props.LutReal
import Verif.Model.Softmax
import Verif.Spec.Axis
import Verif.Spec.Softmax
import Verif.Lemmas.Axis
import Verif.Lemmas.AxisRun
import Verif.Lemmas.SoftmaxNum
import Verif.Props.Softmax
import Verif.Model.L2Norm
import Verif.Spec.L2Norm
import Verif.Lemmas.L2Num
import Verif.Props.L2Norm
import Verif.Model.Rnn
import Verif.Lemmas.Rnn
import Verif.Props.Rnn
import Verif.Spec.Rnn
import Verif.Model.RnnCell
import Verif.Model.Lstm
import Verif.Lemmas.Rows
import Verif.Lemmas.RnnCell
import Verif.Lemmas.CellLoop
import Verif.Lemmas.CellChk
import Verif.Lemmas.Lstm
import Verif.Lemmas.LstmAll
import Verif.Lemmas.CellFx
import Verif.Lemmas.CellSa
import Verif.Lemmas.CellSplit
import Verif.Props.Lstm
import Verif.Model.Gru
import Verif.Lemmas.Gru
import Verif.Props.Gru
import Verif.Model.TileRun
import Verif.Model.EltRuntime
import Verif.Lemmas.Unit
import Verif.Lemmas.EltTile
import Verif.Lemmas.Tiles
import Verif.Lemmas.EltRuntime
import Verif.Props.EltRuntime
import Verif.Lemmas.WinTiles
import Verif.Model.PoolRuntime
import Verif.Lemmas.PoolTile
import Verif.Lemmas.PoolRuntime
import Verif.Props.PoolRuntime
import Verif.Model.ConvTiles
import Verif.Lemmas.ConvTiles
import Verif.Props.ConvTiles
import Verif.Model.Params
import Verif.Lemmas.Params
import Verif.Props.Params
import Verif.Model.MapRuntime
import Verif.Lemmas.MapRuntime
import Verif.Props.MapRuntime
import Verif.Model.UnRuntime
import Verif.Lemmas.UnRuntime
import Verif.Props.UnRuntime
import Verif.Model.MatMulRuntime
import Verif.Lemmas.MatMulRuntime
import Verif.Props.MatMulRuntime
import Verif.Model.LayerRuntime
import Verif.Lemmas.LayerRuntime
import Verif.Props.LayerRuntime
import Verif.Model.BufSize
import Verif.Props.BufSize
import Verif.Props.Shrink
import Verif.Model.TransposeTiles
import Verif.Lemmas.TransposeTiles
import Verif.Lemmas.TransposeRun
import Verif.Props.TransposeTiles
import Verif.Model.Link
import Verif.Props.Link
import Verif.Model.MovCfg
import Verif.Props.MovCfg
import Verif.Model.LutCreate
import Verif.Props.LutCreate
import Verif.Model.FixedKernel
import Verif.Props.FixedKernel
import Verif.Model.PointSub
import Verif.Props.PointSub
import Verif.Model.EncodeWts
import Verif.Props.EncodeWts
import Verif.Model.IterOps
import Verif.Props.IterOps
import Verif.Props.Gran
import Verif.Spec.Float
import Verif.Model.Float
import Verif.Model.ConvertFloat
import Verif.Lemmas.Float
import Verif.Lemmas.ConvertFloat
import Verif.Props.ConvertFloat
import Verif.Model.FcLayer
import Verif.Props.FcLayer
import Verif.Model.DcLayer
import Verif.Lemmas.DcLayer
import Verif.Props.DcLayer
import Verif.Spec.Accept
import Verif.Lemmas.Accept
import Verif.Props.Accept
import Verif.Spec.QuantMem
import Verif.Model.QuantMem
import Verif.Props.QuantMem
import Verif.Props.QuantPermute
import Verif.Props.QuantMov
import Verif.Spec.RealLayer
import Verif.Lemmas.RealLayer
import Verif.Props.RealLayer
import Verif.Props.RealRnn
import Verif.Props.MathMore
import Verif.Spec.Net
import Verif.Model.Net
import Verif.Props.Net
import Verif.Spec.Cnn
import Verif.Model.Cnn
import Verif.Props.Cnn
import Verif.Model.CnnSa
import Verif.Props.CnnSa
import Verif.Spec.Cifar
import Verif.Model.Cifar
import Verif.Props.Cifar
import Verif.Spec.Har
import Verif.Model.Har
import Verif.Props.Har
import Verif.Model.HarLstm
import Verif.Props.HarLstm
import Verif.Props.AcceptRank
import Verif.Model.HarW
import Verif.Props.HarW
import Verif.Model.HarWLstm
import Verif.Props.HarWLstm
import Verif.Model.CnnW
import Verif.Props.CnnW
import Verif.Props.ConvAbs
import Verif.Props.FcAbs
import Verif.Model.CifarW
import Verif.Props.CifarW
import Verif.Props.NetAbs
