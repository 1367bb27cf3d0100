import Verif.QuickSelectProps
import Verif.InequalityProps
import Verif.BloomProps
import Verif.BloomFalse
import Verif.BloomFalseProps
import Verif.CountMinProps
import Verif.ThetaUpdateProps
import Verif.ThetaUnionProps
import Verif.ThetaANotBProps
import Verif.BitStreamProps
import Verif.ThetaDecodeProps
import Verif.ThetaLegacyProps
import Verif.FreqProps
import Verif.FreqSerdeModel
import Verif.FreqSerde
import Verif.FreqSerdeProps
import Verif.HllProps
import Verif.HllSerdeModel
import Verif.HllSerde
import Verif.HllSerdeRun
import Verif.HllSerdeUnion
import Verif.HllSerdeProps
import Verif.ReservoirProps
import Verif.ReservoirSerdeProps
import Verif.VarOptProps
import Verif.VarOptSpread
import Verif.VarOptHeavy
import Verif.VarOptSpreadProps
import Verif.VarOptSerdeModel
import Verif.VarOptSerde
import Verif.VarOptSerdeProps
import Verif.KllProps
import Verif.KllViewProps
import Verif.NumericViewProps
import Verif.ReqProps
import Verif.ReqFairProps
import Verif.ReqSpreadProps
import Verif.TupleModel
import Verif.TupleStrip
import Verif.TupleKeys
import Verif.TupleLaws
import Verif.TupleUpdateProps
import Verif.TupleUnionProps
import Verif.TupleInterProps
import Verif.TupleANotBProps
import Verif.ByteReader
import Verif.TupleSerdeModel
import Verif.TupleSerdeProps
import Verif.TupleNumbersProps
import Verif.CpcModel
import Verif.CpcTable
import Verif.CpcDelete
import Verif.CpcMatrix
import Verif.CpcSketch
import Verif.CpcUpdate
import Verif.CpcStream
import Verif.CpcHip
import Verif.CpcMean
import Verif.CpcUnion
import Verif.CpcUnionRun
import Verif.CpcProps
import Verif.CpcIconTab
import Verif.CpcEstModel
import Verif.PolyCert
import Verif.CpcIcon
import Verif.CpcBounds
import Verif.CpcEstProps
import Verif.CpcCodeTables
import Verif.CpcCodec
import Verif.CpcBits
import Verif.CpcPrefix
import Verif.CpcPairs
import Verif.CpcArrays
import Verif.CpcCompress
import Verif.CpcRound
import Verif.CpcImage
import Verif.CpcImport
import Verif.CpcSerde
import Verif.CpcSerdeProps
import Verif.TDigestModel
import Verif.TDigestMerge
import Verif.TDigestInv
import Verif.TDigestRank
import Verif.TDigestRankVal
import Verif.TDigestQuantile
import Verif.TDigestExact
import Verif.TDigestSize
import Verif.TDigestSerdeModel
import Verif.TDigestSerde
import Verif.TDigestProps
import Verif.TDigestLegacyModel
import Verif.TDigestLegacy
import Verif.TDigestLegacyProps
import Verif.Buf
import Verif.ItemSerdeModel
import Verif.ItemSerde
import Verif.ItemSerdeProps
import Verif.KllSerdeModel
import Verif.KllSerde
import Verif.KllSerdeProps
import Verif.ThetaEstimateProps
import Verif.CountMinErrorProps
import Verif.Murmur3Props
import Verif.ItemsProps
import Verif.BinomialProps
import Verif.SubsetBoundsProps
import Verif.ThetaJaccardProps
import Verif.TupleJaccardProps
import Verif.FreqTextProps
import Verif.HllTables
import Verif.HllEstModel
import Verif.HllHip
import Verif.HllHipStep
import Verif.HllInterp
import Verif.HllHipLow
import Verif.HllHipProps
import Verif.HllCubic
import Verif.HllComposite
import Verif.HllBounds
import Verif.HllBoundsProps
import Verif.CpcExpected
import Verif.CpcOccupancy
import Verif.CpcIconGrid
import Verif.CpcInverse
import Verif.CpcInverseRows
import Verif.CpcInverseMain
import Verif.CpcInverseProps
import Verif.KllIter
import Verif.KllIterProps
import Verif.BloomBuilder
import Verif.BloomRate
import Verif.BloomBuilderProps
import Verif.TupleNumbersOps
import Verif.NumericIterProps
import Verif.KllPartition
import Verif.KllPartitionProps
import Verif.ThetaMaxSize
import Verif.VarOptSize
import Verif.FreqFloat
import Verif.TupleEstimate
import Verif.TupleEstimateProps
import Verif.QueryArrays
import Verif.ReservoirSpread
import Verif.ReservoirSpreadProps
import Verif.VarOptUnionSpread
import Verif.VarOptUnionSpreadProps
import Verif.XxHash
import Verif.BloomItemsProps
import Verif.ReservoirRaw
import Verif.ReservoirRawProps
import Verif.KllError
import Verif.KllErrorProps
import Verif.ReqBoundsProps
