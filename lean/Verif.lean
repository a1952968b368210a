import Verif.Props.ConstraintSystem
import Verif.Props.Gadgets
import Verif.Props.Rerandomize
import Verif.Props.SingleLevel
import Verif.Props.InnerProduct
import Verif.Props.Flatten
import Verif.Model.Verify
import Verif.Props.Util
import Verif.Props.Generators
import Verif.Props.Schedule
import Verif.Proofs.VerifyEq
import Verif.Proofs.Opening
import Verif.Proofs.CheatVerify
import Verif.Props.Completeness
import Verif.Props.OddForgery
import Verif.Props.Verification
import Verif.Props.ExtraPoints
import Verif.Props.Batch
import Verif.Props.Errors
import Verif.Model.Serialize
import Verif.Spec.Codec
import Verif.Proofs.Serialize
import Verif.Props.Serialize
import Verif.Model.Tree
import Verif.Spec.Tree
import Verif.Proofs.Tree
import Verif.Proofs.TreeWitness
import Verif.Props.Tree
import Verif.Model.TreeGadgets
import Verif.Spec.TreeGadgets
import Verif.Proofs.TreeSide
import Verif.Proofs.TreeSession
import Verif.Proofs.TreeComplete
import Verif.Proofs.Curve19
import Verif.Props.TreeGadgets
import Verif.Spec.Membership
import Verif.Proofs.Membership
import Verif.Proofs.TreeForge
import Verif.Props.Membership
import Verif.Model.Metrics
import Verif.Spec.Cost
import Verif.Proofs.Cost
import Verif.Proofs.Lucas
import Verif.Props.Commit
import Verif.Props.Cost
import Verif.Props.EmptySlot
import Verif.Proofs.Hiding
import Verif.Props.Hiding
import Verif.Spec.Transcript
import Verif.Proofs.Transcript
import Verif.Proofs.Silent
import Verif.Props.Transcript
import Verif.Model.Coin
import Verif.Spec.Coin
import Verif.Proofs.Coin
import Verif.Proofs.Pour19
import Verif.Props.Coin
import Verif.Props.CoinRun
import Verif.Props.Spend
import Verif.Proofs.PourSession
import Verif.Proofs.Widen
import Verif.Props.Inflation
import Verif.Proofs.PourComplete
import Verif.Props.PourHonest
import Verif.Model.BatchedTree
import Verif.Spec.BatchedTree
import Verif.Proofs.BatchedTree
import Verif.Proofs.BatchedSession
import Verif.Proofs.BatchedComplete
import Verif.Props.BatchedTree
import Verif.Proofs.Batched19
import Verif.Props.BatchedMembership
import Verif.Spec.Extraction
import Verif.Proofs.ExtractLift
import Verif.Proofs.ExtractIPP
import Verif.Proofs.ExtractSys
import Verif.Proofs.ExtractPoly
import Verif.Proofs.ExtractBasis
import Verif.Proofs.ExtractWitness
import Verif.Proofs.Extract
import Verif.Props.Soundness
import Verif.Props.SoundnessExample
import Verif.Props.EvenForgery
import Verif.Props.RangeKnowledge
import Verif.Props.SpendExample
import Verif.Props.RootSum
import Verif.Props.Anonymity
import Verif.Proofs.ProveGood
import Verif.Props.PourHiding
import Verif.Props.PourHidingExample
import Verif.Model.Parallel
import Verif.Proofs.Parallel
import Verif.Proofs.ParallelCode
import Verif.Props.Parallel
import Verif.Props.BatchedAnonymity
import Verif.Spec.Ledger
import Verif.Props.Ledger
import Verif.Props.LedgerExample
import Verif.Spec.Simulator
import Verif.Proofs.Simulator
import Verif.Props.ZeroKnowledge
import Verif.Proofs.Knowledge
import Verif.Props.SelectKnowledge
import Verif.Proofs.HonestTree
import Verif.Props.HonestTree
import Verif.Proofs.Clear
import Verif.Proofs.OpenLevel
import Verif.Proofs.OddSide
import Verif.Proofs.OddPath
import Verif.Props.RepairedForgery
import Verif.Props.RepairedForgeryExample
import Verif.Model.Shuffle
import Verif.Proofs.Shuffle
import Verif.Props.Shuffle
import Verif.Props.ShuffleExample
import Verif.Model.Accumulator
import Verif.Proofs.Accumulator
import Verif.Props.Accumulator
import Verif.Props.AccumulatorExample
import Verif.Model.Word
import Verif.Proofs.Word
import Verif.Props.Word
import Verif.Props.AccumulatorHiding
import Verif.Props.AccumulatorHidingExample
import Verif.Props.ShuffleHiding
import Verif.Spec.Metrics
import Verif.Props.Metrics
import Verif.Model.Debug
import Verif.Spec.Debug
import Verif.Proofs.Debug
import Verif.Props.Debug
import Verif.Spec.Malleability
import Verif.Props.Malleability
import Verif.Spec.Sizes
import Verif.Proofs.Sizes
import Verif.Props.Sizes
import Verif.Props.SizesExample
import Verif.Spec.RootBinding
import Verif.Proofs.RootBinding
import Verif.Props.RootBinding
import Verif.Spec.Openings
import Verif.Model.ExampleGadget
import Verif.Proofs.Openings
import Verif.Props.Openings
import Verif.Props.OpeningsExample
import Verif.Model.AdditionTest
import Verif.Proofs.PositiveTree
import Verif.Props.CurveAddition
import Verif.Props.CurveAdditionExample
import Verif.Spec.SoundnessError
import Verif.Proofs.SoundnessError
import Verif.Props.SoundnessError
import Verif.Props.SoundnessErrorExample
import Verif.Spec.Usable
import Verif.Proofs.Counting
import Verif.Props.Usable
import Verif.Proofs.PrimeCurve
import Verif.Proofs.PastaPrimes
import Verif.Proofs.PastaChains
import Verif.Model.Pasta
import Verif.Props.Pasta
import Verif.Props.UsableExample
import Verif.Spec.Secp
import Verif.Proofs.SecpWindows
import Verif.Proofs.SecpPrimes
import Verif.Proofs.SecpChains
import Verif.Model.Secp
import Verif.Props.Secp
import Verif.Spec.CompletenessError
import Verif.Proofs.Spike
import Verif.Proofs.CoinCount
import Verif.Proofs.CompletenessError
import Verif.Props.CompletenessError
import Verif.Props.MembershipError
import Verif.Props.GadgetError
import Verif.Props.ExampleError
import Verif.Proofs.OracleFree
import Verif.Proofs.PaymentError
import Verif.Proofs.PourOut
import Verif.Spec.PaymentError
import Verif.Props.PaymentError
import Verif.Proofs.MixedBatch
import Verif.Props.MixedBatch
import Verif.Props.BatchError
import Verif.Proofs.ForgeryError
import Verif.Props.ForgeryError
import Verif.Proofs.Theft
import Verif.Props.Theft
import Verif.Props.SecpPayment
import Verif.Spec.BatchSizes
import Verif.Spec.UsableBatch
import Verif.Proofs.BatchSizes
import Verif.Props.UsableBatch
import Verif.Props.BatchSizes
import Verif.Props.BatchErrorExample
import Verif.Props.AccumulatorError
import Verif.Proofs.BatchForger
import Verif.Props.BatchForger
import Verif.Props.UsableBatchExample
