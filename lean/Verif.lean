import Verif.Props.Leaf
import Verif.Props.Fields
import Verif.Model.Api
import Verif.Proof.Root
import Verif.Proof.Term
import Verif.Proof.ErrIdx
import Verif.Proof.Reads
import Verif.Proof.Session
import Verif.Proof.Append
import Verif.Props.Api
import Verif.Props.Decode
import Verif.Proof.Fragment
import Verif.Proof.Demo
import Verif.Proof.ErrKind
import Verif.Props.Safety
import Verif.Props.Scalars
import Verif.Props.Structs
import Verif.Props.Any
import Verif.Props.Unknown
import Verif.Props.NewDecoder
import Verif.Props.NilOptions
import Verif.Props.Recursive
import Verif.Spec.Means
import Verif.Proof.Means
import Verif.Proof.MeansConv
import Verif.Props.Means
import Verif.Spec.Kinds
import Verif.Props.Kinds
import Verif.Spec.Place
import Verif.Proof.Place
import Verif.Proof.PlaceRun
import Verif.Props.Place
import Verif.Spec.Drop
import Verif.Proof.Drop
import Verif.Props.Drop
import Verif.Spec.Alias
import Verif.Proof.Alias
import Verif.Proof.AliasRun
import Verif.Props.Alias
import Verif.Spec.Twice
import Verif.Proof.Twice
import Verif.Proof.OnceB
import Verif.Props.Twice
import Verif.Big.Rec
import Verif.Spec.Recursive
import Verif.Proof.SimRec
import Verif.Proof.SimRecVal
import Verif.Proof.SimRecComp
import Verif.Proof.SimRecObj
import Verif.Proof.RecTypes
import Verif.Proof.RecVal
import Verif.Proof.RecFragment
import Verif.Proof.RecReads
import Verif.Proof.RecMeans
import Verif.Proof.RecDemo
import Verif.Props.RecTypes
import Verif.Big.Root
import Verif.Spec.Root
import Verif.Proof.RootSim
import Verif.Proof.RootVal
import Verif.Props.RootStruct
import Verif.Conform.Base
import Verif.Conform.Types
import Verif.Conform.Part1
import Verif.Conform.Part2
import Verif.Conform.Part3
import Verif.Conform.Part4
import Verif.Conform.Part5
import Verif.Conform.Part6
import Verif.Conform.Frames
import Verif.Spec.Json
import Verif.Proof.Json
import Verif.Proof.JsonParse
import Verif.Spec.Same
import Verif.Proof.Same
import Verif.Spec.Encode
import Verif.Proof.Encode
import Verif.Props.RoundTrip
import Verif.Spec.Options
import Verif.Proof.Options
import Verif.Props.Options
import Verif.Props.Spelling
import Verif.Props.Reorder
import Verif.Props.Grow
import Verif.Props.Parts
import Verif.Props.GrowPtr
import Verif.Model.Number
import Verif.Proof.Number
import Verif.Props.Number
import Verif.Proof.FastStr
import Verif.Props.FastStr
import Verif.Spec.RecSafe
import Verif.Spec.RecEncode
import Verif.Proof.RecIdeal
import Verif.Proof.RecOutcome
import Verif.Proof.RecDrop
import Verif.Proof.RecEncode
import Verif.Props.RecMore
import Verif.Props.RecDrop
import Verif.Props.RecRoundTrip
import Verif.Spec.Footprint
import Verif.Proof.FootMem
import Verif.Proof.FootTok
import Verif.Proof.FootRun
import Verif.Props.Footprint
import Verif.Spec.Descriptors
import Verif.Proof.Descriptors
import Verif.Props.Descriptors
import Verif.Spec.NoArrays
import Verif.Proof.Reuse
import Verif.Props.Reuse
import Verif.Model.Names
import Verif.Props.Names
import Verif.Props.Inside
import Verif.Big.Inside
import Verif.Spec.Inside
import Verif.Proof.SimInside
import Verif.Proof.SimInsideComp
import Verif.Proof.SimInsideStruct
import Verif.Proof.SimInsideRoot
import Verif.Proof.InsideTypes
import Verif.Proof.InsideVal
import Verif.Proof.InsideReads
import Verif.Proof.InsideMeans
import Verif.Proof.InsideDemo
import Verif.Spec.Judge
import Verif.Proof.Judge
import Verif.Props.Judge
import Verif.Big.Full
import Verif.Spec.Right
import Verif.Proof.SimRight
import Verif.Proof.ValRight
import Verif.Proof.Right
import Verif.Proof.RightMeans
import Verif.Proof.RightB
import Verif.Proof.RightMono
import Verif.Proof.TypedRight
import Verif.Proof.TwiceRight
import Verif.Proof.DropRight
import Verif.Proof.UnknownRight
import Verif.Proof.ReorderRight
import Verif.Props.Right
import Verif.Spec.RightVal
import Verif.Props.Layer
import Verif.Spec.Evolve
import Verif.Spec.Shuffle
import Verif.Proof.Evolve
import Verif.Proof.Shuffle
import Verif.Props.Evolve
import Verif.Props.Shuffle
import Verif.Spec.Causal
import Verif.Proof.CausalRun
import Verif.Proof.CausalStep
import Verif.Proof.CausalOpen
import Verif.Proof.CausalAll
import Verif.Proof.CausalText
import Verif.Props.Causal
import Verif.Proof.KeptAddr
import Verif.Proof.KeptCell
import Verif.Proof.Kept
import Verif.Props.Kept
import Verif.Spec.NoSlices
import Verif.Spec.Bounds
import Verif.Spec.Structless
import Verif.Proof.Structless
import Verif.Props.Bounds
import Verif.Props.Sure
import Verif.Props.PartsMore
import Verif.Props.RightMore
import Verif.Props.Widen
import Verif.Spec.Piece
import Verif.Proof.Piece
import Verif.Proof.JsonB
import Verif.Props.Piece
import Verif.Props.Agree
import Verif.Spec.Quoted
import Verif.Proof.AtoiBytes
import Verif.Proof.Quoted
import Verif.Props.Quoted
import Verif.Props.RecLayer
import Verif.Props.RecWiden
import Verif.Props.RecEvolve
import Verif.Props.RecShuffle
import Verif.Props.RecParts
import Verif.Props.InsideParts
import Verif.Props.InsideMore
import Verif.Props.InsidePiece
import Verif.Props.InsideDrop
