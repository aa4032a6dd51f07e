import Verif.Model.Parse
import Verif.Spec.Lexical
import Verif.Proof.Guarded
import Verif.Proof.Loops
import Verif.Proof.Trivia
import Verif.Proof.Regex
import Verif.Proof.Leaf
import Verif.Proof.GuardedAll
import Verif.Proof.Knot
import Verif.Proof.Sim
import Verif.Spec.BigStep
import Verif.Proof.BigStep
import Verif.Spec.Repetition
import Verif.Proof.Repetition
import Verif.Proof.Layout
import Verif.Proof.Definitions
import Verif.Properties.Robustness
import Verif.Properties.Combinators
import Verif.Properties.Lexical
import Verif.Spec.Grammar
import Verif.Proof.Sound
import Verif.Proof.SoundType
import Verif.Proof.SoundArg
import Verif.Proof.Eval
import Verif.Proof.SoundDef
import Verif.Proof.Number
import Verif.Proof.Good
import Verif.Proof.CharStep
import Verif.Proof.Text
import Verif.Proof.Complete
import Verif.Proof.CompleteType
import Verif.Proof.CompleteArg
import Verif.Proof.CompleteLit
import Verif.Proof.CompleteTree
import Verif.Proof.CompleteMember
import Verif.Proof.CompleteDef
import Verif.Spec.Lexing
import Verif.Proof.Document
import Verif.Proof.Lexing
import Verif.Proof.Append
import Verif.Properties.Grammar
import Verif.Properties.Results
import Verif.Spec.Print
import Verif.Spec.Collect
import Verif.Proof.Print
import Verif.Proof.Collect
import Verif.Proof.Adjacent
import Verif.Spec.Map
import Verif.Proof.Lexer
import Verif.Proof.Enum
import Verif.Proof.Integer
import Verif.Proof.Map
import Verif.Properties.Rejection
import Verif.Spec.Rename
import Verif.Proof.Rename
import Verif.Properties.Types
import Verif.Properties.Names
import Verif.Spec.Kind
import Verif.Proof.Kind
import Verif.Properties.Kinds
import Verif.Spec.Nested
import Verif.Proof.Cost
import Verif.Proof.CostBound
import Verif.Proof.Weights
import Verif.Properties.Cost
import Verif.Spec.Normal
import Verif.Proof.Pass
import Verif.Proof.Normal
import Verif.Properties.Normal
import Verif.Conformance
import Verif.Documents
import Verif.Spec.Nesting
import Verif.Proof.Nesting
import Verif.Proof.Tame
import Verif.Properties.Nesting
import Verif.Spec.WebIDL
import Verif.Proof.WebIDL
import Verif.Proof.WebIDLType
import Verif.Proof.WebIDLDef
import Verif.Proof.WebIDLCheck
import Verif.Properties.WebIDL
import Verif.Proof.Prefix
import Verif.Properties.Prefix
import Verif.Model.Bytes
import Verif.Spec.Bytes
import Verif.Proof.Bytes
import Verif.Proof.ByteRun
import Verif.Proof.ByteLeaf
import Verif.Properties.Bytes
import Verif.Spec.Types
import Verif.Proof.Ending
import Verif.Proof.Parts
import Verif.Proof.Wholes
import Verif.Properties.Parts
import Verif.Source.Syntax
import Verif.Source.Text
import Verif.Source.Read
import Verif.Source.Decls
import Verif.Source.Check
import Verif.Source.Meaning
import Verif.Source.Value
import Verif.Source.Table
import Verif.Source.Conv
import Verif.Source.Find
import Verif.Source.ConvLeaf
import Verif.Source.ConvType
import Verif.Source.ConvRec
import Verif.Source.ConvDef
import Verif.Source.ConvPart
import Verif.Source.Agree
import Verif.Source.Inj
import Verif.Properties.Source
import Verif.Spec.Alphabet
import Verif.Proof.Alphabet
import Verif.Properties.Alphabet
import Verif.Properties.Expand
import Verif.Properties.Typing
import Verif.Spec.Relaxed
import Verif.Proof.RelaxedSound
import Verif.Proof.RelaxedCheck
import Verif.Properties.Relaxed
import Verif.Spec.Errors
import Verif.Proof.Errors
import Verif.Properties.Errors
import Verif.Spec.Documented
import Verif.Proof.Documented
import Verif.Source.Docs
import Verif.Properties.Documented
import Verif.Spec.Places
import Verif.Proof.Places
import Verif.Properties.Places
import Verif.Spec.Size
import Verif.Proof.Size
import Verif.Proof.SizeOf
import Verif.Proof.Depth
import Verif.Proof.DepthOf
import Verif.Proof.DepthNeeded
import Verif.Properties.Size
import Verif.Spec.Recode
import Verif.Proof.Recode
import Verif.Proof.RecodeMac
import Verif.Properties.Recode
import Verif.Spec.Alike
import Verif.Proof.Link
import Verif.Proof.LinkMac
import Verif.Proof.LinkItems
import Verif.Proof.LinkParse
import Verif.Proof.Total
import Verif.Properties.Alike
import Verif.Source.Debug
import Verif.Source.DebugProof
import Verif.Properties.Debug
import Verif.Spec.MemberKind
import Verif.Spec.Nullable
import Verif.Proof.MemberKind
import Verif.Proof.Nullable
import Verif.Proof.ValueKind
import Verif.Properties.MemberKinds
import Verif.Spec.Longest
import Verif.Proof.Longest
import Verif.Proof.LongestType
import Verif.Proof.LongestAll
import Verif.Properties.Longest
import Verif.Proof.Linear
import Verif.Proof.LinearList
import Verif.Proof.LinearWord
import Verif.Proof.LinearType
import Verif.Proof.LinearAttr
import Verif.Proof.LinearArg
import Verif.Proof.LinearMember
import Verif.Proof.LinearDef
import Verif.Properties.Linear
import Verif.Spec.Visits
import Verif.Proof.Visits
import Verif.Proof.VisitsLin
import Verif.Proof.VisitsList
import Verif.Proof.VisitsType
import Verif.Proof.VisitsAttr
import Verif.Proof.VisitsArg
import Verif.Proof.VisitsMember
import Verif.Proof.VisitsDef
import Verif.Proof.VisitsSum
import Verif.Properties.Visits
import Verif.Source.Pretty
import Verif.Source.PrettyProof
import Verif.Source.Clone
import Verif.Source.CloneProof
import Verif.Properties.Clone
import Verif.Spec.Trace
import Verif.Proof.Trace
import Verif.Proof.Cut
import Verif.Proof.CutAll
import Verif.Model.Count
import Verif.Proof.Count
import Verif.Proof.CountBound
import Verif.Proof.CountCore
import Verif.Proof.CountSum
import Verif.Properties.Cut
import Verif.Proof.CountLocal
import Verif.Proof.CountLow
import Verif.Model.CountParse
import Verif.Proof.CountParse
import Verif.Proof.CountParseLocal
import Verif.Properties.Count
import Verif.Spec.Missing
import Verif.Proof.Automaton
import Verif.Proof.AutomatonSync
import Verif.Proof.AutomatonTable
import Verif.Proof.AutomatonEdit
import Verif.Proof.AutomatonRead
import Verif.Properties.Missing
import Verif.Spec.Names
import Verif.Spec.Words
import Verif.Proof.AutomatonWord
import Verif.Properties.Words
import Verif.Spec.Items
import Verif.Proof.AutomatonItem
import Verif.Properties.Items
import Verif.Spec.Layout
import Verif.Proof.Relayout
import Verif.Properties.Layout
import Verif.Spec.Contents
import Verif.Proof.Contents
import Verif.Properties.Contents
import Verif.Spec.Swap
import Verif.Proof.AutomatonSwap
import Verif.Properties.Swap
import Verif.Spec.Pieces
import Verif.Proof.Pieces
import Verif.Properties.Pieces
import Verif.Spec.Lists
import Verif.Proof.Lists
import Verif.Properties.Lists
import Verif.Spec.Attached
import Verif.Proof.Attached
import Verif.Properties.Attached
import Verif.Spec.Order
import Verif.Source.OrderProof
import Verif.Properties.Order
import Verif.Spec.Rearrange
import Verif.Proof.Rearrange
import Verif.Properties.Rearrange
import Verif.Proof.Broken
import Verif.Properties.Broken
import Verif.Source.Traced
import Verif.Source.TracedProof
import Verif.Properties.Traced
import Verif.Source.Legal
import Verif.Source.ExactBase
import Verif.Source.ExactItems
import Verif.Source.Exact
import Verif.Source.ExactTypes
import Verif.Source.Found
import Verif.Properties.Legal
import Verif.Properties.Occurs
import Verif.Source.Replace
import Verif.Source.ReplaceProof
import Verif.Properties.Replace
import Verif.Properties.RearrangeValue
import Verif.Properties.Clear
