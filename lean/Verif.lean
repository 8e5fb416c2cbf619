import Verif.Model.Basic
import Verif.Model.Ty
import Verif.Model.Equality
import Verif.Model.Printer
import Verif.Model.Ctor
import Verif.Model.Lexer
import Verif.Model.Parser
import Verif.Model.SymTab
import Verif.Spec.Subterms
import Verif.Spec.Same
import Verif.Spec.WellFormed
import Verif.Spec.Lexical
import Verif.Spec.Grammar
import Verif.Model.TrueDiv
import Verif.Proofs.TrueDiv
import Verif.Proofs.Equality
import Verif.Proofs.Same
import Verif.Proofs.Numeral
import Verif.Proofs.Lexer
import Verif.Proofs.Grammar
import Verif.Proofs.NoFuel
import Verif.Props.Equality
import Verif.Proofs.Fuel
import Verif.Proofs.SymTab
import Verif.Proofs.AtEnd
import Verif.Spec.TimeUnits
import Verif.Spec.Encodings
import Verif.Proofs.Strings
import Verif.Props.Strings
import Verif.Proofs.Complete
import Verif.Proofs.SymSep
import Verif.Proofs.Layout
import Verif.Props.Parsing
import Verif.Props.Grammar
import Verif.Proofs.WF
import Verif.Props.WellFormed
import Verif.Model.Util
import Verif.Proofs.Util
import Verif.Props.Util
import Verif.Model.Numpy
import Verif.Props.Numpy
import Verif.Model.Typesets
import Verif.Model.Predicates
import Verif.Props.Typesets
import Verif.Props.Maxtype
import Verif.Props.Promote
import Verif.Props.Predicates
import Verif.Model.Graph
import Verif.Spec.Graph
import Verif.Proofs.Graph
import Verif.Props.Graph
import Verif.Model.Subshape
import Verif.Spec.Slices
import Verif.Spec.Indexing
import Verif.Props.Subshape
import Verif.Model.Discovery
import Verif.Props.Common
import Verif.Props.Discovery
import Verif.Props.DiscoverDicts
import Verif.Model.User
import Verif.Model.Testing
import Verif.Model.Params
import Verif.Spec.Matches
import Verif.Spec.SameRank
import Verif.Props.User
import Verif.Props.Testing
import Verif.Props.Agree
import Verif.Props.Params
import Verif.Spec.Printable
import Verif.Proofs.Print
import Verif.Proofs.RoundTrip
import Verif.Props.RoundTrip
import Verif.Spec.Denotes
import Verif.Props.Sugar
import Verif.Props.Exact
import Verif.Spec.Constructors
import Verif.Props.Names
import Verif.Props.Constructors
import Verif.Model.StrDiscovery
import Verif.Spec.StrDiscovery
import Verif.Proofs.StrDiscovery
import Verif.Props.StrDiscovery
import Verif.Model.ArrayDiscovery
import Verif.Props.ArrayDiscovery
import Verif.Props.Mappings
import Verif.Props.Alphabet
import Verif.Model.Repr
import Verif.Spec.Source
import Verif.Props.Repr
import Verif.Props.Stable
import Verif.Model.Build
import Verif.Spec.Build
import Verif.Props.Build
import Verif.Props.Multiply
import Verif.Props.DimText
import Verif.Spec.CallErrors
import Verif.Props.CallErrors
import Verif.Model.TestingPath
import Verif.Spec.Path
import Verif.Props.TestingPath
import Verif.Props.SymTable
import Verif.Props.SyntaxErrors
import Verif.Props.Steps
import Verif.Props.Named
import Verif.Props.Ragged
import Verif.Spec.Numpy
import Verif.Props.NumpyReverse
import Verif.Model.Sequence
import Verif.Props.Sequence
import Verif.Model.Categories
import Verif.Spec.Categories
import Verif.Props.Categories
import Verif.Props.SliceDown
import Verif.Spec.SliceLaw
import Verif.Props.SliceLaw
import Verif.Props.SubshapeConverse
import Verif.Spec.Yields
import Verif.Props.SubshapeExact
import Verif.Spec.YieldErrors
import Verif.Props.SubshapeErrors
import Verif.Spec.Discovered
import Verif.Props.Discovered
import Verif.Spec.Tables
import Verif.Props.Tables
import Verif.Spec.Position
import Verif.Proofs.Position
import Verif.Spec.Interchange
import Verif.Proofs.Interchange
import Verif.Proofs.InterchangePrint
import Verif.Proofs.InterchangeUse
import Verif.Proofs.InterchangePred
import Verif.Props.Interchange
import Verif.Spec.Uniform
import Verif.Props.Uniform
import Verif.Spec.Repr
import Verif.Props.ReprTypes
import Verif.Props.Objects
import Verif.Props.Classes
import Verif.Props.Pretty
import Verif.Model.Registry
import Verif.Spec.Registry
import Verif.Props.Registry
import Verif.Spec.Dtype
import Verif.Props.Dtype
import Verif.Spec.Raises
import Verif.Proofs.Broken
import Verif.Proofs.Causes
import Verif.Props.Raises
import Verif.Props.RowOrder
import Verif.Props.Sequences
import Verif.Props.NumberTexts
import Verif.Props.Version
import Verif.Props.VersionKeywords
import Verif.Props.RecordCall
import Verif.Props.DtypeErrors
import Verif.Props.DictKeys
import Verif.Props.Messages
import Verif.Props.DtypeMessages
import Verif.Props.DiscoverCalls
import Verif.Props.DiscoverSize
import Verif.Conform.Rest
import Verif.Audit
