import Verif.Props.Agree
import Verif.Props.Alphabet
import Verif.Props.ArrayDiscovery
import Verif.Props.Build
import Verif.Props.CallErrors
import Verif.Props.Categories
import Verif.Props.Classes
import Verif.Props.Common
import Verif.Props.Constructors
import Verif.Props.DictKeys
import Verif.Props.DimText
import Verif.Props.DiscoverCalls
import Verif.Props.DiscoverDicts
import Verif.Props.DiscoverSize
import Verif.Props.Discovered
import Verif.Props.Discovery
import Verif.Props.Dtype
import Verif.Props.DtypeErrors
import Verif.Props.DtypeMessages
import Verif.Props.Equality
import Verif.Props.Exact
import Verif.Props.Grammar
import Verif.Props.Graph
import Verif.Props.Interchange
import Verif.Props.Mappings
import Verif.Props.Maxtype
import Verif.Props.Messages
import Verif.Props.Multiply
import Verif.Props.Named
import Verif.Props.Names
import Verif.Props.NumberTexts
import Verif.Props.Numpy
import Verif.Props.NumpyReverse
import Verif.Props.Objects
import Verif.Props.Params
import Verif.Props.Parsing
import Verif.Props.Predicates
import Verif.Props.Pretty
import Verif.Props.Promote
import Verif.Props.Ragged
import Verif.Props.Raises
import Verif.Props.RecordCall
import Verif.Props.Registry
import Verif.Props.Repr
import Verif.Props.ReprTypes
import Verif.Props.RoundTrip
import Verif.Props.RowOrder
import Verif.Props.Sequence
import Verif.Props.Sequences
import Verif.Props.SliceDown
import Verif.Props.SliceLaw
import Verif.Props.Stable
import Verif.Props.Steps
import Verif.Props.StrDiscovery
import Verif.Props.Strings
import Verif.Props.Subshape
import Verif.Props.SubshapeConverse
import Verif.Props.SubshapeErrors
import Verif.Props.SubshapeExact
import Verif.Props.Sugar
import Verif.Props.SymTable
import Verif.Props.SyntaxErrors
import Verif.Props.Tables
import Verif.Props.Testing
import Verif.Props.TestingPath
import Verif.Props.Typesets
import Verif.Props.Uniform
import Verif.Props.User
import Verif.Props.Util
import Verif.Props.Version
import Verif.Props.VersionKeywords
import Verif.Props.WellFormed

/- Generated by tools/manifest.py: the axioms of every theorem of MANIFEST.json. -/
#print axioms DS.C01.field_name_exact
#print axioms DS.C01.string_exact
#print axioms DS.C01.categories_exact
#print axioms DS.C01.unspelled_types
#print axioms DS.C01.unspelled_dimensions
#print axioms DS.C01.unspelled_nesting
#print axioms DS.C01.unspelled_categorical_type
#print axioms DS.C01.injective
#print axioms DS.C01.roundtrip
#print axioms DS.C01.identical
#print axioms DS.C01.measure
#print axioms DS.C01.parsed
#print axioms DS.C01.example
#print axioms DS.C01.stable
#print axioms DS.C02.roundtrip
#print axioms DS.C02.width_irrelevant
#print axioms DS.C02.identical
#print axioms DS.C02.repr
#print axioms DS.C02.stable
#print axioms DS.C03.lexer
#print axioms DS.C03.parser
#print axioms DS.C03.parse_datashape_eq
#print axioms DS.C03.dshape
#print axioms DS.C03.dshape_recursion
#print axioms DS.C03.default
#print axioms DS.C03.steps_result
#print axioms DS.C03.linear
#print axioms DS.C03.linear_text
#print axioms DS.C03.depth
#print axioms DS.C04.span
#print axioms DS.C04.ordered
#print axioms DS.C04.before
#print axioms DS.C04.between
#print axioms DS.C04.after
#print axioms DS.C04.empty
#print axioms DS.C04.exact
#print axioms DS.C05.offset
#print axioms DS.C05.line
#print axioms DS.C05.caret
#print axioms DS.C06.sound
#print axioms DS.C06.complete
#print axioms DS.C06.exact
#print axioms DS.C06.documented
#print axioms DS.C06.unambiguous_extended
#print axioms DS.C06.any_table
#print axioms DS.C06.unambiguous
#print axioms DS.C06.dropped_var
#print axioms DS.C06.dropped_ellipsis
#print axioms DS.C06.dropped_qmark
#print axioms DS.C06.dropped_tail
#print axioms DS.C06.typevar_not_implemented
#print axioms DS.C07.alphabet
#print axioms DS.C07.whitespace
#print axioms DS.C07.numerals
#print axioms DS.C07.leading
#print axioms DS.C07.trailing
#print axioms DS.C07.trailing_space
#print axioms DS.C07.between
#print axioms DS.C07.joined
#print axioms DS.C07.same_tokens
#print axioms DS.C07.same_broken
#print axioms DS.C08.eq_iff_same
#print axioms DS.C08.eq_refl
#print axioms DS.C08.eq_symm
#print axioms DS.C08.eq_trans
#print axioms DS.C08.singleton_eq_measure
#print axioms DS.C08.option_of_array_witness
#print axioms DS.C08.dshape_eq_iff
#print axioms DS.C08.typeset_asymmetric
#print axioms DS.C08.distinguishes
#print axioms DS.C09.eq_hash
#print axioms DS.C09.hash_eq_of_free
#print axioms DS.C09.fixed_int_hash_differs
#print axioms DS.C09.typeset_hash_differs
#print axioms DS.C10.wellformed
#print axioms DS.C10.dims
#print axioms DS.C10.fields
#print axioms DS.C10.encoding
#print axioms DS.C10.unit
#print axioms DS.C10.typevar
#print axioms DS.C10.nested
#print axioms DS.C10.equality_laws
#print axioms DS.C10.fixed
#print axioms DS.C11.validate_iff
#print axioms DS.C11.parsed
#print axioms DS.C11.rejected
#print axioms DS.C11.rejects
#print axioms DS.C11.record_not_visited
#print axioms DS.C11.ellipsis_measure
#print axioms DS.C12.terminates
#print axioms DS.C12.exact
#print axioms DS.C12.canonical
#print axioms DS.C12.idempotent
#print axioms DS.C12.accepts
#print axioms DS.C12.errors
#print axioms DS.C12.runs_out
#print axioms DS.C12.blank_indexError
#print axioms DS.C12.sss_indexError
#print axioms DS.C12.timedelta
#print axioms DS.C13.two_args
#print axioms DS.C13.one_str
#print axioms DS.C13.default
#print axioms DS.C13.unknown
#print axioms DS.C13.canonical
#print axioms DS.C13.rebuild
#print axioms DS.C13.rebuild_var
#print axioms DS.C13.spelling_eq
#print axioms DS.C14.construct
#print axioms DS.C14.duplicate
#print axioms DS.C14.lookup
#print axioms DS.C14.equal_iff
#print axioms DS.C14.order_matters
#print axioms DS.C15.literal
#print axioms DS.C15.bad_item
#print axioms DS.C15.bad_iff
#print axioms DS.C16.drops
#print axioms DS.C16.measure
#print axioms DS.C16.composes
#print axioms DS.C16.index_error
#print axioms DS.C16.negative
#print axioms DS.C16.scalar
#print axioms DS.C17.text
#print axioms DS.C17.written
#print axioms DS.C17.examples
#print axioms DS.C17.factors
#print axioms DS.C17.complete
#print axioms DS.C17.law
#print axioms DS.C17.same
#print axioms DS.C17.int_mul
#print axioms DS.C17.int_mul_measure
#print axioms DS.C17.dim_mul
#print axioms DS.C17.product
#print axioms DS.C17.rejects
#print axioms DS.C18.every_slice
#print axioms DS.C18.every_dim_slice
#print axioms DS.C18.scalar_slice
#print axioms DS.C18.in_range_down
#print axioms DS.C18.in_range
#print axioms DS.C18.rounding
#print axioms DS.C18.var_bounded
#print axioms DS.C18.var_unbounded
#print axioms DS.C18.reversed_raises
#print axioms DS.C18.out_of_range
#print axioms DS.C19.tuple
#print axioms DS.C19.single
#print axioms DS.C19.only_datashapes
#print axioms DS.C19.bad_index
#print axioms DS.C19.missing_field
#print axioms DS.C19.wrong_kind
#print axioms DS.C19.typevar_dimension
#print axioms DS.C19.only
#print axioms DS.C19.unique
#print axioms DS.C19.rank
#print axioms DS.C19.missing_in_list
#print axioms DS.C19.bad_in_list
#print axioms DS.C19.bad_in_list_case
#print axioms DS.C19.errors
#print axioms DS.C19.parsed_errors
#print axioms DS.C19.exactly
#print axioms DS.C19.closed
#print axioms DS.C19.parsed
#print axioms DS.C20.ok_iff
#print axioms DS.C20.perm
#print axioms DS.C20.assoc
#print axioms DS.C20.raises
#print axioms DS.C20.small
#print axioms DS.C21.roundtrip
#print axioms DS.C21.roundtrip_scalar
#print axioms DS.C21.other_dims
#print axioms DS.C21.typevar
#print axioms DS.C21.losses
#print axioms DS.C21.reverse
#print axioms DS.C21.accepts
#print axioms DS.C21.picoseconds
#print axioms DS.C22.integer
#print axioms DS.C22.too_big
#print axioms DS.C22.fraction
#print axioms DS.C23.scalars
#print axioms DS.C23.rectangular
#print axioms DS.C23.example
#print axioms DS.C23.arrays
#print axioms DS.C23.empty_rows
#print axioms DS.C23.ragged
#print axioms DS.C23.ragged_example
#print axioms DS.C24.length
#print axioms DS.C24.empty
#print axioms DS.C24.no_fuel
#print axioms DS.C25.records
#print axioms DS.C25.scalar_field
#print axioms DS.C25.example
#print axioms DS.C25.fallback
#print axioms DS.C25.unknown
#print axioms DS.C26.table
#print axioms DS.C26.toposorted
#print axioms DS.C26.least
#print axioms DS.C26.unknown
#print axioms DS.C26.order_irrelevant
#print axioms DS.C26.examples
#print axioms DS.C26.conversions
#print axioms DS.C26.known
#print axioms DS.C27.terminates
#print axioms DS.C27.sorts
#print axioms DS.C27.cycle_raises
#print axioms DS.C27.outcome_exists
#print axioms DS.C27.repeated_successor
#print axioms DS.C28.reachable
#print axioms DS.C28.terminates
#print axioms DS.C29.partition
#print axioms DS.C29.keys
#print axioms DS.C29.total
#print axioms DS.C30.symmetric
#print axioms DS.C30.idempotent
#print axioms DS.C30.option_iff
#print axioms DS.C30.equal_options
#print axioms DS.C30.wide
#print axioms DS.C30.narrow
#print axioms DS.C30.lossy
#print axioms DS.C30.strings
#print axioms DS.C31.ok_iff
#print axioms DS.C31.rejects
#print axioms DS.C31.record
#print axioms DS.C31.measure_only
#print axioms DS.C31.idempotent
#print axioms DS.C31.keeps_option
#print axioms DS.C31.never_narrows
#print axioms DS.C31.same_family
#print axioms DS.C31.float16
#print axioms DS.C32.or_contains
#print axioms DS.C32.or_types
#print axioms DS.C32.or_assoc
#print axioms DS.C32.contains_iff
#print axioms DS.C32.contains_congr
#print axioms DS.C32.len
#print axioms DS.C32.len_members
#print axioms DS.C32.matches
#print axioms DS.C32.signature
#print axioms DS.C32.matches_iff
#print axioms DS.C32.signature_examples
#print axioms DS.C32.matches_prefix
#print axioms DS.C32.named
#print axioms DS.C32.predefined
#print axioms DS.C33.refines
#print axioms DS.C33.stable
#print axioms DS.C33.second_raises
#print axioms DS.C33.first_wins
#print axioms DS.C33.overwrite
#print axioms DS.C34.has_var_dim
#print axioms DS.C34.has_ellipsis
#print axioms DS.C34.ellipsis_is_var
#print axioms DS.C35.total
#print axioms DS.C35.true_iff
#print axioms DS.C35.sound
#print axioms DS.C35.unsound
#print axioms DS.C35.array
#print axioms DS.C35.fields
#print axioms DS.C35.objects
#print axioms DS.C35.typevar
#print axioms DS.C36.validate_iff
#print axioms DS.C36.answers
#print axioms DS.C36.missing_field
#print axioms DS.C36.any_schema
#print axioms DS.C36.any_schema_order
#print axioms DS.C36.text
#print axioms DS.C36.example
#print axioms DS.C36.zip_truncates
#print axioms DS.C36.unsupported
#print axioms DS.C36.ellipsis_raises
#print axioms DS.C36.values
#print axioms DS.C37.iff_equal
#print axioms DS.C37.never_false
#print axioms DS.C37.equivalence
#print axioms DS.C37.example
#print axioms DS.C37.array
#print axioms DS.C37.option_recursion
#print axioms DS.C38.passes_iff
#print axioms DS.C38.raises
#print axioms DS.C38.equal_passes
#print axioms DS.C38.decides
#print axioms DS.C38.relaxing
#print axioms DS.C38.any_order
#print axioms DS.C38.same_names
#print axioms DS.C38.example
#print axioms DS.C38.prefix_passes
#print axioms DS.C38.units_crash
#print axioms DS.C38.fixlen_message
#print axioms DS.C39.rebuild
#print axioms DS.C39.parsed
#print axioms DS.C39.state
#print axioms DS.C39.pickle
#print axioms DS.C39.injective
#print axioms DS.C39.ctype_fails
#print axioms DS.C39.example
#print axioms DS.C40.collect_iff
#print axioms DS.C40.members
#print axioms DS.C40.total
#print axioms DS.C40.raises
#print axioms DS.C40.scalar_parameters
#print axioms DS.C40.type_error
#print axioms DS.C41.option
#print axioms DS.C41.tuple
#print axioms DS.C41.function
#print axioms DS.C41.struct
#print axioms DS.C41.ellipsis
#print axioms DS.C41.option_printed
#print axioms DS.C41.not_implemented
#print axioms DS.C41.double_option
#print axioms DS.C42.measure_only
#print axioms DS.C42.option
#print axioms DS.C42.times
#print axioms DS.C42.boolean_iff
#print axioms DS.C42.real_iff
#print axioms DS.C42.datelike_iff
#print axioms DS.C42.numeric_iff
#print axioms DS.C42.tabular_iff
#print axioms DS.C42.dimension
#print axioms DS.C42.collection
#print axioms DS.C42.witnesses
#print axioms DS.C43.homogeneous_iff
#print axioms DS.C43.scalar_iff
#print axioms DS.C43.answer
#print axioms DS.C43.raises
#print axioms DS.C43.ellipsis
#print axioms DS.C43.cases
#print axioms DS.C44.dims_exact
#print axioms DS.C44.unknown_name
#print axioms DS.C44.name
#print axioms DS.C44.typevar
#print axioms DS.C44.dims
#print axioms DS.C45.raises
#print axioms DS.C45.call
#print axioms DS.C45.unambiguous
#print axioms DS.C45.type_error
#print axioms DS.C45.string_keywords
#print axioms DS.C45.dim_constructor
#print axioms DS.C45.unknown_constructor
#print axioms DS.C45.defaults
#print axioms DS.C46.null
#print axioms DS.C46.exact
#print axioms DS.C46.raises
#print axioms DS.C46.kinds
#print axioms DS.C46.scalar
#print axioms DS.C46.total
#print axioms DS.C46.examples
#print axioms DS.C47.plain
#print axioms DS.C47.objects
#print axioms DS.C47.records
#print axioms DS.C47.total
#print axioms DS.C47.roundtrip
#print axioms DS.C47.limits
#print axioms DS.C47.array_like
#print axioms DS.C47.inside
#print axioms DS.C48.ordered
#print axioms DS.C48.dict
#print axioms DS.C48.proxy
#print axioms DS.C48.insertion_order
#print axioms DS.C48.raises
#print axioms DS.C48.example
#print axioms DS.C49.evaluates
#print axioms DS.C49.identical
#print axioms DS.C49.collections
#print axioms DS.C49.examples
#print axioms DS.C50.constructor
#print axioms DS.C50.raises
#print axioms DS.C50.sequence
#print axioms DS.C50.objects
#print axioms DS.C50.idempotent
#print axioms DS.C50.foreign
#print axioms DS.C50.elements
#print axioms DS.C50.size_and_text
#print axioms DS.C50.several
#print axioms DS.C50.examples
#print axioms DS.C51.erase
#print axioms DS.C51.leads
#print axioms DS.C51.message
#print axioms DS.C51.example
#print axioms DS.C52.length
#print axioms DS.C52.typeset_length
#print axioms DS.C52.index
#print axioms DS.C52.last
#print axioms DS.C52.iterate
#print axioms DS.C52.rebuild
#print axioms DS.C52.slice
#print axioms DS.C52.tail
#print axioms DS.C52.scalar
#print axioms DS.C52.record
#print axioms DS.C52.arithmetic
#print axioms DS.C52.function
#print axioms DS.C52.sizes
#print axioms DS.C52.sized
#print axioms DS.C52.attributes
#print axioms DS.C52.option_size
#print axioms DS.C52.as_number
#print axioms DS.C52.slice_down
#print axioms DS.C52.slice_zero
#print axioms DS.C52.reversed
#print axioms DS.C52.iteration
#print axioms DS.C52.slice_other
#print axioms DS.C53.inferred
#print axioms DS.C53.raises
#print axioms DS.C53.given
#print axioms DS.C53.terminates
#print axioms DS.C53.offset
#print axioms DS.C53.wellformed
#print axioms DS.C53.examples
#print axioms DS.C54.wellformed
#print axioms DS.C54.printable
#print axioms DS.C54.roundtrip
#print axioms DS.C54.example
#print axioms DS.C55.unique
#print axioms DS.C55.typed
#print axioms DS.C55.rows
#print axioms DS.C55.array_columns
#print axioms DS.C55.rows_error
#print axioms DS.C55.dicts
#print axioms DS.C55.dicts_error
#print axioms DS.C55.example
#print axioms DS.C56.accepts
#print axioms DS.C56.unique
#print axioms DS.C56.length
#print axioms DS.C56.example
#print axioms DS.C56.rejected
#print axioms DS.C57.print
#print axioms DS.C57.print_iff
#print axioms DS.C57.numpy
#print axioms DS.C57.validate
#print axioms DS.C57.predicates
#print axioms DS.C57.fixed_tabular
#print axioms DS.C57.membership
#print axioms DS.C57.example
#print axioms DS.C57.option_of_array_witness
#print axioms DS.C57.bool_category_witness
#print axioms DS.C57.distinguished
#print axioms DS.C58.slots
#print axioms DS.C58.function
#print axioms DS.C58.ctype
#print axioms DS.C58.categorical
#print axioms DS.C58.ellipsis
#print axioms DS.C58.typeset
#print axioms DS.C58.unnamed
#print axioms DS.C58.python_repr
#print axioms DS.C58.literal_unique
#print axioms DS.C58.ctype_text
#print axioms DS.C58.examples
#print axioms DS.C59.history
#print axioms DS.C59.consistent
#print axioms DS.C59.unchanged
#print axioms DS.C59.example
#print axioms DS.C60.returns
#print axioms DS.C60.raises
#print axioms DS.C60.examples
#print axioms DS.C61.fits
#print axioms DS.C61.str
#print axioms DS.C61.short
#print axioms DS.C61.record
#print axioms DS.C61.tuple
#print axioms DS.C61.records
#print axioms DS.C61.tuples
#print axioms DS.C61.other
#print axioms DS.C61.others
#print axioms DS.C61.str_record
#print axioms DS.C61.examples
#print axioms DS.C62.importing
#print axioms DS.C62.registered
#print axioms DS.C62.model
#print axioms DS.C62.dtype
#print axioms DS.C62.dtype_raises
#print axioms DS.C62.unaffected
#print axioms DS.C62.safe
#print axioms DS.C62.captured
#print axioms DS.C62.ctype
#print axioms DS.C63.method
#print axioms DS.C63.function
#print axioms DS.C63.to_numpy
#print axioms DS.C63.raises
#print axioms DS.C63.from_numpy
#print axioms DS.C63.from_raises
#print axioms DS.C63.value_error
#print axioms DS.C63.type_error
#print axioms DS.C64.lexer
#print axioms DS.C64.raises
#print axioms DS.C64.no_brackets
#print axioms DS.C64.not_implemented
#print axioms DS.C64.other_text
#print axioms DS.C64.outside
#print axioms DS.C64.negative
#print axioms DS.C64.dimension
#print axioms DS.C64.call
#print axioms DS.C64.record
#print axioms DS.C64.stopped
#print axioms DS.C64.stopped_complete
#print axioms DS.C65.order
#print axioms DS.C65.no_dicts
#print axioms DS.C65.example
#print axioms DS.C65.first_wins
#print axioms DS.C65.hash_seed
#print axioms DS.C66.version
#print axioms DS.C66.checkout
#print axioms DS.C66.pep440
#print axioms DS.C66.distinct
#print axioms DS.C66.archive
#print axioms DS.C66.fails
#print axioms DS.C66.describe_long
#print axioms DS.C66.keywords
#print axioms DS.C66.written
#print axioms DS.C66.read_fails
#print axioms DS.C67.sequence
#print axioms DS.C67.kind
#print axioms DS.C67.raises
#print axioms DS.C67.succeeds
#print axioms DS.C67.example
#print axioms DS.C68.is_int
#print axioms DS.C68.is_float
#print axioms DS.C68.is_bool
#print axioms DS.C68.is_delta
#print axioms DS.C68.is_time
#print axioms DS.C68.overflow
#print axioms DS.C68.integers
#print axioms DS.C68.long_integers
#print axioms DS.C68.counts
#print axioms DS.C68.examples_numbers
#print axioms DS.C68.examples
#print axioms DS.C69.returns
#print axioms DS.C69.raises
#print axioms DS.C69.dict_values
#print axioms DS.C69.again
#print axioms DS.C69.categorical
#print axioms DS.C69.categorical_raises
#print axioms DS.C69.examples
#print axioms DS.C70.reports
#print axioms DS.C70.text
#print axioms DS.C70.example
#print axioms DS.C71.extend
#print axioms DS.C71.bare
#print axioms DS.C71.missing
#print axioms DS.C71.example_table
#print axioms DS.C71.example
#print axioms DS.C72.position
#print axioms DS.C72.unique
#print axioms DS.C72.unread
#print axioms DS.C72.dshape
#print axioms DS.C72.boundary
#print axioms DS.C72.messages
#print axioms DS.C72.broken
#print axioms DS.C72.decided
#print axioms DS.C72.hopeless
#print axioms DS.C72.example
#print axioms DS.C73.text
#print axioms DS.C73.name
#print axioms DS.C73.unnamed
#print axioms DS.C73.construct
#print axioms DS.C73.absorbed
#print axioms DS.C73.derived
#print axioms DS.C73.pickle
#print axioms DS.C73.repr
#print axioms DS.C73.misread
#print axioms DS.C74.ordered
#print axioms DS.C74.mapping
#print axioms DS.C74.names
#print axioms DS.C74.dicts
#print axioms DS.C74.strings
#print axioms DS.C74.example
#print axioms DS.C75.dtype
#print axioms DS.C75.dtype_example
#print axioms DS.C75.same
#print axioms DS.C75.data_shape
#print axioms DS.C75.record
#print axioms DS.C75.repeated
#print axioms DS.C75.literal
#print axioms DS.C75.subarray
#print axioms DS.C75.to_numpy
#print axioms DS.C75.argument
#print axioms DS.C75.example
#print axioms DS.C76.same
#print axioms DS.C76.bound
#print axioms DS.C76.bound_lists
#print axioms DS.C76.exponential
#print axioms DS.C76.doubles
#print axioms DS.C76.flat
#print axioms DS.C76.quadratic
#print axioms DS.C76.mapping
#print axioms DS.C76.once
#print axioms DS.C76.table
#print axioms DS.C76.example
#print axioms DS.C76.example2
#print axioms DS.C77.sum
#print axioms DS.C77.size
#print axioms DS.C77.array
#print axioms DS.C77.numpy
#print axioms DS.C77.plain
#print axioms DS.C77.strings
#print axioms DS.C77.read
#print axioms DS.C77.example
#print axioms DS.C77.example2
#print axioms DS.C77.example3
