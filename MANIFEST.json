{
 "claims": [
  {
   "property": "C01",
   "status": "proved",
   "theorems": [
    "DS.C01.field_name_exact",
    "DS.C01.string_exact",
    "DS.C01.categories_exact",
    "DS.C01.unspelled_types",
    "DS.C01.unspelled_dimensions",
    "DS.C01.unspelled_nesting",
    "DS.C01.unspelled_categorical_type",
    "DS.C01.injective",
    "DS.C01.roundtrip",
    "DS.C01.identical",
    "DS.C01.measure",
    "DS.C01.parsed",
    "DS.C01.example",
    "DS.C01.stable"
   ],
   "note": ""
  },
  {
   "property": "C02",
   "status": "proved",
   "theorems": [
    "DS.C02.roundtrip",
    "DS.C02.width_irrelevant",
    "DS.C02.identical",
    "DS.C02.repr",
    "DS.C02.stable"
   ],
   "note": ""
  },
  {
   "property": "C03",
   "status": "proved",
   "theorems": [
    "DS.C03.lexer",
    "DS.C03.parser",
    "DS.C03.parse_datashape_eq",
    "DS.C03.dshape",
    "DS.C03.dshape_recursion",
    "DS.C03.default",
    "DS.C03.steps_result",
    "DS.C03.linear",
    "DS.C03.linear_text",
    "DS.C03.depth"
   ],
   "note": ""
  },
  {
   "property": "C04",
   "status": "proved",
   "theorems": [
    "DS.C04.span",
    "DS.C04.ordered",
    "DS.C04.before",
    "DS.C04.between",
    "DS.C04.after",
    "DS.C04.empty",
    "DS.C04.exact"
   ],
   "note": ""
  },
  {
   "property": "C05",
   "status": "proved",
   "theorems": [
    "DS.C05.offset",
    "DS.C05.line",
    "DS.C05.caret"
   ],
   "note": ""
  },
  {
   "property": "C06",
   "status": "proved",
   "theorems": [
    "DS.C06.sound",
    "DS.C06.complete",
    "DS.C06.exact",
    "DS.C06.documented",
    "DS.C06.unambiguous_extended",
    "DS.C06.any_table",
    "DS.C06.unambiguous",
    "DS.C06.dropped_var",
    "DS.C06.dropped_ellipsis",
    "DS.C06.dropped_qmark",
    "DS.C06.dropped_tail",
    "DS.C06.typevar_not_implemented"
   ],
   "note": ""
  },
  {
   "property": "C07",
   "status": "proved",
   "theorems": [
    "DS.C07.alphabet",
    "DS.C07.whitespace",
    "DS.C07.numerals",
    "DS.C07.leading",
    "DS.C07.trailing",
    "DS.C07.trailing_space",
    "DS.C07.between",
    "DS.C07.joined",
    "DS.C07.same_tokens",
    "DS.C07.same_broken"
   ],
   "note": ""
  },
  {
   "property": "C08",
   "status": "proved",
   "theorems": [
    "DS.C08.eq_iff_same",
    "DS.C08.eq_refl",
    "DS.C08.eq_symm",
    "DS.C08.eq_trans",
    "DS.C08.singleton_eq_measure",
    "DS.C08.option_of_array_witness",
    "DS.C08.dshape_eq_iff",
    "DS.C08.typeset_asymmetric",
    "DS.C08.distinguishes"
   ],
   "note": ""
  },
  {
   "property": "C09",
   "status": "proved",
   "theorems": [
    "DS.C09.eq_hash",
    "DS.C09.hash_eq_of_free",
    "DS.C09.fixed_int_hash_differs",
    "DS.C09.typeset_hash_differs"
   ],
   "note": ""
  },
  {
   "property": "C10",
   "status": "proved",
   "theorems": [
    "DS.C10.wellformed",
    "DS.C10.dims",
    "DS.C10.fields",
    "DS.C10.encoding",
    "DS.C10.unit",
    "DS.C10.typevar",
    "DS.C10.nested",
    "DS.C10.equality_laws",
    "DS.C10.fixed"
   ],
   "note": ""
  },
  {
   "property": "C11",
   "status": "proved",
   "theorems": [
    "DS.C11.validate_iff",
    "DS.C11.parsed",
    "DS.C11.rejected",
    "DS.C11.rejects",
    "DS.C11.record_not_visited",
    "DS.C11.ellipsis_measure"
   ],
   "note": ""
  },
  {
   "property": "C12",
   "status": "proved",
   "theorems": [
    "DS.C12.terminates",
    "DS.C12.exact",
    "DS.C12.canonical",
    "DS.C12.idempotent",
    "DS.C12.accepts",
    "DS.C12.errors",
    "DS.C12.runs_out",
    "DS.C12.blank_indexError",
    "DS.C12.sss_indexError",
    "DS.C12.timedelta"
   ],
   "note": ""
  },
  {
   "property": "C13",
   "status": "proved",
   "theorems": [
    "DS.C13.two_args",
    "DS.C13.one_str",
    "DS.C13.default",
    "DS.C13.unknown",
    "DS.C13.canonical",
    "DS.C13.rebuild",
    "DS.C13.rebuild_var",
    "DS.C13.spelling_eq"
   ],
   "note": ""
  },
  {
   "property": "C14",
   "status": "proved",
   "theorems": [
    "DS.C14.construct",
    "DS.C14.duplicate",
    "DS.C14.lookup",
    "DS.C14.equal_iff",
    "DS.C14.order_matters"
   ],
   "note": ""
  },
  {
   "property": "C15",
   "status": "proved",
   "theorems": [
    "DS.C15.literal",
    "DS.C15.bad_item",
    "DS.C15.bad_iff"
   ],
   "note": ""
  },
  {
   "property": "C16",
   "status": "proved",
   "theorems": [
    "DS.C16.drops",
    "DS.C16.measure",
    "DS.C16.composes",
    "DS.C16.index_error",
    "DS.C16.negative",
    "DS.C16.scalar"
   ],
   "note": ""
  },
  {
   "property": "C17",
   "status": "proved",
   "theorems": [
    "DS.C17.text",
    "DS.C17.written",
    "DS.C17.examples",
    "DS.C17.factors",
    "DS.C17.complete",
    "DS.C17.law",
    "DS.C17.same",
    "DS.C17.int_mul",
    "DS.C17.int_mul_measure",
    "DS.C17.dim_mul",
    "DS.C17.product",
    "DS.C17.rejects"
   ],
   "note": ""
  },
  {
   "property": "C18",
   "status": "proved",
   "theorems": [
    "DS.C18.every_slice",
    "DS.C18.every_dim_slice",
    "DS.C18.scalar_slice",
    "DS.C18.in_range_down",
    "DS.C18.in_range",
    "DS.C18.rounding",
    "DS.C18.var_bounded",
    "DS.C18.var_unbounded",
    "DS.C18.reversed_raises",
    "DS.C18.out_of_range"
   ],
   "note": ""
  },
  {
   "property": "C19",
   "status": "proved",
   "theorems": [
    "DS.C19.tuple",
    "DS.C19.single",
    "DS.C19.only_datashapes",
    "DS.C19.bad_index",
    "DS.C19.missing_field",
    "DS.C19.wrong_kind",
    "DS.C19.typevar_dimension",
    "DS.C19.only",
    "DS.C19.unique",
    "DS.C19.rank",
    "DS.C19.missing_in_list",
    "DS.C19.bad_in_list",
    "DS.C19.bad_in_list_case",
    "DS.C19.errors",
    "DS.C19.parsed_errors",
    "DS.C19.exactly",
    "DS.C19.closed",
    "DS.C19.parsed"
   ],
   "note": ""
  },
  {
   "property": "C20",
   "status": "proved",
   "theorems": [
    "DS.C20.ok_iff",
    "DS.C20.perm",
    "DS.C20.assoc",
    "DS.C20.raises",
    "DS.C20.small"
   ],
   "note": ""
  },
  {
   "property": "C21",
   "status": "proved",
   "theorems": [
    "DS.C21.roundtrip",
    "DS.C21.roundtrip_scalar",
    "DS.C21.other_dims",
    "DS.C21.typevar",
    "DS.C21.losses",
    "DS.C21.reverse",
    "DS.C21.accepts",
    "DS.C21.picoseconds"
   ],
   "note": ""
  },
  {
   "property": "C22",
   "status": "proved",
   "theorems": [
    "DS.C22.integer",
    "DS.C22.too_big",
    "DS.C22.fraction"
   ],
   "note": ""
  },
  {
   "property": "C23",
   "status": "proved",
   "theorems": [
    "DS.C23.scalars",
    "DS.C23.rectangular",
    "DS.C23.example",
    "DS.C23.arrays",
    "DS.C23.empty_rows",
    "DS.C23.ragged",
    "DS.C23.ragged_example"
   ],
   "note": ""
  },
  {
   "property": "C24",
   "status": "proved",
   "theorems": [
    "DS.C24.length",
    "DS.C24.empty",
    "DS.C24.no_fuel"
   ],
   "note": ""
  },
  {
   "property": "C25",
   "status": "proved",
   "theorems": [
    "DS.C25.records",
    "DS.C25.scalar_field",
    "DS.C25.example",
    "DS.C25.fallback",
    "DS.C25.unknown"
   ],
   "note": ""
  },
  {
   "property": "C26",
   "status": "proved",
   "theorems": [
    "DS.C26.table",
    "DS.C26.toposorted",
    "DS.C26.least",
    "DS.C26.unknown",
    "DS.C26.order_irrelevant",
    "DS.C26.examples",
    "DS.C26.conversions",
    "DS.C26.known"
   ],
   "note": ""
  },
  {
   "property": "C27",
   "status": "proved",
   "theorems": [
    "DS.C27.terminates",
    "DS.C27.sorts",
    "DS.C27.cycle_raises",
    "DS.C27.outcome_exists",
    "DS.C27.repeated_successor"
   ],
   "note": ""
  },
  {
   "property": "C28",
   "status": "proved",
   "theorems": [
    "DS.C28.reachable",
    "DS.C28.terminates"
   ],
   "note": ""
  },
  {
   "property": "C29",
   "status": "proved",
   "theorems": [
    "DS.C29.partition",
    "DS.C29.keys",
    "DS.C29.total"
   ],
   "note": ""
  },
  {
   "property": "C30",
   "status": "proved",
   "theorems": [
    "DS.C30.symmetric",
    "DS.C30.idempotent",
    "DS.C30.option_iff",
    "DS.C30.equal_options",
    "DS.C30.wide",
    "DS.C30.narrow",
    "DS.C30.lossy",
    "DS.C30.strings"
   ],
   "note": ""
  },
  {
   "property": "C31",
   "status": "proved",
   "theorems": [
    "DS.C31.ok_iff",
    "DS.C31.rejects",
    "DS.C31.record",
    "DS.C31.measure_only",
    "DS.C31.idempotent",
    "DS.C31.keeps_option",
    "DS.C31.never_narrows",
    "DS.C31.same_family",
    "DS.C31.float16"
   ],
   "note": ""
  },
  {
   "property": "C32",
   "status": "proved",
   "theorems": [
    "DS.C32.or_contains",
    "DS.C32.or_types",
    "DS.C32.or_assoc",
    "DS.C32.contains_iff",
    "DS.C32.contains_congr",
    "DS.C32.len",
    "DS.C32.len_members",
    "DS.C32.matches",
    "DS.C32.signature",
    "DS.C32.matches_iff",
    "DS.C32.signature_examples",
    "DS.C32.matches_prefix",
    "DS.C32.named",
    "DS.C32.predefined"
   ],
   "note": ""
  },
  {
   "property": "C33",
   "status": "proved",
   "theorems": [
    "DS.C33.refines",
    "DS.C33.stable",
    "DS.C33.second_raises",
    "DS.C33.first_wins",
    "DS.C33.overwrite"
   ],
   "note": ""
  },
  {
   "property": "C34",
   "status": "proved",
   "theorems": [
    "DS.C34.has_var_dim",
    "DS.C34.has_ellipsis",
    "DS.C34.ellipsis_is_var"
   ],
   "note": ""
  },
  {
   "property": "C35",
   "status": "proved",
   "theorems": [
    "DS.C35.total",
    "DS.C35.true_iff",
    "DS.C35.sound",
    "DS.C35.unsound",
    "DS.C35.array",
    "DS.C35.fields",
    "DS.C35.objects",
    "DS.C35.typevar"
   ],
   "note": ""
  },
  {
   "property": "C36",
   "status": "proved",
   "theorems": [
    "DS.C36.validate_iff",
    "DS.C36.answers",
    "DS.C36.missing_field",
    "DS.C36.any_schema",
    "DS.C36.any_schema_order",
    "DS.C36.text",
    "DS.C36.example",
    "DS.C36.zip_truncates",
    "DS.C36.unsupported",
    "DS.C36.ellipsis_raises",
    "DS.C36.values"
   ],
   "note": ""
  },
  {
   "property": "C37",
   "status": "proved",
   "theorems": [
    "DS.C37.iff_equal",
    "DS.C37.never_false",
    "DS.C37.equivalence",
    "DS.C37.example",
    "DS.C37.array",
    "DS.C37.option_recursion"
   ],
   "note": ""
  },
  {
   "property": "C38",
   "status": "proved",
   "theorems": [
    "DS.C38.passes_iff",
    "DS.C38.raises",
    "DS.C38.equal_passes",
    "DS.C38.decides",
    "DS.C38.relaxing",
    "DS.C38.any_order",
    "DS.C38.same_names",
    "DS.C38.example",
    "DS.C38.prefix_passes",
    "DS.C38.units_crash",
    "DS.C38.fixlen_message"
   ],
   "note": ""
  },
  {
   "property": "C39",
   "status": "proved",
   "theorems": [
    "DS.C39.rebuild",
    "DS.C39.parsed",
    "DS.C39.state",
    "DS.C39.pickle",
    "DS.C39.injective",
    "DS.C39.ctype_fails",
    "DS.C39.example"
   ],
   "note": ""
  },
  {
   "property": "C40",
   "status": "proved",
   "theorems": [
    "DS.C40.collect_iff",
    "DS.C40.members",
    "DS.C40.total",
    "DS.C40.raises",
    "DS.C40.scalar_parameters",
    "DS.C40.type_error"
   ],
   "note": ""
  },
  {
   "property": "C41",
   "status": "proved",
   "theorems": [
    "DS.C41.option",
    "DS.C41.tuple",
    "DS.C41.function",
    "DS.C41.struct",
    "DS.C41.ellipsis",
    "DS.C41.option_printed",
    "DS.C41.not_implemented",
    "DS.C41.double_option"
   ],
   "note": ""
  },
  {
   "property": "C42",
   "status": "proved",
   "theorems": [
    "DS.C42.measure_only",
    "DS.C42.option",
    "DS.C42.times",
    "DS.C42.boolean_iff",
    "DS.C42.real_iff",
    "DS.C42.datelike_iff",
    "DS.C42.numeric_iff",
    "DS.C42.tabular_iff",
    "DS.C42.dimension",
    "DS.C42.collection",
    "DS.C42.witnesses"
   ],
   "note": ""
  },
  {
   "property": "C43",
   "status": "proved",
   "theorems": [
    "DS.C43.homogeneous_iff",
    "DS.C43.scalar_iff",
    "DS.C43.answer",
    "DS.C43.raises",
    "DS.C43.ellipsis",
    "DS.C43.cases"
   ],
   "note": ""
  },
  {
   "property": "C44",
   "status": "proved",
   "theorems": [
    "DS.C44.dims_exact",
    "DS.C44.unknown_name",
    "DS.C44.name",
    "DS.C44.typevar",
    "DS.C44.dims"
   ],
   "note": ""
  },
  {
   "property": "C45",
   "status": "proved",
   "theorems": [
    "DS.C45.raises",
    "DS.C45.call",
    "DS.C45.unambiguous",
    "DS.C45.type_error",
    "DS.C45.string_keywords",
    "DS.C45.dim_constructor",
    "DS.C45.unknown_constructor",
    "DS.C45.defaults"
   ],
   "note": ""
  },
  {
   "property": "C46",
   "status": "proved",
   "theorems": [
    "DS.C46.null",
    "DS.C46.exact",
    "DS.C46.raises",
    "DS.C46.kinds",
    "DS.C46.scalar",
    "DS.C46.total",
    "DS.C46.examples"
   ],
   "note": ""
  },
  {
   "property": "C47",
   "status": "proved",
   "theorems": [
    "DS.C47.plain",
    "DS.C47.objects",
    "DS.C47.records",
    "DS.C47.total",
    "DS.C47.roundtrip",
    "DS.C47.limits",
    "DS.C47.array_like",
    "DS.C47.inside"
   ],
   "note": ""
  },
  {
   "property": "C48",
   "status": "proved",
   "theorems": [
    "DS.C48.ordered",
    "DS.C48.dict",
    "DS.C48.proxy",
    "DS.C48.insertion_order",
    "DS.C48.raises",
    "DS.C48.example"
   ],
   "note": ""
  },
  {
   "property": "C49",
   "status": "proved",
   "theorems": [
    "DS.C49.evaluates",
    "DS.C49.identical",
    "DS.C49.collections",
    "DS.C49.examples"
   ],
   "note": ""
  },
  {
   "property": "C50",
   "status": "proved",
   "theorems": [
    "DS.C50.constructor",
    "DS.C50.raises",
    "DS.C50.sequence",
    "DS.C50.objects",
    "DS.C50.idempotent",
    "DS.C50.foreign",
    "DS.C50.elements",
    "DS.C50.size_and_text",
    "DS.C50.several",
    "DS.C50.examples"
   ],
   "note": ""
  },
  {
   "property": "C51",
   "status": "proved",
   "theorems": [
    "DS.C51.erase",
    "DS.C51.leads",
    "DS.C51.message",
    "DS.C51.example"
   ],
   "note": ""
  },
  {
   "property": "C52",
   "status": "proved",
   "theorems": [
    "DS.C52.length",
    "DS.C52.typeset_length",
    "DS.C52.index",
    "DS.C52.last",
    "DS.C52.iterate",
    "DS.C52.rebuild",
    "DS.C52.slice",
    "DS.C52.tail",
    "DS.C52.scalar",
    "DS.C52.record",
    "DS.C52.arithmetic",
    "DS.C52.function",
    "DS.C52.sizes",
    "DS.C52.sized",
    "DS.C52.attributes",
    "DS.C52.option_size",
    "DS.C52.as_number",
    "DS.C52.slice_down",
    "DS.C52.slice_zero",
    "DS.C52.reversed",
    "DS.C52.iteration",
    "DS.C52.slice_other"
   ],
   "note": ""
  },
  {
   "property": "C53",
   "status": "proved",
   "theorems": [
    "DS.C53.inferred",
    "DS.C53.raises",
    "DS.C53.given",
    "DS.C53.terminates",
    "DS.C53.offset",
    "DS.C53.wellformed",
    "DS.C53.examples"
   ],
   "note": ""
  },
  {
   "property": "C54",
   "status": "proved",
   "theorems": [
    "DS.C54.wellformed",
    "DS.C54.printable",
    "DS.C54.roundtrip",
    "DS.C54.example"
   ],
   "note": ""
  },
  {
   "property": "C55",
   "status": "proved",
   "theorems": [
    "DS.C55.unique",
    "DS.C55.typed",
    "DS.C55.rows",
    "DS.C55.array_columns",
    "DS.C55.rows_error",
    "DS.C55.dicts",
    "DS.C55.dicts_error",
    "DS.C55.example"
   ],
   "note": ""
  },
  {
   "property": "C56",
   "status": "proved",
   "theorems": [
    "DS.C56.accepts",
    "DS.C56.unique",
    "DS.C56.length",
    "DS.C56.example",
    "DS.C56.rejected"
   ],
   "note": ""
  },
  {
   "property": "C57",
   "status": "proved",
   "theorems": [
    "DS.C57.print",
    "DS.C57.print_iff",
    "DS.C57.numpy",
    "DS.C57.validate",
    "DS.C57.predicates",
    "DS.C57.fixed_tabular",
    "DS.C57.membership",
    "DS.C57.example",
    "DS.C57.option_of_array_witness",
    "DS.C57.bool_category_witness",
    "DS.C57.distinguished"
   ],
   "note": ""
  },
  {
   "property": "C58",
   "status": "proved",
   "theorems": [
    "DS.C58.slots",
    "DS.C58.function",
    "DS.C58.ctype",
    "DS.C58.categorical",
    "DS.C58.ellipsis",
    "DS.C58.typeset",
    "DS.C58.unnamed",
    "DS.C58.python_repr",
    "DS.C58.literal_unique",
    "DS.C58.ctype_text",
    "DS.C58.examples"
   ],
   "note": ""
  },
  {
   "property": "C59",
   "status": "proved",
   "theorems": [
    "DS.C59.history",
    "DS.C59.consistent",
    "DS.C59.unchanged",
    "DS.C59.example"
   ],
   "note": ""
  },
  {
   "property": "C60",
   "status": "proved",
   "theorems": [
    "DS.C60.returns",
    "DS.C60.raises",
    "DS.C60.examples"
   ],
   "note": ""
  },
  {
   "property": "C61",
   "status": "proved",
   "theorems": [
    "DS.C61.fits",
    "DS.C61.str",
    "DS.C61.short",
    "DS.C61.record",
    "DS.C61.tuple",
    "DS.C61.records",
    "DS.C61.tuples",
    "DS.C61.other",
    "DS.C61.others",
    "DS.C61.str_record",
    "DS.C61.examples"
   ],
   "note": ""
  },
  {
   "property": "C62",
   "status": "proved",
   "theorems": [
    "DS.C62.importing",
    "DS.C62.registered",
    "DS.C62.model",
    "DS.C62.dtype",
    "DS.C62.dtype_raises",
    "DS.C62.unaffected",
    "DS.C62.safe",
    "DS.C62.captured",
    "DS.C62.ctype"
   ],
   "note": ""
  },
  {
   "property": "C63",
   "status": "proved",
   "theorems": [
    "DS.C63.method",
    "DS.C63.function",
    "DS.C63.to_numpy",
    "DS.C63.raises",
    "DS.C63.from_numpy",
    "DS.C63.from_raises",
    "DS.C63.value_error",
    "DS.C63.type_error"
   ],
   "note": ""
  },
  {
   "property": "C64",
   "status": "proved",
   "theorems": [
    "DS.C64.lexer",
    "DS.C64.raises",
    "DS.C64.no_brackets",
    "DS.C64.not_implemented",
    "DS.C64.other_text",
    "DS.C64.outside",
    "DS.C64.negative",
    "DS.C64.dimension",
    "DS.C64.call",
    "DS.C64.record",
    "DS.C64.stopped",
    "DS.C64.stopped_complete"
   ],
   "note": ""
  },
  {
   "property": "C65",
   "status": "proved",
   "theorems": [
    "DS.C65.order",
    "DS.C65.no_dicts",
    "DS.C65.example",
    "DS.C65.first_wins",
    "DS.C65.hash_seed"
   ],
   "note": ""
  },
  {
   "property": "C66",
   "status": "proved",
   "theorems": [
    "DS.C66.version",
    "DS.C66.checkout",
    "DS.C66.pep440",
    "DS.C66.distinct",
    "DS.C66.archive",
    "DS.C66.fails",
    "DS.C66.describe_long",
    "DS.C66.keywords",
    "DS.C66.written",
    "DS.C66.read_fails"
   ],
   "note": ""
  },
  {
   "property": "C67",
   "status": "proved",
   "theorems": [
    "DS.C67.sequence",
    "DS.C67.kind",
    "DS.C67.raises",
    "DS.C67.succeeds",
    "DS.C67.example"
   ],
   "note": ""
  },
  {
   "property": "C68",
   "status": "proved",
   "theorems": [
    "DS.C68.is_int",
    "DS.C68.is_float",
    "DS.C68.is_bool",
    "DS.C68.is_delta",
    "DS.C68.is_time",
    "DS.C68.overflow",
    "DS.C68.integers",
    "DS.C68.long_integers",
    "DS.C68.counts",
    "DS.C68.examples_numbers",
    "DS.C68.examples"
   ],
   "note": ""
  },
  {
   "property": "C69",
   "status": "proved",
   "theorems": [
    "DS.C69.returns",
    "DS.C69.raises",
    "DS.C69.dict_values",
    "DS.C69.again",
    "DS.C69.categorical",
    "DS.C69.categorical_raises",
    "DS.C69.examples"
   ],
   "note": ""
  },
  {
   "property": "C70",
   "status": "proved",
   "theorems": [
    "DS.C70.reports",
    "DS.C70.text",
    "DS.C70.example"
   ],
   "note": ""
  },
  {
   "property": "C71",
   "status": "proved",
   "theorems": [
    "DS.C71.extend",
    "DS.C71.bare",
    "DS.C71.missing",
    "DS.C71.example_table",
    "DS.C71.example"
   ],
   "note": ""
  },
  {
   "property": "C72",
   "status": "proved",
   "theorems": [
    "DS.C72.position",
    "DS.C72.unique",
    "DS.C72.unread",
    "DS.C72.dshape",
    "DS.C72.boundary",
    "DS.C72.messages",
    "DS.C72.broken",
    "DS.C72.decided",
    "DS.C72.hopeless",
    "DS.C72.example"
   ],
   "note": ""
  },
  {
   "property": "C73",
   "status": "proved",
   "theorems": [
    "DS.C73.text",
    "DS.C73.name",
    "DS.C73.unnamed",
    "DS.C73.construct",
    "DS.C73.absorbed",
    "DS.C73.derived",
    "DS.C73.pickle",
    "DS.C73.repr",
    "DS.C73.misread"
   ],
   "note": ""
  },
  {
   "property": "C74",
   "status": "proved",
   "theorems": [
    "DS.C74.ordered",
    "DS.C74.mapping",
    "DS.C74.names",
    "DS.C74.dicts",
    "DS.C74.strings",
    "DS.C74.example"
   ],
   "note": ""
  },
  {
   "property": "C75",
   "status": "proved",
   "theorems": [
    "DS.C75.dtype",
    "DS.C75.dtype_example",
    "DS.C75.same",
    "DS.C75.data_shape",
    "DS.C75.record",
    "DS.C75.repeated",
    "DS.C75.literal",
    "DS.C75.subarray",
    "DS.C75.to_numpy",
    "DS.C75.argument",
    "DS.C75.example"
   ],
   "note": ""
  },
  {
   "property": "C76",
   "status": "proved",
   "theorems": [
    "DS.C76.same",
    "DS.C76.bound",
    "DS.C76.bound_lists",
    "DS.C76.exponential",
    "DS.C76.doubles",
    "DS.C76.flat",
    "DS.C76.quadratic",
    "DS.C76.mapping",
    "DS.C76.once",
    "DS.C76.table",
    "DS.C76.example",
    "DS.C76.example2"
   ],
   "note": ""
  },
  {
   "property": "C77",
   "status": "proved",
   "theorems": [
    "DS.C77.sum",
    "DS.C77.size",
    "DS.C77.array",
    "DS.C77.numpy",
    "DS.C77.plain",
    "DS.C77.strings",
    "DS.C77.read",
    "DS.C77.example",
    "DS.C77.example2",
    "DS.C77.example3"
   ],
   "note": ""
  }
 ]
}