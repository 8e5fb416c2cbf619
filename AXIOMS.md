# Axioms of every theorem in MANIFEST.json

Generated by `python3 tools/axioms.py`.

| theorem | axioms |
|---|---|
| `DS.C01.field_name_exact` | propext, Classical.choice, Quot.sound |
| `DS.C01.string_exact` | propext, Classical.choice, Quot.sound |
| `DS.C01.categories_exact` | propext, Classical.choice, Quot.sound |
| `DS.C01.unspelled_types` | propext, Quot.sound |
| `DS.C01.unspelled_dimensions` | propext, Quot.sound |
| `DS.C01.unspelled_nesting` | propext, Quot.sound |
| `DS.C01.unspelled_categorical_type` | propext, Quot.sound |
| `DS.C01.injective` | propext, Classical.choice, Quot.sound |
| `DS.C01.roundtrip` | propext, Classical.choice, Quot.sound |
| `DS.C01.identical` | propext, Classical.choice, Quot.sound |
| `DS.C01.measure` | propext, Classical.choice, Quot.sound |
| `DS.C01.parsed` | propext, Classical.choice, Quot.sound |
| `DS.C01.example` | propext, Classical.choice, Quot.sound |
| `DS.C01.stable` | propext, Classical.choice, Quot.sound |
| `DS.C02.roundtrip` | propext, Classical.choice, Quot.sound |
| `DS.C02.width_irrelevant` | propext, Classical.choice, Quot.sound |
| `DS.C02.identical` | propext, Classical.choice, Quot.sound |
| `DS.C02.repr` | propext, Classical.choice, Quot.sound |
| `DS.C02.stable` | propext, Classical.choice, Quot.sound |
| `DS.C03.lexer` | propext, Classical.choice, Quot.sound |
| `DS.C03.parser` | propext, Classical.choice, Quot.sound |
| `DS.C03.parse_datashape_eq` | propext, Classical.choice, Quot.sound |
| `DS.C03.dshape` | propext, Classical.choice, Quot.sound |
| `DS.C03.dshape_recursion` | propext, Classical.choice, Quot.sound |
| `DS.C03.default` | propext, Classical.choice, Quot.sound |
| `DS.C03.steps_result` | propext, Quot.sound |
| `DS.C03.linear` | propext, Classical.choice, Quot.sound |
| `DS.C03.linear_text` | propext, Classical.choice, Quot.sound |
| `DS.C03.depth` | propext, Quot.sound |
| `DS.C04.span` | propext, Classical.choice, Quot.sound |
| `DS.C04.ordered` | propext, Classical.choice, Quot.sound |
| `DS.C04.before` | propext, Classical.choice, Quot.sound |
| `DS.C04.between` | propext, Classical.choice, Quot.sound |
| `DS.C04.after` | propext, Classical.choice, Quot.sound |
| `DS.C04.empty` | propext, Classical.choice, Quot.sound |
| `DS.C04.exact` | propext, Classical.choice, Quot.sound |
| `DS.C05.offset` | propext, Classical.choice, Quot.sound |
| `DS.C05.line` | propext, Classical.choice, Quot.sound |
| `DS.C05.caret` | propext, Classical.choice, Quot.sound |
| `DS.C06.sound` | propext, Classical.choice, Quot.sound |
| `DS.C06.complete` | propext, Classical.choice, Quot.sound |
| `DS.C06.exact` | propext, Classical.choice, Quot.sound |
| `DS.C06.documented` | propext, Classical.choice, Quot.sound |
| `DS.C06.unambiguous_extended` | propext, Classical.choice, Quot.sound |
| `DS.C06.any_table` | propext, Quot.sound |
| `DS.C06.unambiguous` | propext, Classical.choice, Quot.sound |
| `DS.C06.dropped_var` | propext, Quot.sound |
| `DS.C06.dropped_ellipsis` | propext, Quot.sound |
| `DS.C06.dropped_qmark` | propext, Quot.sound |
| `DS.C06.dropped_tail` | propext, Quot.sound |
| `DS.C06.typevar_not_implemented` | propext, Quot.sound |
| `DS.C07.alphabet` | propext, Classical.choice, Quot.sound |
| `DS.C07.whitespace` | propext, Classical.choice, Quot.sound |
| `DS.C07.numerals` | propext, Classical.choice, Quot.sound |
| `DS.C07.leading` | propext, Classical.choice, Quot.sound |
| `DS.C07.trailing` | propext, Classical.choice, Quot.sound |
| `DS.C07.trailing_space` | propext, Classical.choice, Quot.sound |
| `DS.C07.between` | propext, Classical.choice, Quot.sound |
| `DS.C07.joined` | propext, Classical.choice, Quot.sound |
| `DS.C07.same_tokens` | propext, Classical.choice, Quot.sound |
| `DS.C07.same_broken` | propext, Classical.choice, Quot.sound |
| `DS.C08.eq_iff_same` | propext, Classical.choice, Quot.sound |
| `DS.C08.eq_refl` | propext, Classical.choice, Quot.sound |
| `DS.C08.eq_symm` | propext, Classical.choice, Quot.sound |
| `DS.C08.eq_trans` | propext, Classical.choice, Quot.sound |
| `DS.C08.singleton_eq_measure` | propext, Classical.choice, Quot.sound |
| `DS.C08.option_of_array_witness` | propext |
| `DS.C08.dshape_eq_iff` | propext, Classical.choice, Quot.sound |
| `DS.C08.typeset_asymmetric` | propext |
| `DS.C08.distinguishes` | propext |
| `DS.C09.eq_hash` | propext, Classical.choice, Quot.sound |
| `DS.C09.hash_eq_of_free` | propext, Classical.choice, Quot.sound |
| `DS.C09.fixed_int_hash_differs` | propext |
| `DS.C09.typeset_hash_differs` | propext |
| `DS.C10.wellformed` | propext, Classical.choice, Quot.sound |
| `DS.C10.dims` | propext, Classical.choice, Quot.sound |
| `DS.C10.fields` | propext, Classical.choice, Quot.sound |
| `DS.C10.encoding` | propext, Classical.choice, Quot.sound |
| `DS.C10.unit` | propext, Classical.choice, Quot.sound |
| `DS.C10.typevar` | propext, Classical.choice, Quot.sound |
| `DS.C10.nested` | propext, Classical.choice, Quot.sound |
| `DS.C10.equality_laws` | propext, Classical.choice, Quot.sound |
| `DS.C10.fixed` | propext, Quot.sound |
| `DS.C11.validate_iff` | propext, Classical.choice, Quot.sound |
| `DS.C11.parsed` | propext, Classical.choice, Quot.sound |
| `DS.C11.rejected` | propext, Classical.choice, Quot.sound |
| `DS.C11.rejects` | propext, Quot.sound |
| `DS.C11.record_not_visited` | propext, Quot.sound |
| `DS.C11.ellipsis_measure` | propext, Quot.sound |
| `DS.C12.terminates` | propext, Classical.choice, Quot.sound |
| `DS.C12.exact` | propext, Classical.choice, Quot.sound |
| `DS.C12.canonical` | propext, Classical.choice, Quot.sound |
| `DS.C12.idempotent` | propext, Classical.choice, Quot.sound |
| `DS.C12.accepts` | propext, Classical.choice, Quot.sound |
| `DS.C12.errors` | propext, Classical.choice, Quot.sound |
| `DS.C12.runs_out` | propext, Classical.choice, Quot.sound |
| `DS.C12.blank_indexError` | propext, Classical.choice, Quot.sound |
| `DS.C12.sss_indexError` | propext, Classical.choice, Quot.sound |
| `DS.C12.timedelta` | propext, Classical.choice, Quot.sound |
| `DS.C13.two_args` | propext, Quot.sound |
| `DS.C13.one_str` | propext, Quot.sound |
| `DS.C13.default` | propext |
| `DS.C13.unknown` | propext, Quot.sound |
| `DS.C13.canonical` | propext, Quot.sound |
| `DS.C13.rebuild` | propext, Quot.sound |
| `DS.C13.rebuild_var` | propext, Quot.sound |
| `DS.C13.spelling_eq` | propext, Classical.choice, Quot.sound |
| `DS.C14.construct` | propext, Quot.sound |
| `DS.C14.duplicate` | propext |
| `DS.C14.lookup` | propext, Classical.choice, Quot.sound |
| `DS.C14.equal_iff` | propext, Quot.sound |
| `DS.C14.order_matters` | propext, Quot.sound |
| `DS.C15.literal` | propext, Quot.sound |
| `DS.C15.bad_item` | propext, Quot.sound |
| `DS.C15.bad_iff` | propext, Quot.sound |
| `DS.C16.drops` | propext, Classical.choice, Quot.sound |
| `DS.C16.measure` | propext, Classical.choice, Quot.sound |
| `DS.C16.composes` | propext, Classical.choice, Quot.sound |
| `DS.C16.index_error` | propext, Classical.choice, Quot.sound |
| `DS.C16.negative` | propext, Classical.choice, Quot.sound |
| `DS.C16.scalar` | propext, Quot.sound |
| `DS.C17.text` | propext, Classical.choice, Quot.sound |
| `DS.C17.written` | propext, Classical.choice, Quot.sound |
| `DS.C17.examples` | propext, Quot.sound |
| `DS.C17.factors` | propext |
| `DS.C17.complete` | propext |
| `DS.C17.law` | propext, Classical.choice, Quot.sound |
| `DS.C17.same` | propext, Quot.sound |
| `DS.C17.int_mul` | propext, Quot.sound |
| `DS.C17.int_mul_measure` | propext, Classical.choice, Quot.sound |
| `DS.C17.dim_mul` | propext, Classical.choice, Quot.sound |
| `DS.C17.product` | propext, Classical.choice, Quot.sound |
| `DS.C17.rejects` | propext |
| `DS.C18.every_slice` | propext, Classical.choice, Quot.sound |
| `DS.C18.every_dim_slice` | propext, Classical.choice, Quot.sound |
| `DS.C18.scalar_slice` | propext, Classical.choice, Quot.sound |
| `DS.C18.in_range_down` | propext, Classical.choice, Quot.sound |
| `DS.C18.in_range` | propext, Classical.choice, Quot.sound |
| `DS.C18.rounding` | propext, Quot.sound |
| `DS.C18.var_bounded` | propext, Classical.choice, Quot.sound |
| `DS.C18.var_unbounded` | propext, Classical.choice, Quot.sound |
| `DS.C18.reversed_raises` | propext, Classical.choice, Quot.sound |
| `DS.C18.out_of_range` | propext |
| `DS.C19.tuple` | propext, Classical.choice, Quot.sound |
| `DS.C19.single` | propext |
| `DS.C19.only_datashapes` | propext |
| `DS.C19.bad_index` | propext |
| `DS.C19.missing_field` | propext, Classical.choice, Quot.sound |
| `DS.C19.wrong_kind` | propext |
| `DS.C19.typevar_dimension` | propext |
| `DS.C19.only` | propext, Classical.choice, Quot.sound |
| `DS.C19.unique` | propext, Classical.choice, Quot.sound |
| `DS.C19.rank` | propext, Classical.choice, Quot.sound |
| `DS.C19.missing_in_list` | propext, Quot.sound |
| `DS.C19.bad_in_list` | propext, Classical.choice, Quot.sound |
| `DS.C19.bad_in_list_case` | propext |
| `DS.C19.errors` | propext, Classical.choice, Quot.sound |
| `DS.C19.parsed_errors` | propext, Classical.choice, Quot.sound |
| `DS.C19.exactly` | propext, Classical.choice, Quot.sound |
| `DS.C19.closed` | propext, Classical.choice, Quot.sound |
| `DS.C19.parsed` | propext, Classical.choice, Quot.sound |
| `DS.C20.ok_iff` | propext, Classical.choice, Quot.sound |
| `DS.C20.perm` | propext, Classical.choice, Quot.sound |
| `DS.C20.assoc` | propext, Classical.choice, Quot.sound |
| `DS.C20.raises` | propext, Classical.choice, Quot.sound |
| `DS.C20.small` | propext |
| `DS.C21.roundtrip` | propext, Quot.sound |
| `DS.C21.roundtrip_scalar` | propext, Classical.choice, Quot.sound |
| `DS.C21.other_dims` | propext, Quot.sound |
| `DS.C21.typevar` | propext, Quot.sound |
| `DS.C21.losses` | propext, Quot.sound |
| `DS.C21.reverse` | propext, Classical.choice, Quot.sound |
| `DS.C21.accepts` | propext, Classical.choice, Quot.sound |
| `DS.C21.picoseconds` | propext, Classical.choice, Quot.sound |
| `DS.C22.integer` | propext, Classical.choice, Quot.sound |
| `DS.C22.too_big` | propext, Quot.sound |
| `DS.C22.fraction` | propext |
| `DS.C23.scalars` | propext, Classical.choice, Quot.sound |
| `DS.C23.rectangular` | propext, Classical.choice, Quot.sound |
| `DS.C23.example` | propext, Quot.sound |
| `DS.C23.arrays` | propext, Quot.sound |
| `DS.C23.empty_rows` | propext, Quot.sound |
| `DS.C23.ragged` | propext, Classical.choice, Quot.sound |
| `DS.C23.ragged_example` | propext, Classical.choice, Quot.sound |
| `DS.C24.length` | propext, Quot.sound |
| `DS.C24.empty` | propext, Quot.sound |
| `DS.C24.no_fuel` | propext, Classical.choice, Quot.sound |
| `DS.C25.records` | propext, Classical.choice, Quot.sound |
| `DS.C25.scalar_field` | propext, Classical.choice, Quot.sound |
| `DS.C25.example` | propext, Classical.choice, Quot.sound |
| `DS.C25.fallback` | propext, Quot.sound |
| `DS.C25.unknown` | propext, Classical.choice, Quot.sound |
| `DS.C26.table` | propext, Quot.sound |
| `DS.C26.toposorted` | propext, Classical.choice, Quot.sound |
| `DS.C26.least` | propext, Classical.choice, Quot.sound |
| `DS.C26.unknown` | propext, Classical.choice, Quot.sound |
| `DS.C26.order_irrelevant` | propext, Classical.choice, Quot.sound |
| `DS.C26.examples` | propext, Classical.choice, Quot.sound |
| `DS.C26.conversions` | propext, Quot.sound |
| `DS.C26.known` | propext |
| `DS.C27.terminates` | propext, Classical.choice, Quot.sound |
| `DS.C27.sorts` | propext, Classical.choice, Quot.sound |
| `DS.C27.cycle_raises` | propext, Classical.choice, Quot.sound |
| `DS.C27.outcome_exists` | propext, Classical.choice, Quot.sound |
| `DS.C27.repeated_successor` | propext, Quot.sound |
| `DS.C28.reachable` | propext, Classical.choice, Quot.sound |
| `DS.C28.terminates` | propext, Classical.choice, Quot.sound |
| `DS.C29.partition` | propext, Quot.sound |
| `DS.C29.keys` | propext, Quot.sound |
| `DS.C29.total` | propext, Quot.sound |
| `DS.C30.symmetric` | propext, Classical.choice, Quot.sound |
| `DS.C30.idempotent` | propext, Classical.choice, Quot.sound |
| `DS.C30.option_iff` | propext, Quot.sound |
| `DS.C30.equal_options` | propext, Classical.choice, Quot.sound |
| `DS.C30.wide` | propext, Quot.sound |
| `DS.C30.narrow` | propext, Quot.sound |
| `DS.C30.lossy` | propext, Quot.sound |
| `DS.C30.strings` | propext, Quot.sound |
| `DS.C31.ok_iff` | propext, Classical.choice, Quot.sound |
| `DS.C31.rejects` | propext, Classical.choice, Quot.sound |
| `DS.C31.record` | propext, Quot.sound |
| `DS.C31.measure_only` | propext, Quot.sound |
| `DS.C31.idempotent` | propext, Classical.choice, Quot.sound |
| `DS.C31.keeps_option` | propext, Classical.choice, Quot.sound |
| `DS.C31.never_narrows` | propext, Classical.choice, Quot.sound |
| `DS.C31.same_family` | propext, Classical.choice, Quot.sound |
| `DS.C31.float16` | propext |
| `DS.C32.or_contains` | propext |
| `DS.C32.or_types` | propext |
| `DS.C32.or_assoc` | propext |
| `DS.C32.contains_iff` | propext, Classical.choice, Quot.sound |
| `DS.C32.contains_congr` | propext, Classical.choice, Quot.sound |
| `DS.C32.len` | propext, Classical.choice, Quot.sound |
| `DS.C32.len_members` | propext, Classical.choice, Quot.sound |
| `DS.C32.matches` | propext |
| `DS.C32.signature` | propext, Classical.choice, Quot.sound |
| `DS.C32.matches_iff` | propext, Classical.choice, Quot.sound |
| `DS.C32.signature_examples` | propext |
| `DS.C32.matches_prefix` | propext |
| `DS.C32.named` | propext |
| `DS.C32.predefined` | propext |
| `DS.C33.refines` | propext, Classical.choice, Quot.sound |
| `DS.C33.stable` | propext, Classical.choice, Quot.sound |
| `DS.C33.second_raises` | propext |
| `DS.C33.first_wins` | propext, Classical.choice, Quot.sound |
| `DS.C33.overwrite` | propext, Classical.choice, Quot.sound |
| `DS.C34.has_var_dim` | propext, Classical.choice, Quot.sound |
| `DS.C34.has_ellipsis` | propext, Classical.choice, Quot.sound |
| `DS.C34.ellipsis_is_var` | propext, Classical.choice, Quot.sound |
| `DS.C35.total` | propext, Classical.choice, Quot.sound |
| `DS.C35.true_iff` | propext, Classical.choice, Quot.sound |
| `DS.C35.sound` | propext, Classical.choice, Quot.sound |
| `DS.C35.unsound` | propext |
| `DS.C35.array` | propext, Quot.sound |
| `DS.C35.fields` | propext |
| `DS.C35.objects` | propext, Quot.sound |
| `DS.C35.typevar` | propext |
| `DS.C36.validate_iff` | propext, Quot.sound |
| `DS.C36.answers` | propext, Classical.choice, Quot.sound |
| `DS.C36.missing_field` | propext, Quot.sound |
| `DS.C36.any_schema` | propext, Quot.sound |
| `DS.C36.any_schema_order` | propext |
| `DS.C36.text` | propext, Quot.sound |
| `DS.C36.example` | propext, Classical.choice, Quot.sound |
| `DS.C36.zip_truncates` | propext |
| `DS.C36.unsupported` | propext |
| `DS.C36.ellipsis_raises` | propext |
| `DS.C36.values` | propext, Quot.sound |
| `DS.C37.iff_equal` | propext |
| `DS.C37.never_false` | propext, Quot.sound |
| `DS.C37.equivalence` | propext, Classical.choice, Quot.sound |
| `DS.C37.example` | propext, Quot.sound |
| `DS.C37.array` | propext, Quot.sound |
| `DS.C37.option_recursion` | propext |
| `DS.C38.passes_iff` | propext, Classical.choice, Quot.sound |
| `DS.C38.raises` | propext, Classical.choice, Quot.sound |
| `DS.C38.equal_passes` | propext, Classical.choice, Quot.sound |
| `DS.C38.decides` | propext, Classical.choice, Quot.sound |
| `DS.C38.relaxing` | propext, Classical.choice, Quot.sound |
| `DS.C38.any_order` | propext, Classical.choice, Quot.sound |
| `DS.C38.same_names` | propext, Classical.choice, Quot.sound |
| `DS.C38.example` | propext |
| `DS.C38.prefix_passes` | propext |
| `DS.C38.units_crash` | propext, Classical.choice, Quot.sound |
| `DS.C38.fixlen_message` | propext |
| `DS.C39.rebuild` | propext, Quot.sound |
| `DS.C39.parsed` | propext, Classical.choice, Quot.sound |
| `DS.C39.state` | propext, Quot.sound |
| `DS.C39.pickle` | propext, Quot.sound |
| `DS.C39.injective` | propext, Quot.sound |
| `DS.C39.ctype_fails` | propext, Quot.sound |
| `DS.C39.example` | propext, Quot.sound |
| `DS.C40.collect_iff` | propext, Classical.choice, Quot.sound |
| `DS.C40.members` | propext, Classical.choice, Quot.sound |
| `DS.C40.total` | propext, Quot.sound |
| `DS.C40.raises` | propext, Classical.choice, Quot.sound |
| `DS.C40.scalar_parameters` | propext, Quot.sound |
| `DS.C40.type_error` | propext |
| `DS.C41.option` | propext, Classical.choice, Quot.sound |
| `DS.C41.tuple` | propext, Classical.choice, Quot.sound |
| `DS.C41.function` | propext, Classical.choice, Quot.sound |
| `DS.C41.struct` | propext, Classical.choice, Quot.sound |
| `DS.C41.ellipsis` | propext, Classical.choice, Quot.sound |
| `DS.C41.option_printed` | propext, Classical.choice, Quot.sound |
| `DS.C41.not_implemented` | propext, Quot.sound |
| `DS.C41.double_option` | propext, Quot.sound |
| `DS.C42.measure_only` | propext, Quot.sound |
| `DS.C42.option` | propext, Quot.sound |
| `DS.C42.times` | propext, Quot.sound |
| `DS.C42.boolean_iff` | propext, Quot.sound |
| `DS.C42.real_iff` | propext, Quot.sound |
| `DS.C42.datelike_iff` | propext |
| `DS.C42.numeric_iff` | propext, Classical.choice, Quot.sound |
| `DS.C42.tabular_iff` | propext, Quot.sound |
| `DS.C42.dimension` | propext, Quot.sound |
| `DS.C42.collection` | propext, Quot.sound |
| `DS.C42.witnesses` | propext |
| `DS.C43.homogeneous_iff` | propext, Classical.choice, Quot.sound |
| `DS.C43.scalar_iff` | propext, Classical.choice, Quot.sound |
| `DS.C43.answer` | propext, Classical.choice, Quot.sound |
| `DS.C43.raises` | propext, Classical.choice, Quot.sound |
| `DS.C43.ellipsis` | propext |
| `DS.C43.cases` | propext |
| `DS.C44.dims_exact` | propext, Classical.choice, Quot.sound |
| `DS.C44.unknown_name` | propext, Classical.choice, Quot.sound |
| `DS.C44.name` | propext, Classical.choice, Quot.sound |
| `DS.C44.typevar` | propext, Classical.choice, Quot.sound |
| `DS.C44.dims` | propext, Classical.choice, Quot.sound |
| `DS.C45.raises` | propext, Classical.choice, Quot.sound |
| `DS.C45.call` | propext, Classical.choice, Quot.sound |
| `DS.C45.unambiguous` | propext, Classical.choice, Quot.sound |
| `DS.C45.type_error` | propext, Classical.choice, Quot.sound |
| `DS.C45.string_keywords` | propext, Classical.choice, Quot.sound |
| `DS.C45.dim_constructor` | propext, Classical.choice, Quot.sound |
| `DS.C45.unknown_constructor` | propext, Classical.choice, Quot.sound |
| `DS.C45.defaults` | propext, Quot.sound |
| `DS.C46.null` | propext, Classical.choice, Quot.sound |
| `DS.C46.exact` | propext, Classical.choice, Quot.sound |
| `DS.C46.raises` | propext, Classical.choice, Quot.sound |
| `DS.C46.kinds` | propext, Classical.choice, Quot.sound |
| `DS.C46.scalar` | propext, Classical.choice, Quot.sound |
| `DS.C46.total` | propext, Classical.choice, Quot.sound |
| `DS.C46.examples` | propext, Quot.sound |
| `DS.C47.plain` | propext, Quot.sound |
| `DS.C47.objects` | propext, Quot.sound |
| `DS.C47.records` | propext, Quot.sound |
| `DS.C47.total` | propext, Classical.choice, Quot.sound |
| `DS.C47.roundtrip` | propext, Quot.sound |
| `DS.C47.limits` | propext, Quot.sound |
| `DS.C47.array_like` | propext, Quot.sound |
| `DS.C47.inside` | propext, Classical.choice, Quot.sound |
| `DS.C48.ordered` | propext, Classical.choice, Quot.sound |
| `DS.C48.dict` | propext, Classical.choice, Quot.sound |
| `DS.C48.proxy` | propext, Quot.sound |
| `DS.C48.insertion_order` | propext, Classical.choice, Quot.sound |
| `DS.C48.raises` | propext, Classical.choice, Quot.sound |
| `DS.C48.example` | propext, Quot.sound |
| `DS.C49.evaluates` | propext, Classical.choice, Quot.sound |
| `DS.C49.identical` | propext, Classical.choice, Quot.sound |
| `DS.C49.collections` | propext, Classical.choice, Quot.sound |
| `DS.C49.examples` | propext |
| `DS.C50.constructor` | propext, Classical.choice, Quot.sound |
| `DS.C50.raises` | propext, Classical.choice, Quot.sound |
| `DS.C50.sequence` | propext, Classical.choice, Quot.sound |
| `DS.C50.objects` | propext, Classical.choice, Quot.sound |
| `DS.C50.idempotent` | propext, Classical.choice, Quot.sound |
| `DS.C50.foreign` | propext, Quot.sound |
| `DS.C50.elements` | propext, Classical.choice, Quot.sound |
| `DS.C50.size_and_text` | propext, Classical.choice, Quot.sound |
| `DS.C50.several` | propext, Quot.sound |
| `DS.C50.examples` | propext, Quot.sound |
| `DS.C51.erase` | propext, Classical.choice, Quot.sound |
| `DS.C51.leads` | propext, Classical.choice, Quot.sound |
| `DS.C51.message` | propext, Classical.choice, Quot.sound |
| `DS.C51.example` | propext |
| `DS.C52.length` | propext |
| `DS.C52.typeset_length` | propext, Classical.choice, Quot.sound |
| `DS.C52.index` | propext, Classical.choice, Quot.sound |
| `DS.C52.last` | propext, Classical.choice, Quot.sound |
| `DS.C52.iterate` | propext, Quot.sound |
| `DS.C52.rebuild` | propext, Quot.sound |
| `DS.C52.slice` | propext, Classical.choice, Quot.sound |
| `DS.C52.tail` | propext, Classical.choice, Quot.sound |
| `DS.C52.scalar` | propext, Classical.choice, Quot.sound |
| `DS.C52.record` | propext |
| `DS.C52.arithmetic` | propext, Classical.choice, Quot.sound |
| `DS.C52.function` | propext, Classical.choice, Quot.sound |
| `DS.C52.sizes` | propext |
| `DS.C52.sized` | propext |
| `DS.C52.attributes` | propext, Quot.sound |
| `DS.C52.option_size` | propext |
| `DS.C52.as_number` | propext, Quot.sound |
| `DS.C52.slice_down` | propext, Classical.choice, Quot.sound |
| `DS.C52.slice_zero` | propext |
| `DS.C52.reversed` | propext, Classical.choice, Quot.sound |
| `DS.C52.iteration` | propext, Classical.choice, Quot.sound |
| `DS.C52.slice_other` | propext, Classical.choice, Quot.sound |
| `DS.C53.inferred` | propext, Classical.choice, Quot.sound |
| `DS.C53.raises` | propext, Classical.choice, Quot.sound |
| `DS.C53.given` | propext, Quot.sound |
| `DS.C53.terminates` | propext, Classical.choice, Quot.sound |
| `DS.C53.offset` | propext, Classical.choice, Quot.sound |
| `DS.C53.wellformed` | propext, Classical.choice, Quot.sound |
| `DS.C53.examples` | propext, Quot.sound |
| `DS.C54.wellformed` | propext, Classical.choice, Quot.sound |
| `DS.C54.printable` | propext, Classical.choice, Quot.sound |
| `DS.C54.roundtrip` | propext, Classical.choice, Quot.sound |
| `DS.C54.example` | propext, Classical.choice, Quot.sound |
| `DS.C55.unique` | propext, Classical.choice, Quot.sound |
| `DS.C55.typed` | propext, Classical.choice, Quot.sound |
| `DS.C55.rows` | propext, Classical.choice, Quot.sound |
| `DS.C55.array_columns` | propext, Classical.choice, Quot.sound |
| `DS.C55.rows_error` | propext, Classical.choice, Quot.sound |
| `DS.C55.dicts` | propext, Classical.choice, Quot.sound |
| `DS.C55.dicts_error` | propext, Classical.choice, Quot.sound |
| `DS.C55.example` | propext, Classical.choice, Quot.sound |
| `DS.C56.accepts` | propext, Classical.choice, Quot.sound |
| `DS.C56.unique` | propext, Classical.choice, Quot.sound |
| `DS.C56.length` | propext, Quot.sound |
| `DS.C56.example` | propext, Classical.choice, Quot.sound |
| `DS.C56.rejected` | propext, Quot.sound |
| `DS.C57.print` | propext, Classical.choice, Quot.sound |
| `DS.C57.print_iff` | propext, Classical.choice, Quot.sound |
| `DS.C57.numpy` | propext, Classical.choice, Quot.sound |
| `DS.C57.validate` | propext, Classical.choice, Quot.sound |
| `DS.C57.predicates` | propext, Classical.choice, Quot.sound |
| `DS.C57.fixed_tabular` | propext, Classical.choice, Quot.sound |
| `DS.C57.membership` | propext, Classical.choice, Quot.sound |
| `DS.C57.example` | propext |
| `DS.C57.option_of_array_witness` | propext |
| `DS.C57.bool_category_witness` | propext |
| `DS.C57.distinguished` | propext, Quot.sound |
| `DS.C58.slots` | propext, Classical.choice, Quot.sound |
| `DS.C58.function` | propext |
| `DS.C58.ctype` | propext, Classical.choice, Quot.sound |
| `DS.C58.categorical` | propext, Classical.choice, Quot.sound |
| `DS.C58.ellipsis` | propext, Classical.choice, Quot.sound |
| `DS.C58.typeset` | propext |
| `DS.C58.unnamed` | propext, Quot.sound |
| `DS.C58.python_repr` | propext, Classical.choice, Quot.sound |
| `DS.C58.literal_unique` | propext, Quot.sound |
| `DS.C58.ctype_text` | propext, Classical.choice, Quot.sound |
| `DS.C58.examples` | propext |
| `DS.C59.history` | propext, Quot.sound |
| `DS.C59.consistent` | propext, Classical.choice, Quot.sound |
| `DS.C59.unchanged` | propext |
| `DS.C59.example` | propext, Quot.sound |
| `DS.C60.returns` | propext, Classical.choice, Quot.sound |
| `DS.C60.raises` | propext, Classical.choice, Quot.sound |
| `DS.C60.examples` | propext, Quot.sound |
| `DS.C61.fits` | propext, Classical.choice, Quot.sound |
| `DS.C61.str` | propext, Classical.choice, Quot.sound |
| `DS.C61.short` | propext, Classical.choice, Quot.sound |
| `DS.C61.record` | propext, Quot.sound |
| `DS.C61.tuple` | propext, Quot.sound |
| `DS.C61.records` | propext, Quot.sound |
| `DS.C61.tuples` | propext, Quot.sound |
| `DS.C61.other` | propext |
| `DS.C61.others` | propext |
| `DS.C61.str_record` | propext |
| `DS.C61.examples` | propext |
| `DS.C62.importing` | propext, Quot.sound |
| `DS.C62.registered` | propext, Classical.choice, Quot.sound |
| `DS.C62.model` | propext, Quot.sound |
| `DS.C62.dtype` | propext, Classical.choice, Quot.sound |
| `DS.C62.dtype_raises` | propext, Classical.choice, Quot.sound |
| `DS.C62.unaffected` | propext, Classical.choice, Quot.sound |
| `DS.C62.safe` | propext, Classical.choice, Quot.sound |
| `DS.C62.captured` | propext, Classical.choice, Quot.sound |
| `DS.C62.ctype` | propext, Classical.choice, Quot.sound |
| `DS.C63.method` | propext, Classical.choice, Quot.sound |
| `DS.C63.function` | propext, Classical.choice, Quot.sound |
| `DS.C63.to_numpy` | propext, Classical.choice, Quot.sound |
| `DS.C63.raises` | propext, Classical.choice, Quot.sound |
| `DS.C63.from_numpy` | propext, Classical.choice, Quot.sound |
| `DS.C63.from_raises` | propext, Classical.choice, Quot.sound |
| `DS.C63.value_error` | propext, Classical.choice, Quot.sound |
| `DS.C63.type_error` | propext, Classical.choice, Quot.sound |
| `DS.C64.lexer` | propext, Classical.choice, Quot.sound |
| `DS.C64.raises` | propext, Classical.choice, Quot.sound |
| `DS.C64.no_brackets` | propext, Classical.choice, Quot.sound |
| `DS.C64.not_implemented` | propext, Classical.choice, Quot.sound |
| `DS.C64.other_text` | propext, Classical.choice, Quot.sound |
| `DS.C64.outside` | propext, Classical.choice, Quot.sound |
| `DS.C64.negative` | propext, Classical.choice, Quot.sound |
| `DS.C64.dimension` | propext, Classical.choice, Quot.sound |
| `DS.C64.call` | propext, Classical.choice, Quot.sound |
| `DS.C64.record` | propext, Classical.choice, Quot.sound |
| `DS.C64.stopped` | propext, Classical.choice, Quot.sound |
| `DS.C64.stopped_complete` | propext, Classical.choice, Quot.sound |
| `DS.C65.order` | propext, Classical.choice, Quot.sound |
| `DS.C65.no_dicts` | propext, Classical.choice, Quot.sound |
| `DS.C65.example` | propext, Classical.choice, Quot.sound |
| `DS.C65.first_wins` | propext, Quot.sound |
| `DS.C65.hash_seed` | propext, Classical.choice, Quot.sound |
| `DS.C66.version` | propext, Classical.choice, Quot.sound |
| `DS.C66.checkout` | propext, Classical.choice, Quot.sound |
| `DS.C66.pep440` | propext, Classical.choice, Quot.sound |
| `DS.C66.distinct` | propext, Classical.choice, Quot.sound |
| `DS.C66.archive` | propext, Classical.choice, Quot.sound |
| `DS.C66.fails` | propext, Classical.choice, Quot.sound |
| `DS.C66.describe_long` | propext, Classical.choice, Quot.sound |
| `DS.C66.keywords` | propext, Classical.choice, Quot.sound |
| `DS.C66.written` | propext, Classical.choice, Quot.sound |
| `DS.C66.read_fails` | propext, Quot.sound |
| `DS.C67.sequence` | propext, Classical.choice, Quot.sound |
| `DS.C67.kind` | propext, Classical.choice, Quot.sound |
| `DS.C67.raises` | propext, Classical.choice, Quot.sound |
| `DS.C67.succeeds` | propext, Classical.choice, Quot.sound |
| `DS.C67.example` | propext, Quot.sound |
| `DS.C68.is_int` | propext, Classical.choice, Quot.sound |
| `DS.C68.is_float` | propext, Classical.choice, Quot.sound |
| `DS.C68.is_bool` | propext, Classical.choice, Quot.sound |
| `DS.C68.is_delta` | propext, Classical.choice, Quot.sound |
| `DS.C68.is_time` | propext, Classical.choice, Quot.sound |
| `DS.C68.overflow` | propext, Classical.choice, Quot.sound |
| `DS.C68.integers` | propext, Classical.choice, Quot.sound |
| `DS.C68.long_integers` | propext, Classical.choice, Quot.sound |
| `DS.C68.counts` | propext, Classical.choice, Quot.sound |
| `DS.C68.examples_numbers` | propext, Quot.sound |
| `DS.C68.examples` | propext, Quot.sound |
| `DS.C69.returns` | propext, Classical.choice, Quot.sound |
| `DS.C69.raises` | propext, Classical.choice, Quot.sound |
| `DS.C69.dict_values` | propext, Quot.sound |
| `DS.C69.again` | propext, Classical.choice, Quot.sound |
| `DS.C69.categorical` | propext, Classical.choice, Quot.sound |
| `DS.C69.categorical_raises` | propext, Classical.choice, Quot.sound |
| `DS.C69.examples` | propext |
| `DS.C70.reports` | propext, Classical.choice, Quot.sound |
| `DS.C70.text` | propext, Classical.choice, Quot.sound |
| `DS.C70.example` | propext |
| `DS.C71.extend` | propext, Quot.sound |
| `DS.C71.bare` | propext, Quot.sound |
| `DS.C71.missing` | propext, Classical.choice, Quot.sound |
| `DS.C71.example_table` | propext, Classical.choice, Quot.sound |
| `DS.C71.example` | propext, Quot.sound |
| `DS.C72.position` | propext, Classical.choice, Quot.sound |
| `DS.C72.unique` | propext, Quot.sound |
| `DS.C72.unread` | propext, Quot.sound |
| `DS.C72.dshape` | propext, Classical.choice, Quot.sound |
| `DS.C72.boundary` | propext, Classical.choice, Quot.sound |
| `DS.C72.messages` | propext, Classical.choice, Quot.sound |
| `DS.C72.broken` | propext, Classical.choice, Quot.sound |
| `DS.C72.decided` | propext, Classical.choice, Quot.sound |
| `DS.C72.hopeless` | propext, Classical.choice, Quot.sound |
| `DS.C72.example` | propext, Quot.sound |
| `DS.C73.text` | propext |
| `DS.C73.name` | propext |
| `DS.C73.unnamed` | propext |
| `DS.C73.construct` | propext, Quot.sound |
| `DS.C73.absorbed` | propext, Quot.sound |
| `DS.C73.derived` | propext, Quot.sound |
| `DS.C73.pickle` | propext |
| `DS.C73.repr` | propext |
| `DS.C73.misread` | propext, Quot.sound |
| `DS.C74.ordered` | propext, Classical.choice, Quot.sound |
| `DS.C74.mapping` | propext, Classical.choice, Quot.sound |
| `DS.C74.names` | propext, Classical.choice, Quot.sound |
| `DS.C74.dicts` | propext, Classical.choice, Quot.sound |
| `DS.C74.strings` | propext, Classical.choice, Quot.sound |
| `DS.C74.example` | propext, Quot.sound |
| `DS.C75.dtype` | propext, Classical.choice, Quot.sound |
| `DS.C75.dtype_example` | propext |
| `DS.C75.same` | propext, Quot.sound |
| `DS.C75.data_shape` | propext, Quot.sound |
| `DS.C75.record` | propext, Classical.choice, Quot.sound |
| `DS.C75.repeated` | propext, Classical.choice, Quot.sound |
| `DS.C75.literal` | propext, Quot.sound |
| `DS.C75.subarray` | propext, Classical.choice, Quot.sound |
| `DS.C75.to_numpy` | propext, Classical.choice, Quot.sound |
| `DS.C75.argument` | none |
| `DS.C75.example` | propext, Quot.sound |
| `DS.C76.same` | propext, Quot.sound |
| `DS.C76.bound` | propext, Classical.choice, Quot.sound |
| `DS.C76.bound_lists` | propext, Classical.choice, Quot.sound |
| `DS.C76.exponential` | propext, Quot.sound |
| `DS.C76.doubles` | propext, Quot.sound |
| `DS.C76.flat` | propext, Classical.choice, Quot.sound |
| `DS.C76.quadratic` | propext, Quot.sound |
| `DS.C76.mapping` | propext, Classical.choice, Quot.sound |
| `DS.C76.once` | propext, Quot.sound |
| `DS.C76.table` | propext, Classical.choice, Quot.sound |
| `DS.C76.example` | propext, Classical.choice, Quot.sound |
| `DS.C76.example2` | propext, Classical.choice, Quot.sound |
| `DS.C77.sum` | propext, Classical.choice, Quot.sound |
| `DS.C77.size` | propext, Classical.choice, Quot.sound |
| `DS.C77.array` | propext, Classical.choice, Quot.sound |
| `DS.C77.numpy` | propext, Classical.choice, Quot.sound |
| `DS.C77.plain` | propext, Classical.choice, Quot.sound |
| `DS.C77.strings` | propext, Classical.choice, Quot.sound |
| `DS.C77.read` | propext, Classical.choice, Quot.sound |
| `DS.C77.example` | propext, Quot.sound |
| `DS.C77.example2` | propext, Quot.sound |
| `DS.C77.example3` | propext, Quot.sound |
