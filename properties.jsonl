{"id": "C01", "title": "str/parse round trip", "statement": "For every datashape ds built only from parts the datashape language can spell, dshape(str(ds)) succeeds and equals ds. The parts the language cannot spell (char, bytes, ??T, record fields whose names start with True/False or end in a newline, names needing a \\\\, \\xNN or \\U escape, categoricals with more than ten categories) are exactly listed, and for each a concrete datashape is exhibited whose printed form does not parse back to it.", "quantifier": "all datashapes, of any nesting depth, width, field names and parameter values, in the printable fragment; for every behaviour of str.isprintable outside ASCII", "why_tests_cant": "the set of nested datashapes and of field-name strings is infinite; tests pick a handful of literals", "anchors": ["datashape/coretypes.py:Mono.__str__/DataShape.__str__/Record.__str__/pprint", "datashape/lexer.py:lex", "datashape/parser.py:parse", "datashape/util/__init__.py:dshape"]}
{"id": "C02", "title": "repr/pprint round trip at every width", "statement": "For every printable datashape ds and every width, dshape(pprint(ds, width)) succeeds and equals ds: line breaking never changes the meaning of the text.", "quantifier": "all printable datashapes and all integer widths (including zero and negative)", "why_tests_cant": "layout decisions depend on accumulated text lengths; the interaction of nesting and width cannot be enumerated", "anchors": ["datashape/coretypes.py:pprint", "datashape/coretypes.py:DataShape.__repr__"]}
{"id": "C03", "title": "Parsing always terminates", "statement": "For every input string and every symbol table whose constructors terminate, the lexer and the parser finish: they return a datashape or raise an exception; there is no input on which the backtracking loops run forever. Nor is there an input on which backtracking takes long: the number of calls of parsing methods is at most 40 for each token (and so for each character) of the text, plus 17, whether a datashape is read or an exception is raised; and these calls are nested at most five deep for each token, plus 5, so texts of fewer than 190 tokens do not come near Python's default limit on recursion in the parser.", "quantifier": "all strings of code points, all symbol tables", "why_tests_cant": "non-termination cannot be observed by a test and the inputs are unbounded", "anchors": ["datashape/parser.py:DataShapeParser", "datashape/lexer.py:lex"]}
{"id": "C04", "title": "The lexer is lossless", "statement": "For every string the lexer accepts, the token spans are non-empty, in order and disjoint, lie inside the string, and the text outside the spans consists only of whitespace and comments; each token's text is exactly the slice of its span.", "quantifier": "all strings accepted by the lexer", "why_tests_cant": "token boundaries depend on regex alternation order over arbitrary text", "anchors": ["datashape/lexer.py:lex", "datashape/lexer.py:_tokens", "datashape/lexer.py:_whitespace"]}
{"id": "C05", "title": "Syntax errors point into the source", "statement": "Whenever dshape(s) raises DataShapeSyntaxError, the reported offset is between 0 and len(s); the reported line is the lineno-th line of s, it contains no newline, and the column is the offset within that line; str(error) shows the file name, that number and line, a caret under the offending character, and the message.", "quantifier": "all strings, all offsets", "why_tests_cant": "every error site and every text layout would need a test", "anchors": ["datashape/error.py:DataShapeSyntaxError.__init__", "datashape/parser.py:raise_error", "datashape/lexer.py:lex"]}
{"id": "C06", "title": "The accepted language, exactly", "statement": "dshape(s) returns t if and only if all of s lexes, its token sequence derives from the start symbol of a grammar with value t, and t is valid. The grammar is that of the docstrings, extended with exactly the tokens the code skips: an optional '?' and a dimension not followed by '*', in front of a dtype (the dimension only), of a non-datashape constructor argument or after a trailing comma; and without a dtype that begins like a constructed dimension (typevar[...]) unless such a dimension is skipped in front of it. The grammar gives a token sequence at most one value; what the documented grammar derives, dshape returns; the same holds of parse with any symbol table with true types, disjoint names of types and dimensions and no keyword of such a name.", "quantifier": "all strings, all results, all symbol tables with these conditions", "why_tests_cant": "acceptance of wrong inputs is only visible on inputs nobody thought of", "anchors": ["datashape/parser.py:DataShapeParser.parse_*", "docs/source/grammar.rst"]}
{"id": "C07", "title": "Whitespace and comments do not matter", "statement": "Prepending any whitespace or comment lines, appending trailing whitespace or a trailing comment, does not change the parsed datashape; a text with white space at the end is read exactly as the text without it; whitespace and comments between two tokens can be replaced by any other, and left out where the tokens do not run together. Two texts that spell the same tokens have the same result: the same datashape, the same exception, or a syntax error with the same message at the same token; likewise two texts that spell the same tokens up to a place where no token begins.", "quantifier": "all strings and all whitespace/comment texts", "why_tests_cant": "unboundedly many layouts", "anchors": ["datashape/lexer.py:_whitespace", "datashape/lexer.py:lex"]}
{"id": "C08", "title": "Equality is an equivalence relation", "statement": "For datashapes (not containing TypeSets) a == b holds exactly when a and b are the same type: the same number of pairwise equal dimensions and measures of the same class with equal parameters, where a one-element DataShape counts as its measure (unless that measure is an Option of an array) and category literals compare as Python values. It is reflexive, symmetric and transitive. With TypeSets symmetry fails; a witness is exhibited.", "quantifier": "all triples of datashapes", "why_tests_cant": "transitivity and symmetry quantify over pairs and triples of nested terms, __eq__ compares shape and measure rather than structure", "anchors": ["datashape/coretypes.py:Mono.__eq__", "datashape/coretypes.py:Fixed.__eq__", "datashape/coretypes.py:Option.shape", "datashape/typesets.py:TypeSet.__eq__"]}
{"id": "C09", "title": "Equal datashapes have equal hashes", "statement": "a == b implies hash(a) == hash(b) for all datashapes, whatever the hash functions of str, int, type and tuple are; so datashapes are safe as dict keys and set members. (Fixed(n) == n as an int does not have this property.)", "quantifier": "all pairs of equal datashapes, all underlying hash functions", "why_tests_cant": "hash collisions and equalities between different spellings cannot be enumerated", "anchors": ["datashape/coretypes.py:Mono.__hash__", "datashape/coretypes.py:Fixed.__eq__"]}
{"id": "C10", "title": "Parser output is well formed", "statement": "Every datashape returned by dshape(s) has only dimensions before its measure, non-negative fixed dimensions, pairwise distinct record field names, canonical string encodings, canonical time units, and no redundant one-element DataShape inside options, maps and record fields.", "quantifier": "all strings accepted by dshape", "why_tests_cant": "invariant of every value the parser can build", "anchors": ["datashape/parser.py", "datashape/coretypes.py:DataShape.__init__", "datashape/coretypes.py:Record.__init__", "datashape/coretypes.py:String.__init__", "datashape/coretypes.py:_launder"]}
{"id": "C11", "title": "At most one ellipsis per datashape", "statement": "If dshape(s) returns ds then no DataShape reachable from ds has two ellipses or an ellipsis as measure. (False for DataShapes inside records and tuples, which validation does not visit: witness; proved for every DataShape reachable without passing through a record, tuple, units or category list.)", "quantifier": "all strings accepted by dshape and all their sub-datashapes", "why_tests_cant": "needs every nesting path", "anchors": ["datashape/validation.py:traverse", "datashape/validation.py:_validate", "datashape/util/__init__.py:dshape"]}
{"id": "C12", "title": "Time unit normalization is canonical", "statement": "normalize_time_unit returns only one of the ten canonical units, is idempotent, terminates on every string, accepts every alias with any number of plural s and surrounding whitespace; it raises on everything else (IndexError, not ValueError, on blank and all-s strings). It is IndexError exactly when nothing is left of the text after taking away, again and again, surrounding white space and the trailing s of a word longer than two.", "quantifier": "all strings", "why_tests_cant": "recursion over arbitrary strings", "anchors": ["datashape/coretypes.py:normalize_time_unit", "datashape/coretypes.py:TimeDelta.__init__"]}
{"id": "C13", "title": "String encodings are canonical", "statement": "String(...) stores one of A, U8, U16, U32; constructing a String from its own stored parameters gives an equal String; two spellings of one encoding give equal types; unknown encodings raise ValueError.", "quantifier": "all encodings and lengths", "why_tests_cant": "unbounded parameter space", "anchors": ["datashape/coretypes.py:String.__init__", "datashape/coretypes.py:_canonical_string_encodings"]}
{"id": "C14", "title": "Records keep their fields", "statement": "Record(fields) succeeds iff all types are acceptable and names are pairwise distinct; then names, types and fields are those given, in order, and looking a field up by name returns its type; two records that differ in field order are different when they have at least two fields.", "quantifier": "all field lists", "why_tests_cant": "unbounded field lists", "anchors": ["datashape/coretypes.py:Record.__init__", "datashape/coretypes.py:Record.__getitem__"]}
{"id": "C15", "title": "Record literals", "statement": "R[n1:t1, ..., nk:tk] builds exactly Record([(n1,t1),...,(nk,tk)]) (raising what that raises) if every item is a string name with a type and no step; if some item is not a slice, lacks a name, has a non-string name, lacks a type or has a step, it raises TypeError.", "quantifier": "all tuples of index items", "why_tests_cant": "unbounded lists of items", "anchors": ["datashape/coretypes.py:RecordMeta"]}
{"id": "C16", "title": "subarray removes leading dimensions", "statement": "ds.subarray(k) for 0 <= k < len(ds) drops exactly k leading dimensions, keeps the measure, composes (subarray(i).subarray(j) == subarray(i+j)), and raises IndexError exactly when k >= len(ds).", "quantifier": "all datashapes and all k", "why_tests_cant": "unbounded ranks", "anchors": ["datashape/coretypes.py:DataShape.subarray", "datashape/coretypes.py:Mono.subarray"]}
{"id": "C17", "title": "Multiplication prepends dimensions", "statement": "n * ds and dim * ds add exactly one leading dimension and keep the rest; d1*(d2*...*(dk*m)) has shape (d1..dk) and measure m; it fails only for a negative n or a non-dimension on the left / non-measure on the right. For any a and b of which one is a datashape (the other: an int, a text, a datashape, None, any other value), a * b is DataShape(a, *parts of b), where a text on the right is read by dshape first, and a text times a datashape that is not an array swaps the operands; a * b raises what dshape raises for such a text and otherwise what DataShape raises. For a dimension d and a text s, d * s is what dshape('d*s') returns if that returns; in addition d * s accepts a second ellipsis.", "quantifier": "all dimension lists and measures, all operands, all texts", "why_tests_cant": "unbounded ranks and mixed operand types", "anchors": ["datashape/coretypes.py:Mono.__mul__", "datashape/coretypes.py:Mono.__rmul__", "datashape/coretypes.py:DataShape.__rmul__", "datashape/coretypes.py:DataShape.__init__"]}
{"id": "C18", "title": "Slicing a dimension gives the right length", "statement": "For a fixed dimension n, ds.subshape[a:b:c] has the length Python gives range(n)[a:b:c]. (False for stop=0, for bounds outside 0..n, and for start>stop without a negative step; witnesses. Also false with a step for more than 2^53 elements, where ceil(count / step) rounds, and for a step from 2^1075 on; witnesses. Proved for all other in-range slices with positive step, including negative indices, and for slices with negative step whose two bounds are given.) What the code gives for every slice whatsoever, in range or not, is stated and proved too: bounds below 0 have n added and are not limited, an end of 0 counts as missing, with a step the length is the ceiling of the double nearest to the quotient, ZeroDivisionError for a step of 0, OverflowError if that double is infinite, ValueError for a negative length; a dimension that is not fixed gives a fixed one if both bounds are known, else var.", "quantifier": "all n, start, stop, step", "why_tests_cant": "four integer parameters with boundary cases", "anchors": ["datashape/coretypes.py:DataShape._subshape"]}
{"id": "C19", "title": "subshape projects records and composes over axes", "statement": "Indexing a record by name, position, list or slice (of either direction) returns exactly the selected fields in order; an int index removes a dimension; a list index of length k gives length k; a tuple index acts on successive axes; None inserts a unit axis. Conversely, whatever is returned is of this form, so indices into arrays remove one axis per int and add one per None and leave the measure alone. For every datashape made from a text and every index, of any nesting and with any slices, the result is the one the rules give, and where they give none it is known which error is raised.", "quantifier": "all records, index lists, tuples of any length", "why_tests_cant": "unbounded index expressions", "anchors": ["datashape/coretypes.py:DataShape._subshape"]}
{"id": "C20", "title": "cat_dshapes adds leading lengths", "statement": "cat_dshapes of two or more datashapes succeeds iff all leading dimensions are fixed and everything after agrees; the result has the summed leading length and the common rest; the result does not depend on the grouping or the order of the list.", "quantifier": "all lists of datashapes", "why_tests_cant": "unbounded lists", "anchors": ["datashape/util/__init__.py:cat_dshapes"]}
{"id": "C21", "title": "NumPy round trip", "statement": "from_numpy(*to_numpy(ds)) == ds for every datashape with fixed dimensions and a measure NumPy can represent exactly, including nested records; to_numpy fails with TypeError on every other dimension kind except type variables (which become -1). Losses (array-valued record fields, variable-length or non-U32 strings, time zones, decimals) are exhibited. Conversely, for every shape and every dtype d whose field names are distinct and non-empty, to_numpy(from_numpy(shape, d)) returns the same shape and the dtype d up to a fixed list of losses (resolution of dates and datetimes, zero-length strings, the empty struct, shapes of sub-array fields), and from_numpy fails only on time deltas with a unit datashape does not know.", "quantifier": "all shapes, all nested record measures in the fragment, all nested structured dtypes", "why_tests_cant": "unbounded nesting", "anchors": ["datashape/coretypes.py:to_numpy", "datashape/coretypes.py:from_numpy", "datashape/coretypes.py:CType.from_numpy_dtype", "datashape/coretypes.py:Record.to_numpy_dtype"]}
{"id": "C22", "title": "Decimal to NumPy never overflows", "statement": "For every integer decimal of precision p, the integer dtype chosen can hold every p-digit integer, is the smallest of int8..int64 that can, and precision above 18 is rejected.", "quantifier": "all precisions and all p-digit integers", "why_tests_cant": "10^18 values", "anchors": ["datashape/coretypes.py:Decimal.to_numpy_dtype"]}
{"id": "C23", "title": "discover on rectangular and ragged nested lists", "statement": "discover of an n1 x ... x nk nested list whose leaves all discover to the same scalar type t is n1 * ... * nk * t; the innermost axes may also be those of NumPy arrays with entries of type t. If the k items of a list are such nestings of d1 x ns, ..., dk x ns and not all di are the same, the result is k * var * ns * t.", "quantifier": "all ranks and extents >= 1 (of lists), all leaf values, all mixtures of lists, tuples, sets and arrays", "why_tests_cant": "unbounded rank and extents", "anchors": ["datashape/discovery.py:discover(list)", "datashape/discovery.py:unite_identical"]}
{"id": "C24", "title": "discover keeps the length of a sequence", "statement": "discover of a non-empty sequence, when it returns, is either an array whose leading dimension is exactly the length of the sequence or a tuple type with exactly that many components; for the empty sequence it is var * string.", "quantifier": "all nested Python values in the modelled universe", "why_tests_cant": "unbounded values; several strategies with fall-back", "anchors": ["datashape/discovery.py:discover", "datashape/discovery.py:do_one", "datashape/discovery.py:unite_*"]}
{"id": "C25", "title": "discover on lists of dicts", "statement": "When discover of a non-empty list of dicts returns an array of records, the record's fields are the sorted union of all keys; a field is optional exactly when some but not all rows lack it or hold null.", "quantifier": "all lists of dicts in the modelled universe", "why_tests_cant": "unbounded rows and keys", "anchors": ["datashape/discovery.py:discover(list)", "datashape/discovery.py:unite_base"]}
{"id": "C26", "title": "Common supertypes", "statement": "lowest_common_dshape returns the least common generalisation in the conversion graph: every argument converts to it, and it converts to every other common generalisation; it does not depend on argument order, on repetition, nor on the iteration order of sets used to build the topological order; it raises exactly when there is no common known type.", "quantifier": "all non-empty lists of types, all set iteration orders", "why_tests_cant": "hash-randomised schedules and unbounded lists", "anchors": ["datashape/discovery.py:lowest_common_dshape", "datashape/discovery.py:edges", "datashape/discovery.py:descendents", "datashape/internal_utils.py:_toposort"]}
{"id": "C27", "title": "Topological sort is correct for every graph and schedule", "statement": "For every finite graph and every order in which nodes are popped from the ready set, _toposort either returns a duplicate-free list of all nodes in which every edge goes forward, or raises ValueError, and it raises exactly when the graph has a cycle.", "quantifier": "all finite graphs, all pop schedules", "why_tests_cant": "exponentially many schedules, unbounded graphs", "anchors": ["datashape/internal_utils.py:_toposort", "datashape/internal_utils.py:reverse_dict"]}
{"id": "C28", "title": "descendents is reachability", "statement": "descendents(d, x) terminates and contains exactly the nodes reachable from x.", "quantifier": "all finite graphs and start nodes", "why_tests_cant": "unbounded graphs", "anchors": ["datashape/discovery.py:descendents"]}
{"id": "C29", "title": "groupby is an order-preserving partition", "statement": "groupby(f, seq) has a key for exactly the values f takes, and the group of k is the subsequence of seq with f(x)==k in order.", "quantifier": "all functions and sequences", "why_tests_cant": "unbounded sequences and arbitrary functions", "anchors": ["datashape/internal_utils.py:groupby"]}
{"id": "C30", "title": "Promotion is symmetric, idempotent and option-aware", "statement": "promote(a, b) == promote(b, a); promote(a, a) == a; with promote_option the result is optional iff one operand is; without it the result of unequal operands is never optional; the result is wide enough for both operands, and is the narrowest type of its sort (integral, real, complex) that is.", "quantifier": "all pairs of scalar types and options of them, for any commutative numpy.result_type; width claims for NumPy's table", "why_tests_cant": "pairs of types times option wrappers, parametric in NumPy", "anchors": ["datashape/promote.py:promote", "datashape/promote.py:optionify"]}
{"id": "C31", "title": "maxtype is a closure operator", "statement": "maxtype is idempotent, keeps optionality, never narrows, stays in the same family and depends only on the measure; it rejects non-numeric measures.", "quantifier": "all datashapes", "why_tests_cant": "all measures and wrappers", "anchors": ["datashape/typesets.py:maxtype", "datashape/typesets.py:supertype", "datashape/typesets.py:matches_typeset"]}
{"id": "C32", "title": "Type sets behave like ordered sets", "statement": "x in (a | b) iff x in a or x in b; iteration of a | b is a's order then b's; len counts distinct members; membership respects datashape equality; matches_typeset of a tuple of types and a signature holds iff every type is accepted by the parameter at its position (a type set accepts its members, another type what equals it), and of a type and a type set iff the type is a member or is so accepted. The nine predefined type sets have the documented members, in order of iteration, and the documented names.", "quantifier": "all type sets and types", "why_tests_cant": "unbounded sets", "anchors": ["datashape/typesets.py:TypeSet"]}
{"id": "C33", "title": "Registries never clobber", "statement": "Over any sequence of Type.register / register_typeset calls, a name once bound keeps its value and a second registration raises; lookups return the first registration. (Named DataShapes and class creation bypass this and overwrite: witness.)", "quantifier": "all operation sequences", "why_tests_cant": "histories of unbounded length", "anchors": ["datashape/coretypes.py:Type.register", "datashape/coretypes.py:DataShape.__init__", "datashape/typesets.py:TypesetRegistry"]}
{"id": "C34", "title": "has_var_dim and has_ellipsis search everywhere", "statement": "has_var_dim(ds) (has_ellipsis(ds)) is True iff a Var or Ellipsis (an Ellipsis) occurs at any depth in ds, through records, tuples, functions, options, maps, units and categoricals.", "quantifier": "all datashapes at any depth", "why_tests_cant": "unbounded nesting", "anchors": ["datashape/util/__init__.py:has", "datashape/util/__init__.py:has_var_dim", "datashape/util/__init__.py:has_ellipsis"]}
{"id": "C35", "title": "isfixed is sound", "statement": "isfixed(ds) is True only if ds has no variable dimension. (False for ellipses and for variable dimensions under options, tuples, functions, maps: witnesses; proved for datashapes whose measures are scalars or records of such.) On every datashape, what isfixed answers: the first of its dimensions or measure that is a type variable (None), var (False) or a record decides; a record asks its fields in order up to the first that is not True; on everything else it is True, and it raises exactly on bare dimensions and on types that dshape rejects.", "quantifier": "all datashapes", "why_tests_cant": "unbounded nesting", "anchors": ["datashape/predicates.py:isfixed"]}
{"id": "C36", "title": "validate checks structure exactly", "statement": "validate(schema, value) is True iff value has the nested structure of schema: lengths match fixed dimensions, record fields (looked up by name in dicts, by position in sequences) validate, leaves satisfy the scalar test. (Sequences shorter or longer than the record are accepted: witness.)", "quantifier": "all schemas and values in the modelled universe", "why_tests_cant": "unbounded values", "anchors": ["datashape/user.py:validate"]}
{"id": "C37", "title": "issubschema is equality", "statement": "issubschema(a, b) is True exactly when dshape(a) == dshape(b), and None otherwise; it is reflexive, symmetric and transitive.", "quantifier": "all pairs of datashapes or their strings", "why_tests_cant": "pairs of nested terms", "anchors": ["datashape/user.py:issubschema"]}
{"id": "C38", "title": "assert_dshape_equal decides equality", "statement": "assert_dshape_equal(a, b) passes whenever a == b, and with default flags fails when a != b. (The first is false for Units, which crash; the second is false when one shape is a prefix of the other: witnesses. Proved for Units-free datashapes, and for pairs of equal rank.) With any flags it passes exactly when a and b agree as far as the flags ask: measures, and with check_dim the dimensions that both have, time zones, units, encodings and lengths only if their flag is set, records in any order without check_record_order, everything else equal. What it raises is AssertionError, except for two Units of the same unit (AttributeError) and for a string with and one without length (TypeError).", "quantifier": "all pairs of datashapes, all flags", "why_tests_cant": "pairs of nested terms, flags", "anchors": ["datashape/util/testing.py:assert_dshape_equal"]}
{"id": "C39", "title": "Types are reconstructable from their parameters", "statement": "type(t)(*t.parameters) == t for every type, as the Mono docstring promises, and unpickling restores an equal type. (False for CType, whose constructor re-registers its name, and TypeSet: witnesses.)", "quantifier": "all types", "why_tests_cant": "unbounded nesting", "anchors": ["datashape/coretypes.py:Mono (docstring)", "datashape/coretypes.py:Mono.__getstate__/__setstate__"]}
{"id": "C40", "title": "collect returns exactly the matching subterms", "statement": "collect(pred, ds) returns, left to right, exactly the outermost subterms satisfying pred. It raises exactly when it meets a datashape with a parameter that is no datashape, which does not match and is inside nothing that matches, and then TypeError.", "quantifier": "all predicates and datashapes", "why_tests_cant": "arbitrary predicates", "anchors": ["datashape/util/__init__.py:collect"]}
{"id": "C41", "title": "Syntactic sugar means what the grammar says", "statement": "For texts T, Ti, R that are read as datashapes (any text that dshape accepts, if it does not end in an open comment): ?T parses like option[T] (if T does not itself start with ?), (T1,..,Tn) like tuple[[T1,..,Tn]], {n1:T1,..,nk:Tk} like struct[['n1',..],[T1,..]] however the names are written or quoted, (T1,..,Tn)->R like funcproto[[T1,..,Tn],R], with n, k >= 0, and the value is the corresponding Option, Tuple, Record, Function of the values. (typevar['T'], documented as the expansion of T, raises NotImplementedError: C06, C45.)", "quantifier": "all accepted texts, all lists of them, all field names", "why_tests_cant": "unbounded nesting", "anchors": ["datashape/parser.py", "docs/source/grammar.rst"]}
{"id": "C42", "title": "Predicates look at the measure only", "statement": "isnumeric, isreal, isboolean, isdatelike of n * ds and of ?m agree with those of ds and m; istabular and iscollection depend only on the leading structure.", "quantifier": "all dimensions and measures", "why_tests_cant": "all shapes times all measures", "anchors": ["datashape/predicates.py"]}
{"id": "C43", "title": "ishomogeneous compares all scalars", "statement": "When ishomogeneous(ds) answers, it is True exactly when ds contains at least one scalar part and all its scalar parts, at any depth, are the same type; a scalar part is an outermost part that is a scalar type or an option of one (Fixed and Var dimensions excluded, type variables included). It raises exactly what dshape(ds) raises, and TypeError if an anonymous ellipsis occurs outside the scalar parts.", "quantifier": "all datashapes on which collect(isscalar, ds) succeeds", "why_tests_cant": "arbitrary nesting of records, tuples, options and functions; equality is checked through a hash set", "anchors": ["datashape/predicates.py:ishomogeneous", "datashape/util/__init__.py:collect"]}
{"id": "C44", "title": "Names of types and dimensions mean what the documentation says", "statement": "dshape(w) for a single lower-case word w succeeds exactly when w is one of the documented type names (bool, int8..int64, uint8..uint64, float16..float64, complex64/128, the aliases int, intptr, uintptr, real, complex, and string, json, date, time, datetime, timedelta, null, void, object) and returns the DataShape of that type, with its documented name, size and alignment; any other word is a syntax error at the word (after it for var and ellipsis). An upper-case word is a type variable. In front of a *, an integer, var, ..., Name and Name... are the fixed, variable, ellipsis, type-variable and named-ellipsis dimension, and dshape('d*s') returns exactly if dshape('s') does and d is not a second ellipsis; it is the datashape of s with that dimension in front.", "quantifier": "all words, all integers, all names, all texts s", "why_tests_cant": "infinitely many words, names, lengths and texts s", "anchors": ["datashape/type_symbol_table.py:no_constructor_types", "datashape/type_symbol_table.py:dim_no_constructor", "datashape/coretypes.py:1172-1300", "datashape/parser.py:parse_dim"]}
{"id": "C45", "title": "Calls of type constructors follow Python's calling convention", "statement": "name[a1,..,an,k1=b1,..,km=bm] for a type constructor name is accepted exactly when the arguments bind to the documented parameters of the constructor by Python's calling convention (positional first, then keywords, of a repeated keyword the last one, defaults for the rest) and have the documented kinds, and it returns the DataShape of the documented type with exactly these parameters. Arguments that do not bind (too many, unknown keyword, parameter given twice, required parameter missing) raise TypeError; string takes no keywords; an unknown constructor is a syntax error at its name whatever follows; the dimension constructors fixed, typevar, ellipsis raise NotImplementedError.", "quantifier": "all constructors, all lists of positional and keyword arguments, all texts the parser reads as arguments", "why_tests_cant": "arbitrarily many arguments, each an arbitrary text, in all positional/keyword combinations", "anchors": ["datashape/type_symbol_table.py:constructor_types", "datashape/parser.py:parse_type_arg_list", "datashape/parser.py:parse_dtype", "datashape/coretypes.py:String", "datashape/coretypes.py:Categorical", "datashape/coretypes.py:Decimal"]}
{"id": "C46", "title": "What a string is discovered as", "statement": "discover(s) of the empty string is null and of no other string. For any other string the first of these kinds that applies decides: an integer text is int64, a number text float64, True/true/False/false bool, a whole 64-bit number followed by a spelling of a time unit is a timedelta in that unit, a time of day is time, text of only letters or only white space is string, otherwise dateutil decides between date (midnight), datetime and, on ValueError/OverflowError, string. discover raises exactly on a duration whose number exceeds 64 bits (OverflowError), on a duration whose unit is three or more letters s (IndexError), and on an unexpected exception of dateutil.", "quantifier": "all strings, all behaviours of int(), float(), strptime, str.isalpha and dateutil", "why_tests_cant": "infinitely many strings and spellings; the order of the attempts and their exceptions interact", "anchors": ["datashape/discovery.py:discover(_strtypes)", "datashape/discovery.py:deltaparse", "datashape/discovery.py:timeparse", "datashape/discovery.py:date_and_datetime"]}
{"id": "C47", "title": "discover on NumPy arrays", "statement": "discover(x) of an array without objects is from_numpy(x.shape, x.dtype), and hence the datashape whose shape and dtype it was made with if NumPy represents that exactly; an array of objects is an array of strings exactly when its first (at most) five entries are strings and otherwise stays an array of objects; of a structured array exactly the top-level object fields whose column begins with strings become string, names, order and all other fields stay. The shape always stays.", "quantifier": "all shapes, dtypes and contents", "why_tests_cant": "arbitrary number of dimensions, fields and entries", "anchors": ["datashape/discovery.py:discover(np.ndarray)", "datashape/coretypes.py:from_numpy"]}
{"id": "C48", "title": "discover on mappings", "statement": "discover of a dict or of a read-only view of one returns exactly when discover of every value does; the result is the record whose names are the keys in increasing order, each with the discovered type of its value, so the insertion order does not matter; if it raises, the exception is that of one of the values. An OrderedDict keeps its order.", "quantifier": "all dicts with string keys, of any size and nesting", "why_tests_cant": "arbitrary keys, orders and nested values", "anchors": ["datashape/discovery.py:discover(dict)", "datashape/discovery.py:discover(OrderedDict)", "datashape/discovery.py:discover(MappingProxyType)"]}
{"id": "C49", "title": "repr of a datashape is Python source for it", "statement": "repr(ds) of a DataShape (and of a Record or Tuple) whose strings (field names, type names, categories, encodings) are plain text, which repr writes without escapes and without quotes, is Python source: the text dshape( followed by a string literal and ), and evaluating it gives a datashape equal to ds. (A quote inside a name gives a text that is not a Python expression.) Datashapes that print alike, by str or by pprint at any widths, are equal.", "quantifier": "all printable datashapes, of any depth and width", "why_tests_cant": "arbitrarily nested datashapes, names and layouts (one line or several)", "anchors": ["datashape/coretypes.py:DataShape.__repr__", "datashape/coretypes.py:Mono.__repr__", "datashape/coretypes.py:CType.__repr__"]}
{"id": "C50", "title": "Building datashapes from Python objects", "statement": "DataShape(*values) returns exactly when every value stands for a part (a nonnegative int for a fixed dimension, a text for the datashape it denotes, a datashape for itself, a one-element DataShape for its element), the values are not one single string, the parts before the last may precede, and the last is not a dimension; the result consists of these parts in order. Otherwise the exception is ValueError without arguments, TypeError for a single string, that of the first value that stands for nothing, or TypeError for a part at a wrong place. dshape(list) does the same and checks ellipses; dshape(obj) returns a DataShape unchanged, wraps units, records and JSON, returns other measures unchanged and rejects everything else with TypeError; dshape is idempotent; dshape(list(ds)) is ds for every parsed ds; dshape([n, s]) is dshape(f'{n}*{s}'); dshapes(*args) is the list of the results or the exception of the first rejected argument.", "quantifier": "all sequences of Python values and datashapes, of any length and nesting", "why_tests_cant": "arbitrary sequences of arbitrary values; which exception comes first depends on order", "anchors": ["datashape/coretypes.py:DataShape.__init__", "datashape/coretypes.py:_launder", "datashape/util/__init__.py:dshape", "datashape/util/__init__.py:dshapes", "datashape/validation.py:validate"]}
{"id": "C51", "title": "The path shown by a failing assert_dshape_equal leads to a difference", "statement": "If assert_dshape_equal(a, b, **flags) raises AssertionError, then the path in the last line of its message, followed from a and from b (shape positions, .measure, .ty, fields by name, tuple components, argument and result types, slots), reaches two values that are not equal; the only exception is a Time compared with a DateTime, for which no path is shown. This holds for every combination of flags, also with check_record_order=False, where fields are compared in sorted order.", "quantifier": "all pairs of datashapes of any depth, all flags", "why_tests_cant": "arbitrarily deep structures and paths; the path is accumulated through recursive calls", "anchors": ["datashape/util/testing.py:assert_dshape_equal", "datashape/util/testing.py:_check_slots", "datashape/util/testing.py:_base_case", "datashape/util/testing.py:_fmt_path"]}
{"id": "C52", "title": "A datashape is the sequence of its dimensions and its measure", "statement": "len(ds) is the number of dimensions plus one; ds[i] and ds[a:b:c] select from the dimensions followed by the measure as they do from a list, with IndexError outside; list(ds) and *ds yield exactly these and end; DataShape(*ds) is ds; ds[-1] is the measure; ds[k:] are the parameters of ds.subarray(k); n * ds is one longer. Any other type except a record is the sequence of itself alone; a record is not a sequence: indexing it by an int, and iterating over it, raises KeyError. argtypes and restype of a function type are its parameters without and its last parameter; itemsize of every sized type is that of its NumPy dtype, is divisible by its alignment, and passes through options.", "quantifier": "all datashapes of any number of dimensions, all indices and all slices with positive or negative step", "why_tests_cant": "unbounded numbers of dimensions and unbounded indices; iteration is a loop that must end", "anchors": ["datashape/coretypes.py:DataShape.__len__", "datashape/coretypes.py:DataShape.__getitem__", "datashape/coretypes.py:Mono.__getitem__", "datashape/coretypes.py:Record.__getitem__", "datashape/coretypes.py:Function", "datashape/coretypes.py:CType", "datashape/coretypes.py:Fixed.__index__"]}
{"id": "C53", "title": "A Categorical without a type takes the type of its categories", "statement": "Categorical(categories) has the measure of discover(categories) as its type: string without categories; the common type when all categories have one type (ints int64, bools bool, the empty string null, other strings what discover makes of them, e.g. a number, date or timedelta); otherwise a tuple type with one component per category, in order. It raises exactly when discover raises on some category, with the exception of the first. A given type is taken as it is and the categories are not examined. With this discovery inside, dshape(s) still terminates, returns only well-formed datashapes, and its syntax errors carry an offset inside the text.", "quantifier": "all lists of categories of any length, all strings", "why_tests_cant": "arbitrary lists of arbitrary strings; the parser, the constructors and discovery call each other", "anchors": ["datashape/coretypes.py:Categorical", "datashape/discovery.py:discover", "datashape/parser.py:parse", "datashape/type_symbol_table.py:TypeSymbolTable"]}
{"id": "C54", "title": "What discover returns is well formed and reads back from its printed form", "statement": "Whatever discover(v) returns satisfies every construction rule (well formed as in C10). If every key of a dict inside v, and every field name of a structured array inside v, can be written in a datashape string, then str(discover(v)) parses back to the same datashape (identically, up to the DataShape wrapper that dshape adds), and so does pprint at every width.", "quantifier": "all Python values of any nesting built from scalars, strings, sequences, mappings and arrays", "why_tests_cant": "unbounded nesting and unbounded strings; combines discovery, the constructors, the printer and the parser", "anchors": ["datashape/discovery.py:discover", "datashape/coretypes.py:DataShape", "datashape/user.py", "datashape/parser.py:parse", "datashape/util.py:dshape"]}
{"id": "C55", "title": "discover of a table: the type of each column", "statement": "For a sequence of n lists or tuples of the same length k, discover takes the columns one by one: a column whose cells all have the same type has that type; otherwise its type is the least common generalisation of the cells in the conversion table, optional if there are nulls. If all columns have one type c the result is n * k * c, otherwise n * (c1, ..., ck); rows of length 0 give n * (). For a sequence of dicts the result is n * {k1: c1, ...} with the keys that occur anywhere, in sorted order, a missing key counting as null. A column has at most one type; it has one exactly if all cells have the same type or all non-null cells are in the conversion table; if a column of scalars has none, discover raises ValueError.", "quantifier": "all tables with any number of rows and columns, and cells of any type", "why_tests_cant": "any number of rows and columns; least common generalisation quantifies over all candidates", "anchors": ["datashape/discovery.py:discover", "datashape/discovery.py:unite_identical", "datashape/discovery.py:unite_base", "datashape/discovery.py:unite_merge_dimensions", "datashape/discovery.py:lowest_common_dshape"]}
{"id": "C56", "title": "validate accepts a uniform value with the datashape that discover finds for it", "statement": "Call a value uniform if it is an int, float, bool, date, time, datetime or a string that does not look like something else; or a non-empty list or tuple whose items are uniform with one and the same datashape; or a dict (of any size, keys in any order) of uniform values. Then discover(v) is the datashape written down by that construction (lists give fixed dimensions, dicts give records with their keys in order), and validate(discover(v), v) is True. The datashape is unique, and a list of another length is not accepted with it. (None, empty strings, complex numbers, bytes, timedeltas and sets are not accepted with their own datashape.)", "quantifier": "all uniform Python values of any nesting, and every answer NumPy may give for other types", "why_tests_cant": "unbounded nesting and unbounded widths; relates discovery and validation", "anchors": ["datashape/discovery.py:discover", "datashape/user.py:validate"]}
{"id": "C57", "title": "Equal datashapes are interchangeable", "statement": "If a == b for two well-formed datashapes without an option of an array inside, then str and pprint print the same text (unless booleans occur among categories), to_numpy and to_numpy_dtype return or raise the same, validate answers the same for every value, the predicates isscalar, isrecord, isnumeric, isreal, isboolean, isdatelike, has_var_dim, has_ellipsis (and isfixed and istabular on valid datashapes) agree, both have the same number of dimensions and are valid together. In the printable fragment str distinguishes exactly what == distinguishes.", "quantifier": "all pairs of well-formed datashapes, all values and widths", "why_tests_cant": "quantifies over all pairs of equal datashapes, of which there are many because singleton DataShape wrappers are ignored at every depth", "anchors": ["datashape/coretypes.py:Mono", "datashape/coretypes.py:DataShape", "datashape/util.py", "datashape/predicates.py", "datashape/user.py:validate"]}
{"id": "C58", "title": "repr of a type shows its class and its parameters as Python source", "statement": "repr(t) of a type that is not an array, record or tuple is the name of its class and, in parentheses, name=value for each slot in order, where the text of a value is Python source for it: a string literal that denotes exactly that string for every string of Unicode code points, a number, None, or the repr of the datashape in the slot. A function lists its parameters, a categorical type at most ten categories (with ... if there are more), its type and its ordering, an ellipsis its text, a named type set its name in braces, an unnamed one its members. Sized types and string types are ctype(\"...\"), in printable ASCII only, with a literal for str(t).", "quantifier": "all types of all classes, all strings in them (quotes, control characters, non-ASCII and non-BMP characters, surrogates), any str.isprintable that is false on surrogates", "why_tests_cant": "unbounded strings and nesting; escapes depend on every character", "anchors": ["datashape/coretypes.py:Mono.__repr__", "datashape/coretypes.py:Ellipsis.__repr__", "datashape/coretypes.py:String.__repr__", "datashape/coretypes.py:CType.__repr__", "datashape/coretypes.py:Categorical.__repr__", "datashape/typesets.py:TypeSet.__repr__"]}
{"id": "C59", "title": "hash is right in every history and every process", "statement": "However a program builds datashapes from one another, takes them apart, hashes them (which stores the hash in the object and in its parts), pickles them and unpickles them in other processes (where strings hash differently), hash(ds) always returns the hash of the value of ds in the process where it is asked: a stored hash is never that of another value or another process. So equal datashapes always have equal hashes within a process, however they got there.", "quantifier": "all histories of any length, over any number of processes with any hash functions", "why_tests_cant": "unbounded interleavings of construction, hashing and pickling between processes", "anchors": ["datashape/coretypes.py:Mono.__hash__", "datashape/coretypes.py:Mono.__getstate__", "datashape/coretypes.py:Mono.__setstate__", "datashape/coretypes.py:DataShape.__setstate__"]}
{"id": "C60", "title": "Calling the type classes from Python", "statement": "Time, DateTime, TimeDelta, Units, String, Fixed, TypeVar, Option, Map and Tuple called with arbitrary Python values return exactly in the documented cases, with the documented result, and otherwise raise a determined exception: time zones and units must be strings; TimeDelta takes str() of any value and normalises it; the type of Units must be a DataShape (default float64), not a bare type; String takes a length, an encoding or both (falsy encodings mean U8; one argument that is neither, or three or more, is UnboundLocalError); Fixed takes a non-negative integer or a Fixed; a type variable begins with a capital; Option and Map take what stands for a part (C50); Tuple takes DataShapes and single measures but no strings; the first unacceptable item decides.", "quantifier": "all calls with all Python values (None, strings, ints, datashapes, other objects) and tuples of any length", "why_tests_cant": "arbitrary arguments; which of several possible exceptions is raised depends on the order of checks", "anchors": ["datashape/coretypes.py:Time", "datashape/coretypes.py:DateTime", "datashape/coretypes.py:TimeDelta", "datashape/coretypes.py:Units", "datashape/coretypes.py:String", "datashape/coretypes.py:Fixed", "datashape/coretypes.py:TypeVar", "datashape/coretypes.py:Option", "datashape/coretypes.py:Map", "datashape/coretypes.py:Tuple"]}
{"id": "C61", "title": "Where pprint and str break lines", "statement": "A datashape whose text without line breaks is shorter than the width (and in which no part printed with str is broken, in particular if it is shorter than 80 characters) is printed by pprint as exactly this text. A record or tuple type, alone or as the measure of an array, whose text is not shorter than the width is broken: the dimensions, the opening bracket, each field or component on lines of its own, printed with the width that remains beside the dimensions and the field name, and the closing bracket, all lines but the first indented by two spaces. Everything else is printed as str prints it at every width, and str breaks only record types, at width 80.", "quantifier": "all datashapes at all nesting depths, all widths", "why_tests_cant": "unbounded nesting and all widths; the threshold is exact", "anchors": ["datashape/coretypes.py:pprint"]}
{"id": "C62", "title": "The registry of type names and the meaning of dtypes", "statement": "Importing the package binds exactly the documented names to exactly the documented types, each once. CType.from_numpy_dtype then gives exactly the documented type for each dtype (the type of the same name; date or datetime by unit; time deltas by their unit; strings of the given length in U32 or ascii; bytes and void for empty ones) and raises the documented exception for the others. Later bindings of other names never change this, nor does registering a name that is bound (TypeError, nothing changed); a DataShape with a name replaces what the name stood for, also for dtypes of this name, and nothing else.", "quantifier": "all names, all dtypes (all units, lengths and structures), all registries and all histories of registrations", "why_tests_cant": "arbitrary histories of registrations, arbitrary names and lengths", "anchors": ["datashape/coretypes.py:Type", "datashape/coretypes.py:CType.from_numpy_dtype", "datashape/coretypes.py:DataShape.__init__", "datashape/coretypes.py:CType.__init__"]}
{"id": "C63", "title": "The dtype and shape of a datashape, and the datashape of arrays", "statement": "The method to_numpy_dtype, the function to_numpy_dtype and to_numpy return exactly the documented dtype (and shape) and raise TypeError for everything else, or ValueError if two fields of a record would get the same name and nothing in front of them lacks a dtype: sized types by name; dates, points in time and time deltas, also optional ones; strings as objects, bytes or text by length and encoding; decimals as the least sufficient integers or doubles; mappings by their keys; records and tuples field by field, tuple fields named f0, f1, ...; of arrays inside only the measure; fixed dimensions and type variables (-1) as the shape. from_numpy returns exactly the documented datashape and raises the exception of the first field that has none, or ValueError for a negative extent.", "quantifier": "all datashapes, all dtypes, all shapes, at all nesting depths", "why_tests_cant": "unbounded nesting; all lengths, precisions and field lists", "anchors": ["datashape/coretypes.py:to_numpy", "datashape/coretypes.py:to_numpy_dtype", "datashape/coretypes.py:from_numpy", "datashape/coretypes.py:Record.to_numpy_dtype", "datashape/coretypes.py:Tuple.to_numpy_dtype"]}
{"id": "C64", "title": "Exceptions of dshape come from the text", "statement": "Every exception that dshape raises on a text has a place in the text: it is a DataShapeSyntaxError of that very text with an offset inside it and a message of the parser or the lexer, or the ValueError of a quoted string that Python cannot evaluate (a NUL or a surrogate in it), or it is raised by a complete construct spelled in the text (a negative length followed by *, a record with a field name twice, a call of a dimension constructor, a call of a type constructor that raises), or the text is read as a datashape that has two ellipses. In particular a text without [ { - and quotes raises nothing but its own syntax error or the TypeError for its ellipses. Conversely the first such construct behind leading dimensions and option signs is what dshape raises, whatever tokens come after it. The lexer raises exactly at the first offset at which no token starts. If no token begins at some place of a text, dshape raises the lexer's exception for that place, unless what comes before it raises: if the tokens before it are a datashape, it is the lexer's exception.", "quantifier": "all texts, all constructs at all nesting depths, all contexts after the construct", "why_tests_cant": "unbounded texts and nesting; all ways to continue a text", "anchors": ["datashape/lexer.py:lex", "datashape/parser.py:DataShapeParser", "datashape/parser.py:parse", "datashape/util/__init__.py:dshape", "datashape/type_symbol_table.py:TypeSymbolTable"]}
{"id": "C65", "title": "discover does not depend on orders that carry no meaning", "statement": "What discover returns or raises for a list, tuple or set does not depend on the order of its items, except that a tuple type lists its components in that order. The condition is that the items and their cells can be discovered on their own, and that cells in the same place of two items are alike: one is null, or neither is a dict, or both are dicts with the same keys and alike values, or one is a dict that is not empty. (Without it the first dict decides which keys are kept.) Nor does it depend on the order in which sets are iterated when the conversion table is sorted at import, that is, on the hash seed of the process.", "quantifier": "all permutations of the items of all sequences, all values in the cells; all values and all orders that the topological sort can produce", "why_tests_cant": "all permutations of unboundedly many items; hash seeds differ between processes", "anchors": ["datashape/discovery.py:discover", "datashape/discovery.py:unite_base", "datashape/discovery.py:unite_identical", "datashape/discovery.py:unite_merge_dimensions", "datashape/discovery.py:lowest_common_dshape", "datashape/discovery.py:toposorted"]}
{"id": "C66", "title": "The version of the package", "statement": "datashape.__version__ is computed at import by asking, in this order, the keywords that git archive fills in, Git itself, and the name of the parent directory, and is '0+unknown' when none of them answers. In a checkout described by Git as tag, number of commits since the tag, hash and changed or not, it is the tag when the number is 0 and nothing is changed, and otherwise the tag followed by the number, g and the hash and, if changed, dirty, joined by dots behind a + (or behind a dot when the tag contains a +); hyphens and digits inside the tag do not confuse it. So a checkout whose tag is a version of PEP 440 has a version of PEP 440, and two checkouts with the same version have the same tag, distance, hash and mark. In an archive it is the least tag of the commit in the order of strings, whatever the order of the names, of sets and of anything outside the archive. Importing fails for want of a version only in a checkout without tags in which Git cannot count the commits or prints no number. The function that reads the keywords from the text of the file, which setup.py uses, returns for each the text between the first quote behind an equals sign and the last quote of the last line that sets it, so whatever Git writes there is read back unchanged, and setup.py and importing agree on the version of an archive; a file that cannot be read has none, and of two keywords only one present is a KeyError.", "quantifier": "all results of all Git commands, all file systems, all paths of the package, all configurations (style, prefix of tags, prefix of the directory) and all keywords; all tags, distances, hashes; all texts of the file", "why_tests_cant": "A test sees the one repository it runs in. The code reads free text (a regular expression matched against the output of git describe, tags that contain hyphens, names with commas and parentheses, path names) and has a fallback for every failure of every command, so its answer depends on the combination of all of them.", "anchors": ["datashape/_version.py:get_versions", "datashape/_version.py:git_pieces_from_vcs", "datashape/_version.py:git_versions_from_keywords", "datashape/_version.py:render", "datashape/_version.py:render_pep440", "datashape/_version.py:versions_from_parentdir", "datashape/_version.py:run_command", "datashape/__init__.py:__version__", "datashape/_version.py:git_get_keywords"]}
{"id": "C67", "title": "What discover makes of a sequence", "statement": "discover of a list, tuple or set is determined by what discover makes of its items and of their elements, and is exactly this. No items: var * string. Lists and tuples of one length are read by columns: each column is discovered cell by cell and its types united (equal types stay; nulls make the rest optional; scalars become the least type all of them can turn into, or ValueError is raised; dicts are united key by key, with the keys of the first one), and the columns are combined. Dicts are read in the same way by keys, in sorted order, a missing key counting as None. Anything else, and anything for which the columns run into an AttributeError (a dict beside something else), is discovered item by item, and the types are combined: equal types to an array, arrays that differ in length only to a ragged array, and all others to a tuple. The first exception met in that order is the one raised; one other than ValueError comes from an item or a cell. The answer does not depend on whether the items are in a list, a tuple or a set.", "quantifier": "all lists, tuples and sets of any values, nested to any depth, with any strings under any behaviour of the string coercions; all orders that the topological sort may return", "why_tests_cant": "Which branch is taken depends on all items at once, and within a branch on the types of all cells of a column, so there are unboundedly many combinations; a fallback taken after an AttributeError deep inside a column is reached only by particular mixtures.", "anchors": ["datashape/discovery.py:unite_identical", "datashape/discovery.py:unite_base", "datashape/discovery.py:unite_merge_dimensions", "datashape/discovery.py:do_one", "datashape/discovery.py:unite", "datashape/discovery.py:discover"]}
{"id": "C68", "title": "Which texts discover reads as numbers, durations and times", "statement": "With Python's own int, float and strptime, discover(s) is int64 exactly when s is blanks, an optional sign, digits with single underscores between digits, and blanks, and has no more digits than the interpreter's limit; so for str(i) of every integer i within the limit, however large, while a longer one is float64. It is float64 exactly for the other numbers: with a point, an exponent, or inf, infinity or nan in any case. It is bool exactly for True, true, False and false. It is a timedelta exactly when s is two words, a number whose nearest double is a whole number of 64 bits, and a spelling of the unit; a whole double that does not fit raises OverflowError, and nothing else does. So 'n unit' is a duration for n up to 2**63 - 513 only, raises OverflowError from 2**63 - 512 on, and is neither a duration nor an error from 2**1024 - 2**970 on. It is time exactly for H:M:S with one or two digits each, within 23, 59 and 59, and an optional fraction of one to six digits.", "quantifier": "all strings of Unicode characters; all limits on the digits of an int; any decimal digits outside ASCII; all behaviours of str.isalpha and dateutil; all integers and counts", "why_tests_cant": "There are infinitely many spellings of numbers, and the boundary at which a count stops being a duration lies where doubles are 1024 apart; that the kinds exclude each other has to hold for every text.", "anchors": ["datashape/discovery.py:string_coercions", "datashape/discovery.py:deltaparse", "datashape/discovery.py:timeparse", "datashape/discovery.py:discover(_strtypes)"]}
{"id": "C69", "title": "Record and Categorical called from Python", "statement": "Record(fields) called with any Python value: a list or tuple of items, an OrderedDict (its pairs), a plain dict (only its keys, never its values), a string (its characters), or a datashape (what it iterates over; a Record is KeyError). Every item must unpack into a name and a type: a pair, a text of two characters, or a datashape with two parts; a name that is not a string is replaced by str(name). The call returns exactly when all items unpack, every second part stands for a type (C50) and the names are distinct, and the record holds these names and types in order. Otherwise the first item that does not unpack decides (ValueError, TypeError for None and ints, KeyError for a Record), then the first type that is none, then two equal names (ValueError). Categorical(categories, type, ordered) keeps the categories, takes the measure of the given type, or of the discovered one if type is falsy, and is unordered by default; a truthy type that is not a datashape is AttributeError.", "quantifier": "all arguments: sequences of any length of pairs, texts, ints, None, datashapes and other objects, dicts, strings, datashapes; all categories, types and flags", "why_tests_cant": "arbitrary arguments of any length and nesting; which exception is raised depends on the order of the checks over all items", "anchors": ["datashape/coretypes.py:Record.__init__", "datashape/coretypes.py:Categorical.__init__", "datashape/coretypes.py:_launder"]}
{"id": "C70", "title": "The message of a failing assert_dshape_equal is true and complete", "statement": "If assert_dshape_equal(a, b, **flags) raises AssertionError, its message names a difference that is really there: following the path of the last line from a and from b reaches two objects of which the two dimensions, attribute values (class in lower case, slot name), units, encodings, lengths, whole types, numbers and names of the fields, the first position at which the field names differ (in sorted order with check_record_order=False), numbers of components or arities are those the message shows, left operand first, and they differ; for dimensions, all earlier dimensions are equal, and both whole shapes are shown too if the left one has several dimensions. The wording is the fixed template for the kind of difference. A Time compared with a DateTime is reported without the path.", "quantifier": "all pairs of datashapes of any depth, all flags", "why_tests_cant": "arbitrarily deep structures, every kind of difference at every place; a test looks for a substring of one message", "anchors": ["datashape/util/testing.py:assert_dshape_equal", "datashape/util/testing.py:_check_slots", "datashape/util/testing.py:_base_case", "datashape/util/testing.py:_fmt_path"]}
{"id": "C71", "title": "Parsing with a symbol table of one's own", "statement": "parse(text, sym) with any TypeSymbolTable: adding entries to the table (types, type constructors, dimensions, and dimension constructors that are not the names of type constructors) never changes the datashape that a text denotes; with the empty table nothing is read; and a record, tuple, function, option, type-variable, typed ellipsis, ellipsis or fixed-dimension notation whose entry (struct, tuple, funcproto, option, typevar, ellipsis, fixed) is missing from the table raises DataShapeSyntaxError, with a message that names the entry and the notation, at the first character of that construct (for an integer dimension, at the star after it), behind any leading dimensions and option signs and whatever text follows.", "quantifier": "all symbol tables with true types, disjoint names of types and dimensions and no keyword of such a name; all texts", "why_tests_cant": "arbitrary tables, constructors and texts", "anchors": ["datashape/parser.py:parse", "datashape/parser.py:DataShapeParser.syntactic_sugar", "datashape/type_symbol_table.py:TypeSymbolTable"]}
{"id": "C72", "title": "Syntax errors point at the offending token and say what is wrong", "statement": "If a text consists of tokens and reads, up to some token, like a datashape of the documented grammar (at any nesting: behind dimensions and options, inside records, tuples, function types, arguments, keyword arguments and lists of type and dimension constructors), and that token may not come there (no type where one is needed, no field name, no colon, neither comma nor closing bracket after an item, no arguments, no value after a keyword, a literal of another kind in a list of literals, anything after a complete datashape), then dshape raises DataShapeSyntaxError with the offset of that token's first character; if the text ends there, with the offset of the end of the last token. The message of the error names that mistake (\"Expected a \":\" separating the field name from its datashape\", \"Invalid field in struct\", \"Unexpected token in datashape\", ...). Every syntax error in a text that consists of tokens is at the beginning of a token or after the last one. The offending token and the mistake are determined by the tokens, and such a text is never read. If the lexer cannot read the text beyond some place, a mistake before it is reported in the same way or the lexer's exception is raised. An error that is found in the first tokens of a text is the error of every text that begins with these tokens, at the same token: no continuation makes it a datashape. There are no other messages than these, those for missing symbol table entries and \"Invalid DataShape token\".", "quantifier": "all texts, all symbol tables with true types and disjoint names", "why_tests_cant": "unbounded nesting, arbitrary contents before the mistake and arbitrary text after it", "anchors": ["datashape/parser.py:DataShapeParser.raise_error", "datashape/parser.py:DataShapeParser.parse_homogeneous_list", "datashape/parser.py:DataShapeParser.parse_struct_field", "datashape/parser.py:DataShapeParser.parse_funcproto_or_tuple_type", "datashape/parser.py:DataShapeParser.parse_type_arg", "datashape/lexer.py:lex"]}
{"id": "C73", "title": "Names of datashapes show in str only", "statement": "DataShape(*params, name=n) returns exactly if DataShape(*params) does, and compares and hashes like it. str of it is n; pprint and repr of it, and str of a record that has it as a field type, show its content; every other datashape shows it by its name, as if a type variable of that name stood there (so str of datashapes with names inside is exactly that text, at any depth). A named DataShape of one element loses its name inside an Option or another DataShape; i * ds and ds.subarray(k) have no name; unpickling drops all names at any depth and changes nothing else. (dshape(str(ds)) may therefore be another datashape, or a syntax error: witnesses.)", "quantifier": "all datashapes with names at any places, of any depth, all names and widths", "why_tests_cant": "unbounded nesting of named and unnamed datashapes", "anchors": ["datashape/coretypes.py:DataShape.__init__", "datashape/coretypes.py:DataShape.__str__", "datashape/coretypes.py:DataShape.__setstate__", "datashape/coretypes.py:pprint", "datashape/coretypes.py:_launder"]}
{"id": "C74", "title": "discover on dicts whose keys are not all strings", "statement": "discover of a dict or MappingProxyType with string, int, bool or None keys is the record of the entries in increasing order of their keys (strings by code points, numbers by their value, True being 1), each named str of its key; keys of different kinds (and None next to any other key) raise TypeError, whatever the values are. An OrderedDict keeps its own order, needs no order of the keys, and (if its values can be discovered) raises ValueError exactly if two keys have the same text (9 and '9'). A list or tuple of dicts is read key by key in the order of all their keys, a missing key counting as None and a key that several dicts have (1 and True) being named as in the first of them; keys that cannot be compared raise TypeError even if they are in different dicts. With string keys only, at any depth, this is discover as described elsewhere.", "quantifier": "all values built from lists, tuples, sets, dicts, OrderedDicts and MappingProxyTypes, nested without bound, with any such keys; all strings in them and all dateutil behaviours", "why_tests_cant": "arbitrary keys in any order, unbounded nesting and contents", "anchors": ["datashape/discovery.py:_mapping_discover", "datashape/discovery.py:discover(OrderedDict)", "datashape/discovery.py:discover(seq)", "datashape/coretypes.py:Record.__init__"]}
{"id": "C75", "title": "Error messages name the offending part", "statement": "DataShape(*params) with a dimension at the end, or else a measure before it, raises TypeError with the repr of that parameter (the first such measure) in its message. Record with repeated names raises ValueError, and the message lists each name that comes n > 1 times n - 1 times, in the order of the repetitions, in whatever order Python iterates over sets. R[...] raises TypeError that names the position of the first item that is no name:type and says which of the mistakes it is (no slice, no name, a name that is no string, no type, a step). subarray(k) raises IndexError with the number k exactly if there are too few elements. to_numpy names the first dimension that NumPy does not have; to_numpy and to_numpy_dtype (method and function) give the str of the first part of the datashape, in the order of fields and components and through keys of mappings, that has no dtype, unless NumPy itself rejects it. TypeVar and String give the repr of the rejected symbol or encoding.", "quantifier": "all lists of parameters, fields, items and dimensions, all datashapes in them; all iteration orders of sets", "why_tests_cant": "arbitrary lists and unbounded nesting; the order of sets of strings varies from process to process", "anchors": ["datashape/coretypes.py:DataShape.__init__", "datashape/coretypes.py:Record.__init__", "datashape/coretypes.py:RecordMeta._unpack_slice", "datashape/coretypes.py:RecordMeta.__getitem__", "datashape/coretypes.py:DataShape.subarray", "datashape/coretypes.py:Mono.subarray", "datashape/coretypes.py:to_numpy", "datashape/coretypes.py:to_numpy_dtype", "datashape/coretypes.py:Mono.to_numpy_dtype", "datashape/coretypes.py:TypeVar.__init__", "datashape/coretypes.py:String.__init__"]}
{"id": "C76", "title": "How often discover looks at a value", "statement": "discover(v) of a value v made of n objects (itself, the elements of its sequences and the values of its mappings, counted with repetitions) nested d deep in sequences and mappings is over after at most F(d + 1) * n^2 calls of discover, where F are the Fibonacci numbers, and without mappings after at most F(d + 1) * n. A list, tuple or set of n values without parts takes exactly n + 1 calls. A mapping whose values are discovered takes the calls for its values and one; so does, for its elements, a sequence in which an element is no list or tuple and an element is no dict. A table of r rows of k integers takes r * k + 1 calls. The growth is real in both respects: there are lists of 4d + 3 objects, nested d + 2 deep, that take exactly 2 * (F(d + 2) + F(d + 4)) - 5 calls (more than F(d + 3), so the bound is reached up to the factor n) and are discovered without an exception, because rows whose columns have no common type are looked at a second time; and n dicts with one key each, all different, take n^2 + 1 calls, because a missing key is discovered as None. Counting the calls does not change the result.", "quantifier": "all values built from sequences, mappings and leaves, with every depth and size; all ways of reading strings; all topological orders", "why_tests_cant": "unbounded nesting and sizes; the exponential growth shows only in values that nobody writes by hand", "anchors": ["datashape/discovery.py:discover", "datashape/discovery.py:_mapping_discover", "datashape/discovery.py:do_one"]}
{"id": "C77", "title": "The size of a discovered datashape", "statement": "If discover(v) returns, the datashape has at most two parts for each sequence and mapping in v, in addition to all the parts of the datashapes of the leaves of v taken together. So if v is made of n objects, the datashape has at most K * n parts (dimensions, records, tuples, scalar types; options and the DataShape around its parameters are not counted), where K >= 2 bounds the parts of the datashapes of the leaves of v, that is, of its parts that are neither sequences nor mappings. Here an array, or an object with shape and dtype, counts for its dimensions and the parts of its dtype (itself, and for each field its dimensions and the parts of its dtype), and everything else but strings for one. In particular, without NumPy objects in v, and if strings are discovered as datashapes of at most two parts (discover gives every string one part, whatever int, float, strptime and dateutil accept), the datashape has at most 2 * n parts; an empty list reaches this bound. So although the number of calls of discover can be exponential in the depth and quadratic in the number of keys (C76), neither repeated looks at rows nor the keys missing in some of the dicts of a table make the result larger than that.", "quantifier": "all values of every depth and size; all ways of reading strings; all topological orders; all K", "why_tests_cant": "unbounded nesting and sizes; columns, united records and merged dimensions interact", "anchors": ["datashape/discovery.py:discover", "datashape/discovery.py:unite_base", "datashape/discovery.py:unite_identical", "datashape/discovery.py:unite_merge_dimensions", "datashape/discovery.py:_mapping_discover"]}
