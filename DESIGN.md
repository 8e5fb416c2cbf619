# Formal model of blaze/datashape in Lean 4

`properties.jsonl` lists the properties (C01, C02, …); `MANIFEST.json` maps each to the theorems that prove it
(regenerate with `python3 tools/manifest.py`); `seeded/LOG.jsonl` records the wrong programs the theorems were tested
against; `python3 tools/coverage.py` lists the functions of `/repo` that no comment of the model cites.

## Trusted base

* **Lean 4.33.0's kernel.** Every theorem depends on no axioms beyond `propext`, `Classical.choice` and `Quot.sound`
  (listed per theorem in `AXIOMS.md`; `lean/Verif/Audit.lean` prints them). No axiom is added, nothing is left
  unproved, no compiled evaluation is used. Mathlib is not imported.
* **The reading of `/repo` into `lean/Verif/Model/*.lean`.** The Python code cannot be run here. Every definition cites
  the file and lines it models and says where it simplifies.
* **Python**: CPython 3, 64-bit: the semantics of `str`, `repr(str)`, `ast.literal_eval` of the string tokens, `re`,
  `dict` (insertion ordered), `set`, sorting, slices, calls with keyword arguments. Recursion depth and memory are
  unlimited.
* **External behaviour enters only as explicit parameters**, over which the theorems quantify universally:
  `str.isprintable` and `str.isupper` outside ASCII (`Env`), `discover` on the category list of a `categorical[...]`
  without a type (`disc`; instantiated with the modelled `discover` in C53), CPython's hashes of str, int, type, None, tuple and `^` (`HashEnv`), the order in which
  elements are popped from sets (`Toposort`, a relation), `int()/float()/strptime/dateutil` on strings (`StrEnv`; the first three written out in C68),
  `np.issubdtype` on Python scalars (`ext` of `validate`), `np.result_type` on non-numeric dtypes (`ext` of `promote`).
* **NumPy** dtypes are modelled by a small inductive type (`DType`: primitive kinds, fixed-width strings, dates with a
  unit, structs); `np.result_type` on the fourteen numeric and boolean dtypes is the table of `Model/Typesets.lean`.

## What is modelled

| Python | Lean |
|---|---|
| strings, literals, exceptions, Unicode tables used | `Model/Basic.lean` |
| `coretypes` classes (values), `.shape`, `.measure`, class hierarchy | `Model/Ty.lean` (`Ty`) |
| `Mono.__eq__/__hash__`, `Fixed.__eq__`, `TypeSet.__eq__/__hash__` | `Model/Equality.lean` |
| constructors, `_launder`, `normalize_time_unit`, string encodings, `*` | `Model/Ctor.lean` |
| `repr(str)`, every `__str__`, `pprint`, `isidentifier` | `Model/Printer.lean` |
| `__repr__` of datashapes, `DataShapeSyntaxError.__str__` | `Model/Repr.lean` |
| `lexer.lex` (regexes unfolded into scanners), error offsets | `Model/Lexer.lean` |
| `parser.DataShapeParser` (every `parse_*` function, backtracking, errors and their messages) | `Model/Parser.lean`; counting steps: `Model/ParserSteps.lean` |
| `type_symbol_table` (all tables, `TypeConstructor` functions), `util.dshape`, `validation` | `Model/SymTab.lean` |
| `Record`, `R[...]`, `subarray`, `cat_dshapes`, `has_var_dim`, `has_ellipsis`, `collect` | `Model/Util.lean` |
| `DataShape(...)`, `dshape(o)` for any object, `dshapes` | `Model/Build.lean` |
| `a * b` for operands of any kind | `Model/Multiply.lean` |
| `DataShape._subshape` | `Model/Subshape.lean`, `Model/TrueDiv.lean` |
| `to_numpy`, `to_numpy_dtype`, `from_numpy`, `CType.from_numpy_dtype` | `Model/Numpy.lean` |
| `typesets` (sets, registry, `supertype`, `maxtype`, `matches_typeset`), `promote` | `Model/Typesets.lean` |
| `predicates` | `Model/Predicates.lean` |
| `internal_utils` (`_toposort`, `reverse_dict`, `groupby`), `descendents` | `Model/Graph.lean` |
| `discovery` on Python values | `Model/Discovery.lean` |
| `Categorical` with `discover` inside | `Model/Categories.lean` |
| `discovery` on strings (`deltaparse`, `timeparse`, `date_and_datetime`) | `Model/StrDiscovery.lean` |
| `discovery` on NumPy arrays and array-likes | `Model/ArrayDiscovery.lean` |
| `user.validate`, `user.issubschema` | `Model/User.lean` |
| `len`, indexing, slicing, iteration, `argtypes`/`restype`, `itemsize`, `alignment`, `Fixed.__index__` | `Model/Sequence.lean` |
| `util.testing.assert_dshape_equal`; with paths | `Model/Testing.lean`, `Model/TestingPath.lean` |
| `Mono.parameters`, `type(t)(*t.parameters)`, pickling, `Type._registry` | `Model/Params.lean` |
| `Time`, `DateTime`, `TimeDelta`, `Units`, `String`, `Fixed`, `TypeVar`, `Option`, `Map`, `Tuple` called with Python values | `Model/Classes.lean` |
| `Record`, `Categorical` called with Python values | `Model/RecordCall.lean` |
| `Mono.__hash__` with its cache `_hash`, in histories with pickling | `Model/Objects.lean` |

Python exceptions are values of `PyErr`; a function that may raise returns `Except PyErr α`. Python strings are lists of
code points (`Str := List Nat`), so lone surrogates are representable. Python recursion that is not structural is
modelled with fuel; that the fuel provided is always enough is itself a theorem (C03, C12, C24, C28). The exception
`PyErr.unmodelled` marks calls that leave the modelled code (for example a Python value as `ordered`); theorems that
quantify over all inputs say what they claim about it.

Specification vocabulary is kept apart in `lean/Verif/Spec/*.lean` (grammar, lexical syntax, well-formedness, printable
fragment, `Same`, sub-terms, Python slices, indexing, graphs, calling convention, …) and does not mention the functions
it specifies.

### Check of the model against the repository's own tests

`lean/Verif/Conform/*.lean` transcribes the repository's tests and doctests (everything that does not need mocks, NumPy
scalars inside containers or non-string field names) as `example`s about the model, evaluated by the
kernel. They are tests of the reading of `/repo` into the model, not proofs of properties; no theorem uses them.

### Simplifications

* `DataShape(..., name=...)` only in the registry model (`Model/Registry.lean`) and in `Model/Named.lean` (datashapes whose parts carry names; C73): all other functions are modelled on datashapes without names, which is all they look at. Decimal precision and scale, string lengths and dimensions are
  Python ints (a bool is identified with the int it equals). Categories are ints, strings or bools.
* `Ellipsis.typevar` is represented by the symbol of its type variable.
* `math.ceil(x / y)` in `_subshape` divides in floating point as CPython does (`Model/TrueDiv.lean`: the nearest double, ties to even, overflow from 2^1024 on); C18 holds up to 2^53 elements and fails above (`C18.rounding`).
* `Model/Discovery.lean` writes the conversion graph over an enumeration of its nine nodes; the nodes are proved
  pairwise different under `==`. Keys of dicts are strings there; `Model/DictKeys.lean` (C74) has ints, bools and `None` as well (not floats, tuples, dates). A 0-dimensional NumPy array of Python strings (or with a field of them), which is discovered as a `DataShape` of one element, is modelled at top level (C47), not inside lists (`C47.inside`).
* `validate` is given `Ty`, tuple or text schemas and `PyObj` values; `DataShape(*schema[1:])` is the identity on the
  parameters of an existing `DataShape`.
* `repr` of an unnamed `TypeSet` lists its members in the order of the arguments.
* Pickling of Python builtins is the identity. Protocol 2 or later (the default): with protocols 0 and 1 `copyreg` drops a
  falsy `__getstate__`, so the state `()` of `null` is never restored and `repr` and `==` of the unpickled object fail.

## What is not modelled

Python 2; docs, packaging (`setup.py`, `versioneer.py`); of `_version.py`: the
registry `HANDLERS`, what `verbose` prints, decoding of the output of commands, Windows paths, and the limit on the digits that
`int` reads; texts of exception messages other than those of syntax errors, of `assert_dshape_equal` and of C75; contents of
NumPy arrays other than which entries are strings; recursion-depth and memory limits; `discover` on mocks and foreign classes; user subclasses of the core
types; mutation of private attributes; `multipledispatch` (each dispatched function is modelled as one function with a
case per class).

## Properties

| id | what is modelled | how it is proved |
|---|---|---|
| C01 | printer, lexer, parser, symbol table, `dshape` | layout relation text↔tokens, token-level completeness of the parser for the declarative grammar, induction on the type. The fragment `Printable` (`Spec/Printable.lean`) covers every class except `char`, `bytes`, `TypeSet`, bare dimensions outside an array; `C01.field_name_exact`, `string_exact`, `categories_exact` show that its side conditions are necessary as well, `unspelled_*` that the excluded classes do not round-trip. Result equal, and identical for components as the parser builds them (`C01.identical`) |
| C02 | `pprint` with every width | the same layout relation, closed under line breaking |
| C03 | lexer, parser with fuel; the parser again with counters of method calls and of how many are open at the same time (`Model/ParserSteps.lean`) | measure: remaining tokens; the fuel never runs out; for all symbol tables. `C03.linear`: the counting parser computes the same (`Proofs/Steps.lean`), and 40 steps for each token that is read pay for everything, since a failed attempt reads at most a few tokens (`Proofs/StepBound.lean`). `C03.depth`: five nested calls for each token (`Proofs/DepthBound.lean`). Not counted: what type constructors do (flattening of dimensions, strings that are parsed in turn), slicing of texts |
| C04 | lexer with spans | declarative lexical syntax (`Spec/Lexical.lean`), sound and complete, for all strings |
| C05 | error object, lexer, parser | offsets come from spans; list lemmas about lines and columns |
| C06 | declarative grammar (`Spec/Grammar.lean`) | soundness by induction on fuel, completeness by induction on derivations, both for the grammar with the flag `q`; together `C06.exact`: `dshape` returns `t` iff the tokens derive `t`. The deviations of the code from the docstrings (dimension not followed by `*`, `?` in front of a non-datashape argument, `typevar[` not implemented where a dimension may stand) are the productions and conditions guarded by the flag `q` |
| C07 | whitespace scanner | congruence of skipping, lexical completeness; `C07.same_tokens`, `C07.same_broken`: texts with the same tokens, including their errors |
| C08, C09 | `__eq__`, `__hash__` | `==` is decided by the inductive relation `Same`; equality coincides with equality of collision-free hashes |
| C10 | parser, constructors | invariant `WF` by induction on derivations |
| C11 | `validate`, `dshape` | induction over visited sub-terms; counterexample in records and tuples |
| C12, C13 | `normalize_time_unit`, `String` | recursion on length; independent table (`Spec/TimeUnits`, `Spec/Encodings`) |
| C14, C15 | `Record`, `RecordMeta` | list induction |
| C16 | `subarray` | list lemmas |
| C17 | `*` for operands of any kind | relation `Factors` in `Spec/Multiply.lean`, complete by cases; then C50; texts by C44 |
| C18, C19 | `_subshape` | arithmetic against a specification of Python slices (`Spec/Slices`); the result of every slice, in range or not, against `Spec/SliceLaw` (bounds as read, ceiling of the nearest double, errors); inductive relation `Sel` for tuples of indices; the converse (`Acts`: every result is of this form, slices outside the bounds excepted) by induction on the tuple; the exact result for every index of any nesting (`Spec/Yields.lean`) and the exact error (`Spec/YieldErrors.lean`) by mutual induction over indices |
| C20 | `cat_dshapes` | fold induction, permutations; measures that are not arrays or options of arrays (`FlatMeasure`) for the order theorem |
| C21, C22 | NumPy conversions, both directions (`Kept` in `Spec/Numpy.lean`) | induction on the type and on the dtype; arithmetic |
| C23–C25 | `discover` | induction over nested values. C25 assumes that a string discovers to a scalar (`StrScalar`, proved of the modelled string discovery in C46.scalar), and states the fallback to a tuple type |
| C26–C29 | `_toposort` with every pop schedule, `descendents`, `groupby` | invariants over loop states. Values of the graph are collections without repetitions (witness `C27.repeated_successor`) |
| C30–C32 | `promote`, `maxtype`, `TypeSet` | case analysis; `ext` is any symmetric function |
| C33 | registries as state machines | refinement of a partial map, induction over operation lists |
| C34, C35, C40 | `has`, `isfixed`, `collect` | induction against inductive sub-term relations. `collect` raises `TypeError` when it meets an unmatched class with a non-datashape parameter, which is part of the statement |
| C36, C37 | `validate`, `issubschema` | induction against the relation `Matches`. A bare option, tuple, … makes `issubschema` recurse for ever (witness) |
| C38 | `assert_dshape_equal` | induction; counterexamples for Units and prefixes; exact relation `Agree` (Spec/Agree) for all flags, and what is raised |
| C39 | constructors from parameters | case analysis; unpickling for all classes |
| C41 | parser | `Denotes` (text of the grammar with a value), composition of derivations |
| C42, C43 | predicates | case analysis; `ishomogeneous` via C40 and C08 |
| C44 | `dshape` on single words and dimension prefixes | lexical completeness, tables against `NamedType`/`DimText` |
| C45 | constructor calls | relations `Binds` (calling convention) and `Means` (documented kinds); `C45.raises` (`Spec/CallErrors.lean`): which exception each call raises; the same relation lists, with `PyErr.unmodelled`, exactly the calls whose arguments Python stores unchecked and the model leaves out (`decimal` of a string, non-bool `ordered`, datashape categories, a string length that is no number, function parts that are no datashapes) |
| C46 | `discover` on strings, with `int`, `float`, `strptime`, `isalpha`, dateutil as parameters | relation `Understood`/`NotUnderstood` in terms of the text (words, unit spellings, 64 bits); both directions for results and exceptions |
| C47 | `discover` on arrays: shape, dtype, which entries are strings | cases on the measure; round trip with C18's `NpExact`; limits of the five-entry rule as witnesses |
| C48 | `discover` on dict, mappingproxy, OrderedDict | exact characterisation by induction on the items; sorting shown unique, so insertion order is irrelevant |
| C49 | `__repr__` of `Mono`, `CType`, `DataShape`, `CollectionPrinter` | `PyLiteral` (what a quoted text evaluates to) in `Spec/Source.lean`; induction on the printer: every printed character stands for itself; then C01/C02. `C01.injective`, `C01.stable`, `C02.stable` follow from the round trip |
| C50 | `DataShape.__init__`, `_launder`, `dshape` on any object, `dshapes` | relations `StandsFor`, `NoPart`, `MayPrecede`, `BuiltFrom` in `Spec/Build.lean`; both directions for results and exceptions; corollaries by C10, C11, C44 |
| C51 | `assert_dshape_equal` with its `path` argument and `_fmt_path` | `Leads` (attribute access along a path) and `SameValue` in `Spec/Path.lean`; induction on the left datashape; `C51.erase` ties the model to that of C38 |
| C52 | the sequence protocol of datashapes; Python's iteration by `__getitem__` as the relation `Iterates` | positions as in `Spec/Indexing.lean` and `Spec/Slices.lean`; induction on the number of parameters |
| C53 | `Categorical.__init__` with the model of `discover` (`Model/Categories.lean`) in place of the parameter `disc` of the parser | types of categories in `Spec/Categories.lean`; all-equal or tuple by the exactness of equality (C08) on the types of scalars; discharges the hypotheses of C03, C05, C10 |
| C54 | `discover` with the model of string discovery; printer and parser of C02 | an invariant (`Disc`) kept by every function of discovery.py, by induction on the value; it implies the hypotheses of the round trip (C02) |
| C55 | sequences of rows and of dicts in `discover` (`discoverRows`, `discoverDicts`, `uniteBase`, `lowestCommon`) | types of columns in `Spec/Tables.lean`, over the conversion table as reachability (`Turns`); equality by C08, least common type by C26 |
| C56 | `discover` and `validate`; NumPy's `issubdtype` stays a parameter of which only `int64`/`int`, `float64`/`float` and `bool`/`bool` are assumed | uniform values as an inductive relation (`Spec/Uniform.lean`); induction on it, with C55 for lists of dicts and rows and C36 for `validate` |
| C57 | `==`, printing, `to_numpy`, `validate`, predicates | the singleton wrappers are stripped at every depth; equal datashapes have equal stripped forms, and every function modelled gives the same on a datashape and its stripped form |
| C58 | `__repr__` of every class (`pyReprTy`), `repr(str)` and `unicode_escape` of CPython | Python string literals with escapes as a relation (`Spec/Repr.lean`); hexadecimal numbers by induction, case analysis over classes |
| C59 | `Mono.__hash__` with the cache `_hash`, `__getstate__`/`__setstate__`, as a transition system over the objects of all processes | invariant: every cached hash is that of the value; induction over the run, inside over the object |
| C60 | the constructors of ten type classes on arbitrary Python values (`Model/Classes.lean`) | declarative relations of accepted calls and of exceptions (`Spec/Classes.lean`); case analysis, first failing item by induction |
| C61 | `pprint`, `str` | the text without line breaks as a function (`Spec/Pretty.lean`); structural induction, lengths of joined texts |
| C62 | `Type._registry` as the import fills it, `CType.from_numpy_dtype` on any registry, `DataShape(…, name=)`, `CType(…)` | the documented names as an inductive relation (`Spec/Registry.lean`); case analysis over dtypes; NumPy's `dtype.name` is modelled by its documented form |
| C63 | `to_numpy_dtype` (method and function), `to_numpy`, `from_numpy` on every datashape, dtype and shape | relations `DtypeOf`, `MeasureDtype`, `NumpyOf`, `FromNumpy`, `FromRaises` (`Spec/Dtype.lean`); induction over datashapes and over dtypes. Exactly when `ValueError` and when `TypeError`: `Spec/DtypeErrors.lean`. What NumPy does with names of sized types other than the package's own is not modelled (`TypeError`) |
| C64 | the lexer, the parser and `dshape` on every text, with every exception | relations `Broken` (where the lexer stops), `Cause` (constructs that raise) and `Lead` (`Spec/Raises.lean`); an invariant over all parsing functions (`Proofs/Causes.lean`) that tracks the remaining tokens; converses from completeness of the grammar. `C64.outside`: a text leaves the model only through one of the calls listed in `CallRaises` with `unmodelled` |
| C65 | `discover` on sequences, with every order of the items and every result of `_toposort(edges)` | `Alike` and `SamePlace` in `Spec/RowOrder.lean`; equal discovered datashapes are identical (C08 and injectivity of `Ty.strip` on them), so uniting is invariant under permutations, by induction on the nesting of records; witness `C65.first_wins` for the condition |
| C66 | `_version.py`: `run_command`, the three methods and their order, the regular expression for `git describe`, the six styles; Git, the file system and `int` are the parameters of a `Machine` | `VersionOf` in `Spec/Version.lean` says with decompositions of texts (`Described`, `Marked`, `RefNames`, `Candidate`, `Ancestor`) what is returned or raised; equivalence by soundness and totality of that relation; then corollaries for tagged checkouts, archives and failures. `git_get_keywords` (`Model/VersionKeywords.lean`): lines, the leftmost match and the last quote against decompositions of the line (`Spec/VersionKeywords.lean`), last setting line by induction on the lines |
| C67 | `discover` of sequences, `unite_identical`, `unite_base`, `unite_merge_dimensions`, `unite` as in C24, C55 and C65 | `SequenceOf` in `Spec/Sequences.lean` describes the result or exception by relations without fuel, wrapping in `DataShape`s or `subshape`; equivalence by soundness and totality of each relation, using that everything discovered is a well-formed type on which `==` is identity |
| C68 | `discover` on strings as in C46, with CPython's `int(str)`, `float(str)` and `datetime.strptime` for the two formats of `timeparse` written out in `Model/PyNumbers.lean` (compared with CPython 3.11 on 12394 texts) | grammars in `Spec/NumberTexts.lean`; the double nearest to a decimal number by `NearestDouble` in `Spec/Doubles.lean`: no double (a multiple of 2^-1074 with 53 binary digits) is nearer, ties to even. Scanner and grammar agree by induction on the text; rounding by the unit in the last place; the kinds exclude each other by their characters |
| C69 | `Record.__init__` on arbitrary Python items (`Model/RecordCall.lean`: iterating over the argument, unpacking each item, `str` of names, `_launder` of types, distinctness), `Categorical.__init__` | `Spec/RecordCall.lean` says what iterating and unpacking give; return and raise are both characterised, by the first failing item of each of the three passes. Not modelled: unknown objects that are iterated over or used as names |
| C70 | the messages of `assert_dshape_equal`: `Report` (the operands of each format string) and `Report.text` in `Model/TestingPath.lean` | `Reports` (what a message may say about two datashapes, at a path) and `MessageText` (the templates with `%`) in `Spec/Report.lean`; the induction of C51, which follows from it |
| C71 | `parse(text, sym)`, where `Sym` is any four tables | `Sym.Extends`, `LeadIn` and `Lacks` (a piece of syntax without entry, the token the error points at and the message) in `Spec/SymTable.lean`; the grammar is monotone in the table, and parser and grammar agree (C06) |
| C72 | `parse`, `raise_error`: the token an error points at | `Wrong`/`WrongText` in `Spec/SyntaxErrors.lean`: the complete parts before the offending token derive from the documented grammar, and the token is none that may come next (missing type, name, colon, separator, closing bracket, value, mixed literals; inside any nesting); induction over `Wrong`, with `comp` (Proofs/Complete.lean) for the complete parts. Each mistake has a `Complaint`, whose text is given in `Spec/Complaints.lean`; `C72.messages`: no others. `Wrong` does not cover the undocumented skipped tokens nor what comes after a complete call of a dimension constructor (which raises `NotImplementedError`, C64). `C72.broken` (texts with a place where no token begins): a simulation of the parser whose lexer raises by the parser whose text ends there (`Proofs/Sim.lean`), also behind `C64.stopped` and `C07.same_broken`. `C72.decided`, `C72.hopeless`: a second simulation, of the parser on the first tokens by the parser on all tokens (`Proofs/Prefix.lean`). `C72.unique`, `C72.unread`: the token and the complaint are determined |
| C73 | `DataShape(…, name=…)`, `str`, `pprint` and `repr` of datashapes with named parts, `_launder`, `*`, `subarray`, pickling (`Model/Named.lean`, datashapes annotated with names, and `erase`) | what the text shows, as a datashape with a type variable in place of each name that shows (`Spec/Named.lean`); induction over annotated datashapes, refinement to the functions on datashapes without names |
| C74 | `_mapping_discover`, `discover(OrderedDict)`, `discover(seq)` on dicts whose keys are strings, ints, bools or `None` (`Model/DictKeys.lean`: `==`, `<` and `str` of keys, `sorted`, `set.union`) | the keys in order, as a permutation increasing under a stated order, and the columns under a key (`Spec/DictKeys.lean`); correctness of insertion sort, uniqueness of sorted permutations, refinement to `Model/Discovery.lean` on string keys |
| C75 | messages of the exceptions of `DataShape`, `Record`, `R[...]`, `subarray`, `TypeVar` and `String` (`Model/Messages.lean`, the same functions with messages, for every iteration order of the set of names), and of `to_numpy` and `to_numpy_dtype` (`Model/DtypeMessages.lean`; messages of NumPy's are left open) | which part is named (`Spec/Messages.lean`, `Spec/DtypeMessages.lean`); induction over the arguments and over datashapes; `C75.same`, `C75.dtype`: refinement to the functions without messages |
| C76 | the branches of `discover` on sequences and mappings, followed a second time with a counter of calls (`Model/DiscoverCalls.lean`): comprehensions stop at the first exception, a branch given up because of `AttributeError` has made its calls; the one further call for the coerced value of a string is not counted | number of objects and depth of nesting (`Spec/DiscoverCalls.lean`); `C76.same`: refinement to `discover`; bound by induction over values, exact numbers for mappings, mixed sequences, tables, and the two families of values that show the growth |
| C77 | `discover` as for C24 and arrays as for C47; no further code | number of parts of a datashape and the leaves of a value (`Spec/DiscoverSize.lean`); size bounds for `unite_identical`, `unite_base`, `unite_merge_dimensions` and `Tuple`, columns summed by rows, induction over values; for NumPy objects induction over dtypes |
