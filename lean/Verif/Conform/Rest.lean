import Verif.Conform.Core

/-
datashape/tests/test_discovery.py, test_predicates.py, test_promote.py, test_typeset.py, test_user.py, test_util.py,
datashape/util/tests/test_testing.py, and the doctests of discovery.py, predicates.py, promote.py, typesets.py and
internal_utils.py
-/
namespace DS.Conform

/-! ### test_discovery.py -/

/-- `[...]` -/
def L (l : List PyObj) : PyObj := .seq .list l
/-- a string -/
def S (x : Str) : PyObj := .str x
/-- `n * t` -/
def times (n : Int) (t : Ty) : Except PyErr Ty := mul (.int n) (.ty t)
/-- `n * Tuple(ts)` -/
def nTuple (n : Int) (ts : List Ty) : Except PyErr Ty := do mul (.int n) (.ty (← mkTuple ts))

conforms ok (disco .int) tInt64 && ok (disco .float) tFloat64 && ok (disco .complex) tComplex128
conforms ok (disco (S (py"Hello"))) tString && ok (disco .bool) tBool && ok (disco .none) .null
conforms same (disco (L [.int, .int, .int])) (times 3 tInt64) && same (disco (L [.float, .float, .float])) (times 3 tFloat64)
conforms same (disco (.seq .set [.int])) (times 1 tInt64)
conforms same (disco (.seq .tuple [S (py"Hello"), .int])) (mkTuple [tString, tInt64])
conforms ok (disco (S (py"1"))) tInt64 && ok (disco (S (py"1.0"))) tFloat64
conforms ok (disco (S (py"True"))) tBool && ok (disco (S (py"true"))) tBool
conforms ok (disco (.dict [(py"name", S (py"Alice")), (py"amount", .int)])) (.record [(py"amount", tInt64), (py"name", tString)])
conforms same (disco (.mp [(py"a", .int), (py"b", S (py"cs"))])) (disco (.dict [(py"a", .int), (py"b", S (py"cs"))]))
conforms ok (disco (.od [(py"c", .int), (py"b", S (py"cs")), (py"a", .float)]))
  (.record [(py"c", tInt64), (py"b", tString), (py"a", tFloat64)])
conforms (dates.filter fun p => !p.2).all fun p => ok (disco (S p.1)) (.datetime none)
conforms ok (disco .datetime) (.datetime none) && ok (disco (S (py"2014-01-01"))) .date && ok (disco .date) .date
conforms ok (disco (S (py" "))) tString && ok (disco (S (py"31-DEC-99 12.00.00.000000000"))) tString
conforms ok (disco .time) (.time none) && ok (disco .timedelta) tTimedelta
conforms [(py"1 day", py"day"), (py"-2 hours", py"hours"), (py"3 seconds", py"seconds"), (py"1 microsecond", py"microsecond"),
  (py"1003 milliseconds", py"milliseconds")].all fun p => same (disco (S p.1)) (mkTimeDelta p.2)
conforms raises (mkTimeDelta (py"buzz light-years")) .valueError
conforms [py"12:00:01", py"12:00:01.000", py"12:00:01.123456", py"12:00:01.1234"].all fun x => ok (disco (S x)) (.time none)
conforms same (disco (L [.dict [(py"name", S (py"Alice")), (py"amount", S (py"100"))],
  .dict [(py"name", S (py"Bob")), (py"amount", S (py"200"))], .dict [(py"name", S (py"Charlie")), (py"amount", S (py"300"))]]))
  (P (py"3 * {amount: int64, name: string}"))
conforms ok (discoverArrayLike [] (.prim .int32)) tInt32 && ok (discoverArrayLike [] (.prim .float64)) tFloat64
conforms same (discoverArray ⟨[3, 2], .prim .int32, [], fun _ => []⟩) (P (py"3 * 2 * int32"))
conforms same (discoverArray ⟨[2], .prim .object, [true, true], fun _ => []⟩) (times 2 tString)
conforms same (discoverArray ⟨[2], .struct [(py"name", [], .prim .object), (py"amt", [], .prim .int32)], [false, false],
  fun n => if n == py"name" then [true, true] else [false, false]⟩) (P (py"2 * {name: string, amt: int32}"))

/-- `do_one([unite_identical, unite_merge_dimensions, unite_base])`: test_discovery.py:185-187 -/
def unite (ts : List Ty) : Except PyErr Ty := do
  match ← uniteIdentical ts with
  | some t => .ok t
  | none => match ← uniteMerge ts with
    | some t => .ok t
    | none => uniteBase topo (depthL ts + 1) ts
/-- a datashape from text -/
def T (x : Str) : Ty := match P x with | .ok t => t | .error _ => .null

conforms same (unite [tInt32, tInt32, tInt32]) (times 3 tInt32)
conforms ok (unite [T (py"3 * int32"), T (py"2 * int32")]) (T (py"2 * var * int32"))
conforms ok (unite [T (py"2 * int32"), T (py"2 * int32")]) (T (py"2 * 2 * int32"))
conforms ok (unite [T (py"3 * 2 * int32"), T (py"2 * 2 * int32")]) (T (py"2 * var * 2 * int32"))
conforms same (unite [tInt32, .null, tInt32]) (times 3 (mkOption tInt32)) && (unite [tString, .null, tInt32]).isOk
conforms same (disco (L [L [.int, .int, S (py"hello")], L [.int, S [], S []], L [.int, .int, S (py"hello")]]))
  (nTuple 3 [tInt64, mkOption tInt64, mkOption tString])
conforms same (disco (L [L [.int, .int, S (py"hello"), .int], L [.int, S [], S [], .int], L [.int, .int, S (py"hello"), .int]]))
  (nTuple 3 [tInt64, mkOption tInt64, mkOption tString, tInt64])
conforms same (disco (L [.dict [(py"name", S (py"Alice")), (py"balance", .int)], .dict [(py"name", S (py"Bob")), (py"balance", S [])]]))
  (times 2 (.record [(py"balance", mkOption tInt64), (py"name", tString)]))
conforms same (disco (L [.dict [(py"name", S (py"Alice")), (py"s", S (py"foo"))], .dict [(py"name", S (py"Bob")), (py"s", .none)]]))
  (times 2 (.record [(py"name", tString), (py"s", mkOption tString)]))
conforms same (disco (L [.dict [(py"name", S (py"Alice")), (py"s", S (py"foo")), (py"f", .float)],
  .dict [(py"name", S (py"Bob")), (py"s", .none), (py"f", .none)]]))
  (times 2 (.record [(py"f", mkOption tFloat64), (py"name", tString), (py"s", mkOption tString)]))
conforms same (disco (L (List.replicate 3 (L [.int, .int, S [], .int])))) (nTuple 3 [tInt64, tInt64, .null, tInt64])
conforms same (disco (L (List.replicate 10 (L [.int, .int, .float, .float])))) (nTuple 10 [tInt64, tInt64, tFloat64, tFloat64])
conforms ok (disco (L ((List.replicate 5 [L [.int, .int, .float, .float], L [.float, .float, .int, .int]]).flatten)))
  (T (py"10 * 4 * float64"))
conforms same (disco (L [L [S (py"Alice"), .int], L [S (py"Bob"), .int]])) (nTuple 2 [tString, tInt64])
conforms same (disco (.seq .tuple [.int, .float])) (mkTuple [tInt64, tFloat64])
conforms same (disco (L [.seq .tuple [.int, .float], .seq .tuple [.int, .float], .seq .tuple [.int, .int]]))
  (nTuple 3 [tInt64, tFloat64])
conforms same (disco (L (List.replicate 10 (L (S (py"1") :: List.replicate 20 (S (py"hello")))))))
  (nTuple 10 (tInt64 :: List.replicate 20 tString))
conforms same (uniteBase topo 9 [.date, .datetime none]) (times 2 (.datetime none))
conforms ok (disco (L [.dict [(py"name", S (py"Alice")), (py"amount", .int)], .dict [(py"name", S (py"Bob"))]]))
  (T (py"2 * {amount: ?int64, name: string}"))
conforms ok (disco (L [.dict [(py"name", S (py"Alice")), (py"amount", .int)],
  .dict [(py"name", S (py"Bob")), (py"house_color", S (py"blue"))]]))
  (T (py"2 * {amount: ?int64, house_color: ?string, name: string}"))
conforms ok (uniteBase topo 9 [T (py"{name: string, amount: int32}"), T (py"{name: string, amount: int32}")])
  (T (py"2 * {name: string, amount: int32}"))
conforms ok (uniteBase topo 9 [.null, T (py"{name: string, amount: int32}")]) (T (py"2 * ?{name: string, amount: int32}"))
conforms ok (uniteBase topo 9 [T (py"{name: string, amount: int32}"), T (py"{name: string, amount: int64}")])
  (T (py"2 * {name: string, amount: int64}"))
conforms ok (discoverArray ⟨[5], .struct [(py"a", [], .str 7), (py"b", [], .struct [(py"c", [2], .prim .int64),
  (py"d", [], .prim .float64)])], [], fun _ => []⟩) (T (py"5 * {a: string[7, 'U32'], b: {c: 2 * int64, d: float64}}"))
conforms [py"sunday", py"monday", py"tuesday", py"wednesday", py"thursday", py"friday", py"saturday", py"a", py"b", py"now",
  py"yesterday", py"tonight"].all fun x => ok (disco (S x)) tString
conforms same (discoverArrayLike [4, 3] (.prim .float32)) (P (py"4 * 3 * float32"))
conforms ok (disco .bytes) (.string none (py"A")) && raises (disco .other) .notImplemented
conforms [SeqKind.list, .tuple, .set].all fun k => same (disco (.seq k [])) (mul (.ty .var) (.ty tString))
conforms raises (lowestCommon topo [.string (some 10) (py"U8"), .string (some 11) (py"U8")]) .valueError
conforms ok (disco (S (py"INF US Equity"))) tString

/-! doctests of discovery.py -/

conforms same (disco (L [L [.int, .int, .int], L [.int, .int, .int]])) (P (py"2 * 3 * int64"))
conforms same (discoverArray ⟨[2], .struct [(py"name", [], .bytes 7), (py"amount", [], .prim .int32)], [], fun _ => []⟩)
  (P (py"2 * {name: string[7, \"ascii\"], amount: int32}"))
conforms ok (lowestCommon topo [tInt32, tInt64, tFloat64]) tFloat64 && ok (lowestCommon topo [tInt32, tInt64]) tInt64
conforms ok (lowestCommon topo [tString, tInt64]) tString
conforms ok (uniteBase topo 9 [tFloat64, tFloat64, tInt64]) (T (py"3 * float64"))
conforms ok (uniteBase topo 9 [tInt32, tInt64, .null]) (T (py"3 * ?int64"))
conforms holds (uniteMerge [T (py"10 * string"), T (py"10 * string")]) fun t => match t with
  | some t => pyEq t (T (py"2 * 10 * string")) | none => false
conforms holds (uniteMerge [T (py"10 * string"), T (py"20 * string")]) fun t => match t with
  | some t => pyEq t (T (py"2 * var * string")) | none => false
conforms isStringArray [true, true] && !isStringArray [true, false]
conforms raises (viaDelta SE (py"1.2 days")) .valueError

/-! ### test_predicates.py and doctests -/

conforms match isFixed (T (py"M * int32")) with | .ok (some true) => false | _ => true
conforms isScalar (T (py"?int32")) && isScalar (T (py"float32")) && isScalar tInt32 && !isScalar (T (py"{a: int32, b: float64}"))
conforms holds (cat cats1 false) isScalar
conforms isScalar (T (py"int")) && isScalar (T (py"?int")) && !isScalar (T (py"{name: string, amount: int}"))
conforms isRecord (T (py"{name: string, amount: int}")) && !isRecord (T (py"int")) && isRecord (T (py"?{name: string, amount: int}"))
conforms isDimension (.fixed 10) && isDimension .var && !isDimension tInt32
conforms holds (isHomogeneous tInt32) id && holds (isHomogeneous (T (py"var * 3 * string"))) id
conforms holds (isHomogeneous (T (py"var * {name: string, amount: int}"))) (!·)
conforms holds (isFixed (T (py"10 * int"))) (· == some true) && holds (isFixed (T (py"var * int"))) (· == some false)
conforms holds (isFixed (T (py"10 * {name: string, amount: int}"))) (· == some true)
conforms holds (isFixed (T (py"10 * {name: string, amounts: var * int}"))) (· == some false)
conforms holds (isTabular (T (py"var * {name: string, amount: int}"))) id && holds (isTabular (T (py"var * 10 * 3 * int"))) (!·)
conforms holds (isTabular (T (py"10 * var * int"))) (!·) && holds (isTabular (T (py"var * (int64, string, ?float64)"))) (!·)
conforms holds (isCollection (T (py"5 * int32"))) id && holds (isCollection (T (py"int32"))) (!·)
conforms holds (isNumeric (T (py"int32"))) id && holds (isNumeric (T (py"3 * ?real"))) id && holds (isNumeric (T (py"string"))) (!·)
conforms holds (isNumeric (T (py"var * {amount: ?int32}"))) (!·) && holds (isNumeric (T (py"time"))) (!·)
conforms isReal (T (py"float32")) && isReal (T (py"3 * ?real")) && !isReal (T (py"string"))
conforms isBoolean (T (py"bool")) && isBoolean (T (py"3 * ?bool")) && !isBoolean (T (py"int"))
conforms !isDateLike (T (py"int32")) && isDateLike (T (py"3 * datetime")) && isDateLike (T (py"?datetime"))

/-! ### test_promote.py and doctests -/

/-- `np.result_type` of two datetimes: the same when they have the same unit -/
def rt (a b : DType) : Except PyErr DType := if dtEq a b then .ok a else .error .typeError
conforms ok (promote rt tInt64 tFloat32 true) tFloat64 && ok (promote rt tInt64 (mkOption tFloat32) true) (mkOption tFloat64)
conforms ok (promote rt tInt64 (mkOption tFloat64) false) tFloat64
conforms pyEq (optionify tInt64 (mkOption tFloat32) (mkOption tFloat32)) (mkOption tFloat32)
/-- the ten rows of the two tables -/
def rows (x : Ty) : List (Ty × Ty × Bool × Ty) :=
  [(x, x, true, x), (x, x, false, x), (mkOption x, mkOption x, true, mkOption x), (mkOption x, mkOption x, false, mkOption x),
   (mkOption x, x, true, mkOption x), (mkOption x, x, false, x), (mkOption x, .dshape [.option x], true, mkOption x),
   (.dshape [.option x], mkOption x, false, mkOption x), (.dshape [x], mkOption x, true, mkOption x),
   (.dshape [x], mkOption x, false, x)]
conforms (rows tString ++ rows (.datetime none)).all fun p =>
  ok (promote rt p.1 p.2.1 p.2.2.1) p.2.2.2 && ok (promote rt p.2.1 p.1 p.2.2.1) p.2.2.2
conforms represented (promote rt (mkOption tInt32) tInt64 true) (py"Option(ty=ctype(\"int64\"))")
conforms represented (promote rt tInt64 tInt64 true) (py"ctype(\"int64\")")
conforms represented (promote rt (mkOption tInt32) tInt64 false) (py"ctype(\"int64\")")
conforms pyReprTy E (optionify (mkOption tInt32) tInt64 tInt64) == py"Option(ty=ctype(\"int64\"))"

/-! ### test_typeset.py and doctests -/

conforms pyEq tsIntegral tsIntegral && !pyEq tsFloating tsIntegral
conforms pyReprTy E tsIntegral == py"{integral}"
conforms (pyReprTy E (.typeset [tInt64, tFloat64] none)).take 8 == py"TypeSet("
conforms match (Registry.step [(py"foo", tsIntegral)] (.register (py"foo") tsFloating)).2 with | .raised .typeError => true | _ => false
conforms match (Registry.step [(py"integral", tsIntegral)] (.lookup (py"footypeset"))).2 with | .raised .keyError => true | _ => false
conforms holds (matchesTypeset tInt32 tsIntegral) id && holds (matchesTypeset tFloat32 tsIntegral) (!·)
conforms holds (matchesTypeset tsIntegral tsReal) id
conforms represented (supertype tInt8) (py"{signed}") && represented (supertype tFloat32) (py"{floating}")
conforms represented (supertype tComplex128) (py"{complexes}") && represented (supertype tBool) (py"{boolean}")
conforms represented (supertype (mkOption tBool)) (py"{boolean}")
conforms represented (maxtype tInt8) (py"ctype(\"int64\")") && represented (maxtype (mkOption tFloat64)) (py"Option(ty=ctype(\"float64\"))")
conforms represented (maxtype tBool) (py"ctype(\"bool\")") && represented (maxtype (.decimal 11 2)) (py"Decimal(precision=11, scale=2)")
conforms represented (maxtype (mkOption (.decimal 11 2))) (py"Option(ty=Decimal(precision=11, scale=2))")
conforms represented (maxtype (.timedelta (py"ms"))) (py"TimeDelta(unit='ms')")
conforms represented (maxtype (mkOption (.timedelta (py"ms")))) (py"Option(ty=TimeDelta(unit='ms'))")

/-! ### test_user.py -/

/-- `np.issubdtype` on the values of the tests (NumPy before 1.14) -/
def sub1 (t : Ty) (v : PyObj) : Except PyErr Bool :=
  match v with
  | .int => .ok (pyEq t tInt32 || pyEq t tInt64)
  | .float => .ok (pyEq t tFloat64)
  | _ => .ok false
/-- `validate(schema, value)` is true -/
def valid (x : Str) (v : PyObj) : Bool := match validateArg sub1 P (.str x) v with | .ok b => b == some true | _ => false
/-- `(...)` -/
def tup (l : List PyObj) : PyObj := .seq .tuple l
conforms valid (py"int") .int && holds (validateArg sub1 P (.ty (T (py"string"))) (S (py"Alice"))) (· == some true)
conforms holds (validateArg sub1 P (.ty (T (py"int"))) .int) (· == some true) && holds (validateArg sub1 P (.ty tInt32) .int) (· == some true)
conforms valid (py"real") .float && valid (py"2 * int") (tup [.int, .int]) && !valid (py"3 * int") (tup [.int, .int])
conforms !valid (py"2 * int") .int && valid (py"2 * 3 * int") (L [tup [.int, .int, .int], tup [.int, .int, .int]])
conforms valid (py"{x: int, y: int}") (.dict [(py"x", .int), (py"y", .int)])
conforms !valid (py"{x: int, y: int}") (.dict [(py"x", .int), (py"y", .float)])
conforms !valid (py"{x: int, y: int}") (.dict [(py"x", .int), (py"z", .int)])
conforms valid (py"var * {x: int, y: int}") (L [.dict [(py"x", .int), (py"y", .int)]])
conforms valid (py"var * {x: int, y: int}") (L [.dict [(py"x", .int), (py"y", .int)], .dict [(py"x", .int), (py"y", .int)]])
conforms valid (py"{x: int, y: real}") (tup [.int, .float]) && !valid (py"{x: int, y: real}") (tup [.float, .int])
conforms valid (py"time") .time && valid (py"date") .date && valid (py"datetime") .datetime
conforms holds (validateArray P (T (py"2 * int32")) [2] (.prim .int32)) (· == some true)
/-- `issubschema(a, b)` is true -/
def subsch (a b : Str) : Bool := match issubschema P (.str a) (.str b) with | .ok r => r == some true | _ => false
conforms subsch (py"int") (py"int") && !subsch (py"int") (py"float32")
conforms subsch (py"2 * int") (py"2 * int") && !subsch (py"2 * int") (py"3 * int")
conforms valid (py"{name: string, arrived: date}") (.dict [(py"name", S (py"Alice")), (py"arrived", .date)])

/-! ### test_util.py -/

conforms same (catDshapes [(T (py"3 * 10 * int32")).params]) (P (py"3 * 10 * int32"))
conforms same (catDshapes [(T (py"3 * 10 * int32")).params, (T (py"7 * 10 * int32")).params]) (P (py"10 * 10 * int32"))
conforms raises (catDshapes []) .valueError
conforms raises (catDshapes [(T (py"3 * 10 * int32")).params, (T (py"3 * 1 * int32")).params]) .valueError
conforms [py"... * float32", py"A... * float32", py"var * float32", py"10 * { f0: int32, f1: A... * float32 }",
  py"{ f0 : { g0 : var * int }, f1: int32 }", py"var * int32"].all fun x => hasVarDim (T x)
conforms [py"float32", py"10 * float32", py"10 * { f0: int32, f1: 10 * float32 }", py"{ f0 : { g0 : 2 * int }, f1: int32 }",
  py"int32"].all fun x => !hasVarDim (T x)
conforms [py"... * float32", py"A... * float32", py"var * ... * float32", py"(int32, M... * int16) -> var * int8",
  py"(int32, var * int16) -> ... * int8", py"10 * { f0: int32, f1: A... * float32 }",
  py"{ f0 : { g0 : ... * int }, f1: int32 }", py"... * int32"].all fun x => hasEllipsis (T x)
conforms [py"float32", py"10 * var * float32", py"M * float32", py"(int32, M * int16) -> var * int8",
  py"(int32, int16) -> var * int8", py"10 * { f0: int32, f1: 10 * float32 }", py"{ f0 : { g0 : 2 * int }, f1: int32 }",
  py"M * int32"].all fun x => !hasEllipsis (T x)

/-! ### util/tests/test_testing.py -/

/-- `assert_dshape_equal(a, b, **flags)` passes -/
def passes (a b : Ty) (fl : Flags := {}) : Bool := match assertAt fl a [] b with | .ok _ => true | _ => false
/-- `x in y` for texts -/
def contains (x : Str) : Str → Bool
  | [] => x.isEmpty
  | c :: r => (c :: r).take x.length == x || contains x r
/-- the assertion fails, its message contains the text, and the path of the message is (or, in the tests, contains) the
path -/
def failsAt (a b : Ty) (what path : Str) (fl : Flags := {}) : Bool := match assertAt fl a [] b with
  | .error (.differ r p) => contains what (message E r p) && fmtPath E p == py"path: " ++ path
  | _ => false

conforms passes (T (py"int")) (T (py"int")) && failsAt (T (py"int")) (T (py"string")) (py"int32 != string") (py"_.measure")
conforms [py"var * int", py"3 * string", py"var * var * int", py"var * 3 * string", py"3 * var * float32", py"3 * 3 * datetime"].all
  fun x => passes (T x) (T x)
conforms failsAt (T (py"var * int")) (T (py"3 * int")) (py"var != 3") (py"_.shape[0]")
conforms failsAt (T (py"var * var * int")) (T (py"3 * var * int")) (py"var != 3") (py"_.shape[0]")
conforms failsAt (T (py"var * var * int")) (T (py"var * 3 * int")) (py"var != 3") (py"_.shape[1]")
/-- records of the test -/
def r1 : Ty := .record [(py"a", tInt32), (py"b", tFloat32)]
/-- in the other order -/
def r2 : Ty := .record [(py"b", tFloat32), (py"a", tInt32)]
conforms passes r1 r1 && failsAt r1 (.record [(py"a", tInt32), (py"b", tInt32)]) (py"'float32' != 'int32'") (py"_['b'].name")
conforms (match assertAt {} r1 [] (.record [(py"a", tInt32), (py"c", tFloat32)]) with
  | .error (.differ r p) => contains (py"'b' != 'c'") (message E r p)
  | _ => false)
conforms failsAt (.record [(py"b", tFloat32), (py"a", tFloat32)]) r1 (py"'float32' != 'int32'") (py"_['a'].name") { recordOrder := false }
conforms passes r2 r1 { recordOrder := false }
conforms passes (.record [(py"a", r2)]) (.record [(py"a", r1)]) { recordOrder := false }
conforms failsAt (.record [(py"a", r1)]) (.record [(py"a", r2)]) (py"'a' != 'b'") (py"_['a']")
/-- `Tuple(ts)` -/
def tpl (ts : List Ty) : Ty := match mkTuple ts with | .ok t => t | .error _ => .null
conforms passes (tpl [tInt32, tFloat32]) (tpl [tInt32, tFloat32])
conforms failsAt (tpl [tInt32, tFloat32]) (tpl [tInt32, tInt32]) (py"'float32' != 'int32'") (py"_.dshapes[1].measure.name")
conforms passes (mkOption tInt32) (mkOption tInt32) && failsAt (mkOption tInt32) (mkOption tFloat32) (py"'int32' != 'float32'") (py"_.ty.name")
/-- `String(n, enc)` -/
def str (n : Option Int) (e : Option Str) : Ty := match mkString n e with | .ok t => t | .error _ => .null
conforms passes tString tString && passes (str none (some (py"U8"))) (str none (some (py"U8")))
conforms passes (str (some 1) none) (str (some 1) none) && passes (str (some 1) (some (py"U8"))) (str (some 1) (some (py"U8")))
conforms failsAt (str none (some (py"U8"))) (str none (some (py"U16"))) (py"'U8' != 'U16'") (py"_.encoding")
conforms failsAt (str (some 1) none) (str (some 2) none) (py"1 != 2") (py"_.fixlen")
conforms passes tTimedelta tTimedelta && passes (.timedelta (py"ns")) (.timedelta (py"ns"))
conforms failsAt (.timedelta (py"us")) (.timedelta (py"ns")) (py"'us' != 'ns'") (py"_.unit")
conforms passes (.timedelta (py"us")) (.timedelta (py"ns")) { timedeltaUnit := false }
conforms [Ty.datetime, Ty.time].all fun c => passes (c none) (c none) && passes (c (some (py"US/Eastern"))) (c (some (py"US/Eastern"))) &&
  failsAt (c (some (py"US/Eastern"))) (c (some (py"US/Central"))) (py"'US/Eastern' != 'US/Central'") (py"_.tz") &&
  passes (c (some (py"US/Eastern"))) (c (some (py"US/Central"))) { tz := false }
conforms passes (T (py"var * {a: 3 * {b: int32}}")) (T (py"var * {a: 3 * {b: int32}}"))
conforms failsAt (T (py"var * {a: 3 * {b: int32}}")) (T (py"var * {a: 3 * {b: float32}}")) (py"'int32' != 'float32'") (py"_.measure['a'].measure['b'].name")
/-- the function type of the test -/
def fbase : Ty := T (py"(int32, int64) -> int64")
conforms passes fbase fbase && failsAt (T (py"(string, int64) -> int64")) fbase (py"string != int32") (py"_.measure.argtypes[0].measure")
conforms failsAt (T (py"(int32, int32) -> int64")) fbase (py"'int32' != 'int64'") (py"_.measure.argtypes[1].measure.name")
conforms failsAt (T (py"(int32, int64) -> int32")) fbase (py"'int32' != 'int64'") (py"_.measure.restype.measure.name")

/-! ### Doctests of internal_utils.py and `descendents` -/

conforms reverseDict [(1, [11, 12]), (2, [12, 13]), (3, [])] == [(11, [1]), (12, [1, 2]), (13, [2])]
conforms groupby (fun n => n % 2 == 0) [1, 2, 3, 4, 5, 6, 7, 8] == [(false, [1, 3, 5, 7]), (true, [2, 4, 6, 8])]
conforms groupby List.length [py"Alice", py"Bob", py"Charlie", py"Dan", py"Edith", py"Frank"] ==
  [(5, [py"Alice", py"Edith", py"Frank"]), (3, [py"Bob", py"Dan"]), (7, [py"Charlie"])]
conforms match descendents [(3, [2]), (2, [1, 0]), (5, [6])] 3 with
  | .ok l => [0, 1, 2, 3].all l.contains && l.length == 4
  | _ => false

end DS.Conform
