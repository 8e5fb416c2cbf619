import Verif.Conform.Parsing
import Verif.Model.Named

/-
datashape/tests/test_coretypes.py, test_operations.py, and the doctests of coretypes.py
-/
namespace DS.Conform

/-- `Record([...])` -/
def R (fs : List (Str × PVal)) : Except PyErr Ty := record P fs
/-- a type given by name -/
def s (x : Str) : PVal := .str x

conforms differ (R [(py"x", s (py"int")), (py"y", s (py"int"))]) (R [(py"y", s (py"int")), (py"x", s (py"int"))])
conforms same (R [(py"x", s (py"real"))]) (R [(py"x", .ty tFloat64)])
conforms raises (dataShape P [s (py"5 * int32")]) .typeError

/-! ### `to_numpy_dtype` -/

/-- equality of dtypes -/
def dtEq : DType → DType → Bool
  | .prim a, .prim b => a == b
  | .datetime a, .datetime b => a == b
  | .timedelta a, .timedelta b => a == b
  | .bytes a, .bytes b => a == b
  | .str a, .str b => a == b
  | .struct [(n, s, .prim p)], .struct [(n', s', .prim p')] => n == n' && s == s' && p == p'
  | .struct [(n, s, .prim p), (m, t, .prim q)], .struct [(n', s', .prim p'), (m', t', .prim q')] =>
    n == n' && s == s' && p == p' && m == m' && t == t' && q == q'
  | _, _ => false

/-- `to_numpy_dtype(x) == d` -/
def dtypeIs (r : Except PyErr Ty) (d : DType) : Bool := holds r fun t => match toNumpyDtype t with | .ok e => dtEq e d | _ => false
/-- `x.to_numpy_dtype() == d` -/
def methodIs (r : Except PyErr Ty) (d : DType) : Bool :=
  holds r fun t => match toDtype t .method with | .ok e => dtEq e d | _ => false

conforms dtypeIs (P (py"2 * int32")) (.prim .int32)
conforms dtypeIs (P (py"2 * {x: int32, y: int32}")) (.struct [(py"x", [], .prim .int32), (py"y", [], .prim .int32)])
conforms dtypeIs (P (py"2 * datetime")) (.datetime (py"us")) && dtypeIs (P (py"2 * date")) (.datetime (py"D"))
conforms dtypeIs (P (py"2 * string")) (.prim .object) && dtypeIs (P (py"var * int32")) (.prim .int32)
conforms dtypeIs (P (py"2 * timedelta")) (.timedelta (py"us")) && dtypeIs (P (py"2 * timedelta[unit='s']")) (.timedelta (py"s"))
conforms dtypeIs (P (py"decimal[18,0]")) (.prim .int64) && dtypeIs (P (py"decimal[7,2]")) (.prim .float64)
conforms dtypeIs (P (py"decimal[4]")) (.prim .int16)
conforms holds (P (py"decimal[21]")) fun t => raises (toNumpyDtype t) .typeError
conforms evalRepr (py"timedelta") && evalRepr (py"timedelta[unit=\"ms\"]")
conforms raises (P (py"timedelta[unit=\"foo\"]")) .valueError
conforms ok (P (py"timedelta[unit=\"ns\"]")) (.dshape [.timedelta (py"ns")])
conforms unitAliases.all fun p =>
  same (P (py"timedelta[unit='" ++ p.1 ++ py"s']")) (P (py"timedelta[unit='" ++ p.2 ++ py"']"))

/-! ### `from_numpy` -/

conforms same (fromNumpy (.prim .int32) [2]) (P (py"2 * int32"))
conforms same (fromNumpy (.struct [(py"x", [], .prim .int32), (py"y", [], .prim .int32)]) [2]) (P (py"2 * {x: int32, y: int32}"))
conforms [py"h", py"m", py"s", py"ms", py"us", py"ns", py"ps", py"fs", py"as"].all fun k =>
  same (fromNumpy (.datetime k) [2]) (P (py"2 * datetime"))
conforms [py"D", py"M", py"Y", py"W"].all fun k => same (fromNumpy (.datetime k) [2]) (P (py"2 * date"))
conforms timeUnits.all fun k => same (fromNumpy (.timedelta k) [2]) (P (py"2 * timedelta[unit='" ++ k ++ py"']"))
conforms same (fromNumpy (.bytes 7) [2]) (P (py"2 * string[7, \"ascii\"]"))
conforms same (fromNumpy (.str 7) [2]) (P (py"2 * string[7, \"U32\"]"))
conforms same (fromDtype (.bytes 7)) (mkString (some 7) (some (py"A")))

conforms same (P (py"int")) (P (py"int"))
conforms match P (py"{id: int64,
                    name: string,
                    amount: float32,
                    arr: 3 * (int32, string)}") with
  | .ok t => (match pickleCopy t with | .ok u => pyStr E t == pyStr E u | _ => false)
  | _ => false

/-! ### `subshape` -/

/-- `ds.subshape[i] == ...` -/
def sub (ds : Str) (i : Index) (r : Str) : Bool := holds (P ds) fun t => same (subshape i t) (P r)
conforms sub (py"5 * 3 * float32") (.slice (some 2) none none) (py"3 * 3 * float32")
conforms sub (py"5 * 3 * float32") (.slice none none (some 2)) (py"3 * 3 * float32")
conforms sub (py"10 * int") (.slice (some (-3)) none none) (py"3 * int")
conforms sub (py"10 * int") (.tuple [.none, .slice none none none]) (py"1 * 10 * int")
conforms sub (py"10 * int") (.tuple [.slice none none none, .none]) (py"10 * 1 * int")
conforms ok (dataShape P [.int 5, s (py"int32")]) (.dshape [.fixed 5, tInt32])
conforms holds (P (py"5 * 3 * float32")) fun t => eqL t.shape [.fixed 5, .fixed 3]
conforms holds (P (py"float32")) fun t => t.shape.isEmpty && t.measure.shape.isEmpty
conforms holds (P (py"?float32")) fun t => t.measure.shape.isEmpty
conforms holds (P (py"float32")) fun t => pyEq (mkOption t) (.option t.measure)

/-! ### Field names -/

conforms prints (P (py"{'Unique Key': ?int64}")) (py"{'Unique Key': ?int64}")
/-- `str(dshape(str(dshape(s)))) == str(dshape(s))` -/
def strStable (s : Str) : Bool := match P s with
  | .ok t => (match P (pyStr E t) with | .ok u => pyStr E t == pyStr E u | _ => false)
  | _ => false
conforms strStable (py"{ 'Unique Key' : ?int64, 'Created Date' : string,
'Closed Date' : string, Agency : string, 'Agency Name' : string,
'Complaint Type' : string, Descriptor : string, 'Location Type' : string,
'Incident Zip' : ?int64, 'Incident Address' : ?string, 'Street Name' : ?string,
'Cross Street 1' : ?string, 'Cross Street 2' : ?string,
'Intersection Street 1' : ?string, 'Intersection Street 2' : ?string,
'Address Type' : string, City : string, Landmark : string,
'Facility Type' : string, Status : string, 'Due Date' : string,
'Resolution Action Updated Date' : string, 'Community Board' : string,
Borough : string, 'X Coordinate (State Plane)' : ?int64,
'Y Coordinate (State Plane)' : ?int64, 'Park Facility Name' : string,
'Park Borough' : string, 'School Name' : string, 'School Number' : string,
'School Region' : string, 'School Code' : string,
'School Phone Number' : string, 'School Address' : string,
'School City' : string, 'School State' : string, 'School Zip' : string,
'School Not Found' : string, 'School or Citywide Complaint' : string,
'Vehicle Type' : string, 'Taxi Company Borough' : string,
'Taxi Pick Up Location' : string, 'Bridge Highway Name' : string,
'Bridge Highway Direction' : string, 'Road Ramp' : string,
'Bridge Highway Segment' : string, 'Garage Lot Name' : string,
'Ferry Direction' : string, 'Ferry Terminal Name' : string,
Latitude : ?float64, Longitude : ?float64, Location : string }")
conforms strStable (py"{ 'field \\' with \\' quotes' : string }") && strStable (py"{ 'doublequote \" field \"' : int64 }")
conforms strStable (py"{
            'field \\' with \\' quotes' : string,
            'doublequote \" field \"' : int64
        }")
conforms strStable (py"{
            'field \" with \\' quotes' : string,
            'doublequote \" field \\'' : int64
        }")
conforms synErr (P (py"{ Unique Key : int64}"))
conforms synErr (P (py"{ 'field with \\\\   backslashes' : int64 }"))
conforms prints (P (py"{name_with_underscores: int32}")) (py"{name_with_underscores: int32}")
conforms dtypeIs (R [(py"a", s (py"int32"))]) (.struct [(py"a", [], .prim .int32)])
conforms methodIs (R [(py"a", s (py"int32")), (py"b", s (py"float64"))]) (.struct [(py"a", [], .prim .int32), (py"b", [], .prim .float64)])
conforms dtypeIs (P (py"5 * (int32, float32)")) (.struct [(py"f0", [], .prim .int32), (py"f1", [], .prim .float32)])
conforms methodIs (.ok (mkOption .date)) (.datetime (py"D")) && methodIs (.ok (mkOption (.datetime none))) (.datetime (py"us"))
conforms [py"Y", py"M", py"D", py"h", py"m", py"s", py"ms", py"us", py"ns"].all fun u =>
  holds (mkTimeDelta u) fun t => methodIs (.ok (mkOption t)) (.timedelta u)

/-! ### Categorical -/

/-- `Categorical(cats)`, `Categorical(cats, ordered=True)` -/
def cat (cats : List Lit) (ordered : Bool) : Except PyErr Ty :=
  cCategorical D [.lits cats] (if ordered then [(py"ordered", .lit (.bool true))] else [])
/-- the categories of the two cases -/
def cats1 : List Lit := [.str (py"a"), .str (py"b"), .str (py"c")]
/-- second case -/
def cats2 : List Lit := [.int (-1), .int 2, .int 3, .int 4, .int 5]
conforms prints (cat cats1 false) (py"categorical[['a', 'b', 'c'], type=string, ordered=False]")
conforms prints (cat cats2 false) (py"categorical[[-1, 2, 3, 4, 5], type=int64, ordered=False]")
conforms represented (cat cats1 false) (py"Categorical(categories=['a', 'b', 'c'], type=ctype(\"string\"), ordered=False)")
conforms represented (cat cats2 false) (py"Categorical(categories=[-1, 2, 3, 4, 5], type=ctype(\"int64\"), ordered=False)")
conforms holds (cat cats1 false) fun c => same (P (py"categorical[['a', 'b', 'c'], type=string, ordered=False]")) (mkDS [c])
conforms holds (cat cats2 false) fun c => same (P (py"categorical[[-1, 2, 3, 4, 5], type=int64, ordered=False]")) (mkDS [c])
conforms prints (cat ((List.range 26).map fun i => .str [97 + i]) true)
  (py"categorical[['a', 'b', 'c', 'd', 'e', 'f', 'g', 'h', 'i', 'j', ...], type=string, ordered=True]")

conforms raises (R [(py"a", s (py"int32")), (py"b", s (py"string")), (py"a", s (py"float32"))]) .valueError
conforms [py"int64", py"var * float64", py"10 * var * int16", py"{a: int32, b: ?string}", py"var * {a: int32, b: ?string}",
  py"10 * {a: ?int32, b: var * {c: string[30]}}", py"{\"weird col\": 3 * var * 2 * ?{a: int8, b: ?uint8}}",
  py"var * {\"func-y\": (A) -> var * {a: 10 * float64}}", py"decimal[18]", py"var * {amount: ?decimal[9,2]}"].all evalRepr
conforms raises (P (py"complex[int64]")) .typeError
conforms match (Registry.step [(py"int64", tInt64)] (.register (py"int64") tInt64)).2 with | .raised .typeError => true | _ => false
conforms raises (mul (.ty tInt32) (.int 10)) .typeError
conforms pyStr E (.ellipsis (some (py"T"))) == py"T..." && pyReprTy E (.ellipsis (some (py"T"))) == py"Ellipsis('T...')"
conforms pyStr E .null == py"null"
conforms timeUnits.all fun u => holds (mkTimeDelta u) fun t =>
  pyReprTy E t == py"TimeDelta(unit='" ++ u ++ py"')" && pyStr E t == py"timedelta[unit='" ++ u ++ py"']"
conforms raises (cUnits [.lit (.int 1)] []) .typeError && raises (cUnits [.lit (.str (py"kg")), .lit (.int 1)] []) .typeError
conforms prints (mkUnits (py"kg") none) (py"units['kg']")
conforms prints (mkUnits (py"counts/time") (some (.dshape [tUint32]))) (py"units['counts/time', uint32]")
conforms pyStr E .bytes == py"bytes"
conforms raises (mkString (some 1) (some (py"asdfasdf"))) .valueError
conforms raises (dataShape P [.ty tUint32, .ty .var, .ty tUint32]) .typeError
conforms raises (dataShape P []) .valueError
conforms holds (P (py"1 * 2 * 3 * int32")) fun t => raises (subarray t 42) .indexError
conforms holds (R [(py"a", s (py"int32"))]) fun r => holds (mkDS [r]) fun t => ok (subshape (.int 0) t) tInt32
conforms holds (R [(py"a", s (py"int32"))]) fun r => holds (mul (.int 30) (.ty r)) fun t =>
  same (subshape (.slice none (some (-1)) none) t) (mul (.int 29) (.ty r))
conforms holds (R [(py"a", s (py"int32"))]) fun r => holds (mul (.ty .var) (.ty r)) fun t =>
  same (subshape (.slice (some (-1)) none none) t) (.ok t) && raises (subshape .other t) .typeError
conforms methodIs (.ok (mkOption tTimedelta)) (.timedelta (py"us"))
conforms [tInt32, tFloat64, .record [(py"a", tUint32)]].all fun t => raises (toDtype (mkOption t) .method) .typeError
conforms raises (fromDtype (.struct [(py"a", [], .prim .int32)])) .notImplemented
conforms match tInt32 with | .ctype _ _ a => a == 4 | _ => false
conforms raises (mkFixed (-1)) .valueError
conforms raises (mkTypeVar E (py"t")) .valueError
conforms pyReprTy E (.typevar (py"T")) == py"TypeVar(symbol='T')"
conforms ok (P (py"(int32, ?float64) -> {a: ?string}"))
  (.dshape [.func [.dshape [tInt32], .dshape [.option tFloat64], .dshape [.record [(py"a", .option tString)]]]])
conforms prints (mkTuple [.option tInt32, tFloat64]) (py"(?int32, float64)")
conforms holds (mul (.ty .var) (.ty tInt32)) fun t => raises (toNumpy t) .typeError
conforms raises (toNumpy (mkOption tInt32)) .typeError
conforms methodIs (.ok (mkMap tInt32 (.record [(py"a", tInt32)]))) (.prim .int32)
conforms ok (P (py"var * {b: map[int32, {a: int64}]}"))
  (.dshape [.var, .record [(py"b", mkMap (.dshape [tInt32]) (.dshape [.record [(py"a", tInt64)]]))]])
conforms ok (cDecimal [.lit (.int 18)] []) (.decimal 18 0) && ok (cDecimal [.lit (.int 4), .lit (.int 0)] []) (.decimal 4 0)
conforms ok (cDecimal [.lit (.int 11), .lit (.int 2)] []) (.decimal 11 2) && raises (cDecimal [] []) .typeError
conforms same (recordLiteral P [.slice (s (py"a")) (s (py"int32")) .none]) (R [(py"a", s (py"int32"))])
conforms same (recordLiteral P [.slice (s (py"a")) (s (py"int32")) .none, .slice (s (py"b")) (s (py"int64")) .none])
  (R [(py"a", s (py"int32")), (py"b", s (py"int64"))])
conforms [.other, .slice .none .none .none, .slice (s (py"a")) .none .none, .slice .none (s (py"a")) .none,
  .slice (s (py"a")) .none (s (py"int32")), .slice .none (s (py"int32")) .none, .slice (.int 0) (s (py"int32")) .none].all
    fun i => raises (recordLiteral P [i]) .typeError
conforms holds (R [(py"foo", .ty tInt64), ([0x107], .ty tFloat64)]) fun t => match t with
  | .record fs => recordNames fs == [py"foo", [0x107]] && eqL (recordTypes fs) [tInt64, tFloat64]
  | _ => false
conforms ok (P (py"?string")) (mkOption tString) && ok (P (py"string")) tString && ok (P (py"datetime")) (.datetime none)
conforms ok (P (py"?datetime")) (mkOption (.datetime none)) && same (P (py"10 * int32")) (mul (.int 10) (.ty tInt32))
conforms same (P (py"var * ?int32")) (mul (.ty .var) (.ty (mkOption tInt32)))
conforms same (P (py"10 * ?float64")) (mul (.ty (.fixed 10)) (.ty (mkOption tFloat64)))
conforms ok (R [(py"y", s (py"?int")), (py"x", s (py"?int"))]) (.record [(py"y", .option tInt32), (py"x", .option tInt32)])
conforms raises (R [(py"y", .other)]) .typeError

/-! ### test_operations.py -/

conforms ok (subarray tInt32 0) tInt32 && raises (subarray tInt32 1) .indexError
conforms ok (subarray tString 0) tString && raises (subarray tString 1) .indexError
conforms holds (P (py"3 * int32")) fun t => same (subarray t 0) (.ok t) && ok (subarray t 1) (.dshape [tInt32])
conforms holds (P (py"3 * var * M * int32")) fun t => prints (subarray t 2) (py"M * int32")
conforms holds (P (py"3 * var * M * float64")) fun t => prints (subarray t 3) (py"float64")
conforms differ (.ok tInt32) (P (py"1 * int32"))

/-! ### Doctests of coretypes.py -/

conforms [py"milliseconds", py"ms"].all fun u => (normalizeTimeUnit u) == .ok (py"ms")
conforms [py"nanoseconds", py"nanosecond"].all fun u => (normalizeTimeUnit u) == .ok (py"ns")
conforms represented (mkString none none) (py"ctype(\"string\")")
conforms represented (mkString (some 10) (some (py"ascii"))) (py"ctype(\"string[10, 'A']\")")
conforms methodIs (mkString none none) (.prim .object) && methodIs (mkString (some 30) none) (.str 30)
conforms methodIs (mkString (some 30) (some (py"A"))) (.bytes 30)
conforms represented (cDecimal [.lit (.int 18)] []) (py"Decimal(precision=18, scale=0)")
conforms represented (cDecimal [.lit (.int 7), .lit (.int 4)] []) (py"Decimal(precision=7, scale=4)")
conforms represented (cDecimal [] [(py"precision", .lit (.int 11)), (py"scale", .lit (.int 2))]) (py"Decimal(precision=11, scale=2)")
conforms represented (dataShape P [.ty (.fixed 5), .ty tInt32]) (py"dshape(\"5 * int32\")")
conforms represented (dshapeObj E D (.seq [.ty (.fixed 5), .ty tInt32])) (py"dshape(\"5 * int32\")")
conforms holds (P (py"1 * 2 * 3 * int32")) fun t => represented (subarray t 1) (py"dshape(\"2 * 3 * int32\")") &&
  represented (subarray t 2) (py"dshape(\"3 * int32\")")
/-- `print(ds.subshape[i])` -/
def psub (ds : Str) (i : Index) (r : Str) : Bool := holds (P ds) fun t => prints (subshape i t) r
conforms psub (py"var * {name: string, amount: int32}") (.int 0) (py"{name: string, amount: int32}")
conforms psub (py"var * {name: string, amount: int32}") (.slice (some 0) (some 3) none) (py"3 * {name: string, amount: int32}")
conforms psub (py"var * {name: string, amount: int32}") (.tuple [.slice (some 0) (some 7) (some 2), .str (py"amount")]) (py"4 * int32")
conforms psub (py"var * {name: string, amount: int32}") (.list [.int 1, .int 10, .int 15]) (py"3 * {name: string, amount: int32}")
conforms psub (py"{x: int, y: int}") (.str (py"x")) (py"int32")
conforms psub (py"10 * var * 10 * int32") (.tuple [.slice (some 0) (some 5) none, .slice (some 0) (some 3) none, .int 5])
  (py"5 * 3 * int32")
conforms psub (py"var * {name: string, amount: int32, id: int32}") (.tuple [.slice none none none, .list [.int 0, .int 2]])
  (py"var * {name: string, id: int32}")
conforms psub (py"var * {name: string, amount: int32, id: int32}")
  (.tuple [.slice none none none, .list [.str (py"name"), .str (py"id")]]) (py"var * {name: string, id: int32}")
conforms psub (py"var * {name: string, amount: int32, id: int32}") (.tuple [.int 0, .slice (some 1) none none])
  (py"{amount: int32, id: int32}")
conforms represented (fromDtype (.prim .int32)) (py"ctype(\"int32\")") && represented (fromDtype (.prim .int64)) (py"ctype(\"int64\")")
conforms represented (fromDtype (.datetime (py"generic"))) (py"DateTime(tz=None)")
conforms represented (fromDtype (.str 30)) (py"ctype(\"string[30, 'U32']\")")
conforms represented ((PVal.int 5).launder P) (py"Fixed(val=5)") && represented ((s (py"int32")).launder P) (py"ctype(\"int32\")")
conforms represented ((PVal.ty (.dshape [tInt32])).launder P) (py"ctype(\"int32\")")
conforms represented ((PVal.ty (.fixed 5)).launder P) (py"Fixed(val=5)")
conforms represented (R [(py"id", s (py"int")), (py"name", s (py"string")), (py"amount", s (py"real"))])
  (py"dshape(\"{id: int32, name: string, amount: float64}\")")
/-- `to_numpy(dshape(s)) == (shape, d)` -/
def numpyIs (x : Str) (shape : List Int) (d : DType) : Bool := holds (P x) fun t => match toNumpy t with
  | .ok (sh, e) => sh == shape && dtEq e d
  | _ => false
conforms numpyIs (py"5 * 5 * int32") [5, 5] (.prim .int32) && numpyIs (py"10 * string[30]") [10] (.str 30)
conforms numpyIs (py"N * int32") [-1] (.prim .int32)
conforms represented (fromNumpy (.prim .int32) [5, 5]) (py"dshape(\"5 * 5 * int32\")")
conforms represented (fromNumpy (.bytes 10) [10]) (py"dshape(\"10 * string[10, 'A']\")")
conforms holds (P (py"5 * 3 * int32")) fun t => pprint E t 80 == py"5 * 3 * int32"
/-- the datashape of the doctest of `pprint` -/
def big : Str := py"
5000000000 * {
    a: (int, float32, real, string, datetime),
    b: {c: 5 * int, d: var * 100 * float32}
}"
conforms holds (P big) fun t => pprint E t 80 == py"5000000000 * {
  a: (int32, float32, float64, string, datetime),
  b: {c: 5 * int32, d: var * 100 * float32}
  }"
conforms holds (P big) fun t => pprint E t.measure 30 == py"{
  a: (
    int32,
    float32,
    float64,
    string,
    datetime
    ),
  b: {
    c: 5 * int32,
    d: var * 100 * float32
    }
  }"
conforms holds (P big) fun t => pprint E t 30 == py"5000000000 * {
  a: (
    int32,
    float32,
    float64,
    string,
    datetime
    ),
  b: {
    c: 5 * int32,
    d: var * 100 * float32
    }
  }"

/-! test_coretypes.py:512-513 -/

example : mkNamed (py"myuint") [.leaf tUint32] = .ok (.dshape (py"myuint") [.leaf tUint32]) ∧
    renderN E (.dshape (py"myuint") [.leaf tUint32]) none = py"myuint" := ⟨rfl, rfl⟩

end DS.Conform
