import Verif.Conform.Basic

/-
datashape/tests/test_lexer.py, test_parser.py, test_creation.py, test_str.py
-/
namespace DS.Conform

/-! ### test_lexer.py -/

/-- `check_isolated_token` (lines 16-22) -/
def isolated (s : Str) (t : Tk) : Bool := lex s == ([⟨t, 0, s.length⟩], none)

/-- `check_failing_token` (lines 23-27) -/
def failing (s : Str) : Bool := match lex s with | (_, some (.syntax _ _ _)) => true | _ => false

conforms isolated (py"testing") (.lower (py"testing"))
conforms isolated (py"Testing") (.upper (py"Testing"))
conforms isolated (py"_testing") (.other (py"_testing"))
conforms isolated (py"*") .star && isolated (py",") .comma && isolated (py"=") .equal && isolated (py":") .colon
conforms isolated (py"[") .lbrack && isolated (py"]") .rbrack && isolated (py"{") .lbrace && isolated (py"}") .rbrace
conforms isolated (py"(") .lparen && isolated (py")") .rparen && isolated (py"...") .ellipsis && isolated (py"->") .rarrow
conforms isolated (py"?") .qmark
conforms isolated (py"32102") (.int 32102)
conforms isolated (py"\"testing\"") (.str (py"testing")) && isolated (py"'testing'") (.str (py"testing"))
conforms (List.range 10).all fun n => isolated (natStr n) (.int n)
conforms [10, 102, 1024, 10246, 102468, 1024683].all fun (n : Nat) => isolated (natStr n) (.int n)
conforms isolated (py"10246835") (.int 10246835) && isolated (py"102468357") (.int 102468357)
conforms isolated (py"1024683579") (.int 1024683579)
conforms failing (py"00") && failing (py"01") && failing (py"090")
conforms isolated (py"\"\"") (.str []) && isolated (py"''") (.str [])
conforms isolated (py"\"test\"") (.str (py"test")) && isolated (py"'test'") (.str (py"test"))
conforms isolated (py"\"\\\"\\b\\f\\n\\r\\t\\ub155\"") (.str [34, 8, 12, 10, 13, 9, 0xb155])
conforms isolated (py"'\\'\\b\\f\\n\\r\\t\\ub155'") (.str [39, 8, 12, 10, 13, 9, 0xb155])
conforms failing (py"\"\\'\"") && failing (py"'\\\"'") && failing (py"'\\a'") && failing (py"'\\s'") && failing (py"'\\R'")
conforms failing (py"'\\N'") && failing (py"'\\U'") && failing (py"'\\u123g'") && failing (py"'\\u123'")
conforms isolated (py"\"\uc548\ub155 \\uc548\\ub155\"") (.str [0xc548, 0xb155, 32, 0xc548, 0xb155])
conforms (py"~`@$%^&-+;<>./|\\").all fun c => failing [c]
conforms failing (py"..")

/-- the tokens of `test_whitespace` -/
def wsToks : List Tk := [.colon, .str (py"a"), .int 12345, .rarrow, .equal, .star, .other (py"_b")]
/-- the tokens without their spans -/
def toks (s : Str) : List Tk := (lex s).1.map (·.tk)
conforms toks (py":\"a\"12345->=*_b") == wsToks
conforms toks (py" : \"a\" 12345 -> = * _b ") == wsToks
conforms toks (py"\t:\t\"a\"\t12345\t->\t=\t*\t_b\t") == wsToks
conforms toks (py"\n:\n\"a\"\n12345\n->\n=\n*\n_b\n") == wsToks
conforms toks (py"# comment\n: # X\n \"a\" # \"b\"\t\n\t12345\n\n->\n=\n*\n_b # comment\n \t # end") == wsToks

/-! ### test_parser.py -/

conforms ok (pp (py"bool")) (.dshape [tBool])
conforms ok (pp (py"int8")) (.dshape [tInt8]) && ok (pp (py"int16")) (.dshape [tInt16])
conforms ok (pp (py"int32")) (.dshape [tInt32]) && ok (pp (py"int64")) (.dshape [tInt64])
conforms same (pp (py"int")) (pp (py"int32")) && ok (pp (py"intptr")) (.dshape [tInt64])
conforms ok (pp (py"uint8")) (.dshape [tUint8]) && ok (pp (py"uint16")) (.dshape [tUint16])
conforms ok (pp (py"uint32")) (.dshape [tUint32]) && ok (pp (py"uint64")) (.dshape [tUint64])
conforms ok (pp (py"uintptr")) (.dshape [tUint64])
conforms ok (pp (py"float16")) (.dshape [tFloat16]) && ok (pp (py"float32")) (.dshape [tFloat32])
conforms ok (pp (py"float64")) (.dshape [tFloat64]) && same (pp (py"real")) (pp (py"float64"))
conforms ok (pp (py"null")) (.dshape [.null]) && ok (pp (py"void")) (.dshape [tVoid]) && ok (pp (py"object")) (.dshape [tObject])
conforms ok (pp (py"complex[float32]")) (.dshape [tComplex64]) && ok (pp (py"complex[float64]")) (.dshape [tComplex128])
conforms same (pp (py"complex")) (pp (py"complex[float64]"))
conforms ok (pp (py"option[int32]")) (.dshape [.option tInt32]) && ok (pp (py"?int32")) (.dshape [.option tInt32])
conforms ok (pp (py"2 * 3 * option[int32]")) (.dshape [.fixed 2, .fixed 3, .option tInt32])
conforms ok (pp (py"2 * 3 * ?int32")) (.dshape [.fixed 2, .fixed 3, .option tInt32])
conforms ok (pp (py"2 * option[3 * int32]")) (.dshape [.fixed 2, .option (.dshape [.fixed 3, tInt32])])
conforms ok (pp (py"2 * ?3 * int32")) (.dshape [.fixed 2, .option (.dshape [.fixed 3, tInt32])])
conforms synErr (pp (py"")) && synErr (pp (py"boot")) && synErr (pp (py"int33"))

/-- comparison of arguments of a type constructor -/
def argEq : Arg → Arg → Bool
  | .lit a, .lit b => a.pyEq b
  | .ds a, .ds b => pyEq a b
  | .lits a, .lits b => litsEq a b
  | .dss a, .dss b => eqL a b
  | _, _ => false

/-- a bare symbol table with three types, `typevar`, and the constructor `name`, which returns `float32` when the
arguments bind to `params` as expected -/
def bare (name : Str) (params : List Str) (expected : List Arg) : Sym where
  dtype n := [(py"int8", tInt8), (py"uint16", tUint16), (py"float64", tFloat64)].lookup n
  dtypeConstr n := if n = py"typevar" then some (cTypeVar E) else if n = name then
      some fun args kw => do
        let vals ← bindArgs params args kw
        if (vals.zip expected).all (fun p => match p.1 with | some a => argEq a p.2 | none => false) &&
            vals.length == expected.length then .ok tFloat32
        else .error .assertion
    else none
  dim _ := none
  dimConstr _ := none

/-- `assertExpectedParse` for `unary` (lines 149-156) -/
def unary (s : Str) (a : Arg) : Bool := ok (parse (bare (py"unary") [py"blah"] [a]) s) (.dshape [tFloat32])
/-- `assertExpectedParse` for `binary` (lines 220-229) -/
def binary (s : Str) (a b : Arg) : Bool := ok (parse (bare (py"binary") [py"a", py"b"] [a, b]) s) (.dshape [tFloat32])
/-- the datashape `X` -/
def tv (s : Str) : Ty := .dshape [.typevar s]

conforms unary (py"unary[0]") (.lit (.int 0)) && unary (py"unary[100000]") (.lit (.int 100000))
conforms unary (py"unary[\"test\"]") (.lit (.str (py"test"))) && unary (py"unary['test']") (.lit (.str (py"test")))
conforms unary (py"unary[\"\\uc548\\ub155\"]") (.lit (.str [0xc548, 0xb155]))
conforms unary (py"unary[\"\uc548\ub155\"]") (.lit (.str [0xc548, 0xb155]))
conforms unary (py"unary[int8]") (.ds (.dshape [tInt8])) && unary (py"unary[X]") (.ds (tv (py"X")))
conforms unary (py"unary[[]]") (.lits []) && unary (py"unary[[0, 3, 12]]") (.lits [.int 0, .int 3, .int 12])
conforms unary (py"unary[[\"test\", \"one\", \"two\"]]") (.lits [.str (py"test"), .str (py"one"), .str (py"two")])
conforms unary (py"unary[[float64, int8, uint16]]") (.dss [.dshape [tFloat64], .dshape [tInt8], .dshape [tUint16]])
conforms unary (py"unary[blah=0]") (.lit (.int 0)) && unary (py"unary[blah=100000]") (.lit (.int 100000))
conforms unary (py"unary[blah=\"test\"]") (.lit (.str (py"test"))) && unary (py"unary[blah='test']") (.lit (.str (py"test")))
conforms unary (py"unary[blah=\"\\uc548\\ub155\"]") (.lit (.str [0xc548, 0xb155]))
conforms unary (py"unary[blah=int8]") (.ds (.dshape [tInt8])) && unary (py"unary[blah=X]") (.ds (tv (py"X")))
conforms unary (py"unary[blah=[]]") (.lits []) && unary (py"unary[blah=[0, 3, 12]]") (.lits [.int 0, .int 3, .int 12])
conforms unary (py"unary[blah=[\"test\", \"one\", \"two\"]]") (.lits [.str (py"test"), .str (py"one"), .str (py"two")])
conforms unary (py"unary[blah=[float64, int8, uint16]]") (.dss [.dshape [tFloat64], .dshape [tInt8], .dshape [tUint16]])

conforms binary (py"binary[1, 0]") (.lit (.int 1)) (.lit (.int 0))
conforms binary (py"binary[0, \"test\"]") (.lit (.int 0)) (.lit (.str (py"test")))
conforms binary (py"binary[int8, \"test\"]") (.ds (.dshape [tInt8])) (.lit (.str (py"test")))
conforms binary (py"binary[[1,3,5], \"test\"]") (.lits [.int 1, .int 3, .int 5]) (.lit (.str (py"test")))
conforms binary (py"binary[0, b=1]") (.lit (.int 0)) (.lit (.int 1))
conforms binary (py"binary[\"test\", b=A]") (.lit (.str (py"test"))) (.ds (tv (py"A")))
conforms binary (py"binary[[3, 6], b=int8]") (.lits [.int 3, .int 6]) (.ds (.dshape [tInt8]))
conforms binary (py"binary[Arg, b=[\"x\", \"test\"]]") (.ds (tv (py"Arg"))) (.lits [.str (py"x"), .str (py"test")])
conforms binary (py"binary[a=1, b=0]") (.lit (.int 1)) (.lit (.int 0))
conforms binary (py"binary[a=[int8, A, uint16], b=\"x\"]") (.dss [.dshape [tInt8], tv (py"A"), .dshape [tUint16]])
  (.lit (.str (py"x")))

/-- the table of `test_dtype_constr_errors` -/
def tcon : Sym where
  dtype n := [(py"int8", tInt8), (py"uint16", tUint16), (py"float64", tFloat64)].lookup n
  dtypeConstr n := if n = py"tcon" then some fun _ _ => .ok tFloat32 else none
  dim _ := none
  dimConstr _ := none
conforms [py"tcon[", py"tcon[]", py"tcon[unknown]", py"tcon[x=", py"tcon[x=]", py"tcon[x=A, B]", py"tcon[[0, \"x\"]]",
  py"tcon[[0, X]]", py"tcon[[\"x\", 0]]", py"tcon[[\"x\", X]]", py"tcon[[X, 0]]", py"tcon[[X, \"x\"]]"].all fun s =>
    synErr (parse tcon s)

conforms ok (pp (py"3 * bool")) (.dshape [.fixed 3, tBool]) && ok (pp (py"7 * 3 * bool")) (.dshape [.fixed 7, .fixed 3, tBool])
conforms ok (pp (py"5 * 3 * 12 * bool")) (.dshape [.fixed 5, .fixed 3, .fixed 12, tBool])
conforms ok (pp (py"2 * 3 * 4 * 5 * bool")) (.dshape [.fixed 2, .fixed 3, .fixed 4, .fixed 5, tBool])
conforms ok (pp (py"M * bool")) (.dshape [.typevar (py"M"), tBool])
conforms ok (pp (py"A * B * bool")) (.dshape [.typevar (py"A"), .typevar (py"B"), tBool])
conforms ok (pp (py"A... * X * 3 * bool")) (.dshape [.ellipsis (some (py"A")), .typevar (py"X"), .fixed 3, tBool])
conforms ok (pp (py"var * bool")) (.dshape [.var, tBool]) && ok (pp (py"var * var * bool")) (.dshape [.var, .var, tBool])
conforms ok (pp (py"M * 5 * var * bool")) (.dshape [.typevar (py"M"), .fixed 5, .var, tBool])
conforms ok (pp (py"... * bool")) (.dshape [.ellipsis none, tBool])
conforms ok (pp (py"M * ... * bool")) (.dshape [.typevar (py"M"), .ellipsis none, tBool])
conforms ok (pp (py"M * ... * 3 * bool")) (.dshape [.typevar (py"M"), .ellipsis none, .fixed 3, tBool])

/-- a record whose field types are written as datashapes (`Record` launders them) -/
def rc (fs : List (Str × Ty)) : Ty := .record (fs.map fun f => (f.1, launderTy f.2))

conforms ok (pp (py"{x: int16, y: int32}")) (.dshape [rc [(py"x", .dshape [tInt16]), (py"y", .dshape [tInt32])]])
conforms ok (pp (py"{x: int16, y: int32,}")) (.dshape [rc [(py"x", .dshape [tInt16]), (py"y", .dshape [tInt32])]])
conforms ok (pp (py"{_x: int16, Zed: int32,}")) (.dshape [rc [(py"_x", .dshape [tInt16]), (py"Zed", .dshape [tInt32])]])
conforms ok (pp (py"3 * var * {
                        id : int32,
                        name : string,
                        description : {
                            language : string,
                            text : string
                        },
                        entries : var * {
                            date : date,
                            text : string
                        }
                    }")) (.dshape [.fixed 3, .var, rc [(py"id", tInt32), (py"name", tString),
    (py"description", .dshape [rc [(py"language", tString), (py"text", tString)]]),
    (py"entries", .dshape [.var, rc [(py"date", .date), (py"text", tString)]])]])

/-- `len(ds[-1].names)` for a record measure -/
def nNames (n : Nat) (t : Ty) : Bool := match t.measure with | .record fs => fs.length == n | _ => false

conforms holds (pp (py"{
                type: bool, data: bool, blob: bool, bool: bool, int: int32, float: float32, double: float64, int8: int8,
                int16: int16, int32: int32, int64: int64, uint8: uint8, uint16: uint16, uint32: uint32,
                uint64: uint64, float16: float32, float32: float32, float64: float64, float128: float64,
                complex: float32, complex64: float32, complex128: float64, string: string, object: string,
                datetime: string, datetime64: string, timedelta: string, timedelta64: string, json: string,
                var: string,
            }")) (nNames 30)
conforms holds (pp (py"5 * var * {
              id: int64,
              name: string,
              description: {
                languages: var * string[2],
                texts: json,
              },
              status: string,
              funded_amount: float64,
              basket_amount: json,
              paid_amount: json,
              image: {
                id: int64,
                template_id: int64,
              },
              video: json,
              activity: string,
              sector: string,
              use: string,
              delinquent: bool,
              location: {
                country_code: string[2],
                country: string,
                town: json,
                geo: {
                  level: string,
                  pairs: string,
                  type: string,
                },
              },
              partner_id: int64,
              posted_date: json,
              planned_expiration_date: json,
              loan_amount: float64,
              currency_exchange_loss_amount: json,
              borrowers: var * {
                first_name: string,
                last_name: string,
                gender: string[1],
                pictured: bool,
              },
              terms: {
                disbursal_date: json,
                disbursal_currency: string[3,'A'],
                disbursal_amount: float64,
                loan_amount: float64,
                local_payments: var * {
                  due_date: json,
                  amount: float64,
                },
                scheduled_payments: var * {
                  due_date: json,
                  amount: float64,
                },
                loss_liability: {
                  nonpayment: string,
                  currency_exchange: string,
                  currency_exchange_coverage_rate: json,
                },
              },
              payments: var * {
                amount: float64,
                local_amount: float64,
                processed_date: json,
                settlement_date: json,
                rounded_local_amount: float64,
                currency_exchange_loss_amount: float64,
                payment_id: int64,
                comment: json,
              },
              funded_date: json,
              paid_date: json,
              journal_totals: {
                entries: int64,
                bulkEntries: int64,
              },
            }
        ")) (nNames 25)
conforms holds (pp (py"5 * var * {
              id: int64,
             'my field': string,
              name: string }
             ")) (nNames 3)
conforms holds (pp (py"2 * var * {
             \"AASD @#$@#$ ' sdf\": string,
              id: float32,
              id2: int64,
              name: string }
             ")) (nNames 4)
conforms synErr (pp (py"{id: int64, name: string amount: invalidtype}"))
conforms synErr (pp (py"{id: int64, name: string, amount: invalidtype}"))
conforms synErr (pp (py"{id: int64, name: string, amount: %}"))
conforms synErr (pp (py"{\n   id: int64;\n   name: string;\n   amount+ float32;\n}\n"))
conforms synErr (pp (py"{\n   id: int64;\n   'my field 1': string;\n   amount+ float32;\n}\n"))
conforms synErr (pp (py"{\n   id: int64,\n   u'my field 1': string,\n   amount: float32\n}\n"))

conforms ok (pp (py"(float32)")) (.dshape [.tuple [.dshape [tFloat32]]])
conforms ok (pp (py"(int16, int32)")) (.dshape [.tuple [.dshape [tInt16], .dshape [tInt32]]])
conforms ok (pp (py"(float32,)")) (.dshape [.tuple [.dshape [tFloat32]]])
conforms ok (pp (py"(int16, int32,)")) (.dshape [.tuple [.dshape [tInt16], .dshape [tInt32]]])
conforms ok (pp (py"(float32) -> float64")) (.dshape [.func [.dshape [tFloat32], .dshape [tFloat64]]])
conforms ok (pp (py"(int16, int32) -> bool")) (.dshape [.func [.dshape [tInt16], .dshape [tInt32], .dshape [tBool]]])
conforms ok (pp (py"(float32,) -> float64")) (.dshape [.func [.dshape [tFloat32], .dshape [tFloat64]]])
conforms holds (pp (py"(int16, int32,) -> bool")) fun t =>
  (assertEq {} t (.dshape [.func [.dshape [tInt16], .dshape [tInt32], .dshape [tBool]]])).isOk
conforms holds (pp (py"() -> bool")) fun t => (assertEq {} t (.dshape [.func [.dshape [tBool]]])).isOk
conforms synErr (pp (py"(int64, int32) ->"))
conforms ok (pp (py"()")) (.dshape [.tuple []])
conforms synErr (pp (py"(int64")) && synErr (pp (py"int64,asdf"))
conforms synErr (pp (py"string[10,[")) && synErr (pp (py"string[10,"))
conforms raises (pp (py"fixed[10] * var * string")) .notImplemented
conforms synErr (pp (py"fixed[10 * var * string"))
conforms synErr (pp (py"10 * foo[10]"))

/-! ### test_creation.py -/

conforms raises (dshapeObj E D .other) .typeError
conforms synErr (P (py"1 *")) && synErr (P (py"1,")) && synErr (P (py"bigint"))
conforms [(py"bool", tBool), (py"int8", tInt8), (py"int16", tInt16), (py"int32", tInt32), (py"int64", tInt64),
  (py"uint8", tUint8), (py"uint16", tUint16), (py"uint32", tUint32), (py"uint64", tUint64), (py"float32", tFloat32),
  (py"float64", tFloat64), (py"complex64", tComplex64), (py"complex128", tComplex128), (py"string", tString),
  (py"json", .json), (py"date", .date), (py"time", .time none), (py"datetime", .datetime none)].all fun p =>
    same (P p.1) (dshapeTy p.2)
conforms same (P (py"complex64")) (P (py"complex[float32]")) && same (P (py"complex128")) (P (py"complex[float64]"))
conforms [py"boot", py"int33", py"12", py"var", py"T * ...", py"T * S..."].all fun s => synErr (P s)
conforms same (P (py"string")) (P (py"string['U8']"))
conforms [(py"string['ascii']", py"A"), (py"string['A']", py"A"), (py"string['utf-8']", py"U8"), (py"string['U8']", py"U8"),
  (py"string['utf-16']", py"U16"), (py"string['U16']", py"U16"), (py"string['utf-32']", py"U32"),
  (py"string['U32']", py"U32")].all fun p => ok (P p.1) (.dshape [.string none p.2])
conforms ok (P (py"time")) (.dshape [.time none]) && ok (P (py"time[tz=\"UTC\"]")) (.dshape [.time (some (py"UTC"))])
conforms ok (P (py"time[tz=\"America/Vancouver\"]")) (.dshape [.time (some (py"America/Vancouver"))])
conforms prints (P (py"time[tz=\"UTC\"]")) (py"time[tz='UTC']")
conforms ok (P (py"datetime")) (.dshape [.datetime none]) && ok (P (py"datetime[tz=\"UTC\"]")) (.dshape [.datetime (some (py"UTC"))])
conforms ok (P (py"datetime[tz=\"America/Vancouver\"]")) (.dshape [.datetime (some (py"America/Vancouver"))])
conforms prints (P (py"datetime[tz=\"UTC\"]")) (py"datetime[tz='UTC']")
conforms ok (P (py"units[\"second\"]")) (.dshape [.units (py"second") (.dshape [tFloat64])])
conforms ok (P (py"units[\"second\", int32]")) (.dshape [.units (py"second") (.dshape [tInt32])])
conforms ok (P (py"{}")) (.dshape [.record []])
conforms prints (P (py"5 * int32")) (py"5 * int32") && prints (P (py"{field: 5 * int32}")) (py"{field: 5 * int32}")
conforms prints (P (py"{field: M * int32}")) (py"{field: M * int32}")
conforms holds (P (py"3 * var * int32")) fun t => match t with | .dshape (_ :: .var :: _) => true | _ => false
conforms holds (fromNumpy (.struct [(py"f0", [], .prim .int32), (py"f1", [], .prim .int64), (py"f2", [], .prim .float64)]) [])
  fun t => pyEq t (.record [(py"f0", tInt32), (py"f1", tInt64), (py"f2", tFloat64)])
conforms match P (py"{x: int32, y: float32}") with
  | .ok t => (match toNumpy t with
    | .ok ([], .struct [(x, [], .prim .int32), (y, [], .prim .float32)]) => x == py"x" && y == py"y"
    | _ => false)
  | _ => false
conforms match P (py"int32") with
  | .ok t => same (mul (.ty (.fixed 3)) (.ty t)) (P (py"3 * int32")) && same (mul (.int 3) (.ty t)) (P (py"3 * int32")) &&
      same (mul (.ty .var) (.ty t)) (P (py"var * int32"))
  | _ => false
conforms same (mul (.ty .var) (.ty tInt32)) (P (py"var * int32")) && same (mul (.int 3) (.ty tInt32)) (P (py"3 * int32"))
conforms same (P (py"3 * int32")) (dshapeObj E D (.seq [.int 3, .ty tInt32]))
conforms same (P (py"var * 3 * int32")) (dshapeObj E D (.seq [.ty .var, .int 3, .ty tInt32]))

/-- `eval(repr(dshape(s))) == dshape(s)`: the text inside `dshape("…")` of the representation is parsed again -/
def evalRepr (s : Str) : Bool := match P s with
  | .ok t => same (P (pprint E t 80)) (.ok t) && pyReprTy E t == quoteDshape (pprint E t 80)
  | .error _ => false

/-- the list `dshapes` of `test_dshape_into_repr` -/
def texts : List Str := [py"bool", py"int8", py"int16", py"int32", py"int64", py"uint8", py"uint16", py"uint32", py"uint64",
  py"float32", py"float64", py"complex64", py"complex128", py"string", py"json", py"date", py"time", py"datetime", py"int",
  py"real", py"complex", py"intptr", py"uintptr", py"{id: int8, value: bool, result: int16}",
  py"{a: int32, b: int64, x: uint8, y: uint16, z: uint32}",
  py"{a: float32, b: float64, c: complex64, d: complex128,  e: string, f: json, g: date, h: time, i: datetime}"]
conforms texts.all evalRepr
conforms [py"2", py"100", py"...", py"var", py"2 * var * 2"].all fun d => texts.all fun s => evalRepr (d ++ py" * " ++ s)
conforms same (P (py"intptr")) (dshapeTy tInt64) && same (P (py"uintptr")) (dshapeTy tUint64)

/-! ### test_str.py -/

conforms [(tInt8, py"int8"), (tInt16, py"int16"), (tInt32, py"int32"), (tInt64, py"int64"), (tUint8, py"uint8"),
  (tUint16, py"uint16"), (tUint32, py"uint32"), (tUint64, py"uint64"), (tFloat32, py"float32"), (tFloat64, py"float64"),
  (tString, py"string"), (.string (some 3) (py"U8"), py"string[3]"), (.string none (py"A"), py"string['A']")].all fun p =>
    pyStr E p.1 == p.2 && pyReprTy E p.1 == py"ctype(\"" ++ p.2 ++ py"\")"
conforms prints (P (py"{x:int32, y:int64}")) (py"{x: int32, y: int64}") && prints (P (py"3*5*int16")) (py"3 * 5 * int16")
conforms represented (P (py"{x:int32, y:int64}")) (py"dshape(\"{x: int32, y: int64}\")")
conforms represented (P (py"3*5*int16")) (py"dshape(\"3 * 5 * int16\")")
/-- `dshape(str(ds)) == ds` -/
def back (s : Str) : Bool := match P s with | .ok t => same (P (pyStr E t)) (.ok t) | .error _ => false
conforms back (py"{\"./abc\": int64}") && back (py"{\"./a b c\": float64}") && back (py"{\"./a b\tc\": string}")
conforms back (py"{\"./a/[0 1 2]/b/\\n\": float32}")
/-- `dshape(str(dshape(s)))` raises `DataShapeSyntaxError` (the cases marked `xfail`) -/
def backFails (s : Str) : Bool := match P s with | .ok t => synErr (P (pyStr E t)) | r => synErr r
conforms [11, 10, 13].all fun c => backFails (py"{\"/a/b/0/c" ++ [c] ++ py"/d\": int8}")

end DS.Conform
