import Verif.Model.Testing
import Verif.Model.Params
import Verif.Model.Repr

/-
The messages of `assert_dshape_equal` (util/testing.py): what is reported, and the argument `path`, which the last line
shows.
-/
namespace DS

/-- A piece of the path. (`.dshapes` and `[n]` of a tuple are always appended together, util/testing.py:233-238.) -/
inductive Step where
  | shape (n : Nat)
  | measure
  | slot (name : Str)
  | ty
  | field (name : Str)
  | dshapes (n : Nat)
  | argtypes (n : Nat)
  | restype
  deriving DecidableEq, Repr

/-- the text of a piece: util/testing.py:79, 92, 125, 154, 173, 179, 187, 218, 233-238, 256, 261 -/
def Step.text (env : Env) : Step → Str
  | .shape n => py".shape[" ++ natStr n ++ py"]"
  | .measure => py".measure"
  | .slot s => py"." ++ s
  | .ty => py".ty"
  | .field n => py"[" ++ pyRepr env n ++ py"]"
  | .dshapes n => py".dshapes[" ++ natStr n ++ py"]"
  | .argtypes n => py".argtypes[" ++ natStr n ++ py"]"
  | .restype => py".restype"

/-- `_fmt_path(path)`: util/testing.py:19-34 -/
def fmtPath (env : Env) (path : List Step) : Str :=
  if path.isEmpty then [] else py"path: _" ++ (path.map (Step.text env)).flatten

/-- What a message reports: the operands of the format strings. -/
inductive Report where
  | dims (d e : Ty) (ashape bshape : List Ty)
  | slot (cls name : Str) (v w : Param)
  | values (a b : Ty)
  | units (u v : Str)
  | encoding (e f : Str)
  | fixlen (i j : Int)
  | fieldCount (names names' : List Str)
  | fieldName (n : Nat) (x y : Str)
  | tupleCount (l m : List Ty)
  | arity (l m : List Ty)

/-- `repr` of a Python tuple, given those of its members -/
def tupleRepr : List Str → Str
  | [s] => py"(" ++ s ++ py",)"
  | l => py"(" ++ join (py", ") l ++ py")"

/-- `repr` of the value of a slot (CPython's for `None`, numbers, strings and tuples) -/
def Param.repr (env : Env) : Param → Str
  | .none => py"None"
  | .int i => intStr i
  | .str s => pyRepr env s
  | .bool b => boolStr b
  | .ty t => pyReprTy env t
  | .tys l => tupleRepr (l.map (pyReprTy env))
  | .lits l => tupleRepr (l.map (litRepr env))
  | .fields l => tupleRepr (l.map fun f => tupleRepr [pyRepr env f.1, pyReprTy env f.2])

/-- `'%r' % [name, ...]` -/
def listRepr (env : Env) (names : List Str) : Str := py"[" ++ join (py", ") (names.map (pyRepr env)) ++ py"]"

/-- the lines of the message before the path: util/testing.py:81-89, 119-126, 131, 153-155, 171-174, 176-179, 196-199,
212-215, 226-229, 245-248 -/
def Report.text (env : Env) : Report → Str
  | .dims d e as bs => py"dimensions do not match: " ++ pyStr env d ++ py" != " ++ pyStr env e ++
      (if as.length > 1 then py"\n" ++ join (py" * ") (as.map (pyStr env)) ++ py" != " ++ join (py" * ") (bs.map (pyStr env))
       else []) ++ py"\n"
  | .slot cls name v w => cls ++ py" " ++ name ++ py"s do not match: " ++ v.repr env ++ py" != " ++ w.repr env ++ py"\n"
  | .values a b => pyStr env a ++ py" != " ++ pyStr env b ++ py"\n"
  | .units u v => py"units units do not match: " ++ pyRepr env u ++ py" != " ++ v ++ py"\n"
  | .encoding e f => py"string encodings do not match: " ++ pyRepr env e ++ py" != " ++ pyRepr env f ++ py"\n"
  | .fixlen i j => py"string fixlens do not match: " ++ intStr i ++ py" != " ++ intStr j ++ py"\n"
  | .fieldCount l m => py"records have mismatched field counts: " ++ natStr l.length ++ py" != " ++ natStr m.length ++
      py"\n" ++ listRepr env l ++ py" != " ++ listRepr env m ++ py"\n"
  | .fieldName n x y => py"record field name at position " ++ natStr n ++ py" does not match: " ++ pyRepr env x ++
      py" != " ++ pyRepr env y ++ py"\n"
  | .tupleCount l m => py"tuples have mismatched field counts: " ++ natStr l.length ++ py" != " ++ natStr m.length ++
      py"\n" ++ pyReprTy env (.tuple l) ++ py" != " ++ pyReprTy env (.tuple m) ++ py"\n"
  | .arity l m => py"functions have different arities: " ++ natStr l.dropLast.length ++ py" != " ++
      natStr m.dropLast.length ++ py"\n" ++ pyReprTy env (.func l) ++ py" != " ++ pyReprTy env (.func m) ++ py"\n"

/-- An exception: an `AssertionError` with what it reports and the path, or another one -/
inductive TErr where
  | differ (report : Report) (path : List Step)
  | other (e : PyErr)

/-- the message of an `AssertionError` -/
def message (env : Env) (r : Report) (path : List Step) : Str := r.text env ++ fmtPath env path

/-- `assert c, '… %s' % (…, _fmt_path(path))` -/
def assertWith (c : Bool) (r : Report) (path : List Step) : Except TErr Unit :=
  if c then .ok () else .error (.differ r path)

/-- `_base_case(a, b, path)`: util/testing.py:129-131 -/
def baseAt (path : List Step) (a b : Ty) : Except TErr Unit := assertWith (pyEq a b) (.values a b) path

/-- `type(t).__name__.lower()` of the classes with `__slots__` (coretypes.py, typesets.py:16; line 120 of util/testing.py) -/
def Ty.lowerName : Ty → Str
  | .ctype .. => py"ctype"
  | .null => py"null"
  | .date => py"date"
  | .time _ => py"time"
  | .datetime _ => py"datetime"
  | .timedelta _ => py"timedelta"
  | .units .. => py"units"
  | .bytes => py"bytes"
  | .string .. => py"string"
  | .decimal .. => py"decimal"
  | .json => py"json"
  | .fixed _ => py"fixed"
  | .var => py"var"
  | .typevar _ => py"typevar"
  | .ellipsis _ => py"ellipsis"
  | .option _ => py"option"
  | .map .. => py"map"
  | .func _ => py"function"
  | .record _ => py"record"
  | .tuple _ => py"tuple"
  | .categorical .. => py"categorical"
  | .typeset .. => py"typeset"
  | .dshape _ => py"datashape"

/-- `type(t).__slots__` of the classes that have it (coretypes.py, typesets.py:22) -/
def Ty.slotNames : Ty → List Str
  | .ctype .. => [py"name", py"_itemsize", py"_alignment"]
  | .time _ | .datetime _ => [py"tz"]
  | .timedelta _ => [py"unit"]
  | .units .. => [py"unit", py"tp"]
  | .string .. => [py"fixlen", py"encoding"]
  | .decimal .. => [py"precision", py"scale"]
  | .fixed _ => [py"val"]
  | .typevar _ => [py"symbol"]
  | .ellipsis _ => [py"typevar"]
  | .option _ => [py"ty"]
  | .map .. => [py"key", py"value"]
  | .tuple _ => [py"dshapes"]
  | .categorical .. => [py"categories", py"type", py"ordered"]
  | .typeset .. => [py"_order", py"name"]
  | _ => []

/-- Python `==` of two values of slots of the same class -/
def Param.same : Param → Param → Bool
  | .none, .none => true
  | .int i, .int j => i == j
  | .str s, .str t => s == t
  | .bool a, .bool b => a == b
  | .ty a, .ty b => pyEq a b
  | .tys l, .tys m => eqL l m
  | .lits l, .lits m => litsEq l m
  | .fields l, .fields m => eqF l m
  | _, _ => false

/-- util/testing.py:118-126: the loop over the slots -/
def slotLoop (cls : Str) (path : List Step) : List Str → List Param → List Param → Except TErr Unit
  | s :: names, v :: vs, w :: ws => do
    assertWith (v.same w) (.slot cls s v w) (path ++ [.slot s])
    slotLoop cls path names vs ws
  | _, _, _ => .ok ()

/-- `_check_slots`: util/testing.py:108-126, and `_base_case` for objects that are not slotted -/
def checkSlotsAt (path : List Step) (a b : Ty) : Except TErr Unit :=
  if a.isSlotted && b.isSlotted && a.ctorIdx == b.ctorIdx then slotLoop a.lowerName path a.slotNames a.parameters b.parameters
  else baseAt path a b

/-- util/testing.py:76-90, from position `n` on; `as` and `bs` are the whole shapes -/
def checkDimsAt (path : List Step) (as bs : List Ty) : Nat → List Ty → List Ty → Except TErr Unit
  | n, a :: r, b :: s => do
    assertWith (pyEq a b) (.dims a b as bs) (path ++ [.shape n])
    checkDimsAt path as bs (n + 1) r s
  | _, _, _ => .ok ()

/-- util/testing.py:207-221: the loop over two lists of fields; the left fields are given by their comparison functions,
which get the path; from position `k` on -/
def runFieldsAt (path : List Step) : Nat → List (Str × (List Step → Ty → Except TErr Unit)) → List (Str × Ty) →
    Except TErr Unit
  | k, (n, f) :: r, (m, t) :: s => do
    assertWith (n == m) (.fieldName k n m) path
    f (path ++ [.field n]) t
    runFieldsAt path (k + 1) r s
  | _, _, _ => .ok ()

/-- the exception for different lengths of strings: util/testing.py:175-179; `'%d' % None` raises `TypeError` while the
message is built -/
def fixlenAt (path : List Step) : Option Int → Option Int → Except TErr Unit
  | some i, some j => .error (.differ (.fixlen i j) (path ++ [.slot (py"fixlen")]))
  | _, _ => .error (.other .typeError)

mutual
/-- `assert_dshape_equal(a, b, path=path, **flags)`: util/testing.py:37-99, 108-263 -/
def assertAt (fl : Flags) : (a : Ty) → List Step → Ty → Except TErr Unit
  | .dshape ps, path, b => (match b with
      | .dshape qs => do
        if fl.dim then checkDimsAt path ps.dropLast qs.dropLast 0 ps.dropLast qs.dropLast
        assertLastAt fl ps (path ++ [.measure]) qs.getLast?
      | b => baseAt path (.dshape ps) b)
  | .datetime z, path, b => (match b with
      | .datetime z' => if fl.tz then slotLoop (py"datetime") path [py"tz"] [.ofStr z] [.ofStr z'] else .ok ()
      | .time z' => baseAt [] (.datetime z) (.time z')          -- line 137 does not pass the path on
      | b => baseAt path (.datetime z) b)
  | .time z, path, b => (match b with
      | .time z' => if fl.tz then slotLoop (py"time") path [py"tz"] [.ofStr z] [.ofStr z'] else .ok ()
      | .datetime z' => baseAt [] (.time z) (.datetime z')
      | b => baseAt path (.time z) b)
  | .timedelta u, path, b => (match b with
      | .timedelta u' => if fl.timedeltaUnit then slotLoop (py"timedelta") path [py"unit"] [.str u] [.str u'] else .ok ()
      | b => baseAt path (.timedelta u) b)
  | .units u t, path, b => (match b with
      | .units u' _ => do
        assertWith (u == u') (.units u u') (path ++ [.slot (py"unit")])
        .error (.other .attributeError)        -- `path.append` on a tuple, line 157
      | b => baseAt path (.units u t) b)
  | .string n e, path, b => (match b with
      | .string n' e' => do
        if fl.strEncoding then assertWith (e == e') (.encoding e e') (path ++ [.slot (py"encoding")])
        if fl.strFixlen && n != n' then fixlenAt path n n' else .ok ()
      | b => baseAt path (.string n e) b)
  | .option t, path, b => (match b with
      | .option t' => assertAt fl t (path ++ [.ty]) t'
      | b => baseAt path (.option t) b)
  | .record fs, path, b => (match b with
      | .record gs => do
        assertWith (fs.length == gs.length) (.fieldCount (fs.map (·.1)) (gs.map (·.1))) path
        let fns := assertFAt fl fs
        if fl.recordOrder then runFieldsAt path 0 fns gs else runFieldsAt path 0 (sortFields fns) (sortFields gs)
      | b => baseAt path (.record fs) b)
  | .tuple ts, path, b => (match b with
      | .tuple us => do
        assertWith (ts.length == us.length) (.tupleCount ts us) path
        assertItemsAt fl ts path 0 us
      | b => baseAt path (.tuple ts) b)
  | .func ps, path, b => (match b with
      | .func qs => do
        assertWith (ps.length == qs.length) (.arity ps qs) path
        assertArgsAt fl ps path 0 qs
      | b => baseAt path (.func ps) b)
  | a, path, b => checkSlotsAt path a b
termination_by structural a => a
/-- the measures: util/testing.py:92-99 -/
def assertLastAt (fl : Flags) : (ps : List Ty) → List Step → Option Ty → Except TErr Unit
  | [], _, _ => .error (.other .indexError)
  | p :: r, path, m => (match r with
    | [] => (match m with
      | some m => assertAt fl p path m
      | none => .error (.other .indexError))
    | _ :: _ => assertLastAt fl r path m)
termination_by structural ps => ps
/-- the comparison functions of the fields -/
def assertFAt (fl : Flags) : (fs : List (Str × Ty)) → List (Str × (List Step → Ty → Except TErr Unit))
  | [] => []
  | (n, t) :: r => (n, fun path b => assertAt fl t path b) :: assertFAt fl r
termination_by structural fs => fs
/-- the components of a tuple, from number `n` on: util/testing.py:234-240 -/
def assertItemsAt (fl : Flags) : (l : List Ty) → List Step → Nat → List Ty → Except TErr Unit
  | [], _, _, _ => .ok ()
  | a :: r, path, n, l => (match l with
    | [] => .ok ()
    | b :: s => do
      assertAt fl a (path ++ [.dshapes n]) b
      assertItemsAt fl r path (n + 1) s)
termination_by structural l => l
/-- the arguments of a function, from number `n` on, and its result: util/testing.py:252-263 -/
def assertArgsAt (fl : Flags) : (l : List Ty) → List Step → Nat → List Ty → Except TErr Unit
  | [], _, _, _ => .ok ()
  | a :: r, path, n, l => (match l with
    | [] => .ok ()
    | b :: s => do
      assertAt fl a (path ++ [if r.isEmpty then .restype else .argtypes n]) b
      assertArgsAt fl r path (n + 1) s)
termination_by structural l => l
end

end DS
