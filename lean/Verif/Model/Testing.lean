import Verif.Model.Discovery

/-
datashape/util/testing.py: `assert_dshape_equal`. Messages are not modelled, except where building the message raises.
The argument `path` only occurs in messages (and in the crash of `Units`); it is left out here and modelled in
`Model/TestingPath.lean`. Simplification: `Function()` without parameters, whose `restype` raises `IndexError`, compares like
an empty list.
-/
namespace DS

/-- the keyword arguments (util/testing.py:44-63); each function passes on those it does not consume, so they are the same in
the whole recursion -/
structure Flags where
  dim : Bool := true
  tz : Bool := true
  timedeltaUnit : Bool := true
  strEncoding : Bool := true
  strFixlen : Bool := true
  recordOrder : Bool := true

/-- `assert c` -/
def pyAssert (c : Bool) : Except PyErr Unit := if c then .ok () else .error .assertion

/-- `_base_case(a, b)`: util/testing.py:129-131 -/
def baseCase (a b : Ty) : Except PyErr Unit := pyAssert (pyEq a b)

/-- classes with `__slots__` (`Slotted`, util/testing.py:102-105) -/
def Ty.isSlotted : Ty → Bool
  | .null | .func _ | .record _ | .dshape _ => false
  | _ => true

/-- The function chosen by the dispatcher for two objects without a rule of their own: `_check_slots` (util/testing.py:108-126)
for two slotted objects, which compares the slots one by one if the classes agree, and `_base_case` otherwise. -/
def checkSlots (a b : Ty) : Except PyErr Unit :=
  if a.isSlotted && b.isSlotted && a.ctorIdx == b.ctorIdx then pyAssert (eqM a false b) else baseCase a b

/-- util/testing.py:76-90 (the `zip` ends with the shorter shape) -/
def checkDims : List Ty → List Ty → Except PyErr Unit
  | a :: r, b :: s => do
    pyAssert (pyEq a b)
    checkDims r s
  | _, _ => .ok ()

/-- insert into a list sorted by names -/
def insertField {α : Type} (x : Str × α) : List (Str × α) → List (Str × α)
  | [] => [x]
  | y :: r => if strLe x.1 y.1 then x :: y :: r else y :: insertField x r

/-- `sorted(fields)`: the names of a record are distinct, so the types are never compared -/
def sortFields {α : Type} (l : List (Str × α)) : List (Str × α) := l.foldr insertField []

/-- util/testing.py:207-221: the loop over two lists of fields; the left fields are given by their comparison functions -/
def runFields : List (Str × (Ty → Except PyErr Unit)) → List (Str × Ty) → Except PyErr Unit
  | (n, f) :: r, (m, t) :: s => do
    pyAssert (n == m)
    f t
    runFields r s
  | _, _ => .ok ()

mutual
/-- `assert_dshape_equal(a, b, **flags)`: util/testing.py:37-99, 108-263 -/
def assertEq (fl : Flags) : (a : Ty) → Ty → Except PyErr Unit
  | .dshape ps, b => (match b with
      | .dshape qs => do
        if fl.dim then checkDims ps.dropLast qs.dropLast
        assertLast fl ps qs.getLast?
      | b => baseCase (.dshape ps) b)
  | .datetime z, b => (match b with
      | .datetime z' => if fl.tz then pyAssert (z == z') else .ok ()
      | b => baseCase (.datetime z) b)
  | .time z, b => (match b with
      | .time z' => if fl.tz then pyAssert (z == z') else .ok ()
      | b => baseCase (.time z) b)
  | .timedelta u, b => (match b with
      | .timedelta u' => if fl.timedeltaUnit then pyAssert (u == u') else .ok ()
      | b => baseCase (.timedelta u) b)
  | .units u t, b => (match b with
      | .units u' _ => do
        pyAssert (u == u')
        .error .attributeError        -- `path.append` on a tuple, line 157
      | b => baseCase (.units u t) b)
  | .string n e, b => (match b with
      | .string n' e' => do
        if fl.strEncoding then pyAssert (e == e')
        if fl.strFixlen && n != n' then
          -- line 177: `'%d' % None` raises while the message is built
          if n.isNone || n'.isNone then .error .typeError else .error .assertion
        else .ok ()
      | b => baseCase (.string n e) b)
  | .option t, b => (match b with
      | .option t' => assertEq fl t t'
      | b => baseCase (.option t) b)
  | .record fs, b => (match b with
      | .record gs => do
        pyAssert (fs.length == gs.length)
        let fns := assertF fl fs
        if fl.recordOrder then runFields fns gs else runFields (sortFields fns) (sortFields gs)
      | b => baseCase (.record fs) b)
  | .tuple ts, b => (match b with
      | .tuple us => do
        pyAssert (ts.length == us.length)
        assertL fl ts us
      | b => baseCase (.tuple ts) b)
  | .func ps, b => (match b with
      | .func qs => do
        pyAssert (ps.length == qs.length)
        assertL fl ps qs
      | b => baseCase (.func ps) b)
  | a, b => checkSlots a b
termination_by structural a => a
/-- the measures: util/testing.py:92-99 -/
def assertLast (fl : Flags) : (ps : List Ty) → Option Ty → Except PyErr Unit
  | [], _ => .error .indexError
  | p :: r, m => (match r with
    | [] => (match m with
      | some m => assertEq fl p m
      | none => .error .indexError)
    | _ :: _ => assertLast fl r m)
termination_by structural ps => ps
/-- the comparison functions of the fields -/
def assertF (fl : Flags) : (fs : List (Str × Ty)) → List (Str × (Ty → Except PyErr Unit))
  | [] => []
  | (n, t) :: r => (n, fun b => assertEq fl t b) :: assertF fl r
termination_by structural fs => fs
/-- util/testing.py:234-240, 252-263: two lists of the same length, element by element -/
def assertL (fl : Flags) : (l : List Ty) → List Ty → Except PyErr Unit
  | [], _ => .ok ()
  | a :: r, l => (match l with
    | [] => .ok ()
    | b :: s => do
      assertEq fl a b
      assertL fl r s)
termination_by structural l => l
end

end DS
