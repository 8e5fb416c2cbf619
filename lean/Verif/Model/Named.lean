import Verif.Model.Util
import Verif.Model.Repr

/-
`DataShape(…, name=…)`: datashapes in which some of the `DataShape`s carry a name. (What the name does to the registry is
in `Model/Registry.lean`.) `==` and `hash` look at the class, the parameters and the shape only (coretypes.py:86-102), so
they are those of the datashape without the names, `NTy.erase`.
-/
namespace DS

/-- A datashape whose `DataShape`s may have names. `leaf t` is a datashape without a name in it. The name `[]` is no name:
`name=None` and `name=''` have the same effect everywhere (coretypes.py:563-566, 574-575). -/
inductive NTy where
  | leaf (t : Ty)
  | units (u : Str) (t : NTy)
  | option (t : NTy)
  | map (k v : NTy)
  | func (ps : List NTy)
  | record (fs : List (Str × NTy))
  | tuple (ts : List NTy)
  | categorical (c : List Lit) (t : NTy) (o : Bool)
  | dshape (name : Str) (ps : List NTy)

mutual
/-- The datashape without the names: what all code other than `DataShape.__str__` (coretypes.py:574-575) sees. -/
def NTy.erase : (t : NTy) → Ty
  | .leaf t => t
  | .units u t => .units u t.erase
  | .option t => .option t.erase
  | .map k v => .map k.erase v.erase
  | .func ps => .func (eraseL ps)
  | .record fs => .record (eraseF fs)
  | .tuple ts => .tuple (eraseL ts)
  | .categorical c t o => .categorical c t.erase o
  | .dshape _ ps => .dshape (eraseL ps)
termination_by structural t => t
/-- over a list -/
def eraseL : (l : List NTy) → List Ty
  | [] => []
  | t :: r => t.erase :: eraseL r
termination_by structural l => l
/-- over fields -/
def eraseF : (l : List (Str × NTy)) → List (Str × Ty)
  | [] => []
  | (n, t) :: r => (n, t.erase) :: eraseF r
termination_by structural l => l
end

mutual
/-- `renderN env t none` is `str(t)`, `renderN env t (some w)` is `pprint(t, w)`, with names: coretypes.py:574-575 for
`DataShape`, the rest as in `render`. -/
def renderN (env : Env) : (t : NTy) → Option Int → Str
  | .leaf t, w => render env t w
  | .units u t, _ =>
    if pyEq t.erase (.dshape [tFloat64]) then py"units[" ++ pyRepr env u ++ py"]"
    else py"units[" ++ pyRepr env u ++ py", " ++ renderN env t none ++ py"]"
  | .option t, _ => py"?" ++ renderN env t none
  | .map k v, _ => py"map[" ++ renderN env k none ++ py", " ++ renderN env v none ++ py"]"
  | .func ps, _ => py"(" ++ join (py", ") (renderNInit env ps) ++ py") -> " ++ renderNLast env ps
  | .record fs, w => layout 123 125 [] (renderNF env fs (w.getD 80)) (w.getD 80)
  | .tuple ts, none => py"(" ++ join (py", ") (renderNL env ts none) ++ py")"
  | .tuple ts, some w => layout 40 41 [] (renderNL env ts (some w)) w
  | .categorical c t o, _ => py"categorical[" ++ formatCategories env c ++ py", type=" ++
      renderN env t none ++ py", ordered=" ++ boolStr o ++ py"]"
  | .dshape n ps, none => if n.isEmpty then join (py" * ") (renderNL env ps none) else n
  | .dshape _ ps, some w => renderNDS env ps (dimPrefix (renderNInit env ps)) w
termination_by structural t => t
/-- every element printed with the same option -/
def renderNL (env : Env) : (l : List NTy) → Option Int → List Str
  | [], _ => []
  | t :: r, w => renderN env t w :: renderNL env r w
termination_by structural l => l
/-- `str` of all elements but the last -/
def renderNInit (env : Env) : (l : List NTy) → List Str
  | [] => []
  | [_] => []
  | t :: u :: r => renderN env t none :: renderNInit env (u :: r)
termination_by structural l => l
/-- `str` of the last element -/
def renderNLast (env : Env) : (l : List NTy) → Str
  | [] => []
  | [t] => renderN env t none
  | _ :: u :: r => renderNLast env (u :: r)
termination_by structural l => l
/-- The part of `pprint` after the dimensions: coretypes.py:1420-1446. -/
def renderNDS (env : Env) : (l : List NTy) → Str → Int → Str
  | [], result, _ => result
  | [.leaf t], result, w => renderDS env [t] result w
  | [.record fs], result, w => layout 123 125 result (renderNF env fs (w - result.length)) w
  | [.tuple ts], result, w => layout 40 41 result (renderNL env ts (some (w - result.length))) w
  | [t], result, _ => result ++ renderN env t none
  | _ :: u :: r, result, w => renderNDS env (u :: r) result w
termination_by structural l => l
/-- the `name: type` pairs of a record: coretypes.py:1423-1426 -/
def renderNF (env : Env) : (l : List (Str × NTy)) → Int → List Str
  | [], _ => []
  | (n, t) :: r, w =>
    (fieldName env n ++ py": " ++ renderN env t (some (w - n.length))) :: renderNF env r w
termination_by structural l => l
end

/-- `repr(ds)` of a `DataShape`: coretypes.py:577-582 -/
def reprN (env : Env) (t : NTy) : Str := quoteDshape (renderN env t (some 80))

/-- the parameters of a `DataShape`: coretypes.py:79-84 -/
def NTy.parameters? : NTy → Option (List NTy)
  | .dshape _ ps => some ps
  | .leaf (.dshape ps) => some (ps.map .leaf)
  | _ => none

/-- `_launder(x)` for a datashape: coretypes.py:931-936; the name of a `DataShape` of one element goes with it -/
def launderN (t : NTy) : NTy :=
  match t.parameters? with
  | some [x] => x
  | _ => t

/-- `DataShape(*params, name=n)` for datashape parameters: coretypes.py:542-566 -/
def mkNamed (n : Str) (ps : List NTy) : Except PyErr NTy :=
  match checkDS ((ps.map launderN).map NTy.erase) with
  | .ok _ => .ok (.dshape n (ps.map launderN))
  | .error e => .error e

/-- `Option(ds)`: coretypes.py:729-730 -/
def optionN (t : NTy) : NTy := .option (launderN t)

/-- `i * ds` of a `DataShape`: coretypes.py:610-613; the new one has no name -/
def timesN (i : Int) (ps : List NTy) : Except PyErr NTy :=
  match mkFixed i with
  | .ok d => mkNamed [] (.leaf d :: ps)
  | .error e => .error e

/-- `ds.subarray(k)` of a `DataShape`: coretypes.py:592-608; always a new one, without a name -/
def subarrayN (ps : List NTy) (k : Int) : Except PyErr NTy :=
  if k ≥ ps.length then .error .indexError
  else if k = ps.length - 1 ∨ k = -1 then
    (match ps.getLast? with | none => .error .indexError | some m => mkNamed [] [m])
  else mkNamed [] (pyDrop ps k)

mutual
/-- `pickle.loads(pickle.dumps(t))`: coretypes.py:162-170, and 712-715 for `DataShape`, which sets the name to `None`. -/
def pickleN : (t : NTy) → NTy
  | .leaf t => .leaf t
  | .units u t => .units u (pickleN t)
  | .option t => .option (pickleN t)
  | .map k v => .map (pickleN k) (pickleN v)
  | .func ps => .func (pickleNL ps)
  | .record fs => .record (pickleNF fs)
  | .tuple ts => .tuple (pickleNL ts)
  | .categorical c t o => .categorical c (pickleN t) o
  | .dshape _ ps => .dshape [] (pickleNL ps)
termination_by structural t => t
/-- over a list -/
def pickleNL : (l : List NTy) → List NTy
  | [] => []
  | t :: r => pickleN t :: pickleNL r
termination_by structural l => l
/-- over fields -/
def pickleNF : (l : List (Str × NTy)) → List (Str × NTy)
  | [] => []
  | (n, t) :: r => (n, pickleN t) :: pickleNF r
termination_by structural l => l
end

end DS
