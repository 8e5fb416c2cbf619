import Verif.Model.Discovery

/-
Specification for C77: how large a datashape is.
-/
namespace DS

mutual
/-- the number of parts of a datashape: its dimensions, records, tuples, mappings, scalar types and so on; `?` is not
counted, and neither is the `DataShape` around its parameters -/
def Ty.bulk : (t : Ty) → Nat
  | .units _ t => 1 + t.bulk
  | .option t => t.bulk
  | .map k v => 1 + k.bulk + v.bulk
  | .func ps => 1 + bulkL ps
  | .record fs => 1 + bulkF fs
  | .tuple ts => 1 + bulkL ts
  | .categorical _ t _ => 1 + t.bulk
  | .typeset o _ => 1 + bulkL o
  | .dshape ps => max 1 (bulkL ps)
  | _ => 1
termination_by structural t => t
/-- over a list -/
def bulkL : (l : List Ty) → Nat
  | [] => 0
  | t :: r => t.bulk + bulkL r
termination_by structural l => l
/-- over fields -/
def bulkF : (l : List (Str × Ty)) → Nat
  | [] => 0
  | (_, t) :: r => t.bulk + bulkF r
termination_by structural l => l
end

mutual
/-- the parts of a value that are neither sequences nor mappings -/
def PyObj.leaves : (v : PyObj) → List PyObj
  | .seq _ l => leavesL l
  | .dict l => leavesE l
  | .od l => leavesE l
  | .mp l => leavesE l
  | v => [v]
termination_by structural v => v
/-- over the elements of a sequence -/
def leavesL : (l : List PyObj) → List PyObj
  | [] => []
  | v :: r => v.leaves ++ leavesL r
termination_by structural l => l
/-- over the values of a mapping -/
def leavesE : (l : List (Str × PyObj)) → List PyObj
  | [] => []
  | (_, v) :: r => v.leaves ++ leavesE r
termination_by structural l => l
end

mutual
/-- the number of sequences and mappings in a value, itself included -/
def PyObj.containers : (v : PyObj) → Nat
  | .seq _ l => 1 + containersL l
  | .dict l => 1 + containersE l
  | .od l => 1 + containersE l
  | .mp l => 1 + containersE l
  | _ => 0
termination_by structural v => v
/-- over the elements of a sequence -/
def containersL : (l : List PyObj) → Nat
  | [] => 0
  | v :: r => v.containers + containersL r
termination_by structural l => l
/-- over the values of a mapping -/
def containersE : (l : List (Str × PyObj)) → Nat
  | [] => 0
  | (_, v) :: r => v.containers + containersE r
termination_by structural l => l
end

/-- the size of a result, where an exception has none -/
def resBulk : Except PyErr Ty → Nat
  | .ok t => t.bulk
  | .error _ => 0

mutual
/-- the number of parts of a NumPy dtype: the dtypes of the fields with their dimensions, and the dtype itself -/
def DType.parts : (d : DType) → Nat
  | .struct l => 1 + partsF l
  | _ => 1
termination_by structural d => d
/-- over the fields -/
def partsF : (l : List (Str × List Nat × DType)) → Nat
  | [] => 0
  | (_, sh, d) :: r => sh.length + d.parts + partsF r
termination_by structural l => l
end

/-- the number of parts of the type of a value without parts; arrays have their dimensions and the parts of their dtype -/
def PyObj.leafParts : (v : PyObj) → Nat
  | .array a => a.shape.length + a.dtype.parts
  | .npScalar d => d.parts
  | .arrayLike sh d => sh.length + d.parts
  | _ => 1

end DS
