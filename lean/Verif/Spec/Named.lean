import Verif.Model.Named

/-
Specification for C73: how a name shows in the text of a datashape.
-/
namespace DS

/-- the name of a datashape -/
def NTy.name : NTy → Str
  | .dshape n _ => n
  | _ => []

/-- it is a `DataShape` that may have a name -/
def NTy.isNamable : NTy → Bool
  | .dshape .. => true
  | _ => false

mutual
/-- No `DataShape` in it has a name. -/
def NTy.noNames : (t : NTy) → Bool
  | .leaf _ => true
  | .units _ t => t.noNames
  | .option t => t.noNames
  | .map k v => k.noNames && v.noNames
  | .func ps => noNamesL ps
  | .record fs => noNamesF fs
  | .tuple ts => noNamesL ts
  | .categorical _ t _ => t.noNames
  | .dshape n ps => n.isEmpty && noNamesL ps
termination_by structural t => t
/-- over a list -/
def noNamesL : (l : List NTy) → Bool
  | [] => true
  | t :: r => t.noNames && noNamesL r
termination_by structural l => l
/-- over fields -/
def noNamesF : (l : List (Str × NTy)) → Bool
  | [] => true
  | (_, t) :: r => t.noNames && noNamesF r
termination_by structural l => l
end

mutual
/-- The datashape with every `DataShape` that shows as its name replaced by a type variable of that name (which prints as
that name). With `full = true` the outermost names are not shown: those of the datashape itself, of the components of a
tuple or of the fields of a record that is the datashape or its measure, and so on; field types are always shown like
that. The content of `Units` is left out if it is `float64`, whatever its name. -/
def NTy.shown : (t : NTy) → (full : Bool) → Ty
  | .leaf t, _ => t
  | .units u t, _ => .units u (if pyEq t.erase (.dshape [tFloat64]) then t.erase else t.shown false)
  | .option t, _ => .option (t.shown false)
  | .map k v, _ => .map (k.shown false) (v.shown false)
  | .func ps, _ => .func (shownL ps false)
  | .record fs, _ => .record (shownF fs)
  | .tuple ts, full => .tuple (shownL ts full)
  | .categorical c t o, _ => .categorical c (t.shown false) o
  | .dshape n ps, false => if n = [] then .dshape (shownL ps false) else .typevar n
  | .dshape _ ps, true => .dshape (shownDS ps)
termination_by structural t => t
/-- over a list -/
def shownL : (l : List NTy) → (full : Bool) → List Ty
  | [], _ => []
  | t :: r, full => t.shown full :: shownL r full
termination_by structural l => l
/-- over fields -/
def shownF : (l : List (Str × NTy)) → List (Str × Ty)
  | [] => []
  | (n, t) :: r => (n, t.shown true) :: shownF r
termination_by structural l => l
/-- the dimensions, and the measure -/
def shownDS : (l : List NTy) → List Ty
  | [] => []
  | [t] => [t.shown (!t.isNamable)]
  | t :: u :: r => t.shown false :: shownDS (u :: r)
termination_by structural l => l
end

end DS
