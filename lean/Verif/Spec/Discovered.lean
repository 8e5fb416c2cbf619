import Verif.Model.Discovery
import Verif.Spec.Printable

/-
Specification vocabulary: the names that occur in a Python value.
-/
namespace DS

/-- `k` is the name of a field of the dtype, at any depth -/
inductive DType.Names : DType → Str → Prop where
  | field {fs n sh d} : (n, sh, d) ∈ fs → Names (.struct fs) n
  | inside {fs n sh d k} : (n, sh, d) ∈ fs → Names d k → Names (.struct fs) k

/-- the pairs of a dict, an `OrderedDict` or a mapping proxy -/
def PyObj.pairs? : PyObj → Option (List (Str × PyObj))
  | .dict l | .od l | .mp l => some l
  | _ => Option.none

/-- `k` is a key of a dict, or the name of a field of a structured array, that occurs in the value -/
inductive KeyIn : PyObj → Str → Prop where
  | item {kind l v k} : v ∈ l → KeyIn v k → KeyIn (.seq kind l) k
  | key {v l k x} : v.pairs? = some l → (k, x) ∈ l → KeyIn v k
  | value {v l k' x k} : v.pairs? = some l → (k', x) ∈ l → KeyIn x k → KeyIn v k
  | array {a k} : a.dtype.Names k → KeyIn (.array a) k
  | scalar {d k} : d.Names k → KeyIn (.npScalar d) k
  | arrayLike {sh d k} : d.Names k → KeyIn (.arrayLike sh d) k

end DS
