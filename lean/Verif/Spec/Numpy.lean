import Verif.Model.Numpy
import Verif.Spec.TimeUnits

/-
Specification for C21: what is left of a NumPy dtype after it has been through a datashape and back.
-/
namespace DS

/-- the units of dates: days and everything coarser -/
def dateUnits : List Str := [py"D", py"Y", py"M", py"W"]

mutual
/-- `Kept d e`: a dtype `d` that goes through `from_numpy` and `to_numpy` comes back as `e`. -/
inductive Kept : DType → DType → Prop where
  /-- the sixteen dtypes with a fixed name are kept -/
  | prim (p : Prim) : Kept (.prim p) (.prim p)
  /-- dates end up with a resolution of days -/
  | date {u : Str} : u ∈ dateUnits → Kept (.datetime u) (.datetime (py"D"))
  /-- points in time end up with a resolution of microseconds -/
  | datetime {u : Str} : u ∉ dateUnits → Kept (.datetime u) (.datetime (py"us"))
  /-- time deltas keep their unit (`v = u` for every unit of NumPy that datashape knows) -/
  | timedelta {u v : Str} : SpellsUnit u v → Kept (.timedelta u) (.timedelta v)
  /-- fixed-length strings are kept … -/
  | bytes (n : Nat) : Kept (.bytes (n + 1)) (.bytes (n + 1))
  | str (n : Nat) : Kept (.str (n + 1)) (.str (n + 1))
  /-- … except those of length zero, which become objects -/
  | bytes0 : Kept (.bytes 0) (.prim .object)
  | str0 : Kept (.str 0) (.prim .object)
  /-- the structured dtype without fields becomes `void` -/
  | empty : Kept (.struct []) (.prim .void)
  /-- other structured dtypes keep their field names; the shapes of sub-array fields are lost -/
  | struct {fs gs : List (Str × List Nat × DType)} : fs ≠ [] → KeptFields fs gs → Kept (.struct fs) (.struct gs)
/-- the fields one by one -/
inductive KeptFields : List (Str × List Nat × DType) → List (Str × List Nat × DType) → Prop where
  | nil : KeptFields [] []
  | cons {n : Str} {sh : List Nat} {d e : DType} {fs gs : List (Str × List Nat × DType)} :
      Kept d e → KeptFields fs gs → KeptFields ((n, sh, d) :: fs) ((n, [], e) :: gs)
end

mutual
/-- Field names of structured dtypes are non-empty and distinct, which NumPy guarantees. -/
inductive NpNamed : DType → Prop where
  | prim (p : Prim) : NpNamed (.prim p)
  | datetime (u : Str) : NpNamed (.datetime u)
  | timedelta (u : Str) : NpNamed (.timedelta u)
  | bytes (n : Nat) : NpNamed (.bytes n)
  | str (n : Nat) : NpNamed (.str n)
  | struct {fs : List (Str × List Nat × DType)} : (fs.map (·.1)).Nodup → NpNamedFields fs → NpNamed (.struct fs)
inductive NpNamedFields : List (Str × List Nat × DType) → Prop where
  | nil : NpNamedFields []
  | cons {n : Str} {sh : List Nat} {d : DType} {fs : List (Str × List Nat × DType)} :
      n ≠ [] → NpNamed d → NpNamedFields fs → NpNamedFields ((n, sh, d) :: fs)
end

end DS
