import Verif.Spec.StrDiscovery

/-
Specification vocabulary for C56: values built uniformly, and their datashape.
-/
namespace DS

/-- `Uniform E v t`: `v` is built uniformly, and its datashape is `t`. The scalars are `int`, `float`, `bool`, dates,
times and strings that do not look like something else; all items of a list or tuple have the same datashape; a dict
has distinct keys, and its datashape is the record of its entries, in the order of the keys. -/
inductive Uniform (E : StrEnv) : PyObj → Ty → Prop where
  | int : Uniform E .int tInt64
  | float : Uniform E .float tFloat64
  | bool : Uniform E .bool tBool
  | date : Uniform E .date .date
  | time : Uniform E .time (.time none)
  | datetime : Uniform E .datetime (.datetime none)
  | str {s : Str} : s ≠ [] → Understood E s tString → Uniform E (.str s) tString
  /-- a list or tuple of things that are not arrays -/
  | items {kind : SeqKind} {l : List PyObj} {t : Ty} : kind ≠ .set → l ≠ [] → t.isDShape = false →
      (∀ v ∈ l, Uniform E v t) → Uniform E (.seq kind l) (.dshape [.fixed l.length, t])
  /-- a list or tuple of arrays -/
  | rows {kind : SeqKind} {l : List PyObj} {ps : List Ty} : kind ≠ .set → l ≠ [] →
      (∀ v ∈ l, Uniform E v (.dshape ps)) → Uniform E (.seq kind l) (.dshape (.fixed l.length :: ps))
  /-- a dict -/
  | dict {d : List (Str × PyObj)} {fs : List (Str × Ty)} : (d.map (·.1)).Nodup → (fs.map (·.1)).Pairwise (· < ·) →
      (∀ k, k ∈ fs.map (·.1) ↔ k ∈ d.map (·.1)) → (∀ k v t, (k, v) ∈ d → (k, t) ∈ fs → Uniform E v t) →
      Uniform E (.dict d) (.record fs)

end DS
