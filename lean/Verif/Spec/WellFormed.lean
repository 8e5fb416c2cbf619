import Verif.Spec.Subterms
import Verif.Model.Ctor
import Verif.Spec.Position

/-
Specification vocabulary: which datashapes the constructors of coretypes.py can build.
-/
namespace DS

/-- local condition under which `==` behaves: not a `TypeSet`; a `DataShape` is non-empty and its
measure is not a `Fixed` (both guaranteed by the `DataShape` constructor, coretypes.py:541-561). -/
def eqLocal : Ty → Bool
  | .typeset .. => false
  | .dshape ps => match ps.getLast? with
    | none => false
    | some (.fixed _) => false
    | some _ => true
  | _ => true

/-- The four canonical string encodings (docs of `String`, coretypes.py:371-381). -/
def canonicalEncodings : List Str := [py"A", py"U8", py"U16", py"U32"]


/-- `s` is a legal name of a type variable: its first character is upper case -/
def upperName (env : Env) : Str → Bool
  | [] => false
  | c :: _ => env.isUpper c

/-- a dimension: a fixed length, `var`, a type variable or an ellipsis -/
def Ty.isDim : Ty → Bool
  | .fixed _ | .var | .typevar _ | .ellipsis _ => true
  | _ => false

/-- What the parser guarantees about each node of its output (property C10):
dimensions in front, a measure last; canonical encodings and time units; distinct field names;
nothing redundantly wrapped. -/
def localOk (env : Env) : Ty → Bool
  | .dshape ps =>
      !ps.isEmpty &&
      ps.dropLast.all Ty.isDim &&
      ps.getLast?.all Ty.endsOk &&
      ps.all (fun p => !p.isDShape)
  | .string _ e => canonicalEncodings.contains e
  | .timedelta u => timeUnits.contains u
  | .typevar s => upperName env s
  | .ellipsis (some s) => upperName env s
  | .record fs => decide (fs.map (·.1)).Nodup && fs.all (fun f => !f.2.isSingleton)
  | .option t => !t.isSingleton
  | .map k v => !k.isSingleton && !v.isSingleton
  | .tuple ts => ts.all Ty.isDShape
  | .units _ t => t.isDShape
  | .func ps => !ps.isEmpty
  | .typeset .. => false
  | _ => true

/-- Every node satisfies `localOk`. -/
def WF (env : Env) (t : Ty) : Prop := t.everywhere (localOk env) = true

instance (env : Env) (t : Ty) : Decidable (WF env t) := inferInstanceAs (Decidable (_ = true))

theorem everywhere_mono {p q : Ty → Bool} (h : ∀ t, p t = true → q t = true) (t : Ty) :
    t.everywhere p = true → t.everywhere q = true := by
  rw [everywhere_iff, everywhere_iff]
  exact fun H s hs => h s (H s hs)

theorem localOk_eqLocal (env : Env) (t : Ty) (h : localOk env t = true) : eqLocal t = true := by
  cases t <;> simp_all [localOk, eqLocal]
  rename_i ps
  cases hl : ps.getLast? with
  | none => simp_all
  | some m => cases m <;> simp_all [Ty.endsOk]

theorem WF.eqOk {env : Env} {t : Ty} (h : WF env t) : t.everywhere eqLocal = true :=
  everywhere_mono (localOk_eqLocal env) t h

end DS
