import Verif.Model.Ty

/-
Specification vocabulary: sub-terms of a datashape.
-/
namespace DS

/-- The immediate components of a datashape that are datashapes themselves. -/
def Ty.children : Ty → List Ty
  | .units _ t => [t]
  | .option t => [t]
  | .map k v => [k, v]
  | .func ps => ps
  | .record fs => fs.map (·.2)
  | .tuple ts => ts
  | .categorical _ t _ => [t]
  | .typeset o _ => o
  | .dshape ps => ps
  | _ => []

/-- `Occurs s t`: `s` is `t` or occurs somewhere inside `t`, at any depth. -/
inductive Occurs : Ty → Ty → Prop where
  | refl (t : Ty) : Occurs t t
  | step {s c t : Ty} : c ∈ t.children → Occurs s c → Occurs s t

mutual
/-- `t.everywhere p`: `p` holds of `t` and of every datashape inside `t` (see `everywhere_iff`). -/
def Ty.everywhere (p : Ty → Bool) : Ty → Bool
  | .units u t => p (.units u t) && t.everywhere p
  | .option t => p (.option t) && t.everywhere p
  | .map k v => p (.map k v) && (k.everywhere p && v.everywhere p)
  | .func ps => p (.func ps) && everywhereL p ps
  | .record fs => p (.record fs) && everywhereF p fs
  | .tuple ts => p (.tuple ts) && everywhereL p ts
  | .categorical c t o => p (.categorical c t o) && t.everywhere p
  | .typeset o n => p (.typeset o n) && everywhereL p o
  | .dshape ps => p (.dshape ps) && everywhereL p ps
  | .ctype n i a => p (.ctype n i a)
  | .null => p .null
  | .date => p .date
  | .time z => p (.time z)
  | .datetime z => p (.datetime z)
  | .timedelta u => p (.timedelta u)
  | .bytes => p .bytes
  | .string f e => p (.string f e)
  | .decimal a s => p (.decimal a s)
  | .json => p .json
  | .fixed n => p (.fixed n)
  | .var => p .var
  | .typevar s => p (.typevar s)
  | .ellipsis s => p (.ellipsis s)
/-- list version -/
def everywhereL (p : Ty → Bool) : List Ty → Bool
  | [] => true
  | t :: r => t.everywhere p && everywhereL p r
/-- field-list version -/
def everywhereF (p : Ty → Bool) : List (Str × Ty) → Bool
  | [] => true
  | (_, t) :: r => t.everywhere p && everywhereF p r
end

theorem everywhereL_eq (p : Ty → Bool) (l : List Ty) :
    everywhereL p l = l.all (Ty.everywhere p) := by
  induction l with
  | nil => rfl
  | cons a l ih => simp [everywhereL, ih]

theorem everywhereF_eq (p : Ty → Bool) (l : List (Str × Ty)) :
    everywhereF p l = l.all (fun f => f.2.everywhere p) := by
  induction l with
  | nil => rfl
  | cons a l ih => obtain ⟨n, t⟩ := a; simp [everywhereF, ih]

theorem everywhere_children (p : Ty → Bool) (t : Ty) :
    t.everywhere p = (p t && t.children.all (Ty.everywhere p)) := by
  cases t <;> simp [Ty.everywhere, Ty.children, everywhereL_eq, everywhereF_eq, List.all_map,
    Function.comp_def]

theorem everywhere_self {p : Ty → Bool} {t : Ty} (h : t.everywhere p = true) : p t = true := by
  rw [everywhere_children] at h; simp at h; exact h.1

theorem everywhere_child {p : Ty → Bool} {t c : Ty} (h : t.everywhere p = true)
    (hc : c ∈ t.children) : c.everywhere p = true := by
  rw [everywhere_children] at h; simp at h; exact h.2 c hc

/-- Induction over children. -/
theorem Ty.ind_children {P : Ty → Prop} (h : ∀ t, (∀ c ∈ t.children, P c) → P t) : ∀ t, P t := by
  intro t
  induction t using Ty.ind <;> (apply h; simp_all [Ty.children]) <;> grind

/-- `everywhere` says exactly that every occurring datashape satisfies the predicate. -/
theorem everywhere_iff (p : Ty → Bool) (t : Ty) :
    t.everywhere p = true ↔ ∀ s, Occurs s t → p s = true := by
  constructor
  · intro h s hs
    induction hs with
    | refl => exact everywhere_self h
    | step hc _ ih => exact ih (everywhere_child h hc)
  · induction t using Ty.ind_children with
    | h t ih =>
      intro h
      rw [everywhere_children]
      simp only [Bool.and_eq_true, List.all_eq_true]
      exact ⟨h t (.refl t), fun c hc => ih c hc fun s hs => h s (.step hc hs)⟩

theorem Occurs.trans {a b c : Ty} (h₁ : Occurs a b) (h₂ : Occurs b c) : Occurs a c := by
  induction h₂ with
  | refl => exact h₁
  | step hc _ ih => exact .step hc ih

end DS
