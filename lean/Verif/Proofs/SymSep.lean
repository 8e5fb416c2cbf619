import Verif.Proofs.Complete
import Verif.Proofs.SymTab
import Verif.Proofs.AtEnd

/-
The default symbol table separates names of types, of dimensions and keywords (`Sym.Sep`).
-/
namespace DS

theorem bindArgs_kw {names : List Str} {args : List Arg} {kw : List (Str × Arg)} {l : List (Option Arg)}
    (h : bindArgs names args kw = .ok l) : ∀ p ∈ kw, p.1 ∈ names := by
  unfold bindArgs at h
  split at h
  · cases h
  · simp only at h
    split at h
    · cases h
    · rename_i hk
      intro p hp
      simp only [List.any_eq_true, not_exists, not_and] at hk
      have := hk p hp
      simp at this
      exact List.mem_of_mem_drop this

/-- the keyword names of all constructors -/
def allKeywords : List Str :=
  [py"tp", py"names", py"dshapes", py"args", py"ret", py"name", py"ds", py"key", py"value", py"tz", py"unit",
   py"precision", py"scale", py"categories", py"type", py"ordered"]

theorem constr_kw (env : Env) (nest : Str → Except PyErr Ty) (disc : List Lit → Except PyErr Ty) :
    ∀ n c, (defaultSym env nest disc).dtypeConstr n = some c → ∀ args kw t, c args kw = .ok t →
      ∀ p ∈ kw, p.1 ∈ allKeywords := by
  have key : ∀ {names : List Str} {args kw t} {f : List (Option Arg) → Except PyErr Ty}, (∀ n ∈ names, n ∈ allKeywords) →
      (bindArgs names args kw >>= f) = .ok t → ∀ p ∈ kw, p.1 ∈ allKeywords := by
    intro names args kw t f hn h p hp
    rw [bind_ok] at h
    obtain ⟨l, hl, _⟩ := h
    exact hn _ (bindArgs_kw hl p hp)
  apply forall_constr
  · intro args kw t h; exact key (by decide) h
  · intro args kw t h p hp
    unfold cString at h
    cases kw with
    | nil => cases hp
    | cons a kw => simp at h
  all_goals (intro args kw t h; exact key (by decide) h)

theorem defaultSym_sep (env : Env) (nest : Str → Except PyErr Ty) (disc : List Lit → Except PyErr Ty) :
    (defaultSym env nest disc).Sep where
  disjoint n t h := by
    have h' : dtypeTable.lookup n = some t := h
    show dimTable.lookup n = none
    have := lookup_mem h'
    have hd : ∀ p ∈ dtypeTable, dimTable.lookup p.1 = none := by
      simp only [dtypeTable, List.forall_mem_cons]; simp [dimTable, List.lookup]
    exact hd _ this
  kw n c args kw t hc ht p hp := by
    have := constr_kw env nest disc n c hc args kw t ht p hp
    have hd : ∀ n ∈ allKeywords, dtypeTable.lookup n = none ∧ dimTable.lookup n = none := by
      simp only [allKeywords, List.forall_mem_cons]; simp [dimTable, dtypeTable, List.lookup]
    exact hd _ this

end DS
