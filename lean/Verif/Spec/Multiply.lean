import Verif.Spec.Build

/-
What `a * b` is built from.
-/
namespace DS

/-- the parts of a datashape: those of an array, and any other datashape itself -/
inductive PartsOf : Ty → List Ty → Prop where
  | array (ps : List Ty) : PartsOf (.dshape ps) ps
  | other {t : Ty} : (∀ ps, t ≠ .dshape ps) → PartsOf t [t]

/-- `Factors nest a b vs`: `a * b` is built from the values `vs`, the left operand and the parts of the right one. -/
inductive Factors (nest : Str → Except PyErr Ty) : PVal → PVal → List PVal → Prop where
  /-- anything times an array -/
  | array {a : PVal} {ps : List Ty} : Factors nest a (.ty (.dshape ps)) (a :: ps.map .ty)
  /-- anything but a text times a measure or dimension -/
  | element {a : PVal} {t : Ty} : (∀ s, a ≠ .str s) → (∀ ps, t ≠ .dshape ps) → Factors nest a (.ty t) [a, .ty t]
  /-- a datashape times a text -/
  | text {t d : Ty} {s : Str} {ps : List Ty} : nest s = .ok d → PartsOf d ps →
      Factors nest (.ty t) (.str s) (.ty t :: ps.map .ty)
  /-- a text times a measure or dimension: the operands are swapped -/
  | swapped {t d : Ty} {s : Str} {ps : List Ty} : (∀ ps, t ≠ .dshape ps) → nest s = .ok d → PartsOf d ps →
      Factors nest (.str s) (.ty t) (.ty t :: ps.map .ty)
  /-- a datashape times anything else -/
  | value {t : Ty} {b : PVal} : (∀ s, b ≠ .str s) → (∀ u, b ≠ .ty u) → Factors nest (.ty t) b [.ty t, b]

end DS
