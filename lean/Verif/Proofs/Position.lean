import Verif.Spec.Position

namespace DS

theorem mayPrecede_iff {t : Ty} : t.cls ≠ some .measure ↔ MayPrecede t := by
  constructor
  · intro h
    cases t <;> first | constructor | (simp [Ty.cls] at h)
  · intro h; cases h <;> simp [Ty.cls]

theorem mayEnd_iff {t : Ty} : t.cls ≠ some .dimension ↔ MayEnd t := by
  unfold MayEnd
  cases t <;> simp [Ty.cls]

theorem endsOk_cls (t : Ty) : t.endsOk = (t.cls != some .dimension) := by cases t <;> rfl

theorem endsOk_fun : Ty.endsOk = fun m => m.cls != some .dimension := funext endsOk_cls

theorem Constructible.cls {ps : List Ty} (h : Constructible ps) : ∃ dims m, ps = dims ++ [m] ∧
    (∀ d ∈ dims, d.cls ≠ some .measure) ∧ m.cls ≠ some .dimension ∧ ∀ p ∈ ps, p.isSingleton = false := by
  obtain ⟨dims, m, e, h1, h2, h3⟩ := h
  exact ⟨dims, m, e, fun d hd => mayPrecede_iff.2 (h1 d hd), mayEnd_iff.2 h2, h3⟩

theorem Constructible.of {ps : List Ty} (h : ∃ dims m, ps = dims ++ [m] ∧
    (∀ d ∈ dims, d.cls ≠ some .measure) ∧ m.cls ≠ some .dimension ∧ ∀ p ∈ ps, p.isSingleton = false) :
    Constructible ps := by
  obtain ⟨dims, m, e, h1, h2, h3⟩ := h
  exact ⟨dims, m, e, fun d hd => mayPrecede_iff.1 (h1 d hd), mayEnd_iff.1 h2, h3⟩

end DS
