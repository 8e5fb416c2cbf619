import Verif.Model.Util
import Verif.Proofs.Position
import Verif.Proofs.Equality
import Verif.Proofs.SymTab

namespace DS

theorem launderTy_of_not_singleton {t : Ty} (h : t.isSingleton = false) : launderTy t = t := by
  unfold launderTy
  split
  · simp [Ty.isSingleton] at h
  · rfl

theorem launder_eq_self {t : Ty} (h : launderTy t = t) : t.isSingleton = false := by
  cases hs : t.isSingleton with
  | false => rfl
  | true =>
    unfold Ty.isSingleton at hs
    split at hs
    · rename_i t
      simp only [launderTy] at h
      have := congrArg sizeOf h
      simp at this; omega
    · cases hs

theorem checkDS_ok {ps : List Ty} {t : Ty} : checkDS ps = .ok t ↔
    ∃ dims m, ps = dims ++ [m] ∧ (∀ d ∈ dims, d.cls ≠ some .measure) ∧ m.cls ≠ some .dimension ∧ t = .dshape ps := by
  unfold checkDS
  constructor
  · intro h
    split at h
    · cases h
    · rename_i m hl
      split at h
      · cases h
      · rename_i h1
        split at h
        · cases h
        · rename_i h2
          cases h
          obtain ⟨dims, rfl⟩ := List.getLast?_eq_some_iff.1 hl
          refine ⟨dims, m, rfl, ?_, h1, rfl⟩
          simpa using h2
  · rintro ⟨dims, m, rfl, h1, h2, rfl⟩
    simp [h2]
    simpa using h1

theorem mkDS_self {ps : List Ty} : mkDS ps = .ok (.dshape ps) ↔ Constructible ps := by
  unfold mkDS
  rw [checkDS_ok]
  constructor
  · rintro ⟨dims, m, e, h1, h2, h3⟩
    have e' : ps = ps.map launderTy := by injection h3
    refine .of ⟨dims, m, e'.trans e, h1, h2, fun p hp => launder_eq_self ?_⟩
    have : ps.map launderTy = ps.map id := by rw [← e']; simp
    exact List.map_inj_left.1 this p hp
  · intro hc
    obtain ⟨dims, m, e, h1, h2, h3⟩ := hc.cls
    have : ps.map launderTy = ps := by
      conv => rhs; rw [← List.map_id ps]
      exact List.map_inj_left.2 fun p hp => launderTy_of_not_singleton (h3 p hp)
    exact ⟨dims, m, this.trans e, h1, h2, by rw [this]⟩

theorem Constructible.suffix {a b : List Ty} (h : Constructible (a ++ b)) (hb : b ≠ []) : Constructible b := by
  obtain ⟨dims, m, e, h1, h2, h3⟩ := h
  obtain ⟨c, n, rfl⟩ : ∃ c n, b = c ++ [n] := ⟨_, _, (List.dropLast_concat_getLast hb).symm⟩
  rw [← List.append_assoc] at e
  obtain ⟨e1, e2⟩ := List.append_inj' e rfl
  cases e2
  exact ⟨c, m, rfl, fun d hd => h1 d (by rw [← e1]; simp [hd]), h2, fun p hp => h3 p (List.mem_append_right _ hp)⟩

theorem Constructible.cons {d : Ty} {ps : List Ty} (h : Constructible ps) (hd : d.cls ≠ some .measure)
    (hs : d.isSingleton = false) : Constructible (d :: ps) := by
  obtain ⟨dims, m, e, h1, h2, h3⟩ := h.cls
  exact .of ⟨d :: dims, m, by simp [e], by simpa using ⟨hd, h1⟩, h2, by simpa using ⟨hs, h3⟩⟩

theorem Constructible.retop {k n : Nat} {ps : List Ty} (h : Constructible (.fixed k :: ps)) : Constructible (.fixed n :: ps) := by
  have hne : ps ≠ [] := by
    rintro rfl
    obtain ⟨a, m, e, _, h2, _⟩ := h.cls
    cases a <;> simp at e
    subst e; simp [Ty.cls] at h2
  exact (Constructible.suffix (a := [_]) h hne).cons (by simp [Ty.cls]) rfl

theorem Constructible.ne_nil {ps : List Ty} (h : Constructible ps) : ps ≠ [] := by
  obtain ⟨dims, m, rfl, _⟩ := h; simp

end DS
