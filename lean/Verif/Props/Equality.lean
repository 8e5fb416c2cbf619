import Verif.Proofs.Equality
import Verif.Proofs.Same

/-
C08 (equality is an equivalence relation) and C09 (equal datashapes have equal hashes).

`a.everywhere eqLocal` says that `a` contains no `TypeSet` and that every `DataShape` inside it is non-empty
and does not end in a fixed dimension, as the constructor guarantees.
-/
namespace DS.C08

/-- `==` says that two datashapes are the same type: same dimensions and same measure, where measures are the
same iff they have the same class and the same parameters (see `Spec/Same.lean`). -/
theorem eq_iff_same (a b : Ty) (ha : a.everywhere eqLocal = true) (hb : b.everywhere eqLocal = true) :
    pyEq a b = true ↔ Same a b := pyEq_same ha hb

/-- `==` is reflexive. -/
theorem eq_refl (a : Ty) (ha : a.everywhere eqLocal = true) : pyEq a a = true := pyEq_refl ha

/-- `==` is symmetric: both directions always give the same answer. -/
theorem eq_symm (a b : Ty) (ha : a.everywhere eqLocal = true) (hb : b.everywhere eqLocal = true) :
    pyEq a b = pyEq b a := by
  rw [Bool.eq_iff_iff]
  exact ⟨pyEq_symm ha hb, pyEq_symm hb ha⟩

/-- `==` is transitive. -/
theorem eq_trans (a b c : Ty) (ha : a.everywhere eqLocal = true) (hb : b.everywhere eqLocal = true)
    (hc : c.everywhere eqLocal = true) (hab : pyEq a b = true) (hbc : pyEq b c = true) :
    pyEq a c = true := pyEq_trans ha hb hc hab hbc

/-- A one-element `DataShape` equals its measure, exactly when the measure has no shape of its own; the only
measures with a shape of their own are options of arrays. -/
theorem singleton_eq_measure (t : Ty) (ht : t.everywhere eqLocal = true) (hd : t.isDShape = false)
    (hf : ∀ n, t ≠ .fixed n) :
    pyEq (.dshape [t]) t = true ↔ t.shape = [] := by
  have hself : eqM t false t = true := by
    have := pyEq_refl ht
    by_cases h2 : ∀ o n, t ≠ .typeset o n
    · rw [pyEq_code t t hf h2] at this
      have hm : t.measure = t := by cases t <;> simp_all [Ty.measure, Ty.isDShape]
      rw [hm] at this
      simp at this; exact this.2
    · exfalso; apply h2; intro o n h
      have := everywhere_self ht
      subst h; simp [eqLocal] at this
  have hm : t.measure = t := by cases t <;> simp_all [Ty.measure, Ty.isDShape]
  simp only [pyEq, eqM, eqInit, eqLast, hm, hself, Bool.and_true, List.isEmpty_iff]

/-- Options whose content is an array are not equal to their one-element `DataShape`. -/
theorem option_of_array_witness :
    pyEq (.dshape [.option (.dshape [.fixed 3, tInt32])]) (.option (.dshape [.fixed 3, tInt32])) = false := by
  decide

/-- Two arrays are equal iff they have the same number of dimensions, pairwise equal dimensions and
equal measures (for measures that are scalars, records, tuples, ..., but not arrays or options of arrays). -/
theorem dshape_eq_iff (ds es : List Ty) (m n : Ty) (hm : View m [] m) (hn : View n [] n)
    (ha : (Ty.dshape (ds ++ [m])).everywhere eqLocal = true)
    (hb : (Ty.dshape (es ++ [n])).everywhere eqLocal = true) :
    pyEq (.dshape (ds ++ [m])) (.dshape (es ++ [n])) = true ↔
      (ds.length = es.length ∧ (∀ p ∈ ds.zip es, pyEq p.1 p.2 = true) ∧ pyEq m n = true) := by
  have key : pyEq m n = true ↔ SameMeasure m n := by
    rw [pyEq_same (everywhere_child ha (by simp [Ty.children])) (everywhere_child hb (by simp [Ty.children]))]
    constructor
    · rintro ⟨va, vb, h, h', h''⟩
      obtain ⟨rfl, rfl⟩ := view_det va
      obtain ⟨rfl, rfl⟩ := view_det vb
      rwa [← (view_det hm).2, ← (view_det hn).2] at h''
    · exact fun h => .mk hm hn rfl (by simp) h
  rw [key, pyEq_same ha hb]
  constructor
  · rintro ⟨va, vb, h, h', h''⟩
    obtain ⟨rfl, rfl⟩ := view_det va
    obtain ⟨rfl, rfl⟩ := view_det vb
    simp only [Ty.shape, Ty.measure, List.dropLast_concat, List.getLast?_concat, Option.getD_some] at h h' h''
    refine ⟨h, fun p hp => ?_, h''⟩
    have := List.of_mem_zip hp
    exact (pyEq_same (everywhere_child ha (by simp [Ty.children, this.1]))
      (everywhere_child hb (by simp [Ty.children, this.2]))).2 (h' p hp)
  · rintro ⟨h, h', h''⟩
    refine .mk (.array ds m) (.array es n) h (fun p hp => ?_) h''
    have := List.of_mem_zip hp
    exact (pyEq_same (everywhere_child ha (by simp [Ty.children, this.1]))
      (everywhere_child hb (by simp [Ty.children, this.2]))).1 (h' p hp)

/-- Non-vacuity of the hypotheses. -/
example : View (.record [(py"x", tInt32)]) [] (.record [(py"x", tInt32)]) ∧
    (Ty.dshape ([.fixed 3, .var] ++ [.record [(py"x", tInt32)]])).everywhere eqLocal = true :=
  ⟨.scalar _ (by simp) (by simp), by decide⟩

/-- With a `TypeSet`, `==` is not symmetric: `DataShape(ts) == ts` but not `ts == DataShape(ts)`. -/
theorem typeset_asymmetric :
    pyEq (.dshape [.typeset [tInt32] none]) (.typeset [tInt32] none) = true ∧
    pyEq (.typeset [tInt32] none) (.dshape [.typeset [tInt32] none]) = false := by
  decide

/-- Different fixed dimensions, a missing dimension and swapped record fields are told apart. -/
theorem distinguishes :
    pyEq (.dshape [.fixed 3, tInt32]) (.dshape [.fixed 4, tInt32]) = false ∧
    pyEq (.dshape [.fixed 3, tInt32]) (.dshape [tInt32]) = false ∧
    pyEq (.record [(py"a", tInt32), (py"b", tBool)]) (.record [(py"b", tBool), (py"a", tInt32)]) = false := by
  decide

/-- Non-vacuity: a nested datashape satisfies the hypotheses, and equality is not just identity. -/
example : (Ty.dshape [.fixed 3, .var, .record [(py"x", .option tString), (py"y", .dshape [.fixed 2, tInt32])]]).everywhere
      eqLocal = true ∧
    pyEq (.dshape [tInt32]) tInt32 = true ∧ Ty.dshape [tInt32] ≠ tInt32 := by
  refine ⟨by decide, by decide, by simp [tInt32]⟩

end DS.C08

namespace DS.C09

/-- Equal datashapes have equal hashes, whatever the hash functions of the runtime are. -/
theorem eq_hash {H : Type} (E : HashEnv H) (a b : Ty) (ha : a.everywhere eqLocal = true)
    (hb : b.everywhere eqLocal = true) (h : pyEq a b = true) : pyHash E a = pyHash E b :=
  pyHash_of_free E ((pyEq_iff_free ha hb).1 h)

/-- Conversely, hashes of different datashapes can only collide because the runtime's hashes collide: with
collision-free underlying functions, equal hashes imply equal datashapes. -/
theorem hash_eq_of_free (a b : Ty) (ha : a.everywhere eqLocal = true)
    (hb : b.everywhere eqLocal = true) (h : pyHash freeHash a = pyHash freeHash b) : pyEq a b = true :=
  (pyEq_iff_free ha hb).2 h

/-- `Fixed(3) == 3` in Python (coretypes.py:848-850) although the hash of `Fixed(3)` is not the hash of `3`
(already with collision-free underlying hashes). -/
theorem fixed_int_hash_differs : pyHash freeHash (.fixed 3) ≠ freeHash.int 3 := by
  simp [pyHash, hashT, HT.scalar, HT.mk', freeHash]

/-- With a `TypeSet` the property fails: `DataShape(ts) == ts` but the hashes differ. -/
theorem typeset_hash_differs :
    pyEq (.dshape [.typeset [tInt32] none]) (.typeset [tInt32] none) = true ∧
    pyHash freeHash (.dshape [.typeset [tInt32] none]) ≠ pyHash freeHash (.typeset [tInt32] none) := by
  refine ⟨by decide, ?_⟩
  simp [pyHash, hashT, hashInit, HT.mk', freeHash]

/-- Non-vacuity: two different objects that are equal. -/
example : (Ty.dshape [.categorical [.int 1] tInt32 false]).everywhere eqLocal = true ∧
    pyEq (.dshape [.categorical [.int 1] tInt32 false]) (.categorical [.bool true] (.dshape [tInt32]) false) = true := by
  decide

end DS.C09
