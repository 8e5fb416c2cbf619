import Verif.Spec.Agree
import Verif.Props.Testing

/-
C38: what `assert_dshape_equal` decides, for all keyword arguments.
-/
namespace DS

theorem checkDims_get {l m : List Ty} : checkDims l m = .ok () ↔
    ∀ (i : Nat) d e, l[i]? = some d → m[i]? = some e → pyEq d e = true := by
  induction l generalizing m with
  | nil => simp [checkDims]
  | cons a l ih =>
    cases m with
    | nil => simp [checkDims]
    | cons b m =>
      rw [checkDims, seq_ok, pyAssert_ok, ih]
      constructor
      · rintro ⟨h1, h2⟩ i d e hd he
        cases i with
        | zero => simp at hd he; subst hd; subst he; exact h1
        | succ i => exact h2 i d e (by simpa using hd) (by simpa using he)
      · intro h
        exact ⟨h 0 a b rfl rfl, fun i d e hd he => h (i + 1) d e (by simpa using hd) (by simpa using he)⟩

theorem fieldsRel_get {R : Ty → Ty → Prop} {l m : List (Str × Ty)} : FieldsRel R l m ↔
    l.map (·.1) = m.map (·.1) ∧ ∀ (i : Nat) n t u, l[i]? = some (n, t) → m[i]? = some (n, u) → R t u := by
  induction l generalizing m with
  | nil =>
    cases m with
    | nil => simp [FieldsRel.nil]
    | cons => simp only [List.map_nil, List.map_cons]; constructor <;> intro h; cases h; simp at h
  | cons f l ih =>
    obtain ⟨n, t⟩ := f
    cases m with
    | nil => simp only [List.map_nil, List.map_cons]; constructor <;> intro h; cases h; simp at h
    | cons g m =>
      obtain ⟨k, u⟩ := g
      constructor
      · intro h
        cases h with
        | cons h1 h2 =>
          obtain ⟨h3, h4⟩ := ih.1 h2
          refine ⟨by simp [h3], fun i n' t' u' ht hu => ?_⟩
          cases i with
          | zero => simp at ht hu; obtain ⟨rfl, rfl⟩ := ht; obtain ⟨_, rfl⟩ := hu; exact h1
          | succ i => exact h4 i n' t' u' (by simpa using ht) (by simpa using hu)
      · rintro ⟨h1, h2⟩
        simp only [List.map_cons, List.cons.injEq] at h1
        obtain ⟨h0, h1⟩ := h1
        subst h0
        exact .cons (h2 0 n t u rfl rfl) (ih.2 ⟨h1, fun i n' t' u' ht hu => h2 (i + 1) n' t' u' (by simpa using ht) (by simpa using hu)⟩)

/-- two records agree, up to order -/
theorem record_any {R : Ty → Ty → Prop} {fs gs : List (Str × Ty)} (hf : (fs.map (·.1)).Nodup) (hg : (gs.map (·.1)).Nodup) :
    FieldsRel R (sortFields fs) (sortFields gs) ↔ ∃ hs, hs.Perm gs ∧ FieldsRel R fs hs := by
  constructor
  · intro h
    -- the fields of `gs` in the order of `fs`
    have key : ∀ (l m : List (Str × Ty)) (k : List (Str × Ty)), FieldsRel R l m → l.Perm k →
        ∃ hs, hs.Perm m ∧ FieldsRel R k hs := by
      intro l m k h hp
      induction hp generalizing m with
      | nil => exact ⟨m, .refl _, h⟩
      | cons x _ ih =>
        cases h with
        | cons h1 h2 =>
          obtain ⟨hs, h3, h4⟩ := ih _ h2
          exact ⟨_, .cons _ h3, .cons h1 h4⟩
      | swap x y l =>
        cases h with
        | cons h1 h2 =>
          cases h2 with
          | cons h3 h4 => exact ⟨_, .swap _ _ _, .cons h3 (.cons h1 h4)⟩
      | trans _ _ ih1 ih2 =>
        obtain ⟨hs, h3, h4⟩ := ih1 _ h
        obtain ⟨hs', h5, h6⟩ := ih2 _ h4
        exact ⟨hs', h5.trans h3, h6⟩
    obtain ⟨hs, h1, h2⟩ := key _ _ fs h (sortFields_perm fs)
    exact ⟨hs, h1.trans (sortFields_perm gs), h2⟩
  · rintro ⟨hs, hp, h⟩
    rw [← sortFields_eq_of_perm hp ((hp.map _).nodup_iff.2 hg)]
    exact h.sort

/-- classes that `assert_dshape_equal` does not open -/
theorem slots_iff {a b : Ty} (ho : a.klass.opened = false) : checkSlots a b = .ok () ↔ pyEq a b = true := by
  constructor
  · intro h
    apply slots_eq h
    intro hi h
    cases a <;> simp [Ty.klass, Klass.opened] at ho <;>
      cases b <;> simp_all [Ty.ctorIdx, eqM, Ty.noShape, Ty.shape, Ty.target, Ty.measure]
  · intro h
    unfold checkSlots
    split
    · rename_i hc
      simp only [Bool.and_eq_true, beq_iff_eq] at hc
      rw [pyAssert_ok]
      have h : eqM a true b = true := h
      cases a <;> simp [Ty.klass, Klass.opened] at ho <;>
        cases b <;> simp_all [Ty.ctorIdx, eqM, Ty.noShape, Ty.shape, Ty.target, Ty.measure]
    · exact pyAssert_ok.2 h

theorem base_iff (fl : Flags) {a b : Ty} (h : a.klass = b.klass → a.klass.opened = false) :
    assertEq fl a b = .ok () ↔ pyEq a b = true := by
  cases a with
  | dshape => cases b <;> first | (exact absurd (show true = false from h rfl) (by decide)) | (simp only [assertEq]; exact pyAssert_ok)
  | datetime => cases b <;> first | (exact absurd (show true = false from h rfl) (by decide)) | (simp only [assertEq]; exact pyAssert_ok)
  | time => cases b <;> first | (exact absurd (show true = false from h rfl) (by decide)) | (simp only [assertEq]; exact pyAssert_ok)
  | timedelta => cases b <;> first | (exact absurd (show true = false from h rfl) (by decide)) | (simp only [assertEq]; exact pyAssert_ok)
  | units => cases b <;> first | (exact absurd (show true = false from h rfl) (by decide)) | (simp only [assertEq]; exact pyAssert_ok)
  | string => cases b <;> first | (exact absurd (show true = false from h rfl) (by decide)) | (simp only [assertEq]; exact pyAssert_ok)
  | option => cases b <;> first | (exact absurd (show true = false from h rfl) (by decide)) | (simp only [assertEq]; exact pyAssert_ok)
  | record => cases b <;> first | (exact absurd (show true = false from h rfl) (by decide)) | (simp only [assertEq]; exact pyAssert_ok)
  | tuple => cases b <;> first | (exact absurd (show true = false from h rfl) (by decide)) | (simp only [assertEq]; exact pyAssert_ok)
  | func => cases b <;> first | (exact absurd (show true = false from h rfl) (by decide)) | (simp only [assertEq]; exact pyAssert_ok)
  | _ => simp only [assertEq]; exact slots_iff rfl

theorem other_iff {fl : Flags} {a b : Ty} (h : a.klass = b.klass → a.klass.opened = false) : Agree fl a b ↔ Same a b := by
  constructor
  · intro ha
    cases ha with
    | other _ h' => exact h'
    | _ => exact absurd (show true = false from h rfl) (by decide)
  · exact .other h

theorem lists_iff {R : Ty → Ty → Prop} {l m : List Ty} :
    (∀ (i : Nat) (h₁ : i < l.length) (h₂ : i < m.length), R l[i] m[i]) ↔
      ∀ (i : Nat) t u, l[i]? = some t → m[i]? = some u → R t u := by
  constructor
  · intro h i t u ht hu
    obtain ⟨h1, rfl⟩ := List.getElem?_eq_some_iff.1 ht
    obtain ⟨h2, rfl⟩ := List.getElem?_eq_some_iff.1 hu
    exact h i h1 h2
  · intro h i h1 h2
    exact h i _ _ (List.getElem?_eq_getElem h1) (List.getElem?_eq_getElem h2)

/-- the names of a record are distinct -/
def Ty.distinctNames : Ty → Bool
  | .record fs => decide (fs.map (·.1)).Nodup
  | _ => true

/-- **C38.** `assert_dshape_equal(a, b, **flags)` passes exactly when `a` and `b` agree as far as the flags ask, for all
flags, and all datashapes with distinct names in their records. -/
theorem C38.passes_iff (fl : Flags) (a b : Ty) (ha : a.everywhere eqLocal = true) (hb : b.everywhere eqLocal = true)
    (na : a.everywhere Ty.distinctNames = true) (nb : b.everywhere Ty.distinctNames = true) :
    assertEq fl a b = .ok () ↔ Agree fl a b := by
  induction a using Ty.ind generalizing b with
  | dshape ps ih =>
    cases b with
    | dshape qs =>
      have hca : ∀ p ∈ ps, p.everywhere eqLocal = true ∧ p.everywhere Ty.distinctNames = true := fun p hp =>
        ⟨everywhere_child ha (by simpa [Ty.children] using hp), everywhere_child na (by simpa [Ty.children] using hp)⟩
      have hcb : ∀ p ∈ qs, p.everywhere eqLocal = true ∧ p.everywhere Ty.distinctNames = true := fun p hp =>
        ⟨everywhere_child hb (by simpa [Ty.children] using hp), everywhere_child nb (by simpa [Ty.children] using hp)⟩
      have hd : (∀ (i : Nat) d e, ps.dropLast[i]? = some d → qs.dropLast[i]? = some e → pyEq d e = true) ↔
          ∀ (i : Nat) d e, ps.dropLast[i]? = some d → qs.dropLast[i]? = some e → Same d e := by
        have : ∀ (i : Nat) d e, ps.dropLast[i]? = some d → qs.dropLast[i]? = some e → (pyEq d e = true ↔ Same d e) :=
          fun i d e h1 h2 => C08.eq_iff_same d e (hca d (List.dropLast_subset ps (List.mem_of_getElem? h1))).1
            (hcb e (List.dropLast_subset qs (List.mem_of_getElem? h2))).1
        exact ⟨fun h i d e h1 h2 => (this i d e h1 h2).1 (h i d e h1 h2),
          fun h i d e h1 h2 => (this i d e h1 h2).2 (h i d e h1 h2)⟩
      rw [assertDS_ok, checkDims_get, hd]
      constructor
      · rintro ⟨h1, p, q, hp, hq, h2⟩
        have hpm := List.mem_of_getLast? hp
        have hqm := List.mem_of_getLast? hq
        have e : ∀ (l : List Ty) x, l.getLast? = some x → l = l.dropLast ++ [x] := by
          intro l x h
          have hne : l ≠ [] := fun e => by rw [e] at h; cases h
          rw [List.getLast?_eq_getLast hne] at h
          cases h
          exact (List.dropLast_concat_getLast hne).symm
        have e1 := e ps p hp
        have e2 := e qs q hq
        rw [e1, e2]
        exact .array h1 ((ih p hpm q (hca p hpm).1 (hcb q hqm).1 (hca p hpm).2 (hcb q hqm).2).1 h2)
      · intro h
        generalize e1 : Ty.dshape ps = x at h
        generalize e2 : Ty.dshape qs = y at h
        cases h with
        | @array ds es m n h1 h2 =>
          cases e1
          cases e2
          simp only [List.dropLast_concat, List.getLast?_append, List.getLast?_singleton, Option.or_some]
          exact ⟨h1, m, n, rfl, rfl, (ih m (by simp) n (hca m (by simp)).1 (hcb n (by simp)).1 (hca m (by simp)).2
            (hcb n (by simp)).2).2 h2⟩
        | other h1 _ => subst e1; subst e2; exact absurd (show true = false from h1 rfl) (by decide)
        | _ => cases e1
    | _ => rw [base_iff fl (fun h => by cases h), other_iff (fun h => by cases h), C08.eq_iff_same _ _ ha hb]
  | datetime z =>
    cases b with
    | datetime z' =>
      simp only [assertEq]
      constructor
      · intro h
        refine .datetime fun ht => ?_
        rw [if_pos ht, pyAssert_ok] at h
        simpa using h
      · intro h
        cases h with
        | datetime h => split <;> simp_all [pyAssert]
        | other h1 _ => exact absurd (show true = false from h1 rfl) (by decide)
    | _ => rw [base_iff fl (fun h => by cases h), other_iff (fun h => by cases h), C08.eq_iff_same _ _ ha hb]
  | time z =>
    cases b with
    | time z' =>
      simp only [assertEq]
      constructor
      · intro h
        refine .time fun ht => ?_
        rw [if_pos ht, pyAssert_ok] at h
        simpa using h
      · intro h
        cases h with
        | time h => split <;> simp_all [pyAssert]
        | other h1 _ => exact absurd (show true = false from h1 rfl) (by decide)
    | _ => rw [base_iff fl (fun h => by cases h), other_iff (fun h => by cases h), C08.eq_iff_same _ _ ha hb]
  | timedelta z =>
    cases b with
    | timedelta z' =>
      simp only [assertEq]
      constructor
      · intro h
        refine .timedelta fun ht => ?_
        rw [if_pos ht, pyAssert_ok] at h
        simpa using h
      · intro h
        cases h with
        | timedelta h => split <;> simp_all [pyAssert]
        | other h1 _ => exact absurd (show true = false from h1 rfl) (by decide)
    | _ => rw [base_iff fl (fun h => by cases h), other_iff (fun h => by cases h), C08.eq_iff_same _ _ ha hb]
  | units u t =>
    cases b with
    | units u' t' =>
      constructor
      · intro h; simp [assertEq, seq_ok] at h
      · intro h
        cases h with
        | other h1 _ => exact absurd (show true = false from h1 rfl) (by decide)
    | _ => rw [base_iff fl (fun h => by cases h), other_iff (fun h => by cases h), C08.eq_iff_same _ _ ha hb]
  | string n e =>
    cases b with
    | string n' e' =>
      rw [assertString_ok]
      constructor
      · rintro ⟨h1, h2⟩; exact .string h1 h2
      · intro h
        cases h with
        | string h1 h2 => exact ⟨h1, h2⟩
        | other h1 _ => exact absurd (show true = false from h1 rfl) (by decide)
    | _ => rw [base_iff fl (fun h => by cases h), other_iff (fun h => by cases h), C08.eq_iff_same _ _ ha hb]
  | option t ih =>
    cases b with
    | option t' =>
      simp only [assertEq]
      rw [ih t' (everywhere_child ha (by simp [Ty.children])) (everywhere_child hb (by simp [Ty.children]))
        (everywhere_child na (by simp [Ty.children])) (everywhere_child nb (by simp [Ty.children]))]
      constructor
      · exact .option
      · intro h
        cases h with
        | option h => exact h
        | other h1 _ => exact absurd (show true = false from h1 rfl) (by decide)
    | _ => rw [base_iff fl (fun h => by cases h), other_iff (fun h => by cases h), C08.eq_iff_same _ _ ha hb]
  | record fs ih =>
    cases b with
    | record gs =>
      have hca : ∀ f ∈ fs, f.2.everywhere eqLocal = true ∧ f.2.everywhere Ty.distinctNames = true := fun f hf =>
        ⟨everywhere_child ha (by simp [Ty.children]; exact ⟨f.1, hf⟩), everywhere_child na (by simp [Ty.children]; exact ⟨f.1, hf⟩)⟩
      have hcb : ∀ f ∈ gs, f.2.everywhere eqLocal = true ∧ f.2.everywhere Ty.distinctNames = true := fun f hf =>
        ⟨everywhere_child hb (by simp [Ty.children]; exact ⟨f.1, hf⟩), everywhere_child nb (by simp [Ty.children]; exact ⟨f.1, hf⟩)⟩
      have hnf : (fs.map (·.1)).Nodup := by simpa [Ty.distinctNames] using everywhere_self na
      have hng : (gs.map (·.1)).Nodup := by simpa [Ty.distinctNames] using everywhere_self nb
      have step : ∀ hs : List (Str × Ty), hs.Perm gs →
          (FieldsRel (fun a b => assertEq fl a b = .ok ()) fs hs ↔
            fs.map (·.1) = hs.map (·.1) ∧ ∀ (i : Nat) n t u, fs[i]? = some (n, t) → hs[i]? = some (n, u) → Agree fl t u) := by
        intro hs hp
        rw [fieldsRel_get]
        refine and_congr_right fun _ => ?_
        have : ∀ (i : Nat) n t u, fs[i]? = some (n, t) → hs[i]? = some (n, u) → (assertEq fl t u = .ok () ↔ Agree fl t u) :=
          fun i n t u h1 h2 =>
            have m1 := List.mem_of_getElem? h1
            have m2 := hp.subset (List.mem_of_getElem? h2)
            ih _ m1 u (hca _ m1).1 (hcb _ m2).1 (hca _ m1).2 (hcb _ m2).2
        exact ⟨fun h i n t u h1 h2 => (this i n t u h1 h2).1 (h i n t u h1 h2),
          fun h i n t u h1 h2 => (this i n t u h1 h2).2 (h i n t u h1 h2)⟩
      rw [assertRecord_ok]
      have inv : Agree fl (.record fs) (.record gs) ↔ ∃ hs, hs.Perm gs ∧ (fl.recordOrder = true → hs = gs) ∧
          fs.map (·.1) = hs.map (·.1) ∧
          ∀ (i : Nat) n t u, fs[i]? = some (n, t) → hs[i]? = some (n, u) → Agree fl t u := by
        constructor
        · intro h
          cases h with
          | record h1 h2 h3 h4 => exact ⟨_, h1, h2, h3, h4⟩
          | other h1 _ => exact absurd (show true = false from h1 rfl) (by decide)
        · rintro ⟨hs, h1, h2, h3, h4⟩; exact .record h1 h2 h3 h4
      rw [inv]
      cases hr : fl.recordOrder
      · simp only [Bool.false_eq_true, if_false]
        rw [record_any hnf hng]
        constructor
        · rintro ⟨hs, h1, h2⟩
          have := (step hs h1).1 h2
          exact ⟨hs, h1, (fun h => h.elim), this.1, this.2⟩
        · rintro ⟨hs, h1, _, h3, h4⟩
          exact ⟨hs, h1, (step hs h1).2 ⟨h3, h4⟩⟩
      · simp only [if_true]
        rw [step gs (.refl _)]
        constructor
        · rintro ⟨h1, h2⟩; exact ⟨gs, .refl _, fun _ => rfl, h1, h2⟩
        · rintro ⟨hs, _, h2, h3⟩
          have := h2 trivial
          subst this
          exact h3
    | _ => rw [base_iff fl (fun h => by cases h), other_iff (fun h => by cases h), C08.eq_iff_same _ _ ha hb]
  | tuple ts ih =>
    cases b with
    | tuple us =>
      have hR : ts.length = us.length → (assertL fl ts us = .ok () ↔
          ∀ (i : Nat) t u, ts[i]? = some t → us[i]? = some u → Agree fl t u) := by
        intro hl
        rw [assertL_ok hl, ← lists_iff]
        have : ∀ (i : Nat) (h₁ : i < ts.length) (h₂ : i < us.length), (assertEq fl ts[i] us[i] = .ok () ↔ Agree fl ts[i] us[i]) :=
          fun i h₁ h₂ => ih _ (List.getElem_mem h₁) _ (everywhere_child ha (by simp [Ty.children]))
            (everywhere_child hb (by simp [Ty.children])) (everywhere_child na (by simp [Ty.children]))
            (everywhere_child nb (by simp [Ty.children]))
        exact ⟨fun h i h₁ h₂ => (this i h₁ h₂).1 (h i h₁ h₂), fun h i h₁ h₂ => (this i h₁ h₂).2 (h i h₁ h₂)⟩
      simp only [assertEq, seq_ok, pyAssert_ok, beq_iff_eq]
      constructor
      · rintro ⟨h1, h2⟩; exact .tuple h1 ((hR h1).1 h2)
      · intro h
        cases h with
        | tuple h1 h2 => exact ⟨h1, (hR h1).2 h2⟩
        | other h1 _ => exact absurd (show true = false from h1 rfl) (by decide)
    | _ => rw [base_iff fl (fun h => by cases h), other_iff (fun h => by cases h), C08.eq_iff_same _ _ ha hb]
  | func ts ih =>
    cases b with
    | func us =>
      have hR : ts.length = us.length → (assertL fl ts us = .ok () ↔
          ∀ (i : Nat) t u, ts[i]? = some t → us[i]? = some u → Agree fl t u) := by
        intro hl
        rw [assertL_ok hl, ← lists_iff]
        have : ∀ (i : Nat) (h₁ : i < ts.length) (h₂ : i < us.length), (assertEq fl ts[i] us[i] = .ok () ↔ Agree fl ts[i] us[i]) :=
          fun i h₁ h₂ => ih _ (List.getElem_mem h₁) _ (everywhere_child ha (by simp [Ty.children]))
            (everywhere_child hb (by simp [Ty.children])) (everywhere_child na (by simp [Ty.children]))
            (everywhere_child nb (by simp [Ty.children]))
        exact ⟨fun h i h₁ h₂ => (this i h₁ h₂).1 (h i h₁ h₂), fun h i h₁ h₂ => (this i h₁ h₂).2 (h i h₁ h₂)⟩
      simp only [assertEq, seq_ok, pyAssert_ok, beq_iff_eq]
      constructor
      · rintro ⟨h1, h2⟩; exact .func h1 ((hR h1).1 h2)
      · intro h
        cases h with
        | func h1 h2 => exact ⟨h1, (hR h1).2 h2⟩
        | other h1 _ => exact absurd (show true = false from h1 rfl) (by decide)
    | _ => rw [base_iff fl (fun h => by cases h), other_iff (fun h => by cases h), C08.eq_iff_same _ _ ha hb]
  | _ => rw [base_iff fl (fun _ => rfl), other_iff (fun _ => rfl), C08.eq_iff_same _ _ ha hb]

/-- the hypotheses, and two records that agree only without `check_record_order` and `check_tz` -/
example :
    let a : Ty := .dshape [.var, .record [(py"x", .option (.datetime (some (py"UTC")))), (py"y", tInt32)]]
    let b : Ty := .dshape [.var, .record [(py"y", tInt32), (py"x", .option (.datetime none))]]
    a.everywhere eqLocal = true ∧ b.everywhere eqLocal = true ∧ a.everywhere Ty.distinctNames = true ∧
    b.everywhere Ty.distinctNames = true ∧ assertEq { tz := false, recordOrder := false } a b = .ok () ∧
    assertEq { tz := false } a b ≠ .ok () ∧ assertEq { recordOrder := false } a b ≠ .ok () :=
  ⟨by decide, by decide, by decide, by decide, rfl, (fun h => by cases h), (fun h => by cases h)⟩

/-! ### Exceptions -/

theorem WhyRaised.up {fl : Flags} {a b a' b' : Ty} {e : PyErr} (h : WhyRaised fl a b e) (ha : a ∈ a'.children)
    (hb : b ∈ b'.children) : WhyRaised fl a' b' e := by
  rcases h with h | ⟨h, u, t, t', h1, h2⟩ | ⟨h, h0, n, n', c, c', h1, h2, h3, h4⟩
  · exact .inl h
  · exact .inr (.inl ⟨h, u, t, t', .step ha h1, .step hb h2⟩)
  · exact .inr (.inr ⟨h, h0, n, n', c, c', h1, h2, .step ha h3, .step hb h4⟩)

theorem pyAssert_error {c : Bool} {e : PyErr} (h : pyAssert c = .error e) : e = .assertion := by
  cases c <;> simp [pyAssert] at h
  exact h.symm

theorem seq_raises {x y : Except PyErr Unit} {e : PyErr} (h : (do x; y) = .error e) : x = .error e ∨ y = .error e := by
  cases x with
  | error x => exact .inl h
  | ok x => exact .inr h

theorem checkDims_error {l m : List Ty} {e : PyErr} (h : checkDims l m = .error e) : e = .assertion := by
  induction l generalizing m with
  | nil => simp [checkDims] at h
  | cons a l ih =>
    cases m with
    | nil => simp [checkDims] at h
    | cons b m =>
      rw [checkDims] at h
      rcases seq_raises h with h | h
      · exact pyAssert_error h
      · exact ih h

theorem runFields_error {fns : List (Str × (Ty → Except PyErr Unit))} {gs : List (Str × Ty)} {e : PyErr}
    (h : runFields fns gs = .error e) : e = .assertion ∨ ∃ f ∈ fns, ∃ g ∈ gs, f.2 g.2 = .error e := by
  induction fns generalizing gs with
  | nil => simp [runFields] at h
  | cons f fns ih =>
    obtain ⟨n, f⟩ := f
    cases gs with
    | nil => simp [runFields] at h
    | cons g gs =>
      obtain ⟨m, t⟩ := g
      rw [runFields] at h
      rcases seq_raises h with h | h
      · exact .inl (pyAssert_error h)
      · rcases seq_raises h with h | h
        · exact .inr ⟨_, List.mem_cons_self, _, List.mem_cons_self, h⟩
        · rcases ih h with h | ⟨f', hf, g', hg, h⟩
          · exact .inl h
          · exact .inr ⟨f', List.mem_cons_of_mem _ hf, g', List.mem_cons_of_mem _ hg, h⟩

theorem assertL_error {fl : Flags} {l m : List Ty} {e : PyErr} (h : assertL fl l m = .error e) :
    ∃ a ∈ l, ∃ b ∈ m, assertEq fl a b = .error e := by
  induction l generalizing m with
  | nil => simp [assertL] at h
  | cons a l ih =>
    cases m with
    | nil => simp [assertL] at h
    | cons b m =>
      rw [assertL] at h
      rcases seq_raises h with h | h
      · exact ⟨a, List.mem_cons_self, b, List.mem_cons_self, h⟩
      · obtain ⟨a', ha, b', hb, h⟩ := ih h
        exact ⟨a', List.mem_cons_of_mem _ ha, b', List.mem_cons_of_mem _ hb, h⟩

theorem checkSlots_error {a b : Ty} {e : PyErr} (h : checkSlots a b = .error e) : e = .assertion := by
  unfold checkSlots at h
  split at h
  · exact pyAssert_error h
  · exact pyAssert_error h

theorem ite_error {c : Bool} {p : Bool} {e : PyErr} (h : (if c then pyAssert p else .ok ()) = .error e) : e = .assertion := by
  cases c
  · cases h
  · exact pyAssert_error h

/-- **C38.** What `assert_dshape_equal` raises is an `AssertionError`, except that two `Units` with the same unit raise
`AttributeError`, and a string with and one without a length raise `TypeError` when lengths are checked. -/
theorem C38.raises (fl : Flags) (a b : Ty) (ha : a.everywhere eqLocal = true) (hb : b.everywhere eqLocal = true) (e : PyErr)
    (h : assertEq fl a b = .error e) : WhyRaised fl a b e := by
  induction a using Ty.ind generalizing b with
  | dshape ps ih =>
    cases b with
    | dshape qs =>
      have hne : ps ≠ [] := by intro e; subst e; have := everywhere_self ha; simp [eqLocal] at this
      have hqe : qs ≠ [] := by intro e; subst e; have := everywhere_self hb; simp [eqLocal] at this
      have h' : (fl.dim = true ∧ checkDims ps.dropLast qs.dropLast = .error e) ∨ assertLast fl ps qs.getLast? = .error e := by
        simp only [assertEq] at h
        cases hd : fl.dim
        · rw [hd] at h
          exact .inr h
        · rw [hd] at h
          rcases seq_raises h with h | h
          · exact .inl ⟨rfl, h⟩
          · exact .inr h
      rcases h' with ⟨_, h⟩ | h
      · exact .inl (checkDims_error h)
      · rw [assertLast_eq, List.getLast?_eq_getLast hne, List.getLast?_eq_getLast hqe] at h
        have m1 := List.getLast_mem hne
        have m2 := List.getLast_mem hqe
        have c1 : ps.getLast hne ∈ (Ty.dshape ps).children := by simpa [Ty.children] using m1
        have c2 : qs.getLast hqe ∈ (Ty.dshape qs).children := by simpa [Ty.children] using m2
        exact (ih _ m1 _ (everywhere_child ha c1) (everywhere_child hb c2) h).up c1 c2
    | _ => simp only [assertEq] at h; exact .inl (pyAssert_error h)
  | datetime z =>
    cases b with
    | datetime z' => simp only [assertEq] at h; exact .inl (ite_error h)
    | _ => simp only [assertEq] at h; exact .inl (pyAssert_error h)
  | time z =>
    cases b with
    | time z' => simp only [assertEq] at h; exact .inl (ite_error h)
    | _ => simp only [assertEq] at h; exact .inl (pyAssert_error h)
  | timedelta z =>
    cases b with
    | timedelta z' => simp only [assertEq] at h; exact .inl (ite_error h)
    | _ => simp only [assertEq] at h; exact .inl (pyAssert_error h)
  | units u t =>
    cases b with
    | units u' t' =>
      simp only [assertEq] at h
      by_cases hu : u = u'
      · subst hu
        simp [pyAssert, bind, Except.bind] at h
        exact .inr (.inl ⟨h.symm, u, t, t', .refl _, .refl _⟩)
      · simp [pyAssert, bind, Except.bind, hu] at h
        exact .inl h.symm
    | _ => simp only [assertEq] at h; exact .inl (pyAssert_error h)
  | string n c =>
    cases b with
    | string n' c' =>
      have h' : e = .assertion ∨ (if fl.strFixlen && n != n' then
          (if n.isNone || n'.isNone then .error .typeError else .error .assertion) else .ok () : Except PyErr Unit) = .error e := by
        simp only [assertEq] at h
        cases he : fl.strEncoding
        · rw [he] at h; exact .inr h
        · rw [he] at h
          rcases seq_raises h with h | h
          · exact .inl (pyAssert_error h)
          · exact .inr h
      rcases h' with h | h
      · exact .inl h
      · split at h
        · rename_i hc
          simp only [Bool.and_eq_true, bne_iff_ne, ne_eq] at hc
          split at h
          · rename_i hn
            cases h
            simp only [Bool.or_eq_true, Option.isNone_iff_eq_none] at hn
            exact .inr (.inr ⟨rfl, hc.1, n, n', c, c', hc.2, hn, .refl _, .refl _⟩)
          · cases h; exact .inl rfl
        · cases h
    | _ => simp only [assertEq] at h; exact .inl (pyAssert_error h)
  | option t ih =>
    cases b with
    | option t' =>
      simp only [assertEq] at h
      have c1 : t ∈ (Ty.option t).children := by simp [Ty.children]
      have c2 : t' ∈ (Ty.option t').children := by simp [Ty.children]
      exact (ih t' (everywhere_child ha c1) (everywhere_child hb c2) h).up c1 c2
    | _ => simp only [assertEq] at h; exact .inl (pyAssert_error h)
  | record fs ih =>
    cases b with
    | record gs =>
      have key : ∀ l m, (∀ f ∈ l, f ∈ assertF fl fs) → (∀ g ∈ m, g ∈ gs) → runFields l m = .error e →
          WhyRaised fl (.record fs) (.record gs) e := by
        intro l m hl hm h
        rcases runFields_error h with h | ⟨f, hf, g, hg, h⟩
        · exact .inl h
        · have := hl f hf
          rw [assertF_eq, List.mem_map] at this
          obtain ⟨f', hf', rfl⟩ := this
          have c1 : f'.2 ∈ (Ty.record fs).children := by simp [Ty.children]; exact ⟨f'.1, hf'⟩
          have c2 : g.2 ∈ (Ty.record gs).children := by simp [Ty.children]; exact ⟨g.1, hm g hg⟩
          exact (ih f' hf' _ (everywhere_child ha c1) (everywhere_child hb c2) h).up c1 c2
      simp only [assertEq] at h
      rcases seq_raises h with h | h
      · exact .inl (pyAssert_error h)
      · split at h
        · exact key _ _ (fun _ h => h) (fun _ h => h) h
        · exact key _ _ (fun _ h => (sortFields_perm _).subset h) (fun _ h => (sortFields_perm _).subset h) h
    | _ => simp only [assertEq] at h; exact .inl (pyAssert_error h)
  | tuple ts ih =>
    cases b with
    | tuple us =>
      simp only [assertEq] at h
      rcases seq_raises h with h | h
      · exact .inl (pyAssert_error h)
      · obtain ⟨x, hx, y, hy, h⟩ := assertL_error h
        have c1 : x ∈ (Ty.tuple ts).children := by simpa [Ty.children] using hx
        have c2 : y ∈ (Ty.tuple us).children := by simpa [Ty.children] using hy
        exact (ih x hx _ (everywhere_child ha c1) (everywhere_child hb c2) h).up c1 c2
    | _ => simp only [assertEq] at h; exact .inl (pyAssert_error h)
  | func ts ih =>
    cases b with
    | func us =>
      simp only [assertEq] at h
      rcases seq_raises h with h | h
      · exact .inl (pyAssert_error h)
      · obtain ⟨x, hx, y, hy, h⟩ := assertL_error h
        have c1 : x ∈ (Ty.func ts).children := by simpa [Ty.children] using hx
        have c2 : y ∈ (Ty.func us).children := by simpa [Ty.children] using hy
        exact (ih x hx _ (everywhere_child ha c1) (everywhere_child hb c2) h).up c1 c2
    | _ => simp only [assertEq] at h; exact .inl (pyAssert_error h)
  | _ => simp only [assertEq] at h; exact .inl (checkSlots_error h)

end DS
