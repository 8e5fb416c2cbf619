import Verif.Model.Testing
import Verif.Spec.SameRank
import Verif.Props.Equality
import Verif.Props.DiscoverDicts

/-
C38: `assert_dshape_equal`.
-/
namespace DS

/-! ### Fields -/

/-- same names in the same order, with related values -/
inductive FieldsRel {α β : Type} (R : α → β → Prop) : List (Str × α) → List (Str × β) → Prop where
  | nil : FieldsRel R [] []
  | cons {n x y r s} : R x y → FieldsRel R r s → FieldsRel R ((n, x) :: r) ((n, y) :: s)

theorem FieldsRel.length {α β : Type} {R : α → β → Prop} {l : List (Str × α)} {m : List (Str × β)}
    (h : FieldsRel R l m) : l.length = m.length := by
  induction h with
  | nil => rfl
  | cons _ _ ih => simp [ih]

theorem FieldsRel.mono {α β : Type} {R S : α → β → Prop} {l : List (Str × α)} {m : List (Str × β)}
    (h : FieldsRel R l m) (hs : ∀ f ∈ l, ∀ y, R f.2 y → S f.2 y) : FieldsRel S l m := by
  induction h with
  | nil => exact .nil
  | cons hxy _ ih =>
    exact .cons (hs _ List.mem_cons_self _ hxy) (ih fun f hf => hs f (List.mem_cons_of_mem _ hf))

theorem FieldsRel.insert {α β : Type} {R : α → β → Prop} {l : List (Str × α)} {m : List (Str × β)}
    (h : FieldsRel R l m) {n : Str} {x : α} {y : β} (hxy : R x y) :
    FieldsRel R (insertField (n, x) l) (insertField (n, y) m) := by
  induction h with
  | nil => exact .cons hxy .nil
  | cons h1 h2 ih =>
    simp only [insertField]
    split
    · exact .cons hxy (.cons h1 h2)
    · exact .cons h1 ih

theorem FieldsRel.sort {α β : Type} {R : α → β → Prop} {l : List (Str × α)} {m : List (Str × β)}
    (h : FieldsRel R l m) : FieldsRel R (sortFields l) (sortFields m) := by
  induction h with
  | nil => exact .nil
  | cons h1 _ ih => exact ih.insert h1

theorem insertField_map {α β : Type} (g : α → β) (x : Str × α) (l : List (Str × α)) :
    insertField (x.1, g x.2) (l.map fun f => (f.1, g f.2)) = (insertField x l).map fun f => (f.1, g f.2) := by
  induction l with
  | nil => rfl
  | cons y l ih =>
    simp only [List.map_cons, insertField]
    split
    · rfl
    · rw [ih]; rfl

theorem sortFields_map {α β : Type} (g : α → β) (l : List (Str × α)) :
    sortFields (l.map fun f => (f.1, g f.2)) = (sortFields l).map fun f => (f.1, g f.2) := by
  induction l with
  | nil => rfl
  | cons x l ih =>
    show insertField (x.1, g x.2) (sortFields (l.map _)) = _
    rw [ih, insertField_map]
    rfl

theorem insertField_perm {α : Type} (x : Str × α) (l : List (Str × α)) : (insertField x l).Perm (x :: l) := by
  induction l with
  | nil => exact .refl _
  | cons y l ih =>
    rw [insertField]
    split
    · exact .refl _
    · exact (List.Perm.cons y ih).trans (.swap x y l)

theorem sortFields_perm {α : Type} (l : List (Str × α)) : (sortFields l).Perm l := by
  induction l with
  | nil => exact .refl _
  | cons x l ih => exact (insertField_perm x _).trans (.cons x ih)

theorem FieldsRel.map_left {α β γ : Type} {R : α → β → Prop} {g : γ → α} {l : List (Str × γ)} {m : List (Str × β)} :
    FieldsRel R (l.map fun f => (f.1, g f.2)) m ↔ FieldsRel (fun x y => R (g x) y) l m := by
  induction l generalizing m with
  | nil =>
    constructor <;> intro h <;> cases h <;> exact .nil
  | cons x l ih =>
    obtain ⟨n, x⟩ := x
    constructor
    · intro h
      cases h with
      | cons h1 h2 => exact .cons h1 (ih.1 h2)
    · intro h
      cases h with
      | cons h1 h2 => exact .cons h1 (ih.2 h2)

theorem pyAssert_ok {c : Bool} : pyAssert c = .ok () ↔ c = true := by
  cases c <;> simp [pyAssert]

theorem seq_ok {x y : Except PyErr Unit} : (do x; y) = .ok () ↔ x = .ok () ∧ y = .ok () := by
  cases x <;> simp [bind, Except.bind]

theorem runFields_ok {fns : List (Str × (Ty → Except PyErr Unit))} {gs : List (Str × Ty)}
    (hl : fns.length = gs.length) :
    runFields fns gs = .ok () ↔ FieldsRel (fun f t => f t = .ok ()) fns gs := by
  induction fns generalizing gs with
  | nil =>
    cases gs with
    | nil => simp [runFields, FieldsRel.nil]
    | cons => simp at hl
  | cons f fns ih =>
    obtain ⟨n, f⟩ := f
    cases gs with
    | nil => simp at hl
    | cons g gs =>
      obtain ⟨m, t⟩ := g
      simp only [List.length_cons, Nat.add_right_cancel_iff] at hl
      rw [runFields, seq_ok, seq_ok, pyAssert_ok, ih hl, beq_iff_eq]
      constructor
      · rintro ⟨rfl, h1, h2⟩; exact .cons h1 h2
      · intro h; cases h with
        | cons h1 h2 => exact ⟨rfl, h1, h2⟩

theorem assertF_eq (fl : Flags) (fs : List (Str × Ty)) :
    assertF fl fs = fs.map fun f => (f.1, assertEq fl f.2) := by
  induction fs with
  | nil => simp [assertF]
  | cons f fs ih => obtain ⟨n, t⟩ := f; simp [assertF, ih]

/-- the comparison of two records -/
theorem assertRecord_ok {fl : Flags} {fs gs : List (Str × Ty)} : assertEq fl (.record fs) (.record gs) = .ok () ↔
    FieldsRel (fun a b => assertEq fl a b = .ok ()) (if fl.recordOrder then fs else sortFields fs)
      (if fl.recordOrder then gs else sortFields gs) := by
  have hlen : ∀ l : List (Str × Ty), (sortFields l).length = l.length := fun l => (sortFields_perm l).length_eq
  simp only [assertEq, seq_ok, pyAssert_ok, beq_iff_eq, assertF_eq]
  cases hr : fl.recordOrder
  · simp only [Bool.false_eq_true, if_false, sortFields_map]
    constructor
    · rintro ⟨hl, h⟩
      rw [runFields_ok (by simp [hlen, hl]), FieldsRel.map_left] at h
      exact h
    · intro h
      have hl : fs.length = gs.length := by have := h.length; simpa [hlen] using this
      rw [runFields_ok (by simp [hlen, hl]), FieldsRel.map_left]
      exact ⟨hl, h⟩
  · simp only [if_true]
    constructor
    · rintro ⟨hl, h⟩
      rw [runFields_ok (by simp [hl]), FieldsRel.map_left] at h
      exact h
    · intro h
      rw [runFields_ok (by simp [h.length]), FieldsRel.map_left]
      exact ⟨h.length, h⟩

theorem eqF_rel {fs gs : List (Str × Ty)} : eqF fs gs = true ↔ FieldsRel (fun a b => pyEq a b = true) fs gs := by
  induction fs generalizing gs with
  | nil =>
    cases gs with
    | nil => simp [eqF, FieldsRel.nil]
    | cons => simp only [eqF]; constructor <;> intro h; simp at h; cases h
  | cons f fs ih =>
    obtain ⟨n, t⟩ := f
    cases gs with
    | nil => simp only [eqF]; constructor <;> intro h; simp at h; cases h
    | cons g gs =>
      obtain ⟨m, u⟩ := g
      simp only [eqF, Bool.and_eq_true, beq_iff_eq]
      constructor
      · rintro ⟨⟨rfl, h1⟩, h2⟩; exact .cons h1 (ih.1 h2)
      · intro h; cases h with
        | cons h1 h2 => exact ⟨⟨rfl, h1⟩, ih.2 h2⟩

theorem checkDims_of {l m : List Ty} (h : eqL l m = true) : checkDims l m = .ok () := by
  induction l generalizing m with
  | nil => simp [checkDims]
  | cons a l ih =>
    cases m with
    | nil => simp [checkDims]
    | cons b m =>
      simp only [eqL, Bool.and_eq_true] at h
      rw [checkDims, seq_ok, pyAssert_ok]
      exact ⟨h.1, ih h.2⟩

theorem checkDims_iff {l m : List Ty} (hl : l.length = m.length) : checkDims l m = .ok () ↔ eqL l m = true := by
  induction l generalizing m with
  | nil =>
    cases m with
    | nil => simp [checkDims, eqL]
    | cons => simp at hl
  | cons a l ih =>
    cases m with
    | nil => simp at hl
    | cons b m =>
      simp only [eqL, Bool.and_eq_true]
      rw [checkDims, seq_ok, pyAssert_ok, ih (by simpa using hl)]
      rfl

theorem assertLast_eq (fl : Flags) (ps : List Ty) (m : Option Ty) : assertLast fl ps m =
    (match ps.getLast?, m with
      | some p, some m => assertEq fl p m
      | _, _ => .error .indexError) := by
  induction ps with
  | nil => simp [assertLast]
  | cons p r ih =>
    cases r with
    | nil => cases m <;> simp [assertLast]
    | cons q r =>
      rw [assertLast]
      simp only [ih]
      simp

/-- the comparison of two arrays -/
theorem assertDS_ok {fl : Flags} {ps qs : List Ty} : assertEq fl (.dshape ps) (.dshape qs) = .ok () ↔
    (fl.dim = true → checkDims ps.dropLast qs.dropLast = .ok ()) ∧
    ∃ p q, ps.getLast? = some p ∧ qs.getLast? = some q ∧ assertEq fl p q = .ok () := by
  have key : assertEq fl (.dshape ps) (.dshape qs) = .ok () ↔
      (fl.dim = true → checkDims ps.dropLast qs.dropLast = .ok ()) ∧ assertLast fl ps qs.getLast? = .ok () := by
    simp only [assertEq]
    cases hd : fl.dim
    · simp [bind, Except.bind, pure, Except.pure]
    · simp [seq_ok]
  rw [key, assertLast_eq]
  refine and_congr_right fun _ => ?_
  cases ps.getLast? <;> cases qs.getLast? <;> simp

theorem assertL_ok {fl : Flags} {l m : List Ty} (hl : l.length = m.length) : assertL fl l m = .ok () ↔
    ∀ (i : Nat) (h₁ : i < l.length) (h₂ : i < m.length), assertEq fl l[i] m[i] = .ok () := by
  induction l generalizing m with
  | nil => simp [assertL]
  | cons a l ih =>
    cases m with
    | nil => simp at hl
    | cons b m =>
      rw [assertL]
      simp only [seq_ok]
      rw [ih (by simpa using hl)]
      constructor
      · rintro ⟨h1, h2⟩ i h₁ h₂
        cases i with
        | zero => exact h1
        | succ i => exact h2 i (by simpa using h₁) (by simpa using h₂)
      · intro h
        exact ⟨h 0 (by simp) (by simp), fun i h₁ h₂ => h (i + 1) (by simpa using h₁) (by simpa using h₂)⟩

theorem eqL_get {l m : List Ty} : eqL l m = true ↔ l.length = m.length ∧
    ∀ (i : Nat) (h₁ : i < l.length) (h₂ : i < m.length), pyEq l[i] m[i] = true := by
  induction l generalizing m with
  | nil => cases m <;> simp [eqL]
  | cons a l ih =>
    cases m with
    | nil => simp [eqL]
    | cons b m =>
      simp only [eqL, Bool.and_eq_true, ih]
      constructor
      · rintro ⟨h1, h2, h3⟩
        refine ⟨by simpa using h2, fun i h₁ h₂ => ?_⟩
        cases i with
        | zero => exact h1
        | succ i => exact h3 i (by simpa using h₁) (by simpa using h₂)
      · rintro ⟨h2, h⟩
        exact ⟨h 0 (by simp) (by simp), by simpa using h2,
          fun i h₁ h₂ => h (i + 1) (by simpa using h₁) (by simpa using h₂)⟩

theorem eqL_dropLast {l m : List Ty} (h : eqL l m = true) : eqL l.dropLast m.dropLast = true := by
  rw [eqL_get] at h ⊢
  refine ⟨by simp [h.1], fun i h₁ h₂ => ?_⟩
  rw [List.getElem_dropLast, List.getElem_dropLast]
  exact h.2 i _ _

theorem eqL_last {l m : List Ty} (h : eqL l m = true) (hl : l ≠ []) :
    ∃ p q, l.getLast? = some p ∧ m.getLast? = some q ∧ pyEq p q = true := by
  rw [eqL_get] at h
  have hm : m ≠ [] := by
    intro e; subst e
    exact hl (List.length_eq_zero_iff.1 h.1)
  refine ⟨_, _, List.getLast?_eq_getLast hl, List.getLast?_eq_getLast hm, ?_⟩
  rw [List.getLast_eq_getElem, List.getLast_eq_getElem]
  have := h.2 (l.length - 1) (by have := List.length_pos_iff.2 hl; omega)
    (by have := List.length_pos_iff.2 hm; omega)
  simpa [h.1] using this

theorem assertString_ok {fl : Flags} {n n' : Option Int} {e e' : Str} :
    assertEq fl (.string n e) (.string n' e') = .ok () ↔
      (fl.strEncoding = true → e = e') ∧ (fl.strFixlen = true → n = n') := by
  have h2 : (if fl.strFixlen && n != n' then
      (if n.isNone || n'.isNone then .error .typeError else .error .assertion) else .ok () : Except PyErr Unit) = .ok () ↔
      (fl.strFixlen = true → n = n') := by
    cases fl.strFixlen
    · simp
    · by_cases hn : n = n'
      · simp [hn]
      · rw [if_pos (by simpa using hn)]
        simp only [hn]
        split <;> simp
  rw [← h2]
  simp only [assertEq]
  cases fl.strEncoding
  · simp [bind, Except.bind, pure, Except.pure]
  · simp [seq_ok, pyAssert_ok]

/-! ### Equal datashapes pass -/

theorem base_of {a b : Ty} (h : eqM a true b = true) : baseCase a b = .ok () := pyAssert_ok.2 h

theorem slots_of {a b : Ty} (h : eqM a true b = true ∨ eqM a false b = true)
    (h1 : a.ctorIdx = b.ctorIdx → eqM a true b = true → eqM a false b = true)
    (h2 : eqM a false b = true → a.isSlotted = true ∧ a.ctorIdx = b.ctorIdx ∧ b.isSlotted = true) :
    checkSlots a b = .ok () := by
  unfold checkSlots
  split
  · rename_i hc
    simp only [Bool.and_eq_true, beq_iff_eq] at hc
    rw [pyAssert_ok]
    rcases h with h | h
    · exact h1 hc.2 h
    · exact h
  · rename_i hc
    rcases h with h | h
    · exact base_of h
    · obtain ⟨x, y, z⟩ := h2 h
      simp [x, y, z] at hc

theorem passes_aux (fl : Flags) (a : Ty) (ha : a.everywhere eqLocal = true) (hu : a.everywhere Ty.notUnits = true)
    (b : Ty) (hb : b.everywhere eqLocal = true) (h : eqM a true b = true ∨ eqM a false b = true) :
    assertEq fl a b = .ok () := by
  induction a using Ty.ind generalizing b with
  | dshape ps ih =>
    have hc : ∀ p ∈ ps, p.everywhere eqLocal = true := fun p hp => everywhere_child ha (by simpa [Ty.children] using hp)
    have hcu : ∀ p ∈ ps, p.everywhere Ty.notUnits = true := fun p hp =>
      everywhere_child hu (by simpa [Ty.children] using hp)
    have hne : ps ≠ [] := by
      intro e; subst e; have := everywhere_self ha; simp [eqLocal] at this
    cases b with
    | dshape qs =>
      have hcb : ∀ p ∈ qs, p.everywhere eqLocal = true := fun p hp =>
        everywhere_child hb (by simpa [Ty.children] using hp)
      rw [assertDS_ok]
      rcases h with h | h
      · simp only [eqM, eqInit_eq, eqLast_eq, Bool.and_eq_true, Ty.shape, Ty.measure] at h
        refine ⟨fun _ => checkDims_of h.1, ?_⟩
        have hqe : qs ≠ [] := by
          intro e; subst e; have := everywhere_self hb; simp [eqLocal] at this
        refine ⟨_, _, List.getLast?_eq_getLast hne, List.getLast?_eq_getLast hqe, ?_⟩
        have hp := List.getLast_mem hne
        refine ih _ hp (hc _ hp) (hcu _ hp) _ (hcb _ (List.getLast_mem hqe)) (.inr ?_)
        simpa [List.getLast?_eq_getLast hne, List.getLast?_eq_getLast hqe] using h.2
      · simp only [eqM] at h
        obtain ⟨p, q, hp, hq, he⟩ := eqL_last h hne
        refine ⟨fun _ => checkDims_of (eqL_dropLast h), p, q, hp, hq, ?_⟩
        have hp := List.mem_of_getLast? hp
        exact ih _ hp (hc _ hp) (hcu _ hp) _ (hcb _ (List.mem_of_getLast? hq)) (.inl he)
    | _ =>
      simp only [assertEq]
      rcases h with h | h
      · exact base_of h
      · simp [eqM] at h
  | datetime z =>
    cases b with
    | datetime z' =>
      have : z = z' := by rcases h with h | h <;> simpa [eqM, Ty.noShape, Ty.shape, Ty.target, Ty.measure] using h
      simp [assertEq, this, pyAssert]
    | _ =>
      simp only [assertEq]
      rcases h with h | h
      · exact base_of h
      · simp [eqM, Ty.noShape, Ty.target] at h
  | time z =>
    cases b with
    | time z' =>
      have : z = z' := by rcases h with h | h <;> simpa [eqM, Ty.noShape, Ty.shape, Ty.target, Ty.measure] using h
      simp [assertEq, this, pyAssert]
    | _ =>
      simp only [assertEq]
      rcases h with h | h
      · exact base_of h
      · simp [eqM, Ty.noShape, Ty.target] at h
  | timedelta z =>
    cases b with
    | timedelta z' =>
      have : z = z' := by rcases h with h | h <;> simpa [eqM, Ty.noShape, Ty.shape, Ty.target, Ty.measure] using h
      simp [assertEq, this, pyAssert]
    | _ =>
      simp only [assertEq]
      rcases h with h | h
      · exact base_of h
      · simp [eqM, Ty.noShape, Ty.target] at h
  | units u t => have := everywhere_self hu; simp [Ty.notUnits] at this
  | string n e =>
    cases b with
    | string n' e' =>
      have : n = n' ∧ e = e' := by
        rcases h with h | h <;> simpa [eqM, Ty.noShape, Ty.shape, Ty.target, Ty.measure] using h
      obtain ⟨rfl, rfl⟩ := this
      cases h1 : fl.strEncoding <;> simp [assertEq, pyAssert, h1, bind, Except.bind, pure, Except.pure]
    | _ =>
      simp only [assertEq]
      rcases h with h | h
      · exact base_of h
      · simp [eqM, Ty.noShape, Ty.target] at h
  | option t ih =>
    cases b with
    | option t' =>
      have : eqM t true t' = true := by
        rcases h with h | h
        · simp only [eqM, Ty.measure, Bool.and_eq_true] at h; exact h.2
        · simpa [eqM] using h
      simp only [assertEq]
      exact ih (everywhere_child ha (by simp [Ty.children])) (everywhere_child hu (by simp [Ty.children])) _
        (everywhere_child hb (by simp [Ty.children])) (.inl this)
    | _ =>
      simp only [assertEq]
      rcases h with h | h
      · exact base_of h
      · simp [eqM] at h
  | record fs ih =>
    cases b with
    | record gs =>
      have : eqF fs gs = true := by
        rcases h with h | h <;> simpa [eqM, Ty.noShape, Ty.shape, Ty.target, Ty.measure] using h
      rw [eqF_rel] at this
      have hall : FieldsRel (fun a b => assertEq fl a b = .ok ()) fs gs := by
        have hcb : ∀ g ∈ gs, g.2.everywhere eqLocal = true := fun g hg =>
          everywhere_child hb (by simp [Ty.children]; exact ⟨g.1, hg⟩)
        have hc : ∀ g ∈ fs, g.2.everywhere eqLocal = true := fun g hg =>
          everywhere_child ha (by simp [Ty.children]; exact ⟨g.1, hg⟩)
        have hcu : ∀ g ∈ fs, g.2.everywhere Ty.notUnits = true := fun g hg =>
          everywhere_child hu (by simp [Ty.children]; exact ⟨g.1, hg⟩)
        clear ha hu hb h
        induction this with
        | nil => exact .nil
        | cons h1 h2 ih2 =>
          refine .cons (ih _ List.mem_cons_self (hc _ List.mem_cons_self) (hcu _ List.mem_cons_self) _
            (hcb _ List.mem_cons_self) (.inl h1)) (ih2 ?_ ?_ ?_ ?_)
          · exact fun f hf => ih f (List.mem_cons_of_mem _ hf)
          · exact fun f hf => hcb f (List.mem_cons_of_mem _ hf)
          · exact fun f hf => hc f (List.mem_cons_of_mem _ hf)
          · exact fun f hf => hcu f (List.mem_cons_of_mem _ hf)
      rw [assertRecord_ok]
      cases fl.recordOrder
      · exact hall.sort
      · exact hall
    | _ =>
      simp only [assertEq]
      rcases h with h | h
      · exact base_of h
      · simp [eqM, Ty.noShape, Ty.target] at h
  | tuple ts ih =>
    cases b with
    | tuple us =>
      have : eqL ts us = true := by
        rcases h with h | h <;> simpa [eqM, Ty.noShape, Ty.shape, Ty.target, Ty.measure] using h
      rw [eqL_get] at this
      simp only [assertEq, seq_ok, pyAssert_ok, beq_iff_eq]
      refine ⟨this.1, (assertL_ok this.1).2 fun i h₁ h₂ => ?_⟩
      exact ih _ (List.getElem_mem h₁) (everywhere_child ha (by simp [Ty.children]))
        (everywhere_child hu (by simp [Ty.children])) _ (everywhere_child hb (by simp [Ty.children]))
        (.inl (this.2 i h₁ h₂))
    | _ =>
      simp only [assertEq]
      rcases h with h | h
      · exact base_of h
      · simp [eqM, Ty.noShape, Ty.target] at h
  | func ts ih =>
    cases b with
    | func us =>
      have : eqL ts us = true := by
        rcases h with h | h <;> simpa [eqM, Ty.noShape, Ty.shape, Ty.target, Ty.measure] using h
      rw [eqL_get] at this
      simp only [assertEq, seq_ok, pyAssert_ok, beq_iff_eq]
      refine ⟨this.1, (assertL_ok this.1).2 fun i h₁ h₂ => ?_⟩
      exact ih _ (List.getElem_mem h₁) (everywhere_child ha (by simp [Ty.children]))
        (everywhere_child hu (by simp [Ty.children])) _ (everywhere_child hb (by simp [Ty.children]))
        (.inl (this.2 i h₁ h₂))
    | _ =>
      simp only [assertEq]
      rcases h with h | h
      · exact base_of h
      · simp [eqM, Ty.noShape, Ty.target] at h
  | null =>
    simp only [assertEq, checkSlots, Ty.isSlotted, Bool.false_and, Bool.false_eq_true, if_false]
    rcases h with h | h
    · exact base_of h
    · cases b <;> simp [eqM, Ty.noShape, Ty.target] at h
      exact base_of rfl
  | _ =>
    simp only [assertEq]
    apply slots_of h
    · intro hi h
      cases b <;> simp_all [Ty.ctorIdx, eqM, Ty.noShape, Ty.shape, Ty.target, Ty.measure]
    · intro h
      cases b <;> simp_all [Ty.ctorIdx, eqM, Ty.noShape, Ty.target, Ty.isSlotted]

/-- Equal datashapes pass `assert_dshape_equal`, whatever the flags, when no `Units` occurs in them. -/
theorem C38.equal_passes (fl : Flags) (a b : Ty) (ha : a.everywhere eqLocal = true) (hb : b.everywhere eqLocal = true)
    (hu : a.everywhere Ty.notUnits = true) (h : pyEq a b = true) : assertEq fl a b = .ok () :=
  passes_aux fl a ha hu b hb (.inl h)

/-! ### What passes is equal -/

/-- a `DataShape` is not empty, its measure is no dimension, and its parameters are no `DataShape`s -/
def flatLocal : Ty → Bool
  | .dshape ps => !ps.isEmpty && ps.all fun p => !p.isDShape
  | _ => true

theorem shape_eq_of {a b : Ty} (h : pyEq a b = true) : eqL a.shape b.shape = true := by
  cases a with
  | fixed n => cases b <;> simp_all [pyEq, eqM, Ty.shape, eqL]
  | typeset o n => cases b <;> simp_all [pyEq, eqM, Ty.shape, eqL]
  | _ =>
    rw [pyEq_code _ _ (by simp) (by simp)] at h
    simp only [Bool.and_eq_true] at h
    exact h.1

theorem info_of_eq {a b : Ty} (ha : a.isDShape = false) (hb : b.isDShape = false) (h : pyEq a b = true) :
    eqM a false b = true := by
  have hma : a.measure = a := by cases a <;> simp_all [Ty.measure, Ty.isDShape]
  have hmb : b.measure = b := by cases b <;> simp_all [Ty.measure, Ty.isDShape]
  cases a with
  | fixed n => cases b <;> simp_all [pyEq, eqM]
  | typeset o n => cases b <;> simp_all [pyEq, eqM]
  | _ =>
    rw [pyEq_code _ _ (by simp) (by simp), hma, hmb] at h
    simp only [Bool.and_eq_true] at h
    exact h.2

theorem slots_eq {a b : Ty} (h : checkSlots a b = .ok ())
    (h1 : a.ctorIdx = b.ctorIdx → eqM a false b = true → eqM a true b = true) : pyEq a b = true := by
  unfold checkSlots at h
  split at h
  · rename_i hc
    simp only [Bool.and_eq_true, beq_iff_eq] at hc
    rw [pyAssert_ok] at h
    exact h1 hc.2 h
  · exact pyAssert_ok.1 h

theorem sameRankL_get {l m : List Ty} (h : SameRankL l m) (i : Nat) (h₁ : i < l.length) (h₂ : i < m.length) :
    SameRank l[i] m[i] := by
  induction l generalizing m i with
  | nil => simp at h₁
  | cons a l ih =>
    cases m with
    | nil => simp at h₂
    | cons b m =>
      rw [SameRankL] at h
      cases i with
      | zero => exact h.1
      | succ i => exact ih h.2 i (by simpa using h₁) (by simpa using h₂)

theorem eq_of_pass (a b : Ty) (ha : a.everywhere flatLocal = true) (hb : b.everywhere flatLocal = true)
    (hr : SameRank a b) (h : assertEq {} a b = .ok ()) : pyEq a b = true := by
  induction a using Ty.ind generalizing b with
  | dshape ps ih =>
    cases b with
    | dshape qs =>
      rw [assertDS_ok] at h
      obtain ⟨hd, p, q, hp, hq, h⟩ := h
      rw [SameRank] at hr
      have hd := (checkDims_iff (by simp [hr.1])).1 (hd rfl)
      have hpm := List.mem_of_getLast? hp
      have hqm := List.mem_of_getLast? hq
      have hpf : p.isDShape = false := by
        have := everywhere_self ha
        simp [flatLocal] at this
        exact this.2 p hpm
      have hqf : q.isDShape = false := by
        have := everywhere_self hb
        simp [flatLocal] at this
        exact this.2 q hqm
      have hpq : SameRank p q := by
        have hne := List.length_pos_iff.2 (List.ne_nil_of_mem hpm)
        rw [List.getLast?_eq_getElem?] at hp hq
        have e1 := (List.getElem?_eq_some_iff.1 hp)
        have e2 := (List.getElem?_eq_some_iff.1 hq)
        obtain ⟨i1, e1⟩ := e1
        obtain ⟨i2, e2⟩ := e2
        have := sameRankL_get hr.2 (ps.length - 1) i1 (by rw [hr.1]; exact i2)
        rw [e1] at this
        simpa [hr.1, e2] using this
      have := ih p hpm q (everywhere_child ha (by simpa [Ty.children] using hpm))
        (everywhere_child hb (by simpa [Ty.children] using hqm)) hpq h
      have := info_of_eq hpf hqf this
      simp only [pyEq, eqM, eqInit_eq, eqLast_eq, Ty.shape, Ty.measure, hp, hq, hd, Option.getD, this, Bool.and_self]
    | _ => simp only [assertEq] at h; exact pyAssert_ok.1 h
  | datetime z =>
    cases b with
    | datetime z' =>
      simp [assertEq, pyAssert_ok] at h
      simp [pyEq, eqM, h, Ty.noShape, Ty.shape, Ty.target, Ty.measure]
    | _ => simp only [assertEq] at h; exact pyAssert_ok.1 h
  | time z =>
    cases b with
    | time z' =>
      simp [assertEq, pyAssert_ok] at h
      simp [pyEq, eqM, h, Ty.noShape, Ty.shape, Ty.target, Ty.measure]
    | _ => simp only [assertEq] at h; exact pyAssert_ok.1 h
  | timedelta z =>
    cases b with
    | timedelta z' =>
      simp [assertEq, pyAssert_ok] at h
      simp [pyEq, eqM, h, Ty.noShape, Ty.shape, Ty.target, Ty.measure]
    | _ => simp only [assertEq] at h; exact pyAssert_ok.1 h
  | units u t _ =>
    cases b with
    | units u' t' => simp [assertEq, seq_ok] at h
    | _ => simp only [assertEq] at h; exact pyAssert_ok.1 h
  | string n e =>
    cases b with
    | string n' e' =>
      simp only [assertEq, if_true, seq_ok, pyAssert_ok, beq_iff_eq, Bool.true_and] at h
      obtain ⟨rfl, h⟩ := h
      have : n = n' := by
        by_cases hn : n = n'
        · exact hn
        · rw [if_pos (by simpa using hn)] at h
          split at h <;> simp at h
      simp [pyEq, eqM, this, Ty.noShape, Ty.shape, Ty.target, Ty.measure]
    | _ => simp only [assertEq] at h; exact pyAssert_ok.1 h
  | option t ih =>
    cases b with
    | option t' =>
      simp only [assertEq] at h
      rw [SameRank] at hr
      have := ih t' (everywhere_child ha (by simp [Ty.children])) (everywhere_child hb (by simp [Ty.children])) hr h
      simp only [pyEq, eqM, eqShape_eq, Ty.shape, Ty.measure, Bool.and_eq_true]
      exact ⟨shape_eq_of this, this⟩
    | _ => simp only [assertEq] at h; exact pyAssert_ok.1 h
  | record fs ih =>
    cases b with
    | record gs =>
      rw [assertRecord_ok] at h
      simp only [if_true] at h
      rw [SameRank] at hr
      have : FieldsRel (fun a b => pyEq a b = true) fs gs := by
        have hc : ∀ g ∈ fs, g.2.everywhere flatLocal = true := fun g hg =>
          everywhere_child ha (by simp [Ty.children]; exact ⟨g.1, hg⟩)
        have hcb : ∀ g ∈ gs, g.2.everywhere flatLocal = true := fun g hg =>
          everywhere_child hb (by simp [Ty.children]; exact ⟨g.1, hg⟩)
        clear ha hb
        induction h with
        | nil => exact .nil
        | cons h1 h2 ih2 =>
          simp only [SameRankF] at hr
          refine .cons (ih _ List.mem_cons_self _ (hc _ List.mem_cons_self) (hcb _ List.mem_cons_self) hr.1 h1)
            (ih2 (fun f hf => ih f (List.mem_cons_of_mem _ hf)) hr.2 (fun f hf => hc f (List.mem_cons_of_mem _ hf))
              (fun f hf => hcb f (List.mem_cons_of_mem _ hf)))
      simpa [pyEq, eqM, Ty.noShape, Ty.shape, Ty.target, Ty.measure] using eqF_rel.2 this
    | _ => simp only [assertEq] at h; exact pyAssert_ok.1 h
  | tuple ts ih =>
    cases b with
    | tuple us =>
      simp only [assertEq, seq_ok, pyAssert_ok, beq_iff_eq] at h
      rw [SameRank] at hr
      have := (assertL_ok h.1).1 h.2
      have : eqL ts us = true := eqL_get.2 ⟨h.1, fun i h₁ h₂ => ih _ (List.getElem_mem h₁) _
        (everywhere_child ha (by simp [Ty.children])) (everywhere_child hb (by simp [Ty.children]))
        (sameRankL_get hr i h₁ h₂) (this i h₁ h₂)⟩
      simpa [pyEq, eqM, Ty.noShape, Ty.shape, Ty.target, Ty.measure] using this
    | _ => simp only [assertEq] at h; exact pyAssert_ok.1 h
  | func ts ih =>
    cases b with
    | func us =>
      simp only [assertEq, seq_ok, pyAssert_ok, beq_iff_eq] at h
      rw [SameRank] at hr
      have := (assertL_ok h.1).1 h.2
      have : eqL ts us = true := eqL_get.2 ⟨h.1, fun i h₁ h₂ => ih _ (List.getElem_mem h₁) _
        (everywhere_child ha (by simp [Ty.children])) (everywhere_child hb (by simp [Ty.children]))
        (sameRankL_get hr i h₁ h₂) (this i h₁ h₂)⟩
      simpa [pyEq, eqM, Ty.noShape, Ty.shape, Ty.target, Ty.measure] using this
    | _ => simp only [assertEq] at h; exact pyAssert_ok.1 h
  | _ =>
    simp only [assertEq] at h
    apply slots_eq h
    intro hi h
    cases b <;> simp_all [Ty.ctorIdx, eqM, Ty.noShape, Ty.shape, Ty.target, Ty.measure]

theorem localOk_flat (env : Env) (t : Ty) (h : localOk env t = true) : flatLocal t = true := by
  cases t <;> simp_all [localOk, flatLocal]

/-- With the default flags, `assert_dshape_equal(a, b)` passes exactly when `a == b`, for datashapes as the parser
builds them, without `Units`, that have the same number of dimensions wherever both have an array. -/
theorem C38.decides (env : Env) (a b : Ty) (ha : WF env a) (hb : WF env b) (hu : a.everywhere Ty.notUnits = true)
    (hr : SameRank a b) : assertEq {} a b = .ok () ↔ pyEq a b = true :=
  ⟨eq_of_pass a b (everywhere_mono (localOk_flat env) a ha) (everywhere_mono (localOk_flat env) b hb) hr,
   C38.equal_passes {} a b ha.eqOk hb.eqOk hu⟩

/-! ### Relaxing flags -/

/-- `fl` checks no more than `fl'` -/
def Flags.le (fl fl' : Flags) : Prop :=
  (fl.dim = true → fl'.dim = true) ∧ (fl.tz = true → fl'.tz = true) ∧
  (fl.timedeltaUnit = true → fl'.timedeltaUnit = true) ∧ (fl.strEncoding = true → fl'.strEncoding = true) ∧
  (fl.strFixlen = true → fl'.strFixlen = true) ∧ (fl.recordOrder = true → fl'.recordOrder = true)

theorem relax_if {p p' : Bool} {c : Bool} (h : p = true → p' = true)
    (hx : (if p' = true then pyAssert c else .ok ()) = .ok ()) : (if p = true then pyAssert c else .ok ()) = .ok () := by
  cases p with
  | false => rfl
  | true => rw [h rfl] at hx; exact hx

/-- Switching checks off never turns a success into a failure. -/
theorem C38.relaxing (fl fl' : Flags) (hf : fl.le fl') (a b : Ty) (h : assertEq fl' a b = .ok ()) :
    assertEq fl a b = .ok () := by
  obtain ⟨hdim, htz, htd, henc, hfix, hord⟩ := hf
  induction a using Ty.ind generalizing b with
  | dshape ps ih =>
    cases b with
    | dshape qs =>
      rw [assertDS_ok] at h ⊢
      obtain ⟨hd, p, q, hp, hq, h⟩ := h
      exact ⟨fun x => hd (hdim x), p, q, hp, hq, ih p (List.mem_of_getLast? hp) q h⟩
    | _ => simpa only [assertEq] using h
  | datetime z =>
    cases b with
    | datetime z' => simp only [assertEq] at h ⊢; exact relax_if htz h
    | _ => simpa only [assertEq] using h
  | time z =>
    cases b with
    | time z' => simp only [assertEq] at h ⊢; exact relax_if htz h
    | _ => simpa only [assertEq] using h
  | timedelta z =>
    cases b with
    | timedelta z' => simp only [assertEq] at h ⊢; exact relax_if htd h
    | _ => simpa only [assertEq] using h
  | units u t _ =>
    cases b with
    | units u' t' => simp [assertEq, seq_ok] at h
    | _ => simpa only [assertEq] using h
  | string n e =>
    cases b with
    | string n' e' =>
      rw [assertString_ok] at h ⊢
      exact ⟨fun x => h.1 (henc x), fun x => h.2 (hfix x)⟩
    | _ => simpa only [assertEq] using h
  | option t ih =>
    cases b with
    | option t' => simp only [assertEq] at h ⊢; exact ih _ h
    | _ => simpa only [assertEq] using h
  | record fs ih =>
    cases b with
    | record gs =>
      rw [assertRecord_ok] at h ⊢
      have key : ∀ l m, (∀ f ∈ l, f ∈ fs) → FieldsRel (fun a b => assertEq fl' a b = .ok ()) l m →
          FieldsRel (fun a b => assertEq fl a b = .ok ()) l m :=
        fun l m hl h => h.mono fun f hf y hy => ih f (hl f hf) y hy
      cases h1 : fl.recordOrder
      · cases h2 : fl'.recordOrder
        · rw [h2] at h
          exact key _ _ (fun f hf => (sortFields_perm fs).subset hf) h
        · rw [h2] at h
          exact (key _ _ (fun f hf => hf) h).sort
      · rw [hord h1] at h
        exact key _ _ (fun f hf => hf) h
    | _ => simpa only [assertEq] using h
  | tuple ts ih =>
    cases b with
    | tuple us =>
      simp only [assertEq, seq_ok, pyAssert_ok, beq_iff_eq] at h ⊢
      refine ⟨h.1, (assertL_ok h.1).2 fun i h₁ h₂ => ih _ (List.getElem_mem h₁) _ ((assertL_ok h.1).1 h.2 i h₁ h₂)⟩
    | _ => simpa only [assertEq] using h
  | func ts ih =>
    cases b with
    | func us =>
      simp only [assertEq, seq_ok, pyAssert_ok, beq_iff_eq] at h ⊢
      refine ⟨h.1, (assertL_ok h.1).2 fun i h₁ h₂ => ih _ (List.getElem_mem h₁) _ ((assertL_ok h.1).1 h.2 i h₁ h₂)⟩
    | _ => simpa only [assertEq] using h
  | _ => simpa only [assertEq] using h

/-! ### Record order -/

theorem insertField_sorted {α : Type} (x : Str × α) (l : List (Str × α)) (h : l.Pairwise fun a b => a.1 < b.1)
    (hx : x.1 ∉ l.map (·.1)) : (insertField x l).Pairwise fun a b => a.1 < b.1 := by
  induction l with
  | nil => simp [insertField]
  | cons z l ih =>
    have hne : x.1 ≠ z.1 := fun e => hx (by simp [e])
    rw [insertField]
    split
    · rename_i hle
      have hlt := str_lt_of x.1 z.1 ((strLe_iff x.1 z.1).1 hle) hne
      refine .cons ?_ h
      intro y hy
      rcases List.mem_cons.1 hy with rfl | hy
      · exact hlt
      · exact str_lt_trans hlt ((List.pairwise_cons.1 h).1 y hy)
    · rename_i hle
      have hlt : z.1 < x.1 := by
        rw [strLe_iff] at hle
        exact Decidable.byContradiction fun hn => hle hn
      refine .cons ?_ (ih (List.pairwise_cons.1 h).2 (fun h' => hx (by simp at h' ⊢; exact .inr h')))
      intro y hy
      rcases List.mem_cons.1 ((insertField_perm x l).subset hy) with rfl | hy
      · exact hlt
      · exact (List.pairwise_cons.1 h).1 y hy

theorem sortFields_sorted {α : Type} (l : List (Str × α)) (h : (l.map (·.1)).Nodup) :
    (sortFields l).Pairwise fun a b => a.1 < b.1 := by
  induction l with
  | nil => simp [sortFields]
  | cons z l ih =>
    rw [List.map_cons, List.nodup_cons] at h
    refine insertField_sorted z _ (ih h.2) fun h' => h.1 ?_
    exact ((sortFields_perm l).map _).subset h'

theorem sortFields_eq_of_perm {α : Type} {l m : List (Str × α)} (hp : l.Perm m) (h : (l.map (·.1)).Nodup) :
    sortFields l = sortFields m := by
  refine ((sortFields_perm l).trans (hp.trans (sortFields_perm m).symm)).eq_of_pairwise ?_
    (sortFields_sorted l h) (sortFields_sorted m ((hp.map _).nodup h))
  intro a b _ _ h1 h2
  exact absurd (str_lt_trans h1 h2) (List.lt_irrefl _)

/-- With `check_record_order=False`, records whose fields are the same up to order pass. -/
theorem C38.any_order (fl : Flags) (hf : fl.recordOrder = false) (fs gs : List (Str × Ty)) (hp : fs.Perm gs)
    (hn : (fs.map (·.1)).Nodup) (ha : ∀ f ∈ fs, f.2.everywhere eqLocal = true)
    (hu : ∀ f ∈ fs, f.2.everywhere Ty.notUnits = true) :
    assertEq fl (.record fs) (.record gs) = .ok () := by
  rw [assertRecord_ok, hf]
  simp only [Bool.false_eq_true, if_false]
  rw [← sortFields_eq_of_perm hp hn]
  have : ∀ l : List (Str × Ty), (∀ f ∈ l, f ∈ fs) → FieldsRel (fun a b => assertEq fl a b = .ok ()) l l := by
    intro l
    induction l with
    | nil => exact fun _ => .nil
    | cons f l ih =>
      intro h
      obtain ⟨n, t⟩ := f
      have hm := h _ List.mem_cons_self
      exact .cons (C38.equal_passes fl t t (ha _ hm) (ha _ hm) (hu _ hm) (pyEq_refl (ha _ hm)))
        (ih fun f hf => h f (List.mem_cons_of_mem _ hf))
  exact this _ fun f hf => (sortFields_perm fs).subset hf

/-- With `check_record_order=False`, records that pass have the same names up to order. -/
theorem C38.same_names (fl : Flags) (fs gs : List (Str × Ty)) (h : assertEq fl (.record fs) (.record gs) = .ok ()) :
    (fs.map (·.1)).Perm (gs.map (·.1)) := by
  rw [assertRecord_ok] at h
  have key : ∀ (l m : List (Str × Ty)), FieldsRel (fun a b => assertEq fl a b = .ok ()) l m →
      l.map (·.1) = m.map (·.1) := by
    intro l m h
    induction h with
    | nil => rfl
    | cons _ _ ih => simp [ih]
  have := key _ _ h
  cases hr : fl.recordOrder
  · rw [hr] at this
    simp only [Bool.false_eq_true, if_false] at this
    have h1 := (sortFields_perm fs).map (·.1)
    have h2 := (sortFields_perm gs).map (·.1)
    rw [this] at h1
    exact h1.symm.trans h2
  · rw [hr] at this
    simp only [if_true] at this
    rw [this]

/-! ### Examples and witnesses -/

/-- A nested example that passes, and one that fails inside. -/
theorem C38.example :
    let a : Ty := .dshape [.var, .record [(py"x", .option (.datetime (some (py"UTC")))), (py"y", tInt32)]]
    let b : Ty := .dshape [.var, .record [(py"x", .option (.datetime none)), (py"y", tInt32)]]
    assertEq {} a a = .ok () ∧ assertEq {} a b = .error .assertion ∧ assertEq { tz := false } a b = .ok () := by
  exact ⟨rfl, rfl, rfl⟩

/-- The shapes are compared only as far as the shorter one goes: different datashapes pass. -/
theorem C38.prefix_passes :
    let a : Ty := .dshape [.fixed 3, .fixed 4, tInt32]
    let b : Ty := .dshape [.fixed 3, tInt32]
    pyEq a b = false ∧ assertEq {} a b = .ok () := ⟨rfl, rfl⟩

/-- Two equal `Units` raise `AttributeError` (`path.append` on a tuple). -/
theorem C38.units_crash (fl : Flags) (u : Str) (t : Ty) :
    assertEq fl (.units u t) (.units u t) = .error .attributeError := by
  simp [assertEq, pyAssert, bind, Except.bind]

/-- A fixed-length string against one without length raises `TypeError` while the message is built. -/
theorem C38.fixlen_message :
    assertEq {} (.string (some 10) (py"A")) (.string none (py"A")) = .error .typeError := rfl

end DS
