import Verif.Spec.Same
import Verif.Proofs.Equality

namespace DS

theorem eqL_zip (a b : List Ty) :
    eqL a b = true ↔ a.length = b.length ∧ ∀ p ∈ a.zip b, pyEq p.1 p.2 = true := by
  induction a generalizing b with
  | nil => cases b <;> simp [eqL]
  | cons x a ih => cases b <;> simp [eqL, ih, pyEq]; grind

theorem dshape_eqM_iff (ds es : List Ty) (m n : Ty) :
    pyEq (.dshape (ds ++ [m])) (.dshape (es ++ [n])) = true ↔
      (ds.length = es.length ∧ (∀ p ∈ ds.zip es, pyEq p.1 p.2 = true) ∧ eqM m false n = true) := by
  rw [pyEq_code _ _ (by simp) (by simp)]
  simp [Ty.shape, Ty.measure, eqL_zip, and_assoc]

theorem eqF_zip (a b : List (Str × Ty)) :
    eqF a b = true ↔ a.map (·.1) = b.map (·.1) ∧ ∀ p ∈ a.zip b, pyEq p.1.2 p.2.2 = true := by
  induction a generalizing b with
  | nil => cases b <;> simp [eqF]
  | cons x a ih => obtain ⟨n, x⟩ := x; cases b <;> simp [eqF, ih, pyEq]; grind

theorem sameLit_iff (a b : Lit) : SameLit a b ↔ a.pyEq b = true := by
  constructor
  · intro h; cases h <;> simp [Lit.pyEq, Lit.canon]
  · intro h
    cases a <;> cases b <;> simp [Lit.pyEq, Lit.canon] at h <;> try (subst h; constructor)
    all_goals
      rename_i x y
      first
      | (cases x <;> simp at h <;> subst h <;> constructor)
      | (cases y <;> simp at h <;> subst h <;> constructor)
      | skip

theorem litsEq_zip (a b : List Lit) :
    litsEq a b = true ↔ a.length = b.length ∧ ∀ p ∈ a.zip b, SameLit p.1 p.2 := by
  induction a generalizing b with
  | nil => cases b <;> simp [litsEq]
  | cons x a ih => cases b <;> simp [litsEq, ih, sameLit_iff]; grind

theorem view_self (t : Ty) (h : t.everywhere eqLocal = true) : View t t.shape t.measure := by
  induction t using Ty.ind with
  | dshape ps _ =>
    have h0 := everywhere_self h
    cases hl : ps.getLast? with
    | none => simp [eqLocal, hl] at h0
    | some m =>
      obtain ⟨ds, rfl⟩ := List.getLast?_eq_some_iff.1 hl
      simpa [Ty.shape, Ty.measure] using View.array ds m
  | option t ih => exact .option (ih (everywhere_child h (by simp [Ty.children])))
  | _ => exact .scalar _ (by simp) (by simp)

theorem view_det {t m : Ty} {ds : List Ty} (h : View t ds m) : ds = t.shape ∧ m = t.measure := by
  induction h with
  | array ds m => simp [Ty.shape, Ty.measure]
  | option h ih => simp [Ty.shape, Ty.measure, ih]
  | scalar t h h' => cases t <;> simp_all [Ty.shape, Ty.measure]

/-- what is shown for a left operand -/
private def Good (a : Ty) : Prop :=
  (∀ b, b.everywhere eqLocal = true → (pyEq a b = true ↔ Same a b)) ∧
  (∀ b, b.everywhere eqLocal = true → (eqM a false b = true ↔ SameMeasure a b))

private theorem list_same {l m : List Ty} (hl : ∀ a ∈ l, Good a) (hm : ∀ b ∈ m, b.everywhere eqLocal = true) :
    eqL l m = true ↔ l.length = m.length ∧ ∀ p ∈ l.zip m, Same p.1 p.2 := by
  rw [eqL_zip]
  refine and_congr_right fun _ => forall_congr' fun p => imp_congr_right fun hp => ?_
  have := List.of_mem_zip hp
  exact (hl _ this.1).1 _ (hm _ this.2)

private theorem same_of {a : Ty} (ha : a.everywhere eqLocal = true) (h1 : ∀ n, a ≠ .fixed n)
    (hs : ∀ s ∈ a.shape, Good s)
    (hm : ∀ b, b.everywhere eqLocal = true → (eqM a.measure false b = true ↔ SameMeasure a.measure b)) :
    ∀ b, b.everywhere eqLocal = true → (pyEq a b = true ↔ Same a b) := by
  intro b hb
  have h2 : ∀ o n, a ≠ .typeset o n := by
    intro o n h; have := everywhere_self ha; subst h; simp [eqLocal] at this
  rw [pyEq_code a b h1 h2, Bool.and_eq_true, list_same hs (ok_shape hb), hm _ (ok_measure hb)]
  constructor
  · rintro ⟨⟨h, h'⟩, h''⟩
    exact .mk (view_self a ha) (view_self b hb) h h' h''
  · rintro ⟨va, vb, h, h', h''⟩
    obtain ⟨rfl, rfl⟩ := view_det va
    obtain ⟨rfl, rfl⟩ := view_det vb
    exact ⟨⟨h, h'⟩, h''⟩

private theorem good_all (a : Ty) (ha : a.everywhere eqLocal = true) : Good a ∧ ∀ s ∈ a.shape, Good s := by
  induction a using Ty.ind with
  | fixed n =>
    have info : ∀ b, eqM (.fixed n) false b = true ↔ SameMeasure (.fixed n) b := by
      intro b
      constructor
      · intro h; cases b <;> simp [eqM] at h; subst h; exact .atom _ rfl
      · rintro ⟨⟩; simp [eqM]
    refine ⟨⟨fun b hb => ?_, fun b _ => info b⟩, by simp [Ty.shape]⟩
    constructor
    · intro h
      cases b <;> simp [pyEq, eqM] at h
      subst h
      exact .mk (.scalar _ (by simp) (by simp)) (.scalar _ (by simp) (by simp)) rfl (by simp) (.atom _ rfl)
    · rintro ⟨va, vb, h, h', h''⟩
      obtain ⟨rfl, rfl⟩ := view_det va
      obtain ⟨rfl, rfl⟩ := view_det vb
      have hbm : b.measure = .fixed n := by
        generalize b.measure = m at h''
        simp only [Ty.measure] at h''
        cases h''; rfl
      have := measure_ne_fixed (everywhere_self hb) n hbm
      subst this; simp [pyEq, eqM]
  | typeset o n => have := everywhere_self ha; simp [eqLocal] at this
  | option t ih =>
    have ⟨g, gs⟩ := ih (everywhere_child ha (by simp [Ty.children]))
    have info : ∀ b, b.everywhere eqLocal = true →
        (eqM (.option t) false b = true ↔ SameMeasure (.option t) b) := by
      intro b hb
      constructor
      · intro h; cases b <;> simp [eqM] at h
        exact .option ((g.1 _ (everywhere_child hb (by simp [Ty.children]))).1 h)
      · intro h
        cases h with
        | atom _ h => simp [Ty.atomic] at h
        | option h => simpa [eqM, pyEq] using (g.1 _ (everywhere_child hb (by simp [Ty.children]))).2 h
    exact ⟨⟨same_of ha (by simp) gs info, info⟩, gs⟩
  | dshape ps ih =>
    have kids : ∀ s ∈ ps, Good s := fun s hs => (ih s hs (everywhere_child ha (by simpa [Ty.children] using hs))).1
    have shp : ∀ s ∈ (Ty.dshape ps).shape, Good s := fun s hs => kids s (List.dropLast_subset _ hs)
    have info : ∀ b, b.everywhere eqLocal = true →
        (eqM (.dshape ps) false b = true ↔ SameMeasure (.dshape ps) b) := by
      intro b hb
      constructor
      · intro h; cases b <;> simp only [eqM, Bool.false_eq_true] at h
        have := (list_same kids (fun b h => everywhere_child hb (by simpa [Ty.children] using h))).1 h
        exact .array this.1 this.2
      · intro h
        cases h with
        | atom _ h => simp [Ty.atomic] at h
        | array h h' =>
          simp only [eqM]
          exact (list_same kids (fun b h => everywhere_child hb (by simpa [Ty.children] using h))).2 ⟨h, h'⟩
    refine ⟨⟨same_of ha (by simp) shp ?_, info⟩, shp⟩
    have h0 := everywhere_self ha
    cases hl : ps.getLast? with
    | none => simp [eqLocal, hl] at h0
    | some m => simpa [Ty.measure, hl] using (kids m (List.mem_of_getLast? hl)).2
  | units u t ih =>
    have g := (ih (everywhere_child ha (by simp [Ty.children]))).1
    have info : ∀ b, b.everywhere eqLocal = true →
        (eqM (.units u t) false b = true ↔ SameMeasure (.units u t) b) := by
      intro b hb
      constructor
      · intro h; cases b <;> simp [eqM, Ty.noShape, Ty.target] at h
        obtain ⟨rfl, h⟩ := h
        exact .units _ ((g.1 _ (everywhere_child hb (by simp [Ty.children]))).1 h)
      · intro h
        cases h with
        | atom _ h => simp [Ty.atomic] at h
        | units _ h =>
          simpa [eqM, pyEq, Ty.noShape, Ty.target] using (g.1 _ (everywhere_child hb (by simp [Ty.children]))).2 h
    exact ⟨⟨same_of ha (by simp) (by simp [Ty.shape]) info, info⟩, by simp [Ty.shape]⟩
  | map k v ihk ihv =>
    have gk := (ihk (everywhere_child ha (by simp [Ty.children]))).1
    have gv := (ihv (everywhere_child ha (by simp [Ty.children]))).1
    have info : ∀ b, b.everywhere eqLocal = true →
        (eqM (.map k v) false b = true ↔ SameMeasure (.map k v) b) := by
      intro b hb
      constructor
      · intro h; cases b <;> simp [eqM, Ty.noShape, Ty.target] at h
        exact .map ((gk.1 _ (everywhere_child hb (by simp [Ty.children]))).1 h.1)
          ((gv.1 _ (everywhere_child hb (by simp [Ty.children]))).1 h.2)
      · intro h
        cases h with
        | atom _ h => simp [Ty.atomic] at h
        | map h h' =>
          simpa [eqM, pyEq, Ty.noShape, Ty.target] using
            And.intro ((gk.1 _ (everywhere_child hb (by simp [Ty.children]))).2 h)
            ((gv.1 _ (everywhere_child hb (by simp [Ty.children]))).2 h')
    exact ⟨⟨same_of ha (by simp) (by simp [Ty.shape]) info, info⟩, by simp [Ty.shape]⟩
  | func ps ih =>
    have kids : ∀ s ∈ ps, Good s := fun s hs => (ih s hs (everywhere_child ha (by simpa [Ty.children] using hs))).1
    have info : ∀ b, b.everywhere eqLocal = true →
        (eqM (.func ps) false b = true ↔ SameMeasure (.func ps) b) := by
      intro b hb
      constructor
      · intro h; cases b <;> simp [eqM, Ty.noShape, Ty.target] at h
        have := (list_same kids (fun b h => everywhere_child hb (by simpa [Ty.children] using h))).1 h
        exact .func this.1 this.2
      · intro h
        cases h with
        | atom _ h => simp [Ty.atomic] at h
        | func h h' =>
          simpa [eqM, Ty.noShape, Ty.target] using
            (list_same kids (fun b h => everywhere_child hb (by simpa [Ty.children] using h))).2 ⟨h, h'⟩
    exact ⟨⟨same_of ha (by simp) (by simp [Ty.shape]) info, info⟩, by simp [Ty.shape]⟩
  | tuple ps ih =>
    have kids : ∀ s ∈ ps, Good s := fun s hs => (ih s hs (everywhere_child ha (by simpa [Ty.children] using hs))).1
    have info : ∀ b, b.everywhere eqLocal = true →
        (eqM (.tuple ps) false b = true ↔ SameMeasure (.tuple ps) b) := by
      intro b hb
      constructor
      · intro h; cases b <;> simp [eqM, Ty.noShape, Ty.target] at h
        have := (list_same kids (fun b h => everywhere_child hb (by simpa [Ty.children] using h))).1 h
        exact .tuple this.1 this.2
      · intro h
        cases h with
        | atom _ h => simp [Ty.atomic] at h
        | tuple h h' =>
          simpa [eqM, Ty.noShape, Ty.target] using
            (list_same kids (fun b h => everywhere_child hb (by simpa [Ty.children] using h))).2 ⟨h, h'⟩
    exact ⟨⟨same_of ha (by simp) (by simp [Ty.shape]) info, info⟩, by simp [Ty.shape]⟩
  | record fs ih =>
    have kids : ∀ f ∈ fs, Good f.2 := fun f hf =>
      (ih f hf (everywhere_child ha (by simpa [Ty.children] using ⟨f.1, hf⟩))).1
    have key : ∀ gs : List (Str × Ty), (Ty.record gs).everywhere eqLocal = true →
        (eqF fs gs = true ↔ fs.map (·.1) = gs.map (·.1) ∧ ∀ p ∈ fs.zip gs, Same p.1.2 p.2.2) := by
      intro gs hb
      rw [eqF_zip]
      refine and_congr_right fun _ => forall_congr' fun p => imp_congr_right fun hp => ?_
      have := List.of_mem_zip hp
      exact (kids _ this.1).1 _ (everywhere_child hb (by simpa [Ty.children] using ⟨p.2.1, this.2⟩))
    have info : ∀ b, b.everywhere eqLocal = true →
        (eqM (.record fs) false b = true ↔ SameMeasure (.record fs) b) := by
      intro b hb
      constructor
      · intro h; cases b <;> simp only [eqM, Ty.noShape, Ty.target, Bool.not_false, Bool.true_or, Bool.true_and, if_false, Bool.false_eq_true] at h
        have := (key _ hb).1 h
        exact .record this.1 this.2
      · intro h
        cases h with
        | atom _ h => simp [Ty.atomic] at h
        | record h h' =>
          have := (key _ hb).2 ⟨h, h'⟩
          simpa [eqM, Ty.noShape, Ty.target] using this
    exact ⟨⟨same_of ha (by simp) (by simp [Ty.shape]) info, info⟩, by simp [Ty.shape]⟩
  | categorical c t o ih =>
    have g := (ih (everywhere_child ha (by simp [Ty.children]))).1
    have info : ∀ b, b.everywhere eqLocal = true →
        (eqM (.categorical c t o) false b = true ↔ SameMeasure (.categorical c t o) b) := by
      intro b hb
      constructor
      · intro h; cases b <;> simp [eqM, Ty.noShape, Ty.target] at h
        obtain ⟨⟨hc, h⟩, rfl⟩ := h
        have := (litsEq_zip _ _).1 hc
        exact .categorical _ this.1 this.2 ((g.1 _ (everywhere_child hb (by simp [Ty.children]))).1 h)
      · intro h
        cases h with
        | atom _ h => simp [Ty.atomic] at h
        | categorical _ h1 h2 h =>
          have := (litsEq_zip _ _).2 ⟨h1, h2⟩
          simpa [eqM, pyEq, Ty.noShape, Ty.target, this] using
            (g.1 _ (everywhere_child hb (by simp [Ty.children]))).2 h
    exact ⟨⟨same_of ha (by simp) (by simp [Ty.shape]) info, info⟩, by simp [Ty.shape]⟩
  | _ =>
    refine ⟨⟨same_of ha (by simp) (by simp [Ty.shape]) ?_, ?_⟩, by simp [Ty.shape]⟩
    all_goals
      intro b hb
      constructor
      · intro h
        cases b <;> simp [eqM, Ty.measure, Ty.noShape, Ty.target] at h
        all_goals first
        | exact .atom _ rfl
        | (subst h; exact .atom _ rfl)
        | (obtain ⟨rfl, rfl⟩ := h; exact .atom _ rfl)
        | (obtain ⟨⟨rfl, rfl⟩, rfl⟩ := h; exact .atom _ rfl)
      · intro h
        try simp only [Ty.measure] at h
        cases h
        simp [eqM, Ty.measure, Ty.noShape, Ty.target]

/-- `==` decides the specification `Same`. -/
theorem pyEq_same {a b : Ty} (ha : a.everywhere eqLocal = true) (hb : b.everywhere eqLocal = true) :
    pyEq a b = true ↔ Same a b := (good_all a ha).1.1 b hb

end DS
