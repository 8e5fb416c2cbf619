import Verif.Proofs.InterchangeUse
import Verif.Props.RoundTrip

/-
The predicates of predicates.py do not see one-element `DataShape`s.
-/
namespace DS

variable {env : Env}

theorem strip_many (x y : Ty) (r : List Ty) :
    (Ty.dshape (x :: y :: r)).strip = .dshape ((x :: y :: r).map Ty.strip) := by
  simp only [Ty.strip, stripL_eq, List.map_cons, single]

theorem measure_self {t : Ty} (h : t.isDShape = false) : t.measure = t := by
  cases t <;> simp [Ty.isDShape] at h <;> rfl

theorem measure_strip {t : Ty} (hw : WF env t) : t.strip.measure = t.measure.strip := by
  cases hd : t.isDShape with
  | false => rw [measure_self hd, measure_self (strip_isDShape hd)]
  | true =>
    cases t <;> simp [Ty.isDShape] at hd
    rename_i ps
    obtain ⟨hne, hp⟩ := wf_params hw
    match ps with
    | [] => exact absurd rfl hne
    | [m] =>
      have e : (Ty.dshape [m]).strip = m.strip := rfl
      rw [e, measure_self (strip_isDShape (hp m (by simp)))]
      rfl
    | x :: y :: r =>
      rw [strip_many]
      simp only [Ty.measure, List.getLast?_map]
      rw [List.getLast?_eq_some_getLast (by simp)]
      rfl

theorem shape_strip {t : Ty} (hw : WF env t) (ho : t.everywhere noOptArr = true) : t.strip.shape.length = t.shape.length := by
  cases hd : t.isDShape with
  | false =>
    rw [shape_nil ho hd]
    induction t using Ty.ind with
    | option t ih =>
      have h0 := everywhere_self ho
      simp only [noOptArr, Bool.not_eq_true'] at h0
      exact ih (everywhere_child hw (by simp [Ty.children])) (everywhere_child ho (by simp [Ty.children])) h0
    | dshape => simp [Ty.isDShape] at hd
    | _ => rfl
  | true =>
    cases t <;> simp [Ty.isDShape] at hd
    rename_i ps
    obtain ⟨hne, hp⟩ := wf_params hw
    match ps with
    | [] => exact absurd rfl hne
    | [m] =>
      have e : (Ty.dshape [m]).strip = m.strip := rfl
      rw [e]
      have hm := hp m (by simp)
      have hmo : m.everywhere noOptArr = true := everywhere_child ho (by simp [Ty.children])
      have hmw : WF env m := everywhere_child hw (by simp [Ty.children])
      clear e hp hne hw ho
      induction m using Ty.ind with
      | option t ih =>
        have h0 := everywhere_self hmo
        simp only [noOptArr, Bool.not_eq_true'] at h0
        exact ih h0 (everywhere_child hmo (by simp [Ty.children])) (everywhere_child hmw (by simp [Ty.children]))
      | dshape => simp [Ty.isDShape] at hm
      | _ => rfl
    | x :: y :: r =>
      rw [strip_many]
      simp [Ty.shape]

theorem launder_strip {t : Ty} (hw : WF env t) : launderTy t.strip = (launderTy t).strip := by
  cases hd : t.isDShape with
  | false => rw [launderTy_id hd, launderTy_id (strip_isDShape hd)]
  | true =>
    cases t <;> simp [Ty.isDShape] at hd
    rename_i ps
    obtain ⟨hne, hp⟩ := wf_params hw
    match ps with
    | [] => exact absurd rfl hne
    | [m] =>
      have e : (Ty.dshape [m]).strip = m.strip := rfl
      rw [e, launderTy_id (strip_isDShape (hp m (by simp)))]
      rfl
    | x :: y :: r =>
      have e : launderTy (.dshape (x :: y :: r)) = .dshape (x :: y :: r) := rfl
      rw [e, strip_many]
      rfl

theorem unOption_strip (t : Ty) (hd : t.isDShape = false) : t.strip.unOption = t.unOption.strip := by
  cases t <;> simp [Ty.isDShape] at hd <;> rfl

theorem unOption_plain {t : Ty} (hd : t.isDShape = false) (ho : noOptArr t = true) : t.unOption.isDShape = false := by
  cases t <;> simp_all [Ty.isDShape, Ty.unOption, noOptArr]

theorem isUnit_strip {t : Ty} (hd : t.isDShape = false) : t.strip.isUnit = t.isUnit ∧
    t.strip.isCategorical = t.isCategorical ∧ t.strip.isRecord = t.isRecord := by
  cases t <;> simp [Ty.isDShape] at hd <;> exact ⟨rfl, rfl, rfl⟩

theorem ctype_strip {t : Ty} (hd : t.isDShape = false) (n : Str) (i a : Nat) :
    t.strip = .ctype n i a ↔ t = .ctype n i a := by
  cases t <;> simp [Ty.isDShape] at hd <;> simp [Ty.strip]

theorem date_strip {t : Ty} (hd : t.isDShape = false) : (t.strip = .date ↔ t = .date) ∧
    (∀ z, t.strip = .datetime z ↔ t = .datetime z) := by
  cases t <;> simp [Ty.isDShape] at hd <;> simp [Ty.strip]

theorem launder_plain {t : Ty} (hw : WF env t) : (∃ x y r, t = .dshape (x :: y :: r) ∧ launderTy t = t) ∨
    ((launderTy t).isDShape = false ∧ ((launderTy t) = t ∨ t = .dshape [launderTy t])) := by
  cases hd : t.isDShape with
  | false => rw [launderTy_id hd]; exact .inr ⟨hd, .inl rfl⟩
  | true =>
    cases t <;> simp [Ty.isDShape] at hd
    rename_i ps
    obtain ⟨hne, hp⟩ := wf_params hw
    match ps with
    | [] => exact absurd rfl hne
    | [m] => exact .inr ⟨hp m (by simp), .inr rfl⟩
    | x :: y :: r => exact .inl ⟨x, y, r, rfl, rfl⟩

theorem class_strip {t : Ty} (hw : WF env t) (ho : t.everywhere noOptArr = true) :
    isScalar t.strip = isScalar t ∧ isRecord t.strip = isRecord t := by
  simp only [isScalar, isRecord]
  rw [launder_strip hw]
  rcases launder_plain hw with ⟨x, y, r, rfl, h⟩ | ⟨h, h'⟩
  · rw [h, strip_many]
    exact ⟨rfl, rfl⟩
  · have ho' : noOptArr (launderTy t) = true := by
      rcases h' with h' | h'
      · rw [h']; exact everywhere_self ho
      · rw [h'] at ho
        exact everywhere_self (everywhere_child ho (by simp [Ty.children]))
    rw [unOption_strip _ h]
    have := isUnit_strip (unOption_plain h ho')
    exact ⟨by rw [this.1, this.2.1], this.2.2⟩

/-- the measure of a well-formed datashape is not an array -/
theorem measure_plain {t : Ty} (hw : WF env t) : t.measure.isDShape = false := by
  cases hd : t.isDShape with
  | false => rw [measure_self hd]; exact hd
  | true =>
    cases t <;> simp [Ty.isDShape] at hd
    rename_i ps
    obtain ⟨hne, hp⟩ := wf_params hw
    simp only [Ty.measure]
    rw [List.getLast?_eq_some_getLast hne]
    exact hp _ (List.getLast_mem hne)

theorem measure_everywhere {p : Ty → Bool} {t : Ty} (hw : WF env t) (h : t.everywhere p = true) :
    t.measure.everywhere p = true := by
  cases hd : t.isDShape with
  | false => rw [measure_self hd]; exact h
  | true =>
    cases t <;> simp [Ty.isDShape] at hd
    rename_i ps
    obtain ⟨hne, hp⟩ := wf_params hw
    simp only [Ty.measure]
    rw [List.getLast?_eq_some_getLast hne]
    exact everywhere_child h (List.getLast_mem hne)

theorem measureOf_strip {t : Ty} (hw : WF env t) (ho : t.everywhere noOptArr = true) :
    measureOf t.strip = (measureOf t).strip ∧ (measureOf t).isDShape = false := by
  have hp := measure_plain hw
  simp only [measureOf]
  rw [measure_strip hw, unOption_strip _ hp]
  exact ⟨rfl, unOption_plain hp (everywhere_self (measure_everywhere hw ho))⟩

/-! ### validation of a datashape, isfixed, istabular -/

theorem ellipsis_strip {t : Ty} (hd : t.isDShape = false) : t.strip.isEllipsis = t.isEllipsis := by
  cases t <;> simp [Ty.isDShape] at hd <;> rfl

theorem validOk_strip (t : Ty) (hw : WF env t) (ho : t.everywhere ordinaryLocal = true) : validOk t.strip = validOk t := by
  induction t using Ty.ind with
  | option t ih => exact ih (everywhere_child hw (by simp [Ty.children])) (everywhere_child ho (by simp [Ty.children]))
  | map k v ihk ihv =>
    simp only [Ty.strip, validOk]
    rw [ihk (everywhere_child hw (by simp [Ty.children])) (everywhere_child ho (by simp [Ty.children])),
      ihv (everywhere_child hw (by simp [Ty.children])) (everywhere_child ho (by simp [Ty.children]))]
  | categorical c t o ih =>
    exact ih (everywhere_child hw (by simp [Ty.children])) (everywhere_child ho (by simp [Ty.children]))
  | func ps ih =>
    simp only [Ty.strip, validOk, stripL_eq, validOkL_eq, List.all_map]
    apply Bool.eq_iff_iff.2
    simp only [List.all_eq_true, Function.comp_apply]
    exact forall_congr' fun t => imp_congr_right fun ht => by
      rw [ih t ht (everywhere_child hw (by simpa [Ty.children] using ht)) (everywhere_child ho (by simpa [Ty.children] using ht))]
  | dshape ps ih =>
    obtain ⟨hne, hp⟩ := wf_params hw
    have h : ∀ t ∈ ps, validOk t.strip = validOk t := fun t ht =>
      ih t ht (everywhere_child hw (by simpa [Ty.children] using ht)) (everywhere_child ho (by simpa [Ty.children] using ht))
    match ps with
    | [] => exact absurd rfl hne
    | [m] =>
      have e : (Ty.dshape [m]).strip = m.strip := rfl
      have hm : m.measureLike = true := by
        have := everywhere_self ho
        simpa [ordinaryLocal] using this
      have he : m.isEllipsis = false := by cases m <;> simp [Ty.measureLike] at hm <;> rfl
      rw [e, h m (by simp)]
      simp [validOk, validOkL, he]
    | x :: y :: r =>
      rw [strip_many]
      simp only [validOk, validOkL_eq, List.all_map, List.filter_map, List.length_map, List.getLast?_map]
      have e1 : ((x :: y :: r).all (validOk ∘ Ty.strip)) = (x :: y :: r).all validOk := by
        apply Bool.eq_iff_iff.2
        simp only [List.all_eq_true, Function.comp_apply]
        exact forall_congr' fun t => imp_congr_right fun ht => by rw [h t ht]
      have e2 : (x :: y :: r).filter (Ty.isEllipsis ∘ Ty.strip) = (x :: y :: r).filter Ty.isEllipsis :=
        List.filter_congr fun t ht => ellipsis_strip (hp t ht)
      have e3 : ((x :: y :: r).getLast?.map Ty.strip).map Ty.isEllipsis = (x :: y :: r).getLast?.map Ty.isEllipsis := by
        rw [List.getLast?_eq_some_getLast (by simp)]
        simp only [Option.map_some]
        rw [ellipsis_strip (hp _ (List.getLast_mem (by simp)))]
      rw [e1, e2, e3]
  | _ => rfl

theorem isFixedF_map {l : List (Str × Ty)} (h : ∀ f ∈ l, isFixed f.2.strip = isFixed f.2) :
    isFixedF (l.map fun f => (f.1, f.2.strip)) = isFixedF l := by
  induction l with
  | nil => rfl
  | cons a l ih => obtain ⟨n, a⟩ := a; simp [isFixedF, h (n, a) (by simp), ih fun t ht => h t (by simp [ht])]

theorem isFixedL_map {l : List Ty} (h : ∀ t ∈ l, isFixedHead t.strip = isFixedHead t) :
    isFixedL (l.map Ty.strip) = isFixedL l := by
  induction l with
  | nil => rfl
  | cons a l ih =>
    have e := ih fun t ht => h t (by simp [ht])
    simp only [List.map_cons, isFixedL, h a (by simp)]
    cases isFixedHead a with
    | some => rfl
    | none =>
      cases l with
      | nil => rfl
      | cons b l => simp only [List.map_cons] at e ⊢; exact e

theorem isFixed_aux (t : Ty) (hw : WF env t) (ho : t.everywhere ordinaryLocal = true) :
    (t.isDShape = false → isFixedHead t.strip = isFixedHead t) ∧
    (t.isSingleton = false ∨ validOk t = true → isFixed t.strip = isFixed t) := by
  induction t using Ty.ind with
  | record fs ih =>
    have h : ∀ f ∈ fs, isFixed f.2.strip = isFixed f.2 := fun f hf => by
      have hc : f.2 ∈ (Ty.record fs).children := List.mem_map_of_mem hf
      have h0 := everywhere_self hw
      simp only [localOk, Bool.and_eq_true, List.all_eq_true, Bool.not_eq_true'] at h0
      exact (ih f hf (everywhere_child hw hc) (everywhere_child ho hc)).2 (.inl (h0.2 f hf))
    refine ⟨fun _ => ?_, fun _ => ?_⟩
    · simp only [Ty.strip, isFixedHead, stripF_eq, isFixedF_map h]
    · simp only [Ty.strip, isFixed, stripF_eq, isFixedF_map h]
  | dshape ps ih =>
    refine ⟨fun h => by simp [Ty.isDShape] at h, fun hv => ?_⟩
    obtain ⟨hne, hp⟩ := wf_params hw
    have h : ∀ t ∈ ps, isFixedHead t.strip = isFixedHead t := fun t ht =>
      (ih t ht (everywhere_child hw (by simpa [Ty.children] using ht)) (everywhere_child ho (by simpa [Ty.children] using ht))).1
        (hp t ht)
    match ps with
    | [] => exact absurd rfl hne
    | [m] =>
      have hv : validOk (.dshape [m]) = true := by
        rcases hv with hv | hv
        · cases hv
        · exact hv
      have hvm : validOk m = true := by simp [validOk, validOkL] at hv; exact hv.1.1
      have e : (Ty.dshape [m]).strip = m.strip := rfl
      have hm : m.measureLike = true := by
        have := everywhere_self ho
        simpa [ordinaryLocal] using this
      have hs : m.isSingleton = false := by
        have := hp m (by simp)
        cases m <;> simp [Ty.isDShape] at this <;> rfl
      rw [e, (ih m (by simp) (everywhere_child hw (by simp [Ty.children])) (everywhere_child ho (by simp [Ty.children]))).2
        (.inl hs)]
      have hd := hp m (by simp)
      cases m <;> simp [Ty.isDShape] at hd <;> simp [Ty.measureLike] at hm <;>
        simp [isFixed, isFixedL, isFixedHead, hvm]
    | x :: y :: r =>
      rw [strip_many]
      simp only [isFixed]
      exact isFixedL_map h
  | option t _ =>
    refine ⟨fun _ => rfl, fun _ => ?_⟩
    have := validOk_strip _ hw ho
    simp only [Ty.strip] at this
    simp only [Ty.strip, isFixed, this]
  | map k v _ _ =>
    refine ⟨fun _ => rfl, fun _ => ?_⟩
    have := validOk_strip _ hw ho
    simp only [Ty.strip] at this
    simp only [Ty.strip, isFixed, this]
  | func ps _ =>
    refine ⟨fun _ => rfl, fun _ => ?_⟩
    have := validOk_strip _ hw ho
    simp only [Ty.strip] at this
    simp only [Ty.strip, isFixed, this]
  | categorical c t o _ =>
    refine ⟨fun _ => rfl, fun _ => ?_⟩
    have := validOk_strip _ hw ho
    simp only [Ty.strip] at this
    simp only [Ty.strip, isFixed, this]
  | _ => exact ⟨fun _ => rfl, fun _ => rfl⟩

theorem ordinary_noOptArr {t : Ty} (h : t.everywhere ordinaryLocal = true) : t.everywhere noOptArr = true :=
  everywhere_mono (fun t ht => by cases t <;> first | exact ht | rfl) t h

theorem isTabular_eq {t : Ty} (h : Ordinary env t) (hv : validOk t = true) :
    isTabular t = .ok (t.shape.length == 1 && isRecord t.measure) := by
  cases hd : t.isDShape with
  | true => simp [isTabular, dshapeTy, hd, bind, Except.bind]
  | false =>
    have hs := shape_nil (ordinary_noOptArr h.ordinary) hd
    have e : ∃ d, dshapeTy t = .ok d ∧ d.shape = [] := by
      have hw : validOk (.dshape [t]) = true := by
        have hm := h.top
        have he : t.isEllipsis = false := by cases t <;> simp [Ty.measureLike] at hm <;> rfl
        simp [validOk, validOkL, hv, he]
      have hc : mkDS [t] = .ok (.dshape [t]) := by
        have hm := h.top
        simp only [mkDS, List.map_cons, List.map_nil, launderTy_id hd, checkDS, List.getLast?_singleton, List.dropLast_singleton]
        rw [if_neg, if_neg]
        · simp
        · cases t <;> simp [Ty.measureLike] at hm <;> simp [Ty.cls]
      have key : ∀ c : Bool, ∃ d, ((if c = true then mkDS [t] else .ok t) >>= fun d =>
          if validOk d then .ok d else .error .typeError) = .ok d ∧ d.shape = [] := by
        intro c
        cases c with
        | true => exact ⟨.dshape [t], by simp [hc, hw, bind, Except.bind], rfl⟩
        | false => exact ⟨t, by simp [hv, bind, Except.bind], hs⟩
      simp only [dshapeTy, hd, Bool.false_eq_true, if_false]
      exact key _
    obtain ⟨d, e, hd'⟩ := e
    simp [isTabular, e, bind, Except.bind, hs, hd']

end DS
