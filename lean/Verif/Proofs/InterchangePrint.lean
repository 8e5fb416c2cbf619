import Verif.Proofs.Interchange
import Verif.Model.Printer

/-
Printing does not see one-element `DataShape`s.
-/
namespace DS

variable {env : Env}

theorem wf_children {t : Ty} {ps : List Ty} (h : WF env t) (hc : t.children = ps) : ∀ p ∈ ps, WF env p := by
  subst hc
  exact fun p hp => everywhere_child h hp

/-- the parameters of a well-formed `DataShape` -/
theorem wf_params {ps : List Ty} (h : WF env (.dshape ps)) : ps ≠ [] ∧ ∀ p ∈ ps, p.isDShape = false := by
  have h0 := everywhere_self h
  simp only [localOk, Bool.and_eq_true, List.all_eq_true, Bool.not_eq_true', List.isEmpty_eq_false_iff] at h0
  exact ⟨h0.1.1.1, h0.2⟩

theorem canon_notBool {l : Lit} (h : l.notBool = true) : l.canon = l := by
  cases l <;> simp [Lit.notBool] at h <;> rfl

theorem renderL_strip {l : List Ty} (h : ∀ t ∈ l, ∀ w, render env t.strip w = render env t w) (w : Option Int) :
    renderL env (l.map Ty.strip) w = renderL env l w := by
  induction l with
  | nil => rfl
  | cons a l ih => simp [renderL, h a (by simp), ih fun t ht => h t (by simp [ht])]

theorem renderInit_strip {l : List Ty} (h : ∀ t ∈ l, ∀ w, render env t.strip w = render env t w) :
    renderInit env (l.map Ty.strip) = renderInit env l := by
  induction l with
  | nil => rfl
  | cons a l ih =>
    cases l with
    | nil => rfl
    | cons b l =>
      have := ih fun t ht => h t (by simp [ht])
      simp only [List.map_cons] at this
      simp [renderInit, h a (by simp), this]

theorem renderLast_strip {l : List Ty} (h : ∀ t ∈ l, ∀ w, render env t.strip w = render env t w) :
    renderLast env (l.map Ty.strip) = renderLast env l := by
  induction l with
  | nil => rfl
  | cons a l ih =>
    cases l with
    | nil => simp [renderLast, h a (by simp)]
    | cons b l =>
      have := ih fun t ht => h t (by simp [ht])
      simp only [List.map_cons] at this
      simp [renderLast, this]

theorem renderDS_map {l : List Ty} (h : ∀ t ∈ l, ∀ res w, renderDS env [t.strip] res w = renderDS env [t] res w)
    (res : Str) (w : Int) : renderDS env (l.map Ty.strip) res w = renderDS env l res w := by
  induction l with
  | nil => rfl
  | cons a l ih =>
    cases l with
    | nil => exact h a (by simp) res w
    | cons b l =>
      have := ih fun t ht => h t (by simp [ht])
      simp only [List.map_cons] at this
      simp [renderDS, this]

theorem renderF_strip {l : List (Str × Ty)} (h : ∀ f ∈ l, ∀ w, render env f.2.strip w = render env f.2 w) (w : Int) :
    renderF env (l.map fun f => (f.1, f.2.strip)) w = renderF env l w := by
  induction l with
  | nil => rfl
  | cons a l ih => obtain ⟨n, a⟩ := a; simp [renderF, h (n, a) (by simp), ih fun t ht => h t (by simp [ht])]

/-- a one-element `DataShape` is printed like its element -/
theorem renderDS_single (t : Ty) (h : t.isDShape = false) (w : Int) :
    renderDS env [t] [] w = render env t (some w) := by
  cases t <;> simp [renderDS, render] <;> simp [Ty.isDShape] at h
  all_goals (rename_i z; cases z <;> simp [render])

theorem render_single (t : Ty) (h : t.isDShape = false) (w : Option Int) :
    render env (.dshape [t]) w = render env t w := by
  cases w with
  | none => simp [render, renderL, join]
  | some w => simp only [render, renderInit, dimPrefix]; exact renderDS_single t h w

theorem strip_isDShape {t : Ty} (h : t.isDShape = false) : t.strip.isDShape = false := by
  cases t <;> simp [Ty.isDShape] at h <;> rfl

theorem pyEq_float64 {t : Ty} (h : WF env t) (hd : t.isDShape = true) :
    pyEq t.strip (.dshape [tFloat64]) = pyEq t (.dshape [tFloat64]) := by
  cases t <;> simp [Ty.isDShape] at hd
  rename_i ps
  obtain ⟨hne, hp⟩ := wf_params h
  match ps with
  | [] => exact absurd rfl hne
  | [m] =>
    have := hp m (by simp)
    cases m <;> simp [Ty.isDShape] at this <;>
      simp [Ty.strip, stripL, single, pyEq, eqM, eqInit, eqLast, Ty.noShape, Ty.target, Ty.shape, Ty.measure, tFloat64]
  | x :: y :: r => simp [Ty.strip, stripL, single, pyEq, eqM, eqInit, Ty.shape]

theorem render_strip_aux (t : Ty) (hw : WF env t) (hb : NoBoolCategories t) :
    (∀ w, render env t.strip w = render env t w) ∧
    (t.isDShape = false → ∀ res w, renderDS env [t.strip] res w = renderDS env [t] res w) := by
  induction t using Ty.ind with
  | units u t ih =>
    have h := (ih (everywhere_child hw (by simp [Ty.children])) (everywhere_child hb (by simp [Ty.children]))).1
    have h0 := everywhere_self hw
    simp only [localOk] at h0
    have e : ∀ w, render env (Ty.units u t).strip w = render env (.units u t) w := by
      intro w
      simp only [Ty.strip, render, h, pyEq_float64 (everywhere_child hw (by simp [Ty.children])) h0]
    exact ⟨e, fun _ res w => by simpa [renderDS, Ty.strip] using e none⟩
  | option t ih =>
    have h := (ih (everywhere_child hw (by simp [Ty.children])) (everywhere_child hb (by simp [Ty.children]))).1
    exact ⟨fun w => by simp [Ty.strip, render, h], fun _ res w => by simp [renderDS, Ty.strip, render, h]⟩
  | map k v ihk ihv =>
    have h := (ihk (everywhere_child hw (by simp [Ty.children])) (everywhere_child hb (by simp [Ty.children]))).1
    have h' := (ihv (everywhere_child hw (by simp [Ty.children])) (everywhere_child hb (by simp [Ty.children]))).1
    exact ⟨fun w => by simp [Ty.strip, render, h, h'], fun _ res w => by simp [renderDS, Ty.strip, render, h, h']⟩
  | func ps ih =>
    have h : ∀ t ∈ ps, ∀ w, render env t.strip w = render env t w := fun t ht =>
      (ih t ht (everywhere_child hw (by simpa [Ty.children] using ht)) (everywhere_child hb (by simpa [Ty.children] using ht))).1
    exact ⟨fun w => by simp [Ty.strip, render, stripL_eq, renderInit_strip h, renderLast_strip h],
      fun _ res w => by simp [renderDS, Ty.strip, render, stripL_eq, renderInit_strip h, renderLast_strip h]⟩
  | record fs ih =>
    have h : ∀ f ∈ fs, ∀ w, render env f.2.strip w = render env f.2 w := fun f hf =>
      have hc : f.2 ∈ (Ty.record fs).children := List.mem_map_of_mem hf
      (ih f hf (everywhere_child hw hc) (everywhere_child hb hc)).1
    exact ⟨fun w => by simp [Ty.strip, render, stripF_eq, renderF_strip h],
      fun _ res w => by simp [renderDS, Ty.strip, stripF_eq, renderF_strip h]⟩
  | tuple ps ih =>
    have h : ∀ t ∈ ps, ∀ w, render env t.strip w = render env t w := fun t ht =>
      (ih t ht (everywhere_child hw (by simpa [Ty.children] using ht)) (everywhere_child hb (by simpa [Ty.children] using ht))).1
    exact ⟨fun w => by cases w <;> simp [Ty.strip, render, stripL_eq, renderL_strip h],
      fun _ res w => by simp [renderDS, Ty.strip, stripL_eq, renderL_strip h]⟩
  | categorical c t o ih =>
    have h := (ih (everywhere_child hw (by simp [Ty.children])) (everywhere_child hb (by simp [Ty.children]))).1
    have h0 := everywhere_self hb
    simp only [noBoolLocal, List.all_eq_true] at h0
    have hc : c.map Lit.canon = c := by
      conv => rhs; rw [← List.map_id c]
      exact List.map_congr_left fun l hl => canon_notBool (h0 l hl)
    exact ⟨fun w => by simp [Ty.strip, render, h, hc], fun _ res w => by simp [renderDS, Ty.strip, render, h, hc]⟩
  | dshape ps ih =>
    refine ⟨fun w => ?_, fun h => by simp [Ty.isDShape] at h⟩
    obtain ⟨hne, hp⟩ := wf_params hw
    have h : ∀ t ∈ ps, ∀ w, render env t.strip w = render env t w := fun t ht =>
      (ih t ht (everywhere_child hw (by simpa [Ty.children] using ht)) (everywhere_child hb (by simpa [Ty.children] using ht))).1
    have h' : ∀ t ∈ ps, ∀ res w, renderDS env [t.strip] res w = renderDS env [t] res w := fun t ht =>
      (ih t ht (everywhere_child hw (by simpa [Ty.children] using ht)) (everywhere_child hb (by simpa [Ty.children] using ht))).2
        (hp t ht)
    match ps with
    | [] => exact absurd rfl hne
    | [m] =>
      rw [render_single m (hp m (by simp))]
      exact h m (by simp) w
    | x :: y :: r =>
      have e : (Ty.dshape (x :: y :: r)).strip = .dshape ((x :: y :: r).map Ty.strip) := by
        simp only [Ty.strip, stripL_eq, List.map_cons, single]
      rw [e]
      cases w with
      | none => simp only [render]; rw [renderL_strip h]
      | some w => simp only [render]; rw [renderInit_strip h, renderDS_map h']
  | _ => exact ⟨fun _ => rfl, fun _ _ _ => rfl⟩

theorem render_strip {t : Ty} (hw : WF env t) (hb : NoBoolCategories t) (w : Option Int) :
    render env t.strip w = render env t w := (render_strip_aux t hw hb).1 w

end DS
