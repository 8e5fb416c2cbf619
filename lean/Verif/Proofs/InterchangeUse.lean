import Verif.Proofs.InterchangePrint
import Verif.Proofs.Grammar
import Verif.Model.User
import Verif.Model.Predicates

/-
Neither NumPy conversion, nor `validate`, nor the predicates see one-element `DataShape`s.
-/
namespace DS

variable {env : Env}

/-! ### has_var_dim, has_ellipsis -/

theorem hasL_map {p : Ty → Bool} {l : List Ty} (h : ∀ t ∈ l, has p t.strip = has p t) :
    hasL p (l.map Ty.strip) = hasL p l := by
  induction l with
  | nil => rfl
  | cons a l ih => simp [hasL, h a (by simp), ih fun t ht => h t (by simp [ht])]

theorem hasF_map {p : Ty → Bool} {l : List (Str × Ty)} (h : ∀ f ∈ l, has p f.2.strip = has p f.2) :
    hasF p (l.map fun f => (f.1, f.2.strip)) = hasF p l := by
  induction l with
  | nil => rfl
  | cons a l ih => obtain ⟨n, a⟩ := a; simp [hasF, h (n, a) (by simp), ih fun t ht => h t (by simp [ht])]

/-- a test that only dimensions pass -/
theorem has_strip (p : Ty → Bool) (hp : ∀ t, p t = true → t.isEllipsis = true ∨ t.isVar = true) (t : Ty) :
    has p t.strip = has p t := by
  have no : ∀ t : Ty, t.isEllipsis = false → t.isVar = false → p t = false := by
    intro t h h'
    cases e : p t with
    | false => rfl
    | true => rcases hp t e with h1 | h1 <;> simp_all
  induction t using Ty.ind with
  | units u t ih => simp [Ty.strip, has, ih, no (.units _ _) rfl rfl]
  | option t ih => simp [Ty.strip, has, ih, no (.option _) rfl rfl]
  | map k v ihk ihv => simp [Ty.strip, has, ihk, ihv, no (.map _ _) rfl rfl]
  | func ps ih => simp [Ty.strip, has, stripL_eq, hasL_map ih, no (.func _) rfl rfl]
  | record fs ih => simp [Ty.strip, has, stripF_eq, hasF_map ih, no (.record _) rfl rfl]
  | tuple ps ih => simp [Ty.strip, has, stripL_eq, hasL_map ih, no (.tuple _) rfl rfl]
  | categorical c t o ih => simp [Ty.strip, has, ih, no (.categorical _ _ _) rfl rfl]
  | dshape ps ih =>
    simp only [Ty.strip, stripL_eq]
    match ps with
    | [] => rfl
    | [m] => simp [single, has, hasL, ih m (by simp), no (.dshape _) rfl rfl]
    | x :: y :: r =>
      have := hasL_map ih
      simp only [List.map_cons] at this
      simp [single, has, this, no (.dshape _) rfl rfl]
  | _ => rfl

/-! ### NumPy -/

theorem toDtype_mode {t : Ty} (h : t.isDShape = false) (k k' : DtMode) : toDtype t k = toDtype t k' := by
  cases t <;> simp [Ty.isDShape] at h <;> cases k <;> cases k' <;> rfl

theorem toNumpyDims_map {l : List Ty} (h : ∀ t ∈ l, t.isDShape = false) :
    toNumpyDims (l.map Ty.strip) = toNumpyDims l := by
  induction l with
  | nil => rfl
  | cons a l ih =>
    cases l with
    | nil => rfl
    | cons b l =>
      have e := ih fun t ht => h t (by simp [ht])
      have ha := h a (by simp)
      simp only [List.map_cons] at e
      cases a <;> simp [Ty.isDShape] at ha <;> simp only [List.map_cons, toNumpyDims, Ty.strip, e]

theorem toDtypeLast_map {l : List Ty} (h : ∀ t ∈ l, ∀ k, toDtype t.strip k = toDtype t k) (k : DtMode) :
    toDtypeLast (l.map Ty.strip) k = toDtypeLast l k := by
  induction l with
  | nil => rfl
  | cons a l ih =>
    cases l with
    | nil => simp [toDtypeLast, h a (by simp)]
    | cons b l =>
      have e := ih fun t ht => h t (by simp [ht])
      simp only [List.map_cons] at e
      simp [toDtypeLast, e]

theorem toDtypeL_map {l : List Ty} (h : ∀ t ∈ l, toDtype t.strip .measure = toDtype t .measure) (i : Nat) :
    toDtypeL (l.map Ty.strip) i = toDtypeL l i := by
  induction l generalizing i with
  | nil => rfl
  | cons a l ih => simp [toDtypeL, h a (by simp), ih fun t ht => h t (by simp [ht])]

theorem toDtypeF_map {l : List (Str × Ty)} (h : ∀ f ∈ l, toDtype f.2.strip .measure = toDtype f.2 .measure) :
    toDtypeF (l.map fun f => (f.1, f.2.strip)) = toDtypeF l := by
  induction l with
  | nil => rfl
  | cons a l ih => obtain ⟨n, a⟩ := a; simp [toDtypeF, h (n, a) (by simp), ih fun t ht => h t (by simp [ht])]

theorem toDtype_strip (t : Ty) (hw : WF env t) (ho : t.everywhere ordinaryLocal = true) (k : DtMode)
    (hk : t.isDShape = true → k ≠ .method) : toDtype t.strip k = toDtype t k := by
  induction t using Ty.ind generalizing k with
  | units u t _ => rfl
  | option t _ =>
    have h0 := everywhere_self ho
    simp only [ordinaryLocal, Bool.not_eq_true'] at h0
    cases t <;> simp [Ty.isDShape] at h0 <;> rfl
  | map a b iha ihb =>
    simp only [Ty.strip, toDtype]
    exact iha (everywhere_child hw (by simp [Ty.children])) (everywhere_child ho (by simp [Ty.children])) .measure (by simp)
  | func ps _ => rfl
  | record fs ih =>
    simp only [Ty.strip, toDtype, stripF_eq]
    rw [toDtypeF_map fun f hf => ?_]
    have hc : f.2 ∈ (Ty.record fs).children := List.mem_map_of_mem hf
    exact ih f hf (everywhere_child hw hc) (everywhere_child ho hc) .measure (by simp)
  | tuple ps ih =>
    simp only [Ty.strip, toDtype, stripL_eq]
    rw [toDtypeL_map fun t ht => ?_]
    exact ih t ht (everywhere_child hw (by simpa [Ty.children] using ht)) (everywhere_child ho (by simpa [Ty.children] using ht))
      .measure (by simp)
  | categorical c t o _ => rfl
  | dshape ps ih =>
    obtain ⟨hne, hp⟩ := wf_params hw
    have h : ∀ t ∈ ps, ∀ k, toDtype t.strip k = toDtype t k := fun t ht k =>
      ih t ht (everywhere_child hw (by simpa [Ty.children] using ht)) (everywhere_child ho (by simpa [Ty.children] using ht))
        k (by simp [hp t ht])
    match ps with
    | [] => exact absurd rfl hne
    | [m] =>
      have e : (Ty.dshape [m]).strip = m.strip := rfl
      rw [e, h m (by simp)]
      cases k with
      | method => exact absurd rfl (hk rfl)
      | measure => exact toDtype_mode (hp m (by simp)) _ _
      | full =>
        simp only [toDtype, toNumpyDims, toDtypeLast]
        exact toDtype_mode (hp m (by simp)) _ _
    | x :: y :: r =>
      have e : (Ty.dshape (x :: y :: r)).strip = .dshape ((x :: y :: r).map Ty.strip) := by
        simp only [Ty.strip, stripL_eq, List.map_cons, single]
      rw [e]
      cases k with
      | method => exact absurd rfl (hk rfl)
      | measure => simp only [toDtype]; rw [toDtypeLast_map h]
      | full => simp only [toDtype]; rw [toDtypeLast_map h, toNumpyDims_map hp]
  | _ => rfl

theorem toNumpy_strip (t : Ty) (hw : WF env t) (ho : t.everywhere ordinaryLocal = true) : toNumpy t.strip = toNumpy t := by
  cases hd : t.isDShape with
  | false =>
    have h1 := toDtype_strip t hw ho .method (by simp [hd])
    have h2 := strip_isDShape hd
    have e : ∀ u : Ty, u.isDShape = false → toNumpy u = (toDtype u .method >>= fun d => .ok ([], d)) := by
      intro u hu
      cases u <;> simp [Ty.isDShape] at hu <;> rfl
    rw [e _ h2, e _ hd, h1]
  | true =>
    cases t <;> simp [Ty.isDShape] at hd
    rename_i ps
    obtain ⟨hne, hp⟩ := wf_params hw
    have h : ∀ t ∈ ps, ∀ k, toDtype t.strip k = toDtype t k := fun t ht k =>
      toDtype_strip t (everywhere_child hw (by simpa [Ty.children] using ht))
        (everywhere_child ho (by simpa [Ty.children] using ht)) k (by simp [hp t ht])
    match ps with
    | [] => exact absurd rfl hne
    | [m] =>
      have e : (Ty.dshape [m]).strip = m.strip := rfl
      have h1 := h m (by simp) .method
      have h2 := strip_isDShape (hp m (by simp))
      rw [e]
      have e' : toNumpy m.strip = (toDtype m.strip .method >>= fun d => .ok ([], d)) := by
        cases hu : m.strip <;> simp [hu, Ty.isDShape] at h2 <;> rfl
      rw [e', h1]
      rfl
    | x :: y :: r =>
      have e : (Ty.dshape (x :: y :: r)).strip = .dshape ((x :: y :: r).map Ty.strip) := by
        simp only [Ty.strip, stripL_eq, List.map_cons, single]
      rw [e]
      simp only [toNumpy]
      rw [toDtypeLast_map h, toNumpyDims_map hp]

/-! ### validate -/

theorem validate_some (ext : Ty → PyObj → Except PyErr Bool) {t : Ty} (hd : t.isDShape = false) (v : PyObj)
    (x : Option Bool) (h : validate ext t v = .ok x) : ∃ b, x = some b := by
  cases t <;> simp [Ty.isDShape] at hd <;> simp only [validate] at h
  case ctype =>
    split at h
    · simp only [bind_ok] at h
      obtain ⟨b, -, h⟩ := h
      injection h with h
      exact ⟨b, h.symm⟩
    · injection h with h
      exact ⟨_, h.symm⟩
  case record =>
    split at h
    · simp only [bind_ok] at h
      obtain ⟨b, -, h⟩ := h
      injection h with h
      exact ⟨b, h.symm⟩
    · split at h
      · simp only [bind_ok] at h
        obtain ⟨b, -, h⟩ := h
        injection h with h
        exact ⟨b, h.symm⟩
      · injection h with h
        exact ⟨_, h.symm⟩
  all_goals
    first
    | (injection h with h; exact ⟨_, h.symm⟩)
    | (split at h <;> (injection h with h; exact ⟨_, h.symm⟩))

theorem headCheck_strip {t : Ty} (h : t.isDShape = false) (items : List PyObj)
    (f : PyObj → Except PyErr (Option Bool)) : headCheck t.strip items f = headCheck t items f := by
  cases t <;> simp [Ty.isDShape] at h <;> rfl

theorem validateDS_map (ext : Ty → PyObj → Except PyErr Bool) {l : List Ty} (hd : ∀ t ∈ l, t.isDShape = false)
    (h : ∀ t ∈ l, ∀ v, validate ext t.strip v = validate ext t v) (v : PyObj) :
    validateDS ext (l.map Ty.strip) v = validateDS ext l v := by
  induction l generalizing v with
  | nil => rfl
  | cons a l ih =>
    cases l with
    | nil => simp [validateDS, h a (by simp), headCheck_strip (hd a (by simp))]
    | cons b l =>
      have e : validateDS ext ((b :: l).map Ty.strip) = validateDS ext (b :: l) :=
        funext fun v => ih (fun t ht => hd t (by simp [ht])) (fun t ht => h t (by simp [ht])) v
      simp only [List.map_cons] at e
      have u : ∀ (x y : Ty) (r : List Ty), validateDS ext (x :: y :: r) v = (match v.seqItems with
          | none => .ok none
          | some items => headCheck x items (validateDS ext (y :: r))) := by
        intro x y r
        conv => lhs; unfold validateDS
        cases v.seqItems <;> rfl
      simp only [List.map_cons]
      rw [u, u, e]
      cases v.seqItems with
      | none => rfl
      | some items => exact headCheck_strip (hd a (by simp)) _ _

theorem validateDict_map (ext : Ty → PyObj → Except PyErr Bool) {l : List (Str × Ty)}
    (h : ∀ f ∈ l, ∀ v, validate ext f.2.strip v = validate ext f.2 v) (d : List (Str × PyObj)) :
    validateDict ext (l.map fun f => (f.1, f.2.strip)) d = validateDict ext l d := by
  induction l with
  | nil => rfl
  | cons a l ih => obtain ⟨n, a⟩ := a; simp [validateDict, h (n, a) (by simp), ih fun t ht => h t (by simp [ht])]

theorem validateZip_map (ext : Ty → PyObj → Except PyErr Bool) {l : List (Str × Ty)}
    (h : ∀ f ∈ l, ∀ v, validate ext f.2.strip v = validate ext f.2 v) (d : List PyObj) :
    validateZip ext (l.map fun f => (f.1, f.2.strip)) d = validateZip ext l d := by
  induction l generalizing d with
  | nil => rfl
  | cons a l ih =>
    obtain ⟨n, a⟩ := a
    cases d with
    | nil => rfl
    | cons v d => simp [validateZip, h (n, a) (by simp), ih fun t ht => h t (by simp [ht])]

/-- a one-element `DataShape` accepts what its element accepts -/
theorem validate_single (ext : Ty → PyObj → Except PyErr Bool) {m : Ty} (hd : m.isDShape = false)
    (hm : m.measureLike = true) (v : PyObj) : validate ext (.dshape [m]) v = validate ext m v := by
  have hdim : isDimension m = false := by cases m <;> simp [Ty.measureLike] at hm <;> rfl
  simp only [validate, validateDS]
  cases hx : validate ext m v with
  | error e => rfl
  | ok x =>
    obtain ⟨b, rfl⟩ := validate_some ext hd v x hx
    cases v.seqItems with
    | none => rfl
    | some items =>
      cases b <;> simp [isTrue, headCheck, hdim, bind, Except.bind]

theorem validate_strip (ext : Ty → PyObj → Except PyErr Bool) (t : Ty) (hw : WF env t)
    (ho : t.everywhere ordinaryLocal = true) (v : PyObj) : validate ext t.strip v = validate ext t v := by
  induction t using Ty.ind generalizing v with
  | record fs ih =>
    have h : ∀ f ∈ fs, ∀ v, validate ext f.2.strip v = validate ext f.2 v := fun f hf v =>
      have hc : f.2 ∈ (Ty.record fs).children := List.mem_map_of_mem hf
      ih f hf (everywhere_child hw hc) (everywhere_child ho hc) v
    simp only [Ty.strip, validate, stripF_eq]
    simp only [validateDict_map ext h, validateZip_map ext h]
  | dshape ps ih =>
    obtain ⟨hne, hp⟩ := wf_params hw
    have h : ∀ t ∈ ps, ∀ v, validate ext t.strip v = validate ext t v := fun t ht v =>
      ih t ht (everywhere_child hw (by simpa [Ty.children] using ht)) (everywhere_child ho (by simpa [Ty.children] using ht)) v
    match ps with
    | [] => exact absurd rfl hne
    | [m] =>
      have e : (Ty.dshape [m]).strip = m.strip := rfl
      have hm : m.measureLike = true := by
        have := everywhere_self ho
        simpa [ordinaryLocal] using this
      rw [e, h m (by simp), validate_single ext (hp m (by simp)) hm]
    | x :: y :: r =>
      have e : (Ty.dshape (x :: y :: r)).strip = .dshape ((x :: y :: r).map Ty.strip) := by
        simp only [Ty.strip, stripL_eq, List.map_cons, single]
      rw [e]
      simp only [validate]
      exact validateDS_map ext hp h v
  | _ => rfl

end DS
