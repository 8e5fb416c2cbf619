import Verif.Model.DtypeMessages
import Verif.Spec.DtypeMessages
import Verif.Props.Messages
import Verif.Props.DtypeErrors

/-
C75: the messages of `to_numpy` and `to_numpy_dtype`.
-/
namespace DS

theorem bareM_bind {α β M : Type} (x : Except (PyErr × M) α) (f : α → Except (PyErr × M) β) :
    (x >>= f).bare = x.bare >>= fun a => (f a).bare := by
  cases x <;> rfl

theorem byNumpy_bare {α : Type} (x : Except PyErr α) : (byNumpy x).bare = x := by cases x <;> rfl

theorem withText_bare {α : Type} (x : Except Raised α) : (withText x).bare = x.bare := by cases x <;> rfl

theorem toDtypeLastM_append (env : Env) (ds : List Ty) (m : Ty) (k : DtMode) : toDtypeLastM env (ds ++ [m]) k = toDtypeM env m k := by
  induction ds with
  | nil => rfl
  | cons d ds ih =>
    cases ds with
    | nil => rfl
    | cons e ds => exact ih

theorem toDtypeM_bare (env : Env) (t : Ty) : ∀ k, (toDtypeM env t k).bare = toDtype t k := by
  induction t using Ty.ind_children with
  | h t ih =>
    have last : ∀ ps, (∀ u ∈ ps, ∀ k, (toDtypeM env u k).bare = toDtype u k) → ∀ k, (toDtypeLastM env ps k).bare = toDtypeLast ps k := by
      intro ps h k
      rcases List.eq_nil_or_concat ps with rfl | ⟨ds, m, rfl⟩
      · rfl
      · rw [List.concat_eq_append] at *
        rw [toDtypeLastM_append, toDtypeLast_append]
        exact h m (by simp) k
    have fields : ∀ fs : List (Str × Ty), (∀ f ∈ fs, (toDtypeM env f.2 .measure).bare = toDtype f.2 .measure) →
        (toDtypeFM env fs).bare = toDtypeF fs := by
      intro fs h
      induction fs with
      | nil => rfl
      | cons f fs ihf =>
        obtain ⟨n, u⟩ := f
        rw [toDtypeFM, toDtypeF, bareM_bind, h (n, u) (by simp)]
        congr 1
        funext d
        rw [bareM_bind, ihf fun f hf => h f (List.mem_cons_of_mem _ hf)]
        rfl
    have comps : ∀ (ts : List Ty) (i : Nat), (∀ u ∈ ts, (toDtypeM env u .measure).bare = toDtype u .measure) →
        (toDtypeLM env ts i).bare = toDtypeL ts i := by
      intro ts
      induction ts with
      | nil => intro i h; rfl
      | cons u ts ihf =>
        intro i h
        rw [toDtypeLM, toDtypeL, bareM_bind, h u (by simp)]
        congr 1
        funext d
        rw [bareM_bind, ihf (i + 1) fun f hf => h f (List.mem_cons_of_mem _ hf)]
        rfl
    intro k
    cases t with
    | ctype n i a => simp only [toDtypeM, toDtype]; cases npDtypeTable.lookup n <;> rfl
    | string n e => exact byNumpy_bare _
    | decimal p s => simp only [toDtypeM, toDtype]; cases decimalDtype p s <;> rfl
    | option t => cases t <;> rfl
    | map a b => exact ih a (by simp [Ty.children]) _
    | record fs =>
      simp only [toDtypeM, toDtype]
      rw [bareM_bind, fields fs fun f hf => ih f.2 (by simp only [Ty.children, List.mem_map]; exact ⟨_, hf, rfl⟩) _]
      congr 1
      funext l
      exact byNumpy_bare _
    | tuple ts =>
      simp only [toDtypeM, toDtype]
      rw [bareM_bind, comps ts 0 fun f hf => ih f hf _]
      congr 1
      funext l
      exact byNumpy_bare _
    | dshape ps =>
      cases k with
      | method => rfl
      | measure => exact last ps (fun u hu => ih u hu) _
      | full =>
        simp only [toDtypeM, toDtype]
        rw [bareM_bind, withText_bare, toNumpyDimsM_bare]
        congr 1
        funext _
        exact last ps (fun u hu => ih u hu) _
    | _ => rfl

theorem bare_ok {α M : Type} {x : Except (PyErr × M) α} {a : α} : x.bare = .ok a ↔ x = .ok a := by
  cases x with
  | ok b => exact ⟨fun h => (by cases h; rfl), fun h => (by cases h; rfl)⟩
  | error e => exact ⟨fun h => (by cases h), fun h => (by cases h)⟩

theorem toDtypeM_ok (env : Env) (t : Ty) (k : DtMode) (d : DType) : toDtypeM env t k = .ok d ↔ toDtype t k = .ok d := by
  rw [← toDtypeM_bare env t k, bare_ok]

theorem toDtypeFM_error (env : Env) (fs : List (Str × Ty)) (e : PyErr × Option Str) : toDtypeFM env fs = .error e ↔
    ∃ pre n t post, fs = pre ++ (n, t) :: post ∧ (∀ f ∈ pre, ∃ d, toDtypeM env f.2 .measure = .ok d) ∧
      toDtypeM env t .measure = .error e := by
  induction fs with
  | nil => exact ⟨fun h => (by cases h), fun ⟨_, _, _, _, h, _⟩ => by simp at h⟩
  | cons f fs ih =>
    obtain ⟨n, t⟩ := f
    simp only [toDtypeFM, bind_error, ih]
    constructor
    · rintro (h | ⟨d, hd, ⟨pre, n', t', post, rfl, h2, h3⟩ | ⟨_, _, h⟩⟩)
      · exact ⟨[], n, t, fs, rfl, by simp, h⟩
      · refine ⟨(n, t) :: pre, n', t', post, rfl, fun f hf => ?_, h3⟩
        rcases List.mem_cons.1 hf with rfl | hf
        · exact ⟨d, hd⟩
        · exact h2 f hf
      · cases h
    · rintro ⟨pre, n', t', post, h1, h2, h3⟩
      cases pre with
      | nil => injection h1 with h1 h1'; cases h1; exact .inl h3
      | cons p pre =>
        injection h1 with h1 h1'; subst h1
        obtain ⟨d, hd⟩ := h2 _ (List.mem_cons_self ..)
        exact .inr ⟨d, hd, .inl ⟨pre, n', t', post, h1', fun f hf => h2 f (List.mem_cons_of_mem _ hf), h3⟩⟩

theorem toDtypeLM_error (env : Env) (ts : List Ty) (k : Nat) (e : PyErr × Option Str) : toDtypeLM env ts k = .error e ↔
    ∃ pre t post, ts = pre ++ t :: post ∧ (∀ u ∈ pre, ∃ d, toDtypeM env u .measure = .ok d) ∧ toDtypeM env t .measure = .error e := by
  induction ts generalizing k with
  | nil => exact ⟨fun h => (by cases h), fun ⟨_, _, _, h, _⟩ => by simp at h⟩
  | cons t ts ih =>
    simp only [toDtypeLM, bind_error, ih]
    constructor
    · rintro (h | ⟨d, hd, ⟨pre, t', post, rfl, h2, h3⟩ | ⟨_, _, h⟩⟩)
      · exact ⟨[], t, ts, rfl, by simp, h⟩
      · refine ⟨t :: pre, t', post, rfl, fun f hf => ?_, h3⟩
        rcases List.mem_cons.1 hf with rfl | hf
        · exact ⟨d, hd⟩
        · exact h2 f hf
      · cases h
    · rintro ⟨pre, t', post, h1, h2, h3⟩
      cases pre with
      | nil => injection h1 with h1 h1'; subst h1; exact .inl h3
      | cons p pre =>
        injection h1 with h1 h1'; subst h1
        obtain ⟨d, hd⟩ := h2 _ (List.mem_cons_self ..)
        exact .inr ⟨d, hd, .inl ⟨pre, t', post, h1', fun f hf => h2 f (List.mem_cons_of_mem _ hf), h3⟩⟩

theorem toDtypeFM_ok (env : Env) (fs : List (Str × Ty)) : (∃ l, toDtypeFM env fs = .ok l) ↔ ∃ l, toDtypeF fs = .ok l := by
  rw [toDtypeF_total]
  induction fs with
  | nil => exact ⟨fun _ => by simp, fun _ => ⟨[], rfl⟩⟩
  | cons f fs ih =>
    obtain ⟨n, t⟩ := f
    simp only [toDtypeFM, bind_ok, List.mem_cons, forall_eq_or_imp, ← ih, toDtypeM_ok]
    constructor
    · rintro ⟨_, d, hd, l, hl, -⟩; exact ⟨⟨d, hd⟩, l, hl⟩
    · rintro ⟨⟨d, hd⟩, l, hl⟩; exact ⟨_, d, hd, l, hl, rfl⟩

theorem toDtypeFM_names (env : Env) {fs : List (Str × Ty)} {l : List (Str × DType)} (h : toDtypeFM env fs = .ok l) :
    l.map (·.1) = fs.map (·.1) := by
  induction fs generalizing l with
  | nil => cases h; rfl
  | cons f fs ih =>
    obtain ⟨n, t⟩ := f
    simp only [toDtypeFM, bind_ok] at h
    obtain ⟨d, -, r, hr, h⟩ := h
    cases h
    rw [List.map_cons, List.map_cons, ih hr]

theorem byNumpy_error {α : Type} (x : Except PyErr α) (e : PyErr) (m : Option Str) :
    byNumpy x = .error (e, m) ↔ x = .error e ∧ m = none := by
  cases x with
  | ok a => exact ⟨fun h => (by cases h), fun h => (by cases h.1)⟩
  | error e' => exact ⟨fun h => (by cases h; exact ⟨rfl, rfl⟩), fun ⟨h, h'⟩ => (by cases h; cases h'; rfl)⟩

theorem withText_error {α : Type} (x : Except Raised α) (e : PyErr) (m : Option Str) :
    withText x = .error (e, m) ↔ ∃ s, x = .error (e, s) ∧ m = some s := by
  cases x with
  | ok a => exact ⟨fun h => (by cases h), fun ⟨_, h, _⟩ => (by cases h)⟩
  | error e' => exact ⟨fun h => (by cases h; exact ⟨_, rfl, rfl⟩), fun ⟨_, h, h'⟩ => (by cases h; cases h'; rfl)⟩

theorem withText_ok {α : Type} (x : Except Raised α) (a : α) : withText x = .ok a ↔ x = .ok a := by
  cases x with
  | ok b => exact ⟨fun h => (by cases h; rfl), fun h => (by cases h; rfl)⟩
  | error e => exact ⟨fun h => (by cases h), fun h => (by cases h)⟩

theorem dimsM_ok (env : Env) (dims : List Ty) (t : Ty) :
    (∃ sh, withText (toNumpyDimsM env (dims ++ [t])) = .ok sh) ↔ ∀ x ∈ dims, ∃ n, NpDim x n := by
  rw [← ex_each]
  constructor
  · rintro ⟨sh, h⟩
    rw [withText_ok, ← bare_ok, toNumpyDimsM_bare] at h
    exact ⟨sh, (toNumpyDims_iff ..).1 h⟩
  · rintro ⟨sh, h⟩
    refine ⟨sh, ?_⟩
    rw [withText_ok, ← bare_ok, toNumpyDimsM_bare]
    exact (toNumpyDims_iff ..).2 h

theorem dimsM_error (env : Env) (ps : List Ty) (m : Option Str) :
    (∃ e, withText (toNumpyDimsM env ps) = .error (e, m)) ↔ ∃ dims d rest, ps = dims ++ d :: rest ∧ rest ≠ [] ∧
      (∀ x ∈ dims, ∃ n, NpDim x n) ∧ (∀ n, ¬ NpDim d n) ∧
      m = some (py"DataShape dimension " ++ pyStr env d ++ py" is not NumPy-compatible") := by
  simp only [withText_error, C75.to_numpy]
  constructor
  · rintro ⟨e, s, ⟨-, dims, d, rest, h1, h2, h3, h4, rfl⟩, rfl⟩; exact ⟨dims, d, rest, h1, h2, h3, h4, rfl⟩
  · rintro ⟨dims, d, rest, h1, h2, h3, h4, rfl⟩; exact ⟨_, _, ⟨rfl, dims, d, rest, h1, h2, h3, h4, rfl⟩, rfl⟩

theorem full_iff (env : Env) (ps : List Ty) (m : Option Str)
    (hm : ∀ t, ps.getLast? = some t → ((∃ e, toDtypeM env t .method = .error (e, m)) ↔ DtypeBlame env t m)) :
    ((∃ e, withText (toNumpyDimsM env ps) = .error (e, m)) ∨
      (∃ e sh, withText (toNumpyDimsM env ps) = .ok sh ∧ toDtypeLastM env ps .method = .error (e, m))) ↔
    NumpyBlame env (.dshape ps) m := by
  constructor
  · rintro (h | ⟨e, sh, h1, h2⟩)
    · obtain ⟨dims, d, rest, rfl, h2, h3, h4, rfl⟩ := (dimsM_error ..).1 h
      exact .dim h3 h4 h2
    · cases hp : ps.getLast? with
      | none =>
        have := List.getLast?_eq_none_iff.1 hp
        subst this
        cases h2
        exact .empty
      | some t =>
        have e := snoc_of hp
        generalize ps.dropLast = dims at e
        subst e
        rw [toDtypeLastM_append] at h2
        exact .elements ((dimsM_ok env dims t).1 ⟨_, h1⟩) ((hm t hp).1 ⟨_, h2⟩)
  · intro h
    generalize hg : Ty.dshape ps = u at h
    cases h with
    | measure h => exact absurd hg.symm (h ps)
    | dim h1 h2 h3 => cases hg; exact .inl ((dimsM_error ..).2 ⟨_, _, _, rfl, h3, h1, h2, rfl⟩)
    | @elements dims t m h1 h2 =>
      cases hg
      obtain ⟨sh, hs⟩ := (dimsM_ok env dims t).2 h1
      obtain ⟨e, he⟩ := (hm t (by simp)).2 h2
      exact .inr ⟨e, sh, hs, by rw [toDtypeLastM_append]; exact he⟩
    | empty => cases hg; exact .inr ⟨_, _, rfl, rfl⟩

theorem blame_iff (env : Env) (t : Ty) (m : Option Str) : ((∃ e, toDtypeM env t .method = .error (e, m)) ↔ DtypeBlame env t m) ∧
    ((∃ e, toDtypeM env t .measure = .error (e, m)) ↔ MeasureBlame env t m) ∧
    ((∃ e, toDtypeM env t .full = .error (e, m)) ↔ NumpyBlame env t m) := by
  induction t using Ty.ind_children with
  | h t ih =>
    by_cases hds : ∃ ps, t = .dshape ps
    · obtain ⟨ps, rfl⟩ := hds
      refine ⟨⟨?_, ?_⟩, ?_, ?_⟩
      · rintro ⟨e, h⟩; cases h; exact .foreign .dshape
      · intro h
        generalize hg : Ty.dshape ps = u at h
        cases h with
        | foreign h => cases hg; exact ⟨_, rfl⟩
        | _ => cases hg
      · constructor
        · rintro ⟨e, h⟩
          simp only [toDtypeM] at h
          cases hp : ps.getLast? with
          | none =>
            have := List.getLast?_eq_none_iff.1 hp
            subst this
            cases h
            exact .empty
          | some t =>
            have hm := ih t (List.mem_of_getLast? hp)
            have e := snoc_of hp
            generalize ps.dropLast = dims at e
            subst e
            rw [toDtypeLastM_append] at h
            exact .elements (hm.2.2.1 ⟨_, h⟩)
        · intro h
          generalize hg : Ty.dshape ps = u at h
          cases h with
          | measure h => exact absurd hg.symm (h ps)
          | @elements dims t m h1 =>
            cases hg
            simp only [toDtypeM, toDtypeLastM_append]
            exact (ih t (by simp [Ty.children])).2.2.2 h1
          | empty => cases hg; exact ⟨_, rfl⟩
      · rw [← full_iff env ps m fun t ht => (ih t (List.mem_of_getLast? ht)).1]
        simp only [toDtypeM, bind_error]
        constructor
        · rintro ⟨e, h | ⟨sh, h1, h2⟩⟩
          · exact .inl ⟨e, h⟩
          · exact .inr ⟨e, sh, h1, h2⟩
        · rintro (⟨e, h⟩ | ⟨e, sh, h1, h2⟩)
          · exact ⟨e, .inl h⟩
          · exact ⟨e, .inr ⟨sh, h1, h2⟩⟩
    · have ok : ∀ u, (∃ d, toDtypeM env u .measure = .ok d) ↔ ∃ d, MeasureDtype u d := fun u => by
        simp only [toDtypeM_ok, (dtype_iff u).2.1]
      have key : ∀ k, (∃ e, toDtypeM env t k = .error (e, m)) ↔ DtypeBlame env t m := by
        intro k
        cases t with
        | dshape ps => exact absurd ⟨ps, rfl⟩ hds
        | ctype n i a =>
          simp only [toDtypeM]
          constructor
          · rintro ⟨e, h⟩
            cases hl : npDtypeTable.lookup n with
            | some p => rw [hl] at h; cases h
            | none =>
              rw [hl] at h
              cases h
              exact .name fun p hp => by rw [(npName_iff n p).2 hp] at hl; cases hl
          · intro h
            cases h with
            | foreign h => cases h
            | name h =>
              cases hl : npDtypeTable.lookup n with
              | some p => exact absurd ((npName_iff n p).1 hl) (h p)
              | none => exact ⟨_, rfl⟩
        | date => exact ⟨fun ⟨_, h⟩ => (by cases h), fun h => by cases h with | foreign h => cases h⟩
        | datetime z => exact ⟨fun ⟨_, h⟩ => (by cases h), fun h => by cases h with | foreign h => cases h⟩
        | timedelta u => exact ⟨fun ⟨_, h⟩ => (by cases h), fun h => by cases h with | foreign h => cases h⟩
        | string n enc =>
          simp only [toDtypeM, byNumpy_error]
          constructor
          · rintro ⟨e, h, rfl⟩
            cases n with
            | none => cases h
            | some n =>
              simp only [stringDtype] at h
              split at h
              · cases h
              · split at h
                · rename_i h1; exact .length h1
                · split at h <;> cases h
          · intro h
            cases h with
            | foreign h => cases h
            | @length n e h =>
              refine ⟨.typeError, ?_, rfl⟩
              simp only [stringDtype]
              rw [if_neg (by omega), if_pos h]
        | decimal p s =>
          simp only [toDtypeM]
          constructor
          · rintro ⟨e, h⟩
            cases hd : decimalDtype p s with
            | ok q => rw [hd] at h; cases h
            | error e' =>
              rw [hd] at h
              cases h
              unfold decimalDtype at hd
              split at hd
              · rename_i h0
                subst h0
                split at hd
                · cases hd
                · split at hd
                  · cases hd
                  · split at hd
                    · cases hd
                    · split at hd
                      · cases hd
                      · exact .decimal (by omega)
              · cases hd
          · intro h
            cases h with
            | foreign h => cases h
            | decimal h =>
              refine ⟨.typeError, ?_⟩
              have : decimalDtype p 0 = .error .typeError := by
                unfold decimalDtype
                rw [if_pos rfl, if_neg (by omega), if_neg (by omega), if_neg (by omega), if_neg (by omega)]
              rw [this]
        | option u =>
          constructor
          · rintro ⟨e, h⟩
            have hd : ∀ d, ¬ DtypeOf (.option u) d := by
              intro d hd
              cases hd <;> cases h
            cases u <;> cases h <;> exact .option hd
          · intro h
            cases h with
            | foreign h => cases h
            | option h =>
              cases u with
              | date => exact absurd .optDate (h _)
              | datetime z => exact absurd (.optDatetime z) (h _)
              | timedelta z => exact absurd (.optTimedelta z) (h _)
              | _ => exact ⟨_, rfl⟩
        | map a b =>
          simp only [toDtypeM]
          rw [(ih a (by simp [Ty.children])).2.1]
          refine ⟨.map, fun h => ?_⟩
          cases h with
          | foreign h => cases h
          | map h => exact h
        | record fs =>
          simp only [toDtypeM, bind_error, toDtypeFM_error, byNumpy_error, npStruct_error_iff, ok]
          have hf : ∀ f ∈ fs, (∃ e, toDtypeM env f.2 .measure = .error (e, m)) ↔ MeasureBlame env f.2 m :=
            fun f h => (ih f.2 (by simp only [Ty.children, List.mem_map]; exact ⟨_, h, rfl⟩)).2.1
          constructor
          · rintro ⟨e, ⟨pre, n, t, post, rfl, h1, h2⟩ | ⟨l, hl, ⟨-, hn⟩, rfl⟩⟩
            · exact .field h1 ((hf (n, t) (by simp)).1 ⟨e, h2⟩)
            · have hall : ∀ f ∈ fs, ∃ d, MeasureDtype f.2 d := by
                have := (toDtypeF_total fs).1 ((toDtypeFM_ok env fs).1 ⟨l, hl⟩)
                intro f hf'
                obtain ⟨d, hd⟩ := this f hf'
                exact ⟨d, ((dtype_iff f.2).2.1 d).1 hd⟩
              refine .clash hall fun h => hn ?_
              rw [zipIdx_names, toDtypeFM_names env hl, ← zipIdx_names]; exact h
          · intro h
            generalize hg : Ty.record fs = u at h
            cases h with
            | foreign h => cases h <;> cases hg
            | clash h1 h2 =>
              cases hg
              obtain ⟨l, hl⟩ := (toDtypeFM_ok env fs).2 ((toDtypeF_total fs).2 fun f hf' => by
                obtain ⟨d, hd⟩ := h1 f hf'
                exact ⟨d, ((dtype_iff f.2).2.1 d).2 hd⟩)
              refine ⟨.valueError, .inr ⟨l, hl, ⟨rfl, fun h => h2 ?_⟩, rfl⟩⟩
              rw [zipIdx_names, toDtypeFM_names env hl, ← zipIdx_names] at h; exact h
            | @field pre n t post m h1 h2 =>
              injection hg with hg; subst hg
              obtain ⟨e, he⟩ := (hf (n, t) (by simp)).2 h2
              exact ⟨e, .inl ⟨_, _, _, _, rfl, h1, he⟩⟩
            | _ => cases hg
        | tuple ts =>
          simp only [toDtypeM, bind_error, toDtypeLM_error, byNumpy_error, ok]
          have hf : ∀ f ∈ ts, (∃ e, toDtypeM env f .measure = .error (e, m)) ↔ MeasureBlame env f m :=
            fun f h => (ih f h).2.1
          constructor
          · rintro ⟨e, ⟨pre, t, post, rfl, h1, h2⟩ | ⟨l, hl, h, rfl⟩⟩
            · exact .component h1 ((hf t (by simp)).1 ⟨e, h2⟩)
            · exfalso
              have hb : (toDtypeM env (.tuple ts) .method).bare = .error e := by
                simp only [toDtypeM, hl]
                show (byNumpy (npStruct l)).bare = _
                rw [byNumpy_bare, h]
              rw [toDtypeM_bare] at hb
              have he := (npStruct_names l e h).1
              subst he
              have hcl := (clash_iff (.tuple ts)).1.1 hb
              generalize hg : Ty.tuple ts = u at hcl
              cases hcl with
              | @component pre t post h1 h2 =>
                injection hg with hg
                subst hg
                have hmc := (clash_iff t).2.1.2 h2
                have hbare := toDtypeM_bare env t .measure
                rw [hmc] at hbare
                cases hx : toDtypeM env t .measure with
                | ok d => rw [hx] at hbare; cases hbare
                | error x =>
                  have := (toDtypeLM_error env (pre ++ t :: post) 0 x).2 ⟨pre, t, post, rfl, fun u hu => (ok u).2 (h1 u hu), hx⟩
                  rw [this] at hl
                  cases hl
              | _ => cases hg
          · intro h
            generalize hg : Ty.tuple ts = u at h
            cases h with
            | foreign h => cases h <;> cases hg
            | component h1 h2 =>
              injection hg with hg; subst hg
              obtain ⟨e, he⟩ := (hf _ (by simp)).2 h2
              exact ⟨e, .inl ⟨_, _, _, rfl, h1, he⟩⟩
            | _ => cases hg
        | _ =>
          refine ⟨fun ⟨_, h⟩ => ?_, fun h => ?_⟩
          · cases h; exact .foreign (by constructor)
          · cases h with
            | foreign h => exact ⟨_, rfl⟩
      refine ⟨key _, ?_, ?_⟩
      · rw [key]
        refine ⟨.measure fun ps h => hds ⟨ps, h⟩, fun h => ?_⟩
        cases h with
        | measure _ h => exact h
        | elements => exact absurd ⟨_, rfl⟩ hds
        | empty => exact absurd ⟨_, rfl⟩ hds
      · rw [key]
        refine ⟨.measure fun ps h => hds ⟨ps, h⟩, fun h => ?_⟩
        cases h with
        | measure _ h => exact h
        | dim => exact absurd ⟨_, rfl⟩ hds
        | elements => exact absurd ⟨_, rfl⟩ hds
        | empty => exact absurd ⟨_, rfl⟩ hds

theorem toNumpyM_bare (env : Env) (t : Ty) : (toNumpyM env t).bare = toNumpy t := by
  cases t with
  | dshape ps =>
    simp only [toNumpyM, toNumpy]
    rw [bareM_bind, withText_bare, toNumpyDimsM_bare]
    congr 1
    funext sh
    rw [bareM_bind]
    have : (toDtypeLastM env ps .method).bare = toDtypeLast ps .method := by
      rcases List.eq_nil_or_concat ps with rfl | ⟨ds, m, rfl⟩
      · rfl
      · rw [List.concat_eq_append, toDtypeLastM_append, toDtypeLast_append, toDtypeM_bare]
    rw [this]
    rfl
  | _ =>
    simp only [toNumpyM, toNumpy]
    rw [bareM_bind, toDtypeM_bare]
    rfl

/-- **C75.** The method `to_numpy_dtype`, the function `to_numpy_dtype` and `to_numpy`: the same results and exceptions, and the
message names the first part without a dtype (or dimension that NumPy does not have). -/
theorem C75.dtype (env : Env) (t : Ty) (m : Option Str) :
    ((toDtypeM env t .method).bare = toDtype t .method ∧ (toDtypeM env t .measure).bare = toNumpyDtype t ∧
      (toNumpyM env t).bare = toNumpy t) ∧
    ((∃ e, toDtypeM env t .method = .error (e, m)) ↔ DtypeBlame env t m) ∧
    ((∃ e, toDtypeM env t .measure = .error (e, m)) ↔ MeasureBlame env t m) ∧
    ((∃ e, toNumpyM env t = .error (e, m)) ↔ NumpyBlame env t m) := by
  refine ⟨⟨toDtypeM_bare env t _, toDtypeM_bare env t _, toNumpyM_bare env t⟩, (blame_iff env t m).1, (blame_iff env t m).2.1, ?_⟩
  by_cases hds : ∃ ps, t = .dshape ps
  · obtain ⟨ps, rfl⟩ := hds
    rw [← full_iff env ps m fun t _ => (blame_iff env t m).1]
    simp only [toNumpyM, bind_error]
    constructor
    · rintro ⟨e, h | ⟨sh, h1, h2 | ⟨d, -, h⟩⟩⟩
      · exact .inl ⟨e, h⟩
      · exact .inr ⟨e, sh, h1, h2⟩
      · cases h
    · rintro (⟨e, h⟩ | ⟨e, sh, h1, h2⟩)
      · exact ⟨e, .inl h⟩
      · exact ⟨e, .inr ⟨sh, h1, .inl h2⟩⟩
  · have : ∀ e, toNumpyM env t = .error (e, m) ↔ toDtypeM env t .method = .error (e, m) := by
      intro e
      have : toNumpyM env t = toDtypeM env t .method >>= fun d => .ok ([], d) := by
        cases t <;> first | rfl | exact absurd ⟨_, rfl⟩ hds
      rw [this, bind_error]
      exact ⟨fun h => h.elim id fun ⟨_, _, h⟩ => (by cases h), .inl⟩
    simp only [this]
    rw [(blame_iff env t m).1]
    refine ⟨.measure fun ps h => hds ⟨ps, h⟩, fun h => ?_⟩
    cases h with
    | measure _ h => exact h
    | dim => exact absurd ⟨_, rfl⟩ hds
    | elements => exact absurd ⟨_, rfl⟩ hds
    | empty => exact absurd ⟨_, rfl⟩ hds

/-- `to_numpy` of `3 * {a: int32, b: (int32, ?json)}` blames `?json`. -/
theorem C75.dtype_example (env : Env) : toNumpyM env (.dshape [.fixed 3, .record [(py"a", tInt32), (py"b", .tuple [tInt32, .option .json])]]) =
    .error (.typeError, some (py"DataShape measure ?json is not NumPy-compatible")) := rfl

end DS
