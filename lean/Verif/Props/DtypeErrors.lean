import Verif.Spec.DtypeErrors
import Verif.Props.Dtype

/-
C63: exactly when the dtype of a datashape is a `ValueError`.
-/
namespace DS

theorem toDtypeF_error_iff (fs : List (Str × Ty)) (e : PyErr) : toDtypeF fs = .error e ↔
    ∃ pre n t post, fs = pre ++ (n, t) :: post ∧ (∀ f ∈ pre, ∃ d, toDtype f.2 .measure = .ok d) ∧
      toDtype t .measure = .error e := by
  induction fs with
  | nil => exact ⟨fun h => (by cases h), fun ⟨_, _, _, _, h, _⟩ => by simp at h⟩
  | cons f fs ih =>
    obtain ⟨n, t⟩ := f
    simp only [toDtypeF, bind_error, ih]
    constructor
    · rintro (h | ⟨d, hd, ⟨pre, n', t', post, rfl, h2, h3⟩ | ⟨_, _, h⟩⟩)
      · exact ⟨[], n, t, fs, rfl, by simp, h⟩
      · refine ⟨(n, t) :: pre, n', t', post, rfl, fun f hf => ?_, h3⟩
        rcases List.mem_cons.1 hf with rfl | hf
        · exact ⟨d, hd⟩
        · exact h2 f hf
      · cases h
    · rintro ⟨pre, n', t', post, h1, h2, h3⟩
      cases pre with
      | nil => injection h1 with h1 h1'; cases h1; exact .inl h3
      | cons p pre =>
        injection h1 with h1 h1'; subst h1
        obtain ⟨d, hd⟩ := h2 _ (List.mem_cons_self ..)
        exact .inr ⟨d, hd, .inl ⟨pre, n', t', post, h1', fun f hf => h2 f (List.mem_cons_of_mem _ hf), h3⟩⟩

theorem toDtypeL_error_iff (ts : List Ty) (k : Nat) (e : PyErr) : toDtypeL ts k = .error e ↔
    ∃ pre t post, ts = pre ++ t :: post ∧ (∀ u ∈ pre, ∃ d, toDtype u .measure = .ok d) ∧ toDtype t .measure = .error e := by
  induction ts generalizing k with
  | nil => exact ⟨fun h => (by cases h), fun ⟨_, _, _, h, _⟩ => by simp at h⟩
  | cons t ts ih =>
    simp only [toDtypeL, bind_error, ih]
    constructor
    · rintro (h | ⟨d, hd, ⟨pre, t', post, rfl, h2, h3⟩ | ⟨_, _, h⟩⟩)
      · exact ⟨[], t, ts, rfl, by simp, h⟩
      · refine ⟨t :: pre, t', post, rfl, fun f hf => ?_, h3⟩
        rcases List.mem_cons.1 hf with rfl | hf
        · exact ⟨d, hd⟩
        · exact h2 f hf
      · cases h
    · rintro ⟨pre, t', post, h1, h2, h3⟩
      cases pre with
      | nil => injection h1 with h1 h1'; subst h1; exact .inl h3
      | cons p pre =>
        injection h1 with h1 h1'; subst h1
        obtain ⟨d, hd⟩ := h2 _ (List.mem_cons_self ..)
        exact .inr ⟨d, hd, .inl ⟨pre, t', post, h1', fun f hf => h2 f (List.mem_cons_of_mem _ hf), h3⟩⟩

theorem toDtypeF_total (fs : List (Str × Ty)) : (∃ l, toDtypeF fs = .ok l) ↔ ∀ f ∈ fs, ∃ d, toDtype f.2 .measure = .ok d := by
  induction fs with
  | nil => exact ⟨fun _ => by simp, fun _ => ⟨[], rfl⟩⟩
  | cons f fs ih =>
    obtain ⟨n, t⟩ := f
    simp only [toDtypeF, bind_ok, List.mem_cons, forall_eq_or_imp, ← ih]
    constructor
    · rintro ⟨_, d, hd, l, hl, -⟩; exact ⟨⟨d, hd⟩, l, hl⟩
    · rintro ⟨⟨d, hd⟩, l, hl⟩; exact ⟨_, d, hd, l, hl, rfl⟩

theorem zipIdx_names {α : Type} (l : List (Str × α)) : (l.zipIdx.map fun p => npFieldName p.2 p.1.1) =
    (l.map (·.1)).zipIdx.map fun p => npFieldName p.2 p.1 := by
  rw [List.zipIdx_map, List.map_map]; rfl

theorem npStruct_error_iff (l : List (Str × DType)) (e : PyErr) : npStruct l = .error e ↔
    e = .valueError ∧ ¬ (l.zipIdx.map fun p => npFieldName p.2 p.1.1).Nodup := by
  constructor
  · exact npStruct_names l e
  · rintro ⟨rfl, h⟩
    cases hs : npStruct l with
    | error e => rw [(npStruct_names l e hs).1]
    | ok d =>
      obtain ⟨gs, rfl, h1, h2, h3⟩ := (npStruct_iff l d).1 hs
      refine absurd ?_ h
      have : (l.zipIdx.map fun p => npFieldName p.2 p.1.1) = gs.map (·.1) := by
        apply List.ext_getElem
        · simp [h1]
        · intro i a b
          simp only [List.length_map, List.length_zipIdx] at a b
          simp only [List.getElem_map, List.getElem_zipIdx, Nat.zero_add]
          rw [h2 i _ _ (List.getElem?_eq_getElem a) (List.getElem?_eq_getElem b)]
      rw [this]; exact h3

theorem toDtypeF_names {fs : List (Str × Ty)} {l : List (Str × DType)} (h : toDtypeF fs = .ok l) :
    l.map (·.1) = fs.map (·.1) := by
  have := (toDtypeF_iff fs l).1 h
  clear h
  induction this with
  | nil => rfl
  | cons h _ ih => simp [h.1, ih]

/-- what `to_numpy` raises for a part that it takes for the measure -/
def FullClash (t : Ty) : Prop :=
  DtypeClash t ∨ ∃ dims m, t = .dshape (dims ++ [m]) ∧ (∀ x ∈ dims, ∃ n, NpDim x n) ∧ DtypeClash m

theorem DtypeClash.not_ds {ps : List Ty} (h : DtypeClash (.dshape ps)) : False := by cases h

theorem measureClash_iff (t : Ty) : MeasureClash t ↔ DtypeClash t ∨ ∃ dims m, t = .dshape (dims ++ [m]) ∧ FullClash m := by
  constructor
  · intro h
    cases h with
    | measure h => exact .inl h
    | array h => exact .inr ⟨_, _, rfl, .inl h⟩
    | arrays h1 h2 => exact .inr ⟨_, _, rfl, .inr ⟨_, _, rfl, h1, h2⟩⟩
  · rintro (h | ⟨dims, m, rfl, h | ⟨dims', m', rfl, h1, h2⟩⟩)
    · exact .measure h
    · exact .array h
    · exact .arrays h1 h2

theorem clash_iff (t : Ty) : (toDtype t .method = .error .valueError ↔ DtypeClash t) ∧
    (toDtype t .measure = .error .valueError ↔ MeasureClash t) ∧ (toDtype t .full = .error .valueError ↔ FullClash t) := by
  induction t using Ty.ind_children with
  | h t ih =>
    by_cases hds : ∃ ps, t = .dshape ps
    · obtain ⟨ps, rfl⟩ := hds
      refine ⟨⟨fun h => (by cases h), fun h => h.not_ds.elim⟩, ?_⟩
      cases hp : ps.getLast? with
      | none =>
        have := List.getLast?_eq_none_iff.1 hp
        subst this
        refine ⟨⟨fun h => (by cases h), fun h => ?_⟩, ⟨fun h => (by cases h), fun h => ?_⟩⟩
        · rcases (measureClash_iff _).1 h with h | ⟨dims, m, e, _⟩
          · exact h.not_ds.elim
          · simp at e
        · rcases h with h | ⟨dims, m, e, _⟩
          · exact h.not_ds.elim
          · simp at e
      | some m =>
        have hm := ih m (List.mem_of_getLast? hp)
        have e := snoc_of hp
        generalize ps.dropLast = dims at e
        subst e
        have inj : ∀ {dims' : List Ty} {m'}, Ty.dshape (dims ++ [m]) = .dshape (dims' ++ [m']) → dims = dims' ∧ m = m' := by
          intro dims' m' h
          injection h with h
          have := List.append_inj' h rfl
          exact ⟨this.1, by simpa using this.2⟩
        refine ⟨?_, ?_⟩
        · rw [measureClash_iff]
          simp only [toDtype, toDtypeLast_append]
          rw [hm.2.2]
          constructor
          · intro h; exact .inr ⟨dims, m, rfl, h⟩
          · rintro (h | ⟨dims', m', e, h⟩)
            · exact h.not_ds.elim
            · obtain ⟨rfl, rfl⟩ := inj e; exact h
        · simp only [toDtype, toDtypeLast_append, bind_error, toNumpyDims_iff]
          rw [hm.1]
          constructor
          · rintro (h | ⟨sh, h1, h2⟩)
            · cases toNumpyDims_error h
            · exact .inr ⟨dims, m, rfl, ex_each.1 ⟨sh, h1⟩, h2⟩
          · rintro (h | ⟨dims', m', e, h1, h2⟩)
            · exact h.not_ds.elim
            · obtain ⟨rfl, rfl⟩ := inj e
              obtain ⟨sh, hs⟩ := ex_each.2 h1
              exact .inr ⟨sh, hs, h2⟩
    · have key : ∀ k, toDtype t k = .error .valueError ↔ DtypeClash t := by
        intro k
        have ok : ∀ u, (∃ d, toDtype u .measure = .ok d) ↔ ∃ d, MeasureDtype u d :=
          fun u => ⟨fun ⟨d, h⟩ => ⟨d, ((dtype_iff u).2.1 d).1 h⟩, fun ⟨d, h⟩ => ⟨d, ((dtype_iff u).2.1 d).2 h⟩⟩
        cases t with
        | map a b =>
          simp only [toDtype]
          rw [(ih a (by simp [Ty.children])).2.1]
          exact ⟨.map, fun h => by cases h; assumption⟩
        | record fs =>
          simp only [toDtype, bind_error, toDtypeF_error_iff, npStruct_error_iff, ok]
          have hf : ∀ f ∈ fs, toDtype f.2 .measure = .error .valueError ↔ MeasureClash f.2 :=
            fun f h => (ih f.2 (by simp only [Ty.children, List.mem_map]; exact ⟨_, h, rfl⟩)).2.1
          constructor
          · rintro (⟨pre, n, t, post, rfl, h1, h2⟩ | ⟨l, hl, -, hn⟩)
            · exact .field h1 ((hf (n, t) (by simp)).1 h2)
            · refine .names (fun f h => (ok f.2).1 ((toDtypeF_total fs).1 ⟨l, hl⟩ f h)) fun h => hn ?_
              rw [zipIdx_names, toDtypeF_names hl, ← zipIdx_names]; exact h
          · intro h
            generalize hg : Ty.record fs = u at h
            cases h with
            | names h1 h2 =>
              cases hg
              obtain ⟨l, hl⟩ := (toDtypeF_total fs).2 fun f h => (ok f.2).2 (h1 f h)
              refine .inr ⟨l, hl, trivial, fun h => h2 ?_⟩
              rw [zipIdx_names, toDtypeF_names hl, ← zipIdx_names] at h; exact h
            | @field pre n t post h1 h2 =>
              injection hg with hg; subst hg
              exact .inl ⟨_, _, _, _, rfl, h1, (hf (n, t) (by simp)).2 h2⟩
            | _ => cases hg
        | tuple ts =>
          simp only [toDtype, bind_error, toDtypeL_error_iff, ok]
          have hf : ∀ f ∈ ts, toDtype f .measure = .error .valueError ↔ MeasureClash f :=
            fun f h => (ih f h).2.1
          constructor
          · rintro (⟨pre, t, post, rfl, h1, h2⟩ | ⟨l, hl, h⟩)
            · exact .component h1 ((hf t (by simp)).1 h2)
            · rw [npStruct_error_iff] at h
              refine absurd ?_ h.2
              have := (each_at.1 ((toDtypeL_iff ts 0 l).1 hl))
              rw [List.Nodup, List.pairwise_iff_getElem]
              intro i j hi hj hij heq
              simp only [List.length_map, List.length_zipIdx] at hi hj
              simp only [List.getElem_map, List.getElem_zipIdx, Nat.zero_add] at heq
              have name : ∀ (i : Nat) (hi : i < l.length), l[i].1 = py"f" ++ natStr i := by
                intro i hi
                have hlen := this.1
                rw [List.length_zipIdx] at hlen
                have hti : i < ts.length := by omega
                exact (this.2 i (ts[i], i) l[i] (by simp [List.getElem?_zipIdx, List.getElem?_eq_getElem hti])
                  (List.getElem?_eq_getElem hi)).1
              rw [name i hi, name j hj] at heq
              simp only [npFieldName] at heq
              rw [if_neg (by simp), if_neg (by simp)] at heq
              have := natStr_inj (List.append_cancel_left heq)
              omega
          · intro h
            generalize hg : Ty.tuple ts = u at h
            cases h with
            | component h1 h2 =>
              injection hg with hg; subst hg
              exact .inl ⟨_, _, _, rfl, h1, (hf _ (by simp)).2 h2⟩
            | _ => cases hg
        | dshape ps => exact absurd ⟨ps, rfl⟩ hds
        | ctype n i a =>
          refine ⟨fun h => ?_, fun h => by cases h⟩
          simp only [toDtype] at h
          split at h <;> cases h
        | string n e' =>
          refine ⟨fun h => ?_, fun h => by cases h⟩
          simp only [toDtype, stringDtype] at h
          split at h
          · cases h
          · split at h
            · cases h
            · split at h
              · cases h
              · split at h <;> cases h
        | decimal p s =>
          refine ⟨fun h => ?_, fun h => by cases h⟩
          rcases dtype_error _ _ _ h with h' | ⟨_, fs, ho, _⟩
          · cases h'
          · cases ho with
            | step h1 _ => simp [Ty.children] at h1
        | option u =>
          refine ⟨fun h => ?_, fun h => by cases h⟩
          cases u <;> cases h
        | _ => exact ⟨fun h => (by cases h), fun h => by cases h⟩
      refine ⟨key _, ?_, ?_⟩
      · rw [key, measureClash_iff]
        exact ⟨.inl, fun h => h.elim id fun ⟨dims, m, e, _⟩ => absurd ⟨_, e⟩ hds⟩
      · rw [key]
        exact ⟨.inl, fun h => h.elim id fun ⟨dims, m, e, _⟩ => absurd ⟨_, e⟩ hds⟩

/-- **C63.** Exactly when the method, the function and `to_numpy` raise `ValueError`. -/
theorem C63.value_error (t : Ty) : (toDtype t .method = .error .valueError ↔ DtypeClash t) ∧
    (toNumpyDtype t = .error .valueError ↔ MeasureClash t) ∧ (toNumpy t = .error .valueError ↔ NumpyClash t) := by
  refine ⟨(clash_iff t).1, (clash_iff t).2.1, ?_⟩
  by_cases hds : ∃ ps, t = .dshape ps
  · obtain ⟨ps, rfl⟩ := hds
    have : toNumpy (.dshape ps) = .error .valueError ↔ toDtype (.dshape ps) .full = .error .valueError := by
      simp only [toNumpy, toDtype, bind_error]
      constructor
      · rintro (h | ⟨sh, h1, h | ⟨_, _, h⟩⟩)
        · exact .inl h
        · exact .inr ⟨sh, h1, h⟩
        · cases h
      · rintro (h | ⟨sh, h1, h⟩)
        · exact .inl h
        · exact .inr ⟨sh, h1, .inl h⟩
    rw [this, (clash_iff _).2.2]
    constructor
    · rintro (h | ⟨dims, m, e, h1, h2⟩)
      · exact .measure h
      · rw [e]; exact .array h1 h2
    · intro h
      generalize hg : Ty.dshape ps = u at h
      cases h with
      | measure h => exact .inl h
      | array h1 h2 => exact .inr ⟨_, _, rfl, h1, h2⟩
  · have : toNumpy t = (toDtype t .method >>= fun d => .ok ([], d)) := by
      cases t <;> first | rfl | exact absurd ⟨_, rfl⟩ hds
    rw [this, bind_error, (clash_iff t).1]
    constructor
    · rintro (h | ⟨_, _, h⟩)
      · exact .measure h
      · cases h
    · intro h
      cases h with
      | measure h => exact .inl h
      | array => exact absurd ⟨_, rfl⟩ hds

/-- **C63.** So everything that has no dtype and is no such clash raises `TypeError`. -/
theorem C63.type_error (t : Ty) :
    (toDtype t .method = .error .typeError ↔ (∀ d, ¬ DtypeOf t d) ∧ ¬ DtypeClash t) ∧
    (toNumpyDtype t = .error .typeError ↔ (∀ d, ¬ MeasureDtype t d) ∧ ¬ MeasureClash t) ∧
    (toNumpy t = .error .typeError ↔ (∀ sh d, ¬ NumpyOf t sh d) ∧ ¬ NumpyClash t) := by
  have gen : ∀ {α : Type} (r : Except PyErr α) (P : α → Prop) (Q : Prop), (∀ d, r = .ok d ↔ P d) → (r = .error .valueError ↔ Q) →
      (∀ e, r = .error e → e = .typeError ∨ e = .valueError) → (r = .error .typeError ↔ (∀ d, ¬ P d) ∧ ¬ Q) := by
    intro α r P Q h1 h2 h3
    constructor
    · intro h
      exact ⟨fun d hd => (by rw [← h1, h] at hd; cases hd), fun hq => by rw [← h2, h] at hq; cases hq⟩
    · rintro ⟨ha, hb⟩
      cases r with
      | ok d => exact absurd ((h1 d).1 rfl) (ha d)
      | error e =>
        rcases h3 e rfl with rfl | rfl
        · rfl
        · exact absurd (h2.1 rfl) hb
  have h := C63.value_error t
  refine ⟨gen _ _ _ (C63.method t) h.1 fun e he => (C63.raises t e (.inl he)).imp id (·.1),
    gen _ _ _ (C63.function t) h.2.1 fun e he => (C63.raises t e (.inr (.inl he))).imp id (·.1), ?_⟩
  have := gen (toNumpy t) (fun p => NumpyOf t p.1 p.2) _ (fun p => C63.to_numpy t p.1 p.2) h.2.2
    fun e he => (C63.raises t e (.inr (.inr he))).imp id (·.1)
  rw [this]
  exact and_congr_left' ⟨fun h sh d => h (sh, d), fun h p => h p.1 p.2⟩

/-! The clash counts only if the fields before it, and its own fields, have dtypes. -/
example : toNumpyDtype (.record [(py"a", .record [(py"f1", tInt8), ([], tInt8)]), (py"b", .option tInt8)]) = .error .valueError := by
  rw [(C63.value_error _).2.1]
  refine .measure (.field (pre := []) (by simp) (.measure (.names (fun f hf => ?_) (by unfold NpClash; decide +kernel))))
  simp only [List.mem_cons, List.not_mem_nil, or_false] at hf
  rcases hf with rfl | rfl <;> exact ⟨_, .measure (.sized (.name .int8))⟩
example : toNumpyDtype (.record [(py"b", .option tInt8), (py"a", .record [(py"f1", tInt8), ([], tInt8)])]) = .error .typeError := rfl

end DS
