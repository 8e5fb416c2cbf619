import Verif.Spec.Yields
import Verif.Props.SliceLaw
import Verif.Props.SubshapeConverse
import Verif.Props.WellFormed

/-
C19: `ds.subshape[index]`, exactly, for every index.
-/
namespace DS

theorem GoodRecords.tail {d : Ty} {ps : List Ty} (h : GoodRecords (d :: ps)) : GoodRecords ps :=
  fun p hp => h p (List.mem_cons_of_mem _ hp)

theorem GoodRecords.cons {d : Ty} {ps : List Ty} (h : GoodRecords ps) (hd : GoodRecords [d]) : GoodRecords (d :: ps) := by
  intro p hp
  rcases List.mem_cons.1 hp with rfl | hp
  · exact hd p (by simp)
  · exact h p hp

theorem GoodRecords.head {d : Ty} {ps : List Ty} (h : GoodRecords (d :: ps)) : GoodRecords [d] := by
  intro p hp
  obtain rfl := List.mem_singleton.1 hp
  exact h p (by simp)

theorem GoodRecords.leaf {d : Ty} (hc : d.children = []) (hd : ∀ fs, d ≠ .record fs) : GoodRecords [d] := by
  intro p hp fs ho
  obtain rfl := List.mem_singleton.1 hp
  cases ho with
  | refl => exact absurd rfl (hd fs)
  | step h => rw [hc] at h; cases h

theorem GoodRecords.child {t c : Ty} (h : GoodRecords [t]) (hc : c ∈ t.children) : GoodRecords [c] := by
  intro p hp fs ho
  obtain rfl := List.mem_singleton.1 hp
  exact h t (by simp) fs (.step hc ho)

theorem GoodRecords.asParams {t : Ty} (h : GoodRecords [t]) : GoodRecords (asParams t) := by
  cases t with
  | dshape ps =>
    intro p hp
    exact (h.child (c := p) hp) p (by simp)
  | _ => exact h

theorem GoodRecords.fields {fs : List (Str × Ty)} (h : GoodRecords [.record fs]) : (fs.map (·.1)).Nodup ∧
    ∀ f ∈ fs, f.2.isSingleton = false ∧ ∀ qs, f.2 = .dshape qs → Constructible qs :=
  h _ (by simp) fs (.refl _)

/-- Components of a `DataShape`, or a dimension alone. -/
def Usable (t : Ty) : Prop := MayEnd t → Constructible (asParams t)

theorem usable_ds {ps : List Ty} (h : Constructible ps) : Usable (.dshape ps) := fun _ => h

theorem GoodRecords.sub {fs gs : List (Str × Ty)} (h : GoodRecords [.record fs]) (hn : (gs.map (·.1)).Nodup)
    (hs : ∀ f ∈ gs, f ∈ fs) : GoodRecords [.record gs] := by
  intro p hp fs' ho
  obtain rfl := List.mem_singleton.1 hp
  generalize hg : Ty.record fs' = u at ho
  cases ho with
  | refl =>
    cases hg
    exact ⟨hn, fun f hf => h.fields.2 f (hs f hf)⟩
  | step hc ho =>
    subst hg
    obtain ⟨f, hf, rfl⟩ := List.mem_map.1 hc
    exact h (.record fs) (by simp) fs' (.step (t := .record fs) (List.mem_map.2 ⟨f, hs f hf, rfl⟩) ho)

/-- The measure of a field: what selecting it gives. -/
theorem field_good {fs : List (Str × Ty)} (h : GoodRecords [.record fs]) {f : Str × Ty} (hf : f ∈ fs) :
    Usable f.2 ∧ GoodRecords (asParams f.2) :=
  ⟨by
    obtain ⟨h1, h2⟩ := h.fields.2 f hf
    intro he
    generalize f.2 = t at *
    cases t with
    | dshape qs => exact h2 qs rfl
    | _ => exact ⟨[], _, rfl, by simp, he, by simpa [asParams] using h1⟩, (h.child (List.mem_map.2 ⟨f, hf, rfl⟩)).asParams⟩

theorem slice_fields {fs gs : List (Str × Ty)} {a b c : Option Int} : pySlice fs a b c = .ok gs ↔ FieldSlice fs a b c gs := by
  cases c with
  | none =>
    rw [pySlice_pos fs a b none (by simp)]
    constructor
    · intro h; cases h; exact .one
    · intro h; cases h; rfl
  | some c =>
    by_cases hc : 1 ≤ c
    · rw [pySlice_pos fs a b (some c) hc]
      constructor
      · intro h; cases h; exact .up hc
      · intro h
        cases h with
        | up => rfl
        | down hk => omega
    · by_cases hc0 : c = 0
      · subst hc0
        constructor
        · intro h; cases h
        · intro h
          generalize hz : (some 0 : Option Int) = z at h
          cases h with
          | one => cases hz
          | up h => cases hz; omega
          | down h => simp at hz; omega
      · obtain ⟨k, rfl⟩ : ∃ k : Nat, c = -(k : Int) := ⟨c.natAbs, by omega⟩
        have hk : 0 < k := by omega
        rw [pySlice_neg fs a b k hk]
        constructor
        · intro h; cases h; exact .down hk
        · intro h
          generalize hz : (some (-(k : Int)) : Option Int) = z at h
          cases h with
          | one => cases hz
          | up h => cases hz; omega
          | @down k' h =>
            simp at hz
            obtain rfl : k' = k := by omega
            rfl

theorem FieldSlice.sub {fs gs : List (Str × Ty)} {a b c : Option Int} (h : FieldSlice fs a b c gs) (hn : (fs.map (·.1)).Nodup) :
    (gs.map (·.1)).Nodup ∧ ∀ f ∈ gs, f ∈ fs := by
  have hsub : ∀ (l : List Nat), ∀ f ∈ l.filterMap (fun i => fs[i]?), f ∈ fs := by
    intro l f hf
    obtain ⟨i, -, hi⟩ := List.mem_filterMap.1 hf
    exact List.mem_of_getElem? hi
  cases h with
  | one => exact ⟨sub_nodup hn (selected_sorted _ _ _ _), hsub _⟩
  | up => exact ⟨sub_nodup hn (selected_sorted _ _ _ _), hsub _⟩
  | down => exact ⟨sub_nodup_down hn (selectedDown_sorted _ _ _ _), hsub _⟩

theorem dim_slice {d : Ty} {ps : List Ty} (hcon : Constructible (d :: ps)) (hne : ps ≠ []) (a b c : Option Int) (t : Ty) :
    subshape (.slice a b c) (.dshape (d :: ps)) = .ok t ↔ ∃ e, DimSlice a b c d e ∧ t = .dshape (e :: ps) := by
  by_cases hd : ∃ n, d = .fixed n
  · obtain ⟨n, rfl⟩ := hd
    rw [C18.every_slice n ps hcon]
    constructor
    · rintro ⟨h1, h2, h3, h4⟩
      cases h4
      exact ⟨_, .fixed h1 h2 h3, rfl⟩
    · rintro ⟨e, h, rfl⟩
      cases h with
      | fixed h1 h2 h3 => exact .of h1 h2 h3 (.made _)
      | known h => exact absurd rfl (h n)
      | unknown h => exact absurd rfl (h n)
  · have hd' : ∀ n, d ≠ .fixed n := fun n h => hd ⟨n, h⟩
    rw [C18.every_dim_slice d hd' ps hne hcon]
    constructor
    · intro h
      cases h with
      | known h1 h2 h3 => cases h3; exact ⟨_, .known hd' h1 h2, rfl⟩
      | unknown h => exact ⟨_, .unknown hd' h, rfl⟩
    · rintro ⟨e, h, rfl⟩
      cases h with
      | fixed => exact absurd rfl (hd' _)
      | known _ h1 h2 => exact .known h1 h2 (.made _)
      | unknown _ h => exact .unknown h

/-- What is to be shown of an index. -/
def IndexExact (i : Index) : Prop :=
  ∀ ps, Constructible ps → GoodRecords ps → ∀ t,
    (subshape i (.dshape ps) = .ok t → Yields i ps t ∧ Usable t ∧ GoodRecords (asParams t)) ∧
    (Yields i ps t → subshape i (.dshape ps) = .ok t)

/-- What is to be shown of the indices in a tuple. -/
def TupleExact (l : List Index) : Prop :=
  ∀ ps, Constructible ps → GoodRecords ps → ∀ t,
    (subshapeT l (.dshape ps) = .ok t → InTurns l ps t ∧ Usable t ∧ GoodRecords (asParams t)) ∧
    (InTurns l ps t → subshapeT l (.dshape ps) = .ok t)

theorem good_dim {d : Ty} (h : (∃ k, d = .fixed k) ∨ d = .var) : GoodRecords [d] := by
  rcases h with ⟨k, rfl⟩ | rfl
  · exact .leaf rfl (by simp)
  · exact .leaf rfl (by simp)

theorem con_dim {d : Ty} {ps : List Ty} (h : (∃ k, d = .fixed k) ∨ d = .var) (hc : Constructible ps) : Constructible (d :: ps) := by
  rcases h with ⟨k, rfl⟩ | rfl
  · exact hc.cons (by simp [Ty.cls]) rfl
  · exact hc.cons (by simp [Ty.cls]) rfl

theorem DimSlice.dim {a b c : Option Int} {d e : Ty} (h : DimSlice a b c d e) : (∃ k, e = .fixed k) ∨ e = .var := by
  cases h with
  | fixed => exact .inl ⟨_, rfl⟩
  | known => exact .inl ⟨_, rfl⟩
  | unknown => exact .inr rfl

theorem record_or_dim {ps : List Ty} (hc : Constructible ps) :
    (∃ fs, ps = [.record fs]) ∨ ∃ d xs, ps = d :: xs ∧ d.fields? = none ∧ ∀ fs, d ≠ .record fs := by
  obtain ⟨d, xs, rfl⟩ := List.exists_cons_of_ne_nil hc.ne_nil
  cases hd : d.fields? with
  | none => exact .inr ⟨d, xs, rfl, hd, by rintro fs rfl; cases hd⟩
  | some fs =>
    obtain rfl := fields_record hd
    obtain rfl := record_alone hc
    exact .inl ⟨fs, rfl⟩

theorem subarray_single {d : Ty} : subarray (.dshape [d]) 1 = .error .indexError := by simp [subarray]

theorem int_exact (i : Int) : IndexExact (.int i) := by
  intro ps hc hg t
  rcases record_or_dim hc with ⟨fs, rfl⟩ | ⟨d, xs, rfl, hd, hr⟩
  · have hs : subshape (.int i) (.dshape [.record fs]) = (pyGet fs i).map (·.2) := by
      simp only [subshape, head_dshape, bind, Except.bind, isDimension, Ty.fields?]
      cases pyGet fs i <;> rfl
    rw [hs]
    constructor
    · intro h
      cases hp : pyGet fs i with
      | error e => rw [hp] at h; cases h
      | ok f =>
        rw [hp] at h
        cases h
        have hat := (pyGet_iff fs i f).1 hp
        have hmem : f ∈ fs := by
          cases hat with
          | front k x h => exact List.mem_of_getElem? h
          | back k x _ _ h => exact List.mem_of_getElem? h
        exact ⟨.fieldAt hat, field_good hg hmem⟩
    · intro h
      cases h with
      | int _ h => cases h
      | fieldAt h => rw [pyGet_at h]; rfl
  · constructor
    · intro h
      obtain ⟨hne, ys, e, h1, h2⟩ := axis_step hc hd (by simp) (by simp) h
      simp only [subshape, head_dshape, bind, Except.bind, hd] at h
      split at h
      · rename_i hdim
        obtain ⟨hne, rfl⟩ := subarray_one_ok hc h
        exact ⟨.int i hdim hne, usable_ds (Constructible.suffix (a := [d]) hc hne), hg.tail⟩
      · cases h
    · intro h
      cases h with
      | int _ hdim hne =>
        simp only [subshape, head_dshape, bind, Except.bind, hdim, if_true]
        exact subarray_one hc hne
      | fieldAt => exact absurd rfl (hr _)

theorem str_exact (s : Str) : IndexExact (.str s) := by
  intro ps hc hg t
  rcases record_or_dim hc with ⟨fs, rfl⟩ | ⟨d, xs, rfl, hd, hr⟩
  · have hs : subshape (.str s) (.dshape [.record fs]) = recordGet fs s := by
      simp only [subshape, head_dshape, bind, Except.bind, Ty.fields?]
    rw [hs]
    have hl := (C14.lookup fs hg.fields.1 s).1 t
    constructor
    · intro h
      have hm := hl.1 h
      exact ⟨.field hm, field_good hg hm⟩
    · intro h
      cases h with
      | field h => exact hl.2 h
  · constructor
    · intro h
      simp only [subshape, head_dshape, bind, Except.bind, hd] at h
      cases h
    · intro h
      cases h
      exact absurd rfl (hr _)

theorem list_exact (l : List LIdx) : IndexExact (.list l) := by
  intro ps hc hg t
  rcases record_or_dim hc with ⟨fs, rfl⟩ | ⟨d, xs, rfl, hd, hr⟩
  · obtain ⟨hn, hgf⟩ := hg.fields
    constructor
    · intro h
      simp only [subshape, head_dshape, Ty.fields?, selectRecord, bind_ok] at h
      obtain ⟨d', hd', h⟩ := h
      cases hd'
      simp only [bind_ok] at h
      obtain ⟨pos, h1, sel, h2, r, h3, h4⟩ := h
      have hp := picks_of_select hn h1 h2
      have hnd : (sel.map (·.1)).Nodup := by
        unfold mkRecord at h3
        split at h3
        · assumption
        · cases h3
      rw [mkRecord_good hnd fun f hf => (hgf f (picks_mem hp f hf)).1] at h3
      cases h3
      rw [mkDS_self.2 (record_con sel)] at h4
      cases h4
      exact ⟨.fields hp hnd, usable_ds (record_con sel), hg.sub hnd (picks_mem hp)⟩
    · intro h
      cases h with
      | list _ h => cases h
      | fields hp hnd =>
        obtain ⟨pos, h1, h2⟩ := select_picks hn hp
        have h3 := mkRecord_good hnd fun f hf => (hgf f (picks_mem hp f hf)).1
        simp only [subshape, head_dshape, bind, Except.bind, Ty.fields?, selectRecord, h1, h2, h3]
        exact mkDS_self.2 (record_con _)
  · constructor
    · intro h
      simp only [subshape, head_dshape, bind, Except.bind, hd] at h
      split at h
      · rename_i hdim
        cases hs : subarray (.dshape (d :: xs)) 1 with
        | error e => rw [hs] at h; cases h
        | ok u =>
          rw [hs] at h
          obtain ⟨hne, rfl⟩ := subarray_one_ok hc hs
          have hx := Constructible.suffix (a := [d]) hc hne
          have hm : mul (.int l.length) (.ty (.dshape xs)) = .ok t := h
          rw [mul_int_asParams (t := .dshape xs) rfl hx] at hm
          cases hm
          exact ⟨.list l hdim hne, usable_ds (con_dim (.inl ⟨_, rfl⟩) hx), hg.tail.cons (good_dim (.inl ⟨_, rfl⟩))⟩
      · cases h
    · intro h
      cases h with
      | list _ hdim hne =>
        have hx := Constructible.suffix (a := [d]) hc hne
        simp only [subshape, head_dshape, bind, Except.bind, hd, hdim, if_true, subarray_one hc hne]
        exact mul_int_asParams (t := .dshape xs) rfl hx
      | fields => exact absurd rfl (hr _)

theorem slice_exact (a b c : Option Int) : IndexExact (.slice a b c) := by
  intro ps hc hg t
  rcases record_or_dim hc with ⟨fs, rfl⟩ | ⟨d, xs, rfl, hd, hr⟩
  · obtain ⟨hn, hgf⟩ := hg.fields
    constructor
    · intro h
      simp only [subshape, head_dshape, Ty.fields?, bind_ok] at h
      obtain ⟨d', hd', h⟩ := h
      cases hd'
      simp only [bind_ok] at h
      obtain ⟨sel, h1, r, h3, h4⟩ := h
      have hsl := slice_fields.1 h1
      obtain ⟨hnd, hs⟩ := hsl.sub hn
      rw [mkRecord_good hnd fun f hf => (hgf f (hs f hf)).1] at h3
      cases h3
      rw [mkDS_self.2 (record_con sel)] at h4
      cases h4
      exact ⟨.fieldSlice hsl, usable_ds (record_con sel), hg.sub hnd hs⟩
    · intro h
      cases h with
      | slice h => exact absurd rfl h
      | fieldSlice hsl =>
        obtain ⟨hnd, hs⟩ := hsl.sub hn
        have h3 := mkRecord_good hnd fun f hf => (hgf f (hs f hf)).1
        simp only [subshape, head_dshape, bind, Except.bind, Ty.fields?, slice_fields.2 hsl, h3]
        exact mkDS_self.2 (record_con _)
  · constructor
    · intro h
      have hne := (slice_step hc hd h).1
      obtain ⟨e, he, rfl⟩ := (dim_slice hc hne a b c t).1 h
      exact ⟨.slice hne he, usable_ds (con_dim he.dim (Constructible.suffix (a := [d]) hc hne)), hg.tail.cons (good_dim he.dim)⟩
    · intro h
      cases h with
      | slice hne he => exact (dim_slice hc hne a b c _).2 ⟨_, he, rfl⟩
      | fieldSlice => exact absurd rfl (hr _)

theorem tuple_exact {l : List Index} (h : TupleExact l) : IndexExact (.tuple l) := by
  intro ps hc hg t
  obtain ⟨d, xs, rfl⟩ := List.exists_cons_of_ne_nil hc.ne_nil
  have hs : subshape (.tuple l) (.dshape (d :: xs)) = subshapeT l (.dshape (d :: xs)) := by
    rw [subshape]
    simp only [head_dshape, bind, Except.bind]
  rw [hs]
  obtain ⟨h1, h2⟩ := h _ hc hg t
  exact ⟨fun h => ⟨.tuple (h1 h).1, (h1 h).2⟩, fun h => by cases h with | tuple h => exact h2 h⟩

theorem bare_ds {t : Ty} (h : ¬ MayEnd t) : t.isDShape = false := by
  cases t <;> first | rfl | exact absurd ⟨by simp, by simp⟩ h

theorem mul_bare {d t u : Ty} (h : ¬ MayEnd t) (hm : mul (.ty d) (.ty t) = .ok u) : False := by
  cases t with
  | fixed n => simp [mul, Operand.toTy, bind, Except.bind, mkDS, checkDS, launderTy, Ty.cls] at hm
  | var => simp [mul, Operand.toTy, bind, Except.bind, mkDS, checkDS, launderTy, Ty.cls] at hm
  | _ => exact h ⟨by simp, by simp⟩

theorem cons_exact {i : Index} {r : List Index} (hi : IndexExact i) (hr : TupleExact r) : TupleExact (i :: r) := by
  intro ps hc hg t
  obtain ⟨d, xs, rfl⟩ := List.exists_cons_of_ne_nil hc.ne_nil
  by_cases hin : i = .none
  · subst hin
    constructor
    · intro h
      rw [subshapeT] at h
      simp only [bind_ok] at h
      obtain ⟨u, hu, hm⟩ := h
      obtain ⟨h1, h2, h3⟩ := (hr _ hc hg u).1 hu
      have hend : MayEnd u := Classical.byContradiction fun hn => by
        rw [(C17.int_mul_measure 1 u (bare_ds hn)).2.2 (by omega) hn] at hm
        cases hm
      replace h2 := h2 hend
      have := mul_int_asParams (k := 1) (t := u) rfl h2
      rw [show ((1 : Nat) : Int) = 1 from rfl] at this
      rw [this] at hm
      cases hm
      exact ⟨.newaxis h1 hend, usable_ds (con_dim (.inl ⟨_, rfl⟩) h2), h3.cons (good_dim (.inl ⟨_, rfl⟩))⟩
    · intro h
      cases h with
      | @newaxis _ _ u h hend =>
        have hu := (hr _ hc hg _).2 h
        have h2 := ((hr _ hc hg _).1 hu).2.1 hend
        rw [subshapeT]
        simp only [bind, Except.bind, hu]
        exact mul_int_asParams (k := 1) rfl h2
      | last h => cases h
      | more _ _ _ _ h => cases h
  · cases r with
    | nil =>
      have hs : subshapeT [i] (.dshape (d :: xs)) = subshape i (.dshape (d :: xs)) := by
        unfold subshapeT
        cases i <;> first | exact absurd rfl hin | rfl
      rw [hs]
      obtain ⟨h1, h2⟩ := hi _ hc hg t
      refine ⟨fun h => ⟨.last (h1 h).1, (h1 h).2⟩, fun h => ?_⟩
      cases h with
      | newaxis => exact absurd rfl hin
      | last h => exact h2 h
      | more h => exact absurd rfl h
    | cons j r =>
      have hs : subshapeT (i :: j :: r) (.dshape (d :: xs)) = (do
          let rest ← subarray (.dshape (d :: xs)) 1
          let t ← subshapeT (j :: r) rest
          let d' ← (Ty.dshape (d :: xs)).head
          let x ← mul (.ty d') (.ty t)
          subshape i x) := by
        rw [subshapeT]
        · exact hin
        · simp
      rw [hs]
      constructor
      · intro h
        simp only [bind_ok] at h
        obtain ⟨rest, hrest, u, hu, d', hd', x, hx, h⟩ := h
        cases hd'
        obtain ⟨hne, rfl⟩ := subarray_one_ok hc hrest
        have hcx := Constructible.suffix (a := [d]) hc hne
        obtain ⟨h1, h2, h3⟩ := (hr _ hcx hg.tail u).1 hu
        have hend : MayEnd u := Classical.byContradiction fun hn => mul_bare hn hx
        replace h2 := h2 hend
        obtain ⟨hm, hc2⟩ := mul_head hc hne h2
        rw [hm] at hx
        cases hx
        obtain ⟨h4, h5⟩ := (hi _ hc2 (h3.cons hg.head) t).1 h
        exact ⟨.more (by simp) hne h1 hend h4, h5⟩
      · intro h
        cases h with
        | newaxis => exact absurd rfl hin
        | @more _ _ _ u _ _ _ hne h1 hend h4 =>
          have hcx := Constructible.suffix (a := [d]) hc hne
          have hu := (hr _ hcx hg.tail u).2 h1
          obtain ⟨-, h2, h3⟩ := (hr _ hcx hg.tail u).1 hu
          replace h2 := h2 hend
          obtain ⟨hm, hc2⟩ := mul_head hc hne h2
          simp only [bind, Except.bind, subarray_one hc hne, hu, head_dshape, hm]
          exact (hi _ hc2 (h3.cons hg.head) t).2 h4

mutual
theorem index_exact : ∀ i : Index, IndexExact i
  | .none => by
    intro ps hc hg t
    obtain ⟨d, xs, rfl⟩ := List.exists_cons_of_ne_nil hc.ne_nil
    exact ⟨(fun h => by cases h), (fun h => by cases h)⟩
  | .other => by
    intro ps hc hg t
    obtain ⟨d, xs, rfl⟩ := List.exists_cons_of_ne_nil hc.ne_nil
    exact ⟨(fun h => by cases h), (fun h => by cases h)⟩
  | .int i => int_exact i
  | .str s => str_exact s
  | .list l => list_exact l
  | .slice a b c => slice_exact a b c
  | .tuple l => tuple_exact (tupleParts_exact l)
theorem tupleParts_exact : ∀ l : List Index, TupleExact l
  | [] => by
    intro ps hc hg t
    constructor
    · intro h; cases h; exact ⟨.none ps, usable_ds hc, hg⟩
    · intro h; cases h; rfl
  | i :: r => cons_exact (index_exact i) (tupleParts_exact r)
end

/-- Exactly what `ds.subshape[index]` returns, for every index: ints, names, lists, slices in or out of range, and tuples of
them nested in any way. Whatever is not described raises. -/
theorem C19.exactly (i : Index) (ps : List Ty) (hcon : Constructible ps) (hf : GoodRecords ps) (t : Ty) :
    subshape i (.dshape ps) = .ok t ↔ Yields i ps t :=
  ⟨fun h => ((index_exact i ps hcon hf t).1 h).1, (index_exact i ps hcon hf t).2⟩

/-- What is returned can be indexed again: it is a datashape of the same kind, unless a field is a dimension alone. -/
theorem C19.closed (i : Index) (ps : List Ty) (hcon : Constructible ps) (hf : GoodRecords ps) (t : Ty)
    (h : subshape i (.dshape ps) = .ok t) : (MayEnd t → Constructible (asParams t)) ∧ GoodRecords (asParams t) :=
  ((index_exact i ps hcon hf t).1 h).2

theorem scalar_con {t : Ty} (h : t.cls ≠ some .dimension) (hs : t.isSingleton = false) : Constructible [t] :=
  .of ⟨[], t, rfl, by simp, h, by simpa using hs⟩

/-- The hypotheses are met by `5 * {x: 3 * int32, y: date}`; indexed by `[(0, None), 'x']` it is `1 * 3 * int32`, and by
`[-7:0:2, ['y', 0]]` it is `4 * {y: date, x: 3 * int32}`. -/
example : let fs := [(py"x", .dshape [.fixed 3, tInt32]), (py"y", .date)]
    Constructible [.fixed 5, .record fs] ∧ GoodRecords [.fixed 5, .record fs] ∧
    Yields (.tuple [.tuple [.int 0, .none], .str (py"x")]) [.fixed 5, .record fs] (.dshape [.fixed 1, .fixed 3, tInt32]) ∧
    Yields (.tuple [.slice (some (-7)) (some 0) (some 2), .list [.str (py"y"), .int 0]]) [.fixed 5, .record fs]
      (.dshape [.fixed 4, .record [(py"y", .date), (py"x", .dshape [.fixed 3, tInt32])]]) := by
  have hc : Constructible [.fixed 5, .record [(py"x", .dshape [.fixed 3, tInt32]), (py"y", .date)]] :=
    con_dim (.inl ⟨_, rfl⟩) (record_con _)
  have hg : GoodRecords [.fixed 5, .record [(py"x", .dshape [.fixed 3, tInt32]), (py"y", .date)]] := by
    refine GoodRecords.cons ?_ (good_dim (.inl ⟨_, rfl⟩))
    intro p hp fs ho
    obtain rfl := List.mem_singleton.1 hp
    generalize hg : Ty.record fs = u at ho
    cases ho with
    | refl =>
      cases hg
      refine ⟨by decide, ?_⟩
      intro f hf
      simp only [List.mem_cons, List.not_mem_nil, or_false] at hf
      rcases hf with rfl | rfl
      · exact ⟨rfl, fun qs h => by cases h; exact con_dim (.inl ⟨_, rfl⟩) (scalar_con (by simp [tInt32, Ty.cls]) rfl)⟩
      · exact ⟨rfl, fun qs h => by cases h⟩
    | step hc ho =>
      subst hg
      simp only [Ty.children, List.map_cons, List.map_nil, List.mem_cons, List.not_mem_nil, or_false] at hc
      have h1 : GoodRecords [.dshape [.fixed 3, tInt32]] := by
        intro p hp fs ho
        obtain rfl := List.mem_singleton.1 hp
        cases ho with
        | step hc ho =>
          simp only [Ty.children, List.mem_cons, List.not_mem_nil, or_false] at hc
          rcases hc with rfl | rfl
          · cases ho with | step hc => cases hc
          · cases ho with | step hc => cases hc
      rcases hc with rfl | rfl
      · exact h1 _ (by simp) _ ho
      · cases ho with | step hc => cases hc
  exact ⟨hc, hg, (C19.exactly _ _ hc hg _).1 rfl, (C19.exactly _ _ hc hg _).1 rfl⟩

theorem constructible_of_local {env : Env} {ps : List Ty} (h : localOk env (.dshape ps) = true) : Constructible ps := by
  simp only [localOk, Bool.and_eq_true, Bool.not_eq_true', List.isEmpty_eq_false_iff, List.all_eq_true] at h
  obtain ⟨⟨⟨hne, hdim⟩, hm⟩, hds⟩ := h
  rw [List.getLast?_eq_some_getLast hne] at hm
  refine .of ⟨ps.dropLast, ps.getLast hne, (List.dropLast_concat_getLast hne).symm, ?_, ?_, ?_⟩
  · intro d hd
    have := hdim d hd
    cases d <;> simp_all [Ty.isDim, Ty.cls]
  · generalize ps.getLast hne = m at hm
    cases m <;> simp_all [Ty.endsOk, Ty.cls]
  · intro p hp
    have := hds p hp
    cases p <;> simp_all [Ty.isSingleton, Ty.isDShape]

/-- What `dshape` makes from a text meets the hypotheses. -/
theorem parsed_good (env : Env) (disc : List Lit → Except PyErr Ty) (hdisc : ∀ l t, disc l = .ok t → WF env t)
    (text : Str) (ds : Ty) (h : dshape env disc text = .ok ds) :
    ∃ ps, ds = .dshape ps ∧ Constructible ps ∧ GoodRecords ps := by
  obtain ⟨⟨ps, rfl⟩, hl⟩ := C10.wellformed env disc hdisc text ds h
  refine ⟨ps, rfl, constructible_of_local (hl _ (.refl _)), ?_⟩
  intro p hp fs ho
  have hr := hl _ (.step (t := .dshape ps) hp ho)
  simp only [localOk, Bool.and_eq_true, decide_eq_true_eq, List.all_eq_true, Bool.not_eq_true'] at hr
  refine ⟨hr.1, fun f hf => ⟨hr.2 f hf, fun qs e => constructible_of_local (env := env) (hl _ ?_)⟩⟩
  have h2 : Occurs (.dshape qs) (.record fs) := .step (t := .record fs) (List.mem_map.2 ⟨f, hf, rfl⟩) (by rw [e]; exact .refl _)
  have trans : ∀ {a b c : Ty}, Occurs a b → Occurs b c → Occurs a c := by
    intro a b c h1 h2
    induction h2 with
    | refl => exact h1
    | step hc _ ih => exact .step hc ih
  exact .step (t := .dshape ps) hp (trans h2 ho)

/-- All this holds of every datashape that `dshape` makes from a text: nothing is assumed about it. (`disc` is `discover` on the
categories of a `categorical`, of which only well-formed results are assumed, as in C10.) -/
theorem C19.parsed (env : Env) (disc : List Lit → Except PyErr Ty) (hdisc : ∀ l t, disc l = .ok t → WF env t)
    (text : Str) (ds : Ty) (h : dshape env disc text = .ok ds) :
    ∃ ps, ds = .dshape ps ∧ ∀ i t, subshape i ds = .ok t ↔ Yields i ps t := by
  obtain ⟨ps, rfl, hc, hg⟩ := parsed_good env disc hdisc text ds h
  exact ⟨ps, rfl, fun i t => C19.exactly i ps hc hg t⟩

/-- For instance of `5 * {x: 3, y: 4}` written with `struct`, where the field `x` is a dimension alone: `['x']` is that dimension,
and `[0:2, 'x']` is nothing. -/
example (env : Env) : let ps := [.fixed 5, .record [(py"x", .fixed 3), (py"y", .fixed 4)]]
    dshape env (fun _ => .error .unmodelled) (py"5 * struct[['x', 'y'], [3, 4]]") = .ok (.dshape ps) ∧
    Yields (.tuple [.int 0]) ps (.dshape (ps.drop 1)) ∧ Yields (.str (py"x")) (ps.drop 1) (.fixed 3) ∧
    ∀ t, ¬ Yields (.tuple [.slice (some 0) (some 2) none, .str (py"x")]) ps t := by
  obtain ⟨ps, e, h⟩ := C19.parsed env (fun _ => .error .unmodelled) (fun _ _ h => by cases h)
    (py"5 * struct[['x', 'y'], [3, 4]]") _ rfl
  cases e
  exact ⟨rfl, .tuple (.last (.int 0 rfl (by simp))), .field (by simp), fun t ht => by have := (h _ _).2 ht; cases this⟩

end DS
