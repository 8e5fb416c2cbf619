import Verif.Props.SliceDown

/-
C19, the other direction: whatever `ds.subshape[i1, …, ik]` returns is what the indices say, axis by axis.
-/
namespace DS

theorem subarray_one_ok {d : Ty} {xs : List Ty} {t : Ty} (hc : Constructible (d :: xs))
    (h : subarray (.dshape (d :: xs)) 1 = .ok t) : xs ≠ [] ∧ t = .dshape xs := by
  have hne : xs ≠ [] := by
    rintro rfl
    have := (C16.index_error [d] hc 1).2 (by simp)
    rw [show ((1 : Nat) : Int) = 1 from rfl, h] at this
    cases this
  refine ⟨hne, ?_⟩
  rw [subarray_one hc hne] at h
  cases h
  rfl

theorem fields_record {d : Ty} {fs : List (Str × Ty)} (h : d.fields? = some fs) : d = .record fs := by
  cases d <;> simp [Ty.fields?] at h
  rw [h]

theorem record_alone {fs : List (Str × Ty)} {xs : List Ty} (hc : Constructible (.record fs :: xs)) : xs = [] := by
  obtain ⟨dims, m, e, h1, -, -⟩ := hc.cls
  cases dims with
  | nil => simp at e; exact e.2
  | cons x dims =>
    simp at e
    have := h1 x (by simp)
    rw [← e.1] at this
    exact absurd rfl this

theorem isDimension_fields {d : Ty} (h : isDimension d = true) : d.fields? = none := by
  cases d <;> simp [isDimension] at h <;> rfl

/-- one slice on one dimension -/
theorem slice_step {d : Ty} {xs : List Ty} {a b c : Option Int} {t : Ty} (hc : Constructible (d :: xs))
    (hd : d.fields? = none) (h : subshape (.slice a b c) (.dshape (d :: xs)) = .ok t) :
    xs ≠ [] ∧ ∃ e, SliceOf a b c d e ∧ t = .dshape (e :: xs) := by
  have h0 := h
  simp only [subshape, head_dshape, hd, bind_ok] at h
  obtain ⟨d', hd', h⟩ := h
  cases hd'
  rw [hd] at h
  simp only [bind_ok] at h
  obtain ⟨k, hk, u, hu, hm⟩ := h
  obtain ⟨hne, rfl⟩ := subarray_one_ok hc hu
  have hx := Constructible.suffix (a := [d]) hc hne
  refine ⟨hne, ?_⟩
  have hres : ∃ e, t = .dshape (e :: xs) ∧ ((∃ n, e = .fixed n) ∨ e = .var ∧ ∀ n, d ≠ .fixed n) := by
    have hcase : (∃ i, k = .int i) ∨ k = .ty .var ∧ ∀ n, d ≠ .fixed n := by
      cases hs : sliceCount d a b with
      | int i =>
        rw [hs] at hk
        cases c with
        | none => cases hk; exact .inl ⟨_, rfl⟩
        | some c =>
          simp only [stepCount, bind_ok] at hk
          obtain ⟨j, -, hk⟩ := hk
          cases hk
          exact .inl ⟨_, rfl⟩
      | var =>
        rw [hs] at hk
        cases hk
        refine .inr ⟨rfl, ?_⟩
        rintro n rfl
        simp [sliceCount] at hs
    rcases hcase with ⟨i, rfl⟩ | ⟨rfl, hn⟩
    · rw [C17.int_mul _ _ hx] at hm
      split at hm
      · cases hm
      · cases hm; exact ⟨_, rfl, .inl ⟨_, rfl⟩⟩
    · rw [dim_mul_cls .var xs hx rfl, if_neg (by simp [Ty.cls])] at hm
      cases hm
      exact ⟨_, rfl, .inr ⟨rfl, hn⟩⟩
  obtain ⟨e, rfl, he⟩ := hres
  refine ⟨e, ⟨?_, ?_, ?_, ?_, ?_⟩, rfl⟩
  · rintro n rfl hin
    rw [C18.in_range n xs hc a b c hin] at h0
    cases h0
    rfl
  · rintro n rfl
    rcases he with he | ⟨-, he⟩
    · exact he
    · exact absurd rfl (he n)
  · rintro rfl rfl
    rw [C18.var_unbounded xs hc a none c (.inl rfl)] at h0
    cases h0
    rfl
  · rintro rfl x y rfl rfl hxy hz hdb
    rw [C18.var_bounded xs hc x y c hxy hz hdb y (Nat.le_refl _)] at h0
    cases h0
    rfl
  · exact he.imp_right And.left

theorem picks_of_select {fs : List (Str × Ty)} (hn : (fs.map (·.1)).Nodup) {l pos : List LIdx} {gs : List (Str × Ty)}
    (h1 : l.mapM (toPosition fs) = .ok pos) (h2 : pos.mapM (fieldAt fs) = .ok gs) : PicksAll fs l gs := by
  induction l generalizing pos gs with
  | nil => cases h1; cases h2; exact .nil
  | cons i l ih =>
    rw [List.mapM_cons] at h1
    simp only [bind_ok] at h1
    obtain ⟨p, hp, pos', hpos, h1⟩ := h1
    cases h1
    rw [List.mapM_cons] at h2
    simp only [bind_ok] at h2
    obtain ⟨g, hg, gs', hgs, h2⟩ := h2
    cases h2
    refine .cons ?_ (ih hpos hgs)
    cases i with
    | other => cases hp; cases hg
    | int i => cases hp; exact .pos i g ((pyGet_iff fs i g).1 hg)
    | str s =>
      simp only [toPosition, bind_ok] at hp
      obtain ⟨k, hk, hp⟩ := hp
      cases hp
      unfold pyIndexOf at hk
      split at hk
      · rename_i j hj
        cases hk
        have hs := List.findIdx?_eq_some_iff_getElem.1 hj
        obtain ⟨hlt, hs, -⟩ := hs
        have hlt' : j < fs.length := by simpa [recordNames] using hlt
        simp only [recordNames, List.getElem_map, beq_iff_eq] at hs
        have hgj : g = fs[j] := by
          simp only [fieldAt] at hg
          rw [pyGet_at (.front j fs[j] (List.getElem?_eq_getElem hlt'))] at hg
          cases hg
          rfl
        subst hgj
        have := Picks.name s (fs[j]).2 (fs := fs) (by rw [← hs]; exact List.getElem_mem hlt')
        rw [← hs] at this ⊢
        exact this
      · cases hk

/-- a single index on a record -/
theorem record_step {i : Index} {fs : List (Str × Ty)} {t : Ty} (hg : GoodFields fs) (hi : i ≠ .none)
    (hflat : ∀ l, i ≠ .tuple l) (h : subshape i (.dshape [.record fs]) = .ok t) :
    Constructible (asParams t) ∧ Sel [i] [.record fs] (asParams t) := by
  obtain ⟨hn, hg⟩ := hg
  have hrec : ∀ sel r, mkRecord sel = .ok r → mkDS [r] = .ok t → (∀ f ∈ sel, f ∈ fs) →
      (sel.map (·.1)).Nodup ∧ t = .dshape [.record sel] := by
    intro sel r h1 h2 hm
    have hnd : (sel.map (·.1)).Nodup := by
      unfold mkRecord at h1
      split at h1
      · assumption
      · cases h1
    rw [mkRecord_good hnd fun f hf => (hg f (hm f hf)).1] at h1
    cases h1
    rw [mkDS_self.2 (record_con sel)] at h2
    cases h2
    exact ⟨hnd, rfl⟩
  cases i with
  | none => exact absurd rfl hi
  | tuple l => exact absurd rfl (hflat l)
  | other => cases h
  | int i =>
    simp only [subshape, head_dshape, bind, Except.bind, isDimension, Ty.fields?] at h
    cases hp : pyGet fs i with
    | error e => rw [hp] at h; cases h
    | ok f =>
      rw [hp] at h
      cases h
      have hat := (pyGet_iff fs i f).1 hp
      have hmem : f ∈ fs := by
        cases hat with
        | front k x h => exact List.mem_of_getElem? h
        | back k x _ _ h => exact List.mem_of_getElem? h
      exact ⟨(hg f hmem).2, .fieldAt hat⟩
  | str s =>
    simp only [subshape, head_dshape, bind, Except.bind, Ty.fields?] at h
    have hm := ((C14.lookup fs hn s).1 t).1 h
    exact ⟨(hg _ hm).2, .field hm⟩
  | list l =>
    simp only [subshape, head_dshape, Ty.fields?, selectRecord, bind_ok] at h
    obtain ⟨d', hd', h⟩ := h
    cases hd'
    simp only [bind_ok] at h
    obtain ⟨pos, h1, sel, h2, r, h3, h4⟩ := h
    have hp := picks_of_select hn h1 h2
    obtain ⟨hnd, rfl⟩ := hrec sel r h3 h4 (picks_mem hp)
    exact ⟨record_con sel, .fields hp hnd⟩
  | slice a b c =>
    simp only [subshape, head_dshape, Ty.fields?, bind_ok] at h
    obtain ⟨d', hd', h⟩ := h
    cases hd'
    simp only [bind_ok] at h
    obtain ⟨sel, h1, r, h3, h4⟩ := h
    have hsub : ∀ (l : List Nat), sel = l.filterMap (fun i => fs[i]?) → ∀ f ∈ sel, f ∈ fs := by
      rintro l rfl f hf
      obtain ⟨i, -, hi⟩ := List.mem_filterMap.1 hf
      exact List.mem_of_getElem? hi
    cases c with
    | none =>
      rw [pySlice_pos fs a b none (by simp)] at h1
      have e := (Except.ok.inj h1).symm
      obtain ⟨-, rfl⟩ := hrec sel r h3 h4 (hsub _ e)
      refine ⟨record_con sel, ?_⟩
      rw [e]
      exact .fieldSlice1
    | some c =>
      by_cases hc0 : c = 0
      · subst hc0; cases h1
      by_cases hc : 1 ≤ c
      · rw [pySlice_pos fs a b (some c) hc] at h1
        have e := (Except.ok.inj h1).symm
        obtain ⟨-, rfl⟩ := hrec sel r h3 h4 (hsub _ e)
        refine ⟨record_con sel, ?_⟩
        rw [e]
        exact .fieldSlice hc
      · obtain ⟨k, rfl⟩ : ∃ k : Nat, c = -(k : Int) := ⟨c.natAbs, by omega⟩
        rw [pySlice_neg fs a b k (by omega)] at h1
        have e := (Except.ok.inj h1).symm
        obtain ⟨-, rfl⟩ := hrec sel r h3 h4 (hsub _ e)
        refine ⟨record_con sel, ?_⟩
        rw [e]
        exact .fieldSliceDown (by omega)

/-- one index on one dimension -/
theorem axis_step {i : Index} {d : Ty} {xs : List Ty} {t : Ty} (hc : Constructible (d :: xs)) (hd : d.fields? = none)
    (hi : i ≠ .none) (hflat : ∀ l, i ≠ .tuple l) (h : subshape i (.dshape (d :: xs)) = .ok t) :
    xs ≠ [] ∧ ∃ ys, t = .dshape (ys ++ xs) ∧ Constructible (ys ++ xs) ∧
      ∀ r ps, ps ≠ [] → Acts r ps xs → Acts (i :: r) (d :: ps) (ys ++ xs) := by
  cases i with
  | none => exact absurd rfl hi
  | tuple l => exact absurd rfl (hflat l)
  | other => cases h
  | int i =>
    simp only [subshape, head_dshape, bind, Except.bind, hd] at h
    split at h
    · rename_i hdim
      obtain ⟨hne, rfl⟩ := subarray_one_ok hc h
      exact ⟨hne, [], rfl, Constructible.suffix (a := [d]) hc hne, fun r ps hp ha => .int i hdim hp ha⟩
    · cases h
  | str s => simp only [subshape, head_dshape, bind, Except.bind, hd] at h; cases h
  | list l =>
    simp only [subshape, head_dshape, bind, Except.bind, hd] at h
    split at h
    · rename_i hdim
      cases hs : subarray (.dshape (d :: xs)) 1 with
      | error e => rw [hs] at h; cases h
      | ok u =>
        rw [hs] at h
        obtain ⟨hne, rfl⟩ := subarray_one_ok hc hs
        have hx := Constructible.suffix (a := [d]) hc hne
        have hm : mul (.int l.length) (.ty (.dshape xs)) = .ok t := h
        rw [mul_int_asParams (t := .dshape xs) rfl hx] at hm
        cases hm
        exact ⟨hne, [.fixed l.length], rfl, hx.cons (by simp [Ty.cls]) rfl, fun r ps hp ha => .list l hdim hp ha⟩
    · cases h
  | slice a b c =>
    obtain ⟨hne, e, he, rfl⟩ := slice_step hc hd h
    have hx := Constructible.suffix (a := [d]) hc hne
    refine ⟨hne, [e], rfl, hx.cons ?_ ?_, fun r ps hp ha => .slice he hp ha⟩
    · rcases he.dim with ⟨k, rfl⟩ | rfl <;> simp [Ty.cls]
    · rcases he.dim with ⟨k, rfl⟩ | rfl <;> rfl

theorem mul_head {d t : Ty} {xs : List Ty} (hc : Constructible (d :: xs)) (hne : xs ≠ []) (hq : Constructible (asParams t)) :
    (mul (.ty d) (.ty t) = .ok (.dshape (d :: asParams t)) ∧ Constructible (d :: asParams t)) := by
  obtain ⟨dims, m, e, h1, h2, h3⟩ := hc.cls
  cases dims with
  | nil => simp at e; exact absurd e.2 hne
  | cons x dims =>
    simp at e
    obtain ⟨rfl, rfl⟩ := e
    have hcls := h1 d (by simp)
    have hs := h3 d (by simp)
    have hcon := hq.cons hcls hs
    refine ⟨?_, hcon⟩
    have hds := mkDS_self.2 hcon
    cases t <;> exact hds

/-- Whatever `ds.subshape[i1, …, ik]` returns (the indices not tuples themselves) is what the indices say: each index
acts on its own axis, and an index that reaches the record selects fields of it. -/
theorem C19.only (idx : List Index) (ps : List Ty) (t : Ty) (hcon : Constructible ps)
    (hf : ∀ fs, Ty.record fs ∈ ps → GoodFields fs) (hflat : ∀ i ∈ idx, ∀ l, i ≠ .tuple l)
    (h : subshape (.tuple idx) (.dshape ps) = .ok t) : Acts idx ps (asParams t) := by
  have key : ∀ (idx : List Index) (ps : List Ty) (t : Ty), Constructible ps → (∀ fs, Ty.record fs ∈ ps → GoodFields fs) →
      (∀ i ∈ idx, ∀ l, i ≠ .tuple l) → subshapeT idx (.dshape ps) = .ok t →
      Constructible (asParams t) ∧ Acts idx ps (asParams t) := by
    intro idx
    induction idx with
    | nil => intro ps t hcon _ _ h; cases h; exact ⟨hcon, .done ps⟩
    | cons i r ih =>
      intro ps t hcon hf hflat h
      by_cases hi : i = .none
      · subst hi
        rw [subshapeT] at h
        simp only [bind_ok] at h
        obtain ⟨u, hu, hm⟩ := h
        obtain ⟨hq, ha⟩ := ih ps u hcon hf (fun i hi => hflat i (by simp [hi])) hu
        have := mul_int_asParams (k := 1) (t := u) rfl hq
        rw [show ((1 : Nat) : Int) = 1 from rfl] at this
        rw [this] at hm
        cases hm
        exact ⟨hq.cons (by simp [Ty.cls]) rfl, .newaxis ha⟩
      · have hfl := hflat i (by simp)
        obtain ⟨d, xs, rfl⟩ := List.exists_cons_of_ne_nil hcon.ne_nil
        cases r with
        | nil =>
          have h' : subshape i (.dshape (d :: xs)) = .ok t := by
            unfold subshapeT at h
            cases i <;> first | exact absurd rfl hi | exact h
          cases hd : d.fields? with
          | none =>
            obtain ⟨hne, ys, rfl, hy, ha⟩ := axis_step hcon hd hi hfl h'
            exact ⟨hy, ha [] xs hne (.done xs)⟩
          | some fs =>
            obtain rfl := fields_record hd
            obtain rfl := record_alone hcon
            obtain ⟨h1, h2⟩ := record_step (hf fs (by simp)) hi hfl h'
            exact ⟨h1, .record h2 hi⟩
        | cons j r =>
          have h' : (do
              let rest ← subarray (.dshape (d :: xs)) 1
              let t ← subshapeT (j :: r) rest
              let d' ← (Ty.dshape (d :: xs)).head
              let x ← mul (.ty d') (.ty t)
              subshape i x) = .ok t := by
            rw [← h]
            rw [subshapeT]
            · exact hi
            · simp
          simp only [bind_ok] at h'
          obtain ⟨rest, hrest, u, hu, d', hd', x, hx, h'⟩ := h'
          cases hd'
          obtain ⟨hne, rfl⟩ := subarray_one_ok hcon hrest
          have hcx := Constructible.suffix (a := [d]) hcon hne
          obtain ⟨hq, ha⟩ := ih xs u hcx (fun fs h => hf fs (List.mem_cons_of_mem _ h))
            (fun i hi => hflat i (List.mem_cons_of_mem _ hi)) hu
          obtain ⟨hm, hc2⟩ := mul_head hcon hne hq
          rw [hm] at hx
          cases hx
          have hd : d.fields? = none := by
            cases hd : d.fields? with
            | none => rfl
            | some fs =>
              obtain rfl := fields_record hd
              exact absurd (record_alone hcon) hne
          obtain ⟨-, ys, rfl, hy, hact⟩ := axis_step hc2 hd hi hfl h'
          exact ⟨hy, hact (j :: r) xs hne ha⟩
  rw [subshape] at h
  simp only [bind_ok] at h
  obtain ⟨_, _, h⟩ := h
  exact (key idx ps t hcon hf hflat h).2

/-- The two directions together: inside the bounds of the slices nothing else can be returned. -/
theorem C19.unique (idx : List Index) (ps qs : List Ty) (t : Ty) (hcon : Constructible ps)
    (hf : ∀ fs, Ty.record fs ∈ ps → GoodFields fs) (hs : Sel idx ps qs)
    (h : subshape (.tuple idx) (.dshape ps) = .ok t) : asParams t = qs := by
  obtain ⟨u, hu, rfl⟩ := C19.tuple hs hcon hf
  rw [h] at hu
  cases hu
  rfl

/-- The number of axes: indices into arrays (not reaching a record) remove one axis for every int and add one for every
`None`, and leave the measure alone. -/
theorem C19.rank (idx : List Index) (ps : List Ty) (t : Ty) (hcon : Constructible ps)
    (hf : ∀ fs, Ty.record fs ∈ ps → GoodFields fs)
    (hk : ∀ i ∈ idx, i = .none ∨ (∃ n, i = .int n) ∨ (∃ l, i = .list l) ∨ ∃ a b c, i = .slice a b c)
    (hlen : (idx.filter fun i => match i with | .none => false | _ => true).length < ps.length)
    (h : subshape (.tuple idx) (.dshape ps) = .ok t) :
    (asParams t).length + (idx.filter fun i => match i with | .int _ => true | _ => false).length =
      ps.length + (idx.filter fun i => match i with | .none => true | _ => false).length ∧
    (asParams t).getLast? = ps.getLast? := by
  have ha := C19.only idx ps t hcon hf (by
    intro i hi l e
    subst e
    rcases hk _ hi with h | ⟨_, h⟩ | ⟨_, h⟩ | ⟨_, _, _, h⟩ <;> cases h) h
  generalize asParams t = qs at ha
  clear h hf
  have hne : ∀ {r : List Index} {ps qs : List Ty}, Acts r ps qs →
      (r.filter fun i => match i with | .none => false | _ => true).length < ps.length → ps ≠ [] := by
    rintro r ps qs _ hl rfl
    simp at hl
  have hlast : ∀ (x : Ty) {l : List Ty}, l ≠ [] → (x :: l).getLast? = l.getLast? := by
    intro x l hl
    obtain ⟨y, l, rfl⟩ := List.exists_cons_of_ne_nil hl
    rw [List.getLast?_cons_cons]
  have key : ∀ {idx : List Index} {ps qs : List Ty}, Acts idx ps qs →
      (∀ i ∈ idx, i = .none ∨ (∃ n, i = .int n) ∨ (∃ l, i = .list l) ∨ ∃ a b c, i = .slice a b c) →
      (idx.filter fun i => match i with | .none => false | _ => true).length < ps.length →
      qs ≠ [] ∧ qs.length + (idx.filter fun i => match i with | .int _ => true | _ => false).length =
        ps.length + (idx.filter fun i => match i with | .none => true | _ => false).length ∧
      qs.getLast? = ps.getLast? := by
    intro idx ps qs ha
    induction ha with
    | done ps => intro _ hl; exact ⟨by rintro rfl; simp at hl, rfl, rfl⟩
    | newaxis _ ih =>
      intro hk hl
      obtain ⟨h0, h1, h2⟩ := ih (fun i hi => hk i (by simp [hi])) (by simpa using hl)
      refine ⟨by simp, ?_, by rw [hlast _ h0, h2]⟩
      simp at h1 ⊢
      omega
    | int i _ hp _ ih =>
      intro hk hl
      obtain ⟨h0, h1, h2⟩ := ih (fun i hi => hk i (by simp [hi])) (by simpa using hl)
      refine ⟨h0, ?_, by rw [h2, hlast _ hp]⟩
      simp at h1 ⊢
      omega
    | list l _ hp _ ih =>
      intro hk hl
      obtain ⟨h0, h1, h2⟩ := ih (fun i hi => hk i (by simp [hi])) (by simpa using hl)
      refine ⟨by simp, ?_, by rw [hlast _ h0, h2, hlast _ hp]⟩
      simp at h1 ⊢
      omega
    | slice _ hp _ ih =>
      intro hk hl
      obtain ⟨h0, h1, h2⟩ := ih (fun i hi => hk i (by simp [hi])) (by simpa using hl)
      refine ⟨by simp, ?_, by rw [hlast _ h0, h2, hlast _ hp]⟩
      simp at h1 ⊢
      omega
    | record _ hi =>
      rename_i i _ _ _
      intro hk hl
      rcases hk i (by simp) with rfl | ⟨_, rfl⟩ | ⟨_, rfl⟩ | ⟨_, _, _, rfl⟩
      · exact absurd rfl hi
      all_goals simp at hl
  exact (key ha hk hlen).2

/-- A name the record does not have, anywhere in a list index, raises `ValueError`. -/
theorem C19.missing_in_list (fs : List (Str × Ty)) (l : List LIdx) (s : Str) (hs : .str s ∈ l) (hn : s ∉ recordNames fs) :
    subshape (.list l) (.dshape [.record fs]) = .error .valueError := by
  have hp : ∀ i : LIdx, toPosition fs i = .error .valueError ∨ ∃ j, toPosition fs i = .ok j := by
    intro i
    cases i with
    | int i => exact .inr ⟨_, rfl⟩
    | other => exact .inr ⟨_, rfl⟩
    | str s =>
      simp only [toPosition, pyIndexOf]
      cases (recordNames fs).findIdx? (· == s) with
      | none => exact .inl rfl
      | some k => exact .inr ⟨_, rfl⟩
  have hbad : toPosition fs (.str s) = .error .valueError := by
    simp only [toPosition, pyIndexOf]
    have : (recordNames fs).findIdx? (· == s) = none := by
      rw [List.findIdx?_eq_none_iff]
      intro x hx
      rw [beq_eq_false_iff_ne]
      rintro rfl
      exact hn hx
    rw [this]
    rfl
  have hm : l.mapM (toPosition fs) = .error .valueError := by
    clear hn
    induction l with
    | nil => cases hs
    | cons i l ih =>
      rw [List.mapM_cons]
      rcases List.mem_cons.1 hs with rfl | hs
      · rw [hbad]; rfl
      · rcases hp i with h | ⟨j, h⟩
        · rw [h]; rfl
        · rw [h, ih hs]; rfl
  simp only [subshape, head_dshape, Ty.fields?, selectRecord, bind, Except.bind, hm]

/-- `(10 * var * 3 * int32).subshape[1, None, 2:30]` is `1 * 28 * 3 * int32`: one axis less, one more. -/
example : subshape (.tuple [.int 1, .none, .slice (some 2) (some 30) none]) (.dshape [.fixed 10, .var, .fixed 3, tInt32]) =
    .ok (.dshape [.fixed 1, .fixed 28, .fixed 3, tInt32]) := rfl

/-- The hypotheses are met: a record with two fields, and an index that reaches it. -/
example : Acts [.slice none none none, .list [.str (py"b"), .int 0]]
    [.var, .record [(py"a", tInt32), (py"b", tString)]]
    [.var, .record [(py"b", tString), (py"a", tInt32)]] := by
  have h := C19.only [.slice none none none, .list [.str (py"b"), .int 0]]
    [.var, .record [(py"a", tInt32), (py"b", tString)]]
    (.dshape [.var, .record [(py"b", tString), (py"a", tInt32)]])
    (.of ⟨[.var], .record [(py"a", tInt32), (py"b", tString)], rfl, by simp [Ty.cls], by simp [Ty.cls], by
      intro p hp; simp at hp; rcases hp with rfl | rfl <;> rfl⟩)
    (by
      intro fs hfs
      simp at hfs
      subst hfs
      refine ⟨by decide, fun f hf => ?_⟩
      simp at hf
      rcases hf with rfl | rfl
      · exact ⟨rfl, .of ⟨[], tInt32, rfl, by simp, by simp [Ty.cls, tInt32], by simp [Ty.isSingleton, tInt32, asParams]⟩⟩
      · exact ⟨rfl, .of ⟨[], tString, rfl, by simp, by simp [Ty.cls, tString], by simp [Ty.isSingleton, tString, asParams]⟩⟩)
    (by intro i hi l e; subst e; simp at hi)
    rfl
  exact h

/-- Something a list index may contain: the name of a field or a position, from the front or from the back. -/
def FieldIndex (fs : List (Str × Ty)) : LIdx → Prop
  | .str s => s ∈ recordNames fs
  | .int i => -(fs.length : Int) ≤ i ∧ i < fs.length
  | .other => False

/-- If all names in a list index are names of fields, the first item that is no position decides: a number out of range raises
`IndexError`, anything that is neither a name nor a number `TypeError`. -/
theorem C19.bad_in_list (fs : List (Str × Ty)) (pre post : List LIdx) (x : LIdx)
    (hn : ∀ s, .str s ∈ pre ++ x :: post → s ∈ recordNames fs) (hp : ∀ y ∈ pre, FieldIndex fs y) :
    (x = .other → subshape (.list (pre ++ x :: post)) (.dshape [.record fs]) = .error .typeError) ∧
    (∀ i : Int, x = .int i → i < -(fs.length : Int) ∨ (fs.length : Int) ≤ i →
      subshape (.list (pre ++ x :: post)) (.dshape [.record fs]) = .error .indexError) := by
  have pos : ∀ y : LIdx, (∀ s, y = .str s → s ∈ recordNames fs) → ∃ z, toPosition fs y = .ok z ∧
      (FieldIndex fs y → ∃ f, fieldAt fs z = .ok f) ∧ (y = .other → z = .other) ∧ ∀ i, y = .int i → z = .int i := by
    intro y hy
    have get : ∀ i : Int, -(fs.length : Int) ≤ i → i < fs.length → ∃ f, fieldAt fs (.int i) = .ok f := by
      intro i h1 h2
      cases hg : pyGet fs i with
      | ok f => exact ⟨f, hg⟩
      | error e =>
        exfalso
        unfold pyGet at hg
        dsimp only at hg
        by_cases h0 : i < 0
        · rw [if_pos h0, if_neg (by omega), List.getElem?_eq_getElem (by omega)] at hg
          cases hg
        · rw [if_neg h0, if_neg (by omega), List.getElem?_eq_getElem (by omega)] at hg
          cases hg
    cases y with
    | other => exact ⟨.other, rfl, (fun h => h.elim), (fun _ => rfl), (fun i h => by cases h)⟩
    | int i => exact ⟨.int i, rfl, (fun h => get i h.1 h.2), (fun h => by cases h), fun j h => by cases h; rfl⟩
    | str s =>
      have hs := hy s rfl
      simp only [toPosition, pyIndexOf]
      cases hf : (recordNames fs).findIdx? (· == s) with
      | none =>
        rw [List.findIdx?_eq_none_iff] at hf
        exact absurd (hf s hs) (by simp)
      | some k =>
        have hk := (List.findIdx?_eq_some_iff_getElem.1 hf).1
        have hk' : k < fs.length := by simpa [recordNames] using hk
        exact ⟨.int k, rfl, (fun _ => get k (by omega) (by omega)), (fun h => by cases h), fun i h => by cases h⟩
  have all : ∀ l : List LIdx, (∀ s, .str s ∈ l → s ∈ recordNames fs) → ∃ zs, l.mapM (toPosition fs) = .ok zs ∧
      ((∀ y ∈ l, FieldIndex fs y) → ∃ gs, zs.mapM (fieldAt fs) = .ok gs) := by
    intro l
    induction l with
    | nil => intro _; exact ⟨[], rfl, fun _ => ⟨[], rfl⟩⟩
    | cons y l ih =>
      intro hl
      obtain ⟨zs, h1, h2⟩ := ih fun s hs => hl s (List.mem_cons_of_mem _ hs)
      obtain ⟨z, h3, h4, -⟩ := pos y fun s e => hl s (e ▸ List.mem_cons_self)
      refine ⟨z :: zs, ?_, fun hall => ?_⟩
      · simp only [List.mapM_cons, h3, h1, bind, Except.bind, pure, Except.pure]
      · obtain ⟨f, hf⟩ := h4 (hall y List.mem_cons_self)
        obtain ⟨gs, hg⟩ := h2 fun y hy => hall y (List.mem_cons_of_mem _ hy)
        exact ⟨f :: gs, by simp only [List.mapM_cons, hf, hg, bind, Except.bind, pure, Except.pure]⟩
  obtain ⟨zs, h1, h2⟩ := all pre fun s hs => hn s (List.mem_append_left _ hs)
  obtain ⟨gs, h2⟩ := h2 hp
  obtain ⟨z, h3, -, h4, h5⟩ := pos x fun s e => hn s (by rw [e]; simp)
  obtain ⟨us, h6, -⟩ := all post fun s hs => hn s (List.mem_append_right _ (List.mem_cons_of_mem _ hs))
  have hm : (pre ++ x :: post).mapM (toPosition fs) = .ok (zs ++ z :: us) := by
    simp only [List.mapM_append, List.mapM_cons, h1, h3, h6, bind, Except.bind, pure, Except.pure]
  have main : ∀ e, fieldAt fs z = .error e →
      subshape (.list (pre ++ x :: post)) (.dshape [.record fs]) = .error e := by
    intro e he
    simp only [subshape, head_dshape, bind, Except.bind, Ty.fields?, selectRecord, hm, List.mapM_append, List.mapM_cons, h2, he]
  refine ⟨fun h => main _ (by rw [h4 h]; rfl), fun i h hi => main _ ?_⟩
  rw [h5 i h]
  exact pyGet_error fs i hi

/-- `{x: int32, y: date}` indexed by `['y', None]` and by `[-1, 2]` -/
theorem C19.bad_in_list_case : let fs := [(py"x", tInt32), (py"y", .date)]
    subshape (.list [.str (py"y"), .other]) (.dshape [.record fs]) = .error .typeError ∧
    subshape (.list [.int (-1), .int 2]) (.dshape [.record fs]) = .error .indexError := ⟨rfl, rfl⟩

end DS
