import Verif.Props.StrDiscovery

/-
C48: what `discover` makes of a mapping.
-/
namespace DS

theorem lookup_map_iff {α β : Type} {g : α → β} {l : List (Str × α)} (hk : (l.map (·.1)).Nodup) {k : Str} {a : α}
    (h : (k, a) ∈ l) : (l.map fun kv => (kv.1, g kv.2)).lookup k = some (g a) := by
  induction l with
  | nil => cases h
  | cons x l ih =>
    obtain ⟨k', a'⟩ := x
    simp only [List.map_cons, List.nodup_cons] at hk
    rw [List.map_cons, List.lookup_cons]
    rcases List.mem_cons.1 h with e | hm
    · injection e with e1 e2
      subst e1; subst e2
      simp
    · have hne : k ≠ k' := by
        rintro rfl
        exact hk.1 (List.mem_map.2 ⟨(k, a), hm, rfl⟩)
      have hb : (k == k') = false := by simpa using hne
      rw [hb]
      exact ih hk.2 hm

theorem sorted_ext {l l' : List Str} (h : l.Pairwise (· < ·)) (h' : l'.Pairwise (· < ·)) (hm : ∀ x, x ∈ l ↔ x ∈ l') :
    l = l' := by
  have irr : ∀ a : Str, ¬ a < a := fun a => List.lt_irrefl a
  induction l generalizing l' with
  | nil =>
    cases l' with
    | nil => rfl
    | cons x l' => exact absurd ((hm x).2 (by simp)) (by simp)
  | cons x l ih =>
    cases l' with
    | nil => exact absurd ((hm x).1 (by simp)) (by simp)
    | cons y l' =>
      rw [List.pairwise_cons] at h h'
      have e : x = y := by
        rcases List.mem_cons.1 ((hm x).1 (by simp)) with e | hx
        · exact e
        · rcases List.mem_cons.1 ((hm y).2 (by simp)) with e | hy
          · exact e.symm
          · exact absurd (str_lt_trans (h.1 y hy) (h'.1 x hx)) (irr x)
      subst e
      congr 1
      refine ih h.2 h'.2 fun z => ⟨fun hz => ?_, fun hz => ?_⟩
      · rcases List.mem_cons.1 ((hm z).1 (List.mem_cons_of_mem _ hz)) with rfl | hz'
        · exact absurd (h.1 z hz) (irr z)
        · exact hz'
      · rcases List.mem_cons.1 ((hm z).2 (List.mem_cons_of_mem _ hz)) with rfl | hz'
        · exact absurd (h'.1 z hz) (irr z)
        · exact hz'

theorem discover_launder (E : StrEnv) (topo : List Node) {v : PyObj} {t : Ty}
    (h : discover (discoverStr E) topo v = .ok t) : launderTy t = t :=
  launderTy_of_not_singleton (discover_result (C46.scalar E) topo v t h).2.1

/-- the items of a mapping in the order in which its record is built -/
theorem recordOf_iff (E : StrEnv) (topo : List Node) (kvs : List (Str × PyObj)) (hk : (kvs.map (·.1)).Nodup) (r : Ty) :
    recordOf (kvs.map fun kv => (kv.1, discover (discoverStr E) topo kv.2)) = .ok r ↔
      ∃ fs, r = .record fs ∧ fs.length = kvs.length ∧
        ∀ (i : Nat) k v, kvs[i]? = some (k, v) → ∃ t, fs[i]? = some (k, t) ∧ discover (discoverStr E) topo v = .ok t := by
  have key : ∀ (l : List (Str × PyObj)) (fs : List (Str × Ty)),
      (l.map fun kv => (kv.1, discover (discoverStr E) topo kv.2)).mapM
        (fun e => (do .ok (e.1, ← e.2) : Except PyErr (Str × Ty))) = .ok fs ↔
      fs.length = l.length ∧
        ∀ (i : Nat) k v, l[i]? = some (k, v) → ∃ t, fs[i]? = some (k, t) ∧ discover (discoverStr E) topo v = .ok t := by
    intro l
    induction l with
    | nil =>
      intro fs
      simp only [List.map_nil, List.mapM_nil]
      constructor
      · intro h; cases h; simp
      · rintro ⟨h, _⟩
        cases fs with
        | nil => rfl
        | cons => simp at h
    | cons x l ih =>
      obtain ⟨k0, v0⟩ := x
      intro fs
      rw [List.map_cons, List.mapM_cons]
      simp only [bind_ok]
      constructor
      · rintro ⟨b, ⟨t, ht, hb⟩, bs, h2, h3⟩
        cases h3
        cases hb
        obtain ⟨h4, h5⟩ := (ih bs).1 h2
        refine ⟨by simp [h4], fun i k v hi => ?_⟩
        cases i with
        | zero =>
          simp only [List.getElem?_cons_zero, Option.some.injEq, Prod.mk.injEq] at hi ⊢
          obtain ⟨rfl, rfl⟩ := hi
          exact ⟨t, ⟨rfl, rfl⟩, ht⟩
        | succ i => simpa using h5 i k v (by simpa using hi)
      · rintro ⟨h1, h2⟩
        cases fs with
        | nil => simp at h1
        | cons f fs =>
          obtain ⟨t, ht, hd⟩ := h2 0 k0 v0 rfl
          simp only [List.getElem?_cons_zero, Option.some.injEq] at ht
          subst ht
          refine ⟨(k0, t), ⟨t, hd, rfl⟩, fs, (ih fs).2 ⟨by simpa using h1, fun i k v hi => ?_⟩, rfl⟩
          simpa using h2 (i + 1) k v (by simpa using hi)
  have names : ∀ fs : List (Str × Ty), (fs.length = kvs.length ∧
        ∀ (i : Nat) k v, kvs[i]? = some (k, v) → ∃ t, fs[i]? = some (k, t) ∧ discover (discoverStr E) topo v = .ok t) →
      fs.map (·.1) = kvs.map (·.1) ∧ ∀ f ∈ fs, launderTy f.2 = f.2 := by
    rintro fs ⟨h1, h2⟩
    constructor
    · apply List.ext_getElem?
      intro i
      rw [List.getElem?_map, List.getElem?_map]
      cases hi : kvs[i]? with
      | none =>
        have : fs[i]? = none := by
          rw [List.getElem?_eq_none_iff] at hi ⊢; omega
        rw [this]; rfl
      | some kv =>
        obtain ⟨k, v⟩ := kv
        obtain ⟨t, ht, _⟩ := h2 i k v hi
        rw [ht]; rfl
    · intro f hf
      obtain ⟨i, hi⟩ := List.mem_iff_getElem?.1 hf
      have hlt : i < kvs.length := by
        have := (List.getElem?_eq_some_iff.1 hi).1; omega
      obtain ⟨t, ht, hd⟩ := h2 i (kvs[i]).1 (kvs[i]).2 (by rw [List.getElem?_eq_getElem hlt])
      rw [hi] at ht
      injection ht with ht
      rw [ht]
      exact discover_launder E topo hd
  have mk : ∀ fs : List (Str × Ty), fs.map (·.1) = kvs.map (·.1) → (∀ f ∈ fs, launderTy f.2 = f.2) → mkRecord fs = .ok (.record fs) := by
    intro fs h1 h2
    have e : (fs.map fun f => (f.1, launderTy f.2)) = fs := by
      conv => rhs; rw [← List.map_id fs]
      apply List.map_inj_left.2
      intro f hf
      rw [h2 f hf]; rfl
    rw [mkRecord, if_pos (by rw [h1]; exact hk), e]
  constructor
  · intro h
    unfold recordOf at h
    simp only [bind_ok] at h
    obtain ⟨fs, h1, h⟩ := h
    have h2 := (key kvs fs).1 (by simpa only [bind_ok] using h1)
    obtain ⟨h3, h4⟩ := names fs h2
    rw [mk fs h3 h4] at h
    injection h with h
    exact ⟨fs, h.symm, h2⟩
  · rintro ⟨fs, rfl, h2⟩
    obtain ⟨h3, h4⟩ := names fs h2
    unfold recordOf
    have := (key kvs fs).2 h2
    rw [this]
    exact mk fs h3 h4

/-! ### The theorems -/

/-- `discover` of an `OrderedDict` is the record with the same names in the same order, and the discovered types. -/
theorem C48.ordered (E : StrEnv) (topo : List Node) (kvs : List (Str × PyObj)) (hk : (kvs.map (·.1)).Nodup) (r : Ty) :
    discover (discoverStr E) topo (.od kvs) = .ok r ↔
      ∃ fs, r = .record fs ∧ fs.length = kvs.length ∧
        ∀ (i : Nat) k v, kvs[i]? = some (k, v) → ∃ t, fs[i]? = some (k, t) ∧ discover (discoverStr E) topo v = .ok t := by
  rw [← recordOf_iff E topo kvs hk]
  rw [discover, discoverItem, discoverEntries_eq]

/-- the items of a dict by increasing key -/
def sortedItems (kvs : List (Str × PyObj)) : List (Str × PyObj) :=
  (sortStr (kvs.map (·.1))).map fun k => (k, (kvs.lookup k).getD .none)

theorem sortedItems_mem {kvs : List (Str × PyObj)} (hk : (kvs.map (·.1)).Nodup) (kv : Str × PyObj) :
    kv ∈ sortedItems kvs ↔ kv ∈ kvs := by
  have hl : ∀ k v, (k, v) ∈ kvs → kvs.lookup k = some v := by
    intro k v h
    have := lookup_map_iff (g := id) hk h
    simpa using this
  unfold sortedItems
  simp only [List.mem_map, sortStr_mem]
  constructor
  · rintro ⟨k, ⟨⟨k', v⟩, h, rfl⟩, rfl⟩
    rw [hl k' v h]; exact h
  · intro h
    refine ⟨kv.1, ⟨kv, h, rfl⟩, ?_⟩
    rw [hl kv.1 kv.2 h]; rfl

theorem sortedItems_keys (kvs : List (Str × PyObj)) : (sortedItems kvs).map (·.1) = sortStr (kvs.map (·.1)) := by
  unfold sortedItems
  rw [List.map_map]
  conv => rhs; rw [← List.map_id (sortStr _)]
  rfl

/-- a dict is treated like the `OrderedDict` of its items by increasing key -/
theorem discover_sorted (E : StrEnv) (topo : List Node) (kvs : List (Str × PyObj)) (hk : (kvs.map (·.1)).Nodup) :
    discover (discoverStr E) topo (.dict kvs) = discover (discoverStr E) topo (.od (sortedItems kvs)) := by
  rw [discover, discoverItem, discoverEntries_eq, discover, discoverItem, discoverEntries_eq]
  simp only [discoverMap]
  congr 1
  rw [List.map_map]
  unfold sortedItems
  rw [List.map_map]
  apply List.map_inj_left.2
  intro k hkm
  simp only [Function.comp] at hkm ⊢
  rw [sortStr_mem] at hkm
  obtain ⟨⟨k', v⟩, h, rfl⟩ := List.mem_map.1 hkm
  have h1 : kvs.lookup k' = some v := by simpa using lookup_map_iff (g := id) hk h
  simp only [Function.comp]
  rw [lookup_map_iff (g := discover (discoverStr E) topo) hk h, h1]
  rfl

/-- `discover` of a dict (its keys are distinct) returns exactly when `discover` of every value does; the result is the
record whose names are the keys in increasing order, each with the discovered type of its value. -/
theorem C48.dict (E : StrEnv) (topo : List Node) (kvs : List (Str × PyObj)) (hk : (kvs.map (·.1)).Nodup) (r : Ty) :
    discover (discoverStr E) topo (.dict kvs) = .ok r ↔
      ∃ fs, r = .record fs ∧ (fs.map (·.1)).Pairwise (· < ·) ∧ (∀ k, k ∈ fs.map (·.1) ↔ k ∈ kvs.map (·.1)) ∧
        ∀ k v, (k, v) ∈ kvs → ∃ t, (k, t) ∈ fs ∧ discover (discoverStr E) topo v = .ok t := by
  have hks : ((sortedItems kvs).map (·.1)).Nodup := by
    rw [sortedItems_keys]
    exact (sortStr_sorted _ hk).imp fun h e => by rw [e] at h; exact List.lt_irrefl _ h
  rw [discover_sorted E topo kvs hk, C48.ordered E topo _ hks]
  have hkeys := sortedItems_keys kvs
  have hsort := sortStr_sorted _ hk
  constructor
  · rintro ⟨fs, rfl, h1, h2⟩
    have hn : fs.map (·.1) = sortStr (kvs.map (·.1)) := by
      rw [← hkeys]
      apply List.ext_getElem?
      intro i
      rw [List.getElem?_map, List.getElem?_map]
      cases hi : (sortedItems kvs)[i]? with
      | none =>
        have : fs[i]? = none := by
          rw [List.getElem?_eq_none_iff] at hi ⊢; omega
        rw [this]; rfl
      | some kv =>
        obtain ⟨k, v⟩ := kv
        obtain ⟨t, ht, _⟩ := h2 i k v hi
        rw [ht]; rfl
    refine ⟨fs, rfl, by rw [hn]; exact hsort, fun k => by rw [hn, sortStr_mem], fun k v h => ?_⟩
    obtain ⟨i, hi⟩ := List.mem_iff_getElem?.1 ((sortedItems_mem hk (k, v)).2 h)
    obtain ⟨t, ht, hd⟩ := h2 i k v hi
    exact ⟨t, List.mem_iff_getElem?.2 ⟨i, ht⟩, hd⟩
  · rintro ⟨fs, rfl, h1, h2, h3⟩
    have hn : fs.map (·.1) = (sortedItems kvs).map (·.1) := by
      rw [hkeys]
      exact sorted_ext h1 hsort fun k => by rw [h2, sortStr_mem]
    have hnd : (fs.map (·.1)).Nodup := by rw [hn]; exact hks
    refine ⟨fs, rfl, ?_, fun i k v hi => ?_⟩
    · have := congrArg List.length hn; simpa using this
    · obtain ⟨t, ht, hd⟩ := h3 k v ((sortedItems_mem hk _).1 (List.mem_iff_getElem?.2 ⟨i, hi⟩))
      refine ⟨t, ?_, hd⟩
      -- position `i` of `fs` has the key `k`, and keys are distinct
      have e : (fs.map (·.1))[i]? = some k := by rw [hn, List.getElem?_map, hi]; rfl
      rw [List.getElem?_map] at e
      cases hf : fs[i]? with
      | none => rw [hf] at e; cases e
      | some f =>
        rw [hf] at e
        simp only [Option.map_some, Option.some.injEq] at e
        obtain ⟨j, hj⟩ := List.mem_iff_getElem?.1 ht
        have hij : i = j := by
          have hil : i < (fs.map (·.1)).length := by
            simpa using (List.getElem?_eq_some_iff.1 hf).1
          apply (List.getElem?_inj hil hnd).1
          rw [List.getElem?_map, List.getElem?_map, hf, hj]
          simp [e]
        subst hij
        rw [hf] at hj
        rw [hj]

/-- Read-only views of dicts are treated like dicts. -/
theorem C48.proxy (E : StrEnv) (topo : List Node) (kvs : List (Str × PyObj)) :
    discover (discoverStr E) topo (.mp kvs) = discover (discoverStr E) topo (.dict kvs) := by
  rw [discover, discoverItem, discover, discoverItem]

/-- The insertion order of a dict does not matter, neither for the result nor for the exception. -/
theorem C48.insertion_order (E : StrEnv) (topo : List Node) (kvs kvs' : List (Str × PyObj))
    (hk : (kvs.map (·.1)).Nodup) (h : kvs.Perm kvs') :
    discover (discoverStr E) topo (.dict kvs) = discover (discoverStr E) topo (.dict kvs') := by
  have hk' : (kvs'.map (·.1)).Nodup := (h.map _).nodup_iff.1 hk
  rw [discover_sorted E topo kvs hk, discover_sorted E topo kvs' hk']
  have e1 : sortStr (kvs.map (·.1)) = sortStr (kvs'.map (·.1)) :=
    sorted_ext (sortStr_sorted _ hk) (sortStr_sorted _ hk') fun k => by
      rw [sortStr_mem, sortStr_mem]; exact (h.map _).mem_iff
  have e2 : sortedItems kvs = sortedItems kvs' := by
    unfold sortedItems
    rw [e1]
    apply List.map_inj_left.2
    intro k hkm
    rw [sortStr_mem] at hkm
    obtain ⟨⟨k', v⟩, hm, rfl⟩ := List.mem_map.1 hkm
    have h1 : kvs'.lookup k' = some v := by simpa using lookup_map_iff (g := id) hk' hm
    have h2 : kvs.lookup k' = some v := by simpa using lookup_map_iff (g := id) hk (h.mem_iff.2 hm)
    simp only [h1, h2]
  rw [e2]

/-- If a value cannot be discovered then neither can the dict, and the exception is that of one of its values. -/
theorem C48.raises (E : StrEnv) (topo : List Node) (kvs : List (Str × PyObj)) (hk : (kvs.map (·.1)).Nodup) :
    ((∃ kv ∈ kvs, ∃ e, discover (discoverStr E) topo kv.2 = .error e) ↔
      ∃ e, discover (discoverStr E) topo (.dict kvs) = .error e) ∧
    ∀ e, discover (discoverStr E) topo (.dict kvs) = .error e → ∃ kv ∈ kvs, discover (discoverStr E) topo kv.2 = .error e := by
  have hks : ((sortedItems kvs).map (·.1)).Nodup := by
    rw [sortedItems_keys]
    exact (sortStr_sorted _ hk).imp fun h e => by rw [e] at h; exact List.lt_irrefl _ h
  have part2 : ∀ e, discover (discoverStr E) topo (.dict kvs) = .error e →
      ∃ kv ∈ kvs, discover (discoverStr E) topo kv.2 = .error e := by
    intro e h
    rw [discover_sorted E topo kvs hk, discover, discoverItem, discoverEntries_eq] at h
    simp only at h
    cases hm : ((sortedItems kvs).map fun kv => (kv.1, discover (discoverStr E) topo kv.2)).mapM
        (fun e => (do .ok (e.1, ← e.2) : Except PyErr (Str × Ty))) with
    | error e' =>
      have he : e' = e := by
        have : recordOf ((sortedItems kvs).map fun kv => (kv.1, discover (discoverStr E) topo kv.2)) = .error e' := by
          unfold recordOf; rw [hm]; rfl
        rw [this] at h; injection h
      subst he
      obtain ⟨a, ha, hh⟩ := mapM_error hm
      obtain ⟨kv, hkv, rfl⟩ := List.mem_map.1 ha
      refine ⟨kv, (sortedItems_mem hk kv).1 hkv, ?_⟩
      cases hd : discover (discoverStr E) topo kv.2 with
      | ok t => rw [hd] at hh; cases hh
      | error e2 => rw [hd] at hh; injection hh with hh; rw [hh]
    | ok fs =>
      exfalso
      -- then the record can be built
      have hall : ∀ kv ∈ sortedItems kvs, ∃ t, discover (discoverStr E) topo kv.2 = .ok t := by
        intro kv hkv
        obtain ⟨b, _, hb⟩ := mapM_mem' hm (kv.1, discover (discoverStr E) topo kv.2) (List.mem_map.2 ⟨kv, hkv, rfl⟩)
        simp only [bind_ok] at hb
        obtain ⟨t, ht, _⟩ := hb
        exact ⟨t, ht⟩
      have hok : ∃ gs : List (Str × Ty), gs.length = (sortedItems kvs).length ∧
          ∀ (i : Nat) k v, (sortedItems kvs)[i]? = some (k, v) → ∃ t, gs[i]? = some (k, t) ∧
            discover (discoverStr E) topo v = .ok t := by
        refine ⟨(sortedItems kvs).map fun kv => (kv.1, match discover (discoverStr E) topo kv.2 with | .ok t => t | .error _ => .null),
          by simp, fun i k v hi => ?_⟩
        obtain ⟨t, ht⟩ := hall (k, v) (List.mem_iff_getElem?.2 ⟨i, hi⟩)
        simp only at ht
        exact ⟨t, by rw [List.getElem?_map, hi]; simp [ht], ht⟩
      obtain ⟨gs, hg⟩ := hok
      rw [(recordOf_iff E topo _ hks (.record gs)).2 ⟨gs, rfl, hg⟩] at h
      cases h
  refine ⟨⟨?_, ?_⟩, part2⟩
  · rintro ⟨kv, hkv, e, he⟩
    cases hd : discover (discoverStr E) topo (.dict kvs) with
    | error e' => exact ⟨e', rfl⟩
    | ok r =>
      obtain ⟨fs, _, _, _, h3⟩ := (C48.dict E topo kvs hk r).1 hd
      obtain ⟨t, _, ht⟩ := h3 kv.1 kv.2 hkv
      rw [he] at ht; cases ht
  · rintro ⟨e, he⟩
    obtain ⟨kv, hkv, h⟩ := part2 e he
    exact ⟨kv, hkv, e, h⟩

/-- an example with nested values -/
theorem C48.example (topo : List Node) :
    discover (discoverStr asciiEnv) topo (.dict [(py"b", .int), (py"a", .dict [(py"z", .str (py"12 days")), (py"x", .none)])]) =
      .ok (.record [(py"a", .record [(py"x", .null), (py"z", .timedelta (py"D"))]), (py"b", tInt64)]) ∧
    discover (discoverStr asciiEnv) topo (.od [(py"b", .int), (py"a", .float)]) =
      .ok (.record [(py"b", tInt64), (py"a", tFloat64)]) := ⟨rfl, rfl⟩

end DS
