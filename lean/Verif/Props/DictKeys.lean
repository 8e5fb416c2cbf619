import Verif.Proofs.DictKeysDiscover

/-
C74: dicts whose keys are not all strings.
-/
namespace DS

theorem perm_map_entries {α β : Type} {f : α → β} {l : List α} : ∀ {l' : List β}, l'.Perm (l.map f) → ∃ m : List α, m.Perm l ∧ m.map f = l' := by
  induction l with
  | nil => intro l' h; exact ⟨[], List.Perm.refl _, (List.Perm.eq_nil h).symm⟩
  | cons a l ih =>
    intro l' h
    obtain ⟨p, q, rfl⟩ := List.append_of_mem (h.mem_iff.2 (by simp : f a ∈ (a :: l).map f))
    have h' : (f a :: (p ++ q)).Perm (f a :: l.map f) := (List.perm_middle.symm).trans h
    obtain ⟨m, hm, e⟩ := ih h'.cons_inv
    obtain ⟨m1, m2, rfl, rfl, rfl⟩ := List.map_eq_append_iff.1 e
    exact ⟨m1 ++ a :: m2, List.perm_middle.trans (hm.cons a), by simp⟩

theorem getKey_of_mem {α : Type} {es : List (DKey × α)} (h : DistinctKeys (es.map (·.1))) {k k' : DKey} {v : α}
    (hm : (k, v) ∈ es) (hs : SameKey k k') : getKey k' es = some v := by
  unfold getKey
  induction es with
  | nil => cases hm
  | cons e es ih =>
    rw [List.map_cons] at h
    obtain ⟨h1, h2⟩ := List.pairwise_cons.1 h
    rcases List.mem_cons.1 hm with rfl | hm
    · have : (fun e : DKey × α => e.1.eq k') (k, v) = true := (eq_iff _ _).2 hs
      rw [List.find?_cons_of_pos (p := fun e : DKey × α => e.1.eq k') this]; rfl
    · rw [List.find?_cons_of_neg]
      · exact ih h2 hm
      · intro he
        exact h1 k (List.mem_map.2 ⟨_, hm, rfl⟩) (((eq_iff _ _).1 he).trans hs.symm)

theorem getKey_none {α : Type} {es : List (DKey × α)} {k : DKey} (h : ∀ v, ¬ HasValue es k v) : getKey k es = none := by
  unfold getKey
  rw [Option.map_eq_none_iff, List.find?_eq_none]
  intro e he hk
  exact h e.2 ⟨e.1, he, (eq_iff _ _).1 hk⟩

section
variable (E : StrEnv) (topo : List Node)

/-! ### Records -/

theorem recordOf_bind {D : KObj → Except PyErr Ty} (es : List (DKey × KObj)) :
    recordOf (es.map fun e => (e.1.text, D e.2)) =
      (do let ts ← (es.map (·.2)).mapM D; mkRecord ((es.map fun e => e.1.text).zip ts)) := by
  have key : (es.map fun e => (e.1.text, D e.2)).mapM (fun e => (do .ok (e.1, ← e.2) : Except PyErr (Str × Ty))) =
      (do let ts ← (es.map (·.2)).mapM D; .ok ((es.map fun e => e.1.text).zip ts)) := by
    induction es with
    | nil => rfl
    | cons e es ih =>
      rw [List.map_cons, List.mapM_cons, ih, List.map_cons, List.mapM_cons, List.map_cons]
      cases D e.2 with
      | error => rfl
      | ok t =>
        simp only [bind, Except.bind, pure, Except.pure]
        cases List.mapM D (es.map (·.2)) <;> rfl
  unfold recordOf
  rw [key]
  cases List.mapM D (es.map (·.2)) <;> rfl

theorem mkRecord_names {names : List Str} {ts : List Ty} (hlen : names.length = ts.length) (h : ∀ t ∈ ts, Good t) :
    mkRecord (names.zip ts) = if names.Nodup then .ok (.record (names.zip ts)) else .error .valueError := by
  have e1 : (names.zip ts).map (·.1) = names := List.map_fst_zip (by omega)
  have e2 : ((names.zip ts).map fun f => (f.1, launderTy f.2)) = names.zip ts := by
    conv => rhs; rw [← List.map_id (names.zip ts)]
    refine List.map_inj_left.2 fun f hf => ?_
    rw [launderTy_of_not_singleton (h f.2 (List.of_mem_zip hf).2).single]
    rfl
  unfold mkRecord
  rw [e1, e2]

theorem recordK_eq {es : List (DKey × KObj)} {r : Except PyErr Ty} (h : RecordOf (discoverK (discoverStr E) topo) es r) :
    recordOf (es.map fun e => (e.1.text, discoverK (discoverStr E) topo e.2)) = r := by
  rw [recordOf_bind]
  have key : ∀ names ts, Each NameOf (es.map (·.1)) names → InTurn (fun v r => discoverK (discoverStr E) topo v = r) (es.map (·.2)) (.ok ts) →
      (do let ts ← (es.map fun e : DKey × KObj => e.2).mapM (discoverK (discoverStr E) topo); mkRecord ((es.map fun e : DKey × KObj => e.1.text).zip ts)) =
        if names.Nodup then .ok (.record (names.zip ts)) else .error .valueError := by
    intro names ts h1 h2
    rw [inTurn_eq h2]
    have e := each_names.1 h1
    rw [List.map_map] at e
    have e : names = es.map fun e => e.1.text := e
    have hlen := (inTurn_mem h2 _ rfl).1
    subst e
    exact mkRecord_names (by simpa using hlen) (types_good (good_discoverK E topo) h2)
  cases h with
  | record h1 h2 h3 => rw [key _ _ h1 h2, if_pos h3]
  | repeated h1 h2 h3 => rw [key _ _ h1 h2, if_neg h3]
  | fails h => rw [inTurn_eq h]; rfl

theorem record_total (D : KObj → Except PyErr Ty) (es : List (DKey × KObj)) : ∃ r, RecordOf D es r := by
  obtain ⟨r, hr⟩ := inTurn_total (R := fun v r => D v = r) (l := es.map (·.2)) fun v _ => ⟨_, rfl⟩
  cases r with
  | error e => exact ⟨_, .fails hr⟩
  | ok ts =>
    by_cases h : ((es.map (·.1)).map DKey.text).Nodup
    · exact ⟨_, .record (each_names.2 rfl) hr h⟩
    · exact ⟨_, .repeated (each_names.2 rfl) hr h⟩

theorem mapping_eq {es : List (DKey × KObj)} (hd : DistinctKeys (es.map (·.1))) {r : Except PyErr Ty}
    (h : MappingOf (discoverK (discoverStr E) topo) es r) :
    discoverMapK (es.map fun e => (e.1, discoverK (discoverStr E) topo e.2)) = r := by
  have hk : (es.map fun e => (e.1, discoverK (discoverStr E) topo e.2)).map (·.1) = es.map (·.1) := by
    rw [List.map_map]; rfl
  unfold discoverMapK
  rw [hk]
  cases h with
  | @sorted es' _ h1 h2 h3 =>
    rw [(sortKeys_iff hd (es'.map (·.1))).2 ⟨h1.map _, h2⟩]
    show recordOf ((es'.map (·.1)).map _) = r
    rw [← recordK_eq E topo h3, List.map_map]
    congr 1
    refine List.map_inj_left.2 fun e he => ?_
    have hm : (e.1, discoverK (discoverStr E) topo e.2) ∈ es.map fun e => (e.1, discoverK (discoverStr E) topo e.2) :=
      List.mem_map.2 ⟨e, h1.mem_iff.1 he, rfl⟩
    simp only [Function.comp, getKey_of_mem (by rw [hk]; exact hd) hm (.refl _), Option.getD_some]
  | unordered h =>
    rcases sortKeys_spec _ hd with ⟨ks, -, h'⟩ | ⟨e, -⟩
    · exact absurd h' (h ks)
    · rw [e]; rfl

theorem mapping_total (D : KObj → Except PyErr Ty) (es : List (DKey × KObj)) : ∃ r, MappingOf D es r := by
  by_cases h : ∃ ks, InOrder (es.map (·.1)) ks
  · obtain ⟨ks, h1, h2⟩ := h
    obtain ⟨es', h3, rfl⟩ := perm_map_entries h1
    obtain ⟨r, hr⟩ := record_total D es'
    exact ⟨r, .sorted h3 h2 hr⟩
  · exact ⟨_, .unordered fun ks h' => h ⟨ks, h'⟩⟩

/-! ### The theorems about mappings -/

/-- **C74.** An `OrderedDict` is discovered as the record of its entries in their order, named by `str` of the keys; if two of the
names are the same, `ValueError` is raised. -/
theorem C74.ordered (es : List (DKey × KObj)) (r : Except PyErr Ty) :
    discoverK (discoverStr E) topo (.od es) = r ↔ RecordOf (discoverK (discoverStr E) topo) es r := by
  rw [discoverK_od]
  constructor
  · rintro rfl
    obtain ⟨r, h⟩ := record_total (discoverK (discoverStr E) topo) es
    rw [recordK_eq E topo h]; exact h
  · exact recordK_eq E topo

/-- **C74.** A dict, or a read-only view of one, is discovered as the record of its entries in the order of the keys: strings by
code points, numbers by their value; keys of different kinds raise `TypeError`. -/
theorem C74.mapping (es : List (DKey × KObj)) (hd : DistinctKeys (es.map (·.1))) (r : Except PyErr Ty) :
    (discoverK (discoverStr E) topo (.dict es) = r ↔ MappingOf (discoverK (discoverStr E) topo) es r) ∧
    (discoverK (discoverStr E) topo (.mp es) = r ↔ MappingOf (discoverK (discoverStr E) topo) es r) := by
  rw [discoverK_dict, discoverK_mp]
  refine ⟨?h, ?h⟩
  constructor
  · rintro rfl
    obtain ⟨r, h⟩ := mapping_total (discoverK (discoverStr E) topo) es
    rw [mapping_eq E topo hd h]; exact h
  · exact mapping_eq E topo hd

/-- **C74.** Keys that can be compared have different names, so that a dict never gives a name twice. -/
theorem C74.names (ks : List DKey) (names : List Str) (h : ks.Pairwise KeyBefore) (hn : Each NameOf ks names) : names.Nodup := by
  rw [each_names.1 hn]
  exact texts_nodup h

end

/-! ### Sequences of dicts -/

/-- `k` is in the list, and nothing that is the same key comes before it -/
def FirstIn : List DKey → DKey → Prop
  | [], _ => False
  | x :: l, k => x = k ∨ (¬ SameKey x k ∧ FirstIn l k)

theorem FirstIn.mem {l : List DKey} {k : DKey} (h : FirstIn l k) : k ∈ l := by
  induction l with
  | nil => exact h.elim
  | cons x l ih =>
    rcases h with rfl | ⟨-, h⟩
    · simp
    · exact List.mem_cons_of_mem _ (ih h)

theorem firstIn_append (a b : List DKey) (k : DKey) : FirstIn (a ++ b) k ↔ FirstIn a k ∨ (FirstIn b k ∧ ∀ x ∈ a, ¬ SameKey x k) := by
  induction a with
  | nil => simp [FirstIn]
  | cons x a ih =>
    simp only [List.cons_append, FirstIn, ih, List.mem_cons, forall_eq_or_imp]
    constructor
    · rintro (h | ⟨h1, h | ⟨h2, h3⟩⟩)
      · exact .inl (.inl h)
      · exact .inl (.inr ⟨h1, h⟩)
      · exact .inr ⟨h2, h1, h3⟩
    · rintro ((h | ⟨h1, h⟩) | ⟨h1, h2, h3⟩)
      · exact .inl h
      · exact .inr ⟨h1, .inl h⟩
      · exact .inr ⟨h2, .inr ⟨h1, h3⟩⟩

theorem firstIn_distinct {l : List DKey} (h : DistinctKeys l) (k : DKey) : FirstIn l k ↔ k ∈ l := by
  refine ⟨FirstIn.mem, ?_⟩
  induction l with
  | nil => intro h; cases h
  | cons x l ih =>
    obtain ⟨h1, h2⟩ := List.pairwise_cons.1 h
    intro hm
    rcases List.mem_cons.1 hm with rfl | hm
    · exact .inl rfl
    · exact .inr ⟨h1 k hm, ih h2 hm⟩

theorem firstIn_rows {V : Type} {rows : List (List (DKey × V))} (h : ∀ es ∈ rows, DistinctKeys (es.map (·.1))) (k : DKey) :
    FirstIn (rows.flatMap fun d => d.map (·.1)) k ↔ KeyOfDicts rows k := by
  induction rows with
  | nil =>
    simp only [List.flatMap_nil, FirstIn, false_iff]
    rintro ⟨pre, es, post, e, -⟩
    cases pre <;> cases e
  | cons d rows ih =>
    rw [List.flatMap_cons, firstIn_append, firstIn_distinct (h d (by simp)), ih fun es hes => h es (by simp [hes])]
    constructor
    · rintro (hk | ⟨⟨pre, es, post, rfl, h1, h2⟩, h3⟩)
      · exact ⟨[], d, rows, rfl, hk, by simp⟩
      · refine ⟨d :: pre, es, post, rfl, h1, fun x hx => ?_⟩
        rcases List.mem_cons.1 hx with rfl | hx
        · exact h3
        · exact h2 x hx
    · rintro ⟨pre, es, post, e, h1, h2⟩
      cases pre with
      | nil => cases e; exact .inl h1
      | cons x pre =>
        cases e
        exact .inr ⟨⟨pre, es, post, rfl, h1, fun y hy => h2 y (List.mem_cons_of_mem _ hy)⟩, h2 d (by simp)⟩

theorem foldl_addKey : ∀ (l s : List DKey), DistinctKeys s →
    DistinctKeys (l.foldl addKey s) ∧ ∀ k, k ∈ l.foldl addKey s ↔ k ∈ s ∨ (FirstIn l k ∧ ∀ x ∈ s, ¬ SameKey x k) := by
  intro l
  induction l with
  | nil => intro s hs; exact ⟨hs, fun k => by simp [FirstIn]⟩
  | cons x l ih =>
    intro s hs
    rw [List.foldl_cons]
    by_cases hx : ∃ y ∈ s, SameKey y x
    · obtain ⟨y, hy, hyx⟩ := hx
      have e : addKey s x = s := by
        unfold addKey
        rw [if_pos]
        rw [List.any_eq_true]
        exact ⟨y, hy, (eq_iff _ _).2 hyx⟩
      rw [e]
      obtain ⟨h1, h2⟩ := ih s hs
      refine ⟨h1, fun k => (h2 k).trans ?_⟩
      simp only [FirstIn]
      constructor
      · rintro (h | ⟨h, h'⟩)
        · exact .inl h
        · refine .inr ⟨.inr ⟨fun hxk => h' y hy (hyx.trans hxk), h⟩, h'⟩
      · rintro (h | ⟨rfl | ⟨-, h⟩, h'⟩)
        · exact .inl h
        · exact absurd hyx (h' y hy)
        · exact .inr ⟨h, h'⟩
    · have hx' : ∀ y ∈ s, ¬ SameKey y x := fun y hy h => hx ⟨y, hy, h⟩
      have e : addKey s x = s ++ [x] := by
        unfold addKey
        rw [if_neg]
        rw [List.any_eq_true]
        rintro ⟨y, hy, h⟩
        exact hx' y hy ((eq_iff _ _).1 h)
      rw [e]
      obtain ⟨h1, h2⟩ := ih (s ++ [x]) (by
        unfold DistinctKeys
        rw [List.pairwise_append]
        exact ⟨hs, List.pairwise_singleton _ _, fun a ha b hb => by rw [List.mem_singleton.1 hb]; exact hx' a ha⟩)
      refine ⟨h1, fun k => (h2 k).trans ?_⟩
      simp only [FirstIn, List.mem_append, List.mem_singleton]
      constructor
      · rintro ((h | rfl) | ⟨h, h'⟩)
        · exact .inl h
        · exact .inr ⟨.inl rfl, hx'⟩
        · exact .inr ⟨.inr ⟨h' x (.inr rfl), h⟩, fun y hy => h' y (.inl hy)⟩
      · rintro (h | ⟨rfl | ⟨hne, h⟩, h'⟩)
        · exact .inl (.inl h)
        · exact .inl (.inr rfl)
        · refine .inr ⟨h, fun y hy => ?_⟩
          rcases hy with hy | rfl
          · exact h' y hy
          · exact hne

theorem keys_rows {V : Type} {rows : List (List (DKey × V))} (h : ∀ es ∈ rows, DistinctKeys (es.map (·.1))) :
    (∀ keys, KeysOfDicts rows keys ↔ sortKeys (unionKeys (rows.flatMap fun d => d.map (·.1))) = .ok keys) ∧
    ((∀ keys, ¬ KeysOfDicts rows keys) → sortKeys (unionKeys (rows.flatMap fun d => d.map (·.1))) = .error .typeError) := by
  obtain ⟨hd, hm⟩ := foldl_addKey (rows.flatMap fun d => d.map (·.1)) [] .nil
  have nd : ∀ {l : List DKey}, DistinctKeys l → l.Nodup := fun {l} h => List.Pairwise.imp (fun {a b} h (e : a = b) => h (.inl e)) h
  have key : ∀ keys, KeysOfDicts rows keys ↔ sortKeys (unionKeys (rows.flatMap fun d => d.map (·.1))) = .ok keys := by
    intro keys
    unfold unionKeys
    rw [sortKeys_iff hd]
    unfold KeysOfDicts InOrder
    rw [and_comm, and_congr_left]
    intro hp
    rw [List.perm_ext_iff_of_nodup (nd (hp.imp KeyBefore.not_same)) (nd hd)]
    refine forall_congr' fun k => ?_
    rw [hm, firstIn_rows h]
    simp
  refine ⟨key, fun hno => ?_⟩
  rcases sortKeys_spec _ hd with ⟨ks, e, -⟩ | ⟨e, -⟩
  · exact absurd ((key ks).2 e) (hno ks)
  · exact e

section
variable (E : StrEnv) (topo : List Node)

theorem underKey_map {rows : List (List (DKey × KObj))} (h : ∀ es ∈ rows, DistinctKeys (es.map (·.1))) {k : DKey} {cells : List KObj}
    (hu : UnderKey k rows cells) :
    (rows.map fun d => (getKey k (d.map fun e => (e.1, discoverK (discoverStr E) topo e.2))).getD (.ok .null)) =
      cells.map (discoverK (discoverStr E) topo) := by
  have hk : ∀ es : List (DKey × KObj), (es.map fun e => (e.1, discoverK (discoverStr E) topo e.2)).map (·.1) = es.map (·.1) := by
    intro es
    rw [List.map_map]; rfl
  induction hu with
  | done => rfl
  | @there es rows v vs hv _ ih =>
    rw [List.map_cons, List.map_cons, ih fun es hes => h es (by simp [hes])]
    congr 1
    obtain ⟨k', hm, hs⟩ := hv
    rw [getKey_of_mem (k := k') (v := discoverK (discoverStr E) topo v) (by rw [hk]; exact h es (by simp)) (List.mem_map.2 ⟨_, hm, rfl⟩) hs]
    rfl
  | @missing es rows vs hv _ ih =>
    rw [List.map_cons, List.map_cons, ih fun es hes => h es (by simp [hes])]
    congr 1
    rw [getKey_none]
    · rfl
    · rintro v ⟨k', hm, hs⟩
      obtain ⟨e, he, e'⟩ := List.mem_map.1 hm
      cases e'
      exact hv e.2 ⟨e.1, he, hs⟩

theorem underKey_total (k : DKey) (rows : List (List (DKey × KObj))) : ∃ cells, UnderKey k rows cells := by
  induction rows with
  | nil => exact ⟨_, .done⟩
  | cons es rows ih =>
    obtain ⟨vs, h⟩ := ih
    by_cases hv : ∃ v, HasValue es k v
    · obtain ⟨v, hv⟩ := hv
      exact ⟨_, .there hv h⟩
    · exact ⟨_, .missing (fun v hv' => hv ⟨v, hv'⟩) h⟩

theorem underKey_length {k : DKey} {rows : List (List (DKey × KObj))} {cells : List KObj} (h : UnderKey k rows cells) :
    cells.length = rows.length := by
  induction h <;> simp_all

theorem entriesK_mapM {items : List KObj} {rows : List (List (DKey × KObj))} (h : Each EntriesOfK items rows) :
    (items.map (discoverItemK (discoverStr E) topo)).mapM ItemK.entries =
      some (rows.map fun d => d.map fun e => (e.1, discoverK (discoverStr E) topo e.2)) ∧
    (items ≠ [] → ((items.map (discoverItemK (discoverStr E) topo)).map ItemK.item).mapM Item.elems = none) := by
  constructor
  · induction h with
    | nil => rfl
    | @cons v es items rows h1 _ ih =>
      rw [List.map_cons, List.mapM_cons, ih, List.map_cons]
      rcases h1 with rfl | rfl <;> rw [discoverItemK, discoverEntriesK_eq] <;> rfl
  · intro hne
    cases h with
    | nil => exact absurd rfl hne
    | cons h1 _ =>
      rw [List.map_cons, List.map_cons, List.mapM_cons]
      rcases h1 with rfl | rfl <;> rw [discoverItemK] <;> rfl

theorem cols_mapM {rows : List (List (DKey × KObj))} (h : ∀ es ∈ rows, DistinctKeys (es.map (·.1))) {keys : List DKey}
    {cols : List (List KObj)} (hc : Each (fun k c => UnderKey k rows c) keys cols) :
    (keys.map fun k => (rows.map fun d => d.map fun e => (e.1, discoverK (discoverStr E) topo e.2)).map fun d =>
      (getKey k d).getD (.ok .null)) = cols.map (List.map (discoverK (discoverStr E) topo)) := by
  induction hc with
  | nil => rfl
  | cons h1 _ ih =>
    rw [List.map_cons, ih, List.map_cons, ← underKey_map E topo h h1, List.map_map]
    rfl

theorem dictsOf_eq (htopo : Toposort discEdges (.ok topo)) {items : List KObj} (hne : items ≠ []) {rows : List (List (DKey × KObj))}
    (h : Each EntriesOfK items rows) (hd : ∀ es ∈ rows, DistinctKeys (es.map (·.1))) {r : Except PyErr Ty}
    (hr : DictsOf (discoverK (discoverStr E) topo) items rows r) :
    discoverSeqK topo (items.map (discoverItemK (discoverStr E) topo)) = r := by
  have hD := good_discoverK E topo
  obtain ⟨e1, e2⟩ := entriesK_mapM E topo h
  have hrows : discoverRows topo ((items.map (discoverItemK (discoverStr E) topo)).map ItemK.item) = none := by
    unfold discoverRows
    rw [e2 hne]
  have hkeys : ((rows.map fun d => d.map fun e => (e.1, discoverK (discoverStr E) topo e.2)).flatMap fun d => d.map (·.1)) =
      rows.flatMap fun d => d.map (·.1) := by
    rw [List.flatMap_map]
    refine congrArg (fun f => rows.flatMap f) (funext fun d => ?_)
    rw [List.map_map]; rfl
  unfold discoverSeqK
  rw [if_neg (by simpa using hne), hrows]
  show orElse (discoverDictsK topo _) _ = r
  have hdicts : discoverDictsK topo (items.map (discoverItemK (discoverStr E) topo)) = some (do
      let keys ← sortKeys (unionKeys (rows.flatMap fun d => d.map (·.1)))
      let types ← (keys.map fun k => (rows.map fun d => d.map fun e => (e.1, discoverK (discoverStr E) topo e.2)).map fun d =>
        (getKey k d).getD (.ok .null)).mapM (columnType topo)
      let r ← mkRecord ((keys.map DKey.text).zip types)
      mul (.int items.length) (.ty r)) := by
    unfold discoverDictsK
    rw [e1]
    simp only [hkeys, List.length_map]
  rw [hdicts]
  obtain ⟨k1, k2⟩ := keys_rows hd
  cases hr with
  | unordered hno => rw [k2 hno]; rfl
  | @record keys names cols types hk hn hc ht =>
    rw [(k1 keys).1 hk]
    obtain ⟨c1, c2⟩ := columns_mapM hD htopo ht
    obtain rfl := each_names.1 hn
    have hnd := texts_nodup hk.1
    have hlen : (keys.map DKey.text).length = types.length := by
      rw [List.length_map, hc.length_eq]
      exact (inTurn_mem ht _ rfl).1
    have hgood : ∀ t ∈ types, Good t := c2 types rfl
    have e3 : mkRecord ((keys.map DKey.text).zip (types.map Ty.wrap)) = .ok (.record ((keys.map DKey.text).zip types)) := by
      have hz : (keys.map DKey.text).zip (types.map Ty.wrap) = ((keys.map DKey.text).zip types).map fun f => (f.1, f.2.wrap) := by
        rw [List.zip_map_right]; rfl
      have hk1 : ((keys.map DKey.text).zip types).map (·.1) = keys.map DKey.text := List.map_fst_zip (by omega)
      rw [hz]
      unfold mkRecord
      rw [if_pos (by
        rw [List.map_map]
        show (((keys.map DKey.text).zip types).map (·.1)).Nodup
        rw [hk1]
        exact hnd), List.map_map]
      congr 2
      conv => rhs; rw [← List.map_id ((keys.map DKey.text).zip types)]
      refine List.map_inj_left.2 fun f hf => ?_
      simp only [Function.comp, launder_wrapped (hgood f.2 (List.of_mem_zip hf).2).single]
      rfl
    have e4 : Disc (fun _ => true) (.record ((keys.map DKey.text).zip types)) :=
      disc_mkRecord ((mkRecord_names hlen hgood).trans (if_pos hnd)) fun f hf => ⟨(hgood f.2 (List.of_mem_zip hf).2).disc, rfl⟩
    simp only [bind, Except.bind]
    rw [cols_mapM E topo hd hc, c1]
    simp only [Except.map, e3]
    rw [disc_mul e4]
    rfl
  | @fails keys cols e hk hc ht he =>
    rw [(k1 keys).1 hk]
    simp only [bind, Except.bind]
    rw [cols_mapM E topo hd hc, (columns_mapM hD htopo ht).1]
    unfold orElse
    cases e <;> first | rfl | exact absurd rfl he
  | @oneByOne keys cols r hk hc ht ho =>
    rw [(k1 keys).1 hk]
    simp only [bind, Except.bind]
    rw [cols_mapM E topo hd hc, (columns_mapM hD htopo ht).1]
    show discoverRest _ = r
    unfold discoverRest
    have hm : ((items.map (discoverItemK (discoverStr E) topo)).map ItemK.item).mapM Item.self = items.mapM (discoverK (discoverStr E) topo) := by
      rw [List.mapM_map, List.mapM_map]; rfl
    rw [hm]
    cases ho with
    | @combined ts t h1 h2 =>
      rw [inTurn_eq h1]
      have := (combined_tuple (w := id) (.inl rfl) (types_good hD h1) h2).1
      rw [List.map_id] at this
      exact this
    | @fails e h1 =>
      rw [inTurn_eq h1]
      rfl

theorem dictsOf_total (items : List KObj) (hne : items ≠ []) (rows : List (List (DKey × KObj))) (h : Each EntriesOfK items rows) :
    ∃ r, DictsOf (discoverK (discoverStr E) topo) items rows r := by
  have hD := good_discoverK E topo
  by_cases hk : ∃ keys, KeysOfDicts rows keys
  · obtain ⟨keys, hk⟩ := hk
    have hcols : ∀ ks : List DKey, ∃ cols, Each (fun k c => UnderKey k rows c) ks cols := by
      intro ks
      induction ks with
      | nil => exact ⟨_, .nil⟩
      | cons k ks ih =>
        obtain ⟨cols, ih⟩ := ih
        obtain ⟨c, hc⟩ := underKey_total k rows
        exact ⟨_, .cons hc ih⟩
    obtain ⟨cols, hc⟩ := hcols keys
    have hne' : ∀ c ∈ cols, c ≠ [] := by
      have hl : 0 < rows.length := by rw [← h.length_eq]; exact List.length_pos_iff.2 hne
      clear hk
      induction hc with
      | nil => intro c hc; cases hc
      | cons h1 _ ih =>
        intro c hm
        rcases List.mem_cons.1 hm with rfl | hm
        · rintro rfl
          have := underKey_length h1
          simp at this
          omega
        · exact ih c hm
    obtain ⟨r, hr⟩ := inTurn_total (R := CellsColumn (discoverK (discoverStr E) topo)) (l := cols) fun c hc => cells_total hD (hne' c hc)
    cases r with
    | ok types => exact ⟨_, .record hk (each_names.2 rfl) hc hr⟩
    | error e =>
      by_cases he : e = .attributeError
      · subst he
        obtain ⟨r, ho⟩ := inTurn_total (R := fun v r => discoverK (discoverStr E) topo v = r) (l := items) fun v _ => ⟨_, rfl⟩
        cases r with
        | error e => exact ⟨_, .oneByOne hk hc hr (.fails ho)⟩
        | ok ts =>
          obtain ⟨t, ht⟩ := combined_total ts
          exact ⟨_, .oneByOne hk hc hr (.combined ho ht)⟩
      · exact ⟨_, .fails hk hc hr he⟩
  · exact ⟨_, .unordered fun keys h => hk ⟨keys, h⟩⟩

/-- **C74.** A list, tuple or set of dicts is read key by key, in the order of the keys; keys that cannot be compared raise
`TypeError` even if they are in different dicts; a key that several dicts have is named as in the first of them. -/
theorem C74.dicts (htopo : Toposort discEdges (.ok topo)) (kind : SeqKind) (items : List KObj) (hne : items ≠ [])
    (rows : List (List (DKey × KObj))) (h : Each EntriesOfK items rows) (hd : ∀ es ∈ rows, DistinctKeys (es.map (·.1)))
    (r : Except PyErr Ty) :
    discoverK (discoverStr E) topo (.seq kind items) = r ↔ DictsOf (discoverK (discoverStr E) topo) items rows r := by
  rw [discoverK_seq]
  constructor
  · rintro rfl
    obtain ⟨r, h'⟩ := dictsOf_total E topo items hne rows h
    rw [dictsOf_eq E topo htopo hne h hd h']; exact h'
  · exact dictsOf_eq E topo htopo hne h hd

end

/-! ### Keys that are strings -/

theorem insertKey_str (x : Str) (l : List Str) : insertKey (.str x) (l.map .str) = .ok ((insertStr x l).map .str) := by
  induction l with
  | nil => rfl
  | cons y l ih =>
    rw [List.map_cons, insertKey, insertStr, ih]
    show (do if ← (Except.ok (!strLe x y) : Except PyErr Bool) then _ else _ : Except PyErr (List DKey)) = _
    cases strLe x y <;> rfl

theorem sortKeys_str (l : List Str) : sortKeys (l.map .str) = .ok ((sortStr l).map .str) := by
  induction l with
  | nil => rfl
  | cons x l ih =>
    rw [List.map_cons, sortKeys, ih]
    exact insertKey_str x (sortStr l)

theorem str_eq (a b : Str) : (DKey.str a).eq (.str b) = (a == b) := by
  rw [Bool.eq_iff_iff, eq_iff, beq_iff_eq]
  constructor
  · rintro (h | ⟨i, h, -⟩)
    · cases h; rfl
    · cases h
  · rintro rfl; exact .refl _

theorem unionKeys_str (l : List Str) : unionKeys (l.map .str) = (toSet l).map .str := by
  have key : ∀ s : List Str, (l.map DKey.str).foldl addKey (s.map .str) = (l.foldl setAdd s).map .str := by
    induction l with
    | nil => intro s; rfl
    | cons x l ih =>
      intro s
      rw [List.map_cons, List.foldl_cons, List.foldl_cons, ← ih]
      congr 1
      unfold addKey setAdd
      have h : (s.map DKey.str).any (·.eq (.str x)) = true ↔ x ∈ s := by
        rw [List.any_eq_true]
        constructor
        · rintro ⟨y, hy, h⟩
          obtain ⟨z, hz, rfl⟩ := List.mem_map.1 hy
          rw [str_eq, beq_iff_eq] at h
          exact h ▸ hz
        · intro h
          exact ⟨.str x, List.mem_map.2 ⟨x, h, rfl⟩, by rw [str_eq]; simp⟩
      by_cases hx : x ∈ s
      · rw [if_pos (h.2 hx), if_pos hx]
      · rw [if_neg (fun h' => hx (h.1 h')), if_neg hx, List.map_append]; rfl
  exact key []

theorem getKey_str {α : Type} (k : Str) (es : List (Str × α)) : getKey (.str k) (es.map fun e => (DKey.str e.1, e.2)) = es.lookup k := by
  unfold getKey
  induction es with
  | nil => rfl
  | cons e es ih =>
    rw [List.map_cons, List.find?_cons, List.lookup_cons, str_eq]
    have : (e.1 == k) = (k == e.1) := by rw [Bool.eq_iff_iff, beq_iff_eq, beq_iff_eq]; exact ⟨Eq.symm, Eq.symm⟩
    rw [this]
    cases k == e.1
    · exact ih
    · rfl

theorem map_str {α : Type} (es : List (Str × α)) : (es.map fun e => (DKey.str e.1, e.2)).map (·.1) = (es.map (·.1)).map .str := by
  rw [List.map_map, List.map_map]; rfl

theorem text_str (l : List Str) : (l.map DKey.str).map DKey.text = l := by
  rw [List.map_map]
  exact List.map_id l

theorem mapK_str (es : List (Str × Except PyErr Ty)) : discoverMapK (es.map fun e => (.str e.1, e.2)) = discoverMap es := by
  unfold discoverMapK discoverMap
  rw [map_str, sortKeys_str]
  show recordOf (((sortStr (es.map (·.1))).map DKey.str).map _) = _
  rw [List.map_map]
  congr 1
  refine List.map_inj_left.2 fun k _ => ?_
  simp only [Function.comp, getKey_str]
  rfl

theorem seqK_str (topo : List Node) (items : List Item) : discoverSeqK topo (items.map Item.keyed) = discoverSeq topo items := by
  have he : (items.map Item.keyed).map ItemK.item = items.map fun i => ⟨i.self, i.elems, none⟩ := by
    rw [List.map_map]; rfl
  have h1 : discoverRows topo (items.map fun i => ⟨i.self, i.elems, none⟩) = discoverRows topo items := by
    unfold discoverRows
    have : (items.map fun i => (⟨i.self, i.elems, none⟩ : Item)).mapM Item.elems = items.mapM Item.elems := by
      rw [List.mapM_map]; rfl
    rw [this, List.length_map]
  have h2 : discoverRest (items.map fun i => ⟨i.self, i.elems, none⟩) = discoverRest items := by
    unfold discoverRest
    rw [List.mapM_map]; rfl
  have h3 : (items.map Item.keyed).mapM ItemK.entries = (items.mapM Item.entries).map (List.map (List.map fun e => (.str e.1, e.2))) := by
    clear he h1 h2
    induction items with
    | nil => rfl
    | cons i items ih =>
      rw [List.map_cons, List.mapM_cons, ih, List.mapM_cons]
      obtain ⟨s, el, en⟩ := i
      cases en with
      | none => rfl
      | some x => cases List.mapM Item.entries items <;> rfl
  have h4 : discoverDictsK topo (items.map Item.keyed) = discoverDicts topo items := by
    unfold discoverDictsK discoverDicts
    rw [h3]
    cases items.mapM Item.entries with
    | none => rfl
    | some rows =>
      simp only [Option.map_some, List.length_map]
      have hk : ((rows.map (List.map fun e => (DKey.str e.1, e.2))).flatMap fun d => d.map (·.1)) =
          (rows.flatMap fun d => d.map (·.1)).map .str := by
        rw [List.flatMap_map, List.map_flatMap]
        exact congrArg (fun f => rows.flatMap f) (funext fun d => map_str d)
      rw [hk, unionKeys_str, sortKeys_str]
      have ht : ∀ l : List Str, (l.map DKey.str).map DKey.text = l := text_str
      simp only [bind, Except.bind, ht]
      simp only [List.map_map]
      have hc : ((fun k => rows.map ((fun d => (getKey k d).getD (.ok .null)) ∘ List.map fun e => (DKey.str e.1, e.2))) ∘ DKey.str) =
          fun k => rows.map fun d => (d.lookup k).getD (Except.ok .null : Except PyErr Ty) := by
        funext k
        show rows.map _ = rows.map _
        refine List.map_inj_left.2 fun d _ => ?_
        show (getKey (.str k) (d.map _)).getD _ = _
        rw [getKey_str]
      rw [hc]
      rfl
  unfold discoverSeqK discoverSeq
  rw [he, h1, h2, h4]
  cases items <;> rfl

theorem item_written (strTy : Str → Except PyErr Ty) (topo : List Node) (v : PyObj) :
    ∀ w, Written v w → discoverItemK strTy topo w = (discoverItem strTy topo v).keyed := by
  have hentries : ∀ (es : List (Str × PyObj)), (∀ e ∈ es, ∀ w, Written e.2 w → discoverItemK strTy topo w = (discoverItem strTy topo e.2).keyed) →
      ∀ (es' : List (DKey × KObj)), es'.map (·.1) = es.map (fun e => .str e.1) → Each Written (es.map (·.2)) (es'.map (·.2)) →
      discoverEntriesK strTy topo es' = (discoverEntries strTy topo es).map fun e => (.str e.1, e.2) := by
    intro es
    induction es with
    | nil =>
      intro ih es' hk h
      cases es' with
      | nil => rfl
      | cons => cases hk
    | cons e es ih' =>
      intro ih es' hk h
      cases es' with
      | nil => cases hk
      | cons e' es' =>
        obtain ⟨k, v⟩ := e
        obtain ⟨k', w⟩ := e'
        simp only [List.map_cons, List.cons.injEq] at hk
        obtain ⟨rfl, hk⟩ := hk
        cases h with
        | cons h1 h2 =>
          rw [discoverEntriesK, discoverEntries, List.map_cons, ih' (fun e he => ih e (List.mem_cons_of_mem _ he)) es' hk h2,
            ih (k, v) (by simp) w h1]
          rfl
  induction v using PyObj.ind with
  | atom v hv =>
    intro w h
    cases h <;> first | rfl | simp [PyObj.isAtom] at hv
  | seq k l ih =>
    intro w h
    cases h with
    | val => rfl
    | @seq _ _ l' h =>
      have e : discoverItemsK strTy topo l' = (discoverItems strTy topo l).map Item.keyed := by
        clear k
        induction h with
        | nil => rfl
        | @cons a b l m h1 _ ih' =>
          rw [discoverItemsK, discoverItems, List.map_cons, ih a (by simp) b h1, ih' fun v hv => ih v (List.mem_cons_of_mem _ hv)]
      rw [discoverItemK, discoverItem, e]
      simp only [seqK_str, List.map_map]
      rfl
  | dict es ih =>
    intro w h
    cases h with
    | val => rfl
    | @dict _ es' hk h =>
      rw [discoverItemK, discoverItem, hentries es ih es' hk h]
      simp only [mapK_str]
      rfl
  | od es ih =>
    intro w h
    cases h with
    | val => rfl
    | @od _ es' hk h =>
      rw [discoverItemK, discoverItem, hentries es ih es' hk h]
      simp only [List.map_map]
      have : (discoverEntries strTy topo es).map ((fun e : DKey × Except PyErr Ty => (e.1.text, e.2)) ∘ fun e => (DKey.str e.1, e.2)) =
          discoverEntries strTy topo es := List.map_id _
      rw [this]
      rfl
  | mp es ih =>
    intro w h
    cases h with
    | val => rfl
    | @mp _ es' hk h =>
      rw [discoverItemK, discoverItem, hentries es ih es' hk h]
      simp only [mapK_str]
      rfl

/-- **C74.** On values in which all keys are strings, at any depth, this is `discover` as everywhere else. -/
theorem C74.strings (strTy : Str → Except PyErr Ty) (topo : List Node) (v : PyObj) (w : KObj) (h : Written v w) :
    discoverK strTy topo w = discover strTy topo v := by
  rw [discoverK, item_written strTy topo v w h]
  rfl

/-- `{10: 1, 9: 'x'}` has the fields 9 and 10, in this order; keys of different kinds do not mix, except in an `OrderedDict`;
`[{True: 1}, {1: 2.5}]` has the name `True`. -/
theorem C74.example (E : StrEnv) (topo : List Node) :
    discoverK (discoverStr E) topo (.dict [(.int 10, .val .int), (.int 9, .val .bool)]) =
      .ok (.record [(py"9", tBool), (py"10", tInt64)]) ∧
    discoverK (discoverStr E) topo (.dict [(.int 10, .val .int), (.str (py"9"), .val .bool)]) = .error .typeError ∧
    discoverK (discoverStr E) topo (.od [(.int 10, .val .int), (.str (py"9"), .val .bool)]) =
      .ok (.record [(py"10", tInt64), (py"9", tBool)]) ∧
    discoverK (discoverStr E) topo (.od [(.int 9, .val .int), (.str (py"9"), .val .bool)]) = .error .valueError ∧
    discoverK (discoverStr E) topo (.dict [(.none, .val .int)]) = .ok (.record [(py"None", tInt64)]) ∧
    discoverK (discoverStr E) topo (.seq .list [.dict [(.int 1, .val .int)], .dict [(.none, .val .int)]]) = .error .typeError ∧
    discoverK (discoverStr E) topo (.seq .list [.dict [(.bool true, .val .int)], .dict [(.int 1, .val .int)]]) =
      .ok (.dshape [.fixed 2, .record [(py"True", tInt64)]]) :=
  ⟨rfl, rfl, rfl, rfl, rfl, rfl, rfl⟩

end DS
