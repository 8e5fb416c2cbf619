import Verif.Props.Discovery

/-
C25: discover on lists of dicts.
-/
namespace DS

/-! ### Sorting -/

theorem strLe_iff (a b : Str) : strLe a b = true ↔ ¬ b < a := by
  induction a generalizing b with
  | nil => simp [strLe]
  | cons x a ih =>
    cases b with
    | nil => simp [strLe]
    | cons y b =>
      rw [strLe, List.cons_lt_cons_iff]
      by_cases h1 : x < y
      · simp only [if_pos h1]; simp; constructor; omega; intro h; omega
      · by_cases h2 : y < x
        · simp [h1, h2]
        · have : x = y := by omega
          subst this
          simp [ih]

theorem str_lt_of (a b : Str) (h : ¬ b < a) (hne : a ≠ b) : a < b := by
  induction a generalizing b with
  | nil => cases b with
    | nil => exact absurd rfl hne
    | cons => simp
  | cons x a ih =>
    cases b with
    | nil => simp at h
    | cons y b =>
      rw [List.cons_lt_cons_iff] at h ⊢
      by_cases h1 : x < y
      · exact .inl h1
      · right
        have hxy : x = y := by
          by_cases h2 : y < x
          · exact absurd (.inl h2) h
          · omega
        subst hxy
        exact ⟨rfl, ih b (fun h' => h (.inr ⟨rfl, h'⟩)) (fun e => hne (by rw [e]))⟩

theorem str_lt_trans {a b c : Str} (h1 : a < b) (h2 : b < c) : a < c := List.lt_trans h1 h2

theorem insertStr_mem (x y : Str) (l : List Str) : y ∈ insertStr x l ↔ y = x ∨ y ∈ l := by
  induction l with
  | nil => simp [insertStr]
  | cons z l ih =>
    rw [insertStr]
    split
    · simp
    · simp only [List.mem_cons, ih]
      constructor
      · rintro (h | h | h) <;> simp [h]
      · rintro (h | h | h) <;> simp [h]

theorem sortStr_mem (y : Str) (l : List Str) : y ∈ sortStr l ↔ y ∈ l := by
  unfold sortStr
  induction l with
  | nil => simp
  | cons z l ih => rw [List.foldr_cons, insertStr_mem, ih, List.mem_cons]

theorem insertStr_sorted (x : Str) (l : List Str) (h : l.Pairwise (· < ·)) (hx : x ∉ l) :
    (insertStr x l).Pairwise (· < ·) := by
  induction l with
  | nil => simp [insertStr]
  | cons z l ih =>
    have hne : x ≠ z := fun e => hx (by simp [e])
    rw [insertStr]
    split
    · rename_i hle
      have hlt := str_lt_of x z ((strLe_iff x z).1 hle) hne
      refine .cons ?_ h
      intro y hy
      rcases List.mem_cons.1 hy with rfl | hy
      · exact hlt
      · exact str_lt_trans hlt ((List.pairwise_cons.1 h).1 y hy)
    · rename_i hle
      have hlt : z < x := by
        rw [strLe_iff] at hle
        exact Decidable.byContradiction fun hn => hle hn
      refine .cons ?_ (ih (List.pairwise_cons.1 h).2 (fun h' => hx (by simp [h'])))
      intro y hy
      rcases (insertStr_mem x y l).1 hy with rfl | hy
      · exact hlt
      · exact (List.pairwise_cons.1 h).1 y hy

/-- `sorted` of distinct strings is strictly increasing in the lexicographic order of code points. -/
theorem sortStr_sorted (l : List Str) (h : l.Nodup) : (sortStr l).Pairwise (· < ·) := by
  unfold sortStr
  induction l with
  | nil => simp
  | cons z l ih =>
    rw [List.foldr_cons]
    obtain ⟨h1, h2⟩ := List.nodup_cons.1 h
    exact insertStr_sorted z _ (ih h2) (fun h' => h1 ((sortStr_mem z l).1 h'))

/-! ### Results of discover are ordinary datashapes -/

/-- An ordinary datashape: `==` behaves on it. -/
abbrev Plain (t : Ty) : Prop := t.everywhere eqLocal = true

theorem ord_launder {t : Ty} (h : Plain t) : Plain (launderTy t) := by
  unfold launderTy
  split
  · exact everywhere_child h (by simp [Ty.children])
  · exact h

theorem ord_dshape {ps : List Ty} (h : Plain (.dshape ps)) : ∀ p ∈ ps, Plain p := fun _ hp => everywhere_child h hp

theorem ord_mkDS {ps : List Ty} {r : Ty} (h : mkDS ps = .ok r) (hp : ∀ p ∈ ps, Plain p) : Plain r := by
  rw [mkDS, checkDS_ok] at h
  obtain ⟨dims, m, e, -, h2, rfl⟩ := h
  unfold Plain
  rw [everywhere_children]
  simp only [Bool.and_eq_true, List.all_eq_true, Ty.children, eqLocal]
  constructor
  · rw [e, List.getLast?_concat]
    cases m <;> simp [Ty.cls] at h2 <;> rfl
  · intro p hp'
    obtain ⟨q, hq, rfl⟩ := List.mem_map.1 hp'
    exact ord_launder (hp q hq)

theorem ord_asParams {t : Ty} (h : Plain t) : ∀ p ∈ asParams t, Plain p := by
  intro p hp
  cases t <;> simp only [asParams, List.mem_singleton] at hp
  case dshape ps => exact ord_dshape h p hp
  all_goals (subst hp; exact h)

theorem ord_mul_int {n : Nat} {t r : Ty} (h : mul (.int n) (.ty t) = .ok r) (ht : Plain t) : Plain r := by
  rw [mul_int_eq] at h
  refine ord_mkDS h fun p hp => ?_
  rcases List.mem_cons.1 hp with rfl | hp
  · rfl
  · exact ord_asParams ht p hp

theorem mul_ty_eq (d t : Ty) (hd : d.isDShape = false) : mul (.ty d) (.ty t) = mkDS (d :: asParams t) := by
  cases t <;> rfl

theorem ord_mul_ty {d t r : Ty} (h : mul (.ty d) (.ty t) = .ok r) (hd : Plain d) (ht : Plain t) : Plain r := by
  have : mul (.ty d) (.ty t) = mkDS (d :: asParams t) := by cases t <;> rfl
  rw [this] at h
  refine ord_mkDS h fun p hp => ?_
  rcases List.mem_cons.1 hp with rfl | hp
  · exact hd
  · exact ord_asParams ht p hp

theorem ord_subshape {t r : Ty} {i : Int} (h : subshape (.int i) t = .ok r) (ht : Plain t) : Plain r := by
  rw [subshape] at h
  simp only [bind_ok] at h
  obtain ⟨d, hd, h⟩ := h
  have hdd : ∃ ps, t = .dshape (d :: ps) := by
    unfold Ty.head at hd
    split at hd
    · cases hd; exact ⟨_, rfl⟩
    · cases hd
    · cases hd
  obtain ⟨ps, rfl⟩ := hdd
  have hps := ord_dshape ht
  split at h
  · simp only [subarray] at h
    split at h
    · cases h
    · split at h
      · split at h
        · cases h
        · rename_i m hm
          refine ord_mkDS h fun p hp => ?_
          rw [List.mem_singleton.1 hp]
          exact hps _ (List.mem_of_getLast? hm)
      · refine ord_mkDS h fun p hp => hps p ?_
        unfold pyDrop at hp
        split at hp <;> exact List.mem_of_mem_drop hp
  · split at h
    · rename_i fs hfs
      simp only [bind_ok] at h
      obtain ⟨f, hf, h⟩ := h
      cases h
      have hd' : d = .record fs := by
        cases d <;> simp [Ty.fields?] at hfs
        rw [hfs]
      subst hd'
      have hrec : Plain (.record fs) := hps _ (by simp)
      unfold pyGet at hf
      simp only at hf
      have : f ∈ fs := by
        generalize (if i < 0 then (fs.length : Int) + i else i) = j at hf
        split at hf
        · cases hf
        · split at hf
          · rename_i x hx; cases hf; exact List.mem_of_getElem? hx
          · cases hf
      exact everywhere_child hrec (List.mem_map.2 ⟨f, this, rfl⟩)
    · cases h

theorem ord_mkRecord {fs : List (Str × Ty)} {r : Ty} (h : mkRecord fs = .ok r) (hf : ∀ f ∈ fs, Plain f.2) : Plain r := by
  unfold mkRecord at h
  split at h
  · cases h
    unfold Plain
    rw [everywhere_children]
    simp only [Bool.and_eq_true, List.all_eq_true, Ty.children]
    refine ⟨rfl, fun p hp => ?_⟩
    simp only [List.map_map, List.mem_map, Function.comp] at hp
    obtain ⟨f, hm, rfl⟩ := hp
    exact ord_launder (hf f hm)
  · cases h

theorem mapM_mem {α β : Type} {f : α → Except PyErr β} {l : List α} {r : List β} (h : l.mapM f = .ok r) :
    ∀ b ∈ r, ∃ a ∈ l, f a = .ok b := by
  induction l generalizing r with
  | nil => cases h; intro b hb; cases hb
  | cons a l ih =>
    rw [List.mapM_cons] at h
    simp only [bind_ok] at h
    obtain ⟨b, h1, bs, h2, h3⟩ := h
    cases h3
    intro x hx
    rcases List.mem_cons.1 hx with rfl | hx
    · exact ⟨a, by simp, h1⟩
    · obtain ⟨y, hy, e⟩ := ih h2 x hx
      exact ⟨y, by simp [hy], e⟩

theorem mapM_mem' {α β : Type} {f : α → Except PyErr β} {l : List α} {r : List β} (h : l.mapM f = .ok r) :
    ∀ a ∈ l, ∃ b ∈ r, f a = .ok b := by
  induction l generalizing r with
  | nil => intro b hb; cases hb
  | cons a l ih =>
    rw [List.mapM_cons] at h
    simp only [bind_ok] at h
    obtain ⟨b, h1, bs, h2, h3⟩ := h
    cases h3
    intro x hx
    rcases List.mem_cons.1 hx with rfl | hx
    · exact ⟨b, by simp, h1⟩
    · obtain ⟨y, hy, e⟩ := ih h2 x hx
      exact ⟨y, by simp [hy], e⟩

theorem mapM_error {α β : Type} {f : α → Except PyErr β} {l : List α} {e : PyErr} (h : l.mapM f = .error e) :
    ∃ a ∈ l, f a = .error e := by
  induction l with
  | nil => cases h
  | cons a l ih =>
    rw [List.mapM_cons] at h
    cases ha : f a with
    | error e' =>
      rw [ha] at h
      refine ⟨a, by simp, ?_⟩
      simp only [bind, Except.bind] at h
      rw [ha]; injection h with h; rw [h]
    | ok b =>
      rw [ha] at h
      cases hl : l.mapM f with
      | ok bs => rw [hl] at h; cases h
      | error e' =>
        rw [hl] at h
        obtain ⟨x, hx, e1⟩ := ih (by simpa [bind, Except.bind] using (hl.trans (by simpa [bind, Except.bind] using h)))
        exact ⟨x, by simp [hx], e1⟩

theorem ord_mkTuple {ts : List Ty} {r : Ty} (h : mkTuple ts = .ok r) (hf : ∀ t ∈ ts, Plain t) : Plain r := by
  obtain ⟨us, rfl, hm⟩ := mkTuple_ok h
  unfold Plain
  rw [everywhere_children]
  simp only [Bool.and_eq_true, List.all_eq_true, Ty.children]
  refine ⟨rfl, fun p hp => ?_⟩
  obtain ⟨t, ht, e⟩ := mapM_mem hm p hp
  unfold wrapDS at e
  split at e
  · cases e; exact hf _ ht
  · exact ord_mkDS e fun q hq => by rw [List.mem_singleton.1 hq]; exact hf t ht

/-- `lowest_common_dshape`, when it returns, returns a datashape of the table. -/
theorem lowestCommon_node {topo : List Node} {ts : List Ty} {r : Ty} (h : lowestCommon topo ts = .ok r) : ∃ n : Node, r = n.ty := by
  unfold lowestCommon at h
  simp only [bind_ok] at h
  obtain ⟨sets, -, h⟩ := h
  split at h
  · cases h
  · split at h
    · simp only [bind_ok] at h
      obtain ⟨keyed, hk, h⟩ := h
      split at h
      · cases h
      · rename_i k ks
        cases h
        obtain ⟨x, hx, e, -⟩ := minKey_spec k ks
        rw [e]
        obtain ⟨y, -, hy⟩ := mapM_mem hk x hx
        simp only [bind_ok] at hy
        obtain ⟨j, hj, e⟩ := hy
        injection e with e
        rw [← e]
        unfold topoIndex at hj
        split at hj
        · rename_i n; exact ⟨n, rfl⟩
        · cases hj
    · cases h

/-- The result of `unite_base`: `n` times an optional or plain datashape that is one of the table, a record or null. -/
theorem uniteBase_ok {topo : List Node} {fuel : Nat} {ts : List Ty} {r : Ty} (h : uniteBase topo fuel ts = .ok r)
    (hts : ∀ t ∈ ts, Plain t) :
    ∃ base : Ty, Plain base ∧ ((∃ n : Node, base = n.ty) ∨ ∃ fs, base = .record fs) ∧
      (((ts.map launderTy).all isNull = true ∧ base = .null ∧ mul (.int ts.length) (.ty base) = .ok r) ∨
       ((ts.map launderTy).all isNull = false ∧ (ts.map launderTy).any isNull = true ∧ mul (.int ts.length) (.ty (mkOption base)) = .ok r) ∨
       ((ts.map launderTy).all isNull = false ∧ (ts.map launderTy).any isNull = false ∧ mul (.int ts.length) (.ty base) = .ok r)) := by
  induction fuel generalizing ts r with
  | zero => cases h
  | succ fuel ih =>
    rw [uniteBase] at h
    simp only at h
    split at h
    · rename_i hg
      refine ⟨.null, rfl, .inl ⟨.null, rfl⟩, .inl ⟨?_, rfl, by simpa using h⟩⟩
      rw [List.all_eq_true]
      intro x hx
      rw [List.filter_eq_nil_iff] at hg
      simpa using hg x hx
    · rename_i g good hgood
      simp only [bind_ok] at h
      obtain ⟨base, hb, h⟩ := h
      have hall : (ts.map launderTy).all isNull = false := by
        have : g ∈ (ts.map launderTy).filter fun t => !isNull t := by rw [hgood]; simp
        obtain ⟨h1, h2⟩ := List.mem_filter.1 this
        rw [List.all_eq_false]
        exact ⟨g, h1, by simpa using h2⟩
      have hordg : ∀ x ∈ (ts.map launderTy).filter (fun t => !isNull t), Plain x := by
        intro x hx
        obtain ⟨y, hy, rfl⟩ := List.mem_map.1 (List.mem_filter.1 hx).1
        exact ord_launder (hts y hy)
      have hbase : Plain base ∧ ((∃ n : Node, base = n.ty) ∨ ∃ fs, base = .record fs) := by
        split at hb
        · obtain ⟨n, rfl⟩ := lowestCommon_node hb
          exact ⟨node_everywhere n, .inl ⟨n, rfl⟩⟩
        · simp only [bind_ok] at hb
          obtain ⟨names, -, fields, hf, hb⟩ := hb
          refine ⟨ord_mkRecord hb fun f hfm => ?_, .inr ?_⟩
          · obtain ⟨name, -, hn⟩ := mapM_mem hf f hfm
            simp only [bind_ok] at hn
            obtain ⟨col, hc, u, hu, t, ht, e⟩ := hn
            cases e
            have hcol : ∀ c ∈ col, Plain c := by
              intro c hcm
              obtain ⟨x, hx, hd⟩ := mapM_mem hc c hcm
              have hxo := hordg x hx
              cases x <;> simp only [dictGet] at hd <;> try cases hd
              rename_i fs
              cases hl : fs.reverse.lookup name with
              | none => rfl
              | some y =>
                have := lookup_mem hl
                exact everywhere_child hxo (List.mem_map.2 ⟨(name, y), by simpa using this, rfl⟩)
            obtain ⟨b, hbo, -, hcases⟩ := ih hu hcol
            refine ord_subshape ht ?_
            rcases hcases with ⟨-, -, hm⟩ | ⟨-, -, hm⟩ | ⟨-, -, hm⟩
            · exact ord_mul_int hm hbo
            · refine ord_mul_int hm ?_
              unfold Plain
              rw [mkOption, everywhere_children]
              simp only [Bool.and_eq_true, List.all_eq_true, Ty.children]
              exact ⟨rfl, fun p hp => by rw [List.mem_singleton.1 hp]; exact ord_launder hbo⟩
            · exact ord_mul_int hm hbo
          · unfold mkRecord at hb
            split at hb
            · cases hb; exact ⟨_, rfl⟩
            · cases hb
      refine ⟨base, hbase.1, hbase.2, ?_⟩
      cases hany : (ts.map launderTy).any isNull with
      | true => rw [hany] at h; exact .inr (.inl ⟨hall, rfl, by simpa using h⟩)
      | false => rw [hany] at h; exact .inr (.inr ⟨hall, rfl, by simpa using h⟩)


theorem plain_option {t : Ty} (h : Plain t) : Plain (mkOption t) := by
  unfold Plain
  rw [mkOption, everywhere_children]
  simp only [Bool.and_eq_true, List.all_eq_true, Ty.children]
  exact ⟨rfl, fun p hp => by rw [List.mem_singleton.1 hp]; exact ord_launder h⟩

theorem plain_uniteBase {topo : List Node} {fuel : Nat} {ts : List Ty} {r : Ty} (h : uniteBase topo fuel ts = .ok r)
    (hts : ∀ t ∈ ts, Plain t) : Plain r := by
  obtain ⟨b, hb, -, hc⟩ := uniteBase_ok h hts
  rcases hc with ⟨-, -, hm⟩ | ⟨-, -, hm⟩ | ⟨-, -, hm⟩
  · exact ord_mul_int hm hb
  · exact ord_mul_int hm (plain_option hb)
  · exact ord_mul_int hm hb

theorem plain_uniteIdentical {ts : List Ty} {r : Ty} (h : uniteIdentical ts = .ok (some r))
    (hts : ∀ t ∈ ts, Plain t) : Plain r := by
  obtain ⟨-, t, us, e, hm⟩ := uniteIdentical_some h
  exact ord_mul_int hm (hts t (by rw [e]; simp))

theorem plain_uniteFull {topo : List Node} {ts : List Ty} {r : Ty} (h : uniteFull topo ts = .ok r)
    (hts : ∀ t ∈ ts, Plain t) : Plain r := by
  unfold uniteFull at h
  simp only [bind_ok] at h
  obtain ⟨u, h1, h⟩ := h
  cases u with
  | some t => cases h; exact plain_uniteIdentical h1 hts
  | none => exact plain_uniteBase h hts

theorem plain_head {t d : Ty} (h : t.head = .ok d) (ht : Plain t) : Plain d := by
  unfold Ty.head at h
  split at h
  · cases h; exact ord_dshape ht _ (by simp)
  · cases h
  · cases h

theorem plain_uniteMerge {ts : List Ty} {r : Ty} (h : uniteMerge ts = .ok (some r)) (hts : ∀ t ∈ ts, Plain t) : Plain r := by
  unfold uniteMerge at h
  split at h
  · simp only [bind_ok] at h
    obtain ⟨dims, hd, subs, hs, u, hu, h⟩ := h
    have hsub : ∀ t ∈ subs, Plain t := by
      intro t ht
      obtain ⟨x, hx, e⟩ := mapM_mem hs t ht
      exact ord_subshape e (hts x hx)
    have hdim : ∀ t ∈ dims, Plain t := by
      intro t ht
      obtain ⟨x, hx, e⟩ := mapM_mem hd t ht
      exact plain_head e (hts x hx)
    cases u with
    | none => cases h
    | some base =>
      simp only [bind_ok] at h
      obtain ⟨inner, hi, row, hr, r', h1, h⟩ := h
      cases h
      refine ord_mul_int h1 (ord_mul_ty hr ?_ (ord_subshape hi (plain_uniteIdentical hu hsub)))
      split
      · cases dims with
        | nil => rfl
        | cons d ds => exact hdim d (by simp)
      · rfl
  · cases h

theorem plain_uniteTuple {ts : List Ty} {r : Ty} (h : uniteTuple ts = .ok r) (hts : ∀ t ∈ ts, Plain t) : Plain r := by
  unfold uniteTuple at h
  simp only [bind_ok] at h
  obtain ⟨u, h1, h⟩ := h
  cases u with
  | some t => cases h; exact plain_uniteIdentical h1 hts
  | none =>
    simp only [bind_ok] at h
    obtain ⟨v, h2, h⟩ := h
    cases v with
    | some t => cases h; exact plain_uniteMerge h2 hts
    | none => exact ord_mkTuple h hts

theorem plain_columnType {topo : List Node} {c : List (Except PyErr Ty)} {r : Ty} (h : columnType topo c = .ok r)
    (hc : ∀ t, .ok t ∈ c → Plain t) : Plain r := by
  unfold columnType column at h
  simp only [bind_ok] at h
  obtain ⟨ts, h1, u, h2, h3⟩ := h
  refine ord_subshape h3 (plain_uniteFull h2 fun t ht => ?_)
  obtain ⟨x, hx, e⟩ := mapM_mem h1 t ht
  simp only [id] at e
  exact hc t (e ▸ hx)

/-- what is known about an item consists of ordinary datashapes -/
structure Item.Plain (i : Item) : Prop where
  self : ∀ t, i.self = .ok t → DS.Plain t
  elems : ∀ l, i.elems = some l → ∀ t, .ok t ∈ l → DS.Plain t
  entries : ∀ l, i.entries = some l → ∀ k t, (k, .ok t) ∈ l → DS.Plain t

theorem recordOf_ok {es : List (Str × Except PyErr Ty)} {r : Ty} (h : recordOf es = .ok r) :
    ∃ fs, r = .record fs ∧ (fs.map (·.1)) = es.map (·.1) ∧ (fs.map (·.1)).Nodup ∧
      (∀ f ∈ fs, ∃ t, (f.1, .ok t) ∈ es ∧ f.2 = launderTy t) ∧ ∀ e ∈ es, ∃ t, e.2 = .ok t ∧ (e.1, launderTy t) ∈ fs := by
  unfold recordOf at h
  simp only [bind_ok] at h
  obtain ⟨fs, h1, h⟩ := h
  have hnames : fs.map (·.1) = es.map (·.1) := by
    clear h
    induction es generalizing fs with
    | nil => cases h1; rfl
    | cons e es ih =>
      rw [List.mapM_cons] at h1
      simp only [bind_ok] at h1
      obtain ⟨b, ⟨t, -, hb⟩, bs, h2, h3⟩ := h1
      cases h3
      cases hb
      simp [ih bs h2]
  unfold mkRecord at h
  split at h
  · rename_i hnd
    cases h
    refine ⟨_, rfl, by simp [← hnames], by simpa [List.map_map, Function.comp_def] using hnd, ?_, ?_⟩
    · intro f hf
      obtain ⟨g, hg, rfl⟩ := List.mem_map.1 hf
      obtain ⟨e, he, h2⟩ := mapM_mem h1 g hg
      simp only [bind_ok] at h2
      obtain ⟨t, ht, hgt⟩ := h2
      cases hgt
      exact ⟨t, by rw [← ht]; exact he, rfl⟩
    · intro e he
      obtain ⟨g, hg, h2⟩ := mapM_mem' h1 e he
      simp only [bind_ok] at h2
      obtain ⟨t, ht, hgt⟩ := h2
      cases hgt
      exact ⟨t, ht, List.mem_map.2 ⟨_, hg, rfl⟩⟩
  · cases h

theorem plain_recordOf {es : List (Str × Except PyErr Ty)} {r : Ty} (h : recordOf es = .ok r)
    (he : ∀ k t, (k, .ok t) ∈ es → Plain t) : Plain r := by
  obtain ⟨fs, rfl, -, -, h1, -⟩ := recordOf_ok h
  unfold Plain
  rw [everywhere_children]
  simp only [Bool.and_eq_true, List.all_eq_true, Ty.children]
  refine ⟨rfl, fun p hp => ?_⟩
  obtain ⟨f, hf, rfl⟩ := List.mem_map.1 hp
  obtain ⟨t, ht, e⟩ := h1 f hf
  rw [e]
  exact ord_launder (he _ _ ht)

theorem plain_discoverMap {es : List (Str × Except PyErr Ty)} {r : Ty} (h : discoverMap es = .ok r)
    (he : ∀ k t, (k, .ok t) ∈ es → Plain t) : Plain r := by
  refine plain_recordOf h fun k t hkt => ?_
  obtain ⟨k', -, e⟩ := List.mem_map.1 hkt
  injection e with e1 e2
  subst e1
  cases hl : es.lookup k' with
  | none => rw [hl] at e2; cases e2
  | some x =>
    rw [hl] at e2
    simp only [Option.getD_some] at e2
    subst e2
    exact he _ _ (lookup_mem hl)

theorem plain_discoverSeq {topo : List Node} {items : List Item} (hi : ∀ i ∈ items, i.Plain) {r : Ty}
    (h : discoverSeq topo items = .ok r) : Plain r := by
  unfold discoverSeq at h
  split at h
  · cases h; rfl
  rcases orElse_ok h with h | ⟨h, -⟩
  · unfold discoverRows at h
    split at h
    · rename_i r0 rows hr
      split at h
      · injection h with h
        simp only [bind_ok] at h
        obtain ⟨types, h1, u, h2, h3⟩ := h
        refine ord_mul_int h3 (plain_uniteTuple h2 fun t ht => ?_)
        obtain ⟨c, hc, e⟩ := mapM_mem h1 t ht
        refine plain_columnType e fun t' ht' => ?_
        obtain ⟨j, -, rfl⟩ := List.mem_map.1 hc
        obtain ⟨row, hrow, e⟩ := List.mem_map.1 ht'
        obtain ⟨i, him, hel⟩ := mapM_some_mem hr row hrow
        cases hj : row[j]? with
        | none => rw [hj] at e; cases e
        | some y =>
          rw [hj] at e
          simp only [Option.getD_some] at e
          subst e
          exact (hi i him).elems _ hel _ (List.mem_of_getElem? hj)
      · cases h
    · cases h
  rcases orElse_ok h with h | ⟨h, -⟩
  · unfold discoverDicts at h
    split at h
    · rename_i rows hr
      injection h with h
      simp only [bind_ok] at h
      obtain ⟨types, h1, u, h2, h3⟩ := h
      refine ord_mul_int h3 (ord_mkRecord h2 fun f hf => ?_)
      have ht : f.2 ∈ types := List.of_mem_zip (a := f.1) (b := f.2) hf |>.2
      obtain ⟨c, hc, e⟩ := mapM_mem h1 _ ht
      refine plain_columnType e fun t' ht' => ?_
      obtain ⟨k, -, rfl⟩ := List.mem_map.1 hc
      obtain ⟨row, hrow, e⟩ := List.mem_map.1 ht'
      obtain ⟨i, him, hel⟩ := mapM_some_mem hr row hrow
      cases hj : row.lookup k with
      | none => rw [hj] at e; injection e with e; subst e; rfl
      | some y =>
        rw [hj] at e
        simp only [Option.getD_some] at e
        subst e
        exact (hi i him).entries _ hel _ _ (lookup_mem hj)
    · cases h
  · unfold discoverRest at h
    simp only [bind_ok] at h
    obtain ⟨types, h1, h2⟩ := h
    refine plain_uniteTuple h2 fun t ht => ?_
    obtain ⟨i, him, e⟩ := mapM_mem h1 t ht
    exact (hi i him).self t e

/-- The external part: discovering a non-empty string gives a scalar type that is not null (the code returns int64,
float64, bool, a timedelta, time, date, datetime or string). -/
def StrScalar (strTy : Str → Except PyErr Ty) : Prop :=
  ∀ s t, strTy s = .ok t → t.isUnit = true ∧ t.cls = some .measure ∧ t.everywhere eqLocal = true

/-- Such an external function exists: strings that look like nothing else. -/
theorem strScalar_example : StrScalar fun _ => .ok tString := by
  intro s t h
  cases h
  exact ⟨rfl, rfl, rfl⟩

theorem plain_withShape {sh : List Int} {m r : Ty} (h : withShape sh m = .ok r) (hm : Plain m) : Plain r := by
  unfold withShape at h
  split at h
  · cases h; exact hm
  · simp only [bind_ok] at h
    obtain ⟨dims, h1, h2⟩ := h
    refine ord_mkDS h2 fun p hp => ?_
    rcases List.mem_append.1 hp with hp | hp
    · obtain ⟨i, -, e⟩ := mapM_mem h1 p hp
      unfold mkFixed at e
      split at e
      · cases e
      · cases e; rfl
    · simp only [List.mem_singleton] at hp; subst hp; exact hm

theorem plain_fromDtype {d : DType} {m : Ty} (h : fromDtype d = .ok m) : Plain m := by
  unfold fromDtype at h
  split at h
  · cases h; cases ‹Prim› <;> rfl
  · split at h <;> cases h <;> rfl
  · unfold mkTimeDelta at h; split at h <;> cases h; rfl
  · unfold mkString at h; simp only at h; split at h <;> cases h; rfl
  · split at h
    · cases h; rfl
    · unfold mkString at h; simp only at h; split at h <;> cases h; rfl
  · cases h; rfl
  · split at h <;> cases h
    rfl

theorem plain_fromNumpy (d : DType) : ∀ sh r, fromNumpy d sh = .ok r → Plain r := by
  refine DType.rec (motive_1 := fun d => ∀ sh r, fromNumpy d sh = .ok r → Plain r)
    (motive_2 := fun l => ∀ r, fromNumpyF l = .ok r → ∀ f ∈ r, Plain f.2)
    (motive_3 := fun x => ∀ sh r, fromNumpy x.2.2 sh = .ok r → Plain r)
    (motive_4 := fun x => ∀ sh r, fromNumpy x.2 sh = .ok r → Plain r)
    ?_ ?_ ?_ ?_ ?_ ?_ ?_ ?_ ?_ ?_ d
  · intro p sh r h; rw [fromNumpy] at h
    · simp only [bind_ok] at h; obtain ⟨m, h1, h2⟩ := h; exact plain_withShape h2 (plain_fromDtype h1)
    all_goals simp
  · intro p sh r h; rw [fromNumpy] at h
    · simp only [bind_ok] at h; obtain ⟨m, h1, h2⟩ := h; exact plain_withShape h2 (plain_fromDtype h1)
    all_goals simp
  · intro p sh r h; rw [fromNumpy] at h
    · simp only [bind_ok] at h; obtain ⟨m, h1, h2⟩ := h; exact plain_withShape h2 (plain_fromDtype h1)
    all_goals simp
  · intro n sh r h; rw [fromNumpy] at h
    simp only [bind_ok] at h; obtain ⟨m, h1, h2⟩ := h
    refine plain_withShape h2 ?_
    unfold mkString at h1; simp only at h1; split at h1 <;> cases h1; rfl
  · intro n sh r h; rw [fromNumpy] at h
    simp only [bind_ok] at h; obtain ⟨m, h1, h2⟩ := h
    refine plain_withShape h2 ?_
    unfold mkString at h1; simp only at h1; split at h1 <;> cases h1; rfl
  · intro l hl sh r h
    cases l with
    | nil =>
      rw [fromNumpy] at h
      · simp only [bind_ok] at h; obtain ⟨m, h1, h2⟩ := h; exact plain_withShape h2 (plain_fromDtype h1)
      all_goals simp
    | cons f l =>
      rw [fromNumpy] at h
      simp only [bind_ok] at h
      obtain ⟨fs, h1, m, h2, h3⟩ := h
      exact plain_withShape h3 (ord_mkRecord h2 (hl fs h1))
  · intro r h f hf
    rw [fromNumpyF] at h
    cases h; cases hf
  · intro x l hx hl r h f hf
    obtain ⟨n, sh, d⟩ := x
    rw [fromNumpyF] at h
    simp only [bind_ok] at h
    obtain ⟨t, h1, rest, h2, h3⟩ := h
    cases h3
    rcases List.mem_cons.1 hf with e | hf
    · subst e; exact hx _ _ h1
    · exact hl _ h2 f hf
  · intro n x hx; exact hx
  · intro sh d hd; exact hd

/-- the measure of a dtype is neither null nor an option -/
theorem fromNumpy_kind {d : DType} {m : Ty} (h : fromNumpy d [] = .ok m) :
    m.isDShape = false ∧ m.cls ≠ some .dimension ∧ m ≠ .null ∧ launderTy m = m ∧ m.isOption = false := by
  obtain ⟨h1, h2, -, -, h5⟩ := fromNumpy_measure h
  have key : m ≠ .null ∧ m.isOption = false := by
    have hw : ∀ x : Except PyErr Ty, (do withShape [] (← x)) = .ok m → x = .ok m := by
      intro x hx
      cases x with
      | error e => cases hx
      | ok t => simpa [withShape, bind, Except.bind] using hx
    cases d with
    | struct fs =>
      cases fs with
      | nil => cases hw _ h; exact ⟨by simp [tVoid], rfl⟩
      | cons f fs =>
        simp only [fromNumpy, bind_ok] at h
        obtain ⟨r, _, m', hm', h⟩ := h
        simp only [withShape, List.isEmpty_nil, if_true] at h
        injection h with h
        subst h
        unfold mkRecord at hm'
        split at hm'
        · injection hm' with hm'; subst hm'; exact ⟨by simp, rfl⟩
        · cases hm'
    | bytes n => obtain ⟨c, rfl⟩ := mkString_form (hw _ h); exact ⟨by simp, rfl⟩
    | str n => obtain ⟨c, rfl⟩ := mkString_form (hw _ h); exact ⟨by simp, rfl⟩
    | prim p => have := hw _ h; simp only [fromDtype] at this; cases this; cases p <;> exact ⟨Ty.noConfusion, rfl⟩
    | datetime u =>
      have := hw _ h
      simp only [fromDtype] at this
      split at this <;> cases this <;> exact ⟨by simp, rfl⟩
    | timedelta u =>
      have := hw _ h
      simp only [fromDtype, mkTimeDelta] at this
      split at this
      · cases this; exact ⟨by simp, rfl⟩
      · cases this
  exact ⟨h1, h2, key.1, h5, key.2⟩

theorem plain_discoverArray {a : NdArray} {m r : Ty} (hm : fromNumpy a.dtype [] = .ok m) (h : discoverArray a = .ok r) :
    Plain r ∧ r.isOption = false ∧ r ≠ .null ∧ (a.shape ≠ [] → r.isSingleton = false) := by
  have hp := plain_fromNumpy _ _ _ hm
  obtain ⟨-, -, hn, -, hso⟩ := fromNumpy_kind hm
  have happ : ∀ x, Plain x → ∀ p ∈ a.shape.map Ty.fixed ++ [x], Plain p := by
    intro x hx p hp
    rcases List.mem_append.1 hp with hp | hp
    · obtain ⟨n, -, rfl⟩ := List.mem_map.1 hp; rfl
    · simp only [List.mem_singleton] at hp; subst hp; exact hx
  have hds : ∀ x, Plain x → launderTy x = x → x.cls ≠ some .dimension → r = .dshape (a.shape.map Ty.fixed ++ [x]) →
      Plain r ∧ r.isOption = false ∧ r ≠ .null ∧ (a.shape ≠ [] → r.isSingleton = false) := by
    intro x hx hl hc e
    refine ⟨?_, by subst e; rfl, by subst e; simp, fun hne => ?_⟩
    · rw [e]; exact ord_mkDS (mkDS_fixed a.shape x hl hc) (happ x hx)
    · subst e
      obtain ⟨n, ns, e⟩ := List.exists_cons_of_ne_nil hne
      rw [e]
      cases ns <;> rfl
  have hnd : r = ndDatashape a.shape m → _ := fun e => show Plain r ∧ r.isOption = false ∧ r ≠ .null ∧ (a.shape ≠ [] → r.isSingleton = false) from by
    obtain ⟨-, hc, -, -, hl⟩ := fromNumpy_measure hm
    by_cases hsh : a.shape = []
    · rw [ndDatashape, if_pos hsh] at e
      subst e
      exact ⟨hp, hso, hn, fun h => absurd hsh h⟩
    · rw [ndDatashape, if_neg hsh] at e
      exact hds m hp hl hc e
  rw [discoverArray_eq hm] at h
  split at h
  · cases h; exact hds tString rfl rfl (by simp [Ty.cls, tString]) rfl
  · unfold NdArray.finish at h
    split at h
    · rename_i fs
      split at h
      · simp only [bind_ok] at h
        obtain ⟨m, h3, h4⟩ := h
        have hpm : Plain m := ord_mkRecord h3 fun f hf => by
          obtain ⟨g, hg, rfl⟩ := List.mem_map.1 hf
          unfold NdArray.field
          simp only
          split
          · rfl
          · exact everywhere_child hp (by simp only [Ty.children, List.mem_map]; exact ⟨g, hg, rfl⟩)
        obtain ⟨gs, rfl⟩ : ∃ gs, m = .record gs := by
          unfold mkRecord at h3
          split at h3
          · cases h3; exact ⟨_, rfl⟩
          · cases h3
        rw [mkDS_fixed a.shape _ rfl (by simp [Ty.cls])] at h4
        injection h4 with h4
        exact hds _ hpm rfl (by simp [Ty.cls]) h4.symm
      · injection h with h; exact hnd h.symm
    · injection h with h; exact hnd h.symm

/-- if `discover` of an array returns, so does `from_numpy` of its dtype -/
theorem discoverArray_measure {a : NdArray} {r : Ty} (h : discoverArray a = .ok r) : ∃ m, fromNumpy a.dtype [] = .ok m := by
  unfold discoverArray at h
  simp only [bind_ok] at h
  obtain ⟨ds, h1, -⟩ := h
  rw [fromNumpy_shape] at h1
  simp only [bind_ok] at h1
  obtain ⟨m, h1, -⟩ := h1
  exact ⟨m, h1⟩

theorem arrayLike_result {sh : List Nat} {d : DType} {r : Ty} (h : discoverArrayLike sh d = .ok r) :
    r.isSingleton = false ∧ r.isOption = false ∧ r ≠ .null := by
  unfold discoverArrayLike at h
  have h0 := h
  rw [fromNumpy_shape] at h0
  simp only [bind_ok] at h0
  obtain ⟨m, h1, -⟩ := h0
  rw [fromNumpy_dims h1] at h
  injection h with h
  obtain ⟨h2, -, h3, h4⟩ := fromNumpy_kind h1
  split at h
  · subst h; exact ⟨by cases m <;> first | rfl | (cases h2), h4.2, h3⟩
  · rename_i hne
    subst h
    obtain ⟨n, ns, rfl⟩ := List.exists_cons_of_ne_nil hne
    exact ⟨by cases ns <;> rfl, rfl, by simp⟩

theorem discoverItem_plain {strTy : Str → Except PyErr Ty} (hs : StrScalar strTy) (topo : List Node) (v : PyObj) :
    (discoverItem strTy topo v).Plain := by
  have hentries : ∀ l : List (Str × PyObj), (∀ e ∈ l, (discoverItem strTy topo e.2).Plain) →
      ∀ k t, (k, Except.ok t) ∈ l.map (fun kv => (kv.1, discover strTy topo kv.2)) → Plain t := by
    intro l ih k t h
    obtain ⟨kv, h1, e⟩ := List.mem_map.1 h
    injection e with e1 e2
    exact (ih kv h1).self t e2
  induction v using PyObj.ind with
  | atom v hv =>
    have hself : ∀ (x : Except PyErr Ty), (∀ t, x = .ok t → Plain t) → Item.Plain ⟨x, none, none⟩ :=
      fun x hx => ⟨hx, by intro l h; (injection h), by intro l h; (injection h)⟩
    cases v <;> (try (simp [PyObj.isAtom] at hv)) <;> simp only [discoverItem] <;> apply hself
    case str s =>
      intro t h
      split at h
      · cases h; rfl
      · exact (hs s t h).2.2
    case array a =>
      intro t h
      obtain ⟨m, hm⟩ := discoverArray_measure (item_ok h).1
      exact (plain_discoverArray hm (item_ok h).1).1
    case arrayLike sh d => exact fun t h => plain_fromNumpy _ _ _ h
    case npScalar d => exact fun t h => plain_fromNumpy _ _ _ h
    all_goals (intro t h; cases h <;> rfl)
  | seq k l ih =>
    rw [discoverItem, discoverItems_eq]
    have hi : ∀ i ∈ l.map (discoverItem strTy topo), i.Plain := by
      intro i hi
      obtain ⟨v, hv, rfl⟩ := List.mem_map.1 hi
      exact ih v hv
    refine ⟨fun t h => plain_discoverSeq hi h, ?_, by intro l h; injection h⟩
    intro es he t ht
    simp only at he
    split at he
    · cases he
    · injection he with he
      rw [← he] at ht
      obtain ⟨i, h1, e⟩ := List.mem_map.1 ht
      exact (hi i h1).self t e
  | dict l ih =>
    rw [discoverItem, discoverEntries_eq]
    exact ⟨fun t h => plain_discoverMap h (hentries l ih), by intro l h; injection h,
      by intro l h; injection h with h; rw [← h]; exact hentries _ ih⟩
  | od l ih =>
    rw [discoverItem, discoverEntries_eq]
    exact ⟨fun t h => plain_recordOf h (hentries l ih), by intro l h; injection h,
      by intro l h; injection h with h; rw [← h]; exact hentries _ ih⟩
  | mp l ih =>
    rw [discoverItem, discoverEntries_eq]
    exact ⟨fun t h => plain_discoverMap h (hentries l ih), by intro l h; injection h, by intro l h; injection h⟩

/-- `None` and the empty string: the values that discover to null. -/
def NullValue (v : PyObj) : Prop := v = .none ∨ v = .str []

/-- Every result of `discover` is an ordinary datashape, not a redundant wrapper, not optional, and null only for null
values. -/
theorem discover_result {strTy : Str → Except PyErr Ty} (hs : StrScalar strTy) (topo : List Node) (v : PyObj) (t : Ty)
    (h : discover strTy topo v = .ok t) :
    Plain t ∧ t.isSingleton = false ∧ t.isOption = false ∧ (t = .null ↔ NullValue v) := by
  refine ⟨(discoverItem_plain hs topo v).self t h, ?_⟩
  cases v with
  | str s =>
    rw [discover, discoverItem] at h
    simp only at h
    split at h
    · rename_i he
      cases h
      exact ⟨rfl, rfl, by simp [NullValue]; simpa using he⟩
    · rename_i he
      obtain ⟨h1, h2, -⟩ := hs s t h
      have hne : s ≠ [] := by simpa using he
      cases t <;> simp [Ty.isUnit] at h1 <;> simp [Ty.cls] at h2 <;> simp [Ty.isSingleton, Ty.isOption, NullValue, hne]
  | seq k l =>
    have hnn : ¬ NullValue (.seq k l) := by simp [NullValue]
    by_cases hl : l = []
    · subst hl
      rw [C24.empty] at h
      cases h
      simp [Ty.isSingleton, Ty.isOption, hnn]
    · rcases C24.length strTy topo k l hl t h with ⟨ps, hps, rfl⟩ | ⟨ts, rfl, -⟩
      · obtain ⟨p, ps', rfl⟩ := List.exists_cons_of_ne_nil hps
        simp [Ty.isSingleton, Ty.isOption, hnn]
      · simp [Ty.isSingleton, Ty.isOption, hnn]
  | dict l =>
    rw [discover, discoverItem] at h
    obtain ⟨fs, rfl, -⟩ := recordOf_ok (es := _) h
    simp [Ty.isSingleton, Ty.isOption, NullValue]
  | od l =>
    rw [discover, discoverItem] at h
    obtain ⟨fs, rfl, -⟩ := recordOf_ok (es := _) h
    simp [Ty.isSingleton, Ty.isOption, NullValue]
  | mp l =>
    rw [discover, discoverItem] at h
    obtain ⟨fs, rfl, -⟩ := recordOf_ok (es := _) h
    simp [Ty.isSingleton, Ty.isOption, NullValue]
  | other => cases h
  | array a =>
    rw [discover, discoverItem] at h
    simp only at h
    obtain ⟨h, hs1⟩ := item_ok h
    obtain ⟨m, hm⟩ := discoverArray_measure h
    obtain ⟨-, h1, h2, -⟩ := plain_discoverArray hm h
    exact ⟨hs1, h1, by simp [NullValue, h2]⟩
  | npScalar d =>
    obtain ⟨h1, h2, h3⟩ := arrayLike_result (sh := []) h
    exact ⟨h1, h2, by simp [NullValue, h3]⟩
  | arrayLike sh d =>
    obtain ⟨h1, h2, h3⟩ := arrayLike_result h
    exact ⟨h1, h2, by simp [NullValue, h3]⟩
  | _ => cases h <;> simp [Ty.isSingleton, Ty.isOption, NullValue, tInt64, tFloat64, tBool, tComplex128, tTimedelta]


/-- **C47.** An array is discovered the same way inside other values, except that the model leaves out the arrays without a
dimension of Python objects that are strings, or with a field of them. -/
theorem C47.inside (strTy : Str → Except PyErr Ty) (topo : List Node) (a : NdArray) (m : Ty) (hm : fromNumpy a.dtype [] = .ok m) :
    (a.shape ≠ [] ∨ (pyEq m tObject = true → ¬ FirstFiveStrings a.isStr) ∧ (∀ fs, m = .record fs → ∀ f ∈ fs, pyEq f.2 tObject = false) →
      discover strTy topo (.array a) = discoverArray a) ∧
    ((∃ t, discover strTy topo (.array a) = .ok t) ∨ discover strTy topo (.array a) = .error .unmodelled) := by
  obtain ⟨t, ht, -⟩ := C47.total a m hm
  constructor
  · intro h
    rw [discover, discoverItem]
    simp only
    refine (item_of ht ?_).trans ht.symm
    by_cases hsh : a.shape = []
    · obtain ⟨h1, h2⟩ := h.resolve_left (fun h => h hsh)
      have : t = m := by
        rw [discoverArray_eq hm] at ht
        rw [if_neg] at ht
        · unfold NdArray.finish at ht
          split at ht
          · rename_i fs
            rw [if_neg] at ht
            · cases ht; simp [ndDatashape, hsh]
            · simp only [List.any_eq_true, not_exists, not_and]
              intro f hf
              simp [h2 fs rfl f hf]
          · cases ht; simp [ndDatashape, hsh]
        · simp only [Bool.and_eq_true, not_and]
          intro ho
          have := h1 ho
          rw [← isStringArray_iff] at this
          simpa using this
      subst this
      have hd := (fromNumpy_kind hm).1
      cases t <;> first | rfl | simp [Ty.isDShape] at hd
    · exact (plain_discoverArray hm ht).2.2.2 hsh
  · rcases item_cases a with e | ⟨_, e⟩
    · left
      refine ⟨t, ?_⟩
      rw [discover, discoverItem]
      exact e.trans ht
    · right; rw [discover, discoverItem]; exact e

/-- `[np.array(5), np.array(6)]` is a list of two numbers. -/
example (strTy : Str → Except PyErr Ty) (topo : List Node) : discover strTy topo
    (.seq .list [.array ⟨[], .prim .int64, [false], fun _ => []⟩, .array ⟨[], .prim .int64, [false], fun _ => []⟩]) =
      .ok (.dshape [.fixed 2, tInt64]) := rfl

/-! ### Columns -/

theorem pyEq_null {t : Ty} (h : t.isSingleton = false) : pyEq t .null = true ↔ t = .null := by
  constructor
  · intro he
    unfold pyEq at he
    cases t with
    | null => rfl
    | dshape ps =>
      rw [eqM] at he
      rcases ps with _ | ⟨x, _ | ⟨y, r⟩⟩
      · simp [eqLast, Ty.measure] at he
      · simp [Ty.isSingleton] at h
      · simp [eqInit, Ty.shape] at he
    | option x => rw [eqM] at he; simp [Ty.measure] at he
    | _ => simp [eqM, Ty.noShape, Ty.target, Ty.measure, Ty.shape] at he
  · rintro rfl; rfl

theorem isNull_iff {t : Ty} (hs : t.isSingleton = false) : isNull t = true ↔ t = .null := by
  unfold isNull
  rw [Bool.or_eq_true]
  constructor
  · rintro (h | h)
    · exact (pyEq_null hs).1 h
    · unfold pyEq at h
      cases t with
      | null => rfl
      | dshape ps =>
        rw [eqM] at h
        rcases ps with _ | ⟨x, _ | ⟨y, r⟩⟩
        · simp [eqLast, Ty.measure] at h
        · simp [Ty.isSingleton] at hs
        · simp [eqInit, Ty.shape] at h
      | option x => rw [eqM] at h; simp [Ty.measure] at h
      | _ => simp [eqM, Ty.noShape, Ty.target, Ty.measure, Ty.shape] at h
  · rintro rfl; left; rfl

/-- `len(set(dshapes)) == 1`: all are equal. -/
theorem distinct_one {ts : List Ty} (hts : ∀ t ∈ ts, Plain t) : (pyDistinct ts).length = 1 ↔
    ts ≠ [] ∧ ∀ a ∈ ts, ∀ b ∈ ts, pyEq a b = true := by
  constructor
  · intro h
    obtain ⟨d, hd⟩ : ∃ d, pyDistinct ts = [d] := List.length_eq_one_iff.1 h
    refine ⟨by rintro rfl; simp [pyDistinct] at h, fun a ha b hb => ?_⟩
    have hd' : Plain d := hts d (pyDistinct_sub ts d (by rw [hd]; simp))
    obtain ⟨x, hx, ex⟩ := pyDistinct_cover ts hts a ha
    obtain ⟨y, hy, ey⟩ := pyDistinct_cover ts hts b hb
    rw [hd, List.mem_singleton] at hx hy
    subst hx hy
    exact pyEq_trans (hts a ha) hd' (hts b hb) ex (pyEq_symm (hts b hb) hd' ey)
  · rintro ⟨hne, h⟩
    obtain ⟨t, us, rfl⟩ := List.exists_cons_of_ne_nil hne
    obtain ⟨x, hx, -⟩ := pyDistinct_cover _ hts t (by simp)
    have hsub := pyDistinct_sub (t :: us)
    have hp := pyDistinct_pairwise (t :: us)
    revert hx hsub hp
    generalize pyDistinct (t :: us) = l
    intro hx hsub hp
    rcases l with _ | ⟨a, _ | ⟨b, r⟩⟩
    · cases hx
    · rfl
    · have := (List.pairwise_cons.1 hp).1 b (by simp)
      rw [h a (hsub a (by simp)) b (hsub b (by simp))] at this
      cases this

theorem asParams_of {t : Ty} (h : t.isDShape = false) : asParams t = [t] := by
  cases t <;> first | rfl | simp [Ty.isDShape] at h

/-- `(n * t).subshape[0]`: for a measure it is `t` in a wrapper, for an array the array (laundered). -/
theorem sub_mul {n : Nat} {t r u : Ty} (hm : mul (.int n) (.ty t) = .ok r) (h : subshape (.int 0) r = .ok u) :
    u = .dshape (((asParams t).map launderTy).map launderTy) := by
  obtain ⟨rfl, hne⟩ := mul_int_ok hm
  rw [subshape] at h
  simp only [head_dshape, bind, Except.bind] at h
  rw [if_pos (by rfl)] at h
  unfold subarray at h
  simp only at h
  have hlen : ((asParams t).map launderTy) ≠ [] := by simpa using hne
  generalize (asParams t).map launderTy = l at h hlen
  rw [if_neg (by simp; have := List.length_pos_iff.2 hlen; omega)] at h
  split at h
  · rename_i h1
    have : l.length = 1 := by simp at h1; omega
    obtain ⟨x, rfl⟩ := List.length_eq_one_iff.1 this
    simp only [List.getLast?_cons_cons, List.getLast?_singleton] at h
    rw [mkDS, checkDS_ok] at h
    obtain ⟨-, -, -, -, -, rfl⟩ := h
    rfl
  · have : pyDrop (Ty.fixed n :: l) 1 = l := by simp [pyDrop]
    rw [this, mkDS, checkDS_ok] at h
    obtain ⟨-, -, -, -, -, rfl⟩ := h
    rfl

/-- A column type: optional exactly when the column has null and non-null entries. -/
theorem column_option {topo : List Node} {ts : List Ty} {u r : Ty}
    (hts : ∀ t ∈ ts, Plain t ∧ t.isSingleton = false ∧ t.isOption = false)
    (hu : uniteFull topo ts = .ok u) (hr : subshape (.int 0) u = .ok r) :
    (launderTy r).isOption = true ↔ (∃ t ∈ ts, t = .null) ∧ ∃ t ∈ ts, t ≠ .null := by
  have hpl : ∀ t ∈ ts, Plain t := fun t h => (hts t h).1
  have hlaunder : ts.map launderTy = ts := by
    conv => rhs; rw [← List.map_id ts]
    exact List.map_inj_left.2 fun t ht => launderTy_of_not_singleton (hts t ht).2.1
  unfold uniteFull at hu
  simp only [bind_ok] at hu
  obtain ⟨x, h1, h⟩ := hu
  cases x with
  | some t =>
    cases h
    obtain ⟨hd, t0, us, e, hm⟩ := uniteIdentical_some h1
    obtain ⟨-, hall⟩ := (distinct_one hpl).1 hd
    have hl : (launderTy r).isOption = false := by
      rw [sub_mul hm hr]
      obtain ⟨-, hs, ho⟩ := hts t0 (by rw [e]; simp)
      cases hds : t0.isDShape with
      | false =>
        rw [asParams_of hds]
        simp only [List.map_cons, List.map_nil, launderTy_of_not_singleton hs]
        exact ho
      | true =>
        cases t0 <;> simp [Ty.isDShape] at hds
        rename_i ps
        rcases ps with _ | ⟨a, _ | ⟨b, q⟩⟩
        · rfl
        · simp [Ty.isSingleton] at hs
        · rfl
    rw [hl]
    simp only [Bool.false_eq_true, false_iff]
    rintro ⟨⟨a, ha, rfl⟩, b, hb, hbn⟩
    exact hbn ((pyEq_null (hts b hb).2.1).1 (hall b hb _ ha))
  | none =>
    simp only at h
    obtain ⟨base, -, hb, hc⟩ := uniteBase_ok h hpl
    rw [hlaunder] at hc
    have hnull : ts.all isNull = true ↔ ∀ t ∈ ts, t = .null := by
      rw [List.all_eq_true]
      exact ⟨fun h t ht => (isNull_iff (hts t ht).2.1).1 (h t ht), fun h t ht => (isNull_iff (hts t ht).2.1).2 (h t ht)⟩
    have hany : ts.any isNull = true ↔ ∃ t ∈ ts, t = .null := by
      rw [List.any_eq_true]
      exact ⟨fun ⟨t, ht, h⟩ => ⟨t, ht, (isNull_iff (hts t ht).2.1).1 h⟩, fun ⟨t, ht, h⟩ => ⟨t, ht, (isNull_iff (hts t ht).2.1).2 h⟩⟩
    have hbase : base.isDShape = false ∧ base.isSingleton = false ∧ base.isOption = false := by
      rcases hb with ⟨n, rfl⟩ | ⟨fs, rfl⟩
      · cases n <;> exact ⟨rfl, rfl, rfl⟩
      · exact ⟨rfl, rfl, rfl⟩
    have hplain : ∀ b : Ty, b.isDShape = false → b.isSingleton = false → mul (.int ts.length) (.ty b) = .ok u → launderTy r = b := by
      intro b hbd hbs hm
      rw [sub_mul hm hr, asParams_of hbd]
      simp only [List.map_cons, List.map_nil, launderTy_of_not_singleton hbs]
      rfl
    rcases hc with ⟨ha, rfl, hm⟩ | ⟨ha, hn, hm⟩ | ⟨ha, hn, hm⟩
    · rw [hplain _ rfl rfl hm]
      simp only [Ty.isOption, Bool.false_eq_true, false_iff]
      rintro ⟨-, t, ht, hne⟩
      exact hne (hnull.1 ha t ht)
    · rw [hplain (mkOption base) rfl rfl hm]
      refine ⟨fun _ => ⟨hany.1 hn, ?_⟩, fun _ => rfl⟩
      rw [List.all_eq_false] at ha
      obtain ⟨t, ht, hf⟩ := ha
      exact ⟨t, ht, fun e => hf ((isNull_iff (hts t ht).2.1).2 e)⟩
    · rw [hplain base hbase.1 hbase.2.1 hm, hbase.2.2]
      simp only [Bool.false_eq_true, false_iff]
      rintro ⟨h, -⟩
      rw [hany.2 h] at hn
      cases hn

/-! ### C25 -/

/-- the key-value pairs of a dict (or `OrderedDict`) -/
def PyObj.items? : PyObj → Option (List (Str × PyObj))
  | .dict l | .od l => some l
  | _ => Option.none

/-- `v` is a dict or `OrderedDict`: its keys are distinct -/
def IsDict (v : PyObj) : Prop := ∃ l, v.items? = some l ∧ (l.map (·.1)).Nodup

/-- the dict `v` has the key `k` -/
def HasKey (v : PyObj) (k : Str) : Prop := ∃ l, v.items? = some l ∧ k ∈ l.map (·.1)

/-- the dict `v` lacks the key `k`, or holds `None` or the empty string at `k` -/
def NullAt (v : PyObj) (k : Str) : Prop := ∀ l, v.items? = some l → ∀ x, (k, x) ∈ l → NullValue x

theorem mkRecord_ok {fs : List (Str × Ty)} {r : Ty} (h : mkRecord fs = .ok r) :
    (fs.map (·.1)).Nodup ∧ r = .record (fs.map fun f => (f.1, launderTy f.2)) := by
  unfold mkRecord at h
  split at h
  · rename_i hn; cases h; exact ⟨hn, rfl⟩
  · cases h

theorem dict_item {strTy : Str → Except PyErr Ty} {topo : List Node} {v : PyObj} {l : List (Str × PyObj)} (h : v.items? = some l) :
    (discoverItem strTy topo v).elems = none ∧
    (discoverItem strTy topo v).entries = some (l.map fun kv => (kv.1, discover strTy topo kv.2)) := by
  cases v <;> simp [PyObj.items?] at h <;> subst h <;> rw [discoverItem, discoverEntries_eq] <;> exact ⟨rfl, rfl⟩


/-- One row as the code sees it: the row of a dict has its results as entries. -/
theorem rows_entries {strTy : Str → Except PyErr Ty} {topo : List Node} {rows : List PyObj} (hd : ∀ v ∈ rows, IsDict v) :
    ∃ ls : List (List (Str × PyObj)), rows.map PyObj.items? = ls.map some ∧ (∀ l ∈ ls, (l.map (·.1)).Nodup) ∧
      (rows.map (discoverItem strTy topo)).mapM Item.entries =
        some (ls.map fun l => l.map fun kv => (kv.1, discover strTy topo kv.2)) := by
  induction rows with
  | nil => exact ⟨[], rfl, by simp, rfl⟩
  | cons v rows ih =>
    obtain ⟨ls, h1, h2, h3⟩ := ih fun w hw => hd w (by simp [hw])
    obtain ⟨l, hl, hn⟩ := hd v (by simp)
    refine ⟨l :: ls, by simp [hl, h1], ?_, ?_⟩
    · intro l' hl'
      rcases List.mem_cons.1 hl' with rfl | hl'
      · exact hn
      · exact h2 l' hl'
    · rw [List.map_cons, List.mapM_cons, (dict_item hl).2, h3]
      rfl

/-- the entry of one row in the column of key `k` -/
def cell (strTy : Str → Except PyErr Ty) (topo : List Node) (k : Str) (l : List (Str × PyObj)) : Except PyErr Ty :=
  ((l.map fun kv => (kv.1, discover strTy topo kv.2)).lookup k).getD (.ok .null)

theorem lookup_map_snd {α β : Type} (f : α → β) (l : List (Str × α)) (k : Str) :
    (l.map fun kv => (kv.1, f kv.2)).lookup k = (l.lookup k).map f := by
  induction l with
  | nil => rfl
  | cons a l ih =>
    obtain ⟨x, y⟩ := a
    simp only [List.map_cons, List.lookup_cons, ih]
    cases k == x <;> rfl

theorem cell_eq (strTy : Str → Except PyErr Ty) (topo : List Node) (k : Str) (l : List (Str × PyObj)) :
    cell strTy topo k l = match l.lookup k with | some x => discover strTy topo x | none => .ok .null := by
  rw [cell, lookup_map_snd (discover strTy topo)]
  cases l.lookup k <;> rfl

theorem lookup_items {α : Type} {l : List (Str × α)} (hn : (l.map (·.1)).Nodup) (k : Str) (x : α) :
    l.lookup k = some x ↔ (k, x) ∈ l := lookup_nodup hn

/-- a cell that returns: an ordinary datashape, null exactly if the row is null at the key -/
theorem cell_result {strTy : Str → Except PyErr Ty} (hs : StrScalar strTy) {topo : List Node} {k : Str} {l : List (Str × PyObj)}
    (hn : (l.map (·.1)).Nodup) {t : Ty} (h : cell strTy topo k l = .ok t) :
    (Plain t ∧ t.isSingleton = false ∧ t.isOption = false) ∧ (t = .null ↔ ∀ x, (k, x) ∈ l → NullValue x) := by
  rw [cell_eq] at h
  cases hl : l.lookup k with
  | none =>
    rw [hl] at h
    cases h
    refine ⟨⟨rfl, rfl, rfl⟩, fun _ x hx => ?_, fun _ => rfl⟩
    rw [(lookup_items hn k x).2 hx] at hl
    cases hl
  | some x =>
    rw [hl] at h
    obtain ⟨h1, h2, h3, h4⟩ := discover_result hs topo x t h
    refine ⟨⟨h1, h2, h3⟩, h4.trans ⟨fun hx y hy => ?_, fun hx => hx x ((lookup_items hn k x).1 hl)⟩⟩
    rw [(lookup_items hn k y).2 hy] at hl
    cases hl
    exact hx

/-- The type that `discover` gives one row, when it returns: a record with the keys and the types of the values. -/
theorem row_record {strTy : Str → Except PyErr Ty} (hs : StrScalar strTy) {topo : List Node} {v : PyObj} {l : List (Str × PyObj)}
    (hl : v.items? = some l) (hn : (l.map (·.1)).Nodup) {r : Ty} (h : discover strTy topo v = .ok r) :
    ∃ fs, r = .record fs ∧ (fs.map (·.1)).Nodup ∧ (∀ k, k ∈ fs.map (·.1) ↔ k ∈ l.map (·.1)) ∧
      ∀ f ∈ fs, cell strTy topo f.1 l = .ok f.2 := by
  have key : ∀ es : List (Str × Except PyErr Ty), (∀ e ∈ es, e.1 ∈ l.map (·.1) ∧ e.2 = cell strTy topo e.1 l) →
      (∀ k ∈ l.map (·.1), k ∈ es.map (·.1)) → recordOf es = .ok r → ∃ fs, r = .record fs ∧ (fs.map (·.1)).Nodup ∧
      (∀ k, k ∈ fs.map (·.1) ↔ k ∈ l.map (·.1)) ∧ ∀ f ∈ fs, cell strTy topo f.1 l = .ok f.2 := by
    intro es hes hcov h
    obtain ⟨fs, rfl, hnames, hnd, h1, -⟩ := recordOf_ok h
    refine ⟨fs, rfl, hnd, fun k => ?_, fun f hf => ?_⟩
    · rw [hnames]
      constructor
      · intro hk
        obtain ⟨e, he, rfl⟩ := List.mem_map.1 hk
        exact (hes e he).1
      · exact hcov k
    · obtain ⟨t, ht, e⟩ := h1 f hf
      have := (hes _ ht).2
      simp only at this
      have hns := (cell_result hs hn this.symm).1.2.1
      rw [← this, e, launderTy_of_not_singleton hns]
  have hent : ∀ k ∈ l.map (·.1), (l.map fun kv => (kv.1, discover strTy topo kv.2)).lookup k = some (cell strTy topo k l) := by
    intro k hk
    obtain ⟨kv, hkv, rfl⟩ := List.mem_map.1 hk
    rw [cell_eq, lookup_map_snd (discover strTy topo), (lookup_items hn kv.1 kv.2).2 hkv]
    rfl
  have hdict : ∀ (es : List (Str × Except PyErr Ty)), es = l.map (fun kv => (kv.1, discover strTy topo kv.2)) →
      discoverMap es = .ok r → ∃ fs, r = .record fs ∧ (fs.map (·.1)).Nodup ∧
      (∀ k, k ∈ fs.map (·.1) ↔ k ∈ l.map (·.1)) ∧ ∀ f ∈ fs, cell strTy topo f.1 l = .ok f.2 := by
    rintro es rfl h
    refine key _ ?_ ?_ h
    · intro e he
      obtain ⟨k, hk, rfl⟩ := List.mem_map.1 he
      rw [sortStr_mem] at hk
      have hk' : k ∈ l.map (·.1) := by simpa [List.map_map, Function.comp_def] using hk
      exact ⟨hk', by simp only [hent k hk', Option.getD_some]⟩
    · intro k hk
      rw [List.map_map]
      refine List.mem_map.2 ⟨k, ?_, rfl⟩
      rw [sortStr_mem]
      simpa [List.map_map, Function.comp_def] using hk
  rw [discover] at h
  cases v <;> simp only [PyObj.items?, Option.some.injEq, reduceCtorEq] at hl
  · subst hl
    rw [discoverItem, discoverEntries_eq] at h
    exact hdict _ rfl h
  · rename_i l'
    subst hl
    rw [discoverItem, discoverEntries_eq] at h
    refine key _ ?_ ?_ h
    · intro e he
      obtain ⟨kv, hkv, rfl⟩ := List.mem_map.1 he
      have hk : kv.1 ∈ l'.map (·.1) := List.mem_map.2 ⟨kv, hkv, rfl⟩
      refine ⟨hk, ?_⟩
      rw [cell_eq, (lookup_items hn kv.1 kv.2).2 hkv]
    · intro k hk
      simpa [List.map_map, Function.comp_def] using hk

/-- Equal records have, for each field of one, a field with the same name and an equal type in the other. -/
theorem eqF_field {fs gs : List (Str × Ty)} (h : eqF fs gs = true) :
    ∀ f ∈ fs, ∃ g ∈ gs, f.1 = g.1 ∧ pyEq f.2 g.2 = true := by
  induction fs generalizing gs with
  | nil => simp
  | cons f fs ih =>
    obtain ⟨n, x⟩ := f
    cases gs with
    | nil => simp [eqF] at h
    | cons g gs =>
      obtain ⟨m, y⟩ := g
      simp only [eqF] at h
      simp only [Bool.and_eq_true, beq_iff_eq] at h
      intro f hf
      rcases List.mem_cons.1 hf with rfl | hf
      · exact ⟨(m, y), by simp, h.1.1, h.1.2⟩
      · obtain ⟨g, hg, e⟩ := ih h.2 f hf
        exact ⟨g, by simp [hg], e⟩

theorem allKeys_mem (strTy : Str → Except PyErr Ty) (topo : List Node) (ls : List (List (Str × PyObj))) (k : Str) :
    k ∈ allKeys (ls.map fun l => l.map fun kv => (kv.1, discover strTy topo kv.2)) ↔ ∃ l ∈ ls, k ∈ l.map (·.1) := by
  rw [allKeys, sortStr_mem, mem_toSet, List.mem_flatMap]
  constructor
  · rintro ⟨d, hd, hk⟩
    obtain ⟨l, hl, rfl⟩ := List.mem_map.1 hd
    exact ⟨l, hl, by simpa [List.map_map, Function.comp_def] using hk⟩
  · rintro ⟨l, hl, hk⟩
    exact ⟨_, List.mem_map.2 ⟨l, hl, rfl⟩, by simpa [List.map_map, Function.comp_def] using hk⟩

/-- If all rows have equal types, no column raises `AttributeError`. -/
theorem column_identical {topo : List Node} {c : List (Except PyErr Ty)} {ts : List Ty} (hc : c.mapM id = .ok ts) (hne : ts ≠ [])
    (hpl : ∀ t ∈ ts, Plain t) (heq : ∀ a ∈ ts, ∀ b ∈ ts, pyEq a b = true) : columnType topo c ≠ .error .attributeError := by
  have hd := (distinct_one hpl).2 ⟨hne, heq⟩
  obtain ⟨t, us, rfl⟩ := List.exists_cons_of_ne_nil hne
  intro h
  unfold columnType column at h
  rw [hc] at h
  simp only [bind, Except.bind, uniteFull, uniteIdentical, if_pos hd] at h
  cases hm : mul (.int (t :: us).length) (.ty t) with
  | error e =>
    rw [hm] at h
    simp only at h
    injection h with h
    subst h
    rw [mul_int_eq, mkDS] at hm
    unfold checkDS at hm
    split at hm
    · cases hm
    · split at hm
      · cases hm
      · split at hm <;> cases hm
  | ok r =>
    rw [hm] at h
    simp only at h
    obtain ⟨rfl, -⟩ := mul_int_ok hm
    rw [subshape] at h
    simp only [head_dshape, bind, Except.bind] at h
    rw [if_pos (by rfl)] at h
    unfold subarray at h
    simp only at h
    repeat' split at h
    all_goals try (cases h; done)
    all_goals
      rw [mkDS] at h
      unfold checkDS at h
      repeat' split at h
    all_goals cases h

/-- Both outcomes for a list of dicts; each field is the type of its column. -/
theorem records_columns {strTy : Str → Except PyErr Ty} (hs : StrScalar strTy) {topo : List Node} {kind : SeqKind}
    {rows : List PyObj} (hne : rows ≠ []) (hd : ∀ v ∈ rows, IsDict v) {r : Ty}
    (h : discover strTy topo (.seq kind rows) = .ok r) :
    ∃ ls : List (List (Str × PyObj)), rows.map PyObj.items? = ls.map some ∧ (∀ l ∈ ls, (l.map (·.1)).Nodup) ∧
    ((∃ ts, r = .tuple ts ∧ ts.length = rows.length) ∨
    ∃ fs, r = .dshape [.fixed rows.length, .record fs] ∧ (fs.map (·.1)).Pairwise (· < ·) ∧
      (∀ k, k ∈ fs.map (·.1) ↔ ∃ v ∈ rows, HasKey v k) ∧
      ∀ f ∈ fs, ∃ ts u r, (ls.map (cell strTy topo f.1)).mapM id = .ok ts ∧ uniteFull topo ts = .ok u ∧
        subshape (.int 0) u = .ok r ∧ f.2 = launderTy r) := by
  obtain ⟨ls, hit, hnd, hent⟩ := rows_entries (strTy := strTy) (topo := topo) hd
  have hrow : ∀ l ∈ ls, ∃ v ∈ rows, v.items? = some l := by
    intro l hl
    have : some l ∈ rows.map PyObj.items? := by rw [hit]; exact List.mem_map.2 ⟨l, hl, rfl⟩
    obtain ⟨v, hv, e⟩ := List.mem_map.1 this
    exact ⟨v, hv, e⟩
  have hrow' : ∀ v ∈ rows, ∃ l ∈ ls, v.items? = some l := by
    intro v hv
    have : v.items? ∈ ls.map some := by rw [← hit]; exact List.mem_map.2 ⟨v, hv, rfl⟩
    obtain ⟨l, hl, e⟩ := List.mem_map.1 this
    exact ⟨l, hl, e.symm⟩
  refine ⟨ls, hit, hnd, ?_⟩
  rw [discover_seq, discoverSeq, if_neg (by simpa using hne)] at h
  have hnr : discoverRows topo (rows.map (discoverItem strTy topo)) = none := by
    unfold discoverRows
    rw [mapM_none]
    obtain ⟨v, rows', rfl⟩ := List.exists_cons_of_ne_nil hne
    obtain ⟨l, -, hl⟩ := hrow' v (by simp)
    exact ⟨_, List.mem_map.2 ⟨v, by simp, rfl⟩, (dict_item hl).1⟩
  rw [hnr, orElse_none] at h
  rcases orElse_ok h with h | ⟨h, hfb⟩
  · -- the branch for dicts returned
    right
    unfold discoverDicts at h
    rw [hent] at h
    injection h with h
    simp only [bind_ok] at h
    obtain ⟨types, h1, rec, h2, h3⟩ := h
    obtain ⟨hnames, rfl⟩ := mkRecord_ok h2
    obtain ⟨rfl, -⟩ := mul_int_ok h3
    have hlen : types.length = (allKeys (ls.map fun l => l.map fun kv => (kv.1, discover strTy topo kv.2))).length := by
      rw [mapM_length h1, List.length_map]
    have hkeys : ((((allKeys (ls.map fun l => l.map fun kv => (kv.1, discover strTy topo kv.2))).zip types).map
        fun f => (f.1, launderTy f.2)).map (·.1)) = allKeys (ls.map fun l => l.map fun kv => (kv.1, discover strTy topo kv.2)) := by
      rw [List.map_map]
      exact List.map_fst_zip (by omega)
    refine ⟨_, by simp only [asParams, List.length_map, List.map_cons, List.map_nil]; rfl, ?_, ?_, ?_⟩
    · rw [hkeys]; exact sortStr_sorted _ (nodup_toSet _)
    · intro k
      rw [hkeys, allKeys_mem]
      constructor
      · rintro ⟨l, hl, hk⟩
        obtain ⟨v, hv, e⟩ := hrow l hl
        exact ⟨v, hv, l, e, hk⟩
      · rintro ⟨v, hv, l, e, hk⟩
        obtain ⟨l', hl', e'⟩ := hrow' v hv
        rw [e] at e'; cases e'
        exact ⟨l, hl', hk⟩
    · intro f hf
      obtain ⟨g, hg, rfl⟩ := List.mem_map.1 hf
      simp only
      have hcol : columnType topo (ls.map (cell strTy topo g.1)) = .ok g.2 := by
        rw [← List.map_id (allKeys _), List.map_id] at hg
        have hz : ∀ (ks : List Str) (ts : List Ty),
            (ks.map fun k => (ls.map fun l => l.map fun kv => (kv.1, discover strTy topo kv.2)).map fun d =>
              (d.lookup k).getD (.ok .null)).mapM (columnType topo) = .ok ts → g ∈ ks.zip ts →
            columnType topo (ls.map (cell strTy topo g.1)) = .ok g.2 := by
          intro ks
          induction ks with
          | nil => intro ts _ hg; cases hg
          | cons k ks ih =>
            intro ts hm hg
            rw [List.map_cons, List.mapM_cons] at hm
            simp only [bind_ok] at hm
            obtain ⟨b, hb, bs, hbs, e⟩ := hm
            cases e
            rcases List.mem_cons.1 hg with rfl | hg
            · rw [List.map_map] at hb
              exact hb
            · exact ih bs hbs hg
        exact hz _ _ h1 hg
      unfold columnType column at hcol
      simp only [bind_ok] at hcol
      obtain ⟨ts, hts, u, hu, hr⟩ := hcol
      exact ⟨ts, u, _, hts, hu, hr, rfl⟩
  · -- the branch raised AttributeError: each row is discovered on its own
    left
    unfold discoverRest at h
    simp only [bind_ok] at h
    obtain ⟨types, h1, h2⟩ := h
    have htl : ∀ t ∈ types, ∃ l ∈ ls, ∃ fs, t = .record fs ∧ (fs.map (·.1)).Nodup ∧
        (∀ k, k ∈ fs.map (·.1) ↔ k ∈ l.map (·.1)) ∧ ∀ f ∈ fs, cell strTy topo f.1 l = .ok f.2 := by
      intro t ht
      obtain ⟨i, hi, e⟩ := mapM_mem h1 t ht
      obtain ⟨v, hv, rfl⟩ := List.mem_map.1 hi
      obtain ⟨l, hl, hvl⟩ := hrow' v hv
      exact ⟨l, hl, row_record hs hvl (hnd l hl) e⟩
    have hlt : ∀ l ∈ ls, ∃ t ∈ types, ∃ fs, t = .record fs ∧ (fs.map (·.1)).Nodup ∧
        (∀ k, k ∈ fs.map (·.1) ↔ k ∈ l.map (·.1)) ∧ ∀ f ∈ fs, cell strTy topo f.1 l = .ok f.2 := by
      intro l hl
      obtain ⟨v, hv, hvl⟩ := hrow l hl
      obtain ⟨t, ht, e⟩ := mapM_mem' h1 _ (List.mem_map.2 ⟨v, hv, rfl⟩)
      exact ⟨t, ht, row_record hs hvl (hnd l hl) e⟩
    have htne : types ≠ [] := by
      intro e
      have := mapM_length h1
      rw [e] at this
      simp at this
      exact hne (List.eq_nil_of_length_eq_zero this.symm)
    have hpl : ∀ t ∈ types, Plain t := by
      intro t ht
      obtain ⟨i, hi, e⟩ := mapM_mem h1 t ht
      obtain ⟨v, hv, rfl⟩ := List.mem_map.1 hi
      exact (discoverItem_plain hs topo v).self t e
    unfold uniteTuple at h2
    simp only [bind_ok] at h2
    obtain ⟨u, hu, h2⟩ := h2
    cases u with
    | some t =>
      exfalso
      cases h2
      obtain ⟨hd1, -⟩ := uniteIdentical_some hu
      obtain ⟨-, heq⟩ := (distinct_one hpl).1 hd1
      -- all columns are identical, so nothing raises AttributeError
      have hcols : ∀ k, (∃ l ∈ ls, k ∈ l.map (·.1)) → columnType topo (ls.map (cell strTy topo k)) ≠ .error .attributeError := by
        rintro k ⟨l0, hl0, hk0⟩
        obtain ⟨t0, ht0, fs0, rfl, hnd0, hk0', hc0⟩ := hlt l0 hl0
        have hkf : k ∈ fs0.map (·.1) := (hk0' k).2 hk0
        obtain ⟨f0, hf0, rfl⟩ := List.mem_map.1 hkf
        -- the cell of every row at this key is equal to that of the first row
        have hcell : ∀ l ∈ ls, ∃ t, cell strTy topo f0.1 l = .ok t ∧ Plain t ∧ pyEq f0.2 t = true := by
          intro l hl
          obtain ⟨t, ht, fs, rfl, hndf, hkf', hcf⟩ := hlt l hl
          have he := heq _ ht0 _ ht
          have : eqF fs0 fs = true := by
            unfold pyEq at he
            simpa [eqM, Ty.noShape, Ty.target, Ty.measure, Ty.shape] using he
          obtain ⟨g, hg, e1, e2⟩ := eqF_field this f0 hf0
          refine ⟨g.2, by rw [e1]; exact hcf g hg, ?_, e2⟩
          exact everywhere_child (hpl _ ht) (List.mem_map.2 ⟨g, hg, rfl⟩)
        have hp0 : Plain f0.2 := everywhere_child (hpl _ ht0) (List.mem_map.2 ⟨f0, hf0, rfl⟩)
        cases hm : (ls.map (cell strTy topo f0.1)).mapM id with
        | error e =>
          obtain ⟨x, hx, he⟩ := mapM_error hm
          obtain ⟨l, hl, rfl⟩ := List.mem_map.1 hx
          obtain ⟨t, ht, -⟩ := hcell l hl
          simp only [id] at he
          rw [ht] at he; cases he
        | ok ts =>
          have hmem : ∀ t ∈ ts, Plain t ∧ pyEq f0.2 t = true := by
            intro t ht
            obtain ⟨x, hx, e⟩ := mapM_mem hm t ht
            obtain ⟨l, hl, rfl⟩ := List.mem_map.1 hx
            obtain ⟨t', e', h1, h2⟩ := hcell l hl
            simp only [id] at e
            rw [e] at e'; cases e'
            exact ⟨h1, h2⟩
          refine column_identical hm ?_ (fun t ht => (hmem t ht).1) ?_
          · intro e
            have := mapM_length hm
            rw [e] at this
            simp at this
            rw [List.eq_nil_of_length_eq_zero this.symm] at hl0
            cases hl0
          · intro a ha b hb
            exact pyEq_trans (hmem a ha).1 hp0 (hmem b hb).1 (pyEq_symm hp0 (hmem a ha).1 (hmem a ha).2) (hmem b hb).2
      have hno : discoverDicts topo (rows.map (discoverItem strTy topo)) ≠ some (.error .attributeError) := by
        unfold discoverDicts
        rw [hent]
        simp only
        intro h
        injection h with h
        cases hm : ((allKeys (ls.map fun l => l.map fun kv => (kv.1, discover strTy topo kv.2))).map fun k =>
            (ls.map fun l => l.map fun kv => (kv.1, discover strTy topo kv.2)).map fun d =>
              (d.lookup k).getD (.ok .null)).mapM (columnType topo) with
        | error e =>
          rw [hm] at h
          simp only [bind, Except.bind] at h
          injection h with h
          subst h
          obtain ⟨c, hc, he⟩ := mapM_error hm
          obtain ⟨k, hk, rfl⟩ := List.mem_map.1 hc
          rw [allKeys_mem] at hk
          rw [List.map_map] at he
          exact hcols k hk he
        | ok types' =>
          rw [hm] at h
          simp only [bind, Except.bind] at h
          cases hr : mkRecord ((allKeys (ls.map fun l => l.map fun kv => (kv.1, discover strTy topo kv.2))).zip types') with
          | error e =>
            rw [hr] at h
            simp only at h
            injection h with h
            subst h
            unfold mkRecord at hr
            split at hr <;> cases hr
          | ok rec =>
            rw [hr] at h
            simp only at h
            rw [mul_int_eq, mkDS] at h
            unfold checkDS at h
            repeat' split at h
            all_goals cases h
      rcases hfb with hfb | hfb
      · unfold discoverDicts at hfb
        rw [hent] at hfb
        cases hfb
      · exact hno hfb
    | none =>
      simp only [bind_ok] at h2
      obtain ⟨w, hw, h2⟩ := h2
      have hwn : uniteMerge types = .ok none := by
        unfold uniteMerge
        rw [if_neg]
        obtain ⟨t, ts, rfl⟩ := List.exists_cons_of_ne_nil htne
        obtain ⟨-, -, fs, rfl, -⟩ := htl t (by simp)
        simp
      rw [hwn] at hw
      cases hw
      obtain ⟨us, rfl, hm⟩ := mkTuple_ok h2
      refine ⟨us, rfl, ?_⟩
      rw [mapM_length hm, mapM_length h1, List.length_map]

/-- `discover` of a non-empty list of dicts, when it returns: either a tuple type with one component per row, or an array
of records whose field names are all keys of all rows, each once, in increasing order; a field is optional exactly when
some, but not all, rows lack the key or hold `None` or the empty string there. -/
theorem C25.records (strTy : Str → Except PyErr Ty) (hs : StrScalar strTy) (topo : List Node) (kind : SeqKind)
    (rows : List PyObj) (hne : rows ≠ []) (hd : ∀ v ∈ rows, IsDict v) (r : Ty)
    (h : discover strTy topo (.seq kind rows) = .ok r) :
    (∃ ts, r = .tuple ts ∧ ts.length = rows.length) ∨
    ∃ fs, r = .dshape [.fixed rows.length, .record fs] ∧ (fs.map (·.1)).Pairwise (· < ·) ∧
      (∀ k, k ∈ fs.map (·.1) ↔ ∃ v ∈ rows, HasKey v k) ∧
      ∀ f ∈ fs, f.2.isOption = true ↔ (∃ v ∈ rows, NullAt v f.1) ∧ ∃ v ∈ rows, ¬ NullAt v f.1 := by
  obtain ⟨ls, hit, hnd, hcases⟩ := records_columns hs hne hd h
  have hrow : ∀ l ∈ ls, ∃ v ∈ rows, v.items? = some l := by
    intro l hl
    have : some l ∈ rows.map PyObj.items? := by rw [hit]; exact List.mem_map.2 ⟨l, hl, rfl⟩
    obtain ⟨v, hv, e⟩ := List.mem_map.1 this
    exact ⟨v, hv, e⟩
  have hrow' : ∀ v ∈ rows, ∃ l ∈ ls, v.items? = some l := by
    intro v hv
    have : v.items? ∈ ls.map some := by rw [← hit]; exact List.mem_map.2 ⟨v, hv, rfl⟩
    obtain ⟨l, hl, e⟩ := List.mem_map.1 this
    exact ⟨l, hl, e.symm⟩
  have hnullAt : ∀ v l k, v.items? = some l → (NullAt v k ↔ ∀ x, (k, x) ∈ l → NullValue x) := by
    intro v l k hv
    constructor
    · intro h; exact h l hv
    · intro h l' hl' x hx
      rw [hv] at hl'; cases hl'; exact h x hx
  rcases hcases with hc | ⟨fs, hr, hsort, hkeys, hcol⟩
  · exact .inl hc
  · refine .inr ⟨fs, hr, hsort, hkeys, fun g hg => ?_⟩
    obtain ⟨ts, u, r', hts, hu, hr, e⟩ := hcol g hg
    rw [e]
    have htl : ∀ t ∈ ts, ∃ l ∈ ls, cell strTy topo g.1 l = .ok t := by
      intro t ht
      obtain ⟨x, hx, e⟩ := mapM_mem hts t ht
      obtain ⟨l, hl, rfl⟩ := List.mem_map.1 hx
      exact ⟨l, hl, e⟩
    have hlt : ∀ l ∈ ls, ∃ t ∈ ts, cell strTy topo g.1 l = .ok t := by
      intro l hl
      obtain ⟨t, ht, e⟩ := mapM_mem' hts _ (List.mem_map.2 ⟨l, hl, rfl⟩)
      exact ⟨t, ht, e⟩
    rw [column_option (fun t ht => by
      obtain ⟨l, hl, e⟩ := htl t ht
      exact (cell_result hs (hnd l hl) e).1) hu hr]
    constructor
    · rintro ⟨⟨a, ha, ha'⟩, b, hb, hb'⟩
      obtain ⟨l, hl, e⟩ := htl a ha
      obtain ⟨m, hm, e'⟩ := htl b hb
      obtain ⟨v, hv, hvl⟩ := hrow l hl
      obtain ⟨w, hw, hwl⟩ := hrow m hm
      refine ⟨⟨v, hv, (hnullAt v l g.1 hvl).2 ((cell_result hs (hnd l hl) e).2.1 ha')⟩, w, hw, fun hn => hb' ?_⟩
      exact (cell_result hs (hnd m hm) e').2.2 ((hnullAt w m g.1 hwl).1 hn)
    · rintro ⟨⟨v, hv, hvn⟩, w, hw, hwn⟩
      obtain ⟨l, hl, hvl⟩ := hrow' v hv
      obtain ⟨m, hm, hwl⟩ := hrow' w hw
      obtain ⟨a, ha, e⟩ := hlt l hl
      obtain ⟨b, hb, e'⟩ := hlt m hm
      refine ⟨⟨a, ha, (cell_result hs (hnd l hl) e).2.2 ((hnullAt v l g.1 hvl).1 hvn)⟩, b, hb, fun hbn => hwn ?_⟩
      exact (hnullAt w m g.1 hwl).2 ((cell_result hs (hnd m hm) e').2.1 hbn)

/-- Equality with a datashape of the table, for something that is not a redundant wrapper. -/
theorem pyEq_node {t : Ty} {n : Node} (hs : t.isSingleton = false) (h : pyEq t n.ty = true) : t = n.ty := by
  unfold pyEq at h
  have hdm : ∀ ps : List Ty, t = .dshape ps → n.ty.shape = [] → False := by
    intro ps e hsh
    subst e
    rw [eqM, hsh] at h
    rcases ps with _ | ⟨x, _ | ⟨y, r⟩⟩
    · cases n <;> simp [eqLast, Node.ty, Ty.measure, tInt64, tFloat64, tString, tBool, tInt32, tTimedelta] at h
    · simp [Ty.isSingleton] at hs
    · simp [eqInit] at h
  have hsh : n.ty.shape = [] := by cases n <;> rfl
  cases t with
  | dshape ps => exact (hdm ps rfl hsh).elim
  | option x => cases n <;> simp [eqM, Node.ty, Ty.measure, tInt64, tFloat64, tString, tBool, tInt32, tTimedelta] at h
  | _ =>
    cases n <;>
      simp_all [eqM, Node.ty, Ty.noShape, Ty.target, Ty.measure, Ty.shape, tInt64, tFloat64, tString, tBool, tInt32,
        tTimedelta]

/-- `n` is the least common generalisation of the non-null datashapes in `ts`. -/
def LeastFor (ts : List Ty) (n : Node) : Prop :=
  (∀ t ∈ ts, t ≠ .null → ConvertsTo t n) ∧ ∀ m, (∀ t ∈ ts, t ≠ .null → ConvertsTo t m) → Reaches discEdges n m

/-- Columns whose non-null entries are all of the conversion table. -/
theorem column_scalar {topo : List Node} (htopo : Toposort discEdges (.ok topo)) {ts : List Ty} {u r : Ty}
    (hts : ∀ t ∈ ts, Plain t ∧ t.isSingleton = false ∧ t.isOption = false)
    (hsc : ∀ t ∈ ts, t ≠ .null → ∃ n : Node, pyEq t n.ty = true) (hex : ∃ t ∈ ts, t ≠ .null)
    (hu : uniteFull topo ts = .ok u) (hr : subshape (.int 0) u = .ok r) :
    ∃ n : Node, LeastFor ts n ∧ (launderTy r = n.ty ∨ launderTy r = .option n.ty) := by
  have hpl : ∀ t ∈ ts, Plain t := fun t h => (hts t h).1
  have hlaunder : ts.map launderTy = ts := by
    conv => rhs; rw [← List.map_id ts]
    exact List.map_inj_left.2 fun t ht => launderTy_of_not_singleton (hts t ht).2.1
  unfold uniteFull at hu
  simp only [bind_ok] at hu
  obtain ⟨x, h1, h⟩ := hu
  cases x with
  | some t =>
    cases h
    obtain ⟨hd, t0, us, e, hm⟩ := uniteIdentical_some h1
    obtain ⟨-, hall⟩ := (distinct_one hpl).1 hd
    have ht0 : t0 ∈ ts := by rw [e]; simp
    have hnn : t0 ≠ .null := by
      rintro rfl
      obtain ⟨b, hb, hbn⟩ := hex
      exact hbn ((pyEq_null (hts b hb).2.1).1 (hall b hb _ ht0))
    obtain ⟨n, hn⟩ := hsc t0 ht0 hnn
    have e0 := pyEq_node (hts t0 ht0).2.1 hn
    subst e0
    refine ⟨n, ⟨fun t ht _ => ⟨n, hall t ht _ ht0, .refl _⟩, fun m hm' => ?_⟩, .inl ?_⟩
    · obtain ⟨n', hn', hr'⟩ := hm' _ ht0 hnn
      rw [node_inj n n' hn']
      exact hr'
    · rw [sub_mul hm hr, asParams_of (by cases n <;> rfl)]
      simp only [List.map_cons, List.map_nil, launderTy_of_not_singleton (hts _ ht0).2.1]
      rfl
  | none =>
    simp only at h
    rw [uniteBase] at h
    simp only [hlaunder] at h
    have hg : ∀ t, t ∈ ts.filter (fun t => !isNull t) ↔ t ∈ ts ∧ t ≠ .null := by
      intro t
      rw [List.mem_filter]
      constructor
      · rintro ⟨h1, h2⟩
        refine ⟨h1, fun e => ?_⟩
        rw [(isNull_iff (hts t h1).2.1).2 e] at h2
        cases h2
      · rintro ⟨h1, h2⟩
        refine ⟨h1, ?_⟩
        cases hn : isNull t with
        | true => exact absurd ((isNull_iff (hts t h1).2.1).1 hn) h2
        | false => rfl
    split at h
    · rename_i he
      obtain ⟨t, ht, htn⟩ := hex
      have := (hg t).2 ⟨ht, htn⟩
      rw [he] at this
      cases this
    · rename_i g good hgood
      have hunit : (ts.filter fun t => !isNull t).all Ty.isUnit = true := by
        rw [List.all_eq_true]
        intro t ht
        obtain ⟨h1, h2⟩ := (hg t).1 ht
        obtain ⟨n, hn⟩ := hsc t h1 h2
        rw [pyEq_node (hts t h1).2.1 hn]
        cases n <;> rfl
      rw [if_pos hunit] at h
      simp only [bind_ok] at h
      obtain ⟨base, hb, h⟩ := h
      obtain ⟨n, hl, hc, hmin⟩ := C26.least topo htopo (ts.filter fun t => !isNull t) (by rw [hgood]; simp) (by
        intro t ht
        obtain ⟨h1, h2⟩ := (hg t).1 ht
        exact ⟨hpl t h1, hsc t h1 h2⟩)
      rw [hl] at hb
      cases hb
      refine ⟨n, ⟨fun t ht htn => hc t ((hg t).2 ⟨ht, htn⟩), fun m hm' => hmin m fun t ht => ?_⟩, ?_⟩
      · obtain ⟨h1, h2⟩ := (hg t).1 ht
        exact hm' t h1 h2
      · have hns : n.ty.isDShape = false ∧ n.ty.isSingleton = false := by cases n <;> exact ⟨rfl, rfl⟩
        split at h
        · right
          rw [sub_mul h hr, mkOption, launderTy_of_not_singleton hns.2]
          rfl
        · left
          rw [sub_mul h hr, asParams_of hns.1]
          simp only [List.map_cons, List.map_nil, launderTy_of_not_singleton hns.2]
          rfl

/-- `discover` gives the value of a non-null cell in some row of `rows` at key `k` the type `t`. -/
def CellType (strTy : Str → Except PyErr Ty) (topo : List Node) (rows : List PyObj) (k : Str) (t : Ty) : Prop :=
  ∃ v ∈ rows, ∃ l, v.items? = some l ∧ ∃ x, (k, x) ∈ l ∧ ¬ NullValue x ∧ discover strTy topo x = .ok t

/-- A field some of whose values are not null, and whose non-null values all have types of the conversion table, has the
least common generalisation of their types, made optional if some value is null or missing. -/
theorem C25.scalar_field (strTy : Str → Except PyErr Ty) (hs : StrScalar strTy) (topo : List Node)
    (htopo : Toposort discEdges (.ok topo)) (kind : SeqKind) (rows : List PyObj) (hne : rows ≠ [])
    (hd : ∀ v ∈ rows, IsDict v) (fs : List (Str × Ty)) (n : Nat)
    (h : discover strTy topo (.seq kind rows) = .ok (.dshape [.fixed n, .record fs])) (f : Str × Ty) (hf : f ∈ fs)
    (hex : ∃ t, CellType strTy topo rows f.1 t)
    (hsc : ∀ t, CellType strTy topo rows f.1 t → ∃ m : Node, pyEq t m.ty = true) :
    ∃ m : Node, (f.2 = m.ty ∨ f.2 = .option m.ty) ∧ (∀ t, CellType strTy topo rows f.1 t → ConvertsTo t m) ∧
      ∀ m', (∀ t, CellType strTy topo rows f.1 t → ConvertsTo t m') → Reaches discEdges m m' := by
  obtain ⟨ls, hit, hnd, hcases⟩ := records_columns hs hne hd h
  rcases hcases with ⟨ts, e, -⟩ | ⟨fs', e, -, -, hcol⟩
  · cases e
  · injection e with e
    have e2 : Ty.record fs = .record fs' := by injection e with _ e; injection e with e _
    injection e2 with e2
    subst e2
    obtain ⟨ts, u, r', hts, hu, hr, e⟩ := hcol f hf
    have hct : ∀ t, (t ∈ ts ∧ t ≠ .null) ↔ CellType strTy topo rows f.1 t := by
      intro t
      constructor
      · rintro ⟨ht, htn⟩
        obtain ⟨x, hx, e⟩ := mapM_mem hts t ht
        obtain ⟨l, hl, rfl⟩ := List.mem_map.1 hx
        have : some l ∈ rows.map PyObj.items? := by rw [hit]; exact List.mem_map.2 ⟨l, hl, rfl⟩
        obtain ⟨v, hv, hvl⟩ := List.mem_map.1 this
        simp only [id] at e
        rw [cell_eq] at e
        cases hlk : l.lookup f.1 with
        | none => rw [hlk] at e; injection e with e; exact absurd e.symm htn
        | some y =>
          rw [hlk] at e
          refine ⟨v, hv, l, hvl, y, lookup_mem hlk, fun hny => htn ?_, e⟩
          exact (discover_result hs topo y t e).2.2.2.2 hny
      · rintro ⟨v, hv, l, hvl, x, hx, hnx, e⟩
        have hl : l ∈ ls := by
          have : v.items? ∈ ls.map some := by rw [← hit]; exact List.mem_map.2 ⟨v, hv, rfl⟩
          obtain ⟨l', hl', e'⟩ := List.mem_map.1 this
          rw [hvl] at e'; cases e'; exact hl'
        obtain ⟨t', ht', e'⟩ := mapM_mem' hts _ (List.mem_map.2 ⟨l, hl, rfl⟩)
        simp only [id] at e'
        rw [cell_eq, (lookup_items (hnd l hl) f.1 x).2 hx] at e'
        simp only at e'
        rw [e] at e'
        cases e'
        exact ⟨ht', fun hn => hnx ((discover_result hs topo x t e).2.2.2.1 hn)⟩
    obtain ⟨m, ⟨h1, h2⟩, h3⟩ := column_scalar htopo (ts := ts) (fun t ht => by
        obtain ⟨x, hx, e⟩ := mapM_mem hts t ht
        obtain ⟨l, hl, rfl⟩ := List.mem_map.1 hx
        exact (cell_result hs (hnd l hl) e).1) (fun t ht htn => hsc t ((hct t).1 ⟨ht, htn⟩))
      (by obtain ⟨t, ht⟩ := hex; exact ⟨t, (hct t).2 ht⟩) hu hr
    rw [← e] at h3
    exact ⟨m, h3, fun t ht => h1 t ((hct t).2 ht).1 ((hct t).2 ht).2, fun m' hm' => h2 m' fun t ht htn => hm' t ((hct t).1 ⟨ht, htn⟩)⟩

/-- The rows of the witnesses: `[{"b": 1, "a": None}, {"a": 1.5}]`. -/
def witnessRows : List PyObj := [.dict [(py"b", .int), (py"a", .none)], .dict [(py"a", .float)]]

theorem lowestCommon_one (topo : List Node) (h : Toposort discEdges (.ok topo)) (n : Node) : lowestCommon topo [n.ty] = .ok n.ty := by
  obtain ⟨r, h1, h2, h3⟩ := C26.least topo h [n.ty] (by simp) (by
    intro t ht
    rw [List.mem_singleton.1 ht]
    exact ⟨node_everywhere n, n, pyEq_refl (node_everywhere n)⟩)
  obtain ⟨m, hm, hr⟩ := h2 n.ty (by simp)
  rw [← node_inj _ _ hm] at hr
  have := h3 n (by intro t ht; rw [List.mem_singleton.1 ht]; exact ⟨n, pyEq_refl (node_everywhere n), .refl _⟩)
  obtain ⟨topo', e, ht⟩ := C26.toposorted.2 _ h
  injection e with e; subst e
  have : r = n := by
    rcases reaches_idx ht this with h | h
    · exact h
    · rcases reaches_idx ht hr with h' | h'
      · exact h'.symm
      · omega
  rw [h1, this]

/-- `discover([{"b": 1, "a": None}, {"a": 1.5}])` is `2 * {a: ?float64, b: ?int64}`. -/
theorem C25.example (strTy : Str → Except PyErr Ty) (topo : List Node) (h : Toposort discEdges (.ok topo)) :
    (∀ v ∈ witnessRows, IsDict v) ∧
    discover strTy topo (.seq .list witnessRows) =
      .ok (.dshape [.fixed 2, .record [(py"a", .option tFloat64), (py"b", .option tInt64)]]) := by
  constructor
  · intro v hv
    simp only [witnessRows, List.mem_cons, List.not_mem_nil, or_false] at hv
    rcases hv with rfl | rfl
    · exact ⟨_, rfl, by decide⟩
    · exact ⟨_, rfl, by decide⟩
  · have h1 : columnType topo [.ok .null, .ok tFloat64] = .ok (.dshape [.option tFloat64]) := by
      show ((lowestCommon topo [tFloat64] >>= fun base => mul (.int 2) (.ty (mkOption base))) >>= fun u => subshape (.int 0) u) = _
      rw [show lowestCommon topo [tFloat64] = .ok tFloat64 from lowestCommon_one topo h .real]
      rfl
    have h2 : columnType topo [.ok tInt64, .ok .null] = .ok (.dshape [.option tInt64]) := by
      show ((lowestCommon topo [tInt64] >>= fun base => mul (.int 2) (.ty (mkOption base))) >>= fun u => subshape (.int 0) u) = _
      rw [show lowestCommon topo [tInt64] = .ok tInt64 from lowestCommon_one topo h .int64]
      rfl
    have h3 : discover strTy topo (.seq .list witnessRows) =
        orElse (some (([[Except.ok .null, .ok tFloat64], [.ok tInt64, .ok .null]].mapM (columnType topo)) >>= fun types =>
          mkRecord ([py"a", py"b"].zip types) >>= fun r => mul (.int 2) (.ty r))) (discoverRest (witnessRows.map (discoverItem strTy topo))) := rfl
    rw [h3, List.mapM_cons, List.mapM_cons, h1, h2]
    rfl

/-- When the values of a column cannot be united (`AttributeError` inside), every row is typed on its own:
`discover([{"x": 1}, {"x": [1, 2]}])` is `({x: int64}, {x: 2 * int64})`. -/
theorem C25.fallback (strTy : Str → Except PyErr Ty) (topo : List Node) :
    discover strTy topo (.seq .list [.dict [(py"x", .int)], .dict [(py"x", .seq .list [.int, .int])]]) =
      .ok (.tuple [.dshape [.record [(py"x", tInt64)]], .dshape [.record [(py"x", .dshape [.fixed 2, tInt64])]]]) := rfl

/-- Values whose types are not in the conversion table make `discover` raise `ValueError`:
`discover([{"x": 1j}, {"x": 1}])`. -/
theorem C25.unknown (strTy : Str → Except PyErr Ty) (topo : List Node) :
    discover strTy topo (.seq .list [.dict [(py"x", .complex)], .dict [(py"x", .int)]]) = .error .valueError := by
  have h1 : columnType topo [.ok tComplex128, .ok tInt64] = .error .valueError := by
    show ((lowestCommon topo [tComplex128, tInt64] >>= fun base => mul (.int 2) (.ty base)) >>= fun u => subshape (.int 0) u) = _
    rw [lowestCommon_unknown topo _ tComplex128 (by simp) rfl]
    rfl
  have h3 : discover strTy topo (.seq .list [.dict [(py"x", .complex)], .dict [(py"x", .int)]]) =
      orElse (some (([[Except.ok tComplex128, .ok tInt64]].mapM (columnType topo)) >>= fun types =>
        mkRecord ([py"x"].zip types) >>= fun r => mul (.int 2) (.ty r))) (discoverRest ([.dict [(py"x", .complex)], .dict [(py"x", .int)]].map (discoverItem strTy topo))) := rfl
  rw [h3, List.mapM_cons, h1]
  rfl

end DS

