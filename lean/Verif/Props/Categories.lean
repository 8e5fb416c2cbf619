import Verif.Model.Categories
import Verif.Spec.Categories
import Verif.Props.Ragged
import Verif.Props.StrDiscovery
import Verif.Props.Build

/-
C53: `Categorical` without a type; and the parser with the real `discover` in it.
-/
namespace DS

theorem pyDistinct_one {l : List Ty} (hl : ∀ x ∈ l, Plain x) (hne : l ≠ [])
    (h : ∀ a ∈ l, ∀ b ∈ l, pyEq a b = true) : (pyDistinct l).length = 1 := by
  obtain ⟨x, l', rfl⟩ := List.exists_cons_of_ne_nil hne
  obtain ⟨y, hy, -⟩ := pyDistinct_cover _ hl x (by simp)
  cases hd : pyDistinct (x :: l') with
  | nil => rw [hd] at hy; cases hy
  | cons u r =>
    cases r with
    | nil => rfl
    | cons v r =>
      exfalso
      have hp := pyDistinct_pairwise (x :: l')
      rw [hd] at hp
      have h1 := (List.pairwise_cons.1 hp).1 v (by simp)
      have hu := pyDistinct_sub _ u (by rw [hd]; simp)
      have hv := pyDistinct_sub _ v (by rw [hd]; simp)
      rw [h u hu v hv] at h1
      cases h1

theorem uniteTuple_scalars {ts : List Ty} (hne : ts ≠ [])
    (hs : ∀ t ∈ ts, t.isDShape = false ∧ t.cls ≠ some .dimension ∧ Plain t) :
    ((∀ a ∈ ts, ∀ b ∈ ts, pyEq a b = true) → ∃ t ∈ ts, uniteTuple ts = .ok (.dshape [.fixed ts.length, t])) ∧
    (∀ a ∈ ts, ∀ b ∈ ts, pyEq a b = false → uniteTuple ts = .ok (.tuple (ts.map fun t => .dshape [t]))) := by
  have hpl := fun t ht => (hs t ht).2.2
  constructor
  · intro h
    obtain ⟨t, r, rfl⟩ := List.exists_cons_of_ne_nil hne
    refine ⟨t, by simp, ?_⟩
    obtain ⟨h1, h2, -⟩ := hs t (by simp)
    unfold uniteTuple uniteIdentical
    rw [if_pos (pyDistinct_one hpl hne h)]
    have hm : mul (.int ((t :: r).length : Nat)) (.ty t) = .ok (.dshape [.fixed (t :: r).length, t]) := by
      rw [int_mul_cls _ t h1, if_neg (by omega), if_neg h2]
      simp
    simp only [hm, bind, Except.bind]
  · intro a ha b hb hab
    obtain ⟨t, r, rfl⟩ := List.exists_cons_of_ne_nil hne
    have hid : uniteIdentical (t :: r) = .ok none := by
      unfold uniteIdentical
      rw [if_neg (pyDistinct_two hpl ha hb hab)]
    have hme : uniteMerge (t :: r) = .ok none := by
      unfold uniteMerge
      rw [if_neg]
      have := (hs t (by simp)).1
      rw [List.all_cons]
      cases t <;> first | (simp; done) | (simp [Ty.isDShape] at this)
    have htu : ∀ ts : List Ty, (∀ t ∈ ts, t.isDShape = false ∧ t.cls ≠ some .dimension ∧ Plain t) →
        ts.mapM wrapDS = .ok (ts.map fun t => .dshape [t]) := by
      intro ts hs
      rw [mapM_ok_map (g := fun t => .dshape [t])]
      intro t ht
      obtain ⟨h1, h2, -⟩ := hs t ht
      unfold wrapDS
      rw [if_neg (by simp [h1])]
      apply mkDS_self.2
      refine .of ⟨[], t, rfl, by simp, h2, ?_⟩
      intro p hp
      simp only [List.mem_singleton] at hp
      subst hp
      cases p <;> first | rfl | (simp [Ty.isDShape] at h1)
    unfold uniteTuple
    simp only [hid, hme, bind, Except.bind, mkTuple, htu _ hs]

/-- a non-empty sequence of values none of which is a sequence or a dict -/
theorem discover_flat {strTy : Str → Except PyErr Ty} {topo : List Node} {k : SeqKind} {l : List PyObj} (hne : l ≠ [])
    (ha : ∀ v ∈ l, v.isAtom = true) :
    discover strTy topo (.seq k l) = (do uniteTuple (← l.mapM (discover strTy topo))) := by
  obtain ⟨v, l', rfl⟩ := List.exists_cons_of_ne_nil hne
  have hitem : ∀ w : PyObj, w.isAtom = true →
      (discoverItem strTy topo w).elems = none ∧ (discoverItem strTy topo w).entries = none := by
    intro w hw
    cases w <;> first | (simp [PyObj.isAtom] at hw; done) | (rw [discoverItem]; exact ⟨rfl, rfl⟩)
  obtain ⟨h1, h2⟩ := hitem v (ha v (by simp))
  rw [discover_seq, discoverSeq, if_neg (by simp)]
  have hr : discoverRows topo ((v :: l').map (discoverItem strTy topo)) = none := by
    unfold discoverRows
    rw [mapM_none]
    exact ⟨_, List.mem_map.2 ⟨v, by simp, rfl⟩, h1⟩
  have hd : discoverDicts topo ((v :: l').map (discoverItem strTy topo)) = none := by
    unfold discoverDicts
    rw [mapM_none]
    exact ⟨_, List.mem_map.2 ⟨v, by simp, rfl⟩, h2⟩
  rw [hr, hd, orElse_none, orElse_none, discoverRest]
  congr 1
  generalize v :: l' = l
  induction l with
  | nil => rfl
  | cons w l ih => rw [List.map_cons, List.mapM_cons, List.mapM_cons, ih]; rfl

/-- `discover` of a non-empty list, tuple or set of scalar values: if all have the same type, an array of that type;
otherwise a tuple type that lists them. -/
theorem C23.scalars (strTy : Str → Except PyErr Ty) (topo : List Node) (k : SeqKind) (l : List PyObj) (ts : List Ty)
    (hne : l ≠ []) (h : Each (fun v t => Leaf strTy topo t v) l ts)
    (hs : ∀ t ∈ ts, t.isDShape = false ∧ MayEnd t ∧ t.everywhere eqLocal = true) :
    ((∀ a ∈ ts, ∀ b ∈ ts, Same a b) → ∃ t ∈ ts, discover strTy topo (.seq k l) = .ok (.dshape [.fixed l.length, t])) ∧
    (∀ a ∈ ts, ∀ b ∈ ts, ¬ Same a b → discover strTy topo (.seq k l) = .ok (.tuple (ts.map fun t => .dshape [t]))) := by
  replace hs : ∀ t ∈ ts, t.isDShape = false ∧ t.cls ≠ some .dimension ∧ t.everywhere eqLocal = true :=
    fun t ht => ⟨(hs t ht).1, mayEnd_iff.2 (hs t ht).2.1, (hs t ht).2.2⟩
  have hat : ∀ {l : List PyObj} {ts : List Ty}, Each (fun v t => Leaf strTy topo t v) l ts →
      (∀ v ∈ l, v.isAtom = true) ∧ l.mapM (discover strTy topo) = .ok ts ∧ ts.length = l.length := by
    intro l ts h
    induction h with
    | nil => exact ⟨by simp, rfl, rfl⟩
    | cons hx _ ih =>
      obtain ⟨i1, i2, i3⟩ := ih
      refine ⟨?_, ?_, by simp [i3]⟩
      · intro v hv
        rcases List.mem_cons.1 hv with rfl | hv
        · exact hx.1
        · exact i1 v hv
      · rw [List.mapM_cons, hx.2, i2]; rfl
  obtain ⟨h1, h2, h3⟩ := hat h
  have htn : ts ≠ [] := by rintro rfl; simp at h3; exact hne (List.length_eq_zero_iff.1 h3.symm)
  have hu := uniteTuple_scalars htn hs
  rw [discover_flat hne h1, h2, ← h3]
  refine ⟨fun hsame => hu.1 fun a ha b hb => ?_, fun a ha b hb hn => hu.2 a ha b hb ?_⟩
  · exact (C08.eq_iff_same a b (hs a ha).2.2 (hs b hb).2.2).2 (hsame a ha b hb)
  · rw [← Bool.not_eq_true]
    exact fun e => hn ((C08.eq_iff_same a b (hs a ha).2.2 (hs b hb).2.2).1 e)

/-- the types of categories -/
inductive CatKind : Ty → Prop where
  | null : CatKind .null
  | int : CatKind tInt64
  | float : CatKind tFloat64
  | bool : CatKind tBool
  | delta (u : Str) : CatKind (.timedelta u)
  | time : CatKind (.time none)
  | date : CatKind .date
  | datetime : CatKind (.datetime none)
  | string : CatKind tString

theorem CatKind.scalar {t : Ty} (h : CatKind t) : t.isDShape = false ∧ t.cls ≠ some .dimension ∧ Plain t := by
  cases h <;> exact ⟨rfl, by simp [Ty.cls, tInt64, tFloat64, tBool, tString], rfl⟩

theorem CatKind.eq {a b : Ty} (ha : CatKind a) (hb : CatKind b) : pyEq a b = true ↔ a = b := by
  constructor
  · intro h
    cases ha <;> cases hb <;> first | rfl | (exact absurd h (by decide)) | skip
    case delta.delta u v =>
      simp [pyEq, eqM, Ty.noShape, Ty.target, Ty.shape, Ty.measure] at h
      rw [h]
    all_goals (simp [pyEq, eqM, Ty.noShape, Ty.target, Ty.shape, Ty.measure, tInt64, tFloat64, tBool, tString] at h)
  · rintro rfl
    exact pyEq_refl ha.scalar.2.2

theorem catKind_of {E : StrEnv} {c : Lit} {t : Ty} (h : CategoryType E c t) : CatKind t := by
  cases h with
  | int => exact .int
  | bool => exact .bool
  | empty => exact .null
  | str _ h => cases h <;> constructor

theorem category_discover {E : StrEnv} {topo : List Node} {c : Lit} {t : Ty} :
    discover (discoverStr E) topo c.obj = .ok t ↔ CategoryType E c t := by
  cases c with
  | int i =>
    constructor
    · intro h; cases h; exact .int i
    · intro h; cases h; rfl
  | bool b =>
    constructor
    · intro h; cases h; exact .bool b
    · intro h; cases h; rfl
  | str s =>
    by_cases hs : s = []
    · subst hs
      constructor
      · intro h; cases h; exact .empty
      · intro h
        cases h with
        | empty => rfl
        | str h => exact absurd rfl h
    · rw [show (Lit.str s).obj = .str s from rfl, C46.exact E topo s hs t]
      constructor
      · exact .str hs
      · intro h
        cases h with
        | empty => exact absurd rfl hs
        | str _ h => exact h

theorem obj_atom (c : Lit) : c.obj.isAtom = true := by cases c <;> rfl

theorem categories_mapM {E : StrEnv} {topo : List Node} {l : List Lit} {ts : List Ty} :
    (l.map Lit.obj).mapM (discover (discoverStr E) topo) = .ok ts ↔ Each (CategoryType E) l ts := by
  rw [List.mapM_map]
  exact mapM_each fun c _ t => category_discover

theorem Each.mem_right {α β : Type} {R : α → β → Prop} {l : List α} {m : List β} (h : Each R l m) :
    ∀ b ∈ m, ∃ a ∈ l, R a b := by
  induction h with
  | nil => intro b hb; cases hb
  | cons hx _ ih =>
    intro b hb
    rcases List.mem_cons.1 hb with rfl | hb
    · exact ⟨_, by simp, hx⟩
    · obtain ⟨a, ha, h⟩ := ih b hb; exact ⟨a, by simp [ha], h⟩

theorem Each.mem_left {α β : Type} {R : α → β → Prop} {l : List α} {m : List β} (h : Each R l m) :
    ∀ a ∈ l, ∃ b ∈ m, R a b := by
  induction h with
  | nil => intro b hb; cases hb
  | cons hx _ ih =>
    intro a ha
    rcases List.mem_cons.1 ha with rfl | ha
    · exact ⟨_, by simp, hx⟩
    · obtain ⟨b, hb, h⟩ := ih a ha; exact ⟨b, by simp [hb], h⟩

theorem Each.length_eq {α β : Type} {R : α → β → Prop} {l : List α} {m : List β} (h : Each R l m) :
    l.length = m.length := by induction h <;> simp_all

theorem categoryType_unique {E : StrEnv} {c : Lit} {t u : Ty} (h1 : CategoryType E c t) (h2 : CategoryType E c u) :
    t = u := by
  have a := (category_discover (topo := [])).2 h1
  have b := (category_discover (topo := [])).2 h2
  rw [a] at b
  cases b
  rfl

/-- what `discover` of the categories returns -/
theorem discoverCategories_cases (E : StrEnv) (topo : List Node) (l : List Lit) (hne : l ≠ []) (r : Ty) :
    discoverCategories E topo l = .ok r ↔
      (∃ t, (∀ c ∈ l, CategoryType E c t) ∧ r = .dshape [.fixed l.length, t]) ∨
      ∃ ts a b, Each (CategoryType E) l ts ∧ a ∈ ts ∧ b ∈ ts ∧ a ≠ b ∧ r = .tuple (ts.map fun t => .dshape [t]) := by
  have hflat : discoverCategories E topo l =
      (do uniteTuple (← (l.map Lit.obj).mapM (discover (discoverStr E) topo))) :=
    discover_flat (by simpa using hne) fun v hv => by
      obtain ⟨c, -, rfl⟩ := List.mem_map.1 hv
      exact obj_atom c
  rw [hflat]
  have key : ∀ ts, Each (CategoryType E) l ts →
      ((∀ a ∈ ts, ∀ b ∈ ts, a = b) ∧ ∃ t ∈ ts, uniteTuple ts = .ok (.dshape [.fixed l.length, t])) ∨
      ((∃ a ∈ ts, ∃ b ∈ ts, a ≠ b) ∧ uniteTuple ts = .ok (.tuple (ts.map fun t => .dshape [t]))) := by
    intro ts h
    have hk : ∀ t ∈ ts, CatKind t := fun t ht => by
      obtain ⟨c, -, hc⟩ := h.mem_right t ht
      exact catKind_of hc
    have hn : ts ≠ [] := by
      rintro rfl
      have := h.length_eq
      exact hne (List.length_eq_zero_iff.1 this)
    have hu := uniteTuple_scalars hn fun t ht => (hk t ht).scalar
    by_cases hall : ∀ a ∈ ts, ∀ b ∈ ts, a = b
    · refine .inl ⟨hall, ?_⟩
      rw [h.length_eq]
      exact hu.1 fun a ha b hb => ((hk a ha).eq (hk b hb)).2 (hall a ha b hb)
    · simp only [Classical.not_forall] at hall
      obtain ⟨a, ha, b, hb, hab⟩ := hall
      refine .inr ⟨⟨a, ha, b, hb, hab⟩, hu.2 a ha b hb ?_⟩
      rw [← Bool.not_eq_true]
      exact fun e => hab (((hk a ha).eq (hk b hb)).1 e)
  constructor
  · intro h
    simp only [bind_ok] at h
    obtain ⟨ts, hts, hr⟩ := h
    have he := categories_mapM.1 hts
    rcases key ts he with ⟨hall, t, ht, hu⟩ | ⟨⟨a, ha, b, hb, hab⟩, hu⟩
    · rw [hr] at hu
      cases hu
      refine .inl ⟨t, fun c hc => ?_, rfl⟩
      obtain ⟨u, hu, h⟩ := he.mem_left c hc
      rw [hall t ht u hu]
      exact h
    · rw [hr] at hu
      cases hu
      exact .inr ⟨ts, a, b, he, ha, hb, hab, rfl⟩
  · rintro (⟨t, ht, rfl⟩ | ⟨ts, a, b, he, ha, hb, hab, rfl⟩)
    · have he : Each (CategoryType E) l (l.map fun _ => t) := by
        clear hflat key hne
        induction l with
        | nil => exact .nil
        | cons c l ih => exact .cons (ht c (by simp)) (ih fun c hc => ht c (by simp [hc]))
      have hm := categories_mapM (topo := topo).2 he
      rw [hm]
      rcases key _ he with ⟨-, u, hu, h⟩ | ⟨⟨a, ha, b, hb, hab⟩, -⟩
      · obtain ⟨_, _, rfl⟩ := List.mem_map.1 hu
        exact h
      · obtain ⟨_, _, rfl⟩ := List.mem_map.1 ha
        obtain ⟨_, _, rfl⟩ := List.mem_map.1 hb
        exact absurd rfl hab
    · have hm := categories_mapM (topo := topo).2 he
      rw [hm]
      rcases key _ he with ⟨hall, -⟩ | ⟨-, h⟩
      · exact absurd (hall a ha b hb) hab
      · exact h

theorem categories_measure (E : StrEnv) (topo : List Node) (l : List Lit) (t : Ty) :
    (discoverCategories E topo l).map Ty.measure = .ok t ↔ CategoriesType E l t := by
  by_cases hne : l = []
  · subst hne
    have e : discoverCategories E topo [] = .ok (.dshape [.var, tString]) := C24.empty _ _ _
    rw [e]
    constructor
    · intro h; cases h; exact .empty
    · intro h
      cases h with
      | empty => rfl
      | same h => exact absurd rfl h
      | mixed h ha => cases h; cases ha
  · constructor
    · intro h
      cases hd : discoverCategories E topo l with
      | error e => rw [hd] at h; cases h
      | ok r =>
        rw [hd] at h
        rcases (discoverCategories_cases E topo l hne r).1 hd with ⟨u, hu, rfl⟩ | ⟨ts, a, b, he, ha, hb, hab, rfl⟩
        · cases h; exact .same hne hu
        · cases h; exact .mixed he ha hb hab
    · intro h
      cases h with
      | empty => exact absurd rfl hne
      | same _ h =>
        rw [(discoverCategories_cases E topo l hne _).2 (.inl ⟨t, h, rfl⟩)]; rfl
      | mixed he ha hb hab =>
        rw [(discoverCategories_cases E topo l hne _).2 (.inr ⟨_, _, _, he, ha, hb, hab, rfl⟩)]; rfl


theorem catElem_lits (l : List Lit) : (l.map Arg.lit).mapM catElem = .ok l := by
  induction l with
  | nil => rfl
  | cons c l ih => rw [List.map_cons, List.mapM_cons, ih]; rfl

theorem categorical_call (disc : List Lit → Except PyErr Ty) (l : List Lit) :
    cCategorical disc [.lits l] [] = ((disc l).map Ty.measure).map fun t => .categorical l t false := by
  have hb : bindArgs [py"categories", py"type", py"ordered"] [.lits l] [] = .ok [some (.lits l), none, none] := rfl
  unfold cCategorical
  simp only [hb, Arg.iter, catElem_lits, bind, Except.bind]
  cases disc l <;> rfl

/-- `Categorical(categories)`: the type is that of the categories; the result is not ordered. -/
theorem C53.inferred (E : StrEnv) (topo : List Node) (l : List Lit) (r : Ty) :
    cCategorical (discoverCategories E topo) [.lits l] [] = .ok r ↔
      ∃ t, CategoriesType E l t ∧ r = .categorical l t false := by
  rw [categorical_call]
  constructor
  · intro h
    cases hm : (discoverCategories E topo l).map Ty.measure with
    | error e => rw [hm] at h; cases h
    | ok t => rw [hm] at h; cases h; exact ⟨t, (categories_measure E topo l t).1 hm, rfl⟩
  · rintro ⟨t, ht, rfl⟩
    rw [(categories_measure E topo l t).2 ht]
    rfl

theorem category_raises {E : StrEnv} {topo : List Node} {c : Lit} {e : PyErr} :
    discover (discoverStr E) topo c.obj = .error e ↔ ∃ s, c = .str s ∧ s ≠ [] ∧ NotUnderstood E s e := by
  cases c with
  | int i => exact ⟨fun h => (by cases h), fun ⟨_, h, _⟩ => (by cases h)⟩
  | bool i => exact ⟨fun h => (by cases h), fun ⟨_, h, _⟩ => (by cases h)⟩
  | str s =>
    by_cases hs : s = []
    · subst hs
      exact ⟨fun h => (by cases h), fun ⟨s, h1, h2, _⟩ => by cases h1; exact absurd rfl h2⟩
    · rw [show (Lit.str s).obj = .str s from rfl, C46.raises E topo s hs e]
      exact ⟨fun h => ⟨s, rfl, hs, h⟩, fun ⟨_, h1, _, h⟩ => by cases h1; exact h⟩

theorem categories_error (E : StrEnv) (topo : List Node) (l : List Lit) (e : PyErr) :
    discoverCategories E topo l = .error e ↔ ∃ a s b, l = a ++ .str s :: b ∧ s ≠ [] ∧ NotUnderstood E s e ∧
      ∀ c ∈ a, ∃ t, CategoryType E c t := by
  by_cases hne : l = []
  · subst hne
    have e : discoverCategories E topo [] = .ok (.dshape [.var, tString]) := C24.empty _ _ _
    rw [e]
    exact ⟨fun h => (by cases h), fun ⟨a, s, b, h, _⟩ => by simp at h⟩
  have hflat : discoverCategories E topo l =
      (do uniteTuple (← (l.map Lit.obj).mapM (discover (discoverStr E) topo))) :=
    discover_flat (by simpa using hne) fun v hv => by
      obtain ⟨c, -, rfl⟩ := List.mem_map.1 hv
      exact obj_atom c
  have hm : (discoverCategories E topo l = .error e) ↔
      (l.map Lit.obj).mapM (discover (discoverStr E) topo) = .error e := by
    cases hx : (l.map Lit.obj).mapM (discover (discoverStr E) topo) with
    | error e' => rw [hflat, hx]; exact ⟨fun h => by cases h; rfl, fun h => by cases h; rfl⟩
    | ok ts =>
      refine ⟨fun h => ?_, fun h => by cases h⟩
      exfalso
      have he := categories_mapM.1 hx
      have : ∃ r, discoverCategories E topo l = .ok r := by
        by_cases hall : ∀ a ∈ ts, ∀ b ∈ ts, a = b
        · cases hts : ts with
          | nil =>
            rw [hts] at he
            exact absurd (List.length_eq_zero_iff.1 (by simpa using he.length_eq)) hne
          | cons t ts' =>
            refine ⟨_, (discoverCategories_cases E topo l hne _).2 (.inl ⟨t, fun c hc => ?_, rfl⟩)⟩
            obtain ⟨u, hu, h⟩ := he.mem_left c hc
            rw [hall t (by rw [hts]; simp) u hu]
            exact h
        · simp only [Classical.not_forall] at hall
          obtain ⟨a, ha, b, hb, hab⟩ := hall
          exact ⟨_, (discoverCategories_cases E topo l hne _).2 (.inr ⟨ts, a, b, he, ha, hb, hab, rfl⟩)⟩
      obtain ⟨r, hr⟩ := this
      rw [hr] at h
      cases h
  rw [hm]
  clear hm hflat hne
  induction l with
  | nil => exact ⟨fun h => (by cases h), fun ⟨a, s, b, h, _⟩ => by simp at h⟩
  | cons c l ih =>
    rw [List.map_cons, List.mapM_cons]
    cases hc : discover (discoverStr E) topo c.obj with
    | error e' =>
      obtain ⟨s, rfl, hs, hn⟩ := category_raises.1 hc
      constructor
      · intro h; cases h; exact ⟨[], s, l, rfl, hs, hn, by simp⟩
      · rintro ⟨a, s', b, h, hs', hn', ha⟩
        cases a with
        | nil =>
          cases h
          have := category_raises (topo := topo).2 ⟨s, rfl, hs, hn'⟩
          rw [hc] at this
          cases this
          rfl
        | cons x a =>
          cases h
          obtain ⟨t, ht⟩ := ha (.str s) (by simp)
          rw [category_discover.2 ht] at hc
          cases hc
    | ok t =>
      have ht := category_discover.1 hc
      have hx : (do let r ← (Except.ok t : Except PyErr Ty); let rs ← (l.map Lit.obj).mapM (discover (discoverStr E) topo)
                    pure (r :: rs)) = Except.error e ↔
          (l.map Lit.obj).mapM (discover (discoverStr E) topo) = .error e := by
        cases (l.map Lit.obj).mapM (discover (discoverStr E) topo) with
        | error e' => exact ⟨fun h => by cases h; rfl, fun h => by cases h; rfl⟩
        | ok ts => exact ⟨fun h => (by cases h), fun h => by cases h⟩
      refine hx.trans (ih.trans ?_)
      constructor
      · rintro ⟨a, s, b, rfl, hs, hn, ha⟩
        refine ⟨c :: a, s, b, rfl, hs, hn, fun x hx => ?_⟩
        rcases List.mem_cons.1 hx with rfl | hx
        · exact ⟨t, ht⟩
        · exact ha x hx
      · rintro ⟨a, s, b, h, hs, hn, ha⟩
        cases a with
        | nil =>
          cases h
          have := category_raises (topo := topo).2 ⟨s, rfl, hs, hn⟩
          rw [hc] at this
          cases this
        | cons x a =>
          cases h
          exact ⟨a, s, b, rfl, hs, hn, fun y hy => ha y (by simp [hy])⟩

/-- `Categorical(categories)` raises exactly when a category is a string on which `discover` raises (C46), and the
exception is that of the first such category. -/
theorem C53.raises (E : StrEnv) (topo : List Node) (l : List Lit) (e : PyErr) :
    cCategorical (discoverCategories E topo) [.lits l] [] = .error e ↔
      ∃ a s b, l = a ++ .str s :: b ∧ s ≠ [] ∧ NotUnderstood E s e ∧ ∀ c ∈ a, ∃ t, CategoryType E c t := by
  rw [categorical_call, ← categories_error E topo]
  cases discoverCategories E topo l with
  | error e' => exact ⟨fun h => by cases h; rfl, fun h => by cases h; rfl⟩
  | ok ts => exact ⟨fun h => (by cases h), fun h => by cases h⟩

/-- A type that is given is taken as it is, whatever the categories are: nothing is discovered or checked. -/
theorem C53.given (disc : List Lit → Except PyErr Ty) (l : List Lit) (t : Ty) :
    cCategorical disc [.lits l, .ds t] [] = .ok (.categorical l t.measure false) ∧
    cCategorical disc [.lits l] [(py"type", .ds t)] = .ok (.categorical l t.measure false) ∧
    ∀ b, cCategorical disc [.lits l, .ds t, .lit (.bool b)] [] = .ok (.categorical l t.measure b) := by
  have h1 : bindArgs [py"categories", py"type", py"ordered"] [.lits l, .ds t] [] =
      .ok [some (.lits l), some (.ds t), none] := rfl
  have h2 : bindArgs [py"categories", py"type", py"ordered"] [.lits l] [(py"type", .ds t)] =
      .ok [some (.lits l), some (.ds t), none] := rfl
  have h3 : ∀ b, bindArgs [py"categories", py"type", py"ordered"] [.lits l, .ds t, .lit (.bool b)] [] =
      .ok [some (.lits l), some (.ds t), some (.lit (.bool b))] := fun b => rfl
  have ht : (Arg.ds t).truthy = true := rfl
  refine ⟨?_, ?_, fun b => ?_⟩ <;> unfold cCategorical <;>
    simp only [h1, h2, h3, Arg.iter, catElem_lits, bind, Except.bind, ht, if_true]

/-- what `discover` of the categories returns is well formed -/
theorem categories_wf (env : Env) (E : StrEnv) (topo : List Node) (l : List Lit) (r : Ty)
    (h : discoverCategories E topo l = .ok r) : WF env r := by
  have hk : ∀ c t, CategoryType E c t → WF env t := by
    intro c t hc
    cases hc with
    | int => exact rfl
    | bool => exact rfl
    | empty => exact rfl
    | str hs hu =>
      have := C46.kinds E [] _ _ ((C46.exact E [] _ hs _).2 hu)
      rcases this with rfl | rfl | rfl | rfl | ⟨u, hcu, rfl⟩ | rfl | rfl | rfl | rfl <;> first | exact rfl | skip
      show localOk env (.timedelta u) = true
      have : u ∈ timeUnits := hcu
      simpa [localOk] using this
  have hm : ∀ c t, CategoryType E c t → WF env (.dshape [t]) := by
    intro c t hc
    have h1 := hk c t hc
    have h2 := (catKind_of hc).scalar
    unfold WF at *
    simp only [Ty.everywhere, everywhereL, h1, Bool.and_true, localOk]
    simp [h2.1, h2.2.1, endsOk_cls]
  by_cases hne : l = []
  · subst hne
    have e : discoverCategories E topo [] = .ok (.dshape [.var, tString]) := C24.empty _ _ _
    rw [e] at h
    cases h
    exact rfl
  rcases (discoverCategories_cases E topo l hne r).1 h with ⟨t, ht, rfl⟩ | ⟨ts, a, b, he, -, -, -, rfl⟩
  · obtain ⟨c, l', rfl⟩ := List.exists_cons_of_ne_nil hne
    have h1 := hk c t (ht c (by simp))
    have h2 := (catKind_of (ht c (by simp))).scalar
    unfold WF at *
    simp only [Ty.everywhere, everywhereL, h1, Bool.and_true, localOk]
    simp [h2.1, h2.2.1, Ty.isDim, endsOk_cls]
    exact rfl
  · unfold WF
    have : everywhereL (localOk env) (ts.map fun t => .dshape [t]) = true := by
      have hall : ∀ t ∈ ts, WF env (.dshape [t]) := fun t ht => by
        obtain ⟨c, -, hc⟩ := he.mem_right t ht
        exact hm c t hc
      clear he h
      induction ts with
      | nil => rfl
      | cons t ts ih =>
        simp only [List.map_cons, everywhereL, Bool.and_eq_true]
        exact ⟨hall t (by simp), ih fun t ht => hall t (by simp [ht])⟩
    simp [Ty.everywhere, this, localOk, Ty.isDShape]

theorem notUnderstood_error {E : StrEnv} {s : Str} {e : PyErr} (h : NotUnderstood E s e) :
    e = .overflow ∨ e = .indexError ∨ E.dateparse s = .error e := by
  cases h with
  | delta _ _ _ h => cases h <;> simp
  | dateutil _ h => exact .inr (.inr h)

/-- `dshape` with the real `discover` for the categories terminates on every string (given that dateutil does). -/
theorem C53.terminates (env : Env) (E : StrEnv) (topo : List Node) (hE : ∀ s, Returns (E.dateparse s)) (s : Str) :
    Returns (dshape env (discoverCategories E topo) s) := by
  apply C03.dshape
  intro l h
  obtain ⟨_, s, _, _, _, hn, _⟩ := (categories_error E topo l _).1 h
  rcases notUnderstood_error hn with h | h | h
  · cases h
  · cases h
  · exact hE s h

/-- A syntax error of `dshape` with the real `discover` carries an offset inside its text (C05). -/
theorem C53.offset (env : Env) (E : StrEnv) (topo : List Node) (hE : ∀ s, Returns (E.dateparse s))
    (hs : ∀ s tx p m, E.dateparse s ≠ .error (.syntax tx p m)) (s tx : Str) (p : Nat) (m : Str)
    (h : dshape env (discoverCategories E topo) s = .error (.syntax tx p m)) :
    p ≤ tx.length ∧ (tx = s ∨ tx.length < s.length) := by
  refine C05.offset env _ (fun l h => ?_) (fun l tx p m h => ?_) s tx p m h
  all_goals
    obtain ⟨_, s, _, _, _, hn, _⟩ := (categories_error E topo l _).1 h
    rcases notUnderstood_error hn with h | h | h
    · cases h
    · cases h
    · first | exact hE s h | exact hs s _ _ _ h

/-- Everything `dshape` returns with the real `discover` for the categories is well formed: the hypothesis about
`discover` of the theorems of C10 is met. -/
theorem C53.wellformed (env : Env) (E : StrEnv) (topo : List Node) (s : Str) (t : Ty)
    (h : dshape env (discoverCategories E topo) s = .ok t) :
    (∃ ps, t = .dshape ps) ∧ ∀ u, Occurs u t → localOk env u = true :=
  C10.wellformed env _ (categories_wf env E topo) s t h

/-- `dshape` with the real `discover`, on a text: `categorical[[1, 2]]` is a categorical of `int64`;
`categorical[["12 days", "3 days"]]` one of time deltas in days; `categorical[["a", 1]]` has a tuple type;
`categorical[["1 sss"]]` raises `IndexError`. -/
theorem C53.examples (env : Env) (topo : List Node) :
    dshape env (discoverCategories asciiEnv topo) (py"categorical[[1, 2]]") =
      .ok (.dshape [.categorical [.int 1, .int 2] tInt64 false]) ∧
    dshape env (discoverCategories asciiEnv topo) (py"categorical[['12 days', '3 days']]") =
      .ok (.dshape [.categorical [.str (py"12 days"), .str (py"3 days")] (.timedelta (py"D")) false]) ∧
    dshape env (discoverCategories asciiEnv topo) (py"categorical[['a', 'true']]") =
      .ok (.dshape [.categorical [.str (py"a"), .str (py"true")] (.tuple [.dshape [tString], .dshape [tBool]]) false]) ∧
    dshape env (discoverCategories asciiEnv topo) (py"categorical[['1 sss']]") = .error .indexError := by
  refine ⟨?_, ?_, ?_, ?_⟩ <;> rfl

end DS
