import Verif.Spec.Tables
import Verif.Props.Discovered
import Verif.Props.Categories
import Verif.Props.Mappings

/-
C55: `discover` on tables: lists of rows of the same length, and lists of dicts.
-/
namespace DS

theorem turns_iff (a b : Node) : Turns a b ↔ Reaches discEdges a b := by
  constructor
  · intro h
    induction h with
    | refl => exact .refl _
    | step _ he ih => exact .tail ih ((C26.table _ _).2 he)
  · intro h
    induction h with
    | refl => exact .refl _
    | tail _ he ih => exact .step ih ((C26.table _ _).1 he)

/-- what `discover` returns for a cell -/
structure Cell (t : Ty) : Prop where
  disc : Disc (fun _ => true) t
  single : t.isSingleton = false
  option : t.isOption = false

theorem Cell.plain {t : Ty} (h : Cell t) : Plain t := by
  refine everywhere_mono ?_ t h.disc.all
  intro t h
  exact localOk_eqLocal ⟨fun _ => false, fun _ => false⟩ t (discLocal_localOk _ t h)

theorem cell_discover {E : StrEnv} {topo : List Node} {v : PyObj} {t : Ty} (h : discover (discoverStr E) topo v = .ok t) : Cell t := by
  obtain ⟨-, h1, h2, -⟩ := discover_result (C46.scalar E) topo v t h
  exact ⟨disc_discover E topo v t (fun _ _ => rfl) h, h1, h2⟩

theorem cell_null : Cell .null := ⟨disc_node .null, rfl, rfl⟩

theorem leastCommon_iff {ts : List Ty} (hts : ∀ t ∈ ts, t.isSingleton = false) (n : Node) : LeastCommon ts n ↔ LeastFor ts n := by
  have key : ∀ t ∈ ts, ∀ n, (∃ m : Node, t = m.ty ∧ Turns m n) ↔ ConvertsTo t n := by
    intro t ht n
    constructor
    · rintro ⟨m, rfl, h⟩
      exact ⟨m, pyEq_refl (node_everywhere m), (turns_iff m n).1 h⟩
    · rintro ⟨m, h, hr⟩
      exact ⟨m, pyEq_node (hts t ht) h, (turns_iff m n).2 hr⟩
  constructor
  · rintro ⟨h1, h2⟩
    exact ⟨fun t ht hn => (key t ht n).1 (h1 t ht hn), fun m hm => (turns_iff n m).1 (h2 m fun t ht hn => (key t ht m).2 (hm t ht hn))⟩
  · rintro ⟨h1, h2⟩
    exact ⟨fun t ht hn => (key t ht n).2 (h1 t ht hn), fun m hm => (turns_iff n m).2 (h2 m fun t ht hn => (key t ht m).1 (hm t ht hn))⟩

theorem reaches_antisymm {a b : Node} (h : Reaches discEdges a b) (h' : Reaches discEdges b a) : a = b := by
  obtain ⟨⟨topo, ht⟩, hall⟩ := C26.toposorted
  obtain ⟨topo', e, ho⟩ := hall _ ht
  rcases reaches_idx ho h with h | h
  · exact h
  · rcases reaches_idx ho h' with h' | h'
    · exact h'.symm
    · omega

theorem leastFor_unique {ts : List Ty} {n m : Node} (hn : LeastFor ts n) (hm : LeastFor ts m) : n = m :=
  reaches_antisymm (hn.2 m hm.1) (hm.2 n hn.1)

theorem same_iff {a b : Ty} (ha : Cell a) (hb : Cell b) : Same a b ↔ pyEq a b = true :=
  (C08.eq_iff_same a b ha.plain hb.plain).symm

/-- `n * t` -/
theorem disc_mul {n : Nat} {t : Ty} (h : Disc ok t) : mul (.int n) (.ty t) = .ok (.dshape (.fixed n :: asParams t)) := by
  rw [mul_int_eq]
  obtain ⟨dims, m, e, h1, h2, h3⟩ := disc_asParams h
  rw [e]
  apply mkDS_self.2
  refine .of ⟨.fixed n :: dims, m, rfl, ?_, (measureLike_iff h2.all).1 h2.top, ?_⟩
  · intro d hd
    have := extent_cons (d := .fixed n) rfl h1 d hd
    cases d <;> simp [Ty.isExtent] at this <;> simp [Ty.cls]
  · intro p hp
    have : p.isDShape = false := by
      rcases List.mem_cons.1 hp with rfl | hp
      · rfl
      rcases List.mem_append.1 hp with hp | hp
      · exact (extent_all (ok := ok) (h1 p hp)).2
      · rw [List.mem_singleton.1 hp]; exact h3
    cases p <;> first | rfl | (simp [Ty.isDShape] at this)

theorem sub_fixed {n : Nat} {t : Ty} (h : Disc ok t) : subshape (.int 0) (.dshape (.fixed n :: asParams t)) = .ok t.wrap := by
  obtain ⟨dims, m, e, h1, h2, h3⟩ := disc_asParams h
  have hw : t.wrap = .dshape (asParams t) := by
    unfold Ty.wrap
    cases hd : t.isDShape with
    | false => rw [asParams_of hd]; rfl
    | true => cases t <;> simp [Ty.isDShape] at hd; rfl
  have hok : mkDS (dims ++ [m]) = .ok (.dshape (dims ++ [m])) := by
    apply mkDS_self.2
    refine .of ⟨dims, m, rfl, ?_, (measureLike_iff h2.all).1 h2.top, ?_⟩
    · intro d hd
      have := h1 d hd
      cases d <;> simp [Ty.isExtent] at this <;> simp [Ty.cls]
    · intro p hp
      have : p.isDShape = false := by
        rcases List.mem_append.1 hp with hp | hp
        · exact (extent_all (ok := ok) (h1 p hp)).2
        · rw [List.mem_singleton.1 hp]; exact h3
      cases p <;> first | rfl | (simp [Ty.isDShape] at this)
  rw [subshape, hw, e]
  simp only [head_dshape, bind, Except.bind]
  rw [if_pos (by rfl)]
  unfold subarray
  simp only
  rw [if_neg (by simp; omega)]
  cases dims with
  | nil => simpa using hok
  | cons d ds =>
    rw [if_neg (by simp; omega)]
    have : pyDrop (Ty.fixed n :: (d :: ds ++ [m])) 1 = d :: ds ++ [m] := by simp [pyDrop]
    rw [this, hok]

theorem all_same {ts : List Ty} (hts : ∀ t ∈ ts, Cell t) {t : Ty} (ht : t ∈ ts) (h : ∀ u ∈ ts, Same t u) :
    ∀ a ∈ ts, ∀ b ∈ ts, pyEq a b = true := by
  intro a ha b hb
  have h1 := (same_iff (hts t ht) (hts a ha)).1 (h a ha)
  have h2 := (same_iff (hts t ht) (hts b hb)).1 (h b hb)
  exact pyEq_trans (hts a ha).plain (hts t ht).plain (hts b hb).plain (pyEq_symm (hts t ht).plain (hts a ha).plain h1) h2

theorem null_same {t : Ty} (h : Cell t) : Same t .null ↔ t = .null := by
  rw [same_iff h cell_null]
  exact pyEq_null h.single

/-- the code for one column whose cells have been discovered -/
theorem column_ok {topo : List Node} (ts : List Ty) :
    columnType topo (ts.map .ok) = (do subshape (.int 0) (← uniteFull topo ts)) := by
  unfold columnType column
  have : (ts.map (Except.ok (ε := PyErr))).mapM id = .ok ts := by
    induction ts with
    | nil => rfl
    | cons t ts ih => rw [List.map_cons, List.mapM_cons, ih]; rfl
  rw [this]
  rfl

/-- what `unite_base` does with a column that is not uniform and whose non-null cells are scalars -/
theorem uniteBase_units {topo : List Node} {fuel : Nat} {ts : List Ty} (hts : ∀ t ∈ ts, Cell t)
    (hu : ∀ t ∈ ts, t ≠ .null → t.isUnit = true) (hex : ∃ t ∈ ts, t ≠ .null) :
    uniteBase topo (fuel + 1) ts = (do
      let base ← lowestCommon topo (ts.filter fun t => !isNull t)
      mul (.int ts.length) (.ty (if ts.any isNull then mkOption base else base))) ∧
    (ts.any isNull = true ↔ .null ∈ ts) ∧ ∀ t, t ∈ ts.filter (fun t => !isNull t) ↔ t ∈ ts ∧ t ≠ .null := by
  have hlaunder : ts.map launderTy = ts := by
    conv => rhs; rw [← List.map_id ts]
    exact List.map_inj_left.2 fun t ht => launderTy_of_not_singleton (hts t ht).single
  have hg : ∀ t, t ∈ ts.filter (fun t => !isNull t) ↔ t ∈ ts ∧ t ≠ .null := by
    intro t
    rw [List.mem_filter]
    constructor
    · rintro ⟨h1, h2⟩
      refine ⟨h1, fun e => ?_⟩
      rw [(isNull_iff (hts t h1).single).2 e] at h2
      cases h2
    · rintro ⟨h1, h2⟩
      refine ⟨h1, ?_⟩
      cases hn : isNull t with
      | true => exact absurd ((isNull_iff (hts t h1).single).1 hn) h2
      | false => rfl
  refine ⟨?_, ?_, hg⟩
  · rw [uniteBase]
    simp only [hlaunder]
    split
    · rename_i he
      obtain ⟨t, ht, htn⟩ := hex
      have := (hg t).2 ⟨ht, htn⟩
      rw [he] at this
      cases this
    · rw [if_pos]
      rw [List.all_eq_true]
      intro t ht
      exact hu t ((hg t).1 ht).1 ((hg t).1 ht).2
  · rw [List.any_eq_true]
    constructor
    · rintro ⟨t, ht, h⟩; rwa [(isNull_iff (hts t ht).single).1 h] at ht
    · intro h; exact ⟨.null, h, rfl⟩

theorem leastFor_units {ts : List Ty} (hts : ∀ t ∈ ts, Cell t) {n : Node} (h : LeastFor ts n) :
    ∀ t ∈ ts, t ≠ .null → (∃ m : Node, pyEq t m.ty = true) ∧ t.isUnit = true := by
  intro t ht hn
  obtain ⟨m, hm, -⟩ := h.1 t ht hn
  refine ⟨⟨m, hm⟩, ?_⟩
  rw [pyEq_node (hts t ht).single hm]
  cases m <;> rfl

/-- a column that has a type -/
theorem column_of {topo : List Node} (htopo : Toposort discEdges (.ok topo)) {ts : List Ty} (hts : ∀ t ∈ ts, Cell t)
    {c : Ty} (h : ColumnOf ts c) :
    columnType topo (ts.map .ok) = .ok c.wrap ∧ Disc (fun _ => true) c ∧ c.isSingleton = false ∧
      (c.isDShape = false → c.shape = []) := by
  have hpl : ∀ t ∈ ts, Plain t := fun t ht => (hts t ht).plain
  have least : ∀ n, LeastCommon ts n → (∃ t ∈ ts, t ≠ .null) → (∃ a ∈ ts, ∃ b ∈ ts, pyEq a b = false) →
      columnType topo (ts.map .ok) = .ok (if ts.any isNull then Ty.option n.ty else n.ty).wrap := by
    intro n hn hex ⟨a, ha, b, hb, hab⟩
    rw [leastCommon_iff fun t ht => (hts t ht).single] at hn
    have hu := leastFor_units hts hn
    obtain ⟨h1, h2, h3⟩ := uniteBase_units (topo := topo) (fuel := depthL ts) hts (fun t ht hn => (hu t ht hn).2) hex
    obtain ⟨r, hr, hr1, hr2⟩ := C26.least topo htopo (ts.filter fun t => !isNull t) (by
      obtain ⟨t, ht, hn⟩ := hex
      intro e
      have := (h3 t).2 ⟨ht, hn⟩
      rw [e] at this
      cases this) (by
      intro t ht
      obtain ⟨h4, h5⟩ := (h3 t).1 ht
      exact ⟨hpl t h4, (hu t h4 h5).1⟩)
    have hrn : r = n := by
      refine leastFor_unique (ts := ts) ⟨fun t ht hn => hr1 t ((h3 t).2 ⟨ht, hn⟩), fun m hm => hr2 m fun t ht => ?_⟩ hn
      exact hm t ((h3 t).1 ht).1 ((h3 t).1 ht).2
    subst hrn
    rw [column_ok]
    unfold uniteFull uniteIdentical
    rw [if_neg (pyDistinct_two hpl ha hb hab)]
    simp only [bind, Except.bind] at h1 ⊢
    rw [h1, hr]
    simp only
    cases hnull : ts.any isNull with
    | true =>
      simp only [if_true]
      have hd : Disc (fun _ => true) (mkOption r.ty) := disc_option (disc_node r) (by cases r <;> rfl) (by cases r <;> rfl)
      rw [disc_mul hd]
      simp only
      rw [sub_fixed hd]
      cases r <;> rfl
    | false =>
      simp only [Bool.false_eq_true, if_false]
      have hd : Disc (fun _ => true) r.ty := disc_node r
      rw [disc_mul hd]
      simp only
      rw [sub_fixed hd]
  have hnull : ts.any isNull = true ↔ Ty.null ∈ ts := by
    rw [List.any_eq_true]
    constructor
    · rintro ⟨t, ht, h⟩; rwa [(isNull_iff (hts t ht).single).1 h] at ht
    · intro h; exact ⟨.null, h, rfl⟩
  cases h with
  | @same t us h =>
    have hct := hts c (by simp)
    refine ⟨?_, hct.disc, hct.single, fun hd => ?_⟩
    · have := all_same hts (t := c) (by simp) (by
        intro u hu
        rcases List.mem_cons.1 hu with rfl | hu
        · exact (same_iff hct hct).2 (pyEq_refl hct.plain)
        · exact h u hu)
      rw [column_ok]
      unfold uniteFull uniteIdentical
      rw [if_pos (pyDistinct_one hpl (by simp) this)]
      simp only [bind, Except.bind, disc_mul hct.disc]
      exact sub_fixed hct.disc
    · have := hct.option
      cases c <;> first | rfl | (simp [Ty.isDShape] at hd; done) | (simp [Ty.isOption] at this)
  | @mixed _ n hn hns hl =>
    obtain ⟨a, ha, b, hb, hab⟩ := hns
    have := least n hl ⟨a, ha, fun e => hn (e ▸ ha)⟩ ⟨a, ha, b, hb, by
      rw [← Bool.not_eq_true]; exact fun e => hab ((same_iff (hts a ha) (hts b hb)).2 e)⟩
    rw [if_neg (fun e => hn (hnull.1 e))] at this
    refine ⟨this, disc_node n, ?_⟩
    cases n <;> exact ⟨rfl, fun _ => rfl⟩
  | @optional _ n hn hex hl =>
    obtain ⟨b, hb, hbn⟩ := hex
    have := least n hl ⟨b, hb, hbn⟩ ⟨b, hb, .null, hn, by
      rw [← Bool.not_eq_true]; exact fun e => hbn ((pyEq_null (hts b hb).single).1 e)⟩
    rw [if_pos (hnull.2 hn)] at this
    have hd : Disc (fun _ => true) (mkOption n.ty) := disc_option (disc_node n) (by cases n <;> rfl) (by cases n <;> rfl)
    have e : mkOption n.ty = .option n.ty := by cases n <;> rfl
    rw [e] at hd
    exact ⟨this, hd, rfl, fun _ => by cases n <;> rfl⟩

theorem filter_null {ts : List Ty} (hts : ∀ t ∈ ts, t.isSingleton = false) (t : Ty) :
    t ∈ ts.filter (fun t => !isNull t) ↔ t ∈ ts ∧ t ≠ .null := by
  rw [List.mem_filter]
  constructor
  · rintro ⟨h1, h2⟩
    refine ⟨h1, fun e => ?_⟩
    rw [(isNull_iff (hts t h1)).2 e] at h2
    cases h2
  · rintro ⟨h1, h2⟩
    refine ⟨h1, ?_⟩
    cases hn : isNull t with
    | true => exact absurd ((isNull_iff (hts t h1)).1 hn) h2
    | false => rfl

/-- why a column has no type -/
theorem no_column {ts : List Ty} (hne : ts ≠ []) (hts : ∀ t ∈ ts, Plain t ∧ t.isSingleton = false) (h : ∀ c, ¬ ColumnOf ts c) :
    (∃ a ∈ ts, ∃ b ∈ ts, pyEq a b = false) ∧ (∃ t ∈ ts, t ≠ .null ∧ ∀ n : Node, pyEq t n.ty = false) := by
  obtain ⟨t0, us, rfl⟩ := List.exists_cons_of_ne_nil hne
  have hdiff : ∃ u ∈ us, ¬ Same t0 u := by
    apply Classical.byContradiction
    intro hn
    refine h t0 (.same fun u hu => ?_)
    exact Classical.byContradiction fun hs => hn ⟨u, hu, hs⟩
  obtain ⟨u, hu', hsu⟩ := hdiff
  have hum : u ∈ t0 :: us := by simp [hu']
  have hfalse : pyEq t0 u = false := by
    rw [← Bool.not_eq_true]; exact fun e => hsu ((C08.eq_iff_same _ _ (hts t0 (by simp)).1 (hts u hum).1).1 e)
  refine ⟨⟨t0, by simp, u, hum, hfalse⟩, ?_⟩
  have hex : ∃ t ∈ t0 :: us, t ≠ .null := by
    apply Classical.byContradiction
    intro hn
    have hall : ∀ t ∈ t0 :: us, t = .null := fun t ht => Classical.byContradiction fun hs => hn ⟨t, ht, hs⟩
    rw [hall t0 (by simp), hall u hum] at hfalse
    cases hfalse
  have h3 := filter_null fun t ht => (hts t ht).2
  apply Classical.byContradiction
  intro hn
  have hall : ∀ t ∈ t0 :: us, t ≠ .null → ∃ n : Node, pyEq t n.ty = true := by
    intro t ht htn
    apply Classical.byContradiction
    intro hno
    refine hn ⟨t, ht, htn, fun n => ?_⟩
    rw [← Bool.not_eq_true]
    exact fun e => hno ⟨n, e⟩
  obtain ⟨⟨topo', htopo⟩, -⟩ := C26.toposorted
  obtain ⟨r, -, hr1, hr2⟩ := C26.least topo' htopo ((t0 :: us).filter fun t => !isNull t) (by
    obtain ⟨t, ht, hn⟩ := hex
    intro e
    have := (h3 t).2 ⟨ht, hn⟩
    rw [e] at this
    cases this) (by
    intro t ht
    obtain ⟨h4, h5⟩ := (h3 t).1 ht
    exact ⟨(hts t h4).1, hall t h4 h5⟩)
  have hl : LeastCommon (t0 :: us) r := (leastCommon_iff (fun t ht => (hts t ht).2) r).2
    ⟨fun t ht hn => hr1 t ((h3 t).2 ⟨ht, hn⟩), fun m hm => hr2 m fun t ht => hm t ((h3 t).1 ht).1 ((h3 t).1 ht).2⟩
  by_cases hnull : Ty.null ∈ t0 :: us
  · exact h _ (.optional hnull hex hl)
  · exact h _ (.mixed hnull ⟨t0, by simp, u, hum, hsu⟩ hl)

/-- a column of scalars that has no type -/
theorem column_none {topo : List Node} {ts : List Ty} (hne : ts ≠ []) (hts : ∀ t ∈ ts, Cell t)
    (hu : ∀ t ∈ ts, t ≠ .null → t.isUnit = true) (h : ∀ c, ¬ ColumnOf ts c) :
    columnType topo (ts.map .ok) = .error .valueError := by
  obtain ⟨⟨a, ha, b, hb, hab⟩, t, ht, htn, htu⟩ := no_column hne (fun t ht => ⟨(hts t ht).plain, (hts t ht).single⟩) h
  obtain ⟨h1, h2, h3⟩ := uniteBase_units (topo := topo) (fuel := depthL ts) hts hu ⟨t, ht, htn⟩
  rw [column_ok]
  unfold uniteFull uniteIdentical
  rw [if_neg (pyDistinct_two (fun t ht => (hts t ht).plain) ha hb hab)]
  simp only [bind, Except.bind] at h1 ⊢
  rw [h1, C26.unknown topo _ t ((h3 t).2 ⟨ht, htn⟩) htu]

/-- A column has at most one type. -/
theorem C55.unique (ts : List Ty) (hts : ∀ t ∈ ts, t.everywhere eqLocal = true ∧ t.isSingleton = false) (a b : Ty)
    (ha : ColumnOf ts a) (hb : ColumnOf ts b) : a = b := by
  have lc : ∀ {n m}, LeastCommon ts n → LeastCommon ts m → n = m := by
    intro n m hn hm
    exact reaches_antisymm ((turns_iff _ _).1 (hn.least m hm.upper)) ((turns_iff _ _).1 (hm.least n hn.upper))
  have same_all : ∀ {t us}, ts = t :: us → (∀ u ∈ us, Same t u) → ∀ a ∈ ts, ∀ b ∈ ts, Same a b := by
    intro t us e h a ha b hb
    have key : ∀ x ∈ ts, pyEq t x = true := by
      intro x hx
      rw [e] at hx
      rcases List.mem_cons.1 hx with rfl | hx
      · exact pyEq_refl (hts x (by rw [e]; simp)).1
      · exact (C08.eq_iff_same _ _ (hts t (by rw [e]; simp)).1 (hts x (by rw [e]; simp [hx])).1).2 (h x hx)
    have ht := (hts t (by rw [e]; simp)).1
    refine (C08.eq_iff_same _ _ (hts a ha).1 (hts b hb).1).1 ?_
    exact pyEq_trans (hts a ha).1 ht (hts b hb).1 (pyEq_symm ht (hts a ha).1 (key a ha)) (key b hb)
  have mixed_not : ∀ {t us}, ts = t :: us → (∀ u ∈ us, Same t u) → ¬ ∃ a ∈ ts, ∃ b ∈ ts, ¬ Same a b :=
    fun e h ⟨a, ha, b, hb, hn⟩ => hn (same_all e h a ha b hb)
  have opt_not : ∀ {t us}, ts = t :: us → (∀ u ∈ us, Same t u) → ¬ (Ty.null ∈ ts ∧ ∃ t ∈ ts, t ≠ .null) := by
    rintro t us e h ⟨hn, x, hx, hxn⟩
    refine hxn ((pyEq_null (hts x hx).2).1 ?_)
    exact (C08.eq_iff_same _ _ (hts x hx).1 rfl).2 (same_all e h x hx _ hn)
  generalize e : ts = ts' at ha
  cases ha with
  | same h =>
    subst e
    cases hb with
    | same h' => rfl
    | mixed _ h2 _ => exact absurd h2 (mixed_not rfl h)
    | optional h1 h2 _ => exact absurd ⟨h1, h2⟩ (opt_not rfl h)
  | mixed h1 h2 h3 =>
    subst e
    generalize e' : ts = ts' at hb
    cases hb with
    | same h => subst e'; exact absurd h2 (mixed_not rfl h)
    | mixed _ _ h6 => subst e'; rw [lc h3 h6]
    | optional h4 _ _ => subst e'; exact absurd h4 h1
  | optional h1 h2 h3 =>
    subst e
    generalize e' : ts = ts' at hb
    cases hb with
    | same h => subst e'; exact absurd ⟨h1, h2⟩ (opt_not rfl h)
    | mixed h4 _ _ => subst e'; exact absurd h1 h4
    | optional _ _ h6 => subst e'; rw [lc h3 h6]

/-- A non-empty column has a type exactly if all its cells have the same type, or everything in it that is not null is of
the conversion table. -/
theorem C55.typed (ts : List Ty) (hne : ts ≠ []) (hts : ∀ t ∈ ts, t.everywhere eqLocal = true ∧ t.isSingleton = false) :
    (∃ c, ColumnOf ts c) ↔ (∀ a ∈ ts, ∀ b ∈ ts, Same a b) ∨ ∀ t ∈ ts, t ≠ .null → ∃ n : Node, t = n.ty := by
  constructor
  · rintro ⟨c, h⟩
    cases h with
    | @same t us h =>
      left
      have key : ∀ x ∈ c :: us, pyEq c x = true := by
        intro x hx
        rcases List.mem_cons.1 hx with rfl | hx
        · exact pyEq_refl (hts x (by simp)).1
        · exact (C08.eq_iff_same _ _ (hts c (by simp)).1 (hts x (by simp [hx])).1).2 (h x hx)
      intro a ha b hb
      have ht := (hts c (by simp)).1
      refine (C08.eq_iff_same _ _ (hts a ha).1 (hts b hb).1).1 ?_
      exact pyEq_trans (hts a ha).1 ht (hts b hb).1 (pyEq_symm ht (hts a ha).1 (key a ha)) (key b hb)
    | mixed _ _ hl => right; intro t ht hn; obtain ⟨m, h, -⟩ := hl.upper t ht hn; exact ⟨m, h⟩
    | optional _ _ hl => right; intro t ht hn; obtain ⟨m, h, -⟩ := hl.upper t ht hn; exact ⟨m, h⟩
  · intro h
    apply Classical.byContradiction
    intro hn
    obtain ⟨⟨a, ha, b, hb, hab⟩, t, ht, htn, htu⟩ := no_column hne hts fun c hc => hn ⟨c, hc⟩
    rcases h with h | h
    · rw [(C08.eq_iff_same _ _ (hts a ha).1 (hts b hb).1).2 (h a ha b hb)] at hab
      cases hab
    · obtain ⟨n, rfl⟩ := h t ht htn
      have := htu n
      rw [pyEq_refl (node_everywhere n)] at this
      cases this

theorem mapM_uniform_error {α β : Type} {f : α → Except PyErr β} {l : List α} {e : PyErr}
    (h : ∀ x ∈ l, (∃ y, f x = .ok y) ∨ f x = .error e) (hex : ∃ x ∈ l, f x = .error e) : l.mapM f = .error e := by
  induction l with
  | nil => obtain ⟨x, hx, -⟩ := hex; cases hx
  | cons a l ih =>
    rw [List.mapM_cons]
    rcases h a (by simp) with ⟨y, hy⟩ | hy
    · rw [hy]
      obtain ⟨x, hx, hxe⟩ := hex
      rcases List.mem_cons.1 hx with rfl | hx
      · rw [hy] at hxe; cases hxe
      · rw [ih (fun x hx => h x (by simp [hx])) ⟨x, hx, hxe⟩]; rfl
    · rw [hy]; rfl

/-! ### Rows -/

theorem each_map_eq {α β γ : Type} {R : α → β → Prop} {f : α → γ} {g : β → γ} {l : List α} {m : List β} (h : Each R l m)
    (hr : ∀ a b, R a b → f a = g b) : l.map f = m.map g := by
  induction h with
  | nil => rfl
  | cons h _ ih => simp [hr _ _ h, ih]

theorem row_elems {strTy : Str → Except PyErr Ty} {topo : List Node} {v : PyObj} {ts : List Ty} (h : RowOf strTy topo v ts) :
    (discoverItem strTy topo v).elems = some (ts.map .ok) := by
  obtain ⟨kind, l, hk, rfl, he⟩ := h
  rw [discoverItem, discoverItems_eq]
  simp only [if_neg hk, List.map_map]
  exact congrArg some (each_map_eq he fun a b h => h)

theorem rows_elems {strTy : Str → Except PyErr Ty} {topo : List Node} {rows : List PyObj} {types : List (List Ty)}
    (h : Each (RowOf strTy topo) rows types) :
    (rows.map (discoverItem strTy topo)).mapM Item.elems = some (types.map fun ts => ts.map .ok) := by
  induction h with
  | nil => rfl
  | cons h _ ih => rw [List.map_cons, List.mapM_cons, row_elems h, ih]; rfl

/-- the `j`-th column -/
theorem column_at {types : List (List Ty)} {k j : Nat} (hj : j < k) (hk : ∀ ts ∈ types, ts.length = k) :
    ((types.map fun ts => ts.map (Except.ok (ε := PyErr))).map fun r => (r[j]?).getD (.error .indexError)) =
      (types.filterMap (·[j]?)).map .ok := by
  induction types with
  | nil => rfl
  | cons ts types ih =>
    have hlt : j < ts.length := by rw [hk ts (by simp)]; exact hj
    rw [List.map_cons, List.map_cons, ih fun ts hts => hk ts (by simp [hts])]
    simp [hlt]

theorem discover_rows {strTy : Str → Except PyErr Ty} {topo : List Node} {kind : SeqKind} {rows : List PyObj}
    {types : List (List Ty)} {k : Nat} (hne : rows ≠ []) (h : Each (RowOf strTy topo) rows types)
    (hk : ∀ ts ∈ types, ts.length = k) : ∃ rest,
    discover strTy topo (.seq kind rows) = orElse (some do
      let cols ← ((List.range k).map fun j => (types.filterMap (·[j]?)).map .ok).mapM (columnType topo)
      let u ← uniteTuple cols
      mul (.int rows.length) (.ty u)) rest := by
  rw [discover_seq, discoverSeq, if_neg (by simpa using hne)]
  refine ⟨_, congrArg (fun x => orElse x _) ?_⟩
  unfold discoverRows
  rw [rows_elems h]
  have hlen : rows.length = types.length := h.length_eq
  cases types with
  | nil => simp at hlen; exact absurd hlen hne
  | cons ts types =>
    simp only [List.map_cons]
    rw [if_pos]
    · have e : columnsOf (ts.map (Except.ok (ε := PyErr))).length (ts.map .ok :: types.map fun ts => ts.map .ok) =
          (List.range k).map fun j => ((ts :: types).filterMap (·[j]?)).map .ok := by
        unfold columnsOf
        rw [List.length_map, hk ts (by simp)]
        refine List.map_inj_left.2 fun j hj => ?_
        exact column_at (types := ts :: types) (List.mem_range.1 hj) hk
      rw [e]
      simp
    · rw [List.all_eq_true]
      intro r hr
      obtain ⟨us, hus, rfl⟩ := List.mem_map.1 hr
      simp [hk ts (by simp), hk us (by simp [hus])]


theorem mapM_zip {α β : Type} {f : α → Except PyErr β} {l : List α} {m : List β} (hlen : l.length = m.length)
    (h : ∀ (j : Nat) a b, l[j]? = some a → m[j]? = some b → f a = .ok b) : l.mapM f = .ok m := by
  induction l generalizing m with
  | nil => cases m <;> simp at hlen; rfl
  | cons a l ih =>
    cases m with
    | nil => simp at hlen
    | cons b m =>
      rw [List.mapM_cons, h 0 a b rfl rfl, ih (by simpa using hlen) fun j a b ha hb => h (j + 1) a b (by simpa using ha) (by simpa using hb)]
      rfl

theorem row_cells {E : StrEnv} {topo : List Node} {rows : List PyObj} {types : List (List Ty)}
    (h : Each (RowOf (discoverStr E) topo) rows types) : ∀ ts ∈ types, ∀ t ∈ ts, Cell t := by
  intro ts hts t ht
  obtain ⟨v, -, kind, l, -, -, he⟩ := h.mem_right _ hts
  obtain ⟨x, -, hx⟩ := he.mem_right _ ht
  exact cell_discover hx

theorem column_cells {types : List (List Ty)} (h : ∀ ts ∈ types, ∀ t ∈ ts, Cell t) (j : Nat) :
    ∀ t ∈ types.filterMap (·[j]?), Cell t := by
  intro t ht
  obtain ⟨ts, hts, e⟩ := List.mem_filterMap.1 ht
  exact h ts hts t (List.mem_of_getElem? e)

theorem wrap_bare {c : Ty} (h : c.isDShape = false) : c.wrap = .dshape [c] := by
  unfold Ty.wrap
  rw [if_neg (by simp [h])]

/-- a bare column type -/
structure Bare (c : Ty) : Prop where
  disc : Disc (fun _ => true) c
  bare : c.isDShape = false
  shape : c.shape = []

theorem Bare.plain {c : Ty} (h : Bare c) : Plain c ∧ Plain (.dshape [c]) := by
  have key : ∀ {t : Ty}, Disc (fun _ => true) t → Plain t := by
    intro t ht
    refine everywhere_mono ?_ t ht.all
    intro t h
    exact localOk_eqLocal ⟨fun _ => false, fun _ => false⟩ t (discLocal_localOk _ t h)
  exact ⟨key h.disc, key (disc_array (dims := []) (by simp) h.disc h.bare)⟩

theorem Bare.eq {c : Ty} (h : Bare c) : pyEq (.dshape [c]) c = true := by
  refine (C08.singleton_eq_measure c h.plain.1 h.bare ?_).2 h.shape
  rintro n rfl
  have := h.disc.top
  cases this

theorem wrapped_eq {a b : Ty} (ha : Bare a) (hb : Bare b) : pyEq (.dshape [a]) (.dshape [b]) = true ↔ Same a b := by
  rw [← C08.eq_iff_same a b ha.plain.1 hb.plain.1]
  constructor
  · intro h
    exact pyEq_trans ha.plain.1 ha.plain.2 hb.plain.1 (pyEq_symm ha.plain.2 ha.plain.1 ha.eq)
      (pyEq_trans ha.plain.2 hb.plain.2 hb.plain.1 h hb.eq)
  · intro h
    exact pyEq_trans ha.plain.2 ha.plain.1 hb.plain.2 ha.eq
      (pyEq_trans ha.plain.1 hb.plain.1 hb.plain.2 h (pyEq_symm hb.plain.2 hb.plain.1 hb.eq))

/-- the columns of a table, put together -/
theorem unite_columns {cols : List Ty} (hb : ∀ c ∈ cols, Bare c) :
    (∀ c, cols.head? = some c → (∀ d ∈ cols, Same c d) →
      uniteTuple (cols.map fun c => .dshape [c]) = .ok (.dshape [.fixed cols.length, c])) ∧
    (cols = [] ∨ (∃ a ∈ cols, ∃ b ∈ cols, ¬ Same a b) →
      uniteTuple (cols.map fun c => .dshape [c]) = .ok (.tuple (cols.map fun c => .dshape [c]))) := by
  have hpl : ∀ x ∈ cols.map (fun c => Ty.dshape [c]), Plain x := by
    intro x hx
    obtain ⟨c, hc, rfl⟩ := List.mem_map.1 hx
    exact (hb c hc).plain.2
  constructor
  · intro c hc hs
    cases cols with
    | nil => cases hc
    | cons d cols =>
      cases hc
      unfold uniteTuple uniteIdentical
      rw [if_pos]
      · simp only [List.map_cons, List.length_cons, List.length_map, bind, Except.bind]
        have hd : Disc (fun _ => true) (.dshape [c]) := disc_array (dims := []) (by simp) (hb c (by simp)).disc (hb c (by simp)).bare
        rw [disc_mul hd]
        rfl
      · refine pyDistinct_one hpl (by simp) ?_
        intro x hx y hy
        obtain ⟨a, ha, rfl⟩ := List.mem_map.1 hx
        obtain ⟨b, hb', rfl⟩ := List.mem_map.1 hy
        have hbc := hb c (by simp)
        have h1 := (wrapped_eq hbc (hb a ha)).2 (hs a ha)
        have h2 := (wrapped_eq hbc (hb b hb')).2 (hs b hb')
        exact pyEq_trans (hb a ha).plain.2 hbc.plain.2 (hb b hb').plain.2 (pyEq_symm hbc.plain.2 (hb a ha).plain.2 h1) h2
  · intro h
    have hid : uniteIdentical (cols.map fun c => .dshape [c]) = .ok none := by
      unfold uniteIdentical
      rcases h with rfl | ⟨a, ha, b, hb', hn⟩
      · rfl
      · rw [if_neg]
        refine pyDistinct_two hpl (List.mem_map.2 ⟨a, ha, rfl⟩) (List.mem_map.2 ⟨b, hb', rfl⟩) ?_
        rw [← Bool.not_eq_true]
        exact fun e => hn ((wrapped_eq (hb a ha) (hb b hb')).1 e)
    have hmg : uniteMerge (cols.map fun c => .dshape [c]) = .ok none := by
      cases cols with
      | nil => rfl
      | cons c cols =>
        unfold uniteMerge
        rw [if_neg]
        simp only [List.map_cons, List.all_cons, Bool.and_eq_true, not_and]
        intro he
        have h1 := (hb c (by simp)).disc
        have h2 := (measureLike_iff h1.all).1 h1.top
        have h3 := everywhere_self h1.all
        cases c <;> simp [isDimension] at he <;> simp [discLocal, Ty.cls] at h2 h3
    unfold uniteTuple
    rw [hid]
    simp only [bind, Except.bind]
    rw [hmg]
    simp only
    unfold mkTuple
    have : (cols.map fun c => Ty.dshape [c]).mapM wrapDS = .ok (cols.map fun c => Ty.dshape [c]) := by
      refine mapM_zip rfl ?_
      intro j a b ha hb
      rw [ha] at hb
      cases hb
      obtain ⟨c, -, rfl⟩ := List.mem_map.1 (List.mem_of_getElem? ha)
      rfl
    rw [this]

/-- `discover` of a table given as a list, tuple or set of rows, each a list or tuple of the same length `k`. `types` are the
types of the cells, and `cols` the types of the columns (`C55.unique`, `C55.typed`), which are no arrays. -/
theorem C55.rows (E : StrEnv) (topo : List Node) (htopo : Toposort discEdges (.ok topo)) (kind : SeqKind) (rows : List PyObj)
    (types : List (List Ty)) (k : Nat) (cols : List Ty) (hne : rows ≠ []) (h : Each (RowOf (discoverStr E) topo) rows types)
    (hk : ∀ ts ∈ types, ts.length = k) (hlen : cols.length = k)
    (hcols : ∀ (j : Nat) c, cols[j]? = some c → ColumnOf (types.filterMap (·[j]?)) c ∧ c.isDShape = false) :
    (∀ c, cols.head? = some c → (∀ d ∈ cols, Same c d) →
      discover (discoverStr E) topo (.seq kind rows) = .ok (.dshape [.fixed rows.length, .fixed k, c])) ∧
    (cols = [] ∨ (∃ a ∈ cols, ∃ b ∈ cols, ¬ Same a b) →
      discover (discoverStr E) topo (.seq kind rows) =
        .ok (.dshape [.fixed rows.length, .tuple (cols.map fun c => .dshape [c])])) := by
  have hcells := row_cells h
  have hof : ∀ (j : Nat) c, cols[j]? = some c →
      columnType topo ((types.filterMap (·[j]?)).map .ok) = .ok (.dshape [c]) ∧ Bare c := by
    intro j c hc
    obtain ⟨h1, h2⟩ := hcols j c hc
    obtain ⟨h3, h4, -, h5⟩ := column_of htopo (column_cells hcells j) h1
    rw [wrap_bare h2] at h3
    exact ⟨h3, h4, h2, h5 h2⟩
  have hbare : ∀ c ∈ cols, Bare c := by
    intro c hc
    obtain ⟨j, hj⟩ := List.getElem?_of_mem hc
    exact (hof j c hj).2
  have hmap : ((List.range k).map fun j => (types.filterMap (·[j]?)).map .ok).mapM (columnType topo) =
      .ok (cols.map fun c => .dshape [c]) := by
    refine mapM_zip (by simp [hlen]) ?_
    intro j a b ha hb
    rw [List.getElem?_map] at ha hb
    obtain ⟨c, hc, rfl⟩ := Option.map_eq_some_iff.1 hb
    obtain ⟨i, hi, rfl⟩ := Option.map_eq_some_iff.1 ha
    have : i = j := by
      obtain ⟨h1, h2⟩ := List.getElem?_eq_some_iff.1 hi
      simpa using h2.symm
    subst this
    exact (hof i c hc).1
  obtain ⟨rest, hr⟩ := discover_rows (kind := kind) hne h hk
  rw [hr, hmap]
  obtain ⟨h1, h2⟩ := unite_columns hbare
  constructor
  · intro c hc hs
    simp only [bind, Except.bind]
    rw [h1 c hc hs]
    simp only
    have hbc := hbare c (by cases cols <;> cases hc; simp)
    have hd : Disc (fun _ => true) (.dshape [.fixed cols.length, c]) :=
      disc_array (dims := [.fixed cols.length]) (by simp [Ty.isExtent]) hbc.disc hbc.bare
    rw [disc_mul hd, hlen]
    rfl
  · intro hc
    simp only [bind, Except.bind]
    rw [h2 hc]
    simp only
    have hd : Disc (fun _ => true) (.tuple (cols.map fun c => .dshape [c])) := by
      refine ⟨everywhere_mk ?_ ?_, rfl⟩
      · simp [discLocal, Ty.isDShape]
      · intro x hx
        obtain ⟨c, hc, rfl⟩ := List.mem_map.1 hx
        exact (disc_array (dims := []) (by simp) (hbare c hc).disc (hbare c hc).bare).all
    rw [disc_mul hd]
    rfl

/-- The same when the columns, which all have one type, hold arrays: the dimensions of the column follow. -/
theorem C55.array_columns (E : StrEnv) (topo : List Node) (htopo : Toposort discEdges (.ok topo)) (kind : SeqKind)
    (rows : List PyObj) (types : List (List Ty)) (k : Nat) (cols : List Ty) (hne : rows ≠ [])
    (h : Each (RowOf (discoverStr E) topo) rows types) (hk : ∀ ts ∈ types, ts.length = k) (hlen : cols.length = k)
    (hcols : ∀ (j : Nat) c, cols[j]? = some c → ColumnOf (types.filterMap (·[j]?)) c)
    (dims : List Ty) (m : Ty) (hc : cols.head? = some (.dshape (dims ++ [m]))) (hs : ∀ d ∈ cols, Same (.dshape (dims ++ [m])) d) :
    discover (discoverStr E) topo (.seq kind rows) = .ok (.dshape (.fixed rows.length :: .fixed k :: (dims ++ [m]))) := by
  have hcells := row_cells h
  have hof : ∀ (j : Nat) c, cols[j]? = some c →
      columnType topo ((types.filterMap (·[j]?)).map .ok) = .ok c.wrap ∧ Disc (fun _ => true) c ∧
        (c.isDShape = false → Bare c) := by
    intro j c hc
    obtain ⟨h3, h4, -, h5⟩ := column_of htopo (column_cells hcells j) (hcols j c hc)
    exact ⟨h3, h4, fun h2 => ⟨h4, h2, h5 h2⟩⟩
  have hdisc : ∀ c ∈ cols, Disc (fun _ => true) c ∧ (c.isDShape = false → Bare c) := by
    intro c hc
    obtain ⟨j, hj⟩ := List.getElem?_of_mem hc
    exact (hof j c hj).2
  have key : ∀ {t : Ty}, Disc (fun _ => true) t → Plain t := by
    intro t ht
    refine everywhere_mono ?_ t ht.all
    intro t h
    exact localOk_eqLocal ⟨fun _ => false, fun _ => false⟩ t (discLocal_localOk _ t h)
  have hwrap : ∀ c ∈ cols, Plain c.wrap ∧ pyEq c.wrap c = true := by
    intro c hc
    obtain ⟨h1, h2⟩ := hdisc c hc
    cases hd : c.isDShape with
    | true =>
      have : c.wrap = c := by unfold Ty.wrap; rw [if_pos hd]
      rw [this]
      exact ⟨key h1, pyEq_refl (key h1)⟩
    | false =>
      rw [wrap_bare hd]
      exact ⟨(h2 hd).plain.2, (h2 hd).eq⟩
  have hmap : ((List.range k).map fun j => (types.filterMap (·[j]?)).map .ok).mapM (columnType topo) =
      .ok (cols.map Ty.wrap) := by
    refine mapM_zip (by simp [hlen]) ?_
    intro j a b ha hb
    rw [List.getElem?_map] at ha hb
    obtain ⟨c, hc, rfl⟩ := Option.map_eq_some_iff.1 hb
    obtain ⟨i, hi, rfl⟩ := Option.map_eq_some_iff.1 ha
    have : i = j := by
      obtain ⟨h1, h2⟩ := List.getElem?_eq_some_iff.1 hi
      simpa using h2.symm
    subst this
    exact (hof i c hc).1
  have hpl : ∀ x ∈ cols.map Ty.wrap, Plain x := by
    intro x hx
    obtain ⟨c, hc, rfl⟩ := List.mem_map.1 hx
    exact (hwrap c hc).1
  have hmem : Ty.dshape (dims ++ [m]) ∈ cols := List.mem_of_mem_head? hc
  have h0 := hdisc _ hmem
  have hall : ∀ a ∈ cols, pyEq (.dshape (dims ++ [m])) a.wrap = true := by
    intro a ha
    have h1 := (C08.eq_iff_same _ _ (key h0.1) (key (hdisc a ha).1)).2 (hs a ha)
    obtain ⟨h2, h3⟩ := hwrap a ha
    exact pyEq_trans (key h0.1) (key (hdisc a ha).1) h2 h1 (pyEq_symm h2 (key (hdisc a ha).1) h3)
  obtain ⟨rest, hr⟩ := discover_rows (kind := kind) hne h hk
  rw [hr, hmap]
  have hid : uniteIdentical (cols.map Ty.wrap) = .ok (some (.dshape (.fixed k :: (dims ++ [m])))) := by
    cases cols with
    | nil => cases hc
    | cons d cols =>
      cases hc
      unfold uniteIdentical
      rw [if_pos]
      · simp only [List.map_cons, List.length_cons, List.length_map, bind, Except.bind]
        have : (Ty.dshape (dims ++ [m])).wrap = .dshape (dims ++ [m]) := rfl
        rw [this, disc_mul h0.1, ← hlen]
        rfl
      · refine pyDistinct_one hpl (by simp) ?_
        intro x hx y hy
        obtain ⟨a, ha, rfl⟩ := List.mem_map.1 hx
        obtain ⟨b, hb', rfl⟩ := List.mem_map.1 hy
        exact pyEq_trans (hwrap a ha).1 (key h0.1) (hwrap b hb').1 (pyEq_symm (key h0.1) (hwrap a ha).1 (hall a ha)) (hall b hb')
  simp only [bind, Except.bind, uniteTuple, hid]
  have hd : Disc (fun _ => true) (.dshape (.fixed k :: (dims ++ [m]))) := by
    obtain ⟨ds, n, e, h1, h2, h3, -⟩ := Disc.params h0.1.all
    rw [e]
    exact disc_array (dims := .fixed k :: ds) (extent_cons rfl h1) h2 h3
  rw [disc_mul hd]
  rfl

/-- If some column of scalars and nulls has no type (`C55.typed`), `discover` raises `ValueError`. -/
theorem C55.rows_error (E : StrEnv) (topo : List Node) (htopo : Toposort discEdges (.ok topo)) (kind : SeqKind)
    (rows : List PyObj) (types : List (List Ty)) (k : Nat) (hne : rows ≠ []) (h : Each (RowOf (discoverStr E) topo) rows types)
    (hk : ∀ ts ∈ types, ts.length = k) (hs : ∀ ts ∈ types, ∀ t ∈ ts, t ≠ .null → t.isUnit = true)
    (hbad : ∃ j, j < k ∧ ∀ c, ¬ ColumnOf (types.filterMap (·[j]?)) c) :
    discover (discoverStr E) topo (.seq kind rows) = .error .valueError := by
  have hcells := row_cells h
  obtain ⟨rest, hr⟩ := discover_rows (kind := kind) hne h hk
  have hcolne : ∀ j, j < k → types.filterMap (·[j]?) ≠ [] := by
    intro j hj
    have hlen : rows.length = types.length := h.length_eq
    cases types with
    | nil => simp at hlen; exact absurd hlen hne
    | cons ts types =>
      have hlt : j < ts.length := by rw [hk ts (by simp)]; exact hj
      simp [hlt]
  have herr : ∀ j, j < k → (∀ c, ¬ ColumnOf (types.filterMap (·[j]?)) c) →
      columnType topo ((types.filterMap (·[j]?)).map .ok) = .error .valueError := by
    intro j hj hc
    refine column_none (hcolne j hj) (column_cells hcells j) ?_ hc
    intro t ht htn
    obtain ⟨ts, hts, e⟩ := List.mem_filterMap.1 ht
    exact hs ts hts t (List.mem_of_getElem? e) htn
  have hmap : ((List.range k).map fun j => (types.filterMap (·[j]?)).map .ok).mapM (columnType topo) = .error .valueError := by
    apply mapM_uniform_error
    · intro x hx
      obtain ⟨j, hj, rfl⟩ := List.mem_map.1 hx
      by_cases hc : ∃ c, ColumnOf (types.filterMap (·[j]?)) c
      · obtain ⟨c, hc⟩ := hc
        exact .inl ⟨_, (column_of htopo (column_cells hcells j) hc).1⟩
      · exact .inr (herr j (List.mem_range.1 hj) fun c h => hc ⟨c, h⟩)
    · obtain ⟨j, hj, hc⟩ := hbad
      exact ⟨_, List.mem_map.2 ⟨j, List.mem_range.2 hj, rfl⟩, herr j hj hc⟩
  rw [hr, hmap]
  rfl

/-! ### Dicts -/

theorem dictOf_item {strTy : Str → Except PyErr Ty} {topo : List Node} {v : PyObj} {es : List (Str × Ty)} (h : DictOf strTy topo v es) :
    (discoverItem strTy topo v).elems = none ∧
    (discoverItem strTy topo v).entries = some (es.map fun e => (e.1, .ok e.2)) ∧ (es.map (·.1)).Nodup := by
  obtain ⟨l, hv, hn, he⟩ := h
  have hi : v.items? = some l := by rcases hv with rfl | rfl <;> rfl
  obtain ⟨h1, h2⟩ := dict_item (strTy := strTy) (topo := topo) hi
  refine ⟨h1, ?_, ?_⟩
  · rw [h2]
    exact congrArg some (each_map_eq he fun a b h => by rw [h.1, h.2])
  · rw [← each_map_eq (f := (·.1)) (g := (·.1)) he fun a b h => h.1.symm]
    exact hn

theorem dicts_entries {strTy : Str → Except PyErr Ty} {topo : List Node} {rows : List PyObj} {types : List (List (Str × Ty))}
    (h : Each (DictOf strTy topo) rows types) :
    (rows.map (discoverItem strTy topo)).mapM Item.entries = some (types.map fun es => es.map fun e => (e.1, .ok e.2)) := by
  induction h with
  | nil => rfl
  | cons h _ ih => rw [List.map_cons, List.mapM_cons, (dictOf_item h).2.1, ih]; rfl

theorem dict_cells {E : StrEnv} {topo : List Node} {rows : List PyObj} {types : List (List (Str × Ty))}
    (h : Each (DictOf (discoverStr E) topo) rows types) (k : Str) : ∀ t ∈ types.map (cellType k), Cell t := by
  intro t ht
  obtain ⟨es, hes, rfl⟩ := List.mem_map.1 ht
  obtain ⟨v, -, l, -, -, he⟩ := h.mem_right _ hes
  unfold cellType
  cases hl : es.lookup k with
  | none => exact cell_null
  | some t =>
    obtain ⟨x, -, -, hx⟩ := he.mem_right (k, t) (lookup_mem hl)
    exact cell_discover hx

theorem dict_column (types : List (List (Str × Ty))) (k : Str) :
    ((types.map fun es => es.map fun e => (e.1, (Except.ok (ε := PyErr) e.2))).map fun d => (d.lookup k).getD (.ok .null)) =
      (types.map (cellType k)).map .ok := by
  rw [List.map_map, List.map_map]
  refine List.map_inj_left.2 fun es _ => ?_
  simp only [Function.comp]
  rw [lookup_map_snd (fun t => Except.ok (ε := PyErr) t) es k]
  unfold cellType
  cases es.lookup k <;> rfl

theorem dict_keys (types : List (List (Str × Ty))) :
    (allKeys (types.map fun es => es.map fun e => (e.1, (Except.ok (ε := PyErr) e.2)))).Pairwise (· < ·) ∧
    ∀ k, k ∈ allKeys (types.map fun es => es.map fun e => (e.1, (Except.ok (ε := PyErr) e.2))) ↔ ∃ es ∈ types, k ∈ es.map (·.1) := by
  refine ⟨sortStr_sorted _ (nodup_toSet _), fun k => ?_⟩
  rw [allKeys, sortStr_mem, mem_toSet, List.mem_flatMap]
  constructor
  · rintro ⟨d, hd, hk⟩
    obtain ⟨l, hl, rfl⟩ := List.mem_map.1 hd
    rw [List.map_map] at hk
    exact ⟨l, hl, hk⟩
  · rintro ⟨es, hes, hk⟩
    exact ⟨_, List.mem_map.2 ⟨es, hes, rfl⟩, by rw [List.map_map]; exact hk⟩

theorem discover_dicts {strTy : Str → Except PyErr Ty} {topo : List Node} {kind : SeqKind} {rows : List PyObj}
    {types : List (List (Str × Ty))} {keys : List Str} (hne : rows ≠ []) (h : Each (DictOf strTy topo) rows types)
    (hs : keys.Pairwise (· < ·)) (hkeys : ∀ k, k ∈ keys ↔ ∃ es ∈ types, k ∈ es.map (·.1)) : ∃ rest,
    discover strTy topo (.seq kind rows) = orElse (some do
      let cols ← (keys.map fun k => (types.map (cellType k)).map .ok).mapM (columnType topo)
      let r ← mkRecord (keys.zip cols)
      mul (.int rows.length) (.ty r)) rest := by
  rw [discover_seq, discoverSeq, if_neg (by simpa using hne)]
  have hrows : discoverRows topo (rows.map (discoverItem strTy topo)) = none := by
    unfold discoverRows
    cases h with
    | nil => exact absurd rfl hne
    | cons h _ => rw [List.map_cons, List.mapM_cons, (dictOf_item h).1]; rfl
  rw [hrows, orElse_none]
  refine ⟨_, congrArg (fun x => orElse x _) ?_⟩
  unfold discoverDicts
  rw [dicts_entries h]
  obtain ⟨h1, h2⟩ := dict_keys types
  have : allKeys (types.map fun es => es.map fun e => (e.1, (Except.ok (ε := PyErr) e.2))) = keys :=
    sorted_ext h1 hs fun x => (h2 x).trans (hkeys x).symm
  simp only [this, List.length_map]
  have e : (keys.map fun k => (types.map fun es => es.map fun e => (e.1, (Except.ok (ε := PyErr) e.2))).map fun d =>
      (d.lookup k).getD (.ok .null)) = keys.map fun k => (types.map (cellType k)).map .ok :=
    List.map_inj_left.2 fun k _ => dict_column types k
  rw [e]

theorem launder_wrapped {c : Ty} (h : c.isSingleton = false) : launderTy c.wrap = c := by
  unfold Ty.wrap
  cases hd : c.isDShape with
  | true => rw [if_pos rfl]; exact launderTy_of_not_singleton h
  | false => rw [if_neg (by simp)]; rfl

/-- `discover` of a table given as a list, tuple or set of dicts. `types` are the types of their values. The fields of the record are the
keys that occur, in order, each with the type of its column; a missing key counts as null. -/
theorem C55.dicts (E : StrEnv) (topo : List Node) (htopo : Toposort discEdges (.ok topo)) (kind : SeqKind) (rows : List PyObj)
    (types : List (List (Str × Ty))) (fs : List (Str × Ty)) (hne : rows ≠ []) (h : Each (DictOf (discoverStr E) topo) rows types)
    (hsorted : (fs.map (·.1)).Pairwise (· < ·)) (hkeys : ∀ k, k ∈ fs.map (·.1) ↔ ∃ es ∈ types, k ∈ es.map (·.1))
    (hcols : ∀ f ∈ fs, ColumnOf (types.map (cellType f.1)) f.2) :
    discover (discoverStr E) topo (.seq kind rows) = .ok (.dshape [.fixed rows.length, .record fs]) := by
  obtain ⟨rest, hr⟩ := discover_dicts (kind := kind) hne h hsorted hkeys
  have hof : ∀ f ∈ fs, columnType topo ((types.map (cellType f.1)).map .ok) = .ok f.2.wrap ∧
      Disc (fun _ => true) f.2 ∧ f.2.isSingleton = false := by
    intro f hf
    obtain ⟨h1, h2, h3, -⟩ := column_of htopo (dict_cells h f.1) (hcols f hf)
    exact ⟨h1, h2, h3⟩
  have hmap : ((fs.map (·.1)).map fun k => (types.map (cellType k)).map .ok).mapM (columnType topo) = .ok (fs.map fun f => f.2.wrap) := by
    refine mapM_zip (by simp) ?_
    intro j a b ha hb
    rw [List.map_map, List.getElem?_map] at ha
    rw [List.getElem?_map] at hb
    obtain ⟨f, hf, rfl⟩ := Option.map_eq_some_iff.1 hb
    rw [hf] at ha
    cases ha
    exact (hof f (List.mem_of_getElem? hf)).1
  have hnodup : (fs.map (·.1)).Nodup := hsorted.imp fun hab e => by
    subst e; exact List.lt_irrefl _ hab
  have hzip : (fs.map (·.1)).zip (fs.map fun f => f.2.wrap) = fs.map fun f => (f.1, f.2.wrap) := by
    rw [List.zip_map']
  have hrec : mkRecord ((fs.map (·.1)).zip (fs.map fun f => f.2.wrap)) = .ok (.record fs) := by
    rw [hzip]
    unfold mkRecord
    rw [if_pos (by rw [List.map_map]; exact hnodup), List.map_map]
    congr 2
    conv => rhs; rw [← List.map_id fs]
    refine List.map_inj_left.2 fun f hf => ?_
    simp only [Function.comp, launder_wrapped (hof f hf).2.2, id]
  rw [hr, hmap]
  simp only [bind, Except.bind]
  rw [hrec]
  simp only
  have hd : Disc (fun _ => true) (.record fs) := by
    refine disc_mkRecord (mkRecord_good hnodup fun f hf => (hof f hf).2.2) ?_
    intro f hf
    exact ⟨(hof f hf).2.1, rfl⟩
  rw [disc_mul hd]
  rfl

/-- If some column of scalars and nulls has no type (`C55.typed`), `discover` raises `ValueError`. -/
theorem C55.dicts_error (E : StrEnv) (topo : List Node) (htopo : Toposort discEdges (.ok topo)) (kind : SeqKind) (rows : List PyObj)
    (types : List (List (Str × Ty))) (hne : rows ≠ []) (h : Each (DictOf (discoverStr E) topo) rows types)
    (hs : ∀ es ∈ types, ∀ e ∈ es, e.2 ≠ .null → e.2.isUnit = true)
    (hbad : ∃ es ∈ types, ∃ e ∈ es, ∀ c, ¬ ColumnOf (types.map (cellType e.1)) c) :
    discover (discoverStr E) topo (.seq kind rows) = .error .valueError := by
  obtain ⟨h1, h2⟩ := dict_keys types
  obtain ⟨rest, hr⟩ := discover_dicts (kind := kind) hne h h1 h2
  have hcolne : ∀ k, types.map (cellType k) ≠ [] := by
    intro k e
    have hlen : rows.length = types.length := h.length_eq
    rw [List.map_eq_nil_iff] at e
    rw [e] at hlen
    exact hne (List.length_eq_zero_iff.1 hlen)
  have herr : ∀ k, (∀ c, ¬ ColumnOf (types.map (cellType k)) c) →
      columnType topo ((types.map (cellType k)).map .ok) = .error .valueError := by
    intro k hc
    refine column_none (hcolne k) (dict_cells h k) ?_ hc
    intro t ht htn
    obtain ⟨es, hes, rfl⟩ := List.mem_map.1 ht
    unfold cellType at htn ⊢
    cases hl : es.lookup k with
    | none => rw [hl] at htn; exact absurd rfl htn
    | some t => rw [hl] at htn; exact hs es hes (k, t) (lookup_mem hl) htn
  have hmap : ((allKeys (types.map fun es => es.map fun e => (e.1, (Except.ok (ε := PyErr) e.2)))).map fun k =>
      (types.map (cellType k)).map .ok).mapM (columnType topo) = .error .valueError := by
    apply mapM_uniform_error
    · intro x hx
      obtain ⟨k, hk, rfl⟩ := List.mem_map.1 hx
      by_cases hc : ∃ c, ColumnOf (types.map (cellType k)) c
      · obtain ⟨c, hc⟩ := hc
        exact .inl ⟨_, (column_of htopo (dict_cells h k) hc).1⟩
      · exact .inr (herr k fun c h => hc ⟨c, h⟩)
    · obtain ⟨es, hes, e, he, hc⟩ := hbad
      exact ⟨_, List.mem_map.2 ⟨e.1, (h2 e.1).2 ⟨es, hes, List.mem_map.2 ⟨e, he, rfl⟩⟩, rfl⟩, herr _ hc⟩
  rw [hr, hmap]
  rfl

/-- `[(1, None), [2.5, date]]` is `2 * (float64, ?date)`, `[[1], [2.5]]` is `2 * 1 * float64`, `[(), ()]` is `2 * ()`, and
`[(1,), (time,)]` raises `ValueError`; similarly for dicts: all by the theorems above. -/
theorem C55.example (E : StrEnv) (topo : List Node) (ht : Toposort discEdges (.ok topo)) :
    discover (discoverStr E) topo (.seq .list [.seq .tuple [.int, .none], .seq .list [.float, .date]]) =
      .ok (.dshape [.fixed 2, .tuple [.dshape [tFloat64], .dshape [.option .date]]]) ∧
    discover (discoverStr E) topo (.seq .list [.seq .list [.int], .seq .list [.float]]) =
      .ok (.dshape [.fixed 2, .fixed 1, tFloat64]) ∧
    discover (discoverStr E) topo (.seq .list [.seq .tuple [], .seq .tuple []]) = .ok (.dshape [.fixed 2, .tuple []]) ∧
    discover (discoverStr E) topo (.seq .list [.seq .tuple [.int], .seq .tuple [.time]]) = .error .valueError ∧
    discover (discoverStr E) topo (.seq .list [.dict [(py"b", .int)], .dict [(py"b", .float), (py"a", .date)]]) =
      .ok (.dshape [.fixed 2, .record [(py"a", .option .date), (py"b", tFloat64)]]) ∧
    discover (discoverStr E) topo (.seq .list [.dict [(py"b", .int)], .dict [(py"b", .time)]]) = .error .valueError := by
  have d : ∀ v t, (v, t) ∈ [(PyObj.int, tInt64), (.none, .null), (.float, tFloat64), (.date, .date), (.time, .time none)] →
      discover (discoverStr E) topo v = .ok t := by
    intro v t h
    simp only [List.mem_cons, Prod.mk.injEq, List.not_mem_nil, or_false] at h
    rcases h with ⟨rfl, rfl⟩ | ⟨rfl, rfl⟩ | ⟨rfl, rfl⟩ | ⟨rfl, rfl⟩ | ⟨rfl, rfl⟩ <;> rfl
  have numbers : ColumnOf [tInt64, tFloat64] tFloat64 := by
    refine .mixed (n := .real) (by simp [tInt64, tFloat64]) ⟨tInt64, by simp, tFloat64, by simp, fun h => ?_⟩ ⟨?_, ?_⟩
    · exact absurd ((C08.eq_iff_same tInt64 tFloat64 rfl rfl).2 h) (by decide +kernel)
    · intro t ht _
      simp only [List.mem_cons, List.not_mem_nil, or_false] at ht
      rcases ht with rfl | rfl
      · exact ⟨.int64, rfl, .step (.refl _) (by decide)⟩
      · exact ⟨.real, rfl, .refl _⟩
    · intro n h
      obtain ⟨m, hm, h⟩ := h tFloat64 (by simp) (by simp [tFloat64])
      cases m <;> first | exact h | (simp [Node.ty, tFloat64, tInt64, tInt32, tBool, tString, tTimedelta] at hm)
  have dates : ColumnOf [.null, .date] (.option .date) := by
    refine .optional (n := .date) (by simp) ⟨.date, by simp, by simp⟩ ⟨?_, ?_⟩
    · intro t ht hn
      simp only [List.mem_cons, List.not_mem_nil, or_false] at ht
      rcases ht with rfl | rfl
      · exact absurd rfl hn
      · exact ⟨.date, rfl, .refl _⟩
    · intro n h
      obtain ⟨m, hm, h⟩ := h .date (by simp) (by simp)
      cases m <;> first | exact h | (simp [Node.ty, tFloat64, tInt64, tInt32, tBool, tString, tTimedelta] at hm)
  have bad : ∀ c, ¬ ColumnOf [tInt64, .time none] c := by
    intro c hc
    rcases (C55.typed [tInt64, .time none] (by simp) (by simp; exact ⟨⟨rfl, rfl⟩, rfl, rfl⟩)).1 ⟨c, hc⟩ with h | h
    · exact absurd ((C08.eq_iff_same tInt64 (.time none) rfl rfl).2 (h _ (by simp) _ (by simp))) (by decide +kernel)
    · obtain ⟨n, h⟩ := h (.time none) (by simp) (by simp)
      cases n <;> simp [Node.ty, tFloat64, tInt64, tInt32, tBool, tString, tTimedelta] at h
  refine ⟨?_, ?_, ?_, ?_, ?_, ?_⟩
  · refine (C55.rows E topo ht .list _ [[tInt64, .null], [tFloat64, .date]] 2 [tFloat64, .option .date] (by simp) ?_ (by simp) rfl ?_).2
      (.inr ⟨tFloat64, by simp, .option .date, by simp, fun h => ?_⟩)
    · exact .cons ⟨_, _, by simp, rfl, .cons (d _ _ (by simp)) (.cons (d _ _ (by simp)) .nil)⟩
        (.cons ⟨_, _, by simp, rfl, .cons (d _ _ (by simp)) (.cons (d _ _ (by simp)) .nil)⟩ .nil)
    · rintro (_ | _ | j) c hc <;> cases hc
      · exact ⟨numbers, rfl⟩
      · exact ⟨dates, rfl⟩
    · exact absurd ((C08.eq_iff_same tFloat64 (.option .date) rfl rfl).2 h) (by decide +kernel)
  · refine (C55.rows E topo ht .list _ [[tInt64], [tFloat64]] 1 [tFloat64] (by simp) ?_ (by simp) rfl ?_).1
      _ rfl ?_
    · exact .cons ⟨_, _, by simp, rfl, .cons (d _ _ (by simp)) .nil⟩ (.cons ⟨_, _, by simp, rfl, .cons (d _ _ (by simp)) .nil⟩ .nil)
    · rintro (_ | j) c hc <;> cases hc
      exact ⟨numbers, rfl⟩
    · intro c hc
      rw [List.mem_singleton.1 hc]
      exact (C08.eq_iff_same tFloat64 tFloat64 rfl rfl).1 (by decide +kernel)
  · refine (C55.rows E topo ht .list _ [[], []] 0 [] (by simp) ?_ (by simp) rfl ?_).2 (.inl rfl)
    · exact .cons ⟨_, _, by simp, rfl, .nil⟩ (.cons ⟨_, _, by simp, rfl, .nil⟩ .nil)
    · intro j c hc
      cases hc
  · refine C55.rows_error E topo ht .list _ [[tInt64], [.time none]] 1 (by simp) ?_ (by simp) ?_ ⟨0, by simp, bad⟩
    · exact .cons ⟨_, _, by simp, rfl, .cons (d _ _ (by simp)) .nil⟩ (.cons ⟨_, _, by simp, rfl, .cons (d _ _ (by simp)) .nil⟩ .nil)
    · simp [tInt64, Ty.isUnit]
  · refine C55.dicts E topo ht .list _ [[(py"b", tInt64)], [(py"b", tFloat64), (py"a", .date)]]
      [(py"a", .option .date), (py"b", tFloat64)] (by simp) ?_ (by decide) ?_ ?_
    · exact .cons ⟨_, .inl rfl, by decide, .cons ⟨rfl, d _ _ (by simp)⟩ .nil⟩
        (.cons ⟨_, .inl rfl, by decide, .cons ⟨rfl, d _ _ (by simp)⟩ (.cons ⟨rfl, d _ _ (by simp)⟩ .nil)⟩ .nil)
    · intro k
      simp only [List.map_cons, List.map_nil, List.mem_cons, List.not_mem_nil, or_false]
      constructor
      · rintro (h | h)
        · exact ⟨_, .inr rfl, by simp [h]⟩
        · exact ⟨_, .inl rfl, by simp [h]⟩
      · rintro ⟨es, rfl | rfl, h⟩
        · exact .inr (by simpa using h)
        · simp only [List.map_cons, List.map_nil, List.mem_cons, List.not_mem_nil, or_false] at h
          exact h.symm
    · intro f hf
      simp only [List.mem_cons, List.not_mem_nil, or_false] at hf
      rcases hf with rfl | rfl
      · exact dates
      · exact numbers
  · refine C55.dicts_error E topo ht .list _ [[(py"b", tInt64)], [(py"b", .time none)]] (by simp) ?_ ?_
      ⟨[(py"b", tInt64)], by simp, (py"b", tInt64), by simp, bad⟩
    · exact .cons ⟨_, .inl rfl, by decide, .cons ⟨rfl, d _ _ (by simp)⟩ .nil⟩
        (.cons ⟨_, .inl rfl, by decide, .cons ⟨rfl, d _ _ (by simp)⟩ .nil⟩ .nil)
    · simp [tInt64, Ty.isUnit]

end DS
