import Verif.Spec.Discovered
import Verif.Props.DiscoverDicts
import Verif.Props.StrDiscovery
import Verif.Props.RoundTrip

/-
C54: what `discover` returns is well formed, and reads back from its printed form.
-/
namespace DS

/-- a dimension that `discover` writes -/
def Ty.isExtent : Ty → Bool
  | .fixed _ | .var => true
  | _ => false

/-- what each part of a discovered datashape satisfies; `ok` holds for the field names -/
def discLocal (ok : Str → Bool) : Ty → Bool
  | .dshape ps => !ps.isEmpty && ps.dropLast.all Ty.isExtent && ps.getLast?.all (fun m => m.cls != some .dimension) &&
      ps.all (fun p => !p.isDShape)
  | .record fs => decide (fs.map (·.1)).Nodup && fs.all fun f => !f.2.isSingleton && ok f.1 && f.2.measureLike
  | .option t => !t.isDShape && !t.isOption && t.measureLike
  | .tuple ts => ts.all Ty.isDShape
  | .ctype n i a => spelledCtypes.contains (n, i, a)
  | .string _ e => canonicalEncodings.contains e
  | .timedelta u => timeUnits.contains u
  | .time none | .datetime none | .null | .date | .fixed _ | .var => true
  | _ => false

/-- a discovered datashape -/
structure Disc (ok : Str → Bool) (t : Ty) : Prop where
  all : t.everywhere (discLocal ok) = true
  top : t.measureLike = true

variable {ok : Str → Bool}

theorem everywhere_mk {p : Ty → Bool} {t : Ty} (h : p t = true) (hc : ∀ c ∈ t.children, c.everywhere p = true) :
    t.everywhere p = true := by
  rw [everywhere_children]
  simp only [Bool.and_eq_true, List.all_eq_true]
  exact ⟨h, hc⟩

theorem disc_leaf {t : Ty} (h : discLocal ok t = true) (hc : t.children = []) : t.everywhere (discLocal ok) = true :=
  everywhere_mk h (by rw [hc]; simp)

theorem measureLike_iff {t : Ty} (h : t.everywhere (discLocal ok) = true) : t.measureLike = true ↔ t.cls ≠ some .dimension := by
  have := everywhere_self h
  cases t <;> simp [Ty.measureLike, Ty.cls] <;> cases this

theorem Disc.params {ps : List Ty} (h : (Ty.dshape ps).everywhere (discLocal ok) = true) :
    ∃ dims m, ps = dims ++ [m] ∧ (∀ d ∈ dims, d.isExtent = true) ∧ Disc ok m ∧ m.isDShape = false ∧
      ∀ p ∈ ps, p.everywhere (discLocal ok) = true ∧ p.isDShape = false := by
  have hl := everywhere_self h
  have hall : ∀ p ∈ ps, p.everywhere (discLocal ok) = true ∧ p.isDShape = false := by
    intro p hp
    refine ⟨everywhere_child h hp, ?_⟩
    simp only [discLocal, Bool.and_eq_true, List.all_eq_true] at hl
    simpa using hl.2 p hp
  simp only [discLocal, Bool.and_eq_true] at hl
  obtain ⟨⟨⟨h1, h2⟩, h3⟩, -⟩ := hl
  have hne : ps ≠ [] := by simpa using h1
  rw [List.all_eq_true] at h2
  have e := (List.dropLast_concat_getLast hne).symm
  have hm : ps.getLast hne ∈ ps := List.getLast_mem hne
  refine ⟨ps.dropLast, ps.getLast hne, e, h2, ⟨(hall _ hm).1, ?_⟩, (hall _ hm).2, hall⟩
  rw [measureLike_iff (hall _ hm).1]
  rw [List.getLast?_eq_some_getLast hne] at h3
  simpa using h3

theorem extent_all {d : Ty} (h : d.isExtent = true) : d.everywhere (discLocal ok) = true ∧ d.isDShape = false := by
  cases d <;> simp [Ty.isExtent] at h <;> exact ⟨rfl, rfl⟩

theorem disc_array {dims : List Ty} {m : Ty} (hd : ∀ d ∈ dims, d.isExtent = true) (hm : Disc ok m) (hs : m.isDShape = false) :
    Disc ok (.dshape (dims ++ [m])) := by
  refine ⟨everywhere_mk ?_ ?_, rfl⟩
  · simp only [discLocal, Bool.and_eq_true, List.dropLast_concat, List.getLast?_concat, List.all_eq_true]
    refine ⟨⟨⟨by simp, hd⟩, ?_⟩, ?_⟩
    · simpa using (measureLike_iff hm.all).1 hm.top
    · intro p hp
      rcases List.mem_append.1 hp with hp | hp
      · simp [(extent_all (ok := ok) (hd p hp)).2]
      · rw [List.mem_singleton.1 hp]; simp [hs]
  · intro p hp
    rcases List.mem_append.1 hp with hp | hp
    · exact (extent_all (hd p hp)).1
    · rw [List.mem_singleton.1 hp]; exact hm.all

theorem disc_ctor {dims : List Ty} {m r : Ty} (hd : ∀ d ∈ dims, d.isExtent = true) (hm : Disc ok m) (hs : m.isDShape = false)
    (h : mkDS (dims ++ [m]) = .ok r) : Disc ok r := by
  have hl : (dims ++ [m]).map launderTy = dims ++ [m] := by
    conv => rhs; rw [← List.map_id (dims ++ [m])]
    refine List.map_congr_left fun p hp => ?_
    apply launderTy_id
    rcases List.mem_append.1 hp with hp | hp
    · exact (extent_all (ok := ok) (hd p hp)).2
    · rw [List.mem_singleton.1 hp]; exact hs
  rw [mkDS, checkDS_ok, hl] at h
  obtain ⟨-, -, -, -, -, rfl⟩ := h
  exact disc_array hd hm hs

theorem disc_launder {t : Ty} (h : Disc ok t) : Disc ok (launderTy t) ∧ (launderTy t).isSingleton = false := by
  cases hd : t.isDShape with
  | false =>
    rw [launderTy_id hd]
    exact ⟨h, by cases t <;> first | rfl | (simp [Ty.isDShape] at hd)⟩
  | true =>
    cases t <;> simp [Ty.isDShape] at hd
    rename_i ps
    obtain ⟨dims, m, rfl, h1, h2, h3, -⟩ := Disc.params h.all
    cases dims with
    | nil =>
      exact ⟨h2, by simp only [List.nil_append, launderTy]; cases m <;> first | rfl | (simp [Ty.isDShape] at h3)⟩
    | cons d dims =>
      cases dims <;> exact ⟨h, rfl⟩

theorem disc_asParams {t : Ty} (h : Disc ok t) : ∃ dims m, asParams t = dims ++ [m] ∧ (∀ d ∈ dims, d.isExtent = true) ∧
    Disc ok m ∧ m.isDShape = false := by
  cases hd : t.isDShape with
  | false => exact ⟨[], t, by rw [asParams_of hd]; rfl, by simp, h, hd⟩
  | true =>
    cases t <;> simp [Ty.isDShape] at hd
    obtain ⟨dims, m, e, h1, h2, h3, -⟩ := Disc.params h.all
    exact ⟨dims, m, by rw [asParams, e], h1, h2, h3⟩

theorem extent_cons {d : Ty} {dims : List Ty} (h : d.isExtent = true) (hd : ∀ d ∈ dims, d.isExtent = true) :
    ∀ x ∈ d :: dims, x.isExtent = true := by
  intro x hx
  rcases List.mem_cons.1 hx with rfl | hx
  · exact h
  · exact hd x hx

theorem disc_mul_int {n : Nat} {t r : Ty} (h : mul (.int n) (.ty t) = .ok r) (ht : Disc ok t) : Disc ok r := by
  rw [mul_int_eq] at h
  obtain ⟨dims, m, e, h1, h2, h3⟩ := disc_asParams ht
  rw [e] at h
  exact disc_ctor (dims := .fixed n :: dims) (extent_cons rfl h1) h2 h3 h

theorem disc_mul_ty {d t r : Ty} (h : mul (.ty d) (.ty t) = .ok r) (hd : d.isExtent = true) (ht : Disc ok t) : Disc ok r := by
  have : mul (.ty d) (.ty t) = mkDS (d :: asParams t) := by cases t <;> rfl
  rw [this] at h
  obtain ⟨dims, m, e, h1, h2, h3⟩ := disc_asParams ht
  rw [e] at h
  exact disc_ctor (dims := d :: dims) (extent_cons hd h1) h2 h3 h

theorem disc_field {fs : List (Str × Ty)} (h : (Ty.record fs).everywhere (discLocal ok) = true) {f : Str × Ty} (hf : f ∈ fs) :
    Disc ok f.2 ∧ ok f.1 = true ∧ f.2.isSingleton = false := by
  have hl := everywhere_self h
  simp only [discLocal, Bool.and_eq_true, List.all_eq_true] at hl
  obtain ⟨⟨h1, h2⟩, h3⟩ := hl.2 f hf
  exact ⟨⟨everywhere_child h (List.mem_map.2 ⟨f, hf, rfl⟩), h3⟩, h2, by simpa using h1⟩

/-- `ds.subshape[0]` -/
theorem disc_subshape {t r : Ty} (h : subshape (.int 0) t = .ok r) (ht : Disc ok t) : Disc ok r := by
  rw [subshape] at h
  simp only [bind_ok] at h
  obtain ⟨d, hd, h⟩ := h
  have hdd : ∃ ps, t = .dshape (d :: ps) := by
    unfold Ty.head at hd
    split at hd
    · cases hd; exact ⟨_, rfl⟩
    · cases hd
    · cases hd
  obtain ⟨ps, rfl⟩ := hdd
  obtain ⟨dims, m, e, h1, h2, h3, h4⟩ := Disc.params ht.all
  split at h
  · have hdrop : ∀ ds : List Ty, dims = d :: ds → ps = ds ++ [m] := by
      intro ds e'
      rw [e'] at e
      injection e
    simp only [subarray] at h
    split at h
    · cases h
    · split at h
      · split at h
        · cases h
        · rename_i x hx
          rw [e, List.getLast?_concat] at hx
          injection hx with hx
          subst hx
          exact disc_ctor (dims := []) (by simp) h2 h3 h
      · rename_i hlen hlen'
        have : pyDrop (d :: ps) 1 = ps := by simp [pyDrop]
        rw [this] at h
        cases dims with
        | nil =>
          injection e with e1 e2
          subst e2
          simp at hlen
        | cons d' ds =>
          injection e with e1 e2
          subst e1
          rw [e2] at h
          exact disc_ctor (fun x hx => h1 x (by simp [hx])) h2 h3 h
  · split at h
    · rename_i fs hfs
      simp only [bind_ok] at h
      obtain ⟨f, hf, h⟩ := h
      cases h
      have hd' : d = .record fs := by
        cases d <;> simp [Ty.fields?] at hfs
        rw [hfs]
      subst hd'
      have : f ∈ fs := by
        unfold pyGet at hf
        simp only at hf
        generalize (if (0 : Int) < 0 then (fs.length : Int) + 0 else 0) = j at hf
        split at hf
        · cases hf
        · split at hf
          · rename_i x hx; cases hf; exact List.mem_of_getElem? hx
          · cases hf
      exact (disc_field (h4 _ (by simp)).1 this).1
    · cases h

theorem disc_mkRecord {fs : List (Str × Ty)} {r : Ty} (h : mkRecord fs = .ok r) (hf : ∀ f ∈ fs, Disc ok f.2 ∧ ok f.1 = true) :
    Disc ok r := by
  obtain ⟨hn, rfl⟩ := mkRecord_ok h
  refine ⟨everywhere_mk ?_ ?_, rfl⟩
  · simp only [discLocal, Bool.and_eq_true, List.all_eq_true, decide_eq_true_eq, List.map_map, Function.comp_def]
    refine ⟨hn, ?_⟩
    intro f hf'
    obtain ⟨g, hg, rfl⟩ := List.mem_map.1 hf'
    obtain ⟨h1, h2⟩ := disc_launder (hf g hg).1
    exact ⟨⟨by simp [h2], (hf g hg).2⟩, h1.top⟩
  · intro p hp
    simp only [Ty.children, List.map_map, List.mem_map, Function.comp] at hp
    obtain ⟨f, hm, rfl⟩ := hp
    exact (disc_launder (hf f hm).1).1.all

theorem disc_mkTuple {ts : List Ty} {r : Ty} (h : mkTuple ts = .ok r) (hf : ∀ t ∈ ts, Disc ok t) : Disc ok r := by
  obtain ⟨us, rfl, hm⟩ := mkTuple_ok h
  have hu : ∀ u ∈ us, Disc ok u ∧ u.isDShape = true := by
    intro u hu
    obtain ⟨t, ht, e⟩ := mapM_mem hm u hu
    unfold wrapDS at e
    split at e
    · rename_i hd; cases e; exact ⟨hf _ ht, hd⟩
    · rename_i hd
      have := disc_ctor (dims := []) (by simp) (hf t ht) (by simpa using hd) e
      refine ⟨this, ?_⟩
      rw [mkDS, checkDS_ok] at e
      obtain ⟨-, -, -, -, -, rfl⟩ := e
      rfl
  refine ⟨everywhere_mk ?_ fun p hp => (hu p hp).1.all, rfl⟩
  simp only [discLocal, List.all_eq_true]
  exact fun u h => (hu u h).2

theorem disc_option {t : Ty} (h : Disc ok t) (ho : (launderTy t).isOption = false) (h2 : (launderTy t).isDShape = false) :
    Disc ok (mkOption t) := by
  obtain ⟨h1, -⟩ := disc_launder h
  refine ⟨everywhere_mk ?_ ?_, rfl⟩
  · simp only [mkOption, discLocal, Bool.and_eq_true]
    exact ⟨⟨by simp [h2], by simp [ho]⟩, h1.top⟩
  · intro p hp
    rw [List.mem_singleton.1 hp]
    exact h1.all

theorem disc_node (n : Node) : Disc ok n.ty := by
  cases n <;> exact ⟨rfl, rfl⟩

theorem disc_uniteBase {topo : List Node} {fuel : Nat} {ts : List Ty} {r : Ty} (h : uniteBase topo fuel ts = .ok r)
    (hts : ∀ t ∈ ts, Disc ok t) : Disc ok r := by
  induction fuel generalizing ts r with
  | zero => cases h
  | succ fuel ih =>
    rw [uniteBase] at h
    simp only at h
    split at h
    · exact disc_mul_int h (disc_node .null)
    · rename_i g good hgood
      simp only [bind_ok] at h
      obtain ⟨base, hb, h⟩ := h
      have hordg : ∀ x ∈ (ts.map launderTy).filter (fun t => !isNull t), Disc ok x := by
        intro x hx
        obtain ⟨y, hy, rfl⟩ := List.mem_map.1 (List.mem_filter.1 hx).1
        exact (disc_launder (hts y hy)).1
      have hbase : Disc ok base ∧ (launderTy base).isOption = false ∧ (launderTy base).isDShape = false := by
        split at hb
        · obtain ⟨n, rfl⟩ := lowestCommon_node hb
          exact ⟨disc_node n, by cases n <;> rfl, by cases n <;> rfl⟩
        · simp only [bind_ok] at hb
          obtain ⟨names, hn, fields, hf, hb⟩ := hb
          refine ⟨disc_mkRecord hb fun f hfm => ?_, ?_⟩
          · obtain ⟨name, hname, hn'⟩ := mapM_mem hf f hfm
            simp only [bind_ok] at hn'
            obtain ⟨col, hc, u, hu, t, ht, e⟩ := hn'
            cases e
            have hcol : ∀ c ∈ col, Disc ok c := by
              intro c hcm
              obtain ⟨x, hx, hd⟩ := mapM_mem hc c hcm
              have hxo := hordg x hx
              cases x <;> simp only [dictGet] at hd <;> try cases hd
              rename_i fs
              cases hl : fs.reverse.lookup name with
              | none => exact disc_node .null
              | some y =>
                have := lookup_mem hl
                exact (disc_field hxo.all (f := (name, y)) (by simpa using this)).1
            refine ⟨disc_subshape ht (ih hu hcol), ?_⟩
            have hg := hordg g (by rw [hgood]; simp)
            cases g <;> simp only [namesOf] at hn <;> try cases hn
            rename_i fs
            simp only [recordNames, List.mem_map] at hname
            obtain ⟨x, hx, rfl⟩ := hname
            exact (disc_field hg.all hx).2.1
          · unfold mkRecord at hb
            split at hb
            · cases hb; exact ⟨rfl, rfl⟩
            · cases hb
      split at h
      · exact disc_mul_int h (disc_option hbase.1 hbase.2.1 hbase.2.2)
      · exact disc_mul_int h hbase.1

theorem disc_uniteIdentical {ts : List Ty} {r : Ty} (h : uniteIdentical ts = .ok (some r))
    (hts : ∀ t ∈ ts, Disc ok t) : Disc ok r := by
  obtain ⟨-, t, us, e, hm⟩ := uniteIdentical_some h
  exact disc_mul_int hm (hts t (by rw [e]; simp))

theorem disc_uniteFull {topo : List Node} {ts : List Ty} {r : Ty} (h : uniteFull topo ts = .ok r)
    (hts : ∀ t ∈ ts, Disc ok t) : Disc ok r := by
  unfold uniteFull at h
  simp only [bind_ok] at h
  obtain ⟨u, h1, h⟩ := h
  cases u with
  | some t => cases h; exact disc_uniteIdentical h1 hts
  | none => exact disc_uniteBase h hts

theorem disc_uniteMerge {ts : List Ty} {r : Ty} (h : uniteMerge ts = .ok (some r)) (hts : ∀ t ∈ ts, Disc ok t) : Disc ok r := by
  unfold uniteMerge at h
  split at h
  · rename_i hdims
    rw [List.all_eq_true] at hdims
    simp only [bind_ok] at h
    obtain ⟨dims, hd, subs, hs, u, hu, h⟩ := h
    have hsub : ∀ t ∈ subs, Disc ok t := by
      intro t ht
      obtain ⟨x, hx, e⟩ := mapM_mem hs t ht
      exact disc_subshape e (hts x hx)
    have hdim : ∀ t ∈ dims, t.isExtent = true := by
      intro t ht
      obtain ⟨x, hx, e⟩ := mapM_mem hd t ht
      have h1 := hdims x hx
      have hdx := hts x hx
      cases x <;> simp only [Ty.head] at e <;> try cases e
      rename_i ps
      cases ps with
      | nil => cases e
      | cons d ps =>
        cases e
        obtain ⟨-, -, -, -, -, -, h4⟩ := Disc.params hdx.all
        have := everywhere_self (h4 t (by simp)).1
        simp only at h1
        cases t <;> first | rfl | (simp [isDimension] at h1; done) | (cases this; done)
    cases u with
    | none => cases h
    | some base =>
      simp only [bind_ok] at h
      obtain ⟨inner, hi, row, hr, r', h1, h⟩ := h
      cases h
      refine disc_mul_int h1 (disc_mul_ty hr ?_ (disc_subshape hi (disc_uniteIdentical hu hsub)))
      split
      · cases dims with
        | nil => rfl
        | cons d ds => exact hdim d (by simp)
      · rfl
  · cases h

theorem disc_uniteTuple {ts : List Ty} {r : Ty} (h : uniteTuple ts = .ok r) (hts : ∀ t ∈ ts, Disc ok t) : Disc ok r := by
  unfold uniteTuple at h
  simp only [bind_ok] at h
  obtain ⟨u, h1, h⟩ := h
  cases u with
  | some t => cases h; exact disc_uniteIdentical h1 hts
  | none =>
    simp only [bind_ok] at h
    obtain ⟨v, h2, h⟩ := h
    cases v with
    | some t => cases h; exact disc_uniteMerge h2 hts
    | none => exact disc_mkTuple h hts

theorem disc_columnType {topo : List Node} {c : List (Except PyErr Ty)} {r : Ty} (h : columnType topo c = .ok r)
    (hc : ∀ t, .ok t ∈ c → Disc ok t) : Disc ok r := by
  unfold columnType column at h
  simp only [bind_ok] at h
  obtain ⟨ts, h1, u, h2, h3⟩ := h
  refine disc_subshape h3 (disc_uniteFull h2 fun t ht => ?_)
  obtain ⟨x, hx, e⟩ := mapM_mem h1 t ht
  simp only [id] at e
  exact hc t (e ▸ hx)

/-- what is known about an item consists of discovered datashapes -/
structure Item.Disc (ok : Str → Bool) (i : Item) : Prop where
  self : ∀ t, i.self = .ok t → DS.Disc ok t
  elems : ∀ l, i.elems = some l → ∀ t, .ok t ∈ l → DS.Disc ok t
  entries : ∀ l, i.entries = some l → ∀ k x, (k, x) ∈ l → ok k = true ∧ ∀ t, x = .ok t → DS.Disc ok t

theorem disc_recordOf {es : List (Str × Except PyErr Ty)} {r : Ty} (h : recordOf es = .ok r)
    (he : ∀ k x, (k, x) ∈ es → ok k = true ∧ ∀ t, x = .ok t → DS.Disc ok t) : Disc ok r := by
  unfold recordOf at h
  simp only [bind_ok] at h
  obtain ⟨fs, h1, h⟩ := h
  refine disc_mkRecord h fun f hf => ?_
  obtain ⟨e, hem, h2⟩ := mapM_mem h1 f hf
  simp only [bind_ok] at h2
  obtain ⟨t, ht, hft⟩ := h2
  cases hft
  exact ⟨(he _ _ hem).2 t ht, (he _ _ hem).1⟩

theorem disc_discoverMap {es : List (Str × Except PyErr Ty)} {r : Ty} (h : discoverMap es = .ok r)
    (he : ∀ k x, (k, x) ∈ es → ok k = true ∧ ∀ t, x = .ok t → DS.Disc ok t) : Disc ok r := by
  refine disc_recordOf h fun k x hkt => ?_
  obtain ⟨k', hk', e⟩ := List.mem_map.1 hkt
  injection e with e1 e2
  subst e1
  rw [sortStr_mem] at hk'
  obtain ⟨y, hy, rfl⟩ := List.mem_map.1 hk'
  refine ⟨(he _ _ hy).1, fun t ht => ?_⟩
  cases hl : es.lookup y.1 with
  | none => rw [hl] at e2; rw [← e2] at ht; cases ht
  | some z =>
    rw [hl] at e2
    simp only [Option.getD_some] at e2
    subst e2
    exact (he _ _ (lookup_mem hl)).2 t ht

theorem disc_discoverSeq {topo : List Node} {items : List Item} (hi : ∀ i ∈ items, i.Disc ok) {r : Ty}
    (h : discoverSeq topo items = .ok r) : Disc ok r := by
  unfold discoverSeq at h
  split at h
  · cases h; exact ⟨rfl, rfl⟩
  rcases orElse_ok h with h | ⟨h, -⟩
  · unfold discoverRows at h
    split at h
    · rename_i r0 rows hr
      split at h
      · injection h with h
        simp only [bind_ok] at h
        obtain ⟨types, h1, u, h2, h3⟩ := h
        refine disc_mul_int h3 (disc_uniteTuple h2 fun t ht => ?_)
        obtain ⟨c, hc, e⟩ := mapM_mem h1 t ht
        refine disc_columnType e fun t' ht' => ?_
        obtain ⟨j, -, rfl⟩ := List.mem_map.1 hc
        obtain ⟨row, hrow, e⟩ := List.mem_map.1 ht'
        obtain ⟨i, him, hel⟩ := mapM_some_mem hr row hrow
        cases hj : row[j]? with
        | none => rw [hj] at e; cases e
        | some y =>
          rw [hj] at e
          simp only [Option.getD_some] at e
          subst e
          exact (hi i him).elems _ hel _ (List.mem_of_getElem? hj)
      · cases h
    · cases h
  rcases orElse_ok h with h | ⟨h, -⟩
  · unfold discoverDicts at h
    split at h
    · rename_i rows hr
      injection h with h
      simp only [bind_ok] at h
      obtain ⟨types, h1, u, h2, h3⟩ := h
      have hent : ∀ row ∈ rows, ∀ k x, (k, x) ∈ row → ok k = true ∧ ∀ t, x = .ok t → DS.Disc ok t := by
        intro row hrow
        obtain ⟨i, him, hel⟩ := mapM_some_mem hr row hrow
        exact (hi i him).entries _ hel
      refine disc_mul_int h3 (disc_mkRecord h2 fun f hf => ⟨?_, ?_⟩)
      · have ht : f.2 ∈ types := List.of_mem_zip (a := f.1) (b := f.2) hf |>.2
        obtain ⟨c, hc, e⟩ := mapM_mem h1 _ ht
        refine disc_columnType e fun t' ht' => ?_
        obtain ⟨k, -, rfl⟩ := List.mem_map.1 hc
        obtain ⟨row, hrow, e⟩ := List.mem_map.1 ht'
        cases hj : row.lookup k with
        | none => rw [hj] at e; injection e with e; subst e; exact disc_node .null
        | some y =>
          rw [hj] at e
          simp only [Option.getD_some] at e
          subst e
          exact (hent row hrow _ _ (lookup_mem hj)).2 _ rfl
      · have hk : f.1 ∈ allKeys rows := List.of_mem_zip (a := f.1) (b := f.2) hf |>.1
        unfold allKeys at hk
        rw [sortStr_mem, mem_toSet] at hk
        obtain ⟨row, hrow, hk⟩ := List.mem_flatMap.1 hk
        obtain ⟨x, hx, e⟩ := List.mem_map.1 hk
        rw [← e]
        exact (hent row hrow _ _ hx).1
    · cases h
  · unfold discoverRest at h
    simp only [bind_ok] at h
    obtain ⟨types, h1, h2⟩ := h
    refine disc_uniteTuple h2 fun t ht => ?_
    obtain ⟨i, him, e⟩ := mapM_mem h1 t ht
    exact (hi i him).self t e

/-! ### Values -/

theorem disc_fromDtype {d : DType} {m : Ty} (hb : ∀ n, d ≠ .bytes n) (h : fromDtype d = .ok m) : Disc ok m ∧ m.isDShape = false := by
  have key : ∀ f e, canonicalEncodings.contains e = true → Disc ok (.string f e) ∧ (Ty.string f e).isDShape = false :=
    fun f e he => ⟨⟨disc_leaf he rfl, rfl⟩, rfl⟩
  unfold fromDtype at h
  split at h
  · rename_i p; cases h; cases p <;> exact ⟨⟨rfl, rfl⟩, rfl⟩
  · split at h <;> cases h <;> exact ⟨⟨rfl, rfl⟩, rfl⟩
  · have hw := mkTimeDelta_ok (env := ⟨fun _ => false, fun _ => false⟩) h
    unfold mkTimeDelta at h
    split at h
    · cases h
      exact ⟨⟨disc_leaf hw.local rfl, rfl⟩, rfl⟩
    · cases h
  · obtain ⟨-, c, rfl, hc⟩ := mkString_ok (env := ⟨fun _ => false, fun _ => false⟩) h
    exact key _ _ hc
  · exact absurd rfl (hb _)
  · cases h; exact ⟨⟨rfl, rfl⟩, rfl⟩
  · split at h <;> cases h
    exact ⟨⟨rfl, rfl⟩, rfl⟩

theorem disc_withShape {sh : List Int} {m r : Ty} (h : withShape sh m = .ok r) (hm : Disc ok m) (hs : m.isDShape = false) :
    Disc ok r := by
  unfold withShape at h
  split at h
  · cases h; exact hm
  · simp only [bind_ok] at h
    obtain ⟨dims, h1, h2⟩ := h
    refine disc_ctor (fun d hd => ?_) hm hs h2
    obtain ⟨i, -, e⟩ := mapM_mem h1 d hd
    unfold mkFixed at e
    split at e
    · cases e
    · cases e; rfl

theorem disc_fromNumpy (d : DType) : (∀ k, d.Names k → ok k = true) → ∀ sh r, fromNumpy d sh = .ok r → Disc ok r := by
  have hstr : ∀ {n e sh r}, (do withShape sh (← mkString n e)) = .ok r → Disc ok r := by
    intro n e sh r h
    simp only [bind_ok] at h
    obtain ⟨m, h1, h2⟩ := h
    obtain ⟨-, c, rfl, hc⟩ := mkString_ok (env := ⟨fun _ => false, fun _ => false⟩) h1
    exact disc_withShape h2 ⟨disc_leaf hc rfl, rfl⟩ rfl
  have hother : ∀ {d sh r}, (∀ n, d ≠ .bytes n) → (do withShape sh (← fromDtype d)) = .ok r → Disc ok r := by
    intro d sh r hb h
    simp only [bind_ok] at h
    obtain ⟨m, h1, h2⟩ := h
    obtain ⟨h3, h4⟩ := disc_fromDtype (ok := ok) hb h1
    exact disc_withShape h2 h3 h4
  refine DType.rec (motive_1 := fun d => (∀ k, d.Names k → ok k = true) → ∀ sh r, fromNumpy d sh = .ok r → Disc ok r)
    (motive_2 := fun l => (∀ n sh d, (n, sh, d) ∈ l → ok n = true ∧ ∀ k, d.Names k → ok k = true) →
      ∀ r, fromNumpyF l = .ok r → ∀ f ∈ r, Disc ok f.2 ∧ ok f.1 = true)
    (motive_3 := fun x => (∀ k, x.2.2.Names k → ok k = true) → ∀ sh r, fromNumpy x.2.2 sh = .ok r → Disc ok r)
    (motive_4 := fun x => (∀ k, x.2.Names k → ok k = true) → ∀ sh r, fromNumpy x.2 sh = .ok r → Disc ok r)
    ?_ ?_ ?_ ?_ ?_ ?_ ?_ ?_ ?_ ?_ d
  · intro p _ sh r h; rw [fromNumpy] at h
    · exact hother (by simp) h
    all_goals simp
  · intro p _ sh r h; rw [fromNumpy] at h
    · exact hother (by simp) h
    all_goals simp
  · intro p _ sh r h; rw [fromNumpy] at h
    · exact hother (by simp) h
    all_goals simp
  · intro n _ sh r h; rw [fromNumpy] at h; exact hstr h
  · intro n _ sh r h; rw [fromNumpy] at h; exact hstr h
  · intro l hl hn sh r h
    cases l with
    | nil =>
      rw [fromNumpy] at h
      · exact hother (by simp) h
      all_goals simp
    | cons f l =>
      rw [fromNumpy] at h
      simp only [bind_ok] at h
      obtain ⟨fs, h1, m, h2, h3⟩ := h
      have := disc_mkRecord h2 (hl (fun n sh d hm => ⟨hn n (.field hm), fun k hk => hn k (.inside hm hk)⟩) fs h1)
      refine disc_withShape h3 this ?_
      obtain ⟨-, rfl⟩ := mkRecord_ok h2
      rfl
  · intro _ r h f hf
    rw [fromNumpyF] at h
    cases h; cases hf
  · intro x l hx hl hn r h f hf
    obtain ⟨n, sh, d⟩ := x
    rw [fromNumpyF] at h
    simp only [bind_ok] at h
    obtain ⟨t, h1, rest, h2, h3⟩ := h
    cases h3
    obtain ⟨g1, g2⟩ := hn n sh d (by simp)
    rcases List.mem_cons.1 hf with e | hf
    · subst e; exact ⟨hx g2 _ _ h1, g1⟩
    · exact hl (fun n' sh' d' hm => hn n' sh' d' (by simp [hm])) _ h2 f hf
  · intro n x hx; exact hx
  · intro sh d hd; exact hd

theorem disc_array' {a : NdArray} {r : Ty} (hn : ∀ k, a.dtype.Names k → ok k = true) (h : discoverArray a = .ok r) : Disc ok r := by
  obtain ⟨m, hm⟩ := discoverArray_measure h
  have hp := disc_fromNumpy _ hn _ _ hm
  obtain ⟨hds, -⟩ := fromNumpy_kind hm
  have hext : ∀ d ∈ a.shape.map Ty.fixed, d.isExtent = true := by
    intro d hd; obtain ⟨n, -, rfl⟩ := List.mem_map.1 hd; rfl
  have hnd : Disc ok (ndDatashape a.shape m) := by
    unfold ndDatashape
    split
    · exact hp
    · exact disc_array hext hp hds
  rw [discoverArray_eq hm] at h
  split at h
  · cases h; exact disc_array hext ⟨rfl, rfl⟩ rfl
  · unfold NdArray.finish at h
    split at h
    · rename_i fs
      split at h
      · simp only [bind_ok] at h
        obtain ⟨m', h3, h4⟩ := h
        have hpm : Disc ok m' := disc_mkRecord h3 fun f hf => by
          obtain ⟨g, hg, rfl⟩ := List.mem_map.1 hf
          obtain ⟨e1, e2, -⟩ := disc_field hp.all hg
          refine ⟨?_, e2⟩
          unfold NdArray.field
          simp only
          split
          · exact ⟨rfl, rfl⟩
          · exact e1
        refine disc_ctor hext hpm ?_ h4
        obtain ⟨-, rfl⟩ := mkRecord_ok h3
        rfl
      · injection h with h; subst h; exact hnd
    · injection h with h; subst h; exact hnd

theorem disc_item {strTy : Str → Except PyErr Ty} (hs : ∀ s t, s ≠ [] → strTy s = .ok t → Disc ok t) (topo : List Node) (v : PyObj) :
    (∀ k, KeyIn v k → ok k = true) → (discoverItem strTy topo v).Disc ok := by
  have hentries : ∀ (v : PyObj) (l : List (Str × PyObj)), v.pairs? = some l → (∀ k, KeyIn v k → ok k = true) →
      (∀ e ∈ l, (∀ k, KeyIn e.2 k → ok k = true) → (discoverItem strTy topo e.2).Disc ok) →
      ∀ k x, (k, x) ∈ l.map (fun kv => (kv.1, discover strTy topo kv.2)) → ok k = true ∧ ∀ t, x = .ok t → Disc ok t := by
    intro v l hp hk ih k x h
    obtain ⟨kv, h1, e⟩ := List.mem_map.1 h
    injection e with e1 e2
    subst e1
    refine ⟨hk _ (.key hp h1), fun t ht => ?_⟩
    exact (ih kv h1 fun k hk' => hk k (.value hp h1 hk')).self t (e2.trans ht)
  induction v using PyObj.ind with
  | atom v hv =>
    intro hk
    have hself : ∀ (x : Except PyErr Ty), (∀ t, x = .ok t → Disc ok t) → Item.Disc ok ⟨x, none, none⟩ :=
      fun x hx => ⟨hx, by intro l h; (injection h), by intro l h; (injection h)⟩
    cases v <;> (try (simp [PyObj.isAtom] at hv)) <;> simp only [discoverItem] <;> apply hself
    case str s =>
      intro t h
      split at h
      · cases h; exact ⟨rfl, rfl⟩
      · rename_i hne; exact hs s t (by simpa using hne) h
    case array a =>
      intro t h
      exact disc_array' (fun k h' => hk k (.array h')) (item_ok h).1
    case arrayLike sh d => exact fun t h => disc_fromNumpy _ (fun k h' => hk k (.arrayLike h')) _ _ h
    case npScalar d => exact fun t h => disc_fromNumpy _ (fun k h' => hk k (.scalar h')) _ _ h
    all_goals (intro t h; cases h <;> exact ⟨rfl, rfl⟩)
  | seq k l ih =>
    intro hk
    rw [discoverItem, discoverItems_eq]
    have hi : ∀ i ∈ l.map (discoverItem strTy topo), i.Disc ok := by
      intro i hi
      obtain ⟨v, hv, rfl⟩ := List.mem_map.1 hi
      exact ih v hv fun k h' => hk k (.item hv h')
    refine ⟨fun t h => disc_discoverSeq hi h, ?_, by intro l h; injection h⟩
    intro es he t ht
    simp only at he
    split at he
    · cases he
    · injection he with he
      rw [← he] at ht
      obtain ⟨i, h1, e⟩ := List.mem_map.1 ht
      exact (hi i h1).self t e
  | dict l ih =>
    intro hk
    rw [discoverItem, discoverEntries_eq]
    exact ⟨fun t h => disc_discoverMap h (hentries _ l rfl hk ih), by intro l h; injection h,
      by intro l h; injection h with h; rw [← h]; exact hentries _ _ rfl hk ih⟩
  | od l ih =>
    intro hk
    rw [discoverItem, discoverEntries_eq]
    exact ⟨fun t h => disc_recordOf h (hentries _ l rfl hk ih), by intro l h; injection h,
      by intro l h; injection h with h; rw [← h]; exact hentries _ _ rfl hk ih⟩
  | mp l ih =>
    intro hk
    rw [discoverItem, discoverEntries_eq]
    exact ⟨fun t h => disc_discoverMap h (hentries _ l rfl hk ih), by intro l h; injection h, by intro l h; injection h⟩

theorem disc_str (E : StrEnv) (s : Str) (t : Ty) (hs : s ≠ []) (h : discoverStr E s = .ok t) : Disc ok t := by
  have := C46.kinds E [] s t (by rw [discover, discoverItem]; simpa [hs] using h)
  rcases this with rfl | rfl | rfl | rfl | ⟨u, hu, rfl⟩ | rfl | rfl | rfl | rfl
  all_goals first | exact ⟨rfl, rfl⟩ | skip
  exact ⟨disc_leaf (by simpa [discLocal, canonicalUnits, timeUnits] using hu) rfl, rfl⟩

/-- every result of `discover` -/
theorem disc_discover (E : StrEnv) (topo : List Node) (v : PyObj) (t : Ty) (hk : ∀ k, KeyIn v k → ok k = true)
    (h : discover (discoverStr E) topo v = .ok t) : Disc ok t :=
  (disc_item (disc_str E) topo v hk).self t h

theorem extent_isDim {d : Ty} (h : d.isExtent = true) : d.isDim = true := by
  cases d <;> simp [Ty.isExtent] at h <;> rfl

theorem discLocal_localOk (env : Env) (t : Ty) (h : discLocal ok t = true) : localOk env t = true := by
  cases t <;> first | rfl | (cases h; done) | exact h | skip
  case option t =>
    simp only [discLocal, Bool.and_eq_true] at h
    have := h.1.1
    cases t <;> first | rfl | cases this
  case record fs =>
    simp only [discLocal, Bool.and_eq_true, List.all_eq_true] at h
    simp only [localOk, Bool.and_eq_true, List.all_eq_true]
    exact ⟨h.1, fun f hf => (h.2 f hf).1.1⟩
  case dshape ps =>
    simp only [discLocal, Bool.and_eq_true, List.all_eq_true] at h
    simp only [localOk, Bool.and_eq_true, List.all_eq_true]
    exact ⟨⟨⟨h.1.1.1, fun d hd => extent_isDim (h.1.1.2 d hd)⟩, endsOk_fun ▸ h.1.2⟩, h.2⟩

theorem disc_spelled {env : Env} (t : Ty) (h : t.everywhere (discLocal (fieldNameOk env)) = true) :
    t.everywhere (spelledLocal env) = true := by
  rw [everywhere_iff] at h ⊢
  intro s hs
  have hl := h s hs
  have hev : s.everywhere (discLocal (fieldNameOk env)) = true := by
    rw [everywhere_iff]; exact fun u hu => h u (hu.trans hs)
  cases s <;> first | rfl | (cases hl; done) | exact hl | skip
  case time z => cases z <;> first | rfl | cases hl
  case datetime z => cases z <;> first | rfl | cases hl
  case option t =>
    simp only [discLocal, Bool.and_eq_true] at hl
    simp only [spelledLocal, Bool.and_eq_true]
    exact ⟨hl.1.2, hl.2⟩
  case record fs =>
    simp only [discLocal, Bool.and_eq_true, List.all_eq_true] at hl
    simp only [spelledLocal, Bool.and_eq_true, List.all_eq_true]
    exact fun f hf => ⟨(hl.2 f hf).1.2, (hl.2 f hf).2⟩
  case dshape ps =>
    obtain ⟨dims, m, rfl, -, h2, -⟩ := Disc.params hev
    simp only [spelledLocal, List.getLast?_concat, Option.all_some]
    exact h2.top

theorem disc_valid (t : Ty) : t.everywhere (discLocal ok) = true → validOk t = true := by
  have hne : ∀ t : Ty, t.everywhere (discLocal ok) = true → t.isEllipsis = false := by
    intro t h
    have := everywhere_self h
    cases t <;> first | rfl | cases this
  induction t using Ty.ind with
  | option t ih => intro h; rw [validOk]; exact ih (everywhere_child h (by simp [Ty.children]))
  | map k v => intro h; cases everywhere_self h
  | func ps => intro h; cases everywhere_self h
  | categorical c t o => intro h; cases everywhere_self h
  | dshape ps ih =>
    intro h
    obtain ⟨dims, m, e, -, -, -, hall⟩ := Disc.params h
    rw [validOk, validOkL_eq, List.filter_eq_nil_iff.2 (fun p hp => by simp [hne p (hall p hp).1])]
    simp only [Bool.and_eq_true, List.all_eq_true]
    refine ⟨⟨fun p hp => ih p hp (hall p hp).1, by simp⟩, ?_⟩
    rw [e, List.getLast?_concat]
    simp [hne m (hall m (by rw [e]; simp)).1]
  | _ => intro _; rfl

theorem disc_func (t : Ty) (h : t.everywhere (discLocal ok) = true) : t.everywhere funcDS = true := by
  refine everywhere_mono ?_ t h
  intro t h
  cases t <;> first | rfl | cases h

/-! ### C54 -/

/-- Whatever `discover` returns is well formed: dimensions in front of a measure, nothing redundantly wrapped, distinct
field names, canonical encodings and time units. -/
theorem C54.wellformed (env : Env) (E : StrEnv) (topo : List Node) (v : PyObj) (t : Ty)
    (h : discover (discoverStr E) topo v = .ok t) : WF env t :=
  everywhere_mono (discLocal_localOk env) t (disc_discover (ok := fun _ => true) E topo v t (fun _ _ => rfl) h).all

/-- If the keys of the dicts and the names of the fields of structured arrays in the value can be spelled, the result is
printable. -/
theorem C54.printable (env : Env) (E : StrEnv) (topo : List Node) (v : PyObj) (t : Ty)
    (hk : ∀ k, KeyIn v k → fieldNameOk env k = true) (h : discover (discoverStr E) topo v = .ok t) : Printable env t := by
  have hd := disc_discover E topo v t hk h
  exact ⟨C54.wellformed env E topo v t h, disc_spelled t hd.all, hd.top, disc_valid t hd.all⟩

/-- `dshape(str(discover(v)))` equals `discover(v)`; it is `discover(v)` itself, or `DataShape(discover(v))` if that is not
a `DataShape`. The same for `pprint` at every width. -/
theorem C54.roundtrip (env : Env) (disc : List Lit → Except PyErr Ty) (hd : ∀ l, Returns (disc l)) (E : StrEnv)
    (topo : List Node) (v : PyObj) (t : Ty) (hk : ∀ k, KeyIn v k → fieldNameOk env k = true)
    (h : discover (discoverStr E) topo v = .ok t) :
    ∃ u, u = (if t.isDShape then t else .dshape [t]) ∧ DS.dshape env disc (pyStr env t) = .ok u ∧ pyEq u t = true ∧
      ∀ width, DS.dshape env disc (pprint env t width) = .ok u := by
  have hp := C54.printable env E topo v t hk h
  have hf := disc_func t (disc_discover E topo v t hk h).all
  have hw : ∀ u, DS.dshape env disc (pyStr env t) = .ok u → ∀ width, DS.dshape env disc (pprint env t width) = .ok u := by
    intro u hu width
    rw [(C02.width_irrelevant hd t hp width width).2, hu]
  refine ⟨_, rfl, ?_⟩
  cases hds : t.isDShape with
  | true =>
    have := C01.identical hd t hp hds hf
    refine ⟨by simpa using this, by simpa using pyEq_refl hp.wf.eqOk, by simpa using hw _ this⟩
  | false =>
    obtain ⟨⟨u, h1, h2⟩, h3⟩ := C01.measure hd t hp hds
    rw [h2 hf] at h1
    refine ⟨by simpa using h1, ?_, by simpa using hw _ h1⟩
    have hsh : t.shape = [] := by
      obtain ⟨-, -, ho, -⟩ := discover_result (C46.scalar E) topo v t h
      cases t <;> first | rfl | (simp [Ty.isDShape] at hds; done) | (simp [Ty.isOption] at ho)
    obtain ⟨u', h4, h5⟩ := h3 hsh
    rw [h1] at h4
    injection h4 with h4
    rw [← h4] at h5
    simpa using h5

/-- `[{"a": 1, "b c": [1.5, 2.5]}, {"a": None, "b c": [3.5, 4.5]}]` -/
def tableValue : PyObj :=
  .seq .list [.dict [(py"a", .int), (py"b c", .seq .list [.float, .float])],
    .dict [(py"a", .none), (py"b c", .seq .list [.float, .float])]]

/-- A value with nested data: its datashape is `2 * {a: ?int64, 'b c': 2 * float64}`, its keys can be spelled, and its
printed form is read back. -/
theorem C54.example (env : Env) (E : StrEnv) (topo : List Node) (ht : Toposort discEdges (.ok topo)) :
    (∀ k, KeyIn tableValue k → fieldNameOk env k = true) ∧
    discover (discoverStr E) topo tableValue =
      .ok (.dshape [.fixed 2, .record [(py"a", .option tInt64), (py"b c", .dshape [.fixed 2, tFloat64])]]) ∧
    pyStr env (.dshape [.fixed 2, .record [(py"a", .option tInt64), (py"b c", .dshape [.fixed 2, tFloat64])]]) =
      py"2 * {a: ?int64, 'b c': 2 * float64}" := by
  have atom : ∀ {v : PyObj} {k}, v = .int ∨ v = .float ∨ v = .none → ¬ KeyIn v k := by
    rintro v k (rfl | rfl | rfl) h <;> cases h <;> simp_all [PyObj.pairs?]
  have floats : ∀ k, ¬ KeyIn (.seq .list [.float, .float]) k := by
    intro k h
    cases h with
    | item hv h =>
      simp only [List.mem_cons, List.not_mem_nil, or_false, or_self] at hv
      subst hv
      exact atom (by simp) h
    | key h => simp [PyObj.pairs?] at h
    | value h => simp [PyObj.pairs?] at h
  have row : ∀ x k, (x = .int ∨ x = .none) → KeyIn (.dict [(py"a", x), (py"b c", .seq .list [.float, .float])]) k →
      k = py"a" ∨ k = py"b c" := by
    intro x k hx h
    cases h with
    | key h hm =>
      simp only [PyObj.pairs?, Option.some.injEq] at h
      subst h
      simp only [List.mem_cons, Prod.mk.injEq, List.not_mem_nil, or_false] at hm
      rcases hm with ⟨h, -⟩ | ⟨h, -⟩
      · exact .inl h
      · exact .inr h
    | value h hm hk =>
      simp only [PyObj.pairs?, Option.some.injEq] at h
      subst h
      simp only [List.mem_cons, Prod.mk.injEq, List.not_mem_nil, or_false] at hm
      rcases hm with ⟨-, rfl⟩ | ⟨-, rfl⟩
      · exact absurd hk (atom (by rcases hx with h | h <;> simp [h]))
      · exact absurd hk (floats k)
  refine ⟨?_, ?_, ?_⟩
  · intro k h
    have : k = py"a" ∨ k = py"b c" := by
      cases h with
      | item hv h =>
        simp only [List.mem_cons, List.not_mem_nil, or_false] at hv
        rcases hv with rfl | rfl
        · exact row _ _ (.inl rfl) h
        · exact row _ _ (.inr rfl) h
      | key h => simp [PyObj.pairs?, tableValue] at h
      | value h => simp [PyObj.pairs?, tableValue] at h
    rcases this with rfl | rfl <;> rfl
  · have h1 : columnType topo [.ok tInt64, .ok .null] = .ok (.dshape [.option tInt64]) := by
      show ((lowestCommon topo [tInt64] >>= fun base => mul (.int 2) (.ty (mkOption base))) >>= fun u => subshape (.int 0) u) = _
      rw [show lowestCommon topo [tInt64] = .ok tInt64 from lowestCommon_one topo ht .int64]
      rfl
    have h2 : columnType topo [.ok (.dshape [.fixed 2, tFloat64]), .ok (.dshape [.fixed 2, tFloat64])] =
        .ok (.dshape [.fixed 2, tFloat64]) := rfl
    have h3 : discover (discoverStr E) topo tableValue =
        orElse (some (([[Except.ok tInt64, .ok .null], [.ok (.dshape [.fixed 2, tFloat64]), .ok (.dshape [.fixed 2, tFloat64])]].mapM
          (columnType topo)) >>= fun types =>
          mkRecord ([py"a", py"b c"].zip types) >>= fun r => mul (.int 2) (.ty r)))
          (discoverRest ([.dict [(py"a", .int), (py"b c", .seq .list [.float, .float])],
            .dict [(py"a", .none), (py"b c", .seq .list [.float, .float])]].map (discoverItem (discoverStr E) topo))) := rfl
    rw [h3, List.mapM_cons, List.mapM_cons, h1, h2]
    rfl
  · rfl

end DS
