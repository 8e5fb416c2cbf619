import Verif.Spec.DiscoverSize
import Verif.Model.StrDiscovery
import Verif.Props.DiscoverCalls

/-
C77. The datashape that `discover` finds is not larger than the value.
-/
namespace DS

theorem bulk_pos (t : Ty) : 1 ≤ t.bulk := by
  induction t using Ty.ind_children with
  | h t ih =>
    cases t <;> simp only [Ty.bulk] <;> first | omega | exact ih _ (by simp [Ty.children])

theorem bulkL_eq (l : List Ty) : bulkL l = (l.map Ty.bulk).sum := by
  induction l with
  | nil => rfl
  | cons x r ih => rw [bulkL, ih, List.map_cons, List.sum_cons]

theorem bulkF_eq (l : List (Str × Ty)) : bulkF l = (l.map fun f => f.2.bulk).sum := by
  induction l with
  | nil => rfl
  | cons x r ih => obtain ⟨k, x⟩ := x; rw [bulkF, ih, List.map_cons, List.sum_cons]

theorem bulk_launder (t : Ty) : (launderTy t).bulk = t.bulk := by
  unfold launderTy
  split
  · rename_i x
    have := bulk_pos x
    simp only [Ty.bulk, bulkL]; omega
  · rfl

theorem bulkL_launder (l : List Ty) : bulkL (l.map launderTy) = bulkL l := by
  rw [bulkL_eq, bulkL_eq, List.map_map]
  congr 1
  exact List.map_congr_left fun t _ => bulk_launder t

theorem bulk_asParams (t : Ty) : bulkL (asParams t) ≤ t.bulk := by
  cases t <;> simp only [asParams, bulkL, Ty.bulk] <;> omega

/-! ### The operations -/

theorem bulk_mul {n : Nat} {t r : Ty} (h : mul (.int n) (.ty t) = .ok r) : r.bulk ≤ 1 + t.bulk := by
  obtain ⟨rfl, -⟩ := mul_int_ok h
  have := bulk_asParams t
  have e : (Ty.fixed n).bulk = 1 := rfl
  simp only [Ty.bulk, bulkL, bulkL_launder, e]; omega

theorem bulk_mkDS {ps : List Ty} {r : Ty} (h : mkDS ps = .ok r) : r.bulk = max 1 (bulkL ps) := by
  rw [mkDS, checkDS_ok] at h
  obtain ⟨_, _, -, -, -, rfl⟩ := h
  simp only [Ty.bulk, bulkL_launder]

theorem bulk_mul_ty {d t r : Ty} (h : mul (.ty d) (.ty t) = .ok r) : r.bulk ≤ d.bulk + t.bulk := by
  have e : mul (.ty d) (.ty t) = mkDS (d :: asParams t) := by
    cases t <;> simp only [mul, rmulDS, Operand.toTy, bind, Except.bind, asParams]
  rw [e] at h
  have h1 := bulk_mkDS h
  have h2 := bulk_asParams t
  have h3 := bulk_pos d
  rw [bulkL] at h1; omega

theorem bulk_sub_mul {n : Nat} {t r u : Ty} (hm : mul (.int n) (.ty t) = .ok r) (h : subshape (.int 0) r = .ok u) :
    u.bulk ≤ t.bulk := by
  rw [sub_mul hm h]
  have := bulk_asParams t
  have := bulk_pos t
  simp only [Ty.bulk, bulkL_launder]; omega

theorem bulk_sub {d : Ty} {ps : List Ty} {u : Ty} (hd : isDimension d = true)
    (h : subshape (.int 0) (.dshape (d :: ps)) = .ok u) : u.bulk + 1 ≤ (Ty.dshape (d :: ps)).bulk := by
  rw [subshape] at h
  simp only [head_dshape, bind, Except.bind] at h
  rw [if_pos hd] at h
  unfold subarray at h
  simp only at h
  split at h
  · cases h
  · rename_i hlt
    have hne : ps ≠ [] := by rintro rfl; simp at hlt
    have hps : 1 ≤ bulkL ps := by
      obtain ⟨x, r, rfl⟩ := List.exists_cons_of_ne_nil hne
      have := bulk_pos x
      rw [bulkL]; omega
    have hdp := bulk_pos d
    split at h
    · rename_i h1
      have : ps.length = 1 := by simp at h1; omega
      obtain ⟨x, rfl⟩ := List.length_eq_one_iff.1 this
      simp only [List.getLast?_cons_cons, List.getLast?_singleton] at h
      have := bulk_mkDS h
      simp only [Ty.bulk, bulkL] at *; omega
    · have e : pyDrop (d :: ps) 1 = ps := by simp [pyDrop]
      rw [e] at h
      have := bulk_mkDS h
      simp only [Ty.bulk, bulkL] at *; omega

theorem bulk_mkRecord {fs : List (Str × Ty)} {r : Ty} (h : mkRecord fs = .ok r) :
    (fs.map (·.1)).Nodup ∧ r.bulk = 1 + bulkF fs := by
  unfold mkRecord at h
  split at h
  · rename_i hn
    injection h with h
    subst h
    refine ⟨hn, ?_⟩
    rw [Ty.bulk, bulkF_eq, bulkF_eq, List.map_map]
    congr 2
    exact List.map_congr_left fun f _ => bulk_launder f.2
  · cases h

theorem mapM_sumE {α β : Type} {f : α → Except PyErr β} {g : β → Nat} {h : α → Nat} {l : List α} {m : List β} (hm : l.mapM f = .ok m)
    (hle : ∀ x ∈ l, ∀ y, f x = .ok y → g y ≤ h x) : (m.map g).sum ≤ (l.map h).sum := by
  induction l generalizing m with
  | nil => cases hm; exact Nat.le_refl _
  | cons x r ih =>
    rw [List.mapM_cons] at hm
    simp only [bind_ok] at hm
    obtain ⟨y, hy, ys, hys, e⟩ := hm
    cases e
    have h1 := hle x (by simp) y hy
    have h2 := ih hys fun z hz => hle z (by simp [hz])
    simp only [List.map_cons, List.sum_cons]
    omega

theorem bulk_mkTuple {ts : List Ty} {r : Ty} (h : mkTuple ts = .ok r) : r.bulk ≤ 1 + bulkL ts := by
  unfold mkTuple at h
  split at h
  · rename_i l hl
    injection h with h
    subst h
    rw [Ty.bulk]
    refine Nat.add_le_add_left ?_ 1
    rw [bulkL_eq, bulkL_eq]
    refine mapM_sumE hl fun t _ y hy => ?_
    unfold wrapDS at hy
    split at hy
    · injection hy with hy
      subst hy; exact Nat.le_refl _
    · have := bulk_mkDS hy
      have := bulk_pos t
      simp only [bulkL] at *; omega
  · cases h

theorem bulk_identical {ts : List Ty} {r : Ty} (h : uniteIdentical ts = .ok (some r)) :
    ∃ t us, ts = t :: us ∧ mul (.int ts.length) (.ty t) = .ok r ∧ r.bulk ≤ 1 + t.bulk := by
  obtain ⟨-, t, us, e, hm⟩ := uniteIdentical_some h
  exact ⟨t, us, e, hm, bulk_mul hm⟩

theorem bulk_merge {ts : List Ty} {r : Ty} (h : uniteMerge ts = .ok (some r)) : r.bulk ≤ 1 + bulkL ts := by
  unfold uniteMerge at h
  split at h
  · rename_i hall
    simp only [bind_ok] at h
    obtain ⟨dims, hdims, subs, hsubs, u, hu, h⟩ := h
    cases u with
    | none => cases h
    | some base =>
      simp only [bind_ok] at h
      obtain ⟨inner, hinner, row, hrow, r', hr, h⟩ := h
      cases h
      obtain ⟨s, us, e, hm, -⟩ := bulk_identical hu
      have h1 := bulk_sub_mul hm hinner
      have h2 := bulk_mul hr
      have h3 := bulk_mul_ty hrow
      cases ts with
      | nil => simp at hsubs; cases hsubs; cases e
      | cons t ts =>
        rw [List.mapM_cons] at hsubs hdims
        simp only [bind_ok] at hsubs hdims
        obtain ⟨y, hy, ys, -, e'⟩ := hsubs
        obtain ⟨d', hd', ds, hds, ed⟩ := hdims
        cases e'; cases e; cases ed
        simp only [List.all_cons, Bool.and_eq_true] at hall
        obtain ⟨ht, hall⟩ := hall
        split at ht
        · rename_i d ps
          have h4 := bulk_sub ht hy
          have hd : (if (pyDistinct (d' :: ds)).length = 1 then (d' :: ds).head?.getD .var else .var).bulk = 1 := by
            split
            · simp only [List.head?_cons, Option.getD_some]
              simp only [Ty.head] at hd'
              cases hd'
              cases d' <;> first | rfl | cases ht
            · rfl
          rw [hd] at h3
          rw [bulkL]; omega
        · cases ht
  · cases h

/-- `do_one([unite_identical, unite_merge_dimensions, Tuple])` -/
theorem bulk_uniteTuple {ts : List Ty} {r : Ty} (h : uniteTuple ts = .ok r) : r.bulk ≤ 1 + bulkL ts := by
  unfold uniteTuple at h
  simp only [bind_ok] at h
  obtain ⟨x, hx, h⟩ := h
  cases x with
  | some t =>
    cases h
    obtain ⟨t, us, rfl, -, h⟩ := bulk_identical hx
    rw [bulkL]; omega
  | none =>
    simp only [bind_ok] at h
    obtain ⟨y, hy, h⟩ := h
    cases y with
    | some t => cases h; exact bulk_merge hy
    | none => exact bulk_mkTuple h

/-- the size of an entry of a column, where a missing entry has none -/
def entryBulk : Ty → Nat
  | .null => 0
  | t => t.bulk

theorem entryBulk_le (t : Ty) : entryBulk t ≤ t.bulk := by
  unfold entryBulk; split <;> simp

theorem bulk_le_entry (t : Ty) : t.bulk ≤ max 1 (entryBulk t) := by
  unfold entryBulk; split
  · simp [Ty.bulk]
  · omega

theorem entryBulk_launder (t : Ty) (h : isNull (launderTy t) = false) : (launderTy t).bulk ≤ entryBulk t := by
  rw [bulk_launder]
  unfold entryBulk; split
  · exact absurd h (by decide)
  · exact Nat.le_refl _

/-- `unite_base` -/
theorem bulk_uniteBase (topo : List Node) (fuel : Nat) : ∀ (ts : List Ty) (r : Ty), uniteBase topo fuel ts = .ok r →
    ∃ (n : Nat) (b : Ty), mul (.int n) (.ty b) = .ok r ∧ b.bulk ≤ max 1 (ts.map entryBulk).sum := by
  induction fuel with
  | zero => intro ts r h; cases h
  | succ fuel ih =>
    intro ts r h
    rw [uniteBase] at h
    simp only at h
    generalize hgood : (ts.map launderTy).filter (fun t => !isNull t) = good at h
    have hsum : (good.map Ty.bulk).sum ≤ (ts.map entryBulk).sum := by
      rw [← hgood]
      clear h hgood
      induction ts with
      | nil => simp
      | cons t ts iht =>
        rw [List.map_cons, List.filter_cons]
        split
        · rename_i hn
          have := entryBulk_launder t (by simpa using hn)
          simp only [List.map_cons, List.sum_cons]; omega
        · simp only [List.map_cons, List.sum_cons]; omega
    cases good with
    | nil => exact ⟨_, _, h, by simp [Ty.bulk]; omega⟩
    | cons g good =>
      simp only [bind_ok] at h
      obtain ⟨base, hb, h⟩ := h
      refine ⟨_, _, h, ?_⟩
      have hopt : (if (ts.map launderTy).any isNull then mkOption base else base).bulk = base.bulk := by
        split
        · rw [mkOption, Ty.bulk, bulk_launder]
        · rfl
      rw [hopt]
      split at hb
      · obtain ⟨n, rfl⟩ := lowestCommon_node hb
        have : n.ty.bulk = 1 := by cases n <;> rfl
        omega
      · simp only [bind_ok] at hb
        obtain ⟨names, hnames, fields, hfields, hb⟩ := hb
        obtain ⟨hnod, hbulk⟩ := bulk_mkRecord hb
        obtain ⟨fs, rfl, rfl⟩ : ∃ fs, g = .record fs ∧ names = fs.map (·.1) := by
          cases g <;> simp only [namesOf] at hnames <;> cases hnames
          exact ⟨_, rfl, rfl⟩
        -- the sizes of the fields called `name`, one for each record
        let at' : Str → Ty → Nat := fun name x => match x with
          | .record fs => ((fs.reverse.lookup name).map Ty.bulk).getD 0
          | _ => 0
        have hfieldnames : fields.map (·.1) = fs.map (·.1) := by
          have : ∀ (l : List Str) (m : List (Str × Ty)), l.mapM (fun name => (do
                let col ← (Ty.record fs :: good).mapM (dictGet name)
                let u ← uniteBase topo fuel col
                let t ← subshape (.int 0) u
                .ok (name, t) : Except PyErr (Str × Ty))) = .ok m → m.map (·.1) = l := by
            intro l
            induction l with
            | nil => intro m hm; cases hm; rfl
            | cons x r ihl =>
              intro m hm
              rw [List.mapM_cons] at hm
              simp only [bind_ok] at hm
              obtain ⟨y, ⟨_, -, _, -, _, -, hy⟩, ys, hys, e⟩ := hm
              cases e; cases hy
              rw [List.map_cons, ihl ys hys]
          exact this _ _ hfields
        rw [hfieldnames] at hnod
        have hle : (fields.map fun f => f.2.bulk).sum ≤
            ((fs.map (·.1)).map fun name => ((Ty.record fs :: good).map (at' name)).sum).sum := by
          refine mapM_sumE hfields fun name hname y hy => ?_
          simp only [bind_ok] at hy
          obtain ⟨col, hcol, u, hu, t, ht, e⟩ := hy
          cases e
          obtain ⟨n, b, hm, hbb⟩ := ih _ _ hu
          have h1 := bulk_sub_mul hm ht
          have h2 : (col.map entryBulk).sum ≤ ((Ty.record fs :: good).map (at' name)).sum := by
            refine mapM_sumE hcol fun x _ y hy => ?_
            cases x <;> simp only [dictGet] at hy <;> cases hy
            simp only [at']
            cases List.lookup name _ with
            | none => simp [entryBulk]
            | some t => simpa using entryBulk_le t
          have h3 : 1 ≤ ((Ty.record fs :: good).map (at' name)).sum := by
            simp only [List.map_cons, List.sum_cons]
            have : 1 ≤ at' name (.record fs) := by
              simp only [at']
              cases hl : fs.reverse.lookup name with
              | none =>
                obtain ⟨f, hf, rfl⟩ := List.mem_map.1 hname
                have := List.lookup_eq_none_iff.1 hl f (by simpa using hf)
                simp at this
              | some t => simpa using bulk_pos t
            omega
          show t.bulk ≤ _
          omega
        have hswap := sumf_swap (fun name x => at' name x) (fs.map (·.1)) (Ty.record fs :: good)
        have hrow : ∀ x : Ty, ((fs.map (·.1)).map fun name => at' name x).sum + 1 ≤ x.bulk := by
          intro x
          have hp := bulk_pos x
          cases x <;> simp only [at'] <;> try (rw [sumf_const]; omega)
          rename_i xs
          have := lookups_calls Ty.bulk 0 _ hnod xs.reverse
          rw [Nat.mul_zero, Nat.add_zero] at this
          rw [Ty.bulk, bulkF_eq]
          have e : (xs.reverse.map fun e => e.2.bulk).sum = (xs.map fun e => e.2.bulk).sum :=
            sumf_perm _ (List.reverse_perm xs)
          omega
        have htot : ((Ty.record fs :: good).map fun x => ((fs.map (·.1)).map fun name => at' name x).sum + 1).sum ≤
            ((Ty.record fs :: good).map Ty.bulk).sum := sumf_le fun x _ => hrow x
        rw [sumf_add, sumf_const, List.length_cons] at htot
        rw [bulkF_eq] at hbulk
        rw [hswap] at hle
        omega

/-- the type of a column -/
theorem bulk_column {topo : List Node} {c : List (Except PyErr Ty)} {t : Ty} (h : columnType topo c = .ok t) :
    ∃ ts : List Ty, c = ts.map Except.ok ∧ t.bulk ≤ max 1 (ts.map entryBulk).sum := by
  unfold columnType column at h
  simp only [bind_ok] at h
  obtain ⟨ts, hts, u, hu, ht⟩ := h
  refine ⟨ts, ?_, ?_⟩
  · clear hu
    induction c generalizing ts with
    | nil => cases hts; rfl
    | cons x c ih =>
      rw [List.mapM_cons] at hts
      simp only [bind_ok, id] at hts
      obtain ⟨y, hy, ys, hys, e⟩ := hts
      cases e
      rw [List.map_cons, ← ih ys hys, ← hy]
  · unfold uniteFull at hu
    simp only [bind_ok] at hu
    obtain ⟨x, hx, hu⟩ := hu
    cases x with
    | some r =>
      cases hu
      obtain ⟨t0, us, rfl, hm, -⟩ := bulk_identical hx
      have := bulk_sub_mul hm ht
      have := bulk_le_entry t0
      simp only [List.map_cons, List.sum_cons]; omega
    | none =>
      obtain ⟨n, b, hm, hb⟩ := bulk_uniteBase topo _ _ _ hu
      have := bulk_sub_mul hm ht
      omega


/-! ### The parts of a value -/

/-- the size of an entry of a column, where a missing entry has none -/
def resEntry : Except PyErr Ty → Nat
  | .ok t => entryBulk t
  | .error _ => 0

theorem resEntry_le (r : Except PyErr Ty) : resEntry r ≤ resBulk r := by
  cases r with
  | ok t => exact entryBulk_le t
  | error e => exact Nat.le_refl _

theorem columnType_bulk {topo : List Node} {c : List (Except PyErr Ty)} {t : Ty} (h : columnType topo c = .ok t) :
    (∀ r ∈ c, 1 ≤ resBulk r) ∧ t.bulk ≤ max 1 (c.map resEntry).sum := by
  obtain ⟨ts, rfl, hb⟩ := bulk_column h
  refine ⟨fun r hr => ?_, ?_⟩
  · obtain ⟨t, -, rfl⟩ := List.mem_map.1 hr
    exact bulk_pos t
  · rw [List.map_map]
    exact hb

theorem mapM_sumO {f : α → Option β} {g : β → Nat} {h : α → Nat} {l : List α} {m : List β} (hm : l.mapM f = some m)
    (hle : ∀ x ∈ l, ∀ y, f x = some y → g y ≤ h x) : (m.map g).sum ≤ (l.map h).sum := by
  induction l generalizing m with
  | nil => cases hm; exact Nat.le_refl _
  | cons x r ih =>
    rw [List.mapM_cons] at hm
    cases hy : f x with
    | none => rw [hy] at hm; cases hm
    | some y =>
      cases hys : r.mapM f with
      | none => rw [hy, hys] at hm; cases hm
      | some ys =>
        rw [hy, hys] at hm
        cases hm
        have h1 := hle x (by simp) y hy
        have h2 := ih hys fun z hz => hle z (by simp [hz])
        simp only [List.map_cons, List.sum_cons]
        omega

/-- the elements of a row, by position -/
theorem row_bulk (k : Nat) (r : List (Except PyErr Ty)) (e : PyErr) :
    ((List.range k).map fun j => resBulk ((r[j]?).getD (.error e))).sum ≤ (r.map resBulk).sum := by
  induction r generalizing k with
  | nil => simp [resBulk, sumf_const]
  | cons x r ih =>
    cases k with
    | zero => simp
    | succ k =>
      rw [List.range_succ_eq_map]
      have := ih k
      simp only [List.map_cons, List.sum_cons, List.map_map, Function.comp_def, List.getElem?_cons_zero,
        List.getElem?_cons_succ, Option.getD_some, Nat.succ_eq_add_one]
      omega

/-- rows of equal length -/
theorem bulk_rows {topo : List Node} {items : List Item} {t : Ty} (h : discoverRows topo items = some (.ok t)) :
    ∃ rows, items.mapM Item.elems = some rows ∧ t.bulk ≤ 2 + (rows.map fun r => (r.map resBulk).sum).sum := by
  unfold discoverRows at h
  split at h
  · rename_i r rows hm
    split at h
    · injection h with h
      refine ⟨_, hm, ?_⟩
      simp only [bind_ok] at h
      obtain ⟨types, htypes, u, hu, h⟩ := h
      have h1 := bulk_mul h
      have h2 := bulk_uniteTuple hu
      have h3 : (types.map Ty.bulk).sum ≤ ((columnsOf r.length (r :: rows)).map fun c => (c.map resBulk).sum).sum := by
        refine mapM_sumE htypes fun c hc y hy => ?_
        obtain ⟨hpos, hb⟩ := columnType_bulk hy
        have h4 : (c.map resEntry).sum ≤ (c.map resBulk).sum := sumf_le fun x _ => resEntry_le x
        have h5 : 1 ≤ (c.map resBulk).sum := by
          obtain ⟨j, -, rfl⟩ := List.mem_map.1 hc
          have := hpos _ (List.mem_map.2 ⟨r, by simp, rfl⟩)
          simp only [List.map_cons, List.sum_cons]; omega
        omega
      have h6 : ((columnsOf r.length (r :: rows)).map fun c => (c.map resBulk).sum).sum ≤
          ((r :: rows).map fun r => (r.map resBulk).sum).sum := by
        unfold columnsOf
        simp only [List.map_map, Function.comp_def]
        rw [sumf_swap]
        exact sumf_le fun r' _ => row_bulk _ r' _
      rw [bulkL_eq] at h2
      omega
    · cases h
  · cases h

theorem sumf_pos {f : α → Nat} {l : List α} {x : α} (hx : x ∈ l) (h : 1 ≤ f x) : 1 ≤ (l.map f).sum := by
  induction l with
  | nil => cases hx
  | cons y r ih =>
    simp only [List.map_cons, List.sum_cons]
    rcases List.mem_cons.1 hx with rfl | hx
    · omega
    · have := ih hx; omega

/-- dicts -/
theorem bulk_dicts {topo : List Node} {items : List Item} {t : Ty} (h : discoverDicts topo items = some (.ok t)) :
    ∃ rows, items.mapM Item.entries = some rows ∧
      t.bulk ≤ 2 + (rows.map fun d => (d.map fun e => resBulk e.2).sum).sum := by
  unfold discoverDicts at h
  split at h
  · rename_i rows hm
    injection h with h
    refine ⟨_, hm, ?_⟩
    simp only [bind_ok] at h
    obtain ⟨types, htypes, u, hu, h⟩ := h
    have h1 := bulk_mul h
    obtain ⟨-, h2⟩ := bulk_mkRecord hu
    have hnod : (allKeys rows).Nodup := (sortStr_permutes _).nodup_iff.2 (nodup_toSet _)
    have h3 : (types.map Ty.bulk).sum ≤ ((allKeys rows).map fun k =>
        (rows.map fun d => ((d.lookup k).map resBulk).getD 0).sum).sum := by
      rw [List.mapM_map] at htypes
      refine mapM_sumE htypes fun k hk y hy => ?_
      obtain ⟨hpos, hb⟩ := columnType_bulk hy
      have h4 : ((rows.map fun d => (d.lookup k).getD (.ok .null)).map resEntry).sum ≤
          (rows.map fun d => ((d.lookup k).map resBulk).getD 0).sum := by
        rw [List.map_map]
        refine sumf_le fun d _ => ?_
        simp only [Function.comp_def]
        cases d.lookup k with
        | none => exact Nat.le_refl _
        | some r => exact resEntry_le r
      simp only at hb
      have h5 : 1 ≤ (rows.map fun d => ((d.lookup k).map resBulk).getD 0).sum := by
        rw [allKeys, sortStr_mem, mem_toSet, List.mem_flatMap] at hk
        obtain ⟨d, hd, hk⟩ := hk
        obtain ⟨e, he, rfl⟩ := List.mem_map.1 hk
        have h6 : 1 ≤ ((d.lookup e.1).map resBulk).getD 0 := by
          cases hl : d.lookup e.1 with
          | none =>
            have := List.lookup_eq_none_iff.1 hl e he
            simp at this
          | some r =>
            have := hpos _ (List.mem_map.2 ⟨d, hd, rfl⟩)
            rw [hl] at this
            exact this
        exact sumf_pos hd h6
      omega
    have h7 : ((allKeys rows).map fun k => (rows.map fun d => ((d.lookup k).map resBulk).getD 0).sum).sum ≤
        (rows.map fun d => (d.map fun e => resBulk e.2).sum).sum := by
      rw [sumf_swap]
      refine sumf_le fun d _ => ?_
      have := lookups_calls resBulk 0 _ hnod d
      omega
    have h8 : bulkF ((allKeys rows).zip types) ≤ (types.map Ty.bulk).sum := by
      rw [bulkF_eq]
      generalize allKeys rows = keys
      clear htypes hu h2 h3
      induction types generalizing keys with
      | nil => simp
      | cons t types ih =>
        cases keys with
        | nil => simp
        | cons k keys =>
          have := ih keys
          simp only [List.zip_cons_cons, List.map_cons, List.sum_cons]; omega
    omega
  · cases h

theorem bulk_rest {items : List Item} {t : Ty} (h : discoverRest items = .ok t) :
    t.bulk ≤ 1 + (items.map fun i => resBulk i.self).sum := by
  unfold discoverRest at h
  simp only [bind_ok] at h
  obtain ⟨types, htypes, h⟩ := h
  have h1 := bulk_uniteTuple h
  have h2 : (types.map Ty.bulk).sum ≤ (items.map fun i => resBulk i.self).sum := by
    refine mapM_sumE htypes fun i _ y hy => ?_
    rw [hy]; exact Nat.le_refl _
  rw [bulkL_eq] at h1
  omega

theorem bulk_recordOf {es : List (Str × Except PyErr Ty)} {t : Ty} (h : recordOf es = .ok t) :
    (es.map (·.1)).Nodup ∧ t.bulk ≤ 1 + (es.map fun e => resBulk e.2).sum := by
  unfold recordOf at h
  simp only [bind_ok] at h
  obtain ⟨fs, hfs, h⟩ := h
  obtain ⟨h1, h2⟩ := bulk_mkRecord h
  have h3 : (fs.map fun f => f.2.bulk).sum ≤ (es.map fun e => resBulk e.2).sum := by
    refine mapM_sumE hfs fun e _ y hy => ?_
    simp only [bind_ok] at hy
    obtain ⟨t, ht, hy⟩ := hy
    cases hy
    rw [ht]; exact Nat.le_refl _
  have h4 : fs.map (·.1) = es.map (·.1) := by
    clear h h1 h2 h3
    induction es generalizing fs with
    | nil => cases hfs; rfl
    | cons x r ih =>
      rw [List.mapM_cons] at hfs
      simp only [bind_ok] at hfs
      obtain ⟨y, ⟨_, -, hy⟩, ys, hys, e⟩ := hfs
      cases e; cases hy
      rw [List.map_cons, List.map_cons, ih ys hys]
  rw [bulkF_eq] at h2
  refine ⟨h4 ▸ h1, ?_⟩
  omega

theorem bulk_discoverMap {es : List (Str × Except PyErr Ty)} {t : Ty} (h : discoverMap es = .ok t) :
    t.bulk ≤ 1 + (es.map fun e => resBulk e.2).sum := by
  obtain ⟨h1, h2⟩ := bulk_recordOf h
  rw [List.map_map] at h1 h2
  simp only [Function.comp_def, List.map_id'] at h1 h2
  have h3 := lookups_calls resBulk 0 _ h1 es
  have h4 : ∀ k, resBulk ((es.lookup k).getD (.error .keyError)) = ((es.lookup k).map resBulk).getD 0 := by
    intro k; cases es.lookup k <;> rfl
  simp only [h4] at h2
  omega

/-- bounds on the sizes of what is known about an item -/
structure Sized (i : Item) (n : Nat) : Prop where
  self : resBulk i.self ≤ n
  elems : ∀ l, i.elems = some l → (l.map resBulk).sum + 2 ≤ n
  entries : ∀ l, i.entries = some l → (l.map fun e => resBulk e.2).sum + 2 ≤ n

theorem resBulk_le {r : Except PyErr Ty} {n : Nat} (h : ∀ t, r = .ok t → t.bulk ≤ n) : resBulk r ≤ n := by
  cases r with
  | ok t => exact h t rfl
  | error e => exact Nat.zero_le _

/-- the bound of `C77.sum` -/
def weight (strTy : Str → Except PyErr Ty) (topo : List Node) (v : PyObj) : Nat :=
  2 * v.containers + (v.leaves.map fun w => resBulk (discover strTy topo w)).sum

theorem weightL_eq (strTy : Str → Except PyErr Ty) (topo : List Node) (l : List PyObj) :
    2 * containersL l + ((leavesL l).map fun w => resBulk (discover strTy topo w)).sum =
      (l.map (weight strTy topo)).sum := by
  induction l with
  | nil => rfl
  | cons x r ih =>
    rw [List.map_cons, List.sum_cons, ← ih]
    simp only [containersL, leavesL, List.map_append, List.sum_append, weight]
    omega

theorem weightE_eq (strTy : Str → Except PyErr Ty) (topo : List Node) (l : List (Str × PyObj)) :
    2 * containersE l + ((leavesE l).map fun w => resBulk (discover strTy topo w)).sum =
      (l.map fun e => weight strTy topo e.2).sum := by
  induction l with
  | nil => rfl
  | cons x r ih =>
    obtain ⟨k, x⟩ := x
    rw [List.map_cons, List.sum_cons, ← ih]
    simp only [containersE, leavesE, List.map_append, List.sum_append, weight]
    omega

theorem discoverItem_sized (strTy : Str → Except PyErr Ty) (topo : List Node) (v : PyObj) :
    Sized (discoverItem strTy topo v) (weight strTy topo v) := by
  have hE : ∀ l : List (Str × PyObj),
      (∀ e ∈ l, Sized (discoverItem strTy topo e.2) (weight strTy topo e.2)) →
      ((discoverEntries strTy topo l).map fun e => resBulk e.2).sum ≤ (l.map fun e => weight strTy topo e.2).sum := by
    intro l ih
    rw [discoverEntries_eq, List.map_map]
    exact sumf_le fun e he => (ih e he).self
  induction v using PyObj.ind with
  | atom v hv =>
    have h1 : weight strTy topo v = resBulk (discover strTy topo v) := by
      cases v <;> first | (simp [weight, PyObj.containers, PyObj.leaves]; done) | cases hv
    have h3 : (discoverItem strTy topo v).elems = none := by cases v <;> first | rfl | cases hv
    have h4 : (discoverItem strTy topo v).entries = none := by cases v <;> first | rfl | cases hv
    rw [h1]
    refine ⟨Nat.le_refl _, fun l hl => ?_, fun l hl => ?_⟩
    · rw [h3] at hl; cases hl
    · rw [h4] at hl; cases hl
  | seq k l ih =>
    have hw : weight strTy topo (.seq k l) = 2 + (l.map (weight strTy topo)).sum := by
      rw [← weightL_eq]; simp only [weight, PyObj.containers, PyObj.leaves]; omega
    have hself : (l.map fun v => resBulk (discoverItem strTy topo v).self).sum ≤ (l.map (weight strTy topo)).sum :=
      sumf_le fun v hv => (ih v hv).self
    rw [hw, discoverItem, discoverItems_eq]
    refine ⟨resBulk_le fun t ht => ?_, fun m hm => ?_, fun m hm => by cases hm⟩
    · simp only at ht
      have hc := ht
      unfold discoverSeq at hc
      split at hc
      · cases hc
        have : (Ty.dshape [.var, tString]).bulk = 2 := rfl
        omega
      · have hrest : discoverRest (l.map (discoverItem strTy topo)) = .ok t →
            t.bulk ≤ 2 + (l.map (weight strTy topo)).sum := by
          intro hr
          have := bulk_rest hr
          rw [List.map_map] at this
          simp only [Function.comp_def] at this
          omega
        have hdicts : orElse (discoverDicts topo (l.map (discoverItem strTy topo)))
            (discoverRest (l.map (discoverItem strTy topo))) = .ok t → t.bulk ≤ 2 + (l.map (weight strTy topo)).sum := by
          intro hr
          unfold orElse at hr
          split at hr
          · exact hrest hr
          · rename_i x hx
            subst hr
            obtain ⟨rows, hrows, hb⟩ := bulk_dicts hx
            rw [List.mapM_map] at hrows
            have : (rows.map fun d => (d.map fun e => resBulk e.2).sum).sum ≤ (l.map (weight strTy topo)).sum :=
              mapM_sumO hrows fun v hv y hy => by
                have := (ih v hv).entries y hy
                omega
            omega
          · exact hrest hr
        unfold orElse at hc
        split at hc
        · exact hdicts hc
        · rename_i x hx
          subst hc
          obtain ⟨rows, hrows, hb⟩ := bulk_rows hx
          rw [List.mapM_map] at hrows
          have : (rows.map fun r => (r.map resBulk).sum).sum ≤ (l.map (weight strTy topo)).sum :=
            mapM_sumO hrows fun v hv y hy => by
              have := (ih v hv).elems y hy
              omega
          omega
        · exact hdicts hc
    · simp only at hm
      split at hm
      · cases hm
      · cases hm
        rw [List.map_map, List.map_map]
        simp only [Function.comp_def]
        omega
  | dict l ih =>
    have := hE l ih
    have hw : weight strTy topo (.dict l) = 2 + (l.map fun e => weight strTy topo e.2).sum := by
      rw [← weightE_eq]; simp only [weight, PyObj.containers, PyObj.leaves]; omega
    rw [hw, discoverItem]
    refine ⟨resBulk_le fun t ht => ?_, fun m hm => (by cases hm), fun m hm => ?_⟩
    · have := bulk_discoverMap ht
      omega
    · cases hm; omega
  | od l ih =>
    have := hE l ih
    have hw : weight strTy topo (.od l) = 2 + (l.map fun e => weight strTy topo e.2).sum := by
      rw [← weightE_eq]; simp only [weight, PyObj.containers, PyObj.leaves]; omega
    rw [hw, discoverItem]
    refine ⟨resBulk_le fun t ht => ?_, fun m hm => (by cases hm), fun m hm => ?_⟩
    · have := (bulk_recordOf ht).2
      omega
    · cases hm; omega
  | mp l ih =>
    have := hE l ih
    have hw : weight strTy topo (.mp l) = 2 + (l.map fun e => weight strTy topo e.2).sum := by
      rw [← weightE_eq]; simp only [weight, PyObj.containers, PyObj.leaves]; omega
    rw [hw, discoverItem]
    refine ⟨resBulk_le fun t ht => ?_, fun m hm => (by cases hm), fun m hm => (by cases hm)⟩
    have := bulk_discoverMap ht
    omega

/-- **C77** The datashape of a value has at most two parts for each sequence and mapping in it, and the parts of the
datashapes of its leaves. -/
theorem C77.sum (strTy : Str → Except PyErr Ty) (topo : List Node) (v : PyObj) (t : Ty)
    (ht : discover strTy topo v = .ok t) :
    t.bulk ≤ 2 * v.containers + (v.leaves.map fun w => resBulk (discover strTy topo w)).sum := by
  have := (discoverItem_sized strTy topo v).self
  unfold discover at ht
  rw [ht] at this
  exact this

/-- every object is a container or a leaf -/
theorem count_split (v : PyObj) : v.count = v.containers + v.leaves.length := by
  have hE : ∀ l : List (Str × PyObj), (∀ e ∈ l, e.2.count = e.2.containers + e.2.leaves.length) →
      countE l = containersE l + (leavesE l).length := by
    intro l
    induction l with
    | nil => intro _; rfl
    | cons e r ih =>
      intro h
      obtain ⟨k, x⟩ := e
      have h1 := h (k, x) (by simp)
      have h2 := ih fun e he => h e (by simp [he])
      simp only [countE, containersE, leavesE, List.length_append] at *
      omega
  induction v using PyObj.ind with
  | atom v hv => cases v <;> first | rfl | cases hv
  | seq k l ih =>
    have : countL l = containersL l + (leavesL l).length := by
      induction l with
      | nil => rfl
      | cons x r ihr =>
        have h1 := ih x (by simp)
        have h2 := ihr fun v hv => ih v (by simp [hv])
        simp only [countL, containersL, leavesL, List.length_append]
        omega
    simp only [PyObj.count, PyObj.containers, PyObj.leaves]; omega
  | dict l ih => have := hE l ih; simp only [PyObj.count, PyObj.containers, PyObj.leaves]; omega
  | od l ih => have := hE l ih; simp only [PyObj.count, PyObj.containers, PyObj.leaves]; omega
  | mp l ih => have := hE l ih; simp only [PyObj.count, PyObj.containers, PyObj.leaves]; omega

/-- **C77** If the parts of a value that are no sequences or mappings have datashapes of at most `K` parts (two at
least), then the datashape of the value has at most `K` times as many parts as the value. -/
theorem C77.size (strTy : Str → Except PyErr Ty) (topo : List Node) (K : Nat) (hK : 2 ≤ K) (v : PyObj)
    (h : ∀ w ∈ v.leaves, ∀ t, discover strTy topo w = .ok t → t.bulk ≤ K) (t : Ty)
    (ht : discover strTy topo v = .ok t) : t.bulk ≤ K * v.count := by
  have h1 := C77.sum strTy topo v t ht
  have h2 : (v.leaves.map fun w => resBulk (discover strTy topo w)).sum ≤ (v.leaves.map fun _ => K).sum :=
    sumf_le fun w hw => resBulk_le (h w hw)
  rw [sumf_const] at h2
  have h3 : 2 * v.containers ≤ K * v.containers := Nat.mul_le_mul_right _ hK
  rw [count_split, Nat.mul_add, Nat.mul_comm K v.leaves.length]
  omega

/-! ### NumPy objects -/

theorem bulkL_append (a b : List Ty) : bulkL (a ++ b) = bulkL a + bulkL b := by
  rw [bulkL_eq, bulkL_eq, bulkL_eq, List.map_append, List.sum_append]

theorem bulk_withShape {sh : List Int} {m r : Ty} (h : withShape sh m = .ok r) : r.bulk ≤ sh.length + m.bulk := by
  unfold withShape at h
  split at h
  · cases h; omega
  · simp only [bind_ok] at h
    obtain ⟨dims, hd, h⟩ := h
    have h1 := bulk_mkDS h
    have h2 := bulk_pos m
    have h3 : (dims.map Ty.bulk).sum ≤ (sh.map fun _ => 1).sum := by
      refine mapM_sumE hd fun n _ y hy => ?_
      unfold mkFixed at hy
      split at hy <;> cases hy
      exact Nat.le_refl _
    rw [sumf_const] at h3
    rw [bulkL_append, bulkL_eq] at h1
    simp only [bulkL] at h1
    omega

theorem bulk_fromDtype {d : DType} {m : Ty} (h : fromDtype d = .ok m) : m.bulk = 1 := by
  have hs : ∀ {n e m}, mkString n e = .ok m → m.bulk = 1 := by
    intro n e m h
    obtain ⟨c, rfl⟩ := mkString_form h
    rfl
  unfold fromDtype at h
  split at h
  · rename_i p; cases h; cases p <;> rfl
  · split at h <;> cases h <;> rfl
  · unfold mkTimeDelta at h
    split at h <;> cases h
    rfl
  · exact hs h
  · split at h
    · cases h; rfl
    · exact hs h
  · cases h; rfl
  · split at h <;> cases h
    rfl

theorem bulk_fromNumpy (d : DType) : ∀ sh r, fromNumpy d sh = .ok r → r.bulk ≤ sh.length + d.parts := by
  have hstr : ∀ {n e sh r}, (do withShape sh (← mkString n e)) = .ok r → r.bulk ≤ sh.length + 1 := by
    intro n e sh r h
    simp only [bind_ok] at h
    obtain ⟨m, h1, h2⟩ := h
    obtain ⟨c, rfl⟩ := mkString_form h1
    exact bulk_withShape h2
  have hother : ∀ {d sh r}, (do withShape sh (← fromDtype d)) = .ok r → r.bulk ≤ sh.length + 1 := by
    intro d sh r h
    simp only [bind_ok] at h
    obtain ⟨m, h1, h2⟩ := h
    have := bulk_withShape h2
    rwa [bulk_fromDtype h1] at this
  refine DType.rec (motive_1 := fun d => ∀ sh r, fromNumpy d sh = .ok r → r.bulk ≤ sh.length + d.parts)
    (motive_2 := fun l => ∀ r, fromNumpyF l = .ok r → bulkF r ≤ partsF l)
    (motive_3 := fun x => ∀ sh r, fromNumpy x.2.2 sh = .ok r → r.bulk ≤ sh.length + x.2.2.parts)
    (motive_4 := fun x => ∀ sh r, fromNumpy x.2 sh = .ok r → r.bulk ≤ sh.length + x.2.parts)
    ?_ ?_ ?_ ?_ ?_ ?_ ?_ ?_ ?_ ?_ d
  · intro p sh r h; rw [fromNumpy] at h
    · exact hother h
    all_goals simp
  · intro p sh r h; rw [fromNumpy] at h
    · exact hother h
    all_goals simp
  · intro p sh r h; rw [fromNumpy] at h
    · exact hother h
    all_goals simp
  · intro n sh r h; rw [fromNumpy] at h; exact hstr h
  · intro n sh r h; rw [fromNumpy] at h; exact hstr h
  · intro l hl sh r h
    cases l with
    | nil =>
      rw [fromNumpy] at h
      · exact hother h
      all_goals simp
    | cons f l =>
      rw [fromNumpy] at h
      simp only [bind_ok] at h
      obtain ⟨fs, h1, m, h2, h3⟩ := h
      have h4 := bulk_withShape h3
      have h5 := (bulk_mkRecord h2).2
      have h6 := hl fs h1
      rw [DType.parts]
      omega
  · intro r h
    rw [fromNumpyF] at h
    cases h; exact Nat.le_refl _
  · intro x l hx hl r h
    obtain ⟨n, sh, d⟩ := x
    rw [fromNumpyF] at h
    simp only [bind_ok] at h
    obtain ⟨t, h1, rest, h2, h3⟩ := h
    cases h3
    have h4 := hx _ _ h1
    have h5 := hl _ h2
    rw [List.length_map] at h4
    simp only [bulkF, partsF] at h4 ⊢
    omega
  · intro n x hx; exact hx
  · intro sh d hd; exact hd

theorem bulk_shape {ds : Ty} (h : ds.isOption = false) : bulkL ds.shape + ds.measure.bulk ≤ ds.bulk := by
  cases ds <;> try (simp only [Ty.shape, Ty.measure, bulkL]; omega)
  · cases h
  · rename_i ps
    simp only [Ty.shape, Ty.measure, Ty.bulk]
    rcases List.eq_nil_or_concat ps with rfl | ⟨a, b, rfl⟩
    · exact Nat.le_refl _
    · rw [List.concat_eq_append, List.dropLast_concat, List.getLast?_append, bulkL_append]
      simp only [List.getLast?_singleton, Option.some_or, Option.getD_some, bulkL]; omega

theorem fromNumpy_noOption {d : DType} {sh : List Int} {r : Ty} (h : fromNumpy d sh = .ok r) : r.isOption = false := by
  rw [fromNumpy_shape] at h
  simp only [bind_ok] at h
  obtain ⟨m, hm, h⟩ := h
  unfold withShape at h
  split at h
  · cases h; exact (fromNumpy_kind hm).2.2.2.2
  · simp only [bind_ok] at h
    obtain ⟨dims, -, h⟩ := h
    rw [mkDS, checkDS_ok] at h
    obtain ⟨_, _, -, -, -, rfl⟩ := h
    rfl

theorem bulk_discoverArray {a : NdArray} {t : Ty} (h : discoverArray a = .ok t) :
    t.bulk ≤ a.shape.length + a.dtype.parts := by
  unfold discoverArray at h
  simp only [bind_ok] at h
  obtain ⟨ds, hds, h⟩ := h
  have h1 := bulk_fromNumpy _ _ _ hds
  have h2 := bulk_shape (fromNumpy_noOption hds)
  have h3 := bulk_pos ds.measure
  rw [NdArray.dims, List.length_map] at h1
  split at h
  · have h4 := bulk_mkDS h
    have : tString.bulk = 1 := rfl
    rw [bulkL_append] at h4
    simp only [bulkL] at h4
    omega
  · split at h
    · rename_i fs hm
      split at h
      · simp only [bind_ok] at h
        obtain ⟨m, hm', h⟩ := h
        have h4 := bulk_mkDS h
        have h5 := (bulk_mkRecord hm').2
        rw [bulkL_append] at h4
        simp only [bulkL] at h4
        rw [hm, Ty.bulk, bulkF_eq] at h2
        rw [bulkF_eq, List.map_map] at h5
        have h6 : (fs.map ((fun f => f.2.bulk) ∘ a.field)).sum ≤ (fs.map fun f => f.2.bulk).sum := by
          refine sumf_le fun f _ => ?_
          simp only [Function.comp_def, NdArray.field]
          split
          · exact bulk_pos f.2
          · exact Nat.le_refl _
        omega
      · cases h; exact h1
    · cases h; exact h1

/-- **C77** The datashape of an array has at most one part for each dimension and each part of its dtype. -/
theorem C77.array (a : NdArray) (t : Ty) (h : discoverArray a = .ok t) : t.bulk ≤ a.shape.length + a.dtype.parts :=
  bulk_discoverArray h

theorem leaves_atom : ∀ v : PyObj, ∀ w ∈ v.leaves, w.isAtom = true := by
  have hE : ∀ l : List (Str × PyObj), (∀ e ∈ l, ∀ w ∈ e.2.leaves, w.isAtom = true) →
      ∀ w ∈ leavesE l, w.isAtom = true := by
    intro l
    induction l with
    | nil => intro _ w hw; cases hw
    | cons e r ih =>
      intro h w hw
      obtain ⟨k, x⟩ := e
      rw [leavesE, List.mem_append] at hw
      rcases hw with hw | hw
      · exact h (k, x) (by simp) w hw
      · exact ih (fun e he => h e (by simp [he])) w hw
  intro v
  induction v using PyObj.ind with
  | atom v hv =>
    have h1 : v.leaves = [v] := by cases v <;> first | rfl | cases hv
    intro w hw
    rw [h1] at hw
    simp only [List.mem_singleton] at hw
    rw [hw]; exact hv
  | seq k l ih =>
    intro w hw
    rw [PyObj.leaves] at hw
    induction l with
    | nil => cases hw
    | cons x r ihr =>
      rw [leavesL, List.mem_append] at hw
      rcases hw with hw | hw
      · exact ih x (by simp) w hw
      · exact ihr (fun v hv => ih v (by simp [hv])) hw
  | dict l ih => intro w hw; exact hE l ih w (by rwa [PyObj.leaves] at hw)
  | od l ih => intro w hw; exact hE l ih w (by rwa [PyObj.leaves] at hw)
  | mp l ih => intro w hw; exact hE l ih w (by rwa [PyObj.leaves] at hw)

/-- **C77** The datashape of a value has at most `K` times as many parts as the value, where `K` bounds the dimensions
and fields of its NumPy objects. -/
theorem C77.numpy (strTy : Str → Except PyErr Ty) (topo : List Node) (K : Nat) (hK : 2 ≤ K) (v : PyObj)
    (hs : ∀ s, .str s ∈ v.leaves → ∀ t, strTy s = .ok t → t.bulk ≤ K)
    (hn : ∀ w ∈ v.leaves, w.leafParts ≤ K) (t : Ty) (ht : discover strTy topo v = .ok t) : t.bulk ≤ K * v.count := by
  refine C77.size strTy topo K hK v (fun w hw t ht => ?_) t ht
  have h1 := hn w hw
  have ha := leaves_atom v w hw
  cases w with
  | str s =>
    have hd : discover strTy topo (.str s) = if s.isEmpty then .ok .null else strTy s := rfl
    rw [hd] at ht
    split at ht
    · cases ht; exact h1
    · exact hs s hw t ht
  | array a =>
    obtain ⟨h2, -⟩ := item_ok (show a.item = .ok t from ht)
    exact Nat.le_trans (bulk_discoverArray h2) h1
  | npScalar d => exact Nat.le_trans (bulk_fromNumpy d _ _ (show fromNumpy d [] = .ok t from ht)) (by
      simpa [PyObj.leafParts] using h1)
  | arrayLike sh d =>
    have h2 := bulk_fromNumpy d _ _ (show fromNumpy d (sh.map fun (n : Nat) => (n : Int)) = .ok t from ht)
    rw [List.length_map] at h2
    exact Nat.le_trans h2 h1
  | seq => cases ha
  | dict => cases ha
  | od => cases ha
  | mp => cases ha
  | other => cases ht
  | _ => cases ht; exact h1

/-- **C77** The datashape of a value without NumPy objects has at most twice as many parts as the value. -/
theorem C77.plain (strTy : Str → Except PyErr Ty) (topo : List Node) (v : PyObj)
    (hs : ∀ s, .str s ∈ v.leaves → ∀ t, strTy s = .ok t → t.bulk ≤ 2)
    (hn : ∀ w ∈ v.leaves, (∀ a, w ≠ .array a) ∧ (∀ d, w ≠ .npScalar d) ∧ ∀ sh d, w ≠ .arrayLike sh d) (t : Ty)
    (ht : discover strTy topo v = .ok t) : t.bulk ≤ 2 * v.count := by
  refine C77.numpy strTy topo 2 (Nat.le_refl _) v hs (fun w hw => ?_) t ht
  obtain ⟨h1, h2, h3⟩ := hn w hw
  cases w with
  | array a => exact absurd rfl (h1 a)
  | npScalar d => exact absurd rfl (h2 d)
  | arrayLike sh d => exact absurd rfl (h3 sh d)
  | _ => exact Nat.le_succ 1

/-- **C77** Every string is discovered as a datashape of one part, in whatever way numbers, dates and letters are read. -/
theorem C77.strings (E : StrEnv) (s : Str) (t : Ty) (h : discoverStr E s = .ok t) : t.bulk = 1 := by
  have hfirst : ∀ (l : List (Str → Except PyErr Ty)), (∀ f ∈ l, ∀ t, f s = .ok t → t.bulk = 1) →
      ∀ t, firstOf l s = .ok (some t) → t.bulk = 1 := by
    intro l
    induction l with
    | nil => intro _ t h; cases h
    | cons f l ih =>
      intro hl t h
      rw [firstOf] at h
      split at h
      · rename_i x hx
        cases h; exact hl f (by simp) t hx
      · exact ih (fun g hg => hl g (by simp [hg])) t h
      · exact ih (fun g hg => hl g (by simp [hg])) t h
      · cases h
  have hco : ∀ f ∈ stringCoercions E, ∀ t, f s = .ok t → t.bulk = 1 := by
    intro f hf t ht
    simp only [stringCoercions, List.mem_cons, List.not_mem_nil, or_false] at hf
    rcases hf with rfl | rfl | rfl | rfl | rfl
    · unfold viaInt at ht; split at ht <;> cases ht; rfl
    · unfold viaFloat at ht; split at ht <;> cases ht; rfl
    · unfold viaBool at ht; split at ht <;> cases ht; rfl
    · unfold viaDelta at ht
      split at ht
      · split at ht
        · cases ht
        · cases ht
        · simp only [bind_ok] at ht
          obtain ⟨u, -, ht⟩ := ht
          split at ht
          · have h1 := bulk_fromNumpy _ _ _ ht
            have h2 := bulk_pos t
            simp only [DType.parts, List.length_nil] at h1
            omega
          · cases ht
      · cases ht
    · unfold viaTime at ht; split at ht <;> cases ht; rfl
  unfold discoverStr at h
  simp only [bind_ok] at h
  obtain ⟨o, ho, h⟩ := h
  split at h
  · cases h; exact hfirst _ hco _ ho
  · split at h
    · cases h; rfl
    · split at h
      · cases h; split <;> rfl
      · cases h; rfl
      · cases h; rfl
      · cases h

/-- **C77** With the strings read as `discover` does: at most twice as many parts as the value, without NumPy objects. -/
theorem C77.read (E : StrEnv) (topo : List Node) (v : PyObj)
    (hn : ∀ w ∈ v.leaves, (∀ a, w ≠ .array a) ∧ (∀ d, w ≠ .npScalar d) ∧ ∀ sh d, w ≠ .arrayLike sh d) (t : Ty)
    (ht : discover (discoverStr E) topo v = .ok t) : t.bulk ≤ 2 * v.count :=
  C77.plain _ topo v (fun s _ t h => by rw [C77.strings E s t h]; exact Nat.le_succ 1) hn t ht

/-- Concrete cases: the bound of `C77.plain` is reached by an empty list; a table of records with a missing entry has
fewer parts than the table; the hypotheses of `C77.size` are met by a list of an array and an empty list. -/
theorem C77.example (topo : List Node) :
    (∃ t, discover (fun _ => .ok tString) topo (.seq .list []) = .ok t ∧ t.bulk = 2 * (PyObj.seq .list []).count) ∧
    (∃ t, discover (fun _ => .ok tString) topo
        (.seq .list [.dict [(py"a", .int), (py"b", .str (py"x"))], .dict [(py"a", .int), (py"b", .str (py"y"))]]) = .ok t ∧
      t.bulk = 4 ∧
      (PyObj.seq .list [.dict [(py"a", .int), (py"b", .str (py"x"))], .dict [(py"a", .int), (py"b", .str (py"y"))]]).count = 7) ∧
    (∃ t, discover (fun _ => .ok tString) topo (.seq .list [.seq .list [], .int]) = .ok t ∧ t.bulk = 4 ∧
      (PyObj.seq .list [.seq .list [], .int]).count = 3) ∧
    (∀ w ∈ (PyObj.seq .list [.seq .list [], .int, .str (py"x")]).leaves,
      (∀ a, w ≠ .array a) ∧ (∀ d, w ≠ .npScalar d) ∧ ∀ sh d, w ≠ .arrayLike sh d) := by
  refine ⟨⟨_, rfl, rfl⟩, ⟨_, rfl, rfl, rfl⟩, ⟨_, rfl, rfl, rfl⟩, ?_⟩
  intro w hw
  simp only [PyObj.leaves, leavesL, List.nil_append, List.cons_append, List.mem_cons, List.not_mem_nil, or_false] at hw
  rcases hw with rfl | rfl <;> exact ⟨by simp, by simp, by simp⟩

/-- The hypotheses of `C77.numpy` are met by a list of a 2 × 3 array of records and an empty list, with `K` = 6; the
bound of `C77.array` is reached by the array. -/
theorem C77.example2 (topo : List Node) :
    ∃ a : NdArray, a.shape = [2, 3] ∧ (PyObj.array a).leafParts = 6 ∧
      (∃ t, discoverArray a = .ok t ∧ t.bulk = 6) ∧
      (∃ t, discover (fun _ => .ok tString) topo (.seq .list [.array a, .seq .list []]) = .ok t ∧ t.bulk = 9) ∧
      ∀ w ∈ (PyObj.seq .list [.array a, .seq .list []]).leaves, w.leafParts ≤ 6 := by
  refine ⟨⟨[2, 3], .struct [(py"a", [], .prim .int64), (py"b", [5], .prim .float64)], [], fun _ => []⟩, rfl, rfl,
    ⟨_, rfl, rfl⟩, ⟨_, rfl, rfl⟩, ?_⟩
  intro w hw
  simp only [PyObj.leaves, leavesL, List.nil_append, List.cons_append, List.mem_cons, List.not_mem_nil, or_false] at hw
  rw [hw]; exact Nat.le_refl _

/-- Concrete cases for `C77.sum`: the bound is 5 for `[[], 0]`, where 4 parts are found, and 2 for `[]`, where it is
reached. -/
theorem C77.example3 (topo : List Node) :
    (∃ t, discover (fun _ => .ok tString) topo (.seq .list [.seq .list [], .int]) = .ok t ∧ t.bulk = 4) ∧
    2 * (PyObj.seq .list [.seq .list [], .int]).containers + ((PyObj.seq .list [.seq .list [], .int]).leaves.map
      fun w => resBulk (discover (fun _ => .ok tString) topo w)).sum = 5 ∧
    (∃ t, discover (fun _ => .ok tString) topo (.seq .list []) = .ok t ∧ t.bulk = 2 * (PyObj.seq .list []).containers) ∧
    (PyObj.seq .list []).leaves.length = 0 :=
  ⟨⟨_, rfl, rfl⟩, rfl, ⟨_, rfl, rfl⟩, rfl⟩

end DS
