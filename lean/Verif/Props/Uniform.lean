import Verif.Spec.Uniform
import Verif.Props.Tables
import Verif.Props.User

/-
C56: `validate` accepts a uniform value with the datashape that `discover` finds for it.
-/
namespace DS

variable {E : StrEnv}

/-! ### validate -/

theorem uniform_matches {scalar : Ty → PyObj → Prop} (h1 : scalar tInt64 .int) (h2 : scalar tFloat64 .float)
    (h3 : scalar tBool .bool) {v : PyObj} {t : Ty} (h : Uniform E v t) : Matches scalar t v := by
  induction h with
  | int => exact .ctype rfl h1
  | float => exact .ctype rfl h2
  | bool => exact .ctype rfl h3
  | date => exact .date
  | time => exact .time
  | datetime => exact .datetime
  | str _ _ => exact .string
  | @items kind l t hk _ _ _ ih =>
    refine .rows (l := l) ?_ (.inr rfl) fun x hx => .measure (ih x hx)
    cases kind <;> simp [PyObj.seqItems] at hk ⊢
  | @rows kind l ps hk _ _ ih =>
    refine .rows (l := l) ?_ (.inr rfl) ih
    cases kind <;> simp [PyObj.seqItems] at hk ⊢
  | @dict d fs hn hs hkeys _ ih =>
    refine .dict (d := d) (fun k => (d.lookup k).getD .none) rfl ?_ ?_
    · intro f hf
      have hk : f.1 ∈ d.map (·.1) := (hkeys f.1).1 (List.mem_map.2 ⟨f, hf, rfl⟩)
      obtain ⟨⟨k, v⟩, hd, e⟩ := List.mem_map.1 hk
      simp only at e
      subst e
      rw [(lookup_nodup hn).2 hd]
      rfl
    · intro f hf
      have hk : f.1 ∈ d.map (·.1) := (hkeys f.1).1 (List.mem_map.2 ⟨f, hf, rfl⟩)
      obtain ⟨⟨k, v⟩, hd, e⟩ := List.mem_map.1 hk
      simp only at e
      subst e
      rw [(lookup_nodup hn).2 hd]
      exact ih f.1 v f.2 hd hf

/-! ### discover -/

theorem each_choice {α β : Type} {R : α → β → Prop} {l : List α} (h : ∀ a ∈ l, ∃ b, R a b) : ∃ m, Each R l m := by
  induction l with
  | nil => exact ⟨[], .nil⟩
  | cons a l ih =>
    obtain ⟨b, hb⟩ := h a (by simp)
    obtain ⟨m, hm⟩ := ih fun a ha => h a (by simp [ha])
    exact ⟨b :: m, .cons hb hm⟩

theorem Each.imp {α β : Type} {R S : α → β → Prop} {l : List α} {m : List β} (h : Each R l m)
    (i : ∀ a b, R a b → S a b) : Each S l m := by
  induction h with
  | nil => exact .nil
  | cons h _ ih => exact .cons (i _ _ h) ih

theorem each_const {α β : Type} {R : α → β → Prop} {l : List α} {b : β} (h : ∀ a ∈ l, R a b) :
    Each R l (List.replicate l.length b) := by
  induction l with
  | nil => exact .nil
  | cons a l ih => exact .cons (h a (by simp)) (ih fun a ha => h a (by simp [ha]))

theorem column_same (topo : List Node) (htopo : Toposort discEdges (.ok topo)) {u : Ty} (hu : Cell u) {n : Nat} (hn : 0 < n) :
    columnType topo ((List.replicate n u).map .ok) = .ok u.wrap := by
  obtain ⟨m, rfl⟩ : ∃ m, n = m + 1 := ⟨n - 1, by omega⟩
  refine (column_of htopo (c := u) ?_ ?_).1
  · intro t ht; rw [List.eq_of_mem_replicate ht]; exact hu
  · rw [List.replicate_succ]
    refine .same fun t ht => ?_
    rw [List.eq_of_mem_replicate ht, same_iff hu hu]
    exact pyEq_refl hu.plain

theorem wrap_params (u : Ty) : u.wrap = .dshape (asParams u) := by
  unfold Ty.wrap
  cases hd : u.isDShape with
  | false => rw [asParams_of hd]; rfl
  | true => cases u <;> simp [Ty.isDShape] at hd; rfl

theorem disc_wrap {ok : Str → Bool} {u : Ty} (h : Disc ok u) : Disc ok u.wrap := by
  obtain ⟨dims, m, e, h1, h2, h3⟩ := disc_asParams h
  rw [wrap_params, e]
  exact disc_array h1 h2 h3

/-- rows of equal length, with cells of the same type -/
theorem rows_same (topo : List Node) (htopo : Toposort discEdges (.ok topo)) (kind : SeqKind) {rows : List PyObj}
    {k : Nat} {u : Ty} (hne : rows ≠ []) (hk : 0 < k) (hu : Cell u)
    (h : ∀ v ∈ rows, RowOf (discoverStr E) topo v (List.replicate k u)) :
    discover (discoverStr E) topo (.seq kind rows) = .ok (.dshape (.fixed rows.length :: .fixed k :: asParams u)) := by
  have hpos : 0 < rows.length := List.length_pos_iff.2 hne
  obtain ⟨rest, hr⟩ := discover_rows (kind := kind) (k := k) hne (each_const h)
    (fun ts hts => by rw [List.eq_of_mem_replicate hts]; simp)
  have hcols : ((List.range k).map fun j => ((List.replicate rows.length (List.replicate k u)).filterMap (·[j]?)).map
      (Except.ok (ε := PyErr))).mapM (columnType topo) = .ok (List.replicate k u.wrap) := by
    have := mapM_const (f := columnType topo) (b := u.wrap) (l := (List.range k).map fun j =>
      ((List.replicate rows.length (List.replicate k u)).filterMap (·[j]?)).map (Except.ok (ε := PyErr))) ?_
    · simpa using this
    · intro x hx
      obtain ⟨j, hj, rfl⟩ := List.mem_map.1 hx
      have hj' : j < k := List.mem_range.1 hj
      have : (List.replicate rows.length (List.replicate k u)).filterMap (·[j]?) = List.replicate rows.length u := by
        rw [List.filterMap_replicate_of_some]
        simp [hj']
      rw [this]
      exact column_same topo htopo hu hpos
  rw [hr, hcols]
  have hw := disc_wrap hu.disc
  have hp : asParams u.wrap = asParams u := by rw [wrap_params]; rfl
  have hm : mul (.int (k : Int)) (.ty u.wrap) = .ok (.dshape (.fixed k :: asParams u)) := by rw [disc_mul hw, hp]
  have hi : uniteIdentical (List.replicate k u.wrap) = .ok (some (.dshape (.fixed k :: asParams u))) := by
    refine uniteIdentical_replicate ?_ k hk hm
    refine everywhere_mono ?_ _ hw.all
    intro t h
    exact localOk_eqLocal ⟨fun _ => false, fun _ => false⟩ t (discLocal_localOk _ t h)
  have hd : Disc (fun _ => true) (.dshape (.fixed k :: asParams u)) := by
    exact disc_mul_int hm hw
  have hm2 := disc_mul (n := rows.length) hd
  simp only [bind, Except.bind, uniteTuple, hi]
  rw [hm2]
  rfl

theorem asParams_inj {u u' : Ty} (h : u.isSingleton = false) (h' : u'.isSingleton = false) (e : asParams u = asParams u') :
    u = u' := by
  have key : ∀ a b : Ty, a.isDShape = false → b.isSingleton = false → asParams a = asParams b → a = b := by
    intro a b ha hb e
    rw [asParams_of ha] at e
    cases hd : b.isDShape with
    | false => rw [asParams_of hd] at e; injection e
    | true =>
      cases b <;> simp [Ty.isDShape] at hd
      simp only [asParams] at e
      subst e
      simp [Ty.isSingleton] at hb
  cases hd : u.isDShape with
  | false => exact key u u' hd h' e
  | true =>
    cases hd' : u'.isDShape with
    | false => exact (key u' u hd' h e.symm).symm
    | true =>
      cases u <;> simp [Ty.isDShape] at hd
      cases u' <;> simp [Ty.isDShape] at hd'
      simp only [asParams] at e
      rw [e]

/-- what is shown of a uniform value -/
structure FoundAs (E : StrEnv) (topo : List Node) (v : PyObj) (t : Ty) : Prop where
  self : discover (discoverStr E) topo v = .ok t
  array : ∀ n ps, t = .dshape (.fixed n :: ps) → 0 < n ∧ ∃ u, Cell u ∧ asParams u = ps ∧
    RowOf (discoverStr E) topo v (List.replicate n u)
  elems : t.isDShape = false → (discoverItem (discoverStr E) topo v).elems = none
  entries : t.isDShape = false → t.isRecord = false → (discoverItem (discoverStr E) topo v).entries = none
  dict : ∀ fs, t = .record fs → ∃ es, DictOf (discoverStr E) topo v es ∧ (es.map (·.1)).Nodup ∧
    ∀ k u, (k, u) ∈ es ↔ (k, u) ∈ fs

theorem found_atom {topo : List Node} {v : PyObj} {t : Ty} (h : discoverItem (discoverStr E) topo v = ⟨.ok t, none, none⟩)
    (hd : t.isDShape = false) (hr : t.isRecord = false) : FoundAs E topo v t := by
  refine ⟨by rw [discover, h], ?_, fun _ => by rw [h], fun _ _ => by rw [h], ?_⟩
  · rintro n ps rfl; simp [Ty.isDShape] at hd
  · rintro fs rfl; simp [Ty.isRecord] at hr

theorem Uniform.dims {v : PyObj} {ps : List Ty} (h : Uniform E v (.dshape ps)) : ∃ n qs, ps = .fixed n :: qs := by
  cases h with
  | items => exact ⟨_, _, rfl⟩
  | rows => exact ⟨_, _, rfl⟩

theorem uniform_found (topo : List Node) (htopo : Toposort discEdges (.ok topo)) {v : PyObj} {t : Ty} (h : Uniform E v t) :
    FoundAs E topo v t := by
  induction h with
  | int => exact found_atom rfl rfl rfl
  | float => exact found_atom rfl rfl rfl
  | bool => exact found_atom rfl rfl rfl
  | date => exact found_atom rfl rfl rfl
  | time => exact found_atom rfl rfl rfl
  | datetime => exact found_atom rfl rfl rfl
  | @str s hs hd =>
    refine found_atom ?_ rfl rfl
    have e := (C46.exact E topo s hs tString).2 hd
    rw [discover, discoverItem, if_neg (by simpa using hs)] at e
    rw [discoverItem, if_neg (by simpa using hs)]
    simp only at e
    rw [e]
  | @items kind l t hk hne ht hu ih =>
    obtain ⟨v0, hv0⟩ := List.exists_mem_of_ne_nil l hne
    have hcell : Cell t := cell_discover (ih v0 hv0).self
    have hpos : 0 < l.length := List.length_pos_iff.2 hne
    refine ⟨?_, ?_, by simp [Ty.isDShape], by simp [Ty.isDShape], by simp⟩
    · cases hr : t.isRecord with
      | false =>
        obtain ⟨v, l', rfl⟩ := List.exists_cons_of_ne_nil hne
        have h1 := (ih v (by simp)).elems ht
        have h2 := (ih v (by simp)).entries ht hr
        rw [discover_seq, discoverSeq, if_neg (by simp)]
        have e1 : discoverRows topo ((v :: l').map (discoverItem (discoverStr E) topo)) = none := by
          unfold discoverRows
          rw [mapM_none ⟨_, by simp, h1⟩]
        have e2 : discoverDicts topo ((v :: l').map (discoverItem (discoverStr E) topo)) = none := by
          unfold discoverDicts
          rw [mapM_none ⟨_, by simp, h2⟩]
        rw [e1, e2]
        simp only [orElse, discoverRest]
        have e3 : ((v :: l').map (discoverItem (discoverStr E) topo)).mapM Item.self = .ok (List.replicate (v :: l').length t) := by
          have := mapM_const (f := Item.self) (b := t) (l := (v :: l').map (discoverItem (discoverStr E) topo)) ?_
          · simpa using this
          · intro x hx
            obtain ⟨w, hw, rfl⟩ := List.mem_map.1 hx
            exact (ih w hw).self
        rw [e3]
        have hm := disc_mul (n := (v :: l').length) hcell.disc
        rw [asParams_of ht] at hm
        have := uniteIdentical_replicate hcell.plain (v :: l').length hpos hm
        simp only [bind, Except.bind, uniteTuple]
        rw [this]
      | true =>
        cases t <;> simp [Ty.isRecord] at hr
        rename_i fs
        obtain ⟨types, hty⟩ := each_choice fun v hv => (ih v hv).dict fs rfl
        have hd : Each (DictOf (discoverStr E) topo) l types := hty.imp fun _ _ h => h.1
        have hq : ∀ es ∈ types, (es.map (·.1)).Nodup ∧ ∀ k u, (k, u) ∈ es ↔ (k, u) ∈ fs := by
          intro es hes
          obtain ⟨v, -, h⟩ := hty.mem_right es hes
          exact h.2
        have hfs : (fs.map (·.1)).Pairwise (· < ·) := by
          cases hu v0 hv0 with
          | dict _ h _ _ => exact h
        have hnodup : (fs.map (·.1)).Nodup := hfs.imp fun hab e => by
          subst e; exact List.lt_irrefl _ hab
        have hlen := hd.length_eq
        have hne' : types ≠ [] := by
          rintro rfl
          exact hne (List.length_eq_zero_iff.1 hlen)
        refine C55.dicts E topo htopo kind l types fs hne hd hfs ?_ ?_
        · intro k
          constructor
          · intro hk
            obtain ⟨f, hf, rfl⟩ := List.mem_map.1 hk
            obtain ⟨es, hes⟩ := List.exists_mem_of_ne_nil types hne'
            exact ⟨es, hes, List.mem_map.2 ⟨f, ((hq es hes).2 f.1 f.2).2 hf, rfl⟩⟩
          · rintro ⟨es, hes, hk⟩
            obtain ⟨f, hf, rfl⟩ := List.mem_map.1 hk
            exact List.mem_map.2 ⟨f, ((hq es hes).2 f.1 f.2).1 hf, rfl⟩
        · intro f hf
          have : types.map (cellType f.1) = List.replicate types.length f.2 := by
            rw [← List.map_const']
            refine List.map_inj_left.2 fun es hes => ?_
            unfold cellType
            rw [(lookup_nodup (hq es hes).1).2 (((hq es hes).2 f.1 f.2).2 hf)]
            rfl
          rw [this]
          obtain ⟨m, hm⟩ : ∃ m, types.length = m + 1 :=
            ⟨types.length - 1, by have := List.length_pos_iff.2 hne'; omega⟩
          rw [hm, List.replicate_succ]
          have hfd : Cell f.2 := by
            obtain ⟨es, hes⟩ := List.exists_mem_of_ne_nil types hne'
            obtain ⟨v, -, h⟩ := hd.mem_right es hes
            obtain ⟨d, -, -, he⟩ := h
            obtain ⟨x, -, -, hx⟩ := he.mem_right (f.1, f.2) (((hq es hes).2 f.1 f.2).2 hf)
            exact cell_discover hx
          refine .same fun t ht => ?_
          rw [List.eq_of_mem_replicate ht, same_iff hfd hfd]
          exact pyEq_refl hfd.plain
    · rintro n ps e
      injection e with e
      injection e with e1 e2
      injection e1 with e1
      subst e1 e2
      refine ⟨hpos, t, hcell, asParams_of ht, kind, l, hk, rfl, each_const fun v hv => (ih v hv).self⟩
  | @rows kind l ps hk hne hu ih =>
    obtain ⟨v0, hv0⟩ := List.exists_mem_of_ne_nil l hne
    obtain ⟨k, qs, rfl⟩ := (hu v0 hv0).dims
    obtain ⟨hkpos, u, hcell, hps, -⟩ := (ih v0 hv0).array k qs rfl
    have hpos : 0 < l.length := List.length_pos_iff.2 hne
    refine ⟨?_, ?_, by simp [Ty.isDShape], by simp [Ty.isDShape], by simp⟩
    · have := rows_same (E := E) topo htopo kind (rows := l) (k := k) (u := u) hne hkpos hcell ?_
      · rw [this, hps]
      · intro v hv
        obtain ⟨-, u', hc', hp', hr'⟩ := (ih v hv).array k qs rfl
        rw [asParams_inj hcell.single hc'.single (hps.trans hp'.symm)]
        exact hr'
    · rintro n ps e
      injection e with e
      injection e with e1 e2
      injection e1 with e1
      subst e1 e2
      refine ⟨hpos, .dshape (.fixed k :: qs), cell_discover (ih v0 hv0).self, rfl, kind, l, hk, rfl,
        each_const fun v hv => (ih v hv).self⟩
  | @dict d fs hn hs hkeys hu ih =>
    have hnodup : (fs.map (·.1)).Nodup := hs.imp fun hab e => by
      subst e; exact List.lt_irrefl _ hab
    have get : ∀ f ∈ fs, ∃ v, (f.1, v) ∈ d ∧ discover (discoverStr E) topo v = .ok f.2 := by
      intro f hf
      obtain ⟨⟨k, v⟩, hd, e⟩ := List.mem_map.1 ((hkeys f.1).1 (List.mem_map.2 ⟨f, hf, rfl⟩))
      simp only at e
      subst e
      exact ⟨v, hd, (ih f.1 v f.2 hd hf).self⟩
    refine ⟨?_, by simp, fun _ => rfl, by simp [Ty.isRecord], ?_⟩
    · rw [discover, discoverItem, discoverEntries_eq]
      simp only [discoverMap, List.map_map, Function.comp_def]
      have e : sortStr (d.map (·.1)) = fs.map (·.1) :=
        sorted_ext (sortStr_sorted _ hn) hs fun k => by rw [sortStr_mem, hkeys]
      have hcol : (sortStr (d.map (·.1))).map (fun k => (k, ((d.map fun kv => (kv.1, discover (discoverStr E) topo kv.2)).lookup k).getD
          (.error .keyError))) = fs.map fun f => (f.1, .ok f.2) := by
        rw [e, List.map_map]
        refine List.map_inj_left.2 fun f hf => ?_
        obtain ⟨v, hv, hdv⟩ := get f hf
        simp only [Function.comp]
        rw [(lookup_nodup (n := f.1) (t := (Except.ok f.2 : Except PyErr Ty)) (by simpa [List.map_map, Function.comp_def] using hn)).2
          (List.mem_map.2 ⟨(f.1, v), hv, by rw [hdv]⟩)]
        rfl
      rw [hcol]
      unfold recordOf
      have hm : (fs.map fun f => (f.1, (Except.ok f.2 : Except PyErr Ty))).mapM
          (fun e => (do .ok (e.1, ← e.2) : Except PyErr (Str × Ty))) = .ok fs := by
        refine mapM_zip (by simp) ?_
        intro j a b ha hb
        rw [List.getElem?_map, hb] at ha
        cases ha
        rfl
      rw [hm]
      refine mkRecord_good hnodup fun f hf => ?_
      obtain ⟨v, -, hdv⟩ := get f hf
      exact (cell_discover hdv).single
    · rintro gs e
      injection e with e
      subst e
      refine ⟨d.map fun kv => (kv.1, (fs.lookup kv.1).getD .null), ⟨d, .inl rfl, hn, ?_⟩, ?_, ?_⟩
      · have key : ∀ l : List (Str × PyObj), (∀ kv ∈ l, kv ∈ d) → Each (fun (x : Str × PyObj) (e : Str × Ty) =>
            e.1 = x.1 ∧ discover (discoverStr E) topo x.2 = .ok e.2) l (l.map fun kv => (kv.1, (fs.lookup kv.1).getD .null)) := by
          intro l hl
          induction l with
          | nil => exact .nil
          | cons x l ihl =>
            refine .cons ⟨rfl, ?_⟩ (ihl fun kv h => hl kv (by simp [h]))
            obtain ⟨k, v⟩ := x
            have hxd := hl (k, v) (by simp)
            obtain ⟨⟨k', t⟩, hf, e⟩ := List.mem_map.1 ((hkeys k).2 (List.mem_map.2 ⟨(k, v), hxd, rfl⟩))
            simp only at e
            subst e
            simp only [(lookup_nodup hnodup).2 hf, Option.getD_some]
            exact (ih k' v t hxd hf).self
        exact key d fun _ h => h
      · simpa [List.map_map, Function.comp_def] using hn
      · intro k u
        constructor
        · intro h
          obtain ⟨⟨k', v⟩, hkv, e⟩ := List.mem_map.1 h
          obtain ⟨⟨k'', t⟩, hf, e'⟩ := List.mem_map.1 ((hkeys k').2 (List.mem_map.2 ⟨(k', v), hkv, rfl⟩))
          simp only at e'
          subst e'
          simp only [(lookup_nodup hnodup).2 hf, Option.getD_some, Prod.mk.injEq] at e
          obtain ⟨rfl, rfl⟩ := e
          exact hf
        · intro h
          obtain ⟨⟨k', v⟩, hkv, e⟩ := List.mem_map.1 ((hkeys k).1 (List.mem_map.2 ⟨(k, u), h, rfl⟩))
          simp only at e
          subst e
          refine List.mem_map.2 ⟨(k', v), hkv, ?_⟩
          simp only [(lookup_nodup hnodup).2 h, Option.getD_some]

/-! ### C56 -/

/-- `discover` finds the datashape of a uniform value, and `validate` accepts the value with it. The three hypotheses are
NumPy's answers for the three C types concerned. -/
theorem C56.accepts (E : StrEnv) (topo : List Node) (htopo : Toposort discEdges (.ok topo))
    (ext : Ty → PyObj → Except PyErr Bool) (hint : ext tInt64 .int = .ok true) (hfloat : ext tFloat64 .float = .ok true)
    (hbool : ext tBool .bool = .ok true) (v : PyObj) (t : Ty) (h : Uniform E v t) :
    discover (discoverStr E) topo v = .ok t ∧ DS.validate ext t v = .ok (some true) :=
  ⟨(uniform_found topo htopo h).self,
    (C36.validate_iff ext t v).2 (uniform_matches hint hfloat hbool h)⟩

/-- The datashape of a uniform value is unique. -/
theorem C56.unique (E : StrEnv) (v : PyObj) (t u : Ty) (ht : Uniform E v t) (hu : Uniform E v u) : t = u := by
  obtain ⟨topo, hr⟩ := C26.toposorted.1
  have h1 := (uniform_found topo hr ht).self
  have h2 := (uniform_found topo hr hu).self
  rw [h1] at h2
  injection h2

/-- A list longer or shorter than the uniform value is rejected, whatever its items. -/
theorem C56.length (E : StrEnv) (ext : Ty → PyObj → Except PyErr Bool) (kind kind' : SeqKind) (l m : List PyObj) (t : Ty)
    (h : Uniform E (.seq kind l) t) (hne : m.length ≠ l.length) :
    DS.validate ext t (.seq kind' m) ≠ .ok (some true) := by
  intro hv
  rw [C36.validate_iff] at hv
  have key : ∀ ps, Matches (fun t v => ext t v = .ok true) (.dshape (.fixed l.length :: ps)) (.seq kind' m) → ps ≠ [] → False := by
    intro ps hv hps
    generalize hx : PyObj.seq kind' m = x at hv
    generalize hy : Ty.dshape (.fixed l.length :: ps) = y at hv
    cases hv with
    | measure => injection hy with e; injection e with _ e; exact hps e
    | @rows d ps' v l' hl hd _ =>
      injection hy with e
      injection e with e1 e2
      subst hx e1
      have : l' = m := by
        cases kind' <;> simp [PyObj.seqItems] at hl
        · exact hl.symm
        · exact hl.symm
      subst this
      rcases hd with hd | hd
      · cases hd
      · injection hd with hd; omega
    | _ => cases hy
  cases h with
  | items => exact key _ hv (by simp)
  | rows hk hl hu =>
    obtain ⟨v0, h0⟩ := List.exists_mem_of_ne_nil l hl
    obtain ⟨n, qs, rfl⟩ := (hu v0 h0).dims
    exact key _ hv (by simp)

/-- Example: two records with the same fields, given in different orders. -/
theorem C56.example : let v : PyObj := .seq .list [
      .dict [(py"name", .str (py"Alice")), (py"at", .seq .tuple [.float, .float])],
      .dict [(py"at", .seq .list [.float, .float]), (py"name", .str (py"Bob"))]]
    Uniform asciiEnv v (.dshape [.fixed 2, .record [(py"at", .dshape [.fixed 2, tFloat64]), (py"name", tString)]]) := by
  have hs : ∀ s, s ∈ [py"Alice", py"Bob"] → Uniform asciiEnv (.str s) tString := by
    intro s hs
    have hne : s ≠ [] := by
      rintro rfl
      revert hs; decide
    refine .str hne ((C46.exact asciiEnv [] s hne tString).1 ?_)
    simp only [List.mem_cons, List.not_mem_nil, or_false] at hs
    rcases hs with rfl | rfl <;> rfl
  have hp : ∀ kind, kind ≠ .set → Uniform asciiEnv (.seq kind [.float, .float]) (.dshape [.fixed 2, tFloat64]) := by
    intro kind hk
    refine .items (l := [.float, .float]) hk (by simp) rfl ?_
    intro v hv
    simp at hv
    subst hv
    exact .float
  have hd : ∀ d : List (Str × PyObj), (d.map (·.1)).Nodup → (∀ k, k ∈ d.map (·.1) ↔ k = py"at" ∨ k = py"name") →
      (∀ k v, (k, v) ∈ d → k = py"at" → Uniform asciiEnv v (.dshape [.fixed 2, tFloat64])) →
      (∀ k v, (k, v) ∈ d → k = py"name" → Uniform asciiEnv v tString) →
      Uniform asciiEnv (.dict d) (.record [(py"at", .dshape [.fixed 2, tFloat64]), (py"name", tString)]) := by
    intro d hn hk h1 h2
    refine .dict hn (by simp; decide) (fun k => by rw [hk]; simp) ?_
    intro k v t hd hf
    simp only [List.mem_cons, Prod.mk.injEq, List.not_mem_nil, or_false] at hf
    rcases hf with ⟨e, rfl⟩ | ⟨e, rfl⟩
    · exact h1 k v hd e
    · exact h2 k v hd e
  refine .items (by simp) (by simp) rfl ?_
  intro v hv
  simp only [List.mem_cons, List.not_mem_nil, or_false] at hv
  rcases hv with rfl | rfl
  · refine hd _ (by decide) (fun k => by simp [or_comm]) ?_ ?_ <;> intro k v h e <;> subst e <;> simp at h
    · subst h; exact hp .tuple (by simp)
    · subst h; exact hs _ (by simp)
  · refine hd _ (by decide) (fun k => by simp) ?_ ?_ <;> intro k v h e <;> subst e <;> simp at h
    · subst h; exact hp .list (by simp)
    · subst h; exact hs _ (by simp)

/-- Not every value is accepted with its own datashape: `None`, a duration in a text, the empty text, complex numbers,
bytes, timedeltas and sets are not. -/
theorem C56.rejected (topo : List Node) (ext : Ty → PyObj → Except PyErr Bool) :
    (∀ v ∈ [PyObj.none, .str (py"12 days"), .str [], .complex, .bytes, .timedelta, .seq .set [.int]],
      ∃ t, discover (discoverStr asciiEnv) topo v = .ok t ∧ DS.validate ext t v ≠ .ok (some true)) := by
  intro v hv
  simp only [List.mem_cons, List.not_mem_nil, or_false] at hv
  rcases hv with rfl | rfl | rfl | rfl | rfl | rfl | rfl
  · exact ⟨_, rfl, by simp [DS.validate]⟩
  · exact ⟨.timedelta (py"D"), rfl, by simp [DS.validate]⟩
  · exact ⟨_, rfl, by simp [DS.validate]⟩
  · exact ⟨_, rfl, by simp [DS.validate, PyObj.isBase, tComplex128]⟩
  · exact ⟨_, rfl, by simp [DS.validate]⟩
  · exact ⟨_, rfl, by simp [DS.validate, tTimedelta]⟩
  · exact ⟨.dshape [.fixed 1, tInt64], rfl, by simp [DS.validate, validateDS, PyObj.seqItems]⟩

end DS
