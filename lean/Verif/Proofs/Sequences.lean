import Verif.Spec.Sequences
import Verif.Props.RowOrder

/-
Lemmas for C67: each relation of `Spec/Sequences.lean` is what the model computes, and has an outcome.
-/
namespace DS

/-- a discovered datashape that is not a `DataShape` of one element -/
structure Good (t : Ty) : Prop where
  disc : Disc (fun _ => true) t
  single : t.isSingleton = false

theorem Cell.good {t : Ty} (h : Cell t) : Good t := ⟨h.disc, h.single⟩

theorem Good.field {t : Ty} (h : Good t) : Field t := ⟨h.disc.all, h.single⟩

theorem good_null : Good .null := cell_null.good

theorem Good.eq {a b : Ty} (ha : Good a) (hb : Good b) (h : pyEq a b = true) : a = b :=
  field_identical ha.disc.all hb.disc.all ha.single hb.single h

theorem Good.plain {t : Ty} (h : Good t) : Plain t := disc_plain h.disc.all

theorem notNull_eq {ts : List Ty} (h : ∀ t ∈ ts, Good t) : ts.filter (fun t => !isNull t) = notNull ts := by
  unfold notNull
  apply List.filter_congr
  intro t ht
  cases hn : isNull t with
  | true => rw [(isNull_iff (h t ht).single).1 hn]; rfl
  | false => cases t <;> first | rfl | cases hn

theorem mem_notNull {ts : List Ty} {t : Ty} : t ∈ notNull ts ↔ t ∈ ts ∧ t ≠ .null := by
  unfold notNull
  rw [List.mem_filter]
  cases t <;> simp [isNullType]

theorem any_null {ts : List Ty} (h : ∀ t ∈ ts, Good t) :
    ts.any isNull = ts.any isNullType := by
  rw [Bool.eq_iff_iff, List.any_eq_true, List.any_eq_true]
  constructor
  · rintro ⟨t, h1, h2⟩
    exact ⟨t, h1, by rw [(isNull_iff (h t h1).single).1 h2]; rfl⟩
  · rintro ⟨t, h1, h2⟩
    refine ⟨t, h1, ?_⟩
    cases t <;> first | rfl | cases h2

theorem launder_good {ts : List Ty} (h : ∀ t ∈ ts, Good t) : ts.map launderTy = ts := by
  conv => rhs; rw [← List.map_id ts]
  exact List.map_inj_left.2 fun t ht => launderTy_of_not_singleton (h t ht).single

/-- `n * t` and back -/
theorem mul_sub {n : Nat} {t : Ty} (h : Disc ok t) : (mul (.int n) (.ty t) >>= subshape (.int 0)) = .ok t.wrap := by
  rw [disc_mul h]
  exact sub_fixed h

theorem cellAt_eq {n : Str} {fs : List (Str × Ty)} (h : (fs.map (·.1)).Nodup) :
    (fs.reverse.lookup n).getD .null = cellType n fs := by
  unfold cellType
  have hr : (fs.reverse.map (·.1)).Nodup := by rw [List.map_reverse]; exact (List.reverse_perm _).nodup_iff.2 h
  cases hl : fs.lookup n with
  | some t => rw [(lookup_nodup hr).2 (by simpa using (lookup_nodup h).1 hl)]
  | none =>
    cases hl' : fs.reverse.lookup n with
    | none => rfl
    | some t =>
      have := (lookup_nodup hr).1 hl'
      rw [(lookup_nodup h).2 (by simpa using this)] at hl
      cases hl

theorem record_nodup {fs : List (Str × Ty)} (h : Good (.record fs)) : (fs.map (·.1)).Nodup := by
  have := everywhere_self h.disc.all
  simp only [discLocal, Bool.and_eq_true, decide_eq_true_eq] at this
  exact this.1

theorem cellAt_good {t : Ty} (h : Good t) (n : Str) : Good (cellAt n t) := by
  cases t <;> try exact good_null
  rename_i fs
  simp only [cellAt, cellType]
  cases hl : fs.lookup n with
  | none => exact good_null
  | some t =>
    obtain ⟨h1, -, h2⟩ := disc_field h.disc.all (f := (n, t)) ((lookup_nodup (record_nodup h)).1 hl)
    exact ⟨h1, h2⟩

theorem cellAt_field {t : Ty} (h : Good t) (n : Str) : fieldCell n t = cellAt n t := by
  cases t <;> try rfl
  exact cellAt_eq (record_nodup h)

theorem cellAt_depth {t : Ty} (h : Good t) (hr : IsRecord t) (n : Str) : (cellAt n t).depth + 1 ≤ t.depth := by
  obtain ⟨fs, rfl⟩ := hr
  simp only [cellAt, cellType, Ty.depth]
  cases hl : fs.lookup n with
  | none => simp [Ty.depth]
  | some t =>
    have := depthF_mem ((lookup_nodup (record_nodup h)).1 hl)
    simpa using this

theorem cells_depth {ts : List Ty} (h : ∀ t ∈ ts, Good t) (hr : ∀ t ∈ notNull ts, IsRecord t) (hne : notNull ts ≠ []) (n : Str) :
    depthL ((notNull ts).map (cellAt n)) < depthL ts := by
  have hone : 0 < depthL ts := by
    obtain ⟨g, gs, e⟩ := List.exists_cons_of_ne_nil hne
    have hg : g ∈ notNull ts := by rw [e]; simp
    have h1 := cellAt_depth (h g (mem_notNull.1 hg).1) (hr g hg) n
    have h2 := depthL_mem (mem_notNull.1 hg).1
    omega
  have : depthL ((notNull ts).map (cellAt n)) ≤ depthL ts - 1 := by
    apply depthL_le
    intro t ht
    obtain ⟨x, hx, rfl⟩ := List.mem_map.1 ht
    have h1 := cellAt_depth (h x (mem_notNull.1 hx).1) (hr x hx) n
    have h2 := depthL_mem (mem_notNull.1 hx).1
    omega
  omega

theorem asOptional_good {ts : List Ty} {t : Ty} (h : Good t) (hd : t.isDShape = false) (ho : t.isOption = false) :
    Good (asOptional ts t) := by
  unfold asOptional
  split
  · have e : mkOption t = .option t := by
      unfold mkOption
      rw [launderTy_of_not_singleton h.single]
    rw [← e]
    refine ⟨disc_option h.disc ?_ ?_, rfl⟩
    · rw [launderTy_of_not_singleton h.single]; exact ho
    · rw [launderTy_of_not_singleton h.single]; exact hd
  · exact h

/-- the last step of `unite_base` -/
theorem asOptional_step {ts : List Ty} (hts : ∀ t ∈ ts, Good t) {t : Ty} (h : Good t) (hd : t.isDShape = false)
    (ho : t.isOption = false) :
    (mul (.int ts.length) (.ty (if ts.any isNull then mkOption t else t)) >>= subshape (.int 0)) = .ok (asOptional ts t).wrap := by
  have : (if ts.any isNull then mkOption t else t) = asOptional ts t := by
    unfold asOptional mkOption
    rw [any_null hts, launderTy_of_not_singleton h.single]
  rw [this]
  exact mul_sub (asOptional_good h hd ho).disc

/-- records of good fields -/
theorem record_good {names : List Str} (types : Str → Ty) (hn : names.Nodup) (ht : ∀ n ∈ names, Good (types n)) :
    mkRecord (names.map fun n => (n, (types n).wrap)) = .ok (.record (names.map fun n => (n, types n))) ∧
    Good (.record (names.map fun n => (n, types n))) := by
  have h1 : mkRecord (names.map fun n => (n, (types n).wrap)) = .ok (.record (names.map fun n => (n, types n))) := by
    unfold mkRecord
    rw [if_pos (by rw [List.map_map]; simpa [Function.comp_def] using hn), List.map_map]
    congr 2
    refine List.map_inj_left.2 fun n hm => ?_
    simp only [Function.comp, launder_wrapped (ht n hm).single]
  refine ⟨h1, ?_, rfl⟩
  refine disc_mkRecord (mkRecord_good (by rw [List.map_map]; simpa [Function.comp_def] using hn) ?_) ?_
  · intro f hf
    obtain ⟨n, hm, rfl⟩ := List.mem_map.1 hf
    exact (ht n hm).single
  · intro f hf
    obtain ⟨n, hm, rfl⟩ := List.mem_map.1 hf
    exact ⟨(ht n hm).disc, rfl⟩

theorem isRecord_iff (t : Ty) : ¬ IsRecord t ↔ NoRecord t :=
  ⟨fun h fs e => h ⟨fs, e⟩, fun h ⟨fs, e⟩ => h fs e⟩

/-- `unite_base` of good types, with something that is not null among them -/
theorem base_eq {topo : List Node} {fuel : Nat} {ts rest : List Ty} {g : Ty} (hts : ∀ t ∈ ts, Good t) (hg : notNull ts = g :: rest) :
    uniteBase topo (fuel + 1) ts = (do
      let base ← (if (notNull ts).all Ty.isUnit then lowestCommon topo (notNull ts) else baseRecord topo fuel (notNull ts) g)
      mul (.int ts.length) (.ty (if ts.any isNull then mkOption base else base))) := by
  rw [uniteBase_eq]
  simp only [launder_good hts, notNull_eq hts]
  rw [hg]

theorem mapM_prefix_error {α β : Type} {f : α → Except PyErr β} {g : α → β} {pre post : List α} {x : α} {e : PyErr}
    (h : ∀ a ∈ pre, f a = .ok (g a)) (hx : f x = .error e) : (pre ++ x :: post).mapM f = .error e := by
  induction pre with
  | nil => rw [List.nil_append, List.mapM_cons, hx]; rfl
  | cons a pre ih =>
    rw [List.cons_append, List.mapM_cons, h a (by simp), ih fun b hb => h b (by simp [hb])]
    rfl

theorem leastCommon_single {ts : List Ty} (hts : ∀ t ∈ ts, Good t) (n : Node) : LeastCommon ts n ↔ LeastFor ts n :=
  leastCommon_iff (fun t ht => (hts t ht).single) n

/-- uniting scalars -/
theorem base_least {topo : List Node} (htopo : Toposort discEdges (.ok topo)) {ts : List Ty} (hts : ∀ t ∈ ts, Good t)
    (hne : notNull ts ≠ []) {n : Node} (h : LeastCommon ts n) :
    (notNull ts).all Ty.isUnit = true ∧ lowestCommon topo (notNull ts) = .ok n.ty := by
  have hu : ∀ t ∈ notNull ts, ∃ m : Node, t = m.ty ∧ Turns m n := fun t ht => h.upper t (mem_notNull.1 ht).1 (mem_notNull.1 ht).2
  constructor
  · rw [List.all_eq_true]
    intro t ht
    obtain ⟨m, rfl, -⟩ := hu t ht
    cases m <;> rfl
  · obtain ⟨r, hr, hr1, hr2⟩ := C26.least topo htopo (notNull ts) hne (by
      intro t ht
      obtain ⟨m, rfl, -⟩ := hu t ht
      exact ⟨node_everywhere m, m, pyEq_refl (node_everywhere m)⟩)
    have hn := (leastCommon_single hts n).1 h
    have : r = n := by
      refine leastFor_unique (ts := ts) ⟨fun t ht hn => hr1 t (mem_notNull.2 ⟨ht, hn⟩), fun m hm => hr2 m fun t ht => ?_⟩ hn
      exact hm t (mem_notNull.1 ht).1 (mem_notNull.1 ht).2
    rw [hr, this]

theorem base_unrelated {topo : List Node} (htopo : Toposort discEdges (.ok topo)) {ts : List Ty} (hts : ∀ t ∈ ts, Good t)
    (hne : notNull ts ≠ []) (h : ∀ n, ¬ LeastCommon ts n) : lowestCommon topo (notNull ts) = .error .valueError := by
  by_cases hall : ∀ t ∈ notNull ts, ∃ m : Node, pyEq t m.ty = true
  · obtain ⟨r, hr, hr1, hr2⟩ := C26.least topo htopo (notNull ts) hne fun t ht =>
      ⟨(hts t (mem_notNull.1 ht).1).plain, hall t ht⟩
    refine absurd ((leastCommon_single hts r).2 ⟨fun t ht hn => hr1 t (mem_notNull.2 ⟨ht, hn⟩), fun m hm => hr2 m fun t ht => ?_⟩) (h r)
    exact hm t (mem_notNull.1 ht).1 (mem_notNull.1 ht).2
  · have : ∃ t ∈ notNull ts, ∀ m : Node, pyEq t m.ty = false := by
      apply Classical.byContradiction
      intro hn
      refine hall fun t ht => Classical.byContradiction fun hm => hn ⟨t, ht, fun m => ?_⟩
      rw [← Bool.not_eq_true]
      exact fun e => hm ⟨m, e⟩
    obtain ⟨t, ht, hm⟩ := this
    exact C26.unknown topo _ t ht hm

theorem node_good (n : Node) : Good n.ty ∧ n.ty.isDShape = false ∧ n.ty.isOption = false := by
  refine ⟨⟨disc_node n, ?_⟩, ?_, ?_⟩ <;> cases n <;> rfl

theorem not_units {ts rest : List Ty} {g : Ty} (hg : notNull ts = g :: rest) (h : g.isUnit = false) :
    ¬ ((notNull ts).all Ty.isUnit = true) := by
  rw [hg, List.all_cons, h]; simp

/-- What types are united to is what `unite_base` computes. -/
theorem united_base {topo : List Node} (htopo : Toposort discEdges (.ok topo)) {ts : List Ty} {r : Except PyErr Ty}
    (h : United ts r) : (∀ t ∈ ts, Good t) → ∀ fuel, depthL ts < fuel →
      (uniteBase topo fuel ts >>= subshape (.int 0)) = r.map Ty.wrap ∧ ∀ t, r = .ok t → Good t := by
  induction h with
  | @nulls ts h =>
    intro hts fuel hf
    obtain ⟨fuel, rfl⟩ : ∃ k, fuel = k + 1 := ⟨fuel - 1, by omega⟩
    refine ⟨?_, fun t e => by cases e; exact good_null⟩
    rw [uniteBase_eq]
    simp only [launder_good hts, notNull_eq hts, h]
    exact mul_sub (ok := fun _ => true) (disc_node .null)
  | @scalars ts n hne hl =>
    intro hts fuel hf
    obtain ⟨fuel, rfl⟩ : ∃ k, fuel = k + 1 := ⟨fuel - 1, by omega⟩
    obtain ⟨g, rest, hg⟩ := List.exists_cons_of_ne_nil hne
    obtain ⟨h1, h2, h3⟩ := node_good n
    refine ⟨?_, fun t e => by cases e; exact asOptional_good h1 h2 h3⟩
    obtain ⟨e1, e2⟩ := base_least htopo hts hne hl
    rw [base_eq hts hg, if_pos e1, e2]
    exact asOptional_step hts h1 h2 h3
  | @unrelated ts hne hu hl =>
    intro hts fuel hf
    obtain ⟨fuel, rfl⟩ : ∃ k, fuel = k + 1 := ⟨fuel - 1, by omega⟩
    obtain ⟨g, rest, hg⟩ := List.exists_cons_of_ne_nil hne
    refine ⟨?_, fun t e => by cases e⟩
    rw [base_eq hts hg, if_pos (by rw [List.all_eq_true]; exact hu), base_unrelated htopo hts hne hl]
    rfl
  | @records ts rest types fs hg hr hf ih =>
    intro hts fuel hfu
    obtain ⟨fuel, rfl⟩ : ∃ k, fuel = k + 1 := ⟨fuel - 1, by omega⟩
    have hrec : ∀ t ∈ notNull ts, IsRecord t := by
      intro t ht
      rw [hg] at ht
      rcases List.mem_cons.1 ht with rfl | ht
      · exact ⟨fs, rfl⟩
      · exact hr t ht
    have hgt : ∀ t ∈ notNull ts, Good t := fun t ht => hts t (mem_notNull.1 ht).1
    have hne : notNull ts ≠ [] := by rw [hg]; simp
    have hcells : ∀ n, ∀ t ∈ (notNull ts).map (cellAt n), Good t := by
      intro n t ht
      obtain ⟨x, hx, rfl⟩ := List.mem_map.1 ht
      exact cellAt_good (hgt x hx) n
    have hcol : ∀ f ∈ fs, (uniteBase topo fuel ((notNull ts).map (cellAt f.1)) >>= subshape (.int 0)) = .ok (types f.1).wrap ∧
        Good (types f.1) := by
      intro f hfm
      obtain ⟨h1, h2⟩ := ih f hfm (hcells f.1) fuel (by have := cells_depth hts hrec hne f.1; omega)
      exact ⟨h1, h2 _ rfl⟩
    have hnd : (fs.map (·.1)).Nodup := record_nodup (hgt _ (by rw [hg]; simp))
    obtain ⟨e1, e2⟩ := record_good (names := fs.map (·.1)) types hnd (by
      intro n hn
      obtain ⟨f, hfm, rfl⟩ := List.mem_map.1 hn
      exact (hcol f hfm).2)
    have e3 : (fs.map (·.1)).map (fun n => (n, types n)) = fs.map fun f => (f.1, types f.1) := by rw [List.map_map]; rfl
    rw [e3] at e1 e2
    refine ⟨?_, fun t e => by cases e; exact asOptional_good e2 rfl rfl⟩
    have hb : baseRecord topo fuel (notNull ts) (.record fs) = .ok (.record (fs.map fun f => (f.1, types f.1))) := by
      rw [baseRecord_ok rfl (fun t ht => hrec t ht)]
      have : (fs.map (·.1)).mapM (fun name => do
          let u ← uniteBase topo fuel ((notNull ts).map (fieldCell name))
          let t ← subshape (.int 0) u
          .ok (name, t)) = (.ok ((fs.map (·.1)).map fun n => (n, (types n).wrap)) : Except PyErr (List (Str × Ty))) := by
        apply mapM_all_ok
        intro n hn
        obtain ⟨f, hfm, rfl⟩ := List.mem_map.1 hn
        have e4 : (notNull ts).map (fieldCell f.1) = (notNull ts).map (cellAt f.1) :=
          List.map_inj_left.2 fun t ht => cellAt_field (hgt t ht) f.1
        rw [e4]
        have := (hcol f hfm).1
        simp only [bind, Except.bind] at this ⊢
        generalize uniteBase topo fuel ((notNull ts).map (cellAt f.1)) = u at this
        cases u with
        | error e => cases this
        | ok u => dsimp only at this ⊢; rw [this]
      rw [this]
      exact e1
    rw [base_eq hts hg, if_neg (not_units hg rfl), hb]
    exact asOptional_step hts e2 rfl rfl
  | @recordsFail ts rest f post e types pre hg hr hf he ih ih' =>
    intro hts fuel hfu
    obtain ⟨fuel, rfl⟩ : ∃ k, fuel = k + 1 := ⟨fuel - 1, by omega⟩
    have hrec : ∀ t ∈ notNull ts, IsRecord t := by
      intro t ht
      rw [hg] at ht
      rcases List.mem_cons.1 ht with rfl | ht
      · exact ⟨_, rfl⟩
      · exact hr t ht
    have hgt : ∀ t ∈ notNull ts, Good t := fun t ht => hts t (mem_notNull.1 ht).1
    have hne : notNull ts ≠ [] := by rw [hg]; simp
    have hcells : ∀ n, ∀ t ∈ (notNull ts).map (cellAt n), Good t := by
      intro n t ht
      obtain ⟨x, hx, rfl⟩ := List.mem_map.1 ht
      exact cellAt_good (hgt x hx) n
    have e4 : ∀ n, (notNull ts).map (fieldCell n) = (notNull ts).map (cellAt n) :=
      fun n => List.map_inj_left.2 fun t ht => cellAt_field (hgt t ht) n
    have hdep : ∀ n, depthL ((notNull ts).map (cellAt n)) < fuel := fun n => by
      have := cells_depth hts hrec hne n; omega
    refine ⟨?_, fun t h => by cases h⟩
    have hb : baseRecord topo fuel (notNull ts) (.record (pre ++ f :: post)) = .error e := by
      rw [baseRecord_ok rfl (fun t ht => hrec t ht)]
      simp only [e4]
      have hstep : ∀ n r, (uniteBase topo fuel ((notNull ts).map (cellAt n)) >>= subshape (.int 0)) = r →
          (do
            let u ← uniteBase topo fuel ((notNull ts).map (cellAt n))
            let t ← subshape (.int 0) u
            .ok (n, t) : Except PyErr (Str × Ty)) = r.map fun t => (n, t) := by
        intro n r h
        subst h
        simp only [bind, Except.bind, Except.map]
        cases uniteBase topo fuel ((notNull ts).map (cellAt n)) with
        | error e => rfl
        | ok u => rfl
      have : ((pre ++ f :: post).map (·.1)).mapM (fun name => do
          let u ← uniteBase topo fuel ((notNull ts).map (cellAt name))
          let t ← subshape (.int 0) u
          .ok (name, t)) = (.error e : Except PyErr (List (Str × Ty))) := by
        rw [List.map_append, List.map_cons]
        apply mapM_prefix_error (g := fun n => (n, (types n).wrap))
        · intro n hn
          obtain ⟨x, hx, rfl⟩ := List.mem_map.1 hn
          exact hstep _ _ (ih x hx (hcells x.1) fuel (hdep x.1)).1
        · exact hstep _ _ (ih' (hcells f.1) fuel (hdep f.1)).1
      rw [this]
      rfl
    rw [base_eq hts hg, if_neg (not_units hg rfl), hb]
    rfl
  | @emptyRecord ts rest hg =>
    intro hts fuel hfu
    obtain ⟨fuel, rfl⟩ : ∃ k, fuel = k + 1 := ⟨fuel - 1, by omega⟩
    have hgd : Good (.record []) := hts _ (mem_notNull.1 (show _ ∈ notNull ts by rw [hg]; simp)).1
    refine ⟨?_, fun t e => by cases e; exact asOptional_good hgd rfl rfl⟩
    rw [base_eq hts hg, if_neg (not_units hg rfl)]
    exact asOptional_step hts hgd rfl rfl
  | @mixed ts fs rest hg hfs hex =>
    intro hts fuel hfu
    obtain ⟨fuel, rfl⟩ : ∃ k, fuel = k + 1 := ⟨fuel - 1, by omega⟩
    refine ⟨?_, fun t e => by cases e⟩
    rw [base_eq hts hg, if_neg (not_units hg rfl)]
    obtain ⟨f, fs', rfl⟩ := List.exists_cons_of_ne_nil hfs
    obtain ⟨t, ht, hn⟩ := hex
    have : baseRecord topo fuel (notNull ts) (.record (f :: fs')) = .error .attributeError := by
      unfold baseRecord
      simp only [namesOf, recordNames]
      rw [show (Except.ok (ε := PyErr) (List.map (fun x : Str × Ty => x.1) (f :: fs'))) = .ok (f.1 :: fs'.map (·.1)) from rfl]
      simp only [bind, Except.bind, List.mapM_cons]
      rw [mapM_attr ⟨t, by rw [hg]; simp [ht], (isRecord_iff t).1 hn⟩]
    rw [this]
    rfl
  | @noRecord ts t rest hg hn hex =>
    intro hts fuel hfu
    obtain ⟨fuel, rfl⟩ : ∃ k, fuel = k + 1 := ⟨fuel - 1, by omega⟩
    refine ⟨?_, fun t e => by cases e⟩
    have hu : ¬ ((notNull ts).all Ty.isUnit = true) := by
      rw [List.all_eq_true]
      obtain ⟨u, hu, hf⟩ := hex
      intro h
      rw [h u hu] at hf
      cases hf
    rw [base_eq hts hg, if_neg hu]
    have : namesOf t = .error .attributeError := by
      have := (isRecord_iff t).1 hn
      cases t <;> first | rfl | exact absurd rfl (this _)
    unfold baseRecord
    rw [this]
    rfl

theorem first_error {α β : Type} {P : α → Except PyErr β → Prop} {l : List α} (h : ∀ x ∈ l, ∃ r, P x r) :
    (∀ x ∈ l, ∃ t, P x (.ok t)) ∨
    ∃ pre x post e, l = pre ++ x :: post ∧ (∀ y ∈ pre, ∃ t, P y (.ok t)) ∧ P x (.error e) := by
  induction l with
  | nil => exact .inl (by simp)
  | cons a l ih =>
    obtain ⟨r, hr⟩ := h a (by simp)
    cases r with
    | error e => exact .inr ⟨[], a, l, e, rfl, by simp, hr⟩
    | ok t =>
      rcases ih fun x hx => h x (by simp [hx]) with h' | ⟨pre, x, post, e, rfl, h1, h2⟩
      · refine .inl fun x hx => ?_
        rcases List.mem_cons.1 hx with rfl | hx
        · exact ⟨t, hr⟩
        · exact h' x hx
      · refine .inr ⟨a :: pre, x, post, e, rfl, fun y hy => ?_, h2⟩
        rcases List.mem_cons.1 hy with rfl | hy
        · exact ⟨t, hr⟩
        · exact h1 y hy

/-- Types can always be united, or not. -/
theorem united_total (n : Nat) (ts : List Ty) (h : ∀ t ∈ ts, Good t) (hd : depthL ts < n) : ∃ r, United ts r := by
  induction n generalizing ts with
  | zero => omega
  | succ n ih =>
    cases hg : notNull ts with
    | nil => exact ⟨_, .nulls hg⟩
    | cons g rest =>
      have hne : notNull ts ≠ [] := by rw [hg]; simp
      by_cases hu : ∀ t ∈ notNull ts, t.isUnit = true
      · by_cases hl : ∃ n, LeastCommon ts n
        · obtain ⟨n, hl⟩ := hl
          exact ⟨_, .scalars hne hl⟩
        · exact ⟨_, .unrelated hne hu fun n hn => hl ⟨n, hn⟩⟩
      have hex : ∃ t ∈ notNull ts, t.isUnit = false := by
        apply Classical.byContradiction
        intro hn
        refine hu fun t ht => ?_
        cases hb : t.isUnit with
        | true => rfl
        | false => exact absurd ⟨t, ht, hb⟩ hn
      rcases record_or g with ⟨fs, rfl⟩ | hno
      · by_cases hall : ∀ t ∈ rest, IsRecord t
        · have hrec : ∀ t ∈ notNull ts, IsRecord t := by
            intro t ht
            rw [hg] at ht
            rcases List.mem_cons.1 ht with rfl | ht
            · exact ⟨_, rfl⟩
            · exact hall t ht
          have hcols : ∀ f ∈ fs, ∃ r, United ((notNull ts).map (cellAt f.1)) r := by
            intro f _
            refine ih _ ?_ ?_
            · intro t ht
              obtain ⟨x, hx, rfl⟩ := List.mem_map.1 ht
              exact cellAt_good (h x (mem_notNull.1 hx).1) f.1
            · have := cells_depth h hrec hne f.1; omega
          obtain ⟨types, htypes⟩ : ∃ types : Str → Ty, ∀ n, (∃ t, United ((notNull ts).map (cellAt n)) (.ok t)) →
              United ((notNull ts).map (cellAt n)) (.ok (types n)) := by
            apply Classical.axiomOfChoice (r := fun n t' => (∃ t, United ((notNull ts).map (cellAt n)) (.ok t)) →
              United ((notNull ts).map (cellAt n)) (.ok t'))
            intro n
            by_cases hn : ∃ t, United ((notNull ts).map (cellAt n)) (.ok t)
            · obtain ⟨t, ht⟩ := hn
              exact ⟨t, fun _ => ht⟩
            · exact ⟨.null, fun h => absurd h hn⟩
          rcases first_error (P := fun (f : Str × Ty) r => United ((notNull ts).map (cellAt f.1)) r) hcols with hok | ⟨pre, f, post, e, rfl, h1, h2⟩
          · exact ⟨_, .records hg hall fun f hf => htypes f.1 (hok f hf)⟩
          · exact ⟨_, .recordsFail hg hall (fun f hf => htypes f.1 (h1 f hf)) h2⟩
        · have hex' : ∃ t ∈ rest, ¬ IsRecord t := by
            apply Classical.byContradiction
            intro hn
            exact hall fun t ht => Classical.byContradiction fun h' => hn ⟨t, ht, h'⟩
          cases fs with
          | nil => exact ⟨_, .emptyRecord hg⟩
          | cons f fs => exact ⟨_, .mixed hg (by simp) hex'⟩
      · exact ⟨_, .noRecord hg ((isRecord_iff g).2 hno) hex⟩

/-! ### Columns -/

theorem all_eq_or {ts : List Ty} (hne : ts ≠ []) : (∃ t ∈ ts, ∀ u ∈ ts, u = t) ∨ ∃ a ∈ ts, ∃ b ∈ ts, a ≠ b := by
  obtain ⟨t, us, rfl⟩ := List.exists_cons_of_ne_nil hne
  by_cases h : ∀ u ∈ t :: us, u = t
  · exact .inl ⟨t, by simp, h⟩
  · refine .inr ?_
    apply Classical.byContradiction
    intro hn
    refine h fun u hu => Classical.byContradiction fun he => hn ⟨u, hu, t, by simp, he⟩

theorem distinct_same {ts : List Ty} (hp : ∀ t ∈ ts, Plain t) (hne : ts ≠ []) {t : Ty} (h : ∀ u ∈ ts, u = t) :
    (pyDistinct ts).length = 1 := by
  refine pyDistinct_one hp hne fun a ha b hb => ?_
  rw [h a ha, h b hb]
  exact pyEq_refl (h a ha ▸ hp a ha)

theorem distinct_differ {ts : List Ty} (hp : ∀ t ∈ ts, Plain t) (he : ∀ a ∈ ts, ∀ b ∈ ts, pyEq a b = true → a = b)
    (h : ∃ a ∈ ts, ∃ b ∈ ts, a ≠ b) : (pyDistinct ts).length ≠ 1 := by
  obtain ⟨a, ha, b, hb, hab⟩ := h
  refine pyDistinct_two hp ha hb ?_
  rw [← Bool.not_eq_true]
  exact fun e => hab (he a ha b hb e)

/-- the type of a column is what the code computes -/
theorem column_result {topo : List Node} (htopo : Toposort discEdges (.ok topo)) {ts : List Ty} (hts : ∀ t ∈ ts, Good t)
    {r : Except PyErr Ty} (h : ColumnResult ts r) :
    columnType topo (ts.map .ok) = r.map Ty.wrap ∧ ∀ t, r = .ok t → Good t := by
  rw [column_ok]
  unfold uniteFull uniteIdentical
  cases h with
  | @same t hne h =>
    obtain ⟨u, us, rfl⟩ := List.exists_cons_of_ne_nil hne
    obtain rfl := h u (by simp)
    refine ⟨?_, fun t e => by cases e; exact hts _ (by simp)⟩
    rw [if_pos (distinct_same (fun t ht => (hts t ht).plain) hne h)]
    simp only [bind, Except.bind, disc_mul (hts u (by simp)).disc]
    exact sub_fixed (hts u (by simp)).disc
  | differ hd hu =>
    rw [if_neg (distinct_differ (fun t ht => (hts t ht).plain) (fun a ha b hb => (hts a ha).eq (hts b hb)) hd)]
    exact united_base htopo hu hts (depthL ts + 1) (by omega)

theorem column_total {ts : List Ty} (hts : ∀ t ∈ ts, Good t) (hne : ts ≠ []) : ∃ r, ColumnResult ts r := by
  rcases all_eq_or hne with ⟨t, -, h⟩ | h
  · exact ⟨_, .same hne h⟩
  · obtain ⟨r, hr⟩ := united_total (depthL ts + 1) ts hts (by omega)
    exact ⟨r, .differ h hr⟩

/-! ### One thing after another -/

theorem inTurn_mapM {α β γ : Type} {R : α → Except PyErr β → Prop} {f : α → Except PyErr γ} {g : β → γ} {l : List α}
    (hf : ∀ x ∈ l, ∀ r, R x r → f x = r.map g) {r : Except PyErr (List β)} (h : InTurn R l r) :
    l.mapM f = r.map (List.map g) := by
  induction h with
  | done => rfl
  | @next x xs y ys h1 _ ih =>
    rw [List.mapM_cons, hf x (by simp) _ h1, ih fun a ha => hf a (by simp [ha])]
    rfl
  | @fails x xs e h1 =>
    rw [List.mapM_cons, hf x (by simp) _ h1]
    rfl
  | @failsLater x xs y e h1 _ ih =>
    rw [List.mapM_cons, hf x (by simp) _ h1, ih fun a ha => hf a (by simp [ha])]
    rfl

theorem inTurn_total {α β : Type} {R : α → Except PyErr β → Prop} {l : List α} (h : ∀ x ∈ l, ∃ r, R x r) : ∃ r, InTurn R l r := by
  induction l with
  | nil => exact ⟨_, .done⟩
  | cons x xs ih =>
    obtain ⟨r, hr⟩ := h x (by simp)
    cases r with
    | error e => exact ⟨_, .fails hr⟩
    | ok y =>
      obtain ⟨rs, hrs⟩ := ih fun a ha => h a (by simp [ha])
      cases rs with
      | error e => exact ⟨_, .failsLater hr hrs⟩
      | ok ys => exact ⟨_, .next hr hrs⟩

theorem inTurn_mem {α β : Type} {R : α → Except PyErr β → Prop} {l : List α} {r : Except PyErr (List β)} (h : InTurn R l r) :
    ∀ ys, r = .ok ys → l.length = ys.length ∧ ∀ y ∈ ys, ∃ x ∈ l, R x (.ok y) := by
  induction h with
  | done => intro ys e; cases e; simp
  | @next x xs y ys h1 _ ih =>
    intro zs e
    cases e
    obtain ⟨e1, e2⟩ := ih _ rfl
    refine ⟨by simp [e1], fun z hz => ?_⟩
    rcases List.mem_cons.1 hz with rfl | hz
    · exact ⟨x, by simp, h1⟩
    · obtain ⟨w, hw, hr⟩ := e2 z hz
      exact ⟨w, by simp [hw], hr⟩
  | fails => intro ys e; cases e
  | failsLater => intro ys e; cases e

/-- discovering things in turn -/
theorem inTurn_eq {α β : Type} {D : α → Except PyErr β} {l : List α} {r : Except PyErr (List β)}
    (h : InTurn (fun v r => D v = r) l r) : l.mapM D = r := by
  have := inTurn_mapM (f := D) (g := id) (fun x _ r hr => by subst hr; cases D x <;> rfl) h
  rw [this]
  cases r <;> simp [Except.map]

/-! ### The columns of a table -/

section
variable {V : Type} {D : V → Except PyErr Ty} (hD : ∀ v t, D v = .ok t → Good t)
include hD

theorem types_good {cells : List V} {ts : List Ty} (h : InTurn (fun v r => D v = r) cells (.ok ts)) : ∀ t ∈ ts, Good t := by
  intro t ht
  obtain ⟨v, -, hv⟩ := (inTurn_mem h ts rfl).2 t ht
  exact hD v t hv

theorem cells_column {topo : List Node} (htopo : Toposort discEdges (.ok topo)) {cells : List V} {r : Except PyErr Ty}
    (h : CellsColumn D cells r) : columnType topo (cells.map D) = r.map Ty.wrap ∧ ∀ t, r = .ok t → Good t := by
  have hcol : ∀ l : List V, column (l.map D) = l.mapM D := by
    intro l
    unfold column
    induction l with
    | nil => rfl
    | cons v l ih => rw [List.map_cons, List.mapM_cons, List.mapM_cons, ih]; rfl
  cases h with
  | @column ts r h1 h2 =>
    obtain ⟨e1, e2⟩ := column_result htopo (types_good hD h1) h2
    refine ⟨?_, e2⟩
    rw [← e1]
    unfold columnType
    rw [hcol, inTurn_eq h1]
    have : column (ts.map (Except.ok (ε := PyErr))) = .ok ts := by
      unfold column
      clear e1 h2 h1 e2
      induction ts with
      | nil => rfl
      | cons t ts ih => rw [List.map_cons, List.mapM_cons, ih]; rfl
    rw [this]
  | @fails e h1 =>
    refine ⟨?_, fun t e => by cases e⟩
    unfold columnType
    rw [hcol, inTurn_eq h1]
    rfl

theorem cells_total {cells : List V} (hne : cells ≠ []) : ∃ r, CellsColumn D cells r := by
  obtain ⟨r, hr⟩ := inTurn_total (R := fun v r => D v = r) (l := cells) fun v _ => ⟨_, rfl⟩
  cases r with
  | error e => exact ⟨_, .fails hr⟩
  | ok ts =>
    obtain ⟨r, h⟩ := column_total (types_good hD hr) (by
      intro e
      have := (inTurn_mem hr _ rfl).1
      rw [e] at this
      exact hne (List.length_eq_zero_iff.1 this))
    exact ⟨r, .column hr h⟩

theorem columns_mapM {topo : List Node} (htopo : Toposort discEdges (.ok topo)) {cols : List (List V)}
    {r : Except PyErr (List Ty)} (h : InTurn (CellsColumn D) cols r) :
    (cols.map (List.map D)).mapM (columnType topo) = r.map (List.map Ty.wrap) ∧ ∀ ts, r = .ok ts → ∀ t ∈ ts, Good t := by
  constructor
  · rw [List.mapM_map]
    exact inTurn_mapM (R := CellsColumn D) (f := columnType topo ∘ List.map D) (g := Ty.wrap)
      (fun c _ r hr => (cells_column hD htopo hr).1) h
  · intro ts e t ht
    obtain ⟨c, -, hc⟩ := (inTurn_mem h ts e).2 t ht
    exact (cells_column hD htopo hc).2 t rfl

end

/-! ### Types side by side -/

theorem paramsOf_eq (t : Ty) : paramsOf t = asParams t := by cases t <;> rfl

theorem wrap_paramsOf (t : Ty) : t.wrap = .dshape (paramsOf t) := by cases t <;> rfl

theorem wrap_wrap (t : Ty) : t.wrap.wrap = t.wrap := by cases t <;> rfl

/-- `d * t` -/
theorem disc_mul_dim {d t : Ty} (hd : d.isExtent = true) (h : Disc ok t) : mul (.ty d) (.ty t) = .ok (.dshape (d :: asParams t)) := by
  rw [mul_ty_eq _ _ (extent_all (ok := ok) hd).2]
  obtain ⟨dims, m, e, h1, h2, h3⟩ := disc_asParams h
  rw [e]
  apply mkDS_self.2
  refine .of ⟨d :: dims, m, rfl, ?_, (measureLike_iff h2.all).1 h2.top, ?_⟩
  · intro x hx
    have := extent_cons hd h1 x hx
    cases x <;> simp [Ty.isExtent] at this <;> simp [Ty.cls]
  · intro p hp
    have : p.isDShape = false := by
      rcases List.mem_cons.1 hp with rfl | hp
      · exact (extent_all (ok := ok) hd).2
      rcases List.mem_append.1 hp with hp | hp
      · exact (extent_all (ok := ok) (h1 p hp)).2
      · rw [List.mem_singleton.1 hp]; exact h3
    cases p <;> first | rfl | (simp [Ty.isDShape] at this)

/-- an array type is a `DataShape` -/
theorem lines_unwrap {w : Ty → Ty} (hw : w = id ∨ w = Ty.wrap) {t d : Ty} {row : List Ty} (ht : Good t)
    (e : w t = .dshape (d :: row)) (hd : isDimension d = true) : t = .dshape (d :: row) := by
  rcases hw with rfl | rfl
  · exact e
  · cases hs : t.isDShape with
    | true => unfold Ty.wrap at e; rwa [if_pos hs] at e
    | false =>
      unfold Ty.wrap at e
      rw [if_neg (by simp [hs])] at e
      injection e with e
      injection e with e1 e2
      subst e1
      have := (measureLike_iff ht.disc.all).1 ht.disc.top
      have hx := everywhere_self ht.disc.all
      cases t <;> first | (cases hd; done) | (cases hx; done) | (simp [Ty.cls] at this)

/-- types, possibly wrapped in `DataShape`s -/
theorem combined_tuple {w : Ty → Ty} (hw : w = id ∨ w = Ty.wrap) {ts : List Ty} (hts : ∀ t ∈ ts, Good t) {t : Ty}
    (h : Combined ts t) : uniteTuple (ts.map w) = .ok t ∧ Disc (fun _ => true) t := by
  have hwd : ∀ t, Good t → Disc (fun _ => true) (w t) := by
    intro t ht
    rcases hw with rfl | rfl
    · exact ht.disc
    · obtain ⟨dims, m, e, h1, h2, h3⟩ := disc_asParams ht.disc
      rw [wrap_paramsOf, paramsOf_eq, e]
      exact disc_array h1 h2 h3
  have hwi : ∀ a, Good a → ∀ b, Good b → pyEq (w a) (w b) = true → a = b := by
    intro a ha b hb he
    rcases hw with rfl | rfl
    · exact ha.eq hb he
    · have := disc_eq (hwd a ha).all (hwd b hb).all (by rw [wrap_paramsOf, wrap_paramsOf]; rfl) he
      rw [← launder_wrapped ha.single, ← launder_wrapped hb.single, this]
  have hwp : ∀ t, asParams (w t) = paramsOf t := by
    intro t
    rcases hw with rfl | rfl
    · exact (paramsOf_eq t).symm
    · rw [wrap_paramsOf]; rfl
  have hww : ∀ t, (w t).wrap = t.wrap := by
    intro t
    rcases hw with rfl | rfl
    · rfl
    · exact wrap_wrap t
  have hwl : ∀ d row, w (.dshape (d :: row)) = .dshape (d :: row) := by
    intro d row
    rcases hw with rfl | rfl <;> rfl
  have hpl : ∀ u ∈ ts.map w, Plain u := by
    intro u hu
    obtain ⟨t, ht, rfl⟩ := List.mem_map.1 hu
    exact disc_plain (hwd t (hts t ht)).all
  have heq : ∀ a ∈ ts.map w, ∀ b ∈ ts.map w, pyEq a b = true → a = b := by
    intro a ha b hb he
    obtain ⟨x, hx, rfl⟩ := List.mem_map.1 ha
    obtain ⟨y, hy, rfl⟩ := List.mem_map.1 hb
    rw [hwi x (hts x hx) y (hts y hy) he]
  have hdiff : (∃ a ∈ ts, ∃ b ∈ ts, a ≠ b) → (pyDistinct (ts.map w)).length ≠ 1 := by
    rintro ⟨a, ha, b, hb, hab⟩
    refine distinct_differ hpl heq ⟨w a, List.mem_map_of_mem ha, w b, List.mem_map_of_mem hb, fun e => hab ?_⟩
    exact hwi a (hts a ha) b (hts b hb) (by rw [e]; exact pyEq_refl (hpl _ (List.mem_map_of_mem hb)))
  unfold uniteTuple
  cases h with
  | @same t hne h =>
    have hgt : Good t := by
      obtain ⟨u, us, e⟩ := List.exists_cons_of_ne_nil hne
      have := h u (by rw [e]; simp)
      exact this ▸ hts u (by rw [e]; simp)
    have e1 : uniteIdentical (ts.map w) = .ok (some (.dshape (.fixed ts.length :: paramsOf t))) := by
      obtain ⟨u, us, rfl⟩ := List.exists_cons_of_ne_nil hne
      obtain rfl := h u (by simp)
      unfold uniteIdentical
      rw [if_pos (distinct_same (t := w u) hpl (by simp) (by
        intro x hx
        obtain ⟨y, hy, rfl⟩ := List.mem_map.1 hx
        rw [h y hy]))]
      rw [List.map_cons]
      simp only [bind, Except.bind]
      rw [disc_mul (hwd u hgt), hwp, ← List.map_cons, List.length_map]
    rw [e1]
    refine ⟨rfl, ?_⟩
    have := disc_mul_int (disc_mul (n := ts.length) hgt.disc) hgt.disc
    rwa [← paramsOf_eq] at this
  | @ragged row hd hl =>
    have e1 : uniteIdentical (ts.map w) = .ok none := by
      unfold uniteIdentical
      rw [if_neg (hdiff hd)]
    have hid : ts.map w = ts := by
      conv => rhs; rw [← List.map_id ts]
      refine List.map_inj_left.2 fun t ht => ?_
      obtain ⟨d, rfl, -⟩ := hl t ht
      exact hwl d row
    rw [hid] at e1 ⊢
    rw [e1]
    have hlines : ∀ t ∈ ts, Lines t := by
      intro t ht
      obtain ⟨d, rfl, hdim⟩ := hl t ht
      refine ⟨d, row, rfl, ?_⟩
      rcases hdim with rfl | ⟨n, rfl⟩ <;> rfl
    have hinner : ∀ u ∈ ts.map inner, u = .dshape row := by
      intro u hu
      obtain ⟨t, ht, rfl⟩ := List.mem_map.1 hu
      obtain ⟨d, rfl, -⟩ := hl t ht
      rfl
    obtain ⟨a, ha, b, hb, hab⟩ := hd
    have hga := hts a ha
    obtain ⟨da, ea, hda⟩ := hl a ha
    subst ea
    have hdim : isDimension da = true := by rcases hda with rfl | ⟨n, rfl⟩ <;> rfl
    have hrow : Disc (fun _ => true) (.dshape row) := disc_subshape (sub_extent (dims_extent hga.disc.all hdim) hga.disc.all) hga.disc
    have hne : ts ≠ [] := by rintro rfl; cases ha
    have hipl : ∀ u ∈ ts.map inner, Plain u := fun u hu => by rw [hinner u hu]; exact disc_plain hrow.all
    have e2 : uniteIdentical (ts.map inner) = .ok (some (.dshape (.fixed ts.length :: row))) := by
      unfold uniteIdentical
      rw [if_pos (distinct_same (t := .dshape row) hipl (by simpa using hne) hinner)]
      obtain ⟨u, us, rfl⟩ := List.exists_cons_of_ne_nil hne
      rw [List.map_cons]
      simp only [bind, Except.bind]
      rw [hinner (inner u) (by simp), disc_mul hrow]
      simp [asParams]
    have hle : ∀ t ∈ ts.map lead, t.isExtent = true := by
      intro t ht
      obtain ⟨x, hx, rfl⟩ := List.mem_map.1 ht
      have hfx := hts x hx
      obtain ⟨d, rfl, hdm⟩ := hl x hx
      rcases hdm with rfl | ⟨n, rfl⟩ <;> rfl
    have hlead : (pyDistinct (ts.map lead)).length ≠ 1 := by
      refine distinct_differ (fun t ht => disc_plain (extent_all (ok := fun _ => true) (hle t ht)).1)
        (fun a ha b hb he => disc_eq (ok := fun _ => true) (extent_all (hle a ha)).1 (extent_all (hle b hb)).1
          (by rw [(extent_all (ok := fun _ => true) (hle a ha)).2, (extent_all (ok := fun _ => true) (hle b hb)).2]) he)
        ⟨lead (.dshape (da :: row)), List.mem_map_of_mem ha, lead b, List.mem_map_of_mem hb, fun e => hab ?_⟩
      obtain ⟨db, rfl, -⟩ := hl b hb
      simp only [lead] at e
      rw [e]
    have hsub : subshape (.int 0) (.dshape (.fixed ts.length :: row)) = .ok (.dshape row) := sub_fixed hrow
    have hvar : mul (.ty .var) (.ty (.dshape row)) = .ok (.dshape (.var :: row)) := disc_mul_dim rfl hrow
    have hrow' : Disc (fun _ => true) (.dshape (.var :: row)) := disc_mul_ty hvar rfl hrow
    have e3 : uniteMerge ts = .ok (some (.dshape (.fixed ts.length :: .var :: row))) := by
      rw [merge_eq (fun t ht => (hts t ht).disc.all) hlines, e2]
      simp only [bind, Except.bind, hsub]
      rw [if_neg hlead, hvar]
      simp only
      rw [disc_mul hrow']
      rfl
    simp only [bind, Except.bind, e3]
    exact ⟨trivial, disc_mul_int (disc_mul (n := ts.length) hrow') hrow'⟩
  | tuple hd hl =>
    have e1 : uniteIdentical (ts.map w) = .ok none := by
      rcases hd with rfl | hd
      · rfl
      · unfold uniteIdentical
        rw [if_neg (hdiff hd)]
    have e2 : uniteMerge (ts.map w) = .ok none := by
      by_cases hlines : ∀ u ∈ ts.map w, Lines u
      · rw [merge_eq (fun u hu => by
          obtain ⟨t, ht, rfl⟩ := List.mem_map.1 hu
          exact (hwd t (hts t ht)).all) hlines]
        have : uniteIdentical ((ts.map w).map inner) = .ok none := by
          rcases hd with rfl | hd
          · rfl
          obtain ⟨a, ha, -⟩ := hd
          rcases hl with rfl | hl
          · cases ha
          obtain ⟨da, row, ea, hda⟩ := hlines _ (List.mem_map_of_mem ha)
          obtain ⟨t, ht, hnot⟩ := hl row
          obtain ⟨dt, row', et, hdt⟩ := hlines _ (List.mem_map_of_mem ht)
          have hrow : row' ≠ row := by
            rintro rfl
            have et' := lines_unwrap hw (hts t ht) et hdt
            obtain ⟨h1, h2⟩ := hnot dt et'
            have := dims_extent (et' ▸ (hts t ht).disc.all) hdt
            cases dt <;> simp [Ty.isExtent] at this
            · exact h2 _ rfl
            · exact h1 rfl
          unfold uniteIdentical
          rw [if_neg]
          refine distinct_differ ?_ ?_ ⟨inner (w a), List.mem_map_of_mem (List.mem_map_of_mem ha), inner (w t),
            List.mem_map_of_mem (List.mem_map_of_mem ht), ?_⟩
          · intro u hu
            obtain ⟨x, hx, rfl⟩ := List.mem_map.1 hu
            obtain ⟨y, hy, rfl⟩ := List.mem_map.1 hx
            have hfy := (hwd y (hts y hy)).all
            obtain ⟨d, r, e, hdm⟩ := hlines _ hx
            rw [e] at hfy ⊢
            exact disc_plain (inner_field hfy hdm)
          · intro u hu v hv he
            obtain ⟨x, hx, rfl⟩ := List.mem_map.1 hu
            obtain ⟨y, hy, rfl⟩ := List.mem_map.1 hv
            obtain ⟨x', hx', rfl⟩ := List.mem_map.1 hx
            obtain ⟨y', hy', rfl⟩ := List.mem_map.1 hy
            have hfx := (hwd x' (hts x' hx')).all
            have hfy := (hwd y' (hts y' hy')).all
            obtain ⟨d, r, e, hdm⟩ := hlines _ hx
            obtain ⟨d', r', e', hdm'⟩ := hlines _ hy
            rw [e] at hfx he ⊢
            rw [e'] at hfy he ⊢
            exact disc_eq (inner_field hfx hdm) (inner_field hfy hdm') rfl he
          · rw [ea, et]
            simp only [inner]
            intro h
            injection h with h
            exact hrow h.symm
        rw [this]
        rfl
      · unfold uniteMerge
        rw [if_neg]
        intro e
        rw [List.all_eq_true] at e
        exact hlines fun t ht => (lines_iff t).1 (e t ht)
    rw [e1]
    simp only [bind, Except.bind, e2]
    have e3 : mkTuple (ts.map w) = .ok (.tuple (ts.map fun t => .dshape (paramsOf t))) := by
      unfold mkTuple
      rw [mapM_all_ok (g := Ty.wrap) fun u hu => by
        obtain ⟨t, ht, rfl⟩ := List.mem_map.1 hu
        exact wrapDS_disc (hwd t (hts t ht))]
      rw [List.map_map]
      simp only [Function.comp_def, hww, wrap_paramsOf]
    refine ⟨e3, disc_mkTuple e3 ?_⟩
    intro u hu
    obtain ⟨t, ht, rfl⟩ := List.mem_map.1 hu
    exact hwd t (hts t ht)


theorem combined_total (ts : List Ty) : ∃ t, Combined ts t := by
  by_cases h : ∃ a ∈ ts, ∃ b ∈ ts, a ≠ b
  · by_cases hr : ∃ row, ∀ t ∈ ts, ∃ d, t = .dshape (d :: row) ∧ (d = .var ∨ ∃ n, d = .fixed n)
    · obtain ⟨row, hr⟩ := hr
      exact ⟨_, .ragged h hr⟩
    · refine ⟨_, .tuple (.inr h) (.inr fun row => ?_)⟩
      refine Classical.byContradiction fun hn => hr ⟨row, fun t ht => Classical.byContradiction fun hx => hn ⟨t, ht, fun d e => ?_⟩⟩
      exact ⟨fun e' => hx ⟨d, e, .inl e'⟩, fun n e' => hx ⟨d, e, .inr ⟨n, e'⟩⟩⟩
  · cases ts with
    | nil => exact ⟨_, .tuple (.inl rfl) (.inl rfl)⟩
    | cons t ts =>
      refine ⟨_, .same (t := t) (by simp) fun u hu => Classical.byContradiction fun hne => h ⟨u, hu, t, by simp, hne⟩⟩

/-! ### The items of a sequence -/

section
variable {strTy : Str → Except PyErr Ty} {topo : List Node}

theorem elems_iff (v : PyObj) (cs : List (Except PyErr Ty)) :
    (discoverItem strTy topo v).elems = some cs ↔ ∃ l, ListOf v l ∧ cs = l.map (discover strTy topo) := by
  constructor
  · intro h
    cases v with
    | seq k l =>
      rw [discoverItem, discoverItems_eq] at h
      simp only [List.map_map] at h
      cases k with
      | set => cases h
      | list => rw [if_neg (by simp)] at h; injection h with h; exact ⟨l, .inl rfl, h.symm⟩
      | tuple => rw [if_neg (by simp)] at h; injection h with h; exact ⟨l, .inr rfl, h.symm⟩
    | _ => simp [discoverItem] at h
  · rintro ⟨l, h | h, rfl⟩ <;> subst h <;> rw [discoverItem, discoverItems_eq] <;> simp only [List.map_map] <;>
      rw [if_neg (by simp)] <;> rfl

theorem entries_iff (v : PyObj) (cs : List (Str × Except PyErr Ty)) :
    (discoverItem strTy topo v).entries = some cs ↔ ∃ l, EntriesOf v l ∧ cs = l.map fun e => (e.1, discover strTy topo e.2) := by
  constructor
  · intro h
    cases v with
    | dict l =>
      rw [(dict_item (v := .dict l) rfl).2] at h
      injection h with h
      exact ⟨l, .inl rfl, h.symm⟩
    | od l =>
      rw [(dict_item (v := .od l) rfl).2] at h
      injection h with h
      exact ⟨l, .inr rfl, h.symm⟩
    | _ => simp [discoverItem] at h
  · rintro ⟨l, h | h, rfl⟩ <;> subst h
    · exact (dict_item (v := .dict l) rfl).2
    · exact (dict_item (v := .od l) rfl).2

theorem all_elems (items : List PyObj) (cs : List (List (Except PyErr Ty))) :
    (items.map (discoverItem strTy topo)).mapM Item.elems = some cs ↔
      ∃ rows, Each ListOf items rows ∧ cs = rows.map (List.map (discover strTy topo)) := by
  induction items generalizing cs with
  | nil =>
    constructor
    · intro h; cases h; exact ⟨[], .nil, rfl⟩
    · rintro ⟨rows, h, rfl⟩; cases h; rfl
  | cons v items ih =>
    rw [List.map_cons, List.mapM_cons]
    constructor
    · intro h
      cases h1 : (discoverItem strTy topo v).elems with
      | none => rw [h1] at h; cases h
      | some c =>
        cases h2 : (items.map (discoverItem strTy topo)).mapM Item.elems with
        | none => rw [h1, h2] at h; cases h
        | some cs' =>
          rw [h1, h2] at h
          cases h
          obtain ⟨l, hl, rfl⟩ := (elems_iff v c).1 h1
          obtain ⟨rows, hr, rfl⟩ := (ih cs').1 h2
          exact ⟨l :: rows, .cons hl hr, rfl⟩
    · rintro ⟨rows, h, rfl⟩
      cases h with
      | @cons _ l _ rows h1 h2 =>
        rw [(elems_iff v _).2 ⟨l, h1, rfl⟩, (ih _).2 ⟨rows, h2, rfl⟩]
        rfl

theorem all_entries (items : List PyObj) (cs : List (List (Str × Except PyErr Ty))) :
    (items.map (discoverItem strTy topo)).mapM Item.entries = some cs ↔
      ∃ rows, Each EntriesOf items rows ∧ cs = rows.map (List.map fun e => (e.1, discover strTy topo e.2)) := by
  induction items generalizing cs with
  | nil =>
    constructor
    · intro h; cases h; exact ⟨[], .nil, rfl⟩
    · rintro ⟨rows, h, rfl⟩; cases h; rfl
  | cons v items ih =>
    rw [List.map_cons, List.mapM_cons]
    constructor
    · intro h
      cases h1 : (discoverItem strTy topo v).entries with
      | none => rw [h1] at h; cases h
      | some c =>
        cases h2 : (items.map (discoverItem strTy topo)).mapM Item.entries with
        | none => rw [h1, h2] at h; cases h
        | some cs' =>
          rw [h1, h2] at h
          cases h
          obtain ⟨l, hl, rfl⟩ := (entries_iff v c).1 h1
          obtain ⟨rows, hr, rfl⟩ := (ih cs').1 h2
          exact ⟨l :: rows, .cons hl hr, rfl⟩
    · rintro ⟨rows, h, rfl⟩
      cases h with
      | @cons _ l _ rows h1 h2 =>
        rw [(entries_iff v _).2 ⟨l, h1, rfl⟩, (ih _).2 ⟨rows, h2, rfl⟩]
        rfl

/-- the columns of a table -/
theorem columns_table {f : PyObj → Except PyErr Ty} {rows : List (List PyObj)} {k : Nat} (hk : ∀ r ∈ rows, r.length = k) :
    columnsOf k (rows.map (List.map f)) = (columnsIn rows k).map (List.map f) := by
  unfold columnsOf columnsIn
  rw [List.map_map]
  refine List.map_inj_left.2 fun j hj => ?_
  have hj := List.mem_range.1 hj
  simp only [Function.comp]
  induction rows with
  | nil => rfl
  | cons r rows ih =>
    have hlt : j < r.length := by rw [hk r (by simp)]; exact hj
    rw [List.map_cons, List.map_cons, ih fun r hr => hk r (by simp [hr])]
    simp [hlt]

/-- the values under the keys -/
theorem columns_dicts {rows : List (List (Str × PyObj))} {keys : List Str} (h : KeysOf rows keys) :
    allKeys (rows.map (List.map fun e => (e.1, discover strTy topo e.2))) = keys ∧
    (keys.map fun k => (rows.map (List.map fun e => (e.1, discover strTy topo e.2))).map fun d => (d.lookup k).getD (.ok .null)) =
      (keys.map (underKey rows)).map (List.map (discover strTy topo)) := by
  constructor
  · refine sorted_ext (sortStr_sorted _ (nodup_toSet _)) h.1 fun k => ?_
    rw [allKeys, sortStr_mem, mem_toSet, List.mem_flatMap, h.2]
    constructor
    · rintro ⟨d, hd, hk⟩
      obtain ⟨l, hl, rfl⟩ := List.mem_map.1 hd
      rw [List.map_map] at hk
      exact ⟨l, hl, hk⟩
    · rintro ⟨es, hes, hk⟩
      exact ⟨_, List.mem_map.2 ⟨es, hes, rfl⟩, by rw [List.map_map]; exact hk⟩
  · rw [List.map_map]
    refine List.map_inj_left.2 fun k _ => ?_
    unfold underKey
    simp only [Function.comp]
    rw [List.map_map, List.map_map]
    refine List.map_inj_left.2 fun es _ => ?_
    simp only [Function.comp]
    rw [lookup_map_snd (fun t => discover strTy topo t) es k]
    cases es.lookup k <;> rfl

theorem keysOf_total (rows : List (List (Str × PyObj))) : ∃ keys, KeysOf rows keys :=
  ⟨sortStr (toSet (rows.flatMap fun d => d.map (·.1))), sortStr_sorted _ (nodup_toSet _), fun k => by
    rw [sortStr_mem, mem_toSet, List.mem_flatMap]⟩

/-- a table is read by columns -/
theorem table_branch {items : List PyObj} (hne : items ≠ []) {rows : List (List PyObj)} {k : Nat} (h : IsTable items rows k) :
    discoverRows topo (items.map (discoverItem strTy topo)) = some (do
      let types ← ((columnsIn rows k).map (List.map (discover strTy topo))).mapM (columnType topo)
      let u ← uniteTuple types
      mul (.int items.length) (.ty u)) := by
  unfold discoverRows
  rw [(all_elems items _).2 ⟨rows, h.1, rfl⟩]
  have hlen : items.length = rows.length := h.1.length_eq
  cases rows with
  | nil => simp at hlen; exact absurd hlen hne
  | cons r rows =>
    simp only [List.map_cons]
    have hr : (r.map (discover strTy topo)).length = k := by rw [List.length_map, h.2 r (by simp)]
    rw [if_pos, hr, ← List.map_cons, columns_table h.2, List.length_map]
    rw [List.all_eq_true]
    intro x hx
    obtain ⟨y, hy, rfl⟩ := List.mem_map.1 hx
    rw [hr, List.length_map, h.2 y (by simp [hy])]
    simp

theorem no_table {items : List PyObj} (h : ∀ rows k, ¬ IsTable items rows k) :
    discoverRows topo (items.map (discoverItem strTy topo)) = none := by
  unfold discoverRows
  cases hm : (items.map (discoverItem strTy topo)).mapM Item.elems with
  | none => rfl
  | some cs =>
    obtain ⟨rows, h1, rfl⟩ := (all_elems items cs).1 hm
    cases rows with
    | nil => rfl
    | cons r rows =>
      simp only [List.map_cons]
      rw [if_neg]
      intro ha
      rw [List.all_eq_true] at ha
      refine h (r :: rows) r.length ⟨h1, fun x hx => ?_⟩
      rcases List.mem_cons.1 hx with rfl | hx
      · rfl
      · have := ha (x.map _) (List.mem_map_of_mem hx)
        simpa using this

theorem dicts_no_table {items : List PyObj} (hne : items ≠ []) {rows : List (List (Str × PyObj))} (h : Each EntriesOf items rows)
    (rows' : List (List PyObj)) (k : Nat) : ¬ IsTable items rows' k := by
  rintro ⟨h', -⟩
  cases h with
  | nil => exact hne rfl
  | cons h1 _ =>
    cases h' with
    | cons h2 _ =>
      rcases h1 with rfl | rfl <;> rcases h2 with h2 | h2 <;> cases h2

/-- dicts are read by keys -/
theorem dicts_branch {items : List PyObj} {rows : List (List (Str × PyObj))} {keys : List Str}
    (h : Each EntriesOf items rows) (hk : KeysOf rows keys) :
    discoverDicts topo (items.map (discoverItem strTy topo)) = some (do
      let types ← ((keys.map (underKey rows)).map (List.map (discover strTy topo))).mapM (columnType topo)
      let r ← mkRecord (keys.zip types)
      mul (.int items.length) (.ty r)) := by
  unfold discoverDicts
  rw [(all_entries items _).2 ⟨rows, h, rfl⟩]
  obtain ⟨e1, e2⟩ := columns_dicts (strTy := strTy) (topo := topo) hk
  simp only [e1, e2, List.length_map]

theorem no_dicts {items : List PyObj} (h : ∀ rows, ¬ Each EntriesOf items rows) :
    discoverDicts topo (items.map (discoverItem strTy topo)) = none := by
  unfold discoverDicts
  cases hm : (items.map (discoverItem strTy topo)).mapM Item.entries with
  | none => rfl
  | some cs =>
    obtain ⟨rows, h1, -⟩ := (all_entries items cs).1 hm
    exact absurd h1 (h rows)

end

/-! ### A sequence -/

section
variable {strTy : Str → Except PyErr Ty} {topo : List Node} (hD : ∀ v t, discover strTy topo v = .ok t → Good t)
include hD

theorem oneByOne_eq {items : List PyObj} {r : Except PyErr Ty} (h : OneByOne (discover strTy topo) items r) :
    discoverRest (items.map (discoverItem strTy topo)) = r := by
  unfold discoverRest
  have hm : (items.map (discoverItem strTy topo)).mapM Item.self = items.mapM (discover strTy topo) := by
    rw [List.mapM_map]; rfl
  rw [hm]
  cases h with
  | @combined ts t h1 h2 =>
    rw [inTurn_eq h1]
    have := (combined_tuple (w := id) (.inl rfl) (types_good hD h1) h2).1
    rw [List.map_id] at this
    exact this
  | @fails e h1 =>
    rw [inTurn_eq h1]
    rfl

theorem oneByOne_total (items : List PyObj) : ∃ r, OneByOne (discover strTy topo) items r := by
  obtain ⟨r, hr⟩ := inTurn_total (R := fun v r => discover strTy topo v = r) (l := items) fun v _ => ⟨_, rfl⟩
  cases r with
  | error e => exact ⟨_, .fails hr⟩
  | ok ts =>
    obtain ⟨t, ht⟩ := combined_total ts
    exact ⟨_, .combined hr ht⟩

theorem rows_eq {items : List PyObj} (htopo : Toposort discEdges (.ok topo)) (hne : items ≠ []) {rows : List (List PyObj)} {k : Nat}
    (h : IsTable items rows k) {r : Except PyErr (List Ty)} (hr : InTurn (CellsColumn (discover strTy topo)) (columnsIn rows k) r) :
    (∀ types t, r = .ok types → Combined types t →
      discoverRows topo (items.map (discoverItem strTy topo)) = some (.ok (.dshape (.fixed items.length :: paramsOf t)))) ∧
    (∀ e, r = .error e → discoverRows topo (items.map (discoverItem strTy topo)) = some (.error e)) := by
  rw [table_branch hne h]
  obtain ⟨e1, e2⟩ := columns_mapM hD htopo hr
  rw [e1]
  constructor
  · rintro types t rfl hc
    obtain ⟨e3, e4⟩ := combined_tuple (w := Ty.wrap) (.inr rfl) (e2 types rfl) hc
    simp only [Except.map, bind, Except.bind, e3]
    rw [disc_mul e4, paramsOf_eq]
  · rintro e rfl
    rfl

theorem dicts_eq {items : List PyObj} (htopo : Toposort discEdges (.ok topo)) {rows : List (List (Str × PyObj))}
    {keys : List Str} (h : Each EntriesOf items rows) (hk : KeysOf rows keys) {r : Except PyErr (List Ty)}
    (hr : InTurn (CellsColumn (discover strTy topo)) (keys.map (underKey rows)) r) :
    (∀ types, r = .ok types → discoverDicts topo (items.map (discoverItem strTy topo)) =
      some (.ok (.dshape [.fixed items.length, .record (keys.zip types)]))) ∧
    (∀ e, r = .error e → discoverDicts topo (items.map (discoverItem strTy topo)) = some (.error e)) := by
  rw [dicts_branch h hk]
  obtain ⟨e1, e2⟩ := columns_mapM hD htopo hr
  rw [e1]
  constructor
  · rintro types rfl
    have hn : keys.Nodup := hk.1.imp fun {a b} h (e : a = b) => List.lt_irrefl b (e ▸ h)
    have hlen : keys.length = types.length := by
      have := (inTurn_mem hr _ rfl).1
      rwa [List.length_map] at this
    have hz : keys.zip (types.map Ty.wrap) = (keys.zip types).map fun f => (f.1, f.2.wrap) := by
      rw [List.zip_map_right]
      rfl
    have hk1 : (keys.zip types).map (·.1) = keys := List.map_fst_zip (by omega)
    have hgood : ∀ f ∈ keys.zip types, Good f.2 := fun f hf => e2 types rfl f.2 (List.of_mem_zip hf).2
    have e3 : mkRecord (keys.zip (types.map Ty.wrap)) = .ok (.record (keys.zip types)) := by
      rw [hz]
      unfold mkRecord
      rw [if_pos (by rw [List.map_map]; simpa [Function.comp_def, hk1] using hn), List.map_map]
      congr 2
      conv => rhs; rw [← List.map_id (keys.zip types)]
      refine List.map_inj_left.2 fun f hf => ?_
      simp only [Function.comp, launder_wrapped (hgood f hf).single]
      rfl
    have e4 : Disc (fun _ => true) (.record (keys.zip types)) := disc_mkRecord e3 (by
      intro f hf
      rw [hz] at hf
      obtain ⟨g, hg, rfl⟩ := List.mem_map.1 hf
      obtain ⟨dims, m, e, h1, h2, h3⟩ := disc_asParams (hgood g hg).disc
      simp only
      rw [wrap_paramsOf, paramsOf_eq, e]
      exact ⟨disc_array h1 h2 h3, trivial⟩)
    simp only [Except.map, bind, Except.bind, e3]
    rw [disc_mul e4]
    rfl
  · rintro e rfl
    rfl

theorem sequence_eq (htopo : Toposort discEdges (.ok topo)) {items : List PyObj} {r : Except PyErr Ty}
    (h : SequenceOf (discover strTy topo) items r) : discoverSeq topo (items.map (discoverItem strTy topo)) = r := by
  unfold discoverSeq
  cases h with
  | empty => rfl
  | rows hne h1 h2 h3 =>
    rw [if_neg (by simpa using hne), (rows_eq hD htopo hne h1 h2).1 _ _ rfl h3]
    rfl
  | rowsFail hne h1 h2 h3 =>
    rw [if_neg (by simpa using hne), (rows_eq hD htopo hne h1 h2).2 _ rfl]
    rename_i e
    cases e <;> first | rfl | exact absurd rfl h3
  | dicts hne h1 h2 h3 =>
    rw [if_neg (by simpa using hne), no_table (dicts_no_table hne h1), (dicts_eq hD htopo h1 h2 h3).1 _ rfl]
    rfl
  | dictsFail hne h1 h2 h3 h4 =>
    rw [if_neg (by simpa using hne), no_table (dicts_no_table hne h1), (dicts_eq hD htopo h1 h2 h3).2 _ rfl]
    rename_i e
    cases e <;> first | rfl | exact absurd rfl h4
  | notRows hne h1 h2 h3 =>
    rw [if_neg (by simpa using hne), (rows_eq hD htopo hne h1 h2).2 _ rfl, no_dicts fun rs hrs => dicts_no_table hne hrs _ _ h1,
      oneByOne_eq hD h3]
    rfl
  | notDicts hne h1 h2 h3 h4 =>
    rw [if_neg (by simpa using hne), no_table (dicts_no_table hne h1), (dicts_eq hD htopo h1 h2 h3).2 _ rfl, oneByOne_eq hD h4]
    rfl
  | other hne h1 h2 h3 =>
    rw [if_neg (by simpa using hne), no_table h1, no_dicts h2, oneByOne_eq hD h3]
    rfl

theorem sequence_total (items : List PyObj) : ∃ r, SequenceOf (discover strTy topo) items r := by
  by_cases hne : items = []
  · subst hne
    exact ⟨_, .empty⟩
  obtain ⟨r, hone⟩ := oneByOne_total hD items
  by_cases ht : ∃ rows k, IsTable items rows k
  · obtain ⟨rows, k, ht⟩ := ht
    have hlen : items.length = rows.length := ht.1.length_eq
    have hrne : rows ≠ [] := by
      rintro rfl
      exact hne (List.length_eq_zero_iff.1 hlen)
    obtain ⟨rs, hrs⟩ := inTurn_total (R := CellsColumn (discover strTy topo)) (l := columnsIn rows k) fun c hc => by
      refine cells_total hD ?_
      obtain ⟨j, hj, rfl⟩ := List.mem_map.1 hc
      have hj := List.mem_range.1 hj
      obtain ⟨x, xs, rfl⟩ := List.exists_cons_of_ne_nil hrne
      have : j < x.length := by rw [ht.2 x (by simp)]; exact hj
      simp [this]
    cases rs with
    | ok types =>
      obtain ⟨t, hc⟩ := combined_total types
      exact ⟨_, .rows hne ht hrs hc⟩
    | error e =>
      by_cases he : e = .attributeError
      · subst he; exact ⟨_, .notRows hne ht hrs hone⟩
      · exact ⟨_, .rowsFail hne ht hrs he⟩
  · by_cases hd : ∃ rows, Each EntriesOf items rows
    · obtain ⟨rows, hd⟩ := hd
      have hlen : items.length = rows.length := hd.length_eq
      have hrne : rows ≠ [] := by
        rintro rfl
        exact hne (List.length_eq_zero_iff.1 hlen)
      obtain ⟨keys, hk⟩ := keysOf_total rows
      obtain ⟨rs, hrs⟩ := inTurn_total (R := CellsColumn (discover strTy topo)) (l := keys.map (underKey rows)) fun c hc => by
        refine cells_total hD ?_
        obtain ⟨k, -, rfl⟩ := List.mem_map.1 hc
        simpa [underKey] using hrne
      cases rs with
      | ok types => exact ⟨_, .dicts hne hd hk hrs⟩
      | error e =>
        by_cases he : e = .attributeError
        · subst he; exact ⟨_, .notDicts hne hd hk hrs hone⟩
        · exact ⟨_, .dictsFail hne hd hk hrs he⟩
    · exact ⟨_, .other hne (fun rows k h => ht ⟨rows, k, h⟩) (fun rows h => hd ⟨rows, h⟩) hone⟩

end

end DS
