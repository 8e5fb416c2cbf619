import Verif.Proofs.Util
import Verif.Spec.WellFormed
import Verif.Props.Equality

/-
C14 records, C15 record literals, C16 subarray, C17 multiplication, C20 cat_dshapes, C34 has_*, C40 collect.
-/
namespace DS

/-! ### C14 -/

theorem launderFields_ok {nest : Str → Except PyErr Ty} {fields : List (Str × PVal)} {fs : List (Str × Ty)} :
    launderFields nest fields = .ok fs ↔
      fs.map (·.1) = fields.map (·.1) ∧ fields.map (fun f => f.2.launder nest) = fs.map (fun f => .ok f.2) := by
  induction fields generalizing fs with
  | nil => cases fs <;> simp [launderFields]
  | cons f r ih =>
    obtain ⟨n, v⟩ := f
    simp only [launderFields, bind_ok]
    constructor
    · rintro ⟨t, ht, rest, hr, h⟩
      cases h
      have := ih.1 hr
      simp [ht, this]
    · intro h
      cases fs with
      | nil => simp at h
      | cons g gs =>
        obtain ⟨m, t⟩ := g
        simp at h
        obtain ⟨⟨rfl, h1⟩, h2, h3⟩ := h
        exact ⟨t, h2, gs, ih.2 ⟨h1, by simpa using h3⟩, rfl⟩

/-- `Record(fields)` succeeds exactly if every field type is acceptable and the names are pairwise distinct; the
result then holds exactly the given names, in order, each with its type. -/
theorem C14.construct (nest : Str → Except PyErr Ty) (fields : List (Str × PVal)) (r : Ty) :
    record nest fields = .ok r ↔
      ∃ fs, r = .record fs ∧ recordNames fs = fields.map (·.1) ∧ (fields.map (·.1)).Nodup ∧
        fields.map (fun f => f.2.launder nest) = (recordTypes fs).map .ok := by
  simp only [record, bind_ok]
  constructor
  · rintro ⟨fs, h, hr⟩
    split at hr <;> cases hr
    rename_i hn
    obtain ⟨h1, h2⟩ := launderFields_ok.1 h
    exact ⟨fs, rfl, h1, by rw [← h1]; exact hn, by simpa [recordTypes, Function.comp_def] using h2⟩
  · rintro ⟨fs, rfl, h1, hn, h2⟩
    exact ⟨fs, launderFields_ok.2 ⟨h1, by simpa [recordTypes, Function.comp_def] using h2⟩, by simp [← h1, recordNames] at hn ⊢; exact hn⟩

/-- Duplicate names raise `ValueError` (when all the types are acceptable). -/
theorem C14.duplicate (nest : Str → Except PyErr Ty) (fields : List (Str × PVal))
    (ht : ∀ f ∈ fields, ∃ t, f.2.launder nest = .ok t) (hd : ¬ (fields.map (·.1)).Nodup) :
    record nest fields = .error .valueError := by
  have : ∃ fs, launderFields nest fields = .ok fs ∧ fs.map (·.1) = fields.map (·.1) := by
    clear hd
    induction fields with
    | nil => exact ⟨[], rfl, rfl⟩
    | cons f r ih =>
      obtain ⟨n, v⟩ := f
      obtain ⟨t, h⟩ := ht _ (List.mem_cons_self ..)
      obtain ⟨fs, h1, h2⟩ := ih fun f hf => ht f (List.mem_cons_of_mem _ hf)
      simp only at h
      exact ⟨(n, t) :: fs, by simp [launderFields, h, h1, bind, Except.bind], by simp [h2]⟩
  obtain ⟨fs, h1, h2⟩ := this
  simp [record, h1, h2, hd, bind, Except.bind]

theorem lookup_nodup {α β : Type} [BEq α] [LawfulBEq α] {l : List (α × β)} (h : (l.map (·.1)).Nodup) {n : α} {t : β} :
    l.lookup n = some t ↔ (n, t) ∈ l := by
  induction l with
  | nil => simp
  | cons a l ih =>
    obtain ⟨m, u⟩ := a
    simp only [List.map_cons, List.nodup_cons] at h
    rw [List.lookup_cons]
    by_cases hm : n = m
    · subst hm
      simp only [beq_self_eq_true, List.mem_cons, Prod.mk.injEq, true_and]
      constructor
      · intro e; cases e; exact .inl rfl
      · rintro (rfl | h')
        · rfl
        · exact absurd (List.mem_map.2 ⟨_, h', rfl⟩) h.1
    · rw [beq_false_of_ne hm]; simp [hm, ih h.2]

/-- Looking a field up by name returns its type, and a `KeyError` for any other name. -/
theorem C14.lookup (fs : List (Str × Ty)) (hn : (recordNames fs).Nodup) (n : Str) :
    (∀ t, recordGet fs n = .ok t ↔ (n, t) ∈ fs) ∧ (n ∉ recordNames fs → recordGet fs n = .error .keyError) := by
  have hr : (fs.reverse.map (·.1)).Nodup := by
    rw [List.map_reverse]; exact (List.reverse_perm _).nodup_iff.2 hn
  constructor
  · intro t
    unfold recordGet
    constructor
    · intro h
      split at h <;> cases h
      rename_i h
      simpa using (lookup_nodup hr).1 h
    · intro h
      rw [(lookup_nodup hr).2 (by simpa using h)]
  · intro h
    unfold recordGet
    cases hl : fs.reverse.lookup n with
    | none => rfl
    | some t =>
      exact absurd (List.mem_map.2 ⟨(n, t), by simpa using (lookup_nodup hr).1 hl, rfl⟩) h

/-- Equal records have the same names in the same order and pairwise equal types. -/
theorem C14.equal_iff (fs gs : List (Str × Ty)) : pyEq (.record fs) (.record gs) = true ↔
    recordNames fs = recordNames gs ∧ ∀ p ∈ (recordTypes fs).zip (recordTypes gs), pyEq p.1 p.2 = true := by
  have this : ∀ fs gs, pyEq (.record fs) (.record gs) = eqF fs gs := by
    intro fs gs; simp [pyEq, eqM, Ty.noShape, Ty.target, Ty.shape, Ty.measure]
  rw [this]
  clear this
  induction fs generalizing gs with
  | nil => cases gs <;> simp [eqF, recordNames, recordTypes]
  | cons f fs ih =>
    obtain ⟨n, t⟩ := f
    cases gs with
    | nil => simp [eqF, recordNames]
    | cons g gs =>
      obtain ⟨m, u⟩ := g
      simp only [eqF, Bool.and_eq_true, beq_iff_eq, ih gs, recordNames, recordTypes, List.map_cons,
        List.cons.injEq, List.zip_cons_cons, List.mem_cons, forall_eq_or_imp, pyEq]
      constructor
      · rintro ⟨⟨a, b⟩, c, d⟩; exact ⟨⟨a, c⟩, b, d⟩
      · rintro ⟨⟨a, c⟩, b, d⟩; exact ⟨⟨a, b⟩, c, d⟩

/-- A record with its fields in a different order is a different record. -/
theorem C14.order_matters (fs gs : List (Str × Ty)) (hn : (recordNames fs).Nodup) (hp : fs.Perm gs) (hne : fs ≠ gs) :
    pyEq (.record fs) (.record gs) = false := by
  cases h : pyEq (.record fs) (.record gs) with
  | false => rfl
  | true =>
    exfalso
    apply hne
    have hnames := ((C14.equal_iff fs gs).1 h).1
    clear h hne
    -- same names in the same order, distinct, and the same set of pairs
    have key : ∀ (fs gs : List (Str × Ty)), (recordNames fs).Nodup → recordNames fs = recordNames gs →
        (∀ p ∈ gs, p ∈ fs) → fs = gs := by
      intro fs
      induction fs with
      | nil => intro gs _ h _; cases gs with
        | nil => rfl
        | cons => simp [recordNames] at h
      | cons f fs ih =>
        intro gs hn h hm
        cases gs with
        | nil => simp [recordNames] at h
        | cons g gs =>
          simp only [recordNames, List.map_cons, List.cons.injEq, List.nodup_cons] at h hn
          have hg : g = f := by
            rcases List.mem_cons.1 (hm g (List.mem_cons_self ..)) with e | e
            · exact e
            · exact absurd (List.mem_map.2 ⟨g, e, h.1.symm⟩) hn.1
          subst hg
          congr 1
          apply ih gs hn.2 h.2
          intro p hp
          rcases List.mem_cons.1 (hm p (List.mem_cons_of_mem _ hp)) with e | e
          · subst e
            exact absurd (h.2 ▸ List.mem_map.2 ⟨p, hp, rfl⟩) hn.1
          · exact e
    exact key fs gs hn hnames fun p h => hp.mem_iff.2 h

example : record (fun _ => .error .unmodelled) [(py"a", .ty (.dshape [tInt32])), (py"b", .int 3), (py"c", .ty tBool)] =
    .ok (.record [(py"a", tInt32), (py"b", .fixed 3), (py"c", tBool)]) ∧
    (recordNames [(py"a", tInt32), (py"b", .fixed 3), (py"c", tBool)]).Nodup ∧
    recordGet [(py"a", tInt32), (py"b", .fixed 3), (py"c", tBool)] (py"b") = .ok (.fixed 3) := ⟨rfl, by decide, rfl⟩

/-! ### C15 -/

/-- an item of a record literal that names a field: `name:type` with a string name, a type, and no step -/
def RItem.good : RItem → Option (Str × PVal)
  | .slice (.str n) (.str s) .none => some (n, .str s)
  | .slice (.str n) (.int i) .none => some (n, .int i)
  | .slice (.str n) (.ty t) .none => some (n, .ty t)
  | .slice (.str n) .other .none => some (n, .other)
  | _ => none

theorem unpack_good (i : RItem) : unpackSlice i = match i.good with | some p => .ok p | none => .error .typeError := by
  cases i with
  | other => rfl
  | slice a b c => cases a <;> cases b <;> cases c <;> rfl

theorem unpack_all (l : List RItem) : l.mapM unpackSlice =
    match l.mapM RItem.good with | some ps => .ok ps | none => .error .typeError := by
  induction l with
  | nil => rfl
  | cons a l ih =>
    rw [List.mapM_cons, List.mapM_cons, ih, unpack_good]
    cases a.good <;> cases l.mapM RItem.good <;> rfl

/-- `R[n1:t1, …, nk:tk]` is `Record([(n1,t1), …, (nk,tk)])`. -/
theorem C15.literal (nest : Str → Except PyErr Ty) (fields : List (Str × PVal)) (h : ∀ f ∈ fields, f.2 ≠ .none) :
    recordLiteral nest (fields.map fun f => .slice (.str f.1) f.2 .none) = record nest fields := by
  have : (fields.map fun f => RItem.slice (.str f.1) f.2 .none).mapM RItem.good = some fields := by
    induction fields with
    | nil => rfl
    | cons f r ih =>
      obtain ⟨n, v⟩ := f
      have hv := h _ (List.mem_cons_self ..)
      rw [List.map_cons, List.mapM_cons, ih fun f hf => h f (List.mem_cons_of_mem _ hf)]
      cases v <;> simp_all [RItem.good]
  rw [recordLiteral, unpack_all, this]; rfl

/-- It raises `TypeError` if some item is not of the form `name:type`. -/
theorem C15.bad_item (nest : Str → Except PyErr Ty) (items : List RItem) (i : RItem) (hi : i ∈ items)
    (hb : i.good = none) : recordLiteral nest items = .error .typeError := by
  have : items.mapM RItem.good = none := by
    induction items with
    | nil => cases hi
    | cons a l ih =>
      rw [List.mapM_cons]
      rcases List.mem_cons.1 hi with rfl | h
      · simp [hb]
      · rw [ih h]; cases a.good <;> rfl
  rw [recordLiteral, unpack_all, this]; rfl

/-- The four kinds of bad items: not a slice; no name or a name that is not a string; no type; a step. -/
theorem C15.bad_iff : RItem.other.good = none ∧ ∀ a b c, (RItem.slice a b c).good = none ↔
    ((∀ n, a ≠ .str n) ∨ b = .none ∨ c ≠ .none) := by
  refine ⟨rfl, fun a b c => ?_⟩
  cases a <;> cases b <;> cases c <;> simp [RItem.good]

example : recordLiteral (fun _ => .error .unmodelled) [.slice (.str (py"a")) (.ty tInt32) .none, .slice (.str (py"b")) (.int 3) .none] =
    .ok (.record [(py"a", tInt32), (py"b", .fixed 3)]) ∧
    (RItem.slice (.str (py"a")) (.ty tInt32) (.int 2)).good = none := ⟨rfl, rfl⟩

/-! ### C16

`Constructible ps` says that `ps` are the parameters of some `DataShape` object. -/

/-- `subarray(k)` drops exactly `k` leading dimensions and keeps everything after them. -/
theorem C16.drops (a b : List Ty) (hc : Constructible (a ++ b)) (hb : b ≠ []) :
    subarray (.dshape (a ++ b)) a.length = .ok (.dshape b) := by
  have hcb := mkDS_self.2 (hc.suffix hb)
  have hbl : 0 < b.length := List.length_pos_iff.2 hb
  simp only [subarray]
  rw [if_neg (by simp; omega)]
  split
  · rename_i h
    have h1 : b.length = 1 := by simp at h; omega
    obtain ⟨m, rfl⟩ := List.length_eq_one_iff.1 h1
    simpa using hcb
  · have : pyDrop (a ++ b) (a.length : Int) = b := by simp [pyDrop]; intro h; omega
    rw [this, hcb]

/-- The measure is kept. -/
theorem C16.measure (ps : List Ty) (hc : Constructible ps) (k : Nat) (hk : k < ps.length) :
    ∃ qs, subarray (.dshape ps) k = .ok (.dshape qs) ∧ (Ty.dshape qs).measure = (Ty.dshape ps).measure ∧
      (Ty.dshape qs).shape = (Ty.dshape ps).shape.drop k ∧ Constructible qs := by
  have hne : ps.drop k ≠ [] := by simp; omega
  have := C16.drops (ps.take k) (ps.drop k) (by simpa using hc) hne
  rw [List.take_append_drop, List.length_take, Nat.min_eq_left (Nat.le_of_lt hk)] at this
  refine ⟨_, this, ?_, ?_, ?_⟩
  · simp only [Ty.measure]
    rw [List.getLast?_drop, if_neg (by omega)]
  · simp [Ty.shape, List.dropLast_eq_take, List.drop_take]
    congr 1; omega
  · exact Constructible.suffix (a := ps.take k) (by simpa using hc) hne

/-- Two `subarray` calls compose to one. -/
theorem C16.composes (ps : List Ty) (hc : Constructible ps) (i j : Nat) (h : i + j < ps.length) :
    ∃ t, subarray (.dshape ps) i = .ok t ∧ subarray t j = subarray (.dshape ps) ((i + j : Nat) : Int) := by
  have h1 : ps.drop i ≠ [] := by simp; omega
  have h2 : ps.drop (i + j) ≠ [] := by simp; omega
  have e1 := C16.drops (ps.take i) (ps.drop i) (by simpa using hc) h1
  have e2 := C16.drops (ps.take (i + j)) (ps.drop (i + j)) (by simpa using hc) h2
  rw [List.take_append_drop, List.length_take, Nat.min_eq_left (by omega)] at e1 e2
  refine ⟨_, e1, ?_⟩
  have hc1 : Constructible (ps.drop i) := Constructible.suffix (a := ps.take i) (by simpa using hc) h1
  have e3 := C16.drops ((ps.drop i).take j) ((ps.drop i).drop j) (by rw [List.take_append_drop]; exact hc1) (by simpa using by omega)
  rw [List.take_append_drop, List.length_take, List.length_drop, Nat.min_eq_left (by omega), List.drop_drop] at e3
  rw [e2, e3]

/-- It raises `IndexError` exactly if there are not enough dimensions. -/
theorem C16.index_error (ps : List Ty) (hc : Constructible ps) (k : Nat) :
    subarray (.dshape ps) k = .error .indexError ↔ k ≥ ps.length := by
  constructor
  · intro h
    by_cases hk : k < ps.length
    · obtain ⟨qs, hq, _⟩ := C16.measure ps hc k hk
      rw [hq] at h; cases h
    · omega
  · intro h; simp only [subarray]; rw [if_pos (by omega)]

/-- A negative argument counts from the end, as in slicing: `subarray(-k)` keeps the last `k` parameters. -/
theorem C16.negative (ps : List Ty) (hc : Constructible ps) (k : Nat) (h1 : 0 < k) (h2 : k ≤ ps.length) :
    subarray (.dshape ps) (-(k : Int)) = subarray (.dshape ps) ((ps.length - k : Nat) : Int) := by
  have e2 := C16.drops (ps.take (ps.length - k)) (ps.drop (ps.length - k)) (by simpa using hc) (by simp; omega)
  rw [List.take_append_drop, List.length_take, Nat.min_eq_left (by omega)] at e2
  rw [e2]
  simp only [subarray]
  rw [if_neg (by omega)]
  have hcb := mkDS_self.2 (Constructible.suffix (a := ps.take (ps.length - k)) (b := ps.drop (ps.length - k)) (by simpa using hc) (by simp; omega))
  split
  · rename_i h
    have hk1 : k = 1 := by omega
    subst hk1
    obtain ⟨a, m, rfl, _⟩ := hc
    simpa using hcb
  · have : pyDrop ps (-(k : Int)) = ps.drop (ps.length - k) := by
      simp only [pyDrop]
      rw [if_pos (by omega)]
      congr 1; omega
    rw [this, hcb]

/-- On a measure, `subarray(0)` is the measure itself, and anything larger raises `IndexError`. -/
theorem C16.scalar (t : Ty) (h : t.isDShape = false) (k : Nat) :
    subarray t k = if k = 0 then .ok t else .error .indexError := by
  have : subarray t k = if (k : Int) ≥ 1 then .error .indexError else .ok t := by
    cases t <;> first | rfl | simp [Ty.isDShape] at h
  rw [this]
  by_cases h0 : k = 0
  · simp [h0]
  · rw [if_pos (by omega), if_neg h0]

example : Constructible [.fixed 3, .var, tInt32] ∧
    subarray (.dshape [.fixed 3, .var, tInt32]) 1 = .ok (.dshape [.var, tInt32]) :=
  ⟨mkDS_self.1 rfl, rfl⟩

/-! ### C17 -/

/-- `n * ds` adds the dimension `n` in front, and fails only for negative `n`. -/
theorem C17.int_mul (i : Int) (ps : List Ty) (hc : Constructible ps) :
    mul (.int i) (.ty (.dshape ps)) =
      if i < 0 then .error .valueError else .ok (.dshape (.fixed i.toNat :: ps)) := by
  simp only [mul, rmulDS, Operand.toTy, mkFixed]
  split
  · rfl
  · exact mkDS_self.2 (hc.cons (by simp [Ty.cls]) rfl)

theorem int_mul_cls (i : Int) (t : Ty) (hd : t.isDShape = false) :
    mul (.int i) (.ty t) =
      if i < 0 then .error .valueError else if t.cls = some .dimension then .error .typeError
      else .ok (.dshape [.fixed i.toNat, t]) := by
  have hl : launderTy t = t := by cases t <;> first | rfl | simp [Ty.isDShape] at hd
  have : mul (.int i) (.ty t) = (mkFixed i).bind fun d => mkDS [d, t] := by
    cases t <;> first | rfl | simp [Ty.isDShape] at hd
  rw [this, mkFixed]
  split
  · rfl
  · have hf : launderTy (.fixed i.toNat) = .fixed i.toNat := rfl
    have h1 : (Ty.fixed i.toNat).cls = some .dimension := rfl
    simp [Except.bind, mkDS, hl, hf, checkDS, h1]

/-- `n * t` for a `t` that is not a `DataShape`: `n` must not be negative, and `t` not a dimension. -/
theorem C17.int_mul_measure (i : Int) (t : Ty) (hd : t.isDShape = false) :
    (i < 0 → mul (.int i) (.ty t) = .error .valueError) ∧
    (0 ≤ i → MayEnd t → mul (.int i) (.ty t) = .ok (.dshape [.fixed i.toNat, t])) ∧
    (0 ≤ i → ¬ MayEnd t → mul (.int i) (.ty t) = .error .typeError) := by
  rw [int_mul_cls i t hd, ← mayEnd_iff]
  refine ⟨fun h => by rw [if_pos h], fun h h' => by rw [if_neg (by omega), if_neg h'], fun h h' => ?_⟩
  rw [if_neg (by omega), if_pos (Classical.not_not.1 h')]

theorem dim_mul_cls (d : Ty) (ps : List Ty) (hc : Constructible ps) (hs : d.isSingleton = false) :
    mul (.ty d) (.ty (.dshape ps)) =
      if d.cls = some .measure then .error .typeError else .ok (.dshape (d :: ps)) := by
  simp only [mul, rmulDS, Operand.toTy, bind, Except.bind]
  split
  · rename_i h
    obtain ⟨dims, m, rfl, h1, h2, h3⟩ := hc.cls
    have hl : (d :: (dims ++ [m])).map launderTy = d :: (dims ++ [m]) := by
      conv => rhs; rw [← List.map_id (d :: (dims ++ [m]))]
      apply List.map_inj_left.2
      intro p hp
      rcases List.mem_cons.1 hp with rfl | hp
      · exact launderTy_of_not_singleton hs
      · exact launderTy_of_not_singleton (h3 p hp)
    have : (d :: (dims ++ [m])).getLast? = some m := by rw [← List.cons_append, List.getLast?_concat]
    have h4 : (d :: (dims ++ [m])).dropLast = d :: dims := by rw [← List.cons_append, List.dropLast_concat]
    simp [mkDS, hl, checkDS, this, h2, h4, h]
  · exact mkDS_self.2 (hc.cons (by assumption) hs)

/-- `dim * ds` adds `dim` in front; it fails, with `TypeError`, only if `dim` may not precede a measure. -/
theorem C17.dim_mul (d : Ty) (ps : List Ty) (hc : Constructible ps) (hs : d.isSingleton = false) :
    (MayPrecede d → mul (.ty d) (.ty (.dshape ps)) = .ok (.dshape (d :: ps))) ∧
    (¬ MayPrecede d → mul (.ty d) (.ty (.dshape ps)) = .error .typeError) := by
  rw [dim_mul_cls d ps hc hs, ← mayPrecede_iff]
  exact ⟨fun h => by rw [if_neg h], fun h => by rw [if_pos (Classical.not_not.1 h)]⟩

/-- multiply dimensions from the right: `d1 * (d2 * … * (dk * m))` -/
def mulAll : List Ty → Ty → Except PyErr Ty
  | [], m => mkDS [m]
  | d :: ds, m => do mul (.ty d) (.ty (← mulAll ds m))

/-- `d1 * (d2 * … * (dk * m))` has shape `(d1, …, dk)` and measure `m`. -/
theorem C17.product (ds : List Ty) (m : Ty) (hd : ∀ d ∈ ds, MayPrecede d ∧ d.isSingleton = false)
    (hm : MayEnd m) (hs : m.isSingleton = false) :
    ∃ t, mulAll ds m = .ok t ∧ t.shape = ds ∧ t.measure = m := by
  have key : mulAll ds m = .ok (.dshape (ds ++ [m])) ∧ Constructible (ds ++ [m]) := by
    induction ds with
    | nil =>
      have : Constructible [m] := ⟨[], m, rfl, by simp, hm, by simpa using hs⟩
      exact ⟨mkDS_self.2 this, this⟩
    | cons d ds ih =>
      obtain ⟨h1, h2⟩ := ih fun e he => hd e (List.mem_cons_of_mem _ he)
      have hdd := hd d (List.mem_cons_self ..)
      have := (C17.dim_mul d (ds ++ [m]) h2 hdd.2).1 hdd.1
      exact ⟨by simpa [mulAll, h1, bind, Except.bind] using this, h2.cons (mayPrecede_iff.2 hdd.1) hdd.2⟩
  exact ⟨_, key.1, by simp [Ty.shape], by simp [Ty.measure]⟩

example : mulAll [.fixed 3, .var, .typevar (py"N")] (.record [(py"a", tInt32)]) =
    .ok (.dshape [.fixed 3, .var, .typevar (py"N"), .record [(py"a", tInt32)]]) := rfl

/-- A measure on the left and a dimension on the right are rejected. -/
theorem C17.rejects : mul (.ty tInt32) (.ty tInt32) = .error .typeError ∧ mul (.int 3) (.ty .var) = .error .typeError ∧
    mul (.int (-1)) (.ty tInt32) = .error .valueError := ⟨rfl, rfl, rfl⟩

/-! ### C20 -/

/-- pairwise `==` of two parameter lists of the same length -/
def PairwiseEq (a b : List Ty) : Prop := a.length = b.length ∧ ∀ p ∈ a.zip b, pyEq p.1 p.2 = true

theorem eqL_pairwise (a b : List Ty) : eqL a b = true ↔ PairwiseEq a b := by
  unfold PairwiseEq
  induction a generalizing b with
  | nil => cases b <;> simp [eqL]
  | cons x a ih => cases b <;> simp [eqL, ih, pyEq]; grind

theorem pyIndex_ok {t : Ty} {n : Nat} : pyIndex t = .ok n ↔ t = .fixed n := by
  cases t <;> simp [pyIndex]

theorem catLoop_ok (inner : List Ty) (acc : Nat) (l : List (List Ty)) (n : Nat) :
    catLoop inner acc l = .ok n ↔
      ∃ ns : List Nat, n = acc + ns.sum ∧ ∃ ts : List (List Ty), l = (ns.zip ts).map (fun p => .fixed p.1 :: p.2) ∧
        ns.length = ts.length ∧ ∀ t ∈ ts, PairwiseEq t inner := by
  induction l generalizing acc with
  | nil =>
    simp only [catLoop]
    constructor
    · intro h; cases h; exact ⟨[], by simp, [], by simp⟩
    · rintro ⟨ns, h, ts, hl, hlen, _⟩
      cases ns with
      | nil => simp [h]
      | cons a ns => cases ts <;> simp at hl hlen
  | cons d l ih =>
    cases d with
    | nil =>
      simp only [catLoop]
      constructor
      · intro h; cases h
      · rintro ⟨ns, _, ts, hl, _⟩
        cases ns <;> cases ts <;> simp at hl
    | cons h tl =>
      simp only [catLoop, bind_ok]
      constructor
      · rintro ⟨k, hk, h'⟩
        split at h'
        · cases h'
        · rename_i he
          obtain ⟨ns, e, ts, hl, hlen, hall⟩ := (ih _).1 h'
          refine ⟨k :: ns, by simp [e]; omega, tl :: ts, ?_, by simp [hlen], ?_⟩
          · simp [pyIndex_ok.1 hk, hl]
          · simp only [List.mem_cons, forall_eq_or_imp]
            exact ⟨(eqL_pairwise _ _).1 (by simpa using he), hall⟩
      · rintro ⟨ns, e, ts, hl, hlen, hall⟩
        cases ns with
        | nil => simp at hl
        | cons k ns =>
          cases ts with
          | nil => simp at hl
          | cons t ts =>
            simp only [List.zip_cons_cons, List.map_cons, List.cons.injEq] at hl
            obtain ⟨⟨rfl, rfl⟩, hl⟩ := hl
            simp only [List.mem_cons, forall_eq_or_imp] at hall
            refine ⟨k, rfl, ?_⟩
            rw [(eqL_pairwise _ _).2 hall.1]
            simp only [Bool.not_true, Bool.false_eq_true, if_false]
            exact (ih _).2 ⟨ns, by simp at e; omega, ts, hl, by simpa using hlen, hall.2⟩

/-- `cat_dshapes` of at least two datashapes succeeds exactly if every leading dimension is fixed and everything after
it is equal to what follows in the first; the result has the sum of the leading lengths in front of the first
datashape's rest. -/
theorem C20.ok_iff (d e : List Ty) (l : List (List Ty)) (hc : Constructible d) (t : Ty) :
    catDshapes (d :: e :: l) = .ok t ↔
      ∃ (n : Nat) (ns : List Nat) (inner : List Ty) (ts : List (List Ty)),
        d = .fixed n :: inner ∧ e :: l = (ns.zip ts).map (fun p => .fixed p.1 :: p.2) ∧ ns.length = ts.length ∧
        (∀ u ∈ ts, PairwiseEq u inner) ∧ t = .dshape (.fixed (n + ns.sum) :: inner) := by
  cases d with
  | nil => exact absurd rfl hc.ne_nil
  | cons h inner =>
    simp only [catDshapes, bind_ok, pyIndex_ok, catLoop_ok]
    constructor
    · rintro ⟨n, rfl, total, ⟨ns, rfl, ts, hl, hlen, hall⟩, ht⟩
      have : mkDS (.fixed (n + ns.sum) :: inner) = .ok (.dshape (.fixed (n + ns.sum) :: inner)) := by
        have hne : inner ≠ [] := by
          rintro rfl
          obtain ⟨a, m, e, _, h2, _⟩ := hc
          cases a <;> simp at e
          subst e; exact h2.1 _ rfl
        exact mkDS_self.2 ((Constructible.suffix (a := [_]) hc hne).cons (by simp [Ty.cls]) rfl)
      rw [this] at ht; cases ht
      exact ⟨n, ns, inner, ts, rfl, hl, hlen, hall, rfl⟩
    · rintro ⟨n, ns, inner', ts, e, hl, hlen, hall, rfl⟩
      cases e
      refine ⟨n, rfl, _, ⟨ns, rfl, ts, hl, hlen, hall⟩, ?_⟩
      have hne : inner ≠ [] := by
        rintro rfl
        obtain ⟨a, m, e, _, h2, _⟩ := hc
        cases a <;> simp at e
        subst e; exact h2.1 _ rfl
      exact mkDS_self.2 ((Constructible.suffix (a := [_]) hc hne).cons (by simp [Ty.cls]) rfl)

/-- the measure is not itself an array or an option of an array -/
def FlatMeasure (ps : List Ty) : Prop := ∀ a m, ps = a ++ [m] → m.shape = [] ∧ m.isDShape = false

/-- the elements of the list are parameters of `DataShape` objects free of type sets, whose measure is not itself an
array -/
def CatInput (l : List (List Ty)) : Prop :=
  ∀ d ∈ l, Constructible d ∧ (∀ p ∈ d, p.everywhere eqLocal = true) ∧ FlatMeasure d

/-- one form for all non-empty lists, after the leading dimensions are known to be fixed -/
theorem cat_zip (n : Nat) (inner : List Ty) (ns : List Nat) (ts : List (List Ty)) (hlen : ns.length = ts.length)
    (hc : Constructible (.fixed n :: inner)) :
    catDshapes ((.fixed n :: inner) :: (ns.zip ts).map (fun p => .fixed p.1 :: p.2)) =
      .ok (.dshape (.fixed (n + ns.sum) :: inner)) ↔ ∀ u ∈ ts, PairwiseEq u inner := by
  cases ns with
  | nil => cases ts with
    | nil => simp [catDshapes]
    | cons => simp at hlen
  | cons k ns => cases ts with
    | nil => simp at hlen
    | cons t ts =>
      simp only [List.zip_cons_cons, List.map_cons]
      rw [C20.ok_iff _ _ _ hc]
      constructor
      · rintro ⟨n', ns', inner', ts', e, hl, hlen', hall, _⟩
        cases e
        have : (t :: ts) = ts' := by
          have h1 := congrArg (List.map List.tail) hl
          simp only [List.map_cons, List.tail_cons, List.map_map, Function.comp_def, List.tail_cons] at h1
          have h2 : (ns'.zip ts').map (fun p => p.2) = ts' := by
            rw [List.map_snd_zip]; omega
          have h3 : (ns.zip ts).map (fun p => p.2) = ts := by
            rw [List.map_snd_zip]; simp at hlen; omega
          rw [h2, h3] at h1; exact h1
        rw [this]; exact hall
      · intro hall
        exact ⟨n, k :: ns, inner, t :: ts, rfl, rfl, hlen, hall, rfl⟩

theorem PairwiseEq.symm {a b : List Ty} (ha : ∀ p ∈ a, p.everywhere eqLocal = true)
    (hb : ∀ p ∈ b, p.everywhere eqLocal = true) (h : PairwiseEq a b) : PairwiseEq b a := by
  rw [← eqL_pairwise] at h ⊢
  induction a generalizing b with
  | nil => cases b <;> simp_all [eqL]
  | cons x a ih =>
    cases b with
    | nil => simp [eqL] at h
    | cons y b =>
      simp only [eqL, Bool.and_eq_true, List.mem_cons, forall_eq_or_imp] at *
      exact ⟨pyEq_symm ha.1 hb.1 h.1, ih ha.2 hb.2 h.2⟩

theorem PairwiseEq.trans {a b c : List Ty} (ha : ∀ p ∈ a, p.everywhere eqLocal = true)
    (hb : ∀ p ∈ b, p.everywhere eqLocal = true) (hc : ∀ p ∈ c, p.everywhere eqLocal = true)
    (h : PairwiseEq a b) (h' : PairwiseEq b c) : PairwiseEq a c := by
  rw [← eqL_pairwise] at h h' ⊢
  induction a generalizing b c with
  | nil => cases b <;> cases c <;> simp_all [eqL]
  | cons x a ih =>
    cases b with
    | nil => simp [eqL] at h
    | cons y b =>
      cases c with
      | nil => simp [eqL] at h'
      | cons z c =>
        simp only [eqL, Bool.and_eq_true, List.mem_cons, forall_eq_or_imp] at *
        exact ⟨pyEq_trans ha.1 hb.1 hc.1 h.1 h'.1, ih ha.2 hb.2 hc.2 h.2 h'.2⟩

theorem PairwiseEq.refl {a : List Ty} (ha : ∀ p ∈ a, p.everywhere eqLocal = true) : PairwiseEq a a := by
  rw [← eqL_pairwise]
  induction a with
  | nil => rfl
  | cons x a ih =>
    simp only [eqL, Bool.and_eq_true, List.mem_cons, forall_eq_or_imp] at *
    exact ⟨pyEq_refl ha.1, ih ha.2⟩

/-- what a successful `cat_dshapes` of at least two datashapes looks like -/
structure CatForm (l : List (List Ty)) (n : Nat) (inner : List Ty) : Prop where
  form : ∃ (ns : List Nat) (ts : List (List Ty)), l = (ns.zip ts).map (fun p => .fixed p.1 :: p.2) ∧
    ns.length = ts.length ∧ n = ns.sum ∧ (∀ u ∈ ts, PairwiseEq u inner) ∧ ts.head? = some inner

theorem cat_form {l : List (List Ty)} (hl : 2 ≤ l.length) (hi : CatInput l) (t : Ty) :
    catDshapes l = .ok t ↔ ∃ n inner, CatForm l n inner ∧ t = .dshape (.fixed n :: inner) := by
  match l, hl with
  | d :: e :: l, _ =>
    have hd := hi d (by simp)
    rw [C20.ok_iff d e l hd.1 t]
    constructor
    · rintro ⟨n, ns, inner, ts, rfl, hl, hlen, hall, rfl⟩
      refine ⟨n + ns.sum, inner, ⟨⟨n :: ns, inner :: ts, by simp [hl], by simp [hlen], by simp, ?_, rfl⟩⟩, rfl⟩
      simp only [List.mem_cons, forall_eq_or_imp]
      exact ⟨PairwiseEq.refl fun p hp => hd.2.1 p (by simp [hp]), hall⟩
    · rintro ⟨n, inner, ⟨⟨ns, ts, hl, hlen, hn, hall, hh⟩⟩, rfl⟩
      match ns, ts, hlen with
      | [], [], _ => simp at hl
      | k :: ns, u :: ts, hlen =>
        simp at hh; subst hh
        simp only [List.zip_cons_cons, List.map_cons, List.cons.injEq] at hl
        simp only [List.mem_cons, forall_eq_or_imp] at hall
        refine ⟨k, ns, u, ts, hl.1, ?_, by simpa using hlen, hall.2, by simp [hn]⟩
        exact hl.2

theorem perm_map_inv {α β : Type} {f : α → β} {l : List α} {l' : List β} (h : (l.map f).Perm l') :
    ∃ zs, l.Perm zs ∧ l' = zs.map f := by
  generalize e : l.map f = m at h
  induction h generalizing l with
  | nil => exact ⟨[], by simp at e; simp [e], rfl⟩
  | cons x _ ih =>
    cases l with
    | nil => simp at e
    | cons a l =>
      simp only [List.map_cons, List.cons.injEq] at e
      obtain ⟨zs, h1, rfl⟩ := ih e.2
      exact ⟨a :: zs, h1.cons a, by simp [e.1]⟩
  | swap x y r =>
    match l, e with
    | a :: b :: l, e =>
      simp only [List.map_cons, List.cons.injEq] at e
      exact ⟨b :: a :: l, .swap .., by simp [e]⟩
  | trans _ _ ih1 ih2 =>
    obtain ⟨z1, h1, e1⟩ := ih1 e
    obtain ⟨z2, h2, e2⟩ := ih2 e1.symm
    exact ⟨z2, h1.trans h2, e2⟩

theorem pairwise_dshape {x : Ty} {u v : List Ty} (hx : pyEq x x = true) (h : PairwiseEq u v) (hu : u ≠ [])
    (hfu : FlatMeasure u) (hfv : FlatMeasure v) (he : ∀ p ∈ u, p.everywhere eqLocal = true)
    (hcu : ∀ a m, u = a ++ [m] → m.cls ≠ some .dimension) :
    pyEq (.dshape (x :: u)) (.dshape (x :: v)) = true := by
  obtain ⟨a, m, rfl⟩ : ∃ a m, u = a ++ [m] := ⟨_, _, (List.dropLast_concat_getLast hu).symm⟩
  have hv : v ≠ [] := by rintro rfl; simp [PairwiseEq] at h
  obtain ⟨b, n, rfl⟩ : ∃ a m, v = a ++ [m] := ⟨_, _, (List.dropLast_concat_getLast hv).symm⟩
  obtain ⟨hlen, hz⟩ := h
  have hlen' : a.length = b.length := by simpa using hlen
  rw [List.zip_append hlen'] at hz
  simp only [List.mem_append, List.zip_cons_cons, List.zip_nil_right, List.mem_singleton] at hz
  rw [← List.cons_append, ← List.cons_append, dshape_eqM_iff]
  refine ⟨by simp [hlen'], ?_, ?_⟩
  · simp only [List.zip_cons_cons, List.mem_cons, forall_eq_or_imp]
    exact ⟨hx, fun p hp => hz p (.inl hp)⟩
  · have hmn : pyEq m n = true := hz (m, n) (.inr rfl)
    obtain ⟨hs1, hd1⟩ := hfu a m rfl
    obtain ⟨hs2, hd2⟩ := hfv b n rfl
    have hm1 : m.measure = m := by cases m <;> simp_all [Ty.measure, Ty.isDShape]
    have hm2 : n.measure = n := by cases n <;> simp_all [Ty.measure, Ty.isDShape]
    have hem := everywhere_self (he m (by simp))
    rw [pyEq_code m n (by rintro k rfl; exact hcu a _ rfl rfl) (by rintro o k rfl; simp [eqLocal] at hem)] at hmn
    simp only [hm1, hm2, Bool.and_eq_true] at hmn
    exact hmn.2

/-- The order of the list does not matter: any permutation succeeds too, with an equal result. -/
theorem C20.perm (l l' : List (List Ty)) (hl : 2 ≤ l.length) (hi : CatInput l) (hp : l.Perm l') (t : Ty)
    (h : catDshapes l = .ok t) : ∃ t', catDshapes l' = .ok t' ∧ pyEq t' t = true := by
  obtain ⟨n, inner, ⟨⟨ns, ts, e, hlen, hn, hall, hh⟩⟩, rfl⟩ := (cat_form hl hi t).1 h
  have hi' : CatInput l' := fun d hd => hi d (hp.mem_iff.2 hd)
  have hl' : 2 ≤ l'.length := hp.length_eq ▸ hl
  -- permute the pairs
  obtain ⟨zs, hz, ez⟩ : ∃ zs : List (Nat × List Ty), (ns.zip ts).Perm zs ∧ l' = zs.map (fun p => Ty.fixed p.1 :: p.2) := by
    subst e
    exact perm_map_inv hp
  have hts : ∀ u ∈ ts, ∀ p ∈ u, p.everywhere eqLocal = true := by
    intro u hu p hp'
    have : ∃ k, (k, u) ∈ ns.zip ts := by
      have : u ∈ (ns.zip ts).map (·.2) := by rw [List.map_snd_zip (by omega)]; exact hu
      obtain ⟨⟨k, v⟩, hm, rfl⟩ := List.mem_map.1 this
      exact ⟨k, hm⟩
    obtain ⟨k, hk⟩ := this
    exact (hi (.fixed k :: u) (by rw [e]; exact List.mem_map.2 ⟨_, hk, rfl⟩)).2.1 p (by simp [hp'])
  have hinner : inner ∈ ts := List.mem_of_mem_head? hh
  cases zs with
  | nil => simp [ez] at hl'
  | cons z zs =>
    obtain ⟨k, u⟩ := z
    have hmem : ∀ v, v ∈ (((k, u) :: zs).map (·.2)) → v ∈ ts := by
      intro v hv
      have := (hz.map (·.2)).mem_iff.2 hv
      rwa [List.map_snd_zip (by omega)] at this
    have hu : u ∈ ts := hmem u (by simp)
    refine ⟨.dshape (.fixed n :: u), (cat_form hl' hi' _).2 ⟨n, u, ⟨⟨((k, u) :: zs).map (·.1), ((k, u) :: zs).map (·.2), ?_, ?_, ?_, ?_, ?_⟩⟩, rfl⟩, ?_⟩
    · rw [ez, List.zip_map', List.map_map]; rfl
    · simp
    · rw [hn]
      have := (hz.map (·.1)).sum_nat
      rwa [List.map_fst_zip (by omega)] at this
    · intro v hv
      have hv' := hmem v hv
      exact (hall v hv').trans (hts v hv') (hts _ hinner) (hts u hu) ((hall u hu).symm (hts u hu) (hts _ hinner))
    · simp
    · have hin : ∀ v ∈ ts, ∃ k, Constructible (.fixed k :: v) ∧ FlatMeasure (.fixed k :: v) := by
        intro v hv
        have : ∃ k, (k, v) ∈ ns.zip ts := by
          have : v ∈ (ns.zip ts).map (·.2) := by rw [List.map_snd_zip (by omega)]; exact hv
          obtain ⟨⟨k, v⟩, hm, rfl⟩ := List.mem_map.1 this
          exact ⟨k, hm⟩
        obtain ⟨k, hk⟩ := this
        have := hi (.fixed k :: v) (by rw [e]; exact List.mem_map.2 ⟨_, hk, rfl⟩)
        exact ⟨k, this.1, this.2.2⟩
      have hne : ∀ v ∈ ts, v ≠ [] := by
        intro v hv e
        subst e
        obtain ⟨k, ⟨a, m, e, _, h2, _⟩, _⟩ := hin [] hv
        cases a <;> simp at e
        subst e; exact h2.1 _ rfl
      have hflat : ∀ v ∈ ts, FlatMeasure v := by
        intro v hv a m e
        obtain ⟨k, _, hf⟩ := hin v hv
        exact hf (.fixed k :: a) m (by rw [e]; rfl)
      refine pairwise_dshape (by simp [pyEq, eqM]) (hall u hu) (hne u hu) (hflat u hu) (hflat _ hinner) (hts u hu) ?_
      intro a m e
      obtain ⟨k, ⟨a', m', e', _, h2, _⟩, _⟩ := hin u hu
      rw [e, ← List.cons_append] at e'
      have := List.append_inj' e' rfl
      cases this.2
      exact mayEnd_iff.2 h2

/-- Grouping does not matter: concatenating two parts and then the results gives the same as concatenating
everything at once. -/
theorem C20.assoc (l₁ l₂ : List (List Ty)) (h₁ : 2 ≤ l₁.length) (h₂ : 2 ≤ l₂.length) (hi : CatInput (l₁ ++ l₂)) (t : Ty) :
    catDshapes (l₁ ++ l₂) = .ok t ↔
      ∃ a b, catDshapes l₁ = .ok (.dshape a) ∧ catDshapes l₂ = .ok (.dshape b) ∧ catDshapes [a, b] = .ok t := by
  have hi1 : CatInput l₁ := fun d hd => hi d (by simp [hd])
  have hi2 : CatInput l₂ := fun d hd => hi d (by simp [hd])
  rw [cat_form (by simp; omega) hi]
  constructor
  · rintro ⟨n, inner, ⟨⟨ns, ts, e, hlen, hn, hall, hh⟩⟩, rfl⟩
    have hl1 : l₁.length ≤ ns.length := by
      have := congrArg List.length e
      simp at this; omega
    have e1 : l₁ = ((ns.take l₁.length).zip (ts.take l₁.length)).map (fun p => Ty.fixed p.1 :: p.2) := by
      have := congrArg (List.take l₁.length) e
      rw [List.take_left, ← List.map_take, List.zip_eq_zipWith, List.take_zipWith, ← List.zip_eq_zipWith] at this
      exact this
    have e2 : l₂ = ((ns.drop l₁.length).zip (ts.drop l₁.length)).map (fun p => Ty.fixed p.1 :: p.2) := by
      have := congrArg (List.drop l₁.length) e
      rw [List.drop_left, ← List.map_drop, List.zip_eq_zipWith, List.drop_zipWith, ← List.zip_eq_zipWith] at this
      exact this
    have hts : ∀ u ∈ ts, ∀ p ∈ u, p.everywhere eqLocal = true := by
      intro u hu p hp'
      have : ∃ k, (k, u) ∈ ns.zip ts := by
        have : u ∈ (ns.zip ts).map (·.2) := by rw [List.map_snd_zip (by omega)]; exact hu
        obtain ⟨⟨k, v⟩, hm, rfl⟩ := List.mem_map.1 this
        exact ⟨k, hm⟩
      obtain ⟨k, hk⟩ := this
      exact (hi (.fixed k :: u) (by rw [e]; exact List.mem_map.2 ⟨_, hk, rfl⟩)).2.1 p (by simp [hp'])
    have hinner : inner ∈ ts := List.mem_of_mem_head? hh
    have hne2 : ts.drop l₁.length ≠ [] := by
      intro h
      rw [h] at e2; simp at e2; simp [e2] at h₂
    obtain ⟨v, vs, hv⟩ : ∃ v vs, ts.drop l₁.length = v :: vs := by
      cases h : ts.drop l₁.length with
      | nil => exact absurd h hne2
      | cons v vs => exact ⟨v, vs, rfl⟩
    have hvt : v ∈ ts := List.mem_of_mem_drop (by rw [hv]; simp)
    refine ⟨.fixed (ns.take l₁.length).sum :: inner, .fixed (ns.drop l₁.length).sum :: v,
      (cat_form h₁ hi1 _).2 ⟨_, _, ⟨⟨_, _, e1, by simp; omega, rfl, fun u hu => hall u (List.mem_of_mem_take hu), ?_⟩⟩, rfl⟩,
      (cat_form h₂ hi2 _).2 ⟨_, _, ⟨⟨_, _, e2, by simp; omega, rfl, ?_, by simp [hv]⟩⟩, rfl⟩, ?_⟩
    · cases ts with
      | nil => simp at hh
      | cons a ts => cases l₁ with
        | nil => simp at h₁
        | cons => simpa using hh
    · intro u hu
      have hu' := List.mem_of_mem_drop hu
      exact (hall u hu').trans (hts u hu') (hts _ hinner) (hts v hvt) ((hall v hvt).symm (hts v hvt) (hts _ hinner))
    · have hc : Constructible (.fixed (ns.take l₁.length).sum :: inner) := by
        obtain ⟨k, hk⟩ : ∃ k, Ty.fixed k :: inner ∈ l₁ ++ l₂ := by
          have : inner ∈ (ns.zip ts).map (·.2) := by rw [List.map_snd_zip (by omega)]; exact hinner
          obtain ⟨⟨k, v⟩, hm, rfl⟩ := List.mem_map.1 this
          exact ⟨k, by rw [e]; exact List.mem_map.2 ⟨_, hm, rfl⟩⟩
        exact (hi _ hk).1.retop
      have := (cat_zip _ inner [(ns.drop l₁.length).sum] [v] rfl hc).2 (by simpa using hall v hvt)
      simp only [List.zip_cons_cons, List.zip_nil_right, List.map_cons, List.map_nil, List.sum_cons, List.sum_nil,
        Nat.add_zero] at this
      rw [this, hn, ← List.sum_append, List.take_append_drop]
  · rintro ⟨a, b, ha, hb, hab⟩
    obtain ⟨n1, i1, ⟨⟨ns1, ts1, e1, hlen1, hn1, hall1, hh1⟩⟩, ea⟩ := (cat_form h₁ hi1 _).1 ha
    obtain ⟨n2, i2, ⟨⟨ns2, ts2, e2, hlen2, hn2, hall2, hh2⟩⟩, eb⟩ := (cat_form h₂ hi2 _).1 hb
    cases ea; cases eb
    have hz : ∀ (ns : List Nat) (ts : List (List Ty)), ns.length = ts.length → ∀ v ∈ ts,
        ∃ k, Ty.fixed k :: v ∈ (ns.zip ts).map (fun p => Ty.fixed p.1 :: p.2) := by
      intro ns ts hl v hv
      have : v ∈ (ns.zip ts).map (·.2) := by rw [List.map_snd_zip (by omega)]; exact hv
      obtain ⟨⟨k, v⟩, hm, rfl⟩ := List.mem_map.1 this
      exact ⟨k, List.mem_map.2 ⟨_, hm, rfl⟩⟩
    obtain ⟨k1, hk1⟩ := hz ns1 ts1 hlen1 i1 (List.mem_of_mem_head? hh1)
    have hc := (hi1 _ (e1 ▸ hk1)).1.retop (n := n1)
    obtain ⟨n, ns, inner, ts, e, hl, hlen, hall, rfl⟩ := (C20.ok_iff _ _ _ hc _).1 hab
    cases e
    match ns, ts, hlen with
    | [], _, _ => simp at hl
    | [k], [u], _ =>
      simp only [List.zip_cons_cons, List.zip_nil_right, List.map_cons, List.map_nil, List.cons.injEq, Ty.fixed.injEq] at hl
      obtain ⟨⟨rfl, rfl⟩, _⟩ := hl
      refine ⟨_, i1, ⟨⟨ns1 ++ ns2, ts1 ++ ts2, ?_, by simp [hlen1, hlen2], rfl, ?_, ?_⟩⟩, by simp [hn1, hn2]⟩
      · rw [List.zip_append hlen1, List.map_append, ← e1, ← e2]
      · intro u hu
        rcases List.mem_append.1 hu with h | h
        · exact hall1 u h
        · have hi2m : i2 ∈ ts2 := List.mem_of_mem_head? hh2
          obtain ⟨ku, hku⟩ := hz ns2 ts2 hlen2 u h
          obtain ⟨k2, hk2⟩ := hz ns2 ts2 hlen2 i2 hi2m
          exact (hall2 u h).trans (fun p hp => (hi2 _ (e2 ▸ hku)).2.1 p (by simp [hp]))
            (fun p hp => (hi2 _ (e2 ▸ hk2)).2.1 p (by simp [hp]))
            (fun p hp => (hi1 _ (e1 ▸ hk1)).2.1 p (by simp [hp])) (hall _ (by simp))
      · cases ts1 with
        | nil => simp at hh1
        | cons => simpa using hh1
    | _ :: _ :: _, _ :: _ :: _, _ => simp at hl

/-- Why `cat_dshapes` stops at the datashape `u`, given what follows the leading dimension of the first one: its leading
dimension is not a `Fixed` (`TypeError`), or something else follows it (`ValueError`). -/
inductive CatStops (inner u : List Ty) : PyErr → Prop where
  | notFixed : (∀ k r, u ≠ .fixed k :: r) → CatStops inner u .typeError
  | differs {k r} : u = .fixed k :: r → ¬ PairwiseEq r inner → CatStops inner u .valueError

theorem catLoop_error {inner : List Ty} {l : List (List Ty)} (hl : ∀ u ∈ l, u ≠ []) (acc : Nat) (x : PyErr) :
    catLoop inner acc l = .error x ↔ ∃ pre u post, l = pre ++ u :: post ∧
      (∀ v ∈ pre, ∃ k r, v = .fixed k :: r ∧ PairwiseEq r inner) ∧ CatStops inner u x := by
  induction l generalizing acc with
  | nil =>
    constructor
    · intro h; cases h
    · rintro ⟨pre, u, post, e, -⟩; simp at e
  | cons w l ih =>
    cases w with
    | nil => exact absurd rfl (hl [] (by simp))
    | cons h tl =>
      rw [catLoop]
      by_cases hf : ∃ n, h = .fixed n
      · obtain ⟨n, rfl⟩ := hf
        simp only [pyIndex, bind, Except.bind]
        cases he : eqL tl inner with
        | true =>
          simp only [Bool.not_true, Bool.false_eq_true, if_false]
          rw [ih fun u hu => hl u (by simp [hu])]
          have hp := (eqL_pairwise _ _).1 he
          constructor
          · rintro ⟨pre, u, post, rfl, h1, h2⟩
            refine ⟨(.fixed n :: tl) :: pre, u, post, rfl, ?_, h2⟩
            intro v hv
            rcases List.mem_cons.1 hv with rfl | hv
            · exact ⟨n, tl, rfl, hp⟩
            · exact h1 v hv
          · rintro ⟨pre, u, post, e, h1, h2⟩
            cases pre with
            | nil =>
              simp only [List.nil_append, List.cons.injEq] at e
              obtain ⟨rfl, rfl⟩ := e
              cases h2 with
              | notFixed h => exact absurd rfl (h n tl)
              | differs e h => cases e; exact absurd hp h
            | cons v pre =>
              simp only [List.cons_append, List.cons.injEq] at e
              exact ⟨pre, u, post, e.2, fun v hv => h1 v (by simp [hv]), h2⟩
        | false =>
          have hp : ¬ PairwiseEq tl inner := fun h => by rw [(eqL_pairwise _ _).2 h] at he; cases he
          simp only [Bool.not_false, if_true]
          constructor
          · intro e
            cases e
            exact ⟨[], _, l, rfl, by simp, .differs rfl hp⟩
          · rintro ⟨pre, u, post, e, h1, h2⟩
            cases pre with
            | nil =>
              simp only [List.nil_append, List.cons.injEq] at e
              obtain ⟨rfl, rfl⟩ := e
              cases h2 with
              | notFixed h => exact absurd rfl (h n tl)
              | differs e h => rfl
            | cons v pre =>
              simp only [List.cons_append, List.cons.injEq] at e
              obtain ⟨k, r, e', h'⟩ := h1 v (by simp)
              rw [← e.1] at e'
              cases e'
              exact absurd h' hp
      · have hi : pyIndex h = .error .typeError := by cases h <;> first | rfl | exact absurd ⟨_, rfl⟩ hf
        rw [hi]
        simp only [bind, Except.bind]
        constructor
        · intro e
          cases e
          exact ⟨[], _, l, rfl, by simp, .notFixed fun k r e => hf ⟨k, by injection e⟩⟩
        · rintro ⟨pre, u, post, e, h1, h2⟩
          cases pre with
          | nil =>
            simp only [List.nil_append, List.cons.injEq] at e
            obtain ⟨rfl, rfl⟩ := e
            cases h2 with
            | notFixed h => rfl
            | differs e h => exact absurd ⟨_, (by injection e)⟩ hf
          | cons v pre =>
            simp only [List.cons_append, List.cons.injEq] at e
            obtain ⟨k, r, e', h'⟩ := h1 v (by simp)
            rw [← e.1] at e'
            exact absurd ⟨_, (by injection e')⟩ hf

/-- What `cat_dshapes` of at least two datashapes raises: it stops at the first datashape whose leading dimension is not
fixed, or after which something else follows than in the first. -/
theorem C20.raises (d e : List Ty) (l : List (List Ty)) (hd : Constructible d) (hl : ∀ u ∈ e :: l, u ≠ []) (x : PyErr) :
    catDshapes (d :: e :: l) = .error x ↔
      ((∀ n inner, d ≠ .fixed n :: inner) ∧ x = .typeError) ∨
      ∃ n inner pre u post, d = .fixed n :: inner ∧ e :: l = pre ++ u :: post ∧
        (∀ v ∈ pre, ∃ k r, v = .fixed k :: r ∧ PairwiseEq r inner) ∧ CatStops inner u x := by
  cases d with
  | nil => exact absurd rfl hd.ne_nil
  | cons h inner =>
    simp only [catDshapes]
    by_cases hf : ∃ n, h = .fixed n
    · obtain ⟨n, rfl⟩ := hf
      have hmk : ∀ total : Nat, mkDS (.fixed total :: inner) = .ok (.dshape (.fixed total :: inner)) := by
        intro total
        have hne : inner ≠ [] := by
          rintro rfl
          obtain ⟨a, m, e, _, h2, _⟩ := hd
          cases a <;> simp at e
          subst e; exact h2.1 _ rfl
        exact mkDS_self.2 ((Constructible.suffix (a := [_]) hd hne).cons (by simp [Ty.cls]) rfl)
      have hc := catLoop_error (inner := inner) hl n x
      simp only [pyIndex, bind, Except.bind]
      constructor
      · intro h
        refine .inr ⟨n, inner, ?_⟩
        cases hr : catLoop inner n (e :: l) with
        | ok total => rw [hr] at h; simp only [hmk] at h; cases h
        | error y =>
          rw [hr] at h
          cases h
          obtain ⟨pre, u, post, h1⟩ := hc.1 hr
          exact ⟨pre, u, post, rfl, h1⟩
      · rintro (⟨h, -⟩ | ⟨n', inner', pre, u, post, e1, h1⟩)
        · exact absurd rfl (h n inner)
        · cases e1
          rw [hc.2 ⟨pre, u, post, h1⟩]
    · have hi : pyIndex h = .error .typeError := by cases h <;> first | rfl | exact absurd ⟨_, rfl⟩ hf
      rw [hi]
      constructor
      · intro h
        cases h
        exact .inl ⟨fun n r e => hf ⟨n, by injection e⟩, rfl⟩
      · rintro (⟨-, rfl⟩ | ⟨n', inner', pre, u, post, e1, h1⟩)
        · rfl
        · exact absurd ⟨n', by injection e1⟩ hf

/-- `cat_dshapes` of `3 * int32`, `var * int32` and of `3 * int32`, `3 * int64` -/
example : catDshapes [[.fixed 3, tInt32], [.var, tInt32], [.fixed 3, tInt64]] = .error .typeError ∧
    catDshapes [[.fixed 3, tInt32], [.fixed 3, tInt64], [.var, tInt32]] = .error .valueError := ⟨rfl, rfl⟩

/-- A missing list and a list of one element: `ValueError`, and the element itself. -/
theorem C20.small (d : List Ty) : catDshapes [] = .error .valueError ∧ catDshapes [d] = .ok (.dshape d) := ⟨rfl, rfl⟩

example : CatInput [[.fixed 10, .var, tInt32], [.fixed 5, .var, tInt32], [.fixed 2, .var, tInt32]] ∧
    catDshapes [[.fixed 10, .var, tInt32], [.fixed 5, .var, tInt32], [.fixed 2, .var, tInt32]] = .ok (.dshape [.fixed 17, .var, tInt32]) := by
  refine ⟨?_, rfl⟩
  have : ∀ n, Constructible [.fixed n, .var, tInt32] ∧ (∀ p ∈ [Ty.fixed n, .var, tInt32], p.everywhere eqLocal = true) ∧
      FlatMeasure [.fixed n, .var, tInt32] := by
    intro n
    refine ⟨mkDS_self.1 rfl, by simp [Ty.everywhere, eqLocal, tInt32], ?_⟩
    intro a m e
    have := congrArg List.getLast? e
    simp at this; subst this; exact ⟨rfl, rfl⟩
  intro d hd
  simp only [List.mem_cons, List.not_mem_nil, or_false] at hd
  rcases hd with rfl | rfl | rfl <;> exact this _

/-! ### C34 -/

theorem has_iff_occurs (p : Ty → Bool) (hp : ∀ s, p (.typevar s) = true → p (.ellipsis (some s)) = true) (t : Ty) :
    has p t = true ↔ ∃ u, Occurs u t ∧ p u = true := by
  have step : ∀ t : Ty, (has p t = true ↔ p t = true ∨ ∃ c ∈ t.children, has p c = true) →
      (∀ c ∈ t.children, (has p c = true ↔ ∃ u, Occurs u c ∧ p u = true)) →
      (has p t = true ↔ ∃ u, Occurs u t ∧ p u = true) := by
    intro t h ih
    rw [h]
    constructor
    · rintro (h | ⟨c, hc, h⟩)
      · exact ⟨t, .refl t, h⟩
      · obtain ⟨u, hu, hpu⟩ := (ih c hc).1 h
        exact ⟨u, .step hc hu, hpu⟩
    · rintro ⟨u, hu, hpu⟩
      cases hu with
      | refl => exact .inl hpu
      | step hc hu => exact .inr ⟨_, hc, (ih _ hc).2 ⟨u, hu, hpu⟩⟩
  have hL : ∀ l : List Ty, hasL p l = true ↔ ∃ c ∈ l, has p c = true := by
    intro l; induction l with
    | nil => simp [hasL]
    | cons a l ih => simp [hasL, ih]
  have hF : ∀ l : List (Str × Ty), hasF p l = true ↔ ∃ f ∈ l, has p f.2 = true := by
    intro l; induction l with
    | nil => simp [hasF]
    | cons a l ih => obtain ⟨n, a⟩ := a; simp [hasF, ih]
  induction t using Ty.ind_children with
  | h t ih =>
    refine step t ?_ ih
    cases t with
    | ellipsis s =>
      cases s with
      | none => simp [has, Ty.children]
      | some s => simp [has, Ty.children]; exact hp s
    | record fs =>
      simp only [has, Ty.children, hF, Bool.or_eq_true, List.mem_map]
      refine or_congr_right ⟨?_, ?_⟩
      · rintro ⟨f, hf, h⟩; exact ⟨_, ⟨f, hf, rfl⟩, h⟩
      · rintro ⟨_, ⟨f, hf, rfl⟩, h⟩; exact ⟨f, hf, h⟩
    | map k v => simp [has, Ty.children, or_assoc]
    | _ => simp [has, Ty.children, hL]

/-- `has_var_dim(ds)` is true exactly if a `var` dimension or an ellipsis occurs anywhere in `ds`, at any depth. -/
theorem C34.has_var_dim (t : Ty) : hasVarDim t = true ↔ Occurs .var t ∨ ∃ x, Occurs (.ellipsis x) t := by
  unfold hasVarDim
  rw [has_iff_occurs _ (by simp [Ty.isEllipsis, Ty.isVar])]
  constructor
  · rintro ⟨u, hu, h⟩
    cases u <;> simp [Ty.isEllipsis, Ty.isVar] at h
    · exact .inl hu
    · exact .inr ⟨_, hu⟩
  · rintro (h | ⟨x, h⟩)
    · exact ⟨_, h, rfl⟩
    · exact ⟨_, h, rfl⟩

/-- `has_ellipsis(ds)` is true exactly if an ellipsis occurs anywhere in `ds`. -/
theorem C34.has_ellipsis (t : Ty) : hasEllipsis t = true ↔ ∃ x, Occurs (.ellipsis x) t := by
  unfold hasEllipsis
  rw [has_iff_occurs _ (by simp [Ty.isEllipsis])]
  constructor
  · rintro ⟨u, hu, h⟩
    cases u <;> simp [Ty.isEllipsis] at h
    exact ⟨_, hu⟩
  · rintro ⟨x, h⟩
    exact ⟨_, h, rfl⟩

/-- Hence an ellipsis implies a variable dimension. -/
theorem C34.ellipsis_is_var (t : Ty) (h : hasEllipsis t = true) : hasVarDim t = true :=
  (C34.has_var_dim t).2 (.inr ((C34.has_ellipsis t).1 h))

/-- inside records, tuples, functions, options, maps, units and categoricals -/
example : hasVarDim (.record [(py"a", .tuple [.dshape [.func [.option (.map tInt32 (.units (py"m") (.dshape [.var, tInt32])))]]])]) = true ∧
    hasVarDim (.dshape [.fixed 3, .record [(py"a", tInt32)]]) = false := ⟨rfl, rfl⟩

/-! ### C40 -/

/-- the datashapes among the parameters of a datashape (an ellipsis has its type variable as parameter) -/
def Ty.parts : Ty → List Ty
  | .ellipsis (some s) => [.typevar s]
  | .units .. | .categorical .. | .typeset .. => []
  | t => t.children

/-- `Collected p t l`: `l` lists, from left to right, the outermost parts of `t` satisfying `p`. -/
inductive Collected (p : Ty → Bool) : Ty → List Ty → Prop where
  | hit {t : Ty} : p t = true → Collected p t [t]
  | miss {t : Ty} {ls : List (List Ty)} : p t = false → t.scalarParam = false →
      t.parts.length = ls.length → (∀ q ∈ t.parts.zip ls, Collected p q.1 q.2) → Collected p t ls.flatten

theorem collectL_ok {p : Ty → Bool} {l : List Ty} {r : List Ty} :
    collectL p l = .ok r ↔ ∃ ls, l.length = ls.length ∧ (∀ q ∈ l.zip ls, collect p q.1 = .ok q.2) ∧ r = ls.flatten := by
  induction l generalizing r with
  | nil =>
    simp only [collectL]
    constructor
    · intro h; cases h; exact ⟨[], rfl, by simp, rfl⟩
    · rintro ⟨ls, hl, _, rfl⟩; cases ls <;> simp at hl ⊢
  | cons t l ih =>
    simp only [collectL, bind_ok]
    constructor
    · rintro ⟨a, ha, b, hb, h⟩
      cases h
      obtain ⟨ls, hl, hq, rfl⟩ := ih.1 hb
      refine ⟨a :: ls, by simp [hl], ?_, rfl⟩
      simp only [List.zip_cons_cons, List.mem_cons, forall_eq_or_imp]
      exact ⟨ha, hq⟩
    · rintro ⟨ls, hl, hq, rfl⟩
      cases ls with
      | nil => simp at hl
      | cons a ls =>
        simp only [List.zip_cons_cons, List.mem_cons, forall_eq_or_imp] at hq
        exact ⟨a, hq.1, _, ih.2 ⟨ls, by simpa using hl, hq.2, rfl⟩, rfl⟩

theorem collectF_eq (p : Ty → Bool) (l : List (Str × Ty)) : collectF p l = collectL p (l.map (·.2)) := by
  induction l with
  | nil => rfl
  | cons a l ih => obtain ⟨n, t⟩ := a; simp [collectF, collectL, ih]

/-- the recursion of `collect`, uniformly over the classes -/
theorem collect_step (p : Ty → Bool) (t : Ty) : collect p t =
    if p t then .ok [t] else if t.scalarParam then .error .typeError else collectL p t.parts := by
  have hlist : ∀ x : Except PyErr (List Ty), (do let a ← x; let b ← (.ok [] : Except PyErr (List Ty)); .ok (a ++ b)) = x := by
    intro x; cases x <;> simp [bind, Except.bind]
  cases t with
  | option t => simp only [collect, Ty.scalarParam, Ty.parts, Ty.children, collectL, hlist]; rfl
  | map k v =>
    simp only [collect, Ty.scalarParam, Ty.parts, Ty.children, collectL, hlist]; rfl
  | record fs => simp only [collect, Ty.scalarParam, Ty.parts, Ty.children, collectF_eq]; rfl
  | ellipsis s =>
    cases s with
    | none => simp [collect, Ty.scalarParam]
    | some s =>
      simp only [collect, Ty.scalarParam, Ty.parts, collectL, hlist]
      simp
  | _ => simp [collect, Ty.scalarParam, Ty.parts, Ty.children, collectL]

theorem parts_sizeOf {t c : Ty} (h : c ∈ t.parts) : sizeOf c < sizeOf t ∨ ∃ s, c = .typevar s := by
  cases t with
  | ellipsis s => cases s <;> simp [Ty.parts, Ty.children] at h; exact .inr ⟨_, h⟩
  | record fs =>
    simp only [Ty.parts, Ty.children, List.mem_map] at h
    obtain ⟨⟨n, u⟩, hf, rfl⟩ := h
    have := List.sizeOf_lt_of_mem hf
    left; simp at this ⊢; omega
  | tuple ts | func ts | dshape ts =>
    have := List.sizeOf_lt_of_mem (show c ∈ ts from h)
    left; simp; omega
  | map k v =>
    simp only [Ty.parts, Ty.children, List.mem_cons, List.not_mem_nil, or_false] at h
    left; rcases h with rfl | rfl <;> simp <;> omega
  | option t =>
    simp only [Ty.parts, Ty.children, List.mem_cons, List.not_mem_nil, or_false] at h
    subst h; left; simp
  | _ => simp [Ty.parts, Ty.children] at h

/-- When `collect(pred, ds)` returns, its result is the list of the outermost parts satisfying `pred`, from left to
right; and it returns whenever there is such a list, that is, unless some class with a parameter that is not a
datashape is reached without having matched. -/
theorem C40.collect_iff (p : Ty → Bool) (t : Ty) (l : List Ty) : collect p t = .ok l ↔ Collected p t l := by
  constructor
  · intro h
    induction hn : sizeOf t using Nat.strongRecOn generalizing t l with
    | _ n ih =>
      rw [collect_step] at h
      split at h
      · cases h; exact .hit (by assumption)
      · rename_i hp
        split at h
        · cases h
        · rename_i hs
          obtain ⟨ls, hl, hq, rfl⟩ := collectL_ok.1 h
          refine .miss (by simpa using hp) (by simpa using hs) hl fun q hq' => ?_
          have hc := (List.of_mem_zip hq').1
          rcases parts_sizeOf hc with hlt | ⟨s, hs'⟩
          · exact ih _ (by omega) _ _ (hq q hq') rfl
          · have := hq q hq'
            rw [hs', collect_step] at this
            split at this
            · rename_i ht
              injection this with e
              rw [hs', ← e]; exact .hit ht
            · simp [Ty.scalarParam] at this
  · intro h
    induction h with
    | hit h => rw [collect_step, if_pos h]
    | miss h hs hl hq ih =>
      rw [collect_step, if_neg (by simp [h]), if_neg (by simp [hs])]
      exact collectL_ok.2 ⟨_, hl, ih, rfl⟩

/-- `x` is an outermost match of `p` in `t`: it is reached without passing through another match. -/
inductive OutermostMatch (p : Ty → Bool) : Ty → Ty → Prop where
  | here {t : Ty} : p t = true → OutermostMatch p t t
  | down {x c t : Ty} : p t = false → c ∈ t.parts → OutermostMatch p x c → OutermostMatch p x t

/-- The members of the result are exactly the outermost matches. -/
theorem C40.members (p : Ty → Bool) (t : Ty) (l : List Ty) (h : collect p t = .ok l) (x : Ty) :
    x ∈ l ↔ OutermostMatch p x t := by
  replace h := (C40.collect_iff p t l).1 h
  induction h with
  | hit h =>
    simp only [List.mem_singleton]
    constructor
    · rintro rfl; exact .here h
    · intro h'; cases h' with
      | here => rfl
      | down h2 => rw [h] at h2; cases h2
  | @miss t ls h hs hl hq ih =>
    simp only [List.mem_flatten]
    constructor
    · rintro ⟨l, hl', hx⟩
      obtain ⟨i, hi, rfl⟩ := List.getElem_of_mem hl'
      have hmem : (t.parts[i]'(by omega), ls[i]) ∈ t.parts.zip ls := by
        rw [List.mem_iff_getElem]
        exact ⟨i, by simp; omega, by simp⟩
      exact .down h (List.of_mem_zip hmem).1 ((ih _ hmem).1 hx)
    · intro hx
      cases hx with
      | here h2 => rw [h] at h2; cases h2
      | down _ hc hx =>
        obtain ⟨i, hi, rfl⟩ := List.getElem_of_mem hc
        have hmem : (t.parts[i], ls[i]'(by omega)) ∈ t.parts.zip ls := by
          rw [List.mem_iff_getElem]
          exact ⟨i, by simp; omega, by simp⟩
        exact ⟨_, (List.of_mem_zip hmem).2, (ih _ hmem).2 hx⟩

/-- If the predicate accepts every class with a parameter that is not a datashape (as `isinstance(·, Unit)` together
with `Categorical` and plain ellipses does), `collect` always returns. -/
theorem C40.total (p : Ty → Bool) (hp : ∀ t, t.scalarParam = true → p t = true) (t : Ty) : ∃ l, collect p t = .ok l := by
  induction hn : sizeOf t using Nat.strongRecOn generalizing t with
  | _ n ih =>
    rw [collect_step]
    split
    · exact ⟨_, rfl⟩
    · rename_i h
      rw [if_neg (fun hs => h (hp t hs))]
      have : ∀ l : List Ty, (∀ c ∈ l, ∃ r, collect p c = .ok r) → ∃ r, collectL p l = .ok r := by
        intro l hl
        induction l with
        | nil => exact ⟨[], rfl⟩
        | cons a l ih =>
          obtain ⟨r, hr⟩ := hl a (by simp)
          obtain ⟨r', hr'⟩ := ih fun c hc => hl c (by simp [hc])
          exact ⟨r ++ r', by simp [collectL, hr, hr', bind, Except.bind]⟩
      apply this
      intro c hc
      rcases parts_sizeOf hc with hlt | ⟨s, rfl⟩
      · exact ih _ (by omega) c rfl
      · exact ⟨[.typevar s], by rw [collect_step, if_pos (hp _ rfl)]⟩

/-- `x` is looked at when `collect(p, t)` searches `t`: nothing around it matches. -/
inductive Reached (p : Ty → Bool) : Ty → Ty → Prop where
  | here {t : Ty} : Reached p t t
  | down {x c t : Ty} : p t = false → c ∈ t.parts → Reached p x c → Reached p x t

theorem collectL_error {p : Ty → Bool} {l : List Ty} {e : PyErr} (h : collectL p l = .error e) :
    ∃ c ∈ l, collect p c = .error e := by
  induction l with
  | nil => cases h
  | cons a l ih =>
    simp only [collectL] at h
    cases ha : collect p a with
    | error f =>
      rw [ha] at h
      simp only [bind, Except.bind, Except.error.injEq] at h
      exact ⟨a, by simp, by rw [ha, h]⟩
    | ok r =>
      cases hb : collectL p l with
      | error f =>
        rw [ha, hb] at h
        simp only [bind, Except.bind, Except.error.injEq] at h
        obtain ⟨c, hc, hx⟩ := ih (by rw [hb, h])
        exact ⟨c, by simp [hc], hx⟩
      | ok r' => rw [ha, hb] at h; cases h

/-- It raises, and then a `TypeError`, exactly if a datashape with a parameter that is no datashape is met: one that does
not match and that nothing around it matches. -/
theorem C40.raises (p : Ty → Bool) (t : Ty) (e : PyErr) : collect p t = .error e ↔
    e = .typeError ∧ ∃ x, Reached p x t ∧ p x = false ∧ x.scalarParam = true := by
  constructor
  · intro h
    induction hn : sizeOf t using Nat.strongRecOn generalizing t with
    | _ n ih =>
      rw [collect_step] at h
      split at h
      · cases h
      · rename_i hp
        split at h
        · rename_i hs
          cases h
          exact ⟨rfl, t, .here, by simpa using hp, hs⟩
        · obtain ⟨c, hc, hx⟩ := collectL_error h
          rcases parts_sizeOf hc with hlt | ⟨s, rfl⟩
          · obtain ⟨he, x, hr, h1, h2⟩ := ih _ (by omega) c hx rfl
            exact ⟨he, x, .down (by simpa using hp) hc hr, h1, h2⟩
          · rw [collect_step] at hx
            split at hx
            · cases hx
            · rename_i hv
              cases hx
              exact ⟨rfl, _, .down (by simpa using hp) hc .here, by simpa using hv, rfl⟩
  · rintro ⟨rfl, x, hr, h1, h2⟩
    have : ∀ l, ¬ Collected p t l := by
      induction hr with
      | here =>
        intro l h
        cases h with
        | hit h => rw [h1] at h; cases h
        | miss _ hs => rw [h2] at hs; cases hs
      | @down c t hp hc hr ih =>
        intro l h
        cases h with
        | hit h => rw [hp] at h; cases h
        | @miss _ ls _ _ hl hq =>
          obtain ⟨i, hi, rfl⟩ := List.getElem_of_mem hc
          have hmem : (t.parts[i], ls[i]'(by omega)) ∈ t.parts.zip ls := by
            rw [List.mem_iff_getElem]
            exact ⟨i, by simp; omega, by simp⟩
          exact ih _ (hq _ hmem)
    cases hc : collect p t with
    | ok l => exact absurd ((C40.collect_iff p t l).1 hc) (this l)
    | error f =>
      have : ∀ t, collect p t = .error f → f = .typeError := by
        intro t h
        induction hn : sizeOf t using Nat.strongRecOn generalizing t with
        | _ n ih =>
          rw [collect_step] at h
          split at h
          · cases h
          · split at h
            · cases h; rfl
            · obtain ⟨c, hc, hx⟩ := collectL_error h
              rcases parts_sizeOf hc with hlt | ⟨s, rfl⟩
              · exact ih _ (by omega) c hx rfl
              · rw [collect_step] at hx
                split at hx
                · cases hx
                · cases hx; rfl
      rw [this t hc]

/-- The classes with a parameter that is no datashape. -/
theorem C40.scalar_parameters (t : Ty) : t.scalarParam = true ↔
    (∃ n i a, t = .ctype n i a) ∨ (∃ z, t = .time z) ∨ (∃ z, t = .datetime z) ∨ (∃ u, t = .timedelta u) ∨
    (∃ u x, t = .units u x) ∨ (∃ n e, t = .string n e) ∨ (∃ p s, t = .decimal p s) ∨ (∃ n, t = .fixed n) ∨
    (∃ s, t = .typevar s) ∨ t = .ellipsis none ∨ (∃ c x o, t = .categorical c x o) ∨ ∃ l n, t = .typeset l n := by
  cases t <;> try (simp [Ty.scalarParam]; done)
  rename_i s
  cases s <;> simp [Ty.scalarParam]

/-- For example `collect(lambda t: isinstance(t, Var), dshape('3 * int32'))` raises `TypeError`. -/
theorem C40.type_error : collect Ty.isVar (.dshape [.fixed 3, tInt32]) = .error .typeError := rfl

/-- the doctest of `collect` -/
example : collect Ty.isUnit (.dshape [.var, .record [(py"value", tInt64), (py"loc", .dshape [.fixed 2, tInt32])]]) =
    .ok [.var, tInt64, .fixed 2, tInt32] := rfl

end DS
