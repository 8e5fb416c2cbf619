import Verif.Model.Sequence
import Verif.Props.Subshape
import Verif.Props.Util
import Verif.Props.Typesets

/-
C52: a datashape is the sequence of its dimensions followed by its measure.
-/
namespace DS

theorem pyGet_iff {α : Type} (l : List α) (i : Int) (x : α) : pyGet l i = .ok x ↔ At l i x := by
  constructor
  · intro h
    by_cases hr : i < -(l.length : Int) ∨ (l.length : Int) ≤ i
    · rw [pyGet_error l i hr] at h; cases h
    · by_cases h0 : i < 0
      · obtain ⟨k, rfl⟩ : ∃ k : Nat, i = -(k : Int) := ⟨i.natAbs, by omega⟩
        cases hk : l[l.length - k]? with
        | none => rw [List.getElem?_eq_none_iff] at hk; omega
        | some y =>
          have := At.back k y (by omega) (by omega) hk
          have e := pyGet_at this
          rw [h] at e
          cases e
          exact this
      · obtain ⟨k, rfl⟩ := Int.eq_ofNat_of_zero_le (by omega : 0 ≤ i)
        cases hk : l[k]? with
        | none => rw [List.getElem?_eq_none_iff] at hk; simp at hr; omega
        | some y =>
          have := At.front k y hk
          have e := pyGet_at this
          rw [h] at e
          cases e
          exact this
  · exact pyGet_at

theorem iterates_unique {get : Int → Except PyErr Ty} {i : Nat} {r s : Except PyErr (List Ty)}
    (h : Iterates get i r) : Iterates get i s → r = s := by
  induction h generalizing s with
  | stop h => intro hs; cases hs <;> simp_all
  | raise h hne => intro hs; cases hs <;> simp_all
  | next h _ ih =>
    intro hs
    cases hs with
    | stop h' => rw [h] at h'; cases h'
    | raise h' _ => rw [h] at h'; cases h'
    | next h' hr => rw [h] at h'; cases h'; cases ih hr; rfl
    | nextRaise h' hr => cases ih hr
  | nextRaise h _ ih =>
    intro hs
    cases hs with
    | stop h' => rw [h] at h'; cases h'
    | raise h' _ => rw [h] at h'; cases h'
    | next h' hr => cases ih hr
    | nextRaise h' hr => rw [h] at h'; cases h'; cases ih hr; rfl

theorem iterates_list (l : List Ty) : ∀ k i : Nat, i + k = l.length → Iterates (pyGet l) i (.ok (l.drop i)) := by
  intro k
  induction k with
  | zero =>
    intro i h
    rw [List.drop_of_length_le (by omega)]
    exact .stop (pyGet_error l i (by omega))
  | succ k ih =>
    intro i h
    have hi : i < l.length := by omega
    rw [List.drop_eq_getElem_cons hi]
    exact .next (pyGet_at (.front i _ (List.getElem?_eq_getElem hi))) (ih (i + 1) (by omega))

/-- `len(ds)` is the number of dimensions plus one; every other type (but a `TypeSet`) has length one; so no datashape
is falsy. -/
theorem C52.length (t : Ty) :
    (∀ ps, t = .dshape ps → Constructible ps → t.len = t.shape.length + 1) ∧
    (t.isDShape = false → (∀ o n, t ≠ .typeset o n) → t.len = 1) := by
  constructor
  · rintro ps rfl ⟨dims, m, rfl, _⟩
    simp [Ty.len, Ty.shape]
  · intro h hn
    cases t <;> first | rfl | (simp [Ty.isDShape] at h; done) | exact absurd rfl (hn _ _)

/-- The length of a `TypeSet` is the number of its distinct members, so an empty one is falsy. -/
theorem C52.typeset_length (o : List Ty) (n : Option Str) (ht : TsOk (.typeset o n)) (k : Nat) : (Ty.typeset o n).len = k ↔
    ∃ l : List Ty, l.length = k ∧ (∀ x ∈ l, x ∈ o) ∧ (l.Pairwise fun x y => pyEq x y = false) ∧ ∀ x ∈ o, ∃ y ∈ l, pyEq x y = true :=
  C32.len _ ht k

/-- `ds[i]` is the `i`-th of the dimensions followed by the measure; negative positions count from the end, and any
other position raises `IndexError`. -/
theorem C52.index (ps : List Ty) (hc : Constructible ps) (i : Int) :
    (∀ x, (Ty.dshape ps).item i = .ok x ↔ At ((Ty.dshape ps).shape ++ [(Ty.dshape ps).measure]) i x) ∧
    ((Ty.dshape ps).item i = .error .indexError ↔ i < -((Ty.dshape ps).len : Int) ∨ ((Ty.dshape ps).len : Int) ≤ i) := by
  obtain ⟨dims, m, rfl, _⟩ := hc
  have e : (Ty.dshape (dims ++ [m])).shape ++ [(Ty.dshape (dims ++ [m])).measure] = dims ++ [m] := by
    simp [Ty.shape, Ty.measure]
  rw [e]
  refine ⟨fun x => pyGet_iff _ i x, fun h => ?_, fun h => pyGet_error _ i h⟩
  simp only [Ty.item] at h
  simp only [Ty.len]
  by_cases hr : i < -((dims ++ [m]).length : Int) ∨ ((dims ++ [m]).length : Int) ≤ i
  · exact hr
  · exfalso
    by_cases h0 : i < 0
    · obtain ⟨k, rfl⟩ : ∃ k : Nat, i = -(k : Int) := ⟨i.natAbs, by omega⟩
      have hk : (dims ++ [m]).length - k < (dims ++ [m]).length := by omega
      rw [pyGet_at (.back k _ (by omega) (by omega) (List.getElem?_eq_getElem hk))] at h
      cases h
    · obtain ⟨k, rfl⟩ := Int.eq_ofNat_of_zero_le (by omega : 0 ≤ i)
      have hk : k < (dims ++ [m]).length := by simp at hr; simp; omega
      rw [pyGet_at (.front k _ (List.getElem?_eq_getElem hk))] at h
      cases h

/-- In particular `ds[-1]` is the measure. -/
theorem C52.last (ps : List Ty) (hc : Constructible ps) : (Ty.dshape ps).item (-1) = .ok (Ty.dshape ps).measure := by
  rw [(C52.index ps hc (-1)).1]
  refine .back 1 _ (by omega) (by simp) (by simp)

/-- `list(ds)` and `*ds` are the dimensions followed by the measure: the iteration ends, and yields exactly these. -/
theorem C52.iterate (ps : List Ty) (hc : Constructible ps) (r : Except PyErr (List Ty)) :
    (Ty.dshape ps).listResult r ↔ r = .ok ((Ty.dshape ps).shape ++ [(Ty.dshape ps).measure]) := by
  obtain ⟨dims, m, rfl, _⟩ := hc
  have e : (Ty.dshape (dims ++ [m])).shape ++ [(Ty.dshape (dims ++ [m])).measure] = dims ++ [m] := by
    simp [Ty.shape, Ty.measure]
  rw [e]
  have h : (Ty.dshape (dims ++ [m])).listResult (.ok (dims ++ [m])) := by
    have := iterates_list (dims ++ [m]) (dims ++ [m]).length 0 (by omega)
    rw [List.drop_zero] at this
    exact this
  exact ⟨fun hr => iterates_unique hr h, fun hr => hr ▸ h⟩

/-- `DataShape(*ds)` is `ds` again. -/
theorem C52.rebuild (ps l : List Ty) (hc : Constructible ps) (h : (Ty.dshape ps).listResult (.ok l)) :
    mkDS l = .ok (.dshape ps) := by
  have := (C52.iterate ps hc _).1 h
  obtain ⟨dims, m, rfl, hd, hm, hs⟩ := hc
  simp [Ty.shape, Ty.measure] at this
  subst this
  exact mkDS_self.2 ⟨dims, m, rfl, hd, hm, hs⟩

/-- A slice of a datashape selects from the dimensions followed by the measure as a slice of a list does. -/
theorem C52.slice (ps : List Ty) (hc : Constructible ps) (a b c : Option Int) (h : 1 ≤ c.getD 1) :
    (Ty.dshape ps).itemSlice a b c =
      .ok ((selected (Ty.dshape ps).len a b (c.getD 1)).filterMap
        fun i => ((Ty.dshape ps).shape ++ [(Ty.dshape ps).measure])[i]?) := by
  obtain ⟨dims, m, rfl, _⟩ := hc
  have e : (Ty.dshape (dims ++ [m])).shape ++ [(Ty.dshape (dims ++ [m])).measure] = dims ++ [m] := by
    simp [Ty.shape, Ty.measure]
  rw [e]
  exact pySlice_pos _ a b c h

/-- `ds[k:]` are the dimensions left after `ds.subarray(k)`, followed by the measure. -/
theorem C52.tail (ps : List Ty) (hc : Constructible ps) (k : Nat) (hk : k < (Ty.dshape ps).len) :
    ∃ qs, (Ty.dshape ps).itemSlice (some k) none none = .ok qs ∧ subarray (.dshape ps) k = .ok (.dshape qs) := by
  simp only [Ty.len] at hk
  obtain ⟨qs, h1, -, -, -⟩ := C16.measure ps hc k hk
  have h2 := C16.drops (ps.take k) (ps.drop k) (by rw [List.take_append_drop]; exact hc)
    (by intro h; have := congrArg List.length h; simp at this; omega)
  rw [List.take_append_drop, List.length_take, Nat.min_eq_left (by omega)] at h2
  refine ⟨ps.drop k, ?_, h2⟩
  simp only [Ty.itemSlice, pySlice, Option.getD_none]
  rw [if_neg (by decide)]
  congr 1
  have hb : sliceBounds ps.length (some (k : Int)) none 1 = ((k : Int), (ps.length : Int)) := by
    simp only [sliceBounds]
    rw [if_neg (by omega), if_neg (by omega), if_neg (by omega)]
    congr 1; omega
  have hr : rangeLen (k : Int) (ps.length : Int) 1 = ps.length - k := by
    unfold rangeLen
    rw [if_pos (by omega), if_pos (by omega), Int.ediv_one]
    omega
  rw [hb]
  simp only [hr]
  apply List.ext_getElem?
  intro j
  rw [List.getElem?_drop]
  have key : ∀ n, n ≤ ps.length - k →
      (List.range n).filterMap (fun j : Nat => ps[((k : Int) + (j : Int) * 1).toNat]?) = (ps.drop k).take n := by
    intro n
    induction n with
    | zero => intro _; rfl
    | succ n ih =>
      intro hn
      rw [List.range_succ, List.filterMap_append, ih (by omega)]
      have hx : ((k : Int) + (n : Int) * 1).toNat = k + n := by omega
      have hlt : k + n < ps.length := by omega
      simp only [List.filterMap_cons, List.filterMap_nil, hx, List.getElem?_eq_getElem hlt]
      rw [List.take_succ, List.getElem?_drop, List.getElem?_eq_getElem hlt]
      rfl
  rw [key _ (Nat.le_refl _), List.take_of_length_le (by simp), List.getElem?_drop]

/-- A type that is not a datashape, nor a record, nor a type set, is the sequence of just itself. -/
theorem C52.scalar (t : Ty) (hd : t.isDShape = false) (hr : t.isRecord = false) :
    (∀ i x, t.item i = .ok x ↔ x = t ∧ (i = 0 ∨ i = -1)) ∧ ∀ r, t.listResult r ↔ r = .ok [t] := by
  have e : t.item = pyGet [t] := by
    funext i
    cases t <;> first | rfl | (simp [Ty.isDShape] at hd; done) | (simp [Ty.isRecord] at hr; done)
  constructor
  · intro i x
    rw [e, pyGet_iff]
    constructor
    · intro h
      cases h with
      | front k _ h =>
        cases k with
        | zero => simp at h; exact ⟨h.symm, .inl rfl⟩
        | succ k => simp at h
      | back k _ hk hle h =>
        have : k = 1 := by simp at hle; omega
        subst this
        simp at h
        exact ⟨h.symm, .inr rfl⟩
    · rintro ⟨rfl, rfl | rfl⟩
      · exact .front 0 x rfl
      · exact .back 1 x (by omega) (by simp) rfl
  · intro r
    have h : t.listResult (.ok [t]) := by
      have := iterates_list [t] 1 0 rfl
      simpa [Ty.listResult, e] using this
    exact ⟨fun hr => iterates_unique hr h, fun hr => hr ▸ h⟩

/-- A record is not a sequence: although `len(r) == 1`, `r[i]` raises `KeyError` for every int, and so does iterating over
it. `r[name]` is the type of the field (C14). -/
theorem C52.record (fs : List (Str × Ty)) : (Ty.record fs).len = 1 ∧
    (∀ i, (Ty.record fs).item i = .error .keyError) ∧ ∀ r, (Ty.record fs).listResult r ↔ r = .error .keyError := by
  refine ⟨rfl, fun _ => rfl, fun r => ?_⟩
  have h : (Ty.record fs).listResult (.error .keyError) := .raise rfl (by simp)
  exact ⟨fun hr => iterates_unique hr h, fun hr => hr ▸ h⟩

/-- `n * ds` is one longer than `ds`, and `ds.subarray(k)` is `k` shorter. -/
theorem C52.arithmetic (ps : List Ty) (hc : Constructible ps) (n k : Nat) (hk : k < ps.length) :
    (∃ t, mul (.int n) (.ty (.dshape ps)) = .ok t ∧ t.len = (Ty.dshape ps).len + 1) ∧
    ∃ t, subarray (.dshape ps) k = .ok t ∧ t.len + k = (Ty.dshape ps).len := by
  constructor
  · rw [C17.int_mul n ps hc, if_neg (by omega)]
    exact ⟨_, rfl, by simp [Ty.len]⟩
  · obtain ⟨qs, h1, h2⟩ := C52.tail ps hc k hk
    refine ⟨_, h2, ?_⟩
    obtain ⟨qs', h3, -, h4, h5⟩ := C16.measure ps hc k hk
    rw [h2] at h3
    cases h3
    have a := (C52.length (.dshape qs)).1 qs rfl h5
    have b := (C52.length (.dshape ps)).1 ps rfl hc
    rw [a, b, h4, List.length_drop]
    rw [Ty.len] at b
    omega

/-- A function type: its argument types, then its result type. -/
theorem C52.function (as : List Ty) (r : Ty) :
    funcArgtypes (as ++ [r]) = .ok as ∧ funcRestype (as ++ [r]) = .ok r := by
  constructor
  · simp only [funcArgtypes]
    rw [pySlice_pos _ _ _ _ (by decide)]
    congr 1
    have hs : selected (as ++ [r]).length none (some (-1)) (Option.none.getD 1) = List.range as.length := by
      have hb : bound (as.length + 1) ((as.length + 1 : Nat) : Int) (some (-1)) = as.length := by
        simp only [bound]; omega
      unfold selected
      rw [show (as ++ [r]).length = as.length + 1 by simp, hb, List.range_succ, List.filter_append]
      rw [List.filter_eq_self.2, List.filter_eq_nil_iff.2, List.append_nil]
      · intro i hi
        simp only [List.mem_singleton] at hi
        subst hi
        simp
      · intro i hi
        have := List.mem_range.1 hi
        simp [bound, this]
    rw [hs]
    have key : ∀ n, n ≤ as.length → (List.range n).filterMap (fun i => (as ++ [r])[i]?) = as.take n := by
      intro n
      induction n with
      | zero => intro _; simp
      | succ n ih =>
        intro hn
        rw [List.range_succ, List.filterMap_append, ih (by omega)]
        have hlt : n < as.length := by omega
        simp only [List.filterMap_cons, List.filterMap_nil, List.getElem?_append_left hlt, List.getElem?_eq_getElem hlt]
        rw [List.take_succ, List.getElem?_eq_getElem hlt]
        rfl
    rw [key _ (Nat.le_refl _), List.take_length]
  · exact pyGet_at (.back 1 r (by omega) (by simp) (by simp))

/-- The size of every sized type is that of its NumPy dtype, and its alignment divides it. -/
theorem C52.sizes (t : Ty) (ht : t ∈ ctypes) :
    ∃ n a, t.size = .ok n ∧ t.alignment = .ok a ∧ a ∣ n ∧
      ∀ p, toDtype t .method = .ok (.prim p) → p.itemsize = n := by
  simp only [ctypes, List.mem_cons, List.not_mem_nil, or_false] at ht
  have key : ∀ {x : Ty} {p₀ : Prim} {n : Nat}, toDtype x .method = .ok (.prim p₀) → p₀.itemsize = n →
      ∀ p, toDtype x .method = .ok (.prim p) → p.itemsize = n := by
    intro x p₀ n h h2 p h3
    rw [h] at h3
    cases h3
    exact h2
  rcases ht with rfl | rfl | rfl | rfl | rfl | rfl | rfl | rfl | rfl | rfl | rfl | rfl | rfl | rfl | rfl | rfl | rfl <;>
    refine ⟨_, _, rfl, rfl, by decide, ?_⟩ <;>
    first
    | exact key (p₀ := .bool) rfl rfl | exact key (p₀ := .int8) rfl rfl | exact key (p₀ := .int16) rfl rfl
    | exact key (p₀ := .int32) rfl rfl | exact key (p₀ := .int64) rfl rfl | exact key (p₀ := .uint8) rfl rfl
    | exact key (p₀ := .uint16) rfl rfl | exact key (p₀ := .uint32) rfl rfl | exact key (p₀ := .uint64) rfl rfl
    | exact key (p₀ := .float16) rfl rfl | exact key (p₀ := .float32) rfl rfl | exact key (p₀ := .float64) rfl rfl
    | exact key (p₀ := .complex64) rfl rfl | exact key (p₀ := .complex128) rfl rfl
    | exact key (p₀ := .void) rfl rfl | exact key (p₀ := .object) rfl rfl
    | (intro p h; cases h)

/-- The name, the size and the alignment of the sized types, in bytes: a number of `8k` bits takes `k` bytes and is aligned to
them, a complex number is two floats, a pointer takes eight. -/
inductive SizedType : Str → Nat → Nat → Prop where
  | bool : SizedType (py"bool") 1 1
  | char : SizedType (py"char") 1 1
  | int {k} : k ∈ [1, 2, 4, 8] → SizedType (py"int" ++ natStr (8 * k)) k k
  | uint {k} : k ∈ [1, 2, 4, 8] → SizedType (py"uint" ++ natStr (8 * k)) k k
  | float {k} : k ∈ [2, 4, 8] → SizedType (py"float" ++ natStr (8 * k)) k k
  | complex {k} : k ∈ [4, 8] → SizedType (py"complex[float" ++ natStr (8 * k) ++ py"]") (2 * k) k
  | void : SizedType (py"void") 0 1
  | object : SizedType (py"object") 8 8

/-- The sized types that the package defines are these, and each of them once. -/
theorem C52.sized : (∀ t, t ∈ ctypes ↔ ∃ n i a, SizedType n i a ∧ t = .ctype n i a) ∧ ctypes.Pairwise (pyEq · · = false) := by
  refine ⟨fun t => ⟨fun h => ?_, ?_⟩, ?_⟩
  · simp only [ctypes, List.mem_cons, List.not_mem_nil, or_false] at h
    rcases h with rfl | rfl | rfl | rfl | rfl | rfl | rfl | rfl | rfl | rfl | rfl | rfl | rfl | rfl | rfl | rfl | rfl
    · exact ⟨_, _, _, .bool, rfl⟩
    · exact ⟨_, _, _, .char, rfl⟩
    · exact ⟨_, _, _, .int (k := 1) (by simp), rfl⟩
    · exact ⟨_, _, _, .int (k := 2) (by simp), rfl⟩
    · exact ⟨_, _, _, .int (k := 4) (by simp), rfl⟩
    · exact ⟨_, _, _, .int (k := 8) (by simp), rfl⟩
    · exact ⟨_, _, _, .uint (k := 1) (by simp), rfl⟩
    · exact ⟨_, _, _, .uint (k := 2) (by simp), rfl⟩
    · exact ⟨_, _, _, .uint (k := 4) (by simp), rfl⟩
    · exact ⟨_, _, _, .uint (k := 8) (by simp), rfl⟩
    · exact ⟨_, _, _, .float (k := 2) (by simp), rfl⟩
    · exact ⟨_, _, _, .float (k := 4) (by simp), rfl⟩
    · exact ⟨_, _, _, .float (k := 8) (by simp), rfl⟩
    · exact ⟨_, _, _, .complex (k := 4) (by simp), rfl⟩
    · exact ⟨_, _, _, .complex (k := 8) (by simp), rfl⟩
    · exact ⟨_, _, _, .void, rfl⟩
    · exact ⟨_, _, _, .object, rfl⟩
  · rintro ⟨n, i, a, h, rfl⟩
    simp only [ctypes, List.mem_cons, List.not_mem_nil, or_false]
    cases h with
    | int h | uint h | float h | complex h =>
      simp only [List.mem_cons, List.not_mem_nil, or_false] at h
      rcases h with rfl | rfl | rfl | rfl <;> repeat (first | exact .inl rfl | exact rfl | refine .inr ?_)
    | _ => repeat (first | exact .inl rfl | exact rfl | refine .inr ?_)
  · decide +kernel

/-- The size of one element: a sized type has its own, an option has that of what it may hold. -/
inductive HasSize : Ty → Nat → Prop where
  | sized {n : Str} (i a : Nat) : HasSize (.ctype n i a) i
  | option {t : Ty} {i : Nat} : HasSize t i → HasSize (.option t) i

/-- `t.itemsize` is the size, and there is an `AttributeError` for whatever has none; `t.alignment` is that of a sized type, and
there is an `AttributeError` for every other datashape, options included. -/
theorem C52.attributes (t : Ty) : (∀ i, t.size = .ok i ↔ HasSize t i) ∧
    (∀ e, t.size = .error e ↔ (¬ ∃ i, HasSize t i) ∧ e = .attributeError) ∧
    (∀ a, t.alignment = .ok a ↔ ∃ n i, t = .ctype n i a) ∧
    (∀ e, t.alignment = .error e ↔ (¬ ∃ n i a, t = .ctype n i a) ∧ e = .attributeError) := by
  have h1 : ∀ {t i}, HasSize t i → t.size = .ok i := by
    intro t i h
    induction h with
    | sized => rfl
    | option _ ih => exact ih
  have h2 : ∀ t : Ty, (∃ i, t.size = .ok i ∧ HasSize t i) ∨ t.size = .error .attributeError := by
    intro t
    fun_induction Ty.size t with
    | case1 n i a => exact .inl ⟨i, rfl, .sized i a⟩
    | case2 t ih => exact ih.imp (fun ⟨i, h, k⟩ => ⟨i, h, .option k⟩) id
    | case3 => exact .inr rfl
  refine ⟨fun i => ⟨fun h => ?_, h1⟩, fun e => ⟨fun h => ?_, fun ⟨h, he⟩ => ?_⟩, fun a => ?_, fun e => ?_⟩
  · rcases h2 t with ⟨j, hj, k⟩ | hj
    · rw [hj] at h; cases h; exact k
    · rw [hj] at h; cases h
  · rcases h2 t with ⟨j, hj, _⟩ | hj
    · rw [hj] at h; cases h
    · refine ⟨fun ⟨i, hi⟩ => ?_, ?_⟩
      · rw [h1 hi] at hj; cases hj
      · rw [hj] at h; cases h; rfl
  · rcases h2 t with ⟨j, _, k⟩ | hj
    · exact absurd ⟨j, k⟩ h
    · rw [hj, he]
  · cases t <;> simp [Ty.alignment]
  · cases t <;> simp [Ty.alignment, eq_comm]

/-- `complex[float64]` takes sixteen bytes and is aligned to eight; an option of it has the size and no alignment. -/
example : tComplex128.size = .ok 16 ∧ tComplex128.alignment = .ok 8 ∧ (Ty.option tComplex128).size = .ok 16 ∧
    (Ty.option tComplex128).alignment = .error .attributeError := ⟨rfl, rfl, rfl, rfl⟩

/-- An option has the size of what it may hold, at any depth of options. -/
theorem C52.option_size (t : Ty) : (Ty.option t).size = t.size ∧ (Ty.option t).len = 1 ∧ (Ty.option t).ndim = t.ndim :=
  ⟨rfl, rfl, rfl⟩

/-- A fixed dimension is usable as the number it was made of, and only a fixed dimension is: `int(t)` raises `TypeError` for
    every other type. -/
theorem C52.as_number (i : Int) (t : Ty) : (∀ d, mkFixed i = .ok d → d.toInt = .ok i) ∧
    ((∃ j, t.toInt = .ok j) ↔ ∃ n, t = .fixed n) ∧
    ∀ e, t.toInt = .error e ↔ (¬∃ n, t = .fixed n) ∧ e = .typeError := by
  refine ⟨?_, ?_, fun e => by cases t <;> simp [Ty.toInt, eq_comm]⟩
  · intro d h
    unfold mkFixed at h
    split at h
    · cases h
    · cases h; simp only [Ty.toInt]; congr 1; omega
  · constructor
    · rintro ⟨j, h⟩; cases t <;> first | exact ⟨_, rfl⟩ | cases h
    · rintro ⟨n, rfl⟩; exact ⟨_, rfl⟩

/-! A concrete case: `dshape('3 * var * int32')`. -/
example : Constructible [.fixed 3, .var, tInt32] :=
  .of ⟨[.fixed 3, .var], tInt32, rfl, by simp [Ty.cls], by simp [Ty.cls, tInt32], by simp [Ty.isSingleton, tInt32]⟩
example : (Ty.dshape [.fixed 3, .var, tInt32]).item (-3) = .ok (.fixed 3) ∧
    (Ty.dshape [.fixed 3, .var, tInt32]).item 3 = .error .indexError ∧
    (Ty.dshape [.fixed 3, .var, tInt32]).itemSlice (some 1) none none = .ok [.var, tInt32] := ⟨rfl, rfl, rfl⟩

end DS
