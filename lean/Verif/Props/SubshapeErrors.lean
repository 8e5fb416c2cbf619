import Verif.Spec.YieldErrors
import Verif.Props.SubshapeExact

/-
C19: which error `ds.subshape[index]` raises.
-/
namespace DS

/-- What is to be shown of an index: it yields something or fails, and fails as described. -/
def IndexTotal (i : Index) : Prop :=
  ∀ ps, Constructible ps → GoodRecords ps →
    ((∃ t, Yields i ps t) ∨ ∃ e, IndexFails i ps e) ∧ ∀ e, IndexFails i ps e → subshape i (.dshape ps) = .error e

/-- What is to be shown of the indices in a tuple. -/
def TupleTotal (l : List Index) : Prop :=
  ∀ ps, Constructible ps → GoodRecords ps →
    ((∃ t, InTurns l ps t) ∨ ∃ e, TurnsFail l ps e) ∧ ∀ e, TurnsFail l ps e → subshapeT l (.dshape ps) = .error e

theorem names_iff {fs : List (Str × Ty)} {s : Str} : (∀ t, (s, t) ∉ fs) ↔ s ∉ recordNames fs := by
  simp [recordNames]

theorem no_at {α : Type} {l : List α} {i : Int} (h : ∀ x, ¬ At l i x) : i < -(l.length : Int) ∨ (l.length : Int) ≤ i := by
  apply Classical.byContradiction
  intro hn
  by_cases h0 : 0 ≤ i
  · obtain ⟨k, rfl⟩ := Int.eq_ofNat_of_zero_le h0
    have hk : k < l.length := by omega
    exact h _ (.front k l[k] (List.getElem?_eq_getElem hk))
  · obtain ⟨k, hk⟩ := Int.eq_ofNat_of_zero_le (a := -i) (by omega)
    obtain rfl : i = -(k : Int) := by omega
    have hk : l.length - k < l.length := by omega
    exact h _ (.back k l[l.length - k] (by omega) (by omega) (List.getElem?_eq_getElem hk))

theorem at_bounds {α : Type} {l : List α} {i : Int} {x : α} (h : At l i x) : -(l.length : Int) ≤ i ∧ i < l.length := by
  cases h with
  | front k _ h => obtain ⟨h, -⟩ := List.getElem?_eq_some_iff.1 h; omega
  | back k _ h1 h2 => omega

theorem Picks.index {fs : List (Str × Ty)} {x : LIdx} {f : Str × Ty} (h : Picks fs x f) : FieldIndex fs x := by
  cases h with
  | pos i _ h => exact at_bounds h
  | name s t h => exact List.mem_map.2 ⟨_, h, rfl⟩

theorem fields_total (fs : List (Str × Ty)) (l : List LIdx) : (∃ gs, PicksAll fs l gs) ∨ ∃ e, FieldsFail fs l e := by
  by_cases hm : ∃ s, .str s ∈ l ∧ ∀ t, (s, t) ∉ fs
  · obtain ⟨s, h1, h2⟩ := hm
    exact .inr ⟨_, .missing h1 h2⟩
  · have hn : ∀ s, .str s ∈ l → ∃ t, (s, t) ∈ fs := by
      intro s hs
      apply Classical.byContradiction
      intro h
      exact hm ⟨s, hs, fun t ht => h ⟨t, ht⟩⟩
    have key : ∀ r : List LIdx, ∀ pre, l = pre ++ r → (∀ x ∈ pre, ∃ f, Picks fs x f) →
        (∃ gs, PicksAll fs r gs) ∨ ∃ e, FieldsFail fs l e := by
      intro r
      induction r with
      | nil => intro _ _ _; exact .inl ⟨[], .nil⟩
      | cons x r ih =>
        intro pre e hp
        have hx : (∃ f, Picks fs x f) ∨ ∃ e, FieldsFail fs l e := by
          cases x with
          | other => exact .inr ⟨_, .other hn e hp⟩
          | str s =>
            obtain ⟨t, ht⟩ := hn s (by rw [e]; simp)
            exact .inl ⟨_, .name s t ht⟩
          | int i =>
            by_cases hi : ∃ f, At fs i f
            · obtain ⟨f, hf⟩ := hi
              exact .inl ⟨f, .pos i f hf⟩
            · exact .inr ⟨_, .outside hn e hp fun f hf => hi ⟨f, hf⟩⟩
        rcases hx with ⟨f, hf⟩ | hx
        · rcases ih (pre ++ [x]) (by rw [e]; simp) (by
            intro y hy
            rcases List.mem_append.1 hy with hy | hy
            · exact hp y hy
            · rw [List.mem_singleton.1 hy]; exact ⟨f, hf⟩) with ⟨gs, hgs⟩ | h
          · exact .inl ⟨_, .cons hf hgs⟩
          · exact .inr h
        · exact .inr hx
    exact key l [] rfl (by simp)

theorem fields_fail {fs : List (Str × Ty)} (hg : GoodRecords [.record fs]) {l : List LIdx} {e : PyErr} (h : FieldsFail fs l e) :
    subshape (.list l) (.dshape [.record fs]) = .error e := by
  have hnames : (∀ s, .str s ∈ l → ∃ t, (s, t) ∈ fs) → ∀ s, .str s ∈ l → s ∈ recordNames fs := by
    intro h s hs
    obtain ⟨t, ht⟩ := h s hs
    exact List.mem_map.2 ⟨_, ht, rfl⟩
  have hpre : ∀ {pre : List LIdx}, (∀ x ∈ pre, ∃ f, Picks fs x f) → ∀ x ∈ pre, FieldIndex fs x := by
    intro pre h x hx
    obtain ⟨f, hf⟩ := h x hx
    exact hf.index
  cases h with
  | missing h1 h2 => exact C19.missing_in_list fs l _ h1 (names_iff.1 h2)
  | outside h1 h2 h3 h4 =>
    subst h2
    exact (C19.bad_in_list fs _ _ _ (hnames h1) (hpre h3)).2 _ rfl (no_at h4)
  | other h1 h2 h3 =>
    subst h2
    exact (C19.bad_in_list fs _ _ _ (hnames h1) (hpre h3)).1 rfl
  | twice h1 h2 =>
    obtain ⟨pos, h3, h4⟩ := select_picks hg.fields.1 h1
    simp only [subshape, head_dshape, bind, Except.bind, Ty.fields?, selectRecord, h3, h4, mkRecord, if_neg h2]

theorem list_total (l : List LIdx) : IndexTotal (.list l) := by
  intro ps hc hg
  rcases record_or_dim hc with ⟨fs, rfl⟩ | ⟨d, xs, rfl, hd, hr⟩
  · constructor
    · rcases fields_total fs l with ⟨gs, h⟩ | ⟨e, h⟩
      · by_cases hn : (gs.map (·.1)).Nodup
        · exact .inl ⟨_, .fields h hn⟩
        · exact .inr ⟨_, .fields (.twice h hn)⟩
      · exact .inr ⟨_, .fields h⟩
    · intro e h
      cases h with
      | list _ h => exact absurd rfl (h fs)
      | listAlone _ h => cases h
      | fields h => exact fields_fail hg h
  · constructor
    · cases hdim : isDimension d with
      | false => exact .inr ⟨_, .list l hr hdim⟩
      | true =>
        by_cases hne : xs = []
        · subst hne; exact .inr ⟨_, .listAlone l hdim⟩
        · exact .inl ⟨_, .list l hdim hne⟩
    · intro e h
      cases h with
      | list _ h1 h2 =>
        simp only [subshape, head_dshape, bind, Except.bind, hd, h2]
        rfl
      | listAlone _ h =>
        simp only [subshape, head_dshape, bind, Except.bind, hd, h, if_true, subarray_single]
      | fields => exact absurd rfl (hr _)

theorem int_total (i : Int) : IndexTotal (.int i) := by
  intro ps hc hg
  rcases record_or_dim hc with ⟨fs, rfl⟩ | ⟨d, xs, rfl, hd, hr⟩
  · constructor
    · by_cases h : ∃ f, At fs i f
      · obtain ⟨f, h⟩ := h
        exact .inl ⟨_, .fieldAt h⟩
      · exact .inr ⟨_, .position fun f hf => h ⟨f, hf⟩⟩
    · intro e h
      cases h with
      | int _ h => exact absurd rfl (h fs)
      | intAlone _ h => cases h
      | position h => exact (C19.missing_field fs hg.fields.1).2 i (no_at h)
  · constructor
    · cases hdim : isDimension d with
      | false => exact .inr ⟨_, .int i hr hdim⟩
      | true =>
        by_cases hne : xs = []
        · subst hne; exact .inr ⟨_, .intAlone i hdim⟩
        · exact .inl ⟨_, .int i hdim hne⟩
    · intro e h
      cases h with
      | int _ h1 h2 =>
        simp only [subshape, head_dshape, bind, Except.bind, hd, h2]
        rfl
      | intAlone _ h =>
        simp only [subshape, head_dshape, bind, Except.bind, h, if_true, subarray_single]
      | position => exact absurd rfl (hr _)

theorem str_total (s : Str) : IndexTotal (.str s) := by
  intro ps hc hg
  rcases record_or_dim hc with ⟨fs, rfl⟩ | ⟨d, xs, rfl, hd, hr⟩
  · constructor
    · by_cases h : ∃ t, (s, t) ∈ fs
      · obtain ⟨t, h⟩ := h
        exact .inl ⟨_, .field h⟩
      · exact .inr ⟨_, .key fun t ht => h ⟨t, ht⟩⟩
    · intro e h
      cases h with
      | str _ h => exact absurd rfl (h fs)
      | key h => exact (C19.missing_field fs hg.fields.1).1 s (names_iff.1 h)
  · constructor
    · exact .inr ⟨_, .str s hr⟩
    · intro e h
      cases h with
      | str => simp only [subshape, head_dshape, bind, Except.bind, hd]
      | key => exact absurd rfl (hr _)

theorem slice_total (a b c : Option Int) : IndexTotal (.slice a b c) := by
  intro ps hc hg
  rcases record_or_dim hc with ⟨fs, rfl⟩ | ⟨d, xs, rfl, hd, hr⟩
  · constructor
    · cases h : pySlice fs a b c with
      | ok gs => exact .inl ⟨_, .fieldSlice (slice_fields.1 h)⟩
      | error e =>
        have : c = some 0 := by
          unfold pySlice at h
          cases c with
          | none => simp at h
          | some c =>
            by_cases h0 : c = 0
            · rw [h0]
            · simp [h0] at h
        subst this
        exact .inr ⟨_, .zeroStep fs a b⟩
    · intro e h
      cases h with
      | sliceDim _ h => exact absurd rfl (h fs)
      | sliceStep _ h => exact absurd rfl (h fs)
      | sliceAlone _ h => exact absurd rfl (h fs)
      | zeroStep => rfl
  · by_cases hf : ∃ n, d = .fixed n
    · obtain ⟨n, rfl⟩ := hf
      have hne := fixed_rest hc
      constructor
      · cases h : subshape (.slice a b c) (.dshape (.fixed n :: xs)) with
        | ok t =>
          obtain ⟨e, he, rfl⟩ := (dim_slice hc hne a b c t).1 h
          exact .inl ⟨_, .slice hne he⟩
        | error e => exact .inr ⟨e, .sliceFixed ((C18.every_slice n xs hc a b c _).1 h)⟩
      · intro e h
        cases h with
        | sliceFixed h => exact (C18.every_slice n xs hc a b c _).2 h
        | sliceDim h => exact absurd rfl (h n)
        | sliceStep h => exact absurd rfl (h n)
        | sliceAlone h => exact absurd rfl (h n)
    · have hf' : ∀ n, d ≠ .fixed n := fun n h => hf ⟨n, h⟩
      by_cases hne : xs = []
      · subst hne
        constructor
        · by_cases h : ∃ p q e, KnownBounds a b p q ∧ SliceLength (q - p) c (.error e)
          · obtain ⟨p, q, e, h1, h2⟩ := h
            exact .inr ⟨_, .sliceStep hf' hr h1 h2⟩
          · exact .inr ⟨_, .sliceAlone hf' hr fun p q e h1 h2 => h ⟨p, q, e, h1, h2⟩⟩
        · intro e h
          cases h with
          | sliceFixed h => exact absurd rfl (hf' _)
          | sliceDim _ _ h => exact absurd rfl h
          | sliceStep _ _ h1 h2 => exact (C18.scalar_slice d hr hf' a b c _).2 (.inl ⟨_, _, _, h1, h2, rfl⟩)
          | sliceAlone _ _ h => exact (C18.scalar_slice d hr hf' a b c _).2 (.inr ⟨h, rfl⟩)
          | zeroStep => exact absurd rfl (hr _)
      · constructor
        · cases h : subshape (.slice a b c) (.dshape (d :: xs)) with
          | ok t =>
            obtain ⟨e, he, rfl⟩ := (dim_slice hc hne a b c t).1 h
            exact .inl ⟨_, .slice hne he⟩
          | error e => exact .inr ⟨e, .sliceDim hf' hr hne ((C18.every_dim_slice d hf' xs hne hc a b c _).1 h)⟩
        · intro e h
          cases h with
          | sliceFixed h => exact absurd rfl (hf' _)
          | sliceDim _ _ _ h => exact (C18.every_dim_slice d hf' xs hne hc a b c _).2 h
          | sliceStep => exact absurd rfl hne
          | sliceAlone => exact absurd rfl hne
          | zeroStep => exact absurd rfl (hr _)

theorem tuple_total {l : List Index} (h : TupleTotal l) : IndexTotal (.tuple l) := by
  intro ps hc hg
  obtain ⟨d, xs, rfl⟩ := List.exists_cons_of_ne_nil hc.ne_nil
  have hs : subshape (.tuple l) (.dshape (d :: xs)) = subshapeT l (.dshape (d :: xs)) := by
    rw [subshape]
    simp only [head_dshape, bind, Except.bind]
  rw [hs]
  obtain ⟨h1, h2⟩ := h _ hc hg
  refine ⟨?_, fun e h => by cases h with | tuple h => exact h2 e h⟩
  rcases h1 with ⟨t, h⟩ | ⟨e, h⟩
  · exact .inl ⟨t, .tuple h⟩
  · exact .inr ⟨e, .tuple h⟩

theorem mul_bare_error {d t : Ty} (h : ¬ MayEnd t) : mul (.ty d) (.ty t) = .error .typeError := by
  cases t with
  | fixed n => simp [mul, Operand.toTy, bind, Except.bind, mkDS, checkDS, launderTy, Ty.cls]
  | var => simp [mul, Operand.toTy, bind, Except.bind, mkDS, checkDS, launderTy, Ty.cls]
  | _ => exact absurd ⟨by simp, by simp⟩ h

theorem cons_total {i : Index} {r : List Index} (hi : IndexTotal i) (hr : TupleTotal r) : TupleTotal (i :: r) := by
  intro ps hc hg
  obtain ⟨d, xs, rfl⟩ := List.exists_cons_of_ne_nil hc.ne_nil
  by_cases hin : i = .none
  · subst hin
    obtain ⟨h1, h2⟩ := hr _ hc hg
    have hs : subshapeT (.none :: r) (.dshape (d :: xs)) =
        (subshapeT r (.dshape (d :: xs)) >>= fun t => mul (.int 1) (.ty t)) := by rw [subshapeT]
    constructor
    · rcases h1 with ⟨t, h⟩ | ⟨e, h⟩
      · by_cases he : MayEnd t
        · exact .inl ⟨_, .newaxis h he⟩
        · exact .inr ⟨_, .newaxisBare h he⟩
      · exact .inr ⟨e, .newaxis h⟩
    · intro e h
      rw [hs]
      cases h with
      | newaxis h => rw [h2 _ h]; rfl
      | newaxisBare h he =>
        rw [(tupleParts_exact r _ hc hg _).2 h]
        exact (C17.int_mul_measure 1 _ (bare_ds he)).2.2 (by omega) he
      | last h => exact absurd rfl h
      | alone h => exact absurd rfl h
      | rest h => exact absurd rfl h
      | restBare h => exact absurd rfl h
      | first h => exact absurd rfl h
  · cases r with
    | nil =>
      have hs : subshapeT [i] (.dshape (d :: xs)) = subshape i (.dshape (d :: xs)) := by
        unfold subshapeT
        cases i <;> first | exact absurd rfl hin | rfl
      rw [hs]
      obtain ⟨h1, h2⟩ := hi _ hc hg
      constructor
      · rcases h1 with ⟨t, h⟩ | ⟨e, h⟩
        · exact .inl ⟨t, .last h⟩
        · exact .inr ⟨e, .last hin h⟩
      · intro e h
        cases h with
        | newaxis => exact absurd rfl hin
        | newaxisBare => exact absurd rfl hin
        | last _ h => exact h2 _ h
        | alone _ h => exact absurd rfl h
        | rest _ h => exact absurd rfl h
        | restBare _ h => exact absurd rfl h
        | first _ h => exact absurd rfl h
    | cons j r =>
      have hs : subshapeT (i :: j :: r) (.dshape (d :: xs)) = (do
          let rest ← subarray (.dshape (d :: xs)) 1
          let t ← subshapeT (j :: r) rest
          let d' ← (Ty.dshape (d :: xs)).head
          let x ← mul (.ty d') (.ty t)
          subshape i x) := by
        rw [subshapeT]
        · exact hin
        · simp
      rw [hs]
      by_cases hne : xs = []
      · subst hne
        constructor
        · exact .inr ⟨_, .alone hin (by simp)⟩
        · intro e h
          simp only [bind, Except.bind, subarray_single]
          cases h with
          | newaxis => exact absurd rfl hin
          | newaxisBare => exact absurd rfl hin
          | alone => rfl
          | rest _ _ h => exact absurd rfl h
          | restBare _ _ h => exact absurd rfl h
          | first _ _ h => exact absurd rfl h
      · have hcx := Constructible.suffix (a := [d]) hc hne
        obtain ⟨h1, h2⟩ := hr _ hcx hg.tail
        have hmade : ∀ {t}, InTurns (j :: r) xs t → MayEnd t → Constructible (d :: asParams t) ∧ GoodRecords (d :: asParams t) ∧
            mul (.ty d) (.ty t) = .ok (.dshape (d :: asParams t)) := by
          intro t h he
          have hu := (tupleParts_exact _ _ hcx hg.tail t).2 h
          obtain ⟨-, h2, h3⟩ := (tupleParts_exact _ _ hcx hg.tail t).1 hu
          obtain ⟨hm, hc2⟩ := mul_head hc hne (h2 he)
          exact ⟨hc2, h3.cons hg.head, hm⟩
        constructor
        · rcases h1 with ⟨t, h⟩ | ⟨e, h⟩
          · by_cases he : MayEnd t
            · obtain ⟨g1, g2, -⟩ := hmade h he
              rcases (hi _ g1 g2).1 with ⟨u, hu⟩ | ⟨e, hu⟩
              · exact .inl ⟨u, .more (by simp) hne h he hu⟩
              · exact .inr ⟨e, .first hin (by simp) hne h he hu⟩
            · exact .inr ⟨_, .restBare hin (by simp) hne h he⟩
          · exact .inr ⟨e, .rest hin (by simp) hne h⟩
        · intro e h
          simp only [bind, Except.bind, subarray_one hc hne, head_dshape]
          cases h with
          | newaxis => exact absurd rfl hin
          | newaxisBare => exact absurd rfl hin
          | alone => exact absurd rfl hne
          | rest _ _ _ h => rw [h2 _ h]
          | restBare _ _ _ h he => rw [(tupleParts_exact _ _ hcx hg.tail _).2 h]; simp only [mul_bare_error he]
          | first _ _ _ h he hf =>
            obtain ⟨g1, g2, g3⟩ := hmade h he
            rw [(tupleParts_exact _ _ hcx hg.tail _).2 h]
            simp only [g3]
            exact (hi _ g1 g2).2 e hf

mutual
theorem index_total : ∀ i : Index, IndexTotal i
  | .none => by
    intro ps hc hg
    obtain ⟨d, xs, rfl⟩ := List.exists_cons_of_ne_nil hc.ne_nil
    exact ⟨.inr ⟨_, .none _⟩, fun e h => by cases h; rfl⟩
  | .other => by
    intro ps hc hg
    obtain ⟨d, xs, rfl⟩ := List.exists_cons_of_ne_nil hc.ne_nil
    exact ⟨.inr ⟨_, .other _⟩, fun e h => by cases h; rfl⟩
  | .int i => int_total i
  | .str s => str_total s
  | .list l => list_total l
  | .slice a b c => slice_total a b c
  | .tuple l => tuple_total (tupleParts_total l)
theorem tupleParts_total : ∀ l : List Index, TupleTotal l
  | [] => fun ps _ _ => ⟨.inl ⟨_, .none ps⟩, fun e h => by cases h⟩
  | i :: r => cons_total (index_total i) (tupleParts_total r)
end

/-- Exactly which error `ds.subshape[index]` raises, for every index. -/
theorem C19.errors (i : Index) (ps : List Ty) (hcon : Constructible ps) (hf : GoodRecords ps) (e : PyErr) :
    subshape i (.dshape ps) = .error e ↔ IndexFails i ps e := by
  obtain ⟨h1, h2⟩ := index_total i ps hcon hf
  refine ⟨fun h => ?_, h2 e⟩
  rcases h1 with ⟨t, ht⟩ | ⟨e', he⟩
  · rw [(C19.exactly i ps hcon hf t).2 ht] at h; cases h
  · have := h2 e' he
    rw [h] at this
    cases this
    exact he

/-- In particular for every datashape that `dshape` makes from a text. -/
theorem C19.parsed_errors (env : Env) (disc : List Lit → Except PyErr Ty) (hdisc : ∀ l t, disc l = .ok t → WF env t)
    (text : Str) (ds : Ty) (h : dshape env disc text = .ok ds) :
    ∃ ps, ds = .dshape ps ∧ ∀ i e, subshape i ds = .error e ↔ IndexFails i ps e := by
  obtain ⟨ps, rfl, hc, hg⟩ := parsed_good env disc hdisc text ds h
  exact ⟨ps, rfl, fun i e => C19.errors i ps hc hg e⟩

/-- For instance of `5 * {x: 3 * int32, y: date}`: too many indices, a missing field behind a slice (which comes before the slice
itself, of step 0), a bad slice alone, and a field twice. -/
example (env : Env) : let ps := [.fixed 5, .record [(py"x", .dshape [.fixed 3, tInt32]), (py"y", .date)]]
    IndexFails (.tuple [.int 0, .int 0, .int 0]) ps .indexError ∧
    IndexFails (.tuple [.slice none none (some 0), .str (py"z")]) ps .keyError ∧
    IndexFails (.slice none none (some 0)) ps .zeroDivision ∧
    IndexFails (.tuple [.int 0, .list [.int 0, .str (py"x")]]) ps .valueError := by
  obtain ⟨ps, e, h⟩ := C19.parsed_errors env (fun _ => .error .unmodelled) (fun _ _ h => by cases h)
    (py"5 * {x: 3 * int32, y: date}") _ rfl
  cases e
  exact ⟨(h _ _).1 rfl, (h _ _).1 rfl, (h _ _).1 rfl, (h _ _).1 rfl⟩

end DS
