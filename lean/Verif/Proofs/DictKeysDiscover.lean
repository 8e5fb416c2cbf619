import Verif.Proofs.DictKeys
import Verif.Props.Sequences

/-
`discover` of values with dicts whose keys are strings, numbers or `None`.
-/
namespace DS

theorem intStr_inj {i j : Int} (h : intStr i = intStr j) : i = j := by
  have dash : ∀ n m : Nat, natStr n ≠ 45 :: natStr m := by
    intro n m e
    have := natStr_digits n 45 (by rw [e]; simp)
    simp [isDigit] at this
  have inj : ∀ n m : Nat, natStr n = natStr m → n = m := by
    intro n m e
    rw [← digitsVal_natStr n, e, digitsVal_natStr]
  cases i with
  | ofNat n => cases j with
    | ofNat m => rw [inj n m h]
    | negSucc m => exact absurd h (dash n (m + 1))
  | negSucc n => cases j with
    | ofNat m => exact absurd h.symm (dash m (n + 1))
    | negSucc m =>
      simp only [intStr, List.cons.injEq, true_and] at h
      have := inj _ _ h
      congr 1
      omega

theorem intStr_no_letter (i : Int) (c : Nat) (hc : 65 ≤ c) : c ∉ intStr i := by
  have key : ∀ n : Nat, c ∉ natStr n := by
    intro n h
    have := natStr_digits n c h
    simp only [isDigit, Bool.and_eq_true, decide_eq_true_eq] at this
    omega
  cases i with
  | ofNat n => exact key n
  | negSucc n =>
    simp only [intStr, List.mem_cons, not_or]
    exact ⟨by omega, key _⟩

theorem before_text {a b : DKey} (h : KeyBefore a b) : a.text ≠ b.text := by
  have no : ∀ (i : Int) (w : Bool), intStr i ≠ (DKey.bool w).text := by
    intro i w e
    cases w
    · exact intStr_no_letter i 70 (by omega) (by rw [e]; decide)
    · exact intStr_no_letter i 84 (by omega) (by rw [e]; decide)
  cases h with
  | @str s t h =>
    intro e
    have e : s = t := e
    subst e
    exact List.lt_irrefl _ h
  | num h1 h2 h3 =>
    cases h1 <;> cases h2
    all_goals first
      | (intro e; have := intStr_inj e; omega)
      | exact no _ _
      | exact fun e => no _ _ e.symm
      | omega
      | decide

theorem texts_nodup {ks : List DKey} (h : ks.Pairwise KeyBefore) : (ks.map DKey.text).Nodup := by
  unfold List.Nodup
  rw [List.pairwise_map]
  exact h.imp before_text

theorem each_names {ks : List DKey} {names : List Str} : Each NameOf ks names ↔ names = ks.map DKey.text := by
  constructor
  · intro h
    induction h with
    | nil => rfl
    | cons h _ ih => rw [List.map_cons, ← ih, (nameOf_iff _ _).1 h]
  · rintro rfl
    induction ks with
    | nil => exact .nil
    | cons k ks ih => exact .cons ((nameOf_iff _ _).2 rfl) ih

/-! ### The parts of a value -/

theorem KObj.ind {P : KObj → Prop} (val : ∀ v, P (.val v)) (seq : ∀ k l, (∀ v ∈ l, P v) → P (.seq k l))
    (dict : ∀ l : List (DKey × KObj), (∀ e ∈ l, P e.2) → P (.dict l))
    (od : ∀ l : List (DKey × KObj), (∀ e ∈ l, P e.2) → P (.od l))
    (mp : ∀ l : List (DKey × KObj), (∀ e ∈ l, P e.2) → P (.mp l)) : ∀ v, P v := by
  intro v
  refine KObj.rec (motive_1 := P) (motive_2 := fun l => ∀ v ∈ l, P v)
    (motive_3 := fun l => ∀ e ∈ l, P e.2) (motive_4 := fun e => P e.2)
    val (fun k l h => seq k l h) dict od mp ?_ ?_ ?_ ?_ ?_ v
  · intro t h; cases h
  · intro a l ha hl t h
    cases h with
    | head => exact ha
    | tail _ h => exact hl t h
  · intro t h; cases h
  · intro a l ha hl t h
    cases h with
    | head => exact ha
    | tail _ h => exact hl t h
  · intro a b h; exact h

section
variable (strTy : Str → Except PyErr Ty) (topo : List Node)

theorem discoverItemsK_eq (l : List KObj) : discoverItemsK strTy topo l = l.map (discoverItemK strTy topo) := by
  induction l with
  | nil => rfl
  | cons v l ih => rw [discoverItemsK, ih]; rfl

theorem discoverEntriesK_eq (l : List (DKey × KObj)) :
    discoverEntriesK strTy topo l = l.map fun kv => (kv.1, discoverK strTy topo kv.2) := by
  induction l with
  | nil => rfl
  | cons v l ih => rw [discoverEntriesK, ih]; rfl

theorem discoverK_seq (k : SeqKind) (l : List KObj) :
    discoverK strTy topo (.seq k l) = discoverSeqK topo (l.map (discoverItemK strTy topo)) := by
  rw [discoverK, discoverItemK, ← discoverItemsK_eq]

theorem discoverK_od (es : List (DKey × KObj)) :
    discoverK strTy topo (.od es) = recordOf (es.map fun e => (e.1.text, discoverK strTy topo e.2)) := by
  rw [discoverK, discoverItemK, discoverEntriesK_eq, List.map_map]
  rfl

theorem discoverK_dict (es : List (DKey × KObj)) :
    discoverK strTy topo (.dict es) = discoverMapK (es.map fun e => (e.1, discoverK strTy topo e.2)) := by
  rw [discoverK, discoverItemK, discoverEntriesK_eq]

theorem discoverK_mp (es : List (DKey × KObj)) :
    discoverK strTy topo (.mp es) = discoverMapK (es.map fun e => (e.1, discoverK strTy topo e.2)) := by
  rw [discoverK, discoverItemK, discoverEntriesK_eq]

end

/-! ### Everything discovered is well-behaved -/

theorem discoverDicts_item (topo : List Node) {items : List ItemK} (hne : items ≠ []) : discoverDicts topo (items.map ItemK.item) = none := by
  cases items with
  | nil => exact absurd rfl hne
  | cons i l => unfold discoverDicts; rw [List.map_cons, List.mapM_cons]; rfl

/-- either as without dicts, or as a sequence of dicts -/
theorem seqK_ok {topo : List Node} {items : List ItemK} {r : Ty} (h : discoverSeqK topo items = .ok r) :
    discoverSeq topo (items.map ItemK.item) = .ok r ∨ discoverDictsK topo items = some (.ok r) := by
  unfold discoverSeqK at h
  split at h
  · rename_i he
    cases items with
    | nil => exact .inl h
    | cons => simp at he
  · rename_i he
    have hne : items ≠ [] := by rintro rfl; simp at he
    have key : discoverSeq topo (items.map ItemK.item) =
        orElse (discoverRows topo (items.map ItemK.item)) (discoverRest (items.map ItemK.item)) := by
      unfold discoverSeq
      rw [if_neg (by simpa using hne), discoverDicts_item topo hne]
      rfl
    rcases orElse_ok h with h | ⟨h, hr⟩
    · left; rw [key, h]; rfl
    rcases orElse_ok h with h | ⟨h, -⟩
    · exact .inr h
    · left
      rw [key]
      rcases hr with hr | hr <;> rw [hr] <;> exact h

structure ItemK.Disc (i : ItemK) : Prop where
  self : ∀ t, i.self = .ok t → DS.Disc (fun _ => true) t
  elems : ∀ l, i.elems = some l → ∀ t, .ok t ∈ l → DS.Disc (fun _ => true) t
  entries : ∀ l, i.entries = some l → ∀ k x, (k, x) ∈ l → ∀ t, x = .ok t → DS.Disc (fun _ => true) t

theorem getKey_mem {α : Type} {k : DKey} {es : List (DKey × α)} {v : α} (h : getKey k es = some v) : ∃ k', (k', v) ∈ es ∧ SameKey k' k := by
  unfold getKey at h
  rw [Option.map_eq_some_iff] at h
  obtain ⟨e, h1, rfl⟩ := h
  exact ⟨e.1, List.mem_of_find?_eq_some h1, (eq_iff _ _).1 (by simpa using List.find?_some h1)⟩

theorem disc_mapK {es : List (DKey × Except PyErr Ty)} {r : Ty} (h : discoverMapK es = .ok r)
    (he : ∀ k x, (k, x) ∈ es → ∀ t, x = .ok t → Disc (fun _ => true) t) : Disc (fun _ => true) r := by
  unfold discoverMapK at h
  simp only [bind_ok] at h
  obtain ⟨keys, -, h⟩ := h
  refine disc_recordOf h fun k x hkx => ⟨rfl, fun t ht => ?_⟩
  obtain ⟨k', -, e⟩ := List.mem_map.1 hkx
  injection e with e1 e2
  cases hl : getKey k' es with
  | none => rw [hl] at e2; rw [← e2] at ht; cases ht
  | some z =>
    rw [hl] at e2
    simp only [Option.getD_some] at e2
    subst e2
    obtain ⟨k'', hm, -⟩ := getKey_mem hl
    exact he _ _ hm t ht

theorem disc_odK {es : List (DKey × Except PyErr Ty)} {r : Ty} (h : recordOf (es.map fun e => (e.1.text, e.2)) = .ok r)
    (he : ∀ k x, (k, x) ∈ es → ∀ t, x = .ok t → Disc (fun _ => true) t) : Disc (fun _ => true) r := by
  refine disc_recordOf h fun k x hkx => ⟨rfl, fun t ht => ?_⟩
  obtain ⟨e, hm, e1⟩ := List.mem_map.1 hkx
  injection e1 with e1 e2
  exact he e.1 x (by rw [← e2]; exact hm) t ht

theorem disc_seqK {topo : List Node} {items : List ItemK} (hi : ∀ i ∈ items, i.Disc) {r : Ty}
    (h : discoverSeqK topo items = .ok r) : Disc (fun _ => true) r := by
  rcases seqK_ok h with h | h
  · refine disc_discoverSeq (fun i hm => ?_) h
    obtain ⟨j, hj, rfl⟩ := List.mem_map.1 hm
    exact ⟨(hi j hj).self, (hi j hj).elems, by intro l h; cases h⟩
  · unfold discoverDictsK at h
    split at h
    · rename_i rows hr
      injection h with h
      simp only [bind_ok] at h
      obtain ⟨keys, -, types, h1, u, h2, h3⟩ := h
      refine disc_mul_int h3 (disc_mkRecord h2 fun f hf => ⟨?_, rfl⟩)
      have ht : f.2 ∈ types := List.of_mem_zip (a := f.1) (b := f.2) hf |>.2
      obtain ⟨c, hc, e⟩ := mapM_mem h1 _ ht
      refine disc_columnType e fun t' ht' => ?_
      obtain ⟨k, -, rfl⟩ := List.mem_map.1 hc
      obtain ⟨row, hrow, e⟩ := List.mem_map.1 ht'
      obtain ⟨i, him, hel⟩ := mapM_some_mem hr row hrow
      cases hj : getKey k row with
      | none => rw [hj] at e; injection e with e; subst e; exact disc_node .null
      | some y =>
        rw [hj] at e
        simp only [Option.getD_some] at e
        subst e
        obtain ⟨k'', hm, -⟩ := getKey_mem hj
        exact (hi i him).entries _ hel _ _ hm _ rfl
    · cases h

theorem disc_itemK (E : StrEnv) (topo : List Node) (v : KObj) : (discoverItemK (discoverStr E) topo v).Disc := by
  have hentries : ∀ (l : List (DKey × KObj)), (∀ e ∈ l, (discoverItemK (discoverStr E) topo e.2).Disc) →
      ∀ k x, (k, x) ∈ l.map (fun kv => (kv.1, discoverK (discoverStr E) topo kv.2)) → ∀ t, x = .ok t → Disc (fun _ => true) t := by
    intro l ih k x h t ht
    obtain ⟨kv, h1, e⟩ := List.mem_map.1 h
    injection e with e1 e2
    exact (ih kv h1).self t (e2.trans ht)
  induction v using KObj.ind with
  | val v =>
    have h := disc_item (ok := fun _ => true) (disc_str E) topo v fun _ _ => rfl
    rw [discoverItemK]
    refine ⟨h.self, h.elems, ?_⟩
    intro l hl k x hkx t ht
    unfold Item.keyed at hl
    simp only [Option.map_eq_some_iff] at hl
    obtain ⟨l', e, rfl⟩ := hl
    obtain ⟨y, hy, e'⟩ := List.mem_map.1 hkx
    injection e' with e1 e2
    exact (h.entries _ e y.1 y.2 hy).2 t (e2.trans ht)
  | seq k l ih =>
    rw [discoverItemK, discoverItemsK_eq]
    have hi : ∀ i ∈ l.map (discoverItemK (discoverStr E) topo), i.Disc := by
      intro i hi
      obtain ⟨v, hv, rfl⟩ := List.mem_map.1 hi
      exact ih v hv
    refine ⟨fun t h => disc_seqK hi h, ?_, by intro l h; injection h⟩
    intro es he t ht
    simp only at he
    split at he
    · cases he
    · injection he with he
      rw [← he] at ht
      obtain ⟨i, h1, e⟩ := List.mem_map.1 ht
      exact (hi i h1).self t e
  | dict l ih =>
    rw [discoverItemK, discoverEntriesK_eq]
    exact ⟨fun t h => disc_mapK h (hentries l ih), by intro l h; injection h,
      by intro l' h; injection h with h; rw [← h]; exact hentries _ ih⟩
  | od l ih =>
    rw [discoverItemK, discoverEntriesK_eq]
    exact ⟨fun t h => disc_odK h (hentries l ih), by intro l h; injection h,
      by intro l' h; injection h with h; rw [← h]; exact hentries _ ih⟩
  | mp l ih =>
    rw [discoverItemK, discoverEntriesK_eq]
    exact ⟨fun t h => disc_mapK h (hentries l ih), by intro l h; injection h, by intro l h; injection h⟩

theorem leading_single {n : Nat} {r : Ty} (h : LeadingFixed n r) : r.isSingleton = false := by
  obtain ⟨ps, hps, rfl⟩ := h
  obtain ⟨p, ps', rfl⟩ := List.exists_cons_of_ne_nil hps
  rfl

theorem seqK_single {topo : List Node} {items : List ItemK} {r : Ty} (h : discoverSeqK topo items = .ok r) : r.isSingleton = false := by
  unfold discoverSeqK at h
  split at h
  · cases h; rfl
  rcases orElse_ok h with h | ⟨h, -⟩
  · exact leading_single (discoverRows_ok h)
  rcases orElse_ok h with h | ⟨h, -⟩
  · unfold discoverDictsK at h
    split at h
    · injection h with h
      simp only [bind_ok] at h
      obtain ⟨_, -, _, -, u, -, h⟩ := h
      exact leading_single (mul_leading h)
    · cases h
  · unfold discoverRest at h
    simp only [bind_ok] at h
    obtain ⟨types, h1, h2⟩ := h
    rcases uniteTuple_ok h2 with h | ⟨us, rfl, -⟩
    · exact leading_single h
    · rfl

theorem recordOf_single {es : List (Str × Except PyErr Ty)} {r : Ty} (h : recordOf es = .ok r) : r.isSingleton = false := by
  obtain ⟨fs, rfl, -⟩ := recordOf_ok h
  rfl

theorem mapK_single {es : List (DKey × Except PyErr Ty)} {r : Ty} (h : discoverMapK es = .ok r) : r.isSingleton = false := by
  unfold discoverMapK at h
  simp only [bind_ok] at h
  obtain ⟨keys, -, h⟩ := h
  exact recordOf_single h

theorem good_discoverK (E : StrEnv) (topo : List Node) (v : KObj) (t : Ty) (h : discoverK (discoverStr E) topo v = .ok t) : Good t := by
  refine ⟨(disc_itemK E topo v).self t h, ?_⟩
  cases v with
  | val v => exact (cell_discover (E := E) (topo := topo) (v := v) h).single
  | seq k l => rw [discoverK_seq] at h; exact seqK_single h
  | dict es => rw [discoverK_dict] at h; exact mapK_single h
  | od es => rw [discoverK_od] at h; exact recordOf_single h
  | mp es => rw [discoverK_mp] at h; exact mapK_single h

end DS
