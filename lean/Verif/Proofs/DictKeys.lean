import Verif.Spec.DictKeys
import Verif.Proofs.Sequences
import Verif.Props.Mappings

/-
The order of the keys of dicts.
-/
namespace DS

/-! ### Keys -/

theorem num_iff (k : DKey) (i : Int) : IsNumber k i ↔ k.num = some i := by
  constructor
  · intro h; cases h <;> rfl
  · intro h
    cases k with
    | str | none => cases h
    | int j => cases h; exact .int
    | bool b => cases b <;> cases h
                · exact .false
                · exact .true

theorem eq_iff (a b : DKey) : a.eq b = true ↔ SameKey a b := by
  simp only [DKey.eq, SameKey, Bool.or_eq_true, Bool.and_eq_true, beq_iff_eq, num_iff]
  constructor
  · rintro (h | ⟨h1, h2⟩)
    · exact .inl h
    · obtain ⟨i, hi⟩ := Option.isSome_iff_exists.1 h1
      exact .inr ⟨i, hi, by rw [← h2]; exact hi⟩
  · rintro (h | ⟨i, h1, h2⟩)
    · exact .inl h
    · exact .inr ⟨by rw [h1]; rfl, by rw [h1, h2]⟩

theorem SameKey.refl (a : DKey) : SameKey a a := .inl rfl
theorem SameKey.symm {a b : DKey} (h : SameKey a b) : SameKey b a :=
  h.elim (fun h => .inl h.symm) fun ⟨i, h1, h2⟩ => .inr ⟨i, h2, h1⟩
theorem SameKey.trans {a b c : DKey} (h : SameKey a b) (h' : SameKey b c) : SameKey a c := by
  rcases h with rfl | ⟨i, h1, h2⟩
  · exact h'
  · rcases h' with rfl | ⟨j, h3, h4⟩
    · exact .inr ⟨i, h1, h2⟩
    · rw [num_iff] at *
      rw [h2] at h3; cases h3
      exact .inr ⟨i, (num_iff _ _).2 h1, (num_iff _ _).2 h4⟩

theorem before_cases (a b : DKey) : KeyBefore a b ↔ (∃ s t, a = .str s ∧ b = .str t ∧ s < t) ∨ ∃ i j, a.num = some i ∧ b.num = some j ∧ i < j := by
  constructor
  · intro h
    cases h with
    | str h => exact .inl ⟨_, _, rfl, rfl, h⟩
    | num h1 h2 h3 => exact .inr ⟨_, _, (num_iff _ _).1 h1, (num_iff _ _).1 h2, h3⟩
  · rintro (⟨s, t, rfl, rfl, h⟩ | ⟨i, j, h1, h2, h3⟩)
    · exact .str h
    · exact .num ((num_iff _ _).2 h1) ((num_iff _ _).2 h2) h3

theorem KeyBefore.trans {a b c : DKey} (h : KeyBefore a b) (h' : KeyBefore b c) : KeyBefore a c := by
  rw [before_cases] at *
  rcases h with ⟨s, t, rfl, rfl, h⟩ | ⟨i, j, h1, h2, h3⟩
  · rcases h' with ⟨s', t', e, rfl, h'⟩ | ⟨i, j, h1, h2, h3⟩
    · cases e; exact .inl ⟨_, _, rfl, rfl, str_lt_trans h h'⟩
    · cases h1
  · rcases h' with ⟨s', t', rfl, rfl, h'⟩ | ⟨i', j', h1', h2', h3'⟩
    · cases h2
    · rw [h2] at h1'; cases h1'
      exact .inr ⟨_, _, h1, h2', by omega⟩

theorem KeyBefore.not_same {a b : DKey} (h : KeyBefore a b) : ¬ SameKey a b := by
  rw [before_cases] at h
  rintro (rfl | ⟨k, h1, h2⟩)
  · rcases h with ⟨s, t, rfl, e, h⟩ | ⟨i, j, h1, h2, h3⟩
    · cases e; exact List.lt_irrefl _ h
    · rw [h1] at h2; cases h2; omega
  · rw [num_iff] at h1 h2
    rcases h with ⟨s, t, rfl, rfl, h⟩ | ⟨i, j, h3, h4, h5⟩
    · cases h1
    · rw [h1] at h3; rw [h2] at h4; cases h3; cases h4; omega

theorem KeyBefore.asymm {a b : DKey} (h : KeyBefore a b) : ¬ KeyBefore b a := fun h' => (h.trans h').not_same (.refl a)

theorem less_spec (a b : DKey) : (a.less b = .ok true ∧ KeyBefore a b) ∨
    (a.less b = .ok false ∧ ¬ KeyBefore a b ∧ (¬ SameKey a b → KeyBefore b a)) ∨
    (a.less b = .error .typeError ∧ ¬ KeyBefore a b ∧ ¬ KeyBefore b a) := by
  have key : ∀ i j : Int, a.num = some i → b.num = some j → a.less b = .ok (decide (i < j)) := by
    intro i j h1 h2
    cases a <;> cases b <;> first | (cases h1; done) | (cases h2; done) | (cases h1; cases h2; rfl)
  by_cases hn : ∃ i j, a.num = some i ∧ b.num = some j
  · obtain ⟨i, j, h1, h2⟩ := hn
    rw [key i j h1 h2]
    by_cases h : i < j
    · exact .inl ⟨by simp [h], (before_cases a b).2 (.inr ⟨i, j, h1, h2, h⟩)⟩
    · refine .inr (.inl ⟨by simp [h], ?_, fun hs => ?_⟩)
      · rw [before_cases]
        rintro (⟨s, t, rfl, rfl, -⟩ | ⟨i', j', h1', h2', h3⟩)
        · cases h1
        · rw [h1] at h1'; rw [h2] at h2'; cases h1'; cases h2'; exact h h3
      · refine (before_cases b a).2 (.inr ⟨j, i, h2, h1, ?_⟩)
        have : i ≠ j := fun e => hs (.inr ⟨i, (num_iff _ _).2 h1, (num_iff _ _).2 (e ▸ h2)⟩)
        omega
  · by_cases hs : ∃ s t, a = .str s ∧ b = .str t
    · obtain ⟨s, t, rfl, rfl⟩ := hs
      by_cases h : s < t
      · refine .inl ⟨?_, .str h⟩
        have : strLe t s = false := by
          have := strLe_iff t s
          cases hh : strLe t s
          · rfl
          · exact absurd h (this.1 hh)
        simp [DKey.less, this]
      · have : strLe t s = true := (strLe_iff t s).2 h
        refine .inr (.inl ⟨by simp [DKey.less, this], ?_, fun hne => ?_⟩)
        · rw [before_cases]
          rintro (⟨s', t', e1, e2, h'⟩ | ⟨i, j, h1, -⟩)
          · cases e1; cases e2; exact h h'
          · cases h1
        · exact .str (str_lt_of t s h fun e => hne (.inl (by rw [e])))
    · refine .inr (.inr ⟨?_, ?_, ?_⟩)
      · cases a <;> cases b <;> first
          | rfl
          | (exact absurd ⟨_, _, rfl, rfl⟩ hs)
          | (exact absurd ⟨_, _, rfl, rfl⟩ hn)
      · rw [before_cases]
        rintro (⟨s', t', e1, e2, h'⟩ | ⟨i, j, h1, h2, -⟩)
        · exact hs ⟨_, _, e1, e2⟩
        · exact hn ⟨_, _, h1, h2⟩
      · rw [before_cases]
        rintro (⟨s', t', e1, e2, h'⟩ | ⟨i, j, h1, h2, -⟩)
        · exact hs ⟨_, _, e2, e1⟩
        · exact hn ⟨_, _, h2, h1⟩

/-! ### `sorted` -/

theorem insertKey_spec (x : DKey) : ∀ l : List DKey, l.Pairwise KeyBefore → (∀ y ∈ l, ¬ SameKey x y) →
    (∃ l', insertKey x l = .ok l' ∧ l'.Perm (x :: l) ∧ l'.Pairwise KeyBefore) ∨
    (insertKey x l = .error .typeError ∧ ∃ y ∈ l, ¬ KeyBefore x y ∧ ¬ KeyBefore y x) := by
  intro l
  induction l with
  | nil => intro _ _; exact .inl ⟨[x], rfl, List.Perm.refl _, List.pairwise_singleton _ _⟩
  | cons y l ih =>
    intro hp hs
    obtain ⟨hy, hp'⟩ := List.pairwise_cons.1 hp
    rw [insertKey]
    rcases less_spec y x with ⟨e, h⟩ | ⟨e, h1, h2⟩ | ⟨e, h1, h2⟩
    · rw [e]
      rcases ih hp' (fun z hz => hs z (List.mem_cons_of_mem _ hz)) with ⟨l', e', hperm, hpw⟩ | ⟨e', z, hz, h'⟩
      · refine .inl ⟨y :: l', ?_, (hperm.cons y).trans (List.Perm.swap x y l), List.pairwise_cons.2 ⟨?_, hpw⟩⟩
        · show (do let r ← insertKey x l; .ok (y :: r) : Except PyErr (List DKey)) = _
          rw [e']; rfl
        · intro z hz
          rcases List.mem_cons.1 (hperm.mem_iff.1 hz) with rfl | hz
          · exact h
          · exact hy z hz
      · refine .inr ⟨?_, z, List.mem_cons_of_mem _ hz, h'⟩
        show (do let r ← insertKey x l; .ok (y :: r) : Except PyErr (List DKey)) = _
        rw [e']; rfl
    · rw [e]
      have hxy := h2 fun h => hs y (by simp) h.symm
      refine .inl ⟨x :: y :: l, rfl, List.Perm.refl _, List.pairwise_cons.2 ⟨?_, hp⟩⟩
      intro z hz
      rcases List.mem_cons.1 hz with rfl | hz
      · exact hxy
      · exact hxy.trans (hy z hz)
    · rw [e]
      exact .inr ⟨rfl, y, by simp, h2, h1⟩

theorem pairwise_cases {α : Type} {R : α → α → Prop} {l : List α} (h : l.Pairwise R) {a b : α} (ha : a ∈ l) (hb : b ∈ l) :
    a = b ∨ R a b ∨ R b a := by
  induction h with
  | nil => cases ha
  | @cons x l hx _ ih =>
    rcases List.mem_cons.1 ha with ea | ha
    · rcases List.mem_cons.1 hb with eb | hb
      · exact .inl (ea.trans eb.symm)
      · exact .inr (.inl (ea ▸ hx _ hb))
    · rcases List.mem_cons.1 hb with eb | hb
      · exact .inr (.inr (eb ▸ hx _ ha))
      · exact ih ha hb

theorem sortKeys_spec : ∀ ks : List DKey, DistinctKeys ks →
    (∃ ks', sortKeys ks = .ok ks' ∧ InOrder ks ks') ∨ (sortKeys ks = .error .typeError ∧ ∀ ks', ¬ InOrder ks ks') := by
  intro ks
  induction ks with
  | nil => intro _; exact .inl ⟨[], rfl, List.Perm.refl _, .nil⟩
  | cons x l ih =>
    intro hd
    obtain ⟨hx, hd'⟩ := List.pairwise_cons.1 hd
    have hno : (∃ a ∈ x :: l, ∃ b ∈ x :: l, a ≠ b ∧ ¬ KeyBefore a b ∧ ¬ KeyBefore b a) → ∀ ks', ¬ InOrder (x :: l) ks' := by
      rintro ⟨a, ha, b, hb, hne, h1, h2⟩ ks' ⟨h3, h4⟩
      rcases pairwise_cases h4 (h3.mem_iff.2 ha) (h3.mem_iff.2 hb) with h | h | h
      · exact hne h
      · exact h1 h
      · exact h2 h
    rw [sortKeys]
    rcases ih hd' with ⟨r, e, hr, hp⟩ | ⟨e, hn⟩
    · rw [e]
      have hxr : ∀ y ∈ r, ¬ SameKey x y := fun y hy => hx y (hr.mem_iff.1 hy)
      rcases insertKey_spec x r hp hxr with ⟨l', e', h1, h2⟩ | ⟨e', y, hy, h1, h2⟩
      · exact .inl ⟨l', e', h1.trans (hr.cons x), h2⟩
      · refine .inr ⟨e', hno ⟨x, by simp, y, List.mem_cons_of_mem _ (hr.mem_iff.1 hy), ?_, h1, h2⟩⟩
        rintro rfl
        exact hxr x hy (.refl x)
    · rw [e]
      refine .inr ⟨rfl, ?_⟩
      rintro ks' ⟨h3, h4⟩
      -- without `x`, the rest is in order
      obtain ⟨pre, post, rfl⟩ := List.append_of_mem (h3.mem_iff.2 (List.mem_cons_self : x ∈ x :: l))
      refine hn (pre ++ post) ⟨?_, ?_⟩
      · have h5 : (x :: (pre ++ post)).Perm (x :: l) := (List.perm_middle.symm).trans h3
        exact List.Perm.cons_inv h5
      · rw [List.pairwise_append] at h4 ⊢
        obtain ⟨h5, h6, h7⟩ := h4
        exact ⟨h5, (List.pairwise_cons.1 h6).2, fun a ha b hb => h7 a ha b (List.mem_cons_of_mem _ hb)⟩

theorem inOrder_unique {ks l l' : List DKey} (h : InOrder ks l) (h' : InOrder ks l') : l = l' := by
  have hm : ∀ x, x ∈ l ↔ x ∈ l' := fun x => by rw [h.1.mem_iff, h'.1.mem_iff]
  have hp := h.2
  have hp' := h'.2
  clear h h'
  induction l generalizing l' with
  | nil =>
    cases l' with
    | nil => rfl
    | cons x l' => exact absurd ((hm x).2 (by simp)) (by simp)
  | cons x l ih =>
    cases l' with
    | nil => exact absurd ((hm x).1 (by simp)) (by simp)
    | cons y l' =>
      obtain ⟨h1, h2⟩ := List.pairwise_cons.1 hp
      obtain ⟨h1', h2'⟩ := List.pairwise_cons.1 hp'
      have e : x = y := by
        rcases List.mem_cons.1 ((hm x).1 (by simp)) with e | hx
        · exact e
        · rcases List.mem_cons.1 ((hm y).2 (by simp)) with e | hy
          · exact e.symm
          · exact absurd (h1 y hy) (h1' x hx).asymm
      subst e
      congr 1
      refine ih (fun z => ⟨fun hz => ?_, fun hz => ?_⟩) h2 h2'
      · rcases List.mem_cons.1 ((hm z).1 (List.mem_cons_of_mem _ hz)) with rfl | hz'
        · exact absurd (.refl _) (h1 z hz).not_same
        · exact hz'
      · rcases List.mem_cons.1 ((hm z).2 (List.mem_cons_of_mem _ hz)) with rfl | hz'
        · exact absurd (.refl _) (h1' z hz).not_same
        · exact hz'

theorem sortKeys_iff {ks : List DKey} (hd : DistinctKeys ks) (ks' : List DKey) : sortKeys ks = .ok ks' ↔ InOrder ks ks' := by
  rcases sortKeys_spec ks hd with ⟨l, e, h⟩ | ⟨e, h⟩
  · rw [e]
    exact ⟨fun h' => by cases h'; exact h, fun h' => by rw [inOrder_unique h h']⟩
  · rw [e]
    exact ⟨fun h' => (by cases h'), fun h' => absurd h' (h ks')⟩

/-! ### Names of fields -/

theorem nameOf_iff (k : DKey) (n : Str) : NameOf k n ↔ k.text = n := by
  constructor
  · intro h; cases h <;> rfl
  · rintro rfl
    cases k with
    | str => exact .str
    | int => exact .int
    | none => exact .none
    | bool b => cases b
                · exact .false
                · exact .true

end DS
