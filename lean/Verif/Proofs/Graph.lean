import Verif.Model.Graph
import Verif.Spec.Graph

namespace DS

variable {α β : Type} [DecidableEq α]

/-! ### Dicts and sets as lists -/

theorem lookup_set (d : Dict α β) (k x : α) (v : β) :
    (Dict.set d k v).lookup x = if x = k then some v else d.lookup x := by
  induction d with
  | nil =>
    by_cases h : x = k
    · subst h; simp [Dict.set]
    · simp [Dict.set, h]
  | cons p d ih =>
    obtain ⟨k', v'⟩ := p
    by_cases hk : k = k'
    · subst hk
      by_cases h : x = k
      · subst h; simp [Dict.set]
      · have hb : (x == k) = false := by simp [h]
        simp [Dict.set, h, List.lookup_cons, hb]
    · simp only [Dict.set, if_neg hk, List.lookup_cons]
      by_cases h : x = k'
      · subst h
        simp [Ne.symm hk]
      · have hb : (x == k') = false := by simp [h]
        simp [hb, ih]

theorem mem_setAdd (s : List α) (x y : α) : y ∈ setAdd s x ↔ y ∈ s ∨ y = x := by
  unfold setAdd; split
  · rename_i h; constructor
    · exact .inl
    · rintro (h' | rfl) <;> assumption
  · simp

theorem nodup_setAdd {s : List α} (x : α) (h : s.Nodup) : (setAdd s x).Nodup := by
  unfold setAdd; split
  · exact h
  · rename_i hx
    rw [List.nodup_append]
    exact ⟨h, by simp, by intro a ha b hb; simp at hb; subst hb; intro e; exact hx (e ▸ ha)⟩

theorem mem_foldl_setAdd (l s : List α) (y : α) : y ∈ l.foldl setAdd s ↔ y ∈ s ∨ y ∈ l := by
  induction l generalizing s with
  | nil => simp
  | cons a l ih =>
    simp only [List.foldl_cons, ih, mem_setAdd, List.mem_cons, or_assoc]

theorem nodup_foldl_setAdd (l : List α) {s : List α} (h : s.Nodup) : (l.foldl setAdd s).Nodup := by
  induction l generalizing s with
  | nil => exact h
  | cons a l ih => exact ih (nodup_setAdd a h)

theorem mem_toSet (l : List α) (y : α) : y ∈ toSet l ↔ y ∈ l := by
  simp [toSet, mem_foldl_setAdd]

theorem nodup_toSet (l : List α) : (toSet l).Nodup := nodup_foldl_setAdd l List.nodup_nil

theorem lookup_iff_mem {d : Dict α β} (h : (d.map (·.1)).Nodup) (k : α) (v : β) :
    d.lookup k = some v ↔ (k, v) ∈ d := by
  induction d with
  | nil => simp
  | cons p d ih =>
    obtain ⟨k', v'⟩ := p
    simp only [List.map_cons, List.nodup_cons] at h
    rw [List.lookup_cons, List.mem_cons, Prod.mk.injEq]
    by_cases hk : k = k'
    · subst hk
      simp only [beq_self_eq_true, true_and, Option.some.injEq]
      constructor
      · intro e; exact .inl e.symm
      · rintro (e | hm)
        · exact e.symm
        · exact absurd (List.mem_map.2 ⟨_, hm, rfl⟩) h.1
    · have hb : (k == k') = false := by simp [hk]
      simp [hk, hb, ih h.2]

theorem edge_iff {g : Dict α (List α)} (h : (g.map (·.1)).Nodup) (a b : α) :
    Edge g a b ↔ b ∈ (g.lookup a).getD [] := by
  constructor
  · rintro ⟨vs, hm, hb⟩
    rw [(lookup_iff_mem h a vs).2 hm]; exact hb
  · intro hb
    cases hl : g.lookup a with
    | none => rw [hl] at hb; cases hb
    | some vs => rw [hl] at hb; exact ⟨vs, (lookup_iff_mem h a vs).1 hl, hb⟩

/-! ### reverse_dict -/

theorem reverseInner_mem (key : α) (vals : List α) (res : Dict α (List α)) (m a : α) :
    a ∈ ((reverseInner key res vals).lookup m).getD [] ↔
      a ∈ (res.lookup m).getD [] ∨ (a = key ∧ m ∈ vals) := by
  induction vals generalizing res with
  | nil => simp [reverseInner]
  | cons v vs ih =>
    rw [reverseInner, ih, lookup_set]
    by_cases h : m = v
    · subst h; simp; grind
    · simp [h]

theorem reverseInner_some (key : α) (vals : List α) (res : Dict α (List α)) (m : α) :
    ((reverseInner key res vals).lookup m).isSome ↔ (res.lookup m).isSome ∨ m ∈ vals := by
  induction vals generalizing res with
  | nil => simp [reverseInner]
  | cons v vs ih =>
    rw [reverseInner, ih, lookup_set]
    by_cases h : m = v
    · subst h; simp
    · simp [h]

theorem reverseFrom_mem (g res : Dict α (List α)) (m a : α) :
    a ∈ ((reverseFrom res g).lookup m).getD [] ↔ a ∈ (res.lookup m).getD [] ∨ Edge g a m := by
  induction g generalizing res with
  | nil => simp [reverseFrom, Edge]
  | cons p g ih =>
    obtain ⟨k, vs⟩ := p
    rw [reverseFrom, ih, reverseInner_mem]
    simp only [Edge, List.mem_cons, Prod.mk.injEq]
    constructor
    · rintro ((h | ⟨rfl, h⟩) | ⟨ws, h1, h2⟩)
      · exact .inl h
      · exact .inr ⟨vs, .inl ⟨rfl, rfl⟩, h⟩
      · exact .inr ⟨ws, .inr h1, h2⟩
    · rintro (h | ⟨ws, (⟨rfl, rfl⟩ | h1), h2⟩)
      · exact .inl (.inl h)
      · exact .inl (.inr ⟨rfl, h2⟩)
      · exact .inr ⟨ws, h1, h2⟩

theorem reverseFrom_some (g res : Dict α (List α)) (m : α) :
    ((reverseFrom res g).lookup m).isSome ↔ (res.lookup m).isSome ∨ ∃ a, Edge g a m := by
  induction g generalizing res with
  | nil => simp [reverseFrom, Edge]
  | cons p g ih =>
    obtain ⟨k, vs⟩ := p
    rw [reverseFrom, ih, reverseInner_some]
    simp only [Edge, List.mem_cons, Prod.mk.injEq]
    constructor
    · rintro ((h | h) | ⟨a, ws, h1, h2⟩)
      · exact .inl h
      · exact .inr ⟨k, vs, .inl ⟨rfl, rfl⟩, h⟩
      · exact .inr ⟨a, ws, .inr h1, h2⟩
    · rintro (h | ⟨a, ws, (⟨rfl, rfl⟩ | h1), h2⟩)
      · exact .inl (.inl h)
      · exact .inl (.inr h2)
      · exact .inr ⟨a, ws, h1, h2⟩

theorem lookup_map (d : Dict α (List α)) (f : List α → List α) (m : α) :
    (d.map fun kv => (kv.1, f kv.2)).lookup m = (d.lookup m).map f := by
  induction d with
  | nil => rfl
  | cons p d ih =>
    obtain ⟨k, vs⟩ := p
    rw [List.map_cons, List.lookup_cons, List.lookup_cons]
    cases h : (m == k) <;> simp [h, ih]

/-! ### The invariant of the loop -/

structure TInv (g : Dict α (List α)) (pend : α → α → Prop) (st : TState α) : Prop where
  inc : ∀ m a, a ∈ (st.incoming.lookup m).getD [] ↔ Edge g a m ∧ (a ∉ st.L ∨ pend a m)
  incSome : ∀ m, (st.incoming.lookup m).isSome ↔ ∃ a, Edge g a m
  incNodup : ∀ m ps, st.incoming.lookup m = some ps → ps.Nodup
  ready : ∀ x, x ∈ st.S ↔ IsNode g x ∧ x ∉ st.L ∧ ∀ a, Edge g a x → (a ∈ st.L ∧ ¬ pend a x)
  SNodup : st.S.Nodup
  LNodup : st.L.Nodup
  LNode : ∀ x ∈ st.L, IsNode g x
  order : ∀ x ∈ st.L, ∀ a, Edge g a x → Before st.L a x

theorem topoInit_inv (g : Dict α (List α)) (hg : IsGraph g) : TInv g (fun _ _ => False) (topoInit g) := by
  have hlk : ∀ m, (topoInit g).incoming.lookup m = ((reverseDict g).lookup m).map toSet := by
    intro m; exact lookup_map (reverseDict g) toSet m
  have hmem : ∀ m a, a ∈ ((topoInit g).incoming.lookup m).getD [] ↔ Edge g a m := by
    intro m a
    have h := reverseFrom_mem g [] m a
    rw [hlk]
    unfold reverseDict
    cases hl : (reverseFrom [] g).lookup m with
    | none => rw [hl] at h; simpa using h
    | some ps => rw [hl] at h; simpa [mem_toSet] using h
  have hsome : ∀ m, ((topoInit g).incoming.lookup m).isSome ↔ ∃ a, Edge g a m := by
    intro m
    have h := reverseFrom_some g [] m
    rw [hlk]
    simpa [reverseDict] using h
  refine ⟨?_, hsome, ?_, ?_, ?_, ?_, ?_, ?_⟩
  · intro m a; rw [hmem]; simp [topoInit]
  · intro m ps h
    rw [hlk] at h
    cases hl : (reverseDict g).lookup m with
    | none => rw [hl] at h; simp at h
    | some qs => rw [hl] at h; simp at h; subst h; exact nodup_toSet qs
  · intro x
    have hS : (topoInit g).S = (Dict.keys g).filter fun v => ((topoInit g).incoming.lookup v).isNone := rfl
    have hL : (topoInit g).L = [] := rfl
    rw [hS, hL, List.mem_filter]
    have : ((topoInit g).incoming.lookup x).isNone = true ↔ ¬ ∃ a, Edge g a x := by
      rw [← hsome]; cases (topoInit g).incoming.lookup x <;> simp
    rw [this]
    simp only [Dict.keys, List.mem_map, Prod.exists, exists_and_right, exists_eq_right, IsNode]
    constructor
    · rintro ⟨h1, h2⟩
      exact ⟨.inl h1, by simp, fun a ha => absurd ⟨a, ha⟩ h2⟩
    · rintro ⟨h1, -, h3⟩
      have hne : ¬ ∃ a, Edge g a x := by
        rintro ⟨a, ha⟩; exact absurd (h3 a ha).1 (by simp)
      exact ⟨h1.resolve_right hne, hne⟩
  · exact List.Pairwise.filter _ hg.1
  · exact List.nodup_nil
  · intro x hx; cases hx
  · intro x hx; cases hx

theorem topoChildren_inv (g : Dict α (List α)) (n : α) (ms : List α) (st : TState α)
    (hms : ms.Nodup) (hE : ∀ m ∈ ms, Edge g n m) (hn : n ∈ st.L) (hmL : ∀ m ∈ ms, m ∉ st.L)
    (inv : TInv g (fun a m => a = n ∧ m ∈ ms) st) :
    ∃ st', topoChildren n st ms = .ok st' ∧ st'.L = st.L ∧ TInv g (fun _ _ => False) st' := by
  induction ms generalizing st with
  | nil =>
    refine ⟨st, rfl, rfl, ?_⟩
    have : (fun a m : α => a = n ∧ m ∈ ([] : List α)) = fun _ _ => False := by
      funext a m; simp
    rwa [this] at inv
  | cons m ms ih =>
    have hmm : m ∈ m :: ms := List.mem_cons_self
    have hEm := hE m hmm
    rw [List.nodup_cons] at hms
    have hs := (inv.incSome m).2 ⟨n, hEm⟩
    obtain ⟨ps, hps⟩ := Option.isSome_iff_exists.1 hs
    have hpm : ∀ a, a ∈ ps ↔ Edge g a m ∧ (a ∉ st.L ∨ (a = n ∧ m ∈ m :: ms)) := by
      intro a; have := inv.inc m a; rw [hps] at this; exact this
    have hnps : n ∈ ps := (hpm n).2 ⟨hEm, .inr ⟨rfl, hmm⟩⟩
    have hnd := inv.incNodup m ps hps
    have herase : ∀ a, a ∈ ps.erase n ↔ Edge g a m ∧ a ∉ st.L := by
      intro a
      rw [hnd.mem_erase_iff, hpm]
      constructor
      · rintro ⟨h1, h2, h3 | ⟨h3, -⟩⟩
        · exact ⟨h2, h3⟩
        · exact absurd h3 h1
      · rintro ⟨h1, h2⟩
        exact ⟨fun e => h2 (e ▸ hn), h1, .inl h2⟩
    have hmS : m ∉ st.S := by
      intro h
      exact (((inv.ready m).1 h).2.2 n hEm).2 ⟨rfl, hmm⟩
    have hempty : (ps.erase n).isEmpty = true ↔ ∀ a, Edge g a m → a ∈ st.L := by
      rw [List.isEmpty_iff]
      constructor
      · intro h a ha
        apply Classical.byContradiction
        intro hc
        have := (herase a).2 ⟨ha, hc⟩
        rw [h] at this; cases this
      · intro h
        apply List.eq_nil_iff_forall_not_mem.2
        intro a ha
        obtain ⟨h1, h2⟩ := (herase a).1 ha
        exact h2 (h a h1)
    rw [topoChildren, hps]
    simp only [if_pos hnps]
    let st' : TState α :=
      { incoming := Dict.set st.incoming m (ps.erase n)
        S := if (ps.erase n).isEmpty then setAdd st.S m else st.S
        L := st.L }
    have hS' : ∀ x, x ∈ st'.S ↔ x ∈ st.S ∨ (x = m ∧ ∀ a, Edge g a m → a ∈ st.L) := by
      intro x
      show x ∈ (if (ps.erase n).isEmpty then setAdd st.S m else st.S) ↔ _
      split
      · rename_i h
        rw [mem_setAdd]
        have := hempty.1 h
        grind
      · rename_i h
        have : ¬ ∀ a, Edge g a m → a ∈ st.L := fun hc => h (hempty.2 hc)
        grind
    obtain ⟨st'', h1, h2, h3⟩ := ih st' hms.2 (fun x hx => hE x (List.mem_cons_of_mem _ hx)) hn
      (fun x hx => hmL x (List.mem_cons_of_mem _ hx)) (by
        refine ⟨?_, ?_, ?_, ?_, ?_, inv.LNodup, inv.LNode, inv.order⟩
        · intro x a
          show a ∈ ((Dict.set st.incoming m (ps.erase n)).lookup x).getD [] ↔ _
          rw [lookup_set]
          by_cases hx : x = m
          · subst hx
            rw [if_pos rfl, Option.getD_some, herase]
            show _ ↔ Edge g a x ∧ (a ∉ st.L ∨ (a = n ∧ x ∈ ms))
            have := hms.1
            grind
          · rw [if_neg hx, inv.inc]
            show _ ↔ Edge g a x ∧ (a ∉ st.L ∨ (a = n ∧ x ∈ ms))
            simp [hx]
        · intro x
          show ((Dict.set st.incoming m (ps.erase n)).lookup x).isSome ↔ _
          rw [lookup_set]
          by_cases hx : x = m
          · subst hx; simp; exact ⟨n, hEm⟩
          · rw [if_neg hx]; exact inv.incSome x
        · intro x qs
          show (Dict.set st.incoming m (ps.erase n)).lookup x = some qs → _
          rw [lookup_set]
          by_cases hx : x = m
          · subst hx; simp; rintro rfl; exact hnd.erase n
          · rw [if_neg hx]; exact inv.incNodup x qs
        · intro x
          rw [hS', inv.ready]
          show _ ↔ IsNode g x ∧ x ∉ st.L ∧ ∀ a, Edge g a x → (a ∈ st.L ∧ ¬(a = n ∧ x ∈ ms))
          by_cases hx : x = m
          · subst hx
            have hno : ¬ (IsNode g x ∧ x ∉ st.L ∧ ∀ a, Edge g a x → (a ∈ st.L ∧ ¬(a = n ∧ x ∈ x :: ms))) := by
              intro h; exact (h.2.2 n hEm).2 ⟨rfl, hmm⟩
            constructor
            · rintro (h | ⟨-, h⟩)
              · exact absurd h hno
              · exact ⟨.inr ⟨n, hEm⟩, hmL x hmm, fun a ha => ⟨h a ha, fun hc => hms.1 hc.2⟩⟩
            · rintro ⟨-, -, h⟩
              exact .inr ⟨rfl, fun a ha => (h a ha).1⟩
          · simp [hx]
        · show (if (ps.erase n).isEmpty then setAdd st.S m else st.S).Nodup
          split
          · exact nodup_setAdd m inv.SNodup
          · exact inv.SNodup)
    exact ⟨st'', h1, h2, h3⟩

theorem Before.append {l : List α} {a b : α} (h : Before l a b) (r : List α) : Before (l ++ r) a b := by
  obtain ⟨l1, l2, l3, rfl⟩ := h
  exact ⟨l1, l2, l3 ++ r, by simp⟩

theorem Before.last {l : List α} {a : α} (h : a ∈ l) (b : α) : Before (l ++ [b]) a b := by
  obtain ⟨l1, l2, rfl⟩ := List.append_of_mem h
  exact ⟨l1, l2, [], by simp⟩

theorem Before.mem_left {l : List α} {a b : α} (h : Before l a b) : a ∈ l := by
  obtain ⟨l1, l2, l3, rfl⟩ := h; simp

theorem Before.mem_right {l : List α} {a b : α} (h : Before l a b) : b ∈ l := by
  obtain ⟨l1, l2, l3, rfl⟩ := h; simp

theorem topoPop_inv (g : Dict α (List α)) (hg : IsGraph g) (st : TState α) (n : α) (hn : n ∈ st.S)
    (inv : TInv g (fun _ _ => False) st) :
    ∃ st', topoPop g st n = .ok st' ∧ st'.L = st.L ++ [n] ∧ TInv g (fun _ _ => False) st' := by
  obtain ⟨hnode, hnL, hpred⟩ := (inv.ready n).1 hn
  have hE : ∀ m, m ∈ (g.lookup n).getD [] ↔ Edge g n m := fun m => (edge_iff hg.1 n m).symm
  have hmL : ∀ m, Edge g n m → m ∉ st.L ++ [n] := by
    intro m hm hc
    rcases List.mem_append.1 hc with h | h
    · exact hnL (inv.order m h n hm).mem_left
    · simp at h; subst h; exact hnL (hpred m hm).1
  refine topoChildren_inv g n _ _ ?_ (fun m hm => (hE m).1 hm) (by simp)
    (fun m hm => hmL m ((hE m).1 hm)) ?_
  · cases hl : g.lookup n with
    | none => simp
    | some vs => exact hg.2 (n, vs) ((lookup_iff_mem hg.1 n vs).1 hl)
  · refine ⟨?_, inv.incSome, inv.incNodup, ?_, inv.SNodup.erase n, ?_, ?_, ?_⟩
    · intro m a
      show a ∈ (st.incoming.lookup m).getD [] ↔ Edge g a m ∧ (a ∉ st.L ++ [n] ∨ (a = n ∧ m ∈ _))
      rw [inv.inc, hE]
      by_cases ha : a = n
      · subst ha; simp [hnL]
      · simp [ha]
    · intro x
      show x ∈ st.S.erase n ↔ IsNode g x ∧ x ∉ st.L ++ [n] ∧
        ∀ a, Edge g a x → (a ∈ st.L ++ [n] ∧ ¬(a = n ∧ x ∈ _))
      rw [inv.SNodup.mem_erase_iff, inv.ready]
      simp only [hE, List.mem_append, List.mem_singleton, not_or]
      constructor
      · rintro ⟨h1, h2, h3, h4⟩
        refine ⟨h2, ⟨h3, h1⟩, fun a ha => ⟨.inl (h4 a ha).1, ?_⟩⟩
        rintro ⟨rfl, -⟩
        exact hnL (h4 a ha).1
      · rintro ⟨h1, ⟨h2, h3⟩, h4⟩
        refine ⟨h3, h1, h2, fun a ha => ⟨?_, fun h => h⟩⟩
        rcases (h4 a ha).1 with h | rfl
        · exact h
        · exact absurd ⟨rfl, ha⟩ (h4 a ha).2
    · show (st.L ++ [n]).Nodup
      rw [List.nodup_append]
      exact ⟨inv.LNodup, by simp, by intro a ha b hb; simp at hb; subst hb; intro e; exact hnL (e ▸ ha)⟩
    · intro x hx
      rcases List.mem_append.1 hx with h | h
      · exact inv.LNode x h
      · simp at h; subst h; exact hnode
    · intro x hx a ha
      rcases List.mem_append.1 hx with h | h
      · exact (inv.order x h a ha).append _
      · simp at h; subst h; exact Before.last (hpred a ha).1 x

/-! ### Cycles -/

theorem exists_cycle {R : α → α → Prop} (U : List α) (hU : U ≠ [])
    (h : ∀ v ∈ U, ∃ u ∈ U, R u v) : ∃ v, Relation.TransGen R v v := by
  induction hn : U.length using Nat.strongRecOn generalizing U R with
  | _ n ih =>
    obtain ⟨v, U', rfl⟩ := List.exists_cons_of_ne_nil hU
    by_cases hvv : R v v
    · exact ⟨v, .single hvv⟩
    let W := U'.filter (· ≠ v)
    have hW : ∀ x, x ∈ W ↔ x ∈ U' ∧ x ≠ v := by intro x; simp [W]
    obtain ⟨u, hu, huv⟩ := h v List.mem_cons_self
    have hne : u ≠ v := by rintro rfl; exact hvv huv
    have huW : u ∈ W := (hW u).2 ⟨(List.mem_cons.1 hu).resolve_left hne, hne⟩
    obtain ⟨x, hx⟩ := ih W.length (by
        subst hn; simp only [List.length_cons]
        exact Nat.lt_succ_of_le (List.length_filter_le _ _)) (R := fun a b => R a b ∨ (R a v ∧ R v b))
      W (by intro e; rw [e] at huW; cases huW) (by
        intro w hw
        obtain ⟨p, hp, hpw⟩ := h w (List.mem_cons_of_mem _ ((hW w).1 hw).1)
        by_cases hpv : p = v
        · subst hpv; exact ⟨u, huW, .inr ⟨huv, hpw⟩⟩
        · exact ⟨p, (hW p).2 ⟨(List.mem_cons.1 hp).resolve_left hpv, hpv⟩, .inl hpw⟩) rfl
    refine ⟨x, ?_⟩
    have hlift : ∀ a b, Relation.TransGen (fun a b => R a b ∨ (R a v ∧ R v b)) a b → Relation.TransGen R a b := by
      intro a b hab
      induction hab with
      | single h =>
        rcases h with h | ⟨h1, h2⟩
        · exact .single h
        · exact .tail (.single h1) h2
      | tail _ h ih =>
        rcases h with h | ⟨h1, h2⟩
        · exact .tail ih h
        · exact .tail (.tail ih h1) h2
    exact hlift x x hx

theorem Before.trans_irrefl {l : List α} (hl : l.Nodup) {a b : α} (h : Before l a b) :
    l.idxOf a < l.idxOf b := by
  obtain ⟨l1, l2, l3, rfl⟩ := h
  rw [List.nodup_append] at hl
  obtain ⟨-, h2, h3⟩ := hl
  have ha : a ∉ l1 := fun hc => h3 a hc a (by simp) rfl
  have hb : b ∉ l1 := fun hc => h3 b hc b (by simp) rfl
  rw [List.nodup_cons] at h2
  have hab : a ≠ b := by rintro rfl; exact h2.1 (by simp)
  rw [List.idxOf_append, List.idxOf_append, if_neg ha, if_neg hb]
  have hb' : (a == b) = false := by simp [hab]
  simp [List.idxOf_cons, hb']

theorem TopOrder.not_cyclic {g : List (α × List α)} {l : List α} (h : TopOrder g l) : ¬ Cyclic g := by
  rintro ⟨v, hv⟩
  have : ∀ a b, Relation.TransGen (Edge g) a b → l.idxOf a < l.idxOf b := by
    intro a b hab
    induction hab with
    | single h' => exact (h.forward _ _ h').trans_irrefl h.once
    | tail _ h' ih => exact Nat.lt_trans ih ((h.forward _ _ h').trans_irrefl h.once)
  exact Nat.lt_irrefl _ (this v v hv)

/-- In a final state, either everything has been sorted or there is a cycle. -/
theorem topoFinish_cases (g : Dict α (List α)) (st : TState α)
    (inv : TInv g (fun _ _ => False) st) (hS : st.S = []) :
    (topoFinish g st = .ok st.L ∧ TopOrder g st.L) ∨
      (topoFinish g st = .error .valueError ∧ Cyclic g) := by
  have stuck : ∀ x, IsNode g x → x ∉ st.L → ∃ a, Edge g a x ∧ a ∉ st.L := by
    intro x hx hL
    apply Classical.byContradiction
    intro hc
    have : x ∈ st.S := (inv.ready x).2 ⟨hx, hL, fun a ha => ⟨Classical.byContradiction fun h => hc ⟨a, ha, h⟩, fun h => h⟩⟩
    rw [hS] at this; cases this
  have hkey : ∀ v, ((st.incoming.lookup v).getD []).isEmpty = false ↔ ∃ a, Edge g a v ∧ a ∉ st.L := by
    intro v
    rw [← Bool.not_eq_true, List.isEmpty_iff]
    constructor
    · intro h
      obtain ⟨a, r, e⟩ := List.exists_cons_of_ne_nil h
      have := (inv.inc v a).1 (by rw [e]; simp)
      exact ⟨a, this.1, this.2.resolve_right id⟩
    · rintro ⟨a, ha, hL⟩ e
      have := (inv.inc v a).2 ⟨ha, .inl hL⟩
      rw [e] at this; cases this
  by_cases hc : (Dict.keys g).any fun v => !((st.incoming.lookup v).getD []).isEmpty
  · right
    refine ⟨by rw [topoFinish, if_pos hc], ?_⟩
    obtain ⟨v, hvk, hv⟩ := List.any_eq_true.1 hc
    have hv' : ((st.incoming.lookup v).getD []).isEmpty = false := by simpa using hv
    let U := (Dict.keys g).filter fun v => decide (v ∉ st.L)
    have hU : ∀ x, x ∈ U ↔ x ∈ Dict.keys g ∧ x ∉ st.L := by intro x; simp [U]
    have hkeys : ∀ a b, Edge g a b → a ∈ Dict.keys g := by
      rintro a b ⟨vs, h1, -⟩
      exact List.mem_map.2 ⟨_, h1, rfl⟩
    obtain ⟨a, ha, haL⟩ := (hkey v).1 hv'
    refine exists_cycle U ?_ ?_
    · have : a ∈ U := (hU a).2 ⟨hkeys a v ha, haL⟩
      intro e; rw [e] at this; cases this
    · intro x hx
      obtain ⟨h1, h2⟩ := (hU x).1 hx
      obtain ⟨p, hp, hpL⟩ := stuck x (.inl (by
        obtain ⟨kv, hkv, rfl⟩ := List.mem_map.1 h1; exact ⟨kv.2, hkv⟩)) h2
      exact ⟨p, (hU p).2 ⟨hkeys p x hp, hpL⟩, hp⟩
  · left
    refine ⟨by rw [topoFinish, if_neg hc], inv.LNodup, ?_, ?_⟩
    · have hno : ∀ v ∈ Dict.keys g, ∀ a, Edge g a v → a ∈ st.L := by
        intro v hv a ha
        apply Classical.byContradiction
        intro haL
        apply hc
        rw [List.any_eq_true]
        exact ⟨v, hv, by rw [(hkey v).2 ⟨a, ha, haL⟩]; rfl⟩
      have hkL : ∀ v ∈ Dict.keys g, v ∈ st.L := by
        intro v hv
        apply Classical.byContradiction
        intro hL
        obtain ⟨p, hp, hpL⟩ := stuck v (.inl (by
          obtain ⟨kv, hkv, rfl⟩ := List.mem_map.1 hv; exact ⟨kv.2, hkv⟩)) hL
        exact hpL (hno v hv p hp)
      intro v
      refine ⟨inv.LNode v, fun hv => Classical.byContradiction fun hL => ?_⟩
      obtain ⟨p, ⟨vs, hp1, hp2⟩, hpL⟩ := stuck v hv hL
      exact hpL (hkL p (List.mem_map.2 ⟨_, hp1, rfl⟩))
    · intro a b hab
      have hbL : b ∈ st.L := by
        apply Classical.byContradiction
        intro hL
        obtain ⟨p, hp, hpL⟩ := stuck b (.inr ⟨a, hab⟩) hL
        have hpk : p ∈ Dict.keys g := by
          obtain ⟨vs, h1, -⟩ := hp; exact List.mem_map.2 ⟨_, h1, rfl⟩
        obtain ⟨q, hq, hqL⟩ := stuck p (.inl (by
          obtain ⟨kv, hkv, rfl⟩ := List.mem_map.1 hpk; exact ⟨kv.2, hkv⟩)) hpL
        apply hc
        rw [List.any_eq_true]
        exact ⟨p, hpk, by rw [(hkey p).2 ⟨q, hq, hqL⟩]; rfl⟩
      exact inv.order b hbL a hab

/-- All nodes of a graph, as a list. -/
def nodeList (g : Dict α (List α)) : List α := Dict.keys g ++ g.flatMap (·.2)

omit [DecidableEq α] in
theorem mem_nodeList (g : Dict α (List α)) (x : α) : x ∈ nodeList g ↔ IsNode g x := by
  simp only [nodeList, List.mem_append, Dict.keys, List.mem_map, List.mem_flatMap, IsNode, Edge]
  constructor
  · rintro (⟨kv, h, rfl⟩ | ⟨kv, h, hx⟩)
    · exact .inl ⟨kv.2, h⟩
    · exact .inr ⟨kv.1, kv.2, h, hx⟩
  · rintro (⟨vs, h⟩ | ⟨a, vs, h, hx⟩)
    · exact .inl ⟨_, h, rfl⟩
    · exact .inr ⟨_, h, hx⟩

/-- A list without repetitions inside another is not longer. -/
theorem nodup_length_le {l m : List α} (hl : l.Nodup) (h : ∀ x ∈ l, x ∈ m) : l.length ≤ m.length := by
  induction l generalizing m with
  | nil => simp
  | cons a l ih =>
    rw [List.nodup_cons] at hl
    have ha : a ∈ m := h a List.mem_cons_self
    have := ih (m := m.erase a) hl.2 (by
      intro x hx
      have hxa : x ≠ a := by rintro rfl; exact hl.1 hx
      exact (List.mem_erase_of_ne hxa).2 (h x (List.mem_cons_of_mem _ hx)))
    rw [List.length_erase_of_mem ha] at this
    have hpos := List.length_pos_of_mem ha
    simp only [List.length_cons]; omega

theorem TInv.length_le {g : Dict α (List α)} {pend : α → α → Prop} {st : TState α} (inv : TInv g pend st) :
    st.L.length ≤ (nodeList g).length :=
  nodup_length_le inv.LNodup fun x hx => (mem_nodeList g x).2 (inv.LNode x hx)

end DS
