import Verif.Proofs.Graph

/-
C27 topological sort, C28 reachability, C29 groupby.
-/
namespace DS

variable {α : Type} [DecidableEq α]

/-! ### C27 -/

/-- No schedule of `S.pop()` makes `_toposort` run forever: there is no infinite sequence of loop iterations. -/
theorem C27.terminates (g : Dict α (List α)) (hg : IsGraph g) :
    Acc (fun b a => TStep g a b) (topoInit g) := by
  have key : ∀ k (st : TState α), TInv g (fun _ _ => False) st → (nodeList g).length - st.L.length ≤ k →
      Acc (fun b a => TStep g a b) st := by
    intro k
    induction k with
    | zero =>
      intro st inv hk
      refine ⟨st, ?_⟩
      rintro st' ⟨hn, h⟩
      obtain ⟨st'', h1, h2, h3⟩ := topoPop_inv g hg st _ hn inv
      rw [h] at h1; injection h1 with h1; subst h1
      have := h3.length_le
      rw [h2] at this; simp at this; omega
    | succ k ih =>
      intro st inv hk
      refine ⟨st, ?_⟩
      rintro st' ⟨hn, h⟩
      obtain ⟨st'', h1, h2, h3⟩ := topoPop_inv g hg st _ hn inv
      rw [h] at h1; injection h1 with h1; subst h1
      refine ih st' h3 ?_
      have := h3.length_le
      rw [h2] at this ⊢; simp at this ⊢; omega
  exact key _ _ (topoInit_inv g hg) (Nat.le_refl _)

/-- From a state satisfying the invariant, every outcome is a topological order or the report of a cycle. -/
theorem TRun.outcome {g : Dict α (List α)} (hg : IsGraph g) {st : TState α} {r : Except PyErr (List α)}
    (h : TRun g st r) (inv : TInv g (fun _ _ => False) st) :
    (∃ l, r = .ok l ∧ TopOrder g l) ∨ (r = .error .valueError ∧ Cyclic g) := by
  induction h with
  | finish hS =>
    rcases topoFinish_cases g _ inv hS with ⟨h1, h2⟩ | ⟨h1, h2⟩
    · exact .inl ⟨_, h1, h2⟩
    · exact .inr ⟨h1, h2⟩
  | step hst _ ih =>
    obtain ⟨hn, h⟩ := hst
    obtain ⟨st'', h1, -, h3⟩ := topoPop_inv g hg _ _ hn inv
    rw [h] at h1; injection h1 with h1; subst h1
    exact ih h3
  | raise hn h =>
    obtain ⟨st'', h1, -, -⟩ := topoPop_inv g hg _ _ hn inv
    rw [h] at h1; cases h1

/-- On an acyclic graph every schedule returns, and returns a topological order of all nodes. -/
theorem C27.sorts (g : Dict α (List α)) (hg : IsGraph g) (hac : ¬ Cyclic g)
    (r : Except PyErr (List α)) (h : Toposort g r) : ∃ l, r = .ok l ∧ TopOrder g l := by
  rcases TRun.outcome hg h (topoInit_inv g hg) with h' | ⟨-, hc⟩
  · exact h'
  · exact absurd hc hac

/-- On a cyclic graph every schedule raises `ValueError`. -/
theorem C27.cycle_raises (g : Dict α (List α)) (hg : IsGraph g) (hc : Cyclic g)
    (r : Except PyErr (List α)) (h : Toposort g r) : r = .error .valueError := by
  rcases TRun.outcome hg h (topoInit_inv g hg) with ⟨l, -, hl⟩ | ⟨h', -⟩
  · exact absurd hc hl.not_cyclic
  · exact h'

/-- Whatever the schedule did so far, it can be (and is) completed to an outcome: some outcome exists. -/
theorem C27.outcome_exists (g : Dict α (List α)) (hg : IsGraph g) : ∃ r, Toposort g r := by
  have key : ∀ st : TState α, Acc (fun b a => TStep g a b) st → TInv g (fun _ _ => False) st → ∃ r, TRun g st r := by
    intro st hacc
    induction hacc with
    | intro st _ ih =>
      intro inv
      cases hS : st.S with
      | nil => exact ⟨_, .finish hS⟩
      | cons n s =>
        have hn : n ∈ st.S := by rw [hS]; simp
        obtain ⟨st', h1, -, h3⟩ := topoPop_inv g hg st n hn inv
        obtain ⟨r, hr⟩ := ih st' ⟨hn, h1⟩ h3
        exact ⟨r, .step ⟨hn, h1⟩ hr⟩
  exact key _ (C27.terminates g hg) (topoInit_inv g hg)

/-- The documented example `{1: (2, 3), 2: (3,)}` is an acyclic graph, and it sorts to `[1, 2, 3]`. -/
example : IsGraph [(1, [2, 3]), (2, [3])] ∧ Toposort [(1, [2, 3]), (2, [3])] (.ok [1, 2, 3]) := by
  refine ⟨by unfold IsGraph; decide, ?_⟩
  exact .step (.pop (n := 1) (by decide) rfl) (.step (.pop (n := 2) (by decide) rfl)
    (.step (.pop (n := 3) (by decide) rfl) (.finish rfl)))

example : ¬ Cyclic [(1, [2, 3]), (2, [3])] :=
  TopOrder.not_cyclic (l := [1, 2, 3]) (by
    have h : IsGraph [(1, [2, 3]), (2, [3])] := by unfold IsGraph; decide
    obtain ⟨r, hr⟩ := C27.outcome_exists _ h
    have hrun : Toposort [(1, [2, 3]), (2, [3])] (.ok [1, 2, 3]) :=
      .step (.pop (n := 1) (by decide) rfl) (.step (.pop (n := 2) (by decide) rfl)
        (.step (.pop (n := 3) (by decide) rfl) (.finish rfl)))
    rcases TRun.outcome h hrun (topoInit_inv _ h) with ⟨l, h1, h2⟩ | ⟨h1, -⟩
    · injection h1 with h1; subst h1; exact h2
    · cases h1)

/-- `{1: (2,), 2: (1,)}` is cyclic. -/
example : IsGraph [(1, [2]), (2, [1])] ∧ Cyclic [(1, [2]), (2, [1])] :=
  ⟨by unfold IsGraph; decide,
   1, .tail (b := 2) (.single ⟨[2], by simp, by simp⟩) ⟨[1], by simp, by simp⟩⟩

/-- A value that lists a successor twice (allowed by the "tuple" in the docstring) trips the assertion. -/
theorem C27.repeated_successor : Toposort [(1, [2, 2])] (.error .assertion) :=
  .raise (n := 1) (by decide) rfl

/-! ### C28 -/

theorem mem_descNext {d : Dict α (List α)} (hd : (d.map (·.1)).Nodup) (desc : List α) (y : α) :
    y ∈ descNext d desc ↔ (∃ k ∈ desc, Edge d k y) ∧ y ∉ desc := by
  simp only [descNext, List.mem_filter, mem_toSet, List.mem_flatMap, decide_eq_true_eq, edge_iff hd]

theorem descLoop_correct {d : Dict α (List α)} (hd : (d.map (·.1)).Nodup) (x : α)
    (fuel : Nat) (children desc : List α)
    (hnd : desc.Nodup) (hx : x ∈ desc) (hr : ∀ y ∈ desc, Reaches d x y)
    (hclosed : children = [] → ∀ k ∈ desc, ∀ y, Edge d k y → y ∈ desc)
    (hfuel : (children = [] ∧ 1 ≤ fuel) ∨ ((d.flatMap (·.2)).length + 3 ≤ fuel + desc.length ∧
      desc.length ≤ (d.flatMap (·.2)).length + 1 ∧ 1 ≤ fuel)) :
    ∃ r, descLoop d fuel children desc = .ok r ∧ r.Nodup ∧ ∀ y, y ∈ r ↔ Reaches d x y := by
  induction fuel generalizing children desc with
  | zero => omega
  | succ fuel ih =>
    rw [descLoop]
    cases hch : children with
    | nil =>
      refine ⟨desc, rfl, hnd, fun y => ⟨hr y, fun hy => ?_⟩⟩
      induction hy with
      | refl => exact hx
      | tail _ he ih => exact hclosed hch _ ih _ he
    | cons c cs =>
      simp only [List.isEmpty_cons, Bool.false_eq_true, if_false]
      have hmem : ∀ y, y ∈ (descNext d desc).foldl setAdd desc ↔ y ∈ desc ∨ ∃ k ∈ desc, Edge d k y := by
        intro y
        rw [mem_foldl_setAdd, mem_descNext hd]
        by_cases h : y ∈ desc <;> simp [h]
      have hnd' := nodup_foldl_setAdd (descNext d desc) hnd
      have hr' : ∀ y ∈ (descNext d desc).foldl setAdd desc, Reaches d x y := by
        intro y hy
        rcases (hmem y).1 hy with h | ⟨k, hk, he⟩
        · exact hr y h
        · exact .tail (hr k hk) he
      have hlen : ((descNext d desc).foldl setAdd desc).length ≤ (d.flatMap (·.2)).length + 1 := by
        refine nodup_length_le (m := x :: d.flatMap (·.2)) hnd' ?_
        intro y hy
        have := hr' y hy
        cases this with
        | refl => simp
        | tail _ he =>
          obtain ⟨vs, h1, h2⟩ := he
          exact List.mem_cons_of_mem _ (List.mem_flatMap.2 ⟨_, h1, h2⟩)
      refine ih _ _ hnd' ((hmem x).2 (.inl hx)) hr' ?_ ?_
      · intro hnil k hk y he
        rw [hnil] at hk ⊢
        simp only [List.foldl_nil] at hk ⊢
        apply Classical.byContradiction
        intro hy
        have := (mem_descNext hd desc y).2 ⟨⟨k, hk, he⟩, hy⟩
        rw [hnil] at this; cases this
      · rcases hfuel with ⟨h, -⟩ | ⟨h1, h2, h3⟩
        · rw [hch] at h; cases h
        · cases hn : descNext d desc with
          | nil => left; exact ⟨rfl, by omega⟩
          | cons z zs =>
            right
            rw [← hn]
            have hz : z ∈ descNext d desc := by rw [hn]; simp
            have hzn := ((mem_descNext hd desc z).1 hz).2
            have hlt : desc.length + 1 ≤ ((descNext d desc).foldl setAdd desc).length := by
              have := nodup_length_le (l := z :: desc) (m := (descNext d desc).foldl setAdd desc)
                (List.nodup_cons.2 ⟨hzn, hnd⟩) (by
                  intro y hy
                  rw [mem_foldl_setAdd]
                  rcases List.mem_cons.1 hy with rfl | h
                  · exact .inr hz
                  · exact .inl h)
              simpa using this
            omega

theorem descLoop_mono {d : Dict α (List α)} (fuel : Nat) (children desc r : List α)
    (h : descLoop d fuel children desc = .ok r) : ∀ fuel', fuel ≤ fuel' → descLoop d fuel' children desc = .ok r := by
  induction fuel generalizing children desc with
  | zero => cases h
  | succ fuel ih =>
    intro fuel' hle
    obtain ⟨f, rfl⟩ : ∃ f, fuel' = f + 1 := ⟨fuel' - 1, by omega⟩
    rw [descLoop] at h ⊢
    split
    · rename_i hc; rw [if_pos hc] at h; exact h
    · rename_i hc; rw [if_neg hc] at h
      exact ih _ _ h f (by omega)

/-- `descendents(d, x)` returns for every dict and every start node, and the result is, without repetition,
exactly what is reachable from `x`. -/
theorem C28.reachable (d : Dict α (List α)) (hd : (d.map (·.1)).Nodup) (x : α) :
    ∃ r, descendents d x = .ok r ∧ r.Nodup ∧ ∀ y, y ∈ r ↔ Reaches d x y := by
  refine descLoop_correct hd x _ _ [x] (by simp) (by simp) ?_ ?_ ?_
  · intro y hy; simp at hy; subst hy; exact .refl _
  · intro h k hk y he
    simp at hk; subst hk
    rw [edge_iff hd, h] at he; cases he
  · right; simp

/-- The number of iterations is bounded: allowing more of them never changes the result. -/
theorem C28.terminates (d : Dict α (List α)) (hd : (d.map (·.1)).Nodup) (x : α) (fuel : Nat)
    (hf : (d.flatMap (·.2)).length + 3 ≤ fuel) : descendentsN fuel d x = descendents d x := by
  obtain ⟨r, h, -, -⟩ := C28.reachable d hd x
  rw [h]
  exact descLoop_mono _ _ _ _ h fuel hf

/-- The documented example. -/
example : descendents [(3, [2]), (2, [1, 0]), (5, [6])] 3 = .ok [3, 2, 1, 0] := rfl
/-- Cycles are no obstacle. -/
example : descendents [(3, [2]), (2, [3])] 3 = .ok [3, 2] := rfl

/-! ### C29 -/

theorem groupbyFrom_lookup {κ ι : Type} [DecidableEq κ] (f : ι → κ) (seq : List ι) (d : Dict κ (List ι)) (k : κ) :
    (groupbyFrom f d seq).lookup k =
      if (d.lookup k).isSome || seq.any (fun x => decide (f x = k)) then
        some ((d.lookup k).getD [] ++ seq.filter fun x => decide (f x = k))
      else none := by
  induction seq generalizing d with
  | nil => cases h : d.lookup k <;> simp [groupbyFrom, h]
  | cons x xs ih =>
    rw [groupbyFrom, ih, lookup_set]
    by_cases h : k = f x
    · subst h
      simp
    · have h' : f x ≠ k := fun e => h e.symm
      rw [if_neg h, List.any_cons, List.filter_cons]
      simp only [decide_eq_false h', Bool.false_or, Bool.false_eq_true, if_false]

theorem keys_set {κ β : Type} [DecidableEq κ] (d : Dict κ β) (k : κ) (v : β) :
    Dict.keys (Dict.set d k v) = setAdd (Dict.keys d) k := by
  induction d with
  | nil => simp [Dict.set, Dict.keys, setAdd]
  | cons p d ih =>
    obtain ⟨k', v'⟩ := p
    by_cases h : k = k'
    · subst h
      simp [Dict.set, Dict.keys, setAdd]
    · have ih' : Dict.keys (Dict.set d k v) = setAdd (Dict.keys d) k := ih
      have : Dict.keys (Dict.set ((k', v') :: d) k v) = k' :: setAdd (Dict.keys d) k := by
        rw [← ih']; simp [Dict.set, h, Dict.keys]
      rw [this]
      have hk : Dict.keys ((k', v') :: d) = k' :: Dict.keys d := rfl
      rw [hk]
      unfold setAdd
      by_cases hm : k ∈ Dict.keys d <;> simp [hm, h]

theorem groupbyFrom_keys {κ ι : Type} [DecidableEq κ] (f : ι → κ) (seq : List ι) (d : Dict κ (List ι)) :
    Dict.keys (groupbyFrom f d seq) = (seq.map f).foldl setAdd (Dict.keys d) := by
  induction seq generalizing d with
  | nil => rfl
  | cons x xs ih => rw [groupbyFrom, ih, keys_set]; rfl

/-- `groupby(f, seq)[k]` is the subsequence of the elements `x` of `seq` with `f(x) == k`, in order, for every value
`k` that `f` takes; there is no other key. -/
theorem C29.partition {κ ι : Type} [DecidableEq κ] (f : ι → κ) (seq : List ι) (k : κ) :
    ((∃ x ∈ seq, f x = k) → (groupby f seq).lookup k = some (seq.filter fun x => decide (f x = k))) ∧
    ((¬ ∃ x ∈ seq, f x = k) → (groupby f seq).lookup k = none) := by
  have h := groupbyFrom_lookup f seq [] k
  rw [groupby, h]
  constructor
  · rintro ⟨x, hx, e⟩
    rw [if_pos (by simp; exact ⟨x, hx, e⟩)]
    simp
  · intro hno
    rw [if_neg (by simp; intro x hx e; exact hno ⟨x, hx, e⟩)]

/-- The keys are pairwise distinct, are exactly the values of `f`, and no group is empty. -/
theorem C29.keys {κ ι : Type} [DecidableEq κ] (f : ι → κ) (seq : List ι) :
    (Dict.keys (groupby f seq)).Nodup ∧ (∀ k, k ∈ Dict.keys (groupby f seq) ↔ ∃ x ∈ seq, f x = k) ∧
      ∀ k g, (k, g) ∈ groupby f seq → g ≠ [] := by
  have hk := groupbyFrom_keys f seq []
  have hnd : (Dict.keys (groupby f seq)).Nodup := by
    rw [groupby, hk]; exact nodup_foldl_setAdd _ (by simp [Dict.keys])
  have hmem : ∀ k, k ∈ Dict.keys (groupby f seq) ↔ ∃ x ∈ seq, f x = k := by
    intro k
    rw [groupby, hk, mem_foldl_setAdd]
    simp [Dict.keys]
  refine ⟨hnd, hmem, ?_⟩
  intro k g hg
  have hkk : k ∈ Dict.keys (groupby f seq) := List.mem_map.2 ⟨_, hg, rfl⟩
  obtain ⟨x, hx, e⟩ := (hmem k).1 hkk
  have h1 := (C29.partition f seq k).1 ⟨x, hx, e⟩
  rw [(lookup_iff_mem hnd k g).2 hg] at h1
  injection h1 with h1
  rw [h1]
  intro hn
  have : x ∈ seq.filter fun x => decide (f x = k) := by simp [hx, e]
  rw [hn] at this; cases this

/-- Nothing is lost or invented: together the groups have as many elements as the sequence. -/
theorem C29.total {κ ι : Type} [DecidableEq κ] (f : ι → κ) (seq : List ι) :
    ((groupby f seq).map fun kg => kg.2.length).sum = seq.length := by
  have hset : ∀ (d : Dict κ (List ι)) (k : κ) (v : List ι),
      ((Dict.set d k v).map fun kg => kg.2.length).sum + ((d.lookup k).getD []).length
        = (d.map fun kg => kg.2.length).sum + v.length := by
    intro d k v
    induction d with
    | nil => simp [Dict.set]
    | cons p d ih =>
      obtain ⟨k', v'⟩ := p
      by_cases h : k = k'
      · subst h; simp [Dict.set]; omega
      · have hb : (k == k') = false := by simp [h]
        simp only [Dict.set, if_neg h, List.lookup_cons, hb, List.map_cons, List.sum_cons]
        omega
  have key : ∀ (seq : List ι) (d : Dict κ (List ι)),
      ((groupbyFrom f d seq).map fun kg => kg.2.length).sum = (d.map fun kg => kg.2.length).sum + seq.length := by
    intro seq
    induction seq with
    | nil => intro d; simp [groupbyFrom]
    | cons x xs ih =>
      intro d
      rw [groupbyFrom, ih]
      have := hset d (f x) ((d.lookup (f x)).getD [] ++ [x])
      simp only [List.length_append, List.length_cons, List.length_nil] at this ⊢
      omega
  have := key seq []
  simpa [groupby] using this

/-- The documented example `groupby(iseven, [1, …, 8])`. -/
example : groupby (fun n : Nat => n % 2 == 0) [1, 2, 3, 4, 5, 6, 7, 8]
    = [(false, [1, 3, 5, 7]), (true, [2, 4, 6, 8])] := rfl

end DS
