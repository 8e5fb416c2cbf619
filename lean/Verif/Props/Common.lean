import Verif.Model.Discovery
import Verif.Props.Graph
import Verif.Props.Typesets

/-
C26 lowest_common_dshape.
-/
namespace DS

/-! ### The conversion graph -/

/-- The nodes are pairwise different datashapes. -/
theorem node_inj (a b : Node) (h : pyEq a.ty b.ty = true) : a = b := by
  cases a <;> cases b <;> first | rfl | (revert h; decide)

theorem node_mem_all (n : Node) : n ∈ Node.all := by cases n <;> decide

theorem node_everywhere (n : Node) : n.ty.everywhere eqLocal = true := by cases n <;> decide

/-- A dict lookup finds the key that equals the argument. -/
theorem nodeOf_some {t : Ty} {n : Node} (ht : t.everywhere eqLocal = true) : nodeOf t = some n ↔ pyEq t n.ty = true := by
  unfold nodeOf
  constructor
  · intro h
    have := List.find?_some h
    simpa using this
  · intro h
    cases hf : Node.all.find? fun n => pyEq t n.ty with
    | none =>
      rw [List.find?_eq_none] at hf
      exact absurd h (by simpa using hf n (node_mem_all n))
    | some m =>
      have hm : pyEq t m.ty = true := by simpa using List.find?_some hf
      have : pyEq n.ty m.ty = true :=
        pyEq_trans (node_everywhere n) ht (node_everywhere m) (pyEq_symm ht (node_everywhere n) h) hm
      rw [node_inj n m this]

theorem nodeOf_ty (n : Node) : nodeOf n.ty = some n :=
  (nodeOf_some (node_everywhere n)).2 (pyEq_refl (node_everywhere n))

theorem discEdges_graph : IsGraph discEdges := by unfold IsGraph; decide

/-- The graph is the table of discovery.py: `b` points to `a` iff `(a, b)` is in the table. -/
theorem C26.table (a b : Node) : Edge discEdges b a ↔ (a, b) ∈ edgePairs := by
  rw [edge_iff discEdges_graph.1]
  revert a b
  have : ∀ a ∈ Node.all, ∀ b ∈ Node.all, (a ∈ (discEdges.lookup b).getD [] ↔ (a, b) ∈ edgePairs) := by decide
  intro a b
  exact this a (node_mem_all a) b (node_mem_all b)

/-- `toposorted` can be computed: some (and every) schedule of `_toposort(edges)` returns. -/
theorem C26.toposorted : (∃ topo, Toposort discEdges (.ok topo)) ∧
    ∀ r, Toposort discEdges r → ∃ topo, r = .ok topo ∧ TopOrder discEdges topo := by
  have hrun : Toposort discEdges (.ok [.int32, .int64, .real, .date, .datetime, .timedelta, .bool, .null, .string]) := by
    refine .step (.pop (n := .int32) (by decide) rfl) (.step (.pop (n := .int64) (by decide) rfl)
      (.step (.pop (n := .real) (by decide) rfl) (.step (.pop (n := .date) (by decide) rfl)
      (.step (.pop (n := .datetime) (by decide) rfl) (.step (.pop (n := .timedelta) (by decide) rfl)
      (.step (.pop (n := .bool) (by decide) rfl) (.step (.pop (n := .null) (by decide) rfl)
      (.step (.pop (n := .string) (by decide) rfl) (.finish rfl)))))))))
  have hac : ¬ Cyclic discEdges := by
    rcases TRun.outcome discEdges_graph hrun (topoInit_inv _ discEdges_graph) with ⟨l, -, h2⟩ | ⟨h1, -⟩
    · exact h2.not_cyclic
    · cases h1
  exact ⟨⟨_, hrun⟩, fun r hr => C27.sorts discEdges discEdges_graph hac r hr⟩

/-- the generalisations of a node, computed -/
def upSet (n : Node) : List Node := match descendents discEdges n with | .ok r => r | .error _ => []

theorem desc_upSet (n : Node) : descendents discEdges n = .ok (upSet n) := by
  obtain ⟨r, h, -, -⟩ := C28.reachable discEdges discEdges_graph.1 n
  rw [upSet, h]

theorem mem_upSet (n m : Node) : m ∈ upSet n ↔ Reaches discEdges n m := by
  obtain ⟨r, h, -, hm⟩ := C28.reachable discEdges discEdges_graph.1 n
  rw [upSet, h]; exact hm m

/-- The generalisations of a datashape form a chain. -/
theorem upSet_chain (n a b : Node) (ha : a ∈ upSet n) (hb : b ∈ upSet n) : b ∈ upSet a ∨ a ∈ upSet b := by
  have : ∀ n ∈ Node.all, ∀ a ∈ upSet n, ∀ b ∈ upSet n, b ∈ upSet a ∨ a ∈ upSet b := by decide
  exact this n (node_mem_all n) a ha b hb

theorem string_mem_upSet (n : Node) : Node.string ∈ upSet n := by cases n <;> decide

theorem descOf_node {t : Ty} {n : Node} (h : nodeOf t = some n) : descOf t = .ok ((upSet n).map .node) := by
  rw [descOf, h]
  simp only [desc_upSet]
  rfl

theorem descOf_other {t : Ty} (h : nodeOf t = none) : descOf t = .ok [.other t] := by
  rw [descOf, h]

theorem minKey_spec (best : Key × Nat) (l : List (Key × Nat)) :
    ∃ k ∈ best :: l, minKey best l = k.1 ∧ ∀ x ∈ best :: l, k.2 ≤ x.2 := by
  induction l generalizing best with
  | nil => exact ⟨best, by simp, rfl, by simp⟩
  | cons x r ih =>
    rw [minKey]
    split
    · rename_i h
      obtain ⟨k, hk, h1, h2⟩ := ih x
      refine ⟨k, List.mem_cons_of_mem _ hk, h1, ?_⟩
      intro y hy
      rcases List.mem_cons.1 hy with rfl | hy
      · have := h2 x (by simp); omega
      · exact h2 y hy
    · rename_i h
      obtain ⟨k, hk, h1, h2⟩ := ih best
      refine ⟨k, ?_, h1, ?_⟩
      · rcases List.mem_cons.1 hk with rfl | hk
        · simp
        · simp [hk]
      · intro y hy
        rcases List.mem_cons.1 hy with rfl | hy
        · exact h2 y (by simp)
        rcases List.mem_cons.1 hy with rfl | hy
        · have := h2 best (by simp); omega
        · exact h2 y (by simp [hy])

theorem reaches_idx {topo : List Node} (ht : TopOrder discEdges topo) {a b : Node} (h : Reaches discEdges a b) :
    a = b ∨ topo.idxOf a < topo.idxOf b := by
  induction h with
  | refl => exact .inl rfl
  | tail _ he ih =>
    have := (ht.forward _ _ he).trans_irrefl ht.once
    rcases ih with rfl | ih
    · exact .inr this
    · exact .inr (Nat.lt_trans ih this)

theorem Reaches.trans {g : List (Node × List Node)} {a b c : Node} (h1 : Reaches g a b) (h2 : Reaches g b c) : Reaches g a c := by
  induction h2 with
  | refl => exact h1
  | tail _ he ih => exact .tail ih he

theorem mapM_ok_map {α β : Type} {f : α → Except PyErr β} {g : α → β} {l : List α} (h : ∀ x ∈ l, f x = .ok (g x)) :
    l.mapM f = .ok (l.map g) := by
  induction l with
  | nil => rfl
  | cons a l ih =>
    rw [List.mapM_cons, h a (by simp), ih fun x hx => h x (by simp [hx])]
    rfl

theorem isNode_disc (n : Node) : IsNode discEdges n := by
  rw [← mem_nodeList]
  have : ∀ n ∈ Node.all, n ∈ nodeList discEdges := by decide
  exact this n (node_mem_all n)

/-- For arguments that equal nodes, written as a function of the list of nodes. -/
theorem lowestCommon_nodes {topo : List Node} (ht : TopOrder discEdges topo) (ts : List Ty) (ns : List Node)
    (hns : ns ≠ []) (hn : ts.map nodeOf = ns.map some) :
    ∃ r : Node, lowestCommon topo ts = .ok r.ty ∧ (∀ n ∈ ns, Reaches discEdges n r) ∧
      ∀ m, (∀ n ∈ ns, Reaches discEdges n m) → Reaches discEdges r m := by
  have hsets : ts.mapM descOf = .ok (ns.map fun n => (upSet n).map Key.node) := by
    clear hns
    induction ts generalizing ns with
    | nil => cases ns with
      | nil => rfl
      | cons => cases hn
    | cons t ts ih =>
      cases ns with
      | nil => cases hn
      | cons n ns =>
        simp only [List.map_cons, List.cons.injEq] at hn
        rw [List.mapM_cons, descOf_node hn.1, ih ns hn.2]
        rfl
  obtain ⟨n0, ns', rfl⟩ := List.exists_cons_of_ne_nil hns
  let C := (upSet n0).filter fun m => ns'.all fun n => m ∈ upSet n
  have hC : ∀ m, m ∈ C ↔ ∀ n ∈ n0 :: ns', Reaches discEdges n m := by
    intro m
    simp only [C, List.mem_filter, List.all_eq_true, decide_eq_true_eq, List.mem_cons, mem_upSet]
    constructor
    · rintro ⟨h1, h2⟩ n (rfl | h)
      · exact h1
      · exact h2 n h
    · intro h
      exact ⟨h n0 (.inl rfl), fun n hn => h n (.inr hn)⟩
  have hcommon : ((upSet n0).map Key.node).filter
      (fun x => (ns'.map fun n => (upSet n).map Key.node).all fun t => t.any fun y => x.eq y) = C.map Key.node := by
    rw [List.filter_map]
    congr 1
    apply List.filter_congr
    intro m _
    simp only [Function.comp, List.all_map, Key.eq, List.any_map]
    congr 1
    funext n
    rw [Bool.eq_iff_iff]
    simp [List.any_eq_true]
  have hstr : Node.string ∈ C := (hC _).2 fun n _ => (mem_upSet n _).1 (string_mem_upSet n)
  have hin : ∀ n : Node, n ∈ topo := fun n => (ht.all n).2 (isNode_disc n)
  have hany : (C.map Key.node).any (inTopo topo) = true := by
    rw [List.any_eq_true]
    exact ⟨.node .string, List.mem_map.2 ⟨_, hstr, rfl⟩, by simp [inTopo, hin]⟩
  have hkeyed : ((C.map Key.node).mapM fun x => do
      let i ← topoIndex topo x
      (Except.ok (x, i) : Except PyErr (Key × Nat))) = .ok ((C.map fun m => (Key.node m, topo.idxOf m))) := by
    rw [mapM_ok_map (g := fun x => (x, match x with | .node n => topo.idxOf n | .other _ => 0))]
    · simp [Function.comp]
    · intro x hx
      obtain ⟨m, _, rfl⟩ := List.mem_map.1 hx
      simp only [topoIndex, if_pos (hin m)]
      rfl
  have hCne : C ≠ [] := fun e => by rw [e] at hstr; cases hstr
  obtain ⟨c, cs, hcs⟩ := List.exists_cons_of_ne_nil hCne
  obtain ⟨k, hk, h1, h2⟩ := minKey_spec (Key.node c, topo.idxOf c) (cs.map fun m => (Key.node m, topo.idxOf m))
  rw [← List.map_cons (f := fun m => (Key.node m, topo.idxOf m)), ← hcs] at hk h2
  obtain ⟨r, hr, rfl⟩ := List.mem_map.1 hk
  refine ⟨r, ?_, (hC r).1 hr, ?_⟩
  · unfold lowestCommon
    simp only [hsets, bind, Except.bind, List.map_cons]
    rw [hcommon, if_pos hany]
    simp only [bind, Except.bind] at hkeyed
    rw [hkeyed, hcs]
    simp only [List.map_cons]
    rw [h1]
    rfl
  · intro m hm
    have hmC := (hC m).2 hm
    have hle := h2 (Key.node m, topo.idxOf m) (List.mem_map.2 ⟨m, hmC, rfl⟩)
    have hch := upSet_chain n0 r m ((mem_upSet n0 r).2 ((hC r).1 hr n0 (by simp))) ((mem_upSet n0 m).2 (hm n0 (by simp)))
    rcases hch with h | h
    · exact (mem_upSet r m).1 h
    · rcases reaches_idx ht ((mem_upSet m r).1 h) with rfl | hlt
      · exact .refl _
      · simp only at hle; omega

/-- `a` is one of the datashapes of the conversion table and can turn (in zero or more steps) into `b`. -/
def ConvertsTo (a : Ty) (b : Node) : Prop := ∃ n : Node, pyEq a n.ty = true ∧ Reaches discEdges n b

/-- For known datashapes `lowest_common_dshape` returns the least common generalisation: every argument can turn into
it, and it can turn into every other common generalisation. `topo` is any outcome of `_toposort(edges)`. -/
theorem C26.least (topo : List Node) (htopo : Toposort discEdges (.ok topo)) (ts : List Ty) (hne : ts ≠ [])
    (hts : ∀ t ∈ ts, t.everywhere eqLocal = true ∧ ∃ n : Node, pyEq t n.ty = true) :
    ∃ r : Node, lowestCommon topo ts = .ok r.ty ∧ (∀ t ∈ ts, ConvertsTo t r) ∧
      ∀ m, (∀ t ∈ ts, ConvertsTo t m) → Reaches discEdges r m := by
  obtain ⟨topo', e, ht⟩ := C26.toposorted.2 _ htopo
  injection e with e; subst e
  have : ∃ ns : List Node, ts.map nodeOf = ns.map some := by
    clear hne
    induction ts with
    | nil => exact ⟨[], rfl⟩
    | cons t ts ih =>
      obtain ⟨h1, n, hn⟩ := hts t (by simp)
      obtain ⟨ns, hns⟩ := ih fun t h => hts t (by simp [h])
      exact ⟨n :: ns, by simp [(nodeOf_some h1).2 hn, hns]⟩
  obtain ⟨ns, hns⟩ := this
  have hmem1 : ∀ n ∈ ns, ∃ t ∈ ts, nodeOf t = some n := by
    intro n hn
    have : some n ∈ ts.map nodeOf := by rw [hns]; exact List.mem_map.2 ⟨n, hn, rfl⟩
    obtain ⟨t, h1, h2⟩ := List.mem_map.1 this
    exact ⟨t, h1, h2⟩
  have hmem2 : ∀ t ∈ ts, ∃ n ∈ ns, nodeOf t = some n := by
    intro t ht
    have : nodeOf t ∈ ns.map some := by rw [← hns]; exact List.mem_map.2 ⟨t, ht, rfl⟩
    obtain ⟨n, h1, h2⟩ := List.mem_map.1 this
    exact ⟨n, h1, h2.symm⟩
  obtain ⟨r, h1, h2, h3⟩ := lowestCommon_nodes ht ts ns (by
    rintro rfl; cases ts with
    | nil => exact hne rfl
    | cons => cases hns) hns
  refine ⟨r, h1, ?_, ?_⟩
  · intro t ht
    obtain ⟨n, hn, e⟩ := hmem2 t ht
    exact ⟨n, (nodeOf_some (hts t ht).1).1 e, h2 n hn⟩
  · intro m hm
    apply h3
    intro n hn
    obtain ⟨t, ht', e⟩ := hmem1 n hn
    obtain ⟨n', he, hr⟩ := hm t ht'
    rw [(nodeOf_some (hts t ht').1).2 he] at e
    injection e with e; subst e; exact hr

/-- internal form -/
theorem lowestCommon_unknown (topo : List Node) (ts : List Ty) (t : Ty) (h : t ∈ ts) (hu : nodeOf t = none) :
    lowestCommon topo ts = .error .valueError := by
  let sets := ts.map fun t => match nodeOf t with | some n => (upSet n).map Key.node | none => [Key.other t]
  have hsets : ts.mapM descOf = .ok sets := by
    apply mapM_ok_map
    intro t _
    cases hn : nodeOf t with
    | none => exact descOf_other hn
    | some n => exact descOf_node hn
  have hmem : [Key.other t] ∈ sets := List.mem_map.2 ⟨t, h, by rw [hu]⟩
  unfold lowestCommon
  simp only [hsets, bind, Except.bind]
  have hsne : sets ≠ [] := fun e => by rw [e] at hmem; cases hmem
  obtain ⟨s, r, hsr⟩ := List.exists_cons_of_ne_nil hsne
  rw [hsr] at hmem ⊢
  simp only
  rw [if_neg]
  rw [Bool.not_eq_true, List.any_eq_false]
  intro x hx
  obtain ⟨hxs, hall⟩ := List.mem_filter.1 hx
  rcases List.mem_cons.1 hmem with he | hr
  · subst he
    rw [List.mem_singleton.1 hxs]
    simp [inTopo]
  · have := (List.all_eq_true.1 hall) _ hr
    cases x with
    | node n => simp [Key.eq] at this
    | other u => simp [inTopo]

/-- If one of the arguments is not in the table, even if all arguments are the same, it raises `ValueError`. -/
theorem C26.unknown (topo : List Node) (ts : List Ty) (t : Ty) (h : t ∈ ts) (hu : ∀ n : Node, pyEq t n.ty = false) :
    lowestCommon topo ts = .error .valueError :=
  lowestCommon_unknown topo ts t h (by simp [nodeOf, hu])

/-- The result depends only on which datashapes occur among the arguments: not on their order or on repetitions, and
not on the order in which sets were iterated when `toposorted` was computed. -/
theorem C26.order_irrelevant (topo topo' : List Node) (h : Toposort discEdges (.ok topo))
    (h' : Toposort discEdges (.ok topo')) (ts ts' : List Ty) (hne : ts ≠ [])
    (hsame : ∀ t, t ∈ ts ↔ t ∈ ts') (hev : ∀ t ∈ ts, t.everywhere eqLocal = true) :
    lowestCommon topo ts = lowestCommon topo' ts' := by
  have hne' : ts' ≠ [] := by
    rintro rfl
    obtain ⟨t, r, rfl⟩ := List.exists_cons_of_ne_nil hne
    exact absurd ((hsame t).1 (by simp)) (by simp)
  by_cases hk : ∃ t ∈ ts, nodeOf t = none
  · obtain ⟨t, ht, hu⟩ := hk
    rw [lowestCommon_unknown topo ts t ht hu, lowestCommon_unknown topo' ts' t ((hsame t).1 ht) hu]
  · have hts : ∀ t ∈ ts, t.everywhere eqLocal = true ∧ ∃ n : Node, pyEq t n.ty = true := by
      intro t ht
      refine ⟨hev t ht, ?_⟩
      cases hn : nodeOf t with
      | none => exact absurd ⟨t, ht, hn⟩ hk
      | some n => exact ⟨n, (nodeOf_some (hev t ht)).1 hn⟩
    obtain ⟨r, h1, h2, h3⟩ := C26.least topo h ts hne hts
    obtain ⟨r', h1', h2', h3'⟩ := C26.least topo' h' ts' hne' fun t ht => hts t ((hsame t).2 ht)
    rw [h1, h1']
    have a := h3 r' fun t ht => h2' t ((hsame t).1 ht)
    have b := h3' r fun t ht => h2 t ((hsame t).2 ht)
    obtain ⟨topo'', e, ht⟩ := C26.toposorted.2 _ h
    injection e with e; subst e
    rcases reaches_idx ht a with rfl | x
    · rfl
    · rcases reaches_idx ht b with rfl | y
      · rfl
      · omega

/-- The documented examples: int32, int64, float64 give float64; string and int64 give string. `complex128` is not in
the table, so even `[complex128, complex128]` raises. -/
theorem C26.examples (topo : List Node) (h : Toposort discEdges (.ok topo)) :
    lowestCommon topo [tInt32, tInt64, tFloat64] = .ok tFloat64 ∧ lowestCommon topo [tString, tInt64] = .ok tString ∧
    lowestCommon topo [tComplex128, tComplex128] = .error .valueError := by
  let t0 : List Node := [.int32, .int64, .real, .date, .datetime, .timedelta, .bool, .null, .string]
  have hrun : Toposort discEdges (.ok t0) := by
    refine .step (.pop (n := .int32) (by decide) rfl) (.step (.pop (n := .int64) (by decide) rfl)
      (.step (.pop (n := .real) (by decide) rfl) (.step (.pop (n := .date) (by decide) rfl)
      (.step (.pop (n := .datetime) (by decide) rfl) (.step (.pop (n := .timedelta) (by decide) rfl)
      (.step (.pop (n := .bool) (by decide) rfl) (.step (.pop (n := .null) (by decide) rfl)
      (.step (.pop (n := .string) (by decide) rfl) (.finish rfl)))))))))
  refine ⟨?_, ?_, lowestCommon_unknown topo _ tComplex128 (by simp) rfl⟩
  · rw [C26.order_irrelevant topo t0 h hrun _ _ (by simp) (fun _ => Iff.rfl)]
    · rfl
    · intro t ht
      simp only [List.mem_cons, List.not_mem_nil, or_false] at ht
      rcases ht with rfl | rfl | rfl <;> decide
  · rw [C26.order_irrelevant topo t0 h hrun _ _ (by simp) (fun _ => Iff.rfl)]
    · rfl
    · intro t ht
      simp only [List.mem_cons, List.not_mem_nil, or_false] at ht
      rcases ht with rfl | rfl <;> decide

/-- What can turn into what, written out: everything turns into itself and into a string; an `int32` also into `int64`
and `float64`, an `int64` into `float64`, a date into a datetime. -/
theorem C26.conversions (a b : Node) : Reaches discEdges a b ↔
    a = b ∨ b = .string ∨ (a = .int32 ∧ b = .int64) ∨ (a = .int32 ∧ b = .real) ∨ (a = .int64 ∧ b = .real) ∨
      (a = .date ∧ b = .datetime) := by
  have edge : ∀ {x y}, (y, x) ∈ edgePairs → Edge discEdges x y := fun h => (C26.table _ _).2 h
  constructor
  · intro h
    induction h with
    | refl => exact .inl rfl
    | @tail y z _ he ih =>
      rw [C26.table] at he
      revert ih he
      cases a <;> cases y <;> cases z <;> decide
  · have e1 : Reaches discEdges .int32 .int64 := .tail (.refl _) (edge (by decide))
    have e2 : Reaches discEdges .int64 .real := .tail (.refl _) (edge (by decide))
    have e3 : Reaches discEdges .int32 .real := .tail e1 (edge (by decide))
    rintro (rfl | rfl | ⟨rfl, rfl⟩ | ⟨rfl, rfl⟩ | ⟨rfl, rfl⟩ | ⟨rfl, rfl⟩)
    · exact .refl _
    · cases a
      case string => exact .refl _
      case int32 => exact .tail e1 (edge (by decide))
      all_goals exact .tail (.refl _) (edge (by decide))
    · exact e1
    · exact e3
    · exact e2
    · exact .tail (.refl _) (edge (by decide))

/-- The datashapes of the conversion table. -/
theorem C26.known (t : Ty) : (∃ n : Node, n.ty = t) ↔
    t ∈ [.string none (py"U8"), .ctype (py"int64") 8 8, .ctype (py"float64") 8 8, .date, .datetime none, .timedelta (py"us"),
      .ctype (py"bool") 1 1, .ctype (py"int32") 4 4, .null] := by
  constructor
  · rintro ⟨n, rfl⟩
    cases n <;> simp [Node.ty, tString, tInt64, tFloat64, tTimedelta, tBool, tInt32]
  · intro h
    simp only [List.mem_cons, List.not_mem_nil, or_false] at h
    rcases h with rfl | rfl | rfl | rfl | rfl | rfl | rfl | rfl | rfl
    · exact ⟨.string, rfl⟩
    · exact ⟨.int64, rfl⟩
    · exact ⟨.real, rfl⟩
    · exact ⟨.date, rfl⟩
    · exact ⟨.datetime, rfl⟩
    · exact ⟨.timedelta, rfl⟩
    · exact ⟨.bool, rfl⟩
    · exact ⟨.int32, rfl⟩
    · exact ⟨.null, rfl⟩

end DS
