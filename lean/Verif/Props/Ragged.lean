import Verif.Props.DiscoverDicts
import Verif.Props.Typesets

/-
C23, continued: rows of different lengths.
-/
namespace DS

theorem arrayOf_ne {a b : Nat} (ns : List Nat) (t : Ty) (h : a ≠ b) : pyEq (arrayOf (a :: ns) t) (arrayOf (b :: ns) t) = false := by
  have e : ∀ n : Nat, ∃ y r, arrayOf (n :: ns) t = .dshape (.fixed n :: y :: r) ∧ y :: r = ns.map Ty.fixed ++ [t] := by
    intro n
    cases ns with
    | nil => exact ⟨t, [], rfl, rfl⟩
    | cons m ns => exact ⟨.fixed m, _, rfl, rfl⟩
  obtain ⟨y, r, e1, -⟩ := e a
  obtain ⟨y', r', e2, -⟩ := e b
  rw [e1, e2]
  simp [pyEq, eqM, Ty.shape, eqInit, List.dropLast, h]

theorem pyDistinct_two {l : List Ty} (hl : ∀ x ∈ l, Plain x) {a b : Ty} (ha : a ∈ l) (hb : b ∈ l)
    (h : pyEq a b = false) : (pyDistinct l).length ≠ 1 := by
  intro h1
  obtain ⟨y, hy⟩ : ∃ y, pyDistinct l = [y] := by
    cases hd : pyDistinct l with
    | nil => rw [hd] at h1; cases h1
    | cons y r => rw [hd] at h1; cases r with
      | nil => exact ⟨y, rfl⟩
      | cons _ _ => cases h1
  have hyl : y ∈ l := pyDistinct_sub l y (by rw [hy]; simp)
  obtain ⟨u, hu, e1⟩ := pyDistinct_cover l hl a ha
  obtain ⟨v, hv, e2⟩ := pyDistinct_cover l hl b hb
  rw [hy, List.mem_singleton] at hu hv
  subst hu hv
  have := pyEq_trans (hl a ha) (hl _ hyl) (hl b hb) e1 (pyEq_symm (hl b hb) (hl _ hyl) e2)
  rw [h] at this; cases this

theorem uniteTuple_ragged {t : Ty} (h1 : t.isDShape = false) (h2 : t.cls ≠ some .dimension) (h3 : Plain t)
    (ns ds : List Nat) {a b : Nat} (ha : a ∈ ds) (hb : b ∈ ds) (hab : a ≠ b) :
    uniteTuple (ds.map fun d => arrayOf (d :: ns) t) = .ok (.dshape (.fixed ds.length :: .var :: (ns.map .fixed ++ [t]))) := by
  have hpos : 0 < ds.length := List.length_pos_of_mem ha
  have hcon : Constructible (ns.map .fixed ++ [t]) := array_con h1 h2
  have hid : uniteIdentical (ds.map fun d => arrayOf (d :: ns) t) = .ok none := by
    unfold uniteIdentical
    rw [if_neg]
    refine pyDistinct_two ?_ (List.mem_map.2 ⟨a, ha, rfl⟩) (List.mem_map.2 ⟨b, hb, rfl⟩) (arrayOf_ne ns t hab)
    intro x hx
    obtain ⟨d, -, rfl⟩ := List.mem_map.1 hx
    exact array_everywhere h2 h3
  have hsub : ∀ n : Nat, subshape (.int 0) (arrayOf (n :: ns) t) = .ok (arrayOf ns t) := by
    intro n
    rw [subshape]
    simp only [arrayOf, List.map_cons, List.cons_append, head_dshape, bind, Except.bind]
    rw [if_pos (by rfl)]
    exact subarray_one (array_con (ns := n :: ns) h1 h2) (by simp)
  have hmul : ∀ n : Nat, mul (.int n) (.ty (arrayOf ns t)) = .ok (arrayOf (n :: ns) t) := fun n =>
    mul_int_asParams rfl hcon
  have hdims : (ds.map fun d => arrayOf (d :: ns) t).mapM Ty.head = .ok (ds.map Ty.fixed) := by
    rw [mapM_ok_map (g := fun x => match x with | .dshape (d :: _) => d | _ => .var)]
    · rw [List.map_map]; rfl
    · intro x hx
      obtain ⟨d, -, rfl⟩ := List.mem_map.1 hx
      rfl
  have hsubs : (ds.map fun d => arrayOf (d :: ns) t).mapM (subshape (.int 0)) = .ok (List.replicate ds.length (arrayOf ns t)) := by
    rw [mapM_const (b := arrayOf ns t)]
    · rw [List.length_map]
    · intro x hx
      obtain ⟨d, -, rfl⟩ := List.mem_map.1 hx
      exact hsub d
  have hdd : (pyDistinct (ds.map Ty.fixed)).length ≠ 1 := by
    refine pyDistinct_two ?_ (List.mem_map.2 ⟨a, ha, rfl⟩) (List.mem_map.2 ⟨b, hb, rfl⟩) (by simp [pyEq, eqM, hab])
    intro x hx
    obtain ⟨d, -, rfl⟩ := List.mem_map.1 hx
    rfl
  have hmerge : uniteMerge (ds.map fun d => arrayOf (d :: ns) t) =
      .ok (some (.dshape (.fixed ds.length :: .var :: (ns.map .fixed ++ [t])))) := by
    unfold uniteMerge
    rw [if_pos]
    · simp only [hdims, hsubs, bind, Except.bind, List.length_map]
      rw [uniteIdentical_replicate (array_everywhere h2 h3) _ hpos (hmul _)]
      simp only [hsub]
      rw [if_neg hdd]
      have : mul (.ty .var) (.ty (arrayOf ns t)) = .ok (.dshape (.var :: (ns.map .fixed ++ [t]))) := by
        rw [mul_ty_eq _ _ rfl]
        exact mkDS_self.2 (hcon.cons (by simp [Ty.cls]) rfl)
      simp only [this]
      rw [mul_int_asParams (qs := .var :: (ns.map .fixed ++ [t])) rfl (hcon.cons (by simp [Ty.cls]) rfl)]
    · rw [List.all_eq_true]
      intro x hx
      obtain ⟨d, -, rfl⟩ := List.mem_map.1 hx
      rfl
  unfold uniteTuple
  simp only [hid, hmerge, bind, Except.bind]

/-- A sequence whose rows have different lengths but agree otherwise: `discover` of `l`, whose items are
`d1 x ns`, …, `dk x ns` nestings with leaves of type `t` and not all `di` the same, is `k * var * ns * t`. -/
theorem C23.ragged (strTy : Str → Except PyErr Ty) (topo : List Node) (t : Ty) (h1 : t.isDShape = false)
    (h2 : MayEnd t) (h3 : t.everywhere eqLocal = true) (k : SeqKind) (l : List PyObj) (ns : List Nat)
    (h : ∀ v ∈ l, ∃ d, Rect strTy topo t (d :: ns) v)
    (hd : ∃ v ∈ l, ∃ w ∈ l, ∃ a b, a ≠ b ∧ Rect strTy topo t (a :: ns) v ∧ Rect strTy topo t (b :: ns) w) :
    discover strTy topo (.seq k l) = .ok (.dshape (.fixed l.length :: .var :: (ns.map .fixed ++ [t]))) := by
  replace h2 := mayEnd_iff.2 h2
  obtain ⟨v, hv, w, hw, a, b, hab, hra, hrb⟩ := hd
  have hl : l ≠ [] := List.ne_nil_of_mem hv
  -- the lengths
  obtain ⟨ds, hds⟩ : ∃ ds : List Nat, l.map (discover strTy topo) = ds.map fun d => .ok (arrayOf (d :: ns) t) := by
    clear hra hrb hv hw hl
    induction l with
    | nil => exact ⟨[], rfl⟩
    | cons x l ih =>
      obtain ⟨ds, e⟩ := ih fun v hv => h v (by simp [hv])
      obtain ⟨d, hd⟩ := h x (by simp)
      exact ⟨d :: ds, by rw [List.map_cons, List.map_cons, e, rect_discover h1 h2 h3 hd]; rfl⟩
  have hmem : ∀ {v : PyObj} {a : Nat}, v ∈ l → Rect strTy topo t (a :: ns) v → a ∈ ds := by
    intro v a hv ha
    have : discover strTy topo v ∈ l.map (discover strTy topo) := List.mem_map.2 ⟨v, hv, rfl⟩
    rw [hds, rect_discover h1 h2 h3 ha] at this
    obtain ⟨d, hd, e⟩ := List.mem_map.1 this
    simp only [rectTy, arrayOf, List.map_cons, List.cons_append, Except.ok.injEq, Ty.dshape.injEq, List.cons.injEq,
      Ty.fixed.injEq, and_true] at e
    subst e; exact hd
  have hlen : ds.length = l.length := by simpa using (congrArg List.length hds).symm
  rw [discover_seq, discoverSeq, if_neg (by simpa using hl)]
  have hent : discoverDicts topo (l.map (discoverItem strTy topo)) = none := by
    unfold discoverDicts
    rw [mapM_none]
    refine ⟨_, List.mem_map.2 ⟨v, hv, rfl⟩, ?_⟩
    cases hra with
    | array a ns hs hne h => rw [discoverItem]
    | node k l ns hl h => rw [discoverItem]
  have hrest : discoverRest (l.map (discoverItem strTy topo)) =
      .ok (.dshape (.fixed l.length :: .var :: (ns.map .fixed ++ [t]))) := by
    unfold discoverRest
    have : (l.map (discoverItem strTy topo)).mapM Item.self = .ok (ds.map fun d => arrayOf (d :: ns) t) := by
      have e : ∀ (l : List PyObj) (ds : List Nat), l.map (discover strTy topo) = ds.map (fun d => .ok (arrayOf (d :: ns) t)) →
          (l.map (discoverItem strTy topo)).mapM Item.self = .ok (ds.map fun d => arrayOf (d :: ns) t) := by
        intro l
        induction l with
        | nil => intro ds e; cases ds with
          | nil => rfl
          | cons _ _ => cases e
        | cons x l ih =>
          intro ds e
          cases ds with
          | nil => cases e
          | cons d ds =>
            rw [List.map_cons, List.map_cons] at e
            injection e with e1 e2
            rw [List.map_cons, List.mapM_cons, ih ds e2]
            have e1' : (discoverItem strTy topo x).self = .ok (arrayOf (d :: ns) t) := e1
            rw [e1']
            rfl
      exact e l ds hds
    rw [this]
    simp only [bind, Except.bind]
    rw [uniteTuple_ragged h1 h2 h3 ns ds (hmem hv hra) (hmem hw hrb) hab, hlen]
  have hrows : discoverRows topo (l.map (discoverItem strTy topo)) = none := by
    unfold discoverRows
    split
    · rename_i r rows hr
      rw [if_neg]
      intro hall
      rw [List.all_eq_true] at hall
      have hlen : ∀ x ∈ r :: rows, x.length = r.length := by
        intro x hx
        rcases List.mem_cons.1 hx with rfl | hx
        · rfl
        · simpa using hall x hx
      have hrow : ∀ {v : PyObj} {a : Nat}, v ∈ l → Rect strTy topo t (a :: ns) v → a = r.length := by
        intro v a hv ha
        obtain ⟨x, hx, e⟩ : ∃ x ∈ r :: rows, (discoverItem strTy topo v).elems = some x := by
          have : (discoverItem strTy topo v).elems ∈ (l.map (discoverItem strTy topo)).map Item.elems :=
            List.mem_map.2 ⟨_, List.mem_map.2 ⟨v, hv, rfl⟩, rfl⟩
          rw [mapM_some hr] at this
          obtain ⟨x, hx, e⟩ := List.mem_map.1 this
          exact ⟨x, hx, e.symm⟩
        cases ha with
        | array a ns hs hne h => rw [discoverItem] at e; cases e
        | node k l' ns hl h =>
          rw [discoverItem, discoverItems_eq] at e
          simp only at e
          split at e
          · cases e
          · injection e with e
            rw [← hlen x hx, ← e]
            simp
      exact hab ((hrow hv hra).trans (hrow hw hrb).symm)
    · rfl
  rw [hrows, hent, hrest]
  rfl

/-- `[[1, 2], [3]]` is `2 * var * int64`, and a list of a `2 x 3` and a `5 x 3` array `2 * var * 3 * int64`. -/
theorem C23.ragged_example (strTy : Str → Except PyErr Ty) (topo : List Node) :
    discover strTy topo (.seq .list [.seq .list [.int, .int], .seq .list [.int]]) =
      .ok (.dshape [.fixed 2, .var, tInt64]) ∧
    discover strTy topo (.seq .list [.array ⟨[2, 3], .prim .int64, [], fun _ => []⟩,
      .array ⟨[5, 3], .prim .int64, [], fun _ => []⟩]) = .ok (.dshape [.fixed 2, .var, .fixed 3, tInt64]) := by
  have hi : Rect strTy topo tInt64 [] .int := .leaf _ ⟨rfl, rfl⟩
  have r2 : Rect strTy topo tInt64 [2] (.seq .list [.int, .int]) := .node .list [.int, .int] [] (by simp) (by simp [hi])
  have r1 : Rect strTy topo tInt64 [1] (.seq .list [.int]) := .node .list [.int] [] (by simp) (by simp [hi])
  have a2 : Rect strTy topo tInt64 [2, 3] (.array ⟨[2, 3], .prim .int64, [], fun _ => []⟩) := .array _ _ rfl (by simp) rfl
  have a5 : Rect strTy topo tInt64 [5, 3] (.array ⟨[5, 3], .prim .int64, [], fun _ => []⟩) := .array _ _ rfl (by simp) rfl
  constructor
  · refine C23.ragged strTy topo tInt64 rfl (by simp [tInt64, MayEnd]) rfl .list _ [] (fun v hv => ?_)
      ⟨_, by simp, _, by simp, 2, 1, by decide, r2, r1⟩
    simp only [List.mem_cons, List.not_mem_nil, or_false] at hv
    rcases hv with rfl | rfl
    · exact ⟨2, r2⟩
    · exact ⟨1, r1⟩
  · refine C23.ragged strTy topo tInt64 rfl (by simp [tInt64, MayEnd]) rfl .list _ [3] (fun v hv => ?_)
      ⟨_, List.mem_cons_self, _, List.mem_cons_of_mem _ List.mem_cons_self, 2, 5, by decide, a2, a5⟩
    rcases List.mem_cons.1 hv with rfl | hv
    · exact ⟨2, a2⟩
    · rcases List.mem_cons.1 hv with rfl | hv
      · exact ⟨5, a5⟩
      · cases hv

end DS
