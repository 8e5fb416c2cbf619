import Verif.Props.Common
import Verif.Props.Subshape
import Verif.Props.ArrayDiscovery

/-
C23, C24, C25: discover.
-/
namespace DS

/-! ### C24: discover keeps the length of a sequence -/

theorem mul_int_eq (n : Nat) (t : Ty) : mul (.int n) (.ty t) = mkDS (.fixed n :: asParams t) := by
  have hf : mkFixed (n : Int) = .ok (.fixed n) := by simp [mkFixed]
  cases t <;> simp only [mul, rmulDS, Operand.toTy, hf, bind, Except.bind, asParams]

/-- `n * t`, when it returns, has the leading dimension `n` and something below it. -/
theorem mul_int_ok {n : Nat} {t r : Ty} (h : mul (.int n) (.ty t) = .ok r) :
    r = .dshape (.fixed n :: (asParams t).map launderTy) ∧ asParams t ≠ [] := by
  rw [mul_int_eq, mkDS, checkDS_ok] at h
  obtain ⟨dims, m, e, -, h2, rfl⟩ := h
  refine ⟨rfl, fun e' => ?_⟩
  rw [e'] at e
  cases dims with
  | nil => simp [launderTy] at e; subst e; simp [Ty.cls] at h2
  | cons d ds => simp at e

/-- An array whose leading dimension is `n`. -/
def LeadingFixed (n : Nat) (r : Ty) : Prop := ∃ ps, ps ≠ [] ∧ r = .dshape (.fixed n :: ps)

theorem mul_leading {n : Nat} {t r : Ty} (h : mul (.int n) (.ty t) = .ok r) : LeadingFixed n r := by
  obtain ⟨h1, h2⟩ := mul_int_ok h
  exact ⟨_, by simpa using h2, h1⟩

theorem uniteIdentical_some {ts : List Ty} {r : Ty} (h : uniteIdentical ts = .ok (some r)) :
    (pyDistinct ts).length = 1 ∧ ∃ t us, ts = t :: us ∧ mul (.int ts.length) (.ty t) = .ok r := by
  unfold uniteIdentical at h
  split at h
  · rename_i h1
    refine ⟨h1, ?_⟩
    split at h
    · cases h
    · rename_i t us
      simp only [bind_ok] at h
      obtain ⟨x, hx, e⟩ := h
      cases e
      exact ⟨t, us, rfl, hx⟩
  · cases h

theorem uniteMerge_some {ts : List Ty} {r : Ty} (h : uniteMerge ts = .ok (some r)) : ∃ x, mul (.int ts.length) (.ty x) = .ok r := by
  unfold uniteMerge at h
  split at h
  · simp only [bind_ok] at h
    obtain ⟨dims, -, subs, -, u, -, h⟩ := h
    cases u with
    | none => cases h
    | some base =>
      simp only [bind_ok] at h
      obtain ⟨inner, -, row, -, r', h1, h⟩ := h
      cases h
      exact ⟨_, h1⟩
  · cases h

theorem mapM_length {α β : Type} {f : α → Except PyErr β} {l : List α} {r : List β} (h : l.mapM f = .ok r) :
    r.length = l.length := by
  induction l generalizing r with
  | nil => cases h; rfl
  | cons a l ih =>
    rw [List.mapM_cons] at h
    simp only [bind_ok] at h
    obtain ⟨b, -, bs, h2, h3⟩ := h
    cases h3
    simp [ih h2]

theorem mapM_getElem {α β : Type} {f : α → Except PyErr β} {l : List α} {r : List β} (h : l.mapM f = .ok r) :
    ∀ p ∈ l.zip r, f p.1 = .ok p.2 := by
  induction l generalizing r with
  | nil => simp
  | cons a l ih =>
    rw [List.mapM_cons] at h
    simp only [bind_ok] at h
    obtain ⟨b, h1, bs, h2, h3⟩ := h
    cases h3
    rintro p (_ | ⟨_, hp⟩)
    · exact h1
    · exact ih h2 p hp

theorem mkTuple_ok {ts : List Ty} {r : Ty} (h : mkTuple ts = .ok r) : ∃ us, r = .tuple us ∧ ts.mapM wrapDS = .ok us := by
  unfold mkTuple at h
  split at h
  · rename_i l hl; cases h; exact ⟨l, rfl, hl⟩
  · cases h

theorem uniteTuple_ok {ts : List Ty} {r : Ty} (h : uniteTuple ts = .ok r) :
    LeadingFixed ts.length r ∨ ∃ us, r = .tuple us ∧ us.length = ts.length := by
  unfold uniteTuple at h
  simp only [bind_ok] at h
  obtain ⟨u, h1, h⟩ := h
  cases u with
  | some t =>
    cases h
    obtain ⟨-, t, us, -, hm⟩ := uniteIdentical_some h1
    exact .inl (mul_leading hm)
  | none =>
    simp only [bind_ok] at h
    obtain ⟨v, h2, h⟩ := h
    cases v with
    | some t =>
      cases h
      obtain ⟨x, hx⟩ := uniteMerge_some h2
      exact .inl (mul_leading hx)
    | none =>
      obtain ⟨us, e, hm⟩ := mkTuple_ok h
      exact .inr ⟨us, e, mapM_length hm⟩

theorem orElse_ok {b : Option (Except PyErr Ty)} {rest : Except PyErr Ty} {r : Ty} (h : orElse b rest = .ok r) :
    b = some (.ok r) ∨ (rest = .ok r ∧ (b = none ∨ b = some (.error .attributeError))) := by
  unfold orElse at h
  split at h
  · exact .inr ⟨h, .inr rfl⟩
  · rename_i x _; left; rw [h]
  · exact .inr ⟨h, .inl rfl⟩

theorem discoverRows_ok {topo : List Node} {items : List Item} {r : Ty} (h : discoverRows topo items = some (.ok r)) :
    LeadingFixed items.length r := by
  unfold discoverRows at h
  split at h
  · split at h
    · injection h with h
      simp only [bind_ok] at h
      obtain ⟨_, -, u, -, h⟩ := h
      exact mul_leading h
    · cases h
  · cases h

theorem discoverDicts_ok {topo : List Node} {items : List Item} {r : Ty} (h : discoverDicts topo items = some (.ok r)) :
    LeadingFixed items.length r := by
  unfold discoverDicts at h
  split at h
  · injection h with h
    simp only [bind_ok] at h
    obtain ⟨_, -, u, -, h⟩ := h
    exact mul_leading h
  · cases h

theorem discoverItems_eq (strTy : Str → Except PyErr Ty) (topo : List Node) (l : List PyObj) :
    discoverItems strTy topo l = l.map (discoverItem strTy topo) := by
  induction l with
  | nil => rfl
  | cons v l ih => rw [discoverItems, ih]; rfl

theorem discoverEntries_eq (strTy : Str → Except PyErr Ty) (topo : List Node) (l : List (Str × PyObj)) :
    discoverEntries strTy topo l = l.map fun kv => (kv.1, discover strTy topo kv.2) := by
  induction l with
  | nil => rfl
  | cons v l ih => rw [discoverEntries, ih]; rfl

theorem discover_seq (strTy : Str → Except PyErr Ty) (topo : List Node) (k : SeqKind) (l : List PyObj) :
    discover strTy topo (.seq k l) = discoverSeq topo (l.map (discoverItem strTy topo)) := by
  rw [discover, discoverItem, ← discoverItems_eq]

/-- When `discover` of a non-empty list, tuple or set returns, the result is an array whose leading dimension is the
number of elements, or a tuple type with one component per element. -/
theorem C24.length (strTy : Str → Except PyErr Ty) (topo : List Node) (k : SeqKind) (l : List PyObj) (hl : l ≠ [])
    (r : Ty) (h : discover strTy topo (.seq k l) = .ok r) :
    (∃ ps, ps ≠ [] ∧ r = .dshape (.fixed l.length :: ps)) ∨ ∃ ts, r = .tuple ts ∧ ts.length = l.length := by
  rw [discover_seq, discoverSeq, if_neg (by simpa using hl)] at h
  have hlen : (l.map (discoverItem strTy topo)).length = l.length := by simp
  rcases orElse_ok h with h | ⟨h, -⟩
  · rw [← hlen]; exact .inl (discoverRows_ok h)
  rcases orElse_ok h with h | ⟨h, -⟩
  · rw [← hlen]; exact .inl (discoverDicts_ok h)
  · unfold discoverRest at h
    simp only [bind_ok] at h
    obtain ⟨types, h1, h2⟩ := h
    rw [← hlen, ← mapM_length h1]
    exact uniteTuple_ok h2

/-- The empty list, tuple or set is `var * string`. -/
theorem C24.empty (strTy : Str → Except PyErr Ty) (topo : List Node) (k : SeqKind) :
    discover strTy topo (.seq k []) = .ok (.dshape [.var, tString]) := by
  rw [discover_seq]; rfl

/-! The model's recursion over nested records never runs out of fuel. -/

theorem depth_launder (t : Ty) : (launderTy t).depth ≤ t.depth := by
  unfold launderTy
  split
  · simp [Ty.depth, depthL]
  · exact Nat.le_refl _

theorem depth_mem {l : List Ty} {t : Ty} (h : t ∈ l) : t.depth ≤ depthL l := by
  induction l with
  | nil => cases h
  | cons a l ih =>
    rw [depthL]
    rcases List.mem_cons.1 h with rfl | h
    · exact Nat.le_max_left _ _
    · exact Nat.le_trans (ih h) (Nat.le_max_right _ _)

theorem depthL_le {l : List Ty} {k : Nat} (h : ∀ t ∈ l, t.depth ≤ k) : depthL l ≤ k := by
  induction l with
  | nil => exact Nat.zero_le _
  | cons a l ih =>
    rw [depthL]
    exact Nat.max_le.2 ⟨h a (by simp), ih fun t ht => h t (by simp [ht])⟩

theorem depthF_mem {l : List (Str × Ty)} {n : Str} {t : Ty} (h : (n, t) ∈ l) : t.depth ≤ depthF l := by
  induction l with
  | nil => cases h
  | cons a l ih =>
    obtain ⟨m, u⟩ := a
    rw [depthF]
    rcases List.mem_cons.1 h with e | h
    · injection e with _ e; subst e; exact Nat.le_max_left _ _
    · exact Nat.le_trans (ih h) (Nat.le_max_right _ _)

/-- no error is the fuel artefact -/
abbrev NoFuel {α : Type} (x : Except PyErr α) : Prop := x ≠ .error .fuel

theorem NoFuel.bind {α β : Type} {x : Except PyErr α} {f : α → Except PyErr β} (h : NoFuel x)
    (hf : ∀ a, x = .ok a → NoFuel (f a)) : NoFuel (x >>= f) := by
  cases x with
  | ok a => exact hf a rfl
  | error e => intro h'; apply h; simpa [Bind.bind, Except.bind] using h'

theorem NoFuel.ok {α : Type} (a : α) : NoFuel (.ok a) := by intro h; cases h

theorem NoFuel.mapM {α β : Type} {f : α → Except PyErr β} {l : List α} (h : ∀ x ∈ l, NoFuel (f x)) : NoFuel (l.mapM f) := by
  induction l with
  | nil => exact .ok _
  | cons a l ih =>
    rw [List.mapM_cons]
    exact .bind (h a (by simp)) fun _ _ => .bind (ih fun x hx => h x (by simp [hx])) fun _ _ => .ok _

theorem NoFuel.checkDS (ps : List Ty) : NoFuel (DS.checkDS ps) := by
  unfold DS.checkDS
  split
  · intro h; cases h
  · split
    · intro h; cases h
    · split <;> (intro h; cases h)

theorem NoFuel.mkFixed (i : Int) : NoFuel (DS.mkFixed i) := by
  unfold DS.mkFixed; split <;> (intro h; cases h)

theorem NoFuel.toTy (o : Operand) : NoFuel o.toTy := by
  cases o with
  | ty => exact .ok _
  | int => exact .mkFixed _

theorem NoFuel.mul (a b : Operand) : NoFuel (DS.mul a b) := by
  unfold DS.mul
  split
  · intro h; cases h
  · exact .bind (.toTy _) fun _ _ => .checkDS _
  · exact .bind (.mkFixed _) fun _ _ => .checkDS _
  · exact .bind (.toTy _) fun _ _ => .checkDS _
  · exact .bind (.toTy _) fun _ _ => .checkDS _

theorem NoFuel.mkRecord (fs : List (Str × Ty)) : NoFuel (DS.mkRecord fs) := by
  unfold DS.mkRecord; split <;> (intro h; cases h)

theorem NoFuel.mkTuple (ts : List Ty) : NoFuel (DS.mkTuple ts) := by
  unfold DS.mkTuple
  have : NoFuel (ts.mapM wrapDS) := .mapM fun x _ => by
    unfold wrapDS; split
    · exact .ok _
    · exact .checkDS _
  split
  · exact .ok _
  · rename_i e he; intro h; apply this; rw [he]; injection h with h; rw [h]

theorem NoFuel.head (t : Ty) : NoFuel t.head := by unfold Ty.head; split <;> (intro h; cases h)

theorem NoFuel.subshape0 (i : Int) (t : Ty) : NoFuel (subshape (.int i) t) := by
  rw [subshape]
  refine .bind (.head _) fun d _ => ?_
  split
  · unfold subarray
    split
    · split
      · intro h; cases h
      · split
        · split
          · intro h; cases h
          · exact .checkDS _
        · exact .checkDS _
    · split <;> (intro h; cases h)
  · split
    · refine .bind ?_ fun _ _ => .ok _
      unfold pyGet
      intro h
      simp only at h
      repeat' split at h
      all_goals cases h
    · intro h; cases h

theorem NoFuel.lowestCommon (topo : List Node) (ts : List Ty) : NoFuel (DS.lowestCommon topo ts) := by
  unfold DS.lowestCommon
  refine .bind (.mapM fun t _ => ?_) fun sets _ => ?_
  · cases hn : nodeOf t with
    | none => rw [descOf_other hn]; exact .ok _
    | some n => rw [descOf_node hn]; exact .ok _
  · split
    · intro h; cases h
    · simp only
      split
      · refine .bind (.mapM fun x _ => .bind ?_ fun _ _ => .ok _) fun _ _ => ?_
        · unfold topoIndex
          split
          · split <;> (intro h; cases h)
          · intro h; cases h
        · split
          · intro h; cases h
          · exact .ok _
      · intro h; cases h

theorem uniteBase_noFuel (topo : List Node) (fuel : Nat) (ts : List Ty) (h : depthL ts < fuel) :
    NoFuel (uniteBase topo fuel ts) := by
  induction fuel generalizing ts with
  | zero => omega
  | succ fuel ih =>
    rw [uniteBase]
    simp only
    split
    · exact .mul _ _
    · rename_i g good hgood
      refine .bind ?_ fun _ _ => .mul _ _
      split
      · exact .lowestCommon _ _
      · refine .bind ?_ fun names hnames => .bind (.mapM fun name hname => .bind (.mapM ?_) fun col hcol => .bind ?_ fun _ _ =>
          .bind (.subshape0 _ _) fun _ _ => .ok _) fun _ _ => .mkRecord _
        · unfold namesOf; split <;> (intro h; cases h)
        · intro x _; unfold dictGet; split <;> (intro h; cases h)
        · apply ih
          have hgd : ∀ x ∈ (ts.map launderTy).filter (fun t => !isNull t), x.depth ≤ depthL ts := by
            intro x hx
            obtain ⟨y, hy, rfl⟩ := List.mem_map.1 (List.mem_filter.1 hx).1
            exact Nat.le_trans (depth_launder y) (depth_mem hy)
          have hgrec : 0 < depthL ts := by
            have : 0 < g.depth := by
              cases g <;> simp [namesOf] at hnames <;> simp [Ty.depth]
            exact Nat.lt_of_lt_of_le this (hgd g (by rw [hgood]; simp))
          have : depthL col ≤ depthL ts - 1 := by
            apply depthL_le
            intro t ht
            obtain ⟨i, hi⟩ := List.getElem?_of_mem ht
            rw [hgood] at hcol
            have hlen := mapM_length hcol
            have hi' : i < col.length := (List.getElem?_eq_some_iff.1 hi).1
            obtain ⟨x, hx⟩ : ∃ x, (g :: good)[i]? = some x :=
              ⟨(g :: good)[i]'(by omega), List.getElem?_eq_getElem (by omega)⟩
            have hz : (x, t) ∈ (g :: good).zip col := by
              apply List.mem_of_getElem? (i := i)
              rw [List.getElem?_zip_eq_some]; exact ⟨hx, hi⟩
            have hdg := mapM_getElem hcol _ hz
            have hxm : x ∈ g :: good := List.mem_of_getElem? hx
            have hxd := hgd x (by rw [hgood]; exact hxm)
            cases x <;> simp only [dictGet] at hdg <;> try cases hdg
            rename_i fs
            simp only [Ty.depth] at hxd
            cases hlk : fs.reverse.lookup name with
            | none => simp [Ty.depth]
            | some u =>
              have : (name, u) ∈ fs := by
                have := List.lookup_eq_some_iff.1 hlk
                obtain ⟨a, b, e, -⟩ := this
                have : (name, u) ∈ fs.reverse := by rw [e]; simp
                simpa using this
              have := depthF_mem this
              simp only [Option.getD_some]; omega
          omega

theorem uniteFull_noFuel (topo : List Node) (ts : List Ty) : NoFuel (uniteFull topo ts) := by
  unfold uniteFull
  refine .bind ?_ fun u _ => ?_
  · unfold uniteIdentical
    split
    · split
      · exact .ok _
      · exact .bind (.mul _ _) fun _ _ => .ok _
    · exact .ok _
  · split
    · exact .ok _
    · exact uniteBase_noFuel topo _ ts (Nat.lt_succ_self _)


/-- neither a sequence nor a dict -/
def PyObj.isAtom : PyObj → Bool
  | .seq .. | .dict _ | .od _ | .mp _ => false
  | _ => true

/-- Induction over Python values. -/
theorem PyObj.ind {P : PyObj → Prop} (atom : ∀ v, v.isAtom = true → P v)
    (seq : ∀ k l, (∀ v ∈ l, P v) → P (.seq k l))
    (dict : ∀ l : List (Str × PyObj), (∀ e ∈ l, P e.2) → P (.dict l))
    (od : ∀ l : List (Str × PyObj), (∀ e ∈ l, P e.2) → P (.od l))
    (mp : ∀ l : List (Str × PyObj), (∀ e ∈ l, P e.2) → P (.mp l)) : ∀ v, P v := by
  intro v
  refine PyObj.rec (motive_1 := P) (motive_2 := fun l => ∀ v ∈ l, P v)
    (motive_3 := fun l => ∀ e ∈ l, P e.2) (motive_4 := fun e => P e.2)
    ?_ ?_ ?_ ?_ ?_ ?_ ?_ ?_ ?_ ?_ ?_ (fun k l h => seq k l h) dict od mp ?_ ?_ ?_ ?_ ?_ ?_ ?_ ?_ ?_ v
  all_goals first
    | exact atom _ rfl
    | (intro s; exact atom _ rfl)
    | (intro s d; exact atom _ rfl)
    | skip
  · intro t h; cases h
  · intro a l ha hl t h
    cases h with
    | head => exact ha
    | tail _ h => exact hl t h
  · intro t h; cases h
  · intro a l ha hl t h
    cases h with
    | head => exact ha
    | tail _ h => exact hl t h
  · intro a b h; exact h

theorem NoFuel.uniteIdentical (ts : List Ty) : NoFuel (DS.uniteIdentical ts) := by
  unfold DS.uniteIdentical
  split
  · split
    · exact .ok _
    · exact .bind (.mul _ _) fun _ _ => .ok _
  · exact .ok _

theorem NoFuel.uniteTuple (ts : List Ty) : NoFuel (DS.uniteTuple ts) := by
  unfold DS.uniteTuple
  refine .bind (.uniteIdentical _) fun u _ => ?_
  split
  · exact .ok _
  · refine .bind ?_ fun v _ => ?_
    · unfold uniteMerge
      split
      · refine .bind (.mapM fun t _ => .head t) fun _ _ => .bind (.mapM fun t _ => .subshape0 _ t) fun _ _ =>
          .bind (.uniteIdentical _) fun u _ => ?_
        split
        · exact .ok _
        · exact .bind (.subshape0 _ _) fun _ _ => .bind (.mul _ _) fun _ _ => .bind (.mul _ _) fun _ _ => .ok _
      · exact .ok _
    · split
      · exact .ok _
      · exact .mkTuple _

theorem NoFuel.columnType (topo : List Node) (c : List (Except PyErr Ty)) (h : ∀ x ∈ c, NoFuel x) :
    NoFuel (DS.columnType topo c) :=
  .bind (.mapM h) fun _ _ => .bind (uniteFull_noFuel _ _) fun _ _ => .subshape0 _ _

theorem NoFuel.recordOf (es : List (Str × Except PyErr Ty)) (h : ∀ e ∈ es, NoFuel e.2) : NoFuel (DS.recordOf es) :=
  .bind (.mapM fun e he => .bind (h e he) fun _ _ => .ok _) fun _ _ => .mkRecord _

theorem NoFuel.discoverMap (es : List (Str × Except PyErr Ty)) (h : ∀ e ∈ es, NoFuel e.2) : NoFuel (DS.discoverMap es) := by
  apply NoFuel.recordOf
  intro e he
  obtain ⟨k, -, rfl⟩ := List.mem_map.1 he
  simp only
  cases hl : es.lookup k with
  | none => intro h; cases h
  | some x => exact h _ (lookup_mem hl)

/-- what is known about an item never contains the fuel artefact -/
structure Item.NoFuel (i : Item) : Prop where
  self : DS.NoFuel i.self
  elems : ∀ l, i.elems = some l → ∀ x ∈ l, DS.NoFuel x
  entries : ∀ l, i.entries = some l → ∀ e ∈ l, DS.NoFuel e.2

theorem mapM_some {α β : Type} {f : α → Option β} {l : List α} {r : List β} (h : l.mapM f = some r) :
    l.map f = r.map some := by
  induction l generalizing r with
  | nil => cases h; rfl
  | cons a l ih =>
    rw [List.mapM_cons] at h
    cases ha : f a with
    | none => rw [ha] at h; cases h
    | some b =>
      rw [ha] at h
      cases hl : l.mapM f with
      | none => rw [hl] at h; cases h
      | some bs => rw [hl] at h; cases h; simp [ha, ih hl]

theorem mapM_some_mem {α β : Type} {f : α → Option β} {l : List α} {r : List β} (h : l.mapM f = some r) :
    ∀ b ∈ r, ∃ a ∈ l, f a = some b := by
  intro b hb
  have : some b ∈ l.map f := by rw [mapM_some h]; exact List.mem_map.2 ⟨b, hb, rfl⟩
  obtain ⟨a, h1, h2⟩ := List.mem_map.1 this
  exact ⟨a, h1, h2⟩

theorem NoFuel.orElse {b : Option (Except PyErr Ty)} {rest : Except PyErr Ty} (hb : ∀ x, b = some x → NoFuel x)
    (hr : NoFuel rest) : NoFuel (DS.orElse b rest) := by
  unfold DS.orElse
  split
  · exact hr
  · rename_i r _; exact hb r rfl
  · exact hr

theorem NoFuel.discoverSeq (topo : List Node) (items : List Item) (h : ∀ i ∈ items, i.NoFuel) :
    NoFuel (DS.discoverSeq topo items) := by
  unfold DS.discoverSeq
  split
  · exact .ok _
  · refine .orElse ?_ (.orElse ?_ (.bind (.mapM fun i hi => (h i hi).self) fun _ _ => .uniteTuple _))
    · intro x hx
      unfold discoverRows at hx
      split at hx
      · rename_i r rows hr
        split at hx
        · injection hx with hx
          rw [← hx]
          refine .bind (.mapM fun c hc => .columnType _ _ fun x hx => ?_) fun _ _ => .bind (.uniteTuple _) fun _ _ => .mul _ _
          obtain ⟨j, -, rfl⟩ := List.mem_map.1 hc
          obtain ⟨row, hrow, rfl⟩ := List.mem_map.1 hx
          obtain ⟨i, hi, he⟩ := mapM_some_mem hr row hrow
          cases hj : row[j]? with
          | none => simp
          | some y => exact (h i hi).elems _ he y (List.mem_of_getElem? hj)
        · cases hx
      · cases hx
    · intro x hx
      unfold discoverDicts at hx
      split at hx
      · rename_i rows hr
        injection hx with hx
        rw [← hx]
        refine .bind (.mapM fun c hc => .columnType _ _ fun x hx => ?_) fun _ _ => .bind (.mkRecord _) fun _ _ => .mul _ _
        obtain ⟨k, -, rfl⟩ := List.mem_map.1 hc
        obtain ⟨row, hrow, rfl⟩ := List.mem_map.1 hx
        obtain ⟨i, hi, he⟩ := mapM_some_mem hr row hrow
        cases hl : row.lookup k with
        | none => exact .ok _
        | some y => exact (h i hi).entries _ he _ (lookup_mem hl)
      · cases hx

theorem NoFuel.mkString (n : Option Int) (e : Option Str) : NoFuel (DS.mkString n e) := by
  unfold DS.mkString
  simp only
  split
  · exact .ok _
  · intro h; cases h

theorem NoFuel.fromDtype (d : DType) : NoFuel (DS.fromDtype d) := by
  unfold DS.fromDtype
  split
  · exact .ok _
  · split <;> exact .ok _
  · unfold mkTimeDelta
    have := normalize_no_fuel ‹Str›
    split
    · exact .ok _
    · rename_i e he; rw [he] at this; exact this ∘ fun h => by injection h with h; rw [h]
  · exact .mkString _ _
  · split
    · exact .ok _
    · exact .mkString _ _
  · exact .ok _
  · split
    · exact .ok _
    · intro h; cases h

theorem NoFuel.mkDS (ps : List Ty) : NoFuel (DS.mkDS ps) := .checkDS _

theorem NoFuel.withShape (sh : List Int) (m : Ty) : NoFuel (DS.withShape sh m) := by
  unfold DS.withShape
  split
  · exact .ok _
  · exact .bind (.mapM fun x _ => .mkFixed x) fun _ _ => .mkDS _

theorem NoFuel.fromNumpy (d : DType) : ∀ sh, NoFuel (DS.fromNumpy d sh) := by
  refine DType.rec (motive_1 := fun d => ∀ sh, NoFuel (DS.fromNumpy d sh)) (motive_2 := fun l => NoFuel (fromNumpyF l))
    (motive_3 := fun x => ∀ sh, NoFuel (DS.fromNumpy x.2.2 sh)) (motive_4 := fun x => ∀ sh, NoFuel (DS.fromNumpy x.2 sh))
    ?_ ?_ ?_ ?_ ?_ ?_ ?_ ?_ ?_ ?_ d
  · intro p sh; rw [DS.fromNumpy]; exact .bind (.fromDtype _) fun _ _ => .withShape _ _
    all_goals simp
  · intro p sh; rw [DS.fromNumpy]; exact .bind (.fromDtype _) fun _ _ => .withShape _ _
    all_goals simp
  · intro p sh; rw [DS.fromNumpy]; exact .bind (.fromDtype _) fun _ _ => .withShape _ _
    all_goals simp
  · intro n sh; rw [DS.fromNumpy]; exact .bind (.mkString _ _) fun _ _ => .withShape _ _
  · intro n sh; rw [DS.fromNumpy]; exact .bind (.mkString _ _) fun _ _ => .withShape _ _
  · intro l hl sh
    cases l with
    | nil =>
      rw [DS.fromNumpy]; exact .bind (.fromDtype _) fun _ _ => .withShape _ _
      all_goals simp
    | cons f l => rw [DS.fromNumpy]; exact .bind hl fun _ _ => .bind (.mkRecord _) fun _ _ => .withShape _ _
  · rw [fromNumpyF]; exact .ok _
  · intro x l hx hl
    obtain ⟨n, sh, d⟩ := x
    rw [fromNumpyF]
    exact .bind (hx _) fun _ _ => .bind hl fun _ _ => .ok _
  · intro n x hx sh; exact hx sh
  · intro sh d hd sh'; exact hd sh'

theorem NoFuel.discoverArray (a : NdArray) : NoFuel (DS.discoverArray a) := by
  unfold DS.discoverArray
  refine .bind (.fromNumpy _ _) fun ds _ => ?_
  split
  · exact .mkDS _
  · split
    · split
      · exact .bind (.mkRecord _) fun _ _ => .mkDS _
      · exact .ok _
    · exact .ok _

theorem item_cases (a : NdArray) : a.item = discoverArray a ∨ (∃ t, discoverArray a = .ok (.dshape [t])) ∧ a.item = .error .unmodelled := by
  unfold NdArray.item
  split
  · rename_i t h; exact .inr ⟨⟨t, h⟩, rfl⟩
  · exact .inl rfl

/-- what an array inside another value is discovered as -/
theorem item_ok {a : NdArray} {t : Ty} (h : a.item = .ok t) : discoverArray a = .ok t ∧ t.isSingleton = false := by
  unfold NdArray.item at h
  split at h
  · cases h
  · rename_i hn
    refine ⟨h, ?_⟩
    cases t with
    | dshape ps =>
      rcases ps with _ | ⟨x, _ | ⟨y, r⟩⟩
      · rfl
      · exact (hn x h).elim
      · rfl
    | _ => rfl

theorem item_of {a : NdArray} {t : Ty} (h : discoverArray a = .ok t) (ht : t.isSingleton = false) : a.item = .ok t := by
  rcases item_cases a with e | ⟨⟨x, e⟩, _⟩
  · rw [e, h]
  · rw [h] at e; cases e; cases ht

theorem discoverItem_noFuel (strTy : Str → Except PyErr Ty) (hs : ∀ s, strTy s ≠ .error .fuel) (topo : List Node) (v : PyObj) :
    (discoverItem strTy topo v).NoFuel := by
  induction v using PyObj.ind with
  | atom v hv =>
    have hself : ∀ (x : Except PyErr Ty), NoFuel x → Item.NoFuel ⟨x, none, none⟩ :=
      fun x hx => ⟨hx, by intro l h; (injection h), by intro l h; (injection h)⟩
    cases v <;> (try (simp [PyObj.isAtom] at hv)) <;> simp only [discoverItem]
    case str s => apply hself; split; exact .ok _; exact hs s
    case array a =>
      apply hself
      rcases item_cases a with e | ⟨_, e⟩ <;> rw [e]
      · exact .discoverArray a
      · intro h; cases h
    case arrayLike sh d => exact hself _ (.fromNumpy _ _)
    case npScalar d => exact hself _ (.fromNumpy _ _)
    all_goals (apply hself; intro h; cases h)
  | seq k l ih =>
    rw [discoverItem, discoverItems_eq]
    have hi : ∀ i ∈ l.map (discoverItem strTy topo), i.NoFuel := by
      intro i hi
      obtain ⟨v, hv, rfl⟩ := List.mem_map.1 hi
      exact ih v hv
    refine ⟨.discoverSeq topo _ hi, ?_, by intro l h; injection h⟩
    intro es he x hx
    simp only at he
    split at he
    · cases he
    · injection he with he
      rw [← he] at hx
      obtain ⟨i, h1, rfl⟩ := List.mem_map.1 hx
      exact (hi i h1).self
  | dict l ih =>
    rw [discoverItem, discoverEntries_eq]
    have he : ∀ e ∈ l.map (fun kv => (kv.1, discover strTy topo kv.2)), NoFuel e.2 := by
      intro e he
      obtain ⟨kv, h1, rfl⟩ := List.mem_map.1 he
      exact (ih kv h1).self
    exact ⟨.discoverMap _ he, by intro l h; injection h, by intro l h; injection h with h; rw [← h]; exact he⟩
  | od l ih =>
    rw [discoverItem, discoverEntries_eq]
    have he : ∀ e ∈ l.map (fun kv => (kv.1, discover strTy topo kv.2)), NoFuel e.2 := by
      intro e he
      obtain ⟨kv, h1, rfl⟩ := List.mem_map.1 he
      exact (ih kv h1).self
    exact ⟨.recordOf _ he, by intro l h; injection h, by intro l h; injection h with h; rw [← h]; exact he⟩
  | mp l ih =>
    rw [discoverItem, discoverEntries_eq]
    have he : ∀ e ∈ l.map (fun kv => (kv.1, discover strTy topo kv.2)), NoFuel e.2 := by
      intro e he
      obtain ⟨kv, h1, rfl⟩ := List.mem_map.1 he
      exact (ih kv h1).self
    exact ⟨.discoverMap _ he, by intro l h; injection h, by intro l h; injection h⟩

/-- `discover` terminates: the fuel of the model is always enough. -/
theorem C24.no_fuel (strTy : Str → Except PyErr Ty) (hs : ∀ s, strTy s ≠ .error .fuel) (topo : List Node) (v : PyObj) :
    discover strTy topo v ≠ .error .fuel := (discoverItem_noFuel strTy hs topo v).self

/-! ### C23: rectangular nested lists -/

/-- `v` is a value that is not a list, tuple, set or dict, and `discover(v)` is `t`. -/
def Leaf (strTy : Str → Except PyErr Ty) (topo : List Node) (t : Ty) (v : PyObj) : Prop :=
  v.isAtom = true ∧ discover strTy topo v = .ok t

/-- `Rect strTy topo t [n1, …, nk] v`: `v` is an `n1 x … x nk` nesting of lists, tuples or sets, in any mixture, whose
leaves all discover to `t`; every extent of a list, tuple or set is positive. The last axes may also be those of NumPy
arrays with entries of type `t`. -/
inductive Rect (strTy : Str → Except PyErr Ty) (topo : List Node) (t : Ty) : List Nat → PyObj → Prop where
  | leaf (v : PyObj) (h : Leaf strTy topo t v) : Rect strTy topo t [] v
  | array (a : NdArray) (ns : List Nat) (hs : a.shape = ns) (hne : ns ≠ [])
      (h : discoverArray a = .ok (.dshape (a.shape.map .fixed ++ [t]))) : Rect strTy topo t ns (.array a)
  | node (k : SeqKind) (l : List PyObj) (ns : List Nat) (hl : l ≠ []) (h : ∀ v ∈ l, Rect strTy topo t ns v) :
      Rect strTy topo t (l.length :: ns) (.seq k l)

theorem pyDistinct_replicate {t : Ty} (ht : t.everywhere eqLocal = true) (n : Nat) :
    pyDistinct (List.replicate (n + 1) t) = [t] := by
  induction n with
  | zero => simp [pyDistinct, pyIn]
  | succ n ih =>
    rw [List.replicate_succ, pyDistinct, ih]
    simp [pyIn, pyEq_refl ht]

theorem uniteIdentical_replicate {t : Ty} (ht : t.everywhere eqLocal = true) (n : Nat) (hn : 0 < n) {r : Ty}
    (hm : mul (.int n) (.ty t) = .ok r) : uniteIdentical (List.replicate n t) = .ok (some r) := by
  obtain ⟨m, rfl⟩ : ∃ m, n = m + 1 := ⟨n - 1, by omega⟩
  unfold uniteIdentical
  rw [pyDistinct_replicate ht]
  simp only [List.length_cons, List.length_nil, List.replicate_succ, if_true]
  have : (List.replicate m t).length + 1 = m + 1 := by simp
  simp only [this, hm]
  rfl

/-- the datashape of an `n1 x … x nk` array, for `k ≥ 1` -/
def arrayOf (ns : List Nat) (t : Ty) : Ty := .dshape (ns.map .fixed ++ [t])

theorem array_con {ns : List Nat} {t : Ty} (h1 : t.isDShape = false) (h2 : t.cls ≠ some .dimension) :
    Constructible (ns.map .fixed ++ [t]) := by
  refine .of ⟨_, t, rfl, ?_, h2, ?_⟩
  · intro d hd; obtain ⟨n, -, rfl⟩ := List.mem_map.1 hd; simp [Ty.cls]
  · intro p hp
    simp only [List.mem_append, List.mem_map, List.mem_singleton] at hp
    rcases hp with ⟨n, -, rfl⟩ | rfl
    · rfl
    · cases p <;> first | rfl | simp [Ty.isDShape] at h1

theorem array_everywhere {ns : List Nat} {t : Ty} (h2 : t.cls ≠ some .dimension) (h3 : t.everywhere eqLocal = true) :
    (arrayOf ns t).everywhere eqLocal = true := by
  rw [everywhere_children]
  simp only [arrayOf, eqLocal, Ty.children, Bool.and_eq_true, List.all_eq_true]
  constructor
  · rw [List.getLast?_concat]
    cases t <;> simp [Ty.cls] at h2 <;> rfl
  · intro p hp
    simp only [List.mem_append, List.mem_map, List.mem_singleton] at hp
    rcases hp with ⟨n, -, rfl⟩ | rfl
    · rfl
    · exact h3

/-- what `discover` returns for a rectangular value of extents `ns` -/
def rectTy (t : Ty) : List Nat → Ty
  | [] => t
  | n :: ns => arrayOf (n :: ns) t

theorem rectTy_params {t : Ty} (h1 : t.isDShape = false) (ns : List Nat) : asParams (rectTy t ns) = ns.map .fixed ++ [t] := by
  cases ns with
  | nil => cases t <;> first | rfl | simp [Ty.isDShape] at h1
  | cons n ns => rfl

theorem rectTy_everywhere {t : Ty} (h2 : t.cls ≠ some .dimension) (h3 : t.everywhere eqLocal = true) (ns : List Nat) :
    (rectTy t ns).everywhere eqLocal = true := by
  cases ns with
  | nil => exact h3
  | cons n ns => exact array_everywhere h2 h3

theorem mapM_const {α β : Type} {f : α → Except PyErr β} {b : β} {l : List α} (h : ∀ x ∈ l, f x = .ok b) :
    l.mapM f = .ok (List.replicate l.length b) := by
  rw [mapM_ok_map (g := fun _ => b) h, List.map_const']

theorem mapM_none {α β : Type} {f : α → Option β} {l : List α} (h : ∃ x ∈ l, f x = none) : l.mapM f = none := by
  cases hm : l.mapM f with
  | none => rfl
  | some r =>
    obtain ⟨x, hx, hn⟩ := h
    have : none ∈ l.map f := List.mem_map.2 ⟨x, hx, hn⟩
    rw [mapM_some hm] at this
    simp at this

theorem mapM_some_map {α β : Type} {f : α → Option β} {g : α → β} {l : List α} (h : ∀ x ∈ l, f x = some (g x)) :
    l.mapM f = some (l.map g) := by
  induction l with
  | nil => rfl
  | cons a l ih =>
    rw [List.mapM_cons, h a (by simp), ih fun x hx => h x (by simp [hx])]
    rfl

theorem orElse_none (rest : Except PyErr Ty) : orElse none rest = rest := rfl

theorem leaf_item {strTy : Str → Except PyErr Ty} {topo : List Node} {t : Ty} {v : PyObj} (h : Leaf strTy topo t v) :
    (discoverItem strTy topo v).elems = none ∧ (discoverItem strTy topo v).entries = none := by
  obtain ⟨h1, -⟩ := h
  cases v <;> (try (simp [PyObj.isAtom] at h1)) <;> simp only [discoverItem, and_self]

theorem rect_discover {strTy : Str → Except PyErr Ty} {topo : List Node} {t : Ty} (h1 : t.isDShape = false)
    (h2 : t.cls ≠ some .dimension) (h3 : t.everywhere eqLocal = true) {ns : List Nat} {v : PyObj}
    (h : Rect strTy topo t ns v) : discover strTy topo v = .ok (rectTy t ns) := by
  induction hk : ns.length using Nat.strongRecOn generalizing ns v with
  | ind N IH =>
  subst hk
  cases h with
  | leaf _ h => exact h.2
  | array a ns hs hne h =>
    subst hs
    rw [discover, discoverItem]
    simp only
    obtain ⟨n, ns, e⟩ := List.exists_cons_of_ne_nil hne
    rw [item_of h (by rw [e]; cases ns <;> rfl), e]; rfl
  | node k l ns hl h =>
    have ih : ∀ v ∈ l, discover strTy topo v = .ok (rectTy t ns) := fun v hv => IH ns.length (by simp) (h v hv) rfl
    rw [discover_seq, discoverSeq, if_neg (by simpa using hl)]
    have hpos : 0 < l.length := List.length_pos_iff.2 hl
    have hmul : ∀ n : Nat, mul (.int n) (.ty (rectTy t ns)) = .ok (arrayOf (n :: ns) t) := fun n =>
      mul_int_asParams (rectTy_params h1 ns) (array_con h1 h2)
    have hev := rectTy_everywhere h2 h3 ns
    have hent : discoverDicts topo (l.map (discoverItem strTy topo)) = none := by
      unfold discoverDicts
      rw [mapM_none]
      obtain ⟨v, l', rfl⟩ := List.exists_cons_of_ne_nil hl
      refine ⟨_, List.mem_map.2 ⟨v, by simp, rfl⟩, ?_⟩
      cases h v (by simp) with
      | leaf _ hlf => exact (leaf_item hlf).2
      | array a ns hs hne h => rw [discoverItem]
      | node k l ns hl h => rw [discoverItem]
    have hrest : discoverRest (l.map (discoverItem strTy topo)) = .ok (arrayOf (l.length :: ns) t) := by
      unfold discoverRest
      rw [mapM_const (b := rectTy t ns)]
      · simp only [bind, Except.bind, uniteTuple, List.length_map]
        rw [uniteIdentical_replicate hev _ hpos (hmul _)]
      · intro i hi
        obtain ⟨v, hv, rfl⟩ := List.mem_map.1 hi
        exact ih v hv
    rw [hent, orElse_none, hrest]
    by_cases hrows : ∃ v ∈ l, (discoverItem strTy topo v).elems = none
    · have : discoverRows topo (l.map (discoverItem strTy topo)) = none := by
        unfold discoverRows
        rw [mapM_none]
        obtain ⟨v, hv, he⟩ := hrows
        exact ⟨_, List.mem_map.2 ⟨v, hv, rfl⟩, he⟩
      rw [this]; rfl
    · -- every item is a list or a tuple
      cases ns with
      | nil =>
        exfalso
        obtain ⟨v, l', rfl⟩ := List.exists_cons_of_ne_nil hl
        apply hrows
        refine ⟨v, by simp, ?_⟩
        cases h v (by simp) with
        | leaf _ hlf => exact (leaf_item hlf).1
        | array a ns hs hne h => exact absurd rfl hne
      | cons m ns =>
        have hel : ∀ v ∈ l, (discoverItem strTy topo v).elems = some (List.replicate m (.ok (rectTy t ns))) ∧ 0 < m := by
          intro v hv
          have hr := h v hv
          have hn : (discoverItem strTy topo v).elems ≠ none := fun e => hrows ⟨v, hv, e⟩
          cases hr with
          | array a _ hs hne h => rw [discoverItem] at hn; simp at hn
          | node k' l' _ hl' h' =>
            refine ⟨?_, List.length_pos_iff.2 hl'⟩
            rw [discoverItem, discoverItems_eq] at hn ⊢
            simp only at hn ⊢
            split
            · rename_i hk; simp [hk] at hn
            · rw [List.map_map]
              congr 1
              rw [List.eq_replicate_iff]
              refine ⟨by simp, fun x hx => ?_⟩
              obtain ⟨w, hw, rfl⟩ := List.mem_map.1 hx
              exact IH ns.length (by simp only [List.length_cons]; omega) (h' w hw) rfl
        have hm : 0 < m := by
          obtain ⟨v, l', rfl⟩ := List.exists_cons_of_ne_nil hl
          exact (hel v (by simp)).2
        have hrowsEq : (l.map (discoverItem strTy topo)).mapM Item.elems =
            some (List.replicate l.length (List.replicate m (.ok (rectTy t ns)))) := by
          rw [mapM_some_map (g := fun _ => List.replicate m (.ok (rectTy t ns)))]
          · rw [List.map_const', List.length_map]
          · intro i hi
            obtain ⟨v, hv, rfl⟩ := List.mem_map.1 hi
            exact (hel v hv).1
        obtain ⟨p, hp⟩ : ∃ p, l.length = p + 1 := ⟨l.length - 1, by omega⟩
        have hmul' : ∀ (n : Nat) (u : Ty), asParams u = ns.map .fixed ++ [t] →
            mul (.int n) (.ty u) = .ok (arrayOf (n :: ns) t) := fun n u hu => mul_int_asParams hu (array_con h1 h2)
        have hcol : columnType topo (List.replicate l.length (.ok (rectTy t ns))) = .ok (.dshape (ns.map .fixed ++ [t])) := by
          unfold columnType column
          rw [mapM_const (b := rectTy t ns) (by intro x hx; exact (List.eq_of_mem_replicate hx))]
          simp only [bind, Except.bind, uniteFull, List.length_replicate]
          rw [uniteIdentical_replicate (rectTy_everywhere h2 h3 ns) _ hpos (hmul' _ _ (rectTy_params h1 ns))]
          simp only
          rw [subshape]
          simp only [arrayOf, List.map_cons, List.cons_append, head_dshape, bind, Except.bind]
          rw [if_pos (by rfl)]
          exact subarray_one (array_con (ns := l.length :: ns) h1 h2) (by simp)
        have hrw : discoverRows topo (l.map (discoverItem strTy topo)) = some (.ok (arrayOf (l.length :: m :: ns) t)) := by
          unfold discoverRows
          rw [hrowsEq, hp, List.replicate_succ]
          simp only
          rw [if_pos (by simp)]
          have hcols : columnsOf (List.replicate m (Except.ok (rectTy t ns) : Except PyErr Ty)).length
              (List.replicate m (.ok (rectTy t ns)) :: List.replicate p (List.replicate m (.ok (rectTy t ns)))) =
              List.replicate m (List.replicate l.length (.ok (rectTy t ns))) := by
            rw [← List.replicate_succ, ← hp]
            unfold columnsOf
            rw [List.eq_replicate_iff]
            refine ⟨by simp, fun c hc => ?_⟩
            obtain ⟨j, hj, rfl⟩ := List.mem_map.1 hc
            rw [List.length_replicate, List.mem_range] at hj
            rw [List.map_replicate]
            congr 1
            rw [List.getElem?_replicate, if_pos hj]; rfl
          rw [hcols, mapM_const (b := .dshape (ns.map .fixed ++ [t])) (by
            intro x hx; rw [List.eq_of_mem_replicate hx]; exact hcol)]
          simp only [bind, Except.bind, List.length_replicate, uniteTuple, List.length_map]
          rw [show Ty.dshape (ns.map .fixed ++ [t]) = arrayOf ns t from rfl,
            uniteIdentical_replicate (array_everywhere (ns := ns) h2 h3) m hm (hmul' _ _ rfl)]
          simp only
          rw [← hp]
          exact congrArg some (mul_int_asParams (t := arrayOf (m :: ns) t) (qs := (m :: ns).map .fixed ++ [t]) rfl
            (array_con h1 h2))
        rw [hrw]; rfl

/-- `discover` of an `n1 x … x nk` nested list (or tuple, set, NumPy array) whose leaves all discover to the same type `t`, not
itself an array or a dimension, is `n1 * … * nk * t`. -/
theorem C23.rectangular (strTy : Str → Except PyErr Ty) (topo : List Node) (t : Ty) (h1 : t.isDShape = false)
    (h2 : MayEnd t) (h3 : t.everywhere eqLocal = true) (n : Nat) (ns : List Nat) (v : PyObj)
    (h : Rect strTy topo t (n :: ns) v) :
    discover strTy topo v = .ok (.dshape ((n :: ns).map .fixed ++ [t])) := rect_discover h1 (mayEnd_iff.2 h2) h3 h

/-- A concrete rectangular value: `[(1, 2, 3), {4, 5, 6}]` is `2 * 3 * int64`. -/
theorem C23.example (strTy : Str → Except PyErr Ty) (topo : List Node) :
    Rect strTy topo tInt64 [2, 3] (.seq .list [.seq .tuple [.int, .int, .int], .seq .set [.int, .int, .int]]) := by
  have hi : Rect strTy topo tInt64 [] .int := .leaf _ ⟨rfl, rfl⟩
  refine .node .list [.seq .tuple [.int, .int, .int], .seq .set [.int, .int, .int]] [3] (by simp) ?_
  intro v hv
  simp only [List.mem_cons, List.not_mem_nil, or_false] at hv
  rcases hv with rfl | rfl
  · exact .node .tuple [.int, .int, .int] [] (by simp) (by simp [hi])
  · exact .node .set [.int, .int, .int] [] (by simp) (by simp [hi])

/-- A list of two `3 x 4` arrays of int64 is `2 * 3 * 4 * int64`; the arrays may also be empty. -/
theorem C23.arrays (strTy : Str → Except PyErr Ty) (topo : List Node) :
    Rect strTy topo tInt64 [2, 3, 4] (.seq .list [.array ⟨[3, 4], .prim .int64, [], fun _ => []⟩,
      .array ⟨[3, 4], .prim .int64, [], fun _ => []⟩]) ∧
    Rect strTy topo tInt64 [1, 0] (.seq .list [.array ⟨[0], .prim .int64, [], fun _ => []⟩]) := by
  refine ⟨.node .list [_, _] [3, 4] (by simp) fun v hv => ?_, .node .list [_] [0] (by simp) fun v hv => ?_⟩
  · simp only [List.mem_cons, List.not_mem_nil, or_false, or_self] at hv
    subst hv
    exact .array _ _ rfl (by simp) rfl
  · simp only [List.mem_cons, List.not_mem_nil, or_false] at hv
    subst hv
    exact .array _ _ rfl (by simp) rfl

/-- The positive extents are needed: `discover([[], []])` is `2 * ()`, not `2 * 0 * t` for any `t`. -/
theorem C23.empty_rows (strTy : Str → Except PyErr Ty) (topo : List Node) :
    discover strTy topo (.seq .list [.seq .list [], .seq .list []]) = .ok (.dshape [.fixed 2, .tuple []]) := rfl

end DS
