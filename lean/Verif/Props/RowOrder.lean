import Verif.Spec.RowOrder
import Verif.Props.Uniform
import Verif.Proofs.Interchange

/-
C65: what `discover` finds does not depend on the order of the items.
-/
namespace DS

variable {ok : Str → Bool}

/-! ### Equal discovered datashapes are identical -/

theorem strip_shape {t : Ty} (h : t.everywhere (discLocal ok) = true) (hs : t.isSingleton = false) :
    t.strip.isDShape = t.isDShape := by
  cases t <;> try rfl
  rename_i ps
  rw [Ty.strip, stripL_eq]
  rcases ps with _ | ⟨x, _ | ⟨y, r⟩⟩
  · rfl
  · cases hs
  · rfl

theorem strip_inj (a : Ty) (ha : a.everywhere (discLocal ok) = true) : ∀ b, b.everywhere (discLocal ok) = true →
    a.isDShape = b.isDShape → a.strip = b.strip → a = b := by
  induction a using Ty.ind_children with
  | h a ih =>
  intro b hb hd h
  have lst : ∀ ts us : List Ty, (∀ t ∈ ts, t ∈ a.children) → (∀ u ∈ us, u.everywhere (discLocal ok) = true) →
      (∀ t ∈ ts, ∀ u ∈ us, t.isDShape = u.isDShape) → ts.map Ty.strip = us.map Ty.strip → ts = us := by
    intro ts
    induction ts with
    | nil => intro us _ _ _ h; cases us with
      | nil => rfl
      | cons u us => simp at h
    | cons t ts ih' =>
      intro us h1 h2 h3 h4
      cases us with
      | nil => simp at h4
      | cons u us =>
        simp only [List.map_cons, List.cons.injEq] at h4
        rw [ih t (h1 t (by simp)) (everywhere_child ha (h1 t (by simp))) u (h2 u (by simp)) (h3 t (by simp) u (by simp)) h4.1,
          ih' us (fun t ht => h1 t (by simp [ht])) (fun u hu => h2 u (by simp [hu]))
            (fun t ht u hu => h3 t (by simp [ht]) u (by simp [hu])) h4.2]
  have hla := everywhere_self ha
  have hlb := everywhere_self hb
  have dsh : ∀ ps : List Ty, (Ty.dshape ps).everywhere (discLocal ok) = true → ∀ p ∈ ps, p.isDShape = false := by
    intro ps h p hp
    obtain ⟨-, -, -, -, -, -, h⟩ := Disc.params h
    exact (h p hp).2
  have nosingle : ∀ t : Ty, t.isDShape = false → t.isSingleton = false := by
    intro t h; cases t <;> first | rfl | cases h
  have one : ∀ (x : Ty) (y z : Ty) (r : List Ty), x.everywhere (discLocal ok) = true → x.isDShape = false →
      x.strip ≠ .dshape (y.strip :: z.strip :: r.map Ty.strip) := by
    intro x y z r h1 h2 e
    have := strip_shape h1 (nosingle x h2)
    rw [e, h2] at this
    cases this
  cases a with
  | dshape ps =>
    cases b <;> try (simp [Ty.isDShape] at hd; done)
    rename_i qs
    rw [Ty.strip, Ty.strip, stripL_eq, stripL_eq] at h
    have hps := dsh ps ha
    have hqs := dsh qs hb
    have key : ps.map Ty.strip = qs.map Ty.strip := by
      rcases ps with _ | ⟨x, _ | ⟨y, r⟩⟩
      · cases hla
      · rcases qs with _ | ⟨x', _ | ⟨y', r'⟩⟩
        · cases hlb
        · simpa [single] using h
        · exact absurd h (one x x' y' r' (everywhere_child ha (by simp [Ty.children])) (hps x (by simp)))
      · rcases qs with _ | ⟨x', _ | ⟨y', r'⟩⟩
        · cases hlb
        · exact absurd h.symm (one x' x y r (everywhere_child hb (by simp [Ty.children])) (hqs x' (by simp)))
        · simpa [single] using h
    rw [lst ps qs (fun _ h => h) (fun u hu => everywhere_child hb hu) (fun t ht u hu => by rw [hps t ht, hqs u hu]) key]
  | record fs =>
    cases b <;> try (simp [Ty.strip] at h; done)
    · rename_i gs
      rw [Ty.strip, Ty.strip, stripF_eq, stripF_eq] at h
      injection h with h
      have hf : ∀ f ∈ fs, f.2.isSingleton = false := fun f hf => (disc_field ha hf).2.2
      have hg : ∀ f ∈ gs, f.2.isSingleton = false := fun f hf => (disc_field hb hf).2.2
      have hch : ∀ f ∈ fs, f.2 ∈ (Ty.record fs).children := fun f hf => List.mem_map.2 ⟨f, hf, rfl⟩
      have hcg : ∀ f ∈ gs, f.2.everywhere (discLocal ok) = true := fun f hf => everywhere_child hb (List.mem_map.2 ⟨f, hf, rfl⟩)
      have : fs = gs := by
        clear hd hla hlb
        clear lst
        generalize (Ty.record fs).children = cs at ih hch
        have hall : ∀ f ∈ fs, f.2.everywhere (discLocal ok) = true := fun f hf => (disc_field ha hf).1.all
        clear ha hb
        induction fs generalizing gs with
        | nil => cases gs with
          | nil => rfl
          | cons => simp at h
        | cons f fs ih' =>
          cases gs with
          | nil => simp at h
          | cons g gs =>
            simp only [List.map_cons, List.cons.injEq, Prod.mk.injEq] at h
            have e2 : f.2 = g.2 := by
              refine ih f.2 (hch f (by simp)) (hall f (by simp)) g.2 (hcg g (by simp)) ?_ h.1.2
              rw [← strip_shape (hall f (by simp)) (hf f (by simp)), ← strip_shape (hcg g (by simp)) (hg g (by simp)), h.1.2]
            have e1 : f = g := Prod.ext h.1.1 e2
            rw [e1, ih' gs h.2 (fun f h => hf f (by simp [h])) (fun f h => hg f (by simp [h]))
              (fun f h => hcg f (by simp [h])) (fun f h => hch f (by simp [h])) (fun f h => hall f (by simp [h]))]
      rw [this]
    · simp [Ty.isDShape] at hd
  | tuple ts =>
    cases b <;> try (simp [Ty.strip] at h; done)
    · rename_i us
      rw [Ty.strip, Ty.strip, stripL_eq, stripL_eq] at h
      injection h with h
      simp only [discLocal, List.all_eq_true] at hla hlb
      rw [lst ts us (fun _ h => h) (fun u hu => everywhere_child hb hu) (fun t ht u hu => by rw [hla t ht, hlb u hu]) h]
    · simp [Ty.isDShape] at hd
  | option t =>
    cases b <;> try (simp [Ty.strip] at h; done)
    · rename_i u
      rw [Ty.strip, Ty.strip] at h
      injection h with h
      simp only [discLocal, Bool.and_eq_true, Bool.not_eq_true'] at hla hlb
      rw [ih t (by simp [Ty.children]) (everywhere_child ha (by simp [Ty.children])) u (everywhere_child hb (by simp [Ty.children]))
        (by rw [hla.1.1, hlb.1.1]) h]
    · simp [Ty.isDShape] at hd
  | _ =>
    first
    | (cases hla; done)
    | (cases b <;> first | (simp [Ty.isDShape] at hd; done) | (simp [Ty.strip] at h; done) | (simpa [Ty.strip] using h))

theorem disc_noOptArr {t : Ty} (h : t.everywhere (discLocal ok) = true) : t.everywhere noOptArr = true := by
  refine everywhere_mono ?_ t h
  intro t h
  cases t <;> first | rfl | skip
  simp only [discLocal, Bool.and_eq_true] at h
  exact h.1.1

theorem disc_plain {t : Ty} (h : t.everywhere (discLocal ok) = true) : Plain t := by
  refine everywhere_mono ?_ t h
  intro t h
  exact localOk_eqLocal ⟨fun _ => false, fun _ => false⟩ t (discLocal_localOk _ t h)

theorem disc_eq {a b : Ty} (ha : a.everywhere (discLocal ok) = true) (hb : b.everywhere (discLocal ok) = true)
    (hd : a.isDShape = b.isDShape) (h : pyEq a b = true) : a = b :=
  strip_inj a ha b hb hd ((same_strip a (disc_noOptArr ha) b (disc_noOptArr hb)).2
    ((C08.eq_iff_same a b (disc_plain ha) (disc_plain hb)).1 h))

theorem field_identical {a b : Ty} (ha : a.everywhere (discLocal ok) = true) (hb : b.everywhere (discLocal ok) = true)
    (hsa : a.isSingleton = false) (hsb : b.isSingleton = false) (h : pyEq a b = true) : a = b := by
  refine disc_eq ha hb ?_ h
  rw [← strip_shape ha hsa, ← strip_shape hb hsb,
    (same_strip a (disc_noOptArr ha) b (disc_noOptArr hb)).2 ((C08.eq_iff_same a b (disc_plain ha) (disc_plain hb)).1 h)]

/-! ### Uniting permuted lists -/

theorem perm_eq_of_all {l l' : List α} (h : l.Perm l') (ha : ∀ a ∈ l, ∀ b ∈ l, a = b) : l = l' := by
  cases l with
  | nil => exact (List.nil_perm.1 h).symm
  | cons x l =>
    have : x :: l = List.replicate (x :: l).length x := List.eq_replicate_iff.2 ⟨rfl, fun b hb => ha b hb x (by simp)⟩
    rw [this] at h
    rw [this]
    rw [List.replicate_perm.1 h]

/-- distinct values of a permuted list -/
theorem distinct_perm {ts us : List Ty} (h : ts.Perm us) (hp : ∀ t ∈ ts, Plain t)
    (he : ∀ a ∈ ts, ∀ b ∈ ts, pyEq a b = true → a = b) :
    ((pyDistinct ts).length = 1 ↔ (pyDistinct us).length = 1) ∧ ((pyDistinct ts).length = 1 → ts = us) := by
  have hp' : ∀ t ∈ us, Plain t := fun t ht => hp t (h.mem_iff.2 ht)
  rw [distinct_one hp, distinct_one hp']
  refine ⟨⟨fun ⟨h1, h2⟩ => ⟨fun e => h1 ?_, fun a ha b hb => h2 a (h.mem_iff.2 ha) b (h.mem_iff.2 hb)⟩,
    fun ⟨h1, h2⟩ => ⟨fun e => h1 ?_, fun a ha b hb => h2 a (h.mem_iff.1 ha) b (h.mem_iff.1 hb)⟩⟩, fun ⟨_, h2⟩ => ?_⟩
  · subst e; exact List.perm_nil.1 h
  · subst e; exact List.nil_perm.1 h
  · exact perm_eq_of_all h fun a ha b hb => he a ha b hb (h2 a ha b hb)

theorem identical_perm {ts us : List Ty} (h : ts.Perm us) (hp : ∀ t ∈ ts, Plain t)
    (he : ∀ a ∈ ts, ∀ b ∈ ts, pyEq a b = true → a = b) : uniteIdentical ts = uniteIdentical us := by
  obtain ⟨h1, h2⟩ := distinct_perm h hp he
  by_cases hd : (pyDistinct ts).length = 1
  · rw [h2 hd]
  · unfold uniteIdentical
    rw [if_neg hd, if_neg (fun e => hd (h1.2 e))]

theorem mapM_congr {f g : α → Except ε β} {l : List α} (h : ∀ a ∈ l, f a = g a) : l.mapM f = l.mapM g := by
  induction l with
  | nil => rfl
  | cons a l ih =>
    rw [List.mapM_cons, List.mapM_cons, h a (by simp), ih fun a ha => h a (by simp [ha])]

theorem mapM_all_ok {f : α → Except ε β} {g : α → β} {l : List α} (h : ∀ a ∈ l, f a = .ok (g a)) : l.mapM f = .ok (l.map g) := by
  induction l with
  | nil => rfl
  | cons a l ih =>
    rw [List.mapM_cons, h a (by simp), ih fun a ha => h a (by simp [ha])]
    rfl

theorem mapM_opt_perm {f : α → Option β} {l l' : List α} (h : l.Perm l') :
    (l.mapM f = none ∧ l'.mapM f = none) ∨ ∃ r r', l.mapM f = some r ∧ l'.mapM f = some r' ∧ r.Perm r' := by
  induction h with
  | nil => exact .inr ⟨[], [], rfl, rfl, .nil⟩
  | @cons x l l' h ih =>
    rw [List.mapM_cons, List.mapM_cons]
    cases hx : f x with
    | none => exact .inl ⟨rfl, rfl⟩
    | some y =>
      rcases ih with ⟨h1, h2⟩ | ⟨r, r', h1, h2, h3⟩
      · rw [h1, h2]; exact .inl ⟨rfl, rfl⟩
      · rw [h1, h2]; exact .inr ⟨_, _, rfl, rfl, h3.cons y⟩
  | swap x y l =>
    simp only [List.mapM_cons]
    cases hx : f x <;> cases hy : f y <;> cases hl : l.mapM f <;> first | exact .inl ⟨rfl, rfl⟩ | exact .inr ⟨_, _, rfl, rfl, .swap _ _ _⟩
  | trans _ _ ih1 ih2 =>
    rcases ih1 with ⟨h1, h2⟩ | ⟨r, r', h1, h2, h3⟩
    · rcases ih2 with ⟨h4, h5⟩ | ⟨s, s', h4, h5, h6⟩
      · exact .inl ⟨h1, h5⟩
      · rw [h2] at h4; cases h4
    · rcases ih2 with ⟨h4, h5⟩ | ⟨s, s', h4, h5, h6⟩
      · rw [h2] at h4; cases h4
      · rw [h2] at h4; cases h4; exact .inr ⟨r, s', h1, h5, h3.trans h6⟩

theorem depthL_mem {l : List Ty} {t : Ty} (h : t ∈ l) : t.depth ≤ depthL l := by
  induction l with
  | nil => cases h
  | cons a l ih =>
    rw [depthL]
    rcases List.mem_cons.1 h with rfl | h
    · exact Nat.le_max_left ..
    · exact Nat.le_trans (ih h) (Nat.le_max_right ..)

theorem depthL_perm {l l' : List Ty} (h : l.Perm l') : depthL l = depthL l' :=
  Nat.le_antisymm (depthL_le fun _ ht => depthL_mem (h.mem_iff.1 ht)) (depthL_le fun _ ht => depthL_mem (h.mem_iff.2 ht))

/-- a discovered datashape that is not a `DataShape` of one element -/
def Field (t : Ty) : Prop := t.everywhere (discLocal fun _ => true) = true ∧ t.isSingleton = false

theorem alike_records {fs gs : List (Str × Ty)} (h : Alike (.record fs) (.record gs)) :
    fs.map (·.1) = gs.map (·.1) ∧ ∀ p ∈ fs.zip gs, Alike p.1.2 p.2.2 := by
  cases h with
  | noRecords h _ => exact absurd rfl (h fs)
  | records h1 h2 => exact ⟨h1, h2⟩
  | recordLeft _ h => exact absurd rfl (h gs)
  | recordRight _ h => exact absurd rfl (h fs)

theorem alike_mixed {fs : List (Str × Ty)} {t : Ty} (h : Alike (.record fs) t) (ht : NoRecord t) (hn : t ≠ .null) : fs ≠ [] := by
  cases h with
  | nullRight => exact absurd rfl hn
  | noRecords h _ => exact absurd rfl (h fs)
  | records _ _ => exact absurd rfl (ht _)
  | recordLeft h _ => exact h
  | recordRight _ h => exact absurd rfl (h fs)

theorem record_or (t : Ty) : (∃ fs, t = .record fs) ∨ NoRecord t := by
  cases t <;> first | exact .inl ⟨_, rfl⟩ | exact .inr (by intro fs h; cases h)

theorem dictGet_noRecord {n : Str} {t : Ty} (h : NoRecord t) : dictGet n t = .error .attributeError := by
  cases t <;> first | rfl | exact absurd rfl (h _)

/-- `unite_base` on the non-null types: the record of the united fields -/
def baseRecord (topo : List Node) (fuel : Nat) (good : List Ty) (g : Ty) : Except PyErr Ty := do
  let names ← namesOf g
  let fields ← names.mapM fun name => do
    let col ← good.mapM (dictGet name)
    let u ← uniteBase topo fuel col
    let t ← subshape (.int 0) u
    .ok (name, t)
  mkRecord fields

theorem mapM_attr {n : Str} {good : List Ty} (h : ∃ t ∈ good, NoRecord t) : good.mapM (dictGet n) = .error .attributeError := by
  induction good with
  | nil => obtain ⟨t, ht, -⟩ := h; cases ht
  | cons g good ih =>
    rw [List.mapM_cons]
    rcases record_or g with ⟨fs, rfl⟩ | hg
    · obtain ⟨t, ht, hn⟩ := h
      rcases List.mem_cons.1 ht with rfl | ht
      · exact absurd rfl (hn _)
      · rw [ih ⟨t, ht, hn⟩]; rfl
    · rw [dictGet_noRecord hg]; rfl

theorem baseRecord_error {topo : List Node} {fuel : Nat} {good : List Ty} {g : Ty} (hg : g ∈ good)
    (hal : ∀ a ∈ good, ∀ b ∈ good, Alike a b) (hnn : ∀ a ∈ good, a ≠ .null) (h : ∃ t ∈ good, NoRecord t) :
    baseRecord topo fuel good g = .error .attributeError := by
  unfold baseRecord
  rcases record_or g with ⟨fs, rfl⟩ | hgn
  · obtain ⟨t, ht, hn⟩ := h
    have hfs := alike_mixed (hal _ hg t ht) hn (hnn t ht)
    obtain ⟨f, fs', rfl⟩ := List.exists_cons_of_ne_nil hfs
    simp only [namesOf, recordNames]
    rw [show (Except.ok (ε := PyErr) (List.map (fun x : Str × Ty => x.1) (f :: fs'))) = .ok (f.1 :: fs'.map (·.1)) from rfl]
    simp only [bind, Except.bind, List.mapM_cons]
    rw [mapM_attr ⟨t, ht, hn⟩]
  · have : namesOf g = .error .attributeError := by
      cases g <;> first | rfl | exact absurd rfl (hgn _)
    rw [this]
    rfl

theorem uniteBase_eq (topo : List Node) (fuel : Nat) (ts0 : List Ty) : uniteBase topo (fuel + 1) ts0 =
    (let ts := ts0.map launderTy
     let good := ts.filter fun t => !isNull t
     match good with
     | [] => mul (.int ts.length) (.ty .null)
     | g :: _ => do
       let base ← (if good.all Ty.isUnit then lowestCommon topo good else baseRecord topo fuel good g)
       let base := if ts.any isNull then mkOption base else base
       mul (.int ts.length) (.ty base)) := rfl

theorem lookup_zip {fs gs : List (Str × Ty)} (h : fs.map (·.1) = gs.map (·.1)) (n : Str) :
    (fs.lookup n = none ∧ gs.lookup n = none) ∨ ∃ p ∈ fs.zip gs, fs.lookup n = some p.1.2 ∧ gs.lookup n = some p.2.2 := by
  induction fs generalizing gs with
  | nil => cases gs with
    | nil => exact .inl ⟨rfl, rfl⟩
    | cons => simp at h
  | cons f fs ih =>
    cases gs with
    | nil => simp at h
    | cons g gs =>
      obtain ⟨a, x⟩ := f
      obtain ⟨b, y⟩ := g
      simp only [List.map_cons, List.cons.injEq] at h
      obtain ⟨rfl, h⟩ := h
      by_cases hn : n = a
      · subst hn
        exact .inr ⟨((n, x), (n, y)), by simp, by simp [List.lookup], by simp [List.lookup]⟩
      · have e : (n == a) = false := by simpa using hn
        rw [List.lookup, List.lookup, e]
        rcases ih h with h | ⟨p, hp, h⟩
        · exact .inl h
        · exact .inr ⟨p, by simp [hp], h⟩

theorem field_alike {fs gs : List (Str × Ty)} (h : Alike (.record fs) (.record gs)) (n : Str) :
    Alike ((fs.reverse.lookup n).getD .null) ((gs.reverse.lookup n).getD .null) := by
  obtain ⟨h1, h2⟩ := alike_records h
  have hlen : fs.length = gs.length := by simpa using congrArg List.length h1
  have h3 : fs.reverse.map (·.1) = gs.reverse.map (·.1) := by rw [List.map_reverse, List.map_reverse, h1]
  rcases lookup_zip h3 n with ⟨e1, e2⟩ | ⟨p, hp, e1, e2⟩
  · rw [e1, e2]; exact .nullLeft
  · rw [e1, e2]
    refine h2 p ?_
    rw [List.zip_eq_zipWith, ← List.reverse_zipWith hlen, List.mem_reverse] at hp
    rwa [List.zip_eq_zipWith]

theorem field_get {fs : List (Str × Ty)} (h : Field (.record fs)) (n : Str) : Field ((fs.reverse.lookup n).getD .null) := by
  cases hl : fs.reverse.lookup n with
  | none => exact ⟨rfl, rfl⟩
  | some x =>
    have := lookup_mem hl
    obtain ⟨h1, -, h2⟩ := disc_field h.1 (f := (n, x)) (by simpa using this)
    exact ⟨h1.all, h2⟩

/-- the type in a column for a record -/
def fieldCell (n : Str) : Ty → Ty
  | .record fs => (fs.reverse.lookup n).getD .null
  | _ => .null

theorem baseRecord_ok {topo : List Node} {fuel : Nat} {good : List Ty} {g : Ty} {fs : List (Str × Ty)} (hg : g = .record fs)
    (h : ∀ t ∈ good, ∃ fs, t = .record fs) : baseRecord topo fuel good g = (do
      let fields ← (fs.map (·.1)).mapM fun name => do
        let u ← uniteBase topo fuel (good.map (fieldCell name))
        let t ← subshape (.int 0) u
        .ok (name, t)
      mkRecord fields) := by
  subst hg
  unfold baseRecord
  simp only [namesOf, recordNames]
  have : ∀ name, good.mapM (dictGet name) = .ok (good.map (fieldCell name)) := by
    intro name
    refine mapM_all_ok fun t ht => ?_
    obtain ⟨fs, rfl⟩ := h t ht
    rfl
  simp only [this]
  rfl

theorem base_perm {topo : List Node} (htopo : Toposort discEdges (.ok topo)) (fuel : Nat) (ts us : List Ty) (h : ts.Perm us)
    (hf : ∀ t ∈ ts, Field t) (hal : ∀ a ∈ ts, ∀ b ∈ ts, Alike a b) : uniteBase topo fuel ts = uniteBase topo fuel us := by
  induction fuel generalizing ts us with
  | zero => rfl
  | succ fuel ih =>
    have hl : ∀ l : List Ty, (∀ t ∈ l, Field t) → l.map launderTy = l := by
      intro l hl
      conv => rhs; rw [← List.map_id l]
      exact List.map_inj_left.2 fun t ht => launderTy_of_not_singleton (hl t ht).2
    have hfu : ∀ t ∈ us, Field t := fun t ht => hf t (h.mem_iff.2 ht)
    rw [uniteBase_eq, uniteBase_eq]
    simp only [hl ts hf, hl us hfu]
    have hgp : (ts.filter fun t => !isNull t).Perm (us.filter fun t => !isNull t) := h.filter _
    have hgm : ∀ t ∈ ts.filter (fun t => !isNull t), t ∈ ts ∧ t ≠ .null := fun t ht => (filter_null (fun t ht => (hf t ht).2) t).1 ht
    have hlen : ts.length = us.length := h.length_eq
    have hany : ts.any isNull = us.any isNull := by
      rw [Bool.eq_iff_iff, List.any_eq_true, List.any_eq_true]
      exact ⟨fun ⟨t, h1, h2⟩ => ⟨t, h.mem_iff.1 h1, h2⟩, fun ⟨t, h1, h2⟩ => ⟨t, h.mem_iff.2 h1, h2⟩⟩
    generalize ts.filter (fun t => !isNull t) = good at hgp hgm
    generalize us.filter (fun t => !isNull t) = good' at hgp
    rw [hlen, hany]
    cases good with
    | nil => rw [List.nil_perm.1 hgp]
    | cons g gs =>
      cases good' with
      | nil => exact absurd (List.perm_nil.1 hgp) (by simp)
      | cons g' gs' =>
        simp only
        have hunit : (g :: gs).all Ty.isUnit = (g' :: gs').all Ty.isUnit := by
          rw [Bool.eq_iff_iff, List.all_eq_true, List.all_eq_true]
          exact ⟨fun h t ht => h t (hgp.mem_iff.2 ht), fun h t ht => h t (hgp.mem_iff.1 ht)⟩
        have hbase : (if (g :: gs).all Ty.isUnit = true then lowestCommon topo (g :: gs) else baseRecord topo fuel (g :: gs) g) =
            (if (g' :: gs').all Ty.isUnit = true then lowestCommon topo (g' :: gs') else baseRecord topo fuel (g' :: gs') g') := by
          rw [hunit]
          split
          · exact C26.order_irrelevant topo topo htopo htopo _ _ (by simp) (fun _ => hgp.mem_iff)
              fun t ht => disc_plain (hf t (hgm t ht).1).1
          · have hal' : ∀ a ∈ g :: gs, ∀ b ∈ g :: gs, Alike a b := fun a ha b hb => hal a (hgm a ha).1 b (hgm b hb).1
            have hnn : ∀ a ∈ g :: gs, a ≠ .null := fun a ha => (hgm a ha).2
            by_cases hex : ∃ t ∈ g :: gs, NoRecord t
            · rw [baseRecord_error (by simp) hal' hnn hex,
                baseRecord_error (by simp) (fun a ha b hb => hal' a (hgp.mem_iff.2 ha) b (hgp.mem_iff.2 hb))
                  (fun a ha => hnn a (hgp.mem_iff.2 ha)) (by
                    obtain ⟨t, ht, hn⟩ := hex
                    exact ⟨t, hgp.mem_iff.1 ht, hn⟩)]
            · have hrec : ∀ t ∈ g :: gs, ∃ fs, t = .record fs := by
                intro t ht
                rcases record_or t with h | h
                · exact h
                · exact absurd ⟨t, ht, h⟩ hex
              obtain ⟨fs, e⟩ := hrec g (by simp)
              obtain ⟨fs', e'⟩ := hrec g' (hgp.mem_iff.2 (by simp))
              rw [baseRecord_ok e hrec, baseRecord_ok e' fun t ht => hrec t (hgp.mem_iff.2 ht)]
              have hn : fs.map (·.1) = fs'.map (·.1) := by
                have := hal' g (by simp) g' (hgp.mem_iff.2 (by simp))
                rw [e, e'] at this
                exact (alike_records this).1
              rw [hn]
              have hcol : ∀ n, uniteBase topo fuel ((g :: gs).map (fieldCell n)) = uniteBase topo fuel ((g' :: gs').map (fieldCell n)) := by
                intro n
                refine ih _ _ (hgp.map _) ?_ ?_
                · intro t ht
                  obtain ⟨x, hx, rfl⟩ := List.mem_map.1 ht
                  have hxf := hf x (hgm x hx).1
                  obtain ⟨fx, rfl⟩ := hrec x hx
                  exact field_get hxf n
                · intro a ha b hb
                  obtain ⟨x, hx, rfl⟩ := List.mem_map.1 ha
                  obtain ⟨y, hy, rfl⟩ := List.mem_map.1 hb
                  have := hal' x hx y hy
                  obtain ⟨fx, rfl⟩ := hrec x hx
                  obtain ⟨fy, rfl⟩ := hrec y hy
                  exact field_alike this n
              simp only [hcol]
        rw [hbase]

theorem full_perm {topo : List Node} (htopo : Toposort discEdges (.ok topo)) {ts us : List Ty} (h : ts.Perm us)
    (hf : ∀ t ∈ ts, Field t) (hal : ∀ a ∈ ts, ∀ b ∈ ts, Alike a b) : uniteFull topo ts = uniteFull topo us := by
  unfold uniteFull
  rw [identical_perm h (fun t ht => disc_plain (hf t ht).1)
    (fun a ha b hb he => field_identical (hf a ha).1 (hf b hb).1 (hf a ha).2 (hf b hb).2 he), depthL_perm h, base_perm htopo _ _ _ h hf hal]

/-- the value of a result -/
def okTy : Except PyErr Ty → Ty
  | .ok t => t
  | .error _ => .null

/-- a permuted column -/
theorem column_perm {topo : List Node} (htopo : Toposort discEdges (.ok topo)) {cs ds : List (Except PyErr Ty)} (h : cs.Perm ds)
    (hc : ∀ c ∈ cs, ∃ t, c = .ok t ∧ Field t) (hal : ∀ a b, .ok a ∈ cs → .ok b ∈ cs → Alike a b) :
    columnType topo cs = columnType topo ds := by
  have key : ∀ l : List (Except PyErr Ty), (∀ c ∈ l, ∃ t, c = .ok t ∧ Field t) → l = (l.map okTy).map .ok := by
    intro l hl
    rw [List.map_map]
    conv => lhs; rw [← List.map_id l]
    refine List.map_inj_left.2 fun c hc => ?_
    obtain ⟨t, rfl, -⟩ := hl c hc
    rfl
  rw [key cs hc, key ds fun c h' => hc c (h.mem_iff.2 h'), column_ok, column_ok, full_perm htopo (h.map okTy)]
  · intro t ht
    obtain ⟨c, h1, rfl⟩ := List.mem_map.1 ht
    obtain ⟨t, rfl, h2⟩ := hc c h1
    exact h2
  · intro a ha b hb
    obtain ⟨c, h1, rfl⟩ := List.mem_map.1 ha
    obtain ⟨d, h2, rfl⟩ := List.mem_map.1 hb
    obtain ⟨t, rfl, -⟩ := hc c h1
    obtain ⟨u, rfl, -⟩ := hc d h2
    exact hal _ _ h1 h2

/-! ### Uniting the rows -/

theorem sub_extent {d : Ty} {rest : List Ty} (hd : d.isExtent = true) (h : (Ty.dshape (d :: rest)).everywhere (discLocal ok) = true) :
    subshape (.int 0) (.dshape (d :: rest)) = .ok (.dshape rest) := by
  obtain ⟨dims, m, e, h1, h2, h3, -⟩ := Disc.params h
  cases dims with
  | nil =>
    injection e with e1 e2
    subst e1
    have := (measureLike_iff h2.all).1 h2.top
    cases d <;> simp [Ty.isExtent] at hd <;> simp [Ty.cls] at this
  | cons d' dims =>
    injection e with e1 e2
    subst e1 e2
    have hok : mkDS (dims ++ [m]) = .ok (.dshape (dims ++ [m])) := by
      apply mkDS_self.2
      refine .of ⟨dims, m, rfl, ?_, (measureLike_iff h2.all).1 h2.top, ?_⟩
      · intro x hx
        have := h1 x (by simp [hx])
        cases x <;> simp [Ty.isExtent] at this <;> simp [Ty.cls]
      · intro p hp
        have : p.isDShape = false := by
          rcases List.mem_append.1 hp with hp | hp
          · exact (extent_all (ok := ok) (h1 p (by simp [hp]))).2
          · rw [List.mem_singleton.1 hp]; exact h3
        cases p <;> first | rfl | (simp [Ty.isDShape] at this)
    rw [subshape]
    simp only [head_dshape, bind, Except.bind]
    rw [if_pos (by cases d <;> first | rfl | cases hd)]
    unfold subarray
    simp only
    rw [if_neg (by simp; omega)]
    cases dims with
    | nil => simpa using hok
    | cons x xs =>
      rw [if_neg (by simp; omega)]
      have : pyDrop (d :: (x :: xs ++ [m])) 1 = x :: xs ++ [m] := by simp [pyDrop]
      exact this ▸ hok

/-- `t` is a discovered array type -/
def Lines (t : Ty) : Prop := ∃ d rest, t = .dshape (d :: rest) ∧ isDimension d = true

/-- the leading dimension -/
def lead : Ty → Ty
  | .dshape (d :: _) => d
  | t => t

/-- what is left without it -/
def inner : Ty → Ty
  | .dshape (_ :: r) => .dshape r
  | t => t

theorem dims_extent {d : Ty} {rest : List Ty} (h : (Ty.dshape (d :: rest)).everywhere (discLocal ok) = true) (hd : isDimension d = true) :
    d.isExtent = true := by
  have := everywhere_self (everywhere_child h (c := d) (by simp [Ty.children]))
  cases d <;> first | rfl | (cases this; done) | (cases hd; done)

theorem inner_field {d : Ty} {rest : List Ty} (h : (Ty.dshape (d :: rest)).everywhere (discLocal ok) = true) (hd : isDimension d = true) :
    (Ty.dshape rest).everywhere (discLocal ok) = true :=
  (disc_subshape (sub_extent (dims_extent h hd) h) ⟨h, rfl⟩).all

theorem lines_iff (t : Ty) : (match t with | .dshape (d :: _) => isDimension d | _ => false) = true ↔ Lines t := by
  constructor
  · intro h
    cases t <;> try (cases h; done)
    rename_i ps
    cases ps with
    | nil => cases h
    | cons d r => exact ⟨d, r, rfl, h⟩
  · rintro ⟨d, r, rfl, h⟩; exact h

theorem merge_eq {ts : List Ty} (hf : ∀ t ∈ ts, t.everywhere (discLocal ok) = true) (h : ∀ t ∈ ts, Lines t) :
    uniteMerge ts = (do
      match ← uniteIdentical (ts.map inner) with
      | none => .ok none
      | some base =>
        let inn ← subshape (.int 0) base
        let d := if (pyDistinct (ts.map lead)).length = 1 then (ts.map lead).head?.getD .var else .var
        let row ← mul (.ty d) (.ty inn)
        .ok (some (← mul (.int ts.length) (.ty row)))) := by
  unfold uniteMerge
  rw [if_pos (by rw [List.all_eq_true]; exact fun t ht => (lines_iff t).2 (h t ht))]
  have h1 : ts.mapM Ty.head = .ok (ts.map lead) := mapM_all_ok fun t ht => by
    obtain ⟨d, r, rfl, -⟩ := h t ht; rfl
  have h2 : ts.mapM (subshape (.int 0)) = .ok (ts.map inner) := mapM_all_ok fun t ht => by
    have hft := hf t ht
    obtain ⟨d, r, rfl, hd⟩ := h t ht
    exact sub_extent (dims_extent hft hd) hft
  rw [h1, h2]
  rfl

theorem merge_perm {ts us : List Ty} (h : ts.Perm us) (hf : ∀ t ∈ ts, t.everywhere (discLocal ok) = true) :
    uniteMerge ts = uniteMerge us := by
  have hfu : ∀ t ∈ us, t.everywhere (discLocal ok) = true := fun t ht => hf t (h.mem_iff.2 ht)
  by_cases hl : ∀ t ∈ ts, Lines t
  · rw [merge_eq hf hl, merge_eq hfu fun t ht => hl t (h.mem_iff.2 ht), h.length_eq]
    have hin : ∀ t ∈ ts.map inner, t.everywhere (discLocal ok) = true ∧ t.isDShape = true := by
      intro t ht
      obtain ⟨x, hx, rfl⟩ := List.mem_map.1 ht
      have hfx := hf x hx
      obtain ⟨d, r, rfl, hd⟩ := hl x hx
      exact ⟨inner_field hfx hd, rfl⟩
    have hle : ∀ t ∈ ts.map lead, t.isExtent = true := by
      intro t ht
      obtain ⟨x, hx, rfl⟩ := List.mem_map.1 ht
      have hfx := hf x hx
      obtain ⟨d, r, rfl, hd⟩ := hl x hx
      exact dims_extent hfx hd
    rw [identical_perm (h.map inner) (fun t ht => disc_plain (hin t ht).1)
      (fun a ha b hb he => disc_eq (hin a ha).1 (hin b hb).1 (by rw [(hin a ha).2, (hin b hb).2]) he)]
    obtain ⟨h1, h2⟩ := distinct_perm (h.map lead) (fun t ht => disc_plain (extent_all (ok := ok) (hle t ht)).1)
      (fun a ha b hb he => disc_eq (ok := ok) (extent_all (hle a ha)).1 (extent_all (hle b hb)).1
        (by rw [(extent_all (ok := ok) (hle a ha)).2, (extent_all (ok := ok) (hle b hb)).2]) he)
    by_cases hd : (pyDistinct (ts.map lead)).length = 1
    · rw [h2 hd]
    · rw [if_neg hd, if_neg fun e => hd (h1.2 e)]
  · unfold uniteMerge
    rw [if_neg, if_neg]
    · intro e
      rw [List.all_eq_true] at e
      exact hl fun t ht => (lines_iff t).1 (e t (h.mem_iff.1 ht))
    · intro e
      rw [List.all_eq_true] at e
      exact hl fun t ht => (lines_iff t).1 (e t ht)

/-- The same result, or tuple types with the same components in another order -/
def SameButOrder (r r' : Except PyErr Ty) : Prop :=
  r = r' ∨ ∃ ts ts', r = .ok (.tuple ts) ∧ r' = .ok (.tuple ts') ∧ ts.Perm ts'

theorem wrapDS_disc {t : Ty} (h : Disc ok t) : wrapDS t = .ok t.wrap := by
  unfold wrapDS Ty.wrap
  split
  · rfl
  · rename_i hd
    rw [← List.nil_append [t]]
    apply mkDS_self.2
    refine .of ⟨[], t, rfl, by simp, (measureLike_iff h.all).1 h.top, ?_⟩
    intro p hp
    rw [List.nil_append, List.mem_singleton] at hp
    subst hp
    cases p <;> first | rfl | (simp [Ty.isDShape] at hd)

theorem uniteTuple_perm {ts us : List Ty} (h : ts.Perm us) (hf : ∀ t ∈ ts, Disc (fun _ => true) t)
    (he : ∀ a ∈ ts, ∀ b ∈ ts, pyEq a b = true → a = b) : SameButOrder (uniteTuple ts) (uniteTuple us) := by
  unfold uniteTuple
  rw [← identical_perm h (fun t ht => disc_plain (hf t ht).all) he, ← merge_perm h fun t ht => (hf t ht).all]
  have h1 : mkTuple ts = .ok (.tuple (ts.map Ty.wrap)) := by
    unfold mkTuple
    rw [mapM_all_ok fun t ht => wrapDS_disc (hf t ht)]
  have h2 : mkTuple us = .ok (.tuple (us.map Ty.wrap)) := by
    unfold mkTuple
    rw [mapM_all_ok fun t ht => wrapDS_disc (hf t (h.mem_iff.2 ht))]
  rw [h1, h2]
  cases uniteIdentical ts with
  | error e => exact .inl rfl
  | ok o =>
    cases o with
    | some t => exact .inl rfl
    | none =>
      cases uniteMerge ts with
      | error e => exact .inl rfl
      | ok o =>
        cases o with
        | some t => exact .inl rfl
        | none => exact .inr ⟨_, _, rfl, rfl, h.map _⟩

theorem rows_perm {topo : List Node} (htopo : Toposort discEdges (.ok topo)) {items items' : List Item} (h : items.Perm items')
    (hc : ∀ i ∈ items, ∀ cs, i.elems = some cs → ∀ c ∈ cs, ∃ t, c = .ok t ∧ Field t)
    (hal : ∀ i ∈ items, ∀ j ∈ items, ∀ cs ds, i.elems = some cs → j.elems = some ds → ∀ (n : Nat) a b,
      cs[n]? = some (.ok a) → ds[n]? = some (.ok b) → Alike a b) : discoverRows topo items = discoverRows topo items' := by
  unfold discoverRows
  rcases mapM_opt_perm (f := Item.elems) h with ⟨e1, e2⟩ | ⟨r, r', e1, e2, hp⟩
  · rw [e1, e2]
  · rw [e1, e2, h.length_eq]
    have hfrom : ∀ cs ∈ r, ∃ i ∈ items, i.elems = some cs := fun cs hcs => by
      have : ∀ (l : List Item) (r : List (List (Except PyErr Ty))), l.mapM Item.elems = some r → ∀ cs ∈ r, ∃ i ∈ l, i.elems = some cs := by
        intro l
        induction l with
        | nil => intro r e cs hcs; cases e; cases hcs
        | cons a l ih =>
          intro r e cs hcs
          rw [List.mapM_cons] at e
          cases ha : a.elems with
          | none => rw [ha] at e; cases e
          | some x =>
            rw [ha] at e
            cases hl : l.mapM Item.elems with
            | none => rw [hl] at e; cases e
            | some y =>
              rw [hl] at e
              cases e
              rcases List.mem_cons.1 hcs with rfl | hcs
              · exact ⟨a, by simp, ha⟩
              · obtain ⟨i, hi, e⟩ := ih y hl cs hcs
                exact ⟨i, by simp [hi], e⟩
      exact this items r e1 cs hcs
    cases r with
    | nil => rw [List.nil_perm.1 hp]
    | cons x xs =>
      cases r' with
      | nil => exact absurd (List.perm_nil.1 hp) (by simp)
      | cons y ys =>
        simp only
        have hxm : ∀ z ∈ x :: xs, z ∈ y :: ys := fun z hz => hp.mem_iff.1 hz
        have hym : ∀ z ∈ y :: ys, z ∈ x :: xs := fun z hz => hp.mem_iff.2 hz
        have hall : ∀ (a : List (Except PyErr Ty)) (as : List (List (Except PyErr Ty))),
            (as.all fun r' => r'.length == a.length) = true ↔ ∀ b ∈ a :: as, b.length = a.length := by
          intro a as
          rw [List.all_eq_true]
          simp
        by_cases hl : (xs.all fun r' => r'.length == x.length) = true
        · have h1 := (hall x xs).1 hl
          have hyx := h1 y (hym y (by simp))
          have hl' : (ys.all fun r' => r'.length == y.length) = true :=
            (hall y ys).2 fun b hb => by rw [hyx]; exact h1 b (hym b hb)
          rw [if_pos hl, if_pos hl', hyx]
          have hcols : (columnsOf x.length (x :: xs)).mapM (columnType topo) = (columnsOf x.length (y :: ys)).mapM (columnType topo) := by
            unfold columnsOf
            have step : ∀ rows : List (List (Except PyErr Ty)), ((List.range x.length).map fun j => rows.map fun r => (r[j]?).getD (.error .indexError)).mapM (columnType topo) =
                (List.range x.length).mapM fun j => columnType topo (rows.map fun r => (r[j]?).getD (.error .indexError)) := by
              intro rows
              rw [List.mapM_map]
              rfl
            rw [step, step]
            refine mapM_congr fun j hj => ?_
            have hj' : j < x.length := List.mem_range.1 hj
            refine column_perm htopo (hp.map _) ?_ ?_
            · intro c hc'
              obtain ⟨cs, hcs, rfl⟩ := List.mem_map.1 hc'
              obtain ⟨i, hi, e⟩ := hfrom cs hcs
              have hlt : j < cs.length := by rw [h1 cs hcs]; exact hj'
              rw [List.getElem?_eq_getElem hlt]
              exact hc i hi cs e _ (List.getElem_mem hlt)
            · intro a b ha hb
              obtain ⟨cs, hcs, ea⟩ := List.mem_map.1 ha
              obtain ⟨ds, hds, eb⟩ := List.mem_map.1 hb
              obtain ⟨i, hi, e⟩ := hfrom cs hcs
              obtain ⟨k, hk, e'⟩ := hfrom ds hds
              have g1 : cs[j]? = some (.ok a) := by
                cases hg : cs[j]? with
                | none => rw [hg] at ea; cases ea
                | some z => rw [hg] at ea; exact congrArg some ea
              have g2 : ds[j]? = some (.ok b) := by
                cases hg : ds[j]? with
                | none => rw [hg] at eb; cases eb
                | some z => rw [hg] at eb; exact congrArg some eb
              exact hal i hi k hk cs ds e e' j a b g1 g2
          rw [hcols]
        · have hl' : ¬ (ys.all fun r' => r'.length == y.length) = true := by
            intro e
            have h1 := (hall y ys).1 e
            refine hl ((hall x xs).2 fun b hb => ?_)
            rw [h1 b (hxm b hb), h1 x (hxm x (by simp))]
          rw [if_neg hl, if_neg hl']

theorem keys_perm {rows rows' : List (List (Str × Except PyErr Ty))} (h : rows.Perm rows') : allKeys rows = allKeys rows' := by
  unfold allKeys
  refine sorted_ext (sortStr_sorted _ (nodup_toSet _)) (sortStr_sorted _ (nodup_toSet _)) fun k => ?_
  rw [sortStr_mem, sortStr_mem, mem_toSet, mem_toSet]
  exact (h.flatMap_right _).mem_iff

theorem dicts_perm {topo : List Node} (htopo : Toposort discEdges (.ok topo)) {items items' : List Item} (h : items.Perm items')
    (hc : ∀ i ∈ items, ∀ cs, i.entries = some cs → ∀ c ∈ cs, ∃ t, c.2 = .ok t ∧ Field t)
    (hal : ∀ i ∈ items, ∀ j ∈ items, ∀ cs ds, i.entries = some cs → j.entries = some ds → ∀ n a b,
      (n, .ok a) ∈ cs → (n, .ok b) ∈ ds → Alike a b) : discoverDicts topo items = discoverDicts topo items' := by
  unfold discoverDicts
  rcases mapM_opt_perm (f := Item.entries) h with ⟨e1, e2⟩ | ⟨r, r', e1, e2, hp⟩
  · rw [e1, e2]
  · rw [e1, e2, h.length_eq]
    have hfrom : ∀ cs ∈ r, ∃ i ∈ items, i.entries = some cs := fun cs hcs => by
      have : ∀ (l : List Item) (r : List (List (Str × Except PyErr Ty))), l.mapM Item.entries = some r → ∀ cs ∈ r, ∃ i ∈ l, i.entries = some cs := by
        intro l
        induction l with
        | nil => intro r e cs hcs; cases e; cases hcs
        | cons a l ih =>
          intro r e cs hcs
          rw [List.mapM_cons] at e
          cases ha : a.entries with
          | none => rw [ha] at e; cases e
          | some x =>
            rw [ha] at e
            cases hl : l.mapM Item.entries with
            | none => rw [hl] at e; cases e
            | some y =>
              rw [hl] at e
              cases e
              rcases List.mem_cons.1 hcs with rfl | hcs
              · exact ⟨a, by simp, ha⟩
              · obtain ⟨i, hi, e⟩ := ih y hl cs hcs
                exact ⟨i, by simp [hi], e⟩
      exact this items r e1 cs hcs
    simp only
    rw [← keys_perm hp]
    have hcols : ((allKeys r).map fun k => r.map fun d => (d.lookup k).getD (.ok .null)).mapM (columnType topo) =
        ((allKeys r).map fun k => r'.map fun d => (d.lookup k).getD (.ok .null)).mapM (columnType topo) := by
      rw [List.mapM_map, List.mapM_map]
      refine mapM_congr fun k _ => ?_
      refine column_perm htopo (hp.map _) ?_ ?_
      · intro c hc'
        obtain ⟨cs, hcs, rfl⟩ := List.mem_map.1 hc'
        obtain ⟨i, hi, e⟩ := hfrom cs hcs
        cases hl : cs.lookup k with
        | none => exact ⟨.null, rfl, rfl, rfl⟩
        | some z => exact hc i hi cs e (k, z) (lookup_mem hl)
      · intro a b ha hb
        obtain ⟨cs, hcs, ea⟩ := List.mem_map.1 ha
        obtain ⟨ds, hds, eb⟩ := List.mem_map.1 hb
        obtain ⟨i, hi, e⟩ := hfrom cs hcs
        obtain ⟨j, hj, e'⟩ := hfrom ds hds
        cases hl : cs.lookup k with
        | none => rw [hl] at ea; cases ea; exact .nullLeft
        | some z =>
          cases hl' : ds.lookup k with
          | none => rw [hl'] at eb; cases eb; exact .nullRight
          | some w =>
            rw [hl] at ea
            rw [hl'] at eb
            simp only [Option.getD_some] at ea eb
            subst ea eb
            exact hal i hi j hj cs ds e e' k a b (lookup_mem hl) (lookup_mem hl')
    rw [hcols]

theorem orElse_same {b : Option (Except PyErr Ty)} {r r' : Except PyErr Ty} (h : SameButOrder r r') :
    SameButOrder (orElse b r) (orElse b r') := by
  unfold orElse
  split
  · exact h
  · exact .inl rfl
  · exact h

theorem seq_perm {topo : List Node} (htopo : Toposort discEdges (.ok topo)) {items items' : List Item} (h : items.Perm items')
    (hself : ∀ i ∈ items, ∃ t, i.self = .ok t ∧ Cell t)
    (hc : ∀ i ∈ items, ∀ cs, i.elems = some cs → ∀ c ∈ cs, ∃ t, c = .ok t ∧ Field t)
    (hal : ∀ i ∈ items, ∀ j ∈ items, ∀ cs ds, i.elems = some cs → j.elems = some ds → ∀ (n : Nat) a b,
      cs[n]? = some (.ok a) → ds[n]? = some (.ok b) → Alike a b)
    (hc' : ∀ i ∈ items, ∀ cs, i.entries = some cs → ∀ c ∈ cs, ∃ t, c.2 = .ok t ∧ Field t)
    (hal' : ∀ i ∈ items, ∀ j ∈ items, ∀ cs ds, i.entries = some cs → j.entries = some ds → ∀ n a b,
      (n, .ok a) ∈ cs → (n, .ok b) ∈ ds → Alike a b) :
    SameButOrder (discoverSeq topo items) (discoverSeq topo items') := by
  unfold discoverSeq
  have hemp : items.isEmpty = items'.isEmpty := by
    rw [Bool.eq_iff_iff, List.isEmpty_iff, List.isEmpty_iff]
    exact ⟨fun e => by subst e; exact List.nil_perm.1 h, fun e => by subst e; exact List.perm_nil.1 h⟩
  rw [hemp]
  split
  · exact .inl rfl
  rw [rows_perm htopo h hc hal, dicts_perm htopo h hc' hal']
  refine orElse_same (orElse_same ?_)
  unfold discoverRest
  have hsel : ∀ i ∈ items, i.self = .ok (okTy i.self) ∧ Cell (okTy i.self) := by
    intro i hi
    obtain ⟨t, e, hct⟩ := hself i hi
    rw [e]
    exact ⟨rfl, hct⟩
  rw [mapM_all_ok fun i hi => (hsel i hi).1, mapM_all_ok fun i hi => (hsel i (h.mem_iff.2 hi)).1]
  have hcell : ∀ t ∈ items.map fun i => okTy i.self, Cell t := by
    intro t ht
    obtain ⟨i, hi, rfl⟩ := List.mem_map.1 ht
    exact (hsel i hi).2
  exact uniteTuple_perm (h.map _) (fun t ht => (hcell t ht).disc) fun a ha b hb he =>
    field_identical (hcell a ha).disc.all (hcell b hb).disc.all (hcell a ha).single (hcell b hb).single he

/-- For items in another order `discover` gives the same answer: the same datashape, or the same exception, or a tuple type
with the same components in the other order. This is under the conditions that the items and their cells can be discovered
on their own, and that cells in the same place are alike. -/
theorem C65.order (E : StrEnv) (topo : List Node) (htopo : Toposort discEdges (.ok topo)) (k : SeqKind) (l l' : List PyObj)
    (h : l.Perm l')
    (hitems : ∀ v ∈ l, ∃ t, discover (discoverStr E) topo v = .ok t)
    (hcells : ∀ v ∈ l, ∀ x, CellOf v x → ∃ t, discover (discoverStr E) topo x = .ok t)
    (halike : ∀ v ∈ l, ∀ w ∈ l, ∀ x y, SamePlace v w x y → ∀ s t, discover (discoverStr E) topo x = .ok s →
      discover (discoverStr E) topo y = .ok t → Alike s t) :
    discover (discoverStr E) topo (.seq k l) = discover (discoverStr E) topo (.seq k l') ∨
    ∃ ts ts', discover (discoverStr E) topo (.seq k l) = .ok (.tuple ts) ∧
      discover (discoverStr E) topo (.seq k l') = .ok (.tuple ts') ∧ ts.Perm ts' := by
  rw [discover_seq, discover_seq]
  have elems : ∀ v cs, (discoverItem (discoverStr E) topo v).elems = some cs →
      ∃ k l, k ≠ .set ∧ v = .seq k l ∧ cs = l.map (discover (discoverStr E) topo) := by
    intro v cs e
    cases v <;> simp only [discoverItem] at e <;> try (cases e; done)
    rename_i k l
    split at e
    · cases e
    · rename_i hk
      cases e
      refine ⟨k, l, hk, rfl, ?_⟩
      rw [discoverItems_eq, List.map_map]
      rfl
  have entries : ∀ v cs, (discoverItem (discoverStr E) topo v).entries = some cs →
      ∃ l, (v = .dict l ∨ v = .od l) ∧ cs = l.map fun kv => (kv.1, discover (discoverStr E) topo kv.2) := by
    intro v cs e
    cases v <;> simp only [discoverItem] at e <;> try (cases e; done)
    · cases e; exact ⟨_, .inl rfl, discoverEntries_eq ..⟩
    · cases e; exact ⟨_, .inr rfl, discoverEntries_eq ..⟩
  have fld : ∀ x t, discover (discoverStr E) topo x = .ok t → Field t := fun x t h =>
    ⟨(cell_discover h).disc.all, (cell_discover h).single⟩
  refine seq_perm htopo (h.map _) ?_ ?_ ?_ ?_ ?_
  · intro i hi
    obtain ⟨v, hv, rfl⟩ := List.mem_map.1 hi
    obtain ⟨t, ht⟩ := hitems v hv
    exact ⟨t, ht, cell_discover ht⟩
  · intro i hi cs hcs c hc
    obtain ⟨v, hv, rfl⟩ := List.mem_map.1 hi
    obtain ⟨k, l, hk, rfl, rfl⟩ := elems v cs hcs
    obtain ⟨x, hx, rfl⟩ := List.mem_map.1 hc
    obtain ⟨t, ht⟩ := hcells _ hv x (.row hk hx)
    exact ⟨t, ht, fld x t ht⟩
  · intro i hi j hj cs ds hcs hds n a b ha hb
    obtain ⟨v, hv, rfl⟩ := List.mem_map.1 hi
    obtain ⟨w, hw, rfl⟩ := List.mem_map.1 hj
    obtain ⟨k, l, hk, rfl, rfl⟩ := elems v cs hcs
    obtain ⟨k', l', hk', rfl, rfl⟩ := elems w ds hds
    rw [List.getElem?_map] at ha hb
    cases hx : l[n]? with
    | none => rw [hx] at ha; cases ha
    | some x =>
      cases hy : l'[n]? with
      | none => rw [hy] at hb; cases hb
      | some y =>
        rw [hx] at ha
        rw [hy] at hb
        exact halike _ hv _ hw x y (.row n hk hk' hx hy) a b (Option.some.inj ha) (Option.some.inj hb)
  · intro i hi cs hcs c hc
    obtain ⟨v, hv, rfl⟩ := List.mem_map.1 hi
    obtain ⟨l, hl, rfl⟩ := entries v cs hcs
    obtain ⟨⟨n, x⟩, hx, rfl⟩ := List.mem_map.1 hc
    obtain ⟨t, ht⟩ := hcells _ hv x (.key hl hx)
    exact ⟨t, ht, fld x t ht⟩
  · intro i hi j hj cs ds hcs hds n a b ha hb
    obtain ⟨v, hv, rfl⟩ := List.mem_map.1 hi
    obtain ⟨w, hw, rfl⟩ := List.mem_map.1 hj
    obtain ⟨l, hl, rfl⟩ := entries v cs hcs
    obtain ⟨l', hl', rfl⟩ := entries w ds hds
    obtain ⟨⟨n1, x⟩, hx, e⟩ := List.mem_map.1 ha
    obtain ⟨⟨n2, y⟩, hy, e'⟩ := List.mem_map.1 hb
    simp only [Prod.mk.injEq] at e e'
    obtain ⟨rfl, e⟩ := e
    obtain ⟨rfl, e'⟩ := e'
    exact halike _ hv _ hw x y (.key hl hl' hx hy) a b e e'

/-- When no cell is a dict, the order of the items never matters. -/
theorem C65.no_dicts (E : StrEnv) (topo : List Node) (htopo : Toposort discEdges (.ok topo)) (k : SeqKind) (l l' : List PyObj)
    (h : l.Perm l')
    (hitems : ∀ v ∈ l, ∃ t, discover (discoverStr E) topo v = .ok t)
    (hcells : ∀ v ∈ l, ∀ x, CellOf v x → ∃ t, discover (discoverStr E) topo x = .ok t ∧ NoRecord t) :
    discover (discoverStr E) topo (.seq k l) = discover (discoverStr E) topo (.seq k l') ∨
    ∃ ts ts', discover (discoverStr E) topo (.seq k l) = .ok (.tuple ts) ∧
      discover (discoverStr E) topo (.seq k l') = .ok (.tuple ts') ∧ ts.Perm ts' := by
  refine C65.order E topo htopo k l l' h hitems (fun v hv x hx => ?_) ?_
  · obtain ⟨t, ht, -⟩ := hcells v hv x hx
    exact ⟨t, ht⟩
  · intro v hv w hw x y hxy s t hs ht
    have hc : CellOf v x ∧ CellOf w y := by
      cases hxy with
      | row i hk hk' hx hy => exact ⟨.row hk (List.mem_of_getElem? hx), .row hk' (List.mem_of_getElem? hy)⟩
      | key h1 h2 hx hy => exact ⟨.key h1 hx, .key h2 hy⟩
    obtain ⟨s', es, hns⟩ := hcells v hv x hc.1
    obtain ⟨t', et, hnt⟩ := hcells w hw y hc.2
    rw [hs] at es; cases es
    rw [ht] at et; cases et
    exact .noRecords hns hnt

/-- `[(1, None), [2.5, date]]` and `[1, [1, 1]]`, with the items in any order -/
theorem C65.example (E : StrEnv) (topo : List Node) (htopo : Toposort discEdges (.ok topo)) (l : List PyObj) :
    (l.Perm [.seq .tuple [.int, .none], .seq .list [.float, .date]] →
      discover (discoverStr E) topo (.seq .list l) = .ok (.dshape [.fixed 2, .tuple [.dshape [tFloat64], .dshape [.option .date]]])) ∧
    (l.Perm [.int, .seq .list [.int, .int]] → ∃ ts, discover (discoverStr E) topo (.seq .list l) = .ok (.tuple ts) ∧
      ts.Perm [.dshape [tInt64], .dshape [.fixed 2, tInt64]]) := by
  constructor
  · intro h
    have e := (C55.example E topo htopo).1
    rcases C65.no_dicts E topo htopo .list _ l h.symm (by
      intro v hv
      simp only [List.mem_cons, List.not_mem_nil, or_false] at hv
      rcases hv with rfl | rfl
      · exact ⟨_, rfl⟩
      · exact ⟨_, rfl⟩) (by
      intro v hv x hx
      simp only [List.mem_cons, List.not_mem_nil, or_false] at hv
      rcases hv with rfl | rfl <;> cases hx with
      | row hk hx =>
        simp only [List.mem_cons, List.not_mem_nil, or_false] at hx
        rcases hx with rfl | rfl <;> exact ⟨_, rfl, by intro fs h; cases h⟩
      | key h _ => rcases h with h | h <;> cases h) with h' | ⟨ts, ts', h1, -, -⟩
    · rw [← h', e]
    · rw [e] at h1; cases h1
  · intro h
    have e : discover (discoverStr E) topo (.seq .list [.int, .seq .list [.int, .int]]) =
        .ok (.tuple [.dshape [tInt64], .dshape [.fixed 2, tInt64]]) := rfl
    rcases C65.no_dicts E topo htopo .list _ l h.symm (by
      intro v hv
      simp only [List.mem_cons, List.not_mem_nil, or_false] at hv
      rcases hv with rfl | rfl
      · exact ⟨_, rfl⟩
      · exact ⟨_, rfl⟩) (by
      intro v hv x hx
      simp only [List.mem_cons, List.not_mem_nil, or_false] at hv
      rcases hv with rfl | rfl
      · cases hx with
        | key h _ => rcases h with h | h <;> cases h
      · cases hx with
        | row hk hx =>
          simp only [List.mem_cons, List.not_mem_nil, or_false] at hx
          rcases hx with rfl | rfl <;> exact ⟨_, rfl, by intro fs h; cases h⟩
        | key h _ => rcases h with h | h <;> cases h) with h' | ⟨ts, ts', h1, h2, h3⟩
    · exact ⟨_, by rw [← h', e], .refl _⟩
    · rw [e] at h1; cases h1
      exact ⟨ts', h2, h3.symm⟩

/-- Why cells must be alike. In a column of dicts the first one decides which keys are kept: `[({'a': None},), ({'b': None},)]`
and the same rows in the other order have different types. And `{}` beside a number is accepted only if it comes first. -/
theorem C65.first_wins (E : StrEnv) (topo : List Node) :
    discover (discoverStr E) topo (.seq .list [.seq .tuple [.dict [(py"a", .none)]], .seq .tuple [.dict [(py"b", .none)]]]) =
      .ok (.dshape [.fixed 2, .fixed 1, .record [(py"a", .null)]]) ∧
    discover (discoverStr E) topo (.seq .list [.seq .tuple [.dict [(py"b", .none)]], .seq .tuple [.dict [(py"a", .none)]]]) =
      .ok (.dshape [.fixed 2, .fixed 1, .record [(py"b", .null)]]) ∧
    discover (discoverStr E) topo (.seq .list [.seq .tuple [.dict []], .seq .tuple [.int]]) =
      .ok (.dshape [.fixed 2, .fixed 1, .record []]) ∧
    discover (discoverStr E) topo (.seq .list [.seq .tuple [.int], .seq .tuple [.dict []]]) =
      .ok (.tuple [.dshape [.fixed 1, tInt64], .dshape [.fixed 1, .record []]]) :=
  ⟨rfl, rfl, rfl, rfl⟩

/-- Rows with dicts of the same keys, such as `({'a': 1},)` and `({'a': None},)`, meet the conditions of `C65.order`. -/
example (E : StrEnv) (topo : List Node) (v : PyObj) (hv : v = .int ∨ v = .none) (w : PyObj) (hw : w = .int ∨ w = .none) (x y : PyObj)
    (h : SamePlace (.seq .tuple [.dict [(py"a", v)]]) (.seq .tuple [.dict [(py"a", w)]]) x y) :
    ∃ s t, discover (discoverStr E) topo x = .ok s ∧ discover (discoverStr E) topo y = .ok t ∧ Alike s t := by
  cases h with
  | key h _ _ _ => rcases h with h | h <;> cases h
  | row i _ _ hx hy =>
    rcases i with _ | i
    · simp only [List.getElem?_cons_zero, Option.some.injEq] at hx hy
      subst hx hy
      rcases hv with rfl | rfl <;> rcases hw with rfl | rfl <;> exact ⟨_, _, rfl, rfl, .records rfl (by
        intro p hp
        rw [List.mem_singleton.1 hp]
        exact .noRecords (by intro fs h; cases h) (by intro fs h; cases h))⟩
    · simp at hx

/-! ### The conversion graph is sorted in an arbitrary order -/

theorem base_topo {topo topo' : List Node} (h : Toposort discEdges (.ok topo)) (h' : Toposort discEdges (.ok topo')) (fuel : Nat)
    (ts : List Ty) (hp : ∀ t ∈ ts, Plain t) : uniteBase topo fuel ts = uniteBase topo' fuel ts := by
  induction fuel generalizing ts with
  | zero => rfl
  | succ fuel ih =>
    rw [uniteBase_eq, uniteBase_eq]
    simp only
    have hg : ∀ t ∈ (ts.map launderTy).filter (fun t => !isNull t), Plain t := by
      intro t ht
      obtain ⟨ht, -⟩ := List.mem_filter.1 ht
      obtain ⟨x, hx, rfl⟩ := List.mem_map.1 ht
      exact ord_launder (hp x hx)
    generalize (ts.map launderTy).filter (fun t => !isNull t) = good at hg
    cases good with
    | nil => rfl
    | cons g gs =>
      simp only
      have h1 : lowestCommon topo (g :: gs) = lowestCommon topo' (g :: gs) :=
        C26.order_irrelevant topo topo' h h' _ _ (by simp) (fun _ => Iff.rfl) hg
      have h2 : baseRecord topo fuel (g :: gs) g = baseRecord topo' fuel (g :: gs) g := by
        unfold baseRecord
        cases namesOf g with
        | error e => rfl
        | ok names =>
          simp only [bind, Except.bind]
          have : ∀ name ∈ names, (fun name => (do
              let col ← (g :: gs).mapM (dictGet name)
              let u ← uniteBase topo fuel col
              let t ← subshape (.int 0) u
              .ok (name, t) : Except PyErr (Str × Ty))) name = (fun name => (do
              let col ← (g :: gs).mapM (dictGet name)
              let u ← uniteBase topo' fuel col
              let t ← subshape (.int 0) u
              .ok (name, t) : Except PyErr (Str × Ty))) name := by
            intro name _
            simp only
            cases hc : (g :: gs).mapM (dictGet name) with
            | error e => rfl
            | ok col =>
              simp only [bind, Except.bind]
              rw [ih col]
              intro c hcm
              obtain ⟨x, hx, hd⟩ := mapM_mem hc c hcm
              have hxo := hg x hx
              cases x <;> simp only [dictGet] at hd <;> try cases hd
              rename_i fs
              cases hl : fs.reverse.lookup name with
              | none => rfl
              | some y =>
                have := lookup_mem hl
                exact everywhere_child hxo (List.mem_map.2 ⟨(name, y), by simpa using this, rfl⟩)
          have := mapM_congr this
          simp only [bind, Except.bind] at this
          rw [this]
      rw [h1, h2]

theorem columnType_topo {topo topo' : List Node} (h : Toposort discEdges (.ok topo)) (h' : Toposort discEdges (.ok topo'))
    (c : List (Except PyErr Ty)) (hc : ∀ t, .ok t ∈ c → Plain t) : columnType topo c = columnType topo' c := by
  have hu : ∀ ts, c.mapM id = .ok ts → uniteFull topo ts = uniteFull topo' ts := by
    intro ts hm
    unfold uniteFull
    rw [base_topo h h']
    intro t ht
    obtain ⟨x, hx, e⟩ := mapM_mem hm t ht
    simp only [id] at e
    exact hc t (e ▸ hx)
  unfold columnType column
  generalize c.mapM id = r at hu
  cases r with
  | error e => simp only [bind, Except.bind]
  | ok ts => simp only [bind, Except.bind, hu ts rfl]

theorem discoverSeq_topo {topo topo' : List Node} (h : Toposort discEdges (.ok topo)) (h' : Toposort discEdges (.ok topo'))
    (items : List Item) (hi : ∀ i ∈ items, i.Plain) : discoverSeq topo items = discoverSeq topo' items := by
  unfold discoverSeq
  have h1 : discoverRows topo items = discoverRows topo' items := by
    unfold discoverRows
    cases hm : items.mapM Item.elems with
    | none => rfl
    | some rows =>
      cases rows with
      | nil => rfl
      | cons r rows =>
        simp only
        have : (columnsOf r.length (r :: rows)).mapM (columnType topo) = (columnsOf r.length (r :: rows)).mapM (columnType topo') := by
          refine mapM_congr fun c hc => columnType_topo h h' c fun t ht => ?_
          unfold columnsOf at hc
          obtain ⟨j, -, rfl⟩ := List.mem_map.1 hc
          obtain ⟨row, hr, e⟩ := List.mem_map.1 ht
          obtain ⟨i, hi', e'⟩ := mapM_some_mem hm row hr
          cases hj : row[j]? with
          | none => rw [hj] at e; cases e
          | some x =>
            rw [hj] at e
            exact (hi i hi').elems row e' t ((show x = .ok t from e) ▸ List.mem_of_getElem? hj)
        rw [this]
  have h2 : discoverDicts topo items = discoverDicts topo' items := by
    unfold discoverDicts
    cases hm : items.mapM Item.entries with
    | none => rfl
    | some rows =>
      simp only
      have : ((allKeys rows).map fun k => rows.map fun d => (d.lookup k).getD (.ok .null)).mapM (columnType topo) =
          ((allKeys rows).map fun k => rows.map fun d => (d.lookup k).getD (.ok .null)).mapM (columnType topo') := by
        refine mapM_congr fun c hc => columnType_topo h h' c fun t ht => ?_
        obtain ⟨k, -, rfl⟩ := List.mem_map.1 hc
        obtain ⟨row, hr, e⟩ := List.mem_map.1 ht
        obtain ⟨i, hi', e'⟩ := mapM_some_mem hm row hr
        cases hj : row.lookup k with
        | none => rw [hj] at e; cases e; rfl
        | some x =>
          rw [hj] at e
          exact (hi i hi').entries row e' k t ((show x = .ok t from e) ▸ lookup_mem hj)
      rw [this]
  rw [h1, h2]

/-- At import, the conversion table is sorted in an order that depends on how sets are iterated, that is, on the hash seed of
the process (discovery.py:261). What `discover` returns, or raises, does not depend on it. -/
theorem C65.hash_seed (E : StrEnv) (topo topo' : List Node) (h : Toposort discEdges (.ok topo)) (h' : Toposort discEdges (.ok topo'))
    (v : PyObj) : discover (discoverStr E) topo v = discover (discoverStr E) topo' v := by
  have key : discoverItem (discoverStr E) topo v = discoverItem (discoverStr E) topo' v := by
    induction v using PyObj.ind with
    | atom v hv => cases v <;> first | (simp only [discoverItem]; done) | (simp [PyObj.isAtom] at hv; done)
    | seq k l ih =>
      have : l.map (discoverItem (discoverStr E) topo) = l.map (discoverItem (discoverStr E) topo') := List.map_congr_left ih
      simp only [discoverItem, discoverItems_eq, this]
      rw [discoverSeq_topo h h']
      intro i hi
      obtain ⟨v, -, rfl⟩ := List.mem_map.1 hi
      exact discoverItem_plain (C46.scalar E) topo' v
    | dict l ih | od l ih | mp l ih =>
      have : discoverEntries (discoverStr E) topo l = discoverEntries (discoverStr E) topo' l := by
        rw [discoverEntries_eq, discoverEntries_eq]
        refine List.map_congr_left fun e he => ?_
        simp only [discover, ih e he]
      simp only [discoverItem, this]
  rw [discover, discover, key]
