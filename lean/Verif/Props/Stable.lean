import Verif.Props.RoundTrip

/-
C01, C02: printing is stable. Reading a printed datashape and printing it again gives the same text.
-/
namespace DS

variable {env : Env}

theorem renderL_map {f : Ty → Ty} {l : List Ty} (h : ∀ t ∈ l, ∀ w, render env (f t) w = render env t w) (w : Option Int) :
    renderL env (l.map f) w = renderL env l w := by
  induction l with
  | nil => rfl
  | cons a l ih =>
    simp only [List.map_cons, renderL, h a (by simp) w, ih fun t ht => h t (by simp [ht])]

theorem renderInit_map {f : Ty → Ty} {l : List Ty} (h : ∀ t ∈ l, render env (f t) none = render env t none) :
    renderInit env (l.map f) = renderInit env l := by
  induction l with
  | nil => rfl
  | cons a l ih =>
    cases l with
    | nil => rfl
    | cons b l =>
      have := ih fun t ht => h t (List.mem_cons_of_mem _ ht)
      simp only [List.map_cons, renderInit, h a (by simp)] at this ⊢
      rw [this]

theorem renderLast_map {f : Ty → Ty} {l : List Ty} (h : ∀ t ∈ l, render env (f t) none = render env t none) :
    renderLast env (l.map f) = renderLast env l := by
  induction l with
  | nil => rfl
  | cons a l ih =>
    cases l with
    | nil => simp only [List.map_cons, List.map_nil, renderLast, h a (by simp)]
    | cons b l =>
      have := ih fun t ht => h t (List.mem_cons_of_mem _ ht)
      simp only [List.map_cons, renderLast] at this ⊢
      rw [this]

theorem renderF_map {f : Ty → Ty} {l : List (Str × Ty)} (h : ∀ x ∈ l, ∀ w, render env (f x.2) w = render env x.2 w) (w : Int) :
    renderF env (l.map fun x => (x.1, f x.2)) w = renderF env l w := by
  induction l with
  | nil => rfl
  | cons a l ih =>
    obtain ⟨n, t⟩ := a
    have := h (n, t) (by simp) (some (w - n.length))
    simp only at this
    simp only [List.map_cons, renderF, this, ih fun t ht => h t (by simp [ht])]

/-- `str(DataShape(t))` is `str(t)` -/
theorem render_wrap (t : Ty) : render env t.wrap none = render env t none := by
  unfold Ty.wrap
  split
  · rfl
  · simp only [render, renderL, join]

/-- the measure of a `DataShape` is printed by class -/
theorem renderDS_canon {l : List Ty} (h : ∀ t ∈ l, ∀ w, render env t.canon w = render env t w)
    (hc : ∀ t ∈ l, ∀ c ∈ t.children, ∀ w, render env c.canon w = render env c w) (result : Str) (w : Int) :
    renderDS env (l.map Ty.canon) result w = renderDS env l result w := by
  induction l with
  | nil => rfl
  | cons t l ih =>
    cases l with
    | cons u r =>
      have e : ∀ (t u : Ty) r, renderDS env (t :: u :: r) result w = renderDS env (u :: r) result w := by
        intro t u r; cases t <;> rfl
      have := ih (fun t ht => h t (List.mem_cons_of_mem _ ht)) (fun t ht => hc t (List.mem_cons_of_mem _ ht))
      rw [List.map_cons, List.map_cons, e, e, ← this, List.map_cons]
    | nil =>
      have h0 := h t (by simp) none
      have hc0 := hc t (by simp)
      cases t with
      | record fs =>
        simp only [List.map_cons, List.map_nil, Ty.canon, canonF_eq, renderDS]
        rw [renderF_map (f := Ty.canon) fun x hx => hc0 x.2 (List.mem_map.2 ⟨x, hx, rfl⟩)]
      | tuple ts =>
        simp only [List.map_cons, List.map_nil, Ty.canon, canonL_eq, renderDS]
        rw [renderL_map (l := ts) hc0]
      | _ =>
        first
          | rfl
          | (simp only [Ty.canon] at h0; simp only [List.map_cons, List.map_nil, Ty.canon, renderDS, h0])

/-- a datashape and its canonical form print alike, at every width -/
theorem render_canon (t : Ty) (hs : t.everywhere (spelledLocal env) = true) (he : t.everywhere eqLocal = true) :
    ∀ w, render env t.canon w = render env t w := by
  suffices H : ∀ t : Ty, t.everywhere (spelledLocal env) = true → t.everywhere eqLocal = true →
      (∀ w, render env t.canon w = render env t w) ∧ ∀ c ∈ t.children, ∀ w, render env c.canon w = render env c w from
    (H t hs he).1
  clear hs he t
  intro t
  induction t using Ty.ind_children with
  | h t ih =>
    intro hs he
    have hch : ∀ c ∈ t.children, ∀ w, render env c.canon w = render env c w :=
      fun c hc => (ih c hc (everywhere_child hs hc) (everywhere_child he hc)).1
    refine ⟨?_, hch⟩
    have hgc : ∀ t' ∈ t.children, ∀ c ∈ t'.children, ∀ w, render env c.canon w = render env c w :=
      fun t' ht' => (ih t' ht' (everywhere_child hs ht') (everywhere_child he ht')).2
    cases t with
    | units u t =>
      intro w
      have hcs := everywhere_child hs (c := t) (by simp [Ty.children])
      have hce := everywhere_child he (c := t) (by simp [Ty.children])
      have hq : pyEq t.canon (.dshape [tFloat64]) = pyEq t (.dshape [tFloat64]) := by
        have hb : (Ty.dshape [tFloat64]).everywhere eqLocal = true := rfl
        rw [Bool.eq_iff_iff, pyEq_iff_free (canon_eqLocal t hcs hce) hb, pyEq_iff_free hce hb]
        unfold pyHash
        rw [canon_hash t hcs hce]
      simp only [Ty.canon, render, hq, hch t (by simp [Ty.children]) none]
    | option t => intro w; simp only [Ty.canon, render, hch t (by simp [Ty.children]) none]
    | map k v =>
      intro w
      simp only [Ty.canon, render, hch k (by simp [Ty.children]) none, hch v (by simp [Ty.children]) none]
    | func ps =>
      intro w
      have : ∀ t ∈ ps, render env t.canon.wrap none = render env t none := fun t ht => by
        rw [render_wrap]; exact hch t ht none
      simp only [Ty.canon, render, canonW_eq]
      rw [renderInit_map this, renderLast_map this]
    | record fs =>
      intro w
      simp only [Ty.canon, render, canonF_eq]
      rw [renderF_map (f := Ty.canon) fun x hx => hch x.2 (List.mem_map.2 ⟨x, hx, rfl⟩)]
    | tuple ts =>
      intro w
      cases w with
      | none => simp only [Ty.canon, render, canonL_eq]; rw [renderL_map (l := ts) hch]
      | some w => simp only [Ty.canon, render, canonL_eq]; rw [renderL_map (l := ts) hch]
    | categorical c t o => intro w; simp only [Ty.canon, render, hch t (by simp [Ty.children]) none]
    | dshape ps =>
      intro w
      cases w with
      | none => simp only [Ty.canon, render, canonL_eq]; rw [renderL_map (l := ps) hch]
      | some w =>
        simp only [Ty.canon, render, canonL_eq]
        rw [renderDS_canon (l := ps) hch hgc, renderInit_map (l := ps) fun t ht => hch t ht none]
    | _ => intro w; rfl

section
variable {disc : List Lit → Except PyErr Ty} (hd : ∀ l, Returns (disc l))
include hd

/-- `str(dshape(str(t))) = str(t)` for every printable datashape, `DataShape` or measure. -/
theorem C01.stable (t : Ty) (h : Printable env t) :
    ∃ u, DS.dshape env disc (pyStr env t) = .ok u ∧ pyStr env u = pyStr env t :=
  ⟨_, render_read hd h none, by
    unfold pyStr
    rw [render_wrap, render_canon t h.spelled h.wf.eqOk]⟩

/-- For `DataShape`s also `pprint` is stable: what is read from any printed form prints, at every width, like the
original. -/
theorem C02.stable (ds : Ty) (h : Printable env ds) (hds : ds.isDShape = true) (v : Int) :
    ∃ u, DS.dshape env disc (pprint env ds v) = .ok u ∧ ∀ w, pprint env u w = pprint env ds w :=
  ⟨_, render_read hd h (some v), fun w => by
    unfold pprint
    rw [wrap_self (by rw [canon_isDShape]; exact hds), render_canon ds h.spelled h.wf.eqOk]⟩

end

end DS
