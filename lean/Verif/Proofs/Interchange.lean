import Verif.Spec.Interchange
import Verif.Proofs.Same

/-
The normal form behind C57: a datashape without one-element `DataShape`s.
-/
namespace DS

/-- a one-element `DataShape` is replaced by its element -/
def single : List Ty → Ty
  | [m] => m
  | l => .dshape l

mutual
/-- one-element `DataShape`s are removed everywhere, and the categories `True`, `False` become 1, 0 -/
def Ty.strip : (t : Ty) → Ty
  | .units u t => .units u t.strip
  | .option t => .option t.strip
  | .map k v => .map k.strip v.strip
  | .func ps => .func (stripL ps)
  | .record fs => .record (stripF fs)
  | .tuple ts => .tuple (stripL ts)
  | .categorical c t o => .categorical (c.map Lit.canon) t.strip o
  | .dshape ps => single (stripL ps)
  | t => t
termination_by structural t => t
/-- list version -/
def stripL : (l : List Ty) → List Ty
  | [] => []
  | t :: r => t.strip :: stripL r
termination_by structural l => l
/-- over the types of a record -/
def stripF : (l : List (Str × Ty)) → List (Str × Ty)
  | [] => []
  | (n, t) :: r => (n, t.strip) :: stripF r
termination_by structural l => l
end

theorem stripL_eq (l : List Ty) : stripL l = l.map Ty.strip := by
  induction l with
  | nil => rfl
  | cons a l ih => simp [stripL, ih]

theorem stripF_eq (l : List (Str × Ty)) : stripF l = l.map fun f => (f.1, f.2.strip) := by
  induction l with
  | nil => rfl
  | cons a l ih => obtain ⟨n, t⟩ := a; simp [stripF, ih]

/-- not an option of an array -/
def noOptArr : Ty → Bool
  | .option t => !t.isDShape
  | _ => true

theorem shape_nil {t : Ty} (h : t.everywhere noOptArr = true) (hd : t.isDShape = false) : t.shape = [] := by
  induction t using Ty.ind with
  | option t ih =>
    have h0 := everywhere_self h
    simp only [noOptArr, Bool.not_eq_true'] at h0
    exact ih (everywhere_child h (by simp [Ty.children])) h0
  | dshape ps _ => simp [Ty.isDShape] at hd
  | _ => rfl

/-- a datashape is determined, up to one-element `DataShape`s, by what `==` sees of it -/
theorem strip_view {t m : Ty} {ds : List Ty} (h : t.everywhere noOptArr = true) (hv : View t ds m) :
    t.strip = single ((ds ++ [m]).map Ty.strip) := by
  cases hv with
  | array ds m => simp [Ty.strip, stripL_eq]
  | option hv =>
    have h1 := (view_det (.option hv)).1
    rw [shape_nil h rfl] at h1
    subst h1
    rfl
  | scalar t _ _ => rfl

theorem zip_strip {l k : List Ty} (hl : l.length = k.length) (h : ∀ p ∈ l.zip k, p.1.strip = p.2.strip) :
    l.map Ty.strip = k.map Ty.strip := by
  induction l generalizing k with
  | nil => cases k with
    | nil => rfl
    | cons => simp at hl
  | cons a l ih => cases k with
    | nil => simp at hl
    | cons b k =>
      simp only [List.map_cons]
      rw [h (a, b) (by simp), ih (by simpa using hl) fun p hp => h p (by simp [hp])]

theorem zip_stripF {l k : List (Str × Ty)} (hl : l.map (·.1) = k.map (·.1))
    (h : ∀ p ∈ l.zip k, p.1.2.strip = p.2.2.strip) :
    (l.map fun f => (f.1, f.2.strip)) = k.map fun f => (f.1, f.2.strip) := by
  induction l generalizing k with
  | nil => cases k with
    | nil => rfl
    | cons => simp at hl
  | cons a l ih => cases k with
    | nil => simp at hl
    | cons b k =>
      simp only [List.map_cons, List.cons.injEq] at hl ⊢
      refine ⟨?_, ih hl.2 fun p hp => h p (by simp [hp])⟩
      rw [hl.1, h (a, b) (by simp)]

theorem zip_canon {l k : List Lit} (hl : l.length = k.length) (h : ∀ p ∈ l.zip k, SameLit p.1 p.2) :
    l.map Lit.canon = k.map Lit.canon := by
  induction l generalizing k with
  | nil => cases k with
    | nil => rfl
    | cons => simp at hl
  | cons a l ih => cases k with
    | nil => simp at hl
    | cons b k =>
      simp only [List.map_cons]
      rw [ih (by simpa using hl) fun p hp => h p (by simp [hp])]
      congr 1
      have := h (a, b) (by simp)
      simp only at this
      cases this <;> rfl

theorem same_strip (a : Ty) (ha : a.everywhere noOptArr = true) : ∀ b, b.everywhere noOptArr = true →
    (SameMeasure a b → a.strip = b.strip) ∧ (Same a b → a.strip = b.strip) := by
  induction a using Ty.ind_children with
  | h a ih =>
  intro b hb
  have lst : ∀ ts us : List Ty, (∀ t ∈ ts, t ∈ a.children) → (∀ u ∈ us, u.everywhere noOptArr = true) →
      ts.length = us.length → (∀ p ∈ ts.zip us, Same p.1 p.2) → ts.map Ty.strip = us.map Ty.strip := by
    intro ts us h1 h2 h3 h4
    refine zip_strip h3 fun p hp => ?_
    have := List.of_mem_zip hp
    exact (ih _ (h1 _ this.1) (everywhere_child ha (h1 _ this.1)) _ (h2 _ this.2)).2 (h4 p hp)
  have meas : ∀ c, c.everywhere noOptArr = true → SameMeasure a c → a.strip = c.strip := by
    intro c hc h
    cases h with
    | atom => rfl
    | units u h => simp only [Ty.strip]; rw [(ih _ (by simp [Ty.children]) (everywhere_child ha (by simp [Ty.children])) _
        (everywhere_child hc (by simp [Ty.children]))).2 h]
    | option h => simp only [Ty.strip]; rw [(ih _ (by simp [Ty.children]) (everywhere_child ha (by simp [Ty.children])) _
        (everywhere_child hc (by simp [Ty.children]))).2 h]
    | map h h' => simp only [Ty.strip]; rw [(ih _ (by simp [Ty.children]) (everywhere_child ha (by simp [Ty.children])) _
        (everywhere_child hc (by simp [Ty.children]))).2 h, (ih _ (by simp [Ty.children])
        (everywhere_child ha (by simp [Ty.children])) _ (everywhere_child hc (by simp [Ty.children]))).2 h']
    | func h h' =>
      rename_i ts us
      simp only [Ty.strip, stripL_eq]
      rw [lst ts us (fun t h => h) (fun u h => everywhere_child hc h) h h']
    | tuple h h' =>
      rename_i ts us
      simp only [Ty.strip, stripL_eq]
      rw [lst ts us (fun t h => h) (fun u h => everywhere_child hc h) h h']
    | array h h' =>
      rename_i ts us
      simp only [Ty.strip, stripL_eq]
      rw [lst ts us (fun t h => h) (fun u h => everywhere_child hc h) h h']
    | record h h' =>
      simp only [Ty.strip, stripF_eq]
      rw [zip_stripF h fun p hp => ?_]
      have := List.of_mem_zip hp
      have h1 : p.1.2 ∈ (Ty.record _).children := List.mem_map_of_mem this.1
      have h2 : p.2.2 ∈ (Ty.record _).children := List.mem_map_of_mem this.2
      exact (ih _ h1 (everywhere_child ha h1) _ (everywhere_child hc h2)).2 (h' p hp)
    | categorical o h h' h'' =>
      simp only [Ty.strip]
      rw [zip_canon h h', (ih _ (by simp [Ty.children]) (everywhere_child ha (by simp [Ty.children])) _
        (everywhere_child hc (by simp [Ty.children]))).2 h'']
  refine ⟨meas b hb, ?_⟩
  rintro ⟨va, vb, h1, h2, h3⟩
  rename_i m n ds es
  rw [strip_view ha va, strip_view hb vb]
  have hn : n.everywhere noOptArr = true := by
    cases vb with
    | array => exact everywhere_child hb (by simp [Ty.children])
    | option => exact hb
    | scalar => exact hb
  have hes : ∀ u ∈ es, u.everywhere noOptArr = true := by
    cases vb with
    | array => exact fun u hu => everywhere_child hb (by simp [Ty.children, hu])
    | option hv =>
      have := (view_det (.option hv)).1
      rw [shape_nil hb rfl] at this
      subst this; simp
    | scalar => simp
  have hds : ∀ u ∈ ds, u ∈ a.children := by
    cases va with
    | array => exact fun u hu => (by simp [Ty.children, hu])
    | option hv =>
      have := (view_det (.option hv)).1
      rw [shape_nil ha rfl] at this
      subst this; simp
    | scalar => simp
  have hm : m.strip = n.strip := by
    cases va with
    | array =>
      have hc : m ∈ (Ty.dshape (ds ++ [m])).children := by simp [Ty.children]
      exact (ih m hc (everywhere_child ha hc) n hn).1 h3
    | option => exact meas n hn h3
    | scalar => exact meas n hn h3
  simp only [List.map_append, List.map_cons, List.map_nil, hm, lst ds es hds hes h1 h2]

end DS
