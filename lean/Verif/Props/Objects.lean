import Verif.Model.Objects
import Verif.Props.Equality

namespace DS

variable {H : Type}

theorem hashL_map (E : HashEnv H) (l : List Ty) : hashL E l = l.map fun t => (hashT E t).own := by
  induction l with
  | nil => rw [hashL]; rfl
  | cons t l ih => rw [hashL, ih]; rfl

theorem hashInit_map (E : HashEnv H) (l : List Ty) : hashInit E l = l.dropLast.map fun t => (hashT E t).own := by
  induction l with
  | nil => rw [hashInit]; rfl
  | cons t l ih =>
    cases l with
    | nil => rw [hashInit]; rfl
    | cons u l => rw [hashInit, ih]; rfl

theorem hashLast_getLast (E : HashEnv H) (l : List Ty) :
    hashLast E l = (l.getLast?.map fun t => (hashT E t).info).getD (E.info (py"DataShape") []) := by
  induction l with
  | nil => rw [hashLast]; rfl
  | cons t l ih =>
    cases l with
    | nil => rw [hashLast]; rfl
    | cons u l => rw [hashLast, ih, List.getLast?_cons_cons]

theorem hashF_zip (E : HashEnv H) (fs : List (Str × Ty)) :
    hashF E fs = List.zipWith (fun f k => E.tup [E.str f.1, k.own]) fs ((fs.map (·.2)).map (hashT E)) := by
  induction fs with
  | nil => rw [hashF]; rfl
  | cons f fs ih => obtain ⟨n, t⟩ := f; rw [hashF, ih]; rfl

theorem hashFrom_children (E : HashEnv H) (v : Ty) : hashFrom E v (v.children.map (hashT E)) = hashT E v := by
  have e : ∀ l : List Ty, (l.map (hashT E)).map HT.own = hashL E l := by
    intro l; rw [hashL_map, List.map_map]; rfl
  cases v <;> simp only [hashFrom, Ty.children]
  case units u t => rw [hashT]; rfl
  case option t => rw [hashT]; rfl
  case map k v => rw [hashT]; rfl
  case func ps => rw [hashT, e]
  case record fs => rw [hashT, hashF_zip]
  case tuple ts => rw [hashT, e]
  case categorical c t o => rw [hashT]; rfl
  case typeset o n => rw [hashT, e]
  case dshape ps =>
    rw [hashT, e, hashInit_map, hashLast_getLast, List.getLast?_map, ← List.map_dropLast, List.map_map, Option.map_map]
    rfl

/-- every `_hash` inside the object is the hash of its value under `E`, and the parts are those of the value -/
inductive Valid (E : HashEnv H) : Obj H → Prop where
  | mk {v : Ty} {c : Option H} {ps : List (Obj H)} : (∀ h, c = some h → h = pyHash E v) → ps.map Obj.value = v.children →
      (∀ o ∈ ps, Valid E o) → Valid E (.mk v c ps)

theorem hashParts_map (E : HashEnv H) (l : List (Obj H)) : hashParts E l = l.map (Obj.hash E) := by
  induction l with
  | nil => rw [hashParts]; rfl
  | cons o l ih => rw [hashParts, ih]; rfl

theorem unpickledParts_map (l : List (Obj H)) : unpickledParts l = l.map Obj.unpickled := by
  induction l with
  | nil => rw [unpickledParts]; rfl
  | cons o l ih => rw [unpickledParts, ih]; rfl

theorem Valid.hash {E : HashEnv H} {o : Obj H} (h : Valid E o) :
    (o.hash E).1 = hashT E o.value ∧ (o.hash E).2.value = o.value ∧ Valid E (o.hash E).2 := by
  induction h with
  | @mk v c ps hc hv _ ih =>
    rw [Obj.hash, hashParts_map]
    have h1 : (ps.map (Obj.hash E)).map Prod.fst = v.children.map (hashT E) := by
      rw [← hv, List.map_map, List.map_map]
      exact List.map_congr_left fun o ho => (ih o ho).1
    have h2 : (ps.map (Obj.hash E)).map Prod.snd = ps.map fun o => (o.hash E).2 := by
      rw [List.map_map]; rfl
    simp only [h1, h2, hashFrom_children, Obj.value]
    have h3 : c.getD (hashT E v).own = pyHash E v := by
      cases c with
      | none => rfl
      | some h => exact hc h rfl
    rw [h3]
    refine ⟨rfl, trivial, .mk (fun h e => (Option.some.inj e).symm) ?_ ?_⟩
    · rw [← hv, List.map_map]
      exact List.map_congr_left fun o ho => (ih o ho).2.1
    · intro o ho
      obtain ⟨x, hx, rfl⟩ := List.mem_map.1 ho
      exact (ih x hx).2.2

theorem Valid.unpickled {E E' : HashEnv H} {o : Obj H} (h : Valid E o) : o.unpickled.value = o.value ∧ Valid E' o.unpickled := by
  induction h with
  | @mk v c ps hc hv _ ih =>
    rw [Obj.unpickled, unpickledParts_map]
    refine ⟨rfl, .mk (fun h e => by cases e) ?_ ?_⟩
    · rw [← hv, List.map_map]
      exact List.map_congr_left fun o ho => (ih o ho).1
    · intro o ho
      obtain ⟨x, hx, rfl⟩ := List.mem_map.1 ho
      exact (ih x hx).2

theorem Valid.part {E : HashEnv H} {o x : Obj H} (h : Valid E o) (hx : x ∈ o.parts) : Valid E x := by
  cases h with
  | mk _ _ h => exact h x hx

/-- all objects are valid in their process -/
def AllValid (E : Nat → HashEnv H) (w : World H) : Prop := ∀ p o, (p, o) ∈ w → Valid (E p) o

theorem AllValid.step {E : Nat → HashEnv H} {w w' : World H} {a : Option (Nat × Ty × H)} (h : AllValid E w)
    (hs : WorldStep E w a w') : AllValid E w' ∧ ∀ p v x, a = some (p, v, x) → x = pyHash (E p) v := by
  cases hs with
  | build p v parts hp hv =>
    refine ⟨fun q o ho => ?_, fun _ _ _ e => by cases e⟩
    rcases List.mem_cons.1 ho with e | ho
    · cases e
      exact .mk (fun _ e => by cases e) hv fun x hx => h _ _ (hp x hx)
    · exact h q o ho
  | part ho hx =>
    refine ⟨fun q x hx' => ?_, fun _ _ _ e => by cases e⟩
    rcases List.mem_cons.1 hx' with e | hx'
    · cases e; exact (h _ _ ho).part hx
    · exact h q x hx'
  | @hash l r p o =>
    have ho := (h p o (by simp)).hash
    refine ⟨fun q x hx => ?_, fun _ _ _ e => ?_⟩
    · simp only [List.mem_append, List.mem_cons] at hx
      rcases hx with hx | hx | hx
      · exact h q x (by simp [hx])
      · cases hx; exact ho.2.2
      · exact h q x (by simp [hx])
    · cases e; rw [ho.1]; rfl
  | send q ho =>
    refine ⟨fun q' x hx => ?_, fun _ _ _ e => by cases e⟩
    rcases List.mem_cons.1 hx with e | hx
    · cases e; exact ((h _ _ ho).unpickled).2
    · exact h q' x hx

theorem AllValid.run {E : Nat → HashEnv H} {w w' : World H} {l : List (Nat × Ty × H)} (hr : WorldRun E w l w')
    (h : AllValid E w) : ∀ p v x, (p, v, x) ∈ l → x = pyHash (E p) v := by
  induction hr with
  | done w => intro p v x hx; cases hx
  | silent hs _ ih => exact ih (h.step hs).1
  | asked hs _ ih =>
    intro p v x hx
    rcases List.mem_cons.1 hx with e | hx
    · exact (h.step hs).2 p v x (by rw [e])
    · exact ih (h.step hs).1 p v x hx

/-- In every run that starts without objects, whatever is built, looked up, hashed, pickled and sent to other processes
in whatever order, `hash` of an object returns the hash of its value in the process in which it is asked for. -/
theorem C59.history (E : Nat → HashEnv H) (l : List (Nat × Ty × H)) (w : World H) (h : WorldRun E [] l w)
    (p : Nat) (v : Ty) (x : H) (hx : (p, v, x) ∈ l) : x = pyHash (E p) v :=
  AllValid.run h (fun _ _ h => by cases h) p v x hx

/-- So equal datashapes have equal hashes in a process at all times, wherever they come from. -/
theorem C59.consistent (E : Nat → HashEnv H) (l : List (Nat × Ty × H)) (w : World H) (h : WorldRun E [] l w)
    (p : Nat) (a b : Ty) (x y : H) (hx : (p, a, x) ∈ l) (hy : (p, b, y) ∈ l)
    (ha : a.everywhere eqLocal = true) (hb : b.everywhere eqLocal = true) (he : pyEq a b = true) : x = y := by
  rw [C59.history E l w h p a x hx, C59.history E l w h p b y hy]
  exact C09.eq_hash (E p) a b ha hb he

/-- Asking for a hash changes no value. -/
theorem C59.unchanged (E : HashEnv H) (o : Obj H) : (o.hash E).2.value = o.value ∧ o.unpickled.value = o.value := by
  cases o; exact ⟨by rw [Obj.hash]; rfl, by rw [Obj.unpickled]; rfl⟩

/-- A run: `3 * int32` is built and hashed in process 0, sent to process 1, and hashed there. -/
theorem C59.example (E : Nat → HashEnv H) :
    ∃ w, WorldRun E [] [(0, .dshape [.fixed 3, tInt32], pyHash (E 0) (.dshape [.fixed 3, tInt32])),
      (1, .dshape [.fixed 3, tInt32], pyHash (E 1) (.dshape [.fixed 3, tInt32]))] w := by
  have v3 : ∀ p, Valid (E p) (.mk (.fixed 3) none []) := fun p => .mk (fun _ e => by cases e) rfl (fun _ h => by cases h)
  have vi : ∀ p, Valid (E p) (.mk tInt32 none []) := fun p => .mk (fun _ e => by cases e) rfl (fun _ h => by cases h)
  have va : Valid (E 0) (.mk (.dshape [.fixed 3, tInt32]) none [.mk (.fixed 3) none [], .mk tInt32 none []]) := by
    refine .mk (fun _ e => by cases e) rfl fun o ho => ?_
    simp only [List.mem_cons, List.not_mem_nil, or_false] at ho
    rcases ho with rfl | rfl
    · exact v3 0
    · exact vi 0
  have h0 := va.hash
  have h1 := (h0.2.2.unpickled (E' := E 1)).2.hash
  have e0 : ((Obj.mk (Ty.dshape [.fixed 3, tInt32]) none [.mk (.fixed 3) none [], .mk tInt32 none []]).hash (E 0)).1.own
      = pyHash (E 0) (.dshape [.fixed 3, tInt32]) := by rw [h0.1]; rfl
  have s0 := WorldStep.hash (E := E) (l := []) (r := [(0, .mk tInt32 none []), (0, .mk (.fixed 3) none [])]) (p := 0)
    (o := .mk (.dshape [.fixed 3, tInt32]) none [.mk (.fixed 3) none [], .mk tInt32 none []])
  rw [e0] at s0
  have s1 := WorldStep.hash (E := E) (l := []) (r := [(0, ((Obj.mk (Ty.dshape [.fixed 3, tInt32]) none
      [.mk (.fixed 3) none [], .mk tInt32 none []]).hash (E 0)).2), (0, .mk tInt32 none []), (0, .mk (.fixed 3) none [])])
    (p := 1) (o := ((Obj.mk (Ty.dshape [.fixed 3, tInt32]) none
      [.mk (.fixed 3) none [], .mk tInt32 none []]).hash (E 0)).2.unpickled)
  rw [h1.1] at s1
  exact ⟨_, .silent (.build 0 (.fixed 3) [] (fun _ h => by cases h) rfl)
    (.silent (.build 0 tInt32 [] (fun _ h => by cases h) rfl)
    (.silent (.build 0 (.dshape [.fixed 3, tInt32]) [.mk (.fixed 3) none [], .mk tInt32 none []] (by simp) rfl)
    (.asked s0 (.silent (.send 1 (List.mem_cons_self ..)) (.asked s1 (.done _))))))⟩

end DS
