import Verif.Spec.Pretty
import Verif.Spec.Subterms
import Verif.Props.RoundTrip

/-
C61: where `pprint` and `str` break lines.
-/
namespace DS

variable {env : Env}

theorem oneLineL_map (l : List Ty) : oneLineL env l = l.map (oneLine env) := by
  induction l with
  | nil => rw [oneLineL]; rfl
  | cons t l ih => rw [oneLineL, ih]; rfl

theorem oneLineF_map (l : List (Str × Ty)) : oneLineF env l = l.map fun f => fieldName env f.1 ++ py": " ++ oneLine env f.2 := by
  induction l with
  | nil => rw [oneLineF]; rfl
  | cons t l ih => obtain ⟨n, t⟩ := t; rw [oneLineF, ih]; rfl

theorem renderF_eq (l : List (Str × Ty)) (w : Int) : renderF env l w =
    l.map fun f => fieldName env f.1 ++ py": " ++ render env f.2 (some (w - f.1.length)) := by
  induction l with
  | nil => rw [renderF]; rfl
  | cons t l ih => obtain ⟨n, t⟩ := t; rw [renderF, ih]; rfl

theorem renderInit_drop (l : List Ty) : renderInit env l = (l.map fun t => render env t none).dropLast := by
  induction l with
  | nil => rw [renderInit]; rfl
  | cons t l ih =>
    cases l with
    | nil => rw [renderInit]; rfl
    | cons u l => rw [renderInit, ih]; rfl

theorem renderLast_get (l : List Ty) : renderLast env l = (l.map fun t => render env t none).getLast?.getD [] := by
  induction l with
  | nil => rw [renderLast]; rfl
  | cons t l ih =>
    cases l with
    | nil => rw [renderLast]; rfl
    | cons u l => rw [renderLast, ih]; simp

/-- texts of at least these lengths -/
theorem join_length_le {α : Type} (sep : Str) (f g : α → Str) (l : List α) (h : ∀ x ∈ l, (f x).length ≤ (g x).length) :
    (join sep (l.map f)).length ≤ (join sep (l.map g)).length := by
  induction l with
  | nil => exact Nat.le_refl _
  | cons a l ih =>
    have ha := h a (by simp)
    have ihl := ih fun x hx => h x (by simp [hx])
    cases l with
    | nil => simpa [join] using ha
    | cons b l =>
      simp only [List.map_cons, join, List.length_append] at ihl ⊢
      omega

theorem join_mem_length (sep : Str) (l : List Str) (x : Str) (h : x ∈ l) : x.length ≤ (join sep l).length := by
  induction l with
  | nil => cases h
  | cons a l ih =>
    cases l with
    | nil => simp at h; subst h; exact Nat.le_refl _
    | cons b l =>
      simp only [join, List.length_append]
      rcases List.mem_cons.1 h with rfl | h
      · omega
      · have := ih h; omega

theorem flatMap_length_le (f : Nat → Str) (hf : ∀ c, 1 ≤ (f c).length) (s : Str) : s.length ≤ (s.flatMap f).length := by
  induction s with
  | nil => exact Nat.le_refl _
  | cons c s ih =>
    simp only [List.flatMap_cons, List.length_append, List.length_cons]
    have := hf c; omega

theorem moved_length (s : Str) : s.length ≤ (moved s).length :=
  flatMap_length_le _ (fun c => by split <;> simp [newLine]) s

theorem fieldName_length (n : Str) : n.length ≤ (fieldName env n).length := by
  unfold fieldName
  split
  · exact Nat.le_refl _
  · have := flatMap_length_le (reprChar env (reprQuote n)) (fun c => by
      unfold reprChar
      repeat' split
      all_goals simp) n
    simp only [pyRepr, List.length_append, List.length_cons, List.length_nil]
    omega

theorem moved_append (a b : Str) : moved (a ++ b) = moved a ++ moved b := by simp [moved]

theorem moved_join (sep : Str) (l : List Str) : moved (join sep l) = join (moved sep) (l.map moved) := by
  induction l with
  | nil => rfl
  | cons a l ih =>
    cases l with
    | nil => rfl
    | cons b l => simp only [join, List.map_cons, moved_append] at ih ⊢; rw [ih]

/-- The layout of a record or a tuple type: on one line if there is room, otherwise broken. -/
theorem layout_eq (l r : Nat) (hl : l ≠ 10) (hr : r ≠ 10) (result : Str) (items : List Str) (width : Int) :
    layout l r result items width =
      if ((result ++ ([l] ++ join (py", ") items ++ [r])).length : Int) < width then
        result ++ ([l] ++ join (py", ") items ++ [r])
      else result ++ broken [l] [r] items := by
  unfold layout
  simp only
  split
  · rfl
  · congr 1
    have e : replaceNL ([l, 10] ++ join [44, 10] items ++ [10, r]) = moved ([l, 10] ++ join [44, 10] items ++ [10, r]) := rfl
    rw [e, moved_append, moved_append, moved_join, broken]
    have e1 : moved [l, 10] = [l] ++ newLine := by simp [moved, hl]
    have e2 : moved [10, r] = newLine ++ [r] := by simp [moved, hr]
    have e3 : moved [44, 10] = py"," ++ newLine := rfl
    rw [e1, e2, e3]
    simp

theorem join_star_last (l : List Str) (x : Str) : join (py" * ") (l ++ [x]) = starred l ++ x := by
  induction l with
  | nil => rfl
  | cons a l ih =>
    cases l with
    | nil => simp [join, starred]
    | cons b l => simp only [List.cons_append, join, starred, List.flatMap_cons] at ih ⊢; rw [ih]; simp

theorem dimPrefix_starred (l : List Str) : dimPrefix l = starred l := by
  have := join_star_last l []
  rcases List.eq_nil_or_concat l with rfl | ⟨a, b, rfl⟩
  · rfl
  · rw [List.concat_eq_append, dimPrefix, if_neg (by simp), join_star_last]
    simp [starred]

theorem layout_length (l r : Nat) (hl : l ≠ 10) (hr : r ≠ 10) (result : Str) (items : List Str) (width : Int) :
    (result ++ ([l] ++ join (py", ") items ++ [r])).length ≤ (layout l r result items width).length := by
  rw [layout_eq l r hl hr]
  split
  · exact Nat.le_refl _
  · have h : (join (py", ") (items.map id)).length ≤ (join (py"," ++ newLine) (items.map moved)).length := by
      have h1 := join_length_le (py"," ++ newLine) id moved items (fun x _ => moved_length x)
      have h2 : ∀ l : List Str, (join (py", ") l).length ≤ (join (py"," ++ newLine) l).length := by
        intro l
        induction l with
        | nil => exact Nat.le_refl _
        | cons a l ih =>
          cases l with
          | nil => exact Nat.le_refl _
          | cons b l =>
            simp only [join, List.length_append] at ih ⊢
            have : (py", ").length ≤ (py",").length + newLine.length := by decide
            omega
      exact Nat.le_trans (h2 _) h1
    rw [List.map_id] at h
    simp only [broken, List.length_append]
    omega

theorem oneLine_dshape (dims : List Ty) (m : Ty) :
    oneLine env (.dshape (dims ++ [m])) = starred (dims.map (oneLine env)) ++ oneLine env m := by
  rw [oneLine, oneLineL_map, List.map_append, List.map_singleton, join_star_last]

theorem str_dshape (dims : List Ty) (m : Ty) :
    render env (.dshape (dims ++ [m])) none = starred (dims.map fun d => render env d none) ++ render env m none := by
  rw [render, renderL_eq, List.map_append, List.map_singleton, join_star_last]

theorem pprint_dshape (dims : List Ty) (m : Ty) (w : Int) : render env (.dshape (dims ++ [m])) (some w) =
    renderDS env [m] (starred (dims.map fun d => render env d none)) w := by
  rw [render, renderInit_eq, renderDS_eq, dimPrefix_starred]

theorem starred_length (dims : List Ty) (h : ∀ d ∈ dims, (oneLine env d).length ≤ (render env d none).length) :
    (starred (dims.map (oneLine env))).length ≤ (starred (dims.map fun d => render env d none)).length := by
  induction dims with
  | nil => exact Nat.le_refl _
  | cons d dims ih =>
    have h1 := h d (by simp)
    have h2 := ih fun x hx => h x (by simp [hx])
    simp only [starred, List.map_cons, List.flatMap_cons, List.length_append] at h1 h2 ⊢
    omega

theorem oneLine_length (t : Ty) : (∀ w, (oneLine env t).length ≤ (render env t w).length) ∧
    ∀ (pre : Str) w, pre.length + (oneLine env t).length ≤ (renderDS env [t] pre w).length := by
  have leaf : ∀ t : Ty, (∀ w, render env t w = render env t none) → (∀ pre w, renderDS env [t] pre w = pre ++ render env t none) →
      (oneLine env t).length ≤ (render env t none).length →
      (∀ w, (oneLine env t).length ≤ (render env t w).length) ∧
      ∀ (pre : Str) w, pre.length + (oneLine env t).length ≤ (renderDS env [t] pre w).length := by
    intro t h1 h2 h3
    refine ⟨fun w => by rw [h1]; exact h3, fun pre w => by rw [h2, List.length_append]; omega⟩
  induction t using Ty.ind with
  | units u t ih =>
    refine leaf _ (fun w => rfl) (fun _ _ => rfl) ?_
    rw [oneLine, render]
    split
    · exact Nat.le_refl _
    · have := ih.1 none; simp only [List.length_append]; omega
  | option t ih =>
    refine leaf _ (fun w => rfl) (fun _ _ => rfl) ?_
    rw [oneLine, render]
    have := ih.1 none; simp only [List.length_append]; omega
  | map k v ik iv =>
    refine leaf _ (fun w => rfl) (fun _ _ => rfl) ?_
    rw [oneLine, render]
    have := ik.1 none; have := iv.1 none; simp only [List.length_append]; omega
  | func ps ih =>
    refine leaf _ (fun w => rfl) (fun _ _ => rfl) ?_
    rw [oneLine, render, renderInit_drop, renderLast_get, oneLineL_map]
    have h1 : (join (py", ") (ps.map (oneLine env)).dropLast).length ≤
        (join (py", ") (ps.map fun t => render env t none).dropLast).length := by
      rw [← List.map_dropLast, ← List.map_dropLast]
      exact join_length_le _ _ _ _ fun x hx => (ih x (List.dropLast_subset ps hx)).1 none
    have h2 : ((ps.map (oneLine env)).getLast?.getD []).length ≤
        ((ps.map fun t => render env t none).getLast?.getD []).length := by
      rw [List.getLast?_map, List.getLast?_map]
      cases hl : ps.getLast? with
      | none => exact Nat.le_refl _
      | some x => exact (ih x (List.mem_of_getLast? hl)).1 none
    simp only [List.length_append]; omega
  | record fs ih =>
    have key : ∀ (w' : Int), (join (py", ") (oneLineF env fs)).length ≤ (join (py", ") (renderF env fs w')).length := by
      intro w'
      rw [oneLineF_map, renderF_eq]
      refine join_length_le _ _ _ _ fun f hf => ?_
      have := (ih f hf).1 (some (w' - f.1.length))
      simp only [List.length_append]; omega
    refine ⟨fun w => ?_, fun pre w => ?_⟩
    · rw [oneLine, render]
      have h1 := layout_length 123 125 (by decide) (by decide) [] (renderF env fs (w.getD 80)) (w.getD 80)
      have h2 := key (w.getD 80)
      simp only [List.length_append, List.length_cons, List.length_nil] at h1 ⊢
      omega
    · rw [oneLine, renderDS]
      have h1 := layout_length 123 125 (by decide) (by decide) pre (renderF env fs (w - pre.length)) w
      have h2 := key (w - pre.length)
      simp only [List.length_append, List.length_cons, List.length_nil] at h1 ⊢
      omega
  | tuple ts ih =>
    have key : ∀ (w' : Option Int), (join (py", ") (oneLineL env ts)).length ≤ (join (py", ") (renderL env ts w')).length := by
      intro w'
      rw [oneLineL_map, renderL_eq]
      exact join_length_le _ _ _ _ fun f hf => (ih f hf).1 w'
    refine ⟨fun w => ?_, fun pre w => ?_⟩
    · cases w with
      | none =>
        rw [oneLine, render]
        have h2 := key none
        simp only [List.length_append] at h2 ⊢
        omega
      | some w =>
        rw [oneLine, render]
        have h1 := layout_length 40 41 (by decide) (by decide) [] (renderL env ts (some w)) w
        have h2 := key (some w)
        simp only [List.length_append, List.length_cons, List.length_nil] at h1 ⊢
        omega
    · rw [oneLine, renderDS]
      have h1 := layout_length 40 41 (by decide) (by decide) pre (renderL env ts (some (w - pre.length))) w
      have h2 := key (some (w - pre.length))
      simp only [List.length_append, List.length_cons, List.length_nil] at h1 ⊢
      omega
  | categorical c t o ih =>
    refine leaf _ (fun w => rfl) (fun _ _ => rfl) ?_
    rw [oneLine, render]
    have := ih.1 none; simp only [List.length_append]; omega
  | dshape ps ih =>
    have h0 : (oneLine env (.dshape ps)).length ≤ (render env (.dshape ps) none).length := by
      rw [oneLine, render, oneLineL_map, renderL_eq]
      exact join_length_le _ _ _ _ fun f hf => (ih f hf).1 none
    refine ⟨fun w => ?_, fun pre w => ?_⟩
    · cases w with
      | none => exact h0
      | some w =>
        rcases List.eq_nil_or_concat ps with rfl | ⟨dims, m, rfl⟩
        · rw [oneLine, oneLineL]; exact Nat.zero_le _
        · rw [List.concat_eq_append] at ih ⊢
          rw [oneLine_dshape, pprint_dshape]
          have h1 := (ih m (by simp)).2 (starred (dims.map fun d => render env d none)) w
          have h2 := starred_length (env := env) dims fun d hd => (ih d (by simp [hd])).1 none
          simp only [List.length_append]
          omega
    · have e : renderDS env [.dshape ps] pre w = pre ++ render env (.dshape ps) none := rfl
      rw [e, List.length_append]; omega
  | time z => exact leaf _ (fun w => by cases z <;> rfl) (fun _ _ => rfl) (Nat.le_refl _)
  | datetime z => exact leaf _ (fun w => by cases z <;> rfl) (fun _ _ => rfl) (Nat.le_refl _)
  | ellipsis z => exact leaf _ (fun w => by cases z <;> rfl) (fun _ _ => rfl) (Nat.le_refl _)
  | _ => exact leaf _ (fun w => rfl) (fun _ _ => rfl) (Nat.le_refl _)


theorem map_same {α β : Type} (f g : α → β) (l : List α) (h : ∀ x ∈ l, f x = g x) : l.map f = l.map g := List.map_congr_left h

theorem fits_aux (t : Ty) : (∀ w : Int, ((oneLine env t).length : Int) < w → (∀ s, ByStr t s → pyStr env s = oneLine env s) →
      render env t (some w) = oneLine env t) ∧
    (Breakable t → ∀ (pre : Str) (w : Int), (pre.length + (oneLine env t).length : Int) < w →
      (∀ s, ByStr t s → pyStr env s = oneLine env s) → renderDS env [t] pre w = pre ++ oneLine env t) := by
  have leaf : ∀ t : Ty, ¬ Breakable t → (∀ ps, t ≠ .dshape ps) → (∀ w, render env t w = render env t none) →
      (∀ w : Int, ((oneLine env t).length : Int) < w → (∀ s, ByStr t s → pyStr env s = oneLine env s) →
        render env t (some w) = oneLine env t) ∧
      (Breakable t → ∀ (pre : Str) (w : Int), (pre.length + (oneLine env t).length : Int) < w →
        (∀ s, ByStr t s → pyStr env s = oneLine env s) → renderDS env [t] pre w = pre ++ oneLine env t) := by
    intro t hb hd h
    refine ⟨fun w _ hs => ?_, fun h' => absurd h' hb⟩
    rw [h]; exact hs t (.self hb hd)
  induction t using Ty.ind with
  | record fs ih =>
    have key : ∀ (k : Int) (pre : Str), ((oneLine env (.record fs)).length : Int) < k →
        (∀ s, ByStr (.record fs) s → pyStr env s = oneLine env s) → renderF env fs k = oneLineF env fs := by
      intro k pre hk hs
      rw [oneLineF_map, renderF_eq]
      refine map_same _ _ _ fun f hf => ?_
      rw [(ih f hf).1 _ ?_ fun s h => hs s (.field hf h)]
      have h1 := join_mem_length (py", ") (oneLineF env fs) (fieldName env f.1 ++ py": " ++ oneLine env f.2)
        (by rw [oneLineF_map]; exact List.mem_map.2 ⟨f, hf, rfl⟩)
      have h2 := fieldName_length (env := env) f.1
      rw [oneLine] at hk
      simp only [List.length_append] at h1 hk
      omega
    have e : oneLine env (.record fs) = [123] ++ join (py", ") (oneLineF env fs) ++ [125] := by rw [oneLine]
    refine ⟨fun w hw hs => ?_, fun _ pre w hw hs => ?_⟩
    · rw [render, Option.getD_some, key w [] hw hs, layout_eq _ _ (by decide) (by decide), ← e, if_pos (by simpa using hw)]
      rfl
    · rw [renderDS, key (w - pre.length) pre (by omega) hs, layout_eq _ _ (by decide) (by decide), ← e,
        if_pos (by rw [List.length_append]; omega)]
  | tuple ts ih =>
    have key : ∀ (k : Int), ((oneLine env (.tuple ts)).length : Int) < k →
        (∀ s, ByStr (.tuple ts) s → pyStr env s = oneLine env s) → renderL env ts (some k) = oneLineL env ts := by
      intro k hk hs
      rw [oneLineL_map, renderL_eq]
      refine map_same _ _ _ fun f hf => ?_
      refine (ih f hf).1 _ ?_ fun s h => hs s (.component hf h)
      have h1 := join_mem_length (py", ") (oneLineL env ts) (oneLine env f)
        (by rw [oneLineL_map]; exact List.mem_map.2 ⟨f, hf, rfl⟩)
      rw [oneLine] at hk
      simp only [List.length_append] at h1 hk
      omega
    have e : oneLine env (.tuple ts) = [40] ++ join (py", ") (oneLineL env ts) ++ [41] := by rw [oneLine]
    refine ⟨fun w hw hs => ?_, fun _ pre w hw hs => ?_⟩
    · rw [render, key w hw hs, layout_eq _ _ (by decide) (by decide), ← e, if_pos (by simpa using hw)]
      rfl
    · rw [renderDS, key (w - pre.length) (by omega) hs, layout_eq _ _ (by decide) (by decide), ← e,
        if_pos (by rw [List.length_append]; omega)]
  | dshape ps ih =>
    refine ⟨fun w hw hs => ?_, fun h => by cases h⟩
    rcases List.eq_nil_or_concat ps with rfl | ⟨dims, m, rfl⟩
    · rfl
    · rw [List.concat_eq_append] at ih hw hs ⊢
      have hd : (dims.map fun d => render env d none) = dims.map (oneLine env) :=
        map_same _ _ _ fun d hd => hs d (.dimension hd)
      rw [oneLine_dshape] at hw ⊢
      rw [List.length_append] at hw
      rw [pprint_dshape, hd]
      by_cases hb : Breakable m
      · exact (ih m (by simp)).2 hb _ w (by omega) fun s h => hs s (.inside hb h)
      · have := hs m (.measure hb)
        rw [← this]
        cases m with
        | record fs => exact absurd (.record fs) hb
        | tuple ts => exact absurd (.tuple ts) hb
        | _ => rfl
  | time z => exact leaf _ (fun h => by cases h) (fun _ h => by cases h) fun w => by cases z <;> rfl
  | datetime z => exact leaf _ (fun h => by cases h) (fun _ h => by cases h) fun w => by cases z <;> rfl
  | ellipsis z => exact leaf _ (fun h => by cases h) (fun _ h => by cases h) fun w => by cases z <;> rfl
  | _ => exact leaf _ (fun h => by cases h) (fun _ h => by cases h) fun w => rfl

/-- What is shorter than the width is printed on one line, if no part that is printed with `str` is broken. -/
theorem C61.fits (env : Env) (t : Ty) (w : Int) (hw : ((oneLine env t).length : Int) < w)
    (hs : ∀ s, ByStr t s → pyStr env s = oneLine env s) : pprint env t w = oneLine env t := (fits_aux t).1 w hw hs

theorem byStr_inside {t s : Ty} (h : ByStr t s) : (s = t ∨ ∃ c ∈ t.children, Occurs s c) ∧
    (oneLine env s).length ≤ (oneLine env t).length := by
  induction h with
  | self => exact ⟨.inl rfl, Nat.le_refl _⟩
  | @field fs f s hf _ ih =>
    have h1 := join_mem_length (py", ") (oneLineF env fs) (fieldName env f.1 ++ py": " ++ oneLine env f.2)
        (by rw [oneLineF_map]; exact List.mem_map.2 ⟨f, hf, rfl⟩)
    refine ⟨.inr ⟨f.2, by simp only [Ty.children]; exact List.mem_map.2 ⟨f, hf, rfl⟩, ?_⟩, ?_⟩
    · rcases ih.1 with rfl | ⟨c, hc, h⟩
      · exact .refl _
      · exact .step hc h
    · rw [oneLine]
      simp only [List.length_append] at h1 ⊢
      omega
  | @component ts t s ht _ ih =>
    have h1 := join_mem_length (py", ") (oneLineL env ts) (oneLine env t)
        (by rw [oneLineL_map]; exact List.mem_map.2 ⟨t, ht, rfl⟩)
    refine ⟨.inr ⟨t, by simpa only [Ty.children] using ht, ?_⟩, ?_⟩
    · rcases ih.1 with rfl | ⟨c, hc, h⟩
      · exact .refl _
      · exact .step hc h
    · rw [oneLine]
      simp only [List.length_append] at h1 ⊢
      omega
  | @dimension dims m d hd =>
    refine ⟨.inr ⟨d, by simp [Ty.children, hd], .refl _⟩, ?_⟩
    rw [oneLine]
    exact join_mem_length _ _ _ (by rw [oneLineL_map]; exact List.mem_map.2 ⟨d, by simp [hd], rfl⟩)
  | @measure dims m _ =>
    refine ⟨.inr ⟨m, by simp [Ty.children], .refl _⟩, ?_⟩
    rw [oneLine]
    exact join_mem_length _ _ _ (by rw [oneLineL_map]; exact List.mem_map.2 ⟨m, by simp, rfl⟩)
  | @inside dims m s _ _ ih =>
    refine ⟨.inr ⟨m, by simp [Ty.children], ?_⟩, ?_⟩
    · rcases ih.1 with rfl | ⟨c, hc, h⟩
      · exact .refl _
      · exact .step hc h
    · refine Nat.le_trans ih.2 ?_
      rw [oneLine]
      exact join_mem_length _ _ _ (by rw [oneLineL_map]; exact List.mem_map.2 ⟨m, by simp, rfl⟩)

theorem oneLine_child {t c : Ty} (h : c ∈ t.children) (hu : ∀ u, t ≠ .units u c) (ht : ∀ o n, t ≠ .typeset o n) :
    (oneLine env c).length ≤ (oneLine env t).length := by
  cases t <;> simp only [Ty.children, List.not_mem_nil, List.mem_cons, or_false] at h
  case units u t => subst h; exact absurd rfl (hu u)
  case option t => subst h; rw [oneLine]; simp
  case map k v => rcases h with rfl | rfl <;> (rw [oneLine]; simp only [List.length_append]; omega)
  case func ps =>
    rw [oneLine, oneLineL_map]
    simp only [List.length_append]
    rcases List.eq_nil_or_concat ps with rfl | ⟨a, b, rfl⟩
    · cases h
    · rw [List.concat_eq_append] at h ⊢
      simp only [List.map_append, List.map_singleton, List.dropLast_concat, List.getLast?_append, List.getLast?_singleton]
      simp only [List.mem_append, List.mem_singleton] at h
      rcases h with h | rfl
      · have := join_mem_length (py", ") _ _ (List.mem_map.2 ⟨c, h, rfl⟩ : oneLine env c ∈ a.map (oneLine env))
        omega
      · simp
  case record fs =>
    obtain ⟨f, hf, rfl⟩ := List.mem_map.1 h
    have h1 := join_mem_length (py", ") (oneLineF env fs) (fieldName env f.1 ++ py": " ++ oneLine env f.2)
        (by rw [oneLineF_map]; exact List.mem_map.2 ⟨f, hf, rfl⟩)
    rw [oneLine]
    simp only [List.length_append] at h1 ⊢
    omega
  case tuple ts =>
    have h1 := join_mem_length (py", ") (oneLineL env ts) (oneLine env c)
        (by rw [oneLineL_map]; exact List.mem_map.2 ⟨c, h, rfl⟩)
    rw [oneLine]
    simp only [List.length_append] at h1 ⊢
    omega
  case categorical cs t o => subst h; rw [oneLine]; simp only [List.length_append]; omega
  case typeset o n => exact absurd rfl (ht o n)
  case dshape ps =>
    rw [oneLine]
    exact join_mem_length _ _ _ (by rw [oneLineL_map]; exact List.mem_map.2 ⟨c, h, rfl⟩)

/-- `str` of anything shorter than 80 characters is on one line. -/
theorem C61.str (env : Env) (t : Ty) (h : (oneLine env t).length < 80) : pyStr env t = oneLine env t := by
  have : ∀ t s : Ty, Occurs s t → (oneLine env s).length < 80 → pyStr env s = oneLine env s := by
    intro t
    induction t using Ty.ind_children with
    | h t ih =>
      intro s hs
      cases hs with
      | step hc hs => exact ih _ hc s hs
      | refl =>
        intro hl
        have sub : ∀ c ∈ t.children, (oneLine env c).length < 80 → render env c none = oneLine env c :=
          fun c hc h => ih c hc c (.refl c) h
        have child : ∀ c ∈ t.children, (∀ u, t ≠ .units u c) → (∀ o n, t ≠ .typeset o n) → render env c none = oneLine env c :=
          fun c hc h1 h2 => sub c hc (Nat.lt_of_le_of_lt (oneLine_child hc h1 h2) hl)
        cases t with
        | units u t =>
          rw [pyStr, render, oneLine]
          split
          · rfl
          · rename_i hq
            rw [sub t (by simp [Ty.children])]
            rw [oneLine, if_neg hq] at hl
            simp only [List.length_append] at hl
            omega
        | option t =>
          rw [pyStr, render, oneLine, child t (by simp [Ty.children]) (by simp) (by simp)]
        | map k v =>
          rw [pyStr, render, oneLine, child k (by simp [Ty.children]) (by simp) (by simp),
            child v (by simp [Ty.children]) (by simp) (by simp)]
        | func ps =>
          rw [pyStr, render, oneLine, renderInit_drop, renderLast_get, oneLineL_map,
            map_same _ _ ps fun c hc => child c (by simpa [Ty.children] using hc) (by simp) (by simp)]
        | categorical cs t o =>
          rw [pyStr, render, oneLine, child t (by simp [Ty.children]) (by simp) (by simp)]
        | record fs =>
          have := (fits_aux (env := env) (.record fs)).1 80 (by omega) fun s hs => by
            obtain ⟨h1, h2⟩ := byStr_inside (env := env) hs
            rcases h1 with rfl | ⟨c, hc, h1⟩
            · cases hs with
              | self h => exact absurd (.record _) h
              | @field _ f _ hf h =>
                have := byStr_inside (env := env) h
                rcases this.1 with e | ⟨c, hc, ho⟩
                · exact ih f.2 (by simp only [Ty.children]; exact List.mem_map.2 ⟨f, hf, rfl⟩) _ (by rw [← e]; exact .refl _) hl
                · exact ih f.2 (by simp only [Ty.children]; exact List.mem_map.2 ⟨f, hf, rfl⟩) _ (.step hc ho) hl
            · exact ih c hc s h1 (by omega)
          rw [← this, pyStr, render, render]; rfl
        | tuple ts =>
          rw [pyStr, render, oneLine, renderL_eq, oneLineL_map,
            map_same _ _ ts fun c hc => child c (by simpa [Ty.children] using hc) (by simp) (by simp)]
        | dshape ps =>
          rw [pyStr, render, oneLine, renderL_eq, oneLineL_map,
            map_same _ _ ps fun c hc => child c (by simpa [Ty.children] using hc) (by simp) (by simp)]
        | _ => rfl
  exact this t t (.refl t) h

/-- So a datashape of fewer than 80 characters, and fewer than the width, is printed on one line. -/
theorem C61.short (env : Env) (t : Ty) (w : Int) (h80 : (oneLine env t).length < 80) (hw : ((oneLine env t).length : Int) < w) :
    pprint env t w = oneLine env t :=
  C61.fits env t w hw fun s h => C61.str env s (Nat.lt_of_le_of_lt (byStr_inside h).2 h80)

/-- A record type that is not shorter than the width is broken: one field per line, and each field is printed with the
width that remains beside its name. -/
theorem C61.record (env : Env) (fs : List (Str × Ty)) (w : Int) (hw : w ≤ (oneLine env (.record fs)).length) :
    pprint env (.record fs) w = broken (py"{") (py"}")
      (fs.map fun f => fieldName env f.1 ++ py": " ++ pprint env f.2 (w - f.1.length)) := by
  rw [pprint, render, Option.getD_some, layout_eq _ _ (by decide) (by decide), if_neg, renderF_eq]
  · rfl
  · have : (join (py", ") (oneLineF env fs)).length ≤ (join (py", ") (renderF env fs w)).length := by
      rw [oneLineF_map, renderF_eq]
      refine join_length_le _ _ _ _ fun f _ => ?_
      have := (oneLine_length (env := env) f.2).1 (some (w - f.1.length))
      simp only [List.length_append]; omega
    rw [oneLine] at hw
    simp only [List.length_append, List.length_cons, List.length_nil] at hw ⊢
    omega

/-- So is a tuple type. -/
theorem C61.tuple (env : Env) (ts : List Ty) (w : Int) (hw : w ≤ (oneLine env (.tuple ts)).length) :
    pprint env (.tuple ts) w = broken (py"(") (py")") (ts.map fun t => pprint env t w) := by
  rw [pprint, render, layout_eq _ _ (by decide) (by decide), if_neg, renderL_eq]
  · rfl
  · have : (join (py", ") (oneLineL env ts)).length ≤ (join (py", ") (renderL env ts (some w))).length := by
      rw [oneLineL_map, renderL_eq]
      exact join_length_le _ _ _ _ fun f _ => (oneLine_length (env := env) f).1 (some w)
    rw [oneLine] at hw
    simp only [List.length_append, List.length_cons, List.length_nil] at hw ⊢
    omega

/-- An array of records that is not shorter than the width: the dimensions, and the record broken, its fields printed with
the width that remains beside the dimensions and the name. -/
theorem C61.records (env : Env) (dims : List Ty) (fs : List (Str × Ty)) (w : Int)
    (hw : w ≤ (oneLine env (.dshape (dims ++ [.record fs]))).length) :
    ∃ pre, pre = starred (dims.map (pyStr env)) ∧ pprint env (.dshape (dims ++ [.record fs])) w = pre ++ broken (py"{") (py"}")
      (fs.map fun f => fieldName env f.1 ++ py": " ++ pprint env f.2 (w - pre.length - f.1.length)) := by
  refine ⟨_, rfl, ?_⟩
  rw [pprint, pprint_dshape, renderDS, layout_eq _ _ (by decide) (by decide), if_neg, renderF_eq]
  · rfl
  · have h1 := starred_length (env := env) dims fun d _ => (oneLine_length d).1 none
    have h2 : ∀ k, (join (py", ") (oneLineF env fs)).length ≤ (join (py", ") (renderF env fs k)).length := by
      intro k
      rw [oneLineF_map, renderF_eq]
      refine join_length_le _ _ _ _ fun f _ => ?_
      have := (oneLine_length (env := env) f.2).1 (some (k - f.1.length))
      simp only [List.length_append]; omega
    have h2 := h2 (w - (starred (dims.map fun d => render env d none)).length)
    rw [oneLine_dshape, oneLine] at hw
    simp only [List.length_append, List.length_cons, List.length_nil] at hw ⊢
    omega

/-- And an array of tuples. -/
theorem C61.tuples (env : Env) (dims : List Ty) (ts : List Ty) (w : Int)
    (hw : w ≤ (oneLine env (.dshape (dims ++ [.tuple ts]))).length) :
    ∃ pre, pre = starred (dims.map (pyStr env)) ∧ pprint env (.dshape (dims ++ [.tuple ts])) w = pre ++ broken (py"(") (py")")
      (ts.map fun t => pprint env t (w - pre.length)) := by
  refine ⟨_, rfl, ?_⟩
  rw [pprint, pprint_dshape, renderDS, layout_eq _ _ (by decide) (by decide), if_neg, renderL_eq]
  · rfl
  · have h1 := starred_length (env := env) dims fun d _ => (oneLine_length d).1 none
    have h2 : ∀ k, (join (py", ") (oneLineL env ts)).length ≤ (join (py", ") (renderL env ts (some k))).length := by
      intro k
      rw [oneLineL_map, renderL_eq]
      exact join_length_le _ _ _ _ fun f _ => (oneLine_length (env := env) f).1 (some k)
    have h2 := h2 (w - (starred (dims.map fun d => render env d none)).length)
    rw [oneLine_dshape, oneLine] at hw
    simp only [List.length_append, List.length_cons, List.length_nil] at hw ⊢
    omega

/-- Everything else is printed as `str` prints it, at every width. -/
theorem C61.other (env : Env) (t : Ty) (w : Int) (h : ¬ Breakable t) (hd : ∀ ps, t ≠ .dshape ps) : pprint env t w = pyStr env t := by
  cases t with
  | record fs => exact absurd (.record fs) h
  | tuple ts => exact absurd (.tuple ts) h
  | dshape ps => exact absurd rfl (hd ps)
  | time z => cases z <;> rfl
  | datetime z => cases z <;> rfl
  | ellipsis z => cases z <;> rfl
  | _ => rfl

/-- So are arrays of such measures. -/
theorem C61.others (env : Env) (dims : List Ty) (m : Ty) (w : Int) (h : ¬ Breakable m) :
    pprint env (.dshape (dims ++ [m])) w = pyStr env (.dshape (dims ++ [m])) := by
  rw [pprint, pprint_dshape, pyStr, str_dshape]
  cases m with
  | record fs => exact absurd (.record fs) h
  | tuple ts => exact absurd (.tuple ts) h
  | _ => rfl

/-- `str` breaks a record type of 80 characters or more as `pprint` does. -/
theorem C61.str_record (env : Env) (fs : List (Str × Ty)) : pyStr env (.record fs) = pprint env (.record fs) 80 := rfl

/-- `5 * {a: int32, b: ?string}` needs 26 characters: it is printed on one line from width 27 on. -/
theorem C61.examples (env : Env) :
    oneLine env (.dshape [.fixed 5, .record [(py"a", tInt32), (py"b", .option tString)]]) = py"5 * {a: int32, b: ?string}" ∧
    pprint env (.dshape [.fixed 5, .record [(py"a", tInt32), (py"b", .option tString)]]) 27 = py"5 * {a: int32, b: ?string}" ∧
    pprint env (.dshape [.fixed 5, .record [(py"a", tInt32), (py"b", .option tString)]]) 26 =
      py"5 * {" ++ [10] ++ py"  a: int32," ++ [10] ++ py"  b: ?string" ++ [10] ++ py"  }" := by
  refine ⟨rfl, rfl, rfl⟩

end DS
