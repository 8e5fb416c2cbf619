import Verif.Spec.StrDiscovery
import Verif.Proofs.Strings

namespace DS

theorem splitWs_ne (t : Str) : splitWs t ≠ [] := by
  induction t with
  | nil => simp [splitWs]
  | cons c r ih =>
    rw [splitWs]
    split
    · split
      · exact ih
      · simp
    · cases splitWs r <;> simp [consHead]

theorem splitWs_step : ∀ (t v : Str) (ws : List Str), splitWs t = v :: ws →
    (∀ c ∈ v, isSpace c = false) ∧ (ws = [] → t = v) ∧
    (ws ≠ [] → ∃ b t', AllSpace b ∧ b ≠ [] ∧ t = v ++ b ++ t' ∧ splitWs t' = ws) := by
  intro t
  induction t with
  | nil =>
    intro v ws h
    simp only [splitWs, List.cons.injEq] at h
    obtain ⟨rfl, rfl⟩ := h
    simp
  | cons c r ih =>
    intro v ws h
    rw [splitWs] at h
    by_cases hc : isSpace c = true
    · rw [if_pos hc] at h
      by_cases hd : startsSpace r = true
      · rw [if_pos hd] at h
        obtain ⟨d, r', rfl⟩ : ∃ d r', r = d :: r' := by
          cases r with
          | nil => cases hd
          | cons d r' => exact ⟨d, r', rfl⟩
        obtain ⟨h1, h2, h3⟩ := ih v ws h
        have hv : v = [] ∧ ws ≠ [] := by
          by_cases hw : ws = []
          · have := h2 hw
            rw [← this] at h1
            have := h1 d (by simp)
            rw [show isSpace d = true from hd] at this; cases this
          · obtain ⟨b, t', hb, hb', e, _⟩ := h3 hw
            refine ⟨?_, hw⟩
            cases v with
            | nil => rfl
            | cons x v =>
              simp only [List.cons_append, List.cons.injEq] at e
              have := h1 x (by simp)
              rw [← e.1, show isSpace d = true from hd] at this; cases this
        obtain ⟨rfl, hw⟩ := hv
        obtain ⟨b, t', hb, hb', e, hs⟩ := h3 hw
        refine ⟨by simp, fun e => absurd e hw, fun _ => ⟨c :: b, t', ?_, by simp, ?_, hs⟩⟩
        · intro x hx
          rcases List.mem_cons.1 hx with rfl | hx
          · exact hc
          · exact hb x hx
        · simpa using e
      · rw [if_neg hd] at h
        simp only [List.cons.injEq] at h
        obtain ⟨rfl, rfl⟩ := h
        refine ⟨by simp, fun e => absurd e (splitWs_ne r), fun _ => ⟨[c], r, ?_, by simp, by simp, rfl⟩⟩
        intro x hx; rw [List.mem_singleton.1 hx]; exact hc
    · rw [if_neg hc] at h
      cases hs : splitWs r with
      | nil => exact absurd hs (splitWs_ne r)
      | cons w ws' =>
        rw [hs] at h
        simp only [consHead, List.cons.injEq] at h
        obtain ⟨rfl, rfl⟩ := h
        obtain ⟨h1, h2, h3⟩ := ih w ws' hs
        refine ⟨?_, fun e => by rw [h2 e], fun e => ?_⟩
        · intro x hx
          rcases List.mem_cons.1 hx with rfl | hx
          · simpa using hc
          · exact h1 x hx
        · obtain ⟨b, t', hb, hb', e', hs'⟩ := h3 e
          exact ⟨b, t', hb, hb', by simp [e'], hs'⟩

theorem splitWs_word {w : Str} (h : ∀ c ∈ w, isSpace c = false) : splitWs w = [w] := by
  induction w with
  | nil => rfl
  | cons c r ih =>
    rw [splitWs, if_neg (by simp [h c (by simp)]), ih fun x hx => h x (by simp [hx])]; rfl

theorem splitWs_gap {b t : Str} (hb : AllSpace b) (hne : b ≠ []) (ht : ∀ c, t.head? = some c → isSpace c = false) :
    splitWs (b ++ t) = [] :: splitWs t := by
  induction b with
  | nil => exact absurd rfl hne
  | cons c r ih =>
    rw [List.cons_append, splitWs, if_pos (hb c (by simp))]
    cases r with
    | nil =>
      rw [List.nil_append, if_neg]
      cases t with
      | nil => simp [startsSpace]
      | cons d t => simp [startsSpace, ht d rfl]
    | cons d r =>
      rw [if_pos (show startsSpace (d :: r ++ t) = true from hb d (by simp))]
      exact ih (fun x hx => hb x (List.mem_cons_of_mem _ hx)) (by simp)

theorem splitWs_append {v t : Str} (hv : ∀ c ∈ v, isSpace c = false) {u : Str} {ws : List Str} (h : splitWs t = u :: ws) :
    splitWs (v ++ t) = (v ++ u) :: ws := by
  induction v with
  | nil => exact h
  | cons c r ih =>
    rw [List.cons_append, splitWs, if_neg (by simp [hv c (by simp)]), ih fun x hx => hv x (by simp [hx])]
    rfl

theorem IsWord.head {w : Str} (h : IsWord w) : ∀ c, w.head? = some c → isSpace c = false :=
  fun _ hc => h.2 _ (List.mem_of_mem_head? hc)

theorem IsWord.last {w : Str} (h : IsWord w) : ∀ c, w.getLast? = some c → isSpace c = false :=
  fun _ hc => h.2 _ (List.mem_of_mem_getLast? hc)

/-- the pieces of a stripped text are two exactly when it consists of two words -/
theorem split_two (s v w : Str) : splitWs (strip s) = [v, w] ↔ TwoWords s v w := by
  constructor
  · intro h
    obtain ⟨a, c, hs, ha, hc, ht⟩ := strip_spec s
    obtain ⟨h1, _, h3⟩ := splitWs_step _ _ _ h
    obtain ⟨b, t', hb, hb', e, hs'⟩ := h3 (by simp)
    obtain ⟨h4, h5, _⟩ := splitWs_step _ _ _ hs'
    have e' := h5 rfl
    subst e'
    refine ⟨⟨?_, h1⟩, ⟨?_, h4⟩, a, b, c, ha, hb, hc, hb', ?_⟩
    · rintro rfl
      cases b with
      | nil => exact hb' rfl
      | cons x b =>
        have := ht.1 x (by rw [e]; rfl)
        rw [hb x (by simp)] at this; cases this
    · rintro rfl
      obtain ⟨x, hx⟩ : ∃ x, b.getLast? = some x := by
        cases hg : b.getLast? with
        | none => exact absurd (List.getLast?_eq_none_iff.1 hg) hb'
        | some x => exact ⟨x, rfl⟩
      have := ht.2 x (by rw [e, List.append_nil, List.getLast?_append, hx]; rfl)
      rw [hb x (List.mem_of_mem_getLast? hx)] at this; cases this
    · conv => lhs; rw [hs, e]
      simp [List.append_assoc]
  · rintro ⟨hv, hw, a, b, c, ha, hb, hc, hb', rfl⟩
    have ht : Trimmed (v ++ b ++ w) := by
      constructor
      · intro x hx
        obtain ⟨y, v', rfl⟩ : ∃ y v', v = y :: v' := by
          cases v with
          | nil => exact absurd rfl hv.1
          | cons y v' => exact ⟨y, v', rfl⟩
        simp only [List.cons_append, List.head?_cons, Option.some.injEq] at hx
        subst hx
        exact hv.2 y (by simp)
      · intro x hx
        rw [List.getLast?_append] at hx
        cases hg : w.getLast? with
        | none => exact absurd (List.getLast?_eq_none_iff.1 hg) hw.1
        | some y =>
          rw [hg] at hx
          simp only [Option.some_or, Option.some.injEq] at hx
          subst hx
          exact hw.last _ hg
    have hst : strip (a ++ v ++ b ++ w ++ c) = v ++ b ++ w := by
      have := strip_trim ha hc ht
      rw [← this]; simp [List.append_assoc]
    rw [hst, List.append_assoc]
    have h1 : splitWs (b ++ w) = [] :: [w] := by rw [splitWs_gap hb hb' hw.head, splitWs_word hw.2]
    have := splitWs_append hv.2 h1
    simpa using this

theorem TwoWords.unique {s v w v' w' : Str} (h : TwoWords s v w) (h' : TwoWords s v' w') : v = v' ∧ w = w' := by
  have e := (split_two _ _ _).2 h
  rw [(split_two _ _ _).2 h'] at e
  simp only [List.cons.injEq, and_true] at e
  exact ⟨e.1.symm, e.2.symm⟩

/-- `normalize_time_unit` of a word raises `IndexError` exactly for three or more `s` -/
theorem normalize_index {w : Str} (hw : IsWord w) :
    normalizeTimeUnit w = .error .indexError ↔ ∃ k, w = List.replicate (k + 3) 115 := by
  have ht : Trimmed w := ⟨hw.head, hw.last⟩
  have hs : strip w = w := strip_self ht
  constructor
  · intro h
    rw [normalize_eq, hs] at h
    split at h
    · cases h
    · split at h
      · cases h
      · cases hg : w.getLast? with
        | none => exact absurd (List.getLast?_eq_none_iff.1 hg) hw.1
        | some c =>
          rw [hg] at h
          simp only at h
          split at h
          · rename_i hc
            -- after the trailing `s` nothing may be left
            have hsub : ∀ c ∈ rstripS w, isSpace c = false := by
              intro c hc
              refine hw.2 c ?_
              have hc' : c ∈ w.reverse.dropWhile (· == 115) := by simpa [rstripS] using hc
              have e := (split_while (· == 115) w.reverse).1
              have : c ∈ w.reverse := by rw [e]; exact List.mem_append_right _ hc'
              simpa using this
            by_cases hr : rstripS w = []
            · have : ∀ c ∈ w, c = 115 := by
                intro c hc
                have h0 : w.reverse.dropWhile (· == 115) = [] := by simpa [rstripS] using hr
                have := (split_while (· == 115) w.reverse).2
                rw [show w.reverse.takeWhile (· == 115) = w.reverse by
                  conv => rhs; rw [← List.takeWhile_append_dropWhile (p := (· == 115)) (l := w.reverse), h0, List.append_nil]] at this
                simpa using this c (by simpa using hc)
              have e := List.eq_replicate_iff.2 ⟨rfl, this⟩
              exact ⟨w.length - 3, by rw [show w.length - 3 + 3 = w.length by omega]; exact e⟩
            · -- the rest does not end in `s`, so it raises `ValueError` if anything
              exfalso
              rw [normalize_eq, strip_self ⟨fun c hc => hsub c (List.mem_of_mem_head? hc), fun c hc => hsub c (List.mem_of_mem_getLast? hc)⟩] at h
              split at h
              · cases h
              · split at h
                · cases h
                · cases hg' : (rstripS w).getLast? with
                  | none => exact hr (List.getLast?_eq_none_iff.1 hg')
                  | some c' =>
                    rw [hg'] at h
                    simp only at h
                    have : c' ≠ 115 := by
                      intro hc'
                      have := dropWhile_head_false (p := (· == 115)) w.reverse c' (by
                        rw [← List.getLast?_reverse]; simpa [rstripS] using hg')
                      simp [hc'] at this
                    rw [if_neg (fun hh => this hh.1)] at h
                    cases h
          · cases h
  · rintro ⟨k, rfl⟩
    have hlast : (List.replicate (k + 3) 115).getLast? = some 115 := by
      rw [List.replicate_succ', List.getLast?_append]; rfl
    have hu : List.replicate (k + 3) 115 ∉ timeUnits := by
      intro h
      have : ∀ u ∈ timeUnits, u.length ≤ 2 := by decide
      have := this _ h
      rw [List.length_replicate] at this
      omega
    have hl : unitAliases.lookup (List.replicate (k + 3) 115) = none := by
      cases hl : unitAliases.lookup (List.replicate (k + 3) 115) with
      | none => rfl
      | some u =>
        have hm : (List.replicate (k + 3) 115, u) ∈ unitAliases := by
          have := List.lookup_eq_some_iff.1 hl
          obtain ⟨a, b, e, _⟩ := this
          rw [e]; simp
        have : ∀ p ∈ unitAliases, p.1.getLast? ≠ some 115 := by decide
        exact absurd hlast (this _ hm)
    have hr : rstripS (List.replicate (k + 3) 115) = [] := by
      unfold rstripS
      rw [List.reverse_replicate]
      have : ∀ n, (List.replicate n 115).dropWhile (· == 115) = [] := by
        intro n
        induction n with
        | zero => rfl
        | succ n ih => rw [List.replicate_succ, List.dropWhile]; simpa using ih
      rw [this]; rfl
    rw [normalize_eq, hs, if_neg hu, hl, hlast]
    show (if 115 = 115 ∧ (List.replicate (k + 3) 115).length > 2 then _ else _) = _
    rw [if_pos ⟨rfl, by simp⟩, hr, normalize_eq]
    rfl

end DS
