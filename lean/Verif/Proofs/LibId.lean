import Verif.Model.LibId
import Verif.Numbers
/-!
# Library identifiers: what the two regular expressions match
-/
namespace Kiutils

theorem groupEnd_some {p : Char → Bool} {s g : Str} (h : groupEnd p s = some g) :
    g ≠ [] ∧ (∀ c ∈ g, p c = true) ∧ (s = g ∨ s = g ++ ['\n']) := by
  induction s generalizing g with
  | nil => simp [groupEnd] at h
  | cons c r ih =>
    rw [groupEnd] at h
    split at h
    · simp at h
    · rename_i hc
      split at h
      · rename_i hr
        simp only [Option.some.injEq] at h
        subst h
        simp at hc hr
        refine ⟨by simp, by simp [hc], ?_⟩
        rcases hr with rfl | rfl
        · exact .inl rfl
        · exact .inr rfl
      · simp only [Option.map_eq_some_iff] at h
        obtain ⟨g', hg, rfl⟩ := h
        obtain ⟨-, h2, h3⟩ := ih hg
        simp at hc
        refine ⟨by simp, ?_, ?_⟩
        · intro d hd
          rcases List.mem_cons.mp hd with rfl | hd
          · exact hc
          · exact h2 d hd
        · rcases h3 with rfl | rfl
          · exact .inl rfl
          · exact .inr rfl

theorem groupEnd_all {p : Char → Bool} {s : Str} (hnl : p '\n' = false) (h0 : s ≠ []) (h : ∀ c ∈ s, p c = true) :
    groupEnd p s = some s := by
  induction s with
  | nil => exact absurd rfl h0
  | cons c r ih =>
    rw [groupEnd]
    have hc : p c = true := h c (by simp)
    simp only [hc, Bool.not_true, Bool.false_eq_true, if_false]
    cases r with
    | nil => rfl
    | cons d r =>
      have hd : d ≠ '\n' := by intro e; have := h d (by simp); rw [e, hnl] at this; cases this
      have := ih (by simp) (fun x hx => h x (by simp [hx]))
      have hne : ((d :: r) == ([] : Str) || (d :: r) == ['\n']) = false := by simp [hd]
      rw [hne, this]
      rfl

/-- `nick:entry` is split at its first colon that is not at the start. -/
theorem matchNick_mk {n e : Str} (hn : n ≠ []) (hc : ':' ∉ n.drop 1) (hl : '\n' ∉ n) (he : e ≠ []) (hle : '\n' ∉ e) :
    matchNick (n ++ ':' :: e) = some (n, e) := by
  have key : ∀ (n pre : Str), ':' ∉ n → '\n' ∉ n → pre ++ n ≠ [] → matchNickAux pre (n ++ ':' :: e) = some (pre ++ n, e) := by
    intro n
    induction n with
    | nil =>
      intro pre _ _ hp
      rw [List.append_nil] at hp
      have : groupEnd notNl e = some e := groupEnd_all rfl he (fun c hc => by
        simp only [notNl, bne_iff_ne]; rintro rfl; exact hle hc)
      simp [matchNickAux, hp, this]
    | cons c n ih =>
      intro pre h1 h2 _
      simp only [List.mem_cons, not_or] at h1 h2
      have hc1 : c ≠ ':' := fun e => h1.1 e.symm
      have hc2 : notNl c = true := by simp only [notNl, bne_iff_ne]; exact fun e => h2.1 e.symm
      simp only [List.cons_append, matchNickAux, hc1, and_false, if_false, hc2, if_true]
      rw [ih (pre ++ [c]) h1.2 h2.2 (by simp)]
      simp
  cases n with
  | nil => exact absurd rfl hn
  | cons c n =>
    simp only [List.mem_cons, not_or] at hl
    have hc2 : notNl c = true := by simp only [notNl, bne_iff_ne]; exact fun e => hl.1 e.symm
    simp only [matchNick, List.cons_append, matchNickAux, ne_eq, not_true_eq_false, false_and, if_false, hc2, if_true]
    simpa using key n [c] hc hl.2 (by simp)

/-- What `^(.+?):(.+?)$` matches. -/
theorem matchNick_some {s n e : Str} (h : matchNick s = some (n, e)) :
    n ≠ [] ∧ '\n' ∉ n ∧ e ≠ [] ∧ '\n' ∉ e ∧ (s = n ++ ':' :: e ∨ s = n ++ ':' :: (e ++ ['\n'])) := by
  have key : ∀ (s pre : Str), '\n' ∉ pre → matchNickAux pre s = some (n, e) →
      n ≠ [] ∧ '\n' ∉ n ∧ e ≠ [] ∧ '\n' ∉ e ∧ (pre ++ s = n ++ ':' :: e ∨ pre ++ s = n ++ ':' :: (e ++ ['\n'])) := by
    intro s
    induction s with
    | nil => intro pre _ h; simp [matchNickAux] at h
    | cons c r ih =>
      intro pre hp h
      rw [matchNickAux] at h
      split at h
      · rename_i g hg
        simp only [Option.some.injEq, Prod.mk.injEq] at h
        obtain ⟨rfl, rfl⟩ := h
        split at hg
        · rename_i hc
          obtain ⟨h1, rfl⟩ := hc
          obtain ⟨a, b, c⟩ := groupEnd_some hg
          refine ⟨h1, hp, a, ?_, ?_⟩
          · intro hn; have := b _ hn; simp [notNl] at this
          · rcases c with rfl | rfl
            · exact .inl rfl
            · exact .inr rfl
        · simp at hg
      · split at h
        · rename_i hc
          have := ih (pre ++ [c]) (by
            simp only [notNl, bne_iff_ne] at hc
            simp only [List.mem_append, List.mem_singleton, not_or]
            exact ⟨hp, fun e => hc e.symm⟩) h
          simpa using this
        · simp at h
  simpa using key s [] (by simp) h

theorem matchNick_none {s : Str} (h : ':' ∉ (s.drop 1).dropLast) : matchNick s = none := by
  cases hm : matchNick s with
  | none => rfl
  | some p =>
    obtain ⟨h1, -, h3, -, hs⟩ := matchNick_some (n := p.1) (e := p.2) hm
    obtain ⟨n, e⟩ := p
    simp only at h1 h3 hs
    cases n with
    | nil => exact absurd rfl h1
    | cons c n =>
      have key : ∀ x : Str, x ≠ [] → ':' ∈ ((c :: n ++ ':' :: x).drop 1).dropLast := by
        intro x hx
        simp only [List.cons_append, List.drop_one, List.tail_cons]
        rw [List.dropLast_append_of_ne_nil (by simp), List.dropLast_cons_of_ne_nil hx]
        simp
      rcases hs with rfl | rfl
      · exact absurd (key e h3) h
      · exact absurd (key _ (by simp)) h

theorem matchIds_mk {u v : Str} (hu : u ≠ []) (hu' : ∀ c ∈ u, isDigit c = true) (hv : v ≠ []) (hv' : ∀ c ∈ v, isDigit c = true) :
    matchIdsAux [] (u ++ '_' :: v) = some (u, v) := by
  have key : ∀ (u pre : Str), (∀ c ∈ u, isDigit c = true) → pre ++ u ≠ [] →
      matchIdsAux pre (u ++ '_' :: v) = some (pre ++ u, v) := by
    intro u
    induction u with
    | nil =>
      intro pre _ hp
      rw [List.append_nil] at hp
      have : groupEnd isDigit v = some v := groupEnd_all (by decide) hv hv'
      simp [matchIdsAux, hp, this]
    | cons c u ih =>
      intro pre h1 _
      have hc : isDigit c = true := h1 c (by simp)
      have hc1 : c ≠ '_' := by rintro rfl; revert hc; decide
      simp only [List.cons_append, matchIdsAux, hc1, and_false, if_false, hc, if_true]
      rw [ih (pre ++ [c]) (fun d hd => h1 d (by simp [hd])) (by simp)]
      simp
  simpa using key u [] hu' (by simpa using hu)

theorem matchIds_some {s u v : Str} (h : matchIdsAux [] s = some (u, v)) :
    u ≠ [] ∧ (∀ c ∈ u, isDigit c = true) ∧ v ≠ [] ∧ (∀ c ∈ v, isDigit c = true) ∧
      (s = u ++ '_' :: v ∨ s = u ++ '_' :: (v ++ ['\n'])) := by
  have key : ∀ (s pre : Str), (∀ c ∈ pre, isDigit c = true) → matchIdsAux pre s = some (u, v) →
      u ≠ [] ∧ (∀ c ∈ u, isDigit c = true) ∧ v ≠ [] ∧ (∀ c ∈ v, isDigit c = true) ∧
      (pre ++ s = u ++ '_' :: v ∨ pre ++ s = u ++ '_' :: (v ++ ['\n'])) := by
    intro s
    induction s with
    | nil => intro pre _ h; simp [matchIdsAux] at h
    | cons c r ih =>
      intro pre hp h
      rw [matchIdsAux] at h
      split at h
      · rename_i g hg
        simp only [Option.some.injEq, Prod.mk.injEq] at h
        obtain ⟨rfl, rfl⟩ := h
        split at hg
        · rename_i hc
          obtain ⟨h1, rfl⟩ := hc
          obtain ⟨a, b, c⟩ := groupEnd_some hg
          refine ⟨h1, hp, a, b, ?_⟩
          rcases c with rfl | rfl
          · exact .inl rfl
          · exact .inr rfl
        · simp at hg
      · split at h
        · rename_i hc
          have := ih (pre ++ [c]) (by
            intro d hd
            rcases List.mem_append.mp hd with hd | hd
            · exact hp d hd
            · rw [List.mem_singleton.mp hd]; exact hc) h
          simpa using this
        · simp at h
  simpa using key s [] (by simp) h

/-- What `^(.+?)_(\d+?)_(\d+?)$` matches. -/
theorem matchUnit_some {s e u v : Str} (h : matchUnit s = some (e, u, v)) :
    e ≠ [] ∧ '\n' ∉ e ∧ u ≠ [] ∧ (∀ c ∈ u, isDigit c = true) ∧ v ≠ [] ∧ (∀ c ∈ v, isDigit c = true) ∧
      (s = e ++ '_' :: (u ++ '_' :: v) ∨ s = e ++ '_' :: (u ++ '_' :: (v ++ ['\n']))) := by
  have key : ∀ (s pre : Str), '\n' ∉ pre → matchUnitAux pre s = some (e, u, v) →
      e ≠ [] ∧ '\n' ∉ e ∧ u ≠ [] ∧ (∀ c ∈ u, isDigit c = true) ∧ v ≠ [] ∧ (∀ c ∈ v, isDigit c = true) ∧
      (pre ++ s = e ++ '_' :: (u ++ '_' :: v) ∨ pre ++ s = e ++ '_' :: (u ++ '_' :: (v ++ ['\n']))) := by
    intro s
    induction s with
    | nil => intro pre _ h; simp [matchUnitAux] at h
    | cons c r ih =>
      intro pre hp h
      rw [matchUnitAux] at h
      split at h
      · rename_i g g' hg
        simp only [Option.some.injEq, Prod.mk.injEq] at h
        obtain ⟨rfl, rfl, rfl⟩ := h
        split at hg
        · rename_i hc
          obtain ⟨h1, rfl⟩ := hc
          obtain ⟨a, b, c, d, f⟩ := matchIds_some hg
          refine ⟨h1, hp, a, b, c, d, ?_⟩
          rcases f with rfl | rfl
          · exact .inl rfl
          · exact .inr rfl
        · simp at hg
      · split at h
        · rename_i hc
          have := ih (pre ++ [c]) (by
            simp only [notNl, bne_iff_ne] at hc
            simp only [List.mem_append, List.mem_singleton, not_or]
            exact ⟨hp, fun e => hc e.symm⟩) h
          simpa using this
        · simp at h
  simpa using key s [] (by simp) h

theorem us_notMem {u : Str} (hu : ∀ c ∈ u, isDigit c = true) : '_' ∉ u := by
  intro h
  have := hu _ h
  revert this; decide

theorem matchUnit_mk {e u v : Str} (he : e ≠ []) (hl : '\n' ∉ e) (hu : u ≠ []) (hu' : ∀ c ∈ u, isDigit c = true) (hv : v ≠ [])
    (hv' : ∀ c ∈ v, isDigit c = true) : matchUnit (e ++ '_' :: (u ++ '_' :: v)) = some (e, u, v) := by
  have key : ∀ (e pre : Str), '\n' ∉ e → pre ++ e ≠ [] →
      matchUnitAux pre (e ++ '_' :: (u ++ '_' :: v)) = some (pre ++ e, u, v) := by
    intro e
    induction e with
    | nil =>
      intro pre _ hp
      rw [List.append_nil] at hp
      simp [matchUnitAux, hp, matchIds_mk hu hu' hv hv']
    | cons c e ih =>
      intro pre h1 _
      simp only [List.mem_cons, not_or] at h1
      have hc2 : notNl c = true := by simp only [notNl, bne_iff_ne]; exact fun e => h1.1 e.symm
      have hno : ∀ p, matchIdsAux [] (e ++ '_' :: (u ++ '_' :: v)) ≠ some p := by
        intro p hm
        obtain ⟨-, h2, -, h4, hs⟩ := matchIds_some (u := p.1) (v := p.2) hm
        have c1 : (e ++ '_' :: (u ++ '_' :: v)).count '_' ≥ 2 := by
          simp only [List.count_append, List.count_cons_self]; omega
        have z1 : p.1.count '_' = 0 := List.count_eq_zero.mpr (us_notMem h2)
        have z2 : p.2.count '_' = 0 := List.count_eq_zero.mpr (us_notMem h4)
        rcases hs with hs | hs <;> rw [hs] at c1 <;> simp [z1, z2, List.count_append] at c1
      simp only [List.cons_append, matchUnitAux, hc2, if_true]
      have : (if pre ≠ [] ∧ c = '_' then matchIdsAux [] (e ++ '_' :: (u ++ '_' :: v)) else none) = none := by
        split
        · exact Option.eq_none_iff_forall_ne_some.mpr hno
        · rfl
      rw [this]
      simp only []
      rw [ih (pre ++ [c]) h1.2 (by simp)]
      simp
  simpa [matchUnit] using key e [] hl (by simpa using he)

end Kiutils
