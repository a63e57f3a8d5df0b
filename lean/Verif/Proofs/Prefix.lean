import Verif.Props.Text
import Verif.Texts
/-!
# The tokens of the beginning of a text

`lex_prefix`: the tokens of a prefix are the first tokens of the text, except for a token that is cut.
-/
namespace Kiutils

/-! ## Quoted texts -/

theorem sqEnd_append {r : Str} (q : Str) (h : sqEnd r = true) : sqEnd (r ++ q) = true := by
  cases r with
  | nil => cases h
  | cons c r => exact h

theorem sqEnd_of_append {r : Str} (q : Str) (hr : r ≠ []) (h : sqEnd (r ++ q) = true) : sqEnd r = true := by
  cases r with
  | nil => exact absurd rfl hr
  | cons c r => exact h

/-- If a text is closed in the prefix, it is closed in the whole (perhaps later). -/
theorem matchSqBody_mono (prev : Char) (r q : Str) (h : matchSqBody prev (r ++ q) = none) : matchSqBody prev r = none := by
  induction r generalizing prev with
  | nil => rfl
  | cons c r ih =>
    rw [List.cons_append] at h
    unfold matchSqBody at h ⊢
    split at h
    · rename_i hc
      rw [if_pos hc]
      cases hm : matchSqBody c (r ++ q) with
      | none => rw [ih _ hm]
      | some p => rw [hm] at h; cases h
    · rename_i hc
      rw [if_neg hc]
      split at h
      · rename_i hp
        rw [if_pos hp]
        cases hm : matchSqBody c (r ++ q) with
        | none =>
          rw [hm] at h
          rw [ih _ hm]
          by_cases hs : sqEnd r = true
          · rw [if_pos (sqEnd_append q hs)] at h; cases h
          · rw [if_neg hs]
        | some p => rw [hm] at h; cases h
      · rename_i hp
        rw [if_neg hp]
        by_cases hs : sqEnd r = true
        · rw [if_pos (sqEnd_append q hs)] at h; cases h
        · rw [if_neg hs]

/-- A text that is closed in the prefix, with something behind it, is closed there in the prefix alone. -/
theorem matchSqBody_prefix (prev : Char) (x q b rest : Str) (hr : rest ≠ []) (h : matchSqBody prev (x ++ q) = some (b, rest ++ q))
    : matchSqBody prev x = some (b, rest) := by
  induction x generalizing prev b with
  | nil =>
    exfalso
    have h1 := congrArg List.length (matchSqBody_spec h).1
    simp only [List.nil_append, List.length_append, List.length_cons] at h1
    have : 0 < rest.length := List.length_pos_iff.mpr hr
    omega
  | cons c r ih =>
    rw [List.cons_append] at h
    unfold matchSqBody at h ⊢
    split at h
    · rename_i hc
      rw [if_pos hc]
      cases hm : matchSqBody c (r ++ q) with
      | none => rw [hm] at h; cases h
      | some p =>
        obtain ⟨b', rest'⟩ := p
        rw [hm] at h
        simp only [Option.some.injEq, Prod.mk.injEq] at h
        obtain ⟨rfl, rfl⟩ := h
        rw [ih _ _ hm]
    · rename_i hc
      rw [if_neg hc]
      split at h
      · rename_i hp
        rw [if_pos hp]
        cases hm : matchSqBody c (r ++ q) with
        | none =>
          rw [hm] at h
          rw [matchSqBody_mono _ _ _ hm]
          simp only at h ⊢
          split at h
          · simp only [Option.some.injEq, Prod.mk.injEq] at h
            obtain ⟨rfl, h⟩ := h
            cases List.append_cancel_right h
            rename_i hs
            rw [if_pos (sqEnd_of_append q hr hs)]
          · cases h
        | some p =>
          obtain ⟨b', rest'⟩ := p
          rw [hm] at h
          simp only [Option.some.injEq, Prod.mk.injEq] at h
          obtain ⟨rfl, rfl⟩ := h
          rw [ih _ _ hm]
      · rename_i hp
        rw [if_neg hp]
        split at h
        · simp only [Option.some.injEq, Prod.mk.injEq] at h
          obtain ⟨rfl, h⟩ := h
          cases List.append_cancel_right h
          rename_i hs
          rw [if_pos (sqEnd_of_append q hr hs)]
        · cases h

theorem matchSq_mono (x q : Str) (h : matchSq (x ++ q) = none) : matchSq x = none := by
  cases x with
  | nil => rfl
  | cons c r =>
    by_cases hc : c = '"'
    · subst hc
      exact matchSqBody_mono _ _ _ h
    · unfold matchSq
      split
      · rename_i h'; cases h'; exact absurd rfl hc
      · rfl

theorem matchSq_prefix (x q b rest : Str) (hr : rest ≠ []) (h : matchSq (x ++ q) = some (b, rest ++ q)) : matchSq x = some (b, rest) := by
  cases x with
  | nil =>
    exfalso
    have h1 := congrArg List.length (matchSq_spec h).1
    simp only [List.nil_append, List.length_append, List.length_cons] at h1
    have : 0 < rest.length := List.length_pos_iff.mpr hr
    omega
  | cons c r =>
    by_cases hc : c = '"'
    · subst hc
      exact matchSqBody_prefix _ _ _ _ _ hr h
    · unfold matchSq at h
      split at h
      · rename_i h'; cases h'; exact absurd rfl hc
      · cases h

/-! ## Numbers -/

theorem numEnd_append {r : Str} (q : Str) (h : numEnd r = true) : numEnd (r ++ q) = true := by
  cases r with
  | nil => cases h
  | cons c r => exact h

theorem matchNum_mono (x q : Str) (h : matchNum (x ++ q) = none) : matchNum x = none := by
  cases hm : matchNum x with
  | none => rfl
  | some p =>
    obtain ⟨n, rest⟩ := p
    have h1 := matchNum_spec hm
    have h2 := matchNum_src (matchNum_wf hm) (numEnd_append q h1.2.2)
    rw [← List.append_assoc, h1.1, h] at h2
    cases h2

theorem matchNum_prefix (x q rest : Str) (n : NumLit) (hr : rest ≠ []) (h : matchNum (x ++ q) = some (n, rest ++ q)) :
    matchNum x = some (n, rest) := by
  have h1 := matchNum_spec h
  have h2 : n.src ++ rest = x := by
    have := h1.1
    rw [← List.append_assoc] at this
    exact List.append_cancel_right this
  rw [← h2]
  refine matchNum_src (matchNum_wf h) ?_
  cases rest with
  | nil => exact absurd rfl hr
  | cons c r => exact h1.2.2

/-! ## Tokens -/

theorem takeWhile_prefix {p : Char → Bool} (x q rest : Str) (hr : rest ≠ []) (h : (x ++ q).dropWhile p = rest ++ q) :
    x.takeWhile p = (x ++ q).takeWhile p ∧ x.dropWhile p = rest := by
  induction x with
  | nil =>
    exfalso
    have h1 := (q.dropWhile_suffix p).length_le
    rw [List.nil_append] at h
    rw [h, List.length_append] at h1
    have : 0 < rest.length := List.length_pos_iff.mpr hr
    omega
  | cons c x ih =>
    rw [List.cons_append, List.dropWhile_cons] at h
    rw [List.cons_append, List.takeWhile_cons, List.takeWhile_cons, List.dropWhile_cons]
    cases hc : p c with
    | true =>
      rw [hc] at h
      obtain ⟨h1, h2⟩ := ih h
      simp [h1, h2]
    | false =>
      rw [hc] at h
      have h : (c :: x) ++ q = rest ++ q := h
      simp [List.append_cancel_right h]

/-- A token of the whole text that is followed by something in the prefix is a token of the prefix. -/
theorem tokenAt_prefix (x q src rest : Str) (t : Tok) (hr : rest ≠ []) (h : tokenAt (x ++ q) = some (src, t, rest ++ q)) :
    tokenAt x = some (src, t, rest) := by
  cases x with
  | nil =>
    exfalso
    have h1 := congrArg List.length (tokenAt_spec h).1
    simp only [List.nil_append, List.length_append] at h1
    have : 0 < rest.length := List.length_pos_iff.mpr hr
    omega
  | cons c r =>
    rw [List.cons_append] at h
    simp only [tokenAt] at h ⊢
    split at h
    · rename_i hc
      rw [if_pos hc]
      simp only [Option.some.injEq, Prod.mk.injEq] at h ⊢
      exact ⟨h.1, h.2.1, List.append_cancel_right h.2.2⟩
    · rename_i hc
      rw [if_neg hc]
      split at h
      · rename_i hc'
        rw [if_pos hc']
        simp only [Option.some.injEq, Prod.mk.injEq] at h ⊢
        exact ⟨h.1, h.2.1, List.append_cancel_right h.2.2⟩
      · rename_i hc'
        rw [if_neg hc']
        cases hm : matchNum (c :: (r ++ q)) with
        | some p =>
          obtain ⟨n, rest'⟩ := p
          rw [hm] at h
          simp only [Option.some.injEq, Prod.mk.injEq] at h
          obtain ⟨rfl, rfl, rfl⟩ := h
          rw [matchNum_prefix (c :: r) q rest n hr hm]
        | none =>
          rw [hm] at h
          rw [matchNum_mono (c :: r) q hm]
          simp only at h ⊢
          cases hs : matchSq (c :: (r ++ q)) with
          | some p =>
            obtain ⟨b, rest'⟩ := p
            rw [hs] at h
            simp only [Option.some.injEq, Prod.mk.injEq] at h
            obtain ⟨rfl, rfl, rfl⟩ := h
            rw [matchSq_prefix (c :: r) q b rest hr hs]
          | none =>
            rw [hs] at h
            rw [matchSq_mono (c :: r) q hs]
            simp only at h ⊢
            split at h
            · rename_i hb
              rw [if_pos hb]
              simp only [Option.some.injEq, Prod.mk.injEq] at h
              obtain ⟨rfl, rfl, h⟩ := h
              obtain ⟨h1, h2⟩ := takeWhile_prefix (c :: r) q rest hr h
              rw [h1, h2]
              rfl
            · cases h

theorem tokenAt_none_prefix (c : Char) (r q : Str) (h : tokenAt (c :: (r ++ q)) = none) : tokenAt (c :: r) = none := by
  simp only [tokenAt] at h ⊢
  split at h
  · cases h
  · rename_i hc
    rw [if_neg hc]
    split at h
    · cases h
    · rename_i hc'
      rw [if_neg hc']
      cases hm : matchNum (c :: (r ++ q)) with
      | some p => rw [hm] at h; cases h
      | none =>
        rw [hm] at h
        rw [matchNum_mono (c :: r) q hm]
        cases hs : matchSq (c :: (r ++ q)) with
        | some p => rw [hs] at h; cases h
        | none =>
          rw [hs] at h
          rw [matchSq_mono (c :: r) q hs]
          simp only at h ⊢
          split at h
          · cases h
          · rename_i hb; rw [if_neg hb]

theorem lex_skip {c : Char} {r : Str} (h : isSpace c = false) (ht : tokenAt (c :: r) = none) : lex (c :: r) = lex r := by
  rw [lex_def, pieces_skip h ht, List.filterMap_cons]; rfl

/-- The tokens of the prefix `x` of `x ++ q` are the first tokens of the whole, up to a rest `y` of the prefix: nothing is left, or it
is the beginning of a token of the whole text. -/
theorem lex_prefix (x q : Str) : ∃ c y, y <:+ x ∧ lex (x ++ q) = c ++ lex (y ++ q) ∧ lex x = c ++ lex y ∧
    (y = [] ∨ ∃ src t rest, y ≠ [] ∧ y <+: src ∧ lex (y ++ q) = t :: lex rest ∧ tokenAt (y ++ q) = some (src, t, rest)) := by
  suffices h : ∀ n (x : Str), x.length ≤ n → ∃ c y, y <:+ x ∧ lex (x ++ q) = c ++ lex (y ++ q) ∧ lex x = c ++ lex y ∧
      (y = [] ∨ ∃ src t rest, y ≠ [] ∧ y <+: src ∧ lex (y ++ q) = t :: lex rest ∧ tokenAt (y ++ q) = some (src, t, rest)) from
    h x.length x (Nat.le_refl _)
  intro n
  induction n with
  | zero =>
    intro x hx
    cases x with
    | nil => exact ⟨[], [], List.suffix_rfl, rfl, rfl, .inl rfl⟩
    | cons c r => simp at hx
  | succ n ih =>
    intro x hx
    cases x with
    | nil => exact ⟨[], [], List.suffix_rfl, rfl, rfl, .inl rfl⟩
    | cons d r =>
      have hlen : r.length ≤ n := by simpa using hx
      cases hsp : isSpace d with
      | true =>
        obtain ⟨c, y, h1, h2, h3, h4⟩ := ih r hlen
        refine ⟨c, y, h1.trans (List.suffix_cons d r), ?_, ?_, h4⟩
        · rw [List.cons_append, lex_space hsp]; exact h2
        · rw [lex_space hsp]; exact h3
      | false =>
        cases ht : tokenAt (d :: (r ++ q)) with
        | none =>
          obtain ⟨c, y, h1, h2, h3, h4⟩ := ih r hlen
          refine ⟨c, y, h1.trans (List.suffix_cons d r), ?_, ?_, h4⟩
          · rw [List.cons_append, lex_skip hsp ht]; exact h2
          · rw [lex_skip hsp (tokenAt_none_prefix d r q ht)]; exact h3
        | some p =>
          obtain ⟨src, t, rest⟩ := p
          obtain ⟨hs, hne⟩ := tokenAt_spec ht
          by_cases hl : src.length < (d :: r).length
          · obtain ⟨rest', hr1, hr2⟩ : ∃ rest', rest = rest' ++ q ∧ src ++ rest' = d :: r := by
              have h1 : src ++ rest = (d :: r) ++ q := hs
              rcases List.append_eq_append_iff.1 h1 with ⟨a, h2, h3⟩ | ⟨a, h2, h3⟩
              · exact ⟨a, h3, h2.symm⟩
              · rw [h2, List.length_append] at hl; omega
            subst hr1
            have hr' : rest' ≠ [] := by
              rintro rfl
              rw [List.append_nil] at hr2
              rw [hr2] at hl
              omega
            have hlen' : rest'.length ≤ n := by
              have := congrArg List.length hr2
              rw [List.length_append, List.length_cons] at this
              have : 0 < src.length := List.length_pos_iff.mpr hne
              omega
            obtain ⟨c, y, h1, h2, h3, h4⟩ := ih rest' hlen'
            refine ⟨t :: c, y, h1.trans ⟨src, hr2⟩, ?_, ?_, h4⟩
            · rw [List.cons_append, lex_tok hsp ht, h2]; rfl
            · rw [lex_tok hsp (tokenAt_prefix (d :: r) q src rest' t hr' ht), h3]; rfl
          · refine ⟨[], d :: r, List.suffix_rfl, rfl, rfl, .inr ⟨src, t, rest, by simp, ?_, lex_tok hsp ht, ht⟩⟩
            have h1 : src ++ rest = (d :: r) ++ q := hs
            rcases List.append_eq_append_iff.1 h1 with ⟨a, h2, h3⟩ | ⟨a, h2, h3⟩
            · have : a = [] := by
                have := congrArg List.length h2
                rw [List.length_append] at this
                exact List.length_eq_zero_iff.1 (by omega)
              subst this
              rw [List.append_nil] at h2
              exact ⟨[], by rw [List.append_nil, h2]⟩
            · exact ⟨a, h2.symm⟩

/-! ## Brackets -/

def opens (ts : List Tok) : Nat := ts.countP fun t => match t with | .op => true | _ => false
def closes (ts : List Tok) : Nat := ts.countP fun t => match t with | .cl => true | _ => false

theorem opens_append (a b : List Tok) : opens (a ++ b) = opens a + opens b := List.countP_append
theorem closes_append (a b : List Tok) : closes (a ++ b) = closes a + closes b := List.countP_append
theorem opens_op (b : List Tok) : opens (.op :: b) = opens b + 1 := List.countP_cons_of_pos rfl
theorem opens_cl (b : List Tok) : opens (.cl :: b) = opens b := List.countP_cons_of_neg (by simp)
theorem opens_atom (v : Val) (b : List Tok) : opens (.atom v :: b) = opens b := List.countP_cons_of_neg (by simp)
theorem closes_op (b : List Tok) : closes (.op :: b) = closes b := List.countP_cons_of_neg (by simp)
theorem closes_cl (b : List Tok) : closes (.cl :: b) = closes b + 1 := List.countP_cons_of_pos rfl
theorem closes_atom (v : Val) (b : List Tok) : closes (.atom v :: b) = closes b := List.countP_cons_of_neg (by simp)

/-- If the brackets match, there are as many of both kinds. -/
theorem depthOk_count (ts : List Tok) (n : Nat) (h : depthOk n ts = true) : n + opens ts = closes ts := by
  induction ts generalizing n with
  | nil =>
    cases n with
    | zero => rfl
    | succ n => simp [depthOk] at h
  | cons t ts ih =>
    cases t with
    | op => have := ih (n + 1) (by simpa [depthOk] using h); rw [opens_op, closes_op]; omega
    | atom v => have := ih n (by simpa [depthOk] using h); rw [opens_atom, closes_atom]; omega
    | cl =>
      cases n with
      | zero => simp [depthOk] at h
      | succ n => have := ih n (by simpa [depthOk] using h); rw [opens_cl, closes_cl]; omega

mutual
theorem count_toks : ∀ v : Val, opens (toks v) = closes (toks v)
  | .list l => by
    have := count_toksL l
    rw [toks, opens_op, closes_op, opens_append, closes_append, this, opens_cl, closes_cl]
    show closes (toksL l) + 0 + 1 = closes (toksL l) + (0 + 1)
    omega
  | .int n => by rw [toks, opens_atom, closes_atom]; rfl
  | .flt n => by rw [toks, opens_atom, closes_atom]; rfl
  | .str n => by rw [toks, opens_atom, closes_atom]; rfl
theorem count_toksL : ∀ l : List Val, opens (toksL l) = closes (toksL l)
  | [] => by rw [toksL]; rfl
  | v :: r => by rw [toksL, opens_append, closes_append, count_toks v, count_toksL r]
end

theorem prefix_append_cases {c a b : List Tok} (h : c <+: a ++ b) : c <+: a ∨ ∃ d, c = a ++ d ∧ d <+: b := by
  obtain ⟨e, h⟩ := h
  rcases List.append_eq_append_iff.1 h with ⟨x, h1, h2⟩ | ⟨x, h1, h2⟩
  · exact .inl ⟨x, h1.symm⟩
  · exact .inr ⟨x, h1, ⟨e, h2.symm⟩⟩

theorem prefix_singleton {t : Tok} {c : List Tok} (h : c <+: [t]) : c = [] ∨ c = [t] := by
  obtain ⟨d, h⟩ := h
  match c, h with
  | [], _ => exact .inl rfl
  | [a], h => cases h; exact .inr rfl
  | a :: b :: c, h => simp at h

mutual
/-- In the tokens of a tree no prefix closes more than it opens. -/
theorem prefix_toks : ∀ (v : Val) (c : List Tok), c <+: toks v → closes c ≤ opens c
  | .list l, c, h => by
    cases c with
    | nil => exact Nat.le_refl _
    | cons t c =>
      rw [toks, List.cons_prefix_cons] at h
      obtain ⟨rfl, h⟩ := h
      rw [opens_op, closes_op]
      rcases prefix_append_cases h with h' | ⟨d, rfl, h'⟩
      · have := prefix_toksL l c h'; omega
      · have h1 := count_toksL l
        rw [opens_append, closes_append]
        rcases prefix_singleton h' with rfl | rfl
        · show closes (toksL l) + 0 ≤ opens (toksL l) + 0 + 1
          omega
        · rw [opens_cl, closes_cl]
          show closes (toksL l) + (0 + 1) ≤ opens (toksL l) + 0 + 1
          omega
  | .int n, c, h => by
    rw [toks] at h
    rcases prefix_singleton h with rfl | rfl
    · exact Nat.le_refl _
    · rw [opens_atom, closes_atom]; exact Nat.le_refl _
  | .flt n, c, h => by
    rw [toks] at h
    rcases prefix_singleton h with rfl | rfl
    · exact Nat.le_refl _
    · rw [opens_atom, closes_atom]; exact Nat.le_refl _
  | .str n, c, h => by
    rw [toks] at h
    rcases prefix_singleton h with rfl | rfl
    · exact Nat.le_refl _
    · rw [opens_atom, closes_atom]; exact Nat.le_refl _
theorem prefix_toksL : ∀ (l : List Val) (c : List Tok), c <+: toksL l → closes c ≤ opens c
  | [], c, h => by
    rw [toksL, List.prefix_nil] at h
    subst h
    exact Nat.le_refl _
  | v :: r, c, h => by
    rw [toksL] at h
    rcases prefix_append_cases h with h' | ⟨d, rfl, h'⟩
    · exact prefix_toks v c h'
    · have h1 := count_toks v
      have h2 := prefix_toksL r d h'
      rw [opens_append, closes_append]
      omega
end

/-- A part of the tokens of a list, from the beginning, that is neither empty nor everything, has an open bracket. -/
theorem prefix_open (l : List Val) (c d : List Tok) (hc : c ≠ []) (hd : d ≠ []) (h : c ++ d = toks (.list l)) : closes c < opens c := by
  cases c with
  | nil => exact absurd rfl hc
  | cons t c =>
    rw [toks, List.cons_append] at h
    injection h with h0 h
    subst h0
    rw [opens_op, closes_op]
    have hp : c <+: toksL l := by
      rcases List.eq_nil_or_concat d with rfl | ⟨d', e, rfl⟩
      · exact absurd rfl hd
      · rw [List.concat_eq_append, ← List.append_assoc] at h
        exact ⟨d', (List.append_inj' h rfl).1⟩
    have := prefix_toksL l c hp
    omega

/-! ## The first expression -/

/-- The tokens that were read when the stack is `st`, with the beginning of the outermost list. -/
def readSoFar : List (List Val) → List Val → List Tok
  | [], out => .op :: toksL out
  | o :: st, out => readSoFar st o ++ .op :: toksL out

theorem readSoFar_snoc (st : List (List Val)) (out : List Val) (v : Val) : readSoFar st (out ++ [v]) = readSoFar st out ++ toks v := by
  cases st with
  | nil => simp [readSoFar, toksL_append, toksL_cons, toksL_nil]
  | cons o st => simp [readSoFar, toksL_append, toksL_cons, toksL_nil]

theorem run_first_list (ts : List Tok) (hs : ∀ a, Tok.atom a ∈ ts → toks a = [.atom a]) (st : List (List Val)) (out : List Val) (w : Val)
    (h : run (st ++ [[]]) out ts = .ok w) :
    ∃ l rest, w = .list l ∧ readSoFar st out ++ ts = toks (.list l) ++ rest ∧ depthOk 0 rest = true := by
  induction ts generalizing st out with
  | nil =>
    cases st with
    | nil => cases h
    | cons o st => cases h
  | cons t ts ih =>
    have hs' : ∀ a, Tok.atom a ∈ ts → toks a = [.atom a] := fun a ha => hs a (List.mem_cons_of_mem _ ha)
    cases t with
    | op =>
      rw [run] at h
      obtain ⟨l, rest, h1, h2, h3⟩ := ih hs' (out :: st) [] h
      refine ⟨l, rest, h1, ?_, h3⟩
      rw [← h2]
      simp [readSoFar, toksL_nil]
    | atom a =>
      rw [run] at h
      obtain ⟨l, rest, h1, h2, h3⟩ := ih hs' st (out ++ [a]) h
      refine ⟨l, rest, h1, ?_, h3⟩
      rw [← h2, readSoFar_snoc, hs a (List.mem_cons_self ..)]
      simp
    | cl =>
      cases st with
      | nil =>
        have h : run [] [.list out] ts = .ok w := h
        cases hd : depthOk 0 ts with
        | false => rw [run_bad ts [] _ (by simpa using hd)] at h; cases h
        | true =>
          rw [run_done ts [] [.list out] (.list out) (by simp) (by simpa using hd)] at h
          exact ⟨out, ts, (Except.ok.inj h).symm, by simp [readSoFar, toks_list], hd⟩
      | cons o st =>
        have h : run (st ++ [[]]) (o ++ [.list out]) ts = .ok w := h
        obtain ⟨l, rest, h1, h2, h3⟩ := ih hs' st _ h
        refine ⟨l, rest, h1, ?_, h3⟩
        rw [← h2, readSoFar_snoc]
        simp [readSoFar, toks_list]

theorem lex_mem {s : Str} {t : Tok} (h : t ∈ lex s) : ∃ src, Lexeme src t ∧ ∀ c ∈ src, c ∈ s := by
  induction s using pieces_induct with
  | nil => cases h
  | space c r hc ih =>
    rw [lex_space hc] at h
    obtain ⟨src, h1, h2⟩ := ih h
    exact ⟨src, h1, fun d hd => List.mem_cons_of_mem _ (h2 d hd)⟩
  | tok c r src t' rest hc ht ih =>
    rw [lex_tok hc ht] at h
    have hs := (tokenAt_spec ht).1
    rcases List.mem_cons.1 h with rfl | h
    · exact ⟨src, tokenAt_lexeme ht, fun d hd => by rw [← hs]; exact List.mem_append_left _ hd⟩
    · obtain ⟨src', h1, h2⟩ := ih h
      exact ⟨src', h1, fun d hd => by rw [← hs]; exact List.mem_append_right _ (h2 d hd)⟩
  | skip c r hc ht ih =>
    rw [lex_skip hc ht] at h
    obtain ⟨src, h1, h2⟩ := ih h
    exact ⟨src, h1, fun d hd => List.mem_cons_of_mem _ (h2 d hd)⟩

theorem toks_atom_of {src : Str} {a : Val} (h : Lexeme src (.atom a)) : toks a = [.atom a] := by
  cases h with
  | num n h =>
    unfold NumLit.val Val.canon
    simp only
    split <;> rw [toks]
  | quoted b => rw [toks]
  | bare w _ _ => rw [toks]

/-- What a text that is read as a list begins with. -/
theorem parse_first_list {s : Str} {l : List Val} (h : parseSexp s = .ok (.list l)) :
    ∃ rest, lex s = toks (.list l) ++ rest ∧ depthOk 0 rest = true := by
  have hs : ∀ a, Tok.atom a ∈ lex s → toks a = [.atom a] := fun a ha => toks_atom_of (lex_mem ha).choose_spec.1
  unfold parseSexp at h
  generalize lex s = ts at h hs
  cases ts with
  | nil => cases h
  | cons t ts =>
    have hs' : ∀ a, Tok.atom a ∈ ts → toks a = [.atom a] := fun a ha => hs a (List.mem_cons_of_mem _ ha)
    cases t with
    | op =>
      have h : run [[]] [] ts = .ok (.list l) := h
      obtain ⟨l', rest, h1, h2, h3⟩ := run_first_list ts hs' [] [] _ h
      cases h1
      exact ⟨rest, by rw [← h2]; simp [readSoFar, toksL_nil], h3⟩
    | cl => cases h
    | atom a =>
      exfalso
      have h : run [] [a] ts = .ok (.list l) := h
      cases hd : depthOk 0 ts with
      | false => rw [run_bad ts [] _ (by simpa using hd)] at h; cases h
      | true =>
        rw [run_done ts [] [a] a (by simp) (by simpa using hd)] at h
        have := hs a (List.mem_cons_self ..)
        rw [Except.ok.inj h, toks] at this
        cases this

/-! ## A text that is cut off -/

mutual
theorem strings_of_toks : ∀ (v : Val) (s : Str), Tok.atom (.str s) ∈ toks v → s ∈ v.strings
  | .list l, s, h => by
    rw [toks] at h
    rw [Val.strings]
    refine strings_of_toksL l s ?_
    simpa using h
  | .int n, s, h => by rw [toks] at h; simp at h
  | .flt n, s, h => by rw [toks] at h; simp at h
  | .str n, s, h => by rw [toks] at h; rw [Val.strings]; simpa using h
theorem strings_of_toksL : ∀ (l : List Val) (s : Str), Tok.atom (.str s) ∈ toksL l → s ∈ Val.stringsL l
  | [], s, h => by rw [toksL] at h; cases h
  | v :: r, s, h => by
    rw [toksL, List.mem_append] at h
    rw [Val.stringsL, List.mem_append]
    exact h.imp (strings_of_toks v s) (strings_of_toksL r s)
end

theorem mem_unescape {c : Char} (hc : c ≠ '\\') : ∀ {b : Str}, c ∈ b → c ∈ unescape b := by
  intro b
  induction b using unescape.induct with
  | case1 r ih =>
    intro h
    rw [unescape]
    simp only [List.mem_cons] at h ⊢
    rcases h with h | h | h
    · exact absurd h hc
    · exact .inl h
    · exact .inr (ih h)
  | case2 d r hd ih =>
    intro h
    rw [unescape]
    · simp only [List.mem_cons] at h ⊢
      exact h.imp id ih
    · exact hd
  | case3 => intro h; cases h

theorem closes_zero {ts : List Tok} (h : Tok.cl ∉ ts) : closes ts = 0 := by
  unfold closes
  rw [List.countP_eq_zero]
  intro t ht
  cases t with
  | cl => exact absurd ht h
  | op => simp
  | atom v => simp

theorem not_closes {s : Str} (h : ')' ∉ s) : closes (lex s) = 0 := by
  refine closes_zero fun hm => ?_
  obtain ⟨src, h1, h2⟩ := lex_mem hm
  cases h1
  exact h (h2 _ (List.mem_singleton.2 rfl))

theorem lex_one (c : Char) (t : Tok) (h : tokenAt [c] = some ([c], t, [])) (hs : isSpace c = false) : lex [c] = [t] := by
  rw [lex_tok hs h]; rfl

theorem lexeme_noBracket {src : Str} {v : Val} (h : Lexeme src (.atom v)) (hn : ∀ s, v = .str s → ')' ∉ s) : ')' ∉ src := by
  cases h with
  | num n h => intro hm; exact absurd (NumLit.src_bare h _ hm) (by decide)
  | quoted b =>
    intro hm
    refine hn _ rfl (mem_unescape (by decide) ?_)
    simpa using hm
  | bare w _ h => exact fun hm => (h _ hm).2.1 rfl

/-- A text that is read as a list and in which no string contains `)`: every beginning of it is rejected or read as the same list. -/
theorem parse_cut {s : Str} {l : List Val} (h : parseSexp s = .ok (.list l)) (hn : ∀ t ∈ Val.strings (.list l), ')' ∉ t)
    (r : Str) (hr : r <+: s) (w : Val) (hw : parseSexp r = .ok w) : w = .list l := by
  obtain ⟨rest, hl, hd⟩ := parse_first_list h
  obtain ⟨q, rfl⟩ := hr
  obtain ⟨c, y, -, h1, h2, h3⟩ := lex_prefix r q
  rw [h1] at hl
  -- the tokens of the prefix contain the whole list
  have full : ∀ d, lex r = toks (.list l) ++ d → w = .list l := by
    intro d e
    rw [parseSexp, e, depthOk_toks_run] at hw
    by_cases hd : depthOk 0 d = true
    · rw [run_done _ [] _ (.list l) (by simp) hd] at hw
      exact (Except.ok.inj hw).symm
    · rw [run_bad _ [] _ (by simpa using hd)] at hw
      cases hw
  have hdep : depthOk 0 (lex r) = true := by
    cases hb : depthOk 0 (lex r) with
    | true => rfl
    | false => unfold parseSexp at hw; rw [run_bad _ [] [] (by simpa using hb)] at hw; cases hw
  have hcount := depthOk_count _ _ hdep
  have hne : lex r ≠ [] := by
    intro e
    unfold parseSexp at hw
    rw [e] at hw
    cases hw
  rcases List.append_eq_append_iff.1 hl with ⟨a, ha, hb⟩ | ⟨a, ha, hb⟩
  · -- `c` is a part of the list, `a` what is missing
    by_cases ha0 : a = []
    · subst ha0
      rw [List.append_nil] at ha
      exact full (lex y) (by rw [h2, ha])
    · have hopen : ∀ c' a' : List Tok, c' ++ a' = toks (.list l) → lex r = c' → w = .list l := by
        intro c' a' e er
        by_cases ha' : a' = []
        · subst ha'
          exact full [] (by rw [er, ← e, List.append_nil, List.append_nil])
        · have := prefix_open l c' a' (er ▸ hne) ha' e
          rw [er] at hcount
          omega
      rcases h3 with rfl | ⟨src, t, rest', hy, hsrc, hlex, htok⟩
      · exact hopen c a ha.symm (h2.trans (List.append_nil c))
      · rw [hlex] at hb
        obtain ⟨a', rfl⟩ : ∃ a', a = t :: a' := by
          cases a with
          | nil => exact absurd rfl ha0
          | cons x a' => injection hb with hb1 hb2; exact ⟨a', by rw [hb1]⟩
        have hlx := tokenAt_lexeme htok
        -- a bracket is not cut
        have bracket : ∀ b, src = [b] → lex [b] = [t] → w = .list l := by
          intro b e1 e2
          subst e1
          have : y = [b] := by
            obtain ⟨z, hz⟩ := hsrc
            match y, hy, hz with
            | [_], _, hz => cases hz; rfl
            | _ :: _ :: _, _, hz => simp at hz
          subst this
          exact hopen (c ++ [t]) a' (by rw [ha]; simp) (by rw [h2, e2])
        cases t with
        | op => cases hlx; exact bracket '(' rfl (lex_one '(' .op rfl rfl)
        | cl => cases hlx; exact bracket ')' rfl (lex_one ')' .cl rfl rfl)
        | atom v =>
          exfalso
          have hc : c ≠ [] := by
            rintro rfl
            rw [toks] at ha
            cases ha
          have h5 := prefix_open l c _ hc ha0 ha.symm
          have h6 : ')' ∉ src := by
            refine lexeme_noBracket hlx fun s e => hn s (strings_of_toks _ s ?_)
            rw [ha, ← e]
            simp
          have h7 := not_closes (s := y) fun hm => h6 (hsrc.subset hm)
          rw [h2, opens_append, closes_append, h7] at hcount
          omega
  · exact full (a ++ lex y) (by rw [h2, ha, List.append_assoc])

end Kiutils
