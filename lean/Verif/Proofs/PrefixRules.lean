import Verif.Proofs.Prefix
/-!
# The beginning of a text that is put into brackets

The text of a design rule file is put into brackets before it is read. `parse_cut_rules`: if no string contains a bracket, a quotation
mark or a backslash, the beginning of such a text is rejected or read as the first items (and words without meaning).
-/
namespace Kiutils

/-- An atom that is written in the same way everywhere. -/
def PlainAtom (v : Val) : Prop := ∀ s, v = .str s → ∀ c ∈ s, c ≠ '(' ∧ c ≠ ')' ∧ c ≠ '"' ∧ c ≠ '\\'

theorem plain_unescape {b : Str} (h : ∀ c ∈ unescape b, c ≠ '(' ∧ c ≠ ')' ∧ c ≠ '"' ∧ c ≠ '\\') :
    ∀ c ∈ b, c ≠ '(' ∧ c ≠ ')' ∧ c ≠ '"' ∧ c ≠ '\\' := by
  have hq : '"' ∉ b := fun hm => (h _ (mem_unescape (by decide) hm)).2.2.1 rfl
  have e : unescape b = b := by
    clear h
    induction b with
    | nil => rfl
    | cons c r ih =>
      rw [unescape_cons, ih fun hm => hq (List.mem_cons_of_mem _ hm)]
      intro e
      refine hq (List.mem_cons_of_mem _ ?_)
      cases r with
      | nil => cases e
      | cons d r => cases Option.some.inj e; exact List.mem_cons_self
  rwa [e] at h

theorem matchSqBody_plain (b r : Str) (prev : Char) (hp : prev ≠ '\\') (hb : ∀ c ∈ b, c ≠ '"' ∧ c ≠ '\\') :
    matchSqBody prev (b ++ '"' :: r) = if sqEnd r then some (b, r) else none := by
  induction b generalizing prev with
  | nil =>
    show matchSqBody prev ('"' :: r) = _
    rw [matchSqBody]
    simp [hp]
  | cons c b ih =>
    have hc := hb c List.mem_cons_self
    rw [List.cons_append, matchSqBody, if_pos (by simpa using hc.1), ih c hc.2 fun d hd => hb d (List.mem_cons_of_mem _ hd)]
    split <;> rename_i h <;> split at h <;> rename_i h' <;> simp_all

theorem lexeme_cl_last {x : Str} {t : Tok} (h : Lexeme (x ++ [')']) t) : x = [] := by
  generalize hs : x ++ [')'] = s at h
  have hm : ')' ∈ s := by rw [← hs]; simp
  cases h with
  | op => simp at hm
  | cl =>
    cases x with
    | nil => rfl
    | cons c x => simp at hs
  | num n h => exact absurd (NumLit.src_bare h _ hm) (by decide)
  | quoted b =>
    have := congrArg List.getLast? hs
    rw [List.getLast?_concat, ← List.cons_append, List.getLast?_concat] at this
    cases this
  | bare w _ h => exact absurd rfl (h _ hm).2.1

theorem tokenAt_allBare {x src rest : Str} {t : Tok} (h : tokenAt x = some (src, t, rest)) (hx : ∀ c ∈ x, isBare c = true) : rest = [] := by
  have hs := (tokenAt_spec h).1
  cases rest with
  | nil => rfl
  | cons d rest =>
    exfalso
    have hd : isBare d = true := hx d (by rw [← hs]; simp)
    cases x with
    | nil => cases h
    | cons c r =>
      have hc := hx c List.mem_cons_self
      simp only [tokenAt] at h
      split at h
      · rename_i h1
        have : c = '(' := by simpa using h1
        subst this; cases hc
      · split at h
        · rename_i h1
          have : c = ')' := by simpa using h1
          subst this; cases hc
        · split at h
          · rename_i hm
            cases h
            have := (matchNum_spec hm).2.2
            simp only [numEnd, Bool.or_eq_true, beq_iff_eq] at this
            rcases this with rfl | rfl <;> cases hd
          · split at h
            · rename_i hm
              cases h
              have hsq : sqEnd (d :: rest) = true := by
                unfold matchSq at hm
                split at hm
                · exact (matchSqBody_spec hm).2
                · cases hm
              simp only [sqEnd, Bool.or_eq_true, beq_iff_eq] at hsq
              rcases hsq with rfl | hsq
              · cases hd
              · simp [isBare, hsq] at hd
            · have h := Option.some.inj h
              have h3 : (c :: r).dropWhile isBare = d :: rest := congrArg (fun p => p.2.2) h
              have := List.head?_dropWhile_not isBare (c :: r)
              rw [h3] at this
              simp [hd] at this

theorem tokenAt_caret (y : Str) : tokenAt ('^' :: y) = none := by
  have hn : matchNum ('^' :: y) = none := by simp [matchNum, matchFloat, matchInt, splitSign, show isDigit '^' = false from rfl]
  simp only [tokenAt, hn, matchSq]
  rfl

/-- A plain token that ends before the end of `x` is found whatever follows on `x`. -/
theorem tokenAt_change {x q src rest : Str} {t : Tok} (hr : rest ≠ []) (h : tokenAt (x ++ q) = some (src, t, rest ++ q))
    (hp : ∀ v, t = .atom v → PlainAtom v) : tokenAt (x ++ [')']) = some (src, t, rest ++ [')']) := by
  have h0 := tokenAt_prefix x q src rest t hr h
  obtain ⟨hs, hne⟩ := tokenAt_spec h0
  cases x with
  | nil => cases h0
  | cons d r =>
    cases h1 : tokenAt (d :: r ++ [')']) with
    | none => rw [tokenAt_none_prefix d r [')'] h1] at h0; cases h0
    | some p =>
      obtain ⟨src', t', rest'⟩ := p
      have hs' := (tokenAt_spec h1).1
      have hlx := tokenAt_lexeme h1
      have key : src' = d :: r → rest' = [')'] → some (src', t', rest') = some (src, t, rest ++ [')']) := by
        rintro rfl rfl
        exfalso
        have bare : (∀ c ∈ d :: r, isBare c = true) → False := fun hb => hr (tokenAt_allBare h0 hb)
        have two : ∀ c, d :: r = [c] → False := by
          intro c e
          rw [e] at hs
          have := congrArg List.length hs
          rw [List.length_append] at this
          have h2 := List.length_pos_iff.2 hne
          have h3 := List.length_pos_iff.2 hr
          simp at this
          omega
        generalize hx : d :: r = x at hlx
        cases hlx with
        | op => exact two _ hx
        | cl => exact two _ hx
        | num n hn => exact bare (by rw [hx]; exact NumLit.src_bare hn)
        | bare w _ hw =>
          refine bare ?_
          rw [hx]
          intro c hc
          obtain ⟨a1, a2, a3, a4⟩ := hw c hc
          simp [isBare, a1, a2, a3, a4]
        | quoted b =>
          cases hx
          have e0 : tokenAt ('"' :: (b ++ ['"'])) = some (src, t, rest) := h0
          simp only [tokenAt, matchNum_quote, matchSq] at e0
          rw [if_neg (by decide), if_neg (by decide)] at e0
          split at e0
          · rename_i b' rest0 hm
            cases e0
            obtain ⟨hb1, hb2⟩ := matchSqBody_spec hm
            have pl := plain_unescape (hp _ rfl _ rfl)
            have e1 : tokenAt ('"' :: (b ++ ['"'] ++ [')'])) = some ('"' :: (b ++ ['"']), .atom (.str (unescape b)), [')']) := h1
            simp only [tokenAt, matchNum_quote, matchSq] at e1
            rw [if_neg (by decide), if_neg (by decide), ← hb1, List.append_assoc, List.cons_append,
              matchSqBody_plain b' (rest ++ [')']) '"' (by decide) fun c hc => ⟨(pl c hc).2.2.1, (pl c hc).2.2.2⟩,
              if_pos (sqEnd_append _ hb2)] at e1
            have e2 := congrArg (fun p => p.2.2.length) (Option.some.inj e1)
            simp at e2
            exact hr e2
          · rw [if_pos (by decide)] at e0
            have e0 := Option.some.inj e0
            have e1 : t = .atom (.str (List.takeWhile isBare ('"' :: (b ++ ['"'])))) := (congrArg (fun p => p.2.1) e0).symm
            refine (hp _ e1 _ rfl '"' ?_).2.2.1 rfl
            rw [List.takeWhile_cons_of_pos (by decide)]
            exact List.mem_cons_self
      rcases List.append_eq_append_iff.1 hs' with ⟨a, h2, h3⟩ | ⟨a, h2, h3⟩
      · by_cases ha : a = []
        · subst ha
          exact key (by rw [h2, List.append_nil]) h3
        · subst h3
          rw [tokenAt_prefix (d :: r) [')'] src' a t' ha h1] at h0
          have h0 := Option.some.inj h0
          cases h0
          rfl
      · cases a with
        | nil => exact key (by rw [h2, List.append_nil]) h3.symm
        | cons c a =>
          injection h3 with e1 e2
          cases List.append_eq_nil_iff.1 e2.symm |>.1
          rw [h2, ← e1] at hlx
          cases lexeme_cl_last hlx

/-- A text without brackets, followed by a closing bracket: words, and the bracket. -/
theorem lex_noBracket (x : Str) (h : ∀ c ∈ x, c ≠ '(' ∧ c ≠ ')') :
    ∃ as : List Val, (∀ a ∈ as, toks a = [.atom a] ∧ a.isList = false) ∧ lex (x ++ [')']) = toksL as ++ [.cl] := by
  suffices hh : ∀ n (x : Str), x.length ≤ n → (∀ c ∈ x, c ≠ '(' ∧ c ≠ ')') →
      ∃ as : List Val, (∀ a ∈ as, toks a = [.atom a] ∧ a.isList = false) ∧ lex (x ++ [')']) = toksL as ++ [.cl] from
    hh x.length x (Nat.le_refl _) h
  clear h x
  intro n
  have nil : ∃ as : List Val, (∀ a ∈ as, toks a = [.atom a] ∧ a.isList = false) ∧ lex ([] ++ [')']) = toksL as ++ [.cl] :=
    ⟨[], List.forall_mem_nil _, by rw [toksL]; exact lex_one ')' .cl rfl rfl⟩
  induction n with
  | zero =>
    intro x hx h
    cases x with
    | nil => exact nil
    | cons c r => simp at hx
  | succ n ih =>
    intro x hx h
    cases x with
    | nil => exact nil
    | cons d r =>
      have hlen : r.length ≤ n := by simpa using hx
      have hr : ∀ c ∈ r, c ≠ '(' ∧ c ≠ ')' := fun c hc => h c (List.mem_cons_of_mem _ hc)
      cases hsp : isSpace d with
      | true => rw [List.cons_append, lex_space hsp]; exact ih r hlen hr
      | false =>
        cases ht : tokenAt (d :: (r ++ [')'])) with
        | none => rw [List.cons_append, lex_skip hsp ht]; exact ih r hlen hr
        | some p =>
          obtain ⟨src, t, rest⟩ := p
          obtain ⟨hs, hne⟩ := tokenAt_spec ht
          have hlx := tokenAt_lexeme ht
          have hs' : src ++ rest = (d :: r) ++ [')'] := hs
          obtain ⟨a, h2, h3⟩ : ∃ a, d :: r = src ++ a ∧ rest = a ++ [')'] := by
            rcases List.append_eq_append_iff.1 hs' with ⟨a, h2, h3⟩ | ⟨a, h2, h3⟩
            · exact ⟨a, h2, h3⟩
            · cases a with
              | nil => exact ⟨[], by rw [h2]; simp, h3.symm⟩
              | cons c a =>
                injection h3 with e1 e2
                cases List.append_eq_nil_iff.1 e2.symm |>.1
                rw [h2, ← e1] at hlx
                cases lexeme_cl_last hlx
          subst h3
          have hsrc : ∀ c ∈ src, c ≠ '(' ∧ c ≠ ')' := fun c hc => h c (by rw [h2]; exact List.mem_append_left _ hc)
          obtain ⟨as, has, hl⟩ := ih a (by
            have := congrArg List.length h2
            rw [List.length_append, List.length_cons] at this
            have : 0 < src.length := List.length_pos_iff.mpr hne
            omega) fun c hc => h c (by rw [h2]; exact List.mem_append_right _ hc)
          rw [List.cons_append, lex_tok hsp ht, hl]
          cases t with
          | op => cases hlx; exact absurd rfl (hsrc _ List.mem_cons_self).1
          | cl => cases hlx; exact absurd rfl (hsrc _ List.mem_cons_self).2
          | atom v =>
            have hv := toks_atom_of hlx
            refine ⟨v :: as, ?_, by rw [toksL, hv]; rfl⟩
            intro b hb
            rcases List.mem_cons.1 hb with rfl | hb
            · refine ⟨hv, ?_⟩
              cases b with
              | list l => rw [toks] at hv; cases hv
              | _ => rfl
            · exact has b hb

/-- The tokens of `x ++ q` and of `x ++ ")"` are the same up to the token that is cut, or up to one that is not plain. -/
theorem lex_cut (x q : Str) : ∃ c y, lex (x ++ q) = c ++ lex (y ++ q) ∧ lex (x ++ [')']) = c ++ lex (y ++ [')']) ∧
    (y = [] ∨ ∃ v ts, lex (y ++ q) = .atom v :: ts ∧ (PlainAtom v → ∃ src, y <+: src ∧ Lexeme src (.atom v))) := by
  suffices h : ∀ n (x : Str), x.length ≤ n → ∃ c y, lex (x ++ q) = c ++ lex (y ++ q) ∧ lex (x ++ [')']) = c ++ lex (y ++ [')']) ∧
    (y = [] ∨ ∃ v ts, lex (y ++ q) = .atom v :: ts ∧ (PlainAtom v → ∃ src, y <+: src ∧ Lexeme src (.atom v))) from
    h x.length x (Nat.le_refl _)
  intro n
  induction n with
  | zero =>
    intro x hx
    cases x with
    | nil => exact ⟨[], [], rfl, rfl, .inl rfl⟩
    | cons c r => simp at hx
  | succ n ih =>
    intro x hx
    cases x with
    | nil => exact ⟨[], [], rfl, rfl, .inl rfl⟩
    | cons d r =>
      have hlen : r.length ≤ n := by simpa using hx
      cases hsp : isSpace d with
      | true =>
        obtain ⟨c, y, h2, h3, h4⟩ := ih r hlen
        refine ⟨c, y, ?_, ?_, h4⟩
        · rw [List.cons_append, lex_space hsp]; exact h2
        · rw [List.cons_append, lex_space hsp]; exact h3
      | false =>
        cases ht : tokenAt (d :: (r ++ q)) with
        | none =>
          obtain ⟨c, y, h2, h3, h4⟩ := ih r hlen
          have hd := tokenAt_none hsp ht
          refine ⟨c, y, ?_, ?_, h4⟩
          · rw [List.cons_append, lex_skip hsp ht]; exact h2
          · rw [List.cons_append, lex_skip hsp (by subst hd; exact tokenAt_caret _)]; exact h3
        | some p =>
          obtain ⟨src, t, rest⟩ := p
          obtain ⟨hs, hne⟩ := tokenAt_spec ht
          have hlx := tokenAt_lexeme ht
          have bracket : ∀ b, src = [b] → (∀ s, tokenAt (b :: s) = some ([b], t, s)) →
              ∃ c y, lex (d :: r ++ q) = c ++ lex (y ++ q) ∧ lex (d :: r ++ [')']) = c ++ lex (y ++ [')']) ∧
                (y = [] ∨ ∃ v ts, lex (y ++ q) = .atom v :: ts ∧ (PlainAtom v → ∃ src, y <+: src ∧ Lexeme src (.atom v))) := by
            intro b e hb
            subst e
            have : b = d := by cases hs; rfl
            subst this
            obtain ⟨c, y, h2, h3, h4⟩ := ih r hlen
            refine ⟨t :: c, y, ?_, ?_, h4⟩
            · rw [List.cons_append, lex_tok hsp (hb _), h2]; rfl
            · rw [List.cons_append, lex_tok hsp (hb _), h3]; rfl
          cases t with
          | op => cases hlx; exact bracket '(' rfl fun s => rfl
          | cl => cases hlx; exact bracket ')' rfl fun s => rfl
          | atom v =>
            by_cases hpl : PlainAtom v
            · by_cases hl : src.length < (d :: r).length
              · obtain ⟨rest', hr1, hr2⟩ : ∃ rest', rest = rest' ++ q ∧ src ++ rest' = d :: r := by
                  have h1 : src ++ rest = (d :: r) ++ q := hs
                  rcases List.append_eq_append_iff.1 h1 with ⟨a, h2, h3⟩ | ⟨a, h2, h3⟩
                  · exact ⟨a, h3, h2.symm⟩
                  · rw [h2, List.length_append] at hl; omega
                subst hr1
                have hr' : rest' ≠ [] := by
                  rintro rfl
                  rw [List.append_nil] at hr2
                  rw [hr2] at hl
                  omega
                have hlen' : rest'.length ≤ n := by
                  have := congrArg List.length hr2
                  rw [List.length_append, List.length_cons] at this
                  have : 0 < src.length := List.length_pos_iff.mpr hne
                  omega
                obtain ⟨c, y, h2, h3, h4⟩ := ih rest' hlen'
                refine ⟨.atom v :: c, y, ?_, ?_, h4⟩
                · rw [List.cons_append, lex_tok hsp ht, h2]; rfl
                · have hch : tokenAt (d :: (r ++ [')'])) = some (src, .atom v, rest' ++ [')']) :=
                    tokenAt_change (x := d :: r) hr' ht fun v' e => by cases e; exact hpl
                  rw [List.cons_append, lex_tok hsp hch, h3]; rfl
              · refine ⟨[], d :: r, rfl, rfl, .inr ⟨v, lex rest, by rw [List.cons_append, lex_tok hsp ht], fun _ => ⟨src, ?_, hlx⟩⟩⟩
                have h1 : src ++ rest = (d :: r) ++ q := hs
                rcases List.append_eq_append_iff.1 h1 with ⟨a, h2, h3⟩ | ⟨a, h2, h3⟩
                · have : a = [] := by
                    have := congrArg List.length h2
                    rw [List.length_append] at this
                    exact List.length_eq_zero_iff.1 (by omega)
                  subst this
                  rw [List.append_nil] at h2
                  exact ⟨[], by rw [List.append_nil, h2]⟩
                · exact ⟨a, h2.symm⟩
            · exact ⟨[], d :: r, rfl, rfl, .inr ⟨v, lex rest, by rw [List.cons_append, lex_tok hsp ht], fun h => absurd h hpl⟩⟩

theorem prefix_balanced : ∀ (l : List Val) (c : List Tok), c <+: toksL l → opens c = closes c → ∃ n, c = toksL (l.take n)
  | [], c, h, _ => ⟨0, by rw [toksL, List.prefix_nil] at h; rw [h, List.take_zero, toksL]⟩
  | v :: r, c, h, e => by
    rw [toksL] at h
    rcases prefix_append_cases h with h' | ⟨d, rfl, h'⟩
    · by_cases hc : c = []
      · exact ⟨0, by rw [hc, List.take_zero, toksL]⟩
      · obtain ⟨d, hd⟩ := h'
        by_cases hd0 : d = []
        · exact ⟨1, by rw [hd0, List.append_nil] at hd; rw [hd, List.take_succ_cons, List.take_zero, toksL, toksL, List.append_nil]⟩
        · exfalso
          cases v with
          | list l => have := prefix_open l c d hc hd0 hd; omega
          | _ =>
            rw [toks] at hd
            rcases prefix_singleton ⟨d, hd⟩ with h1 | h1
            · exact hc h1
            · rw [h1] at hd
              injection hd with _ hd
              exact hd0 hd
    · rw [opens_append, closes_append, count_toks v] at e
      obtain ⟨n, rfl⟩ := prefix_balanced r d h' (by omega)
      exact ⟨n + 1, by rw [List.take_succ_cons, toksL]⟩

/-- The beginning of a text that is put into brackets. -/
theorem parse_cut_rules {s : Str} {l : List Val} (h : parseSexp ('(' :: (s ++ [')'])) = .ok (.list l))
    (hn : ∀ t ∈ Val.strings (.list l), ∀ c ∈ t, c ≠ '(' ∧ c ≠ ')' ∧ c ≠ '"' ∧ c ≠ '\\')
    (r : Str) (hr : r <+: s) (w : Val) (hw : parseSexp ('(' :: (r ++ [')'])) = .ok w) :
    ∃ n as, w = .list (l.take n ++ as) ∧ ∀ a ∈ as, a.isList = false := by
  obtain ⟨rest, hl, hd⟩ := parse_first_list h
  obtain ⟨q, rfl⟩ := hr
  obtain ⟨c, y, h1, h2, h3⟩ := lex_cut ('(' :: r) (q ++ [')'])
  have h1' : lex ('(' :: (r ++ q ++ [')'])) = c ++ lex (y ++ (q ++ [')'])) := by
    rw [← h1, List.cons_append, List.append_assoc]
  have h2' : lex ('(' :: (r ++ [')'])) = c ++ lex (y ++ [')']) := h2
  rw [h1'] at hl
  have full : ∀ (m : List Val) d, lex ('(' :: (r ++ [')'])) = toks (.list m) ++ d → w = .list m := by
    intro m d e
    rw [parseSexp, e, depthOk_toks_run] at hw
    by_cases hd : depthOk 0 d = true
    · rw [run_done _ [] _ (.list m) (by simp) hd] at hw
      exact (Except.ok.inj hw).symm
    · rw [run_bad _ [] _ (by simpa using hd)] at hw
      cases hw
  have hdep : depthOk 0 (lex ('(' :: (r ++ [')']))) = true := by
    cases hb : depthOk 0 (lex ('(' :: (r ++ [')']))) with
    | true => rfl
    | false => unfold parseSexp at hw; rw [run_bad _ [] [] (by simpa using hb)] at hw; cases hw
  have hcount := depthOk_count _ _ hdep
  have whole : (∃ d, c = toks (.list l) ++ d) → ∃ n as, w = .list (l.take n ++ as) ∧ ∀ a ∈ as, a.isList = false := by
    rintro ⟨d, e⟩
    refine ⟨l.length, [], ?_, fun _ h => by cases h⟩
    rw [List.take_length, List.append_nil]
    exact full l (d ++ lex (y ++ [')'])) (by rw [h2', e, List.append_assoc])
  rcases List.append_eq_append_iff.1 hl with ⟨a, ha, hb⟩ | ⟨a, ha, hb⟩
  · by_cases ha0 : a = []
    · exact whole ⟨[], by rw [ha, ha0, List.append_nil, List.append_nil]⟩
    · obtain ⟨as, has, hlex⟩ : ∃ as : List Val, (∀ a ∈ as, toks a = [.atom a] ∧ a.isList = false) ∧ lex (y ++ [')']) = toksL as ++ [.cl] := by
        rcases h3 with rfl | ⟨v, ts, hv, hsrc⟩
        · exact lex_noBracket [] fun _ h => by cases h
        · have hmem : Tok.atom v ∈ toks (.list l) := by
            rw [ha]
            rw [hv] at hb
            cases a with
            | nil => exact absurd rfl ha0
            | cons x a => injection hb with e1 _; rw [← e1]; simp
          have hpl : PlainAtom v := fun s e => hn s (strings_of_toks _ s (e ▸ hmem))
          obtain ⟨src, hys, hlx⟩ := hsrc hpl
          refine lex_noBracket y fun d hd => ?_
          have hd := hys.subset hd
          cases hlx with
          | num n h =>
            have := NumLit.src_bare h _ hd
            constructor
            · rintro rfl; cases this
            · rintro rfl; cases this
          | quoted b =>
            have pb := plain_unescape (hpl _ rfl)
            have hd : d = '"' ∨ d ∈ b ∨ d = '"' := by simpa using hd
            rcases hd with rfl | hd | rfl
            · exact ⟨by decide, by decide⟩
            · exact ⟨(pb d hd).1, (pb d hd).2.1⟩
            · exact ⟨by decide, by decide⟩
          | bare w _ h => exact ⟨(h _ hd).1, (h _ hd).2.1⟩
      have hop := lex_op (r ++ [')'])
      obtain ⟨c', rfl⟩ : ∃ c', c = .op :: c' := by
        cases c with
        | nil =>
          exfalso
          rw [h2', List.nil_append] at hop
          rcases h3 with rfl | ⟨v, ts, hv, -⟩
          · rw [List.nil_append, lex_one ')' .cl rfl rfl] at hop; cases hop
          · rw [List.nil_append, hv, toks, List.cons_append] at hl
            cases hl
        | cons t c' =>
          rw [h2'] at hop
          injection hop with e _
          exact ⟨c', by rw [e]⟩
      rw [h2', hlex, opens_append, closes_append, opens_append, closes_append, opens_op, closes_op, count_toksL as, opens_cl, closes_cl] at hcount
      have z1 : opens [] = 0 := rfl
      have z2 : closes [] = 0 := rfl
      rw [z1, z2] at hcount
      have hbal : opens c' = closes c' := by omega
      have hpre : c' <+: toksL l := by
        rw [toks, List.cons_append] at ha
        injection ha with _ ha
        have hp : c' <+: toksL l ++ [.cl] := ⟨a, ha.symm⟩
        rcases prefix_append_cases hp with h' | ⟨d, rfl, h'⟩
        · exact h'
        · rcases prefix_singleton h' with rfl | rfl
          · rw [List.append_nil]; exact List.prefix_rfl
          · exfalso
            have := congrArg List.length ha
            simp at this
            exact ha0 this
      obtain ⟨n, rfl⟩ := prefix_balanced l c' hpre hbal
      refine ⟨n, as, full _ [] ?_, fun a ha => (has a ha).2⟩
      rw [h2', hlex, toks, toksL_append]
      simp
  · exact whole ⟨a, ha⟩

end Kiutils
