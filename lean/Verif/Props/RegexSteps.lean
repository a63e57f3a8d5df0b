import Verif.Proofs.RegexSteps
/-!
# C56: no text makes the reader hang

Regular expressions with nested repetitions can take exponential time on short texts. Those of the package do not: the number of
steps of back-tracking search is at most quadratic in the length of the text, for the reader of files as well as for library ids.
-/
namespace Kiutils
/-- Reading a text takes at most quadratically many steps: the engine that searches for the expression `term_regex` of the source
finds the matches, and stops after that many steps. -/
theorem C56_reader (r : Re) (h : Re.ofText termRegexText = some r) (s : Str) :
    (r.findIterCount s).1 = r.findIter s ∧ (r.findIterCount s).2 ≤ 84 * (s.length + 1) ^ 2 := by
  rw [termRegex_text] at h
  cases h
  refine ⟨Re.findCount_fst .., ?_⟩
  have := Re.findCount_le (r := termRegex) (K := 83)
    (fun n s hs => Nat.le_trans (Re.engine_snd _ s) (by rw [← Re.work_zero]; exact Re.term_work n s hs)) s.length (s.length + 1) none s
    (by omega) (Nat.le_refl _)
  refine Nat.le_trans this ?_
  rw [Nat.pow_two, Nat.mul_comm 84, Nat.mul_assoc]
  exact Nat.mul_le_mul_left _ (by omega)
example := C56_reader termRegex termRegex_text k!"(a \"b\" 1)"

/-- The bound is of the right order: on blanks, each start of the search runs to their end. -/
theorem C56_blanks (r : Re) (h : Re.ofText termRegexText = some r) (n : Nat) : n ^ 2 ≤ (r.findIterCount (List.replicate n ' ')).2 := by
  rw [termRegex_text] at h
  cases h
  unfold Re.findIterCount
  rw [List.length_replicate]
  exact Re.find_blanks none (n + 1) n (by omega)
example := C56_blanks termRegex termRegex_text 1000

/-- Setting a library id takes at most quadratically many steps: the expressions of the `libId` setters, matched with any text. -/
theorem C56_libId (r : Re) (h : Re.ofText nickRegexText = some r ∨ Re.ofText unitRegexText = some r) (s : Str) :
    (r.matchCount s).1 = r.match? s ∧ (r.matchCount s).2 ≤ 25 * (s.length + 1) ^ 2 := by
  refine ⟨Re.matchCount_fst r s, Nat.le_trans (Re.engine_snd r _) ?_⟩
  have hsq : (s.length + 1) ^ 2 = s.length * s.length + 2 * s.length + 1 := by rw [Nat.pow_two, Nat.add_mul, Nat.mul_add]; omega
  rw [← Re.work_zero, hsq]
  rw [nickRegex_text, unitRegex_text] at h
  rcases h with h | h
  · cases h
    have hs : (⟨none, s, []⟩ : RePos).rest.length ≤ s.length := Nat.le_refl _
    generalize (⟨none, s, []⟩ : RePos) = p at hs
    generalize s.length = n at *
    unfold nickRegex
    rw [Re.work_seq, Re.work_seq, Re.work_seq, Re.work_seq]
    refine Nat.le_trans (Nat.add_le_add_left (Nat.add_le_add_left (Nat.add_le_add_left (Nat.add_le_add_left (Re.start_work _ _) _) _) _) _) ?_
    rw [Re.work_group]
    have hc : ∀ t : RePos, t.rest.length ≤ n → (Re.set false [.lit ':']).work t (fun t => (Re.group k!"2" (.plus false .dot)).work t fun t =>
        Re.finish.work t fun _ => 0) ≤ 1 + (3 * n + 6) := fun t ht =>
      Re.lit_work ':' _ _ t fun u hu => Re.plusEnd_work _ Re.eats_dot _ n u (by omega)
    have h1 := Re.work_plus_le Re.eats_dot false (fun t => (Re.set false [.lit ':']).work { t with groups := t.groups ++ [(k!"1", p.textTo t)] }
      (fun t => (Re.group k!"2" (.plus false .dot)).work t fun t => Re.finish.work t fun _ => 0)) (1 + (3 * n + 6)) (1 + (3 * n + 6)) p
      (fun t ht _ => hc _ (by simp only; omega)) (fun t ht _ => hc _ (by simp only; omega))
    have h2 : p.rest.length * (1 + 1 + (1 + (3 * n + 6))) ≤ n * (9 + 3 * n) := Nat.mul_le_mul hs (by omega)
    have h3 : n * (9 + 3 * n) = 9 * n + 3 * (n * n) := by rw [Nat.mul_add, Nat.mul_left_comm, Nat.mul_comm n 9]
    omega
  · cases h
    have hs : (⟨none, s, []⟩ : RePos).rest.length ≤ s.length := Nat.le_refl _
    generalize (⟨none, s, []⟩ : RePos) = p at hs
    generalize s.length = n at *
    unfold unitRegex
    rw [Re.work_seq, Re.work_seq, Re.work_seq, Re.work_seq, Re.work_seq, Re.work_seq]
    refine Nat.le_trans (Nat.add_le_add_left (Nat.add_le_add_left (Nat.add_le_add_left (Nat.add_le_add_left (Nat.add_le_add_left
      (Nat.add_le_add_left (Re.start_work _ _) _) _) _) _) _) _) ?_
    rw [Re.work_group]
    have hd := Re.eats_set false [.digit]
    -- the second underscore and what follows
    have h3 : ∀ t : RePos, t.rest.length ≤ n → (Re.set false [.lit '_']).work t (fun t => (Re.group k!"3" (.plus false (.set false [.digit]))).work t
        fun t => Re.finish.work t fun _ => 0) ≤ 1 + (3 * n + 6) := fun t ht =>
      Re.lit_work '_' _ _ t fun u hu => Re.plusEnd_work _ hd _ n u (by omega)
    have h2 : ∀ t : RePos, t.rest.length ≤ n → (Re.group k!"2" (.plus false (.set false [.digit]))).work t (fun t =>
        (Re.set false [.lit '_']).work t fun t => (Re.group k!"3" (.plus false (.set false [.digit]))).work t fun t => Re.finish.work t fun _ => 0) ≤
        6 * n + 12 := fun q hq => by
      rw [Re.work_group]
      have := Re.work_plus_le hd false (fun t => (Re.set false [.lit '_']).work { t with groups := t.groups ++ [(k!"2", q.textTo t)] } fun t =>
        (Re.group k!"3" (.plus false (.set false [.digit]))).work t fun t => Re.finish.work t fun _ => 0) 1 (1 + (3 * n + 6)) q
        (fun t ht h => Re.lit_work_digit (by decide) _ (t := { t with groups := _ }) (by
          obtain ⟨c, u, h1, h2⟩ := Re.digits_run h
          intro h'
          simp [Re.run, RePos.eat, h1, Re.inSet_digit, h2] at h'))
        (fun t ht _ => h3 _ (by simp only; omega))
      omega
    have h1 : ∀ t : RePos, t.rest.length ≤ n → (Re.set false [.lit '_']).work t (fun t => (Re.group k!"2" (.plus false (.set false [.digit]))).work t
        fun t => (Re.set false [.lit '_']).work t fun t => (Re.group k!"3" (.plus false (.set false [.digit]))).work t fun t =>
          Re.finish.work t fun _ => 0) ≤ 1 + (6 * n + 12) := fun t ht =>
      Re.lit_work '_' _ _ t fun u hu => h2 u (by omega)
    have h0 := Re.work_plus_le Re.eats_dot false (fun t => (Re.set false [.lit '_']).work { t with groups := t.groups ++ [(k!"1", p.textTo t)] }
      (fun t => (Re.group k!"2" (.plus false (.set false [.digit]))).work t fun t => (Re.set false [.lit '_']).work t fun t =>
        (Re.group k!"3" (.plus false (.set false [.digit]))).work t fun t => Re.finish.work t fun _ => 0)) (1 + (6 * n + 12)) (1 + (6 * n + 12)) p
      (fun t ht _ => h1 _ (by simp only; omega)) (fun t ht _ => h1 _ (by simp only; omega))
    have g2 : p.rest.length * (1 + 1 + (1 + (6 * n + 12))) ≤ n * (15 + 6 * n) := Nat.mul_le_mul hs (by omega)
    have g3 : n * (15 + 6 * n) = 15 * n + 6 * (n * n) := by rw [Nat.mul_add, Nat.mul_left_comm, Nat.mul_comm n 15]
    omega

/-- Nested repetitions are what the theorems exclude: `(a*)*b` takes more than 84 * (n+1)^2 steps, here for 14 letters. -/
example : 84 * (14 + 1) ^ 2 < ((Re.seq (.star true (.star true (.set false [.lit 'a']))) (.set false [.lit 'b'])).matchCount k!"aaaaaaaaaaaaaa").2 := by
  decide +kernel

/-- The bound of the reader on a text with everything in it: 84 * 39^2 steps are allowed, less than 1000 are taken. -/
example : ((termRegex.findIterCount k!"(a \"b \\\" c\" -1.5 12 +x ^ (d 3.x) 7)   ").2 ≤ 1000) := by decide +kernel

end Kiutils
