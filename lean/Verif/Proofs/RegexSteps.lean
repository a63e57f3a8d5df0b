import Verif.RegexSteps
import Verif.Proofs.Regex
/-!
# Bounds for the work of back-tracking search

`work r s k` counts the steps of a search that tries all ways; the engine of `Verif/RegexSteps.lean` takes no more
(`seek_spec`).
-/
namespace Kiutils
namespace Re

/-- The steps of `Re.iterate` if all ways are tried. -/
def iterSteps (step : RePos → List RePos) (cost : RePos → Nat) : Nat → RePos → Nat
  | 0, _ => 1
  | n + 1, s =>
    1 + cost s + ((step s).map fun t => if t.rest.length < s.rest.length then iterSteps step cost n t else 1).sum

/-- The number of steps to find all ways to match. -/
def steps : Re → RePos → Nat
  | .empty, _ => 1
  | .set _ _, _ => 1
  | .dot, _ => 1
  | .seq a b, s => 1 + a.steps s + ((a.run s).map b.steps).sum
  | .alt a b, s => 1 + a.steps s + b.steps s
  | .opt a, s => 1 + a.steps s
  | .star _ a, s => 1 + iterSteps a.run a.steps s.rest.length s
  | .plus _ a, s => 1 + a.steps s + ((a.run s).map fun t => iterSteps a.run a.steps t.rest.length t).sum
  | .group _ a, s => 1 + a.steps s
  | .ahead a, s => 1 + a.steps s
  | .behind _ _, _ => 1
  | .start, _ => 1
  | .finish, _ => 1

/-- The steps to find all ways to match, and for each of them `k` more. -/
def work (r : Re) (s : RePos) (k : RePos → Nat) : Nat := r.steps s + ((r.run s).map k).sum

theorem sum_flatMap {α β : Type} (l : List α) (f : α → List β) (k : β → Nat) :
    ((l.flatMap f).map k).sum = (l.map fun a => ((f a).map k).sum).sum := by
  induction l with
  | nil => rfl
  | cons a l ih => simp [ih]

theorem sum_add {α : Type} (l : List α) (f g : α → Nat) : (l.map fun a => f a + g a).sum = (l.map f).sum + (l.map g).sum := by
  induction l with
  | nil => rfl
  | cons a l ih => simp only [List.map_cons, List.sum_cons, ih]; omega

theorem work_zero (r : Re) (s : RePos) : r.work s (fun _ => 0) = r.steps s := by
  unfold work
  have : ((r.run s).map fun _ => 0).sum = 0 := by
    induction r.run s with
    | nil => rfl
    | cons a l ih => simpa using ih
  omega

theorem work_seq (a b : Re) (s : RePos) (k : RePos → Nat) : (Re.seq a b).work s k = 1 + a.work s fun t => b.work t k := by
  simp only [work, steps, run, sum_flatMap, sum_add]
  omega

theorem work_alt (a b : Re) (s : RePos) (k : RePos → Nat) : (Re.alt a b).work s k = 1 + a.work s k + b.work s k := by
  simp only [work, steps, run, List.map_append, List.sum_append]
  omega

theorem work_opt (a : Re) (s : RePos) (k : RePos → Nat) : (Re.opt a).work s k = 1 + a.work s k + k s := by
  simp only [work, steps, run, List.map_append, List.sum_append, List.map_cons, List.map_nil, List.sum_cons, List.sum_nil]
  omega

theorem work_group (n : Str) (a : Re) (s : RePos) (k : RePos → Nat) :
    (Re.group n a).work s k = 1 + a.work s fun t => k { t with groups := t.groups ++ [(n, s.textTo t)] } := by
  simp only [work, steps, run, List.map_map, Function.comp_def]
  omega

theorem eat_sum (p : Char → Bool) (s : RePos) (k : RePos → Nat) : ((s.eat p).map k).sum = match s.rest with
    | c :: r => if p c then k ⟨some c, r, s.groups⟩ else 0
    | [] => 0 := by
  obtain ⟨b, rest, g⟩ := s
  cases rest with
  | nil => rfl
  | cons c r =>
    simp only [RePos.eat]
    split <;> simp

theorem work_set (neg : Bool) (items : List ReItem) (s : RePos) (k : RePos → Nat) : (Re.set neg items).work s k = 1 + match s.rest with
    | c :: r => if inSet neg items c then k ⟨some c, r, s.groups⟩ else 0
    | [] => 0 := by
  rw [work, steps, run, eat_sum]

/-- A part that matches at most one character, in at most one way. -/
structure Eats (r : Re) (m : Nat) : Prop where
  one : ∀ s, r.run s = [] ∨ ∃ c u, s.rest = c :: u ∧ r.run s = [⟨some c, u, s.groups⟩]
  cost : ∀ s, r.steps s ≤ m

theorem eats_set (neg : Bool) (items : List ReItem) : Eats (.set neg items) 1 := by
  refine ⟨fun s => ?_, fun _ => Nat.le_refl _⟩
  obtain ⟨b, rest, g⟩ := s
  cases rest with
  | nil => exact .inl rfl
  | cons c u =>
    simp only [run, RePos.eat]
    split
    · exact .inr ⟨c, u, rfl, rfl⟩
    · exact .inl rfl

theorem eats_dot : Eats .dot 1 := by
  refine ⟨fun s => ?_, fun _ => Nat.le_refl _⟩
  obtain ⟨b, rest, g⟩ := s
  cases rest with
  | nil => exact .inl rfl
  | cons c u =>
    simp only [run, RePos.eat]
    split
    · exact .inr ⟨c, u, rfl, rfl⟩
    · exact .inl rfl

/-- The work of a repetition of single characters: `A` bounds what follows where the repetition could go on, `B` where it could not. -/
theorem iter_le {r : Re} {m : Nat} (h : Eats r m) (greedy : Bool) (k : RePos → Nat) (A B : Nat) : ∀ (n : Nat) (s : RePos), s.rest.length ≤ n →
    (∀ t : RePos, t.rest.length ≤ s.rest.length → r.run t ≠ [] → k t ≤ A) →
    (∀ t : RePos, t.rest.length ≤ s.rest.length → r.run t = [] → k t ≤ B) →
    iterSteps r.run r.steps n s + ((iterate greedy r.run n s).map k).sum ≤ s.rest.length * (m + 1 + A) + (m + 1 + B)
  | 0, s, hn, hA, hB => by
    have h0 : s.rest = [] := List.length_eq_zero_iff.1 (by omega)
    have hr : r.run s = [] := by
      rcases h.one s with h | ⟨c, u, h, _⟩
      · exact h
      · rw [h0] at h; cases h
    have := hB s (Nat.le_refl _) hr
    simp only [iterSteps, iterate, List.map_cons, List.map_nil, List.sum_cons, List.sum_nil]
    omega
  | n + 1, s, hn, hA, hB => by
    have hc := h.cost s
    rcases h.one s with hr | ⟨c, u, hs, hr⟩
    · have := hB s (Nat.le_refl _) hr
      simp only [iterSteps, iterate, hr, List.flatMap_nil, List.map_nil, List.sum_nil, List.nil_append]
      cases greedy <;> simp <;> omega
    · have hl : s.rest.length = u.length + 1 := by rw [hs]; rfl
      have hk := hA s (Nat.le_refl _) (by rw [hr]; simp)
      have ih := iter_le h greedy k A B n ⟨some c, u, s.groups⟩ (by simp only; omega)
        (fun t ht => hA t (by simp only at ht; omega)) (fun t ht => hB t (by simp only at ht; omega))
      have hlt : (⟨some c, u, s.groups⟩ : RePos).rest.length < s.rest.length := by simp only; omega
      simp only [iterSteps, iterate, hr, List.flatMap_cons, List.flatMap_nil, List.map_cons, List.map_nil, List.sum_cons, List.sum_nil, if_pos hlt,
        List.append_nil]
      rw [hl, Nat.succ_mul]
      simp only at ih
      cases greedy
      · simp only [Bool.false_eq_true, if_false, List.map_cons, List.sum_cons]; omega
      · simp only [if_true, List.map_append, List.sum_append, List.map_cons, List.map_nil, List.sum_cons, List.sum_nil]; omega

theorem work_star_le {r : Re} {m : Nat} (h : Eats r m) (greedy : Bool) (k : RePos → Nat) (A B : Nat) (s : RePos)
    (hA : ∀ t : RePos, t.rest.length ≤ s.rest.length → r.run t ≠ [] → k t ≤ A)
    (hB : ∀ t : RePos, t.rest.length ≤ s.rest.length → r.run t = [] → k t ≤ B) :
    (Re.star greedy r).work s k ≤ s.rest.length * (m + 1 + A) + (m + 2 + B) := by
  have := iter_le h greedy k A B _ s (Nat.le_refl _) hA hB
  simp only [work, steps, run]
  omega

theorem work_plus_le {r : Re} {m : Nat} (h : Eats r m) (greedy : Bool) (k : RePos → Nat) (A B : Nat) (s : RePos)
    (hA : ∀ t : RePos, t.rest.length ≤ s.rest.length → r.run t ≠ [] → k t ≤ A)
    (hB : ∀ t : RePos, t.rest.length ≤ s.rest.length → r.run t = [] → k t ≤ B) :
    (Re.plus greedy r).work s k ≤ s.rest.length * (m + 1 + A) + (2 * m + 2 + B) := by
  have hc := h.cost s
  rcases h.one s with hr | ⟨c, u, hs, hr⟩
  · simp only [work, steps, run, hr, List.map_nil, List.sum_nil, List.flatMap_nil]
    omega
  · have hl : s.rest.length = u.length + 1 := by rw [hs]; rfl
    have := iter_le h greedy k A B _ ⟨some c, u, s.groups⟩ (Nat.le_refl _)
      (fun t ht => hA t (by simp only at ht; omega)) (fun t ht => hB t (by simp only at ht; omega))
    simp only [work, steps, run, hr, List.map_cons, List.map_nil, List.sum_cons, List.sum_nil, List.flatMap_cons, List.flatMap_nil, List.append_nil]
    simp only at this
    rw [hl, Nat.succ_mul]
    omega

theorem work_ahead_set (neg : Bool) (items : List ReItem) (s : RePos) (k : RePos → Nat) (A : Nat) (hk : ∀ g, k { s with groups := g } ≤ A) :
    (Re.ahead (.set neg items)).work s k ≤ 2 + A := by
  simp only [work, steps, run]
  have := hk
  split
  · simp
  · rename_i t _ _
    have := hk t.groups
    simp only [List.map_cons, List.map_nil, List.sum_cons, List.sum_nil]
    omega

theorem work_mono (r : Re) (s : RePos) {k l : RePos → Nat} (h : ∀ t, k t ≤ l t) : r.work s k ≤ r.work s l := by
  unfold work
  have : ((r.run s).map k).sum ≤ ((r.run s).map l).sum := by
    induction r.run s with
    | nil => exact Nat.le_refl _
    | cons a q ih => have := h a; simp only [List.map_cons, List.sum_cons]; omega
  omega

/-! ## The parts of `term_regex` -/

theorem numEnd_work (s : RePos) : (Re.ahead (.set false [.lit ' ', .lit ')'])).work s (fun _ => 0) ≤ 2 :=
  work_ahead_set _ _ s _ 0 fun _ => Nat.le_refl _

theorem digits_run {t : RePos} (h : (Re.set false [.digit]).run t ≠ []) : ∃ c u, t.rest = c :: u ∧ isDigit c = true := by
  obtain ⟨b, rest, g⟩ := t
  cases rest with
  | nil => exact absurd rfl h
  | cons c u =>
    refine ⟨c, u, rfl, ?_⟩
    cases hc : isDigit c with
    | true => rfl
    | false => exact absurd (by simp [run, RePos.eat, inSet_digit, hc]) h

/-- Digits, then the end of the number. -/
theorem digitsEnd_work (n : Nat) (s : RePos) (hs : s.rest.length ≤ n) :
    (Re.plus true (.set false [.digit])).work s (fun t => (Re.ahead (.set false [.lit ' ', .lit ')'])).work t fun _ => 0) ≤ 4 * n + 6 := by
  have := work_plus_le (eats_set false [.digit]) true _ 2 2 s (fun t _ _ => numEnd_work t) (fun t _ _ => numEnd_work t)
  omega

/-- A literal character and what follows it. -/
theorem lit_work (d : Char) (k : RePos → Nat) (B : Nat) (t : RePos) (hB : ∀ u : RePos, u.rest.length ≤ t.rest.length → k u ≤ B) :
    (Re.set false [.lit d]).work t k ≤ 1 + B := by
  rw [work_set]
  obtain ⟨b, rest, g⟩ := t
  cases rest with
  | nil => simp
  | cons c u =>
    have := hB ⟨some c, u, g⟩ (by simp)
    simp only
    split <;> omega

theorem lit_work_digit {d : Char} (hd : isDigit d = false) (k : RePos → Nat) {t : RePos} (h : (Re.set false [.digit]).run t ≠ []) :
    (Re.set false [.lit d]).work t k ≤ 1 := by
  obtain ⟨c, u, hr, hc⟩ := digits_run h
  rw [work_set, hr]
  simp only [inSet_lit]
  have : (c == d) = false := by
    cases h : c == d with
    | false => rfl
    | true => rw [beq_iff_eq] at h; rw [h, hd] at hc; cases hc
  simp [this]

theorem opt_work (items : List ReItem) (k : RePos → Nat) (B : Nat) (s : RePos) (hB : ∀ u : RePos, u.rest.length ≤ s.rest.length → k u ≤ B) :
    (Re.opt (.set false items)).work s k ≤ 2 + 2 * B := by
  rw [work_opt, work_set]
  have h0 := hB s (Nat.le_refl _)
  obtain ⟨b, rest, g⟩ := s
  cases rest with
  | nil => simp only; omega
  | cons c u =>
    have := hB ⟨some c, u, g⟩ (by simp)
    simp only
    split <;> omega

theorem num_work (n : Nat) (s : RePos) (hs : s.rest.length ≤ n) : (Re.group k!"num" (.alt
    (.seq (.seq (.seq (.seq (.opt (.set false [.lit '+', .lit '-'])) (.plus true (.set false [.digit]))) (.set false [.lit '.']))
      (.plus true (.set false [.digit]))) (.ahead (.set false [.lit ' ', .lit ')'])))
    (.seq (.seq (.opt (.set false [.lit '-'])) (.plus true (.set false [.digit]))) (.ahead (.set false [.lit ' ', .lit ')']))))).work s
      (fun _ => 0) ≤ 22 * n + 48 := by
  rw [work_group, work_alt, work_seq, work_seq, work_seq, work_seq, work_seq, work_seq]
  have h1 := opt_work [.lit '-'] (fun t => (Re.plus true (.set false [.digit])).work t fun t =>
    (Re.ahead (.set false [.lit ' ', .lit ')'])).work t fun _ => 0) (4 * n + 6) s fun u hu => digitsEnd_work n u (by omega)
  have h2 := opt_work [.lit '+', .lit '-'] (fun t => (Re.plus true (.set false [.digit])).work t fun t => (Re.set false [.lit '.']).work t fun t =>
    (Re.plus true (.set false [.digit])).work t fun t => (Re.ahead (.set false [.lit ' ', .lit ')'])).work t fun _ => 0) (7 * n + 11) s
    fun u hu => by
      have := work_plus_le (eats_set false [.digit]) true (fun t => (Re.set false [.lit '.']).work t fun t =>
        (Re.plus true (.set false [.digit])).work t fun t => (Re.ahead (.set false [.lit ' ', .lit ')'])).work t fun _ => 0) 1 (1 + (4 * n + 6)) u
        (fun t _ h => lit_work_digit (by decide) _ h)
        (fun t ht _ => lit_work '.' _ _ t fun v hv => digitsEnd_work n v (by omega))
      omega
  omega

theorem eats_sq : Eats (.alt (.set true [.lit '"']) (.seq (.behind false [.lit '\\']) (.set false [.lit '"']))) 5 := by
  constructor
  · rintro ⟨b, rest, g⟩
    cases rest with
    | nil =>
      left
      simp only [run, RePos.eat, List.nil_append]
      rw [List.flatMap_eq_nil_iff]
      intro t ht
      cases b with
      | none => cases ht
      | some c =>
        simp only at ht
        split at ht
        · cases List.mem_singleton.1 ht; rfl
        · cases ht
    | cons c u =>
      simp only [run, RePos.eat, inSet_lit, inSet_not_lit]
      cases hc : c == '"' with
      | false =>
        right
        refine ⟨c, u, rfl, ?_⟩
        have : (c != '"') = true := by simp [bne, hc]
        rw [this]
        cases b with
        | none => rfl
        | some d =>
          have hc' : c ≠ '"' := fun h => by rw [h] at hc; cases hc
          cases hd : d == '\\' <;> simp [hc', hd]
      | true =>
        have : (c != '"') = false := by simp [bne, hc]
        rw [this]
        cases b with
        | none => left; rfl
        | some d =>
          cases hd : d == '\\'
          · left; simp [hd]
          · have hc' : c = '"' := beq_iff_eq.1 hc
            right; exact ⟨c, u, rfl, by simp [hd, hc']⟩
  · rintro ⟨b, rest, g⟩
    simp only [steps, run]
    cases b with
    | none => simp
    | some d => simp only; split <;> simp

theorem sq_work (n : Nat) (s : RePos) (hs : s.rest.length ≤ n) : (Re.group k!"sq" (.seq (.seq (.seq (.set false [.lit '"'])
    (.star true (.alt (.set true [.lit '"']) (.seq (.behind false [.lit '\\']) (.set false [.lit '"']))))) (.set false [.lit '"']))
    (.alt (.ahead (.set false [.lit ')'])) (.ahead (.set false [.space]))))).work s (fun _ => 0) ≤ 12 * n + 18 := by
  rw [work_group, work_seq, work_seq, work_seq]
  have h0 : ∀ t : RePos, (Re.set false [.lit '"']).work t (fun t =>
      (Re.alt (.ahead (.set false [.lit ')'])) (.ahead (.set false [.space]))).work t fun _ => 0) ≤ 1 + 5 := fun t =>
    lit_work '"' _ _ t fun u _ => by
      rw [work_alt]
      have h1 := work_ahead_set false [.lit ')'] u (fun _ => 0) 0 fun _ => Nat.le_refl _
      have h2 := work_ahead_set false [.space] u (fun _ => 0) 0 fun _ => Nat.le_refl _
      omega
  have := lit_work '"' (fun t => (Re.star true (.alt (.set true [.lit '"']) (.seq (.behind false [.lit '\\']) (.set false [.lit '"'])))).work t
    fun t => (Re.set false [.lit '"']).work t fun t => (Re.alt (.ahead (.set false [.lit ')'])) (.ahead (.set false [.space]))).work t fun _ => 0)
    (12 * n + 13) s fun u hu => by
      have := work_star_le eats_sq true _ 6 6 u (fun t _ _ => h0 t) (fun t _ _ => h0 t)
      omega
  omega

theorem word_work (n : Nat) (s : RePos) (hs : s.rest.length ≤ n) :
    (Re.group k!"s" (.plus true (.set true [.lit '(', .lit '^', .lit ')', .space]))).work s (fun _ => 0) ≤ 2 * n + 5 := by
  rw [work_group]
  have := work_plus_le (eats_set true [.lit '(', .lit '^', .lit ')', .space]) true (fun _ => 0) 0 0 s (fun _ _ _ => Nat.le_refl _)
    (fun _ _ _ => Nat.le_refl _)
  omega

theorem brack_work (name : Str) (d : Char) (s : RePos) : (Re.group name (.set false [.lit d])).work s (fun _ => 0) ≤ 2 := by
  rw [work_group]
  have := lit_work d (fun _ => 0) 0 s fun _ _ => Nat.le_refl _
  omega

/-- At white space, none of the alternatives takes long. -/
theorem alts_space {t : RePos} (h : (Re.set false [.space]).run t ≠ []) {a : Re} (ha : termRegex = .seq (.star true (.set false [.space])) a) :
    a.work t (fun _ => 0) ≤ 40 := by
  obtain ⟨b, rest, g⟩ := t
  cases rest with
  | nil => exact absurd rfl h
  | cons c u =>
    have hc : isSpace c = true := by
      cases hc : isSpace c with
      | true => rfl
      | false => exact absurd (by simp [run, RePos.eat, inSet_space, hc]) h
    have hd := isDigit_of_space hc
    have hq : ∀ d : Char, isSpace d = false → (c == d) = false := by
      intro d hd
      cases h : c == d with
      | false => rfl
      | true => rw [beq_iff_eq] at h; rw [h, hd] at hc; cases hc
    cases ha
    simp [work, steps, run, RePos.eat, inSet, ReItem.has, hc, hd, hq '(' (by decide), hq ')' (by decide), hq '+' (by decide), hq '-' (by decide),
      hq '"' (by decide)]

theorem term_work (n : Nat) (s : RePos) (hs : s.rest.length ≤ n) : termRegex.work s (fun _ => 0) ≤ 83 * (n + 1) := by
  have ha : ∃ a, termRegex = .seq (.star true (.set false [.space])) a ∧ ∀ t : RePos, t.rest.length ≤ n → a.work t (fun _ => 0) ≤ 36 * n + 79 := by
    refine ⟨_, rfl, fun t ht => ?_⟩
    rw [work_alt, work_alt, work_alt, work_alt]
    have h1 := brack_work k!"brackl" '(' t
    have h2 := brack_work k!"brackr" ')' t
    have h3 := num_work n t ht
    have h4 := sq_work n t ht
    have h5 := word_work n t ht
    omega
  obtain ⟨a, ha, hb⟩ := ha
  rw [ha, work_seq]
  have := work_star_le (eats_set false [.space]) true (fun t => a.work t fun _ => 0) 40 (36 * n + 79) s
    (fun t _ h => alts_space h ha) (fun t ht _ => hb t (by omega))
  omega

theorem finish_work (s : RePos) : Re.finish.work s (fun _ => 0) ≤ 1 := by rw [work_zero]; exact Nat.le_refl _

theorem start_work (s : RePos) (k : RePos → Nat) : Re.start.work s k ≤ 1 + k s := by
  simp only [work, steps, run]
  split <;> simp

theorem plusEnd_work (r : Re) (h : Eats r 1) (name : Str) (n : Nat) (s : RePos) (hs : s.rest.length ≤ n) :
    (Re.group name (.plus false r)).work s (fun t => Re.finish.work t fun _ => 0) ≤ 3 * n + 6 := by
  rw [work_group]
  have := work_plus_le h false (fun t => Re.finish.work { t with groups := t.groups ++ [(name, s.textTo t)] } fun _ => 0) 1 1 s
    (fun t _ _ => finish_work _) (fun t _ _ => finish_work _)
  omega

theorem alts_blanks {t : RePos} {j : Nat} (h : t.rest = List.replicate j ' ') {a : Re}
    (ha : termRegex = .seq (.star true (.set false [.space])) a) : a.run t = [] := by
  obtain ⟨b, rest, g⟩ := t
  subst h
  cases ha
  cases j with
  | zero => simp [run, RePos.eat]
  | succ j =>
    have h1 : isSpace ' ' = true := by decide
    have h2 : isDigit ' ' = false := by decide
    simp [run, RePos.eat, inSet, ReItem.has, List.replicate_succ, h1, h2]

/-! ## The engine finds the first way, in no more steps -/

theorem orElse_fst {α : Type} (x : Option α × Nat) (y : Unit → Option α × Nat) : (orElse x y).1 = x.1.or (y ()).1 := by
  obtain ⟨_ | a, n⟩ := x <;> rfl

theorem orElse_snd {α : Type} (x : Option α × Nat) (y : Unit → Option α × Nat) : (orElse x y).2 ≤ x.2 + (y ()).2 := by
  obtain ⟨_ | a, n⟩ := x <;> simp [orElse]

theorem some_fst {α β : Type} (s : β) (k : β → Option α × Nat) : ([s].findSome? fun t => (k t).1) = (k s).1 := by
  cases h : (k s).1 <;> simp [List.findSome?, h]

/-- `seek` does what `run` and `work` say. -/
def Ok (a : Re) : Prop := ∀ {α : Type} (s : RePos) (k : RePos → Option α × Nat),
  (a.seek s k).1 = (a.run s).findSome? (fun t => (k t).1) ∧ (a.seek s k).2 ≤ a.work s fun t => (k t).2

theorem loop_spec {a : Re} (ih : a.Ok) {α : Type} (greedy : Bool) (k : RePos → Option α × Nat) (n : Nat) (s : RePos) :
    (loop greedy a.seek k n s).1 = (iterate greedy a.run n s).findSome? (fun t => (k t).1) ∧
      (loop greedy a.seek k n s).2 ≤ iterSteps a.run a.steps n s + ((iterate greedy a.run n s).map fun t => (k t).2).sum := by
  induction n generalizing s with
  | zero =>
    simp only [loop, tick, iterate, iterSteps, List.map_cons, List.map_nil, List.sum_cons, List.sum_nil]
    exact ⟨(some_fst s k).symm, by omega⟩
  | succ n hn =>
    obtain ⟨h1, h2⟩ := ih s fun t => if t.rest.length < s.rest.length then loop greedy a.seek k n t else (none, 1)
    have e1 : ((a.run s).findSome? fun t => (if t.rest.length < s.rest.length then loop greedy a.seek k n t else (none, 1)).1) =
        ((a.run s).flatMap fun t => if t.rest.length < s.rest.length then iterate greedy a.run n t else []).findSome? fun t => (k t).1 := by
      rw [findSome_flatMap]
      congr 1
      funext t
      split
      · exact (hn t).1
      · rfl
    have e2 : (a.work s fun t => (if t.rest.length < s.rest.length then loop greedy a.seek k n t else (none, 1)).2) ≤
        a.steps s + ((a.run s).map fun t => if t.rest.length < s.rest.length then iterSteps a.run a.steps n t else 1).sum +
        (((a.run s).flatMap fun t => if t.rest.length < s.rest.length then iterate greedy a.run n t else []).map fun t => (k t).2).sum := by
      rw [sum_flatMap, Nat.add_assoc, ← sum_add]
      refine work_mono a s fun t => ?_
      split
      · exact (hn t).2
      · simp
    rw [e1] at h1
    have h2 := Nat.le_trans h2 e2
    generalize hx : (a.seek s fun t => if t.rest.length < s.rest.length then loop greedy a.seek k n t else (none, 1)) = x at *
    simp only [loop, tick, iterate, iterSteps, hx]
    generalize ((a.run s).flatMap fun t => if t.rest.length < s.rest.length then iterate greedy a.run n t else []) = l at *
    cases greedy
    · simp only [Bool.false_eq_true, if_false, orElse_fst, List.map_cons, List.sum_cons]
      have := orElse_snd (k s) fun _ => x
      refine ⟨?_, by omega⟩
      rw [h1, List.findSome?_cons]
      cases (k s).1 <;> rfl
    · simp only [if_true, orElse_fst, List.map_append, List.sum_append, List.map_cons, List.map_nil, List.sum_cons, List.sum_nil]
      have := orElse_snd x fun _ => k s
      refine ⟨?_, by omega⟩
      rw [h1, List.findSome?_append, some_fst]

theorem seek_spec (r : Re) : r.Ok := by
  induction r with
  | empty =>
    intro α s k
    simp only [seek, tick, run, work, steps, List.map_cons, List.map_nil, List.sum_cons, List.sum_nil, some_fst]
    exact ⟨trivial, by omega⟩
  | set neg items =>
    intro α s k
    obtain ⟨b, rest, g⟩ := s
    rw [work_set]
    cases rest with
    | nil => exact ⟨rfl, Nat.le_refl _⟩
    | cons c u =>
      simp only [seek, run, RePos.eat]
      split
      · refine ⟨(some_fst _ k).symm, ?_⟩
        simp only [tick]; omega
      · exact ⟨rfl, Nat.le_refl _⟩
  | dot =>
    intro α s k
    obtain ⟨b, rest, g⟩ := s
    simp only [work, steps, run, eat_sum]
    cases rest with
    | nil => exact ⟨rfl, Nat.le_refl _⟩
    | cons c u =>
      simp only [seek, RePos.eat]
      split
      · refine ⟨(some_fst _ k).symm, ?_⟩
        simp only [tick]; omega
      · exact ⟨rfl, Nat.le_refl _⟩
  | seq a b iha ihb =>
    intro α s k
    rw [seek, work_seq]
    obtain ⟨h1, h2⟩ := iha s fun t => b.seek t k
    refine ⟨?_, ?_⟩
    · show (a.seek s fun t => b.seek t k).1 = _
      rw [h1, run, findSome_flatMap]
      congr 1
      funext t
      exact (ihb t k).1
    · have := work_mono a s fun t => (ihb t k).2
      simp only [tick]
      omega
  | alt a b iha ihb =>
    intro α s k
    rw [seek, work_alt, run, List.findSome?_append]
    obtain ⟨a1, a2⟩ := iha s k
    obtain ⟨b1, b2⟩ := ihb s k
    have := orElse_snd (a.seek s k) fun _ => b.seek s k
    simp only [tick, orElse_fst, a1, b1]
    exact ⟨trivial, by omega⟩
  | opt a iha =>
    intro α s k
    rw [seek, work_opt, run, List.findSome?_append, some_fst]
    obtain ⟨a1, a2⟩ := iha s k
    have := orElse_snd (a.seek s k) fun _ => k s
    simp only [tick, orElse_fst, a1]
    exact ⟨trivial, by omega⟩
  | star greedy a iha =>
    intro α s k
    obtain ⟨h1, h2⟩ := loop_spec iha greedy k s.rest.length s
    simp only [seek, tick, work, steps, run]
    exact ⟨h1, by omega⟩
  | plus greedy a iha =>
    intro α s k
    obtain ⟨h1, h2⟩ := iha s fun t => loop greedy a.seek k t.rest.length t
    simp only [seek, tick, run]
    refine ⟨?_, ?_⟩
    · rw [h1, findSome_flatMap]
      congr 1
      funext t
      exact (loop_spec iha greedy k t.rest.length t).1
    · have := Nat.le_trans h2 (work_mono a s fun t => (loop_spec iha greedy k t.rest.length t).2)
      simp only [work, sum_add] at this
      simp only [work, steps, run, sum_flatMap]
      omega
  | group n a iha =>
    intro α s k
    obtain ⟨h1, h2⟩ := iha s fun t => k { t with groups := t.groups ++ [(n, s.textTo t)] }
    rw [seek, work_group, run, List.findSome?_map]
    simp only [tick]
    exact ⟨h1, by omega⟩
  | ahead a iha =>
    intro α s k
    obtain ⟨h1, h2⟩ := iha s fun t => (some t, 0)
    rw [work_zero] at h2
    have h1 : (a.seek s fun t => (some t, 0)).1 = (a.run s).head? := by
      rw [h1]; cases a.run s <;> rfl
    simp only [seek, work, steps, run]
    generalize (a.seek s fun t => (some t, 0)) = x at *
    obtain ⟨y, n⟩ := x
    simp only at h1 h2
    subst h1
    cases a.run s with
    | nil => exact ⟨rfl, by simp; omega⟩
    | cons t l =>
      refine ⟨(some_fst _ k).symm, ?_⟩
      simp only [List.head?_cons, List.map_cons, List.map_nil, List.sum_cons, List.sum_nil]
      omega
  | behind neg items =>
    intro α s k
    obtain ⟨b, rest, g⟩ := s
    simp only [seek, work, steps, run]
    cases b with
    | none => exact ⟨rfl, Nat.le_refl _⟩
    | some c =>
      simp only
      split
      · refine ⟨(some_fst _ k).symm, ?_⟩
        simp only [tick, List.map_cons, List.map_nil, List.sum_cons, List.sum_nil]; omega
      · exact ⟨rfl, Nat.le_refl _⟩
  | start =>
    intro α s k
    simp only [seek, work, steps, run]
    split
    · refine ⟨(some_fst _ k).symm, ?_⟩
      simp only [tick, List.map_cons, List.map_nil, List.sum_cons, List.sum_nil]; omega
    · exact ⟨rfl, Nat.le_refl _⟩
  | finish =>
    intro α s k
    simp only [seek, work, steps, run]
    split
    · refine ⟨(some_fst _ k).symm, ?_⟩
      simp only [tick, List.map_cons, List.map_nil, List.sum_cons, List.sum_nil]; omega
    · exact ⟨rfl, Nat.le_refl _⟩

/-- The engine finds what `Re.run` finds first. -/
theorem engine_fst (r : Re) (s : RePos) : (r.engine s).1 = (r.run s).head? := by
  unfold engine
  rw [(seek_spec r s _).1]
  cases r.run s <;> rfl

theorem engine_snd (r : Re) (s : RePos) : (r.engine s).2 ≤ r.steps s := by
  rw [← work_zero]
  exact (seek_spec r s fun t => (some t, 0)).2

theorem matchCount_fst (r : Re) (s : Str) : (r.matchCount s).1 = r.match? s := by
  unfold matchCount match?
  rw [engine_fst]

theorem findCount_fst (r : Re) (n : Nat) (b : Option Char) (s : Str) : (r.findCount n b s).1 = r.findFrom n b s := by
  induction n generalizing b s with
  | zero => rfl
  | succ n ih =>
    simp only [findCount, findFrom, engine_fst]
    cases (r.run ⟨b, s, []⟩).head? with
    | some t =>
      simp only
      split
      · simp only [ih, List.singleton_append]
      · cases s with
        | nil => rfl
        | cons c u => simp only [ih, List.singleton_append]
    | none =>
      cases s with
      | nil => rfl
      | cons c u => simp only [ih, List.nil_append]

/-- The search for all matches, if one attempt takes at most `K * (n + 1)` steps. -/
theorem findCount_le {r : Re} {K : Nat} (h : ∀ n (s : RePos), s.rest.length ≤ n → (r.engine s).2 ≤ K * (n + 1)) (N : Nat) :
    ∀ (n : Nat) (b : Option Char) (s : Str), s.length < n → s.length ≤ N → (r.findCount n b s).2 ≤ (s.length + 1) * (1 + K * (N + 1))
  | 0, _, _, hn, _ => absurd hn (Nat.not_lt_zero _)
  | n + 1, b, s, hn, hN => by
    have h1 := h N ⟨b, s, []⟩ hN
    have ih := fun b' (s' : Str) (hs : s'.length < s.length) => findCount_le h N n b' s' (by omega) (by omega)
    have mono : ∀ s' : Str, s'.length < s.length → (s'.length + 1) * (1 + K * (N + 1)) ≤ s.length * (1 + K * (N + 1)) := fun s' hs =>
      Nat.mul_le_mul_right _ (by omega)
    simp only [findCount]
    rw [Nat.succ_mul]
    split
    · next t _ =>
      split
      · next hlt => have := ih t.before t.rest hlt; have := mono t.rest hlt; simp only; omega
      · cases s with
        | nil => simp only [List.length_nil]; omega
        | cons c u =>
          have := ih (some c) u (by simp)
          have := mono u (by simp)
          simp only
          omega
    · cases s with
      | nil => simp only [List.length_nil]; omega
      | cons c u =>
        have := ih (some c) u (by simp)
        have := mono u (by simp)
        simp only
        omega

/-! ## Blanks -/

theorem space_run (b : Option Char) (g : List (Str × Str)) (k : Nat) :
    (Re.set false [.space]).run ⟨b, List.replicate (k + 1) ' ', g⟩ = [⟨some ' ', List.replicate k ' ', g⟩] := by
  have : inSet false [.space] ' ' = true := by decide
  simp [run, RePos.eat, List.replicate_succ, this]

/-- If nothing matches behind the blanks, all of them are tried. -/
theorem loop_blanks {α : Type} (k : RePos → Option α × Nat) (hk : ∀ t : RePos, (∃ j, t.rest = List.replicate j ' ') → (k t).1 = none)
    (b : Option Char) (g : List (Str × Str)) (n : Nat) :
    (loop true (Re.set false [.space]).seek k n ⟨b, List.replicate n ' ', g⟩).1 = none ∧
      2 * n + 1 ≤ (loop true (Re.set false [.space]).seek k n ⟨b, List.replicate n ' ', g⟩).2 := by
  induction n generalizing b with
  | zero => exact ⟨hk _ ⟨0, rfl⟩, by simp [loop, tick]⟩
  | succ n ih =>
    have h1 : inSet false [.space] ' ' = true := by decide
    obtain ⟨ih1, ih2⟩ := ih (some ' ')
    have h2 := hk ⟨b, List.replicate (n + 1) ' ', g⟩ ⟨n + 1, rfl⟩
    rw [List.replicate_succ] at h2 ⊢
    have e : ∀ f : RePos → Option α × Nat, (Re.set false [.space]).seek ⟨b, ' ' :: List.replicate n ' ', g⟩ f =
        tick (f ⟨some ' ', List.replicate n ' ', g⟩) := fun f => by simp only [seek, h1, if_true]
    have e' : loop true (Re.set false [.space]).seek k (n + 1) ⟨b, ' ' :: List.replicate n ' ', g⟩ =
        tick (orElse (tick (loop true (Re.set false [.space]).seek k n ⟨some ' ', List.replicate n ' ', g⟩)) fun _ =>
          k ⟨b, ' ' :: List.replicate n ' ', g⟩) := by
      rw [loop]
      simp only [if_true, e]
      rw [if_pos (by simp)]
    rw [e']
    generalize (loop true (Re.set false [.space]).seek k n ⟨some ' ', List.replicate n ' ', g⟩) = x at *
    obtain ⟨y, m⟩ := x
    simp only at ih1 ih2
    subst ih1
    simp only [tick, orElse, h2]
    exact ⟨trivial, by omega⟩

theorem term_blanks (b : Option Char) (k : Nat) : (termRegex.engine ⟨b, List.replicate k ' ', []⟩).1 = none ∧
    2 * k + 1 ≤ (termRegex.engine ⟨b, List.replicate k ' ', []⟩).2 := by
  obtain ⟨a, ha⟩ : ∃ a, termRegex = .seq (.star true (.set false [.space])) a := ⟨_, rfl⟩
  have h := loop_blanks (fun t => a.seek t fun t => ((some t, 0) : Option RePos × Nat)) (fun t ⟨j, hj⟩ => by
    rw [(seek_spec a t _).1, alts_blanks hj ha]; rfl) b [] k
  rw [ha]
  have e : (Re.seq (.star true (.set false [.space])) a).engine ⟨b, List.replicate k ' ', []⟩ =
      tick (tick (loop true (Re.set false [.space]).seek (fun t => a.seek t fun t => (some t, 0)) k ⟨b, List.replicate k ' ', []⟩)) := by
    rw [engine, seek, seek, List.length_replicate]
  rw [e]
  exact ⟨h.1, Nat.le_trans h.2 (Nat.le_trans (Nat.le_succ _) (Nat.le_succ _))⟩

theorem find_blanks (b : Option Char) (n k : Nat) (h : k < n) : k ^ 2 ≤ (termRegex.findCount n b (List.replicate k ' ')).2 := by
  induction k generalizing n b with
  | zero => simp
  | succ k ih =>
    obtain ⟨h1, h2⟩ := term_blanks b (k + 1)
    match n, h with
    | n + 1, h =>
      simp only [findCount]
      rw [h1]
      simp only [List.replicate_succ] at h2 ⊢
      have := ih (some ' ') n (by omega)
      have e : (k + 1) ^ 2 = k ^ 2 + 2 * k + 1 := by rw [Nat.pow_two, Nat.pow_two, Nat.add_mul, Nat.mul_add]; omega
      omega

end Re
end Kiutils
