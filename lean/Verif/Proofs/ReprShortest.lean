import Verif.Proofs.FloatInt
/-!
# `shortest` finds the shortest decimal, and the nearest of those of its length
-/
namespace Kiutils
namespace F64

/-- The value `v` is read as the double `f`. -/
def Reads (neg : Bool) (v : ℚ) (f : F64) : Prop := ∃ a b : ℕ, 0 < b ∧ (a / b : ℚ) = v ∧ ofRat neg a b = f

theorem Reads.iff {neg : Bool} {a b : ℕ} {v : ℚ} {f : F64} (hb : 0 < b) (h : (a / b : ℚ) = v) : Reads neg v f ↔ ofRat neg a b = f :=
  ⟨fun ⟨_, _, hb', h', r⟩ => (ofRat_congr hb hb' (h.trans h'.symm)).trans r, fun r => ⟨a, b, hb, h, r⟩⟩

theorem reads_self {neg : Bool} {m : Nat} {e : Int} (hc : Canonical m e) (hm : m ≠ 0) : Reads neg (m * 2 ^ e) (.fin neg m e) :=
  ⟨num m e, den e, den_pos e, num_val m e, ofRat_exact hc hm (den_pos e) (num_val m e)⟩

theorem ofDec_reads {neg : Bool} {c : Nat × Int} {k : Nat} {f : F64} : ofDec neg c.1 c.2 k = f ↔ Reads neg (decVal k c) f := by
  obtain ⟨a, b, hb, hv, hr⟩ := ofDec_eq neg c k
  rw [Reads.iff hb hv, hr]

/-- Non-negative decimals are quotients. -/
theorem exists_quot (N : ℕ) (s : ℤ) : ∃ a b : ℕ, 0 < b ∧ (a / b : ℚ) = N * 10 ^ s := by
  by_cases h : s < 0
  · refine ⟨N, 10 ^ (-s).toNat, by positivity, ?_⟩
    rw [ten_zpow_of_neg h]; push_cast; field_simp
  · refine ⟨N * 10 ^ s.toNat, 1, by norm_num, ?_⟩
    rw [ten_zpow_of_nonneg (by omega)]; push_cast; simp

/-- What lies between two values that are read as the same double is read as that double. -/
theorem Reads.between {neg : Bool} {m : Nat} {e : Int} (hc : Canonical m e) (hm : m ≠ 0) {v w u : ℚ} (h1 : Reads neg v (.fin neg m e))
    (h2 : Reads neg u (.fin neg m e)) (l1 : v ≤ w) (l2 : w ≤ u) {a b : ℕ} (hb : 0 < b) (hw : (a / b : ℚ) = w) :
    Reads neg w (.fin neg m e) := by
  obtain ⟨n1, d1, p1, v1, r1⟩ := h1
  obtain ⟨n2, d2, p2, v2, r2⟩ := h2
  rw [Reads.iff hb hw]
  have hs := ofRat_neg neg a b
  cases hab : ofRat neg a b with
  | inf s =>
    have := (ofRat_inf_iff hb).1 ⟨s, hab⟩
    obtain ⟨s', h'⟩ := (ofRat_inf_iff (neg := neg) p2).2 (this.trans (by rw [hw, v2]; exact l2))
    rw [r2] at h'; cases h'
  | fin s m' e' =>
    rw [hab] at hs
    obtain rfl : s = neg := hs
    have m1 := ofRat_mono p1 hb (by rw [v1, hw]; exact l1) r1 hab
    have m2 := ofRat_mono hb p2 (by rw [v2, hw]; exact l2) hab r2
    have heq : (m' * 2 ^ e' : ℚ) = m * 2 ^ e := le_antisymm m2 m1
    have hc' : Canonical m' e' := by have := ofRat_valid s (n := a) hb; rw [hab] at this; exact this
    have hm' : m' ≠ 0 := by
      rintro rfl
      have : (0 : ℚ) < m * 2 ^ e := by
        have : (0 : ℚ) < m := by exact_mod_cast Nat.pos_of_ne_zero hm
        positivity
      rw [← heq] at this; simp at this
    have e1 := ofRat_exact (neg := s) hc hm (den_pos e) (num_val m e)
    have e2 := ofRat_exact (neg := s) hc' hm' (den_pos e) (by rw [num_val, heq])
    rw [← e1, ← e2]

/-- If a value below a double is read as the double, then so is the value that is as far above it: the doubles above are not nearer
than those below. -/
theorem Reads.reflect {neg : Bool} {m : Nat} {e : Int} (hc : Canonical m e) (hm : m ≠ 0) {v w : ℚ} (h : Reads neg v (.fin neg m e))
    (l1 : (m * 2 ^ e : ℚ) ≤ w) (l2 : w - m * 2 ^ e ≤ m * 2 ^ e - v) {a b : ℕ} (hb : 0 < b) (hw : (a / b : ℚ) = w) :
    Reads neg w (.fin neg m e) := by
  obtain ⟨n, d, hd, hv, hr⟩ := h
  rw [Reads.iff hb hw]
  have hp : (0 : ℚ) < 2 ^ e := by positivity
  have hm0 : (0 : ℚ) < m := by exact_mod_cast Nat.pos_of_ne_zero hm
  have hm53 : (m : ℚ) + 1 ≤ 2 ^ 53 := by exact_mod_cast hc.man
  have hn : n ≠ 0 := by
    rintro rfl
    simp only [ofRat, if_true] at hr
    cases hr; exact hm rfl
  have hw0 : (0 : ℚ) < w := lt_of_lt_of_le (by positivity) l1
  have ha : 0 < a := by
    rcases Nat.eq_zero_or_pos a with rfl | h
    · simp at hw; linarith
    · exact h
  have e1 := isExp_expOf (Nat.pos_of_ne_zero hn) hd
  have r1 := roundDiv_rounds (n := (scale n d (expOf n d)).1) (scale_pos (n := n) hd (expOf n d))
  rw [scale_val hd] at r1
  rw [ofRat_eq (Nat.pos_of_ne_zero hn) hd e1 r1] at hr
  rw [hv] at e1 r1
  generalize expOf n d = x at *
  generalize roundDiv (scale n d x).1 (scale n d x).2 = r at *
  by_cases h53 : r = 2 ^ 53
  · simp only [h53, if_true] at hr
    split at hr
    · cases hr
    · cases hr
      have hx : (2 : ℚ) ^ (x + 1) = 2 * 2 ^ x := by rw [zpow_add₀ (by norm_num)]; norm_num; ring
      obtain ⟨b1, b2, -, -⟩ := r1
      have hp' : (0 : ℚ) < 2 ^ x := by positivity
      rw [h53] at b1
      have b1' : ((2 : ℚ) ^ 53 - 1 / 2) * 2 ^ x ≤ v := by
        rw [← le_div_iff₀ hp']; push_cast at b1; linarith
      push_cast at l1 l2
      rw [hx] at l1 l2
      refine ofRat_near hc hm hb ?_ ?_ fun _ => ?_ <;> rw [hw, hx] <;> push_cast <;> norm_num at * <;> nlinarith
  · simp only [h53, if_false] at hr
    split at hr
    · cases hr
    · cases hr
      obtain ⟨b1, b2, b3, b4⟩ := r1
      have hq : v = v / 2 ^ e * 2 ^ e := by field_simp
      have hq' : w = w / 2 ^ e * 2 ^ e := by field_simp
      have l2' : w / 2 ^ e - m ≤ m - v / 2 ^ e := by
        have : (w / 2 ^ e - m) * 2 ^ e ≤ (m - v / 2 ^ e) * 2 ^ e := by
          rw [sub_mul, sub_mul, ← hq, ← hq']; exact l2
        exact le_of_mul_le_mul_right this hp
      have l1' : (m : ℚ) ≤ w / 2 ^ e := by rw [le_div_iff₀ hp]; exact l1
      have hE : IsExp (a / b : ℚ) e := by
        rw [hw]
        refine ⟨?_, ?_, hc.lo⟩
        · rw [← div_lt_iff₀ hp]; norm_num at hm53 ⊢; linarith
        · rcases hc.norm with h | h
          · left
            rw [← le_div_iff₀ hp]
            have : (4503599627370496 : ℚ) ≤ m := by exact_mod_cast h
            norm_num only
            linarith
          · exact .inr h
      have hR : Rounds ((a / b : ℚ) / 2 ^ e) m := by
        rw [hw]
        exact ⟨by linarith, by linarith, fun h => by linarith, fun h => b3 (by linarith)⟩
      rw [ofRat_eq ha hb hE hR]
      have := hc.hi
      simp only [h53, if_false]
      rw [if_neg (by omega)]

/-! ## Decimals of one length -/

/-- No multiple of the unit is nearer than one within half a unit. -/
theorem multiple_nearest {t x : ℚ} (ht : 0 < t) {R : ℕ} (h : |R * t - x| ≤ t / 2) (N : ℕ) : |R * t - x| ≤ |N * t - x| := by
  rcases Nat.lt_trichotomy N R with hN | rfl | hN
  · have : (N : ℚ) + 1 ≤ R := by exact_mod_cast hN
    have h1 : (R * t - x) - (N * t - x) ≥ t := by nlinarith
    have h2 := (abs_le.1 h).2
    have h3 := neg_le_abs (N * t - x)
    linarith
  · exact le_rfl
  · have : (R : ℚ) + 1 ≤ N := by exact_mod_cast hN
    have h1 : (N * t - x) - (R * t - x) ≥ t := by nlinarith
    have h2 := (abs_le.1 h).1
    have h3 := le_abs_self (N * t - x)
    linarith

theorem IsDec.multiple {k : Nat} {p : Int} {c : Nat × Int} (h : IsDec k p c) : ∃ R : ℕ, decVal k c = R * 10 ^ (p - k + 1) := by
  unfold decVal
  rcases h.exp with h | ⟨h, -⟩
  · exact ⟨c.1, by rw [h]⟩
  · refine ⟨c.1 * 10, ?_⟩
    rw [h, show p + 1 - (k : ℤ) + 1 = (p - k + 1) + 1 by ring, zpow_add₀ (by norm_num)]
    push_cast; ring

theorem upDec_val {n d : Nat} {p : Int} {k : Nat} (hd : 0 < d) (hk : 0 < k) (h1 : (10 : ℚ) ^ p ≤ n / d)
    (h2 : (n / d : ℚ) < 10 ^ (p + 1)) : ∃ U : ℕ, decVal k (upDec n d p k) = (U + 1 : ℕ) * 10 ^ (p - k + 1) ∧
      (U * 10 ^ (p - k + 1) : ℚ) ≤ n / d ∧ (n / d : ℚ) < (U + 1 : ℕ) * 10 ^ (p - k + 1) := by
  obtain ⟨a, b, hb, hab, _, hr⟩ := ten_scale (n := n) hd (p - k + 1)
  unfold upDec
  simp only [hr]
  obtain ⟨l1, l2⟩ := dec_range hk h1 h2
  rw [← hab] at l1 l2
  have hb' : (0 : ℚ) < b := by exact_mod_cast hb
  rw [le_div_iff₀ hb'] at l1
  rw [div_lt_iff₀ hb'] at l2
  have l1' : 10 ^ (k - 1) * b ≤ a := by exact_mod_cast l1
  have l2' : a < 10 ^ k * b := by exact_mod_cast l2
  rw [← Nat.le_div_iff_mul_le hb] at l1'
  rw [← Nat.div_lt_iff_lt_mul hb] at l2'
  refine ⟨a / b, (isDec_carry hk (by omega) (by omega)).2, ?_, ?_⟩
  · rw [← le_div_iff₀ (by positivity), ← hab, le_div_iff₀ hb']
    exact_mod_cast Nat.div_mul_le_self a b
  · rw [← div_lt_iff₀ (by positivity), ← hab, div_lt_iff₀ hb']
    exact_mod_cast Nat.lt_mul_of_div_lt (Nat.lt_succ_self _) hb

/-- Among the multiples of the unit of `k` digits there is one that is read as the double and is as near as the given decimal. -/
theorem to_multiple {neg : Bool} {m : Nat} {e : Int} (hc : Canonical m e) (hm : m ≠ 0) {k : Nat} (hk : 0 < k) {p : Int}
    (hp : (10 : ℚ) ^ p ≤ m * 2 ^ e) {D : ℕ} {q : ℤ} (hD : D < 10 ^ k) (h : Reads neg (D * 10 ^ q) (.fin neg m e)) :
    ∃ N : ℕ, Reads neg (N * 10 ^ (p - k + 1)) (.fin neg m e) ∧
      |(N * 10 ^ (p - k + 1) : ℚ) - m * 2 ^ e| ≤ |(D * 10 ^ q : ℚ) - m * 2 ^ e| := by
  by_cases hq : p - k + 1 ≤ q
  · have hv : (D * 10 ^ q : ℚ) = (D * 10 ^ (q - (p - k + 1)).toNat : ℕ) * 10 ^ (p - k + 1) := by
      push_cast
      rw [mul_assoc, ← zpow_natCast, ← zpow_add₀ (by norm_num)]
      congr 2
      omega
    rw [hv] at h ⊢
    exact ⟨_, h, le_rfl⟩
  · have hD' : (D : ℚ) ≤ (10 : ℚ) ^ (k : ℤ) := by
      rw [zpow_natCast]; exact_mod_cast hD.le
    have hle : (D * 10 ^ q : ℚ) ≤ 10 ^ p := by
      calc (D * 10 ^ q : ℚ) ≤ 10 ^ (k : ℤ) * 10 ^ (p - k) := by
            exact mul_le_mul hD' (zpow_le_zpow_right₀ (by norm_num) (by omega)) (by positivity) (by positivity)
        _ = 10 ^ p := by rw [← zpow_add₀ (by norm_num)]; congr 1; omega
    have hv : ((10 ^ (k - 1) : ℕ) * 10 ^ (p - k + 1) : ℚ) = 10 ^ p := by
      push_cast
      rw [← zpow_natCast, ← zpow_add₀ (by norm_num)]
      congr 1
      omega
    refine ⟨10 ^ (k - 1), ?_, ?_⟩ <;> rw [hv]
    · obtain ⟨a, b, hb, hab⟩ := exists_quot (10 ^ (k - 1)) (p - k + 1)
      exact h.between hc hm (reads_self hc hm) hle hp hb (hab.trans hv)
    · rw [abs_of_nonpos (by linarith), abs_of_nonpos (by linarith)]
      linarith

/-- If a decimal of at most `k` digits is read as the double, then `nearDec` or `upDec` gives one, and the first that does is as near. -/
theorem dec_best {neg : Bool} {m : Nat} {e : Int} (hc : Canonical m e) (hm : m ≠ 0) {k : Nat} (hk : 0 < k) {D : ℕ} {q : ℤ}
    (hD : D < 10 ^ k) (h : Reads neg (D * 10 ^ q) (.fin neg m e)) {c u : Nat × Int}
    (hcd : nearDec (num m e) (den e) (decExp (num m e) (den e)) k = c) (hu : upDec (num m e) (den e) (decExp (num m e) (den e)) k = u) :
    (Reads neg (decVal k c) (.fin neg m e) ∧ |decVal k c - m * 2 ^ e| ≤ |(D * 10 ^ q : ℚ) - m * 2 ^ e|) ∨
      (¬ Reads neg (decVal k c) (.fin neg m e) ∧ Reads neg (decVal k u) (.fin neg m e) ∧
        |decVal k u - m * 2 ^ e| ≤ |(D * 10 ^ q : ℚ) - m * 2 ^ e|) := by
  obtain ⟨h1, h2⟩ := decExp_double hc hm
  generalize decExp (num m e) (den e) = p at *
  obtain ⟨N, hN, hle⟩ := to_multiple hc hm hk h1 hD h
  have h1' := h1
  have h2' := h2
  rw [← num_val] at h1' h2'
  obtain ⟨g1, g2, g3⟩ := nearDec_spec (den_pos e) hk h1' h2'
  obtain ⟨U, u1, u2, u3⟩ := upDec_val (den_pos e) hk h1' h2'
  rw [hcd] at g1 g2 g3
  rw [hu] at u1
  rw [num_val] at g2 g3 u2 u3
  obtain ⟨R, hR⟩ := g1.multiple
  rw [hR] at g2 g3 ⊢
  rw [u1]
  obtain ⟨ra, rb, hrb, hrab⟩ := exists_quot R (p - k + 1)
  obtain ⟨ua, ub, hub, huab⟩ := exists_quot (U + 1) (p - k + 1)
  have ht : (0 : ℚ) < 10 ^ (p - k + 1) := by positivity
  generalize (10 : ℚ) ^ (p - (k : ℤ) + 1) = t at *
  have hx : Reads neg (m * 2 ^ e) (.fin neg m e) := reads_self hc hm
  have hrefl := fun w l1 l2 a b hb hw => Reads.reflect hc hm hN (w := w) l1 l2 (a := a) (b := b) hb hw
  have hbet := fun v w u h1 h2 l1 l2 a b hb hw =>
    Reads.between hc hm (neg := neg) (v := v) (w := w) (u := u) h1 h2 l1 l2 (a := a) (b := b) hb hw
  generalize (m * 2 ^ e : ℚ) = x at *
  have hnear := multiple_nearest ht (x := x) (R := R) (abs_le.2 ⟨by linarith, by linarith⟩) N
  by_cases hr : Reads neg (R * t) (.fin neg m e)
  · exact .inl ⟨hr, hnear.trans hle⟩
  · refine .inr ⟨hr, ?_⟩
    have hgt : x < N * t := by
      by_contra hN'
      have hN' := not_lt.1 hN'
      rw [abs_of_nonpos (a := N * t - x) (by linarith)] at hnear
      have := abs_le.1 hnear
      refine hr ?_
      by_cases hRx : R * t ≤ x
      · exact hbet _ _ _ hN hx (by linarith) hRx _ _ hrb hrab
      · exact hrefl _ (by linarith) (by linarith) _ _ hrb hrab
    have hU : ((U + 1 : ℕ) : ℚ) * t ≤ N * t := by
      refine mul_le_mul_of_nonneg_right ?_ ht.le
      have : (U : ℚ) < N := by
        by_contra hlt
        have := mul_le_mul_of_nonneg_right (not_lt.1 hlt) ht.le
        linarith
      exact_mod_cast this
    refine ⟨hbet _ _ _ hx hN u3.le hU _ _ hub huab, le_trans ?_ hle⟩
    rw [abs_of_nonneg (by linarith), abs_of_nonneg (by linarith)]
    linarith

/-- The result of the search: a decimal of `k'` digits that is read as the double; none with fewer digits is, and none of `k'` digits
that is is nearer. -/
theorem shortest_best {neg : Bool} {m : Nat} {e : Int} (hc : Canonical m e) (hm : m ≠ 0) :
    ∀ {fuel k : Nat}, 0 < k → k ≤ 17 → 18 ≤ k + fuel → ∃ k', k ≤ k' ∧ k' ≤ 17 ∧
      IsDec k' (decExp (num m e) (den e)) (shortest neg m e fuel k) ∧
      Reads neg (decVal k' (shortest neg m e fuel k)) (.fin neg m e) ∧
      (∀ (D : ℕ) (q : ℤ) (j : ℕ), k ≤ j → j < k' → D < 10 ^ j → ¬ Reads neg (D * 10 ^ q) (.fin neg m e)) ∧
      (∀ (D : ℕ) (q : ℤ), D < 10 ^ k' → Reads neg (D * 10 ^ q) (.fin neg m e) →
        |decVal k' (shortest neg m e fuel k) - m * 2 ^ e| ≤ |(D * 10 ^ q : ℚ) - m * 2 ^ e|)
  | 0, k, h1, h2, h3 => by omega
  | fuel + 1, k, h1, h2, h3 => by
    obtain ⟨l1, l2⟩ := decExp_double hc hm
    rw [← num_val] at l1 l2
    have hb := fun D q hD h => dec_best (neg := neg) hc hm h1 (D := D) (q := q) hD h rfl rfl
    unfold shortest
    simp only
    split
    · next hy =>
      refine ⟨k, le_rfl, h2, (nearDec_spec (den_pos e) h1 l1 l2).1, ofDec_reads.1 hy, fun _ _ j a b => by omega, fun D q hD h => ?_⟩
      rcases hb D q hD h with h | h
      · exact h.2
      · exact absurd (ofDec_reads.1 hy) h.1
    · rename_i hno
      split
      · next hy =>
        refine ⟨k, le_rfl, h2, upDec_spec (den_pos e) h1 l1 l2, ofDec_reads.1 hy, fun _ _ j a b => by omega, fun D q hD h => ?_⟩
        rcases hb D q hD h with h | h
        · exact absurd (ofDec_reads.2 h.1) hno
        · exact h.2.2
      · next hno2 =>
        have : k ≠ 17 := by
          rintro rfl
          exact hno (ofDec_17 neg hc hm)
        obtain ⟨k', g1, g2, g3, g4, g5, g6⟩ := shortest_best (neg := neg) hc hm (fuel := fuel) (k := k + 1) (by omega) (by omega) (by omega)
        refine ⟨k', by omega, g2, g3, g4, fun D q j a b hD h => ?_, g6⟩
        by_cases hj : j = k
        · subst hj
          rcases hb D q hD h with h | h
          · exact hno (ofDec_reads.2 h.1)
          · exact hno2 (ofDec_reads.2 h.2.1)
        · exact g5 D q j (by omega) b hD h

end F64
end Kiutils
