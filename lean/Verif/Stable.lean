import Verif.Props.Numbers
import Verif.Props.Equal
import Verif.Format.Board
import Verif.Format.Schematic
import Verif.Format.Wks
import Verif.Format.Dru
import Verif.Format.Libraries
/-!
# What a loaded object looks like when it is saved again

`canon` turns integral floats into ints, as loading does. Here: doing that twice is doing it once (`CanonIdem`), and it keeps the
conditions on the parts of an object (`Stable`).
-/
namespace Kiutils
open F64

/-! ## `canon` twice -/

/-- `canon (canon a) = canon a`. -/
class CanonIdem (α : Type) [Canon α] : Prop where
  idem : ∀ a : α, canon (canon a) = canon a

export CanonIdem (idem)

instance : CanonIdem Val := ⟨canon_canon⟩
instance : CanonIdem Bool := ⟨fun _ => rfl⟩
instance : CanonIdem Nat := ⟨fun _ => rfl⟩
instance : CanonIdem Str := ⟨fun _ => rfl⟩
instance {α} [Canon α] [CanonIdem α] : CanonIdem (Option α) := ⟨fun
  | none => rfl
  | some a => congrArg some (idem a)⟩
instance {α} [Canon α] [CanonIdem α] : CanonIdem (List α) := ⟨fun l => by
  show (l.map canon).map canon = l.map canon
  rw [List.map_map]
  exact List.map_congr_left fun a _ => idem a⟩
instance {α β} [Canon α] [CanonIdem α] [Canon β] [CanonIdem β] : CanonIdem (α × β) :=
  ⟨fun p => Prod.ext (idem p.1) (idem p.2)⟩

open Lean Elab Command in
/-- Proves `CanonIdem` for a structure. -/
elab "derive_idem " n:ident : command => do
  let name ← liftCoreM <| realizeGlobalConstNoOverload n
  let env ← getEnv
  let fields := getStructureFields env name
  let o := mkIdent `o
  let l ← fields.mapM fun f => do
    let v := mkIdent (`o ++ f)
    `(Canon.canon (Canon.canon $v))
  let r ← fields.mapM fun f => do
    let v := mkIdent (`o ++ f)
    `(Canon.canon $v)
  let ctor := mkIdent (name ++ `mk)
  elabCommand (← `(instance : CanonIdem $n := ⟨fun $o => by
    show $ctor $l* = $ctor $r*
    simp only [CanonIdem.idem]⟩))

/-! ## Conditions -/

/-- The condition still holds after loading. -/
class Stable {α : Type} [Canon α] (P : α → Prop) : Prop where
  keep : ∀ {a : α}, P a → P (canon a)

theorem Stable.opt {α : Type} [Canon α] {P : α → Prop} [Stable P] {x : Option α} (h : ∀ v, x = some v → P v) :
    ∀ v, canon x = some v → P v := by
  intro v hv
  cases x with
  | none => cases hv
  | some a => cases hv; exact Stable.keep (h a rfl)

theorem Stable.list {α : Type} [Canon α] {P : α → Prop} [Stable P] {x : List α} (h : ∀ v ∈ x, P v) :
    ∀ v ∈ canon x, P v := by
  intro v hv
  obtain ⟨a, ha, rfl⟩ := List.mem_map.1 (show v ∈ x.map canon from hv)
  exact Stable.keep (h a ha)

theorem Stable.req {P : Val → Prop} [Stable P] {x : Option Val} (h : ReqOk P x) : ReqOk P (canon x) := by
  obtain ⟨v, rfl, hv⟩ := h
  exact ⟨_, rfl, Stable.keep hv⟩

instance : Stable NumOk := ⟨NumOk.canon⟩
instance [TextRule] : Stable TokOk := ⟨fun h => by rw [show canon _ = _ from h.canon]; exact h⟩
instance [TextRule] : Stable TextOk := ⟨fun h => by rw [show canon _ = _ from h.canon]; exact h⟩
instance [TextRule] : Stable LineOk := ⟨fun h => by rw [show canon _ = _ from h.canon]; exact h⟩
instance [TextRule] : Stable RawOk := ⟨fun h => by rw [show canon _ = _ from h.1.canon]; exact h⟩
instance [TextRule] : Stable WordOk := ⟨fun h => by rw [show canon _ = _ from h.1.canon]; exact h⟩
instance [TextRule] : Stable AtomOk := ⟨fun h => h.imp Stable.keep Stable.keep⟩
instance [TextRule] : Stable PadLayerOk := ⟨fun {v} h => by
  have : canon v = v := by rcases h with h | h <;> exact h.2.canon
  rw [this]; exact h⟩

/-- The same text. -/
theorem Stable.strEq {v : Val} {s : Str} (h : v = .str s) : canon v = .str s := by subst h; rfl

theorem Stable.strNe {v : Val} {s : Str} (h : v ≠ .str s) : canon v ≠ .str s := by
  intro hc
  cases v with
  | flt f =>
    have hc : (if f.isInteger then Val.int f.toInt else .flt f) = .str s := hc
    split at hc <;> cases hc
  | int _ => cases hc
  | str _ => exact h hc
  | list _ => cases hc

theorem Stable.none {α : Type} [Canon α] {x : Option α} (h : x = .none) : canon x = .none := by subst h; rfl

theorem Stable.someNe {α : Type} [Canon α] {x : Option α} (h : x ≠ .none) : canon x ≠ .none := by
  cases x with
  | none => exact absurd rfl h
  | some a => exact nofun

theorem Stable.listNe {α : Type} [Canon α] {x : List α} (h : x ≠ []) : canon x ≠ [] := by
  cases x with
  | nil => exact absurd rfl h
  | cons a l => exact nofun

theorem Stable.isEmpty {α : Type} [Canon α] {x : List α} (h : x.isEmpty = false) : (canon x).isEmpty = false := by
  cases x with
  | nil => exact h
  | cons a l => rfl

theorem keyEq_canon (a b : Val) : (canon a : Val).keyEq (canon b) = a.keyEq b := by
  show Val.keyEq a.canon b.canon = _
  unfold Val.keyEq
  rw [canon_canon, canon_canon]

theorem Stable.keys {β : Type} [Canon β] {x : List (Val × β)} (h : x.Pairwise fun a b => a.1.keyEq b.1 = false) :
    (canon x).Pairwise fun a b => a.1.keyEq b.1 = false := by
  show (x.map canon).Pairwise _
  rw [List.pairwise_map]
  exact h.imp fun hab => (keyEq_canon _ _).trans hab

theorem Stable.fst {β : Type} [Canon β] {P : Val → Prop} [Stable P] {x : List (Val × β)} (h : ∀ p ∈ x, P p.1) :
    ∀ p ∈ canon x, P p.1 := by
  intro v hv
  obtain ⟨a, ha, rfl⟩ := List.mem_map.1 (show v ∈ x.map canon from hv)
  exact Stable.keep (h a ha)

theorem Stable.snd {β : Type} [Canon β] {P : β → Prop} [Stable P] {x : List (Val × β)} (h : ∀ p ∈ x, P p.2) :
    ∀ p ∈ canon x, P p.2 := by
  intro v hv
  obtain ⟨a, ha, rfl⟩ := List.mem_map.1 (show v ∈ x.map canon from hv)
  exact Stable.keep (h a ha)

theorem isCardinal_canon (a : Val) : isCardinal (canon a) = isCardinal a := by
  unfold isCardinal
  congr 1
  funext b
  show Val.keyEq a.canon b = _
  unfold Val.keyEq
  rw [canon_canon]

/-- A condition that the value is one of some words. -/
theorem Stable.words {v : Val} {P : Val → Prop} (hP : ∀ v, P v → ∃ s, v = .str s) (h : P v) : P (canon v) := by
  obtain ⟨s, rfl⟩ := hP v h
  exact h

/-! ## Fixed notation -/

theorem integral_abs {neg : Bool} {m : Nat} {e : Int} (hi : (F64.fin neg m e).isInteger = true) :
    ∃ a : Nat, (a : ℚ) = m * 2 ^ e ∧ (F64.fin neg m e).toInt = if neg then -(a : Int) else a := by
  by_cases he : 0 ≤ e
  · refine ⟨m * 2 ^ e.toNat, ?_, ?_⟩
    · rw [two_zpow_of_nonneg he]; push_cast; rfl
    · simp only [F64.toInt, if_pos he]
  · have hmod : m % 2 ^ (-e).toNat = 0 := by
      unfold F64.isInteger at hi
      simpa [he] using hi
    obtain ⟨a, ha⟩ := Nat.dvd_of_mod_eq_zero hmod
    have hpos : 0 < 2 ^ (-e).toNat := by positivity
    refine ⟨a, ?_, ?_⟩
    · rw [two_zpow_of_neg (by omega), ha]; push_cast; field_simp
    · simp only [F64.toInt, if_neg he]; rw [ha, Nat.mul_div_cancel_left _ hpos]

/-- An int in fixed notation is read as that int. -/
theorem fixOk_int {p : Nat} {k : Int} (h : ExactInt k) : FixOk p (.int k) := by
  have hneg := ofRat_neg (decide (k < 0)) k.natAbs 1
  have hcong := fun (x d : Nat) (hd : 0 < d) (hx : (x / d : ℚ) = k.natAbs / (1 : ℕ)) =>
    ofRat_congr (neg := decide (k < 0)) (n := x) (d := d) (n' := k.natAbs) (d' := 1) hd Nat.one_pos hx
  unfold FixOk fmtFixedVal
  simp only
  have h' : Val.canon (.flt (F64.ofRat (decide (k < 0)) k.natAbs 1)) = .int k := h
  generalize hf : F64.ofRat (decide (k < 0)) k.natAbs 1 = f at *
  generalize hs : decide (k < 0) = sg at *
  cases f with
  | inf _ => cases h'
  | fin neg m e =>
    have hneg : neg = sg := hneg
    subst hneg
    simp only [Val.canon] at h'
    split at h'
    · rename_i hi
      obtain ⟨a, ha, ht⟩ := integral_abs hi
      have hk : (F64.fin neg m e).toInt = k := by cases h'; rfl
      have hak : k.natAbs = a := by rw [← hk, ht]; cases neg <;> simp
      have hN : roundDiv (num m e * 10 ^ p) (den e) = a * 10 ^ p := by
        have hd : 0 < den e := den_pos e
        refine (roundDiv_rounds hd).unique ?_
        have : ((num m e * 10 ^ p : ℕ) / den e : ℚ) = ((a * 10 ^ p : ℕ) : ℚ) := by
          push_cast
          rw [mul_div_right_comm, num_val, ← ha]
        rw [this]
        exact .of_near (by linarith) (by linarith)
      unfold F64.fmtFixed
      simp only [hN]
      have hdig : ∀ c ∈ List.replicate (p + 1 - (natStr (a * 10 ^ p)).length) '0' ++ natStr (a * 10 ^ p), isDigit c = true := by
        intro c hc
        simp only [List.mem_append, List.mem_replicate] at hc
        rcases hc with ⟨_, rfl⟩ | hc
        · rfl
        · exact natStr_digits _ _ hc
      have hdv : digitsVal (List.replicate (p + 1 - (natStr (a * 10 ^ p)).length) '0' ++ natStr (a * 10 ^ p)) = a * 10 ^ p := by
        rw [digitsVal_append, digitsVal_zeros, digitsVal_natStr]; simp
      have hlen : p + 1 ≤ (List.replicate (p + 1 - (natStr (a * 10 ^ p)).length) '0' ++ natStr (a * 10 ^ p)).length := by
        rw [List.length_append, List.length_replicate]; omega
      generalize List.replicate (p + 1 - (natStr (a * 10 ^ p)).length) '0' ++ natStr (a * 10 ^ p) = ds at *
      have hsg : ((if neg = true then some '-' else none) == some '-') = neg := by cases neg <;> rfl
      have hcanon : Val.canon (.flt (F64.fin neg m e)) = .int k := by simp only [Val.canon, hi, if_true, hk]
      by_cases hp : p = 0
      · subst hp
        refine ⟨⟨if neg then some '-' else none, ds, none⟩, ⟨?_, hdig, nofun, nofun, ?_⟩, ?_, ?_⟩
        · rintro rfl; simp at hlen
        · cases neg <;> simp
        · cases neg <;> simp [NumLit.src]
        · unfold NumLit.val
          simp only [hsg, Option.getD_none]
          unfold F64.ofDecimal
          rw [List.append_nil, hdv, hcong _ _ (by positivity) (by rw [hak]; simp)]
          exact hcanon
      · refine ⟨⟨if neg then some '-' else none, ds.take (ds.length - p), some (ds.drop (ds.length - p))⟩,
          ⟨?_, fun c hc => hdig c (List.mem_of_mem_take hc), ?_, ?_, ?_⟩, ?_, ?_⟩
        · intro h
          have := congrArg List.length h
          simp only [List.length_take, List.length_nil] at this
          omega
        · intro f hf h
          cases hf
          have := congrArg List.length h
          simp only [List.length_drop, List.length_nil] at this
          omega
        · intro f hf c hc
          cases hf
          exact hdig c (List.mem_of_mem_drop hc)
        · cases neg <;> simp
        · rw [if_neg hp]; cases neg <;> simp [NumLit.src]
        · unfold NumLit.val
          simp only [hsg, Option.getD_some]
          unfold F64.ofDecimal
          rw [List.take_append_drop, hdv, List.length_drop, show ds.length - (ds.length - p) = p by omega,
            hcong _ _ (by positivity) (by rw [hak]; push_cast; field_simp)]
          exact hcanon
    · cases h'

instance {p : Nat} : Stable (FixOk p) := ⟨fun {v} h => by
  obtain ⟨n, h1, h2, h3⟩ := h
  show FixOk p v.canon
  cases v with
  | int k => exact ⟨n, h1, h2, h3⟩
  | str _ => exact ⟨n, h1, h2, h3⟩
  | list _ => exact ⟨n, h1, h2, h3⟩
  | flt f =>
    by_cases hi : f.isInteger = true
    · have hc : Val.canon (.flt f) = .int f.toInt := by simp [Val.canon, hi]
      rw [hc] at h3 ⊢
      refine fixOk_int ?_
      have hv := n.float_valid
      have h3 : Val.canon (.flt n.float) = .int f.toInt := h3
      simp only [Val.canon] at h3
      split at h3
      · rename_i hn
        injection h3 with h3
        rw [← h3]
        exact exactInt_of_integral hv hn
      · cases h3
    · have hc : Val.canon (.flt f) = .flt f := by simp [Val.canon, hi]
      rw [hc]
      exact ⟨n, h1, h2, h3⟩⟩

end Kiutils
