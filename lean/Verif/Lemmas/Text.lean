import Verif.Model.Storage
import Verif.Spec.Text
import Std.Data.String.ToNat
/- Numbers as texts. -/
namespace CalCore
open Spec

theorem digits_succ (k n : Nat) : digits (k + 1) n = digits k (n / 10) ++ [Nat.digitChar (n % 10)] := by
  unfold digits
  rw [List.range_succ_eq_map, List.reverse_cons, List.map_append, ← List.map_reverse, List.map_map]
  congr 1
  · apply List.map_congr_left
    intro i _
    simp only [Function.comp_apply]
    rw [Nat.div_div_eq_div_mul, Nat.pow_succ']
  · simp

theorem digits_zero (k : Nat) : digits k 0 = List.replicate k '0' := by
  unfold digits
  rw [List.eq_replicate_iff]
  constructor
  · simp
  · intro b hb
    simp only [List.mem_map, Nat.zero_div, Nat.zero_mod] at hb
    obtain ⟨_, _, rfl⟩ := hb
    rfl

theorem digits_length (k n : Nat) : (digits k n).length = k := by unfold digits; simp

theorem toList_toString (n : Nat) : (toString n : String).toList = Nat.toDigits 10 n := Nat.toList_repr

theorem length_toString (n : Nat) : (toString n : String).length = (Nat.toDigits 10 n).length := by
  rw [← String.length_toList, toList_toString]

theorem padNat_toList (k n : Nat) : (padNat k n).toList =
    List.replicate (k - (Nat.toDigits 10 n).length) '0' ++ Nat.toDigits 10 n := by
  unfold padNat
  simp only [String.toList_append, String.toList_ofList, toList_toString, length_toString]

theorem padNat_digits {k n : Nat} (hk : 0 < k) (h : n < 10 ^ k) : (padNat k n).toList = digits k n := by
  rw [padNat_toList]
  obtain ⟨k, rfl⟩ : ∃ j, k = j + 1 := ⟨k - 1, by omega⟩
  clear hk
  induction k generalizing n with
  | zero =>
    have h' : n < 10 := by simpa using h
    rw [Nat.toDigits_of_lt_base h', digits_succ]
    have : n % 10 = n := Nat.mod_eq_of_lt h'
    simp [this, digits]
  | succ k ih =>
    rw [digits_succ]
    by_cases h' : n < 10
    · rw [Nat.toDigits_of_lt_base h', Nat.div_eq_of_lt h', digits_zero, Nat.mod_eq_of_lt h']
      simp
    · have h10 : n / 10 < 10 ^ (k + 1) := by
        rw [Nat.div_lt_iff_lt_mul (by omega)]; rw [Nat.pow_succ] at h; omega
      rw [← ih h10, Nat.toDigits_of_base_le (by omega) (by omega)]
      simp

theorem padNat_length {k n : Nat} (h : n < 10 ^ k) (hk : 0 < k) : (padNat k n).length = k := by
  rw [← String.length_toList, padNat_digits hk h, digits_length]

end CalCore
