import Verif.Lemmas.Bytes
import Mathlib.Tactic.Ring

/-!
# What was read when reading succeeded
-/

namespace Verif.Rd

open Verif
open Verif.Spec.Grib2 (be F32Word)

theorem pure_ok {α : Type} {a b : α} {s r : List UInt8} (h : (pure a : Rd α) s = .ok (b, r)) : a = b ∧ s = r := by
  simpa using h

theorem uint_split {k v : Nat} {s r : List UInt8} (h : uint k s = .ok (v, r)) :
    v < 256 ^ k ∧ s = be k v ++ r := by
  obtain ⟨a, rfl, rfl, rfl⟩ := uint_ok_iff.mp h
  exact ⟨beNat_lt a, by rw [be_beNat]⟩

theorem times_split {k : Nat} (n : Nat) : ∀ {s r : List UInt8} {vs : List Nat},
    times (uint k) n s = .ok (vs, r) →
      vs.length = n ∧ (∀ v ∈ vs, v < 256 ^ k) ∧ s = vs.flatMap (be k) ++ r := by
  induction n with
  | zero =>
    intro s r vs h
    obtain ⟨rfl, rfl⟩ := pure_ok h
    simp
  | succ n ih =>
    intro s r vs h
    rw [times] at h
    obtain ⟨v, s1, h1, h⟩ := bind_ok_iff.mp h
    obtain ⟨vs', s2, h2, h⟩ := bind_ok_iff.mp h
    obtain ⟨rfl, rfl⟩ := pure_ok h
    obtain ⟨hv, rfl⟩ := uint_split h1
    obtain ⟨hl, hb, rfl⟩ := ih h2
    refine ⟨by simp [hl], ?_, by simp [List.flatMap_cons]⟩
    intro x hx
    rcases List.mem_cons.mp hx with rfl | hx
    · exact hv
    · exact hb x hx

/-- The fields of a 32-bit word. -/
def word32 (n : Nat) : F32Word := ⟨decide (n / 2 ^ 31 % 2 = 1), n / 2 ^ 23 % 256, n % 2 ^ 23⟩

theorem word32_bits {n : Nat} (h : n < 256 ^ 4) : (word32 n).bits = n ∧ (word32 n).ok := by
  unfold word32 F32Word.bits F32Word.ok
  refine ⟨?_, by simp only; omega, by simp only; omega⟩
  simp only [decide_eq_true_eq]
  split <;> omega

theorem signed_range {b n : Nat} (hb : 1 ≤ b) (h : n < 2 ^ b) :
    -2 ^ (b - 1) ≤ signedOfBits b n ∧ signedOfBits b n < 2 ^ (b - 1) ∧
      (signedOfBits b n % 2 ^ b).toNat = n := by
  obtain ⟨k, rfl⟩ : ∃ k, b = k + 1 := ⟨b - 1, by omega⟩
  unfold signedOfBits
  simp only [Nat.add_sub_cancel] at *
  have hp : 0 < 2 ^ k := by positivity
  have e : 2 ^ (k + 1) = 2 ^ k + 2 ^ k := by ring
  have e' : (2 : Int) ^ (k + 1) = 2 ^ k + 2 ^ k := by ring
  have e3 : ((2 ^ k : Nat) : Int) = 2 ^ k := by norm_cast
  rw [e'] at *
  rw [e] at h
  split
  · rename_i hn
    refine ⟨by omega, by omega, ?_⟩
    rw [Int.emod_eq_of_lt (by omega) (by omega)]
    exact Int.toNat_natCast n
  · rename_i hn
    refine ⟨by omega, by omega, ?_⟩
    rw [← Int.add_emod_right, Int.emod_eq_of_lt (by omega) (by omega)]
    omega

theorem flatMap_congr' {α β γ : Type} (f : α → β) (g : β → List γ) (k : α → List γ) (l : List α)
    (h : ∀ a ∈ l, g (f a) = k a) : (l.map f).flatMap g = l.flatMap k := by
  induction l with
  | nil => rfl
  | cons a l ih =>
    rw [List.map_cons, List.flatMap_cons, List.flatMap_cons, h a (by simp), ih (fun b hb => h b (by simp [hb]))]

end Verif.Rd
