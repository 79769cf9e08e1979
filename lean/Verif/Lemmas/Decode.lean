import Verif.Lemmas.Float
import Verif.Lemmas.FloatOps
import Verif.Model.Decode
import Verif.Spec.Decode

/-!
# Lemmas about the decoding of data values
-/

namespace Verif.Grib2

open Verif Verif.Spec.Decode

theorem bit_table : ∀ n : Fin 256, ∀ i : Fin 8,
    decide (0 < ((UInt8.ofNat n.val) &&& ((0x80 : UInt8) >>> (UInt8.ofNat i.val))).toNat)
      = (n.val / 2 ^ (7 - i.val) % 2 == 1) := by decide +kernel

theorem bitmapBit_eq (bitmap : List UInt8) (i : Nat) :
    bitmapBit bitmap i = if i < 8 * bitmap.length then .ok (bitSet bitmap i) else .panic := by
  unfold bitmapBit Res.index bitSet
  by_cases h : i < 8 * bitmap.length
  · have h' : i / 8 < bitmap.length := by omega
    rw [if_pos h, List.getElem?_eq_getElem h']
    simp only [Res.bind_ok, Res.ok.injEq, List.getD_eq_getElem?_getD, List.getElem?_eq_getElem h',
      Option.getD_some]
    have := bit_table ⟨bitmap[i / 8].toNat, bitmap[i / 8].toNat_lt⟩ ⟨i % 8, by omega⟩
    simpa using this
  · have h' : bitmap.length ≤ i / 8 := by omega
    rw [if_neg h, List.getElem?_eq_none h']
    rfl

theorem rank_succ (bitmap : List UInt8) (i : Nat) :
    rank bitmap (i + 1) = rank bitmap i + (present bitmap i).toNat := by
  unfold rank
  rw [List.range_succ, List.countP_append]
  cases h : present bitmap i <;> simp [h]

theorem rank_mono (bitmap : List UInt8) {i k : Nat} (h : i ≤ k) : rank bitmap i ≤ rank bitmap k := by
  induction k, h using Nat.le_induction with
  | base => exact le_refl _
  | succ k _ ih => rw [rank_succ]; omega

theorem presence_eq (bitmap : List UInt8) (i : Nat) :
    pointPresent bitmap i =
      if bitmap = [] ∨ i < 8 * bitmap.length then .ok (present bitmap i) else .panic := by
  unfold pointPresent present
  rw [bitmapBit_eq]
  by_cases h : bitmap = []
  · simp [h]
  · by_cases h2 : i < 8 * bitmap.length <;> simp [h, h2]

/-- The decode loop succeeds exactly when the counts suffice, and then each point gets its value. -/
theorem decodeLoop_spec {T : Type} (bitmap : List UInt8) (raw : List Nat) (value : Nat → T)
    (missing : T) (n i : Nat) :
    ((bitmap = [] ∨ n = 0 ∨ i + n ≤ 8 * bitmap.length) ∧
        (rank bitmap (i + n) ≤ raw.length ∨ rank bitmap (i + n) = rank bitmap i) →
      ∃ vs, decodeLoop bitmap raw value missing n i (rank bitmap i) = .ok vs ∧ vs.length = n ∧
        ∀ k, k < n →
          (present bitmap (i + k) = true → ∃ x, raw[rank bitmap (i + k)]? = some x ∧
            vs[k]? = some (value x)) ∧
          (present bitmap (i + k) = false → vs[k]? = some missing)) ∧
    (¬ ((bitmap = [] ∨ n = 0 ∨ i + n ≤ 8 * bitmap.length) ∧
        (rank bitmap (i + n) ≤ raw.length ∨ rank bitmap (i + n) = rank bitmap i)) →
      decodeLoop bitmap raw value missing n i (rank bitmap i) = .panic) := by
  induction n generalizing i with
  | zero =>
    constructor
    · intro _
      exact ⟨[], rfl, rfl, fun k hk => by omega⟩
    · intro h; exact absurd ⟨Or.inr (Or.inl rfl), Or.inr rfl⟩ h
  | succ n ih =>
    have hi := ih (i + 1)
    have hr := rank_succ bitmap i
    rw [show i + 1 + n = i + (n + 1) by omega] at hi
    have hmono := rank_mono bitmap (show i + 1 ≤ i + (n + 1) by omega)
    simp only [decodeLoop, presence_eq]
    by_cases hc : bitmap = [] ∨ i < 8 * bitmap.length
    · rw [if_pos hc]
      simp only [Res.bind_ok]
      cases hp : present bitmap i with
      | true =>
        rw [hp] at hr
        simp only [Bool.toNat_true] at hr
        simp only [if_true]
        unfold Res.index
        by_cases hx : rank bitmap i < raw.length
        · rw [List.getElem?_eq_getElem hx]
          simp only [Res.bind_ok]
          rw [← hr]
          constructor
          · rintro ⟨h1, h2⟩
            obtain ⟨vs, hv, hl, hk⟩ := hi.1 ⟨by rcases h1 with h1 | h1 | h1 <;> first
                | exact Or.inl h1
                | (exfalso; omega)
                | exact Or.inr (Or.inr h1), by omega⟩
            refine ⟨value raw[rank bitmap i] :: vs, by rw [hv]; rfl, by simp [hl], ?_⟩
            intro k hkn
            rcases k with _ | k
            · simp only [Nat.add_zero, hp, List.getElem?_cons_zero]
              exact ⟨fun _ => ⟨raw[rank bitmap i], List.getElem?_eq_getElem hx, rfl⟩, by simp⟩
            · have := hk k (by omega)
              rw [show i + 1 + k = i + (k + 1) by omega] at this
              simpa using this
          · intro h
            rw [hi.2 (by
              rintro ⟨h1, h2⟩
              apply h
              refine ⟨by rcases h1 with h1 | h1 | h1 <;> first
                | exact Or.inl h1
                | (subst h1; rcases hc with hc | hc
                   · exact Or.inl hc
                   · right; right; omega)
                | exact Or.inr (Or.inr h1), by omega⟩)]
            rfl
        · rw [List.getElem?_eq_none (by omega)]
          constructor
          · rintro ⟨_, h2⟩; exfalso; omega
          · intro _; rfl
      | false =>
        rw [hp] at hr
        simp only [Bool.toNat_false, Nat.add_zero] at hr
        simp only [Bool.false_eq_true, if_false]
        rw [← hr]
        constructor
        · rintro ⟨h1, h2⟩
          obtain ⟨vs, hv, hl, hk⟩ := hi.1 ⟨by rcases h1 with h1 | h1 | h1 <;> first
                | exact Or.inl h1
                | (exfalso; omega)
                | exact Or.inr (Or.inr h1), by omega⟩
          refine ⟨missing :: vs, by rw [hv]; rfl, by simp [hl], ?_⟩
          intro k hkn
          rcases k with _ | k
          · simp [hp]
          · have := hk k (by omega)
            rw [show i + 1 + k = i + (k + 1) by omega] at this
            simpa using this
        · intro h
          rw [hi.2 (by
              rintro ⟨h1, h2⟩
              apply h
              refine ⟨by rcases h1 with h1 | h1 | h1 <;> first
                | exact Or.inl h1
                | (subst h1; rcases hc with hc | hc
                   · exact Or.inl hc
                   · right; right; omega)
                | exact Or.inr (Or.inr h1), by omega⟩)]
          rfl
    · rw [if_neg hc]
      rw [not_or] at hc
      constructor
      · rintro ⟨h1 | h1 | h1, _⟩
        · exact absurd h1 hc.1
        · omega
        · omega
      · intro _; rfl

/-! ## Powers -/

theorem powi2_table : ∀ k : Fin 254, Fl.powi f32 (.fin 2) ((k.val : Int) - 126) =
    .fin (pow2 ((k.val : Int) - 126)) := by decide +kernel

/-- `2f32.powi(E)` is exact for every exponent of a normal binary32 number. -/
theorem powi2 {E : Int} (h1 : -126 ≤ E) (h2 : E ≤ 127) : Fl.powi f32 (.fin 2) E = .fin (pow2 E) := by
  have := powi2_table ⟨(E + 126).toNat, by omega⟩
  simp only [show ((E + 126).toNat : Int) - 126 = E by omega] at this
  exact this

theorem powi10_table : ∀ k : Fin 11, Fl.powi f32 (.fin 10) (k.val : Int) =
    .fin (((10 ^ k.val : Nat) : Rat)) := by decide +kernel

/-- `10f32.powi(D)` is exact for `0 ≤ D ≤ 10`. -/
theorem powi10 {D : Nat} (h : D ≤ 10) : Fl.powi f32 (.fin 10) (D : Int) = .fin (10 ^ D) := by
  have := powi10_table ⟨D, by omega⟩
  simpa using this

end Verif.Grib2
