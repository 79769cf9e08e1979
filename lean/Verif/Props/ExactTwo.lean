import Verif.Props.MapTile
import Verif.Props.Swiss

/-!
# Complements to C49 and C75

When these properties fail, in general.
-/

namespace Verif.Props

open Verif Verif.MapTileCoord Verif.MapTileRenderer

/-! ## C75: columns of tiles -/

/-- C75: at every zoom level from 1 to 18 each position less than a metre (2^-17 degrees) west of Greenwich is put in the column
that begins at Greenwich, although it lies in the column west of it. -/
theorem C75_greenwich (m : Libm) {lat : Fl} {lon : Rat} {z : Nat} (h1 : 1 ≤ z) (hz : z ≤ 18) (hl : -1 / 2 ^ 17 ≤ lon) (h0 : lon < 0) :
    ((360 * ((2 ^ (z - 1) - 1 : Nat) : Rat) / 2 ^ z - 180 : Rat) ≤ lon ∧
      lon < 360 * (((2 ^ (z - 1) - 1 : Nat) : Rat) + 1) / 2 ^ z - 180) ∧
    ∃ t, fromPosition m ⟨lat, .fin lon⟩ z = .ok t ∧ t.x = 2 ^ (z - 1) := by
  obtain ⟨k, rfl⟩ : ∃ k, z = k + 1 := ⟨z - 1, by omega⟩
  have hk : (1 : Nat) ≤ 2 ^ k := Nat.one_le_two_pow
  have ek : ((2 ^ (k + 1 - 1) - 1 : Nat) : Rat) = 2 ^ k - 1 := by
    rw [Nat.add_sub_cancel, Nat.cast_sub hk]; norm_num
  have hp : (0 : Rat) < 2 ^ k := by positivity
  have hpb : (2 : Rat) ^ k ≤ 2 ^ 17 := pow_le_pow_right₀ (by norm_num) (by omega)
  refine ⟨⟨?_, ?_⟩, ?_⟩
  · rw [ek]
    have e : (360 * (2 ^ k - 1) / 2 ^ (k + 1) - 180 : Rat) = -180 / 2 ^ k := by rw [pow_succ]; field_simp; ring
    rw [e]
    refine le_trans ?_ hl
    rw [div_le_div_iff₀ hp (by norm_num)]
    linarith
  · rw [ek]
    have e : (360 * (2 ^ k - 1 + 1) / 2 ^ (k + 1) - 180 : Rat) = 0 := by rw [pow_succ]; field_simp; ring
    rwa [e]
  · unfold fromPosition
    rw [zoomPow_eq (by omega)]
    refine ⟨_, rfl, ?_⟩
    have e0 : column (.fin 0) (.fin (2 ^ (k + 1))) = 2 ^ k := by
      have := column_west (x := 2 ^ k) (z := k + 1) hz (by rw [pow_succ]; omega)
      have e1 : west (2 ^ k) (k + 1) = 0 := by unfold west; push_cast; rw [pow_succ]; field_simp; ring
      rwa [e1] at this
    have ea : Fl.add f32 (.fin (-1 / 2 ^ 17)) (.fin 180) = Fl.add f32 (.fin 0) (.fin 180) := by decide +kernel
    have e1 : column (.fin (-1 / 2 ^ 17)) (.fin (2 ^ (k + 1))) = 2 ^ k := by
      rw [← e0]; unfold column; rw [ea]
    have a := column_mono (p := 2 ^ (k + 1)) (by positivity) (a := .fin (-1 / 2 ^ 17)) (b := .fin lon) (by rw [Fl.le_fin]; exact hl)
    have b := column_mono (p := 2 ^ (k + 1)) (by positivity) (a := .fin lon) (b := .fin 0) (by rw [Fl.le_fin]; exact h0.le)
    simp only [Nat.add_sub_cancel]
    omega

/-- C75: at every zoom level up to 18 each position less than two metres (2^-16 degrees) west of the date line is put in a column that does
not exist. -/
theorem C75_date_line (m : Libm) {lat : Fl} {lon : Rat} {z : Nat} (hz : z ≤ 18) (hl : 180 - 1 / 2 ^ 16 ≤ lon) (h0 : lon < 180) :
    ∃ t, fromPosition m ⟨lat, .fin lon⟩ z = .ok t ∧ t.x = 2 ^ z := by
  unfold fromPosition
  rw [zoomPow_eq (by omega)]
  refine ⟨_, rfl, ?_⟩
  have e0 : column (.fin 180) (.fin (2 ^ z)) = 2 ^ z := by
    have := column_west hz (le_refl (2 ^ z))
    have e1 : west (2 ^ z) z = 180 := by
      unfold west; push_cast
      rw [mul_div_assoc, div_self (by positivity)]; norm_num
    rwa [e1] at this
  have ea : Fl.add f32 (.fin (180 - 1 / 2 ^ 16)) (.fin 180) = Fl.add f32 (.fin 180) (.fin 180) := by decide +kernel
  have e1 : column (.fin (180 - 1 / 2 ^ 16)) (.fin (2 ^ z)) = 2 ^ z := by
    rw [← e0]; unfold column; rw [ea]
  have a := column_mono (p := 2 ^ z) (by positivity) (a := .fin (180 - 1 / 2 ^ 16)) (b := .fin lon) (by rw [Fl.le_fin]; exact hl)
  have b := column_mono (p := 2 ^ z) (by positivity) (a := .fin lon) (b := .fin 180) (by rw [Fl.le_fin]; exact h0.le)
  simp only
  omega

example : (-1 / 2 ^ 17 : Rat) ≤ -1 / 2 ^ 20 ∧ (-1 / 2 ^ 20 : Rat) < 0 ∧ (180 - 1 / 2 ^ 16 : Rat) ≤ 180 - 1 / 2 ^ 16 := by norm_num

/-! ## C49: long horizons -/

section

open SwissSearch

/-- C49: exactly when reading a response of good entries panics: if there are at least two of them and one of them is for 256 hours
or more. -/
theorem C49_panics (fs : List Feature) (hg : ∀ f ∈ fs, Good f) :
    findFiles fs = .panic ↔ 2 ≤ fs.length ∧
      ∃ f ∈ fs, ∃ h, Horizon.fromStr f.horizon = .ok h ∧ 256 ≤ 24 * h.days.toNat + h.hours.toNat := by
  rcases mapM_createStep fs with ⟨steps, e, hf⟩ | ⟨_, g, hgm, hn⟩
  · have key : (∃ s ∈ steps, s.horizon.getStep = .panic) ↔
        ∃ f ∈ fs, ∃ h, Horizon.fromStr f.horizon = .ok h ∧ 256 ≤ 24 * h.days.toNat + h.hours.toNat := by
      clear e hg
      induction hf with
      | nil => simp
      | cons h t ih =>
        rename_i s f _ _
        simp only [List.mem_cons, exists_eq_or_imp, ih]
        refine or_congr ?_ Iff.rfl
        rw [C47_panics]
        constructor
        · intro hh; exact ⟨_, h.2.1, hh⟩
        · rintro ⟨h', h1, h2⟩
          obtain rfl := Res.ok.inj (h.2.1.symm.trans h1)
          exact h2
    rw [← key, ← hf.length_eq]
    unfold findFiles
    rw [e]
    change sortSteps steps = .panic ↔ _
    unfold sortSteps
    split
    · rename_i c
      obtain ⟨c1, c2⟩ := c
      rw [List.any_eq_true] at c2
      simp only [beq_iff_eq] at c2
      exact ⟨fun _ => ⟨c1, c2⟩, fun _ => rfl⟩
    · rename_i c
      refine ⟨nofun, fun ⟨c1, s, c2, c3⟩ => absurd ⟨c1, List.any_eq_true.mpr ⟨s, c2, by simp [c3]⟩⟩ c⟩
  · exact absurd (hg g hgm) hn

example : Good ⟨[], "P11DT00H00M00S".toList, [[]]⟩ ∧ Good ⟨[], "P0DT00H00M00S".toList, [[]]⟩ :=
  ⟨⟨⟨⟨11, 0⟩, by decide +kernel⟩, by simp⟩, ⟨⟨⟨0, 0⟩, by decide +kernel⟩, by simp⟩⟩

end

end Verif.Props
