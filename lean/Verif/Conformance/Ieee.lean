import Verif.Spec.Ieee
import Verif.Lemmas.Sqrt
import Verif.Model.Bytes

/-!
# The model's arithmetic is IEEE 754 arithmetic

`Verif/Spec/Ieee.lean` states IEEE 754 in terms of bit patterns.  Here the model of `f32` and `f64`
(`Verif/Model/Float.lean`) is proved to be what is stated there, for every number of exponent and fraction bits and
hence for binary32 and binary64:

* `values`: the data of the model are the values of the bit patterns, neither more nor fewer;
* `rounds`, `rounds_sqrt`: exact results and exact square roots are rounded to nearest, ties to even, with gradual
  underflow and overflow from the threshold on;
* `unique`: no other rounding satisfies the statement.

These are not claims about the repository; they are the reason why the definitions of the arithmetic need not be
trusted.  Not covered: the sign of zero, which the model leaves out, and `powi`, which IEEE 754 does not define.
-/

namespace Verif.Ieee

open Verif

section

variable {w t : Nat}

theorem two_pow_w (hw : 2 ≤ w) : ((2 : Int) ^ w) = 2 * (bias w + 1) ∧ 1 ≤ bias w := by
  obtain ⟨k, rfl⟩ : ∃ k, w = k + 2 := ⟨w - 2, by omega⟩
  unfold bias
  have e : k + 2 - 1 = k + 1 := by omega
  rw [e]
  have h : (1 : Int) ≤ 2 ^ k := one_le_pow₀ (by norm_num)
  have e1 : (2 : Int) ^ (k + 1) = 2 * 2 ^ k := by ring
  have e2 : (2 : Int) ^ (k + 2) = 4 * 2 ^ k := by ring
  rw [e1, e2]
  constructor <;> omega

/-- The significand as an integer. -/
def Pattern.sig (t : Nat) (a : Pattern) : Nat := if a.exponent = 0 then a.fraction else 2 ^ t + a.fraction

/-- The exponent of the last digit. -/
def Pattern.ex (w t : Nat) (a : Pattern) : Int :=
  if a.exponent = 0 then 1 - bias w - t else (a.exponent : Int) - bias w - t

theorem magnitude_eq (a : Pattern) : a.magnitude w t = (a.sig t : Rat) * pow2 (a.ex w t) := by
  unfold Pattern.magnitude Pattern.sig Pattern.ex
  rw [pow2_eq]
  have h2 : (2 : Rat) ≠ 0 := by norm_num
  split
  · rw [zpow_sub₀ h2 (1 - bias w) t, zpow_natCast]; ring
  · rw [zpow_sub₀ h2 ((a.exponent : Int) - bias w) t, zpow_natCast]
    push_cast
    field_simp

theorem sig_lt {a : Pattern} (ha : a.ok w t) : a.sig t < 2 ^ (t + 1) := by
  have := ha.2
  unfold Pattern.sig
  split
  · rw [pow_succ]; omega
  · rw [pow_succ]; omega

theorem ex_ge (a : Pattern) : 1 - bias w - t ≤ a.ex w t := by
  unfold Pattern.ex
  split <;> omega

theorem ex_norm (a : Pattern) : a.ex w t = 1 - bias w - t ∨ 2 ^ t ≤ a.sig t := by
  unfold Pattern.ex Pattern.sig
  split
  · exact .inl rfl
  · exact .inr (by omega)

theorem ex_le {a : Pattern} (hw : 2 ≤ w) (ha : a.ok w t) (hf : a.exponent ≠ 2 ^ w - 1) : a.ex w t ≤ bias w - t := by
  obtain ⟨h1, h2⟩ := two_pow_w hw
  have := ha.1
  have h3 : ((2 ^ w : Nat) : Int) = 2 * (bias w + 1) := by push_cast; exact h1
  unfold Pattern.ex
  split <;> omega

theorem magnitude_nonneg (a : Pattern) : 0 ≤ a.magnitude w t := by
  rw [magnitude_eq]; exact mul_nonneg (Nat.cast_nonneg _) (pow2_pos _).le

theorem magnitude_lt {a : Pattern} (hw : 2 ≤ w) (ha : a.ok w t) (hf : a.exponent ≠ 2 ^ w - 1) :
    a.magnitude w t < pow2 (bias w + 1) := by
  rw [magnitude_eq]
  have h1 : (a.sig t : Rat) < pow2 ((t : Int) + 1) := by
    have := sig_lt ha
    rw [show (t : Int) + 1 = ((t + 1 : Nat) : Int) by push_cast; ring, pow2_nat]
    exact_mod_cast this
  calc (a.sig t : Rat) * pow2 (a.ex w t) < pow2 ((t : Int) + 1) * pow2 (a.ex w t) :=
        mul_lt_mul_of_pos_right h1 (pow2_pos _)
    _ = pow2 ((t : Int) + 1 + a.ex w t) := (pow2_add _ _).symm
    _ ≤ pow2 (bias w + 1) := pow2_mono (by have := ex_le hw ha hf; omega)

theorem value_fin {a : Pattern} {v : Rat} :
    a.value w t = .fin v ↔ a.exponent ≠ 2 ^ w - 1 ∧ v = if a.sign then -a.magnitude w t else a.magnitude w t := by
  unfold Pattern.value
  by_cases h : a.exponent = 2 ^ w - 1
  · rw [if_pos h]
    split_ifs <;> simp [h]
  · rw [if_neg h]
    simp only [Fl.fin.injEq]
    exact ⟨fun e => ⟨h, e.symm⟩, fun e => e.2.symm⟩

/-- A finite datum is a value of the model's format. -/
theorem rep_of_pattern (hw : 2 ≤ w) {a : Pattern} {v : Rat} (ha : a.ok w t) (h : a.value w t = .fin v) :
    Rep (fmt w t) v ∧ |v| < pow2 (fmt w t).emax := by
  obtain ⟨hf, hv⟩ := value_fin.mp h
  have hr : Rep (fmt w t) (a.magnitude w t) :=
    ⟨a.sig t, a.ex w t, magnitude_eq a, by
      have := sig_lt ha
      rw [abs_of_nonneg (Int.natCast_nonneg _)]
      show ((a.sig t : Nat) : Int) ≤ 2 ^ (t + 1)
      exact_mod_cast this.le, ex_ge a⟩
  have hl := magnitude_lt hw ha hf
  have h0 := magnitude_nonneg (w := w) (t := t) a
  rw [hv]
  split
  · exact ⟨rep_neg hr, by rw [abs_neg, abs_of_nonneg h0]; exact hl⟩
  · exact ⟨hr, by rw [abs_of_nonneg h0]; exact hl⟩

/-- A normalised number has a bit pattern. -/
theorem pattern_of (hw : 2 ≤ w) (ht : 1 ≤ t) (s : Bool) {m : Nat} {E : Int} (hm : m ≤ 2 ^ (t + 1)) (hE : 1 - bias w - t ≤ E)
    (hn : E = 1 - bias w - t ∨ 2 ^ t ≤ m) (hl : (m : Rat) * pow2 E < pow2 (bias w + 1)) :
    ∃ a : Pattern, a.ok w t ∧ a.sign = s ∧ a.exponent ≠ 2 ^ w - 1 ∧ a.magnitude w t = (m : Rat) * pow2 E ∧
      (m % 2 = 0 → a.fraction % 2 = 0) := by
  obtain ⟨h1, h2⟩ := two_pow_w hw
  have h3 : ((2 ^ w : Nat) : Int) = 2 * (bias w + 1) := by push_cast; exact h1
  have ht2 : (2 ^ t) % 2 = 0 := by
    obtain ⟨k, rfl⟩ : ∃ k, t = k + 1 := ⟨t - 1, by omega⟩
    rw [pow_succ]; omega
  have hp : 0 < 2 ^ t := Nat.two_pow_pos t
  have hs : 2 ^ (t + 1) = 2 * 2 ^ t := by ring
  by_cases c1 : m < 2 ^ t
  · have hE' : E = 1 - bias w - t := by rcases hn with h | h <;> omega
    refine ⟨⟨s, 0, m⟩, ⟨Nat.two_pow_pos _, c1⟩, rfl, ?_, ?_, fun h => h⟩
    · show 0 ≠ 2 ^ w - 1
      omega
    · rw [magnitude_eq, hE']; simp [Pattern.sig, Pattern.ex]
  · have big : (2 ^ t : Nat) ≤ m := by omega
    by_cases c2 : m = 2 ^ (t + 1)
    · have hEl : (t : Int) + 1 + E < bias w + 1 := by
        rw [← pow2_lt_iff, pow2_add]
        have : pow2 ((t : Int) + 1) = (m : Rat) := by
          rw [c2, show (t : Int) + 1 = ((t + 1 : Nat) : Int) by push_cast; ring, pow2_nat]; push_cast; rfl
        rw [this]; exact hl
      refine ⟨⟨s, (E + bias w + t + 1).toNat, 0⟩, ⟨?_, hp⟩, rfl, ?_, ?_, fun _ => rfl⟩
      · show (E + bias w + t + 1).toNat < 2 ^ w
        omega
      · show (E + bias w + t + 1).toNat ≠ 2 ^ w - 1
        omega
      · rw [magnitude_eq]
        have e0 : (E + bias w + t + 1).toNat ≠ 0 := by omega
        have e1 : ((E + bias w + t + 1).toNat : Int) = E + bias w + t + 1 := by omega
        simp only [Pattern.sig, Pattern.ex, e0, if_false]
        rw [e1, show E + bias w + (t : Int) + 1 - bias w - t = 1 + E by ring, pow2_add, pow2_one, c2]
        push_cast; ring
    · have hEl : (t : Int) + E < bias w + 1 := by
        rw [← pow2_lt_iff, pow2_add, pow2_nat]
        refine lt_of_le_of_lt (mul_le_mul_of_nonneg_right ?_ (pow2_pos E).le) hl
        exact_mod_cast big
      refine ⟨⟨s, (E + bias w + t).toNat, m - 2 ^ t⟩, ⟨?_, ?_⟩, rfl, ?_, ?_, ?_⟩
      · show (E + bias w + t).toNat < 2 ^ w
        omega
      · show m - 2 ^ t < 2 ^ t
        omega
      · show (E + bias w + t).toNat ≠ 2 ^ w - 1
        omega
      · rw [magnitude_eq]
        have e0 : (E + bias w + t).toNat ≠ 0 := by omega
        have e1 : ((E + bias w + t).toNat : Int) = E + bias w + t := by omega
        simp only [Pattern.sig, Pattern.ex, e0, if_false]
        rw [e1, show E + bias w + (t : Int) - bias w - t = E by ring, Nat.add_sub_cancel' big]
      · intro h
        show (m - 2 ^ t) % 2 = 0
        omega

/-- A value of the model's format below the overflow bound has a bit pattern. -/
theorem pattern_of_rep (hw : 2 ≤ w) (ht : 1 ≤ t) {v : Rat} (hr : Rep (fmt w t) v) (hl : |v| < pow2 (fmt w t).emax) :
    ∃ a : Pattern, a.ok w t ∧ a.value w t = .fin v := by
  have hp : 1 ≤ (fmt w t).prec := by show 1 ≤ t + 1; omega
  obtain ⟨m, E, hm, hE, hn, hv⟩ : ∃ (m : Nat) (E : Int), m ≤ 2 ^ (t + 1) ∧ 1 - bias w - t ≤ E ∧
      (E = 1 - bias w - t ∨ 2 ^ t ≤ m) ∧ |v| = (m : Rat) * pow2 E := by
    by_cases h0 : v = 0
    · exact ⟨0, 1 - bias w - t, Nat.zero_le _, le_refl _, .inl rfl, by simp [h0]⟩
    · have e : rndq (fmt w t) v = v := rndq_rep hp hr
      set E := expo (fmt w t) v with hE
      have e' : ((rhe (v / pow2 E) : Int) : Rat) * pow2 E = v := by
        have := e
        unfold rndq at this
        rw [if_neg h0] at this
        exact this
      have hab : |v| = ((rhe (v / pow2 E)).natAbs : Rat) * pow2 E := by
        conv_lhs => rw [← e']
        rw [abs_mul, abs_of_pos (pow2_pos E), ← Int.cast_abs, Int.abs_eq_natAbs, Int.cast_natCast]
      have up := expo_upper (fmt w t) h0
      rw [← hE, hab, pow2_add, mul_comm (pow2 E)] at up
      have up' := lt_of_mul_lt_mul_right up (pow2_pos E).le
      rw [pow2_nat] at up'
      refine ⟨_, E, ?_, expo_ge _ _, ?_, hab⟩
      · have : (((rhe (v / pow2 E)).natAbs : Nat) : Rat) < ((2 ^ (t + 1) : Nat) : Rat) := by push_cast; exact up'
        exact (Nat.cast_lt.mp this).le
      · by_cases hc : E = 1 - bias w - t
        · exact .inl hc
        · right
          have hge : (fmt w t).emin ≤ E := expo_ge _ _
          have hem : (fmt w t).emin = 1 - bias w - t := rfl
          have lo := expo_lower (fmt w t) h0 (by rw [← hE]; omega)
          rw [← hE, hab] at lo
          have e4 : E + ((fmt w t).prec : Int) - 1 = (t : Int) + E := by
            show E + ((t + 1 : Nat) : Int) - 1 = _
            push_cast; ring
          rw [e4, pow2_add, pow2_nat] at lo
          have := le_of_mul_le_mul_right lo (pow2_pos E)
          exact_mod_cast this
  obtain ⟨a, ha, hs, hf, hmag, _⟩ := pattern_of hw ht (decide (v < 0)) hm hE hn (by rw [← hv]; exact hl)
  refine ⟨a, ha, value_fin.mpr ⟨hf, ?_⟩⟩
  rw [hs, hmag, ← hv]
  by_cases hneg : v < 0
  · simp [hneg, abs_of_neg hneg]
  · simp [hneg, abs_of_nonneg (not_lt.mp hneg)]

/-- **The values of the model's format are the values of the bit patterns.** -/
theorem values (hw : 2 ≤ w) (ht : 1 ≤ t) (x : Fl) : IsFl (fmt w t) x ↔ ∃ a : Pattern, a.ok w t ∧ a.value w t = x := by
  have hpos : 0 < 2 ^ w := Nat.two_pow_pos w
  have hpt : 1 < 2 ^ t := Nat.one_lt_two_pow (by omega)
  constructor
  · intro h
    match x, h with
    | .fin v, h => exact pattern_of_rep hw ht h.1 h.2
    | .nan, _ => exact ⟨⟨false, 2 ^ w - 1, 1⟩, ⟨show 2 ^ w - 1 < 2 ^ w by omega, hpt⟩, by simp [Pattern.value]⟩
    | .pinf, _ => exact ⟨⟨false, 2 ^ w - 1, 0⟩, ⟨show 2 ^ w - 1 < 2 ^ w by omega, show 0 < 2 ^ t by omega⟩, by simp [Pattern.value]⟩
    | .ninf, _ => exact ⟨⟨true, 2 ^ w - 1, 0⟩, ⟨show 2 ^ w - 1 < 2 ^ w by omega, show 0 < 2 ^ t by omega⟩, by simp [Pattern.value]⟩
  · rintro ⟨a, ha, hx⟩
    match x, hx with
    | .fin v, hx => exact rep_of_pattern hw ha hx
    | .nan, _ => trivial
    | .pinf, _ => trivial
    | .ninf, _ => trivial

/-- `2^k` as a real number. -/
noncomputable def P (k : Int) : Real := ((pow2 k : Rat) : Real)

theorem P_pos (k : Int) : 0 < P k := by unfold P; exact_mod_cast pow2_pos k
theorem P_add (a b : Int) : P (a + b) = P a * P b := by unfold P; rw [pow2_add]; push_cast; rfl
theorem P_mono {a b : Int} (h : a ≤ b) : P a ≤ P b := by unfold P; exact_mod_cast pow2_mono h
theorem P_nat (n : Nat) : P (n : Int) = 2 ^ n := by unfold P; rw [pow2_nat]; push_cast; rfl
theorem P_zpow (k : Int) : P k = 2 ^ k := by unfold P; rw [pow2_eq]; push_cast; rfl
theorem P_lt_iff {a b : Int} : P a < P b ↔ a < b := by
  unfold P; rw [Rat.cast_lt]; exact pow2_lt_iff
theorem P_neg1 : P (-1) = 1 / 2 := by rw [P_zpow]; norm_num

theorem threshold_eq (w t : Nat) : threshold w t = P (bias w + 1) - P (bias w - t - 1) := by
  unfold threshold
  have h2 : (2 : Real) ≠ 0 := by norm_num
  rw [P_zpow, P_zpow, zpow_sub₀ h2 (bias w - t) 1, zpow_sub₀ h2 (bias w) t, zpow_add₀ h2, zpow_neg]
  simp only [zpow_one]
  ring

/-- The nearest multiple of the unit is as near as every value of the format. -/
theorem nearest {F : Fmt} (hp : 1 ≤ F.prec) {x : Real} {E : Int} {m : Nat} (hlo : E = F.emin ∨ P (E + F.prec - 1) ≤ x)
    (hm : |x - m * P E| ≤ P E / 2) {u : Rat} (hu : Rep F u) :
    |x - m * P E| ≤ |x - u| ∧ (u ≠ m * pow2 E → |x - u| = |x - m * P E| → |x - m * P E| = P E / 2) := by
  have hE := P_pos E
  -- multiples of the unit
  have mult : ∀ n : Int, |x - m * P E| ≤ |x - n * P E| ∧ (n ≠ m → |x - n * P E| = |x - m * P E| → |x - m * P E| = P E / 2) := by
    intro n
    by_cases hn : n = m
    · subst hn
      exact ⟨le_of_eq (by push_cast; rfl), fun h => absurd rfl h⟩
    · have h1 : (1 : Real) ≤ |(n : Real) - m| := by
        have : (1 : Int) ≤ |n - m| := Int.one_le_abs (sub_ne_zero.mpr hn)
        exact_mod_cast this
      have h2 : P E ≤ |x - m * P E| + |x - n * P E| := by
        have t1 : P E ≤ |((n : Real) - m) * P E| := by
          rw [abs_mul, abs_of_pos hE]; nlinarith
        have t2 : ((n : Real) - m) * P E = (x - m * P E) - (x - n * P E) := by ring
        rw [t2] at t1
        exact t1.trans (abs_sub _ _)
      exact ⟨by linarith, fun _ h => by linarith⟩
  obtain ⟨k, e, hue, hk, he⟩ := hu
  by_cases hc : E ≤ e
  · -- a multiple of the unit
    obtain ⟨c, hc1, _⟩ := pow2_int (k := e - E) (by omega)
    have hu' : u = ((k * c : Int) : Rat) * pow2 E := by
      rw [hue, show e = (e - E) + E by ring, pow2_add, hc1]; push_cast; ring
    have hr : (u : Real) = ((k * c : Int) : Real) * P E := by rw [hu']; unfold P; push_cast; rfl
    rw [hr]
    refine ⟨(mult (k * c)).1, fun hne h => (mult (k * c)).2 (fun hh => hne ?_) h⟩
    rw [hu', hh]; push_cast; rfl
  · -- a smaller unit: the value is below the binade
    have hc := not_le.mp hc
    have hlo' : P (E + F.prec - 1) ≤ x := by
      rcases hlo with h | h
      · omega
      · exact h
    set B : Int := 2 ^ (F.prec - 1) with hB
    have hBP : P (E + F.prec - 1) = (B : Real) * P E := by
      rw [show E + (F.prec : Int) - 1 = ((F.prec - 1 : Nat) : Int) + E by omega, P_add, P_nat, hB]; push_cast; rfl
    have hub : (u : Real) ≤ B * P E := by
      have h1 : (k : Real) ≤ 2 ^ F.prec := by exact_mod_cast (le_abs_self k).trans hk
      have h2 : (u : Real) = k * P e := by rw [hue]; unfold P; push_cast; rfl
      have h3 : P e ≤ P (E - 1) := P_mono (by omega)
      have h4 : P (E - 1) = P E / 2 := by rw [show E - 1 = E + (-1) by ring, P_add, P_neg1]; ring
      have h5 : (2 : Real) ^ F.prec = 2 * B := by
        rw [hB]; push_cast
        obtain ⟨j, hj⟩ : ∃ j, F.prec = j + 1 := ⟨F.prec - 1, by omega⟩
        rw [hj, Nat.add_sub_cancel, pow_succ]; ring
      rw [h2]
      have hB0 : (0 : Real) ≤ B := by rw [hB]; positivity
      calc (k : Real) * P e ≤ 2 ^ F.prec * P e := mul_le_mul_of_nonneg_right h1 (P_pos e).le
        _ ≤ 2 ^ F.prec * (P E / 2) := mul_le_mul_of_nonneg_left (h3.trans h4.le) (by positivity)
        _ = B * P E := by rw [h5]; ring
    rw [hBP] at hlo'
    have hx1 : |x - u| = x - u := abs_of_nonneg (by linarith)
    have hx2 : |x - B * P E| = x - B * P E := abs_of_nonneg (by linarith)
    have hBm := (mult B).1
    refine ⟨by linarith, fun hne h => ?_⟩
    have : (u : Real) = B * P E := by linarith
    rw [this] at h
    refine (mult B).2 (fun hh => hne ?_) h
    have : (u : Real) = ((m * pow2 E : Rat) : Real) := by
      rw [this, hh]; unfold P; push_cast; rfl
    exact_mod_cast this

/-- Overflow happens exactly from the threshold on. -/
theorem overflow (hw : 2 ≤ w) {x : Real} {E : Int} {m : Nat}
    (hlo : E = 1 - bias w - t ∨ P (E + t) ≤ x) (hhi : x < P (E + t + 1)) (hm : |x - m * P E| ≤ P E / 2)
    (hev : |x - m * P E| = P E / 2 → m % 2 = 0) : P (bias w + 1) ≤ m * P E ↔ threshold w t ≤ x := by
  rw [threshold_eq]
  obtain ⟨_, hb1⟩ := two_pow_w hw
  have hPE := P_pos E
  have hm' := abs_le.mp hm
  have e1 : P (E + t + 1) = ((2 ^ (t + 1) : Nat) : Real) * P E := by
    rw [show E + (t : Int) + 1 = ((t + 1 : Nat) : Int) + E by push_cast; ring, P_add, P_nat]; push_cast; rfl
  have e0 : P (E + t) = ((2 ^ t : Nat) : Real) * P E := by
    rw [show E + (t : Int) = (t : Int) + E by ring, P_add, P_nat]; push_cast; rfl
  have hmax : m ≤ 2 ^ (t + 1) := by
    by_contra h
    have h : ((2 ^ (t + 1) + 1 : Nat) : Real) ≤ m := by exact_mod_cast (not_le.mp h)
    push_cast at h e1
    nlinarith
  have hmaxR : (m : Real) ≤ ((2 ^ (t + 1) : Nat) : Real) := by exact_mod_cast hmax
  -- the exponent of the last binade
  have eL : ∀ _ : E = bias w - t, P (bias w + 1) = ((2 ^ (t + 1) : Nat) : Real) * P E ∧ P (bias w - t - 1) = P E / 2 := by
    intro h
    rw [← e1, h, show bias w - (t : Int) + t + 1 = bias w + 1 by ring]
    refine ⟨rfl, ?_⟩
    rw [show bias w - (t : Int) - 1 = bias w - t + (-1) by ring, P_add, P_neg1]; ring
  have big : bias w - t < E → P (bias w + 1) ≤ x := by
    intro h
    rcases hlo with hc | hc
    · omega
    · exact (P_mono (by omega)).trans hc
  constructor
  · intro h
    have h1 : P (bias w + 1) ≤ P (E + t + 1) := by rw [e1]; nlinarith
    have h2 : bias w - t ≤ E := by
      by_contra hc
      have := P_lt_iff.mpr (show E + (t : Int) + 1 < bias w + 1 by omega)
      linarith
    rcases eq_or_lt_of_le h2 with h3 | h3
    · obtain ⟨a, b⟩ := eL h3.symm
      rw [a] at h ⊢
      rw [b]
      linarith
    · have := big h3
      have := P_pos (bias w - t - 1)
      linarith
  · intro h
    have h0 : P (bias w) ≤ x := by
      have t1 : P (bias w + 1) = 2 * P (bias w) := by
        rw [show bias w + 1 = bias w + ((1 : Nat) : Int) by simp, P_add, P_nat]; ring
      have t2 : P (bias w - t - 1) ≤ P (bias w) := P_mono (by omega)
      linarith
    have h2 : bias w - t ≤ E := by
      have := P_lt_iff.mp (lt_of_le_of_lt h0 hhi)
      omega
    rcases eq_or_lt_of_le h2 with h3 | h3
    · obtain ⟨a, b⟩ := eL h3.symm
      rw [a, b] at h
      rw [a]
      -- the significand is at least `2^(t+1) - 1`, and that is odd
      have g1 : ((2 ^ (t + 1) : Nat) : Real) ≤ m + 1 := by
        have : ((2 ^ (t + 1) : Nat) : Real) * P E ≤ (m + 1) * P E := by nlinarith
        exact le_of_mul_le_mul_right this hPE
      have g1' : 2 ^ (t + 1) ≤ m + 1 := by exact_mod_cast g1
      have g2 : m ≠ 2 ^ (t + 1) - 1 := by
        intro hm1
        have hpos := Nat.two_pow_pos (t + 1)
        have hm2 : (m : Real) = ((2 ^ (t + 1) : Nat) : Real) - 1 := by
          rw [hm1, Nat.cast_sub hpos]; push_cast; ring
        have tie : |x - m * P E| = P E / 2 := by
          refine le_antisymm hm ?_
          refine le_trans ?_ (le_abs_self _)
          rw [hm2]; linarith
        have := hev tie
        rw [hm1, pow_succ] at this
        have := Nat.two_pow_pos t
        omega
      have g3 : 2 ^ (t + 1) ≤ m := by omega
      have g4 : ((2 ^ (t + 1) : Nat) : Real) ≤ m := by exact_mod_cast g3
      exact mul_le_mul_of_nonneg_right g4 hPE.le
    · have h4 : P (E + t) ≤ x := by
        rcases hlo with hc | hc
        · omega
        · exact hc
      have g1 : 2 ^ t ≤ m := by
        by_contra hc
        have hc : ((m + 1 : Nat) : Real) ≤ ((2 ^ t : Nat) : Real) := by exact_mod_cast (not_le.mp hc)
        push_cast at hc e0
        nlinarith
      have g2 : ((2 ^ t : Nat) : Real) ≤ m := by exact_mod_cast g1
      calc P (bias w + 1) ≤ P (E + t) := P_mono (by omega)
        _ ≤ m * P E := by rw [e0]; exact mul_le_mul_of_nonneg_right g2 hPE.le

/-- Rounding by way of the nearest multiple of the unit. -/
theorem scaled (hw : 2 ≤ w) (ht : 1 ≤ t) {x : Real} {E : Int} {m : Nat} (hx : 0 ≤ x) (hE : 1 - bias w - t ≤ E)
    (hlo : E = 1 - bias w - t ∨ P (E + t) ≤ x) (hhi : x < P (E + t + 1)) (hm : |x - m * P E| ≤ P E / 2)
    (hev : |x - m * P E| = P E / 2 → m % 2 = 0) :
    RoundsTo w t x (if pow2 (bias w + 1) ≤ m * pow2 E then .pinf else .fin (m * pow2 E)) := by
  have hov := overflow hw hlo hhi hm hev
  have hcast : ((m * pow2 E : Rat) : Real) = m * P E := by unfold P; push_cast; rfl
  have hPE := P_pos E
  have hm' := abs_le.mp hm
  by_cases hc : pow2 (bias w + 1) ≤ m * pow2 E
  · rw [if_pos hc]
    show threshold w t ≤ x
    rw [← hov, ← hcast]
    unfold P
    exact_mod_cast hc
  · rw [if_neg hc]
    have hc' : ¬ threshold w t ≤ x := by
      rw [← hov, ← hcast]
      unfold P
      intro h
      exact hc (by exact_mod_cast h)
    refine ⟨by rw [abs_of_nonneg hx]; exact not_le.mp hc', ?_⟩
    have hmax : m ≤ 2 ^ (t + 1) := by
      have e1 : P (E + t + 1) = ((2 ^ (t + 1) : Nat) : Real) * P E := by
        rw [show E + (t : Int) + 1 = ((t + 1 : Nat) : Int) + E by push_cast; ring, P_add, P_nat]; push_cast; rfl
      by_contra h
      have h : ((2 ^ (t + 1) + 1 : Nat) : Real) ≤ m := by exact_mod_cast (not_le.mp h)
      push_cast at h e1
      nlinarith
    have hn : E = 1 - bias w - t ∨ 2 ^ t ≤ m := by
      rcases hlo with h | h
      · exact .inl h
      · right
        have e0 : P (E + t) = ((2 ^ t : Nat) : Real) * P E := by
          rw [show E + (t : Int) = (t : Int) + E by ring, P_add, P_nat]; push_cast; rfl
        by_contra hc
        have hc : ((m + 1 : Nat) : Real) ≤ ((2 ^ t : Nat) : Real) := by exact_mod_cast (not_le.mp hc)
        push_cast at hc e0
        nlinarith
    obtain ⟨a, ha, hs, hf, hmag, hpar⟩ := pattern_of hw ht false hmax hE hn (not_le.mp hc)
    have hp : 1 ≤ (fmt w t).prec := by show 1 ≤ t + 1; omega
    have hlo' : E = (fmt w t).emin ∨ P (E + (fmt w t).prec - 1) ≤ x := by
      rw [show E + (((fmt w t).prec : Nat) : Int) - 1 = E + t by show E + ((t + 1 : Nat) : Int) - 1 = _; push_cast; ring]
      exact hlo
    refine ⟨a, ha, value_fin.mpr ⟨hf, by rw [hs, hmag]; rfl⟩, ?_, ?_⟩
    · intro b u hb hu
      rw [hcast]
      exact (nearest hp hlo' hm (rep_of_pattern hw hb hu).1).1
    · intro b u hb hu hne he
      rw [hcast] at he
      exact hpar (hev ((nearest hp hlo' hm (rep_of_pattern hw hb hu).1).2 hne he))

/-- The opposite datum. -/
def Pattern.opp (a : Pattern) : Pattern := { a with sign := !a.sign }

theorem opp_value (a : Pattern) (v : Rat) (h : a.value w t = .fin v) : a.opp.value w t = .fin (-v) := by
  obtain ⟨hf, hv⟩ := value_fin.mp h
  refine value_fin.mpr ⟨hf, ?_⟩
  have hm : a.opp.magnitude w t = a.magnitude w t := rfl
  rw [hv, hm]
  show _ = if (!a.sign) = true then _ else _
  cases a.sign <;> simp

theorem abs_opp (x y : Real) : |-x - -y| = |x - y| := by rw [show -x - -y = -(x - y) by ring, abs_neg]

/-- Rounding is symmetric. -/
theorem roundsTo_neg {x : Real} {y : Fl} (h : RoundsTo w t x y) : RoundsTo w t (-x) (Fl.neg y) := by
  match y, h with
  | .pinf, h => exact neg_le_neg h
  | .ninf, h => exact le_neg_of_le_neg h
  | .fin v, h =>
    obtain ⟨hl, a, ha, hv, h1, h2⟩ := h
    refine ⟨by rw [abs_neg]; exact hl, a.opp, ha, opp_value a v hv, ?_, ?_⟩
    · intro b u hb hu
      have := h1 b.opp (-u) hb (opp_value b u hu)
      push_cast at this ⊢
      rw [abs_opp]
      rwa [← abs_opp x (-u), neg_neg] at this
    · intro b u hb hu hne he
      refine h2 b.opp (-u) hb (opp_value b u hu) (fun hh => hne (by rw [← hh, neg_neg])) ?_
      push_cast at he ⊢
      rw [abs_opp] at he
      rw [← abs_opp x (-u), neg_neg]
      exact he

/-- The unit and the multiple of it that the model picks for a non-negative number. -/
theorem unit_of (w t : Nat) {q : Rat} (hq : 0 ≤ q) : ∃ (E : Int) (m : Nat), rndq (fmt w t) q = m * pow2 E ∧
    1 - bias w - t ≤ E ∧ (E = 1 - bias w - t ∨ P (E + t) ≤ (q : Real)) ∧ (q : Real) < P (E + t + 1) ∧
    |(q : Real) - m * P E| ≤ P E / 2 ∧ (|(q : Real) - m * P E| = P E / 2 → m % 2 = 0) := by
  rcases eq_or_lt_of_le hq with h0 | h0
  · subst h0
    refine ⟨1 - bias w - t, 0, by rw [rndq_zero]; simp, le_refl _, .inl rfl, ?_, ?_, fun _ => rfl⟩
    · simpa using P_pos _
    · simpa using (half_pos (P_pos (1 - bias w - t))).le
  · have hne : q ≠ 0 := h0.ne'
    set E := expo (fmt w t) q with hE
    have pp := pow2_pos E
    obtain ⟨s1, s2⟩ := rhe_spec (q / pow2 E)
    have hn0 : 0 ≤ rhe (q / pow2 E) := le_rhe (by simpa using div_nonneg hq pp.le)
    obtain ⟨m, hm⟩ := Int.eq_ofNat_of_zero_le hn0
    rw [hm] at s1 s2
    have sc : |(q : Real) - m * P E| = ((|q / pow2 E - m| : Rat) : Real) * P E := by
      have : ((|q / pow2 E - m| : Rat) : Real) = |(q : Real) / P E - m| := by unfold P; push_cast; rfl
      rw [this, ← abs_of_pos (P_pos E), ← abs_mul, abs_of_pos (P_pos E), sub_mul,
        div_mul_cancel₀ _ (P_pos E).ne']
    have up := expo_upper (fmt w t) hne
    rw [abs_of_pos h0] at up
    refine ⟨E, m, ?_, expo_ge _ _, ?_, ?_, ?_, ?_⟩
    · unfold rndq
      rw [if_neg hne, ← hE, hm]
      simp
    · by_cases hc : E = 1 - bias w - t
      · exact .inl hc
      · right
        have hge : (fmt w t).emin ≤ E := expo_ge _ _
        have hem : (fmt w t).emin = 1 - bias w - t := rfl
        have lo := expo_lower (fmt w t) hne (by rw [← hE]; omega)
        rw [← hE, abs_of_pos h0, show E + ((fmt w t).prec : Int) - 1 = E + t by
          show E + ((t + 1 : Nat) : Int) - 1 = _; push_cast; ring] at lo
        unfold P
        exact_mod_cast lo
    · rw [← hE, show E + ((fmt w t).prec : Int) = E + t + 1 by
        show E + ((t + 1 : Nat) : Int) = _; push_cast; ring] at up
      unfold P
      exact_mod_cast up
    · rw [sc]
      have : ((|q / pow2 E - m| : Rat) : Real) ≤ 1 / 2 := by
        have := (Rat.cast_le (K := Real)).mpr s1
        push_cast at this ⊢
        exact this
      nlinarith [P_pos E]
    · rw [sc]
      intro h
      have h' : ((|q / pow2 E - m| : Rat) : Real) = ((1 / 2 : Rat) : Real) := by
        have : ((|q / pow2 E - m| : Rat) : Real) * P E = 1 / 2 * P E := by rw [h]; ring
        rw [mul_right_cancel₀ (P_pos E).ne' this]; norm_num
      have := s2 (by exact_mod_cast h')
      omega

theorem rnd_nonneg_eq {w t : Nat} {q : Rat} {m : Nat} {E : Int} (hq1 : rndq (fmt w t) q = m * pow2 E) :
    rnd (fmt w t) q = if pow2 (bias w + 1) ≤ m * pow2 E then .pinf else .fin (m * pow2 E) := by
  unfold rnd
  simp only [hq1]
  have h0 : ¬ (m : Rat) * pow2 E ≤ -pow2 (fmt w t).emax := by
    have : 0 ≤ (m : Rat) * pow2 E := mul_nonneg (Nat.cast_nonneg _) (pow2_pos _).le
    have := pow2_pos (fmt w t).emax
    linarith
  rw [if_neg h0]
  rfl

/-- **The model rounds every exact result as IEEE 754 demands.** -/
theorem rounds (hw : 2 ≤ w) (ht : 1 ≤ t) (q : Rat) : RoundsTo w t q (rnd (fmt w t) q) := by
  have pos : ∀ q : Rat, 0 ≤ q → RoundsTo w t q (rnd (fmt w t) q) := by
    intro q hq
    obtain ⟨E, m, hq1, hE, hlo, hhi, hm, hev⟩ := unit_of w t hq
    rw [rnd_nonneg_eq hq1]
    exact scaled hw ht (x := (q : Real)) (by exact_mod_cast hq) hE hlo hhi hm hev
  rcases le_total 0 q with h | h
  · exact pos q h
  · have hn := roundsTo_neg (pos (-q) (by linarith))
    have e : Fl.neg (rnd (fmt w t) (-q)) = rnd (fmt w t) q := by
      unfold rnd
      simp only [rndq_neg]
      have hq0 : rndq (fmt w t) q ≤ 0 := by
        have := rndq_nonneg (F := fmt w t) (q := -q) (by linarith)
        rw [rndq_neg] at this
        linarith
      have hp := pow2_pos (fmt w t).emax
      have c1 : ¬ pow2 (fmt w t).emax ≤ rndq (fmt w t) q := by linarith
      rw [if_neg c1]
      by_cases c2 : rndq (fmt w t) q ≤ -pow2 (fmt w t).emax
      · rw [if_pos c2, if_pos (by linarith)]; rfl
      · rw [if_neg c2, if_neg (by linarith), if_neg (by linarith)]
        simp [Fl.neg]
    rw [e] at hn
    simpa using hn

/-- **The model's square root is the IEEE 754 square root**: the exact root, rounded. -/
theorem rounds_sqrt (hw : 2 ≤ w) (ht : 1 ≤ t) {q : Rat} (hq : 0 ≤ q) :
    RoundsTo w t (Real.sqrt q) (Fl.sqrt (fmt w t) (.fin q)) := by
  have e0 : Fl.sqrt (fmt w t) (.fin q) = Fl.sqrtQ (fmt w t) q := by
    show (if q < 0 then Fl.nan else _) = _
    rw [if_neg (not_lt.mpr hq)]
  rw [e0]
  by_cases h0 : q = 0
  · subst h0
    have := rounds hw ht 0
    rw [rnd_zero] at this
    simpa [Fl.sqrtQ] using this
  · set k : Int := max ((fmt w t).prec + 2 - ilog2 q / 2) (2 - (fmt w t).emin) with hk
    have hk2 : 2 - (1 - bias w - t) ≤ k := le_max_right _ _
    set s := Fl.sqrtAux q k with hs
    obtain ⟨h1, h2⟩ := sqrt_trunc hq k
    rw [← hs] at h1 h2
    have hp : 0 < pow2 (-k) := pow2_pos _
    have hpr := P_pos (-k)
    have esq : pow2 (2 * k) * pow2 (-k) ^ 2 = 1 := by
      rw [sq, ← pow2_add, ← pow2_add, show 2 * k + (-k + -k) = 0 by ring, pow2_zero]
    by_cases hex : ((s * s : Nat) : Rat) = q * pow2 (2 * k)
    · -- the root is exact
      have e : Fl.sqrtQ (fmt w t) q = rnd (fmt w t) (((2 * s + 0 : Nat) : Rat) * pow2 (-k - 1)) := by
        unfold Fl.sqrtQ; rw [if_neg h0]; simp only [← hk, ← hs, if_pos hex]
      have w0 : ((2 * s + 0 : Nat) : Rat) * pow2 (-k - 1) = (s : Rat) * pow2 (-k) := by
        rw [show -k - 1 = -k + (-1) by ring, pow2_add, pow2_neg 1, pow2_one]
        push_cast; ring
      rw [e, w0]
      have hr : Real.sqrt q = (((s : Rat) * pow2 (-k) : Rat) : Real) := by
        have : q = ((s : Rat) * pow2 (-k)) ^ 2 := by
          have : (s : Rat) * s = q * pow2 (2 * k) := by exact_mod_cast hex
          calc q = q * (pow2 (2 * k) * pow2 (-k) ^ 2) := by rw [esq, mul_one]
            _ = (q * pow2 (2 * k)) * pow2 (-k) ^ 2 := by ring
            _ = _ := by rw [← this]; ring
        have h' : (q : Real) = (((s : Rat) * pow2 (-k) : Rat) : Real) ^ 2 := by exact_mod_cast this
        rw [h', Real.sqrt_sq (by exact_mod_cast mul_nonneg (Nat.cast_nonneg s) hp.le)]
      rw [hr]
      exact rounds hw ht _
    · -- the root lies strictly between two multiples of `2^-k`, as the rounded number does
      have e : Fl.sqrtQ (fmt w t) q = rnd (fmt w t) (((2 * s + 1 : Nat) : Rat) * pow2 (-k - 1)) := by
        unfold Fl.sqrtQ; rw [if_neg h0]; simp only [← hk, ← hs, if_neg hex]
      set z : Rat := ((2 * s + 1 : Nat) : Rat) * pow2 (-k - 1) with hz
      have hzR : (z : Real) = (s + 1 / 2) * P (-k) := by
        rw [hz, show -k - 1 = -k + (-1) by ring, pow2_add, pow2_neg 1, pow2_one]
        unfold P
        push_cast; ring
      set x := Real.sqrt q with hx
      have r1 : s * P (-k) < x := by
        have c : (((s : Rat) * pow2 (-k) : Rat) : Real) = s * P (-k) := by unfold P; push_cast; rfl
        rw [← c]
        apply Real.lt_sqrt_of_sq_lt
        have : ((s : Rat) * pow2 (-k)) ^ 2 < q := by
          refine lt_of_le_of_ne h1 (fun hh => hex ?_)
          rw [← hh]
          push_cast
          calc (s : Rat) * s = s * s * (pow2 (2 * k) * pow2 (-k) ^ 2) := by rw [esq, mul_one]
            _ = _ := by ring
        exact_mod_cast this
      have r2 : x < (s + 1) * P (-k) := by
        have c : ((((s : Rat) + 1) * pow2 (-k) : Rat) : Real) = (s + 1) * P (-k) := by unfold P; push_cast; rfl
        rw [← c, Real.sqrt_lt' (by exact_mod_cast mul_pos (by positivity) hp)]
        exact_mod_cast h2
      -- both lie on the same side of every multiple of `2^-k`
      have side : ∀ n : Int, ((z : Real) ≤ n * P (-k) → x < n * P (-k)) ∧ (n * P (-k) ≤ (z : Real) → n * P (-k) < x) := by
        intro n
        rw [hzR]
        constructor
        · intro h
          have h' : (s : Real) + 1 / 2 ≤ n := le_of_mul_le_mul_right h hpr
          have h3 : (s : Int) < n := by
            have : ((s : Int) : Real) < n := by push_cast; linarith
            exact_mod_cast this
          have h4 : (s : Real) + 1 ≤ n := by exact_mod_cast h3
          exact lt_of_lt_of_le r2 (mul_le_mul_of_nonneg_right h4 hpr.le)
        · intro h
          have h' : (n : Real) ≤ s + 1 / 2 := le_of_mul_le_mul_right h hpr
          have h3 : n < (s : Int) + 1 := by
            have : (n : Real) < ((s + 1 : Int) : Real) := by push_cast; linarith
            exact_mod_cast this
          have h4 : (n : Real) ≤ s := by
            have : n ≤ (s : Int) := by omega
            exact_mod_cast this
          exact lt_of_le_of_lt (mul_le_mul_of_nonneg_right h4 hpr.le) r1
      have mult : ∀ j : Int, -k ≤ j → ∃ n : Int, P j = n * P (-k) := by
        intro j hj
        obtain ⟨c, hc, _⟩ := pow2_int (k := j + k) (by omega)
        refine ⟨c, ?_⟩
        rw [show j = (j + k) + (-k) by ring, P_add]
        congr 1
        unfold P; rw [hc]; push_cast; rfl
      have hz0 : 0 ≤ z := mul_nonneg (Nat.cast_nonneg _) (pow2_pos _).le
      obtain ⟨E, m, hq1, hE, hlo, hhi, hm, _⟩ := unit_of w t hz0
      rw [e, rnd_nonneg_eq hq1]
      obtain ⟨c, hc⟩ := mult (E - 1) (by omega)
      have half : P E = 2 * P (E - 1) := by
        rw [show E - 1 = E + (-1) by ring, P_add, P_neg1]; ring
      have hm' := abs_le.mp hm
      have lo : (m : Real) * P E - P E / 2 < x := by
        have e1 : (m : Real) * P E - P E / 2 = ((2 * m - 1) * c : Int) * P (-k) := by
          rw [half]; push_cast; rw [mul_assoc _ (c : Real), ← hc]; ring
        rw [e1]
        refine (side _).2 ?_
        rw [← e1]; linarith
      have hi : x < (m : Real) * P E + P E / 2 := by
        have e1 : (m : Real) * P E + P E / 2 = ((2 * m + 1) * c : Int) * P (-k) := by
          rw [half]; push_cast; rw [mul_assoc _ (c : Real), ← hc]; ring
        rw [e1]
        refine (side _).1 ?_
        rw [← e1]; linarith
      have hlt : |x - m * P E| < P E / 2 := by rw [abs_lt]; constructor <;> linarith
      refine scaled hw ht (Real.sqrt_nonneg _) hE ?_ ?_ hlt.le (fun h => absurd h hlt.ne)
      · rcases hlo with h | h
        · exact .inl h
        · obtain ⟨n, hn⟩ := mult (E + t) (by omega)
          right
          rw [hn] at h ⊢
          exact ((side n).2 h).le
      · obtain ⟨n, hn⟩ := mult (E + t + 1) (by omega)
        rw [hn] at hhi ⊢
        exact (side n).1 hhi.le

/-- Between two different data with even last digits there is another one. -/
theorem even_gap (hw : 2 ≤ w) (ht : 1 ≤ t) {a b : Pattern} (ha : a.ok w t) (hb : b.ok w t)
    (fb : b.exponent ≠ 2 ^ w - 1) (pa : a.fraction % 2 = 0) (pb : b.fraction % 2 = 0)
    (h : a.magnitude w t < b.magnitude w t) :
    ∃ c : Pattern, c.ok w t ∧ c.sign = false ∧ c.exponent ≠ 2 ^ w - 1 ∧ a.magnitude w t < c.magnitude w t ∧
      c.magnitude w t < b.magnitude w t := by
  have ht2 : (2 ^ t) % 2 = 0 := by
    obtain ⟨k, rfl⟩ : ∃ k, t = k + 1 := ⟨t - 1, by omega⟩
    rw [pow_succ]; omega
  have sa : a.sig t % 2 = 0 := by unfold Pattern.sig; split <;> omega
  have sb : b.sig t % 2 = 0 := by unfold Pattern.sig; split <;> omega
  rw [magnitude_eq, magnitude_eq] at h
  have hpa := pow2_pos (a.ex w t)
  have hex : a.ex w t ≤ b.ex w t := by
    by_contra hc
    have hc := not_le.mp hc
    have hbge := ex_ge (w := w) (t := t) b
    have hna : 2 ^ t ≤ a.sig t := by
      rcases ex_norm (w := w) (t := t) a with h' | h'
      · omega
      · exact h'
    have h1 : (b.sig t : Rat) ≤ pow2 ((t : Int) + 1) := by
      rw [show (t : Int) + 1 = ((t + 1 : Nat) : Int) by push_cast; ring, pow2_nat]
      exact_mod_cast (sig_lt hb).le
    have h2 : pow2 (t : Int) ≤ (a.sig t : Rat) := by rw [pow2_nat]; exact_mod_cast hna
    have : (b.sig t : Rat) * pow2 (b.ex w t) ≤ a.sig t * pow2 (a.ex w t) :=
      calc (b.sig t : Rat) * pow2 (b.ex w t) ≤ pow2 ((t : Int) + 1) * pow2 (b.ex w t) :=
            mul_le_mul_of_nonneg_right h1 (pow2_pos _).le
        _ = pow2 ((t : Int) + 1 + b.ex w t) := (pow2_add _ _).symm
        _ ≤ pow2 ((t : Int) + a.ex w t) := pow2_mono (by omega)
        _ = pow2 (t : Int) * pow2 (a.ex w t) := pow2_add _ _
        _ ≤ a.sig t * pow2 (a.ex w t) := mul_le_mul_of_nonneg_right h2 hpa.le
    linarith
  obtain ⟨c, hc, _⟩ := pow2_int (k := b.ex w t - a.ex w t) (by omega)
  have eb : (b.sig t : Rat) * pow2 (b.ex w t) = ((b.sig t * c : Nat) : Rat) * pow2 (a.ex w t) := by
    rw [show b.ex w t = (b.ex w t - a.ex w t) + a.ex w t by ring, pow2_add, hc]; push_cast; ring
  have hbc : (b.sig t * c) % 2 = 0 := by rw [Nat.mul_mod, sb, Nat.zero_mul]
  rw [eb] at h
  have hlt : a.sig t < b.sig t * c := by
    have := lt_of_mul_lt_mul_right h hpa.le
    exact_mod_cast this
  have hgap : a.sig t + 1 < b.sig t * c := by omega
  have hgapQ : ((a.sig t + 1 : Nat) : Rat) < ((b.sig t * c : Nat) : Rat) := by exact_mod_cast hgap
  have hb' := magnitude_lt hw hb fb
  rw [magnitude_eq, eb] at hb'
  have hup : ((a.sig t + 1 : Nat) : Rat) * pow2 (a.ex w t) < ((b.sig t * c : Nat) : Rat) * pow2 (a.ex w t) :=
    mul_lt_mul_of_pos_right hgapQ hpa
  obtain ⟨d, hd, hsd, hfd, hmd, _⟩ := pattern_of hw ht false (m := a.sig t + 1) (E := a.ex w t)
    (sig_lt ha) (ex_ge a)
    ((ex_norm (w := w) (t := t) a).imp id (fun h => by omega)) (hup.trans hb')
  refine ⟨d, hd, hsd, hfd, ?_, ?_⟩
  · rw [hmd, magnitude_eq]
    refine mul_lt_mul_of_pos_right ?_ hpa
    push_cast; linarith
  · rw [hmd, magnitude_eq b, eb]; exact hup

/-- **There is only one way to round**: `RoundsTo` determines the result, so `rnd` and `sqrt` of the model are the only
functions that satisfy `rounds` and `rounds_sqrt`. -/
theorem unique (hw : 2 ≤ w) (ht : 1 ≤ t) {r : Real} {x y : Fl} (hx : RoundsTo w t r x) (hy : RoundsTo w t r y) : x = y := by
  have hT : 0 < threshold w t := by
    rw [threshold_eq, sub_pos]
    exact P_lt_iff.mpr (by omega)
  have fin_fin : ∀ u v : Rat, RoundsTo w t r (.fin u) → RoundsTo w t r (.fin v) → ¬ u < v := by
    rintro u v ⟨_, a, ha, hau, a1, a2⟩ ⟨_, b, hb, hbv, b1, b2⟩ huv
    have eq : |r - u| = |r - v| := le_antisymm (a1 b v hb hbv) (b1 a u ha hau)
    have pa := a2 b v hb hbv huv.ne' eq.symm
    have pb := b2 a u ha hau huv.ne eq
    -- a datum strictly between the two is nearer
    have no : ∀ (c : Pattern) (z : Rat), c.ok w t → c.value w t = .fin z → u < z → z < v → False := by
      intro c z hc hz h1 h2
      have h1' : (u : Real) < z := by exact_mod_cast h1
      have h2' : (z : Real) < v := by exact_mod_cast h2
      have c1 := a1 c z hc hz
      have c2 := b1 c z hc hz
      have huv' : (u : Real) < v := h1'.trans h2'
      have mid : r - u = v - r := by
        rcases abs_eq_abs.mp eq with h | h <;> linarith
      have p0 : 0 < r - u := by linarith
      rw [abs_of_pos p0] at c1
      rw [show r - (v : Real) = -(r - u) by linarith, abs_neg, abs_of_pos p0] at c2
      rcases le_total (z : Real) r with h | h
      · rw [abs_of_nonneg (by linarith)] at c1; linarith
      · rw [abs_of_nonpos (by linarith)] at c2; linarith
    obtain ⟨fa, va⟩ := value_fin.mp hau
    obtain ⟨fb, vb⟩ := value_fin.mp hbv
    have ma := magnitude_nonneg (w := w) (t := t) a
    have mb := magnitude_nonneg (w := w) (t := t) b
    by_cases hu0 : 0 ≤ u
    · have ea : u = a.magnitude w t := by
        rw [va] at hu0 ⊢
        split_ifs at hu0 ⊢ <;> linarith
      have eb : v = b.magnitude w t := by
        have hv0 : 0 ≤ v := by linarith
        rw [vb] at hv0 ⊢
        split_ifs at hv0 ⊢ <;> linarith
      obtain ⟨c, hc, hs, hf, c1, c2⟩ := even_gap hw ht ha hb fb pa pb (by rw [← ea, ← eb]; exact huv)
      exact no c (c.magnitude w t) hc (value_fin.mpr ⟨hf, by rw [hs]; rfl⟩) (by rw [ea]; exact c1) (by rw [eb]; exact c2)
    · have hu0 := not_le.mp hu0
      by_cases hv0 : 0 < v
      · obtain ⟨h1, h2⟩ := two_pow_w hw
        have h3 : ((2 ^ w : Nat) : Int) = 2 * (bias w + 1) := by push_cast; exact h1
        refine no ⟨false, 0, 0⟩ 0 ⟨Nat.two_pow_pos _, Nat.two_pow_pos _⟩ (value_fin.mpr ⟨?_, ?_⟩) hu0 hv0
        · show 0 ≠ 2 ^ w - 1
          omega
        · simp [Pattern.magnitude]
      · have ea : -u = a.magnitude w t := by
          rw [va] at hu0 ⊢
          split_ifs at hu0 ⊢ <;> linarith
        have eb : -v = b.magnitude w t := by
          rw [vb] at hv0 ⊢
          split_ifs at hv0 ⊢ <;> linarith
        obtain ⟨c, hc, hs, hf, c1, c2⟩ := even_gap hw ht hb ha fa pb pa (by rw [← ea, ← eb]; linarith)
        have hcv : c.value w t = .fin (c.magnitude w t) := value_fin.mpr ⟨hf, by rw [hs]; rfl⟩
        exact no c.opp (-c.magnitude w t) hc (opp_value c _ hcv) (by linarith) (by linarith)
  match x, y, hx, hy with
  | .nan, _, hx, _ => exact hx.elim
  | _, .nan, _, hy => exact hy.elim
  | .pinf, .pinf, _, _ => rfl
  | .ninf, .ninf, _, _ => rfl
  | .pinf, .ninf, hx, hy =>
    have hx : threshold w t ≤ r := hx
    have hy : r ≤ -threshold w t := hy
    linarith
  | .ninf, .pinf, hx, hy =>
    have hx : r ≤ -threshold w t := hx
    have hy : threshold w t ≤ r := hy
    linarith
  | .pinf, .fin v, hx, hy =>
    have hx : threshold w t ≤ r := hx
    have := (abs_lt.mp hy.1).2
    linarith
  | .fin v, .pinf, hx, hy =>
    have hy : threshold w t ≤ r := hy
    have := (abs_lt.mp hx.1).2
    linarith
  | .ninf, .fin v, hx, hy =>
    have hx : r ≤ -threshold w t := hx
    have := (abs_lt.mp hy.1).1
    linarith
  | .fin v, .ninf, hx, hy =>
    have hy : r ≤ -threshold w t := hy
    have := (abs_lt.mp hx.1).1
    linarith
  | .fin u, .fin v, hx, hy =>
    rcases lt_trichotomy u v with h | h | h
    · exact absurd h (fin_fin u v hx hy)
    · rw [h]
    · exact absurd h (fin_fin v u hy hx)

end

/-! ## binary32 and binary64 -/

theorem fmt32 : fmt 8 23 = f32 := by unfold fmt bias f32; norm_num
theorem fmt64 : fmt 11 52 = f64 := by unfold fmt bias f64; norm_num

theorem rounds32 (q : Rat) : RoundsTo 8 23 q (rnd f32 q) := fmt32 ▸ rounds (by norm_num) (by norm_num) q
theorem rounds64 (q : Rat) : RoundsTo 11 52 q (rnd f64 q) := fmt64 ▸ rounds (by norm_num) (by norm_num) q

/-- A literal, a converted integer, and the four operations on finite numbers: the exact result, rounded. -/
theorem ops32 (a b : Rat) (n : Nat) (i : Int) :
    RoundsTo 8 23 a (lit a) ∧ RoundsTo 8 23 (n : Real) (Fl.ofNat f32 n) ∧ RoundsTo 8 23 (i : Real) (Fl.ofInt f32 i) ∧
    RoundsTo 8 23 (a + b) (Fl.add f32 (.fin a) (.fin b)) ∧ RoundsTo 8 23 (a - b) (Fl.sub f32 (.fin a) (.fin b)) ∧
    RoundsTo 8 23 (a * b) (Fl.mul f32 (.fin a) (.fin b)) ∧
    (b ≠ 0 → RoundsTo 8 23 (a / b) (Fl.div f32 (.fin a) (.fin b))) ∧
    (0 ≤ a → RoundsTo 8 23 (Real.sqrt a) (Fl.sqrt f32 (.fin a))) ∧ RoundsTo 8 23 a (Fl.convert f32 (.fin a)) := by
  refine ⟨rounds32 a, by simpa [Fl.ofNat] using rounds32 n, by simpa [Fl.ofInt] using rounds32 i, by simpa using rounds32 (a + b), ?_,
    by simpa using rounds32 (a * b), fun h => ?_, fun h => fmt32 ▸ rounds_sqrt (by norm_num) (by norm_num) h, rounds32 a⟩
  · simpa using rounds32 (a - b)
  · rw [Fl.div_fin _ _ h]
    simpa using rounds32 (a / b)

/-- The same for `f64`. -/
theorem ops64 (a b : Rat) (n : Nat) (i : Int) :
    RoundsTo 11 52 (n : Real) (Fl.ofNat f64 n) ∧ RoundsTo 11 52 (i : Real) (Fl.ofInt f64 i) ∧
    RoundsTo 11 52 (a + b) (Fl.add f64 (.fin a) (.fin b)) ∧ RoundsTo 11 52 (a - b) (Fl.sub f64 (.fin a) (.fin b)) ∧
    RoundsTo 11 52 (a * b) (Fl.mul f64 (.fin a) (.fin b)) ∧
    (b ≠ 0 → RoundsTo 11 52 (a / b) (Fl.div f64 (.fin a) (.fin b))) ∧
    (0 ≤ a → RoundsTo 11 52 (Real.sqrt a) (Fl.sqrt f64 (.fin a))) ∧ RoundsTo 11 52 a (Fl.convert f64 (.fin a)) := by
  refine ⟨by simpa [Fl.ofNat] using rounds64 n, by simpa [Fl.ofInt] using rounds64 i, by simpa using rounds64 (a + b), ?_,
    by simpa using rounds64 (a * b), fun h => ?_, fun h => fmt64 ▸ rounds_sqrt (by norm_num) (by norm_num) h, rounds64 a⟩
  · simpa using rounds64 (a - b)
  · rw [Fl.div_fin _ _ h]
    simpa using rounds64 (a / b)

/-- The words of a file are read as IEEE 754 fields. -/
theorem bits32 (b : Nat) :
    f32OfBits b = Pattern.value 8 23 ⟨decide (b / 2 ^ 31 % 2 = 1), b / 2 ^ 23 % 2 ^ 8, b % 2 ^ 23⟩ := by
  unfold f32OfBits Pattern.value
  have hm : Pattern.magnitude 8 23 ⟨decide (b / 2 ^ 31 % 2 = 1), b / 2 ^ 23 % 2 ^ 8, b % 2 ^ 23⟩ =
      if b / 2 ^ 23 % 2 ^ 8 = 0 then ((b % 2 ^ 23 : Nat) : Rat) * pow2 (-149)
      else ((b % 2 ^ 23 + 2 ^ 23 : Nat) : Rat) * pow2 (((b / 2 ^ 23 % 2 ^ 8 : Nat) : Int) - 150) := by
    rw [magnitude_eq]
    unfold Pattern.sig Pattern.ex
    have hb : bias 8 = 127 := by unfold bias; norm_num
    simp only [hb]
    split
    · congr 2
    · rw [Nat.add_comm (2 ^ 23)]
      congr 2
      push_cast
      ring
  simp only [hm, decide_eq_true_eq, show 2 ^ 8 - 1 = 255 from rfl]

theorem bits64 (b : Nat) :
    f64OfBits b = Pattern.value 11 52 ⟨decide (b / 2 ^ 63 % 2 = 1), b / 2 ^ 52 % 2 ^ 11, b % 2 ^ 52⟩ := by
  unfold f64OfBits Pattern.value
  have hm : Pattern.magnitude 11 52 ⟨decide (b / 2 ^ 63 % 2 = 1), b / 2 ^ 52 % 2 ^ 11, b % 2 ^ 52⟩ =
      if b / 2 ^ 52 % 2 ^ 11 = 0 then ((b % 2 ^ 52 : Nat) : Rat) * pow2 (-1074)
      else ((b % 2 ^ 52 + 2 ^ 52 : Nat) : Rat) * pow2 (((b / 2 ^ 52 % 2 ^ 11 : Nat) : Int) - 1075) := by
    rw [magnitude_eq]
    unfold Pattern.sig Pattern.ex
    have hb : bias 11 = 1023 := by unfold bias; norm_num
    simp only [hb]
    split
    · congr 2
    · rw [Nat.add_comm (2 ^ 52)]
      congr 2
      push_cast
      ring
  simp only [hm, decide_eq_true_eq, show 2 ^ 11 - 1 = 2047 from rfl]

/-! ## Operations the model takes as exact -/

section

variable {F : Fmt}

/-- An integer next to a value of the format is a value of the format. -/
theorem isFl_near (he : F.emin ≤ 0) (hp : 1 ≤ F.prec) (hpe : (F.prec : Int) ≤ F.emax) {a : Rat} (ha : IsFl F (.fin a)) {n : Int}
    (h1 : a = n ∨ ((n : Rat) - 1 < a ∧ a < n + 1)) : IsFl F (.fin (n : Rat)) := by
  rcases h1 with h | ⟨h1, h2⟩
  · rw [← h]; exact ha
  · obtain ⟨⟨m, e, rfl, hm, hem⟩, hb⟩ := ha
    rcases le_or_gt 0 e with hc | hc
    · obtain ⟨c, hc1, _⟩ := pow2_int hc
      have : (n : Rat) = m * pow2 e := by
        rw [hc1] at h1 h2 ⊢
        have a1 : n - 1 < m * c := by exact_mod_cast h1
        have a2 : m * c < n + 1 := by exact_mod_cast h2
        have : n = m * c := by omega
        rw [this]; push_cast; ring
      rw [this]
      exact ⟨⟨m, e, rfl, hm, hem⟩, hb⟩
    · -- below the units the numbers are at most half as large as the bound of the significand
      have hh : pow2 e ≤ 1 / 2 := by
        have := pow2_mono (show e ≤ -1 by omega)
        rwa [pow2_neg 1, pow2_one, inv_eq_one_div] at this
      have hp0 := pow2_pos e
      obtain ⟨j, hj⟩ : ∃ j, F.prec = j + 1 := ⟨F.prec - 1, by omega⟩
      have hmq : |(m : Rat)| ≤ 2 * 2 ^ j := by
        have : (|m| : Int) ≤ 2 * 2 ^ j := by rw [hj] at hm; rw [pow_succ] at hm; linarith
        exact_mod_cast this
      have hv : |(m : Rat) * pow2 e| ≤ 2 ^ j := by
        rw [abs_mul, abs_of_pos hp0]
        calc |(m : Rat)| * pow2 e ≤ 2 * 2 ^ j * (1 / 2) := mul_le_mul hmq hh hp0.le (by positivity)
          _ = 2 ^ j := by ring
      obtain ⟨v1, v2⟩ := abs_le.mp hv
      have hn : |n| ≤ 2 ^ j := by
        have b1 : (n : Rat) < ((2 ^ j + 1 : Int) : Rat) := by push_cast; linarith
        have b2 : ((-(2 ^ j) - 1 : Int) : Rat) < n := by push_cast; linarith
        have b1' := Int.cast_lt.mp b1
        have b2' := Int.cast_lt.mp b2
        rw [abs_le]
        constructor <;> omega
      have hpj : (2 : Int) ^ j ≤ 2 ^ F.prec := by rw [hj, pow_succ]; have : (0 : Int) < 2 ^ j := by positivity
                                                  linarith
      refine ⟨rep_int he (hn.trans hpj), ?_⟩
      have : |(n : Rat)| ≤ pow2 (j : Int) := by rw [pow2_nat]; exact_mod_cast hn
      exact lt_of_le_of_lt this (pow2_lt (by omega))

theorem isFl_floor (he : F.emin ≤ 0) (hp : 1 ≤ F.prec) (hpe : (F.prec : Int) ≤ F.emax) {x : Fl} (hx : IsFl F x) : IsFl F (Fl.floor x) := by
  match x, hx with
  | .nan, _ => trivial
  | .pinf, _ => trivial
  | .ninf, _ => trivial
  | .fin a, hx =>
    refine isFl_near he hp hpe hx (.inr ⟨?_, ?_⟩)
    · linarith [Int.floor_le a]
    · exact Int.lt_floor_add_one a

theorem isFl_ceil (he : F.emin ≤ 0) (hp : 1 ≤ F.prec) (hpe : (F.prec : Int) ≤ F.emax) {x : Fl} (hx : IsFl F x) : IsFl F (Fl.ceil x) := by
  match x, hx with
  | .nan, _ => trivial
  | .pinf, _ => trivial
  | .ninf, _ => trivial
  | .fin a, hx =>
    refine isFl_near he hp hpe hx (.inr ⟨?_, ?_⟩)
    · linarith [Int.ceil_lt_add_one a]
    · linarith [Int.le_ceil a]

theorem isFl_round (he : F.emin ≤ 0) (hp : 1 ≤ F.prec) (hpe : (F.prec : Int) ≤ F.emax) {x : Fl} (hx : IsFl F x) : IsFl F (Fl.round x) := by
  match x, hx with
  | .nan, _ => trivial
  | .pinf, _ => trivial
  | .ninf, _ => trivial
  | .fin a, hx =>
    have := abs_le.mp (Fl.roundAway_err a)
    refine isFl_near he hp hpe hx (.inr ⟨?_, ?_⟩) <;> linarith

/-- The remainder is exact: no rounding is needed. -/
theorem isFl_rem {x y : Fl} (hx : IsFl F x) (hy : IsFl F y) : IsFl F (Fl.rem x y) := by
  match x, y, hx, hy with
  | .nan, _, _, _ => cases y <;> trivial
  | .pinf, _, _, _ => cases y <;> trivial
  | .ninf, _, _, _ => cases y <;> trivial
  | .fin a, .nan, _, _ => trivial
  | .fin a, .pinf, hx, _ => exact hx
  | .fin a, .ninf, hx, _ => exact hx
  | .fin a, .fin b, hx, hy =>
    show IsFl F (if b = 0 then .nan else .fin (a - b * Fl.truncQ (a / b)))
    by_cases hb : b = 0
    · rw [if_pos hb]; trivial
    · rw [if_neg hb]
      set n := Fl.truncQ (a / b) with hn
      -- the remainder is smaller than both
      have hr : |a - b * n| < |b| ∧ |a - b * n| ≤ |a| := by
        have e : a - b * n = b * (a / b - n) := by field_simp
        have key : |a / b - n| < 1 ∧ |a / b - n| ≤ |a / b| := by
          rw [hn]
          unfold Fl.truncQ
          split
          · rename_i h
            have h1 := Int.floor_le (a / b)
            have h2 := Int.lt_floor_add_one (a / b)
            have h3 : (0 : Rat) ≤ ⌊a / b⌋ := by exact_mod_cast Int.floor_nonneg.mpr h
            rw [abs_of_nonneg (by linarith), abs_of_nonneg h]
            constructor <;> linarith
          · rename_i h
            have h := not_le.mp h
            have h1 := Int.floor_le (-(a / b))
            have h2 := Int.lt_floor_add_one (-(a / b))
            have h3 : (0 : Rat) ≤ ⌊-(a / b)⌋ := by exact_mod_cast Int.floor_nonneg.mpr (by linarith)
            push_cast
            rw [abs_of_nonpos (by linarith), abs_of_neg h]
            constructor <;> linarith
        have hbp : 0 < |b| := abs_pos.mpr hb
        rw [e, abs_mul]
        constructor
        · nlinarith [key.1]
        · calc |b| * |a / b - n| ≤ |b| * |a / b| := mul_le_mul_of_nonneg_left key.2 hbp.le
            _ = |a| := by rw [← abs_mul]; congr 1; field_simp
      refine ⟨?_, lt_of_le_of_lt hr.2 hx.2⟩
      obtain ⟨⟨m, e, ha, hm, he⟩, _⟩ := hx
      obtain ⟨⟨k, f, hb', hk, hf⟩, _⟩ := hy
      rcases le_total e f with hc | hc
      · -- a multiple of the unit of the dividend
        obtain ⟨c, hc1, _⟩ := pow2_int (k := f - e) (by omega)
        have er : a - b * n = ((m - k * c * n : Int) : Rat) * pow2 e := by
          rw [ha, hb', show f = (f - e) + e by ring, pow2_add, hc1]; push_cast; ring
        refine ⟨m - k * c * n, e, er, ?_, he⟩
        have h2 := hr.2
        rw [er] at h2
        conv_rhs at h2 => rw [ha]
        rw [abs_mul, abs_mul] at h2
        have h3 := le_of_mul_le_mul_right h2 (abs_pos.mpr (pow2_ne e))
        have h4 : |m - k * c * n| ≤ |m| := by exact_mod_cast h3
        exact h4.trans hm
      · obtain ⟨c, hc1, _⟩ := pow2_int (k := e - f) (by omega)
        have er : a - b * n = ((m * c - k * n : Int) : Rat) * pow2 f := by
          rw [ha, hb', show e = (e - f) + f by ring, pow2_add, hc1]; push_cast; ring
        refine ⟨m * c - k * n, f, er, ?_, hf⟩
        have h2 := hr.1
        rw [er] at h2
        conv_rhs at h2 => rw [hb']
        rw [abs_mul, abs_mul] at h2
        have h3 := lt_of_mul_lt_mul_right h2 (abs_nonneg (pow2 f))
        have h4 : |m * c - k * n| < |k| := by exact_mod_cast h3
        exact h4.le.trans hk

/-- Every `f32` is an `f64`, so `x as f64` changes nothing. -/
theorem convert64 {x : Fl} (hx : IsFl f32 x) : Fl.convert f64 x = x := by
  match x, hx with
  | .nan, _ => rfl
  | .pinf, _ => rfl
  | .ninf, _ => rfl
  | .fin a, ⟨⟨m, e, ha, hm, he⟩, hb⟩ =>
    refine rnd_exact (by decide) ⟨m, e, ha, hm.trans (by norm_num [f32, f64]), ?_⟩ (hb.trans (pow2_lt (by decide)))
    have : (-149 : Int) ≤ e := he
    show (-1074 : Int) ≤ e
    omega

end

/-! ## Cases at the edges -/

/-- The largest finite number, and the first one that overflows. -/
example : rnd f32 (2 ^ 128 - 2 ^ 104) = .fin (2 ^ 128 - 2 ^ 104) ∧ rnd f32 (2 ^ 128 - 2 ^ 103) = .pinf ∧
    rnd f32 (2 ^ 128 - 2 ^ 103 - 1) = .fin (2 ^ 128 - 2 ^ 104) := by decide +kernel

/-- Ties go to the even neighbour, also among the subnormal numbers and to zero. -/
example : rnd f32 (2 ^ 24 + 1) = .fin (2 ^ 24) ∧ rnd f32 (2 ^ 24 + 3) = .fin (2 ^ 24 + 4) ∧
    rnd f32 (1 / 2 ^ 150) = .fin 0 ∧ rnd f32 (3 / 2 ^ 150) = .fin (2 / 2 ^ 149) := by decide +kernel

/-- The root of two. -/
example : Fl.sqrt f32 (.fin 2) = .fin (11863283 / 2 ^ 23) := by decide +kernel

end Verif.Ieee
