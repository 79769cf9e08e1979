import Verif.Model.Float
import Mathlib.Tactic.Linarith
import Mathlib.Tactic.Ring
import Mathlib.Tactic.FieldSimp
import Mathlib.Tactic.Positivity
import Mathlib.Tactic.NormNum
import Mathlib.Algebra.Order.Floor.Ring

/-!
# Lemmas about the IEEE rounding function

`rndq` rounds monotonically, fixes representable numbers, and has bounded error.
-/

namespace Verif

theorem pow2_eq (k : Int) : pow2 k = (2 : Rat) ^ k := by
  cases k with
  | ofNat n => simp [pow2]
  | negSucc n => simp [pow2, zpow_negSucc, Rat.mkRat_eq_div]

theorem pow2_pos (k : Int) : 0 < pow2 k := by rw [pow2_eq]; exact zpow_pos (by norm_num) k
theorem pow2_ne (k : Int) : pow2 k ≠ 0 := (pow2_pos k).ne'
theorem pow2_add (a b : Int) : pow2 (a + b) = pow2 a * pow2 b := by
  simp only [pow2_eq]; exact zpow_add₀ (by norm_num) a b
theorem pow2_zero : pow2 0 = 1 := by simp [pow2_eq]
theorem pow2_one : pow2 1 = 2 := by simp [pow2_eq]
theorem pow2_neg (a : Int) : pow2 (-a) = (pow2 a)⁻¹ := by simp [pow2_eq]
theorem pow2_sub (a b : Int) : pow2 (a - b) = pow2 a / pow2 b := by
  rw [sub_eq_add_neg, pow2_add, pow2_neg]; rfl
theorem pow2_mono {a b : Int} (h : a ≤ b) : pow2 a ≤ pow2 b := by
  simp only [pow2_eq]; exact zpow_le_zpow_right₀ (by norm_num) h
theorem pow2_lt {a b : Int} (h : a < b) : pow2 a < pow2 b := by
  simp only [pow2_eq]; exact zpow_lt_zpow_right₀ (by norm_num) h
theorem pow2_lt_iff {a b : Int} : pow2 a < pow2 b ↔ a < b := by
  constructor
  · intro h; by_contra hc; exact absurd (pow2_mono (not_lt.mp hc)) (not_le.mpr h)
  · exact pow2_lt
theorem pow2_le_iff {a b : Int} : pow2 a ≤ pow2 b ↔ a ≤ b := by
  constructor
  · intro h; by_contra hc; exact absurd (pow2_lt (not_le.mp hc)) (not_lt.mpr h)
  · exact pow2_mono
theorem pow2_nat (n : Nat) : pow2 (n : Int) = (2 : Rat) ^ n := by simp [pow2_eq]
/-- `2^k` for `k ≥ 0` is an integer. -/
theorem pow2_int {k : Int} (h : 0 ≤ k) : ∃ n : Nat, pow2 k = (n : Rat) ∧ n = 2 ^ k.toNat := by
  refine ⟨2 ^ k.toNat, ?_, rfl⟩
  conv_lhs => rw [← Int.toNat_of_nonneg h]
  rw [pow2_nat]; norm_num

/-! ## ilog2 -/

theorem ilog2_spec {q : Rat} (hq : q ≠ 0) : pow2 (ilog2 q) ≤ |q| ∧ |q| < pow2 (ilog2 q + 1) := by
  have hn : q.num.natAbs ≠ 0 := by simpa using hq
  have hd : q.den ≠ 0 := q.den_nz
  have habs : |q| = (q.num.natAbs : Rat) / (q.den : Rat) := by
    have h := Rat.num_div_den q
    rw [← h, abs_div, h]; simp [Nat.cast_natAbs]
  have n1 : 2 ^ q.num.natAbs.log2 ≤ q.num.natAbs := Nat.log2_self_le hn
  have n2 : q.num.natAbs < 2 ^ (q.num.natAbs.log2 + 1) := Nat.lt_log2_self
  have d1 : 2 ^ q.den.log2 ≤ q.den := Nat.log2_self_le hd
  have d2 : q.den < 2 ^ (q.den.log2 + 1) := Nat.lt_log2_self
  have key0 : ilog2 q = if pow2 ((q.num.natAbs.log2 : Int) - q.den.log2) ≤ |q| then
      (q.num.natAbs.log2 : Int) - q.den.log2 else (q.num.natAbs.log2 : Int) - q.den.log2 - 1 := rfl
  generalize q.num.natAbs = n at *
  generalize q.den = d at *
  generalize n.log2 = a at *
  generalize d.log2 = b at *
  have n1' : (2 : Rat) ^ a ≤ n := by exact_mod_cast n1
  have n2' : (n : Rat) < 2 ^ (a + 1) := by exact_mod_cast n2
  have d1' : (2 : Rat) ^ b ≤ d := by exact_mod_cast d1
  have d2' : (d : Rat) < 2 ^ (b + 1) := by exact_mod_cast d2
  have dpos : (0 : Rat) < d := by exact_mod_cast Nat.pos_of_ne_zero hd
  have up : |q| < pow2 ((a : Int) - b + 1) := by
    rw [habs, div_lt_iff₀ dpos]
    have : pow2 ((a : Int) - b + 1) = 2 ^ (a + 1) / 2 ^ b := by
      rw [show (a : Int) - b + 1 = ((a + 1 : Nat) : Int) - (b : Nat) by push_cast; ring, pow2_sub,
        pow2_nat, pow2_nat]
    rw [this, div_mul_eq_mul_div, lt_div_iff₀ (by positivity)]
    calc (n : Rat) * 2 ^ b ≤ n * d := by gcongr
      _ < 2 ^ (a + 1) * d := by gcongr
  have lo : pow2 ((a : Int) - b - 1) ≤ |q| := by
    rw [habs, le_div_iff₀ dpos]
    have : pow2 ((a : Int) - b - 1) = 2 ^ a / 2 ^ (b + 1) := by
      rw [show (a : Int) - b - 1 = (a : Nat) - ((b + 1 : Nat) : Int) by push_cast; ring, pow2_sub,
        pow2_nat, pow2_nat]
    rw [this, div_mul_eq_mul_div, div_le_iff₀ (by positivity)]
    calc (2 : Rat) ^ a * d ≤ n * d := by gcongr
      _ ≤ n * 2 ^ (b + 1) := by gcongr
  rw [key0]
  split
  · exact ⟨by assumption, up⟩
  · refine ⟨lo, ?_⟩
    rename_i h
    rw [sub_add_cancel]
    exact not_le.mp h

/-! ## rhe -/

theorem rhe_spec (q : Rat) : |q - rhe q| ≤ 1 / 2 ∧ (|q - rhe q| = 1 / 2 → rhe q % 2 = 0) := by
  have h1 := Int.floor_le q
  have h2 := Int.lt_floor_add_one q
  unfold rhe
  simp only
  split
  · rename_i h
    refine ⟨by rw [abs_le]; constructor <;> linarith, ?_⟩
    intro hh; rw [abs_of_nonneg (by linarith)] at hh; linarith
  · split
    · rename_i h h'
      push_cast
      refine ⟨by rw [abs_le]; constructor <;> linarith, ?_⟩
      intro hh; rw [abs_of_nonpos (by linarith)] at hh; linarith
    · rename_i h h'
      have : q - ⌊q⌋ = 1 / 2 := le_antisymm (not_lt.mp h') (not_lt.mp h)
      split
      · rename_i h''
        refine ⟨by rw [abs_le]; constructor <;> linarith, fun _ => h''⟩
      · rename_i h''
        push_cast
        refine ⟨by rw [abs_le]; constructor <;> linarith, fun _ => by omega⟩

theorem rhe_unique {q : Rat} {n : Int} (h1 : |q - n| ≤ 1 / 2) (h2 : |q - n| = 1 / 2 → n % 2 = 0) :
    rhe q = n := by
  obtain ⟨g1, g2⟩ := rhe_spec q
  generalize rhe q = m at *
  by_contra hne
  rw [abs_le] at h1 g1
  have e1 : (m : Rat) - n ≤ 1 := by linarith
  have e2 : (n : Rat) - m ≤ 1 := by linarith
  have e1' : m - n ≤ 1 := by exact_mod_cast e1
  have e2' : n - m ≤ 1 := by exact_mod_cast e2
  rcases (by omega : m = n + 1 ∨ m = n - 1) with h | h
  · subst h
    push_cast at g1
    have : q - n = 1 / 2 := by linarith
    have a := h2 (by rw [this]; norm_num)
    have b := g2 (by push_cast; rw [show q - ((n : Rat) + 1) = -(1 / 2) by linarith]; norm_num)
    omega
  · subst h
    push_cast at g1
    have : q - n = -(1 / 2) := by linarith
    have a := h2 (by rw [this]; norm_num)
    have b := g2 (by push_cast; rw [show q - ((n : Rat) - 1) = (1 / 2) by linarith]; norm_num)
    omega

theorem rhe_int (n : Int) : rhe (n : Rat) = n := rhe_unique (by simp) (by simp)

theorem rhe_neg (q : Rat) : rhe (-q) = -rhe q := by
  obtain ⟨g1, g2⟩ := rhe_spec q
  have e : -q - ((-rhe q : Int) : Rat) = -(q - rhe q) := by push_cast; ring
  apply rhe_unique
  · rw [e, abs_neg]; exact g1
  · rw [e, abs_neg]; intro h; have := g2 h; omega

theorem rhe_mono {a b : Rat} (h : a ≤ b) : rhe a ≤ rhe b := by
  obtain ⟨g1, _⟩ := rhe_spec a
  obtain ⟨k1, _⟩ := rhe_spec b
  rw [abs_le] at g1 k1
  by_contra hc
  have hc : rhe b + 1 ≤ rhe a := by omega
  have hc' : (rhe b : Rat) + 1 ≤ rhe a := by exact_mod_cast hc
  have : a = b := by linarith
  rw [this] at hc; omega

theorem le_rhe {n : Int} {q : Rat} (h : (n : Rat) ≤ q) : n ≤ rhe q := by
  have := rhe_mono h; rwa [rhe_int] at this

theorem rhe_le {n : Int} {q : Rat} (h : q ≤ (n : Rat)) : rhe q ≤ n := by
  have := rhe_mono h; rwa [rhe_int] at this

/-! ## expo and rndq -/

theorem expo_ge (F : Fmt) (q : Rat) : F.emin ≤ expo F q := le_max_right _ _

theorem expo_upper (F : Fmt) {q : Rat} (hq : q ≠ 0) : |q| < pow2 (expo F q + F.prec) := by
  refine lt_of_lt_of_le (ilog2_spec hq).2 (pow2_mono ?_)
  have : ilog2 q - (F.prec - 1) ≤ expo F q := le_max_left _ _
  omega

theorem expo_lower (F : Fmt) {q : Rat} (hq : q ≠ 0) (h : F.emin < expo F q) :
    pow2 (expo F q + F.prec - 1) ≤ |q| := by
  have : expo F q = ilog2 q - (F.prec - 1) := by unfold expo at *; omega
  rw [this, show ilog2 q - ((F.prec : Int) - 1) + F.prec - 1 = ilog2 q by ring]
  exact (ilog2_spec hq).1

theorem ilog2_neg (q : Rat) : ilog2 (-q) = ilog2 q := by
  simp [ilog2]

theorem expo_neg (F : Fmt) (q : Rat) : expo F (-q) = expo F q := by
  simp [expo, ilog2_neg]

theorem rndq_neg (F : Fmt) (q : Rat) : rndq F (-q) = -rndq F q := by
  unfold rndq
  by_cases h : q = 0
  · simp [h]
  · simp [h, expo_neg, neg_div, rhe_neg]

theorem rndq_zero (F : Fmt) : rndq F 0 = 0 := by simp [rndq]

theorem rep_neg {F : Fmt} {q : Rat} (h : Rep F q) : Rep F (-q) := by
  obtain ⟨m, e, h1, h2, h3⟩ := h
  exact ⟨-m, e, by rw [h1]; push_cast; ring, by rwa [abs_neg], h3⟩

theorem rep_zero (F : Fmt) : Rep F 0 := ⟨0, F.emin, by simp, by simp, le_refl _⟩

/-- No representable number lies strictly between a number and its rounding (upper side). -/
theorem rndq_le_rep_pos {F : Fmt} {q r : Rat} (hp : 1 ≤ F.prec) (hq : 0 < q) (hr : Rep F r) (h : q ≤ r) :
    rndq F q ≤ r := by
  have hq0 : q ≠ 0 := hq.ne'
  unfold rndq
  rw [if_neg hq0]
  have pp := pow2_pos (expo F q)
  obtain ⟨m, e', h1, h2, h3⟩ := hr
  rw [← le_div_iff₀ pp]
  by_cases he : expo F q ≤ e'
  · -- r is a multiple of the unit
    obtain ⟨n, hn, _⟩ := pow2_int (k := e' - expo F q) (by omega)
    have : r / pow2 (expo F q) = ((m * n : Int) : Rat) := by
      rw [h1, mul_div_assoc, ← pow2_sub, hn]; push_cast; ring
    rw [this]
    exact_mod_cast rhe_le (by rw [← this]; gcongr)
  · have he : e' < expo F q := by omega
    have hlow := expo_lower F hq0 (by omega)
    rw [abs_of_pos hq] at hlow
    -- r ≤ 2^(expo+prec-1) ≤ q
    have hr : r ≤ pow2 (expo F q + F.prec - 1) := by
      have hm : (m : Rat) ≤ 2 ^ F.prec := by
        have : m ≤ 2 ^ F.prec := le_trans (le_abs_self m) h2
        exact_mod_cast this
      calc r = m * pow2 e' := h1
        _ ≤ 2 ^ F.prec * pow2 e' := by
          have := pow2_pos e'; gcongr
        _ = pow2 (F.prec + e') := by rw [pow2_add, pow2_nat]
        _ ≤ _ := pow2_mono (by omega)
    have heq : q = pow2 (expo F q + F.prec - 1) := le_antisymm (le_trans h hr) hlow
    have hr' : r = q := le_antisymm (hr.trans heq.symm.le) h
    obtain ⟨n, hn, _⟩ := pow2_int (k := (F.prec : Int) - 1) (by omega)
    have : q / pow2 (expo F q) = ((n : Int) : Rat) := by
      rw [div_eq_iff pp.ne']
      calc q = pow2 (expo F q + F.prec - 1) := heq
        _ = pow2 ((F.prec : Int) - 1) * pow2 (expo F q) := by rw [← pow2_add]; congr 1; ring
        _ = _ := by rw [hn]; push_cast; rfl
    rw [hr', this, rhe_int]

/-- No representable number lies strictly between a number and its rounding (lower side). -/
theorem rep_le_rndq_pos {F : Fmt} {q r : Rat} (hp : 1 ≤ F.prec) (hq : 0 < q) (hr : Rep F r) (h : r ≤ q) :
    r ≤ rndq F q := by
  have hq0 : q ≠ 0 := hq.ne'
  unfold rndq
  rw [if_neg hq0]
  have pp := pow2_pos (expo F q)
  obtain ⟨m, e', h1, h2, h3⟩ := hr
  rw [← div_le_iff₀ pp]
  by_cases he : expo F q ≤ e'
  · obtain ⟨n, hn, _⟩ := pow2_int (k := e' - expo F q) (by omega)
    have : r / pow2 (expo F q) = ((m * n : Int) : Rat) := by
      rw [h1, mul_div_assoc, ← pow2_sub, hn]; push_cast; ring
    rw [this]
    exact_mod_cast le_rhe (by rw [← this]; gcongr)
  · have he : e' < expo F q := by omega
    have hlow := expo_lower F hq0 (by omega)
    rw [abs_of_pos hq] at hlow
    have hr : r ≤ pow2 (expo F q + F.prec - 1) := by
      have hm : (m : Rat) ≤ 2 ^ F.prec := by
        have : m ≤ 2 ^ F.prec := le_trans (le_abs_self m) h2
        exact_mod_cast this
      calc r = m * pow2 e' := h1
        _ ≤ 2 ^ F.prec * pow2 e' := by
          have := pow2_pos e'; gcongr
        _ = pow2 (F.prec + e') := by rw [pow2_add, pow2_nat]
        _ ≤ _ := pow2_mono (by omega)
    obtain ⟨n, hn, _⟩ := pow2_int (k := (F.prec : Int) - 1) (by omega)
    have e1 : pow2 (expo F q + F.prec - 1) / pow2 (expo F q) = ((n : Int) : Rat) := by
      rw [← pow2_sub, show expo F q + F.prec - 1 - expo F q = (F.prec : Int) - 1 by ring, hn]
      push_cast; rfl
    calc r / pow2 (expo F q) ≤ pow2 (expo F q + F.prec - 1) / pow2 (expo F q) := by gcongr
      _ = ((n : Int) : Rat) := e1
      _ ≤ _ := by
        exact_mod_cast le_rhe (by rw [← e1]; gcongr)

theorem rndq_nonneg {F : Fmt} {q : Rat} (hq : 0 ≤ q) : 0 ≤ rndq F q := by
  unfold rndq
  split
  · exact le_refl _
  · have pp := pow2_pos (expo F q)
    apply mul_nonneg _ pp.le
    have : (0 : Int) ≤ rhe (q / pow2 (expo F q)) := le_rhe (by push_cast; positivity)
    exact_mod_cast this

theorem rndq_le_rep {F : Fmt} {q r : Rat} (hp : 1 ≤ F.prec) (hr : Rep F r) (h : q ≤ r) : rndq F q ≤ r := by
  rcases lt_trichotomy q 0 with hq | hq | hq
  · by_cases h0 : 0 ≤ r
    · have := rndq_nonneg (F := F) (q := -q) (by linarith)
      rw [rndq_neg] at this; linarith
    · have := rep_le_rndq_pos hp (q := -q) (by linarith) (rep_neg hr) (by linarith)
      rw [rndq_neg] at this; linarith
  · subst hq; rw [rndq_zero]; exact h
  · exact rndq_le_rep_pos hp hq hr h

theorem rep_le_rndq {F : Fmt} {q r : Rat} (hp : 1 ≤ F.prec) (hr : Rep F r) (h : r ≤ q) : r ≤ rndq F q := by
  have := rndq_le_rep hp (q := -q) (rep_neg hr) (by linarith)
  rw [rndq_neg] at this; linarith

/-- Representable numbers are fixed. -/
theorem rndq_rep {F : Fmt} {q : Rat} (hp : 1 ≤ F.prec) (hr : Rep F q) : rndq F q = q :=
  le_antisymm (rndq_le_rep hp hr le_rfl) (rep_le_rndq hp hr le_rfl)

theorem rep_pow2 {F : Fmt} {k : Int} (h : F.emin ≤ k) : Rep F (pow2 k) :=
  ⟨1, k, by simp, by
    have : (1 : Int) ≤ 2 ^ F.prec := by exact_mod_cast Nat.one_le_two_pow
    simpa using this, h⟩

/-- The rounded value is representable. -/
theorem rep_rndq (F : Fmt) (q : Rat) : Rep F (rndq F q) := by
  unfold rndq
  split
  · exact rep_zero F
  · rename_i hq
    refine ⟨_, _, rfl, ?_, expo_ge F q⟩
    have hu := expo_upper F hq
    have pp := pow2_pos (expo F q)
    have hx : |q / pow2 (expo F q)| ≤ ((2 ^ F.prec : Int) : Rat) := by
      rw [abs_div, abs_of_pos pp, div_le_iff₀ pp]
      push_cast
      rw [pow2_add, pow2_nat] at hu
      linarith
    rw [abs_le] at hx ⊢
    constructor
    · exact le_rhe (by push_cast; push_cast at hx; exact hx.1)
    · exact rhe_le hx.2

theorem rndq_mono_pos {F : Fmt} {a b : Rat} (hp : 1 ≤ F.prec) (ha : 0 < a) (h : a ≤ b) :
    rndq F a ≤ rndq F b := by
  have hb : 0 < b := by linarith
  have hl : ilog2 a ≤ ilog2 b := by
    by_contra hc
    have h1 := (ilog2_spec ha.ne').1
    have h2 := (ilog2_spec hb.ne').2
    rw [abs_of_pos ha] at h1; rw [abs_of_pos hb] at h2
    have := pow2_mono (a := ilog2 b + 1) (b := ilog2 a) (by omega)
    linarith
  have he : expo F a ≤ expo F b := by unfold expo; omega
  rcases he.eq_or_lt with he | he
  · unfold rndq
    rw [if_neg ha.ne', if_neg hb.ne', he]
    have pp := pow2_pos (expo F b)
    have : rhe (a / pow2 (expo F b)) ≤ rhe (b / pow2 (expo F b)) := rhe_mono (by gcongr)
    have : (rhe (a / pow2 (expo F b)) : Rat) ≤ rhe (b / pow2 (expo F b)) := by exact_mod_cast this
    gcongr
  · have h1 := expo_upper F ha.ne'
    have hge := expo_ge F a
    have h2 := expo_lower F hb.ne' (by omega)
    rw [abs_of_pos ha] at h1; rw [abs_of_pos hb] at h2
    have h3 := pow2_mono (a := expo F a + F.prec) (b := expo F b + F.prec - 1) (by omega)
    have hR : Rep F (pow2 (expo F b + F.prec - 1)) := rep_pow2 (by omega)
    exact le_trans (rndq_le_rep hp hR (by linarith)) (rep_le_rndq hp hR h2)

/-- Rounding is monotone. -/
theorem rndq_mono {F : Fmt} {a b : Rat} (hp : 1 ≤ F.prec) (h : a ≤ b) : rndq F a ≤ rndq F b := by
  rcases lt_trichotomy a 0 with ha | ha | ha
  · rcases lt_or_ge b 0 with hb | hb
    · have := rndq_mono_pos hp (a := -b) (b := -a) (by linarith) (by linarith)
      rw [rndq_neg, rndq_neg] at this; linarith
    · have h1 := rndq_nonneg (F := F) hb
      have h2 := rndq_nonneg (F := F) (q := -a) (by linarith)
      rw [rndq_neg] at h2; linarith
  · subst ha; rw [rndq_zero]; exact rndq_nonneg h
  · exact rndq_mono_pos hp ha h

/-- Absolute error bound in terms of the unit. -/
theorem rndq_err_expo (F : Fmt) (q : Rat) : |rndq F q - q| ≤ pow2 (expo F q) / 2 := by
  have pp := pow2_pos (expo F q)
  unfold rndq
  split
  · rename_i h; subst h; simp; positivity
  · have := (rhe_spec (q / pow2 (expo F q))).1
    have e : (rhe (q / pow2 (expo F q)) : Rat) * pow2 (expo F q) - q
        = -((q / pow2 (expo F q) - rhe (q / pow2 (expo F q))) * pow2 (expo F q)) := by
      field_simp; ring
    rw [e, abs_neg, abs_mul, abs_of_pos pp]
    nlinarith

/-- Error bound: relative error at most `2^-prec`, absolute error at most half the smallest
subnormal in the subnormal range. -/
theorem rndq_err (F : Fmt) (q : Rat) :
    |rndq F q - q| ≤ max (|q| * pow2 (-F.prec)) (pow2 (F.emin - 1)) := by
  by_cases hq : q = 0
  · subst hq; rw [rndq_zero]; simp
  refine (rndq_err_expo F q).trans ?_
  rcases (expo_ge F q).eq_or_lt with h | h
  · apply le_max_of_le_right
    rw [← h, pow2_sub, pow2_one]
  · apply le_max_of_le_left
    have hl := expo_lower F hq h
    rw [show expo F q + F.prec - 1 = expo F q - 1 + F.prec by ring, pow2_add, pow2_sub, pow2_one] at hl
    rw [pow2_neg]
    rw [← div_eq_mul_inv, le_div_iff₀ (pow2_pos _)]
    exact hl

end Verif
