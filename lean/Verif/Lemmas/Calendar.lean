import Verif.Lemmas.Text
import Verif.Model.Calendar

/-!
# Lemmas about calendar dates
-/

namespace Verif

namespace Date

theorem daysIn_pos (y : Int) (m : Nat) : 1 ≤ daysIn y m := by
  unfold daysIn; split_ifs <;> omega

theorem tomorrow_valid {d : Date} (h : d.Valid) : d.tomorrow.Valid := by
  obtain ⟨h1, h2, h3, h4⟩ := h
  unfold tomorrow
  split_ifs
  · exact ⟨h1, h2, by simp, by simpa⟩
  · exact ⟨by simp, by simp; omega, by simp, daysIn_pos _ _⟩
  · exact ⟨by simp, by simp, by simp, daysIn_pos _ _⟩

theorem yesterday_valid {d : Date} (h : d.Valid) : d.yesterday.Valid := by
  obtain ⟨h1, h2, h3, h4⟩ := h
  unfold yesterday
  split_ifs
  · exact ⟨h1, h2, by simp; omega, by simp; omega⟩
  · exact ⟨by simp; omega, by simp; omega, daysIn_pos _ _, le_refl _⟩
  · exact ⟨by simp, by simp, by simp, by simp [daysIn]⟩

theorem daysIn_12 (y : Int) : daysIn y 12 = 31 := by simp [daysIn]

theorem yesterday_tomorrow {d : Date} (h : d.Valid) : d.tomorrow.yesterday = d := by
  obtain ⟨y, m, k⟩ := d
  obtain ⟨h1, h2, h3, h4⟩ := h
  simp only at h1 h2 h3 h4
  unfold tomorrow
  simp only
  split_ifs with c1 c2
  · unfold yesterday
    rw [if_pos (by simp; omega)]
    simp
  · unfold yesterday
    simp only [Nat.lt_irrefl, if_false]
    rw [if_pos (by omega)]
    simp only [Nat.add_sub_cancel, mk.injEq, true_and]
    omega
  · unfold yesterday
    obtain rfl : m = 12 := by omega
    rw [daysIn_12] at c1 h4
    simp
    omega

theorem tomorrow_yesterday {d : Date} (h : d.Valid) : d.yesterday.tomorrow = d := by
  obtain ⟨y, m, k⟩ := d
  obtain ⟨h1, h2, h3, h4⟩ := h
  simp only at h1 h2 h3 h4
  unfold yesterday
  simp only
  split_ifs with c1 c2
  · unfold tomorrow
    rw [if_pos (by simp; omega)]
    simp; omega
  · unfold tomorrow
    simp only [Nat.lt_irrefl, if_false]
    rw [if_pos (by omega)]
    simp; omega
  · unfold tomorrow
    simp [daysIn_12]
    omega

theorem epoch_valid : epoch.Valid := by decide

theorem ofDay_valid (n : Int) : (ofDay n).Valid := by
  cases n with
  | ofNat n =>
    show (tomorrow^[n] epoch).Valid
    induction n with
    | zero => exact epoch_valid
    | succ n ih => rw [Function.iterate_succ_apply']; exact tomorrow_valid ih
  | negSucc n =>
    show (yesterday^[n + 1] epoch).Valid
    generalize n + 1 = k
    induction k with
    | zero => exact epoch_valid
    | succ n ih => rw [Function.iterate_succ_apply']; exact yesterday_valid ih

/-- The next day has the next date. -/
theorem ofDay_succ (n : Int) : ofDay (n + 1) = (ofDay n).tomorrow := by
  cases n with
  | ofNat n => exact Function.iterate_succ_apply' tomorrow n epoch
  | negSucc n =>
    have e : ofDay (Int.negSucc n) = (yesterday^[n] epoch).yesterday := Function.iterate_succ_apply' yesterday n epoch
    have hv : (yesterday^[n] epoch).Valid := by
      cases n with
      | zero => exact epoch_valid
      | succ n => exact ofDay_valid (Int.negSucc n)
    rw [e, tomorrow_yesterday hv]
    cases n with
    | zero => rfl
    | succ n => rfl

/-- The previous day has the previous date. -/
theorem ofDay_pred (n : Int) : ofDay (n - 1) = (ofDay n).yesterday := by
  have h := ofDay_succ (n - 1)
  rw [Int.sub_add_cancel] at h
  rw [h, yesterday_tomorrow (ofDay_valid _)]

theorem daysBeforeMonth_succ {y : Int} {m : Nat} (h : 1 ≤ m) :
    daysBeforeMonth y (m + 1) = daysBeforeMonth y m + daysIn y m := by
  unfold daysBeforeMonth
  obtain ⟨k, rfl⟩ : ∃ k, m = k + 1 := ⟨m - 1, by omega⟩
  simp [List.range_succ, daysIn]

theorem leap_iff (y : Int) : leap y = true ↔ y % 4 = 0 ∧ (y % 100 ≠ 0 ∨ y % 400 = 0) := by
  unfold leap; simp

theorem daysBeforeYear_succ (y : Int) :
    daysBeforeYear (y + 1) = daysBeforeYear y + (daysBeforeMonth y 12 + 31 : Nat) := by
  have e : daysBeforeMonth y 12 = if leap y then 335 else 334 := by
    simp only [daysBeforeMonth, List.range_succ, List.range_zero, daysIn]
    split_ifs <;> simp
  rw [e]
  have := leap_iff y
  unfold daysBeforeYear
  split_ifs with h
  · rw [this] at h; omega
  · rw [this] at h; omega

/-- The next date belongs to the next day. -/
theorem toDay_tomorrow {d : Date} (h : d.Valid) : d.tomorrow.toDay = d.toDay + 1 := by
  obtain ⟨y, m, k⟩ := d
  obtain ⟨h1, h2, h3, h4⟩ := h
  simp only at h1 h2 h3 h4
  unfold tomorrow
  simp only
  split_ifs with c1 c2
  · unfold toDay; simp only; push_cast; omega
  · unfold toDay; simp only; rw [daysBeforeMonth_succ h1]; push_cast; omega
  · obtain rfl : m = 12 := by omega
    rw [daysIn_12] at c1 h4
    unfold toDay; simp only
    rw [daysBeforeYear_succ]
    have : daysBeforeMonth (y + 1) 1 = 0 := rfl
    rw [this]
    push_cast
    omega

theorem toDay_epoch : epoch.toDay = 0 := by decide +kernel

/-- Counting the days of the calendar gives the number of the day. -/
theorem toDay_ofDay (n : Int) : (ofDay n).toDay = n := by
  induction n using Int.induction_on with
  | zero => exact toDay_epoch
  | succ n ih => rw [ofDay_succ, toDay_tomorrow (ofDay_valid _), ih]
  | pred n ih =>
    have h := toDay_tomorrow (yesterday_valid (ofDay_valid (-n)))
    rw [tomorrow_yesterday (ofDay_valid _), ih] at h
    rw [ofDay_pred]
    omega

/-- The order of dates. -/
def Before (a b : Date) : Prop :=
  a.year < b.year ∨ a.year = b.year ∧ (a.month < b.month ∨ a.month = b.month ∧ a.day < b.day)

theorem before_trichotomy (a b : Date) : a.Before b ∨ a = b ∨ b.Before a := by
  obtain ⟨y, m, d⟩ := a
  obtain ⟨y', m', d'⟩ := b
  simp only [Before, mk.injEq]
  omega

theorem daysBeforeMonth_mono {y : Int} {m m' : Nat} (h1 : 1 ≤ m) (h : m < m') :
    daysBeforeMonth y m + daysIn y m ≤ daysBeforeMonth y m' := by
  rw [← daysBeforeMonth_succ h1]
  induction m', h using Nat.le_induction with
  | base => exact le_refl _
  | succ k hk ih => have := daysBeforeMonth_succ (y := y) (m := k) (by omega); omega

theorem daysBeforeYear_mono {y y' : Int} (h : y ≤ y') : daysBeforeYear y ≤ daysBeforeYear y' := by
  unfold daysBeforeYear; omega

/-- An earlier date is an earlier day. -/
theorem toDay_lt {a b : Date} (ha : a.Valid) (hb : b.Valid) (h : a.Before b) : a.toDay < b.toDay := by
  obtain ⟨y, m, k⟩ := a
  obtain ⟨y', m', k'⟩ := b
  obtain ⟨h1, h2, h3, h4⟩ := ha
  obtain ⟨g1, g2, g3, g4⟩ := hb
  simp only at h1 h2 h3 h4 g1 g2 g3 g4
  unfold Before at h
  simp only at h
  unfold toDay
  simp only
  rcases h with h | ⟨rfl, h | ⟨rfl, h⟩⟩
  · have e1 := daysBeforeYear_mono (y := y + 1) (y' := y') (by omega)
    rw [daysBeforeYear_succ] at e1
    have e2 : daysBeforeMonth y m + daysIn y m ≤ daysBeforeMonth y 12 + 31 := by
      rcases Nat.lt_or_ge m 12 with c | c
      · have := daysBeforeMonth_mono (y := y) h1 c; omega
      · obtain rfl : m = 12 := by omega
        rw [daysIn_12]
    push_cast at e1
    omega
  · have := daysBeforeMonth_mono (y := y) h1 h
    omega
  · omega

theorem toDay_lt_iff {a b : Date} (ha : a.Valid) (hb : b.Valid) : a.toDay < b.toDay ↔ a.Before b := by
  constructor
  · intro h
    rcases before_trichotomy a b with c | rfl | c
    · exact c
    · omega
    · have := toDay_lt hb ha c; omega
  · exact toDay_lt ha hb

theorem toDay_inj {a b : Date} (ha : a.Valid) (hb : b.Valid) (h : a.toDay = b.toDay) : a = b := by
  rcases before_trichotomy a b with c | c | c
  · have := toDay_lt ha hb c; omega
  · exact c
  · have := toDay_lt hb ha c; omega

/-- The date of the day of a date. -/
theorem ofDay_toDay {d : Date} (h : d.Valid) : ofDay d.toDay = d :=
  toDay_inj (ofDay_valid _) h (toDay_ofDay _)

theorem toDay_yesterday {d : Date} (h : d.Valid) : d.yesterday.toDay = d.toDay - 1 := by
  have := toDay_tomorrow (yesterday_valid h)
  rw [tomorrow_yesterday h] at this
  omega

end Date

end Verif
