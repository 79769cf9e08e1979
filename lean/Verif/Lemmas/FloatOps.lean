import Verif.Lemmas.Float

/-!
# Lemmas about the floating point operations: order, exactness, monotonicity
-/

namespace Verif

theorem prec32 : 1 ≤ f32.prec := by decide
theorem prec64 : 1 ≤ f64.prec := by decide

/-- Representable numbers within range are rounded to themselves. -/
theorem rnd_exact {F : Fmt} {q : Rat} (hp : 1 ≤ F.prec) (hr : Rep F q) (hb : |q| < pow2 F.emax) :
    rnd F q = .fin q := by
  unfold rnd
  rw [rndq_rep hp hr]
  rw [abs_lt] at hb
  simp only
  rw [if_neg (by linarith), if_neg (by linarith)]

theorem rnd_zero (F : Fmt) : rnd F 0 = .fin 0 := by
  unfold rnd
  rw [rndq_zero]
  have := pow2_pos F.emax
  simp only
  rw [if_neg (by linarith), if_neg (by linarith)]

/-- If `|q|` is at most a representable bound below the overflow threshold, no overflow happens. -/
theorem rnd_fin {F : Fmt} {q B : Rat} (hp : 1 ≤ F.prec) (hB : Rep F B) (hb : B < pow2 F.emax)
    (h : |q| ≤ B) : rnd F q = .fin (rndq F q) := by
  rw [abs_le] at h
  have h1 := rndq_le_rep hp hB h.2
  have h2 := rep_le_rndq hp (rep_neg hB) h.1
  unfold rnd
  simp only
  rw [if_neg (by linarith), if_neg (by linarith)]

theorem rnd_cases (F : Fmt) (q : Rat) :
    (rnd F q = .pinf ∧ pow2 F.emax ≤ rndq F q) ∨ (rnd F q = .ninf ∧ rndq F q ≤ -pow2 F.emax) ∨
    (rnd F q = .fin (rndq F q) ∧ |rndq F q| < pow2 F.emax) := by
  unfold rnd
  simp only
  split
  · left; exact ⟨rfl, by assumption⟩
  · split
    · right; left; exact ⟨rfl, by assumption⟩
    · right; right
      refine ⟨rfl, ?_⟩
      rw [abs_lt]; constructor <;> linarith

theorem rnd_ne_nan (F : Fmt) (q : Rat) : rnd F q ≠ .nan := by
  rcases rnd_cases F q with h | h | h <;> rw [h.1] <;> simp

/-- The result of rounding is a value of the format. -/
theorem isFl_rnd (F : Fmt) (q : Rat) : IsFl F (rnd F q) := by
  rcases rnd_cases F q with h | h | h <;> rw [h.1]
  · trivial
  · trivial
  · exact ⟨rep_rndq F q, h.2⟩

theorem isFl_exact {F : Fmt} {q : Rat} (hp : 1 ≤ F.prec) (h : IsFl F (.fin q)) : rnd F q = .fin q :=
  rnd_exact hp h.1 h.2

theorem rep_int {F : Fmt} {n : Int} (he : F.emin ≤ 0) (h : |n| ≤ 2 ^ F.prec) : Rep F (n : Rat) :=
  ⟨n, 0, by rw [pow2_zero, mul_one], h, he⟩

theorem rep_nat {F : Fmt} {n : Nat} (he : F.emin ≤ 0) (h : n ≤ 2 ^ F.prec) : Rep F (n : Rat) := by
  have := rep_int (F := F) (n := (n : Int)) he (by rw [Nat.abs_cast]; exact_mod_cast h)
  exact_mod_cast this

theorem rep_mul_pow2 {F : Fmt} {m e : Int} (h : |m| ≤ 2 ^ F.prec) (he : F.emin ≤ e) :
    Rep F ((m : Rat) * pow2 e) := ⟨m, e, rfl, h, he⟩

/-- Integers up to 2^24 are exact in binary32. -/
theorem rnd32_int {n : Int} (h : |n| ≤ 2 ^ 24) : rnd f32 (n : Rat) = .fin n := by
  apply rnd_exact prec32 (rep_int (by decide) h)
  have h1 : (|n| : Int) ≤ 2 ^ 24 := h
  have h2 : ((|n| : Int) : Rat) ≤ 2 ^ 24 := by exact_mod_cast h1
  have h3 : |(n : Rat)| ≤ 2 ^ 24 := by rw [← Int.cast_abs]; exact h2
  have : pow2 f32.emax = 2 ^ 128 := by
    show pow2 (128 : Nat) = _
    rw [pow2_nat]
  rw [this]
  refine lt_of_le_of_lt h3 (by norm_num)

theorem rnd32_nat {n : Nat} (h : n ≤ 2 ^ 24) : rnd f32 (n : Rat) = .fin n := by
  have := rnd32_int (n := (n : Int)) (by rw [Nat.abs_cast]; exact_mod_cast h)
  exact_mod_cast this

namespace Fl

/-! ## order -/

theorem le_refl {a : Fl} (h : a ≠ nan) : le a a = true := by cases a <;> simp_all [le]

theorem le_trans {a b c : Fl} (h1 : le a b = true) (h2 : le b c = true) : le a c = true := by
  cases a <;> cases b <;> cases c <;> simp_all [le]
  exact _root_.le_trans h1 h2

theorem lt_le_trans {a b c : Fl} (h1 : lt a b = true) (h2 : le b c = true) : lt a c = true := by
  cases a <;> cases b <;> cases c <;> simp_all [le, lt]
  exact lt_of_lt_of_le h1 h2

theorem le_lt_trans {a b c : Fl} (h1 : le a b = true) (h2 : lt b c = true) : lt a c = true := by
  cases a <;> cases b <;> cases c <;> simp_all [le, lt]
  exact lt_of_le_of_lt h1 h2

theorem lt_trans {a b c : Fl} (h1 : lt a b = true) (h2 : lt b c = true) : lt a c = true := by
  cases a <;> cases b <;> cases c <;> simp_all [lt]
  exact _root_.lt_trans h1 h2

theorem le_of_lt {a b : Fl} (h : lt a b = true) : le a b = true := by
  cases a <;> cases b <;> simp_all [le, lt]
  exact _root_.le_of_lt h

theorem lt_irrefl (a : Fl) : lt a a = false := by cases a <;> simp [lt]

theorem not_lt {a b : Fl} (ha : a ≠ nan) (hb : b ≠ nan) : lt a b = false ↔ le b a = true := by
  cases a <;> cases b <;> simp_all [le, lt]

theorem not_le {a b : Fl} (ha : a ≠ nan) (hb : b ≠ nan) : le a b = false ↔ lt b a = true := by
  cases a <;> cases b <;> simp_all [le, lt]

theorem le_total {a b : Fl} (ha : a ≠ nan) (hb : b ≠ nan) : le a b = true ∨ le b a = true := by
  cases a <;> cases b <;> simp_all [le]
  exact _root_.le_total _ _

theorem le_antisymm {a b : Fl} (h1 : le a b = true) (h2 : le b a = true) : a = b := by
  cases a <;> cases b <;> simp_all [le]
  exact _root_.le_antisymm h1 h2

theorem ne_nan_of_le_left {a b : Fl} (h : le a b = true) : a ≠ nan := by
  intro h'; subst h'; simp [le] at h

theorem ne_nan_of_le_right {a b : Fl} (h : le a b = true) : b ≠ nan := by
  intro h'; subst h'; cases a <;> simp [le] at h

@[simp] theorem le_fin {a b : Rat} : le (fin a) (fin b) = true ↔ a ≤ b := by simp [le]
@[simp] theorem lt_fin {a b : Rat} : lt (fin a) (fin b) = true ↔ a < b := by simp [lt]
@[simp] theorem feq_fin {a b : Rat} : feq (fin a) (fin b) = true ↔ a = b := by simp [feq]
@[simp] theorem le_pinf_iff {a : Fl} : le a pinf = true ↔ a ≠ nan := by cases a <;> simp [le]
@[simp] theorem ninf_le_iff {a : Fl} : le ninf a = true ↔ a ≠ nan := by cases a <;> simp [le]

/-- A datum between two finite ones is finite. -/
theorem fin_of_between {a b : Rat} {x : Fl} (h1 : le (fin a) x = true) (h2 : le x (fin b) = true) :
    ∃ q, x = fin q ∧ a ≤ q ∧ q ≤ b := by
  cases x <;> simp_all [le]

/-! ## monotone operations -/

theorem rnd_mono {F : Fmt} {a b : Rat} (hp : 1 ≤ F.prec) (h : a ≤ b) : le (rnd F a) (rnd F b) = true := by
  have hm := rndq_mono hp h
  have pp := pow2_pos F.emax
  rcases rnd_cases F a with ha | ha | ha <;> rcases rnd_cases F b with hb | hb | hb <;>
    rw [ha.1, hb.1] <;> simp [le]
  · linarith [ha.2, hb.2]
  · have := abs_lt.mp hb.2; linarith [ha.2]
  · have := abs_lt.mp ha.2; linarith [hb.2]
  · exact hm

theorem rnd_le_fin {F : Fmt} {a r : Rat} (hp : 1 ≤ F.prec) (hr : IsFl F (fin r)) (h : a ≤ r) :
    le (rnd F a) (fin r) = true := by
  rw [← isFl_exact hp hr]; exact rnd_mono hp h

theorem fin_le_rnd {F : Fmt} {a r : Rat} (hp : 1 ≤ F.prec) (hr : IsFl F (fin r)) (h : r ≤ a) :
    le (fin r) (rnd F a) = true := by
  rw [← isFl_exact hp hr]; exact rnd_mono hp h

/-- Any operation that fixes the infinities and is a rounded monotone function on finite data is
monotone. -/
theorem mono_of_rnd {F : Fmt} {g : Fl → Fl} {f : Rat → Rat} (hp : 1 ≤ F.prec)
    (hf : ∀ x y, x ≤ y → f x ≤ f y) (h1 : g ninf = ninf) (h2 : g pinf = pinf)
    (h3 : ∀ x, g (fin x) = rnd F (f x)) {a b : Fl} (h : le a b = true) : le (g a) (g b) = true := by
  cases a with
  | nan => simp [le] at h
  | ninf =>
    rw [h1, ninf_le_iff]
    cases b with
    | nan => simp [le] at h
    | ninf => rw [h1]; simp
    | pinf => rw [h2]; simp
    | fin y => rw [h3]; exact rnd_ne_nan _ _
  | pinf =>
    cases b with
    | nan => simp [le] at h
    | ninf => simp [le] at h
    | pinf => rw [h2]; simp
    | fin y => simp [le] at h
  | fin x =>
    cases b with
    | nan => simp [le] at h
    | ninf => simp [le] at h
    | pinf => rw [h2, le_pinf_iff, h3]; exact rnd_ne_nan _ _
    | fin y => rw [h3, h3]; exact rnd_mono hp (hf _ _ (le_fin.mp h))

@[simp] theorem add_fin (F : Fmt) (a b : Rat) : add F (fin a) (fin b) = rnd F (a + b) := rfl
@[simp] theorem sub_fin (F : Fmt) (a b : Rat) : sub F (fin a) (fin b) = rnd F (a - b) := by
  rw [sub_eq_add_neg]; rfl
@[simp] theorem mul_fin (F : Fmt) (a b : Rat) : mul F (fin a) (fin b) = rnd F (a * b) := rfl
theorem div_fin (F : Fmt) (a : Rat) {b : Rat} (h : b ≠ 0) : div F (fin a) (fin b) = rnd F (a / b) := by
  simp only [div, h, if_false]

theorem le_add_right {F : Fmt} {a b : Fl} {c : Rat} (hp : 1 ≤ F.prec) (h : le a b = true) :
    le (add F a (fin c)) (add F b (fin c)) = true :=
  mono_of_rnd (g := fun x => add F x (fin c)) (f := fun x => x + c) hp (fun _ _ h => by linarith)
    rfl rfl (fun _ => rfl) h

theorem le_add_left {F : Fmt} {a b : Fl} {c : Rat} (hp : 1 ≤ F.prec) (h : le a b = true) :
    le (add F (fin c) a) (add F (fin c) b) = true :=
  mono_of_rnd (g := fun x => add F (fin c) x) (f := fun x => c + x) hp (fun _ _ h => by linarith)
    rfl rfl (fun _ => rfl) h

theorem le_sub_right {F : Fmt} {a b : Fl} {c : Rat} (hp : 1 ≤ F.prec) (h : le a b = true) :
    le (sub F a (fin c)) (sub F b (fin c)) = true := le_add_right hp h

theorem neg_le {a b : Fl} (h : le a b = true) : le (neg b) (neg a) = true := by
  cases a <;> cases b <;> simp_all [le, neg]

theorem le_sub_left {F : Fmt} {a b : Fl} {c : Rat} (hp : 1 ≤ F.prec) (h : le a b = true) :
    le (sub F (fin c) b) (sub F (fin c) a) = true := le_add_left hp (neg_le h)

theorem le_mul_right {F : Fmt} {a b : Fl} {c : Rat} (hp : 1 ≤ F.prec) (hc : 0 < c)
    (h : le a b = true) : le (mul F a (fin c)) (mul F b (fin c)) = true :=
  mono_of_rnd (g := fun x => mul F x (fin c)) (f := fun x => x * c) hp (fun _ _ h => by nlinarith)
    (by simp [mul, infSign, hc, neg]) (by simp [mul, infSign, hc]) (fun _ => rfl) h

theorem le_mul_left {F : Fmt} {a b : Fl} {c : Rat} (hp : 1 ≤ F.prec) (hc : 0 < c)
    (h : le a b = true) : le (mul F (fin c) a) (mul F (fin c) b) = true :=
  mono_of_rnd (g := fun x => mul F (fin c) x) (f := fun x => c * x) hp (fun _ _ h => by nlinarith)
    (by simp [mul, infSign, hc, neg]) (by simp [mul, infSign, hc]) (fun _ => rfl) h

theorem le_div_right {F : Fmt} {a b : Fl} {c : Rat} (hp : 1 ≤ F.prec) (hc : 0 < c)
    (h : le a b = true) : le (div F a (fin c)) (div F b (fin c)) = true :=
  mono_of_rnd (g := fun x => div F x (fin c)) (f := fun x => x / c) hp
    (fun _ _ h => by gcongr)
    (by simp [div, hc.le]) (by simp [div, hc.le]) (fun _ => div_fin F _ hc.ne') h

theorem roundAway_mono {a b : Rat} (h : a ≤ b) : roundAway a ≤ roundAway b := by
  unfold roundAway
  split <;> split
  · exact Int.floor_le_floor (by linarith)
  · linarith
  · have h1 : (0 : Int) ≤ ⌊-a + 1 / 2⌋ := Int.floor_nonneg.mpr (by linarith)
    have h2 : (0 : Int) ≤ ⌊b + 1 / 2⌋ := Int.floor_nonneg.mpr (by linarith)
    omega
  · have := Int.floor_le_floor (show -b + 1 / 2 ≤ -a + 1 / 2 by linarith)
    omega

theorem roundAway_int (n : Int) : roundAway (n : Rat) = n := by
  unfold roundAway
  have h : ∀ k : Int, ⌊(k : Rat) + 1 / 2⌋ = k := by
    intro k; rw [Int.floor_eq_iff]; constructor <;> linarith
  split
  · exact h n
  · have := h (-n); push_cast at this; rw [this]; ring

theorem roundAway_err (q : Rat) : |(roundAway q : Rat) - q| ≤ 1 / 2 := by
  unfold roundAway
  split
  · have h1 := Int.floor_le (q + 1 / 2)
    have h2 := Int.lt_floor_add_one (q + 1 / 2)
    rw [abs_le]; constructor <;> linarith
  · have h1 := Int.floor_le (-q + 1 / 2)
    have h2 := Int.lt_floor_add_one (-q + 1 / 2)
    push_cast
    rw [abs_le]; constructor <;> linarith

theorem round_mono {a b : Fl} (h : le a b = true) : le (round a) (round b) = true := by
  cases a <;> cases b <;> simp_all [le, round]
  exact roundAway_mono h

theorem floor_mono {a b : Fl} (h : le a b = true) : le (floor a) (floor b) = true := by
  cases a <;> cases b <;> simp_all [le, floor]
  exact Int.floor_le_floor h

theorem ceil_mono {a b : Fl} (h : le a b = true) : le (ceil a) (ceil b) = true := by
  cases a <;> cases b <;> simp_all [le, ceil]
  exact Int.ceil_le_ceil h

theorem toUInt_mono {m : Nat} {a b : Fl} (h : le a b = true) : toUInt m a ≤ toUInt m b := by
  cases a <;> cases b <;> simp_all [le, toUInt]
  rename_i x y
  have := Int.floor_le_floor h
  omega

theorem toUInt_le (m : Nat) (a : Fl) : toUInt m a ≤ m := by
  cases a <;> simp [toUInt]

theorem toUInt_nat {m n : Nat} (h : n ≤ m) : toUInt m (fin (n : Rat)) = n := by
  simp [toUInt, h]

theorem fmin_eq {a c : Fl} (ha : a ≠ nan) (hc : c ≠ nan) : fmin a c = if lt c a then c else a := by
  cases a <;> cases c <;> simp_all [fmin]

theorem fmax_eq {a c : Fl} (ha : a ≠ nan) (hc : c ≠ nan) : fmax a c = if lt a c then c else a := by
  cases a <;> cases c <;> simp_all [fmax]

theorem fmin_mono {a b c : Fl} (hc : c ≠ nan) (h : le a b = true) : le (fmin a c) (fmin b c) = true := by
  have ha := ne_nan_of_le_left h
  have hb := ne_nan_of_le_right h
  rw [fmin_eq ha hc, fmin_eq hb hc]
  cases h1 : lt c a <;> cases h2 : lt c b <;> simp
  · exact h
  · exact (not_lt hc ha).mp h1
  · exact le_trans (le_trans (le_of_lt h1) h) (le_refl hb)
  · exact le_refl hc

theorem fmax_mono {a b c : Fl} (hc : c ≠ nan) (h : le a b = true) : le (fmax a c) (fmax b c) = true := by
  have ha := ne_nan_of_le_left h
  have hb := ne_nan_of_le_right h
  rw [fmax_eq ha hc, fmax_eq hb hc]
  cases h1 : lt a c <;> cases h2 : lt b c <;> simp
  · exact h
  · exact le_trans h (le_of_lt h2)
  · exact (not_lt hb hc).mp h2
  · exact le_refl hc

end Fl
end Verif
