import Verif.Model.Unstructured
import Verif.Lemmas.FloatOps

/-!
# The sign of zero does not matter

The model of `f32` and `f64` has one zero (`Verif/Model/Float.lean`).  Here is IEEE 754 arithmetic with two zeros, and the
proof that forgetting the sign of zero commutes with every operation the code uses, except for a division by `-0`
(and `atan2`, which is a function of the platform in the model).  The divisors of the code that are no literals are then shown not to be `-0`:
the power of ten of the packing formula, the number of cells, the increments of a grid where they are used, and the sum of
distances.  So the one-zero model computes what the code computes, up to the sign of zeros, which no comparison, cast or
format sees.
-/

set_option linter.unusedTactic false
set_option linter.unreachableTactic false

namespace Verif.Signed

open Verif

/-- A datum with the sign of zero: `neg = true` means negative. -/
inductive SF where
  | nan
  | inf (neg : Bool)
  | zero (neg : Bool)
  /-- a number that is not zero -/
  | num (q : Rat)

/-- The datum without the sign of zero. -/
def forget : SF → Fl
  | .nan => .nan
  | .inf false => .pinf
  | .inf true => .ninf
  | .zero _ => .fin 0
  | .num q => .fin q

/-- The sign bit of a datum (a NaN has none). -/
def sign : SF → Option Bool
  | .nan => none
  | .inf s => some s
  | .zero s => some s
  | .num q => some (decide (q < 0))

/-- A rounded result of sign `neg` as a datum: a zero keeps the sign (IEEE 754-2019, 6.3). -/
def ofFl (neg : Bool) : Fl → SF
  | .nan => .nan
  | .pinf => .inf false
  | .ninf => .inf true
  | .fin q => if q = 0 then .zero neg else .num q

/-- The exact result `q` rounded; an exact zero gets the sign `neg`, an underflow that of the exact result. -/
def round (F : Fmt) (neg : Bool) (q : Rat) : SF := if q = 0 then .zero neg else ofFl (decide (q < 0)) (rnd F q)

/-- The number of a finite datum. -/
def value : SF → Rat
  | .num q => q
  | _ => 0

def neg : SF → SF
  | .nan => .nan
  | .inf s => .inf !s
  | .zero s => .zero !s
  | .num q => .num (-q)

def abs : SF → SF
  | .nan => .nan
  | .inf _ => .inf false
  | .zero _ => .zero false
  | .num q => .num |q|

/-- Addition: a sum of zeros is negative only if both are; an exact zero sum of other numbers is `+0` (6.3). -/
def add (F : Fmt) : SF → SF → SF
  | .nan, _ => .nan
  | _, .nan => .nan
  | .inf s, .inf t => if s = t then .inf s else .nan
  | .inf s, _ => .inf s
  | _, .inf t => .inf t
  | .zero s, .zero t => .zero (s && t)
  | a, b => round F false (value a + value b)

def sub (F : Fmt) (a b : SF) : SF := add F a (neg b)

/-- Exclusive or of the signs. -/
def signs (a b : SF) : Bool := ((sign a).getD false).xor ((sign b).getD false)

/-- Multiplication: infinity times zero is NaN; the sign is the exclusive or of the signs (6.3). -/
def mul (F : Fmt) (a b : SF) : SF :=
  match a, b with
  | .nan, _ => .nan
  | _, .nan => .nan
  | .inf _, .zero _ => .nan
  | .zero _, .inf _ => .nan
  | .inf _, _ => .inf (signs a b)
  | _, .inf _ => .inf (signs a b)
  | _, _ => round F (signs a b) (value a * value b)

/-- Division: `0/0` and `inf/inf` are NaN; a number divided by zero is infinite; the sign is the exclusive or (6.3). -/
def div (F : Fmt) (a b : SF) : SF :=
  match a, b with
  | .nan, _ => .nan
  | _, .nan => .nan
  | .inf _, .inf _ => .nan
  | .zero _, .zero _ => .nan
  | .inf _, _ => .inf (signs a b)
  | _, .inf _ => .zero (signs a b)
  | _, .zero _ => .inf (signs a b)
  | _, _ => round F (signs a b) (value a / value b)

/-- Square root: the root of `-0` is `-0` (5.4.1). -/
def sqrt (F : Fmt) : SF → SF
  | .zero s => .zero s
  | a => ofFl false (Fl.sqrt F (forget a))

/-- `floor`, `ceil`, `round`: the sign of the argument is kept (5.9). -/
def integral (f : Fl → Fl) (a : SF) : SF := ofFl ((sign a).getD false) (f (forget a))

/-- `a % b`: a zero has the sign of the dividend. -/
def rem (a b : SF) : SF := ofFl ((sign a).getD false) (Fl.rem (forget a) (forget b))

def ofNat (F : Fmt) (n : Nat) : SF := ofFl false (Fl.ofNat F n)

/-- The loop of `powi`. -/
def powNat (F : Fmt) (a : SF) (b : Nat) (r : SF) : SF :=
  let r' := if b % 2 = 1 then mul F r a else r
  if h : b / 2 = 0 then r' else powNat F (mul F a a) (b / 2) r'
termination_by b
decreasing_by omega

def powi (F : Fmt) (a : SF) (n : Int) : SF :=
  let r := powNat F a n.natAbs (.num 1)
  if n < 0 then div F (.num 1) r else r

/-! ## Forgetting the sign of zero -/

/-- `num` holds numbers that are not zero. -/
def Ok : SF → Prop
  | .num q => q ≠ 0
  | _ => True

@[simp] theorem forget_nan : forget .nan = .nan := rfl
@[simp] theorem forget_pinf : forget (.inf false) = .pinf := rfl
@[simp] theorem forget_ninf : forget (.inf true) = .ninf := rfl
@[simp] theorem forget_zero (s : Bool) : forget (.zero s) = .fin 0 := rfl
@[simp] theorem forget_num (q : Rat) : forget (.num q) = .fin q := rfl

theorem forget_ofFl (s : Bool) (x : Fl) : forget (ofFl s x) = x := by
  cases x with
  | fin q =>
    show forget (if q = 0 then _ else _) = _
    split
    · rename_i h; rw [h]; rfl
    · rfl
  | _ => rfl

theorem ok_ofFl (s : Bool) (x : Fl) : Ok (ofFl s x) := by
  cases x with
  | fin q =>
    show Ok (if q = 0 then _ else _)
    split
    · trivial
    · assumption
  | _ => trivial

theorem forget_round (F : Fmt) (s : Bool) (q : Rat) : forget (round F s q) = rnd F q := by
  unfold round
  split
  · rename_i h; rw [h, rnd_zero]; rfl
  · exact forget_ofFl _ _

theorem ok_round (F : Fmt) (s : Bool) (q : Rat) : Ok (round F s q) := by
  unfold round
  split
  · trivial
  · exact ok_ofFl _ _

theorem forget_neg (a : SF) : forget (neg a) = Fl.neg (forget a) := by
  rcases a with _ | s | s | q
  · rfl
  · cases s <;> rfl
  · simp [neg, forget, Fl.neg]
  · rfl

theorem forget_abs (a : SF) : forget (abs a) = Fl.abs (forget a) := by
  rcases a with _ | s | s | q
  · rfl
  · cases s <;> rfl
  · simp [abs, forget, Fl.abs]
  · rfl

theorem forget_add (F : Fmt) (a b : SF) : forget (add F a b) = Fl.add F (forget a) (forget b) := by
  rcases a with _ | s | s | p <;> rcases b with _ | t | t | q <;>
    try cases s
  all_goals try cases t
  all_goals first
    | rfl
    | (simp [add, Fl.add, forget_round, value, rnd_zero]; done)

theorem forget_sub (F : Fmt) (a b : SF) : forget (sub F a b) = Fl.sub F (forget a) (forget b) := by
  unfold sub Fl.sub
  rw [forget_add, forget_neg]

/-- An infinity with the sign of a number. -/
theorem forget_inf {q : Rat} (h : q ≠ 0) :
    forget (.inf (decide (q < 0))) = Fl.infSign q ∧ forget (.inf (!decide (q < 0))) = Fl.neg (Fl.infSign q) := by
  unfold Fl.infSign
  rcases lt_or_gt_of_ne h with h | h <;> simp [h, not_lt.mpr h.le, Fl.neg]

theorem forget_mul (F : Fmt) {a b : SF} (ha : Ok a) (hb : Ok b) : forget (mul F a b) = Fl.mul F (forget a) (forget b) := by
  rcases a with _ | s | s | p <;> rcases b with _ | t | t | q <;>
    try cases s
  all_goals try cases t
  all_goals first
    | rfl
    | (simp [mul, Fl.mul, forget_round, value, rnd_zero, Fl.infSign, Fl.neg]; done)
    | (simpa [mul, signs, sign, Fl.mul] using (forget_inf hb).1)
    | (simpa [mul, signs, sign, Fl.mul] using (forget_inf hb).2)
    | (simpa [mul, signs, sign, Fl.mul] using (forget_inf ha).1)
    | (simpa [mul, signs, sign, Fl.mul] using (forget_inf ha).2)

/-- Division, too, if the divisor is not `-0`. -/
theorem forget_div (F : Fmt) {a b : SF} (ha : Ok a) (hb : Ok b) (h0 : b ≠ .zero true) :
    forget (div F a b) = Fl.div F (forget a) (forget b) := by
  rcases a with _ | s | s | p <;> rcases b with _ | t | t | q <;>
    try cases s
  all_goals try cases t
  all_goals first
    | rfl
    | exact absurd rfl h0
    | (simp [div, Fl.div, Fl.infSign]; done)
    | (simpa [div, signs, sign, Fl.div] using (forget_inf ha).1)
    | (have hb' : q ≠ 0 := hb
       simp [div, Fl.div, forget_round, value, rnd_zero, hb']; done)
    | (have hb' : q ≠ 0 := hb
       rcases lt_or_gt_of_ne hb' with h | h <;> simp [div, signs, sign, Fl.div, h, not_lt.mpr h.le]; done)

theorem forget_sqrt (F : Fmt) (a : SF) : forget (sqrt F a) = Fl.sqrt F (forget a) := by
  rcases a with _ | s | s | q
  · rfl
  · exact forget_ofFl _ _
  · simp [sqrt, Fl.sqrt, Fl.sqrtQ]
  · exact forget_ofFl _ _

theorem forget_integral (f : Fl → Fl) (a : SF) : forget (integral f a) = f (forget a) := forget_ofFl _ _
theorem forget_rem (a b : SF) : forget (rem a b) = Fl.rem (forget a) (forget b) := forget_ofFl _ _
theorem forget_ofNat (F : Fmt) (n : Nat) : forget (ofNat F n) = Fl.ofNat F n := forget_ofFl _ _

theorem ok_ofNat (F : Fmt) (n : Nat) : Ok (ofNat F n) := ok_ofFl _ _

theorem ok_add (F : Fmt) (a b : SF) : Ok (add F a b) := by
  rcases a with _ | s | s | p <;> rcases b with _ | t | t | q <;> try trivial
  · show Ok (if s = t then _ else _)
    split <;> trivial
  all_goals exact ok_round _ _ _

theorem ok_sub (F : Fmt) (a b : SF) : Ok (sub F a b) := ok_add _ _ _

theorem ok_mul (F : Fmt) (a b : SF) : Ok (mul F a b) := by
  rcases a with _ | s | s | p <;> rcases b with _ | t | t | q <;> try trivial
  all_goals exact ok_round _ _ _

theorem ok_div (F : Fmt) (a b : SF) : Ok (div F a b) := by
  rcases a with _ | s | s | p <;> rcases b with _ | t | t | q <;> try trivial
  all_goals exact ok_round _ _ _

theorem ok_sqrt (F : Fmt) (a : SF) : Ok (sqrt F a) := by
  rcases a with _ | s | s | p <;> first | trivial | exact ok_ofFl _ _

theorem forget_powNat (F : Fmt) (b : Nat) : ∀ (a r : SF), Ok a → Ok r →
    forget (powNat F a b r) = Fl.powNat F (forget a) b (forget r) ∧ Ok (powNat F a b r) := by
  induction b using Nat.strongRecOn with
  | ind b ih =>
    intro a r ha hr
    rw [powNat, Fl.powNat]
    have hr' : forget (if b % 2 = 1 then mul F r a else r) = (if b % 2 = 1 then Fl.mul F (forget r) (forget a) else forget r) ∧
        Ok (if b % 2 = 1 then mul F r a else r) := by
      split
      · exact ⟨forget_mul F hr ha, ok_mul _ _ _⟩
      · exact ⟨rfl, hr⟩
    by_cases h : b / 2 = 0
    · simp only [h, dite_true]
      exact hr'
    · simp only [h, dite_false]
      have := ih (b / 2) (by omega) (mul F a a) _ (ok_mul F a a) hr'.2
      rw [forget_mul F ha ha, hr'.1] at this
      exact this

/-! ## Data whose sign is not negative -/

/-- The sign bit is not set. -/
def Plus (a : SF) : Prop := sign a ≠ some true

theorem Plus.not_minus_zero {a : SF} (h : Plus a) : a ≠ .zero true := by rintro rfl; exact h rfl

theorem plus_ofFl {x : Fl} (h : Fl.lt x (.fin 0) = false) : Plus (ofFl false x) := by
  unfold Plus
  cases x with
  | nan => simp [ofFl, sign]
  | pinf => simp [ofFl, sign]
  | ninf => simp [Fl.lt] at h
  | fin q =>
    have hq : ¬ q < 0 := by simpa [Fl.lt] using h
    show sign (if q = 0 then _ else _) ≠ _
    split <;> simp [sign, not_lt.mp hq]

theorem rnd_not_lt {F : Fmt} {q : Rat} (h : 0 ≤ q) : Fl.lt (rnd F q) (.fin 0) = false := by
  have h0 := rndq_nonneg (F := F) h
  have hp := pow2_pos F.emax
  unfold rnd
  simp only
  split
  · rfl
  · rw [if_neg (by linarith)]
    simpa [Fl.lt] using h0

theorem plus_round {F : Fmt} {q : Rat} (h : 0 ≤ q) : Plus (round F false q) := by
  unfold round
  split
  · simp [Plus, sign]
  · rw [decide_eq_false (not_lt.mpr h)]
    exact plus_ofFl (rnd_not_lt h)

theorem plus_value {a : SF} (h : Plus a) : 0 ≤ value a := by
  rcases a with _ | s | s | q <;> simp_all [Plus, sign, value]

theorem plus_cases {a : SF} (h : Plus a) : a = .nan ∨ a = .inf false ∨ a = .zero false ∨ ∃ q, 0 ≤ q ∧ a = .num q := by
  rcases a with _ | s | s | q
  · exact .inl rfl
  · cases s
    · exact .inr (.inl rfl)
    · exact absurd rfl h
  · cases s
    · exact .inr (.inr (.inl rfl))
    · exact absurd rfl h
  · exact .inr (.inr (.inr ⟨q, plus_value h, rfl⟩))

theorem plus_add {F : Fmt} {a b : SF} (ha : Plus a) (hb : Plus b) : Plus (add F a b) := by
  rcases plus_cases ha with rfl | rfl | rfl | ⟨p, hp, rfl⟩ <;> rcases plus_cases hb with rfl | rfl | rfl | ⟨q, hq, rfl⟩ <;>
    first
    | (simp [add, Plus, sign]; done)
    | exact plus_round (by simpa [value] using by linarith)

theorem value_sign (a : SF) : ((sign a).getD false = true → value a ≤ 0) ∧ ((sign a).getD false = false → 0 ≤ value a) := by
  rcases a with _ | s | s | q <;> simp [sign, value]
  exact le_of_lt

/-- Data of the same sign: product and quotient are not negative. -/
theorem value_mul {a b : SF} (h : signs a b = false) : 0 ≤ value a * value b := by
  obtain ⟨a1, a2⟩ := value_sign a
  obtain ⟨b1, b2⟩ := value_sign b
  unfold signs at h
  cases ha : (sign a).getD false <;> cases hb : (sign b).getD false <;> simp_all
  · exact mul_nonneg a2 b2
  · exact mul_nonneg_of_nonpos_of_nonpos a1 b1

theorem plus_mul_signs {F : Fmt} {a b : SF} (h : signs a b = false) : Plus (mul F a b) := by
  have hv := value_mul h
  rcases a with _ | s | s | p <;> rcases b with _ | t | t | q <;>
    first
    | (simp [mul, Plus, sign]; done)
    | (show Plus (.inf (signs _ _)); rw [h]; simp [Plus, sign]; done)
    | (show Plus (round F (signs _ _) _); rw [h]; exact plus_round hv)

theorem plus_sign {a : SF} (h : Plus a) : (sign a).getD false = false := by
  unfold Plus at h
  cases hs : sign a with
  | none => rfl
  | some b => cases b <;> simp_all

theorem plus_mul {F : Fmt} {a b : SF} (ha : Plus a) (hb : Plus b) : Plus (mul F a b) :=
  plus_mul_signs (by unfold signs; rw [plus_sign ha, plus_sign hb]; rfl)

theorem plus_square (F : Fmt) (a : SF) : Plus (mul F a a) := plus_mul_signs (by unfold signs; simp)

theorem plus_div {F : Fmt} {a b : SF} (ha : Plus a) (hb : Plus b) : Plus (div F a b) := by
  have h : signs a b = false := by unfold signs; rw [plus_sign ha, plus_sign hb]; rfl
  have hv : 0 ≤ value a / value b := div_nonneg (plus_value ha) (plus_value hb)
  rcases a with _ | s | s | p <;> rcases b with _ | t | t | q <;>
    first
    | (simp [div, Plus, sign]; done)
    | (show Plus (.inf (signs _ _)); rw [h]; simp [Plus, sign]; done)
    | (show Plus (.zero (signs _ _)); rw [h]; simp [Plus, sign]; done)
    | (show Plus (round F (signs _ _) _); rw [h]; exact plus_round hv)

theorem plus_sqrt {F : Fmt} {a : SF} (ha : Plus a) : Plus (sqrt F a) := by
  rcases plus_cases ha with rfl | rfl | rfl | ⟨q, hq, rfl⟩
  · exact plus_ofFl (x := .nan) rfl
  · exact plus_ofFl (x := .pinf) rfl
  · exact ha
  · refine plus_ofFl ?_
    show Fl.lt (if q < 0 then .nan else Fl.sqrtQ F q) _ = _
    rw [if_neg (not_lt.mpr hq)]
    unfold Fl.sqrtQ
    split
    · simp [Fl.lt]
    · exact rnd_not_lt (mul_nonneg (Nat.cast_nonneg _) (pow2_pos _).le)

theorem plus_ofNat (F : Fmt) (n : Nat) : Plus (ofNat F n) := plus_ofFl (rnd_not_lt (Nat.cast_nonneg n))

theorem plus_powNat {F : Fmt} (b : Nat) : ∀ (a r : SF), Plus a → Plus r → Plus (powNat F a b r) := by
  induction b using Nat.strongRecOn with
  | ind b ih =>
    intro a r ha hr
    rw [powNat]
    have hr' : Plus (if b % 2 = 1 then mul F r a else r) := by
      split
      · exact plus_mul hr ha
      · exact hr
    by_cases h : b / 2 = 0
    · simp only [h, dite_true]
      exact hr'
    · simp only [h, dite_false]
      exact ih (b / 2) (by omega) _ _ (plus_square F a) hr'

theorem plus_one : Plus (.num 1) := by simp [Plus, sign]

/-- A power of a positive number is not negative, and forgetting the sign of zero commutes with `powi`. -/
theorem powi_ok {F : Fmt} {a : SF} (ha : Ok a) (hp : Plus a) (n : Int) :
    forget (powi F a n) = Fl.powi F (forget a) n ∧ Ok (powi F a n) ∧ Plus (powi F a n) := by
  have h1 : Ok (.num 1) := one_ne_zero
  obtain ⟨e, o⟩ := forget_powNat F n.natAbs a (.num 1) ha h1
  have p := plus_powNat (F := F) n.natAbs a (.num 1) hp plus_one
  unfold powi Fl.powi
  simp only
  split
  · refine ⟨?_, ok_div _ _ _, plus_div plus_one p⟩
    rw [forget_div F h1 o p.not_minus_zero, e]; rfl
  · exact ⟨e, o, p⟩

theorem plus_sub {F : Fmt} {a b : SF} (h : Fl.lt (forget b) (forget a) = true) : Plus (sub F a b) := by
  rcases a with _ | s | s | p <;> rcases b with _ | t | t | q <;>
    try cases s
  all_goals try cases t
  all_goals first
    | (simp [Fl.lt] at h; done)
    | (simp [sub, neg, add, Plus, sign]; done)
    | (have h' := h
       simp [Fl.lt] at h'
       exact plus_round (by simp [value, neg]; linarith))

/-! ## The divisors of the code -/

/-- `(reference + raw as f32 * 2f32.powi(E)) / 10f32.powi(D)` (`src/grib2/document/grib2_document.rs` 37-40, 57-58), with
signed zeros. -/
def unpackValue (reference : SF) (binaryScale decimalScale : Int) (raw : Nat) : SF :=
  div f32 (add f32 reference (mul f32 (ofNat f32 raw) (powi f32 (.num 2) binaryScale))) (powi f32 (.num 10) decimalScale)

/-- The unpacked values are those of the model. -/
theorem unpack (t : Grib2.DataTemplate5_0) (reference : SF) (hr : forget reference = t.referenceValue) (raw : Nat) :
    forget (unpackValue reference t.binaryScale t.decimalScale raw) = Grib2.unpackValue t raw := by
  have o2 : Ok (.num 2) := two_ne_zero
  have p2 : Plus (.num 2) := by simp [Plus, sign]
  have o10 : Ok (.num 10) := by show (10 : Rat) ≠ 0; norm_num
  have p10 : Plus (.num 10) := by simp [Plus, sign]
  obtain ⟨e2, k2, _⟩ := powi_ok (F := f32) o2 p2 t.binaryScale
  obtain ⟨e10, k10, m10⟩ := powi_ok (F := f32) o10 p10 t.decimalScale
  unfold unpackValue Grib2.unpackValue
  rw [forget_div _ (ok_add _ _ _) k10 m10.not_minus_zero, forget_add, forget_mul _ (ok_ofNat _ _) k2, forget_ofNat, hr, e2, e10]
  rfl

/-- An increment of a grid and a position divided by it (`src/geo/grid/lat_lon_grid.rs` 15-18, 51-52), with signed zeros. -/
def increment (lo hi : SF) (n : Nat) : SF := div f32 (sub f32 hi lo) (ofNat f32 n)
def cell (lo pos inc : SF) : SF := div f32 (sub f32 pos lo) inc

/-- Cells are computed as in the model, for positions inside of the extent (others get no cell). -/
theorem cells (lo hi pos : SF) (n : Nat) (h1 : Fl.ge (forget pos) (forget lo) = true)
    (h2 : Fl.lt (forget pos) (forget hi) = true) :
    forget (increment lo hi n) = Fl.div f32 (Fl.sub f32 (forget hi) (forget lo)) (Fl.ofNat f32 n) ∧
    forget (cell lo pos (increment lo hi n)) = Fl.div f32 (Fl.sub f32 (forget pos) (forget lo))
      (Fl.div f32 (Fl.sub f32 (forget hi) (forget lo)) (Fl.ofNat f32 n)) := by
  have p := plus_ofNat f32 n
  have e : forget (increment lo hi n) = Fl.div f32 (Fl.sub f32 (forget hi) (forget lo)) (Fl.ofNat f32 n) := by
    unfold increment
    rw [forget_div _ (ok_sub _ _ _) (ok_ofNat _ _) p.not_minus_zero, forget_sub, forget_ofNat]
  have m : Plus (increment lo hi n) := plus_div (plus_sub (Fl.le_lt_trans h1 h2)) p
  refine ⟨e, ?_⟩
  unfold cell
  rw [forget_div _ (ok_sub _ _ _) (show Ok (increment lo hi n) from ok_div _ _ _) m.not_minus_zero, forget_sub, e]

/-- The squared distance (`src/geo/common/lat_lon.rs`, `calc_euclidean_dist_squared`), with signed zeros. -/
def distSquared (lat lon lat' lon' : SF) : SF :=
  add f32 (mul f32 (sub f32 lat lat') (sub f32 lat lat')) (mul f32 (sub f32 lon lon') (sub f32 lon lon'))

theorem dist (lat lon lat' lon' : SF) :
    forget (distSquared lat lon lat' lon') =
      LatLon.calcEuclideanDistSquared ⟨forget lat, forget lon⟩ ⟨forget lat', forget lon'⟩ ∧
    Plus (distSquared lat lon lat' lon') := by
  refine ⟨?_, plus_add (plus_square _ _) (plus_square _ _)⟩
  unfold distSquared LatLon.calcEuclideanDistSquared
  rw [forget_add, forget_mul _ (ok_sub _ _ _) (ok_sub _ _ _), forget_mul _ (ok_sub _ _ _) (ok_sub _ _ _), forget_sub, forget_sub]

/-- The sum of the distances (`src/geo/grid/unstructured_value_grid1.rs` 53); whether `sum` starts with `0.0` or `-0.0`
depends on the version of the standard library. -/
def distSum (start : SF) (ds : List SF) : SF := (ds.map (sqrt f32)).foldl (add f32) start

theorem foldl_plus (ds : List SF) (h : ∀ d ∈ ds, Plus d) : ∀ start, Plus start →
    Plus ((ds.map (sqrt f32)).foldl (add f32) start) := by
  induction ds with
  | nil => exact fun _ hs => hs
  | cons d ds ih =>
    intro start hs
    exact ih (fun x hx => h x (.tail _ hx)) _ (plus_add hs (plus_sqrt (h d (.head _))))

theorem foldl_forget (ds : List SF) : ∀ start : SF,
    forget ((ds.map (sqrt f32)).foldl (add f32) start) =
      (ds.map fun d => Fl.sqrt f32 (forget d)).foldl (Fl.add f32) (forget start) := by
  induction ds with
  | nil => exact fun _ => rfl
  | cons d ds ih =>
    intro start
    show forget ((ds.map (sqrt f32)).foldl (add f32) (add f32 start (sqrt f32 d))) = _
    rw [ih, forget_add, forget_sqrt]; rfl

theorem ok_foldl (ds : List SF) : ∀ start : SF, Ok start → Ok ((ds.map (sqrt f32)).foldl (add f32) start) := by
  induction ds with
  | nil => exact fun _ h => h
  | cons d ds ih => intro start _; exact ih _ (ok_add _ _ _)

/-- The weights (`src/geo/grid/unstructured_value_grid1.rs` 53, 63) are those of the model: the sum of at least one distance is not
`-0`, whichever zero the sum starts with. -/
theorem weights (s : Bool) (d : SF) (ds : List SF) (h : ∀ x ∈ d :: ds, Plus x) (x : SF) :
    forget (div f32 (sqrt f32 x) (distSum (.zero s) (d :: ds))) =
      Fl.div f32 (Fl.sqrt f32 (forget x))
        (((d :: ds).map fun y => Fl.sqrt f32 (forget y)).foldl (Fl.add f32) (.fin 0)) := by
  have h0 : Plus (add f32 (.zero s) (sqrt f32 d)) := by
    have hd := plus_sqrt (F := f32) (h d (.head _))
    rcases plus_cases hd with e | e | e | ⟨q, hq, e⟩ <;> rw [e]
    · simp [add, Plus, sign]
    · simp [add, Plus, sign]
    · simp [add, Plus, sign]
    · exact plus_round (by simpa [value] using hq)
  have hp : Plus (distSum (.zero s) (d :: ds)) := foldl_plus ds (fun y hy => h y (.tail _ hy)) _ h0
  rw [forget_div _ (ok_sqrt _ _) (show Ok (distSum (.zero s) (d :: ds)) from ok_foldl _ (.zero s) trivial) hp.not_minus_zero, forget_sqrt]
  unfold distSum
  rw [foldl_forget]
  rfl

/-- The condition on the divisor is needed: `1 / -0` is minus infinity, `1 / 0` plus infinity. -/
example : forget (div f32 (.num 1) (.zero true)) = .ninf ∧ Fl.div f32 (.fin 1) (.fin 0) = .pinf := by
  constructor
  · rfl
  · decide +kernel

/-- And such a divisor can arise from an increment if the extent is turned around: a tiny negative extent of many cells. -/
example : increment (.num (1 / 2 ^ 149)) (.zero false) 4 = .zero true := by
  have tiny : ¬ (-(1 / 2 ^ 149) : Rat) = 0 := by norm_num
  have e : sub f32 (.zero false) (.num (1 / 2 ^ 149)) = .num (-(1 / 2 ^ 149)) := by
    show round f32 false (0 + -(1 / 2 ^ 149)) = _
    have h : rnd f32 (-(1 / 2 ^ 149)) = .fin (-(1 / 2 ^ 149)) := by decide +kernel
    rw [zero_add, round, if_neg tiny, h, ofFl, if_neg tiny]
  have e4 : ofNat f32 4 = .num 4 := by
    have h : Fl.ofNat f32 4 = .fin 4 := by decide +kernel
    rw [ofNat, h, ofFl, if_neg (by norm_num)]
  rw [increment, e, e4]
  show round f32 _ (-(1 / 2 ^ 149) / 4) = _
  have h : rnd f32 (-(1 / 2 ^ 149) / 4) = .fin 0 := by decide +kernel
  rw [round, if_neg (by norm_num), h, ofFl, if_pos rfl, decide_eq_true (by norm_num)]

end Verif.Signed
