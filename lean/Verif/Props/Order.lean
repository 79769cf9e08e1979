import Verif.Props.LocalitySwiss

/-!
# Property C172: the bytes of a file are ordered like the published numbers
-/

namespace Verif.Props

open Verif MapTileRenderer Dwd Metobin
open Verif.Spec (Filled cell)
open Verif.Spec.Grib2 (Msg encode F32Word)
open Verif.Spec.Decode (present rank)

/-! ## Specification -/

/-- Two published numbers of the kind `ok`, the first at most the second. -/
def NotAbove (ok : Rat → Prop) (a b : Option Rat) : Prop := ∃ q q', a = some q ∧ b = some q' ∧ q ≤ q' ∧ ok q ∧ ok q'

/-- Two published numbers of the kind `ok`. -/
def BothGiven (ok : Rat → Prop) (a b : Option Rat) : Prop := ∃ q q', a = some q ∧ b = some q' ∧ ok q ∧ ok q'

/-- Numbers that are not taken for a missing value of the single level fields. -/
def Unmarked (q : Rat) : Prop := 1 / 1000 ≤ |q + 1|

/-- Quantities without negative values: temperature in Kelvin, totals of precipitation, ceiling, gusts. -/
def Natural (q : Rat) : Prop := 0 ≤ q

/-- Heights in metres that are not written as 0. -/
def HighUp (q : Rat) : Prop := 31 ≤ q

/-- Cloud covers in percent that are not written as 0. -/
def Cloudy (q : Rat) : Prop := 101 / 100 ≤ q

/-- No weather code, or one for no significant weather. -/
def Quiet (o : Option Rat) : Prop := ∀ q, o = some q → q ≤ 4

/-- The numbers published for a first point are at most those for a second, for all the fields of which byte `j` is made;
for the earlier total of precipitation the other way round.  The weather codes have no order, but where there is no
significant weather, byte 0 of the weather file shows the cloud cover. -/
def Ordered (top n : Nat) (p p' : Req → Option Rat) : BinType → Nat → Prop
  | .temp2m, _ => NotAbove Natural (p (.single .t2m n)) (p' (.single .t2m n))
  | .precip, _ => NotAbove Natural (p (.single .totPrec n)) (p' (.single .totPrec n)) ∧
      NotAbove Natural (p' (.single .totPrec (n - 1))) (p (.single .totPrec (n - 1)))
  | .weather, j =>
    if j = 0 then NotAbove Natural (p (.single .clctMod n)) (p' (.single .clctMod n)) ∧ Quiet (p (.single .ww n)) ∧
      Quiet (p' (.single .ww n))
    else NotAbove Natural (p (.single .ceiling n)) (p' (.single .ceiling n))
  | .wind10m, j =>
    if j = 0 then NotAbove Unmarked (p (.single .u10m n)) (p' (.single .u10m n)) ∧
      BothGiven Unmarked (p (.single .v10m n)) (p' (.single .v10m n))
    else if j = 1 then NotAbove Unmarked (p (.single .v10m n)) (p' (.single .v10m n)) ∧
      BothGiven Unmarked (p (.single .u10m n)) (p' (.single .u10m n))
    else NotAbove Natural (p (.single .vmax10m n)) (p' (.single .vmax10m n)) ∧
      BothGiven Unmarked (p (.single .u10m n)) (p' (.single .u10m n)) ∧ BothGiven Unmarked (p (.single .v10m n)) (p' (.single .v10m n))
  | .verticalClouds, j =>
    if j % 2 = 0 then NotAbove HighUp (p (.hhl (top + j / 2))) (p' (.hhl (top + j / 2)))
    else NotAbove Cloudy (p (.level .clc n (top + j / 2))) (p' (.level .clc n (top + j / 2)))
  | .verticalWind, j =>
    if j % 3 = 0 then NotAbove HighUp (p (.hhl (top + j / 3))) (p' (.hhl (top + j / 3)))
    else if j % 3 = 1 then NotAbove (fun _ => True) (p (.level .u n (top + j / 3))) (p' (.level .u n (top + j / 3))) ∧
      BothGiven (fun _ => True) (p (.level .v n (top + j / 3))) (p' (.level .v n (top + j / 3)))
    else NotAbove (fun _ => True) (p (.level .v n (top + j / 3))) (p' (.level .v n (top + j / 3))) ∧
      BothGiven (fun _ => True) (p (.level .u n (top + j / 3))) (p' (.level .u n (top + j / 3)))

/-- The same for the messages of MeteoSwiss, where the weather byte always shows the cloud cover. -/
def OrderedSwiss (n : Nat) (p p' : Record → Option Rat) : BinType → Nat → Prop
  | .temp2m, _ => NotAbove Natural (p (.of .t2m n 0)) (p' (.of .t2m n 0))
  | .precip, _ => NotAbove Natural (p (.of .totPrec n 0)) (p' (.of .totPrec n 0)) ∧
      NotAbove Natural (p' (.of .totPrec (n - 1) 0)) (p (.of .totPrec (n - 1) 0))
  | .weather, j =>
    if j = 0 then NotAbove Natural (p (.of .clct n 0)) (p' (.of .clct n 0))
    else NotAbove Natural (p (.of .ceiling n 0)) (p' (.of .ceiling n 0))
  | .wind10m, j =>
    if j = 0 then NotAbove Unmarked (p (.of .u10m n 0)) (p' (.of .u10m n 0)) ∧ BothGiven Unmarked (p (.of .v10m n 0)) (p' (.of .v10m n 0))
    else if j = 1 then NotAbove Unmarked (p (.of .v10m n 0)) (p' (.of .v10m n 0)) ∧
      BothGiven Unmarked (p (.of .u10m n 0)) (p' (.of .u10m n 0))
    else NotAbove Natural (p (.of .vmax10m n 0)) (p' (.of .vmax10m n 0)) ∧
      BothGiven Unmarked (p (.of .u10m n 0)) (p' (.of .u10m n 0)) ∧ BothGiven Unmarked (p (.of .v10m n 0)) (p' (.of .v10m n 0))
  | .verticalClouds, j =>
    if j % 2 = 0 then NotAbove HighUp (p (.height (31 + j / 2))) (p' (.height (31 + j / 2)))
    else NotAbove Cloudy (p (.of .clc n (31 + j / 2))) (p' (.of .clc n (31 + j / 2)))
  | .verticalWind, j =>
    if j % 3 = 0 then NotAbove HighUp (p (.height (31 + j / 3))) (p' (.height (31 + j / 3)))
    else if j % 3 = 1 then NotAbove (fun _ => True) (p (.of .u n (31 + j / 3))) (p' (.of .u n (31 + j / 3))) ∧
      BothGiven (fun _ => True) (p (.of .v n (31 + j / 3))) (p' (.of .v n (31 + j / 3)))
    else NotAbove (fun _ => True) (p (.of .v n (31 + j / 3))) (p' (.of .v n (31 + j / 3))) ∧
      BothGiven (fun _ => True) (p (.of .u n (31 + j / 3))) (p' (.of .u n (31 + j / 3)))

/-! ## Unpacked numbers -/

/-- The error of unpacking. -/
def Near (v q : Rat) : Prop := |v - q| ≤ |q| / 2 ^ 22 + 1 / 2 ^ 110

/-- Unpacked numbers for `NotAbove`. -/
def Under (ok : Rat → Prop) (o o' : Option Fl) : Prop :=
  ∃ v v' q q' : Rat, o = some (.fin v) ∧ o' = some (.fin v') ∧ v ≤ v' ∧ Near v q ∧ Near v' q' ∧ ok q ∧ ok q'

/-- Unpacked numbers for `BothGiven`. -/
def Both (ok : Rat → Prop) (o o' : Option Fl) : Prop :=
  ∃ v v' q q' : Rat, o = some (.fin v) ∧ o' = some (.fin v') ∧ Near v q ∧ Near v' q' ∧ ok q ∧ ok q'

/-- A message with usual packing. -/
def Packed (msg : Msg) : Prop :=
  (∃ ref r E D bits typ, msg.packing = .simple ref E D bits typ ∧ ref.value = .fin r ∧ |r| ≤ 2 ^ 80 ∧
    -126 ≤ E ∧ E ≤ 60 ∧ -10 ≤ D ∧ D ≤ 10) ∧ ∀ X ∈ msg.data, X < 2 ^ 16

theorem packed_of_ok {msg : Msg} (hok : msg.ok) (h : ∃ ref r E D bits typ, msg.packing = .simple ref E D bits typ ∧
    ref.value = .fin r ∧ |r| ≤ 2 ^ 80 ∧ -126 ≤ E ∧ E ≤ 60 ∧ -10 ≤ D ∧ D ≤ 10) : Packed msg := by
  refine ⟨h, ?_⟩
  obtain ⟨_, _, _, _, _, _, _, _, _, _, _, _, _, _, _, _, _, _, _, _, _, _, _, _, _, _, _, h, _⟩ := hok
  exact h

theorem unpacked_near {msg : Msg} (h : Packed msg) {i : Nat} {q : Rat} (hq : physical msg i = some q) :
    ∃ v : Rat, unpacked msg i = some (.fin v) ∧ Near v q := by
  obtain ⟨⟨ref, r, E, D, bits, typ, hpk, hr, hrb, e1, e2, d1, d2⟩, hx⟩ := h
  rw [physical_eq hpk hr] at hq
  unfold unpacked
  rw [hpk]
  split at hq
  next hpr =>
    obtain ⟨X, hX, rfl⟩ := Option.map_eq_some_iff.mp hq
    obtain ⟨v, v1, v2⟩ := C07_formula ⟨ref.value, E, D, bits, typ⟩ r hr hrb ⟨e1, e2⟩ ⟨d1, d2⟩ X
      (hx X (List.mem_of_getElem? hX))
    exact ⟨v, by simp only [hpr, if_true, hX, Option.map_some, v1], v2⟩
  next => cases hq

theorem unpacked_order {msg : Msg} (h : Packed msg) {i i' : Nat} {q q' : Rat} (hq : physical msg i = some q)
    (hq' : physical msg i' = some q') (hle : q ≤ q') {v v' : Rat} (hv : unpacked msg i = some (.fin v))
    (hv' : unpacked msg i' = some (.fin v')) : v ≤ v' := by
  obtain ⟨⟨ref, r, E, D, bits, typ, hpk, hr, hrb, e1, e2, d1, d2⟩, hx⟩ := h
  rw [physical_eq hpk hr] at hq hq'
  unfold unpacked at hv hv'
  rw [hpk] at hv hv'
  split at hq
  next hpr =>
    split at hq'
    next hpr' =>
      obtain ⟨X, hX, rfl⟩ := Option.map_eq_some_iff.mp hq
      obtain ⟨X', hX', rfl⟩ := Option.map_eq_some_iff.mp hq'
      simp only [hpr, hpr', if_true, hX, hX', Option.map_some, Option.some.injEq] at hv hv'
      have hD : (0 : Rat) < 10 ^ D := by positivity
      have hE : (0 : Rat) < 2 ^ E := by positivity
      have h1 := (div_le_div_iff_of_pos_right hD).mp hle
      have h2 : (X : Rat) ≤ X' := le_of_mul_le_mul_right (by linarith) hE
      have := C07_monotone ⟨ref.value, E, D, bits, typ⟩ r hr ⟨e1, by simp only; omega⟩ ⟨by simp only; omega, by simp only; omega⟩
        X X' (by exact_mod_cast h2)
      rw [hv, hv'] at this
      exact Fl.le_fin.mp this
    next => cases hq'
  next => cases hq

theorem NotAbove.under {msg : Msg} (h : Packed msg) {ok : Rat → Prop} {i i' : Nat}
    (hle : NotAbove ok (physical msg i) (physical msg i')) : Under ok (unpacked msg i) (unpacked msg i') := by
  obtain ⟨q, q', a, b, hle, c, d⟩ := hle
  obtain ⟨v, v1, v2⟩ := unpacked_near h a
  obtain ⟨v', v3, v4⟩ := unpacked_near h b
  exact ⟨v, v', q, q', v1, v3, unpacked_order h a b hle v1 v3, v2, v4, c, d⟩

theorem BothGiven.both {msg : Msg} (h : Packed msg) {ok : Rat → Prop} {i i' : Nat}
    (hle : BothGiven ok (physical msg i) (physical msg i')) : Both ok (unpacked msg i) (unpacked msg i') := by
  obtain ⟨q, q', a, b, c, d⟩ := hle
  obtain ⟨v, v1, v2⟩ := unpacked_near h a
  obtain ⟨v', v3, v4⟩ := unpacked_near h b
  exact ⟨v, v', q, q', v1, v3, v2, v4, c, d⟩

theorem Near.lower {v q a b : Rat} (h : Near v q) (ha : a ≤ q) (h0 : 0 ≤ a) (hb : b ≤ a * (1 - 1 / 2 ^ 22) - 1 / 2 ^ 110) :
    b ≤ v := by
  unfold Near at h
  rw [abs_of_nonneg (h0.trans ha)] at h
  have := (abs_le.mp h).1
  nlinarith

theorem Near.plain {v q : Rat} (h : Near v q) (hq : Unmarked q) : v ≠ -1 := by
  rintro rfl
  unfold Near at h
  unfold Unmarked at hq
  rw [show (-1 : Rat) - q = -(q + 1) by ring, abs_neg] at h
  have h1 : |q| ≤ |q + 1| + 1 := by
    have := abs_sub (q + 1) 1
    rw [add_sub_cancel_right, abs_one] at this
    exact this
  have : |q + 1| ≤ (|q + 1| + 1) / 2 ^ 22 + 1 / 2 ^ 110 := h.trans (by gcongr)
  have h2 : |q + 1| * (1 - 1 / 2 ^ 22) ≤ 1 / 2 ^ 22 + 1 / 2 ^ 110 := by linarith
  have h3 : (1 / 1000 : Rat) * (1 - 1 / 2 ^ 22) ≤ |q + 1| * (1 - 1 / 2 ^ 22) := mul_le_mul_of_nonneg_right hq (by norm_num)
  norm_num at h2 h3
  linarith

theorem Natural.plain {q : Rat} (h : Natural q) : Unmarked q := by
  unfold Natural at h
  unfold Unmarked
  rw [abs_of_nonneg (by linarith)]
  linarith

theorem num_fin {v : Rat} (h : v ≠ -1) : num (some (.fin v)) = some (.fin v) := by
  have : GridValue.eq (Fl.fin v) (Fl.fin (-1)) = false := by
    rw [Bool.eq_false_iff]
    intro hh
    exact h (Fl.feq_fin.mp hh)
  simp [num, kept, this]

theorem Under.num {ok : Rat → Prop} (hok : ∀ q, ok q → Unmarked q) {o o' : Option Fl} (h : Under ok o o') :
    ∃ v v' : Rat, num o = some (.fin v) ∧ num o' = some (.fin v') ∧ v ≤ v' := by
  obtain ⟨v, v', q, q', rfl, rfl, hle, n1, n2, k1, k2⟩ := h
  exact ⟨v, v', num_fin (n1.plain (hok _ k1)), num_fin (n2.plain (hok _ k2)), hle⟩

theorem Both.num {ok : Rat → Prop} (hok : ∀ q, ok q → Unmarked q) {o o' : Option Fl} (h : Both ok o o') :
    ∃ v v' : Rat, num o = some (.fin v) ∧ num o' = some (.fin v') := by
  obtain ⟨v, v', q, q', rfl, rfl, n1, n2, k1, k2⟩ := h
  exact ⟨v, v', num_fin (n1.plain (hok _ k1)), num_fin (n2.plain (hok _ k2))⟩

/-! ## The bytes -/

theorem temp_order {o o' : Option Fl} (h : Under Natural o o') : tempByte (num o) ≤ tempByte (num o') := by
  obtain ⟨v, v', e, e', hle⟩ := h.num fun _ => Natural.plain
  rw [e, e']
  exact C37_monotone (Fl.le_fin.mpr hle)

theorem precip_order {a a' b b' : Option Fl} (h1 : Under Natural b b') (h2 : Under Natural a' a) :
    precipByte (some (.fin 0, Fl.sub f32 (unwrapOr (num b) (.fin 0)) (unwrapOr (num a) (.fin 0)))) ≤
      precipByte (some (.fin 0, Fl.sub f32 (unwrapOr (num b') (.fin 0)) (unwrapOr (num a') (.fin 0)))) := by
  obtain ⟨v, v', e, e', hle⟩ := h1.num fun _ => Natural.plain
  obtain ⟨u', u, k', k, hle'⟩ := h2.num fun _ => Natural.plain
  rw [e, e', k, k']
  apply precipByte_mono
  simp only [unwrapOr, Fl.sub_fin]
  exact Fl.rnd_mono prec32 (by linarith)

theorem ceilingByte_mono {a b : Fl} (h : Fl.le a b = true) : ceilingByte (some a) ≤ ceilingByte (some b) := by
  have h1 := Fl.round_mono (Fl.le_div_right prec32 (c := 200) (by norm_num) (C57_monotone h).1)
  unfold ceilingByte
  simp only
  split
  next ha =>
    rw [if_pos (show Fl.ge _ _ = true from Fl.le_trans ha h1)]
    exact UInt8.le_refl _
  next =>
    split
    · exact UInt8.le_trans (clamp254_le _) (by decide)
    · exact clamp254_mono h1

theorem ceiling_order {o o' : Option Fl} (h : Under Natural o o') : ceilingByte (num o) ≤ ceilingByte (num o') := by
  obtain ⟨v, v', e, e', hle⟩ := h.num fun _ => Natural.plain
  rw [e, e']
  exact ceilingByte_mono (Fl.le_fin.mpr hle)

theorem wind_order {u u' v v' g g' : Option Fl} {j : Nat}
    (h : (j = 0 ∧ Under Unmarked u u' ∧ Both Unmarked v v') ∨ (j = 1 ∧ Under Unmarked v v' ∧ Both Unmarked u u') ∨
      (j = 2 ∧ Under Natural g g' ∧ Both Unmarked u u' ∧ Both Unmarked v v')) :
    (windBytes (bothOf (num u) (num v)) (num g)).getD j 0 ≤ (windBytes (bothOf (num u') (num v')) (num g')).getD j 0 := by
  rcases h with ⟨rfl, h1, h2⟩ | ⟨rfl, h1, h2⟩ | ⟨rfl, h1, h2, h3⟩
  · obtain ⟨a, a', e, e', hle⟩ := h1.num fun _ h => h
    obtain ⟨b, b', f, f'⟩ := h2.num fun _ h => h
    rw [e, e', f, f']
    exact speedByte_mono (Fl.le_fin.mpr hle)
  · obtain ⟨a, a', e, e', hle⟩ := h1.num fun _ h => h
    obtain ⟨b, b', f, f'⟩ := h2.num fun _ h => h
    rw [e, e', f, f']
    exact speedByte_mono (Fl.le_fin.mpr hle)
  · obtain ⟨a, a', e, e', hle⟩ := h1.num fun _ => Natural.plain
    obtain ⟨b, b', f, f'⟩ := h2.num fun _ h => h
    obtain ⟨c, c', k, k'⟩ := h3.num fun _ h => h
    rw [e, e', f, f', k, k']
    exact gustByte_mono (Fl.le_fin.mpr hle)

theorem hhlByte_mono {a b : Fl} (h : Fl.le a b = true) : hhlByte a ≤ hhlByte b :=
  asU8_mono (Fl.le_div_right prec32 (c := 100) (by norm_num) (C57_monotone h).1)

theorem clcByte_mono {a b : Fl} (h : Fl.le a b = true) : clcByte a ≤ clcByte b := asU8_mono h

theorem uvByte_mono {a b : Fl} (h : Fl.le a b = true) : uvByte a ≤ uvByte b := speedByte_mono h

theorem kept_byte {missing : UInt8} {f : Fl → UInt8} {v : Fl} (h : f v ≠ missing) : kept missing f (some v) = some (f v) := by
  have : GridValue.eq (f v) missing = false := by
    rw [Bool.eq_false_iff]
    intro hh
    exact h (by simpa [GridValue.eq] using hh)
  simp [kept, this]

theorem ne_zero_of_one_le {b : UInt8} (h : 1 ≤ b) : b ≠ 0 := by
  rintro rfl
  exact absurd h (by decide)

theorem hhl_order {o o' : Option Fl} (h : Under HighUp o o') :
    (kept 0 hhlByte o).getD 255 ≤ (kept 0 hhlByte o').getD 255 := by
  obtain ⟨v, v', q, q', rfl, rfl, hle, n1, n2, k1, k2⟩ := h
  have one : ∀ {v q : Rat}, Near v q → HighUp q → hhlByte (.fin v) ≠ 0 := by
    intro v q h1 h2
    have h3 : (309 / 10 : Rat) ≤ v := h1.lower h2 (by norm_num) (by norm_num)
    exact ne_zero_of_one_le (UInt8.le_trans (show 1 ≤ hhlByte (.fin (309 / 10)) by decide +kernel)
      (hhlByte_mono (Fl.le_fin.mpr h3)))
  rw [kept_byte (one n1 k1), kept_byte (one n2 k2)]
  exact hhlByte_mono (Fl.le_fin.mpr hle)

theorem clc_order {o o' : Option Fl} (h : Under Cloudy o o') :
    (kept 0 clcByte o).getD 255 ≤ (kept 0 clcByte o').getD 255 := by
  obtain ⟨v, v', q, q', rfl, rfl, hle, n1, n2, k1, k2⟩ := h
  have one : ∀ {v q : Rat}, Near v q → Cloudy q → clcByte (.fin v) ≠ 0 := by
    intro v q h1 h2
    have h3 : (1 : Rat) ≤ v := h1.lower h2 (by norm_num) (by norm_num)
    exact ne_zero_of_one_le (UInt8.le_trans (show 1 ≤ clcByte (.fin 1) by decide +kernel)
      (clcByte_mono (Fl.le_fin.mpr h3)))
  rw [kept_byte (one n1 k1), kept_byte (one n2 k2)]
  exact clcByte_mono (Fl.le_fin.mpr hle)

theorem uv_known (v : Rat) : kept 255 uvByte (some (.fin v)) = some (uvByte (.fin v)) := by
  apply kept_byte
  intro h
  exact (C39_encoding.2.2 (.fin v)).1 h

theorem uv_order {u u' v v' : Option Fl} {j : Nat}
    (h : (j = 1 ∧ Under (fun _ => True) u u' ∧ Both (fun _ => True) v v') ∨
      (j = 2 ∧ Under (fun _ => True) v v' ∧ Both (fun _ => True) u u')) :
    (uvBytes (bothOf (kept 255 uvByte u) (kept 255 uvByte v))).getD (j - 1) 0 ≤
      (uvBytes (bothOf (kept 255 uvByte u') (kept 255 uvByte v'))).getD (j - 1) 0 := by
  rcases h with ⟨rfl, ⟨a, a', _, _, rfl, rfl, hle, _⟩, ⟨b, b', _, _, rfl, rfl, _⟩⟩ |
    ⟨rfl, ⟨a, a', _, _, rfl, rfl, hle, _⟩, ⟨b, b', _, _, rfl, rfl, _⟩⟩
  · simp only [uv_known]
    exact uvByte_mono (Fl.le_fin.mpr hle)
  · simp only [uv_known]
    exact uvByte_mono (Fl.le_fin.mpr hle)

theorem coverClass_mono {a b : Fl} (h : Fl.le a b = true) : coverClass a ≤ coverClass b := by
  have key : ∀ c : Rat, Fl.le b (.fin c) = true → Fl.le a (.fin c) = true := fun c => Fl.le_trans h
  have table : ∀ a1 a2 a3 b1 b2 b3 : Bool, (b1 = true → a1 = true) → (b2 = true → a2 = true) → (b3 = true → a3 = true) →
      (if a1 = true then 0 else if a2 = true then 1 else if a3 = true then 2 else 3) ≤
        (if b1 = true then 0 else if b2 = true then 1 else if b3 = true then 2 else 3 : Nat) := by decide
  exact table _ _ _ _ _ _ (key _) (key _) (key _)

theorem clctByte_mono {a b : Fl} (h : Fl.le a b = true) : clctByte (some a) ≤ clctByte (some b) := by
  rw [UInt8.le_iff_toNat_le, clctByte_some, clctByte_some]
  exact coverClass_mono h

theorem quiet_code {msg : Msg} (h : Packed msg) {i : Nat} (hq : Quiet (physical msg i)) (clct : Option Fl) :
    wwByte (meant (num (unpacked msg i))) clct = clctByte clct := by
  have key : ∀ o : Option Fl, (∀ v, o = some v → ∃ q : Rat, v = .fin q ∧ q ≤ 49 / 10) → wwByte (meant (num o)) clct = clctByte clct := by
    intro o ho
    cases hn : num o with
    | none => rfl
    | some v =>
      obtain ⟨q, rfl, hq⟩ : ∃ q : Rat, v = .fin q ∧ q ≤ 49 / 10 := by
        cases o with
        | none => simp [num, kept] at hn
        | some u =>
          simp only [num, kept, Option.bind_some] at hn
          split at hn
          · cases hn
          · cases hn
            exact ho _ rfl
      have h5 : asU8 (.fin q) ≤ 4 := by
        exact UInt8.le_trans (asU8_mono (Fl.le_fin.mpr hq)) (show asU8 (.fin (49 / 10)) ≤ 4 by decide +kernel)
      unfold meant
      cases hi : WeatherLayer.interpret (some (.fin q)) with
      | ok w =>
        simp only [WeatherLayer.interpret] at hi
        obtain ⟨c, hc, hi⟩ := bind_ok' hi
        cases hi
        have hc' : asU8 (.fin q) = c.toValue := (C41_round_trip_partial.1 _ _).mp hc
        simp only [wwByte]
        rw [if_neg]
        rw [← hc', gt_iff_lt, UInt8.not_lt]
        exact h5
      | err => rfl
      | panic => rfl
  apply key
  intro v hv
  obtain ⟨⟨ref, r, E, D, bits, typ, hpk, hr, hrb, e1, e2, d1, d2⟩, hx⟩ := id h
  cases hp : physical msg i with
  | none =>
    rw [physical_eq hpk hr] at hp
    unfold unpacked at hv
    rw [hpk] at hv
    simp only at hv
    split at hp
    next hpr =>
      rw [Option.map_eq_none_iff] at hp
      simp [hpr, hp] at hv
    next hpr => simp [hpr] at hv
  | some q =>
    obtain ⟨u, u1, u2⟩ := unpacked_near h hp
    rw [hv] at u1
    cases u1
    refine ⟨u, rfl, ?_⟩
    have h4 := hq q hp
    unfold Near at u2
    have h6 := (abs_le.mp u2).2
    rcases abs_cases q with ⟨e, _⟩ | ⟨e, _⟩ <;> rw [e] at h6 <;> norm_num at h6 ⊢ <;> linarith

theorem clct_order {o o' : Option Fl} (h : Under Natural o o') : clctByte (num o) ≤ clctByte (num o') := by
  obtain ⟨v, v', e, e', hle⟩ := h.num fun _ => Natural.plain
  rw [e, e']
  exact clctByte_mono (Fl.le_fin.mpr hle)

/-! ## DWD -/

theorem byteOf_order {top n : Nat} {msgs : Req → Msg} {i i' : Nat} {b : BinType} {j k : Nat} (hj : j < width k b)
    (hk : ∀ r, r ∈ sources top n b j → Packed (msgs r))
    (h : Ordered top n (fun r => physical (msgs r) i) (fun r => physical (msgs r) i') b j) :
    byteOf top n (fun r => unpacked (msgs r) i) b j ≤ byteOf top n (fun r => unpacked (msgs r) i') b j := by
  cases b with
  | temp2m => exact temp_order (NotAbove.under (hk _ (by simp [sources])) h)
  | precip =>
    exact precip_order (NotAbove.under (hk _ (by simp [sources])) h.1) (NotAbove.under (hk _ (by simp [sources])) h.2)
  | weather =>
    simp only [Ordered] at h
    simp only [sources] at hk
    simp only [byteOf]
    by_cases h0 : j = 0
    · simp only [h0, if_true] at h hk ⊢
      rw [quiet_code (hk _ (by simp)) h.2.1, quiet_code (hk _ (by simp)) h.2.2]
      exact clct_order (NotAbove.under (hk _ (by simp)) h.1)
    · simp only [h0, if_false] at h hk ⊢
      exact ceiling_order (NotAbove.under (hk _ (by simp)) h)
  | wind10m =>
    have hj3 : j < 3 := hj
    simp only [Ordered] at h
    have hu : Packed (msgs (.single .u10m n)) := hk _ (by simp only [sources]; split <;> simp)
    have hv : Packed (msgs (.single .v10m n)) := hk _ (by simp only [sources]; split <;> simp)
    apply wind_order
    rcases (by omega : j = 0 ∨ j = 1 ∨ j = 2) with rfl | rfl | rfl
    · exact .inl ⟨rfl, h.1.under hu, h.2.both hv⟩
    · exact .inr (.inl ⟨rfl, h.1.under hv, h.2.both hu⟩)
    · exact .inr (.inr ⟨rfl, h.1.under (hk _ (by simp [sources])), h.2.1.both hu, h.2.2.both hv⟩)
  | verticalClouds =>
    simp only [Ordered] at h
    simp only [sources] at hk
    simp only [byteOf]
    by_cases h0 : j % 2 = 0
    · simp only [h0, if_true] at h hk ⊢
      exact hhl_order (NotAbove.under (hk _ (by simp)) h)
    · simp only [h0, if_false] at h hk ⊢
      exact clc_order (NotAbove.under (hk _ (by simp)) h)
  | verticalWind =>
    simp only [Ordered] at h
    simp only [sources] at hk
    simp only [byteOf]
    by_cases h0 : j % 3 = 0
    · simp only [h0, if_true] at h hk ⊢
      exact hhl_order (NotAbove.under (hk _ (by simp)) h)
    · simp only [h0, if_false] at h hk ⊢
      have hu := hk (.level .u n (top + j / 3)) (by simp)
      have hv := hk (.level .v n (top + j / 3)) (by simp)
      apply uv_order
      by_cases h1 : j % 3 = 1
      · simp only [h1, if_true] at h
        exact .inl ⟨h1, h.1.under hu, h.2.both hv⟩
      · simp only [h1, if_false] at h
        exact .inr ⟨by omega, h.1.under hv, h.2.both hu⟩

/-- The sources of the bytes are used. -/
theorem sources_used {model : FcModel} {n : Nat} {b : BinType} {j : Nat}
    (hj : j < width (model.verticalLevels.2 + 1 - model.verticalLevels.1) b) {r : Req}
    (h : r ∈ sources model.verticalLevels.1 n b j) : Uses model (Output.bin b).variable n r := by
  cases b with
  | temp2m => simpa [sources, Uses, Output.variable] using h
  | precip =>
    simp only [sources, List.mem_cons, List.not_mem_nil, or_false] at h
    rcases h with rfl | rfl <;> simp [Uses, Output.variable]
  | weather =>
    simp only [sources] at h
    split at h <;> simp only [List.mem_cons, List.not_mem_nil, or_false] at h
    · rcases h with rfl | rfl <;> simp [Uses, Output.variable]
    · rw [h]; simp [Uses, Output.variable]
  | wind10m =>
    simp only [sources] at h
    split at h <;> simp only [List.mem_cons, List.not_mem_nil, or_false] at h
    · rcases h with rfl | rfl | rfl <;> simp [Uses, Output.variable]
    · rcases h with rfl | rfl <;> simp [Uses, Output.variable]
  | verticalClouds =>
    have hj' : j < (model.verticalLevels.2 + 1 - model.verticalLevels.1) * 2 := hj
    simp only [sources] at h
    split at h <;> simp only [List.mem_cons, List.not_mem_nil, or_false] at h
    · exact ⟨_, by omega, by omega, .inl h⟩
    · exact ⟨_, by omega, by omega, .inr h⟩
  | verticalWind =>
    have hj' : j < (model.verticalLevels.2 + 1 - model.verticalLevels.1) * 3 := hj
    simp only [sources] at h
    split at h <;> simp only [List.mem_cons, List.not_mem_nil, or_false] at h
    · exact ⟨_, by omega, by omega, .inl h⟩
    · rcases h with h | h
      · exact ⟨_, by omega, by omega, .inr (.inl h)⟩
      · exact ⟨_, by omega, by omega, .inr (.inr h)⟩

/-- **C172, DWD.**  In each file that a successful call writes, the bytes of any two points are ordered like the published
numbers of which they are made: the byte of the point with the smaller numbers is not the larger one. -/
theorem C172_dwd (e : Environment) (model : FcModel) (hd : IsDwd model) (name : Text)
    (hn : Newest e.available model e.today name) (vars : List Text) (filter : List Nat) (tr : List Write)
    (h : mainEffect e (dwdName model) vars filter tr .done) (b : BinType) (hv : ChosenVar vars (Output.bin b).variable)
    (s : RunStep) (hs : s ∈ model.forecastSteps) (hc : Chosen filter s) (msgs : Req → Msg) (ni nj : Nat)
    (hp : ∀ r, Uses model (Output.bin b).variable s.nr r →
      Publishes e.world ⟨model, e.today, name⟩ r (msgs r) ∧ Field (msgs r) ni nj) (before : Tree) :
    ∃ bytes k, before.write tr (binPath ⟨model, e.today, name⟩ s.nr b) = some (.bytes bytes) ∧
      k = width (model.verticalLevels.2 + 1 - model.verticalLevels.1) b ∧
      ∀ x y x' y' j, x < ni → y < nj → x' < ni → y' < nj → j < k →
        Ordered model.verticalLevels.1 s.nr (fun r => physical (msgs r) (y * ni + x))
          (fun r => physical (msgs r) (y' * ni + x')) b j →
        ∃ c c', bytes[(y * ni + x) * k + j]? = some c ∧ bytes[(y' * ni + x') * k + j]? = some c' ∧ c ≤ c' := by
  rw [C154_run e model hd name hn] at h
  obtain ⟨bytes, f1, l1, g1⟩ := dwd_bytes e.libm e.world e.dirs vars filter ⟨model, e.today, name⟩ hd
    (newestName_no_slash hn.1) tr h b hv s hs hc msgs ni nj hp
  refine ⟨bytes, _, f1 before, rfl, fun x y x' y' j hx hy hx' hy' hj ho => ?_⟩
  refine ⟨_, _, g1 x y j hx hy hj, g1 x' y' j hx' hy' hj, byteOf_order hj (fun r hr => ?_) ho⟩
  obtain ⟨p, q⟩ := hp r (sources_used hj hr)
  exact packed_of_ok p.ok q.packing

/-! ## MeteoSwiss -/

theorem fraction_kept {v q : Rat} (h : Near v q) (hq : Natural q) :
    kept (.fin (-1)) clctFraction (some (.fin v)) = some (clctFraction (.fin v)) := by
  have h1 : (-1 : Rat) ≤ v := by
    unfold Natural at hq
    unfold Near at h
    rw [abs_of_nonneg hq] at h
    have := (abs_le.mp h).1
    norm_num at this ⊢
    linarith
  have h2 : Fl.le (clctFraction (.fin (-1))) (clctFraction (.fin v)) = true :=
    Fl.le_div_right prec32 (by norm_num) (Fl.le_fin.mpr h1)
  have h3 : Fl.le (.fin (-1 / 2)) (clctFraction (.fin v)) = true :=
    Fl.le_trans (show Fl.le (.fin (-1 / 2)) (clctFraction (.fin (-1))) = true by decide +kernel) h2
  have : GridValue.eq (clctFraction (.fin v)) (Fl.fin (-1)) = false := by
    rw [Bool.eq_false_iff]
    intro hh
    change Fl.feq _ _ = true at hh
    cases hc : clctFraction (.fin v) with
    | fin c =>
      rw [hc] at hh h3
      rw [Fl.feq_fin.mp hh] at h3
      have := Fl.le_fin.mp h3
      norm_num at this
    | nan => rw [hc] at hh; cases hh
    | ninf => rw [hc] at hh; cases hh
    | pinf => rw [hc] at hh; cases hh
  simp [kept, this]

theorem fraction_order {o o' : Option Fl} (h : Under Natural o o') :
    wwByte none (kept (.fin (-1)) clctFraction o) ≤ wwByte none (kept (.fin (-1)) clctFraction o') := by
  obtain ⟨v, v', q, q', rfl, rfl, hle, n1, n2, k1, k2⟩ := h
  rw [fraction_kept n1 k1, fraction_kept n2 k2]
  exact clctByte_mono (Fl.le_div_right prec32 (by norm_num) (Fl.le_fin.mpr hle))

theorem byteOfSwiss_order {n : Nat} {msgs : Record → Msg} {i i' : Nat} {b : BinType} {j : Nat} (hj : j < width 49 b)
    (hk : ∀ r, r ∈ records n b j → Packed (msgs r))
    (h : OrderedSwiss n (fun r => physical (msgs r) i) (fun r => physical (msgs r) i') b j) :
    byteOfSwiss n (fun r => unpacked (msgs r) i) b j ≤ byteOfSwiss n (fun r => unpacked (msgs r) i') b j := by
  cases b with
  | temp2m => exact temp_order (NotAbove.under (hk _ (by simp [records])) h)
  | precip =>
    exact precip_order (NotAbove.under (hk _ (by simp [records])) h.1) (NotAbove.under (hk _ (by simp [records])) h.2)
  | weather =>
    simp only [OrderedSwiss] at h
    simp only [records] at hk
    simp only [byteOfSwiss]
    by_cases h0 : j = 0
    · simp only [h0, if_true] at h hk ⊢
      exact fraction_order (NotAbove.under (hk _ (by simp)) h)
    · simp only [h0, if_false] at h hk ⊢
      exact ceiling_order (NotAbove.under (hk _ (by simp)) h)
  | wind10m =>
    have hj3 : j < 3 := hj
    simp only [OrderedSwiss] at h
    have hu : Packed (msgs (.of .u10m n 0)) := hk _ (by simp only [records]; split <;> simp)
    have hv : Packed (msgs (.of .v10m n 0)) := hk _ (by simp only [records]; split <;> simp)
    apply wind_order
    rcases (by omega : j = 0 ∨ j = 1 ∨ j = 2) with rfl | rfl | rfl
    · exact .inl ⟨rfl, h.1.under hu, h.2.both hv⟩
    · exact .inr (.inl ⟨rfl, h.1.under hv, h.2.both hu⟩)
    · exact .inr (.inr ⟨rfl, h.1.under (hk _ (by simp [records])), h.2.1.both hu, h.2.2.both hv⟩)
  | verticalClouds =>
    simp only [OrderedSwiss] at h
    simp only [records] at hk
    simp only [byteOfSwiss]
    by_cases h0 : j % 2 = 0
    · simp only [h0, if_true] at h hk ⊢
      exact hhl_order (NotAbove.under (hk _ (by simp)) h)
    · simp only [h0, if_false] at h hk ⊢
      exact clc_order (NotAbove.under (hk _ (by simp)) h)
  | verticalWind =>
    simp only [OrderedSwiss] at h
    simp only [records] at hk
    simp only [byteOfSwiss]
    by_cases h0 : j % 3 = 0
    · simp only [h0, if_true] at h hk ⊢
      exact hhl_order (NotAbove.under (hk _ (by simp)) h)
    · simp only [h0, if_false] at h hk ⊢
      have hu := hk (.of .u n (31 + j / 3)) (by simp)
      have hv := hk (.of .v n (31 + j / 3)) (by simp)
      apply uv_order
      by_cases h1 : j % 3 = 1
      · simp only [h1, if_true] at h
        exact .inl ⟨h1, h.1.under hu, h.2.both hv⟩
      · simp only [h1, if_false] at h
        exact .inr ⟨by omega, h.1.under hv, h.2.both hu⟩

/-- The messages behind the bytes are used. -/
theorem records_used {n : Nat} {b : BinType} {j : Nat} (hj : j < width 49 b) {r : Record} (h : r ∈ records n b j) :
    UsesRecord (Output.bin b).variable n r := by
  cases b with
  | temp2m => simpa [records, UsesRecord, Output.variable] using h
  | precip =>
    simp only [records, List.mem_cons, List.not_mem_nil, or_false] at h
    rcases h with rfl | rfl <;> simp [UsesRecord, Output.variable]
  | weather =>
    simp only [records] at h
    split at h <;> simp only [List.mem_cons, List.not_mem_nil, or_false] at h <;> rw [h] <;>
      simp [UsesRecord, Output.variable]
  | wind10m =>
    simp only [records] at h
    split at h <;> simp only [List.mem_cons, List.not_mem_nil, or_false] at h
    · rcases h with rfl | rfl | rfl <;> simp [UsesRecord, Output.variable]
    · rcases h with rfl | rfl <;> simp [UsesRecord, Output.variable]
  | verticalClouds =>
    have hj' : j < 49 * 2 := hj
    simp only [records] at h
    split at h <;> simp only [List.mem_cons, List.not_mem_nil, or_false] at h
    · exact ⟨j / 2, by omega, .inl h⟩
    · exact ⟨j / 2, by omega, .inr h⟩
  | verticalWind =>
    have hj' : j < 49 * 3 := hj
    simp only [records] at h
    split at h <;> simp only [List.mem_cons, List.not_mem_nil, or_false] at h
    · exact ⟨j / 3, by omega, .inl h⟩
    · rcases h with h | h
      · exact ⟨j / 3, by omega, .inr (.inl h)⟩
      · exact ⟨j / 3, by omega, .inr (.inr h)⟩

theorem Recorded.ok {w : World} {s : Swiss.Service} {vertUrl : Text} {t : Instant} {r : Record} {msg : Msg}
    (h : Recorded w s vertUrl t r msg) : msg.ok := by
  cases r with
  | of x n i =>
    obtain ⟨_, _, msgs, _, _, _, h4, h5⟩ := h
    exact (h4.ok msg (List.mem_of_getElem? h5)).1
  | height i =>
    obtain ⟨msgs, h4, h5⟩ := h
    exact (h4.ok msg (List.mem_of_getElem? h5)).1

/-- **C172, MeteoSwiss.**  In each file of a successful run, the bytes of any two cells that show data points are ordered
like the published numbers of these points. -/
theorem C172_swiss (m : Libm) (w : World) (s : Swiss.Service) (cal : Swiss.Calendar) (dirs : Text → Bool)
    (vars : List Text) (filter : List Nat) (hor vertUrl : Text) (grid : UnstructuredGrid) (t : Instant) (tr : List Write)
    (h : Swiss.renderRun m w s cal dirs vars filter grid vertUrl t tr .done)
    (hg : Swiss.readHorConst w hor = .ok grid) (lat lon : Msg) (n : Nat) (hk : Constants w hor lat lon n)
    (b : BinType) (hv : ChosenVar vars (Output.bin b).variable) (steps : List RunStep)
    (hs : swissSteps s t (Output.bin b).variable = .ok steps) (st : RunStep) (hst : st ∈ steps) (hc : Chosen filter st)
    (msgs : Record → Msg)
    (hp : ∀ r, UsesRecord (Output.bin b).variable st.nr r → Recorded w s vertUrl t r (msgs r) ∧ PointField (msgs r) n)
    (before : Tree) :
    ∃ run bytes k, Swiss.forecastRun cal t = .ok run ∧ before.write tr (binPath run st.nr b) = some (.bytes bytes) ∧
      k = width 49 b ∧ ∀ x y x' y', x < 1851 → y < 847 → x' < 1851 → y' < 847 →
        ∃ o o' : Option Nat, Spec.Shows (position lat lon) n x y o ∧ Spec.Shows (position lat lon) n x' y' o' ∧
          ∀ i i' j, o = some i → o' = some i' → j < k →
            OrderedSwiss st.nr (fun r => physical (msgs r) i) (fun r => physical (msgs r) i') b j →
            ∃ c c', bytes[(y * 1851 + x) * k + j]? = some c ∧ bytes[(y' * 1851 + x') * k + j]? = some c' ∧ c ≤ c' := by
  obtain ⟨run, bytes, e1, f1, l1, g1⟩ := swiss_bytes m w s cal dirs vars filter hor vertUrl grid t tr h hg lat lon n hk b hv
    steps hs st hst hc msgs hp
  refine ⟨run, bytes, _, e1, f1 before, rfl, fun x y x' y' hx hy hx' hy' => ?_⟩
  refine ⟨_, _, (placed hk hg).shows x y hx hy, (placed hk hg).shows x' y' hx' hy', fun i i' j hi hi' hj ho => ?_⟩
  refine ⟨_, _, g1 x y j hx hy hj, g1 x' y' j hx' hy' hj, ?_⟩
  simp only [hi, hi']
  refine byteOfSwiss_order hj (fun r hr => ?_) ho
  obtain ⟨p, q⟩ := hp r (records_used hj hr)
  exact packed_of_ok p.ok q.packing

/-! ## The hypotheses can be met -/

/-- In the cell at 47 degrees north and 9 degrees east the third point is shown. -/
theorem demo_shown_third {o : Option Nat} (h : Spec.Shows (position latMsg lonMsg) 4 981 497 o) : o = some 2 := by
  obtain ⟨a0, a1, a2, a3⟩ := lat_physical
  obtain ⟨b0, b1, b2, b3⟩ := lon_physical
  have p0 : position latMsg lonMsg 0 = some (46, 7) := by simp only [position, a0, b0]
  have p1 : position latMsg lonMsg 1 = none := by simp only [position, a1, b1]
  have p2 : position latMsg lonMsg 2 = some (47, 9) := by simp only [position, a2, b2]
  have p3 : position latMsg lonMsg 3 = some (43, 10) := by simp only [position, a3, b3]
  have near : Spec.degrees (47, 9) (Spec.chartCell 981 497) ≤ (8 / 1000 : Real) := by
    unfold Spec.degrees Spec.chartCell
    rw [Real.sqrt_le_left (by norm_num)]
    norm_num
  have far : ∀ {q : Rat × Rat}, q.2 ≤ 17 / 2 ∨ 19 / 2 ≤ q.2 → (1 / 10 : Real) ≤ Spec.degrees q (Spec.chartCell 981 497) := by
    intro q hq
    unfold Spec.degrees Spec.chartCell
    apply Real.le_sqrt_of_sq_le
    have : (1 / 100 : Rat) ≤ (q.1 - (4203 / 100 + ((497 : Nat) + 1 / 2) / 100)) ^ 2 +
        (q.2 - (-81 / 100 + ((981 : Nat) + 1 / 2) / 100)) ^ 2 := by
      have := sq_nonneg (q.1 - (4203 / 100 + ((497 : Nat) + 1 / 2) / 100))
      norm_num at this ⊢
      rcases hq with hq | hq <;> nlinarith
    have := (Rat.cast_le (K := Real)).mpr this
    push_cast at this ⊢
    linarith
  cases o with
  | none =>
    have := h 2 _ (by norm_num) p2
    push_cast at this
    linarith
  | some i =>
    obtain ⟨hi, p, hp, hd, -⟩ := h
    interval_cases i
    · rw [p0] at hp; cases hp
      have := far (q := (46, 7)) (by norm_num)
      push_cast at hd
      linarith
    · rw [p1] at hp; cases hp
    · rfl
    · rw [p3] at hp; cases hp
      have := far (q := (43, 10)) (by norm_num)
      push_cast at hd
      linarith

theorem otherMsg_full : FullField otherMsg 4 :=
  fieldMsg_full (r := 0) (by decide +kernel) (by norm_num) (by decide) (.inl rfl) (by decide)

/-- The cloud covers 2 and 7 percent of the first and third point, on each of the 49 levels. -/
example (m : Libm) (hm : Spec.AccurateRow m) (dirs : Text → Bool) (before : Tree) : ∃ grid tr run bytes,
    Swiss.renderRun m (swissWorld otherMsg) demoService demoCalendar dirs [] [] grid "vert".toList demoTime tr .done ∧
    before.write tr (binPath run 1 .verticalClouds) = some (.bytes bytes) ∧
    ∀ k, k < 49 → ∃ c c', bytes[(397 * 1851 + 781) * 98 + (2 * k + 1)]? = some c ∧
      bytes[(497 * 1851 + 981) * 98 + (2 * k + 1)]? = some c' ∧ c ≤ c' := by
  have hk : otherMsg.product.known := trivial
  obtain ⟨grid, tr, hg, ht⟩ := swiss_demo otherMsg_ok hk otherMsg_full hm dirs [] []
  obtain ⟨steps, hs, h1, -⟩ := demo_steps .clc false
  obtain ⟨run, bytes, k, e1, f1, rfl, order⟩ := C172_swiss m _ _ _ dirs [] [] "hor".toList "vert".toList grid demoTime tr ht hg
    latMsg lonMsg 4 (swiss_constants otherMsg_ok hk "hor".toList) .verticalClouds (.inl rfl) steps hs _ h1 (.inl rfl)
    (fun _ => otherMsg) (fun r hr => ⟨demo_recorded otherMsg_ok hk hr rfl, otherMsg_full.toPointField⟩) before
  refine ⟨grid, tr, run, bytes, ht, f1, fun k hk49 => ?_⟩
  obtain ⟨o, o', s1, s2, hv⟩ := order 781 397 981 497 (by norm_num) (by norm_num) (by norm_num) (by norm_num)
  obtain rfl := demo_shown s1
  obtain rfl := demo_shown_third s2
  refine hv 0 2 (2 * k + 1) rfl rfl (show 2 * k + 1 < 49 * 2 by omega) ?_
  have q0 : physical otherMsg 0 = some 2 := by decide +kernel
  have q2 : physical otherMsg 2 = some 7 := by decide +kernel
  simp only [OrderedSwiss, show ¬ (2 * k + 1) % 2 = 0 by omega, if_false]
  exact ⟨2, 7, q0, q2, by norm_num, by unfold Cloudy; norm_num, by unfold Cloudy; norm_num⟩

attribute [local irreducible] mainEffect

/-- The weather file of hour 4: ceilings of 0 and 61 metres at the first and the last point, and cloud covers of 0 and 3 at
the first and the third point, which have no significant weather. -/
example (service : Swiss.Service) (cal : Swiss.Calendar) (dirs : Text → Bool) (before : Tree) :
    ∃ (m : Libm) (tr : List Write) (bytes : List UInt8),
    mainEffect ⟨m, otherWorld, service, cal, dirs, ⟨2025, 8, 5⟩, ⟨2025, 8, 5⟩, fun _ => true⟩ "icon-eu".toList [] [] tr .done ∧
    before.write tr (binPath rainRun 4 .weather) = some (.bytes bytes) ∧
    (∃ c c', bytes[0 * 2 + 1]? = some c ∧ bytes[3 * 2 + 1]? = some c' ∧ c ≤ c') ∧
    ∃ c c', bytes[0 * 2]? = some c ∧ bytes[2 * 2]? = some c' ∧ c ≤ c' := by
  obtain ⟨m, _, hm⟩ := exists_both
  have hn : Newest (fun _ => true) .iconEu ⟨2025, 8, 5⟩ "21".toList := by
    refine ⟨by decide +kernel, ?_, ?_⟩
    · intro r hr
      obtain ⟨url, hu, -⟩ := C52_download (run := ⟨.iconEu, ⟨2025, 8, 5⟩, "21".toList⟩) (.inr rfl) r
      exact ⟨url, hu, rfl⟩
    · have : ∀ n ∈ runNames, ¬ valueOf "21".toList < valueOf n := by decide +kernel
      exact fun n hn h => absurd h (this n hn)
  obtain ⟨tr, h⟩ := (C105_main ⟨m, otherWorld, service, cal, dirs, ⟨2025, 8, 5⟩, ⟨2025, 8, 5⟩, fun _ => true⟩ hm
    [] [] .iconEu (.inr rfl) "21".toList hn demoArea demoArea_valid 2 2 (fun _ _ _ _ _ r _ => other_area r)
    fun _ k _ _ => other_area _).1
  obtain ⟨bytes, k, f1, rfl, order⟩ := C172_dwd
    ⟨m, otherWorld, service, cal, dirs, ⟨2025, 8, 5⟩, ⟨2025, 8, 5⟩, fun _ => true⟩ .iconEu (.inr rfl) "21".toList
    hn [] [] tr h .weather (.inl rfl) ⟨4, []⟩ (by decide +kernel) (.inl rfl)
    (fun r => if r = .single .totPrec 4 then otherMsg else weatherMsg) 2 2
    (fun r _ => ⟨other_publishes r, by split <;> [exact otherMsg_field; exact weatherMsg_field]⟩) before
  have q0 : physical weatherMsg 0 = some 0 := by decide +kernel
  have q2 : physical weatherMsg 2 = some 3 := by decide +kernel
  have q3 : physical weatherMsg 3 = some 61 := by decide +kernel
  refine ⟨m, tr, bytes, h, f1, ?_, ?_⟩
  · refine order 0 0 1 1 1 (by decide) (by decide) (by decide) (by decide) (by decide) ?_
    exact ⟨0, 61, q0, q3, by norm_num, by unfold Natural; norm_num, by unfold Natural; norm_num⟩
  · refine order 0 0 0 1 0 (by decide) (by decide) (by decide) (by decide) (by decide) ⟨?_, ?_, ?_⟩
    · exact ⟨0, 3, q0, q2, by norm_num, by unfold Natural; norm_num, by unfold Natural; norm_num⟩
    · intro q hq
      have := q0.symm.trans hq
      cases this
      norm_num
    · intro q hq
      have := q2.symm.trans hq
      cases this
      norm_num

end Verif.Props
