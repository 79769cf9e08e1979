import Verif.Props.Grib2Read
import Verif.Lemmas.Decode

/-!
# Properties C06 - C12: decoding of GRIB2 data values
-/

namespace Verif.Props

open Verif Verif.Grib2 Verif.Spec.Grib2 Verif.Spec.Decode

/-! ## C06, C08 -/

/-- **C06.** When decoding succeeds on a message with packed values, there is one value per grid
point; a point with a packed value (no bitmap, or bit set) receives the packed value whose index is
the number of such points before it, every other point receives the missing value. -/
theorem C06_bitmap {T : Type} (doc : Document) (t : DataTemplate5_0) (missing : T)
    (transform : Fl → T) (vs : List T) (ht : doc.section5.template = .simplePacking t)
    (hraw : doc.section7.dataPoints ≠ [])
    (h : calculateDataPoints doc missing transform = .ok vs) :
    vs.length = doc.section3.numberOfDatapoints ∧
    ∀ i, i < doc.section3.numberOfDatapoints →
      (present doc.section6.bitmap i = true →
        ∃ x, doc.section7.dataPoints[rank doc.section6.bitmap i]? = some x ∧
          vs[i]? = some (transform (unpackValue t x))) ∧
      (present doc.section6.bitmap i = false → vs[i]? = some missing) := by
  unfold calculateDataPoints at h
  rw [ht] at h
  simp only [List.isEmpty_iff, hraw, if_false] at h
  have key := decodeLoop_spec doc.section6.bitmap doc.section7.dataPoints
    (fun x => transform (unpackValue t x)) missing doc.section3.numberOfDatapoints 0
  simp only [Nat.zero_add] at key
  have h0 : rank doc.section6.bitmap 0 = 0 := rfl
  rw [h0, h] at key
  by_cases hc : ((doc.section6.bitmap = [] ∨ doc.section3.numberOfDatapoints = 0 ∨
      doc.section3.numberOfDatapoints ≤ 8 * doc.section6.bitmap.length) ∧
      (rank doc.section6.bitmap doc.section3.numberOfDatapoints ≤ doc.section7.dataPoints.length ∨
        rank doc.section6.bitmap doc.section3.numberOfDatapoints = 0))
  · obtain ⟨vs', he, hl, hk⟩ := key.1 hc
    simp only [Res.ok.injEq] at he
    subst he
    exact ⟨hl, hk⟩
  · exact absurd (key.2 hc) (by simp)

/-- **C06**, without bitmap: point `i` receives packed value `i`. -/
theorem C06_no_bitmap {T : Type} (doc : Document) (t : DataTemplate5_0) (missing : T)
    (transform : Fl → T) (vs : List T) (ht : doc.section5.template = .simplePacking t)
    (hraw : doc.section7.dataPoints ≠ []) (hb : doc.section6.bitmap = [])
    (h : calculateDataPoints doc missing transform = .ok vs) :
    vs = (doc.section7.dataPoints.take doc.section3.numberOfDatapoints).map
      (fun x => transform (unpackValue t x)) := by
  obtain ⟨hl, hk⟩ := C06_bitmap doc t missing transform vs ht hraw h
  have hr : ∀ i, rank doc.section6.bitmap i = i := by
    intro i
    rw [hb]
    unfold rank
    rw [show present ([] : List UInt8) = fun _ => true from rfl]
    simp
  have hp : ∀ i, present doc.section6.bitmap i = true := by intro i; rw [hb]; rfl
  apply List.ext_getElem?
  intro i
  by_cases hi : i < doc.section3.numberOfDatapoints
  · obtain ⟨x, hx, hv⟩ := (hk i hi).1 (hp i)
    rw [hr] at hx
    rw [hv, List.getElem?_map, List.getElem?_take, if_pos hi, hx]
    rfl
  · rw [List.getElem?_eq_none (by omega), List.getElem?_map, List.getElem?_take, if_neg hi]
    rfl

/-- **C08.** With packed values and simple packing, decoding succeeds exactly when the bitmap (if
any) has a bit for every point and there is a packed value for every point that needs one; otherwise
it panics (it never returns a shortened or shifted grid, and never an error). -/
theorem C08_safe_iff {T : Type} (doc : Document) (t : DataTemplate5_0) (missing : T)
    (transform : Fl → T) (ht : doc.section5.template = .simplePacking t)
    (hraw : doc.section7.dataPoints ≠ []) :
    (bitmapCovers doc.section6.bitmap doc.section3.numberOfDatapoints ∧
      rank doc.section6.bitmap doc.section3.numberOfDatapoints ≤ doc.section7.dataPoints.length →
      ∃ vs, calculateDataPoints doc missing transform = .ok vs) ∧
    (¬ (bitmapCovers doc.section6.bitmap doc.section3.numberOfDatapoints ∧
      rank doc.section6.bitmap doc.section3.numberOfDatapoints ≤ doc.section7.dataPoints.length) →
      calculateDataPoints doc missing transform = .panic) := by
  have key := decodeLoop_spec doc.section6.bitmap doc.section7.dataPoints
    (fun x => transform (unpackValue t x)) missing doc.section3.numberOfDatapoints 0
  simp only [Nat.zero_add] at key
  have h0 : rank doc.section6.bitmap 0 = 0 := rfl
  have hpos : 0 < doc.section7.dataPoints.length := List.length_pos_iff.mpr hraw
  rw [h0] at key
  unfold calculateDataPoints
  rw [ht]
  simp only [List.isEmpty_iff, hraw, if_false]
  constructor
  · rintro ⟨h1, h2⟩
    obtain ⟨vs, hv, -⟩ := key.1 ⟨by rcases h1 with h1 | h1
                                    · exact Or.inl h1
                                    · exact Or.inr (Or.inr h1), Or.inl h2⟩
    exact ⟨vs, hv⟩
  · intro hn
    apply key.2
    rintro ⟨h1, h2⟩
    apply hn
    refine ⟨?_, by omega⟩
    rcases h1 with h1 | h1 | h1
    · exact Or.inl h1
    · right; omega
    · exact Or.inr h1

/-- **C08**: a data representation other than simple packing is reported as an error. -/
theorem C08_other_template {T : Type} (doc : Document) (missing : T) (transform : Fl → T)
    (ht : ∀ t, doc.section5.template ≠ .simplePacking t) :
    calculateDataPoints doc missing transform = .err := by
  unfold calculateDataPoints
  split
  · rename_i t h; exact absurd h (ht t)
  · rfl

/-- The demonstration message has the bitmap 1011 and three packed values; E = -2, D = 1, R = 1. -/
example : calculateDataPoints demoMsg.doc .nan id =
    .ok [.fin (rndq f32 (1 / 10)), .nan, .fin (rndq f32 (2 / 10)), .fin (rndq f32 (10001 / 10))] := by
  decide +kernel
example : present demoMsg.doc.section6.bitmap 1 = false ∧ rank demoMsg.doc.section6.bitmap 3 = 2 := by
  decide
example : ∃ vs, calculateDataPoints demoMsg.doc Fl.nan id = .ok vs :=
  (C08_safe_iff demoMsg.doc _ Fl.nan id rfl (by decide)).1 ⟨Or.inr (by decide), by decide⟩
/-- With one packed value removed decoding panics. -/
example : calculateDataPoints { demoMsg.doc with section7 := ⟨9, [0, 4]⟩ } Fl.nan id = .panic :=
  (C08_safe_iff _ _ Fl.nan id rfl (by decide)).2 (by
    rintro ⟨-, h⟩; revert h; decide)

/-! ## C07 -/

theorem powi10_pos_table : ∀ k : Fin 77,
    (match Fl.powi f32 (.fin 10) ((k.val : Int) - 38) with | .fin q => decide (0 < q) | _ => false) = true := by
  decide +kernel

theorem powi10_pos {D : Int} (h1 : -38 ≤ D) (h2 : D ≤ 38) :
    ∃ q, Fl.powi f32 (.fin 10) D = .fin q ∧ 0 < q := by
  have := powi10_pos_table ⟨(D + 38).toNat, by omega⟩
  simp only [show ((D + 38).toNat : Int) - 38 = D by omega] at this
  cases h : Fl.powi f32 (.fin 10) D with
  | fin q => rw [h] at this; exact ⟨q, rfl, by simpa using this⟩
  | nan => rw [h] at this; cases this
  | ninf => rw [h] at this; cases this
  | pinf => rw [h] at this; cases this

/-- **C07, order.** For fixed parameters a larger packed integer never decodes to a smaller value. -/
theorem C07_monotone (t : DataTemplate5_0) (r : Rat) (hr : t.referenceValue = .fin r)
    (hE : -126 ≤ t.binaryScale ∧ t.binaryScale ≤ 127)
    (hD : -38 ≤ t.decimalScale ∧ t.decimalScale ≤ 38) (x y : Nat) (h : x ≤ y) :
    Fl.le (unpackValue t x) (unpackValue t y) = true := by
  obtain ⟨c, hc, hpos⟩ := powi10_pos hD.1 hD.2
  unfold unpackValue
  rw [powi2 hE.1 hE.2, hc, hr]
  apply Fl.le_div_right prec32 hpos
  apply Fl.le_add_left prec32
  apply Fl.le_mul_right prec32 (pow2_pos _)
  exact Fl.rnd_mono prec32 (by exact_mod_cast h)

theorem powi10_neg_table : ∀ k : Fin 11, Fl.powi f32 (.fin 10) (-(k.val : Int)) =
    rnd f32 (1 / ((10 ^ k.val : Nat) : Rat)) ∧
    |rndq f32 (1 / ((10 ^ k.val : Nat) : Rat)) - 1 / ((10 ^ k.val : Nat) : Rat)|
      ≤ 1 / ((10 ^ k.val : Nat) : Rat) / 2 ^ 24 ∧
    rnd f32 (1 / ((10 ^ k.val : Nat) : Rat)) = .fin (rndq f32 (1 / ((10 ^ k.val : Nat) : Rat))) := by
  decide +kernel

/-- `10f32.powi(D)` for `-10 ≤ D ≤ 10` is `10^D` up to half a unit in the last place. -/
theorem powi10_err {D : Int} (h1 : -10 ≤ D) (h2 : D ≤ 10) :
    ∃ c : Rat, Fl.powi f32 (.fin 10) D = .fin c ∧ |c - (10 : Rat) ^ D| ≤ (10 : Rat) ^ D / 2 ^ 24 := by
  rcases Int.eq_nat_or_neg D with ⟨n, rfl | rfl⟩
  · refine ⟨10 ^ n, powi10 (by omega), ?_⟩
    rw [zpow_natCast, sub_self, abs_zero]
    positivity
  · obtain ⟨e1, e2, e3⟩ := powi10_neg_table ⟨n, by omega⟩
    refine ⟨_, e1.trans e3, ?_⟩
    rw [zpow_neg, zpow_natCast]
    simpa using e2

/-- **C07, accuracy.** For scale factors in the usual range and 16-bit packed values the decoded
value is `(R + X * 2^E) / 10^D` up to the rounding of a few binary32 operations: a relative error
of at most `2^-22`, plus `2^-110` absolute. -/
theorem C07_formula (t : DataTemplate5_0) (r : Rat) (hr : t.referenceValue = .fin r)
    (hrb : |r| ≤ 2 ^ 80) (hE : -126 ≤ t.binaryScale ∧ t.binaryScale ≤ 60)
    (hD : -10 ≤ t.decimalScale ∧ t.decimalScale ≤ 10) (x : Nat) (hx : x < 2 ^ 16) :
    ∃ v : Rat, unpackValue t x = .fin v ∧
      |v - (r + x * (2 : Rat) ^ t.binaryScale) / (10 : Rat) ^ t.decimalScale|
        ≤ |(r + x * (2 : Rat) ^ t.binaryScale) / (10 : Rat) ^ t.decimalScale| / 2 ^ 22 + 1 / 2 ^ 110 := by
  obtain ⟨c, hc, hcerr⟩ := powi10_err hD.1 hD.2
  set c0 : Rat := (10 : Rat) ^ t.decimalScale with hc0
  have hc0lo : (10 : Rat) ^ (-10 : Int) ≤ c0 := zpow_le_zpow_right₀ (by norm_num) hD.1
  have hc0hi : c0 ≤ (10 : Rat) ^ (10 : Int) := zpow_le_zpow_right₀ (by norm_num) hD.2
  have hc0pos : 0 < c0 := lt_of_lt_of_le (by norm_num) hc0lo
  rw [abs_le] at hcerr
  have hcpos : 0 < c := by
    have : c0 / 2 ^ 24 < c0 := by
      rw [div_lt_iff₀ (by norm_num)]; nlinarith
    linarith [hcerr.1]
  have hclo : c0 * (1 - 1 / 2 ^ 24) ≤ c := by linarith [hcerr.1]
  -- the product
  have hp2 := pow2_pos t.binaryScale
  have hp2hi : pow2 t.binaryScale ≤ 2 ^ 60 := by
    have := pow2_mono hE.2
    rwa [show pow2 60 = 2 ^ 60 by rw [pow2_eq]; norm_num] at this
  have hxq : (x : Rat) ≤ 2 ^ 16 := by exact_mod_cast (by omega : x ≤ 2 ^ 16)
  have hx0 : (0 : Rat) ≤ x := by positivity
  have hprod : (x : Rat) * pow2 t.binaryScale ≤ 2 ^ 76 := by nlinarith
  have hprod0 : 0 ≤ (x : Rat) * pow2 t.binaryScale := by positivity
  have e1 : Fl.mul f32 (Fl.ofNat f32 x) (Fl.powi f32 (.fin 2) t.binaryScale) =
      .fin (x * pow2 t.binaryScale) := by
    unfold Fl.ofNat
    rw [rnd32_nat (by omega), powi2 hE.1 (by omega), Fl.mul_fin]
    apply rnd_exact prec32
    · exact ⟨x, t.binaryScale, by push_cast; rfl, by
        rw [Nat.abs_cast]; exact_mod_cast (by change x ≤ 2 ^ 24; omega), by
        change -149 ≤ t.binaryScale; omega⟩
    · rw [abs_of_nonneg hprod0, show pow2 f32.emax = 2 ^ 128 by decide +kernel]
      exact lt_of_le_of_lt hprod (by norm_num)
  set s : Rat := r + x * pow2 t.binaryScale with hs
  have hsb : |s| ≤ 2 ^ 81 := by
    rw [abs_le] at hrb ⊢
    constructor <;> rw [hs] <;> linarith [hrb.1, hrb.2]
  have rep81 : Rep f32 (2 ^ 81) := by
    have := rep_pow2 (F := f32) (k := 81) (by decide)
    rwa [show pow2 81 = 2 ^ 81 by rw [pow2_eq]; norm_num] at this
  have e2 : Fl.add f32 (.fin r) (.fin (x * pow2 t.binaryScale)) = .fin (rndq f32 s) := by
    rw [Fl.add_fin]
    exact rnd_fin prec32 rep81 (by decide +kernel) hsb
  have u : (pow2 (-(f32.prec : Int)) : Rat) = 1 / 2 ^ 24 := by decide +kernel
  have η : (pow2 (f32.emin - 1) : Rat) = 1 / 2 ^ 150 := by decide +kernel
  have ha := rndq_err f32 s
  set a := rndq f32 s with hadef
  rw [u, η] at ha
  have ha' : |a - s| ≤ |s| / 2 ^ 24 + 1 / 2 ^ 150 := by
    refine ha.trans (max_le ?_ ?_)
    · have : (0 : Rat) ≤ 1 / 2 ^ 150 := by norm_num
      linarith
    · have : (0 : Rat) ≤ |s| / 2 ^ 24 := by positivity
      linarith
  have hab : |a| ≤ 2 ^ 82 := by
    have h1 : |a| ≤ |a - s| + |s| := by
      have := abs_add_le (a - s) s; simpa using this
    have h2 : |s| / 2 ^ 24 ≤ 2 ^ 81 / 2 ^ 24 := by gcongr
    have h3 : (2 : Rat) ^ 81 / 2 ^ 24 + 1 / 2 ^ 150 + 2 ^ 81 ≤ 2 ^ 82 := by norm_num
    linarith
  have hac : |a / c| ≤ 2 ^ 120 := by
    rw [abs_div, abs_of_pos hcpos, div_le_iff₀ hcpos]
    have : (1 : Rat) / 2 ^ 36 ≤ c := by
      have h1 : (1 : Rat) / 2 ^ 36 ≤ (10 : Rat) ^ (-10 : Int) * (1 - 1 / 2 ^ 24) := by norm_num
      have h2 := mul_le_mul_of_nonneg_right hc0lo (by norm_num : (0 : Rat) ≤ 1 - 1 / 2 ^ 24)
      exact (h1.trans h2).trans hclo
    nlinarith
  have rep120 : Rep f32 (2 ^ 120) := by
    have := rep_pow2 (F := f32) (k := 120) (by decide)
    rwa [show pow2 120 = 2 ^ 120 by rw [pow2_eq]; norm_num] at this
  have e3 : Fl.div f32 (.fin a) (.fin c) = .fin (rndq f32 (a / c)) := by
    rw [Fl.div_fin _ _ hcpos.ne']
    exact rnd_fin prec32 rep120 (by decide +kernel) hac
  refine ⟨rndq f32 (a / c), ?_, ?_⟩
  · unfold unpackValue
    rw [e1, hr, e2, hc, e3]
  have hv := rndq_err f32 (a / c)
  set v := rndq f32 (a / c) with hvdef
  rw [u, η] at hv
  have hv' : |v - a / c| ≤ |a / c| / 2 ^ 24 + 1 / 2 ^ 150 := by
    refine hv.trans (max_le ?_ ?_)
    · have : (0 : Rat) ≤ 1 / 2 ^ 150 := by norm_num
      linarith
    · have : (0 : Rat) ≤ |a / c| / 2 ^ 24 := by positivity
      linarith
  have hpe : (2 : Rat) ^ t.binaryScale = pow2 t.binaryScale := (pow2_eq _).symm
  rw [hpe, ← hs, abs_div s c0, abs_of_pos hc0pos]
  set w := |s| / c0 with hw
  have hw0 : 0 ≤ w := by positivity
  have hsw : |s| = w * c0 := by rw [hw]; field_simp
  -- bound of |a/c|
  have hk : (1 : Rat) / 2 ^ 150 ≤ c0 * (1 / 2 ^ 114) := by
    have h1 : (1 : Rat) / 2 ^ 150 ≤ (10 : Rat) ^ (-10 : Int) * (1 / 2 ^ 114) := by norm_num
    have h2 := mul_le_mul_of_nonneg_right hc0lo (by norm_num : (0 : Rat) ≤ 1 / 2 ^ 114)
    exact h1.trans h2
  have hac2 : |a / c| * (1 - 1 / 2 ^ 24) ≤ w * (1 + 1 / 2 ^ 24) + 1 / 2 ^ 114 := by
    have h1 : |a| ≤ |s| * (1 + 1 / 2 ^ 24) + c0 * (1 / 2 ^ 114) := by
      have := abs_add_le (a - s) s
      rw [sub_add_cancel] at this
      linarith
    have h2 : |a| = |a / c| * c := by
      rw [abs_div, abs_of_pos hcpos]; field_simp
    have h3 : |a / c| * (c0 * (1 - 1 / 2 ^ 24)) ≤ |a / c| * c :=
      mul_le_mul_of_nonneg_left hclo (abs_nonneg _)
    rw [hsw] at h1
    have h4 : c0 * (|a / c| * (1 - 1 / 2 ^ 24)) ≤ c0 * (w * (1 + 1 / 2 ^ 24) + 1 / 2 ^ 114) := by
      linarith
    exact le_of_mul_le_mul_left h4 hc0pos
  have hdiff : |a / c - s / c0| * (1 - 1 / 2 ^ 24) ≤ w * (2 / 2 ^ 24) + 1 / 2 ^ 114 := by
    have h1 : a / c - s / c0 = (a - s - s * ((c - c0) / c0)) / c := by
      field_simp; ring
    have h2 : |s * ((c - c0) / c0)| ≤ |s| / 2 ^ 24 := by
      rw [abs_mul, abs_div, abs_of_pos hc0pos]
      have : |c - c0| / c0 ≤ 1 / 2 ^ 24 := by
        rw [div_le_iff₀ hc0pos, abs_le]; constructor <;> linarith [hcerr.1, hcerr.2]
      have := mul_le_mul_of_nonneg_left this (abs_nonneg s)
      linarith
    have h3 : |a - s - s * ((c - c0) / c0)| ≤ |s| * (2 / 2 ^ 24) + c0 * (1 / 2 ^ 114) := by
      have := abs_sub (a - s) (s * ((c - c0) / c0))
      linarith
    have h4 : |a / c - s / c0| * c = |a - s - s * ((c - c0) / c0)| := by
      rw [h1, abs_div, abs_of_pos hcpos]; field_simp
    have h5 : |a / c - s / c0| * (c0 * (1 - 1 / 2 ^ 24)) ≤ |a / c - s / c0| * c :=
      mul_le_mul_of_nonneg_left hclo (abs_nonneg _)
    rw [hsw] at h3
    have h6 : c0 * (|a / c - s / c0| * (1 - 1 / 2 ^ 24)) ≤ c0 * (w * (2 / 2 ^ 24) + 1 / 2 ^ 114) := by
      linarith
    exact le_of_mul_le_mul_left h6 hc0pos
  have htri : |v - s / c0| ≤ |v - a / c| + |a / c - s / c0| := by
    have := abs_add_le (v - a / c) (a / c - s / c0)
    simpa using this
  generalize |v - s / c0| = A at *
  generalize |v - a / c| = B at *
  generalize |a / c - s / c0| = C at *
  generalize |a / c| = G at *
  have k1 : C ≤ w * (201 / 100 / 2 ^ 24) + 101 / 100 / 2 ^ 114 := by
    norm_num at hdiff ⊢; linarith
  have k2 : G ≤ w * (101 / 100) + 101 / 100 / 2 ^ 114 := by
    norm_num at hac2 ⊢; linarith
  norm_num at hv' k1 k2 ⊢
  linarith

/-- R = 250.5, E = -7, D = 2, X = 12345: accuracy and order. -/
example : ∃ v : Rat, unpackValue ⟨.fin (501 / 2), -7, 2, 16, .floatingPoint⟩ 12345 = .fin v ∧
    |v - (501 / 2 + 12345 * (2 : Rat) ^ (-7 : Int)) / (10 : Rat) ^ (2 : Int)|
      ≤ |(501 / 2 + 12345 * (2 : Rat) ^ (-7 : Int)) / (10 : Rat) ^ (2 : Int)| / 2 ^ 22 + 1 / 2 ^ 110 :=
  C07_formula ⟨.fin (501 / 2), -7, 2, 16, .floatingPoint⟩ (501 / 2) rfl (by norm_num [abs_le])
    (by decide) (by decide) 12345 (by norm_num)
example : Fl.le (unpackValue ⟨.fin (501 / 2), -7, 2, 16, .floatingPoint⟩ 3)
    (unpackValue ⟨.fin (501 / 2), -7, 2, 16, .floatingPoint⟩ 70000) = true :=
  C07_monotone _ _ rfl (by decide) (by decide) 3 70000 (by decide)

/-! ## C09 -/

/-- A well-formed message with 0 bits per value (a constant field of value 1) on four points. -/
def constantMsg : Msg :=
  { demoMsg with packing := .simple ⟨false, 127, 0⟩ 0 0 0 .floatingPoint, bitmapIndicator := 255
                 bitmap := [], numberOfValues := 0, data := [] }

/-- **C09 is false for the code**: a constant field (empty data section, no bitmap) does not decode to
its reference value. -/
theorem C09_counterexample : ¬ ∀ (doc : Document) (t : DataTemplate5_0),
    doc.section5.template = .simplePacking t → t.numberOfBits = 0 → doc.section7.dataPoints = [] →
    doc.section6.bitmap = [] →
    calculateDataPoints doc Fl.nan id =
      .ok (List.replicate doc.section3.numberOfDatapoints (unpackValue t 0)) := by
  intro h
  have := h constantMsg.doc _ rfl rfl rfl rfl
  revert this
  decide +kernel

/-- **C09, what happens instead**: with an empty data section every point gets the missing value,
whatever the reference value and the bitmap. -/
theorem C09_empty_data_partial {T : Type} (doc : Document) (t : DataTemplate5_0) (missing : T)
    (transform : Fl → T) (ht : doc.section5.template = .simplePacking t)
    (hraw : doc.section7.dataPoints = []) :
    calculateDataPoints doc missing transform =
      .ok (List.replicate doc.section3.numberOfDatapoints missing) := by
  unfold calculateDataPoints
  rw [ht]
  simp [hraw]

example : calculateDataPoints constantMsg.doc (-1 : Int) (fun _ => 7) = .ok [-1, -1, -1, -1] :=
  C09_empty_data_partial constantMsg.doc _ _ _ rfl rfl

/-! ## C10 -/

/-- The bytes of the data section of a message. -/
def payload (m : Msg) : List UInt8 := m.data.flatMap (be 2)

/-- A message declaring 8 bits per value with the two data bytes 1 and 2. -/
def msg8 : Msg :=
  { demoMsg with packing := .simple ⟨false, 127, 0⟩ 0 0 8 .floatingPoint, bitmapIndicator := 255
                 bitmap := [], numberOfPoints := 2, numberOfValues := 2, data := [258] }

theorem msg8_ok : msg8.ok := by
  refine ⟨rfl, trivial, by decide, by decide, by decide, by decide, by decide, by decide, trivial,
    ?_, trivial, trivial, by decide, by decide, trivial, by decide, trivial, ?_, ?_, by decide,
    by decide, ?_, by decide, ?_, by decide, by decide, by decide, by decide, by decide⟩
  · unfold timeOk; decide
  · refine ⟨trivial, ⟨by decide, by decide⟩, ⟨by decide, by decide⟩, ⟨by decide, by decide⟩, ?_⟩
    decide
  · refine ⟨trivial, ?_⟩; decide
  · intro w hw
    simp only [msg8, demoMsg, List.mem_singleton] at hw
    subst hw
    exact ⟨by decide, by decide⟩
  · exact ⟨⟨by decide, by decide⟩, by decide, by decide, by decide, trivial⟩

/-- **C10 is false for the code**: the declared number of bits per value is not used. -/
theorem C10_counterexample : ¬ ∀ (m : Msg) (r : F32Word) (e d : Int) (bits : Nat)
    (ft : OriginalFieldType) (doc : Document) (rest : List UInt8), m.ok →
    m.packing = .simple r e d bits ft → readSingleDoc (encode m) = .ok (doc, rest) →
    doc.section7.dataPoints = unpackBits bits (payload m) := by
  intro h
  have h1 := C01_round_trip msg8 msg8_ok (Or.inl trivial) []
  rw [List.append_nil] at h1
  have := h msg8 _ _ _ _ _ _ _ msg8_ok rfl h1
  revert this
  decide +kernel

theorem bitsNumber_succ (b : UInt8) (bytes : List UInt8) (start w : Nat) :
    bitsNumber (b :: bytes) (start + 8) w = bitsNumber bytes start w := by
  induction w with
  | zero => rfl
  | succ w ih =>
    simp only [bitsNumber, ih]
    congr 2
    unfold bitSet
    rw [show start + 8 + w = start + w + 8 by omega, Nat.add_div_right _ (by omega), Nat.add_mod_right]
    rfl

theorem bitsNumber8_table : ∀ n : Fin 256,
    2 * (2 * (2 * (2 * (2 * (2 * (2 * (n.val / 2 ^ 7 % 2) + n.val / 2 ^ 6 % 2) + n.val / 2 ^ 5 % 2)
      + n.val / 2 ^ 4 % 2) + n.val / 2 ^ 3 % 2) + n.val / 2 ^ 2 % 2) + n.val / 2 ^ 1 % 2)
      + n.val / 2 ^ 0 % 2 = n.val := by decide +kernel

theorem toNat_mod2 (k : Nat) : (k % 2 == 1).toNat = k % 2 := by
  rcases Nat.mod_two_eq_zero_or_one k with h | h <;> rw [h] <;> rfl

theorem bitsNumber_16 (a b : UInt8) (bytes : List UInt8) :
    bitsNumber (a :: b :: bytes) 0 16 = a.toNat * 256 + b.toNat := by
  have ha := bitsNumber8_table ⟨a.toNat, a.toNat_lt⟩
  have hb := bitsNumber8_table ⟨b.toNat, b.toNat_lt⟩
  simp only [bitsNumber, bitSet, toNat_mod2, Nat.zero_add]
  norm_num at ha hb ⊢
  omega

theorem unpackBits_be (data : List Nat) (h : ∀ v ∈ data, v < 2 ^ 16) :
    unpackBits 16 (data.flatMap (be 2)) = data := by
  induction data with
  | nil => rfl
  | cons v data ih =>
    have hv := h v (by simp)
    have ih := ih (fun w hw => h w (by simp [hw]))
    obtain ⟨a, b, hab, hval⟩ : ∃ a b : UInt8, be 2 v = [a, b] ∧ a.toNat * 256 + b.toNat = v := by
      refine ⟨_, _, rfl, ?_⟩
      have h1 : v / 256 % 256 = v / 256 := by omega
      simp [UInt8.toNat_ofNat']
      omega
    rw [List.flatMap_cons, hab]
    unfold unpackBits at ih ⊢
    have hlen : 8 * ([a, b] ++ data.flatMap (be 2)).length / 16 =
        8 * (data.flatMap (be 2)).length / 16 + 1 := by
      simp only [List.length_append, List.length_cons, List.length_nil]
      omega
    rw [hlen, List.range_succ_eq_map, List.map_cons, List.map_map]
    congr 1
    · rw [Nat.zero_mul, List.cons_append, List.cons_append, bitsNumber_16, hval]
    · refine Eq.trans ?_ ih
      apply List.map_congr_left
      intro k _
      rw [Function.comp_apply, List.cons_append, List.cons_append, List.nil_append,
        show (k.succ) * 16 = k * 16 + 8 + 8 by rw [Nat.succ_mul], bitsNumber_succ,
        bitsNumber_succ]

/-- **C10, provable part**: with 16 bits per value the packed integers are extracted exactly, for
every message. -/
theorem C10_width16_partial (m : Msg) (h : m.ok) (hk : m.product.known ∨ m.coordinates = [])
    (r : F32Word) (e d : Int) (bits : Nat) (ft : OriginalFieldType)
    (_hp : m.packing = .simple r e d bits ft) (hb : bits = 16) (rest : List UInt8) :
    ∃ doc, readSingleDoc (encode m ++ rest) = .ok (doc, rest) ∧
      doc.section7.dataPoints = unpackBits bits (payload m) := by
  refine ⟨m.doc, C01_round_trip m h hk rest, ?_⟩
  have hd : ∀ v ∈ m.data, v < 2 ^ 16 := by
    obtain ⟨-, -, -, -, -, -, -, -, -, -, -, -, -, -, -, -, -, -, -, -, -, -, -, -, -, -, -, hd, -⟩ := h
    exact hd
  rw [hb]
  exact (unpackBits_be m.data hd).symm

example : ∃ doc, readSingleDoc (encode demoMsg ++ []) = .ok (doc, []) ∧
    doc.section7.dataPoints = unpackBits 16 (payload demoMsg) :=
  C10_width16_partial demoMsg demoMsg_ok (Or.inl trivial) _ _ _ _ _ rfl rfl []
example : unpackBits 12 [0xAB, 0xCD, 0xEF] = [0xABC, 0xDEF] := by decide +kernel

/-! ## C11 -/

/-- **C11.** Every 16-bit word decodes to the number with its low 15 bits as magnitude and its top
bit as sign. -/
theorem C11_decode (w : Nat) (h : w < 2 ^ 16) :
    signedNumberOfU16 w = (if w < 2 ^ 15 then (w : Int) else -((w - 2 ^ 15 : Nat) : Int)) := by
  have h15 (n : Nat) : n &&& 0x7FFF = n % 2 ^ 15 := Nat.and_two_pow_sub_one_eq_mod n 15
  have h16 (n : Nat) : n &&& 0x8000 = (n / 2 ^ 15 % 2) * 2 ^ 15 := and_pow n 15
  unfold signedNumberOfU16
  simp only [h15, h16]
  split <;> split <;> omega

/-- **C11.** Every integer of magnitude below 2^15 has an encoding that decodes to it, and the
encoding of its negation differs exactly in the top bit. -/
theorem C11_round_trip (d : Int) (h1 : -32767 ≤ d) (h2 : d ≤ 32767) :
    signMagnitude16 d < 2 ^ 16 ∧ signedNumberOfU16 (signMagnitude16 d) = d ∧
    (d ≠ 0 → signMagnitude16 (-d) % 2 ^ 15 = signMagnitude16 d % 2 ^ 15 ∧
      signMagnitude16 (-d) / 2 ^ 15 + signMagnitude16 d / 2 ^ 15 = 1) := by
  obtain ⟨h3, h4⟩ := signedNumber_enc h1 h2
  refine ⟨h3, h4, ?_⟩
  intro hd
  unfold signMagnitude16
  split <;> split <;> omega

/-- **C11**, as read from the stream: section 5's scale factors are decoded this way. -/
theorem C11_stream (bits : Nat) (e d : Nat) (b ft : Nat) (he : e < 2 ^ 16) (hd : d < 2 ^ 16)
    (hb : b < 2 ^ 8) (hf : ft < 2 ^ 8) (hw : bits < 2 ^ 32) (rest : List UInt8) :
    ∃ t, readDataTemplate5_0 (be 4 bits ++ be 2 e ++ be 2 d ++ be 1 b ++ be 1 ft ++ rest) = .ok (t, rest) ∧
      t.binaryScale = (if e < 2 ^ 15 then (e : Int) else -((e - 2 ^ 15 : Nat) : Int)) ∧
      t.decimalScale = (if d < 2 ^ 15 then (d : Int) else -((d - 2 ^ 15 : Nat) : Int)) ∧
      t.numberOfBits = b := by
  refine ⟨⟨f32OfBits bits, signedNumberOfU16 e, signedNumberOfU16 d, b, fieldTypeOfCode ft⟩, ?_,
    C11_decode e he, C11_decode d hd, rfl⟩
  unfold readDataTemplate5_0
  simp only [List.append_assoc]
  rw [Rd.u32_bind hw, Rd.u16_bind he, Rd.u16_bind hd, Rd.u8_bind hb, Rd.u8_bind hf]
  rfl

example : signedNumberOfU16 0x8003 = -3 := (C11_decode _ (by decide)).trans (by decide)
example : signedNumberOfU16 (signMagnitude16 (-32767)) = -32767 :=
  (C11_round_trip (-32767) (by decide) (by decide)).2.1

/-! ## C12 -/

/-- **C12 is false for the code**: 47 degrees south is read as 2194.48 degrees. -/
theorem C12_counterexample : ¬ ∀ w : Nat, w < 2 ^ 32 →
    ∃ v : Rat, readAngle (be 4 w) = .ok (.fin v, []) ∧ |v - signedAngle w| ≤ 1 := by
  intro h
  obtain ⟨v, h1, h2⟩ := h (2 ^ 31 + 47000000) (by norm_num)
  have h3 : readAngle (be 4 (2 ^ 31 + 47000000)) =
      .ok (.fin (rndq f32 (rndq f32 2194483648 / 1000000)), []) := by decide +kernel
  rw [h3] at h1
  simp only [Res.ok.injEq, Prod.mk.injEq, Fl.fin.injEq, and_true] at h1
  subst h1
  revert h2
  decide +kernel

theorem angle_err (w : Nat) (h : w < 2 ^ 32) :
    ∃ v : Rat, angleOfU32 w = .fin v ∧ |v - (w : Rat) / 1000000| ≤ (w : Rat) / 1000000 / 2 ^ 22 := by
  have hw : (w : Rat) ≤ 2 ^ 32 := by exact_mod_cast h.le
  have hw0 : (0 : Rat) ≤ w := by positivity
  have rep32 : Rep f32 (2 ^ 32) := by
    have := rep_pow2 (F := f32) (k := 32) (by decide)
    rwa [show pow2 32 = 2 ^ 32 by rw [pow2_eq]; norm_num] at this
  have e1 : Fl.ofNat f32 w = .fin (rndq f32 w) :=
    rnd_fin prec32 rep32 (by decide +kernel) (by rw [abs_of_nonneg hw0]; exact hw)
  have u : (pow2 (-(f32.prec : Int)) : Rat) = 1 / 2 ^ 24 := by decide +kernel
  have η : (pow2 (f32.emin - 1) : Rat) = 1 / 2 ^ 150 := by decide +kernel
  have ha := rndq_err f32 w
  have ha0 : 0 ≤ rndq f32 w := rndq_nonneg hw0
  have ha1 := rndq_le_rep prec32 rep32 hw
  set a := rndq f32 (w : Rat)
  rw [u, η, abs_of_nonneg hw0] at ha
  rcases Nat.eq_zero_or_pos w with h0 | h0
  · subst h0
    refine ⟨0, ?_, by norm_num⟩
    decide +kernel
  have hw1 : (1 : Rat) ≤ w := by exact_mod_cast h0
  have ha' : |a - w| ≤ (w : Rat) / 2 ^ 24 := by
    refine ha.trans (max_le (by linarith) ?_)
    have : (1 : Rat) / 2 ^ 150 ≤ 1 / 2 ^ 24 := by norm_num
    have : (1 : Rat) / 2 ^ 24 ≤ w / 2 ^ 24 := by gcongr
    linarith
  rw [abs_le] at ha'
  have haw : (w : Rat) * (1 - 1 / 2 ^ 24) ≤ a := by linarith [ha'.1]
  have ha2 : (1 : Rat) / 2 ≤ a := by
    have : (1 : Rat) / 2 ≤ 1 * (1 - 1 / 2 ^ 24) := by norm_num
    nlinarith
  have e2 : angleOfU32 w = .fin (rndq f32 (a / 1000000)) := by
    unfold angleOfU32
    rw [e1, Fl.div_fin _ _ (by norm_num)]
    refine rnd_fin prec32 rep32 (by decide +kernel) ?_
    rw [abs_of_nonneg (by positivity)]
    rw [div_le_iff₀ (by norm_num)]
    linarith
  refine ⟨_, e2, ?_⟩
  have hv := rndq_err f32 (a / 1000000)
  set v := rndq f32 (a / 1000000)
  rw [u, η, abs_of_nonneg (by positivity : 0 ≤ a / 1000000)] at hv
  have hv' : |v - a / 1000000| ≤ a / 1000000 / 2 ^ 24 := by
    refine hv.trans (max_le (by linarith) ?_)
    have : (1 : Rat) / 2 ^ 150 ≤ 1 / 2 / 1000000 / 2 ^ 24 := by norm_num
    have : (1 : Rat) / 2 / 1000000 / 2 ^ 24 ≤ a / 1000000 / 2 ^ 24 := by gcongr
    linarith
  rw [abs_le] at hv' ⊢
  norm_num at hv' ha' ⊢
  constructor <;> linarith [hv'.1, hv'.2, ha'.1, ha'.2]

theorem readAngle_be (w : Nat) (h : w < 2 ^ 32) (rest : List UInt8) :
    readAngle (be 4 w ++ rest) = .ok (angleOfU32 w, rest) := by
  unfold readAngle
  rw [Rd.u32_bind h]
  rfl

/-- **C12, provable part**: a non-negative angle is decoded to the angle it denotes, up to a relative
rounding error of 2^-22 (below a ten-thousandth of a degree for angles up to 360 degrees). -/
theorem C12_nonnegative_partial (w : Nat) (h : w < 2 ^ 31) (rest : List UInt8) :
    ∃ v : Rat, readAngle (be 4 w ++ rest) = .ok (.fin v, rest) ∧
      |v - signedAngle w| ≤ signedAngle w / 2 ^ 22 := by
  obtain ⟨v, h1, h2⟩ := angle_err w (by omega)
  refine ⟨v, by rw [readAngle_be w (by omega), h1], ?_⟩
  unfold signedAngle
  rw [if_pos h]
  exact h2

/-- **C12**: no negative angle is decoded correctly: the result is always above 2147 degrees. -/
theorem C12_negative_always_wrong (w : Nat) (h1 : 2 ^ 31 ≤ w) (h2 : w < 2 ^ 32)
    (rest : List UInt8) :
    ∃ v : Rat, readAngle (be 4 w ++ rest) = .ok (.fin v, rest) ∧ 2147 ≤ v ∧ signedAngle w ≤ 0 := by
  obtain ⟨v, h3, h4⟩ := angle_err w h2
  refine ⟨v, by rw [readAngle_be w h2, h3], ?_, ?_⟩
  · have hw : (2147483648 : Rat) ≤ w := by exact_mod_cast h1
    rw [abs_le] at h4
    have h5 := h4.1
    norm_num at h5
    linarith
  · unfold signedAngle
    rw [if_neg (by omega), neg_div]
    have h5 := Nat.cast_nonneg (α := Rat) (w - 2 ^ 31)
    have h6 : (0 : Rat) ≤ ((w - 2 ^ 31 : Nat) : Rat) / 1000000 := div_nonneg h5 (by norm_num)
    exact neg_nonpos.mpr h6

example : ∃ v : Rat, readAngle (be 4 47500000 ++ [1]) = .ok (.fin v, [1]) ∧
    |v - signedAngle 47500000| ≤ signedAngle 47500000 / 2 ^ 22 :=
  C12_nonnegative_partial 47500000 (by norm_num) [1]
example : signedAngle (2 ^ 31 + 47000000) = -47 := by decide +kernel

end Verif.Props
