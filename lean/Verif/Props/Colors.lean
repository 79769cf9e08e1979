import Verif.Model.Colors
import Verif.Spec.Legend
import Verif.Spec.Layer
import Verif.Props.Physics
import Verif.Props.Imaging
import Verif.Props.Metobin

/-!
# Properties C46, C78 and C79: colours
-/

namespace Verif.Props

open Verif Verif.Colors Verif.Physics
open Verif.Spec (Legend rainLegend cloudLegend windKnots windColors tempColors tempClass Filled cell)

/-! ## Scales -/

/-- Every number is in exactly one class. -/
theorem Legend.class_unique (l : Legend) {v : Fl} {i j : Nat} (hi : l.InClass v i) (hj : l.InClass v j) : i = j := by
  rcases Nat.lt_trichotomy i j with h | h | h
  · exfalso
    have hlt : i < l.bounds.length := lt_of_lt_of_le h hj.1
    have e := List.getElem?_eq_getElem hlt
    have a := hi.2.2 i _ (Nat.le_refl _) e
    have b := hj.2.1 i _ h e
    have := Fl.lt_le_trans a b
    rw [Fl.lt_irrefl] at this
    cases this
  · exact h
  · exfalso
    have hlt : j < l.bounds.length := lt_of_lt_of_le h hi.1
    have e := List.getElem?_eq_getElem hlt
    have a := hj.2.2 j _ (Nat.le_refl _) e
    have b := hi.2.1 j _ h e
    have := Fl.lt_le_trans a b
    rw [Fl.lt_irrefl] at this
    cases this

/-- A chain of comparisons gives the colour of the class. -/
theorem chain_class : ∀ (bounds : List Fl) (colors : List Color) (c : Color), colors.length = bounds.length →
    (bounds.Pairwise fun a b => Fl.lt a b = true) → (∀ b ∈ bounds, b ≠ .nan) → ∀ v : Fl,
    (v = .nan → chain (bounds.zip colors) c v = c) ∧
    (v ≠ .nan → ∃ i, (⟨bounds, colors ++ [c]⟩ : Legend).InClass v i ∧
      (colors ++ [c])[i]? = some (chain (bounds.zip colors) c v)) := by
  intro bounds
  induction bounds with
  | nil =>
    intro colors c hlen _ _ v
    cases colors with
    | cons _ _ => simp at hlen
    | nil =>
      refine ⟨fun _ => rfl, fun _ => ⟨0, ⟨by simp, by simp, by simp⟩, rfl⟩⟩
  | cons b bs ih =>
    intro colors c hlen hsorted hnan v
    cases colors with
    | nil => simp at hlen
    | cons c1 cs =>
      rw [List.pairwise_cons] at hsorted
      obtain ⟨h1, h2⟩ := ih cs c (by simpa using hlen) hsorted.2 (fun b hb => hnan b (by simp [hb])) v
      simp only [List.zip_cons_cons, chain]
      constructor
      · rintro rfl
        rw [if_neg (by cases b <;> simp [Fl.lt])]
        exact h1 rfl
      · intro hv
        by_cases hlt : Fl.lt v b = true
        · rw [if_pos hlt]
          refine ⟨0, ⟨by simp, by simp, ?_⟩, by simp⟩
          intro j b' _ hj
          cases j with
          | zero => simp only [List.getElem?_cons_zero, Option.some.injEq] at hj; exact hj ▸ hlt
          | succ j =>
            simp only [List.getElem?_cons_succ] at hj
            exact Fl.lt_trans hlt (hsorted.1 b' (List.mem_of_getElem? hj))
        · rw [if_neg hlt]
          obtain ⟨i, ⟨i1, i2, i3⟩, hi⟩ := h2 hv
          have hle : Fl.le b v = true := by
            rw [Bool.not_eq_true] at hlt
            exact (Fl.not_lt hv (hnan b (by simp))).mp hlt
          refine ⟨i + 1, ⟨by simpa using i1, ?_, ?_⟩, by simpa using hi⟩
          · intro j b' hj hb
            cases j with
            | zero => simp only [List.getElem?_cons_zero, Option.some.injEq] at hb; exact hb ▸ hle
            | succ j =>
              simp only [List.getElem?_cons_succ] at hb
              exact i2 j b' (by omega) hb
          · intro j b' hj hb
            cases j with
            | zero => omega
            | succ j =>
              simp only [List.getElem?_cons_succ] at hb
              exact i3 j b' (by omega) hb

/-- A colour function shows a legend: every number gets the colour of its class (which is unique), NaN the
colour of the last class. -/
def Shows (f : Fl → Color) (l : Legend) : Prop :=
  (∀ v : Fl, v ≠ .nan → ∃ i, l.InClass v i ∧ (∀ j, l.InClass v j → j = i) ∧ l.colors[i]? = some (f v)) ∧
  l.colors[l.bounds.length]? = some (f .nan)

theorem shows_chain {f : Fl → Color} (l : Legend) (hl : l.WF) (c : Color) (colors : List Color)
    (hc : l.colors = colors ++ [c]) (hf : ∀ v, f v = chain (l.bounds.zip colors) c v) : Shows f l := by
  have hlen : colors.length = l.bounds.length := by
    have := hl.colors
    rw [hc, List.length_append] at this
    simpa using this
  refine ⟨fun v hv => ?_, ?_⟩
  · obtain ⟨i, h1, h2⟩ := (chain_class l.bounds colors c hlen hl.sorted hl.numbers v).2 hv
    refine ⟨i, h1, fun j hj => (Legend.class_unique l hj h1), ?_⟩
    rw [hc, hf]; exact h2
  · rw [hf, (chain_class l.bounds colors c hlen hl.sorted hl.numbers .nan).1 rfl, hc, ← hlen]
    simp

theorem rainLegend_wf : rainLegend.WF := ⟨by decide +kernel, by decide +kernel, by decide +kernel⟩
theorem cloudLegend_wf : cloudLegend.WF := ⟨by decide +kernel, by decide +kernel, by decide +kernel⟩

/-- **C46, precipitation.** -/
theorem C46_rain : Shows rainColor rainLegend :=
  shows_chain rainLegend rainLegend_wf ⟨163, 73, 164, 191⟩ (rainLegend.colors.take 9) (by decide +kernel) (fun _ => rfl)

/-- Equal neighbouring classes of a chain can be merged. -/
theorem chain_merge {t1 t2 : Fl} {c1 c : Color} {l : List (Fl × Color)} (h : Fl.lt t1 t2 = true) (v : Fl) :
    chain ((t1, c1) :: (t2, c1) :: l) c v = chain ((t2, c1) :: l) c v := by
  simp only [chain]
  by_cases h1 : Fl.lt v t1 = true
  · rw [if_pos h1, if_pos (Fl.lt_trans h1 h)]
  · rw [if_neg h1]

/-- **C46, clouds.** -/
theorem C46_cloud : Shows cloudColor cloudLegend := by
  apply shows_chain cloudLegend cloudLegend_wf ⟨255, 255, 255, 255⟩ (cloudLegend.colors.take 7) (by decide +kernel)
  intro v
  unfold cloudColor
  have m : ∀ (c : Color) (l : List (Fl × Color)),
      chain ((lit (1 / 10), ⟨255, 255, 255, 127⟩) :: (lit (2 / 10), ⟨255, 255, 255, 127⟩) ::
        (lit (3 / 10), ⟨255, 255, 255, 127⟩) :: (lit (4 / 10), ⟨255, 255, 255, 127⟩) :: l) c v
      = chain ((lit (4 / 10), ⟨255, 255, 255, 127⟩) :: l) c v := by
    intro c l
    rw [chain_merge (by decide +kernel), chain_merge (by decide +kernel), chain_merge (by decide +kernel)]
  have e : lit (5 / 10) = .fin (1 / 2) := by decide +kernel
  show (if Fl.lt v (lit (5 / 100)) then (⟨0, 0, 0, 127⟩ : Color) else _) = _
  rw [m, e]
  rfl

/-- The boundaries in metres per second that the code uses. -/
def windLegend : Legend := ⟨windKnots.map kt, windColors⟩

theorem windLegend_wf : windLegend.WF := ⟨by decide +kernel, by decide +kernel, by decide +kernel⟩

/-- **C46, wind.**  The boundaries are 5, 10, 15, 20, 25, 30, 40 and 50 knots (0.514444 m/s each) up to a
relative error of `2^-22`. -/
theorem C46_wind : Shows windColor windLegend ∧ ∀ n ∈ windKnots, ∃ b : Rat, kt n = .fin b ∧
    |b - n * (514444 / 1000000)| ≤ n * (514444 / 1000000) / 2 ^ 22 :=
  ⟨shows_chain windLegend windLegend_wf ⟨0, 0, 255, 255⟩ (windColors.take 8) (by decide +kernel) (fun _ => rfl), by
    have h : ∀ n ∈ windKnots, (match kt n with
        | .fin b => decide (|b - n * (514444 / 1000000)| ≤ n * (514444 / 1000000) / 2 ^ 22)
        | _ => false) = true := by decide +kernel
    intro n hn
    have := h n hn
    cases hk : kt n <;> rw [hk] at this
    · cases this
    · cases this
    · cases this
    · exact ⟨_, rfl, of_decide_eq_true this⟩⟩

/-- The boundaries of the temperature classes. -/
def tempBounds : List Rat := (List.range 28).map fun (i : Nat) => 2 * (i : Rat) - 16

def tempLegend : Legend := ⟨tempBounds.map Fl.fin, tempColors⟩

theorem tempLegend_wf : tempLegend.WF := ⟨by decide +kernel, by decide +kernel, by decide +kernel⟩

theorem temp_shows : Shows (fun c => chain ((tempBounds.map Fl.fin).zip (tempColors.take 28)) ⟨255, 255, 255, 127⟩ c) tempLegend :=
  shows_chain tempLegend tempLegend_wf ⟨255, 255, 255, 127⟩ (tempColors.take 28) (by decide +kernel) (fun _ => rfl)

theorem tempColor_eq (k : Fl) : tempColor k =
    chain ((tempBounds.map Fl.fin).zip (tempColors.take 28)) ⟨255, 255, 255, 127⟩ (kelvinToCelsius k) := by
  have e : (tempBounds.map Fl.fin).zip (tempColors.take 28) =
    [(.fin (-16), ⟨255, 66, 255, 127⟩), (.fin (-14), ⟨255, 109, 255, 127⟩),
    (.fin (-12), ⟨255, 153, 255, 127⟩), (.fin (-10), ⟨255, 204, 255, 127⟩),
    (.fin (-8), ⟨255, 255, 255, 127⟩), (.fin (-6), ⟨219, 235, 250, 127⟩), (.fin (-4), ⟨0, 212, 245, 127⟩),
    (.fin (-2), ⟨148, 189, 240, 127⟩), (.fin 0, ⟨115, 166, 235, 127⟩), (.fin 2, ⟨222, 230, 153, 127⟩),
    (.fin 4, ⟨166, 212, 115, 127⟩), (.fin 6, ⟨107, 191, 77, 127⟩), (.fin 8, ⟨51, 171, 38, 127⟩),
    (.fin 10, ⟨0, 153, 0, 127⟩), (.fin 12, ⟨51, 179, 0, 127⟩), (.fin 14, ⟨102, 204, 0, 127⟩),
    (.fin 16, ⟨153, 230, 0, 127⟩), (.fin 18, ⟨204, 255, 0, 127⟩), (.fin 20, ⟨255, 255, 0, 127⟩),
    (.fin 22, ⟨255, 204, 0, 127⟩), (.fin 24, ⟨255, 153, 0, 127⟩), (.fin 26, ⟨255, 102, 0, 127⟩),
    (.fin 28, ⟨255, 51, 0, 127⟩), (.fin 30, ⟨255, 0, 0, 127⟩), (.fin 32, ⟨255, 0, 255, 127⟩),
    (.fin 34, ⟨255, 64, 255, 127⟩), (.fin 36, ⟨255, 128, 255, 127⟩), (.fin 38, ⟨255, 191, 255, 127⟩)] := by decide +kernel
  rw [e]; rfl

theorem inClass_temp (c : Rat) : tempLegend.InClass (.fin c) (tempClass c) := by
  have hlen : tempLegend.bounds.length = 28 := by decide +kernel
  have at' : ∀ j b, tempLegend.bounds[j]? = some b → j < 28 ∧ b = .fin (2 * (j : Rat) - 16) := by
    intro j b hb
    have hj : j < 28 := by
      have := (List.getElem?_eq_some_iff.mp hb).1
      omega
    refine ⟨hj, ?_⟩
    simp only [tempLegend, tempBounds, List.getElem?_map, List.getElem?_range hj, Option.map_some, Option.some.injEq] at hb
    exact hb.symm
  unfold tempClass
  set f := ⌊(c + 18) / 2⌋ with hf
  have h1 : (f : Rat) ≤ (c + 18) / 2 := Int.floor_le _
  have h2 : (c + 18) / 2 < f + 1 := Int.lt_floor_add_one _
  refine ⟨by rw [hlen]; omega, ?_, ?_⟩
  · intro j b hj hb
    obtain ⟨-, rfl⟩ := at' j b hb
    rw [Fl.le_fin]
    have : (j : Int) + 1 ≤ f := by omega
    have : (j : Rat) + 1 ≤ f := by exact_mod_cast this
    linarith
  · intro j b hj hb
    obtain ⟨hj28, rfl⟩ := at' j b hb
    rw [Fl.lt_fin]
    have : f ≤ (j : Int) := by omega
    have : (f : Rat) ≤ j := by exact_mod_cast this
    linarith

/-- **C46, temperature.**  A temperature of `k` kelvin (up to 1000) gets the colour of the class of a
temperature in degrees Celsius that differs from `k - 273.15` by at most `2^-13`; classes are two degrees
wide from -16 to 38 degrees.  NaN gets the last colour. -/
theorem C46_temperature :
    (∀ k : Rat, |k| ≤ 1000 → ∃ c : Rat, |c - (k - 27315 / 100)| ≤ 1 / 2 ^ 13 ∧
      tempColors[tempClass c]? = some (tempColor (.fin k))) ∧
    tempColors[28]? = some (tempColor .nan) := by
  constructor
  · intro k hk
    obtain ⟨c, hc, ec, -⟩ := (C57_temperature hk).1
    refine ⟨c, ec, ?_⟩
    rw [tempColor_eq, hc]
    obtain ⟨i, -, h2, h3⟩ := temp_shows.1 (.fin c) (by simp)
    rw [h2 _ (inClass_temp c)]
    exact h3
  · decide +kernel

/-- **C46.** Classes are ordered like the values. -/
theorem C46_ordered (l : Legend) {v w : Fl} {i j : Nat} (hv : l.InClass v i) (hw : l.InClass w j) (h : Fl.le v w = true) :
    i ≤ j := by
  by_contra hlt
  have hlt : j < i := by omega
  have hj : j < l.bounds.length := lt_of_lt_of_le hlt hv.1
  have e := List.getElem?_eq_getElem hj
  have := Fl.lt_le_trans (hw.2.2 j _ (Nat.le_refl _) e) (Fl.le_trans (hv.2.1 j _ hlt e) h)
  rw [Fl.lt_irrefl] at this
  cases this

example : tempColor (.fin 300) = ⟨255, 51, 0, 127⟩ := by decide +kernel
example : tempClass (2685 / 100) = 22 := by decide +kernel
example : tempColors[22]? = some ⟨255, 51, 0, 127⟩ := by decide +kernel

/-! ## Compositing -/

theorem mixChannel_eq (rc ra cc ca : UInt8) : ∃ b : UInt8, mixChannel rc ra cc ca = .ok b ∧
    b.toNat = rc.toNat * ra.toNat / 255 + cc.toNat * ca.toNat * (255 - ra.toNat) / 255 / 255 := by
  have h1 := rc.toNat_lt
  have h2 := ra.toNat_lt
  have h3 := cc.toNat_lt
  have h4 := ca.toNat_lt
  have p1 : rc.toNat * ra.toNat ≤ 255 * ra.toNat := Nat.mul_le_mul_right _ (by omega)
  have p2 : cc.toNat * ca.toNat ≤ 255 * 255 := Nat.mul_le_mul (by omega) (by omega)
  have p3 : cc.toNat * ca.toNat * (255 - ra.toNat) ≤ 255 * 255 * (255 - ra.toNat) := Nat.mul_le_mul_right _ p2
  have p4 : rc.toNat * ra.toNat / 255 ≤ ra.toNat := Nat.div_le_of_le_mul p1
  have p5 : cc.toNat * ca.toNat * (255 - ra.toNat) / 255 / 255 ≤ 255 - ra.toNat := by
    rw [Nat.div_div_eq_div_mul]
    exact Nat.div_le_of_le_mul p3
  refine ⟨UInt8.ofNat ((rc.toNat * ra.toNat / 255 + cc.toNat * ca.toNat * (255 - ra.toNat) / 255 / 255) % 256), ?_, ?_⟩
  · unfold mixChannel ckU32 subU32
    rw [if_pos (by omega)]
    simp only [Res.bind_ok]
    rw [if_pos (by omega)]
    simp only [Res.bind_ok]
    rw [if_pos (by omega)]
    simp only [Res.bind_ok]
    rw [if_pos (by omega)]
    simp only [Res.bind_ok]
    rw [if_pos (by omega)]
    rfl
  · rw [UInt8.toNat_ofNat']
    omega

theorem mixAlpha_eq (ra ca : UInt8) : ∃ b : UInt8, mixAlpha ra ca = .ok b ∧
    b.toNat = ra.toNat + ca.toNat * (255 - ra.toNat) / 255 := by
  have h2 := ra.toNat_lt
  have h4 := ca.toNat_lt
  have p3 : ca.toNat * (255 - ra.toNat) ≤ 255 * (255 - ra.toNat) := Nat.mul_le_mul_right _ (by omega)
  have p5 : ca.toNat * (255 - ra.toNat) / 255 ≤ 255 - ra.toNat := Nat.div_le_of_le_mul p3
  refine ⟨UInt8.ofNat ((ra.toNat + ca.toNat * (255 - ra.toNat) / 255) % 256), ?_, ?_⟩
  · unfold mixAlpha ckU32 subU32
    rw [if_pos (by omega)]
    simp only [Res.bind_ok]
    rw [if_pos (by omega)]
    simp only [Res.bind_ok]
    rw [if_pos (by omega)]
    rfl
  · rw [UInt8.toNat_ofNat']
    omega

/-- **C46, compositing.**  For all values of cloud cover and precipitation a colour is computed without
overflow.  Its alpha channel is the alpha of "rain over clouds", its colour channels those of "rain over
clouds" multiplied by alpha, rounded down: below the exact value by less than 1 (alpha) and 2 (colours). -/
theorem C46_composite (cloud rain : Fl) : ∃ col : Color, cloudPrecipColor (cloud, rain) = .ok col ∧
    ∀ c r : Color, c = cloudColor cloud → r = rainColor rain →
      (let over := fun (rc cc : UInt8) => (rc.toNat : Rat) * r.a.toNat / 255 + cc.toNat * c.a.toNat * (255 - r.a.toNat) / 255 / 255
       (0 ≤ over r.r c.r - col.r.toNat ∧ over r.r c.r - col.r.toNat < 2) ∧
       (0 ≤ over r.g c.g - col.g.toNat ∧ over r.g c.g - col.g.toNat < 2) ∧
       (0 ≤ over r.b c.b - col.b.toNat ∧ over r.b c.b - col.b.toNat < 2) ∧
       (0 ≤ (r.a.toNat : Rat) + c.a.toNat * (255 - r.a.toNat) / 255 - col.a.toNat ∧
        (r.a.toNat : Rat) + c.a.toNat * (255 - r.a.toNat) / 255 - col.a.toNat < 1)) := by
  -- division in natural numbers
  have dv : ∀ a b : Nat, 0 < b → 0 ≤ (a : Rat) / b - (a / b : Nat) ∧ (a : Rat) / b - (a / b : Nat) < 1 := by
    intro a b hb
    have hb' : (0 : Rat) < b := by exact_mod_cast hb
    have h1 : (a / b : Nat) * b ≤ a := Nat.div_mul_le_self a b
    have h2 : a < ((a / b : Nat) + 1) * b := by
      have := Nat.lt_div_mul_add (a := a) hb
      rw [Nat.add_mul, Nat.one_mul]; exact this
    have h1' : ((a / b : Nat) : Rat) * b ≤ a := by exact_mod_cast h1
    have h2' : (a : Rat) < (((a / b : Nat) : Rat) + 1) * b := by exact_mod_cast h2
    constructor
    · rw [sub_nonneg, le_div_iff₀ hb']; exact h1'
    · rw [sub_lt_iff_lt_add, div_lt_iff₀ hb', add_comm]; exact h2'
  have chan : ∀ rc ra cc ca : UInt8, ∀ b : UInt8, b.toNat = rc.toNat * ra.toNat / 255 + cc.toNat * ca.toNat * (255 - ra.toNat) / 255 / 255 →
      0 ≤ (rc.toNat : Rat) * ra.toNat / 255 + cc.toNat * ca.toNat * (255 - ra.toNat) / 255 / 255 - b.toNat ∧
      (rc.toNat : Rat) * ra.toNat / 255 + cc.toNat * ca.toNat * (255 - ra.toNat) / 255 / 255 - b.toNat < 2 := by
    intro rc ra cc ca b hb
    rw [Nat.div_div_eq_div_mul] at hb
    have a1 := dv (rc.toNat * ra.toNat) 255 (by norm_num)
    have a2 := dv (cc.toNat * ca.toNat * (255 - ra.toNat)) (255 * 255) (by norm_num)
    have hra : ra.toNat ≤ 255 := by have := ra.toNat_lt; omega
    rw [hb]
    push_cast [hra] at a1 a2 ⊢
    rw [div_div]
    constructor <;> linarith [a1.1, a1.2, a2.1, a2.2]
  have alph : ∀ ra ca : UInt8, ∀ b : UInt8, b.toNat = ra.toNat + ca.toNat * (255 - ra.toNat) / 255 →
      0 ≤ (ra.toNat : Rat) + ca.toNat * (255 - ra.toNat) / 255 - b.toNat ∧
      (ra.toNat : Rat) + ca.toNat * (255 - ra.toNat) / 255 - b.toNat < 1 := by
    intro ra ca b hb
    have a2 := dv (ca.toNat * (255 - ra.toNat)) 255 (by norm_num)
    have hra : ra.toNat ≤ 255 := by have := ra.toNat_lt; omega
    rw [hb]
    push_cast [hra] at a2 ⊢
    constructor <;> linarith [a2.1, a2.2]
  unfold cloudPrecipColor
  by_cases h0 : (Fl.feq cloud (.fin 0) && Fl.feq rain (.fin 0)) = true
  · simp only [h0, if_true]
    refine ⟨_, rfl, ?_⟩
    intro c r hc hr
    rw [Bool.and_eq_true] at h0
    have e1 : cloud = .fin 0 := by
      cases cloud <;> simp [Fl.feq] at h0
      rw [h0.1]
    have e2 : rain = .fin 0 := by
      cases rain <;> simp [Fl.feq] at h0
      rw [h0.2]
    have hc' : c = ⟨0, 0, 0, 127⟩ := by rw [hc, e1]; decide +kernel
    have hr' : r = ⟨0, 0, 0, 0⟩ := by rw [hr, e2]; decide +kernel
    subst hc' hr'
    simp only
    decide +kernel
  · simp only [h0]
    obtain ⟨b1, m1, n1⟩ := mixChannel_eq (rainColor rain).r (rainColor rain).a (cloudColor cloud).r (cloudColor cloud).a
    obtain ⟨b2, m2, n2⟩ := mixChannel_eq (rainColor rain).g (rainColor rain).a (cloudColor cloud).g (cloudColor cloud).a
    obtain ⟨b3, m3, n3⟩ := mixChannel_eq (rainColor rain).b (rainColor rain).a (cloudColor cloud).b (cloudColor cloud).a
    obtain ⟨b4, m4, n4⟩ := mixAlpha_eq (rainColor rain).a (cloudColor cloud).a
    refine ⟨⟨b1, b2, b3, b4⟩, ?_, ?_⟩
    · rw [m1, m2, m3, m4]; rfl
    · rintro c r rfl rfl
      exact ⟨chan _ _ _ _ _ n1, chan _ _ _ _ _ n2, chan _ _ _ _ _ n3, alph _ _ _ n4⟩

example : cloudPrecipColor (.fin 1, .fin 3) = .ok ⟨64, 159, 64, 255⟩ := by decide +kernel

/-! ## Charts -/

/-- **C46.** The temperature chart: pixel (x, h-1-y) shows the colour of the temperature of cell (x,y),
missing cells are transparent. -/
theorem C46_temperature_chart {l : TempLayer} {w h : Nat} (hl : Filled l.temp w h) (hw : 0 < w) (hh : 0 < h)
    (hb : 4 * (w * h) < 2 ^ 32) :
    ∃ d, renderChart w h l.getTempByXY tempColor = .ok d ∧ d.width = w ∧ d.height = h ∧
      ∀ x y, x < w → y < h → d.pixel x (h - 1 - y) = some (match cell l.temp w x y with
        | some t => tempColor t
        | none => Color.transparent) := by
  obtain ⟨d, h1, -, h3, h4, h5⟩ := C45_chart hw hh hb l.getTempByXY (fun x y => cell l.temp w x y)
    (fun x y hx hy => hl.get hx hy) tempColor
  refine ⟨d, h1, h3, h4, fun x y hx hy => ?_⟩
  rw [h5 x y hx hy]
  cases cell l.temp w x y <;> rfl

/-! ## C78 -/

/-- C78 is false: without rain, a third of the sky covered by white clouds of alpha 127 is shown in grey
(127,127,127) of alpha 127: the colour channels are multiplied by alpha although the picture format
stores them unmultiplied. -/
theorem C78_counterexample : rainColor (.fin 0) = ⟨0, 0, 0, 0⟩ ∧ cloudColor (.fin (3 / 8)) = ⟨255, 255, 255, 127⟩ ∧
    cloudPrecipColor (.fin (3 / 8), .fin 0) = .ok ⟨127, 127, 127, 127⟩ := by decide +kernel

/-- **C78, the part that holds**: without rain the composite has the alpha of the cloud colour, and is the
cloud colour if this is opaque or black.  Missing: the other classes. -/
theorem C78_no_rain_partial (cloud rain : Fl) (h : (rainColor rain).a = 0) :
    ∃ col, cloudPrecipColor (cloud, rain) = .ok col ∧ col.a = (cloudColor cloud).a ∧
      ((cloudColor cloud).a = 255 ∨ ((cloudColor cloud).r = 0 ∧ (cloudColor cloud).g = 0 ∧ (cloudColor cloud).b = 0) →
        col = cloudColor cloud) := by
  unfold cloudPrecipColor
  by_cases h0 : (Fl.feq cloud (.fin 0) && Fl.feq rain (.fin 0)) = true
  · simp only [h0, if_true]
    rw [Bool.and_eq_true] at h0
    have e1 : cloud = .fin 0 := by
      cases cloud <;> simp [Fl.feq] at h0
      rw [h0.1]
    have hc' : cloudColor cloud = ⟨0, 0, 0, 127⟩ := by rw [e1]; decide +kernel
    refine ⟨_, rfl, ?_⟩
    rw [hc']
    exact ⟨rfl, fun _ => rfl⟩
  · simp only [h0]
    obtain ⟨b1, m1, n1⟩ := mixChannel_eq (rainColor rain).r (rainColor rain).a (cloudColor cloud).r (cloudColor cloud).a
    obtain ⟨b2, m2, n2⟩ := mixChannel_eq (rainColor rain).g (rainColor rain).a (cloudColor cloud).g (cloudColor cloud).a
    obtain ⟨b3, m3, n3⟩ := mixChannel_eq (rainColor rain).b (rainColor rain).a (cloudColor cloud).b (cloudColor cloud).a
    obtain ⟨b4, m4, n4⟩ := mixAlpha_eq (rainColor rain).a (cloudColor cloud).a
    refine ⟨⟨b1, b2, b3, b4⟩, ?_, ?_, ?_⟩
    · rw [m1, m2, m3, m4]; rfl
    · rw [h] at n4
      simp only [← UInt8.toNat_inj]
      rw [n4]
      simp
    · intro hcase
      rw [h] at n1 n2 n3 n4
      simp only [UInt8.toNat_zero, Nat.mul_zero, Nat.zero_div, Nat.sub_zero, Nat.zero_add] at n1 n2 n3 n4
      have k : ∀ (b cc ca : UInt8), b.toNat = cc.toNat * ca.toNat * 255 / 255 / 255 → (ca = 255 ∨ cc = 0) → b = cc := by
        intro b cc ca hb hcc
        rw [← UInt8.toNat_inj, hb]
        rcases hcc with rfl | rfl
        · rw [show (255 : UInt8).toNat = 255 from rfl]; omega
        · simp
      have e1 := k b1 _ _ n1 (by tauto)
      have e2 := k b2 _ _ n2 (by tauto)
      have e3 := k b3 _ _ n3 (by tauto)
      have e4 : b4 = (cloudColor cloud).a := by
        rw [← UInt8.toNat_inj, n4]; omega
      rw [e1, e2, e3, e4]

/-! ## C79 -/

/-- C79 is false: -9 and 40 degrees Celsius (and NaN) are drawn in the same colour. -/
theorem C79_counterexample : tempColor (.fin (26415 / 100)) = tempColor (.fin (31315 / 100)) ∧
    tempClass (-9) = 4 ∧ tempClass 40 = 28 := by decide +kernel

/-- **C79, the part that holds**: the colours of all other classes are distinct, and in the wind and
precipitation legends all colours are. -/
theorem C79_distinct_partial : (tempColors.take 28).Nodup ∧ windColors.Nodup ∧ rainLegend.colors.Nodup := by decide +kernel

end Verif.Props
