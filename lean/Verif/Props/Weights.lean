import Verif.Props.Nearest
import Verif.Lemmas.Sqrt

/-!
# Properties C27, C63, C65 in general form: weights, sums of bytes and coordinates that are not numbers
-/

namespace Verif.Props

open Verif

/-! ## Sums of binary32 numbers -/

/-- The sum of two representable numbers has a small relative error, even near zero. -/
theorem add_rel {F : Fmt} {a b : Rat} (ha : Rep F a) (hb : Rep F b) :
    |rndq F (a + b) - (a + b)| ≤ |a + b| * pow2 (-F.prec) := by
  by_cases hq : a + b = 0
  · rw [hq, rndq_zero]; simp
  rcases (expo_ge F (a + b)).eq_or_lt with h | h
  · have unit : ∀ {r : Rat}, Rep F r → ∃ k : Int, r = k * pow2 F.emin := by
      rintro r ⟨m, e, rfl, -, he⟩
      obtain ⟨n, hn, -⟩ := pow2_int (k := e - F.emin) (by omega)
      refine ⟨m * n, ?_⟩
      rw [show e = (e - F.emin) + F.emin by ring, pow2_add, hn]
      push_cast; ring
    obtain ⟨i, hi⟩ := unit ha
    obtain ⟨j, hj⟩ := unit hb
    have hs : a + b = ((i + j : Int) : Rat) * pow2 (expo F (a + b)) := by
      rw [← h, hi, hj]; push_cast; ring
    have hz : rndq F (a + b) = a + b := by
      unfold rndq
      rw [if_neg hq]
      have : (a + b) / pow2 (expo F (a + b)) = ((i + j : Int) : Rat) := by
        rw [div_eq_iff (pow2_ne _)]; exact hs
      rw [this, rhe_int]; exact hs.symm
    rw [hz, sub_self, abs_zero]
    exact mul_nonneg (abs_nonneg _) (pow2_pos _).le
  · refine (rndq_err_expo F (a + b)).trans ?_
    have hl := expo_lower F hq h
    rw [show expo F (a + b) + F.prec - 1 = expo F (a + b) - 1 + F.prec by ring, pow2_add, pow2_sub, pow2_one] at hl
    rw [pow2_neg, ← div_eq_mul_inv, le_div_iff₀ (pow2_pos _)]
    exact hl

/-- A distance: not a number, infinite, or a number that is not negative. -/
def Dist (d : Fl) : Prop := d = .nan ∨ d = .pinf ∨ ∃ q, 0 ≤ q ∧ Rep f32 q ∧ d = .fin q

theorem dist_rnd {q : Rat} (h : 0 ≤ q) : Dist (rnd f32 q) := by
  rcases rnd_cases f32 q with ⟨e, -⟩ | ⟨-, hn⟩ | ⟨e, -⟩
  · exact Or.inr (Or.inl e)
  · exfalso
    have h1 := rndq_nonneg (F := f32) h
    have h2 := pow2_pos f32.emax
    linarith
  · exact Or.inr (Or.inr ⟨_, rndq_nonneg h, rep_rndq _ _, e⟩)

theorem dist_add {a b : Fl} (ha : Dist a) (hb : Dist b) : Dist (Fl.add f32 a b) := by
  rcases ha with rfl | rfl | ⟨p, hp, -, rfl⟩ <;> rcases hb with rfl | rfl | ⟨q, hq, -, rfl⟩
  all_goals first
    | (rw [Fl.add_fin]; exact dist_rnd (by linarith))
    | (left; rfl)
    | (right; left; rfl)

theorem dist_square (v : Fl) : Dist (Fl.mul f32 v v) := by
  cases v with
  | nan => left; rfl
  | pinf => right; left; rfl
  | ninf => right; left; rfl
  | fin q => rw [Fl.mul_fin]; exact dist_rnd (mul_self_nonneg q)

theorem dist_dist (p q : LatLon) : Dist (LatLon.calcEuclideanDistSquared p q) :=
  dist_add (dist_square _) (dist_square _)

theorem dist_sqrt {d : Fl} (h : Dist d) : Dist (Fl.sqrt f32 d) := by
  rcases h with rfl | rfl | ⟨q, hq, -, rfl⟩
  · left; rfl
  · right; left; rfl
  · obtain ⟨w, e, hw, -⟩ := sqrtQ_eq f32 hq
    have : Fl.sqrt f32 (.fin q) = rnd f32 w := by
      show (if q < 0 then Fl.nan else Fl.sqrtQ f32 q) = _
      rw [if_neg (not_lt.2 hq)]; exact e
    rw [this]; exact dist_rnd hw

/-- The sum of a list of distances, if it is a number, is only slightly less than the exact sum. -/
theorem dist_sum (l : List Fl) (hl : ∀ d ∈ l, Dist d) (acc : Fl) (hacc : Dist acc) :
    let S := l.foldl (Fl.add f32) acc
    S = .nan ∨ S = .pinf ∨ ∃ (A s : Rat) (rs : List Rat), acc = .fin A ∧ S = .fin s ∧ l = rs.map .fin ∧ 0 ≤ A ∧ A ≤ s ∧
      (∀ r ∈ rs, 0 ≤ r) ∧ A + rs.sum ≤ s * (1 + 1 / 2 ^ 20) ^ l.length := by
  induction l generalizing acc with
  | nil =>
    rcases hacc with rfl | rfl | ⟨q, hq, -, rfl⟩
    · left; rfl
    · right; left; rfl
    · right; right; exact ⟨q, q, [], rfl, rfl, rfl, hq, le_refl _, by simp, by simp⟩
  | cons d l ih =>
    have hd := hl d (by simp)
    have h := ih (fun d hd => hl d (by simp [hd])) (Fl.add f32 acc d) (dist_add hacc hd)
    simp only [List.foldl_cons] at h ⊢
    rcases h with h | h | ⟨A, s, rs, e1, e2, e3, hA, hAs, hr, hs⟩
    · exact Or.inl h
    · exact Or.inr (Or.inl h)
    · right; right
      rcases hacc with rfl | rfl | ⟨p, hp, rp, rfl⟩
      · rcases hd with rfl | rfl | ⟨q, hq, rq, rfl⟩ <;> cases e1
      · rcases hd with rfl | rfl | ⟨q, hq, rq, rfl⟩ <;> cases e1
      · rcases hd with rfl | rfl | ⟨q, hq, rq, rfl⟩
        · cases e1
        · cases e1
        · rw [Fl.add_fin] at e1
          have eA : rndq f32 (p + q) = A := by
            rcases rnd_cases f32 (p + q) with ⟨e, -⟩ | ⟨e, -⟩ | ⟨e, -⟩
            · rw [e] at e1; cases e1
            · rw [e] at e1; cases e1
            · rw [e] at e1; simpa using e1
          have herr := add_rel rp rq
          rw [eA, show pow2 (-(f32.prec : Int)) = (1 : Rat) / 2 ^ 24 by decide +kernel,
            abs_of_nonneg (by linarith : 0 ≤ p + q)] at herr
          have herr' := abs_le.mp herr
          have hpA : p ≤ A := eA ▸ rep_le_rndq prec32 rp (by linarith)
          refine ⟨p, s, q :: rs, rfl, e2, by rw [e3]; rfl, hp, hpA.trans hAs, ?_, ?_⟩
          · intro r hm
            rcases List.mem_cons.1 hm with rfl | hm
            · exact hq
            · exact hr r hm
          · have hrs : 0 ≤ rs.sum := List.sum_nonneg hr
            rw [List.sum_cons, List.length_cons, pow_succ]
            have h1 : p + q ≤ A * (1 + 1 / 2 ^ 20) := by
              have : (p + q) * (1 - 1 / 2 ^ 24) ≤ A := by linarith [herr'.1]
              nlinarith
            have h2 : rs.sum ≤ rs.sum * (1 + 1 / 2 ^ 20) := by nlinarith
            have h3 : (A + rs.sum) * (1 + 1 / 2 ^ 20) ≤ s * (1 + 1 / 2 ^ 20) ^ l.length * (1 + 1 / 2 ^ 20) := by
              gcongr
            linarith

/-! ## C63 -/

theorem scaleU8_nan (v : UInt8) : scaleU8 v .nan = 0 := by
  unfold scaleU8
  have : Fl.mul f32 (Fl.ofNat f32 v.toNat) .nan = .nan := by cases Fl.ofNat f32 v.toNat <;> rfl
  rw [this]
  decide +kernel

/-- A byte times a weight. -/
theorem scaleU8_le (v : UInt8) {q : Rat} (h0 : 0 ≤ q) (h1 : q ≤ 2) :
    ((scaleU8 v (.fin q)).toNat : Rat) ≤ v.toNat * q * (1 + 1 / 2 ^ 24) + 1 / 2 ^ 150 + 1 / 2 := by
  have hv : (v.toNat : Rat) ≤ 255 := by
    have := v.toNat_lt
    have : v.toNat ≤ 255 := by omega
    exact_mod_cast this
  have hv0 : (0 : Rat) ≤ v.toNat := by positivity
  have hvq : (0 : Rat) ≤ v.toNat * q := by positivity
  obtain ⟨x, ex, eq, hx⟩ := rnd32_err (q := v.toNat * q) (by
    rw [abs_of_nonneg hvq]
    calc (v.toNat : Rat) * q ≤ 255 * 2 := by gcongr
      _ ≤ 2 ^ 127 := by norm_num)
  have hx0 : 0 ≤ x := by rw [eq]; exact rndq_nonneg hvq
  rw [abs_of_nonneg hvq] at hx
  have hx' := (abs_le.mp hx).2
  unfold scaleU8
  rw [show Fl.ofNat f32 v.toNat = .fin v.toNat from rnd32_nat (by have := v.toNat_lt; omega), Fl.mul_fin, ex]
  simp only [Fl.isNan, Bool.false_eq_true, if_false]
  obtain ⟨y, ey, hy0, hyx, hy255⟩ : ∃ y, Fl.clamp (.fin x) (.fin 0) (.fin 255) = .fin y ∧ 0 ≤ y ∧ y ≤ x ∧ y ≤ 255 := by
    unfold Fl.clamp Fl.gt Fl.lt
    simp only [decide_eq_true_eq]
    rw [if_neg (not_lt.2 hx0)]
    by_cases h : (255 : Rat) < x
    · simp only [h, decide_true, if_true]; exact ⟨255, rfl, by norm_num, h.le, le_refl _⟩
    · simp only [h, decide_false, Bool.false_eq_true, if_false]; exact ⟨x, rfl, hx0, le_refl _, not_lt.1 h⟩
  rw [ey]
  have hr0 : 0 ≤ Fl.roundAway y := by
    have := Fl.roundAway_mono hy0
    rwa [show Fl.roundAway (0 : Rat) = 0 from Fl.roundAway_int 0] at this
  have hr1 : Fl.roundAway y ≤ 255 := by
    have := Fl.roundAway_mono hy255
    rwa [show Fl.roundAway (255 : Rat) = 255 from Fl.roundAway_int 255] at this
  have hr2 := (abs_le.mp (Fl.roundAway_err y)).2
  obtain ⟨n, hn⟩ := Int.eq_ofNat_of_zero_le hr0
  have hn255 : n ≤ 255 := by omega
  have : Fl.toU8 (Fl.round (.fin y)) = n := by
    show Fl.toU8 (.fin ((Fl.roundAway y : Int) : Rat)) = n
    rw [hn, show ((((n : Nat) : Int) : Rat)) = (n : Rat) by simp]
    exact Fl.toUInt_nat (m := 255) hn255
  rw [this]
  have : (UInt8.ofNat n).toNat = n := by
    rw [UInt8.toNat_ofNat']; omega
  rw [this]
  rw [hn] at hr2
  have hcast : ((Int.ofNat n : Int) : Rat) = (n : Rat) := by simp
  rw [show (((n : Nat) : Int) : Rat) = (n : Rat) by simp] at hr2
  linarith

/-- Adding bytes whose sum fits never panics. -/
theorem sum_ok (l : List UInt8) (a : UInt8) (h : a.toNat + (l.map UInt8.toNat).sum ≤ 255) :
    ∃ v, Res.foldl (fun a b : UInt8 => if a.toNat + b.toNat > 255 then .panic else .ok (a + b)) a l = .ok v := by
  induction l generalizing a with
  | nil => exact ⟨a, rfl⟩
  | cons b l ih =>
    rw [List.map_cons, List.sum_cons] at h
    have hab : (a + b).toNat = a.toNat + b.toNat := by
      rw [UInt8.toNat_add]; omega
    obtain ⟨v, hv⟩ := ih (a + b) (by rw [hab]; omega)
    refine ⟨v, ?_⟩
    simp only [Res.foldl]
    rw [if_neg (by omega)]
    exact hv

/-- The contributions of at most three coordinates whose values are at most 254. -/
theorem contributions_le (values : List UInt8) (hv : ∀ v ∈ values, v.toNat ≤ 254) (missing : UInt8)
    (cds : List CoordDist) (hd : ∀ cd ∈ cds, Dist cd.coordDistSquared) (hl : cds.length ≤ 3) :
    ((cds.filterMap (UnstructuredValueGrid1.weighted values missing (UnstructuredValueGrid1.distSum cds))).map
      UInt8.toNat).sum ≤ 255 := by
  set S := UnstructuredValueGrid1.distSum cds with hS
  have zero : (∀ cd ∈ cds, ∀ v : UInt8, scaleU8 v (Fl.div f32 (Fl.sqrt f32 cd.coordDistSquared) S) = 0) →
      ((cds.filterMap (UnstructuredValueGrid1.weighted values missing S)).map UInt8.toNat).sum ≤ 255 := by
    intro h
    have : ∀ n ∈ (cds.filterMap (UnstructuredValueGrid1.weighted values missing S)).map UInt8.toNat, n = 0 := by
      intro n hn
      obtain ⟨u, hu, rfl⟩ := List.mem_map.1 hn
      obtain ⟨cd, hcd, hw⟩ := List.mem_filterMap.1 hu
      unfold UnstructuredValueGrid1.weighted at hw
      split at hw
      · split at hw
        · cases hw
        · rw [Option.some.injEq] at hw
          rw [← hw]
          exact congrArg UInt8.toNat (h cd hcd _)
      · cases hw
    rw [List.sum_eq_zero this]; omega
  have hsum := dist_sum (cds.map fun cd => Fl.sqrt f32 cd.coordDistSquared) (by
    intro d hm
    obtain ⟨cd, hcd, rfl⟩ := List.mem_map.1 hm
    exact dist_sqrt (hd cd hcd)) (.fin 0) (Or.inr (Or.inr ⟨0, le_refl _, rep_zero _, rfl⟩))
  simp only at hsum
  rw [show (cds.map fun cd => Fl.sqrt f32 cd.coordDistSquared).foldl (Fl.add f32) (.fin 0) = S from rfl] at hsum
  rcases hsum with h | h | ⟨A, s, rs, e1, e2, e3, hA, hAs, hr, hs⟩
  · refine zero fun cd hcd v => ?_
    rw [h]
    have : Fl.div f32 (Fl.sqrt f32 cd.coordDistSquared) .nan = .nan := by
      cases Fl.sqrt f32 cd.coordDistSquared <;> rfl
    rw [this]; exact scaleU8_nan v
  · refine zero fun cd hcd v => ?_
    rw [h]
    rcases dist_sqrt (hd cd hcd) with e | e | ⟨q, hq, -, e⟩ <;> rw [e]
    · exact scaleU8_nan v
    · exact scaleU8_nan v
    · have : Fl.div f32 (.fin q) .pinf = .fin 0 := rfl
      rw [this]
      unfold scaleU8
      rw [show Fl.ofNat f32 v.toNat = .fin v.toNat from rnd32_nat (by have := v.toNat_lt; omega), Fl.mul_fin,
        mul_zero, rnd_zero]
      decide +kernel
  · simp only [Fl.fin.injEq] at e1
    subst e1
    rw [zero_add] at hs
    rw [List.length_map] at hs
    have hpow : ((1 : Rat) + 1 / 2 ^ 20) ^ cds.length ≤ (1 + 1 / 2 ^ 20) ^ 3 :=
      pow_le_pow_right₀ (by norm_num) hl
    have hs3 : rs.sum ≤ s * (1 + 1 / 2 ^ 20) ^ 3 := hs.trans (by gcongr)
    rcases hAs.eq_or_lt with h0 | hpos
    · subst h0
      refine zero fun cd hcd v => ?_
      have : Fl.sqrt f32 cd.coordDistSquared ∈ rs.map Fl.fin := by
        rw [← e3]; exact List.mem_map_of_mem hcd
      obtain ⟨r, hrm, er⟩ := List.mem_map.1 this
      have hle : r ≤ rs.sum := List.single_le_sum hr r hrm
      have hr0 : r = 0 := le_antisymm (by linarith) (hr r hrm)
      rw [e2, ← er, hr0]
      have : Fl.div f32 (.fin 0) (.fin 0) = .nan := by decide +kernel
      rw [this]; exact scaleU8_nan v
    · -- every contribution is bounded by a share of the sum
      have key : ∀ (cds : List CoordDist) (rs' : List Rat),
          (cds.map fun cd => Fl.sqrt f32 cd.coordDistSquared) = rs'.map Fl.fin → (∀ r ∈ rs', 0 ≤ r ∧ r ≤ rs.sum) →
          ((((cds.filterMap (UnstructuredValueGrid1.weighted values missing S)).map UInt8.toNat).sum : Nat) : Rat) ≤
            254 * (1 + 1 / 2 ^ 23) * (rs'.sum / s) + cds.length * (1 / 2 + 1 / 100) := by
        intro cds
        induction cds with
        | nil =>
          intro rs' e _
          have : rs' = [] := by simpa using e.symm
          subst this; simp
        | cons cd cds ih =>
          intro rs' e hrs'
          cases rs' with
          | nil => simp at e
          | cons r rs' =>
            simp only [List.map_cons, List.cons.injEq] at e
            have h := ih rs' e.2 (fun r hm => hrs' r (by simp [hm]))
            obtain ⟨r0, r1⟩ := hrs' r (by simp)
            have hrs : 0 ≤ r / s := by positivity
            have hstep : ∀ u, UnstructuredValueGrid1.weighted values missing S cd = some u →
                (u.toNat : Rat) ≤ 254 * (1 + 1 / 2 ^ 23) * (r / s) + (1 / 2 + 1 / 100) := by
              intro u hu
              unfold UnstructuredValueGrid1.weighted at hu
              split at hu
              · rename_i v hv'
                split at hu
                · cases hu
                · rw [Option.some.injEq] at hu
                  have hv254 : (v.toNat : Rat) ≤ 254 := by exact_mod_cast hv v (List.mem_of_getElem? hv')
                  have hv0 : (0 : Rat) ≤ v.toNat := by positivity
                  have hq2 : r / s ≤ 1 + 1 / 2 := by
                    rw [div_le_iff₀ hpos]
                    have : (1 + 1 / 2 ^ 20 : Rat) ^ 3 ≤ 1 + 1 / 2 := by norm_num
                    nlinarith
                  obtain ⟨w, ew, eq, hw⟩ := rnd32_err (q := r / s) (by
                    rw [abs_of_nonneg hrs]; linarith [show (1 + 1 / 2 : Rat) ≤ 2 ^ 127 by norm_num])
                  rw [abs_of_nonneg hrs] at hw
                  have hw' := (abs_le.mp hw).2
                  have hw0 : 0 ≤ w := by rw [eq]; exact rndq_nonneg hrs
                  rw [e2, e.1, Fl.div_fin _ _ hpos.ne', ew] at hu
                  rw [← hu]
                  refine (scaleU8_le v hw0 (by
                    have : (1 + 1 / 2 : Rat) / 2 ^ 24 + 1 / 2 ^ 150 ≤ 1 / 2 := by norm_num
                    have : r / s / 2 ^ 24 ≤ (1 + 1 / 2) / 2 ^ 24 := by gcongr
                    linarith)).trans ?_
                  have h1 : (v.toNat : Rat) * w ≤ 254 * (r / s * (1 + 1 / 2 ^ 24) + 1 / 2 ^ 150) := by
                    refine mul_le_mul hv254 ?_ hw0 (by norm_num)
                    linarith
                  have h2 : (v.toNat : Rat) * w * (1 + 1 / 2 ^ 24) ≤
                      254 * (r / s * (1 + 1 / 2 ^ 24) + 1 / 2 ^ 150) * (1 + 1 / 2 ^ 24) := by gcongr
                  nlinarith
              · cases hu
            rw [List.sum_cons, add_div, List.length_cons, List.filterMap_cons, Nat.cast_add, Nat.cast_one]
            cases hw : UnstructuredValueGrid1.weighted values missing S cd with
            | none =>
              simp only
              have : 0 ≤ 254 * (1 + 1 / 2 ^ 23) * (r / s) := by positivity
              linarith
            | some u =>
              simp only [List.map_cons, List.sum_cons, Nat.cast_add]
              have := hstep u hw
              linarith
      have hk := key cds rs e3 (fun r hm => ⟨hr r hm, List.single_le_sum hr r hm⟩)
      have hq : rs.sum / s ≤ (1 + 1 / 2 ^ 20) ^ 3 := by rw [div_le_iff₀ hpos]; linarith
      have hn : (cds.length : Rat) ≤ 3 := by exact_mod_cast hl
      have : ((((cds.filterMap (UnstructuredValueGrid1.weighted values missing S)).map UInt8.toNat).sum : Nat) : Rat) < 256 := by
        have : 254 * (1 + 1 / 2 ^ 23) * (rs.sum / s) ≤ 254 * (1 + 1 / 2 ^ 23) * (1 + 1 / 2 ^ 20) ^ 3 := by gcongr
        have h2 : (254 : Rat) * (1 + 1 / 2 ^ 23) * (1 + 1 / 2 ^ 20) ^ 3 < 254 + 1 / 100 := by norm_num
        linarith
      have : ((cds.filterMap (UnstructuredValueGrid1.weighted values missing S)).map UInt8.toNat).sum < 256 := by
        exact_mod_cast this
      omega

theorem triple_inv (g : LatLonGrid) (maxD2 : Fl) (i : Nat) (c : LatLon) (x y : Nat) (t : CoordDistTriple)
    (h : t.length = 3 ∧ ∀ cd, some cd ∈ t → Dist cd.coordDistSquared) :
    (tripleStep g maxD2 i c x y t).length = 3 ∧
      ∀ cd, some cd ∈ tripleStep g maxD2 i c x y t → Dist cd.coordDistSquared := by
  unfold tripleStep
  split
  · exact h
  · simp only
    split
    · exact h
    · unfold CoordDistTriple.addCoordDist
      split
      · refine ⟨by rw [List.length_set]; exact h.1, fun cd hm => ?_⟩
        rcases List.mem_or_eq_of_mem_set hm with hm | hm
        · exact h.2 cd hm
        · simp only [Option.some.injEq] at hm
          rw [hm]; exact dist_dist _ _
      · exact h

open Classical in
/-- **C63, partial** (full statement: for all byte values; the value 255 is missing, with it the evaluation can crash, see the
counterexample).  A three-neighbour grid of bytes can be evaluated at every cell without a crash if no value is above 254,
for every size of the grid, every list of coordinates, even ones that are not numbers, and every maximum distance. -/
theorem C63_partial (w h : Nat) (hw : w ≠ 0) (hh : h ≠ 0) (hs : w * h < 2 ^ 64) (ext : LatLonExtent) (coords : List LatLon)
    (maxDist : Fl) (values : List UInt8) (hv : ∀ v ∈ values, v.toNat ≤ 254) (missing : UInt8) :
    ∃ g0 g, UnstructuredGrid1.new (w, h) ext coords = .ok g0 ∧ g0.calcCoordDistLookupMap maxDist = .ok g ∧
      (∀ x y, ∃ o, UnstructuredValueGrid1.getValueByXY (T := UInt8) ⟨g, values, missing⟩ x y = .ok o) ∧
      ∃ r, UnstructuredValueGrid1.createRegularGrid (T := UInt8) ⟨g, values, missing⟩ = .ok r := by
  have hd : (LatLonGrid.new (w, h) ext).dimensions = (w, h) := rfl
  obtain ⟨map, e, l, cell⟩ := loops_cell (LatLonGrid.new (w, h) ext) w h hd hw hh maxDist
    (tripleStep (LatLonGrid.new (w, h) ext) (Fl.mul f32 maxDist maxDist))
    (UnstructuredGrid1.updateCell (LatLonGrid.new (w, h) ext) (Fl.mul f32 maxDist maxDist))
    (updateCell1_pointwise _ w h hd hs.le _)
    (UnstructuredGrid1.insertCoord (LatLonGrid.new (w, h) ext) maxDist (Fl.mul f32 maxDist maxDist))
    (fun _ _ => rfl) (coords.zipIdx.map fun p => (p.2, p.1))
    (List.replicate (w * h) CoordDistTriple.new) (by simp)
  have total : ∀ x y, ∃ o, UnstructuredValueGrid1.getValueByXY (T := UInt8)
      ⟨⟨LatLonGrid.new (w, h) ext, coords, map⟩, values, missing⟩ x y = .ok o := by
    intro x y
    unfold UnstructuredValueGrid1.getValueByXY UnstructuredGrid1.getCoordDistTriple
    by_cases hxy : x < w ∧ y < h
    · have hget := cell x y hxy.1 hxy.2
      have hlt : x + y * w < w * h := idx_lt hxy.1 hxy.2
      rw [List.getElem?_replicate_of_lt hlt, Option.map_some] at hget
      obtain ⟨hlt', hval⟩ := List.getElem?_eq_some_iff.1 hget
      simp only [getIndex_in hd hs.le hxy.1 hxy.2, Res.bind_ok, Res.index_ok hlt']
      have inv : map[x + y * w].length = 3 ∧ ∀ cd, some cd ∈ map[x + y * w] → Dist cd.coordDistSquared := by
        rw [hval]
        have : ∀ (ics : List (Nat × LatLon)) (t : CoordDistTriple),
            (t.length = 3 ∧ ∀ cd, some cd ∈ t → Dist cd.coordDistSquared) →
            (ics.foldl (fun s ic => if Covers (LatLonGrid.new (w, h) ext) maxDist ic.2 x y then
              tripleStep (LatLonGrid.new (w, h) ext) (Fl.mul f32 maxDist maxDist) ic.1 ic.2 x y s else s) t).length = 3 ∧
            ∀ cd, some cd ∈ ics.foldl (fun s ic => if Covers (LatLonGrid.new (w, h) ext) maxDist ic.2 x y then
              tripleStep (LatLonGrid.new (w, h) ext) (Fl.mul f32 maxDist maxDist) ic.1 ic.2 x y s else s) t →
              Dist cd.coordDistSquared := by
          intro ics
          induction ics with
          | nil => intro t ht; exact ht
          | cons ic ics ih =>
            intro t ht
            rw [List.foldl_cons]
            apply ih
            split
            · exact triple_inv _ _ _ _ _ _ t ht
            · exact ht
        exact this _ _ ⟨rfl, by intro cd hm; simp [CoordDistTriple.new] at hm⟩
      split
      · exact ⟨_, rfl⟩
      · have hsum := contributions_le values hv missing (CoordDistTriple.getCoordDists map[x + y * w])
          (by
            intro cd hm
            obtain ⟨o, ho, h⟩ := List.mem_filterMap.1 hm
            exact inv.2 cd (by rwa [show o = some cd from h] at ho))
          (by
            have := List.length_filterMap_le id map[x + y * w]
            unfold CoordDistTriple.getCoordDists; omega)
        obtain ⟨v, hv⟩ := sum_ok _ 0 (by simpa using hsum)
        exact ⟨some v, (congrArg (fun r => Res.bind r _) hv).trans rfl⟩
    · simp only [getIndex_out hd hxy, Res.bind_ok]
      exact ⟨none, rfl⟩
  refine ⟨⟨LatLonGrid.new (w, h) ext, coords, List.replicate (w * h) CoordDistTriple.new⟩,
    ⟨LatLonGrid.new (w, h) ext, coords, map⟩, ?_, ?_, total, ?_⟩
  · unfold UnstructuredGrid1.new
    rw [if_neg (by simpa using hs)]
  · unfold UnstructuredGrid1.calcCoordDistLookupMap
    exact (congrArg (fun r => Res.bind r _) e).trans rfl
  · unfold UnstructuredValueGrid1.createRegularGrid
    simp only [hd]
    rw [if_neg (by omega)]
    choose f hf using total
    have := Res.mapM_total (fun i => (f (i % w) (i / w)).getD missing) (fun i => do
        let v ← UnstructuredValueGrid1.getValueByXY (T := UInt8)
          ⟨⟨LatLonGrid.new (w, h) ext, coords, map⟩, values, missing⟩ (i % w) (i / w)
        Res.ok (v.getD missing)) (List.range (w * h)) (by
      intro i _
      rw [hf]; rfl)
    exact ⟨_, (congrArg (fun r => Res.bind r _) this).trans rfl⟩

example : threeNeighbours [⟨.fin 3, .fin 4⟩, ⟨.fin 5, .fin 4⟩] [(254 : UInt8), 254] 0 = .ok (some 254) := by decide +kernel

/-! ## C27 -/

/-- **C27, the opposite holds.**  Among the coordinates kept for a cell, a farther one always has a weight at least as large
as a nearer one (the distances being the computed ones, and their sum finite and not zero). -/
theorem C27_always (cds : List CoordDist) (near far : CoordDist) (a b S : Rat)
    (hn : Fl.sqrt f32 near.coordDistSquared = .fin a) (hf : Fl.sqrt f32 far.coordDistSquared = .fin b)
    (h0 : 0 ≤ a) (hab : a ≤ b) (hS : UnstructuredValueGrid1.distSum cds = .fin S) (hpos : 0 < S) (values : List Fl)
    (missing : Fl) (v : Rat) (hv : 0 ≤ v) (hvn : values[near.coordIndex]? = some (.fin v))
    (hvf : values[far.coordIndex]? = some (.fin v)) (hm : missing ≠ .fin v) :
    ∃ x y, UnstructuredValueGrid1.weighted values missing (UnstructuredValueGrid1.distSum cds) near = some x ∧
      UnstructuredValueGrid1.weighted values missing (UnstructuredValueGrid1.distSum cds) far = some y ∧
      (Fl.le x y = true ∨ y = .nan) := by
  have hne : Fl.feq (.fin v) missing = false := by
    cases missing with
    | fin q => simpa [Fl.feq, eq_comm] using hm
    | _ => rfl
  unfold UnstructuredValueGrid1.weighted
  rw [hvn, hvf, hS, hn, hf]
  simp only
  have hne' : GridValue.eq (Fl.fin v) missing = false := hne
  rw [hne']
  refine ⟨_, _, rfl, rfl, ?_⟩
  rw [Fl.div_fin _ _ hpos.ne', Fl.div_fin _ _ hpos.ne']
  show Fl.le (Fl.mul f32 (.fin v) (rnd f32 (a / S))) (Fl.mul f32 (.fin v) (rnd f32 (b / S))) = true ∨ _
  have hle : Fl.le (rnd f32 (a / S)) (rnd f32 (b / S)) = true := Fl.rnd_mono prec32 (by gcongr)
  rcases hv.eq_or_lt with rfl | hv
  · rcases dist_rnd (show 0 ≤ b / S from div_nonneg (h0.trans hab) hpos.le) with h | h | ⟨q, -, -, h⟩
    · exact absurd h (rnd_ne_nan _ _)
    · right; show Fl.mul f32 (.fin 0) (rnd f32 (b / S)) = .nan
      rw [h]; decide +kernel
    · left
      rw [h] at hle ⊢
      rcases dist_rnd (show 0 ≤ a / S by positivity) with h' | h' | ⟨p, -, -, h'⟩
      · exact absurd h' (rnd_ne_nan _ _)
      · rw [h'] at hle; cases hle
      · rw [h', Fl.mul_fin, Fl.mul_fin, zero_mul, zero_mul]; decide +kernel
  · left; exact Fl.le_mul_left prec32 hv hle

/-- **C27, the opposite holds.**  If a cell keeps two coordinates, the value of the nearer one being zero, then the result is
at least half of the value of the farther one. -/
theorem C27_far_dominates (g : UnstructuredValueGrid1 Fl) (x y : Nat) (t : CoordDistTriple) (near far : CoordDist)
    (ht : g.grid.getCoordDistTriple x y = .ok (some t)) (hc : t.getCoordDists = [near, far]) (a b : Rat)
    (hn : Fl.sqrt f32 near.coordDistSquared = .fin a) (hf : Fl.sqrt f32 far.coordDistSquared = .fin b)
    (h0 : 0 ≤ a) (hab : a ≤ b) (hb : 1 / 2 ^ 75 ≤ b) (hb' : b ≤ 2 ^ 64) (hrep : Rep f32 a) (hrepb : Rep f32 b)
    (v : Rat) (hv : 0 ≤ v) (hv' : v ≤ 2 ^ 64) (hrepv : Rep f32 v)
    (hvn : g.values[near.coordIndex]? = some (.fin 0)) (hvf : g.values[far.coordIndex]? = some (.fin v))
    (hm : ∀ q, 0 ≤ q → g.missingValue ≠ .fin q) :
    ∃ r, g.getValueByXY x y = .ok (some (.fin r)) ∧ rndq f32 (v / 2) ≤ r := by
  have hne : ∀ q, 0 ≤ q → GridValue.eq (Fl.fin q) g.missingValue = false := by
    intro q hq
    have := hm q hq
    show Fl.feq (.fin q) g.missingValue = false
    cases h : g.missingValue with
    | fin p => rw [h] at this; simpa [Fl.feq, eq_comm] using this
    | _ => rfl
  have hbpos : 0 < b := lt_of_lt_of_le (by norm_num) hb
  -- the sum of the distances
  have isFl : ∀ {q : Rat}, Rep f32 q → 0 ≤ q → q ≤ 2 ^ 65 → IsFl f32 (.fin q) := by
    intro q h1 h2 h3
    refine ⟨h1, ?_⟩
    rw [abs_of_nonneg h2]
    refine lt_of_le_of_lt h3 ?_
    rw [show pow2 f32.emax = 2 ^ 128 by decide +kernel]; norm_num
  have ea : rnd f32 (0 + a) = .fin a := by rw [zero_add]; exact isFl_exact prec32 (isFl hrep h0 (by linarith [show (2 : Rat) ^ 64 ≤ 2 ^ 65 by norm_num]))
  have hrep2 : Rep f32 (2 * b) := by
    obtain ⟨m, e, h1, h2, h3⟩ := hrepb
    refine ⟨m, e + 1, ?_, h2, by omega⟩
    rw [h1, pow2_add, pow2_one]; ring
  obtain ⟨S, eS, hS1, hS2⟩ := rnd32_between (q := a + b) (isFl hrepb hbpos.le (by linarith [show (2 : Rat) ^ 64 ≤ 2 ^ 65 by norm_num]))
    (isFl hrep2 (by linarith) (by rw [show (2 : Rat) ^ 65 = 2 * 2 ^ 64 by norm_num]; linarith)) (by linarith) (by linarith)
  have hSpos : 0 < S := by linarith
  have hsum : UnstructuredValueGrid1.distSum [near, far] = .fin S := by
    unfold UnstructuredValueGrid1.distSum
    simp only [List.map_cons, List.map_nil, List.foldl_cons, List.foldl_nil, hn, hf, Fl.add_fin, ea]
    exact eS
  -- the weight of the farther one
  have half : IsFl f32 (.fin (1 / 2)) := by
    refine ⟨⟨1, -1, by decide +kernel, by decide, by decide⟩, by decide +kernel⟩
  have one : IsFl f32 (.fin 1) := ⟨⟨1, 0, by decide +kernel, by decide, by decide⟩, by decide +kernel⟩
  have zero : IsFl f32 (.fin 0) := ⟨rep_zero _, by decide +kernel⟩
  obtain ⟨wf, ewf, hwf1, hwf2⟩ := rnd32_between (q := b / S) half one (by rw [le_div_iff₀ hSpos]; linarith)
    (by rw [div_le_one hSpos]; exact hS1)
  obtain ⟨wn, ewn, hwn1, hwn2⟩ := rnd32_between (q := a / S) zero one (by positivity) (by rw [div_le_one hSpos]; linarith)
  have hvF : IsFl f32 (.fin v) := isFl hrepv hv (by linarith [show (2 : Rat) ^ 64 ≤ 2 ^ 65 by norm_num])
  obtain ⟨c, ec, hc0, hc1⟩ := rnd32_between (q := v * wf) zero hvF (by nlinarith) (by nlinarith)
  have hc2 : rndq f32 (v / 2) ≤ c := by
    have h1 : rndq f32 (v * wf) = c := by
      rcases rnd_cases f32 (v * wf) with ⟨e, -⟩ | ⟨e, -⟩ | ⟨e, -⟩
      · rw [e] at ec; cases ec
      · rw [e] at ec; cases ec
      · rw [e] at ec; simpa using ec
    rw [← h1]
    exact rndq_mono prec32 (by nlinarith)
  have hcF : IsFl f32 (.fin c) := by rw [← ec]; exact isFl_rnd _ _
  refine ⟨c, ?_, hc2⟩
  unfold UnstructuredValueGrid1.getValueByXY
  rw [ht]
  simp only [Res.bind_ok, hc, List.isEmpty_cons, Bool.false_eq_true, if_false, hsum]
  have w1 : UnstructuredValueGrid1.weighted g.values g.missingValue (.fin S) near = some (.fin 0) := by
    unfold UnstructuredValueGrid1.weighted
    rw [hvn]
    simp only
    rw [hne 0 (le_refl _), if_neg (by simp), hn, Fl.div_fin _ _ hSpos.ne', ewn]
    show some (Fl.mul f32 (.fin 0) (.fin wn)) = _
    rw [Fl.mul_fin, zero_mul, rnd_zero]
  have w2 : UnstructuredValueGrid1.weighted g.values g.missingValue (.fin S) far = some (.fin c) := by
    unfold UnstructuredValueGrid1.weighted
    rw [hvf]
    simp only
    rw [hne v hv, if_neg (by simp), hf, Fl.div_fin _ _ hSpos.ne', ewf]
    show some (Fl.mul f32 (.fin v) (.fin wf)) = _
    rw [Fl.mul_fin, ec]
  simp only [List.filterMap_cons, w1, w2, List.filterMap_nil]
  show (Res.bind (Res.bind (Res.ok (Fl.add f32 (.fin 0) (.fin 0))) fun s => Res.bind (Res.ok (Fl.add f32 s (.fin c))) .ok) _) = _
  simp only [Fl.add_fin, zero_add, rnd_zero]
  simp only [Res.bind, Fl.add_fin, zero_add, isFl_exact prec32 hcF]

/-- The conditions of `C27_far_dominates` at distances 1 and 3. -/
example : ∃ g t near far, UnstructuredGrid1.getCoordDistTriple g 0 0 = .ok (some t) ∧
    CoordDistTriple.getCoordDists t = [near, far] ∧ Fl.sqrt f32 near.coordDistSquared = .fin 1 ∧
    Fl.sqrt f32 far.coordDistSquared = .fin 3 ∧ near.coordIndex = 0 ∧ far.coordIndex = 1 :=
  ⟨⟨LatLonGrid.new (1, 1) (finExtent 0 0 8 8), [⟨.fin 3, .fin 4⟩, ⟨.fin 7, .fin 4⟩], [[some ⟨0, .fin 1⟩, some ⟨1, .fin 9⟩, none]]⟩,
    [some ⟨0, .fin 1⟩, some ⟨1, .fin 9⟩, none], ⟨0, .fin 1⟩, ⟨1, .fin 9⟩, by decide +kernel, rfl, by decide +kernel,
    by decide +kernel, rfl, rfl⟩

/-! ## C65 -/

theorem nan_dist (c p : LatLon) (h : c.lat = .nan ∨ c.lon = .nan) : LatLon.calcEuclideanDistSquared c p = .nan := by
  unfold LatLon.calcEuclideanDistSquared
  rcases h with h | h <;> rw [h]
  · have : Fl.sub f32 .nan p.lat = .nan := by cases p.lat <;> rfl
    rw [this]
    show Fl.add f32 .nan _ = .nan
    cases Fl.mul f32 (Fl.sub f32 c.lon p.lon) (Fl.sub f32 c.lon p.lon) <;> rfl
  · have : Fl.sub f32 .nan p.lon = .nan := by cases p.lon <;> rfl
    rw [this]
    show Fl.add f32 _ .nan = .nan
    cases Fl.mul f32 (Fl.sub f32 c.lat p.lat) (Fl.sub f32 c.lat p.lat) <;> rfl

theorem nan_covers (g : LatLonGrid) (w h : Nat) (hd : g.dimensions = (w, h)) (maxDist : Fl) (c : LatLon)
    (hc : c.lat = .nan ∨ c.lon = .nan) (hskip : skipCoord g.extent c maxDist = false) {x y : Nat} (hx : x < w) (hy : y < h) :
    Covers g maxDist c x y := by
  refine ⟨hskip, (0, 0), (w - 1, h - 1), ?_, by omega, by simp; omega, by omega, by simp; omega⟩
  have hn : LatLon.normalise .nan = .nan := by decide +kernel
  have out : ∀ p : LatLon, p.lat = .nan ∨ p.lon = .nan → g.getXYByLatLon p = none := by
    intro p hp
    have : g.extent.isInside p = false := by
      unfold LatLonExtent.isInside Fl.ge
      rcases hp with hp | hp <;> rw [hp] <;> simp [Fl.le, Fl.lt]
    unfold LatLonGrid.getXYByLatLon
    rw [this]; rfl
  have hmin : g.getXYByLatLon (LatLon.new (Fl.sub f32 c.lat maxDist) (Fl.sub f32 c.lon maxDist)) = none := by
    apply out
    rcases hc with h | h <;> rw [h]
    · left
      show LatLon.normalise (Fl.sub f32 .nan maxDist) = .nan
      rw [show Fl.sub f32 .nan maxDist = .nan by cases maxDist <;> rfl, hn]
    · right
      show LatLon.normalise (Fl.sub f32 .nan maxDist) = .nan
      rw [show Fl.sub f32 .nan maxDist = .nan by cases maxDist <;> rfl, hn]
  have hmax : g.getXYByLatLon (LatLon.new (Fl.add f32 c.lat maxDist) (Fl.add f32 c.lon maxDist)) = none := by
    apply out
    rcases hc with h | h <;> rw [h]
    · left
      show LatLon.normalise (Fl.add f32 .nan maxDist) = .nan
      rw [show Fl.add f32 .nan maxDist = .nan by cases maxDist <;> rfl, hn]
    · right
      show LatLon.normalise (Fl.add f32 .nan maxDist) = .nan
      rw [show Fl.add f32 .nan maxDist = .nan by cases maxDist <;> rfl, hn]
  unfold calcMinMaxXY
  simp only [hmin, hmax, hd]
  rw [if_neg (by omega)]

open Classical in
/-- **C65, the opposite always holds.**  A coordinate one of whose numbers is not a number, and whose other number is not
outside of the enlarged extent, takes over every cell: whatever was assigned before it is lost; no cell is left without
coordinate, and only coordinates after it can be assigned. -/
theorem C65_always (w h : Nat) (hw : w ≠ 0) (hh : h ≠ 0) (hs : w * h < 2 ^ 64) (ext : LatLonExtent) (before after : List LatLon)
    (c : LatLon) (hc : c.lat = .nan ∨ c.lon = .nan) (maxDist : Fl) (hskip : skipCoord ext c maxDist = false) :
    ∃ g0 g, UnstructuredGrid.new (w, h) ext (before ++ c :: after) = .ok g0 ∧ g0.calcCoordDistLookupMap maxDist = .ok g ∧
      ∀ x y, x < w → y < h → ∀ p, cellCentre g.latLonGrid x y = some p →
        ∃ cd, g.getCoordDist x y = .ok (some cd) ∧ before.length ≤ cd.coordIndex ∧
          (after = [] → cd = ⟨before.length, .nan⟩) := by
  have hd : (LatLonGrid.new (w, h) ext).dimensions = (w, h) := rfl
  obtain ⟨map, e, l, cell⟩ := loops_cell (LatLonGrid.new (w, h) ext) w h hd hw hh maxDist
    (nearStep (LatLonGrid.new (w, h) ext) (Fl.mul f32 maxDist maxDist))
    (UnstructuredGrid.updateCell (LatLonGrid.new (w, h) ext) (Fl.mul f32 maxDist maxDist))
    (updateCell_pointwise _ w h hd hs.le _)
    (UnstructuredGrid.insertCoord (LatLonGrid.new (w, h) ext) maxDist (Fl.mul f32 maxDist maxDist))
    (fun _ _ => rfl) ((before ++ c :: after).zipIdx.map fun p => (p.2, p.1)) (List.replicate (w * h) none) (by simp)
  refine ⟨⟨LatLonGrid.new (w, h) ext, before ++ c :: after, List.replicate (w * h) none⟩,
    ⟨LatLonGrid.new (w, h) ext, before ++ c :: after, map⟩, ?_, ?_, ?_⟩
  · unfold UnstructuredGrid.new
    rw [if_neg (by simpa using hs)]
  · unfold UnstructuredGrid.calcCoordDistLookupMap
    exact (congrArg (fun r => Res.bind r _) e).trans rfl
  · intro x y hx hy p hp
    have hget := cell x y hx hy
    have hlt : x + y * w < w * h := idx_lt hx hy
    rw [List.getElem?_replicate_of_lt hlt, Option.map_some] at hget
    obtain ⟨hlt', hval⟩ := List.getElem?_eq_some_iff.1 hget
    rw [List.zipIdx_append, List.zipIdx_cons, List.map_append, List.map_cons, List.foldl_append, List.foldl_cons] at hval
    rw [if_pos (nan_covers _ w h hd maxDist c hc hskip hx hy)] at hval
    have hstep : ∀ (i : Nat) s, nearStep (LatLonGrid.new (w, h) ext) (Fl.mul f32 maxDist maxDist) i c x y s = some ⟨i, .nan⟩ := by
      intro i s
      unfold nearStep
      rw [show cellCentre (LatLonGrid.new (w, h) ext) x y = some p from hp]
      simp only [nan_dist c p hc]
      have hgt : ∀ v, Fl.gt .nan v = false := by intro v; cases v <;> rfl
      rw [hgt, hgt]
      rfl
    simp only [hstep, Nat.zero_add] at hval
    have rest : ∀ (after : List LatLon) (k : Nat) (cd : CoordDist), before.length ≤ cd.coordIndex → before.length ≤ k →
        ∃ cd', ((after.zipIdx k).map fun p => (p.2, p.1)).foldl (fun s ic =>
          if Covers (LatLonGrid.new (w, h) ext) maxDist ic.2 x y then
            nearStep (LatLonGrid.new (w, h) ext) (Fl.mul f32 maxDist maxDist) ic.1 ic.2 x y s else s) (some cd) = some cd' ∧
          before.length ≤ cd'.coordIndex ∧ (after = [] → cd' = cd) := by
      intro after
      induction after with
      | nil => intro k cd h1 _; exact ⟨cd, rfl, h1, fun _ => rfl⟩
      | cons a after ih =>
        intro k cd h1 h2
        rw [List.zipIdx_cons, List.map_cons, List.foldl_cons]
        have : ∃ cd1 : CoordDist, (if Covers (LatLonGrid.new (w, h) ext) maxDist a x y then
            nearStep (LatLonGrid.new (w, h) ext) (Fl.mul f32 maxDist maxDist) k a x y (some cd) else some cd) = some cd1 ∧
            before.length ≤ cd1.coordIndex := by
          split
          · unfold nearStep
            split
            · exact ⟨cd, rfl, h1⟩
            · simp only
              split
              · exact ⟨cd, rfl, h1⟩
              · split
                · exact ⟨cd, rfl, h1⟩
                · exact ⟨_, rfl, h2⟩
          · exact ⟨cd, rfl, h1⟩
        obtain ⟨cd1, e1, l1⟩ := this
        simp only [e1]
        obtain ⟨cd2, e2, l2, -⟩ := ih (k + 1) cd1 l1 (by omega)
        exact ⟨cd2, e2, l2, fun h => by cases h⟩
    obtain ⟨cd, e1, l1, last⟩ := rest after (before.length + 1) ⟨before.length, .nan⟩ (le_refl _) (by omega)
    refine ⟨cd, ?_, l1, last⟩
    unfold UnstructuredGrid.getCoordDist
    simp only [getIndex_in hd hs.le hx hy, Res.bind_ok]
    rw [Res.index_ok hlt', hval, e1]

/-- A coordinate at infinite latitude meets the conditions. -/
example : (LatLon.new .pinf (.fin 0)).lat = .nan ∧ skipCoord (finExtent 0 0 4 8) (LatLon.new .pinf (.fin 0)) (.fin 1) = false :=
  ⟨by decide +kernel, by decide +kernel⟩

end Verif.Props
