import Verif.Lemmas.Grib2

/-!
# Inversion of the GRIB2 section readers: framing and panics
-/

namespace Verif.Grib2

open Verif Rd Spec.Grib2

theorem take4 {s : List UInt8} (h : 4 ≤ s.length) : beNat (s.take 4) = declaredLength s := by
  match s, h with
  | a :: b :: c :: d :: t, _ =>
    simp [beNat, declaredLength]
    ring

theorem uint_inv {n v : Nat} {s r : List UInt8} (h : uint n s = .ok (v, r)) :
    n ≤ s.length ∧ v = beNat (s.take n) ∧ r = s.drop n := by
  rw [uint_eq] at h
  split at h
  · simp only [Res.ok.injEq, Prod.mk.injEq] at h
    exact ⟨by assumption, h.1.symm, h.2.symm⟩
  · simp at h

theorem uint_len {n v : Nat} {s r : List UInt8} (h : uint n s = .ok (v, r)) :
    s.length = r.length + n := by
  obtain ⟨h1, -, rfl⟩ := uint_inv h
  rw [List.length_drop]; omega

theorem bytes_len {n : Nat} {s r a : List UInt8} (h : bytes n s = .ok (a, r)) :
    s.length = r.length + n := by
  obtain ⟨rfl, h2⟩ := bytes_ok_iff.mp h
  rw [List.length_append]; omega

theorem times_len {α : Type} {m : Rd α} {k : Nat}
    (hm : ∀ s a r, m s = .ok (a, r) → s.length = r.length + k) (n : Nat) {s r : List UInt8}
    {as : List α} (h : times m n s = .ok (as, r)) : s.length = r.length + n * k := by
  induction n generalizing s r as with
  | zero =>
    simp only [times, pure_apply, Res.ok.injEq, Prod.mk.injEq] at h
    rw [h.2]; omega
  | succ n ih =>
    rw [times] at h
    obtain ⟨a, s1, h1, h2⟩ := bind_ok_iff.mp h
    obtain ⟨b, s2, h3, h4⟩ := bind_ok_iff.mp h2
    simp only [pure_apply, Res.ok.injEq, Prod.mk.injEq] at h4
    have e1 := hm _ _ _ h1
    have e2 := ih h3
    rw [← h4.2, e1, e2]
    ring

theorem take1_drop4 {s : List UInt8} {k : Nat} (hl : 4 < s.length)
    (h : k = beNat ((s.drop 4).take 1)) : HasNumber (UInt8.ofNat k) s := by
  unfold HasNumber
  match s, hl with
  | a :: b :: c :: d :: e :: t, _ =>
    simp only [List.drop_succ_cons, List.drop_zero, List.take_succ_cons, List.take_zero] at h
    simp [beNat] at h
    simp [h]

/-- Header of a section: declared length and section number. -/
theorem header_inv {α : Type} {f : Nat → Nat → Rd α} {s r : List UInt8} {a : α}
    (h : (u32 >>= fun l => u8 >>= fun n => f l n) s = .ok (a, r)) :
    5 ≤ s.length ∧ f (declaredLength s) (beNat ((s.drop 4).take 1)) (s.drop 5) = .ok (a, r) := by
  obtain ⟨l, s1, h1, h2⟩ := bind_ok_iff.mp h
  obtain ⟨n, s2, h3, h4⟩ := bind_ok_iff.mp h2
  obtain ⟨e1, rfl, rfl⟩ := uint_inv h1
  obtain ⟨e2, rfl, rfl⟩ := uint_inv h3
  rw [List.length_drop] at e2
  rw [take4 e1, List.drop_drop] at h4
  exact ⟨by omega, h4⟩

theorem section0_inv {s r : List UInt8} {d : Section0} (h : readSection0 s = .ok (d, r)) :
    s.length = r.length + 16 ∧ s.take 4 = gribMagic := by
  unfold readSection0 at h
  simp only [bytesIgnoringError_then_u8] at h
  obtain ⟨magic, s1, h1, h⟩ := bind_ok_iff.mp h
  obtain ⟨_, s2, h2, h⟩ := bind_ok_iff.mp h
  obtain ⟨_, s3, h3, h⟩ := bind_ok_iff.mp h
  obtain ⟨_, s4, h4, h⟩ := bind_ok_iff.mp h
  obtain ⟨_, s5, h5, h⟩ := bind_ok_iff.mp h
  have e1 := bytes_len h1
  have e2 := bytes_len h2
  have e3 := uint_len h3
  have e4 := uint_len h4
  have e5 := uint_len h5
  obtain ⟨e0, e6⟩ := bytes_ok_iff.mp h1
  split at h
  · simp at h
  · rename_i hm
    simp only [pure_apply, Res.ok.injEq, Prod.mk.injEq] at h
    rw [← h.2]
    refine ⟨by omega, ?_⟩
    rw [e0, List.take_left' e6]
    exact not_not.mp hm

theorem refTime_len {s r : List UInt8} {t : DateTime} (h : readRefTime s = .ok (t, r)) :
    s.length = r.length + 7 := by
  unfold readRefTime at h
  obtain ⟨_, s1, h1, h⟩ := bind_ok_iff.mp h
  obtain ⟨_, s2, h2, h⟩ := bind_ok_iff.mp h
  obtain ⟨_, s3, h3, h⟩ := bind_ok_iff.mp h
  obtain ⟨_, s4, h4, h⟩ := bind_ok_iff.mp h
  obtain ⟨_, s5, h5, h⟩ := bind_ok_iff.mp h
  obtain ⟨_, s6, h6, h⟩ := bind_ok_iff.mp h
  have e1 := uint_len h1
  have e2 := uint_len h2
  have e3 := uint_len h3
  have e4 := uint_len h4
  have e5 := uint_len h5
  have e6 := uint_len h6
  split at h
  · simp only [pure_apply, Res.ok.injEq, Prod.mk.injEq] at h
    rw [← h.2]; omega
  · simp at h

theorem section1_inv {s r : List UInt8} {d : Section1} (h : readSection1 s = .ok (d, r)) :
    HasNumber 1 s ∧ d.length = declaredLength s ∧ 21 ≤ d.length ∧ s.length = r.length + d.length := by
  unfold readSection1 at h
  obtain ⟨hl, h⟩ := header_inv h
  obtain ⟨_, s1, h1, h⟩ := bind_ok_iff.mp h
  obtain ⟨_, s2, h2, h⟩ := bind_ok_iff.mp h
  obtain ⟨_, s3, h3, h⟩ := bind_ok_iff.mp h
  obtain ⟨_, s4, h4, h⟩ := bind_ok_iff.mp h
  obtain ⟨_, s5, h5, h⟩ := bind_ok_iff.mp h
  obtain ⟨_, s6, h6, h⟩ := bind_ok_iff.mp h
  obtain ⟨_, s7, h7, h⟩ := bind_ok_iff.mp h
  obtain ⟨_, s8, h8, h⟩ := bind_ok_iff.mp h
  have e1 := uint_len h1
  have e2 := uint_len h2
  have e3 := uint_len h3
  have e4 := uint_len h4
  have e5 := uint_len h5
  have e6 := refTime_len h6
  have e7 := uint_len h7
  have e8 := uint_len h8
  rw [List.length_drop] at e1
  split at h
  · simp at h
  · rename_i hn
    split at h
    · simp at h
    · obtain ⟨_, s9, h9, h⟩ := bind_ok_iff.mp h
      have e9 := bytes_len h9
      simp only [pure_apply, Res.ok.injEq, Prod.mk.injEq] at h
      obtain ⟨rfl, rfl⟩ := h
      refine ⟨take1_drop4 (k := 1) (by omega) (not_not.mp hn).symm, rfl, by simp only; omega, ?_⟩
      simp only
      omega

theorem section2_inv {s r : List UInt8} {d : Section2} (h : readSection2 s = .ok (d, r)) :
    HasNumber 2 s ∧ d.length = declaredLength s ∧ 5 ≤ d.length ∧ s.length = r.length + d.length := by
  unfold readSection2 at h
  obtain ⟨hl, h⟩ := header_inv h
  split at h
  · simp at h
  · rename_i hn
    split at h
    · simp at h
    · obtain ⟨_, s9, h9, h⟩ := bind_ok_iff.mp h
      have e9 := bytes_len h9
      rw [List.length_drop] at e9
      simp only [pure_apply, Res.ok.injEq, Prod.mk.injEq] at h
      obtain ⟨rfl, rfl⟩ := h
      refine ⟨take1_drop4 (k := 2) (by omega) (not_not.mp hn).symm, rfl, by simp only; omega, ?_⟩
      simp only
      omega

theorem section3_inv {s r : List UInt8} {d : Section3} (h : readSection3 s = .ok (d, r)) :
    HasNumber 3 s ∧ d.length = declaredLength s := by
  unfold readSection3 at h
  obtain ⟨hl, h⟩ := header_inv h
  obtain ⟨_, s1, h1, h⟩ := bind_ok_iff.mp h
  obtain ⟨_, s2, h2, h⟩ := bind_ok_iff.mp h
  obtain ⟨_, s3, h3, h⟩ := bind_ok_iff.mp h
  obtain ⟨_, s4, h4, h⟩ := bind_ok_iff.mp h
  obtain ⟨_, s5, h5, h⟩ := bind_ok_iff.mp h
  have e1 := uint_len h1
  rw [List.length_drop] at e1
  split at h
  · simp at h
  · rename_i hn
    simp only [pure_apply, Res.ok.injEq, Prod.mk.injEq] at h
    obtain ⟨rfl, rfl⟩ := h
    exact ⟨take1_drop4 (k := 3) (by omega) (not_not.mp hn).symm, rfl⟩

theorem section4_inv {s r : List UInt8} {d : Section4} (h : readSection4 s = .ok (d, r)) :
    HasNumber 4 s ∧ d.length = declaredLength s := by
  unfold readSection4 at h
  obtain ⟨hl, h⟩ := header_inv h
  obtain ⟨_, s1, h1, h⟩ := bind_ok_iff.mp h
  obtain ⟨_, s2, h2, h⟩ := bind_ok_iff.mp h
  have e1 := uint_len h1
  rw [List.length_drop] at e1
  split at h
  · simp at h
  · obtain ⟨_, s3, h3, h⟩ := bind_ok_iff.mp h
    obtain ⟨_, s4, h4, h⟩ := bind_ok_iff.mp h
    split at h
    · simp at h
    · rename_i hn
      simp only [pure_apply, Res.ok.injEq, Prod.mk.injEq] at h
      obtain ⟨rfl, rfl⟩ := h
      exact ⟨take1_drop4 (k := 4) (by omega) (not_not.mp hn).symm, rfl⟩

theorem section5_inv {s r : List UInt8} {d : Section5} (h : readSection5 s = .ok (d, r)) :
    HasNumber 5 s ∧ d.length = declaredLength s ∧ 11 ≤ d.length := by
  unfold readSection5 at h
  obtain ⟨hl, h⟩ := header_inv h
  obtain ⟨_, s1, h1, h⟩ := bind_ok_iff.mp h
  obtain ⟨_, s2, h2, h⟩ := bind_ok_iff.mp h
  have e1 := uint_len h1
  rw [List.length_drop] at e1
  split at h
  · simp at h
  · obtain ⟨_, s3, h3, h⟩ := bind_ok_iff.mp h
    split at h
    · simp at h
    · rename_i hn
      simp only [pure_apply, Res.ok.injEq, Prod.mk.injEq] at h
      obtain ⟨rfl, rfl⟩ := h
      exact ⟨take1_drop4 (k := 5) (by omega) (not_not.mp hn).symm, rfl, by simp only; omega⟩

theorem section6_inv {s r : List UInt8} {d : Section6} (h : readSection6 s = .ok (d, r)) :
    HasNumber 6 s ∧ d.length = declaredLength s ∧ 6 ≤ d.length ∧ s.length = r.length + d.length := by
  unfold readSection6 at h
  obtain ⟨hl, h⟩ := header_inv h
  obtain ⟨_, s1, h1, h⟩ := bind_ok_iff.mp h
  have e1 := uint_len h1
  rw [List.length_drop] at e1
  split at h
  · simp at h
  · obtain ⟨_, s9, h9, h⟩ := bind_ok_iff.mp h
    have e9 := bytes_len h9
    split at h
    · simp at h
    · rename_i hn
      simp only [pure_apply, Res.ok.injEq, Prod.mk.injEq] at h
      obtain ⟨rfl, rfl⟩ := h
      refine ⟨take1_drop4 (k := 6) (by omega) (not_not.mp hn).symm, rfl, by simp only; omega, ?_⟩
      simp only
      omega

theorem section7_inv {s r : List UInt8} {d : Section7} (h : readSection7 s = .ok (d, r)) :
    HasNumber 7 s ∧ d.length = declaredLength s ∧ 5 ≤ d.length ∧
      s.length = r.length + 5 + 2 * ((d.length - 5) / 2) := by
  unfold readSection7 at h
  obtain ⟨hl, h⟩ := header_inv h
  split at h
  · simp at h
  · obtain ⟨_, s9, h9, h⟩ := bind_ok_iff.mp h
    have e9 := times_len (k := 2) (fun _ _ _ h => uint_len h) _ h9
    rw [List.length_drop] at e9
    split at h
    · simp at h
    · rename_i hn
      simp only [pure_apply, Res.ok.injEq, Prod.mk.injEq] at h
      obtain ⟨rfl, rfl⟩ := h
      refine ⟨take1_drop4 (k := 7) (by omega) (not_not.mp hn).symm, rfl, by simp only; omega, ?_⟩
      simp only
      omega

theorem section8_inv {s r : List UInt8} {d : Unit} (h : readSection8 s = .ok (d, r)) :
    s = endMagic ++ r := by
  unfold readSection8 at h
  obtain ⟨_, s1, h1, h⟩ := bind_ok_iff.mp h
  split at h
  · simp at h
  · rename_i hm
    simp only [pure_apply, Res.ok.injEq, Prod.mk.injEq] at h
    obtain ⟨e0, -⟩ := bytes_ok_iff.mp h1
    rw [e0, not_not.mp hm, h.2]

/-! ## Panics -/

syntax "safe" : tactic
macro_rules
  | `(tactic| safe) => `(tactic|
    repeat' first
      | assumption
      | exact safe_pure _
      | exact safe_fail
      | exact safe_bytes _
      | exact safe_bytesIgnoringError _
      | exact safe_uint _
      | (apply safe_times)
      | (apply safe_ite)
      | (apply safe_bind)
      | intro _)

theorem safe_section0 : Safe readSection0 := by unfold readSection0 u8 u64; safe
theorem safe_scale : Safe readScaleFactorValue := by unfold readScaleFactorValue u8 u32; safe
theorem safe_angle : Safe readAngle := by unfold readAngle u32; safe
theorem safe_grid3_0 : Safe readGridTemplate3_0 := by
  have := safe_scale
  have := safe_angle
  unfold readGridTemplate3_0 u8 u32; safe
theorem safe_grid3_101 : Safe readGridTemplate3_101 := by unfold readGridTemplate3_101 u8; safe
theorem safe_grid : Safe readGridTemplate := by
  have := safe_grid3_0
  have := safe_grid3_101
  unfold readGridTemplate u16; safe
theorem safe_section3 : Safe readSection3 := by
  have := safe_grid
  unfold readSection3 u8 u32; safe
theorem safe_product (n l : Nat) : Safe (readProductTemplate n l) := by
  have : Safe readProductTemplate4_0 := by unfold readProductTemplate4_0 u8; safe
  have : Safe readProductTemplate4_1 := by unfold readProductTemplate4_1 u8 u16 u32; safe
  have : Safe readProductTemplate4_8 := by unfold readProductTemplate4_8 u8; safe
  unfold readProductTemplate; safe
theorem safe_data (n l : Nat) : Safe (readDataTemplate n l) := by
  have : Safe readDataTemplate5_0 := by unfold readDataTemplate5_0 u8 u16 u32; safe
  unfold readDataTemplate; safe
theorem safe_section8 : Safe readSection8 := by unfold readSection8; safe

theorem uint_bind_panic_iff {α : Type} {n : Nat} {f : Nat → Rd α} {s : List UInt8} :
    (uint n >>= f) s = .panic ↔ n ≤ s.length ∧ f (beNat (s.take n)) (s.drop n) = .panic := by
  rw [bind_panic_iff]
  constructor
  · rintro (h | ⟨a, s', h1, h2⟩)
    · exact absurd h uint_ne_panic
    · obtain ⟨e1, rfl, rfl⟩ := uint_inv h1
      exact ⟨e1, h2⟩
  · rintro ⟨h1, h2⟩
    exact Or.inr ⟨_, _, by rw [uint_eq, if_pos h1], h2⟩

theorem safe_bind_panic_iff {α β : Type} {m : Rd α} {f : α → Rd β} {s : List UInt8} (hm : Safe m)
    (hf : ∀ a, Safe (f a)) : (m >>= f) s = .panic ↔ False := by
  constructor
  · exact fun h => safe_bind hm hf s h
  · exact False.elim

theorem header_panic_iff {α : Type} {f : Nat → Nat → Rd α} {s : List UInt8} :
    (u32 >>= fun l => u8 >>= fun n => f l n) s = .panic ↔
    5 ≤ s.length ∧ f (declaredLength s) (beNat ((s.drop 4).take 1)) (s.drop 5) = .panic := by
  unfold u32 u8
  rw [uint_bind_panic_iff, uint_bind_panic_iff, List.length_drop, List.drop_drop]
  constructor
  · rintro ⟨h1, h2, h3⟩
    rw [take4 h1] at h3
    exact ⟨by omega, h3⟩
  · rintro ⟨h1, h3⟩
    rw [take4 (by omega)]
    exact ⟨by omega, by omega, h3⟩

theorem number_iff {s : List UInt8} {k : Nat} (hk : k < 256) (hl : 5 ≤ s.length) :
    beNat ((s.drop 4).take 1) = k ↔ HasNumber (UInt8.ofNat k) s := by
  constructor
  · exact fun h => take1_drop4 (by omega) h.symm
  · unfold HasNumber
    match s, hl with
    | a :: b :: c :: d :: e :: t, _ =>
      simp only [List.getElem?_cons_succ, List.getElem?_cons_zero, Option.some.injEq]
      rintro rfl
      simp [beNat]
      omega

theorem section2_panic_iff (s : List UInt8) : readSection2 s = .panic ↔ Hazard 2 s := by
  unfold readSection2
  rw [header_panic_iff]
  simp only [Hazard]
  apply and_congr_right
  intro hl
  have hn : _ ↔ HasNumber 2 s := number_iff (k := 2) (by omega) hl
  rw [← hn]
  split
  · simp_all
  · split
    · simp_all
    · rename_i h1 h2
      rw [safe_bind_panic_iff (safe_bytes _) (fun _ => safe_pure _)]
      simp_all

theorem section4_panic_iff (s : List UInt8) : readSection4 s = .panic ↔ Hazard 4 s := by
  unfold readSection4
  rw [header_panic_iff]
  unfold u16 u32
  rw [uint_bind_panic_iff, uint_bind_panic_iff]
  simp only [Hazard, List.length_drop]
  split
  · rename_i h; simp [h]; omega
  · rename_i h
    rw [safe_bind_panic_iff (safe_product _ _)
      (fun _ => safe_bind (safe_times (safe_uint _) _) (fun _ => safe_ite safe_fail (safe_pure _)))]
    simp [h]

theorem section5_panic_iff (s : List UInt8) : readSection5 s = .panic ↔ Hazard 5 s := by
  unfold readSection5
  rw [header_panic_iff]
  unfold u16 u32
  rw [uint_bind_panic_iff, uint_bind_panic_iff]
  simp only [Hazard, List.length_drop]
  split
  · rename_i h; simp [h]; omega
  · rename_i h
    rw [safe_bind_panic_iff (safe_data _ _) (fun _ => safe_ite safe_fail (safe_pure _))]
    simp [h]

theorem section6_panic_iff (s : List UInt8) : readSection6 s = .panic ↔ Hazard 6 s := by
  unfold readSection6
  rw [header_panic_iff]
  unfold u8
  rw [uint_bind_panic_iff]
  simp only [Hazard, List.length_drop]
  split
  · rename_i h; simp [h]; omega
  · rename_i h
    rw [safe_bind_panic_iff (safe_bytes _) (fun _ => safe_ite safe_fail (safe_pure _))]
    simp [h]

theorem section7_panic_iff (s : List UInt8) : readSection7 s = .panic ↔ Hazard 7 s := by
  unfold readSection7
  rw [header_panic_iff]
  unfold u16
  simp only [Hazard]
  split
  · rename_i h; simp [h]
  · rename_i h
    rw [safe_bind_panic_iff (safe_times (safe_uint _) _) (fun _ => safe_ite safe_fail (safe_pure _))]
    simp [h]

theorem refTime_panic_iff (s : List UInt8) :
    readRefTime s = .panic ↔ 7 ≤ s.length ∧ validDateTime
      { year := (s.getD 0 0).toNat * 256 + (s.getD 1 0).toNat, month := (s.getD 2 0).toNat
        day := (s.getD 3 0).toNat, hour := (s.getD 4 0).toNat, minute := (s.getD 5 0).toNat
        second := (s.getD 6 0).toNat } = false := by
  unfold readRefTime u8 u16
  simp only [uint_bind_panic_iff, List.length_drop, List.drop_drop]
  by_cases hl : 7 ≤ s.length
  · match s, hl with
    | a :: b :: c :: d :: e :: f :: g :: t, _ =>
      simp [beNat]
      split <;> simp_all
  · constructor
    · omega
    · omega

theorem safe_tail1 (l n : Nat) (x : DateTime → Nat → Nat → Section1) (t : DateTime)
    (hl : ¬ (n = 1 ∧ l < 21)) : Safe (u8 >>= fun status => u8 >>= fun dataType =>
      if n ≠ 1 then fail else if l < 21 then crash
      else bytes (l - 21) >>= fun _ => pure (x t status dataType)) := by
  unfold u8
  refine safe_bind (safe_uint _) fun _ => safe_bind (safe_uint _) fun _ => ?_
  split
  · exact safe_fail
  · split
    · exact absurd ⟨not_not.mp (by assumption), by assumption⟩ hl
    · exact safe_bind (safe_bytes _) fun _ => safe_pure _

theorem storedTime_ok (s : List UInt8) : timeOk (storedTime s) ↔ validDateTime (storedTime s) = true := by
  rw [validDateTime_iff]
  have : (storedTime s).year < 2 ^ 16 := by
    simp only [storedTime]
    have h1 := (s.getD 12 0).toNat_lt
    have h2 := (s.getD 13 0).toNat_lt
    omega
  unfold timeOk
  tauto

theorem section1_panic_iff (s : List UInt8) : readSection1 s = .panic ↔ Hazard 1 s := by
  unfold readSection1
  rw [header_panic_iff]
  unfold u8 u16
  simp only [uint_bind_panic_iff, List.length_drop, List.drop_drop]
  rw [bind_panic_iff, refTime_panic_iff]
  simp only [uint_bind_panic_iff, Hazard, storedTime_ok, List.length_drop]
  by_cases hl : 19 ≤ s.length
  · have hn : _ ↔ HasNumber 1 s := number_iff (k := 1) (by omega) (show 5 ≤ s.length by omega)
    have e : ({ year := ((s.drop 12).getD 0 0).toNat * 256 + ((s.drop 12).getD 1 0).toNat
                month := ((s.drop 12).getD 2 0).toNat, day := ((s.drop 12).getD 3 0).toNat
                hour := ((s.drop 12).getD 4 0).toNat, minute := ((s.drop 12).getD 5 0).toNat
                second := ((s.drop 12).getD 6 0).toNat } : DateTime) = storedTime s := by
      simp [storedTime, List.getD_eq_getElem?_getD]
    rw [e]
    cases hv : validDateTime (storedTime s) with
    | false =>
      simp
      omega
    | true =>
      simp only [Bool.true_eq_false, and_false, false_or, not_true_eq_false, hl, true_and]
      rw [← hn]
      constructor
      · rintro ⟨_, _, _, _, _, _, t, s', h1, h2, h3, h4⟩
        have e1 := refTime_len h1
        rw [List.length_drop] at e1
        split at h4
        · simp at h4
        · split at h4
          · exact ⟨by omega, not_not.mp (by assumption), by assumption⟩
          · rw [safe_bind_panic_iff (safe_bytes _) (fun _ => safe_pure _)] at h4
            exact h4.elim
      · rintro ⟨h1, h2, h3⟩
        refine ⟨by omega, by omega, by omega, by omega, by omega, by omega, ?_⟩
        cases hr : readRefTime (s.drop 12) with
        | ok p =>
          obtain ⟨t, s'⟩ := p
          have e1 := refTime_len hr
          rw [List.length_drop] at e1
          refine ⟨t, s', rfl, by omega, by omega, ?_⟩
          rw [if_neg (by simp [h2]), if_pos h3]
          rfl
        | err =>
          exfalso
          unfold readRefTime u8 u16 at hr
          simp only [bind_apply, uint_eq, List.length_drop, List.drop_drop] at hr
          rw [if_pos (by omega)] at hr
          simp only [List.length_drop, List.drop_drop] at hr
          rw [if_pos (by omega)] at hr
          simp only [List.length_drop, List.drop_drop] at hr
          rw [if_pos (by omega)] at hr
          simp only [List.length_drop, List.drop_drop] at hr
          rw [if_pos (by omega)] at hr
          simp only [List.length_drop, List.drop_drop] at hr
          rw [if_pos (by omega)] at hr
          simp only [List.length_drop, List.drop_drop] at hr
          rw [if_pos (by omega)] at hr
          simp only at hr
          split at hr <;> simp at hr
        | panic =>
          exfalso
          rw [refTime_panic_iff, e] at hr
          simp [hv] at hr
  · constructor
    · rintro ⟨_, _, _, _, _, h6, h7 | ⟨t, s', h1, h2, _⟩⟩
      · omega
      · have e1 := refTime_len h1
        rw [List.length_drop] at e1
        omega
    · omega

end Verif.Grib2
