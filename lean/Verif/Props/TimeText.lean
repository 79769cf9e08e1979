import Verif.Props.Calendar
import Verif.Spec.TimeText
import Mathlib.Data.List.TakeWhile

/-!
# C132: which texts are accepted as reference times, and what they denote
-/

namespace Verif

namespace Rfc3339

open Spec (Digits Fraction Zone Clock)

theorem digits_iff {k n : Nat} {t r : Text} : digits k t = some (n, r) ↔ ∃ ds, Digits k n ds ∧ t = ds ++ r := by
  unfold digits
  constructor
  · intro h
    split at h
    · rename_i hc
      simp only [Option.some.injEq, Prod.mk.injEq] at h
      exact ⟨t.take k, ⟨hc.1, List.all_eq_true.mp hc.2, h.1⟩, by rw [← h.2, List.take_append_drop]⟩
    · cases h
  · rintro ⟨ds, ⟨h1, h2, h3⟩, rfl⟩
    have e1 : (ds ++ r).take k = ds := by rw [← h1, List.take_left]
    have e2 : (ds ++ r).drop k = r := by rw [← h1, List.drop_left]
    rw [e1, e2, if_pos ⟨h1, List.all_eq_true.mpr h2⟩]
    simp only [Option.some.injEq, Prod.mk.injEq, and_true]
    exact h3

theorem char_iff {p : Char → Bool} {t r : Text} : char p t = some r ↔ ∃ c, p c = true ∧ t = c :: r := by
  cases t with
  | nil => simp [char]
  | cons c t =>
    simp only [char]
    constructor
    · intro h
      split at h
      · rename_i hc
        cases h
        exact ⟨c, hc, rfl⟩
      · cases h
    · rintro ⟨d, hd, e⟩
      cases e
      rw [if_pos hd]

theorem offsetDigits_iff {n : Nat} {t r : Text} : offsetDigits t = some (n, r) ↔
    ∃ h m hh mm, Digits 2 h hh ∧ Digits 2 m mm ∧ m < 60 ∧ n = h * 3600 + m * 60 ∧ t = hh ++ ':' :: (mm ++ r) := by
  unfold offsetDigits
  constructor
  · intro e0
    obtain ⟨⟨h, t1⟩, e1, e0⟩ := Option.bind_eq_some_iff.mp e0
    obtain ⟨t2, e2, e0⟩ := Option.bind_eq_some_iff.mp e0
    obtain ⟨⟨m, t3⟩, e3, e⟩ := Option.bind_eq_some_iff.mp e0
    clear e0
    dsimp only at e e2 e3
    split at e
    · rename_i hm
      simp only [Option.some.injEq, Prod.mk.injEq] at e
      obtain ⟨hh, d1, rfl⟩ := digits_iff.mp e1
      obtain ⟨c, hc, rfl⟩ := char_iff.mp e2
      obtain ⟨mm, d2, rfl⟩ := digits_iff.mp e3
      simp only [beq_iff_eq] at hc
      rw [← e.2, ← e.1]
      exact ⟨h, m, hh, mm, d1, d2, hm, rfl, by rw [hc]⟩
    · cases e
  · rintro ⟨h, m, hh, mm, d1, d2, hm, rfl, rfl⟩
    refine step (digits_iff.mpr ⟨hh, d1, rfl⟩) ?_
    refine step (char_iff.mpr ⟨':', by decide, rfl⟩) ?_
    refine step (digits_iff.mpr ⟨mm, d2, rfl⟩) ?_
    dsimp only
    rw [if_pos hm]

theorem offset_iff {o : Int} {t r : Text} : offset t = some (o, r) ↔ ∃ z, Zone o z ∧ t = z ++ r := by
  cases t with
  | nil =>
    constructor
    · intro h; cases h
    · rintro ⟨z, hz, e⟩
      cases hz <;> simp at e
  | cons c t =>
    have eastE : ∀ (f : Nat → Int), (offsetDigits t).map (fun p => (f p.1, p.2)) = some (o, r) ↔
        ∃ n, offsetDigits t = some (n, r) ∧ f n = o := by
      intro f
      rw [Option.map_eq_some_iff]
      constructor
      · rintro ⟨⟨n, q⟩, e, h⟩
        simp only [Prod.mk.injEq] at h
        exact ⟨n, by rw [e, h.2], h.1⟩
      · rintro ⟨n, e, h⟩
        exact ⟨(n, r), e, by rw [h]⟩
    rw [show offset (c :: t) = if c = 'Z' ∨ c = 'z' then some (0, t)
      else if c = '+' then (offsetDigits t).map fun p => ((p.1 : Int), p.2)
      else if c = '-' ∨ c = '−' then (offsetDigits t).map fun p => (-(p.1 : Int), p.2)
      else none from rfl]
    constructor
    · intro h
      split at h
      · rename_i hc
        cases h
        exact ⟨[c], .utc c hc, rfl⟩
      · split at h
        · rename_i hc
          obtain ⟨n, hn, e⟩ := (eastE fun n => (n : Int)).mp h
          obtain ⟨x, m, hh, mm, d1, d2, hm, rfl, rfl⟩ := offsetDigits_iff.mp hn
          refine ⟨'+' :: (hh ++ ':' :: mm), ?_, by rw [hc, List.cons_append, List.append_assoc, List.cons_append]⟩
          have := Zone.east d1 d2 hm
          rw [← e]
          push_cast
          exact this
        · split at h
          · rename_i hc
            obtain ⟨n, hn, e⟩ := (eastE fun n => -(n : Int)).mp h
            obtain ⟨x, m, hh, mm, d1, d2, hm, rfl, rfl⟩ := offsetDigits_iff.mp hn
            refine ⟨c :: (hh ++ ':' :: mm), ?_, by rw [List.cons_append, List.append_assoc, List.cons_append]⟩
            have := Zone.west c hc d1 d2 hm
            rw [← e]
            push_cast at this ⊢
            simpa using this
          · cases h
    · rintro ⟨z, hz, e⟩
      cases hz with
      | utc c' hc =>
        simp only [List.cons_append, List.nil_append, List.cons.injEq] at e
        obtain ⟨rfl, rfl⟩ := e
        rw [if_pos hc]
      | east d1 d2 hm =>
        simp only [List.cons_append, List.append_assoc, List.cons.injEq] at e
        obtain ⟨rfl, rfl⟩ := e
        rw [if_neg (by decide), if_pos rfl]
        refine (eastE fun n => (n : Int)).mpr ⟨_, offsetDigits_iff.mpr ⟨_, _, _, _, d1, d2, hm, rfl, rfl⟩, ?_⟩
        push_cast; rfl
      | west c' hc d1 d2 hm =>
        simp only [List.cons_append, List.append_assoc, List.cons.injEq] at e
        obtain ⟨rfl, rfl⟩ := e
        rw [if_neg (by rcases hc with rfl | rfl <;> decide), if_neg (by rcases hc with rfl | rfl <;> decide), if_pos hc]
        refine (eastE fun n => -(n : Int)).mpr ⟨_, offsetDigits_iff.mpr ⟨_, _, _, _, d1, d2, hm, rfl, rfl⟩, ?_⟩
        push_cast; rfl

theorem zone_head {o : Int} {z : Text} (h : Zone o z) : ∃ c r, z = c :: r ∧ c.isDigit = false ∧ c ≠ '.' := by
  cases h with
  | utc c hc => exact ⟨c, [], rfl, by rcases hc with rfl | rfl <;> decide, by rcases hc with rfl | rfl <;> decide⟩
  | east _ _ _ => exact ⟨'+', _, rfl, by decide, by decide⟩
  | west c hc _ _ _ => exact ⟨c, _, rfl, by rcases hc with rfl | rfl <;> decide, by rcases hc with rfl | rfl <;> decide⟩

/-- Nanoseconds of a fraction: the first nine digits. -/
theorem nano_eq (ds : Text) (h : ∀ c ∈ ds, c.isDigit = true) :
    (ds.take 9).foldl (fun v c => 10 * v + digitValue c) 0 * 10 ^ (9 - (ds.take 9).length) =
      valueOf ds * 10 ^ 9 / 10 ^ ds.length := by
  have e : (ds.take 9).foldl (fun v c => 10 * v + digitValue c) 0 = valueOf (ds.take 9) := rfl
  rw [e]
  by_cases hl : ds.length ≤ 9
  · rw [List.take_of_length_le hl]
    have : 10 ^ 9 = 10 ^ (9 - ds.length) * 10 ^ ds.length := by rw [← pow_add]; congr 1; omega
    rw [this, ← mul_assoc, Nat.mul_div_cancel _ (by positivity)]
  · push Not at hl
    have hs : valueOf ds = valueOf (ds.take 9) * 10 ^ (ds.drop 9).length + valueOf (ds.drop 9) := by
      conv_lhs => rw [← List.take_append_drop 9 ds]
      unfold valueOf
      rw [List.foldl_append, valueOf_foldl]
      rfl
    have h9 : (ds.take 9).length = 9 := by rw [List.length_take]; omega
    have hlt := valueOf_lt (t := ds.drop 9) fun c hc => h c (List.mem_of_mem_drop hc)
    have hd : ds.length = (ds.drop 9).length + 9 := by rw [List.length_drop]; omega
    rw [h9, hs, hd, pow_add, Nat.mul_div_mul_right _ _ (by norm_num), Nat.add_comm (valueOf (ds.take 9) * _),
      Nat.add_mul_div_right _ _ (by positivity), Nat.div_eq_of_lt hlt]
    simp

theorem fraction_iff {n : Nat} {t : Text} {c : Char} {r : Text} (hc : c.isDigit = false) (hp : c ≠ '.') :
    fraction t = some (n, c :: r) ↔ ∃ f, Fraction n f ∧ t = f ++ c :: r := by
  constructor
  · intro h
    unfold fraction at h
    split at h
    · rename_i t
      dsimp only at h
      split at h
      · cases h
      · rename_i hd
        simp only [Option.some.injEq, Prod.mk.injEq] at h
        have hall : ∀ c ∈ t.takeWhile Char.isDigit, c.isDigit = true := fun c hc => List.mem_takeWhile_imp hc
        refine ⟨'.' :: t.takeWhile Char.isDigit, ?_, ?_⟩
        · rw [← h.1, nano_eq _ hall]
          exact .some _ hd hall
        · rw [← h.2, List.cons_append, List.takeWhile_append_dropWhile]
    · cases h
      exact ⟨[], .none, rfl⟩
  · rintro ⟨f, hf, rfl⟩
    cases hf with
    | none =>
      unfold fraction
      split
      · rename_i e
        cases e
        exact absurd rfl hp
      · rfl
    | some ds h1 h2 =>
      have e1 : (ds ++ c :: r).takeWhile Char.isDigit = ds := by
        rw [List.takeWhile_append_of_pos h2, List.takeWhile_cons_of_neg (by simp [hc]), List.append_nil]
      have e2 : (ds ++ c :: r).dropWhile Char.isDigit = c :: r := by
        rw [List.dropWhile_append_of_pos h2, List.dropWhile_cons_of_neg (by simp [hc])]
      have e0 : fraction ('.' :: (ds ++ c :: r)) = if (ds ++ c :: r).takeWhile Char.isDigit = [] then none
          else some ((((ds ++ c :: r).takeWhile Char.isDigit).take 9).foldl (fun v c => 10 * v + digitValue c) 0 *
            10 ^ (9 - (((ds ++ c :: r).takeWhile Char.isDigit).take 9).length), (ds ++ c :: r).dropWhile Char.isDigit) := rfl
      rw [List.cons_append, e0, e1, e2, if_neg h1, nano_eq ds h2]

end Rfc3339

namespace Props

open Spec (Digits Fraction Zone Clock)

/-- What a clock shows is a time. -/
structure Shown (c : Clock) : Prop where
  date : (⟨c.year, c.month, c.day⟩ : Date).Valid
  hour : c.hour < 24
  minute : c.minute < 60
  second : c.second ≤ 60
  ahead : |c.ahead| < 86400

theorem parse_iff (t : Text) (o : OffsetTime) : Rfc3339.parse t = .ok o ↔ ∃ c : Clock, c.Written t ∧ Shown c ∧
    Date.ofDay o.loc.day = ⟨c.year, c.month, c.day⟩ ∧ o.loc.sec = c.hour * 3600 + c.minute * 60 + min c.second 59 ∧
    o.loc.nano = (if c.second = 60 then c.nano + 1000000000 else c.nano) ∧ o.offset = c.ahead := by
  have hr : Rfc3339.parse t = .ok o ↔ Rfc3339.parseOpt t = some o := by
    unfold Rfc3339.parse
    cases Rfc3339.parseOpt t <;> simp [Res.okOr]
  rw [hr]
  unfold Rfc3339.parseOpt
  constructor
  · intro hp
    obtain ⟨⟨year, t1⟩, e1, hp⟩ := Option.bind_eq_some_iff.mp hp
    obtain ⟨t2, e2, hp⟩ := Option.bind_eq_some_iff.mp hp
    obtain ⟨⟨month, t3⟩, e3, hp⟩ := Option.bind_eq_some_iff.mp hp
    obtain ⟨t4, e4, hp⟩ := Option.bind_eq_some_iff.mp hp
    obtain ⟨⟨day, t5⟩, e5, hp⟩ := Option.bind_eq_some_iff.mp hp
    obtain ⟨t6, e6, hp⟩ := Option.bind_eq_some_iff.mp hp
    obtain ⟨⟨hour, t7⟩, e7, hp⟩ := Option.bind_eq_some_iff.mp hp
    obtain ⟨t8, e8, hp⟩ := Option.bind_eq_some_iff.mp hp
    obtain ⟨⟨minute, t9⟩, e9, hp⟩ := Option.bind_eq_some_iff.mp hp
    obtain ⟨t10, e10, hp⟩ := Option.bind_eq_some_iff.mp hp
    obtain ⟨⟨second, t11⟩, e11, hp⟩ := Option.bind_eq_some_iff.mp hp
    obtain ⟨⟨nano, t12⟩, e12, hp⟩ := Option.bind_eq_some_iff.mp hp
    obtain ⟨⟨off, t13⟩, e13, hp⟩ := Option.bind_eq_some_iff.mp hp
    dsimp only at *
    split at hp
    · rename_i hc
      cases hp
      obtain ⟨rfl, hv, hh, hm, hs, o1, o2⟩ := hc
      obtain ⟨y, d1, rfl⟩ := Rfc3339.digits_iff.mp e1
      obtain ⟨c1, q1, rfl⟩ := Rfc3339.char_iff.mp e2
      obtain ⟨mo, d2, rfl⟩ := Rfc3339.digits_iff.mp e3
      obtain ⟨c2, q2, rfl⟩ := Rfc3339.char_iff.mp e4
      obtain ⟨d, d3, rfl⟩ := Rfc3339.digits_iff.mp e5
      obtain ⟨sep, q3, rfl⟩ := Rfc3339.char_iff.mp e6
      obtain ⟨h, d4, rfl⟩ := Rfc3339.digits_iff.mp e7
      obtain ⟨c4, q4, rfl⟩ := Rfc3339.char_iff.mp e8
      obtain ⟨mi, d5, rfl⟩ := Rfc3339.digits_iff.mp e9
      obtain ⟨c5, q5, rfl⟩ := Rfc3339.char_iff.mp e10
      obtain ⟨s, d6, rfl⟩ := Rfc3339.digits_iff.mp e11
      obtain ⟨z, hz, rfl⟩ := Rfc3339.offset_iff.mp e13
      obtain ⟨c, r, ez, z1, z2⟩ := Rfc3339.zone_head hz
      rw [List.append_nil, ez] at e12
      obtain ⟨f, hf, rfl⟩ := (Rfc3339.fraction_iff z1 z2).mp e12
      simp only [beq_iff_eq] at q1 q2 q4 q5
      simp only [Bool.or_eq_true, beq_iff_eq, or_assoc] at q3
      subst q1 q2 q4 q5
      refine ⟨⟨year, month, day, hour, minute, second, nano, off⟩,
        ⟨y, mo, d, h, mi, s, f, z, sep, d1, d2, d3, q3, d4, d5, d6, hf, hz, by rw [ez]⟩,
        ⟨hv, hh, hm, hs, abs_lt.mpr ⟨o1, o2⟩⟩, Date.ofDay_toDay hv, rfl, rfl, rfl⟩
    · cases hp
  · rintro ⟨c, ⟨y, mo, d, h, mi, s, f, z, sep, d1, d2, d3, q3, d4, d5, d6, hf, hz, rfl⟩, ⟨hv, hh, hm, hs, ho⟩, e1, e2, e3, e4⟩
    obtain ⟨c', r, ez, z1, z2⟩ := Rfc3339.zone_head hz
    refine Rfc3339.step (Rfc3339.digits_iff.mpr ⟨y, d1, rfl⟩) ?_
    refine Rfc3339.step (Rfc3339.char_iff.mpr ⟨'-', by decide, rfl⟩) ?_
    refine Rfc3339.step (Rfc3339.digits_iff.mpr ⟨mo, d2, rfl⟩) ?_
    refine Rfc3339.step (Rfc3339.char_iff.mpr ⟨'-', by decide, rfl⟩) ?_
    refine Rfc3339.step (Rfc3339.digits_iff.mpr ⟨d, d3, rfl⟩) ?_
    refine Rfc3339.step (Rfc3339.char_iff.mpr ⟨sep, by rcases q3 with rfl | rfl | rfl <;> decide, rfl⟩) ?_
    refine Rfc3339.step (Rfc3339.digits_iff.mpr ⟨h, d4, rfl⟩) ?_
    refine Rfc3339.step (Rfc3339.char_iff.mpr ⟨':', by decide, rfl⟩) ?_
    refine Rfc3339.step (Rfc3339.digits_iff.mpr ⟨mi, d5, rfl⟩) ?_
    refine Rfc3339.step (Rfc3339.char_iff.mpr ⟨':', by decide, rfl⟩) ?_
    refine Rfc3339.step (Rfc3339.digits_iff.mpr ⟨s, d6, rfl⟩) ?_
    refine Rfc3339.step (a := (c.nano, z)) ?_ ?_
    · rw [ez]
      exact (Rfc3339.fraction_iff z1 z2).mpr ⟨f, hf, rfl⟩
    refine Rfc3339.step (Rfc3339.offset_iff.mpr ⟨z, hz, (List.append_nil z).symm⟩) ?_
    dsimp only
    obtain ⟨o1, o2⟩ := abs_lt.mp ho
    rw [if_pos ⟨rfl, hv, hh, hm, hs, o1, o2⟩]
    have e1' : (⟨c.year, c.month, c.day⟩ : Date).toDay = o.loc.day := by rw [← e1, Date.toDay_ofDay]
    obtain ⟨⟨a1, a2, a3⟩, a4⟩ := o
    simp only at e1' e2 e3 e4
    rw [e1', ← e2, ← e3, ← e4]

/-- C132: exactly the times that are written as in RFC 3339 and show a whole hour divisible by three are accepted as
reference times, and the time is what the clock shows, less what it is ahead of UTC. -/
theorem C132_accepted_iff (t : Text) (i : Instant) : RefTime.fromStr t = .ok i ↔ ∃ c : Clock, c.Written t ∧
    (⟨c.year, c.month, c.day⟩ : Date).Valid ∧ c.hour < 24 ∧ c.hour % 3 = 0 ∧ c.minute = 0 ∧ c.second = 0 ∧
    |c.ahead| < 24 * 3600 ∧ i.sec < 24 * 3600 ∧ i.nano = c.nano ∧
    ∃ n, Date.ofDay n = ⟨c.year, c.month, c.day⟩ ∧
      i.day * (24 * 3600) + i.sec = n * (24 * 3600) + c.hour * 3600 - c.ahead := by
  unfold RefTime.fromStr RefTime.fromParsed
  constructor
  · intro h
    obtain ⟨o, ho, h⟩ := bind_ok' h
    obtain ⟨c, hw, hs, e1, e2, e3, e4⟩ := (parse_iff t o).mp ho
    split at h
    · cases h
    · rename_i hc
      cases h
      have b1 := hs.hour
      have b2 := hs.minute
      have b3 := hs.second
      unfold Instant.minute Instant.second Instant.hour at hc
      rw [e2] at hc
      have hm : c.minute = 0 := by omega
      have hsec : c.second = 0 := by omega
      have hh : c.hour % 3 = 0 := by omega
      rw [hsec, if_neg (by decide)] at e3
      rw [hm, hsec] at e2
      refine ⟨c, hw, hs.date, b1, hh, hm, hsec, hs.ahead, ?_, e3, o.loc.day, e1, ?_⟩
      · unfold OffsetTime.toUtc; dsimp only; omega
      · unfold OffsetTime.toUtc
        dsimp only
        rw [e2, e4]
        omega
  · rintro ⟨c, hw, hv, hh, h3, hm, hs, ha, i1, i2, n, hn, hi⟩
    have hp : Rfc3339.parse t = .ok ⟨⟨n, c.hour * 3600, c.nano⟩, c.ahead⟩ := by
      refine (parse_iff t _).mpr ⟨c, hw, ⟨hv, hh, by omega, by omega, ha⟩, hn, ?_, ?_, rfl⟩
      · rw [hm, hs]; simp
      · rw [hs, if_neg (by decide)]
    rw [hp, Res.bind_ok, if_neg]
    · obtain ⟨a, b, d⟩ := i
      simp only at i1 i2 hi
      simp only [OffsetTime.toUtc, Res.ok.injEq, Instant.mk.injEq, i2, and_true]
      omega
    · unfold Instant.minute Instant.second Instant.hour
      dsimp only
      omega

/-- C132: all other texts are reported as errors; there is no panic. -/
theorem C132_no_panic (t : Text) : RefTime.fromStr t ≠ .panic := by
  unfold RefTime.fromStr RefTime.fromParsed Rfc3339.parse
  cases Rfc3339.parseOpt t with
  | none => simp [Res.okOr]
  | some o =>
    simp only [Res.okOr, Res.bind_ok]
    split <;> simp

/-- 25 August 2025, 15:00, three hours ahead of UTC, is noon of UTC. -/
example : RefTime.fromStr "2025-08-25T15:00:00+03:00".toList = .ok augustNoon ∧
    Clock.Written ⟨2025, 8, 25, 15, 0, 0, 0, 10800⟩ "2025-08-25T15:00:00+03:00".toList := by
  have d : ∀ (k n : Nat) (t : Text), (decide (t.length = k) && t.all Char.isDigit && decide (valueOf t = n)) = true →
      Digits k n t := by
    intro k n t h
    simp only [Bool.and_eq_true, decide_eq_true_eq] at h
    exact ⟨h.1.1, List.all_eq_true.mp h.1.2, h.2⟩
  have hw : Clock.Written ⟨2025, 8, 25, 15, 0, 0, 0, 10800⟩ "2025-08-25T15:00:00+03:00".toList :=
    ⟨"2025".toList, "08".toList, "25".toList, "15".toList, "00".toList, "00".toList, [], "+03:00".toList, 'T',
      d _ _ _ (by decide +kernel), d _ _ _ (by decide +kernel), d _ _ _ (by decide +kernel), .inl rfl,
      d _ _ _ (by decide +kernel), d _ _ _ (by decide +kernel), d _ _ _ (by decide +kernel), .none,
      Zone.east (hh := "03".toList) (mm := "00".toList) (d 2 3 _ (by decide +kernel)) (d 2 0 _ (by decide +kernel)) (by decide),
      by decide +kernel⟩
  refine ⟨(C132_accepted_iff _ _).mpr ⟨_, hw, by decide +kernel, by decide, by decide, rfl, rfl, by decide, by decide, rfl,
    20325, augustDate, by decide⟩, hw⟩

end Props

end Verif
