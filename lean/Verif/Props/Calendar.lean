import Verif.Lemmas.Calendar
import Verif.Props.Forecast
import Verif.Props.ProgramSwiss
import Verif.Spec.Time

/-!
# C108 - C110: reference times, their names and their directories
-/

namespace Verif

/-! ## Order of texts -/

theorem lt_append {a b c d : Text} (h : a.length = b.length) : a ++ c < b ++ d ↔ a < b ∨ a = b ∧ c < d := by
  induction a generalizing b with
  | nil => cases b with
    | nil => simp
    | cons y b => simp at h
  | cons x a ih => cases b with
    | nil => simp at h
    | cons y b =>
      simp only [List.length_cons, Nat.add_right_cancel_iff] at h
      rw [List.cons_append, List.cons_append, List.cons_lt_cons_iff, List.cons_lt_cons_iff, ih h, List.cons.injEq]
      tauto

theorem valueOf_foldl (t : Text) (v : Nat) :
    t.foldl (fun v c => 10 * v + (c.toNat - '0'.toNat)) v = v * 10 ^ t.length + valueOf t := by
  unfold valueOf
  induction t generalizing v with
  | nil => simp
  | cons c t ih =>
    rw [List.foldl_cons, ih, List.foldl_cons, ih (10 * 0 + _), List.length_cons, pow_succ]
    ring

theorem valueOf_cons (c : Char) (t : Text) : valueOf (c :: t) = (c.toNat - '0'.toNat) * 10 ^ t.length + valueOf t := by
  conv_lhs => unfold valueOf
  rw [List.foldl_cons, valueOf_foldl]
  simp

theorem digit_range {c : Char} (h : c.isDigit = true) : 48 ≤ c.toNat ∧ c.toNat ≤ 57 := by
  simp only [Char.isDigit, Bool.and_eq_true, decide_eq_true_eq] at h
  exact ⟨h.1, h.2⟩

theorem valueOf_lt {t : Text} (h : ∀ c ∈ t, c.isDigit = true) : valueOf t < 10 ^ t.length := by
  induction t with
  | nil => simp [valueOf]
  | cons c t ih =>
    rw [valueOf_cons, List.length_cons, pow_succ]
    have h1 := ih fun c hc => h c (by simp [hc])
    have h2 := digit_range (h c (by simp))
    have h3 : c.toNat - '0'.toNat ≤ 9 := by
      have : '0'.toNat = 48 := rfl
      omega
    nlinarith

theorem char_lt {c d : Char} : c < d ↔ c.toNat < d.toNat := Iff.rfl

theorem digits_lt {a b : Text} (hl : a.length = b.length) (ha : ∀ c ∈ a, c.isDigit = true)
    (hb : ∀ c ∈ b, c.isDigit = true) : a < b ↔ valueOf a < valueOf b := by
  induction a generalizing b with
  | nil => cases b with
    | nil => simp
    | cons y b => simp at hl
  | cons x a ih => cases b with
    | nil => simp at hl
    | cons y b =>
      simp only [List.length_cons, Nat.add_right_cancel_iff] at hl
      have ha' : ∀ c ∈ a, c.isDigit = true := fun c hc => ha c (by simp [hc])
      have hb' : ∀ c ∈ b, c.isDigit = true := fun c hc => hb c (by simp [hc])
      rw [List.cons_lt_cons_iff, ih hl ha' hb', valueOf_cons, valueOf_cons, char_lt]
      have h1 := valueOf_lt ha'
      have h2 := valueOf_lt hb'
      rw [← hl] at h2 ⊢
      have hx := digit_range (ha x (by simp))
      have hy := digit_range (hb y (by simp))
      have e0 : '0'.toNat = 48 := rfl
      rw [e0]
      generalize 10 ^ a.length = p at h1 h2 ⊢
      constructor
      · rintro (h | ⟨rfl, h⟩)
        · have : x.toNat - 48 + 1 ≤ y.toNat - 48 := by omega
          nlinarith
        · omega
      · intro h
        rcases Nat.lt_trichotomy x.toNat y.toNat with c | c | c
        · exact .inl c
        · right
          refine ⟨Char.toNat_inj.mp c, ?_⟩
          rw [c] at h
          omega
        · exfalso
          have : y.toNat - 48 + 1 ≤ x.toNat - 48 := by omega
          nlinarith

theorem decPad_lt {k a b : Nat} (hk : 0 < k) (ha : a < 10 ^ k) (hb : b < 10 ^ k) :
    decPad k a < decPad k b ↔ a < b := by
  rw [digits_lt (by rw [Date.decPad_length ha hk, Date.decPad_length hb hk]) (decPad_digits _ _) (decPad_digits _ _),
    valueOf_decPad, valueOf_decPad]

/-! ## Parsing -/

namespace Rfc3339

theorem digits_decPad {k n : Nat} (hk : 0 < k) (hn : n < 10 ^ k) (rest : Text) :
    digits k (decPad k n ++ rest) = some (n, rest) := by
  have hl := Date.decPad_length hn hk
  unfold digits
  rw [List.take_append_of_le_length (by omega), List.take_of_length_le (by omega),
    List.drop_append_of_le_length (by omega), List.drop_of_length_le (by omega), if_pos]
  · rw [List.nil_append]
    have := valueOf_decPad k n
    unfold valueOf at this
    unfold digitValue
    rw [this]
  · exact ⟨hl, List.all_eq_true.mpr (decPad_digits k n)⟩

theorem char_cons {p : Char → Bool} {c : Char} (h : p c = true) (t : Text) : char p (c :: t) = some t := by
  show (if p c = true then some t else none) = some t
  rw [if_pos h]

/-- Stepping through a parser. -/
theorem step {α β : Type} {o : Option α} {a : α} {f : α → Option β} {r : Option β} (h : o = some a) (hf : f a = r) :
    (o >>= f) = r := by
  rw [h]; exact hf

end Rfc3339

namespace Props

open Verif.Spec (Earlier IsRunTime)

/-- The times of the years 0 to 9999. -/
def UsualTime (t : Instant) : Prop := 0 ≤ (Date.ofDay t.day).year ∧ (Date.ofDay t.day).year ≤ 9999

theorem UsualTime.usual {t : Instant} (h : UsualTime t) : (Date.ofDay t.day).Usual := ⟨Date.ofDay_valid _, h⟩

theorem UsualTime.bounds {t : Instant} (h : UsualTime t) : (Date.ofDay t.day).year.toNat < 10 ^ 4 ∧
    (Date.ofDay t.day).month < 10 ^ 2 ∧ (Date.ofDay t.day).day < 10 ^ 2 := by
  obtain ⟨⟨h1, h2, h3, h4⟩, h5, h6⟩ := h.usual
  have := Date.daysIn_le (Date.ofDay t.day).year (Date.ofDay t.day).month
  refine ⟨?_, ?_, ?_⟩ <;> omega

theorem clock_bounds {t : Instant} (h : t.sec < 86400) : t.hour < 10 ^ 2 ∧ t.minute < 10 ^ 2 ∧ t.second < 10 ^ 2 := by
  unfold Instant.hour Instant.minute Instant.second
  refine ⟨?_, ?_, ?_⟩ <;> omega

/-- The name of a time of a four-digit year without leap second. -/
theorem fmt_usual {t : Instant} (h : UsualTime t) (hn : t.nano < 1000000000) : Rfc3339.fmt t =
    decPad 4 (Date.ofDay t.day).year.toNat ++ '-' :: (decPad 2 (Date.ofDay t.day).month ++ '-' ::
      (decPad 2 (Date.ofDay t.day).day ++ 'T' :: (decPad 2 t.hour ++ ':' :: (decPad 2 t.minute ++ ':' ::
        (decPad 2 t.second ++ ['Z']))))) := by
  unfold Rfc3339.fmt Date.fmtYear
  simp only
  rw [if_pos ⟨h.1, h.2⟩, if_pos hn]
  simp only [List.append_assoc, List.cons_append]

/-! ## C108: names of reference times -/

/-- C108: parsing the name of a whole second gives it back, in UTC. -/
theorem C108_parse (t : Instant) (h : UsualTime t) (hs : t.sec < 86400) (hn : t.nano = 0) :
    Rfc3339.parse (Rfc3339.fmt t) = .ok ⟨t, 0⟩ := by
  obtain ⟨b1, b2, b3⟩ := h.bounds
  obtain ⟨c1, c2, c3⟩ := clock_bounds hs
  have hv := Date.ofDay_valid t.day
  have hy : ((Date.ofDay t.day).year.toNat : Int) = (Date.ofDay t.day).year := Int.toNat_of_nonneg h.1
  unfold Rfc3339.parse Rfc3339.parseOpt
  rw [fmt_usual h (by omega)]
  suffices e : _ = some (⟨t, 0⟩ : OffsetTime) from congrArg Res.okOr e
  refine Rfc3339.step (Rfc3339.digits_decPad (by norm_num) b1 _) ?_
  refine Rfc3339.step (Rfc3339.char_cons (by decide) _) ?_
  refine Rfc3339.step (Rfc3339.digits_decPad (by norm_num) b2 _) ?_
  refine Rfc3339.step (Rfc3339.char_cons (by decide) _) ?_
  refine Rfc3339.step (Rfc3339.digits_decPad (by norm_num) b3 _) ?_
  refine Rfc3339.step (Rfc3339.char_cons (by decide) _) ?_
  refine Rfc3339.step (Rfc3339.digits_decPad (by norm_num) c1 _) ?_
  refine Rfc3339.step (Rfc3339.char_cons (by decide) _) ?_
  refine Rfc3339.step (Rfc3339.digits_decPad (by norm_num) c2 _) ?_
  refine Rfc3339.step (Rfc3339.char_cons (by decide) _) ?_
  refine Rfc3339.step (Rfc3339.digits_decPad (by norm_num) c3 _) ?_
  refine Rfc3339.step (a := (0, ['Z'])) rfl ?_
  refine Rfc3339.step (a := (0, [])) rfl ?_
  dsimp only
  have key : (⟨((Date.ofDay t.day).year.toNat : Int), (Date.ofDay t.day).month, (Date.ofDay t.day).day⟩ : Date) =
      Date.ofDay t.day := by rw [hy]
  rw [key, if_pos]
  · rw [Date.toDay_ofDay]
    obtain ⟨d, s, n⟩ := t
    simp only at hn hs
    subst hn
    simp only [Instant.hour, Instant.minute, Instant.second, Option.some.injEq, OffsetTime.mk.injEq,
      Instant.mk.injEq, true_and, and_true]
    constructor
    · omega
    · exact if_neg (by omega : ¬ s % 60 = 60)
  · unfold Instant.hour Instant.minute Instant.second
    refine ⟨rfl, hv, ?_, ?_, ?_, ?_, ?_⟩ <;> omega

/-- C108: the name of a time is year, month, day, hour, minute and second, with the given number of digits, and reading
such a text gives the time. -/
theorem C108_text (year month day hour minute second : Nat) (hy : year ≤ 9999)
    (hh : hour < 24) (hm : minute < 60) (hs : second < 60) (n : Int) (hn : Date.ofDay n = ⟨year, month, day⟩) :
    RefTime.getName ⟨n, hour * 3600 + minute * 60 + second, 0⟩ =
      decPad 4 year ++ '-' :: (decPad 2 month ++ '-' :: (decPad 2 day ++ 'T' :: (decPad 2 hour ++ ':' ::
        (decPad 2 minute ++ ':' :: (decPad 2 second ++ ['Z']))))) ∧
    Rfc3339.parse (decPad 4 year ++ '-' :: (decPad 2 month ++ '-' :: (decPad 2 day ++ 'T' :: (decPad 2 hour ++ ':' ::
        (decPad 2 minute ++ ':' :: (decPad 2 second ++ ['Z'])))))) =
      .ok ⟨⟨n, hour * 3600 + minute * 60 + second, 0⟩, 0⟩ := by
  have hu : UsualTime ⟨n, hour * 3600 + minute * 60 + second, 0⟩ := by
    unfold UsualTime
    rw [hn]
    simp only
    omega
  have e : RefTime.getName ⟨n, hour * 3600 + minute * 60 + second, 0⟩ =
      decPad 4 year ++ '-' :: (decPad 2 month ++ '-' :: (decPad 2 day ++ 'T' :: (decPad 2 hour ++ ':' ::
        (decPad 2 minute ++ ':' :: (decPad 2 second ++ ['Z']))))) := by
    unfold RefTime.getName
    rw [fmt_usual hu (by simp only; omega), hn]
    unfold Instant.hour Instant.minute Instant.second
    simp only [Int.toNat_natCast]
    rw [show (hour * 3600 + minute * 60 + second) / 3600 = hour by omega,
      show (hour * 3600 + minute * 60 + second) / 60 % 60 = minute by omega,
      show (hour * 3600 + minute * 60 + second) % 60 = second by omega]
  refine ⟨e, ?_⟩
  rw [← e]
  exact C108_parse _ hu (by simp only; omega) rfl

/-- C108: a reference time is given back by its name. -/
theorem C108_round_trip (t : Instant) (h : UsualTime t) (hr : IsRunTime t) :
    RefTime.fromStr (RefTime.getName t) = .ok t := by
  obtain ⟨h1, h2, h3⟩ := hr
  unfold RefTime.fromStr RefTime.getName RefTime.fromParsed
  rw [C108_parse t h h1 h3]
  simp only [Res.bind_ok]
  rw [if_neg]
  · obtain ⟨d, s, n⟩ := t
    simp only at h1
    simp only [OffsetTime.toUtc, Res.ok.injEq, Instant.mk.injEq, and_true]
    omega
  · unfold Instant.minute Instant.second Instant.hour
    omega

/-- C108: the names of times sort like the times. -/
theorem C108_order (t t' : Instant) (h : UsualTime t) (h' : UsualTime t') (hs : t.sec < 86400) (hs' : t'.sec < 86400)
    (hn : t.nano < 1000000000) (hn' : t'.nano < 1000000000) :
    RefTime.getName t < RefTime.getName t' ↔ Earlier t t' := by
  obtain ⟨b1, b2, b3⟩ := h.bounds
  obtain ⟨c1, c2, c3⟩ := clock_bounds hs
  obtain ⟨b1', b2', b3'⟩ := h'.bounds
  obtain ⟨c1', c2', c3'⟩ := clock_bounds hs'
  have L : ∀ {k a b : Nat}, 0 < k → a < 10 ^ k → b < 10 ^ k → (decPad k a).length = (decPad k b).length :=
    fun hk ha hb => by rw [Date.decPad_length ha hk, Date.decPad_length hb hk]
  have E : ∀ {k a b : Nat}, decPad k a = decPad k b ↔ a = b := fun {k a b} => ⟨decPad_inj, fun h => by rw [h]⟩
  unfold RefTime.getName
  rw [fmt_usual h hn, fmt_usual h' hn', lt_append (L (by norm_num) b1 b1'), decPad_lt (by norm_num) b1 b1', E,
    List.cons_lt_cons_iff, lt_append (L (by norm_num) b2 b2'), decPad_lt (by norm_num) b2 b2', E,
    List.cons_lt_cons_iff, lt_append (L (by norm_num) b3 b3'), decPad_lt (by norm_num) b3 b3', E,
    List.cons_lt_cons_iff, lt_append (L (by norm_num) c1 c1'), decPad_lt (by norm_num) c1 c1', E,
    List.cons_lt_cons_iff, lt_append (L (by norm_num) c2 c2'), decPad_lt (by norm_num) c2 c2', E,
    List.cons_lt_cons_iff, lt_append (L (by norm_num) c3 c3'), decPad_lt (by norm_num) c3 c3', E]
  have hz : ¬ (['Z'] : Text) < ['Z'] := by decide
  have hd := Date.toDay_lt_iff (Date.ofDay_valid t.day) (Date.ofDay_valid t'.day)
  rw [Date.toDay_ofDay, Date.toDay_ofDay] at hd
  have he : t.day = t'.day ↔ (Date.ofDay t.day).year = (Date.ofDay t'.day).year ∧
      (Date.ofDay t.day).month = (Date.ofDay t'.day).month ∧ (Date.ofDay t.day).day = (Date.ofDay t'.day).day := by
    constructor
    · intro e; rw [e]; exact ⟨rfl, rfl, rfl⟩
    · rintro ⟨e1, e2, e3⟩
      have : Date.ofDay t.day = Date.ofDay t'.day := by
        cases hA : Date.ofDay t.day; cases hB : Date.ofDay t'.day
        rw [hA, hB] at e1 e2 e3
        simp only at e1 e2 e3
        rw [e1, e2, e3]
      rw [← Date.toDay_ofDay t.day, this, Date.toDay_ofDay]
  unfold Earlier
  rw [hd, he]
  unfold Date.Before Instant.hour Instant.minute Instant.second
  have y1 := h.1
  have y2 := h'.1
  have ni : ∀ c : Char, ¬ c < c := fun c => by rw [char_lt]; omega
  simp only [ni, hz, false_or, true_and, and_false, or_false]
  omega

/-! ## C109: calendar and directories -/

/-- C109: the calendar counts days from 1 January 1970 without gap or repetition, in the order of dates, and the day
before is one day less. -/
theorem C109_calendar : Date.ofDay 0 = ⟨1970, 1, 1⟩ ∧ (∀ n, (Date.ofDay n).Valid) ∧
    (∀ d : Date, d.Valid → ∃! n, Date.ofDay n = d) ∧ (∀ n k, n < k ↔ (Date.ofDay n).Before (Date.ofDay k)) ∧
    (∀ n, (Date.ofDay n).yesterday = Date.ofDay (n - 1)) := by
  refine ⟨rfl, Date.ofDay_valid, ?_, ?_, fun n => (Date.ofDay_pred n).symm⟩
  · intro d hd
    exact ⟨d.toDay, Date.ofDay_toDay hd, fun n hn => by rw [← Date.toDay_ofDay n, hn]⟩
  · intro n k
    rw [← Date.toDay_lt_iff (Date.ofDay_valid n) (Date.ofDay_valid k), Date.toDay_ofDay, Date.toDay_ofDay]

/-- Every start time of a run has a run, dated by the calendar and named by its hour. -/
theorem C109_run (t : Instant) (hr : IsRunTime t) :
    Swiss.forecastRun Swiss.chrono t = .ok ⟨.iconCh1, Date.ofDay t.day, decPad 2 (t.sec / 3600)⟩ := by
  obtain ⟨h1, h2, h3⟩ := hr
  unfold Swiss.forecastRun
  have e : RefTime.runName t = .ok (decPad 2 (t.sec / 3600)) := by
    have hq : t.sec / 10800 < 8 := by omega
    have e : t.sec = 10800 * (t.sec / 10800) := by omega
    generalize t.sec / 10800 = q at e hq
    unfold RefTime.runName Instant.hour
    rw [e]
    have : q = 0 ∨ q = 1 ∨ q = 2 ∨ q = 3 ∨ q = 4 ∨ q = 5 ∨ q = 6 ∨ q = 7 := by omega
    rcases this with rfl | rfl | rfl | rfl | rfl | rfl | rfl | rfl <;> decide +kernel
  rw [e]
  rfl

/-- C109: files of runs of different reference times have different paths. -/
theorem C109_directories (t t' : Instant) (h : UsualTime t) (h' : UsualTime t') (hr : IsRunTime t) (hr' : IsRunTime t')
    (run run' : Run) (e : Swiss.forecastRun Swiss.chrono t = .ok run) (e' : Swiss.forecastRun Swiss.chrono t' = .ok run')
    {step step' : Nat} {o o' : Output} (hp : o.path run step = o'.path run' step') :
    t = t' ∧ step = step' ∧ o = o' := by
  rw [C109_run t hr] at e
  rw [C109_run t' hr'] at e'
  cases e
  cases e'
  have hh : ∀ u : Instant, IsRunTime u → u.sec / 3600 < 10 ^ 2 := fun u hu => by have := hu.1; omega
  have U : ∀ u : Instant, UsualTime u → IsRunTime u →
      UsualName ⟨.iconCh1, Date.ofDay u.day, decPad 2 (u.sec / 3600)⟩ := fun u hu hv =>
    ⟨hu.usual, Date.decPad_length (hh u hv) (by norm_num), slash_not_digit (decPad_digits _ _)⟩
  obtain ⟨er, es, eo⟩ := C54_paths (U t h hr) (U t' h' hr') hp
  refine ⟨?_, es, eo⟩
  injection er with e1 e2 e3
  have d := Date.toDay_ofDay t.day
  rw [e2, Date.toDay_ofDay] at d
  have s := decPad_inj e3
  obtain ⟨h1, h2, h3⟩ := hr
  obtain ⟨g1, g2, g3⟩ := hr'
  obtain ⟨a, b, c⟩ := t
  obtain ⟨a', b', c'⟩ := t'
  simp only at *
  simp only [Instant.mk.injEq]
  omega

/-- C109: the directories of the runs, date and run name, sort like the reference times. -/
theorem C109_order (t t' : Instant) (h : UsualTime t) (h' : UsualTime t') (hr : IsRunTime t) (hr' : IsRunTime t')
    (run run' : Run) (e : Swiss.forecastRun Swiss.chrono t = .ok run) (e' : Swiss.forecastRun Swiss.chrono t' = .ok run') :
    run.date.fmt ++ run.name < run'.date.fmt ++ run'.name ↔ Earlier t t' := by
  rw [C109_run t hr] at e
  rw [C109_run t' hr'] at e'
  cases e
  cases e'
  obtain ⟨b1, b2, b3⟩ := h.bounds
  obtain ⟨b1', b2', b3'⟩ := h'.bounds
  have L : ∀ {k a b : Nat}, 0 < k → a < 10 ^ k → b < 10 ^ k → (decPad k a).length = (decPad k b).length :=
    fun hk ha hb => by rw [Date.decPad_length ha hk, Date.decPad_length hb hk]
  have E : ∀ {k a b : Nat}, decPad k a = decPad k b ↔ a = b := fun {k a b} => ⟨decPad_inj, fun h => by rw [h]⟩
  obtain ⟨h1, h2, h3⟩ := hr
  obtain ⟨g1, g2, g3⟩ := hr'
  have c1 : t.sec / 3600 < 10 ^ 2 := by omega
  have c1' : t'.sec / 3600 < 10 ^ 2 := by omega
  unfold Date.fmt Date.fmtYear
  simp only
  rw [if_pos ⟨h.1, h.2⟩, if_pos ⟨h'.1, h'.2⟩]
  simp only [List.append_assoc]
  rw [lt_append (L (by norm_num) b1 b1'), decPad_lt (by norm_num) b1 b1', E,
    lt_append (L (by norm_num) b2 b2'), decPad_lt (by norm_num) b2 b2', E,
    lt_append (L (by norm_num) b3 b3'), decPad_lt (by norm_num) b3 b3', E, decPad_lt (by norm_num) c1 c1']
  have hd := Date.toDay_lt_iff (Date.ofDay_valid t.day) (Date.ofDay_valid t'.day)
  rw [Date.toDay_ofDay, Date.toDay_ofDay] at hd
  have he : t.day = t'.day ↔ (Date.ofDay t.day).year = (Date.ofDay t'.day).year ∧
      (Date.ofDay t.day).month = (Date.ofDay t'.day).month ∧ (Date.ofDay t.day).day = (Date.ofDay t'.day).day := by
    constructor
    · intro e; rw [e]; exact ⟨rfl, rfl, rfl⟩
    · rintro ⟨e1, e2, e3⟩
      have : Date.ofDay t.day = Date.ofDay t'.day := by
        cases hA : Date.ofDay t.day; cases hB : Date.ofDay t'.day
        rw [hA, hB] at e1 e2 e3
        simp only at e1 e2 e3
        rw [e1, e2, e3]
      rw [← Date.toDay_ofDay t.day, this, Date.toDay_ofDay]
  unfold Earlier
  rw [hd, he]
  unfold Date.Before
  have y1 := h.1
  have y2 := h'.1
  omega

/-- 25 August 2025, 12:00 UTC. -/
def augustNoon : Instant := ⟨20325, 43200, 0⟩

theorem augustDate : Date.ofDay 20325 = ⟨2025, 8, 25⟩ := by
  have : (⟨2025, 8, 25⟩ : Date).toDay = 20325 := by decide +kernel
  rw [← this, Date.ofDay_toDay (by decide +kernel)]

example : UsualTime augustNoon ∧ IsRunTime augustNoon ∧ RefTime.getName augustNoon = "2025-08-25T12:00:00Z".toList ∧
    Swiss.forecastRun Swiss.chrono augustNoon = .ok ⟨.iconCh1, ⟨2025, 8, 25⟩, "12".toList⟩ := by
  have hu : UsualTime augustNoon := by unfold UsualTime augustNoon; rw [augustDate]; decide
  have hr : IsRunTime augustNoon := ⟨by decide, by decide, rfl⟩
  refine ⟨hu, hr, ?_, ?_⟩
  · unfold RefTime.getName
    rw [fmt_usual hu (by decide)]
    unfold augustNoon
    rw [augustDate]
    decide +kernel
  · rw [C109_run _ hr]
    unfold augustNoon
    rw [augustDate]
    decide +kernel

/-! ## C110: texts of the server -/

/-- Times that are read are within their day. -/
theorem parse_sec {s : Text} {o : OffsetTime} (h : Rfc3339.parse s = .ok o) : o.loc.sec < 86400 := by
  unfold Rfc3339.parse at h
  cases hp : Rfc3339.parseOpt s with
  | none => rw [hp] at h; cases h
  | some o' =>
    rw [hp] at h
    cases h
    unfold Rfc3339.parseOpt at hp
    obtain ⟨⟨year, t1⟩, -, hp⟩ := Option.bind_eq_some_iff.mp hp
    obtain ⟨t2, -, hp⟩ := Option.bind_eq_some_iff.mp hp
    obtain ⟨⟨month, t3⟩, -, hp⟩ := Option.bind_eq_some_iff.mp hp
    obtain ⟨t4, -, hp⟩ := Option.bind_eq_some_iff.mp hp
    obtain ⟨⟨day, t5⟩, -, hp⟩ := Option.bind_eq_some_iff.mp hp
    obtain ⟨t6, -, hp⟩ := Option.bind_eq_some_iff.mp hp
    obtain ⟨⟨hour, t7⟩, -, hp⟩ := Option.bind_eq_some_iff.mp hp
    obtain ⟨t8, -, hp⟩ := Option.bind_eq_some_iff.mp hp
    obtain ⟨⟨minute, t9⟩, -, hp⟩ := Option.bind_eq_some_iff.mp hp
    obtain ⟨t10, -, hp⟩ := Option.bind_eq_some_iff.mp hp
    obtain ⟨⟨second, t11⟩, -, hp⟩ := Option.bind_eq_some_iff.mp hp
    obtain ⟨⟨nano, t12⟩, -, hp⟩ := Option.bind_eq_some_iff.mp hp
    obtain ⟨⟨off, t13⟩, -, hp⟩ := Option.bind_eq_some_iff.mp hp
    dsimp only at hp
    split at hp
    · rename_i hc
      cases hp
      obtain ⟨-, -, h1, h2, h3, -⟩ := hc
      simp only
      omega
    · cases hp

/-- C110, the part that holds: the name of a time that was read from a text without fraction of a second, and with an
offset of a multiple of three hours such as `Z`, denotes the same time.  Missing: fractions and other offsets, for which
the claim is false. -/
theorem C110_name_partial (s : Text) (o : OffsetTime) (t : Instant) (hp : Rfc3339.parse s = .ok o)
    (hn : o.loc.nano = 0) (ho : o.offset % 10800 = 0) (h : RefTime.fromStr s = .ok t) (hu : UsualTime t) :
    RefTime.fromStr (RefTime.getName t) = .ok t := by
  refine C108_round_trip t hu ?_
  have hs := parse_sec hp
  unfold RefTime.fromStr RefTime.fromParsed at h
  rw [hp, Res.bind_ok] at h
  split at h
  · cases h
  · rename_i hc
    cases h
    unfold Instant.minute Instant.second Instant.hour at hc
    unfold IsRunTime OffsetTime.toUtc
    simp only
    have : o.loc.sec % 10800 = 0 := by omega
    refine ⟨by omega, by omega, hn⟩

example : Rfc3339.parse "2025-08-25T15:00:00+03:00".toList = .ok ⟨⟨20325, 54000, 0⟩, 10800⟩ ∧
    RefTime.fromStr "2025-08-25T15:00:00+03:00".toList = .ok augustNoon := by decide +kernel

/-- C110 (the name of an accepted reference time denotes the same time) is false: fractions of a second are accepted
and dropped in the name. -/
theorem C110_counterexample_fraction : ∃ t, RefTime.fromStr "2025-08-25T12:00:00.5Z".toList = .ok t ∧
    RefTime.fromStr (RefTime.getName t) ≠ .ok t := by
  refine ⟨⟨20325, 43200, 500000000⟩, by decide +kernel, ?_⟩
  have e : RefTime.getName ⟨20325, 43200, 500000000⟩ = "2025-08-25T12:00:00Z".toList := by
    unfold RefTime.getName
    rw [fmt_usual (by unfold UsualTime; rw [augustDate]; decide) (by decide), augustDate]
    decide +kernel
  rw [e]
  decide +kernel

/-- C110 is false: a time that is accepted in its own offset is refused by its name. -/
theorem C110_counterexample_offset : ∃ t, RefTime.fromStr "2025-08-25T12:00:00+01:00".toList = .ok t ∧
    RefTime.fromStr (RefTime.getName t) = .err := by
  refine ⟨⟨20325, 39600, 0⟩, by decide +kernel, ?_⟩
  have e : RefTime.getName ⟨20325, 39600, 0⟩ = "2025-08-25T11:00:00Z".toList := by
    unfold RefTime.getName
    rw [fmt_usual (by unfold UsualTime; rw [augustDate]; decide) (by decide), augustDate]
    decide +kernel
  rw [e]
  decide +kernel

end Props

end Verif
