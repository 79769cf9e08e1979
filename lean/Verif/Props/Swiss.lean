import Verif.Model.Swiss
import Verif.Spec.Time
import Verif.Lemmas.Text
import Verif.Lemmas.Res
import Mathlib.Tactic.NormNum
import Mathlib.Tactic.Linarith

/-!
# C47-C50, C80-C82: MeteoSwiss forecasts
-/

namespace Verif

open Verif.Spec

/-! ## Text -/

theorem splitChar_self {c : Char} {a : Text} (h : c ∉ a) : splitChar c a = [a] := by
  induction a with
  | nil => rfl
  | cons x xs ih =>
    simp only [List.mem_cons, not_or] at h
    unfold splitChar
    rw [if_neg (fun e => h.1 e.symm), ih h.2]

theorem splitChar_append {c : Char} {a b : Text} (h : c ∉ a) : splitChar c (a ++ c :: b) = a :: splitChar c b := by
  induction a with
  | nil => simp [splitChar]
  | cons x xs ih =>
    simp only [List.mem_cons, not_or] at h
    rw [List.cons_append, splitChar, if_neg (fun e => h.1 e.symm), ih h.2]

theorem trimEnd_append {c : Char} {t : Text} (h : c ∉ t) : trimEnd c (t ++ [c]) = t := by
  unfold trimEnd
  rw [List.reverse_append, List.reverse_singleton, List.singleton_append, List.dropWhile_cons_of_pos (by simp)]
  have : t.reverse.dropWhile (· == c) = t.reverse := by
    cases ht : t.reverse with
    | nil => rfl
    | cons x xs =>
      rw [List.dropWhile_cons_of_neg]
      intro e
      have hx : x ∈ t := by rw [← List.mem_reverse, ht]; simp
      simp only [beq_iff_eq] at e
      exact h (e ▸ hx)
  rw [this, List.reverse_reverse]

theorem not_mem_digits {c : Char} (hc : c.isDigit = false) {t : Text} (h : t.all Char.isDigit = true) : c ∉ t := by
  intro hm
  have := List.all_eq_true.mp h c hm
  rw [hc] at this
  cases this

theorem stripPlus_digits {t : Text} (hd : t.all Char.isDigit = true) : stripPlus t = t := by
  unfold stripPlus
  split
  · simp at hd
  · rfl

theorem parseU8_digits {t : Text} (h : t ≠ []) (hd : t.all Char.isDigit = true) (hv : valueOf t < 256) :
    parseU8 t = some (UInt8.ofNat (valueOf t)) := by
  unfold parseU8
  rw [stripPlus_digits hd]
  simp only
  rw [if_pos ⟨h, hd⟩]
  have e2 : t.foldl (fun v c => 10 * v + digitValue c) 0 = valueOf t := rfl
  rw [e2, if_pos hv]

theorem dec_ne_nil (n : Nat) : dec n ≠ [] := by
  intro h
  have := dec_length_pos n
  rw [h] at this
  simp at this

theorem decPad_ne_nil (k n : Nat) : decPad k n ≠ [] := by
  unfold decPad
  simp [dec_ne_nil]

/-! ## C47: horizons -/

/-- C47: a horizon is read from every text of the form P⟨days⟩DT⟨hours⟩H⟨rest⟩ with numbers below 256. -/
theorem C47_parse (d h rest : Text) (hd0 : d ≠ []) (hd : d.all Char.isDigit = true) (hdv : valueOf d < 256)
    (hh0 : h ≠ []) (hh : h.all Char.isDigit = true) (hhv : valueOf h < 256) (hr : 'T' ∉ rest) :
    Horizon.fromStr ('P' :: (d ++ 'D' :: 'T' :: (h ++ 'H' :: rest))) =
      .ok ⟨UInt8.ofNat (valueOf d), UInt8.ofNat (valueOf h)⟩ := by
  unfold Horizon.fromStr
  rw [if_neg (by simp)]
  have hT : 'T' ∉ d ++ ['D'] := by
    simp only [List.mem_append, List.mem_singleton, not_or]
    exact ⟨not_mem_digits (by decide) hd, by decide⟩
  have hT2 : 'T' ∉ h ++ 'H' :: rest := by
    simp only [List.mem_append, List.mem_cons, not_or]
    exact ⟨not_mem_digits (by decide) hh, by decide, hr⟩
  have e1 : List.drop 1 ('P' :: (d ++ 'D' :: 'T' :: (h ++ 'H' :: rest))) =
      (d ++ ['D']) ++ 'T' :: (h ++ 'H' :: rest) := by simp
  rw [e1, splitChar_append hT, splitChar_self hT2]
  simp only
  rw [trimEnd_append (not_mem_digits (by decide) hd), parseU8_digits hd0 hd hdv,
    splitChar_append (not_mem_digits (by decide) hh)]
  simp only [List.head?_cons, Res.okOr_some, Res.bind_ok]
  rw [parseU8_digits hh0 hh hhv]
  rfl

theorem fromStr_rest (h : Horizon) (rest : Text) (hr : 'T' ∉ rest) :
    Horizon.fromStr ('P' :: (dec h.days.toNat ++ "DT".toList ++ decPad 2 h.hours.toNat ++ 'H' :: rest)) = .ok h := by
  have hd : ∀ n, (dec n).all Char.isDigit = true := fun n => List.all_eq_true.mpr (dec_digits n)
  have hp : ∀ n, (decPad 2 n).all Char.isDigit = true := fun n => List.all_eq_true.mpr (decPad_digits 2 n)
  have e : 'P' :: (dec h.days.toNat ++ "DT".toList ++ decPad 2 h.hours.toNat ++ 'H' :: rest) =
      'P' :: (dec h.days.toNat ++ 'D' :: 'T' :: (decPad 2 h.hours.toNat ++ 'H' :: rest)) := by simp
  rw [e, C47_parse _ _ _ (dec_ne_nil _) (hd _) (by rw [valueOf_dec]; exact h.days.toNat_lt)
    (decPad_ne_nil _ _) (hp _) (by rw [valueOf_decPad]; exact h.hours.toNat_lt) hr, valueOf_dec, valueOf_decPad]
  simp

/-- C47: writing a horizon and reading it gives the horizon back. -/
theorem C47_text (h : Horizon) : Horizon.fromStr h.getName = .ok h := by
  have e : h.getName = 'P' :: (dec h.days.toNat ++ "DT".toList ++ decPad 2 h.hours.toNat ++ 'H' ::
      "00M00S".toList) := by simp [Horizon.getName]
  rw [e, fromStr_rest _ _ (by decide)]

example : Horizon.getName ⟨1, 9⟩ = "P1DT09H00M00S".toList := by decide +kernel

/-- C47: the step of the horizon of a step. -/
theorem C47_step (s : UInt8) : (Horizon.fromStep s).getStep = .ok s := by
  have hs : s.toNat < 256 := s.toNat_lt
  unfold Horizon.getStep Horizon.fromStep ckU8
  have h1 : (s / 24).toNat = s.toNat / 24 := by simp
  have h2 : (s % 24).toNat = s.toNat % 24 := by simp
  simp only [h1, h2]
  rw [if_pos (by omega)]
  simp only [Res.bind_ok]
  have h3 : (UInt8.ofNat (s.toNat / 24 * 24)).toNat = s.toNat / 24 * 24 := by
    rw [UInt8.toNat_ofNat', Nat.mod_eq_of_lt (by omega)]
  rw [h3, if_pos (by omega)]
  congr 1
  rw [← UInt8.toNat_inj, UInt8.toNat_ofNat', Nat.mod_eq_of_lt (by omega)]
  omega

theorem getStep_eq (h : Horizon) : h.getStep =
    if 24 * h.days.toNat + h.hours.toNat < 256 then .ok (UInt8.ofNat (24 * h.days.toNat + h.hours.toNat))
    else .panic := by
  unfold Horizon.getStep ckU8
  by_cases h1 : h.days.toNat * 24 < 256
  · rw [if_pos h1]
    simp only [Res.bind_ok]
    rw [UInt8.toNat_ofNat', Nat.mod_eq_of_lt (by omega), Nat.mul_comm]
  · rw [if_neg h1, if_neg (by omega)]
    rfl

/-- C47: the step of a horizon is its number of hours; the function panics if these are more than 255. -/
theorem C47_get_step (h : Horizon) (n : Nat) :
    (∃ s, h.getStep = .ok s ∧ s.toNat = n) ↔ n = 24 * h.days.toNat + h.hours.toNat ∧ n < 256 := by
  rw [getStep_eq]
  constructor
  · rintro ⟨s, hs, rfl⟩
    split at hs
    · simp only [Res.ok.injEq] at hs
      subst hs
      rw [UInt8.toNat_ofNat', Nat.mod_eq_of_lt (by omega)]
      omega
    · cases hs
  · rintro ⟨rfl, h2⟩
    rw [if_pos h2]
    exact ⟨_, rfl, by rw [UInt8.toNat_ofNat', Nat.mod_eq_of_lt (by omega)]⟩

/-- C47, last sentence: from 256 hours on asking for the step panics. -/
theorem C47_panics (h : Horizon) : h.getStep = .panic ↔ 256 ≤ 24 * h.days.toNat + h.hours.toNat := by
  rw [getStep_eq]
  split
  · simp; omega
  · simp; omega

example : Horizon.fromStr "P11DT00H00M00S".toList = .ok ⟨11, 0⟩ ∧ Horizon.getStep ⟨11, 0⟩ = .panic := by
  decide +kernel

/-! ## C81: minutes -/

/-- C81 (a horizon that is not a whole number of hours is rejected) is false: minutes and seconds are
ignored. -/
theorem C81_counterexample : Horizon.fromStr "P0DT05H30M00S".toList = .ok ⟨0, 5⟩ := by decide +kernel

/-- C81, for any minutes and seconds. -/
theorem C81_ignored (h : Horizon) (rest : Text) (hr : 'T' ∉ rest) :
    Horizon.fromStr ('P' :: (dec h.days.toNat ++ "DT".toList ++ decPad 2 h.hours.toNat ++ 'H' :: rest)) = .ok h :=
  fromStr_rest h rest hr

/-! ## C48: reference times -/

theorem getLatest_eq {t : Instant} (h : t.Valid) :
    RefTime.getLatest t = .ok ⟨t.day, t.sec / 10800 * 10800, 0⟩ := by
  obtain ⟨h1, h2⟩ := h
  unfold RefTime.getLatest Instant.withHour Instant.hour
  simp only
  rw [if_pos (by omega)]
  simp only [Res.unwrap_some, Res.bind_ok, Instant.withMinute, Instant.withSecond, Instant.withNano]
  norm_num
  omega

/-- C48: the latest reference time is the latest of the three-hourly times that are not after the given
time, less than three hours before it, and has a run name. -/
theorem C48_latest (t : Instant) (h : t.Valid) :
    ∃ r, RefTime.getLatest t = .ok r ∧ IsRunTime r ∧ NotAfter r t ∧
      (∀ r', IsRunTime r' → NotAfter r' t → NotAfter r' r) ∧ ¬ NotAfter (plus3h r) t ∧
      RefTime.runName r = .ok (decPad 2 (r.sec / 3600)) := by
  refine ⟨_, getLatest_eq h, ?_⟩
  obtain ⟨h1, h2⟩ := h
  unfold IsRunTime NotAfter plus3h
  refine ⟨⟨?_, ?_, rfl⟩, ?_, ?_, ?_, ?_⟩
  · simp only; omega
  · simp only; omega
  · simp only; norm_num; omega
  · rintro r' ⟨a, b, c⟩ d
    simp only at d ⊢
    omega
  · simp only
    split
    · simp only; omega
    · simp only; omega
  · simp only
    have hq : t.sec / 10800 < 8 := by omega
    generalize t.sec / 10800 = q at hq
    have e : q * 10800 / 3600 = 3 * q := by omega
    unfold RefTime.runName Instant.hour
    simp only [e]
    revert q
    decide

example : (⟨20000, 50000, 5⟩ : Instant).Valid ∧
    RefTime.getLatest ⟨20000, 50000, 5⟩ = .ok ⟨20000, 43200, 0⟩ := by
  exact ⟨⟨by norm_num, by norm_num⟩, by decide +kernel⟩

/-! ## C80: reference times from the server -/

/-- C80 (an accepted reference time has a run name) is false: the time is checked in its own offset, 9:00
at UTC+1 is accepted and is 8:00 UTC. -/
theorem C80_counterexample :
    ∃ t : OffsetTime, ∃ r, RefTime.fromParsed (.ok t) = .ok r ∧ RefTime.runName r = .err :=
  ⟨⟨⟨20000, 9 * 3600, 0⟩, 3600⟩, ⟨20000, 8 * 3600, 0⟩, by decide +kernel, by decide +kernel⟩

/-- C80, if the offset is a multiple of three hours (the server uses UTC).  Missing for the full statement:
other offsets, for which it is false. -/
theorem C80_run_name_partial (t : OffsetTime) (ht : t.loc.Valid) (ho : t.offset % 10800 = 0) (r : Instant)
    (h : RefTime.fromParsed (.ok t) = .ok r) : RefTime.runName r = .ok (decPad 2 (r.sec / 3600)) ∧
      r.sec % 10800 = 0 := by
  obtain ⟨h1, h2⟩ := ht
  unfold RefTime.fromParsed at h
  simp only [Res.bind_ok] at h
  split at h
  · cases h
  · rename_i hc
    simp only [Res.ok.injEq] at h
    subst h
    simp only [not_or, not_not, Instant.minute, Instant.second, Instant.hour] at hc
    have hs : t.loc.sec % 10800 = 0 := by omega
    have key : t.toUtc.sec % 10800 = 0 ∧ t.toUtc.sec < 86400 := by
      unfold OffsetTime.toUtc
      simp only
      omega
    refine ⟨?_, key.1⟩
    have e : t.toUtc.sec = 10800 * (t.toUtc.sec / 10800) := by omega
    have hq : t.toUtc.sec / 10800 < 8 := by omega
    generalize t.toUtc.sec / 10800 = q at e hq
    unfold RefTime.runName Instant.hour
    rw [e]
    have e2 : 10800 * q / 3600 = 3 * q := by omega
    rw [e2]
    clear e e2 hs hc key
    revert q
    decide

example : RefTime.fromParsed (.ok ⟨⟨20000, 9 * 3600, 0⟩, 0⟩) = .ok ⟨20000, 9 * 3600, 0⟩ := by decide +kernel

/-! ## C49: the list of forecast files -/

namespace SwissSearch

/-- A response entry from which a file can be made: its horizon can be read and it has a link. -/
def Good (f : Feature) : Prop := (∃ h, Horizon.fromStr f.horizon = .ok h) ∧ f.hrefs ≠ []

/-- The file of an entry: its title, its horizon and its (first) link. -/
def IsFileOf (s : Step) (f : Feature) : Prop :=
  s.title = f.title ∧ Horizon.fromStr f.horizon = .ok s.horizon ∧ f.hrefs.head? = some s.href

/-- Hours of a horizon. -/
def hoursOf (s : Step) : Nat := 24 * s.horizon.days.toNat + s.horizon.hours.toNat

theorem parseU8_no_panic (o : Option α) : Res.okOr o ≠ .panic := by cases o <;> simp

theorem fromStr_no_panic (t : Text) : Horizon.fromStr t ≠ .panic := by
  unfold Horizon.fromStr
  split
  · simp
  · split
    · intro h
      rename_i d tm _
      cases h1 : parseU8 (trimEnd 'D' d) with
      | none => rw [h1] at h; cases h
      | some d' =>
        rw [h1] at h
        simp only [Res.okOr_some, Res.bind_ok] at h
        cases h2 : (splitChar 'H' tm).head? with
        | none => rw [h2] at h; cases h
        | some hs =>
          rw [h2] at h
          simp only [Res.okOr_some, Res.bind_ok] at h
          cases h3 : parseU8 hs with
          | none => rw [h3] at h; cases h
          | some x => rw [h3] at h; cases h
    · simp

theorem createStep_ok (f : Feature) (s : Step) : createStep f = .ok s ↔ IsFileOf s f := by
  unfold createStep IsFileOf extractHref
  cases h : Horizon.fromStr f.horizon with
  | err => simp
  | panic => simp
  | ok x =>
    simp only [Res.bind_ok]
    cases f.hrefs.head? with
    | none => simp
    | some u =>
      simp only [Res.okOr_some, Res.bind_ok, Res.ok.injEq, Option.some.injEq]
      constructor
      · rintro rfl; exact ⟨rfl, rfl, rfl⟩
      · rintro ⟨a, b, c⟩; cases s; simp_all

theorem createStep_err (f : Feature) : createStep f = .err ↔ ¬ Good f := by
  unfold createStep Good extractHref
  cases h : Horizon.fromStr f.horizon with
  | err => simp
  | panic => exact absurd h (fromStr_no_panic _)
  | ok x =>
    simp only [Res.bind_ok]
    cases hh : f.hrefs with
    | nil => simp
    | cons u us => simp

theorem createStep_no_panic (f : Feature) : createStep f ≠ .panic := by
  unfold createStep extractHref
  cases h : Horizon.fromStr f.horizon with
  | err => simp
  | panic => exact absurd h (fromStr_no_panic _)
  | ok x =>
    simp only [Res.bind_ok]
    cases f.hrefs.head? with
    | none => simp
    | some u => simp

theorem mapM_createStep (fs : List Feature) :
    (∃ steps, Res.mapM createStep fs = .ok steps ∧ List.Forall₂ IsFileOf steps fs) ∨
    (Res.mapM createStep fs = .err ∧ ∃ f ∈ fs, ¬ Good f) := by
  induction fs with
  | nil => exact .inl ⟨[], rfl, .nil⟩
  | cons f fs ih =>
    unfold Res.mapM
    cases h : createStep f with
    | panic => exact absurd h (createStep_no_panic f)
    | err => exact .inr ⟨rfl, f, by simp, (createStep_err f).mp h⟩
    | ok s =>
      rcases ih with ⟨steps, e, hf⟩ | ⟨e, g, hg, hn⟩
      · rw [e]
        exact .inl ⟨s :: steps, rfl, .cons ((createStep_ok f s).mp h) hf⟩
      · rw [e]
        exact .inr ⟨rfl, g, by simp [hg], hn⟩

theorem good_of_isFileOf {s : Step} {f : Feature} (h : IsFileOf s f) : Good f := by
  refine ⟨⟨_, h.2.1⟩, ?_⟩
  intro hn
  have := h.2.2
  rw [hn] at this
  cases this

theorem insertionSort_stable {α : Type} (k : α → Nat) (l : List α) :
    StableSortOf k (l.insertionSort fun a b => k a ≤ k b) l := by
  have : Std.Total (fun a b : α => k a ≤ k b) := ⟨fun a b => Nat.le_total _ _⟩
  have : IsTrans α (fun a b : α => k a ≤ k b) := ⟨fun a b c h h' => Nat.le_trans h h'⟩
  refine ⟨List.perm_insertionSort _ l, List.pairwise_insertionSort _ l, ?_⟩
  intro n
  have hs : (l.filter fun x => k x == n).Sublist (l.insertionSort fun a b => k a ≤ k b) := by
    refine List.sublist_insertionSort ?_ List.filter_sublist
    rw [List.pairwise_iff_forall_sublist]
    intro a b hab
    have ha := hab.subset (show a ∈ [a, b] by simp)
    have hb := hab.subset (show b ∈ [a, b] by simp)
    rw [List.mem_filter] at ha hb
    have e1 : k a = n := by simpa using ha.2
    have e2 : k b = n := by simpa using hb.2
    omega
  have hs2 := hs.filter (fun x => k x == n)
  rw [List.filter_filter] at hs2
  simp only [Bool.and_self] at hs2
  refine (hs2.eq_of_length ?_).symm
  exact (((List.perm_insertionSort (fun a b => k a ≤ k b) l).filter (fun x => k x == n)).length_eq).symm

/-- C49: if every entry of the response is good and no horizon exceeds 255 hours, the result is the list of
the files of the entries, sorted by forecast hour, files of equal hour in the order of the response. -/
theorem C49_files (fs : List Feature) (hg : ∀ f ∈ fs, Good f)
    (hh : ∀ f ∈ fs, ∀ h, Horizon.fromStr f.horizon = .ok h → 24 * h.days.toNat + h.hours.toNat < 256) :
    ∃ files sorted, List.Forall₂ IsFileOf files fs ∧ findFiles fs = .ok sorted ∧
      StableSortOf hoursOf sorted files := by
  rcases mapM_createStep fs with ⟨steps, e, hf⟩ | ⟨_, g, hgm, hn⟩
  · refine ⟨steps, steps.insertionSort fun a b => key a ≤ key b, hf, ?_, ?_⟩
    · unfold findFiles
      rw [e]
      simp only [Res.bind_ok]
      unfold sortSteps
      rw [if_neg]
      rintro ⟨hlen, hp⟩
      clear hlen
      rw [List.any_eq_true] at hp
      obtain ⟨s, hs, hp⟩ := hp
      simp only [beq_iff_eq] at hp
      rw [C47_panics] at hp
      obtain ⟨f, hfm, hff⟩ : ∃ f ∈ fs, IsFileOf s f := by
        clear e hg hh
        induction hf with
        | nil => cases hs
        | cons h t ih =>
          rcases List.mem_cons.mp hs with rfl | hs
          · exact ⟨_, by simp, h⟩
          · obtain ⟨f, a, b⟩ := ih hs
            exact ⟨f, by simp [a], b⟩
      have := hh f hfm _ hff.2.1
      omega
    · have : hoursOf = key := by
        funext s; unfold hoursOf key; rw [Nat.mul_comm]
      rw [this]
      exact insertionSort_stable key steps
  · exact absurd (hg g hgm) hn

/-- C49: the result is an error exactly if some entry is not good. -/
theorem C49_error (fs : List Feature) : findFiles fs = .err ↔ ∃ f ∈ fs, ¬ Good f := by
  unfold findFiles
  rcases mapM_createStep fs with ⟨steps, e, hf⟩ | ⟨e, g, hgm, hn⟩
  · rw [e]
    simp only [Res.bind_ok]
    constructor
    · intro h
      unfold sortSteps at h
      split at h <;> cases h
    · rintro ⟨f, hfm, hn⟩
      exfalso
      clear e
      induction hf with
      | nil => cases hfm
      | cons h t ih =>
        rcases List.mem_cons.mp hfm with rfl | hfm
        · exact hn (good_of_isFileOf h)
        · exact ih hfm
  · rw [e]
    simp only [Res.bind_err, true_iff]
    exact ⟨g, hgm, hn⟩

/-- C49 holds for a response with two entries in the wrong order. -/
example : findFiles [⟨"b".toList, "P1DT00H00M00S".toList, ["u1".toList]⟩, ⟨"a".toList, "P0DT03H00M00S".toList, ["u2".toList]⟩] =
    .ok [⟨"a".toList, ⟨0, 3⟩, "u2".toList⟩, ⟨"b".toList, ⟨1, 0⟩, "u1".toList⟩] := by decide +kernel

/-- C49 (an invalid entry gives an error, every other response a list) is false for horizons above 255
hours: with another entry beside it the program panics. -/
theorem C49_counterexample : ∃ fs, (∀ f ∈ fs, Good f) ∧ findFiles fs = .panic :=
  ⟨[⟨[], "P11DT00H00M00S".toList, [[]]⟩, ⟨[], "P0DT00H00M00S".toList, [[]]⟩], by
    intro f hf
    simp only [List.mem_cons, List.not_mem_nil, or_false] at hf
    rcases hf with rfl | rfl
    · exact ⟨⟨⟨11, 0⟩, by decide +kernel⟩, by simp⟩
    · exact ⟨⟨⟨0, 0⟩, by decide +kernel⟩, by simp⟩, by decide +kernel⟩

/-! ## C50: step numbers -/

theorem mem_runSteps (steps : List Step) (skip : Bool) (r : RunStep) :
    r ∈ runSteps steps skip ↔ ∃ s, steps[r.nr]? = some s ∧ r.url = s.href ∧ (skip = true → 1 ≤ r.nr) := by
  unfold runSteps
  rw [List.mem_map]
  constructor
  · rintro ⟨⟨s, i⟩, hp, rfl⟩
    rw [List.mem_filter, List.mem_zipIdx_iff_getElem?] at hp
    refine ⟨s, hp.1, rfl, ?_⟩
    intro h
    rw [h] at hp
    simpa using hp.2
  · rintro ⟨s, h1, h2, h3⟩
    refine ⟨(s, r.nr), ?_, ?_⟩
    · rw [List.mem_filter, List.mem_zipIdx_iff_getElem?]
      refine ⟨h1, ?_⟩
      cases skip with
      | false => rfl
      | true => simpa using h3 rfl
    · cases r; simp_all

/-- C50 (the step number of a file is its forecast hour) is false: with the horizons 0 and 2 the file of
hour 2 becomes step 1. -/
theorem C50_counterexample : ∃ fs files, findFiles fs = .ok files ∧
    ∃ s ∈ files, hoursOf s = 2 ∧ (⟨1, s.href⟩ : RunStep) ∈ runSteps files false :=
  ⟨[⟨[], "P0DT00H00M00S".toList, ["a".toList]⟩, ⟨[], "P0DT02H00M00S".toList, ["b".toList]⟩],
    [⟨[], ⟨0, 0⟩, "a".toList⟩, ⟨[], ⟨0, 2⟩, "b".toList⟩], by decide +kernel,
    ⟨[], ⟨0, 2⟩, "b".toList⟩, by decide +kernel, by decide +kernel, by decide +kernel⟩

/-- C50, if the response has the hours 0, 1, ..., n-1 once each, in any order.  Missing for the full
statement: responses with gaps, for which it is false. -/
theorem C50_numbers_partial (fs : List Feature) (files : List Step) (h : findFiles fs = .ok files)
    (hh : (files.map hoursOf).Perm (List.range files.length)) (skip : Bool) :
    (∀ r ∈ runSteps files skip, ∃ s ∈ files, r.url = s.href ∧ hoursOf s = r.nr) ∧
    (∀ s ∈ files, (skip = true → hoursOf s ≠ 0) → (⟨hoursOf s, s.href⟩ : RunStep) ∈ runSteps files skip) := by
  have hsorted : files.Pairwise fun x y => hoursOf x ≤ hoursOf y := by
    have hk : hoursOf = key := by funext s; unfold hoursOf key; rw [Nat.mul_comm]
    unfold findFiles at h
    rw [Res.bind_eq_ok] at h
    obtain ⟨steps, _, h⟩ := h
    unfold sortSteps at h
    split at h
    · cases h
    · simp only [Res.ok.injEq] at h
      rw [← h, hk]
      exact (insertionSort_stable key steps).sorted
  have hr : files.map hoursOf = List.range files.length := by
    refine List.Perm.eq_of_pairwise (le := (· ≤ ·)) (fun a b _ _ h1 h2 => Nat.le_antisymm h1 h2) ?_ ?_ hh
    · rw [List.pairwise_map]; exact hsorted
    · exact List.pairwise_le_range
  have hget : ∀ i s, files[i]? = some s → hoursOf s = i := by
    intro i s hi
    have : (files.map hoursOf)[i]? = some (hoursOf s) := by rw [List.getElem?_map, hi]; rfl
    rw [hr, List.getElem?_range] at this
    · simpa using this.symm
    · exact (List.getElem?_eq_some_iff.mp hi).1
  constructor
  · intro r hrm
    obtain ⟨s, h1, h2, _⟩ := (mem_runSteps files skip r).mp hrm
    exact ⟨s, List.mem_of_getElem? h1, h2, hget _ _ h1⟩
  · intro s hs hn
    rw [mem_runSteps]
    obtain ⟨i, hi⟩ := List.mem_iff_getElem?.mp hs
    have e := hget i s hi
    refine ⟨s, by simp only [e]; exact hi, rfl, ?_⟩
    intro hk
    have := hn hk
    simp only
    omega

example : ∃ files, findFiles [⟨[], "P0DT01H00M00S".toList, ["b".toList]⟩, ⟨[], "P0DT00H00M00S".toList, ["a".toList]⟩] =
    .ok files ∧ (files.map hoursOf).Perm (List.range files.length) :=
  ⟨[⟨[], ⟨0, 0⟩, "a".toList⟩, ⟨[], ⟨0, 1⟩, "b".toList⟩], by decide +kernel, by decide +kernel⟩

/-! ## C82: the latest run -/

/-- C82 (the newest of the listed runs is chosen) is false: the last entry of the response is taken. -/
theorem C82_counterexample : ∃ (parse : Text → Res OffsetTime) (refs : List Text) (chosen newer : Instant),
    findLatest parse refs = .ok chosen ∧ (∃ t ∈ refs, RefTime.fromParsed (parse t) = .ok newer) ∧
    ¬ NotAfter newer chosen :=
  ⟨fun t => .ok ⟨⟨20000, t.length * 10800, 0⟩, 0⟩, [['a', 'b'], ['a']], ⟨20000, 10800, 0⟩, ⟨20000, 21600, 0⟩,
    by decide +kernel, ⟨['a', 'b'], by decide +kernel, by decide +kernel⟩, by unfold NotAfter; decide⟩

/-- C82, if the response lists the runs from old to new.  Missing for the full statement: other orders, for
which it is false. -/
theorem C82_newest_partial (parse : Text → Res OffsetTime) (refs : List Text) (chosen : Instant)
    (hs : refs.Pairwise fun a b => ∀ r r', RefTime.fromParsed (parse a) = .ok r →
      RefTime.fromParsed (parse b) = .ok r' → NotAfter r r')
    (h : findLatest parse refs = .ok chosen) :
    (∃ t ∈ refs, RefTime.fromParsed (parse t) = .ok chosen) ∧
    ∀ t ∈ refs, ∀ r, RefTime.fromParsed (parse t) = .ok r → NotAfter r chosen := by
  unfold findLatest at h
  cases hl : refs.getLast? with
  | none => rw [hl] at h; cases h
  | some l =>
    rw [hl] at h
    simp only at h
    obtain ⟨ys, rfl⟩ := List.getLast?_eq_some_iff.mp hl
    refine ⟨⟨l, by simp, h⟩, ?_⟩
    intro t ht r hr
    rw [List.pairwise_append] at hs
    rcases List.mem_append.mp ht with ht | ht
    · exact hs.2.2 t ht l (by simp) r chosen hr h
    · simp only [List.mem_singleton] at ht
      subst ht
      rw [h] at hr
      simp only [Res.ok.injEq] at hr
      subst hr
      unfold NotAfter
      omega

end SwissSearch

end Verif
