import Verif.Props.Calendar
import Verif.Props.Swiss
import Verif.Props.SwissSuccess
import Verif.Spec.Catalogue

/-!
# C111 - C113: requests to the web service and the files that they find
-/

namespace Verif.Props

open Verif.Spec (Searches Item filesOf runMarkers NewestRun published ch1 IsRunTime NotAfter memberMatches denotes)

theorem name_published (x : Swiss.Variable) : x.name = published x := by
  cases x <;> decide +kernel

theorem published_inj {x y : Swiss.Variable} (h : published x = published y) : x = y := by
  cases x <;> cases y <;> first | rfl | (exfalso; revert h; decide)

/-- The request for the files of a variable. -/
theorem filesRequest_eq (x : Swiss.Variable) (t : Instant) : Swiss.filesRequest .iconCh1 x t =
    .ok ⟨[ch1], some (RefTime.getName t), none, some (published x), false⟩ := by
  rw [← name_published]
  rfl

theorem latestRequest_eq : Swiss.latestRequest .iconCh1 =
    .ok ⟨[ch1], none, some (Horizon.getName ⟨0, 0⟩), some (published .t2m), false⟩ := by
  rw [← name_published]
  rfl

theorem denotes_name {t : Instant} (h : UsualTime t) (hs : t.sec < 86400) (hn : t.nano = 0) (u : Instant) :
    denotes (RefTime.getName t) u = decide (u = t) := by
  unfold denotes RefTime.getName
  rw [C108_parse t h hs hn]
  have e : (⟨t, 0⟩ : OffsetTime).toUtc = t := by
    obtain ⟨d, s, n⟩ := t
    simp only at hs
    simp only [OffsetTime.toUtc, Instant.mk.injEq, and_true]
    omega
  simp only [e]
  by_cases c : u = t
  · subst c; simp
  · simp [c, Ne.symm c]

theorem match_collection (i : Item) : memberMatches i ("collections".toList, .strings [ch1]) = decide (i.collection = ch1) := by
  unfold memberMatches
  simp

theorem match_perturbed (i : Item) : memberMatches i ("forecast:perturbed".toList, .bool false) =
    decide (i.perturbed = false) := by
  unfold memberMatches
  cases i.perturbed <;> simp

theorem match_variable (i : Item) (s : Text) : memberMatches i ("forecast:variable".toList, .str s) =
    decide (i.var = s) := by
  unfold memberMatches
  have h1 : ("forecast:variable".toList == "forecast:reference_datetime".toList) = false := by decide
  have h2 : ("forecast:variable".toList == "forecast:horizon".toList) = false := by decide
  simp only [h1, h2, beq_self_eq_true, Bool.false_and, Bool.true_and, Bool.false_or]
  by_cases c : i.var = s
  · simp [c]
  · simp [c, Ne.symm c]

theorem match_horizon (i : Item) (s : Text) : memberMatches i ("forecast:horizon".toList, .str s) =
    decide (i.horizonText = s) := by
  unfold memberMatches
  have h1 : ("forecast:horizon".toList == "forecast:reference_datetime".toList) = false := by decide
  have h2 : ("forecast:horizon".toList == "forecast:variable".toList) = false := by decide
  simp only [h1, h2, beq_self_eq_true, Bool.false_and, Bool.true_and, Bool.false_or, Bool.or_false]
  by_cases c : i.horizonText = s
  · simp [c]
  · simp [c, Ne.symm c]

theorem match_refTime (i : Item) (s : Text) : memberMatches i ("forecast:reference_datetime".toList, .str s) =
    denotes s i.refTime := by
  unfold memberMatches
  have h1 : ("forecast:reference_datetime".toList == "forecast:horizon".toList) = false := by decide
  have h2 : ("forecast:reference_datetime".toList == "forecast:variable".toList) = false := by decide
  simp only [h1, h2, beq_self_eq_true, Bool.false_and, Bool.true_and, Bool.or_false]

/-! ## C111: requests -/

/-- C111: the search for the files of a variable of a run finds exactly the files of this variable, of this reference
time, of ICON-CH1 and not of the ensemble. -/
theorem C111_files (web : Swiss.Web) (catalogue : List Item) (hw : Searches web catalogue) (x : Swiss.Variable)
    (t : Instant) (h : UsualTime t) (hr : IsRunTime t) :
    web.service.search x t =
      .ok ((filesOf catalogue x t).map fun i => ⟨i.title, i.horizonText, [i.href]⟩) := by
  unfold Swiss.Web.service Swiss.Web.search
  simp only
  rw [filesRequest_eq, Res.bind_ok]
  have := hw (Swiss.Request.toJson ⟨[ch1], some (RefTime.getName t), none, some (published x), false⟩)
  unfold Swiss.searchUrl
  rw [this, Res.bind_ok, List.map_map]
  congr 1
  have e : (fun i => (Swiss.Request.toJson ⟨[ch1], some (RefTime.getName t), none, some (published x), false⟩).all
      (memberMatches i)) = fun i : Item => decide (i.collection = ch1 ∧ i.var = published x ∧ i.refTime = t ∧
        i.perturbed = false) := by
    funext i
    unfold Swiss.Request.toJson Swiss.optionalMember
    simp only [List.all_cons, List.all_nil, List.append_nil, List.cons_append, List.nil_append, Bool.and_true]
    rw [match_collection, match_refTime, match_variable, match_perturbed, denotes_name h hr.1 hr.2.2]
    simp only [Bool.decide_and]
    rcases decide (i.collection = ch1) <;> rcases decide (i.var = published x) <;>
      rcases decide (i.refTime = t) <;> rfl
  rw [e]
  rfl

theorem horizonText_eq {i : Item} (h : i.WellFormed) :
    i.horizonText = Horizon.getName ⟨UInt8.ofNat (i.hours / 24), UInt8.ofNat (i.hours % 24)⟩ := by
  have h1 : (UInt8.ofNat (i.hours / 24)).toNat = i.hours / 24 := by
    rw [UInt8.toNat_ofNat', Nat.mod_eq_of_lt (by have := h.hours; omega)]
  have h2 : (UInt8.ofNat (i.hours % 24)).toNat = i.hours % 24 := by
    rw [UInt8.toNat_ofNat', Nat.mod_eq_of_lt (by omega)]
  rw [h.horizonText]
  unfold Horizon.getName
  rw [h1, h2]

/-- The horizon of a file is read as its number of hours. -/
theorem horizon_read {i : Item} (h : i.WellFormed) :
    ∃ z, Horizon.fromStr i.horizonText = .ok z ∧ 24 * z.days.toNat + z.hours.toNat = i.hours := by
  refine ⟨_, by rw [horizonText_eq h, C47_text], ?_⟩
  have h1 : (UInt8.ofNat (i.hours / 24)).toNat = i.hours / 24 := by
    rw [UInt8.toNat_ofNat', Nat.mod_eq_of_lt (by have := h.hours; omega)]
  have h2 : (UInt8.ofNat (i.hours % 24)).toNat = i.hours % 24 := by
    rw [UInt8.toNat_ofNat', Nat.mod_eq_of_lt (by omega)]
  simp only [h1, h2]
  omega

theorem horizon_zero {i : Item} (h : i.WellFormed) : i.horizonText = Horizon.getName ⟨0, 0⟩ ↔ i.hours = 0 := by
  obtain ⟨z, h1, h2⟩ := horizon_read h
  constructor
  · intro e
    rw [e, C47_text] at h1
    cases h1
    simpa using h2.symm
  · intro e
    rw [h.horizonText, e]
    decide +kernel

/-- C111: the search for runs finds exactly the reference times of the temperature files of ICON-CH1 of hour 0. -/
theorem C111_runs (web : Swiss.Web) (catalogue : List Item) (hw : Searches web catalogue)
    (hc : ∀ i ∈ catalogue, i.WellFormed) :
    web.service.refTimes = .ok ((runMarkers catalogue).map (·.refText)) := by
  unfold Swiss.Web.service Swiss.Web.search
  simp only
  rw [latestRequest_eq, Res.bind_ok]
  have := hw (Swiss.Request.toJson ⟨[ch1], none, some (Horizon.getName ⟨0, 0⟩), some (published .t2m), false⟩)
  unfold Swiss.searchUrl
  rw [this, Res.bind_ok, List.map_map]
  congr 1
  have e : catalogue.filter (fun i => (Swiss.Request.toJson ⟨[ch1], none, some (Horizon.getName ⟨0, 0⟩),
      some (published .t2m), false⟩).all (memberMatches i)) = runMarkers catalogue := by
    refine List.filter_congr fun i hi => ?_
    unfold Swiss.Request.toJson Swiss.optionalMember
    simp only [List.all_cons, List.all_nil, List.cons_append, List.nil_append, Bool.and_true]
    rw [match_collection, match_horizon, match_variable, match_perturbed]
    have := horizon_zero (hc i hi)
    simp only [this, Bool.decide_and]
    rcases decide (i.collection = ch1) <;> rcases decide (i.var = published .t2m) <;>
      rcases decide (i.hours = 0) <;> rfl
  rw [e]
  rfl

theorem refText_read {i : Item} (h : i.WellFormed) : RefTime.fromParsed (Rfc3339.parse i.refText) = .ok i.refTime := by
  obtain ⟨h1, h2, h3⟩ := h.runTime
  unfold RefTime.fromParsed
  rw [h.refText]
  simp only [Res.bind_ok]
  generalize i.refTime = r at h1 h2 h3
  rw [if_neg]
  · obtain ⟨d, s, n⟩ := r
    simp only at h1
    simp only [OffsetTime.toUtc, Res.ok.injEq, Instant.mk.injEq, and_true]
    omega
  · unfold Instant.minute Instant.second Instant.hour
    omega

theorem newest_unique {catalogue : List Item} {t t' : Instant} (h : NewestRun catalogue t) (h' : NewestRun catalogue t') :
    t = t' := by
  obtain ⟨⟨i, hi, rfl⟩, h1⟩ := h
  obtain ⟨⟨j, hj, rfl⟩, h2⟩ := h'
  have a := h1 j hj
  have b := h2 i hi
  generalize i.refTime = t at a b
  generalize j.refTime = u at a b
  obtain ⟨d, s, n⟩ := t
  obtain ⟨d', s', n'⟩ := u
  unfold NotAfter at a b
  simp only at a b
  simp only [Instant.mk.injEq]
  omega

/-- C111: if the catalogue is ordered by reference times, the run that is taken is the newest one of which the
temperature file of the hour 0 is published. -/
theorem C111_newest (web : Swiss.Web) (catalogue : List Item) (hw : Searches web catalogue)
    (hc : ∀ i ∈ catalogue, i.WellFormed) (ho : catalogue.Pairwise fun i j => NotAfter i.refTime j.refTime)
    (t : Instant) (hn : NewestRun catalogue t) :
    ∃ texts, web.service.refTimes = .ok texts ∧ SwissSearch.findLatest Swiss.chrono.parse texts = .ok t := by
  refine ⟨_, C111_runs web catalogue hw hc, ?_⟩
  have hne : runMarkers catalogue ≠ [] := by
    obtain ⟨⟨i, hi, -⟩, -⟩ := hn
    exact List.ne_nil_of_mem hi
  have hp : (runMarkers catalogue).Pairwise fun i j => NotAfter i.refTime j.refTime := ho.filter _
  have hm := List.getLast_mem hne
  have hf : SwissSearch.findLatest Swiss.chrono.parse ((runMarkers catalogue).map (·.refText)) =
      .ok ((runMarkers catalogue).getLast hne).refTime := by
    unfold SwissSearch.findLatest
    rw [List.getLast?_map, List.getLast?_eq_some_getLast hne]
    exact refText_read (hc _ (List.mem_of_mem_filter hm))
  rw [hf]
  refine congrArg Res.ok (newest_unique ⟨⟨_, hm, rfl⟩, fun i hi => ?_⟩ hn)
  rw [← List.dropLast_append_getLast hne, List.pairwise_append] at hp
  rw [← List.dropLast_append_getLast hne] at hi
  rcases List.mem_append.mp hi with hi | hi
  · exact hp.2.2 i hi _ (by simp)
  · rw [List.mem_singleton.mp hi]
    right
    exact ⟨rfl, .inr ⟨rfl, le_refl _⟩⟩

/-- C111: requests for different variables or reference times are different. -/
theorem C111_requests (x x' : Swiss.Variable) (t t' : Instant) (h : UsualTime t) (h' : UsualTime t') (hr : IsRunTime t)
    (hr' : IsRunTime t') (e : Swiss.filesRequest .iconCh1 x t = Swiss.filesRequest .iconCh1 x' t') : x = x' ∧ t = t' := by
  rw [filesRequest_eq, filesRequest_eq] at e
  simp only [Res.ok.injEq, Swiss.Request.mk.injEq, Option.some.injEq, true_and, and_true] at e
  refine ⟨published_inj e.2, ?_⟩
  have h1 := C108_round_trip t h hr
  rw [e.1, C108_round_trip t' h' hr'] at h1
  exact (Res.ok.inj h1).symm

/-! ## C112: steps -/

/-- The step of a file. -/
def stepOf (i : Item) : SwissSearch.Step :=
  ⟨i.title, ⟨UInt8.ofNat (i.hours / 24), UInt8.ofNat (i.hours % 24)⟩, i.href⟩

theorem hoursOf_stepOf {i : Item} (h : i.WellFormed) : SwissSearch.hoursOf (stepOf i) = i.hours := by
  have h1 : (UInt8.ofNat (i.hours / 24)).toNat = i.hours / 24 := by
    rw [UInt8.toNat_ofNat', Nat.mod_eq_of_lt (by have := h.hours; omega)]
  have h2 : (UInt8.ofNat (i.hours % 24)).toNat = i.hours % 24 := by
    rw [UInt8.toNat_ofNat', Nat.mod_eq_of_lt (by omega)]
  unfold SwissSearch.hoursOf stepOf
  simp only [h1, h2]
  omega

theorem files_found {items : List Item} (hc : ∀ i ∈ items, i.WellFormed) :
    ∃ sorted, SwissSearch.findFiles (items.map fun i => ⟨i.title, i.horizonText, [i.href]⟩) = .ok sorted ∧
      sorted.Perm (items.map stepOf) := by
  obtain ⟨files, sorted, h1, h2, h3⟩ := SwissSearch.C49_files (items.map fun i => ⟨i.title, i.horizonText, [i.href]⟩)
    (by
      intro f hf
      obtain ⟨i, hi, rfl⟩ := List.mem_map.mp hf
      obtain ⟨z, hz, -⟩ := horizon_read (hc i hi)
      exact ⟨⟨z, hz⟩, by simp⟩)
    (by
      intro f hf h e
      obtain ⟨i, hi, rfl⟩ := List.mem_map.mp hf
      obtain ⟨z, hz, hl⟩ := horizon_read (hc i hi)
      rw [show Horizon.fromStr i.horizonText = .ok h from e] at hz
      cases hz
      rw [hl]
      exact (hc i hi).hours)
  refine ⟨sorted, h2, ?_⟩
  have : files = items.map stepOf := by
    clear h2 h3
    induction items generalizing files with
    | nil => cases h1; rfl
    | cons i items ih =>
      cases h1 with
      | cons a b =>
        rw [List.map_cons, ← ih (fun j hj => hc j (by simp [hj])) _ b]
        congr 1
        obtain ⟨a1, a2, a3⟩ := a
        have e2 := a2.symm.trans ((congrArg Horizon.fromStr (horizonText_eq (hc i (by simp)))).trans (C47_text _))
        rename_i s _
        cases s
        simp only [List.head?_cons, Option.some.injEq] at a1 a3
        injection e2 with e2
        simp only at e2
        subst a1 a3 e2
        rfl
  rw [← this]
  exact h3.perm

/-- C112: if the catalogue has the files of the hours 0, 1, ..., each once, for a variable of a run, then the steps are
these files, each with its hour as number. -/
theorem C112_steps (web : Swiss.Web) (catalogue : List Item) (hw : Searches web catalogue)
    (hc : ∀ i ∈ catalogue, i.WellFormed) (x : Swiss.Variable) (t : Instant) (h : UsualTime t) (hr : IsRunTime t)
    (count : Nat) (hh : ((filesOf catalogue x t).map (·.hours)).Perm (List.range count)) (skip : Bool) :
    ∃ steps, Swiss.steps web.service t x skip = .ok steps ∧ ∀ k url, (⟨k, url⟩ : RunStep) ∈ steps ↔
      (skip = true → 1 ≤ k) ∧ ∃ i ∈ filesOf catalogue x t, i.hours = k ∧ i.href = url := by
  have hc' : ∀ i ∈ filesOf catalogue x t, i.WellFormed := fun i hi => hc i (List.mem_of_mem_filter hi)
  obtain ⟨sorted, h1, h2⟩ := files_found hc'
  refine ⟨SwissSearch.runSteps sorted skip, ?_, fun k url => ?_⟩
  · unfold Swiss.steps
    rw [C111_files web catalogue hw x t h hr, Res.bind_ok, h1, Res.bind_ok]
  have hp : (sorted.map SwissSearch.hoursOf).Perm (List.range sorted.length) := by
    have e : (filesOf catalogue x t).map (SwissSearch.hoursOf ∘ stepOf) = (filesOf catalogue x t).map (·.hours) :=
      List.map_congr_left fun i hi => hoursOf_stepOf (hc' i hi)
    have hl : sorted.length = count := by
      rw [h2.length_eq, List.length_map]
      have := hh.length_eq
      rwa [List.length_map, List.length_range] at this
    rw [hl]
    refine ((h2.map SwissSearch.hoursOf).trans ?_).trans hh
    rw [List.map_map, e]
  obtain ⟨c1, c2⟩ := SwissSearch.C50_numbers_partial _ sorted h1 hp skip
  constructor
  · intro hk
    refine ⟨?_, ?_⟩
    · obtain ⟨_, -, -, h⟩ := (SwissSearch.mem_runSteps sorted skip _).mp hk
      exact h
    · obtain ⟨s, hs, e1, e2⟩ := c1 _ hk
      obtain ⟨i, hi, rfl⟩ := List.mem_map.mp (h2.mem_iff.mp hs)
      exact ⟨i, hi, by rw [← hoursOf_stepOf (hc' i hi)]; exact e2, e1.symm⟩
  · rintro ⟨hs, i, hi, rfl, rfl⟩
    have := c2 (stepOf i) (h2.mem_iff.mpr (List.mem_map_of_mem hi)) (by
      rw [hoursOf_stepOf (hc' i hi)]
      intro e
      have := hs e
      omega)
    rw [hoursOf_stepOf (hc' i hi)] at this
    exact this

end Verif.Props
