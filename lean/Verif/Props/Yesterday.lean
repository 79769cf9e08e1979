import Verif.Props.Later

/-!
# C190: without a complete run of today, the newest complete run of yesterday is used
-/

namespace Verif.Props

open Verif MapTileRenderer
open Verif.Dwd

/-- C190 holds where yesterday's run of 21 UTC is complete and the model is ICON-D2: it is the newest complete run of yesterday,
and it is the one found. -/
theorem C190_partial (available : Text → Bool) (today now : Date)
    (hno : ∀ name ∈ runNames, ¬Complete available ⟨.iconD2, today, name⟩)
    (h21 : Complete available ⟨.iconD2, now.yesterday, "21".toList⟩) :
    Newest available .iconD2 now.yesterday "21".toList ∧
      findLatestRun .iconD2 today now available = .ok ⟨.iconD2, now.yesterday, "21".toList⟩ := by
  refine ⟨⟨by decide +kernel, h21, ?_⟩, ?_⟩
  · intro n hn hlt
    exfalso
    revert n
    decide +kernel
  · rcases C51_cases (.inl rfl) available today now with ⟨n, hn, _⟩ | ⟨_, h⟩
    · exact absurd hn.2.1 (hno n hn.1)
    · exact h

/-- C190 fails: the files of yesterday are never looked at.  Without a complete run of today, the run found is the same whatever of
yesterday is on the server. -/
theorem C190_blind {m : FcModel} (hm : IsDwd m) (available : Text → Bool) (today now : Date)
    (hno : ∀ name ∈ runNames, ¬Complete available ⟨m, today, name⟩) :
    findLatestRun m today now available = .ok ⟨.iconD2, now.yesterday, "21".toList⟩ := by
  rcases C51_cases hm available today now with ⟨n, hn, _⟩ | ⟨_, h⟩
  · exact absurd hn.2.1 (hno n hn.1)
  · exact h

/-- All files of such a call, for either model, lie in the directory of the run of 21 UTC of ICON-D2. -/
theorem C190_call {e : Environment} {model : Text} {m : FcModel}
    (hm : model = "icon-d2".toList ∧ m = .iconD2 ∨ model = "icon-eu".toList ∧ m = .iconEu)
    (hno : ∀ name ∈ runNames, ¬Complete e.available ⟨m, e.today, name⟩) {vars : List Text} {filter : List Nat} {tr : List Write}
    {o : Outcome} (h : mainEffect e model vars filter tr o) :
    ∀ x ∈ tr, runDir FcModel.iconD2.name e.now.yesterday "21".toList <+: x.path := by
  have hd : IsDwd m := by rcases hm with ⟨-, rfl⟩ | ⟨-, rfl⟩; exacts [.inl rfl, .inr rfl]
  exact dwd_dir hm (C190_blind hd _ _ _ hno) h

/-- Its hypothesis can be met: nothing is on the server yet. -/
example (e : Environment) : ∀ name ∈ runNames,
    ¬Complete { e with available := fun _ => false }.available ⟨.iconEu, { e with available := fun _ => false }.today, name⟩ := by
  intro name _ hc
  obtain ⟨url, _, h⟩ := hc (.level .clc 78 65) (List.mem_cons_self ..)
  cases h

theorem complete_only {run run' : Run} (h : UsualRun run) (h' : UsualRun run') {available : Text → Bool}
    (ha : ∀ url, available url = true → ∃ r, fileUrl run r = .ok url) (hc : Complete available run') : run' = run := by
  obtain ⟨url, hu, hav⟩ := hc (.level .clc (lastHour run'.model) 65) (List.mem_cons_self ..)
  obtain ⟨r, hr⟩ := ha url hav
  exact (C52_injective h' h _ r hu hr).1

/-- On every day, for every model and every earlier run of yesterday: if that run is all that is on the server, it is the
newest complete run there is; yet the run found is the one of 21 UTC of ICON-D2, of which no file is on the server. -/
theorem C190_counterexample {m : FcModel} (hm : IsDwd m) {today : Date} (ht : today.Usual) (hy : today.yesterday.Usual)
    {name : Text} (hn : name ∈ runNames) (hne : name ≠ "21".toList) :
    ∃ available : Text → Bool,
      (∀ r, ∃ url, fileUrl ⟨m, today.yesterday, name⟩ r = .ok url ∧ available url = true) ∧
      Newest available m today.yesterday name ∧
      findLatestRun m today today available = .ok ⟨.iconD2, today.yesterday, "21".toList⟩ ∧
      ∀ r, ∃ url, fileUrl ⟨.iconD2, today.yesterday, "21".toList⟩ r = .ok url ∧ available url = false := by
  classical
  let run : Run := ⟨m, today.yesterday, name⟩
  have hu : UsualRun run := ⟨hm, hy, hn⟩
  let av : Text → Bool := fun t => decide (∃ r, fileUrl run r = .ok t)
  have hav : ∀ url, av url = true → ∃ r, fileUrl run r = .ok url := fun url h => of_decide_eq_true h
  have hall : ∀ r, ∃ url, fileUrl run r = .ok url ∧ av url = true := by
    intro r
    obtain ⟨url, hurl, _⟩ := C52_download (run := run) hm r
    exact ⟨url, hurl, decide_eq_true ⟨r, hurl⟩⟩
  have h21 : "21".toList ∈ runNames := by decide +kernel
  have hd : today ≠ today.yesterday := by
    intro h
    rcases (C51_yesterday ht.1).2 with ⟨h1, -⟩ | ⟨-, -, ⟨h1, -⟩ | ⟨-, -, h1⟩⟩
    · rw [← h] at h1; omega
    · rw [← h] at h1; omega
    · rw [← h] at h1; omega
  refine ⟨av, hall, ⟨hn, fun r _ => hall r, ?_⟩, ?_, ?_⟩
  · intro n hn' hlt hc
    have := complete_only hu (run' := ⟨m, today.yesterday, n⟩) ⟨hm, hy, hn'⟩ hav hc
    injection this with _ _ h3
    subst h3
    exact absurd hlt (lt_irrefl _)
  · refine C190_blind hm av today today ?_
    intro n hn' hc
    have := complete_only hu (run' := ⟨m, today, n⟩) ⟨hm, ht, hn'⟩ hav hc
    injection this with _ h2 _
    exact hd h2
  · intro r
    obtain ⟨url, hurl, _⟩ := C52_download (run := ⟨.iconD2, today.yesterday, "21".toList⟩) (.inl rfl) r
    refine ⟨url, hurl, decide_eq_false ?_⟩
    rintro ⟨r', h⟩
    have := (C52_injective (run := ⟨.iconD2, today.yesterday, "21".toList⟩) ⟨.inl rfl, hy, h21⟩ hu r r' hurl h).1
    injection this with _ _ h3
    exact hne h3.symm

/-- The hypotheses of `C190_counterexample` on 1 March 2024 with the run of 18 UTC of the leap day. -/
example : Date.Usual ⟨2024, 3, 1⟩ ∧ (Date.yesterday ⟨2024, 3, 1⟩) = ⟨2024, 2, 29⟩ ∧ Date.Usual ⟨2024, 2, 29⟩ ∧
    "18".toList ∈ runNames ∧ "18".toList ≠ "21".toList := by
  refine ⟨⟨by decide +kernel, by norm_num, by norm_num⟩, by decide +kernel, ⟨by decide +kernel, by norm_num, by norm_num⟩,
    by decide +kernel, by decide +kernel⟩

/-- The hypotheses of `C190_partial`: on the server there is only the run of 21 UTC of 4 August 2025. -/
example : ∃ available : Text → Bool, (∀ name ∈ runNames, ¬Complete available ⟨.iconD2, ⟨2025, 8, 5⟩, name⟩) ∧
    Complete available ⟨.iconD2, Date.yesterday ⟨2025, 8, 5⟩, "21".toList⟩ := by
  classical
  let run : Run := ⟨.iconD2, ⟨2025, 8, 4⟩, "21".toList⟩
  have hu : UsualRun run := ⟨.inl rfl, ⟨by decide +kernel, by norm_num, by norm_num⟩, by decide +kernel⟩
  have u5 : Date.Usual ⟨2025, 8, 5⟩ := ⟨by decide +kernel, by norm_num, by norm_num⟩
  refine ⟨fun t => decide (∃ r, fileUrl run r = .ok t), ?_, ?_⟩
  · intro n hn hc
    have := complete_only hu (run' := ⟨.iconD2, ⟨2025, 8, 5⟩, n⟩) ⟨.inl rfl, u5, hn⟩
      (fun url h => of_decide_eq_true h) hc
    injection this with _ h2 _
    exact absurd h2 (by decide)
  · intro r _
    obtain ⟨url, hurl, _⟩ := C52_download (run := run) (.inl rfl) r
    exact ⟨url, hurl, decide_eq_true ⟨r, hurl⟩⟩

end Verif.Props
