import Verif.Props.CommandLine
import Verif.Props.SwissNeeds
import Verif.Props.DownloadsDemo

/-!
# C161 - C165: what a call depends on, and where it writes
-/

namespace Verif.Props

open Verif CommandLine MapTileRenderer

/-! ## C161: order and repetition -/

theorem selected_congr {filter filter' : List Nat} (h : ∀ n, n ∈ filter ↔ n ∈ filter') : selected filter = selected filter' := by
  funext s
  rw [Bool.eq_iff_iff, selected_iff, selected_iff]
  unfold Chosen
  rw [h]
  have : filter = [] ↔ filter' = [] := by
    rw [List.eq_nil_iff_forall_not_mem, List.eq_nil_iff_forall_not_mem]
    exact forall_congr' fun n => not_congr (h n)
  rw [this]

theorem variableChosen_congr {vars vars' : List Text} (h : ∀ n, n ∈ vars ↔ n ∈ vars') :
    variableChosen vars = variableChosen vars' := by
  funext v
  rw [Bool.eq_iff_iff, variableChosen_iff, variableChosen_iff]
  unfold ChosenVar
  rw [h]
  have : vars = [] ↔ vars' = [] := by
    rw [List.eq_nil_iff_forall_not_mem, List.eq_nil_iff_forall_not_mem]
    exact forall_congr' fun n => not_congr (h n)
  rw [this]

theorem vertical_congr {vars vars' : List Text} (h : ∀ n, n ∈ vars ↔ n ∈ vars') :
    (vars.isEmpty || vars.contains LayerType.verticalCloud.name || vars.contains LayerType.verticalWind.name) =
      (vars'.isEmpty || vars'.contains LayerType.verticalCloud.name || vars'.contains LayerType.verticalWind.name) := by
  rw [Bool.eq_iff_iff, vertical_cond, vertical_cond, ← variableChosen_iff, ← variableChosen_iff, ← variableChosen_iff,
    ← variableChosen_iff, variableChosen_congr h]

theorem renderSteps_filter {filter filter' : List Nat} {steps : List RunStep}
    (h : ∀ s ∈ steps, selected filter s = selected filter' s) (m : Libm) (run : Run) (dirs : Text → Bool)
    (read : RunStep → Res Layers) :
    renderSteps m run dirs steps filter read = renderSteps m run dirs steps filter' read := by
  have key : ∀ s ∈ steps, ∀ tr o, runStep m run dirs filter read s tr o ↔ runStep m run dirs filter' read s tr o := by
    intro s hs tr o
    unfold runStep
    rw [h s hs]
  funext tr o
  exact propext ⟨parTry_mono fun s hs tr o => (key s hs tr o).mp, parTry_mono fun s hs tr o => (key s hs tr o).mpr⟩

/-- C161: a call depends only on which names and which step numbers are given, not on their order or repetitions. -/
theorem C161_sets (e : Environment) (model : Text) {vars vars' : List Text} {filter filter' : List Nat}
    (hv : ∀ n, n ∈ vars ↔ n ∈ vars') (hf : ∀ n, n ∈ filter ↔ n ∈ filter') :
    mainEffect e model vars filter = mainEffect e model vars' filter' := by
  have h1 := variableChosen_congr hv
  have h2 := vertical_congr hv
  have h3 := fun steps => renderSteps_filter (steps := steps) (fun s _ => congrFun (selected_congr hf) s)
  have hd : ∀ run, Dwd.renderRun e.libm e.world e.dirs vars filter run = Dwd.renderRun e.libm e.world e.dirs vars' filter' run := by
    intro run
    unfold Dwd.renderRun Dwd.renderCloudPrecip Dwd.renderWind Dwd.renderTemp Dwd.renderVerticalCloud Dwd.renderVerticalWind
    simp only [h1, h2, h3]
  have hs : ∀ grid url t, Swiss.renderRun e.libm e.world e.service e.calendar e.dirs vars filter grid url t =
      Swiss.renderRun e.libm e.world e.service e.calendar e.dirs vars' filter' grid url t := by
    intro grid url t
    unfold Swiss.renderRun Swiss.renderCloudPrecip Swiss.renderWind Swiss.renderTemp Swiss.renderVerticalCloud
      Swiss.renderVerticalWind
    simp only [h1, h2, h3]
  unfold mainEffect Swiss.renderLatest Dwd.renderLatest
  have hd := funext hd
  simp only [hs, hd]

/-- C161: two accepted command lines with the same model, names and step numbers do the same. -/
theorem C161_lines (e : Environment) {ts ts' : List Text} {a a' : Args} (h : Says ts a) (h' : Says ts' a')
    (hm : a.model = a'.model) (hv : ∀ n, n ∈ a.vars ↔ n ∈ a'.vars) (hs : ∀ n, n ∈ a.steps ↔ n ∈ a'.steps) :
    call e ts = call e ts' ∧ ∀ o, callStatus ts o = callStatus ts' o := by
  obtain ⟨c1, c2⟩ := (C160_call e ts).1 a h
  obtain ⟨c1', c2'⟩ := (C160_call e ts').1 a' h'
  exact ⟨by rw [c1, c1', hm, C161_sets e _ hv hs], fun o => by rw [c2, c2']⟩

example (e : Environment) : call e (["-m", "icon-eu", "-v", "wind_10m", "temp_2m", "-s", "3", "4", "3"].map String.toList) =
    call e (["-s", "4", "3", "-m", "icon-eu", "-v", "temp_2m", "-v", "wind_10m"].map String.toList) := by
  refine (C161_lines e (a := ⟨"icon-eu".toList, ["wind_10m".toList, "temp_2m".toList], [3, 4, 3]⟩)
    (a' := ⟨"icon-eu".toList, ["temp_2m".toList, "wind_10m".toList], [4, 3]⟩) ((C160_accepted_iff _ _).mp (by decide +kernel))
    ((C160_accepted_iff _ _).mp (by decide +kernel)) rfl ?_ ?_).1
  · intro n; simp only [List.mem_cons, List.not_mem_nil, or_false]; exact or_comm
  · intro n; simp only [List.mem_cons, List.not_mem_nil, or_false]; tauto

/-! ## C162: steps that do not exist -/

/-- Without a selected step, rendering the steps of a variable does nothing and succeeds. -/
theorem renderSteps_none {m : Libm} {run : Run} {dirs : Text → Bool} {steps : List RunStep} {filter : List Nat}
    {read : RunStep → Res Layers} (h : ∀ s ∈ steps, ¬ Chosen filter s) (tr : List Write) (o : Outcome) :
    renderSteps m run dirs steps filter read tr o ↔ tr = [] ∧ o = .done := by
  have hstep : ∀ s ∈ steps, ∀ t o, runStep m run dirs filter read s t o ↔ t = [] ∧ o = .done := by
    intro s hs t o
    unfold runStep
    rw [if_neg (fun hc => h s hs ((selected_iff _ _).mp hc))]
  constructor
  · intro hr
    have htr : tr = [] := by
      rw [List.eq_nil_iff_forall_not_mem]
      intro x hx
      obtain ⟨s, hs, t, o', hw, hxt⟩ := parTry_any hr x hx
      rw [((hstep s hs t o').mp hw).1] at hxt
      cases hxt
    refine ⟨htr, ?_⟩
    cases o with
    | done => rfl
    | failed => obtain ⟨s, hs, t, hw⟩ := parTry_failed hr; exact absurd ((hstep s hs t _).mp hw).2 (by simp)
    | panicked => obtain ⟨s, hs, t, hw⟩ := parTry_panicked hr; exact absurd ((hstep s hs t _).mp hw).2 (by simp)
  · rintro ⟨rfl, rfl⟩
    obtain ⟨tr, htr⟩ := parTry_exists_done (work := runStep m run dirs filter read) (items := steps)
      fun s hs => ⟨[], (hstep s hs _ _).mpr ⟨rfl, rfl⟩⟩
    have : tr = [] := by
      rw [List.eq_nil_iff_forall_not_mem]
      intro x hx
      obtain ⟨s, hs, t, o', hw, hxt⟩ := parTry_any htr x hx
      rw [((hstep s hs t o').mp hw).1] at hxt
      cases hxt
    rw [this] at htr
    exact htr

/-- C162 (step numbers that do not exist are reported) is false: in every environment, a call for one of the three variables of a
single level and only such numbers does nothing, succeeds and ends with status 0. -/
theorem C162_counterexample (e : Environment) (v : LayerType) (hv : v ∈ [LayerType.cloudPrecip, .wind10m, .temp2m]) (n : Nat)
    (hn : n < 2 ∨ 48 < n) (tr : List Write) (o : Outcome) :
    (mainEffect e "icon-d2".toList [v.name] [n] tr o ↔ tr = [] ∧ o = .done) ∧ exitStatus .done = 0 := by
  refine ⟨?_, rfl⟩
  have hne : "icon-ch1".toList ≠ "icon-d2".toList := by decide +kernel
  unfold mainEffect
  rw [if_neg hne.symm, if_pos rfl]
  unfold Dwd.renderLatest
  obtain ⟨run, hr, hrm⟩ : ∃ run, Dwd.findLatestRun .iconD2 e.today e.now e.available = .ok run ∧ run.model = .iconD2 := by
    rcases Dwd.C51_cases (.inl rfl) e.available e.today e.now with ⟨_, _, h⟩ | ⟨_, h⟩ <;> exact ⟨_, h, rfl⟩
  rw [hr]
  show Dwd.renderRun _ _ _ _ _ _ tr o ↔ _
  have hnone : ∀ s ∈ run.model.forecastSteps, ¬ Chosen [n] s := by
    intro s hs
    rw [hrm] at hs
    unfold FcModel.forecastSteps at hs
    obtain ⟨k, hk, rfl⟩ := List.mem_map.mp hs
    have hk := mem_rangeIncl.mp hk
    have a1 : (2 : Nat) ≤ k := hk.1
    have a2 : k ≤ 48 := hk.2
    rintro (h | h)
    · cases h
    · simp only [List.mem_singleton] at h
      omega
  have hsteps := fun read => renderSteps_none (m := e.libm) (run := run) (dirs := e.dirs) (read := read) hnone
  have hc : Dwd.renderCloudPrecip e.libm e.world e.dirs [n] run = fun tr o => tr = [] ∧ o = .done := by
    unfold Dwd.renderCloudPrecip
    obtain ⟨x, hx⟩ : ∃ x, run.model.forecastDiffSteps = .ok x := by rw [hrm]; exact ⟨_, rfl⟩
    rw [hx]
    funext tr o
    exact propext (hsteps _ tr o)
  have hw : Dwd.renderWind e.libm e.world e.dirs [n] run = fun tr o => tr = [] ∧ o = .done := by
    funext tr o; exact propext (hsteps _ tr o)
  have ht : Dwd.renderTemp e.libm e.world e.dirs [n] run = fun tr o => tr = [] ∧ o = .done := by
    funext tr o; exact propext (hsteps _ tr o)
  have hvert : ([v.name].isEmpty || [v.name].contains LayerType.verticalCloud.name ||
      [v.name].contains LayerType.verticalWind.name) = false := by
    simp only [List.mem_cons, List.not_mem_nil, or_false] at hv
    rcases hv with rfl | rfl | rfl <;> decide +kernel
  unfold Dwd.renderRun
  rw [hc, hw, ht, hvert]
  have hwhen : ∀ c, Effect.when c (fun tr o => tr = [] ∧ o = .done) = fun tr o => tr = [] ∧ o = .done := by
    intro c; unfold Effect.when; split <;> rfl
  rw [hwhen, hwhen, hwhen]
  exact seq_nothing 4 tr o

/-- C162, the part that holds: beside other numbers, numbers that do not exist have no influence. -/
theorem C162_beside_partial (e : Environment) (model : Text) (last : Nat)
    (hm : model = "icon-d2".toList ∧ last = 48 ∨ model = "icon-eu".toList ∧ last = 78) (vars : List Text)
    {filter filter' : List Nat} (h0 : filter ≠ []) (h0' : filter' ≠ [])
    (hf : ∀ n, 2 ≤ n → n ≤ last → (n ∈ filter ↔ n ∈ filter')) :
    mainEffect e model vars filter = mainEffect e model vars filter' := by
  have key : ∀ dwd : FcModel, Dwd.IsDwd dwd → dwd.stepRange.2 ≤ last → 48 ≤ last →
      Dwd.renderLatest e.libm e.world e.dirs e.today e.now e.available dwd vars filter =
        Dwd.renderLatest e.libm e.world e.dirs e.today e.now e.available dwd vars filter' := by
    intro dwd hd hl h48
    unfold Dwd.renderLatest
    refine Effect.need_congr rfl fun run hr => ?_
    have hrun : run.model.stepRange.1 = 2 ∧ run.model.stepRange.2 ≤ last := by
      rcases Dwd.C51_cases hd e.available e.today e.now with ⟨name, -, h⟩ | ⟨-, h⟩
      · rw [h] at hr
        cases hr
        refine ⟨?_, hl⟩
        rcases hd with rfl | rfl <;> rfl
      · rw [h] at hr
        cases hr
        exact ⟨rfl, h48⟩
    have hsel : ∀ s ∈ run.model.forecastSteps, selected filter s = selected filter' s := by
      intro s hs
      unfold FcModel.forecastSteps at hs
      obtain ⟨k, hk, rfl⟩ := List.mem_map.mp hs
      have hk := mem_rangeIncl.mp hk
      rw [Bool.eq_iff_iff, selected_iff, selected_iff]
      unfold Chosen
      simp only [h0, h0', false_or]
      exact hf k (by omega) (by omega)
    have h3 := renderSteps_filter hsel
    unfold Dwd.renderRun Dwd.renderCloudPrecip Dwd.renderWind Dwd.renderTemp Dwd.renderVerticalCloud Dwd.renderVerticalWind
    simp only [h3]
  have hne : "icon-ch1".toList ≠ "icon-d2".toList ∧ "icon-ch1".toList ≠ "icon-eu".toList ∧
      "icon-d2".toList ≠ "icon-eu".toList := by decide +kernel
  unfold mainEffect
  rcases hm with ⟨rfl, rfl⟩ | ⟨rfl, rfl⟩
  · rw [if_neg hne.1.symm, if_neg hne.1.symm, if_pos rfl, if_pos rfl]
    exact key _ (.inl rfl) (le_refl _) (le_refl _)
  · rw [if_neg hne.2.1.symm, if_neg hne.2.1.symm, if_neg hne.2.2.symm, if_neg hne.2.2.symm, if_pos rfl, if_pos rfl]
    exact key _ (.inr rfl) (le_refl _) (by norm_num)

example (e : Environment) : mainEffect e "icon-d2".toList ["temp_2m".toList] [1, 5, 100] =
    mainEffect e "icon-d2".toList ["temp_2m".toList] [5] :=
  C162_beside_partial e _ 48 (.inl ⟨rfl, rfl⟩) _ (by simp) (by simp) fun n h1 h2 => by
    simp only [List.mem_cons, List.not_mem_nil, or_false]; omega

/-! ## C163: where files are written -/

/-- A part of a path that names something below: letters, digits and some signs, not beginning with a dot. -/
def Harmless (part : Text) : Prop :=
  part ≠ [] ∧ part.head? ≠ some '.' ∧ ∀ c ∈ part, c.isAlphanum = true ∨ c ∈ ['_', '-', '+', '.']

/-- A path below the directory of outputs, in the directory of one of the models. -/
def InOutput (path : Text) : Prop :=
  ∃ model ∈ ["icon-ch1".toList, "icon-d2".toList, "icon-eu".toList], ∃ parts, parts ≠ [] ∧ (∀ p ∈ parts, Harmless p) ∧
    path = "./output/".toList ++ List.intercalate ['/'] (model :: parts)

theorem harmless_digits {t : Text} (h : ∀ c ∈ t, c.isDigit = true) (h0 : t ≠ []) : Harmless t := by
  refine ⟨h0, ?_, fun c hc => .inl ?_⟩
  · cases t with
    | nil => simp
    | cons c t =>
      have := h c (by simp)
      intro e
      injection e with e
      rw [e] at this
      exact absurd this (by decide)
  · have := h c hc
    simp [Char.isAlphanum, this]

theorem Harmless.append {s t : Text} (hs : Harmless s) (ht : ∀ c ∈ t, c.isAlphanum = true ∨ c ∈ ['_', '-', '+', '.']) :
    Harmless (s ++ t) := by
  obtain ⟨h1, h2, h3⟩ := hs
  refine ⟨by simp [h1], ?_, ?_⟩
  · cases s with
    | nil => exact absurd rfl h1
    | cons c s => exact h2
  · intro c hc
    rcases List.mem_append.mp hc with hc | hc
    · exact h3 c hc
    · exact ht c hc

theorem harmless_fmt (d : Date) : Harmless d.fmt := by
  unfold Date.fmt Date.fmtYear
  have hd : ∀ k n, ∀ c ∈ decPad k n, c.isAlphanum = true ∨ c ∈ ['_', '-', '+', '.'] := by
    intro k n c hc
    have := decPad_digits k n c hc
    exact .inl (by simp [Char.isAlphanum, this])
  refine Harmless.append (Harmless.append ?_ (hd _ _)) (hd _ _)
  split
  · exact harmless_digits (decPad_digits _ _) (decPad_ne_nil _ _)
  · refine ⟨by simp, ?_, ?_⟩
    · split <;> simp
    · intro c hc
      rcases List.mem_cons.mp hc with rfl | hc
      · split <;> simp
      · exact hd _ _ c hc

theorem harmless_subdir (o : Output) : Harmless o.parts.1 := by
  have key : ∀ l : LayerType, Harmless l.subdir := by
    intro l
    refine ⟨?_, ?_, ?_⟩ <;> cases l <;> decide +kernel
  cases o with
  | cloudPrecipTile t => exact key .cloudPrecip
  | windTile t => exact key .wind10m
  | tempTile t => exact key .temp2m
  | bin b => exact key b.layer

/-- The parts of the path of an output below its directory. -/
theorem output_rest (o : Output) : ∃ parts, parts ≠ [] ∧ (∀ p ∈ parts, Harmless p) ∧ o.parts.2 = List.intercalate ['/'] parts := by
  have tile : ∀ t : MapTileCoord, ∃ parts, parts ≠ [] ∧ (∀ p ∈ parts, Harmless p) ∧
      dec t.zoom ++ '/' :: (dec t.x ++ '/' :: (dec t.y ++ ['.', 'p', 'n', 'g'])) = List.intercalate ['/'] parts := by
    intro t
    have hd : ∀ n, Harmless (dec n) := fun n => harmless_digits (dec_digits n) (dec_ne_nil n)
    refine ⟨[dec t.zoom, dec t.x, dec t.y ++ ['.', 'p', 'n', 'g']], by simp, ?_, by simp [List.intercalate]⟩
    intro p hp
    simp only [List.mem_cons, List.not_mem_nil, or_false] at hp
    rcases hp with rfl | rfl | rfl
    · exact hd _
    · exact hd _
    · exact (hd _).append (by decide)
  cases o with
  | cloudPrecipTile t => exact tile t
  | windTile t => exact tile t
  | tempTile t => exact tile t
  | bin b =>
    refine ⟨[b.file], by simp, ?_, by simp [List.intercalate, Output.parts]⟩
    intro p hp
    rw [List.mem_singleton.mp hp]
    refine ⟨?_, ?_, ?_⟩ <;> cases b <;> decide +kernel

theorem output_inOutput {run : Run} (hm : run.model.name ∈ ["icon-ch1".toList, "icon-d2".toList, "icon-eu".toList])
    (hn : ∀ c ∈ run.name, c.isDigit = true) (step : Nat) (o : Output) : InOutput (o.path run step) := by
  obtain ⟨parts, h0, hp, he⟩ := output_rest o
  refine ⟨run.model.name, hm, (run.date.fmt ++ run.name) :: decPad 3 step :: o.parts.1 :: parts, by simp, ?_, ?_⟩
  · intro p hp'
    simp only [List.mem_cons] at hp'
    rcases hp' with rfl | rfl | rfl | hp'
    · exact (harmless_fmt _).append fun c hc => .inl (by simp [Char.isAlphanum, hn c hc])
    · exact harmless_digits (decPad_digits _ _) (decPad_ne_nil _ _)
    · exact harmless_subdir o
    · exact hp p hp'
  · rw [Output.path_eq, he]
    obtain ⟨q, qs, rfl⟩ := List.exists_cons_of_ne_nil h0
    simp [List.intercalate]

/-- C163: whatever the servers answer and whatever else happens, a call writes only below the directory of outputs. -/
theorem C163_below (e : Environment) (ts : List Text) (tr : List Write) (o : Outcome) (h : call e ts tr o) :
    ∀ x ∈ tr, InOutput x.path := by
  intro x hx
  unfold call at h
  cases hp : parseArgs ts with
  | info => rw [hp] at h; rw [h.1] at hx; cases hx
  | error => rw [hp] at h; rw [h.1] at hx; cases hx
  | args a =>
    rw [hp] at h
    rcases (C87_main e a.model a.vars a.steps tr).1 o h x hx with ⟨dwd, hd, run, hr, v, -, s, -, -, l, -, out, -, hpath⟩ |
      ⟨-, assets, hor, vert, grid, times, t, -, -, -, -, -, -, v, -, run, steps, hr, -, s, -, -, l, -, out, -, hpath⟩
    · rw [hpath]
      have hd : Dwd.IsDwd dwd := by rcases hd with ⟨-, h⟩ | ⟨-, h⟩; exacts [.inl h, .inr h]
      rcases Dwd.C51_cases hd e.available e.today e.now with ⟨name, hn, h⟩ | ⟨-, h⟩
      · rw [h] at hr
        cases hr
        refine output_inOutput ?_ ?_ _ _
        · show dwd.name ∈ _
          rcases hd with rfl | rfl <;> decide +kernel
        · have key : ∀ n ∈ Dwd.runNames, ∀ c ∈ n, c.isDigit = true := by decide +kernel
          exact key name hn.1
      · rw [h] at hr
        cases hr
        exact output_inOutput (by show FcModel.iconD2.name ∈ _; decide +kernel)
          (by show ∀ c ∈ "21".toList, _; decide +kernel) _ _
    · rw [hpath]
      unfold Swiss.forecastRun at hr
      obtain ⟨name, hn, hr⟩ := bind_ok' hr
      cases hr
      refine output_inOutput (by show FcModel.iconCh1.name ∈ _; decide +kernel) ?_ _ _
      show ∀ c ∈ name, _
      unfold RefTime.runName at hn
      split at hn <;> cases hn <;> decide +kernel

/-- C163: all other files stay as they are. -/
theorem C163_others (e : Environment) (ts : List Text) (tr : List Write) (o : Outcome) (h : call e ts tr o) (before : Tree)
    (p : Text) (hp : ¬ InOutput p) : before.write tr p = before p :=
  (before.write_eq tr p).2 fun x hx e' => hp (e' ▸ C163_below e ts tr o h x hx)

example : ¬ InOutput "/etc/passwd".toList := by
  rintro ⟨m, _, parts, _, _, h⟩
  exact absurd (congrArg List.head? h) (by simp)

/-! ## C164: a DWD call depends on the server of DWD only -/

/-- The address of the server. -/
def dwdServer : Text := "https://opendata.dwd.de/weather/nwp/".toList

theorem fileUrl_server {run : Run} {r : Dwd.Req} {url : Text} (h : Dwd.fileUrl run r = .ok url) : dwdServer <+: url := by
  have hb : ∀ {m base}, Dwd.baseUrl m = .ok base → dwdServer <+: base := by
    intro m base h
    cases m <;> cases h <;> decide +kernel
  cases r with
  | single x step =>
    obtain ⟨ps, -, h⟩ := bind_ok' h
    obtain ⟨base, h1, h⟩ := bind_ok' h
    cases h
    simp only [List.append_assoc]
    exact (hb h1).trans (List.prefix_append _ _)
  | level x step level =>
    obtain ⟨ps, -, h⟩ := bind_ok' h
    obtain ⟨base, h1, h⟩ := bind_ok' h
    cases h
    simp only [List.append_assoc]
    exact (hb h1).trans (List.prefix_append _ _)
  | hhl level =>
    obtain ⟨ps, -, h⟩ := bind_ok' h
    obtain ⟨base, h1, h⟩ := bind_ok' h
    obtain ⟨st, -, h⟩ := bind_ok' h
    cases h
    simp only [List.append_assoc]
    exact (hb h1).trans (List.prefix_append _ _)

/-- The two environments have the same mathematical functions, directories, clock and decompression, and the same server of DWD;
everything else may differ: other servers, the web service of MeteoSwiss, local files. -/
structure SameDwd (e e' : Environment) : Prop where
  libm : e.libm = e'.libm
  dirs : e.dirs = e'.dirs
  today : e.today = e'.today
  now : e.now = e'.now
  bunzip : e.world.bunzip = e'.world.bunzip
  download : ∀ url, dwdServer <+: url → e.world.download url = e'.world.download url
  available : ∀ url, dwdServer <+: url → e.available url = e'.available url

theorem SameDwd.stream {e e' : Environment} (h : SameDwd e e') {url : Text} (hu : dwdServer <+: url) :
    e.world.stream url = e'.world.stream url := by
  have : Dwd.isUrl url = true := by
    obtain ⟨t, rfl⟩ := hu
    rfl
  unfold World.stream
  rw [if_pos this, if_pos this, h.download url hu, h.bunzip]

theorem forall₂_mem_right {α β : Type} {R : α → β → Prop} {l : List α} {bs : List β} (h : List.Forall₂ R l bs) :
    ∀ b ∈ bs, ∃ a ∈ l, R a b := by
  induction h with
  | nil => intro b hb; cases hb
  | cons h1 _ ih =>
    intro b hb
    rcases List.mem_cons.mp hb with rfl | hb
    · exact ⟨_, by simp, h1⟩
    · obtain ⟨a, ha, hr⟩ := ih b hb
      exact ⟨a, by simp [ha], hr⟩

theorem tryRuns_congr (model : FcModel) (today : Date) {available available' : Text → Bool}
    (h : ∀ url, dwdServer <+: url → available url = available' url) (names : List Text) :
    Dwd.tryRuns model today available names = Dwd.tryRuns model today available' names := by
  induction names with
  | nil => rfl
  | cons name names ih =>
    unfold Dwd.tryRuns
    simp only
    cases hu : Dwd.probeUrls ⟨model, today, name⟩ model.stepRange.2 with
    | err => rfl
    | panic => rfl
    | ok urls =>
      rw [Res.bind_ok, Res.bind_ok, ih]
      have : urls.all available = urls.all available' := by
        rw [Bool.eq_iff_iff, List.all_eq_true, List.all_eq_true]
        refine forall_congr' fun u => forall_congr' fun hu' => ?_
        unfold Dwd.probeUrls at hu
        obtain ⟨r, -, hr⟩ := forall₂_mem_right ((Res.mapM_ok_iff _ _ _).mp hu) u hu'
        rw [h u (fileUrl_server hr)]
      rw [this]

/-- C164: a call for a model of DWD depends on nothing but the server of DWD. -/
theorem C164_only_dwd {e e' : Environment} (h : SameDwd e e') {model : Text}
    (hm : model = "icon-d2".toList ∨ model = "icon-eu".toList) (vars : List Text) (filter : List Nat) :
    mainEffect e model vars filter = mainEffect e' model vars filter := by
  have key : ∀ dwd : FcModel, Dwd.renderLatest e.libm e.world e.dirs e.today e.now e.available dwd vars filter =
      Dwd.renderLatest e'.libm e'.world e'.dirs e'.today e'.now e'.available dwd vars filter := by
    intro dwd
    unfold Dwd.renderLatest
    rw [← h.libm, ← h.dirs, ← h.today, ← h.now]
    refine Effect.need_congr ?_ fun run _ => ?_
    · unfold Dwd.findLatestRun
      rw [tryRuns_congr dwd e.today h.available]
    · funext tr o
      exact propext (C92_dwd e.libm e.world e'.world e.dirs vars filter run
        (fun v _ s _ _ r _ url hu => h.stream (fileUrl_server hu)) (fun _ k _ _ url hu => h.stream (fileUrl_server hu)) tr o)
  have hne : "icon-ch1".toList ≠ "icon-d2".toList ∧ "icon-ch1".toList ≠ "icon-eu".toList ∧
      "icon-d2".toList ≠ "icon-eu".toList := by decide +kernel
  unfold mainEffect
  rcases hm with rfl | rfl
  · rw [if_neg hne.1.symm, if_neg hne.1.symm, if_pos rfl, if_pos rfl]
    exact key _
  · rw [if_neg hne.2.1.symm, if_neg hne.2.1.symm, if_neg hne.2.2.symm, if_neg hne.2.2.symm, if_pos rfl, if_pos rfl]
    exact key _

/-- Environments that differ in everything else: local files, the web service of MeteoSwiss and other servers. -/
example (e : Environment) (file : Text → Option (List UInt8)) (service : Swiss.Service) (vars : List Text) (filter : List Nat) :
    mainEffect { e with world := ⟨fun u => if dwdServer <+: u then e.world.download u else none, file, e.world.bunzip⟩, service }
      "icon-d2".toList vars filter = mainEffect e "icon-d2".toList vars filter := by
  refine C164_only_dwd (e := { e with
    world := ⟨fun u => if dwdServer <+: u then e.world.download u else none, file, e.world.bunzip⟩, service }) (e' := e)
    ⟨rfl, rfl, rfl, rfl, rfl, fun url hu => ?_, fun _ _ => rfl⟩ (.inl rfl) vars filter
  show (if dwdServer <+: url then e.world.download url else none) = _
  rw [if_pos hu]

/-! ## C165: local files -/

/-- All links in the answers of the web service are addresses of web servers. -/
structure WebLinks (s : Swiss.Service) : Prop where
  assets : ∀ assets, s.assets = .ok assets → ∀ a ∈ assets, Dwd.isUrl a.href = true
  files : ∀ x t fs, s.search x t = .ok fs → ∀ f ∈ fs, ∀ href ∈ f.hrefs, Dwd.isUrl href = true

theorem stream_local {w : World} {url : Text} (h : Dwd.isUrl url = true) (file : Text → Option (List UInt8)) :
    w.stream url = ({ w with file := file } : World).stream url := by
  unfold World.stream
  rw [if_pos h, if_pos h]

theorem steps_web {s : Swiss.Service} (h : WebLinks s) {t : Instant} {x : Swiss.Variable} {skip : Bool} {files : List RunStep}
    (hs : Swiss.steps s t x skip = .ok files) : ∀ f ∈ files, Dwd.isUrl f.url = true := by
  obtain ⟨fs, h1, hs⟩ := bind_ok' hs
  obtain ⟨steps, h2, hs⟩ := bind_ok' hs
  cases hs
  intro f hf
  unfold SwissSearch.runSteps at hf
  obtain ⟨p, hp, rfl⟩ := List.mem_map.mp hf
  have hp : p.1 ∈ steps := by
    have := (List.mem_filter.mp hp).1
    obtain ⟨a, i⟩ := p
    exact List.fst_mem_of_mem_zipIdx this
  obtain ⟨un, h3, h4⟩ := bind_ok' h2
  have hp : p.1 ∈ un := by
    unfold SwissSearch.sortSteps at h4
    split at h4
    · cases h4
    · cases h4
      exact (List.mem_insertionSort _).mp hp
  obtain ⟨g, hg, hr⟩ := forall₂_mem_right ((Res.mapM_ok_iff _ _ _).mp h3) p.1 hp
  obtain ⟨ho, -, hr⟩ := bind_ok' hr
  obtain ⟨href, h5, hr⟩ := bind_ok' hr
  have : p.1.href = href := by
    have := Res.ok.inj hr
    rw [← this]
  show Dwd.isUrl p.1.href = true
  rw [this]
  refine h.files x t fs h1 g hg href ?_
  unfold SwissSearch.extractHref at h5
  cases hh : g.hrefs with
  | nil => rw [hh] at h5; cases h5
  | cons a l =>
    rw [hh] at h5
    cases h5
    simp

/-- C165, the part that holds: while all links of the web service are addresses of web servers, local files do not matter. -/
theorem C165_web_partial (e : Environment) (h : WebLinks e.service) (file : Text → Option (List UInt8)) (vars : List Text)
    (filter : List Nat) : mainEffect e "icon-ch1".toList vars filter =
      mainEffect { e with world := { e.world with file := file } } "icon-ch1".toList vars filter := by
  unfold mainEffect
  rw [if_pos rfl, if_pos rfl]
  unfold Swiss.renderLatest
  refine Effect.need_congr rfl fun assets ha => Effect.need_congr rfl fun hor e1 => Effect.need_congr ?_ fun grid _ =>
    Effect.need_congr rfl fun vert e2 => Effect.need_congr rfl fun times _ => Effect.need_congr rfl fun t _ => ?_
  · have hm : hor ∈ assets := List.mem_of_find?_eq_some (unwrap_ok.mp e1)
    unfold Swiss.readHorConst World.readMulti
    rw [stream_local (h.assets _ ha hor hm) file]
  · have hm : vert ∈ assets := List.mem_of_find?_eq_some (unwrap_ok.mp e2)
    exact C129_run e.libm e.world _ e.service e.service e.calendar e.dirs vars filter grid vert.href t (fun _ _ _ _ => rfl)
      (fun v _ steps _ st _ _ x k _ files hs f hf _ => stream_local (steps_web h hs f hf) file)
      fun _ => stream_local (h.assets _ ha vert hm) file

/-- The demonstration service, which offers two steps, links web servers only. -/
example : WebLinks webService := by
  refine ⟨?_, ?_⟩
  · intro assets h a ha
    cases h
    simp only [List.mem_cons, List.not_mem_nil, or_false] at ha
    rcases ha with rfl | rfl <;> decide +kernel
  · intro x t fs h f hf href hr
    cases h
    simp only [List.mem_cons, List.not_mem_nil, or_false] at hf
    rcases hf with rfl | rfl <;> (rw [List.mem_singleton.mp hr]; decide +kernel)

/-- C165 (what a call does, does not depend on local files) is false: a link that is no address of a web server is taken for the
name of a local file. -/
theorem C165_counterexample (m : Libm) (cal : Swiss.Calendar) (vars : List Text) (filter : List Nat) :
    ∃ (service : Swiss.Service) (file : Text → Option (List UInt8)),
      let e : (Text → Option (List UInt8)) → Environment := fun file => ⟨m, ⟨fun _ => none, file, id⟩, service, cal,
        fun _ => false, ⟨2025, 8, 5⟩, ⟨2025, 8, 5⟩, fun _ => false⟩
      (∀ tr o, mainEffect (e fun _ => none) "icon-ch1".toList vars filter tr o ↔ tr = [] ∧ o = .failed) ∧
      (∀ tr o, mainEffect (e file) "icon-ch1".toList vars filter tr o ↔ tr = [] ∧ o = .panicked) := by
  refine ⟨⟨.ok [⟨"horizontal_constants_icon-ch1-eps.grib2".toList, [], "/tmp/positions".toList⟩], .err, fun _ _ => .err⟩,
    fun _ => some ([latMsg].flatMap Spec.Grib2.encode ++ []), fun tr o => ?_, fun tr o => ?_⟩
  · unfold mainEffect
    rw [if_pos rfl]
    rfl
  · refine C131_counterexample_constants _ vars filter _
      ⟨"horizontal_constants_icon-ch1-eps.grib2".toList, [], "/tmp/positions".toList⟩ rfl (by decide +kernel) [latMsg] ?_
      (by simp) (by simp) tr o
    refine ⟨?_, [], ?_, by decide +kernel⟩
    · intro msg hm
      rw [List.mem_singleton.mp hm]
      exact ⟨latMsg_ok, .inl trivial⟩
    · rfl

end Verif.Props
