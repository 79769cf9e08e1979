import Verif.Model.Output
import Verif.Props.CommandLine
import Verif.Props.ModelFiles

/-!
# C182: a call that prints nothing and ends with status 0 has done everything

The exit status alone says nothing (C91): errors of rendering end with status 0.  Together with the standard output it does.
-/

namespace Verif.Props

open Verif.MapTileRenderer (Outcome)
open Verif.CommandLine
open Verif.Spec (AccurateRow exists_accurateRow)

/-! ## Specification -/

/-- The models the program knows. -/
def KnownModel (model : Text) : Prop :=
  model = "icon-ch1".toList ∨ model = "icon-d2".toList ∨ model = "icon-eu".toList

/-- Everything that was selected has been rendered: a run was found, and for every selected variable (the weather belongs to the
clouds) and every selected step the layers could be read and drawn and all files made of them are among the writes. -/
def Everything (e : Environment) (model : Text) (vars : List Text) (filter : List Nat) (tr : List Write) : Prop :=
  (∃ dwd, (model = "icon-d2".toList ∧ dwd = FcModel.iconD2 ∨ model = "icon-eu".toList ∧ dwd = FcModel.iconEu) ∧
    ∃ run, Dwd.findLatestRun dwd e.today e.now e.available = .ok run ∧
      ∀ v, ChosenVar vars v → v ≠ .weather → ∀ s ∈ run.model.forecastSteps, Chosen filter s →
        ∃ l, dwdLayers e.world run v s.nr = .ok l ∧ CanDraw e.libm run.model.zoomRange l ∧
          ∀ out c, FileOf e.libm run.model.zoomRange l out c → (⟨out.path run s.nr, c⟩ : Write) ∈ tr) ∨
  (model = "icon-ch1".toList ∧ ∃ assets hor vert grid refTimes t, e.service.assets = .ok assets ∧
    Swiss.findAsset assets "horizontal_constants_icon-ch1-eps.grib2".toList = some hor ∧
    Swiss.findAsset assets "vertical_constants_icon-ch1-eps.grib2".toList = some vert ∧
    Swiss.readHorConst e.world hor.href = .ok grid ∧ e.service.refTimes = .ok refTimes ∧
    SwissSearch.findLatest e.calendar.parse refTimes = .ok t ∧
    ∀ v, ChosenVar vars v → v ≠ .weather → ∃ run steps, Swiss.forecastRun e.calendar t = .ok run ∧
      swissSteps e.service t v = .ok steps ∧ ∀ s ∈ steps, Chosen filter s →
        ∃ l, swissLayers e.world e.service grid vert.href t v s = .ok l ∧ CanDraw e.libm run.model.zoomRange l ∧
          ∀ out c, FileOf e.libm run.model.zoomRange l out c → (⟨out.path run s.nr, c⟩ : Write) ∈ tr)

/-! ## Proofs -/

/-- A call that succeeds, for a model that is known, has done everything. -/
theorem everything_of_done (e : Environment) (model : Text) (vars : List Text) (filter : List Nat) (tr : List Write)
    (hk : KnownModel model) (h : mainEffect e model vars filter tr .done) : Everything e model vars filter tr := by
  have hne : "icon-ch1".toList ≠ "icon-d2".toList ∧ "icon-ch1".toList ≠ "icon-eu".toList ∧
      "icon-d2".toList ≠ "icon-eu".toList := by decide +kernel
  have hall := (C87_main e model vars filter tr).2 h
  have dwd : ∀ m : FcModel, (model = "icon-d2".toList ∧ m = FcModel.iconD2 ∨ model = "icon-eu".toList ∧ m = FcModel.iconEu) →
      Dwd.renderLatest e.libm e.world e.dirs e.today e.now e.available m vars filter tr .done →
      Everything e model vars filter tr := by
    intro m hm h
    obtain ⟨run, hr, h⟩ := done_need h
    refine .inl ⟨m, hm, run, hr, fun v hv hw s hs hc => ?_⟩
    obtain ⟨l, hl, hd⟩ := ((C90_dwd_iff e.libm e.world e.dirs vars filter run).1.mp ⟨tr, h⟩).1 v hv hw s hs hc
    exact ⟨l, hl, hd, fun out c hf => hall _ (.inl ⟨m, hm, run, hr, v, hv, s, hs, hc, l, hl, out, hf, rfl⟩)⟩
  rcases hk with rfl | rfl | rfl
  · unfold mainEffect at h
    rw [if_pos rfl] at h
    unfold Swiss.renderLatest at h
    obtain ⟨assets, a1, h⟩ := done_need h
    obtain ⟨hor, a2, h⟩ := done_need h
    obtain ⟨grid, a3, h⟩ := done_need h
    obtain ⟨vert, a4, h⟩ := done_need h
    obtain ⟨refTimes, a5, h⟩ := done_need h
    obtain ⟨t, a6, h⟩ := done_need h
    refine .inr ⟨rfl, assets, hor, vert, grid, refTimes, t, a1, unwrap_ok.mp a2, unwrap_ok.mp a4, a3, a5, a6, fun v hv hw => ?_⟩
    obtain ⟨run, steps, b1, b2, b3⟩ := C90_swiss _ _ _ _ _ _ _ _ _ _ _ h v hv hw
    refine ⟨run, steps, b1, b2, fun s hs hc => ?_⟩
    obtain ⟨l, hl, hd⟩ := b3 s hs hc
    exact ⟨l, hl, hd, fun out c hf => hall _ (.inr ⟨rfl, assets, hor, vert, grid, refTimes, t, a1, unwrap_ok.mp a2, unwrap_ok.mp a4,
      a3, a5, a6, v, hv, run, steps, b1, b2, s, hs, hc, l, hl, out, hf, rfl⟩)⟩
  · unfold mainEffect at h
    rw [if_neg hne.1.symm, if_pos rfl] at h
    exact dwd .iconD2 (.inl ⟨rfl, rfl⟩) h
  · unfold mainEffect at h
    rw [if_neg hne.2.1.symm, if_neg hne.2.2.symm, if_pos rfl] at h
    exact dwd .iconEu (.inr ⟨rfl, rfl⟩) h

theorem mainPrints_known {model : Text} (hk : KnownModel model) (o : Outcome) : mainPrints model o =
    if o = .failed then some ("error while rendering ".toList ++ model ++ " forecast: ".toList) else none := by
  rcases hk with rfl | rfl | rfl <;> cases o <;> decide +kernel

theorem unknown_main (e : Environment) {model : Text} (hk : ¬ KnownModel model) (vars : List Text) (filter : List Nat)
    (tr : List Write) (o : Outcome) : (mainEffect e model vars filter tr o ↔ tr = [] ∧ o = .done) ∧
    mainPrints model o = some ("unknown model: ".toList ++ model) := by
  have h1 : model ≠ "icon-ch1".toList := fun h => hk (.inl h)
  have h2 : model ≠ "icon-d2".toList := fun h => hk (.inr (.inl h))
  have h3 : model ≠ "icon-eu".toList := fun h => hk (.inr (.inr h))
  unfold mainEffect mainPrints
  rw [if_neg h1, if_neg h2, if_neg h3, if_neg h1, if_neg h2, if_neg h3]
  exact ⟨Iff.rfl, rfl⟩

/-! ## C182 -/

/-- C182: a call that ends with status 0 and prints nothing was given proper arguments and has rendered everything that was
selected. -/
theorem C182_silence (e : Environment) (ts : List Text) (tr : List Write) (o : Outcome) (h : call e ts tr o)
    (hs : callStatus ts o = 0) (hp : callPrints ts o = .nothing) :
    ∃ a, Says ts a ∧ KnownModel a.model ∧ Everything e a.model a.vars a.steps tr := by
  unfold callPrints at hp
  unfold callStatus at hs
  unfold call at h
  cases ha : parseArgs ts with
  | info => rw [ha] at hp; cases hp
  | error => rw [ha] at hs; cases hs
  | args a =>
    rw [ha] at hp hs h
    refine ⟨a, (C160_accepted_iff ts a).mp ha, ?_⟩
    by_cases hk : KnownModel a.model
    · refine ⟨hk, ?_⟩
      dsimp only at hp hs h
      rw [mainPrints_known hk] at hp
      have ho : o = .done := by
        cases o with
        | done => rfl
        | failed => cases hp
        | panicked => cases hs
      rw [ho] at h
      exact everything_of_done _ _ _ _ _ hk h
    · dsimp only at hp
      rw [(unknown_main e hk a.vars a.steps tr o).2] at hp
      cases hp

/-- C182: what a call prints, by the way it ends: nothing after success; after an error a line that names the model, with status 0;
for a model that is not known a line that names it, with status 0 and without any file; a panic has status 101. -/
theorem C182_lines (e : Environment) (ts : List Text) (a : Args) (ha : Says ts a) (tr : List Write) (o : Outcome)
    (h : call e ts tr o) :
    (KnownModel a.model → o = .done → callPrints ts o = .nothing ∧ callStatus ts o = 0) ∧
    (o = .failed → KnownModel a.model ∧ callStatus ts o = 0 ∧
      callPrints ts o = .line ("error while rendering ".toList ++ a.model ++ " forecast: ".toList)) ∧
    (o = .panicked → KnownModel a.model ∧ callStatus ts o = 101) ∧
    (¬ KnownModel a.model → tr = [] ∧ callStatus ts o = 0 ∧ callPrints ts o = .line ("unknown model: ".toList ++ a.model)) := by
  have hp := (C160_accepted_iff ts a).mpr ha
  unfold call at h
  unfold callPrints callStatus
  rw [hp] at h ⊢
  dsimp only at h ⊢
  by_cases hk : KnownModel a.model
  · rw [mainPrints_known hk]
    refine ⟨?_, ?_, ?_, fun hn => absurd hk hn⟩
    · rintro _ rfl; exact ⟨rfl, rfl⟩
    · rintro rfl; exact ⟨hk, rfl, rfl⟩
    · rintro rfl; exact ⟨hk, rfl⟩
  · obtain ⟨hm, hl⟩ := unknown_main e hk a.vars a.steps tr o
    obtain ⟨rfl, rfl⟩ := hm.mp h
    rw [hl]
    refine ⟨fun hn => absurd hn hk, fun ho => (by cases ho), fun ho => (by cases ho), fun _ => ⟨rfl, rfl, rfl⟩⟩

/-- The arguments `--model icon-d2 --variables temp_2m`. -/
def d2Temp : List Text := ["--model".toList, "icon-d2".toList, "--variables".toList, "temp_2m".toList]

theorem d2Temp_says : Says d2Temp ⟨"icon-d2".toList, ["temp_2m".toList], []⟩ :=
  (C160_accepted_iff _ _).mp (by decide +kernel)

/-- A call without network ends with status 0 and says so. -/
example (m : Libm) (cal : Swiss.Calendar) : ∃ e : Environment, (∃ tr o, call e d2Temp tr o) ∧
    ∀ tr o, call e d2Temp tr o → callStatus d2Temp o = 0 ∧
      callPrints d2Temp o = .line "error while rendering icon-d2 forecast: ".toList := by
  obtain ⟨e, -, -, h1, h2⟩ := C91_counterexample m cal
  have hc := (C160_call e d2Temp).1 _ d2Temp_says
  refine ⟨e, ?_, fun tr o h => ?_⟩
  · rw [hc.1]; exact h1
  · have ho := h2 tr o (by rw [hc.1] at h; exact h)
    have := (C182_lines e d2Temp _ d2Temp_says tr o h).2.1 ho.2.1
    exact ⟨this.2.1, this.2.2.trans (by decide +kernel)⟩

/-- The arguments `-m icon-eu -v temp_2m -s 3`. -/
def euTemp : List Text := ["-m".toList, "icon-eu".toList, "-v".toList, "temp_2m".toList, "-s".toList, "3".toList]

theorem euTemp_says : Says euTemp ⟨"icon-eu".toList, ["temp_2m".toList], [3]⟩ :=
  (C160_accepted_iff _ _).mp (by decide +kernel)

/-- A call can end with status 0 and print nothing. -/
example : ∃ (e : Environment) (tr : List Write), call e euTemp tr .done ∧
    callStatus euTemp .done = 0 ∧ callPrints euTemp .done = .nothing := by
  obtain ⟨m, hm⟩ := exists_accurateRow
  obtain ⟨tr, h, -⟩ := eu_fallback_run m hm ⟨.err, .err, fun _ _ => .err⟩ ⟨fun _ => .err, fun _ => ⟨2025, 8, 5⟩⟩
    (fun _ => false) ⟨2025, 8, 5⟩ ["temp_2m".toList] [3]
  have key : ∀ e : Environment, mainEffect e "icon-eu".toList ["temp_2m".toList] [3] tr .done → call e euTemp tr .done ∧
      callStatus euTemp .done = 0 ∧ callPrints euTemp .done = .nothing := by
    intro e h
    have hc : call e euTemp tr .done := by rw [((C160_call e euTemp).1 _ euTemp_says).1]; exact h
    have := (C182_lines e euTemp _ euTemp_says tr .done hc).1 (.inr (.inr rfl)) rfl
    exact ⟨hc, this.2, this.1⟩
  exact ⟨_, tr, key _ h⟩

end Verif.Props
