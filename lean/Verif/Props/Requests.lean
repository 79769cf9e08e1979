import Verif.Lemmas.RequestsMain
import Verif.Lemmas.RequestsCount
import Verif.Props.Once

/-!
# Property C179: the requests of a call
-/

namespace Verif.Props

open Verif MapTileRenderer Dwd

/-! ## Specification -/

/-- The levels of a model of DWD. -/
def dwdLevels : FcModel → List Nat
  | .iconD2 => List.range' 25 41
  | _ => List.range' 25 50

/-- The hours of a model of DWD. -/
def dwdHours : FcModel → List Nat
  | .iconD2 => List.range' 2 47
  | _ => List.range' 2 77

/-- The files downloaded for a variable at an hour, one for each download. -/
def fetches (model : FcModel) : LayerType → List (Nat → Req)
  | .cloudPrecip => [.single .clctMod, fun n => .single .totPrec (n - 1), .single .totPrec, .single .clctMod, .single .ceiling,
      .single .ww]
  | .wind10m => [.single .u10m, .single .v10m, .single .vmax10m]
  | .temp2m => [.single .t2m]
  | .verticalCloud => (dwdLevels model).map fun k n => .level .clc n k
  | .verticalWind => (dwdLevels model).map (fun k n => .level .u n k) ++ (dwdLevels model).map fun k n => .level .v n k
  | .weather => []

instance (vars : List Text) (v : LayerType) : Decidable (ChosenVar vars v) := by unfold ChosenVar; infer_instance

/-- The hours that are rendered. -/
def chosenHours (model : FcModel) (filter : List Nat) : List Nat := (dwdHours model).filter fun n => filter = [] ∨ n ∈ filter

/-- The downloads for a variable. -/
def varDownloads (model : FcModel) (vars : List Text) (filter : List Nat) (v : LayerType) : List Req :=
  if ChosenVar vars v then (fetches model v).flatMap fun f => (chosenHours model filter).map f else []

/-- All downloads for a run, the heights of the levels once. -/
def downloads (model : FcModel) (vars : List Text) (filter : List Nat) : List Req :=
  varDownloads model vars filter .cloudPrecip ++ varDownloads model vars filter .wind10m ++
    varDownloads model vars filter .temp2m ++
    (if ChosenVar vars .verticalCloud ∨ ChosenVar vars .verticalWind then (dwdLevels model).map .hhl else []) ++
    varDownloads model vars filter .verticalCloud ++ varDownloads model vars filter .verticalWind

/-- The URL of a file. -/
def urlOf (run : Run) (r : Req) : Text :=
  match fileUrl run r with
  | .ok url => url
  | _ => []

/-- Its download. -/
def getOf (run : Run) (r : Req) : Event := .get (urlOf run r)

/-! ## Lists -/

theorem flatMap_cons_perm {β γ : Type} (k : List β) (f : β → γ) (F : β → List γ) :
    (k.map f ++ k.flatMap F).Perm (k.flatMap fun b => f b :: F b) := by
  induction k with
  | nil => rfl
  | cons b k ih =>
    simp only [List.map_cons, List.flatMap_cons, List.cons_append]
    refine List.Perm.cons _ (List.Perm.trans ?_ (ih.append_left (F b)))
    rw [← List.append_assoc, ← List.append_assoc]
    exact List.perm_append_comm.append_right _

theorem flatMap_swap {α β γ : Type} (l : List α) (k : List β) (g : α → β → γ) :
    (l.flatMap fun a => k.map fun b => g a b).Perm (k.flatMap fun b => l.map fun a => g a b) := by
  induction l with
  | nil => simp
  | cons a l ih => exact (ih.append_left _).trans (flatMap_cons_perm k (g a) _)

/-! ## Reading files of DWD -/

theorem fileUrl_urlOf {run : Run} (h : IsDwd run.model) (r : Req) : fileUrl run r = .ok (urlOf run r) ∧ isUrl (urlOf run r) = true := by
  obtain ⟨url, hu, h1, -⟩ := C52_download h r
  unfold urlOf
  rw [hu]
  exact ⟨rfl, h1⟩

theorem counted_stream {net : Net} {w : World} {name : Text} (h : isUrl name = true) :
    Counted (Asking.stream net w name) [.get name] := by
  unfold Asking.stream
  rw [if_pos h]
  exact ((Counted.request net name).bind fun _ _ => Counted.pure _).cast rfl

theorem counted_readRectangular {T : Type} {net : Net} {w : World} {name : Text} {missing : T} {transform : Fl → T}
    (h : isUrl name = true) : Counted (Asking.readRectangular net w name missing transform) [.get name] :=
  ((((counted_stream h).bind fun _ _ => ((Counted.lift _).bind fun _ _ => Counted.pure _).cast rfl).cast rfl).bind
    fun _ _ => Counted.lift _).cast rfl

theorem counted_file {T : Type} {net : Net} {w : World} {run : Run} {r : Req} {missing : T} {transform : Fl → T}
    (hm : IsDwd run.model) : Counted (do
      let url ← fileUrl run r
      Asking.readRectangular net w url missing transform : Asking (LatLonValueGrid T)) [getOf run r] := by
  obtain ⟨h1, h2⟩ := fileUrl_urlOf hm r
  rw [h1]
  refine ((Counted.lift (.ok (urlOf run r))).bind fun url hu => ?_).cast rfl
  obtain ⟨ev, -, e⟩ := hu
  cases e
  exact counted_readRectangular h2

theorem vertical_chosen (vars : List Text) : (vars.isEmpty || vars.contains LayerType.verticalCloud.name ||
    vars.contains LayerType.verticalWind.name) = true ↔ ChosenVar vars .verticalCloud ∨ ChosenVar vars .verticalWind := by
  unfold ChosenVar
  simp only [Bool.or_eq_true, List.isEmpty_iff, List.contains_iff_mem]
  tauto

section

variable {net : Net} {w : World} {run : Run} (hm : IsDwd run.model)
include hm

theorem counted_dwdGrid (x : SingleVar) (s : RunStep) : Counted (Asking.dwdGrid net w run x s) [getOf run (.single x s.nr)] :=
  counted_file hm

theorem counted_levels (file : Nat → Req) (missing : UInt8) (transform : Fl → UInt8) (levels : List Nat) :
    Counted (ParMap (Asking.dwdLevel net w run file missing transform) levels) (levels.map fun k => getOf run (file k)) := by
  have h := Counted.par (f := Asking.dwdLevel net w run file missing transform) (items := levels)
    (L := fun k => [getOf run (file k)]) fun k _ => counted_file hm
  refine h.cast ?_
  clear h
  induction levels with
  | nil => rfl
  | cons a l ih => rw [List.flatMap_cons, ih]; rfl

theorem counted_wind (s : RunStep) : Counted (Asking.dwdWind net w run s) (((fetches run.model .wind10m).map (· s.nr)).map (getOf run)) :=
  ((counted_dwdGrid hm _ s).bind fun _ _ => (counted_dwdGrid hm _ s).bind fun _ _ => (counted_dwdGrid hm _ s).bind fun _ _ =>
    (Counted.lift _).bind fun _ _ => Counted.pure _).cast rfl

theorem counted_temp (s : RunStep) : Counted (Asking.dwdTemp net w run s) (((fetches run.model .temp2m).map (· s.nr)).map (getOf run)) :=
  ((counted_dwdGrid hm _ s).bind fun _ _ => Counted.pure _).cast rfl

theorem counted_cloudPrecip (clct totPrec : List RunStep) (s : RunStep) :
    Counted (Asking.dwdCloudPrecip net w run clct totPrec s) (((fetches run.model .cloudPrecip).map (· s.nr)).map (getOf run)) := by
  unfold Asking.dwdCloudPrecip
  refine ((Counted.lift _).bind fun a ha => ?_).cast (List.nil_append _)
  obtain ⟨c, p0, p1⟩ := a
  obtain ⟨ev, -, e⟩ := ha
  obtain ⟨h1, h2, h3⟩ : c.nr = s.nr ∧ p0.nr = s.nr - 1 ∧ p1.nr = s.nr := by
    have nr : ∀ {l : List RunStep} {n : Nat} {x : RunStep}, Res.unwrapResult (getStepByNr l n) = .ok x → x.nr = n := by
      intro l n x h
      unfold getStepByNr at h
      cases hf : l.find? (fun s => s.nr == n) with
      | none => rw [hf] at h; cases h
      | some y =>
        rw [hf] at h
        cases h
        simpa using List.find?_some hf
    have e : cloudPrecipSteps s clct totPrec = .ok (c, p0, p1) := e.symm
    unfold cloudPrecipSteps at e
    rw [Res.bind_eq_ok] at e
    obtain ⟨c', hc, e⟩ := e
    split at e
    · cases e
    · rw [Res.bind_eq_ok] at e
      obtain ⟨p, hp, e⟩ := e
      rw [Res.bind_eq_ok] at e
      obtain ⟨p', hp', e⟩ := e
      cases e
      exact ⟨nr hc, nr hp, nr hp'⟩
  refine ((counted_dwdGrid hm _ c).bind fun _ _ => (counted_dwdGrid hm _ p0).bind fun _ _ => (counted_dwdGrid hm _ p1).bind
    fun _ _ => (Counted.lift _).bind fun _ _ => (counted_dwdGrid hm _ s).bind fun _ _ => (counted_dwdGrid hm _ s).bind
    fun _ _ => (counted_dwdGrid hm _ s).bind fun _ _ => (Counted.lift _).bind fun _ _ => Counted.pure _).cast ?_
  rw [h1, h2, h3]
  rfl

theorem levels_eq : rangeIncl run.model.verticalLevels.1 run.model.verticalLevels.2 = dwdLevels run.model := by
  rcases hm with h | h <;> rw [h] <;> decide +kernel

theorem hours_eq : rangeIncl run.model.stepRange.1 run.model.stepRange.2 = dwdHours run.model := by
  rcases hm with h | h <;> rw [h] <;> decide +kernel

theorem counted_hhl : Counted (Asking.dwdHhl net w run run.model.verticalLevels) ((dwdLevels run.model).map fun k => getOf run (.hhl k)) := by
  unfold Asking.dwdHhl
  rw [levels_eq hm]
  exact counted_levels hm .hhl 0 hhlByte _

theorem counted_verticalCloud (hhl : List (LatLonValueGrid UInt8)) (s : RunStep) :
    Counted (Asking.dwdVerticalCloud net w run run.model.verticalLevels hhl s)
      (((fetches run.model .verticalCloud).map (· s.nr)).map (getOf run)) := by
  unfold Asking.dwdVerticalCloud Asking.dwdClc
  rw [levels_eq hm]
  refine ((counted_levels hm (.level .clc s.nr) 0 clcByte _).bind fun _ _ => (Counted.lift _).bind fun _ _ =>
    Counted.pure _).cast ?_
  simp [fetches, Function.comp_def]

theorem counted_verticalWind (hhl : List (LatLonValueGrid UInt8)) (s : RunStep) :
    Counted (Asking.dwdVerticalWind net w run run.model.verticalLevels hhl s)
      (((fetches run.model .verticalWind).map (· s.nr)).map (getOf run)) := by
  unfold Asking.dwdVerticalWind Asking.dwdUV
  rw [levels_eq hm]
  refine ((counted_levels hm (.level .u s.nr) 255 uvByte _).bind fun _ _ =>
    (counted_levels hm (.level .v s.nr) 255 uvByte _).bind fun _ _ => (Counted.lift _).bind fun _ _ =>
    Counted.pure _).cast ?_
  simp [fetches, Function.comp_def]

/-! ## A run of DWD -/

theorem counted_var (v : LayerType) (read : RunStep → Asking Layers) (m : Libm) (dirs : Text → Bool) (vars : List Text)
    (filter : List Nat)
    (h : ∀ s ∈ run.model.forecastSteps, Counted (read s) (((fetches run.model v).map (· s.nr)).map (getOf run))) :
    CountedD (Deed.when (variableChosen vars v) (renderStepsAsks m run dirs run.model.forecastSteps filter read))
      ((varDownloads run.model vars filter v).map (getOf run)) := by
  refine ((CountedD.steps h).when _).perm ?_
  unfold varDownloads
  by_cases hc : ChosenVar vars v
  · rw [if_pos hc, if_pos ((variableChosen_iff ..).mpr hc)]
    have h1 : (run.model.forecastSteps.flatMap fun s => if selected filter s then
        ((fetches run.model v).map (· s.nr)).map (getOf run) else []) =
        ((chosenHours run.model filter).flatMap fun n => (fetches run.model v).map fun f => f n).map (getOf run) := by
      unfold FcModel.forecastSteps chosenHours
      rw [hours_eq hm, List.flatMap_map, List.map_flatMap]
      generalize dwdHours run.model = l
      induction l with
      | nil => rfl
      | cons n l ih =>
        rw [List.flatMap_cons, ih, List.filter_cons]
        by_cases hs : filter = [] ∨ n ∈ filter
        · have : selected filter ⟨n, []⟩ = true := (selected_iff ..).mpr hs
          rw [if_pos this, if_pos (by simpa using hs)]
          rfl
        · have : ¬selected filter ⟨n, []⟩ = true := fun h => hs ((selected_iff ..).mp h)
          rw [if_neg this, if_neg (by simpa using hs)]
          rfl
    rw [h1]
    exact (flatMap_swap _ _ fun n (f : Nat → Req) => f n).map _
  · rw [if_neg hc, if_neg fun h => hc ((variableChosen_iff ..).mp h)]
    rfl

theorem counted_dwdRun (m : Libm) (dirs : Text → Bool) (vars : List Text) (filter : List Nat) :
    CountedD (Dwd.renderRunAsks net m w dirs vars filter run) ((downloads run.model vars filter).map (getOf run)) := by
  have h1 : CountedD (Deed.when (variableChosen vars .cloudPrecip) (Deed.need (Asking.of run.model.forecastDiffSteps)
      fun totPrec => renderStepsAsks m run dirs run.model.forecastSteps filter
        (Asking.dwdCloudPrecip net w run run.model.forecastSteps totPrec)))
      ((varDownloads run.model vars filter .cloudPrecip).map (getOf run)) := by
    cases hc : variableChosen vars .cloudPrecip with
    | false =>
      unfold varDownloads
      rw [if_neg fun h => by rw [(variableChosen_iff ..).mpr h] at hc; cases hc]
      exact CountedD.done
    | true =>
      refine (CountedD.need (Counted.of _) fun totPrec _ => ?_).cast (List.nil_append _)
      have := counted_var hm .cloudPrecip (Asking.dwdCloudPrecip net w run run.model.forecastSteps totPrec) m dirs vars filter
        fun s _ => counted_cloudPrecip hm _ _ s
      rw [hc] at this
      exact this
  refine (h1.cons ((counted_var hm .wind10m _ m dirs vars filter fun s _ => counted_wind hm s).cons
    ((counted_var hm .temp2m _ m dirs vars filter fun s _ => counted_temp hm s).cons
    ((((CountedD.need (counted_hhl hm) fun hhl _ =>
      (counted_var hm .verticalCloud _ m dirs vars filter fun s _ => counted_verticalCloud hm hhl s).cons
      ((counted_var hm .verticalWind _ m dirs vars filter fun s _ => counted_verticalWind hm hhl s).cons CountedD.nil)).when _)).cons
      CountedD.nil)))).cast ?_
  unfold downloads
  simp only [List.map_append, List.append_assoc, List.append_nil]
  congr 3
  by_cases hv : ChosenVar vars .verticalCloud ∨ ChosenVar vars .verticalWind
  · rw [if_pos hv, if_pos ((vertical_chosen vars).mpr hv), List.map_map]
    rfl
  · rw [if_neg hv, if_neg fun h => hv ((vertical_chosen vars).mp h)]
    unfold varDownloads
    rw [if_neg fun h => hv (.inl h), if_neg fun h => hv (.inr h)]
    rfl

end

/-! ## Looking for a run -/

/-- The questions whether the files of the runs of a day are there. -/
def heads (m : FcModel) (today : Date) (names : List Text) : List Event :=
  names.flatMap fun name => (probes (lastHour m)).map fun r => .head (urlOf ⟨m, today, name⟩ r)

theorem mapM_urls {run : Run} (hm : IsDwd run.model) (l : List Req) : Res.mapM (fileUrl run) l = .ok (l.map (urlOf run)) := by
  induction l with
  | nil => rfl
  | cons r l ih =>
    show (fileUrl run r >>= fun b => Res.mapM (fileUrl run) l >>= fun bs => Res.ok (b :: bs)) = _
    rw [(fileUrl_urlOf hm r).1, ih]
    rfl

theorem probe_sublist (available : Text → Bool) (urls : List Text) : (Asking.probe available urls).Sublist (urls.map .head) := by
  induction urls with
  | nil => exact List.Sublist.refl _
  | cons url urls ih =>
    unfold Asking.probe
    refine List.Sublist.cons_cons _ ?_
    split
    · exact ih
    · exact List.nil_sublist _

theorem probes_perm (n : Nat) : ([.single .clctMod n, .single .totPrec n, .single .ceiling n, .single .ww n, .single .u10m n,
    .single .v10m n, .single .vmax10m n, .single .t2m n, .level .clc n 65, .level .u n 65] : List Req).Perm (probes n) := by
  unfold probes
  exact List.perm_append_comm (l₁ := ([.single .clctMod n, .single .totPrec n, .single .ceiling n, .single .ww n,
    .single .u10m n, .single .v10m n, .single .vmax10m n, .single .t2m n] : List Req)) (l₂ := ([.level .clc n 65,
    .level .u n 65] : List Req))

theorem heads_tryRuns {m : FcModel} (hm : IsDwd m) (today : Date) (available : Text → Bool) (names : List Text) :
    ∀ ev r, Asking.tryRuns m today available names ev r → ev.Subperm (heads m today names) := by
  induction names with
  | nil =>
    rintro ev r ⟨rfl, -⟩
    exact List.nil_subperm
  | cons name names ih =>
    have key : ∀ ev r, (Asking.tryRuns m today available (name :: names)) ev r → ∃ ev₁ ev₂ r',
        (ev₁ = [] ∨ ev₁.Subperm ((probes (lastHour m)).map fun r => .head (urlOf ⟨m, today, name⟩ r))) ∧
        (ev₂ = [] ∨ Asking.tryRuns m today available names ev₂ r') ∧ ev = ev₁ ++ ev₂ := by
      have hl : m.stepRange.2 = lastHour m := by rcases hm with rfl | rfl <;> rfl
      have hu : probeUrls ⟨m, today, name⟩ m.stepRange.2 = .ok (([.single .clctMod m.stepRange.2,
          .single .totPrec m.stepRange.2, .single .ceiling m.stepRange.2, .single .ww m.stepRange.2,
          .single .u10m m.stepRange.2, .single .v10m m.stepRange.2, .single .vmax10m m.stepRange.2,
          .single .t2m m.stepRange.2, .level .clc m.stepRange.2 65, .level .u m.stepRange.2 65] : List Req).map
          (urlOf ⟨m, today, name⟩)) := mapM_urls (run := ⟨m, today, name⟩) hm _
      intro ev r h
      rcases h with ⟨⟨-, e⟩, -⟩ | ⟨⟨-, e⟩, -⟩ | ⟨urls, ev₁, ev₂, ⟨rfl, e⟩, h, rfl⟩
      · rw [hu] at e; cases e
      · rw [hu] at e; cases e
      · have e : Res.ok urls = probeUrls ⟨m, today, name⟩ m.stepRange.2 := e
        rw [hu] at e
        have sub : (Asking.probe available urls).Subperm
            ((probes (lastHour m)).map fun r => Event.head (urlOf ⟨m, today, name⟩ r)) := by
          refine (probe_sublist available urls).subperm.trans (List.Perm.subperm ?_)
          cases e
          rw [hl, List.map_map]
          exact (probes_perm _).map _
        rcases h with ⟨⟨-, e⟩, -⟩ | ⟨⟨-, e⟩, -⟩ | ⟨found, ev₃, ev₄, ⟨rfl, -⟩, h, rfl⟩
        · cases e
        · cases e
        · cases found with
          | true =>
            obtain ⟨rfl, -⟩ := h
            exact ⟨_, [], .err, .inr sub, .inl rfl, rfl⟩
          | false => exact ⟨_, _, _, .inr sub, .inr h, rfl⟩
    intro ev r h
    obtain ⟨ev₁, ev₂, r', h1, h2, rfl⟩ := key ev r h
    refine List.Subperm.append ?_ ?_
    · rcases h1 with rfl | h1
      · exact List.nil_subperm
      · exact h1
    · rcases h2 with rfl | h2
      · exact List.nil_subperm
      · exact ih _ _ h2

theorem heads_findLatestRun {m : FcModel} (hm : IsDwd m) (today now : Date) (available : Text → Bool) (ev : List Event)
    (r : Res Run) (h : Asking.findLatestRun m today now available ev r) : ev.Subperm (heads m today runNames) := by
  have hp : (heads m today runNamesReversed).Perm (heads m today runNames) :=
    (List.reverse_perm _).flatMap_right _
  refine List.Subperm.trans ?_ hp.subperm
  rcases h with ⟨h, -⟩ | ⟨h, -⟩ | ⟨found, ev₁, ev₂, h1, h2, rfl⟩
  · exact heads_tryRuns hm _ _ _ _ _ h
  · exact heads_tryRuns hm _ _ _ _ _ h
  · cases found <;>
    · obtain ⟨rfl, -⟩ := h2
      rw [List.append_nil]
      exact heads_tryRuns hm _ _ _ _ _ h1

/-! ## C179 -/

/-- C179: the program with its requests recorded writes what it writes without, in all executions: the files written are those
that `mainNet` may write, with success in the same cases, and everything that `mainNet` may do is done with some requests. -/
theorem C179_writes (net : Net) (ht : ∀ url, ∃ a, net url a) (e : Environment) (model : Text) (vars : List Text)
    (filter : List Nat) :
    (∀ ev o, mainAsks net e model vars filter ev o →
      ∃ o', mainNet net e model vars filter (written ev) o' ∧ (o = .done ↔ o' = .done)) ∧
    ∀ tr o, mainNet net e model vars filter tr o → ∃ ev, mainAsks net e model vars filter ev o ∧ written ev = tr :=
  ⟨(sim_main ht e model vars filter).follows, (sim_main ht e model vars filter).covers⟩

theorem mainAsks_dwd {net : Net} {e : Environment} {m : FcModel} (hm : IsDwd m) {vars : List Text} {filter : List Nat} :
    mainAsks net e (dwdName m) vars filter = Deed.need (Asking.findLatestRun m e.today e.now e.available)
      (Dwd.renderRunAsks net e.libm e.world e.dirs vars filter) := by
  unfold mainAsks
  rcases hm with rfl | rfl
  · rw [if_neg (by decide +kernel), if_pos (by rfl)]
  · rw [if_neg (by decide +kernel), if_neg (by decide +kernel), if_pos (by rfl)]

theorem findLatestRun_ok {m : FcModel} (hm : IsDwd m) (today now : Date) (available : Text → Bool) :
    ∃ run, Dwd.findLatestRun m today now available = .ok run ∧ IsDwd run.model := by
  rcases C51_cases hm available today now with ⟨name, -, h⟩ | ⟨-, h⟩
  · exact ⟨_, h, hm⟩
  · exact ⟨_, h, .inl rfl⟩

/-- C179: what a call for a model of DWD requests.  First the questions for the files of the runs of the day, each at most once;
then the downloads for the run: none that is not among those of the chosen variables and hours, none more often, and all of
them if the call succeeds. -/
theorem C179_dwd (net : Net) (e : Environment) (m : FcModel) (hm : IsDwd m) (vars : List Text) (filter : List Nat)
    (ev : List Event) (o : Outcome) (h : mainAsks net e (dwdName m) vars filter ev o) :
    ∃ run asked rest, Dwd.findLatestRun m e.today e.now e.available = .ok run ∧ ev = asked ++ rest ∧
      asked.Subperm (heads m e.today runNames) ∧
      (requests rest).Subperm ((downloads run.model vars filter).map (getOf run)) ∧
      (o = .done → (requests rest).Perm ((downloads run.model vars filter).map (getOf run))) := by
  rw [mainAsks_dwd hm] at h
  have hs := sim_findLatestRun m e.today e.now e.available
  obtain ⟨run, hr, hd⟩ := findLatestRun_ok hm e.today e.now e.available
  have bad : ∀ ev r, Asking.findLatestRun m e.today e.now e.available ev r → ∃ a, r = .ok a := by
    intro ev r hx
    by_contra hno
    rcases hs.bad ev r hx fun a ha => hno ⟨a, ha⟩ with h | h <;>
    · have h : _ = Dwd.findLatestRun m e.today e.now e.available := h
      rw [hr] at h
      cases h
  rcases h with ⟨h, -⟩ | ⟨h, -⟩ | ⟨run', ev₁, ev₂, h1, h2, rfl⟩
  · obtain ⟨a, ha⟩ := bad _ _ h
    cases ha
  · obtain ⟨a, ha⟩ := bad _ _ h
    cases ha
  · have e1 : Res.ok run' = Dwd.findLatestRun m e.today e.now e.available := hs.good _ _ h1
    rw [hr] at e1
    cases e1
    obtain ⟨h3, h4⟩ := counted_dwdRun hd e.libm e.dirs vars filter ev₂ o h2
    exact ⟨run, ev₁, ev₂, hr, rfl, heads_findLatestRun hm _ _ _ _ _ h1, h3, h4⟩

/-- How often a file is requested at most: cloud cover (of an hour, for the chart and for the weather) and precipitation (since
the start, at the beginning and the end of an hour) twice, all others once. -/
def timesAsked : Req → Nat
  | .single .clctMod _ => 2
  | .single .totPrec _ => 2
  | _ => 1

theorem count_map_le {α : Type} {l : List α} (hl : l.Nodup) {f : α → Req} (hf : ∀ a ∈ l, ∀ b ∈ l, f a = f b → a = b) (r : Req) :
    (l.map f).count r ≤ 1 :=
  List.nodup_iff_count_le_one.mp (List.Nodup.map_on (fun a ha b hb => hf a ha b hb) hl) r

theorem count_map_zero {α : Type} {l : List α} {f : α → Req} {r : Req} (h : ∀ a, f a ≠ r) : (l.map f).count r = 0 := by
  rw [List.count_eq_zero]
  intro hr
  obtain ⟨a, -, e⟩ := List.mem_map.mp hr
  exact h a e

/-- The file of hour 0 of the same kind. -/
def kindOf : Req → Req
  | .single x _ => .single x 0
  | .level x _ k => .level x 0 k
  | .hhl k => .hhl k

theorem count_fetches (model : FcModel) (filter : List Nat) (v : LayerType) (r : Req) :
    ((fetches model v).flatMap fun f => (chosenHours model filter).map f).count r ≤
      ((fetches model v).map fun f => kindOf (f 0)).count (kindOf r) := by
  have nodup : (chosenHours model filter).Nodup := by
    unfold chosenHours dwdHours
    refine List.Nodup.filter _ ?_
    split <;> exact List.nodup_range'
  have pos : ∀ n ∈ chosenHours model filter, 1 ≤ n := by
    intro n hn
    have := (List.mem_filter.mp hn).1
    unfold dwdHours at this
    split at this <;> (have := List.mem_range'_1.mp this; omega)
  have key : ∀ f ∈ fetches model v, (∀ a ∈ chosenHours model filter, ∀ b ∈ chosenHours model filter, f a = f b → a = b) ∧
      ∀ n, kindOf (f n) = kindOf (f 0) := by
    intro f hf
    have same : ∀ x, f = Req.single x → (∀ a ∈ chosenHours model filter, ∀ b ∈ chosenHours model filter, f a = f b → a = b) ∧
        ∀ n, kindOf (f n) = kindOf (f 0) := by
      rintro x rfl
      exact ⟨fun a _ b _ h => (by cases h; rfl), fun _ => rfl⟩
    have level : ∀ x k, (fun n => Req.level x n k) = f →
        (∀ a ∈ chosenHours model filter, ∀ b ∈ chosenHours model filter, f a = f b → a = b) ∧
        ∀ n, kindOf (f n) = kindOf (f 0) := by
      rintro x k rfl
      exact ⟨fun a _ b _ h => (by cases h; rfl), fun _ => rfl⟩
    cases v <;> simp only [fetches, List.mem_cons, List.not_mem_nil, or_false, List.mem_append, List.mem_map] at hf
    · rcases hf with h | rfl | h | h | h | h
      · exact same _ h
      · refine ⟨fun a ha b hb h => ?_, fun _ => rfl⟩
        have h1 := pos a ha
        have h2 := pos b hb
        simp only [Req.single.injEq, true_and] at h
        omega
      all_goals exact same _ h
    · rcases hf with h | h | h <;> exact same _ h
    · exact same _ hf
    · obtain ⟨k, -, h⟩ := hf
      exact level _ k h
    · rcases hf with ⟨k, -, h⟩ | ⟨k, -, h⟩ <;> exact level _ k h
  generalize fetches model v = l at key
  induction l with
  | nil => simp
  | cons f l ih =>
    rw [List.flatMap_cons, List.count_append, List.map_cons, List.count_cons]
    have h1 := ih fun g hg => key g (by simp [hg])
    obtain ⟨h2, h3⟩ := key f (by simp)
    by_cases hk : kindOf (f 0) = kindOf r
    · have := count_map_le nodup h2 r
      simp only [hk, beq_self_eq_true, if_true]
      omega
    · have : ((chosenHours model filter).map f).count r = 0 :=
        count_map_zero fun a e => hk (by rw [← h3 a, e])
      omega

theorem count_var (model : FcModel) (vars : List Text) (filter : List Nat) (v : LayerType) (r : Req) :
    (varDownloads model vars filter v).count r ≤ ((fetches model v).map fun f => kindOf (f 0)).count (kindOf r) := by
  unfold varDownloads
  split
  · exact count_fetches model filter v r
  · simp

theorem count_downloads (model : FcModel) (vars : List Text) (filter : List Nat) (r : Req) :
    (downloads model vars filter).count r ≤ timesAsked r := by
  have nodup : (dwdLevels model).Nodup := by
    unfold dwdLevels
    split <;> exact List.nodup_range'
  have h1 := count_var model vars filter .cloudPrecip r
  have h2 := count_var model vars filter .wind10m r
  have h3 := count_var model vars filter .temp2m r
  have h4 := count_var model vars filter .verticalCloud r
  have h5 := count_var model vars filter .verticalWind r
  have hh : (if ChosenVar vars .verticalCloud ∨ ChosenVar vars .verticalWind then (dwdLevels model).map Req.hhl else []).count r ≤
      ((dwdLevels model).map Req.hhl).count r := by
    split
    · exact Nat.le_refl _
    · simp
  unfold downloads
  simp only [List.count_append]
  have e4 : ((fetches model .verticalCloud).map fun f => kindOf (f 0)) = (dwdLevels model).map (Req.level .clc 0) := by
    simp [fetches, kindOf, Function.comp_def]
  have e5 : ((fetches model .verticalWind).map fun f => kindOf (f 0)) =
      (dwdLevels model).map (Req.level .u 0) ++ (dwdLevels model).map (Req.level .v 0) := by
    simp [fetches, kindOf, Function.comp_def]
  rw [e4] at h4
  rw [e5, List.count_append] at h5
  cases r with
  | single x n =>
    rw [count_map_zero (by simp)] at hh
    rw [count_map_zero (by simp [kindOf])] at h4
    rw [count_map_zero (by simp [kindOf]), count_map_zero (by simp [kindOf])] at h5
    have : ((fetches model .cloudPrecip).map fun f => kindOf (f 0)).count (kindOf (.single x n)) +
        ((fetches model .wind10m).map fun f => kindOf (f 0)).count (kindOf (.single x n)) +
        ((fetches model .temp2m).map fun f => kindOf (f 0)).count (kindOf (.single x n)) ≤ timesAsked (.single x n) := by
      cases x <;> simp only [fetches, List.map_cons, List.map_nil, kindOf, timesAsked] <;> decide
    omega
  | level x n k =>
    rw [count_map_zero (by simp)] at hh
    have z : ∀ v ∈ [LayerType.cloudPrecip, .wind10m, .temp2m],
        ((fetches model v).map fun f => kindOf (f 0)).count (kindOf (.level x n k)) = 0 := by
      intro v hv
      rw [List.count_eq_zero]
      simp only [List.mem_cons, List.not_mem_nil, or_false] at hv
      rcases hv with rfl | rfl | rfl <;> simp [fetches, kindOf]
    rw [z _ (by simp)] at h1 h2 h3
    have one : ∀ y, ((dwdLevels model).map (Req.level y 0)).count (kindOf (.level x n k)) ≤ if x = y then 1 else 0 := by
      intro y
      split
      · exact count_map_le nodup (fun a _ b _ h => by cases h; rfl) _
      · next hxy =>
        rw [count_map_zero]
        intro a e
        simp only [kindOf, Req.level.injEq] at e
        exact hxy e.1.symm
    have o1 := one .clc
    have o2 := one .u
    have o3 := one .v
    show _ ≤ 1
    cases x <;> simp only [reduceCtorEq, if_true, if_false] at o1 o2 o3 <;> omega
  | hhl k =>
    have z : ∀ v, ((fetches model v).map fun f => kindOf (f 0)).count (kindOf (.hhl k)) = 0 := by
      intro v
      rw [List.count_eq_zero]
      cases v <;> simp [fetches, kindOf]
    rw [z] at h1 h2 h3
    rw [← e4, z] at h4
    rw [← List.count_append, ← e5, z] at h5
    have := count_map_le nodup (f := Req.hhl) (fun a _ b _ h => by cases h; rfl) (.hhl k)
    show _ ≤ 1
    omega

theorem usual_run {m : FcModel} (hm : IsDwd m) {today now : Date} (h1 : today.Usual) (h2 : now.yesterday.Usual)
    {available : Text → Bool} {run : Run} (hr : Dwd.findLatestRun m today now available = .ok run) : UsualRun run := by
  rcases C51_cases hm available today now with ⟨name, hn, h⟩ | ⟨-, h⟩
  · rw [h] at hr
    cases hr
    exact ⟨hm, h1, hn.1⟩
  · rw [h] at hr
    cases hr
    exact ⟨.inl rfl, h2, show "21".toList ∈ runNames by decide +kernel⟩

theorem getOf_inj {run : Run} (h : UsualRun run) {r r' : Req} (e : getOf run r = getOf run r') : r = r' := by
  have e : urlOf run r = urlOf run r' := by simpa [getOf] using e
  exact (C52_injective h h r r' (fileUrl_urlOf h.1 r).1 (e ▸ (fileUrl_urlOf h.1 r').1)).2

theorem heads_nodup {m : FcModel} (hm : IsDwd m) {today : Date} (h : today.Usual) : (heads m today runNames).Nodup := by
  have inj : ∀ name ∈ runNames, ∀ name' ∈ runNames, ∀ r r', urlOf ⟨m, today, name⟩ r = urlOf ⟨m, today, name'⟩ r' →
      name = name' ∧ r = r' := by
    intro name hn name' hn' r r' e
    have h1 : UsualRun ⟨m, today, name⟩ := ⟨hm, h, hn⟩
    have h2 : UsualRun ⟨m, today, name'⟩ := ⟨hm, h, hn'⟩
    obtain ⟨h3, h4⟩ := C52_injective h1 h2 r r' (fileUrl_urlOf h1.1 r).1 (e ▸ (fileUrl_urlOf h2.1 r').1)
    cases h3
    exact ⟨rfl, h4⟩
  unfold heads
  rw [List.nodup_flatMap]
  constructor
  · intro name hn
    refine List.Nodup.map_on ?_ (by unfold probes; simp)
    intro r _ r' _ e
    simp only [Event.head.injEq] at e
    exact (inj name hn name hn r r' e).2
  · refine List.Pairwise.imp_of_mem ?_ (show runNames.Pairwise (· ≠ ·) by decide +kernel)
    intro name name' hn hn' hne
    show List.Disjoint _ _
    intro x hx hx'
    obtain ⟨r, -, rfl⟩ := List.mem_map.mp hx
    obtain ⟨r', -, e⟩ := List.mem_map.mp hx'
    simp only [Event.head.injEq] at e
    exact hne (inj name hn name' hn' r r' e.symm).1

theorem heads_head {m : FcModel} {today : Date} {names : List Text} {q : Event} (h : q ∈ heads m today names) :
    ∃ url, q = .head url := by
  obtain ⟨name, -, h⟩ := List.mem_flatMap.mp h
  obtain ⟨r, -, rfl⟩ := List.mem_map.mp h
  exact ⟨_, rfl⟩

/-- C179: no server is asked more often than needed.  In a call for a model of DWD a file is downloaded at most once, but cloud
cover and precipitation at most twice; only files of the chosen variables and hours are downloaded; a question whether a file is
there is asked at most once, and of at most 80 files.  (Dates with a year of four digits.) -/
theorem C179_often (net : Net) (e : Environment) (m : FcModel) (hm : IsDwd m) (h1 : e.today.Usual) (h2 : e.now.yesterday.Usual)
    (vars : List Text) (filter : List Nat) (ev : List Event) (o : Outcome) (h : mainAsks net e (dwdName m) vars filter ev o)
    (run : Run) (hr : Dwd.findLatestRun m e.today e.now e.available = .ok run) :
    (∀ r, ev.count (getOf run r) ≤ timesAsked r) ∧
    (∀ url, .get url ∈ ev → ∃ r ∈ downloads run.model vars filter, fileUrl run r = .ok url) ∧
    (∀ url, ev.count (.head url) ≤ 1) ∧ (∀ q, .query q ∉ ev) ∧
    (ev.filter fun q => q matches .head _).length ≤ 80 := by
  obtain ⟨run', asked, rest, hr', rfl, h3, h4, -⟩ := C179_dwd net e m hm vars filter ev o h
  rw [hr] at hr'
  cases hr'
  have hu := usual_run hm h1 h2 hr
  have ask : ∀ q ∈ asked, ∃ url, q = .head url := fun q hq => heads_head (h3.subset hq)
  have got : ∀ q ∈ rest, q.written = none → ∃ r ∈ downloads run.model vars filter, q = getOf run r := by
    intro q hq hw
    have : q ∈ requests rest := List.mem_filter.mpr ⟨hq, by rw [hw]; rfl⟩
    obtain ⟨r, hr, e⟩ := List.mem_map.mp (h4.subset this)
    exact ⟨r, hr, e.symm⟩
  have noHead : ∀ url, .head url ∉ rest := by
    intro url hq
    obtain ⟨r, -, e⟩ := got _ hq rfl
    cases e
  refine ⟨fun r => ?_, fun url hq => ?_, fun url => ?_, fun q hq => ?_, ?_⟩
  · rw [List.count_append]
    have z : asked.count (getOf run r) = 0 := by
      rw [List.count_eq_zero]
      intro hq
      obtain ⟨url, e⟩ := ask _ hq
      cases e
    have : rest.count (getOf run r) = (requests rest).count (getOf run r) := by
      unfold requests
      rw [List.count_filter]
      rfl
    rw [z, this, Nat.zero_add]
    refine (h4.count_le _).trans ?_
    rw [List.count_map_of_injective _ _ fun r r' e => getOf_inj hu e]
    exact count_downloads _ _ _ r
  · rcases List.mem_append.mp hq with hq | hq
    · obtain ⟨u, e⟩ := ask _ hq
      cases e
    · obtain ⟨r, hr, e⟩ := got _ hq rfl
      cases e
      exact ⟨r, hr, (fileUrl_urlOf hu.1 r).1⟩
  · rw [List.count_append, List.count_eq_zero.mpr (noHead url), Nat.add_zero]
    exact (h3.count_le _).trans (List.nodup_iff_count_le_one.mp (heads_nodup hm h1) _)
  · rcases List.mem_append.mp hq with hq | hq
    · obtain ⟨u, e⟩ := ask _ hq
      cases e
    · obtain ⟨r, hr, e⟩ := got _ hq rfl
      cases e
  · rw [List.filter_append]
    have : (rest.filter fun q => q matches .head _) = [] := by
      rw [List.filter_eq_nil_iff]
      intro q hq hm
      cases q with
      | head url => exact noHead url hq
      | _ => cases hm
    rw [this, List.append_nil]
    refine (List.length_filter_le _ _).trans (h3.length_le.trans ?_)
    have : ∀ names : List Text, (heads m e.today names).length = 10 * names.length := by
      intro names
      induction names with
      | nil => rfl
      | cons a l ih =>
        unfold heads at ih ⊢
        rw [List.flatMap_cons, List.length_append, ih, List.length_map, List.length_cons]
        show 10 + _ = _
        omega
    rw [this]
    decide +kernel

/-- C179: the number of downloads of a call for all variables and hours that succeeds. -/
theorem C179_number (net : Net) (e : Environment) (m : FcModel) (hm : IsDwd m) (ev : List Event)
    (h : mainAsks net e (dwdName m) [] [] ev .done) (run : Run)
    (hr : Dwd.findLatestRun m e.today e.now e.available = .ok run) :
    (ev.filter fun q => q matches .get _).length = if run.model = .iconD2 then 6292 else 12370 := by
  obtain ⟨run', asked, rest, hr', rfl, h3, h4, h5⟩ := C179_dwd net e m hm [] [] ev .done h
  rw [hr] at hr'
  cases hr'
  have h5 := h5 rfl
  rw [List.filter_append]
  have z : (asked.filter fun q => q matches .get _) = [] := by
    rw [List.filter_eq_nil_iff]
    intro q hq hm
    obtain ⟨url, rfl⟩ := heads_head (h3.subset hq)
    cases hm
  have same : (rest.filter fun q => q matches .get _) = (requests rest).filter fun q => q matches .get _ := by
    unfold requests
    rw [List.filter_filter]
    refine List.filter_congr fun q _ => ?_
    cases q <;> rfl
  rw [z, List.nil_append, same, (h5.filter _).length_eq, List.filter_eq_self.mpr, List.length_map]
  · obtain ⟨run', hr', hd⟩ := findLatestRun_ok hm e.today e.now e.available
    rw [hr] at hr'
    cases hr'
    rcases hd with hd | hd <;> rw [hd] <;> decide +kernel
  · intro q hq
    obtain ⟨r, -, rfl⟩ := List.mem_map.mp hq
    rfl

/-! ## Order -/

/-- What is needed for a file is requested before it is written. -/
def NeedsDwd (run : Run) (w : Write) (S : Event → Prop) : Prop :=
  ∃ out n, w.path = Output.path run n out ∧ ∀ r, Uses run.model out.variable n r → S (getOf run r)

theorem upward_dwd (run : Run) : Upward (NeedsDwd run) := by
  rintro w S T hST ⟨out, n, h1, h2⟩
  exact ⟨out, n, h1, fun r hr => hST _ (h2 r hr)⟩

theorem mem_dwdLevels {m : FcModel} (hm : IsDwd m) (k : Nat) :
    k ∈ dwdLevels m ↔ m.verticalLevels.1 ≤ k ∧ k ≤ m.verticalLevels.2 := by
  rcases hm with rfl | rfl <;> simp only [dwdLevels, List.mem_range'_1, FcModel.verticalLevels] <;> omega

theorem uses_fetches {m : FcModel} (hm : IsDwd m) (v : LayerType) (n : Nat) (r : Req) (h : Uses m v n r) :
    (∃ f ∈ fetches m v, f n = r) ∨ ((v = .verticalCloud ∨ v = .verticalWind) ∧ ∃ k ∈ dwdLevels m, r = .hhl k) := by
  cases v with
  | cloudPrecip =>
    left
    simp only [Uses, List.mem_cons, List.not_mem_nil, or_false] at h
    rcases h with rfl | rfl | rfl | rfl | rfl
    · exact ⟨.single .clctMod, by simp [fetches], rfl⟩
    · exact ⟨fun n => .single .totPrec (n - 1), by simp [fetches], rfl⟩
    · exact ⟨.single .totPrec, by simp [fetches], rfl⟩
    · exact ⟨.single .ceiling, by simp [fetches], rfl⟩
    · exact ⟨.single .ww, by simp [fetches], rfl⟩
  | weather => exact h.elim
  | wind10m =>
    left
    simp only [Uses, List.mem_cons, List.not_mem_nil, or_false] at h
    rcases h with rfl | rfl | rfl
    · exact ⟨.single .u10m, by simp [fetches], rfl⟩
    · exact ⟨.single .v10m, by simp [fetches], rfl⟩
    · exact ⟨.single .vmax10m, by simp [fetches], rfl⟩
  | temp2m => exact .inl ⟨.single .t2m, by simp [fetches], h.symm⟩
  | verticalCloud =>
    obtain ⟨k, h1, h2, h⟩ := h
    have hk := (mem_dwdLevels hm k).mpr ⟨h1, h2⟩
    rcases h with rfl | rfl
    · exact .inr ⟨.inl rfl, k, hk, rfl⟩
    · exact .inl ⟨fun n => .level .clc n k, List.mem_map.mpr ⟨k, hk, rfl⟩, rfl⟩
  | verticalWind =>
    obtain ⟨k, h1, h2, h⟩ := h
    have hk := (mem_dwdLevels hm k).mpr ⟨h1, h2⟩
    rcases h with rfl | rfl | rfl
    · exact .inr ⟨.inr rfl, k, hk, rfl⟩
    · exact .inl ⟨fun n => .level .u n k, List.mem_append_left _ (List.mem_map.mpr ⟨k, hk, rfl⟩), rfl⟩
    · exact .inl ⟨fun n => .level .v n k, List.mem_append_right _ (List.mem_map.mpr ⟨k, hk, rfl⟩), rfl⟩

section

variable {net : Net} (ht : ∀ url, ∃ a, net url a) {w : World} {run : Run} (hm : IsDwd run.model)

include hm in
theorem since_var (v : LayerType) (read : RunStep → Asking Layers) (m : Libm) (dirs : Text → Bool) (vars : List Text)
    (filter : List Nat) (L : List Event) (hL : v = .verticalCloud ∨ v = .verticalWind → ∀ k ∈ dwdLevels run.model, getOf run (.hhl k) ∈ L)
    (hs : ∀ s ev r, read s ev r → written ev = [])
    (h : ∀ s, Counted (read s) (((fetches run.model v).map (· s.nr)).map (getOf run)))
    (hv : ∀ s, Ends (read s) fun l => variableOf l = v) :
    Since (Deed.when (variableChosen vars v) (renderStepsAsks m run dirs run.model.forecastSteps filter read))
      fun w S => NeedsDwd run w fun q => q ∈ L ∨ S q := by
  have up : Upward fun w S => NeedsDwd run w fun q => q ∈ L ∨ S q := fun w S T hST =>
    upward_dwd run w _ _ fun q hq => hq.imp id (hST q)
  refine Since.when fun _ => Since.par (d := runStepAsks m run dirs filter read) up fun s _ => Since.step up (hs s) (h s) ?_
  intro ls ev hls tr o htr x hx
  obtain ⟨out, hf, hp⟩ := (job_any htr).2.1 x hx
  have hvar : out.variable = v := by rw [hf.variable, hv s ev ls hls]
  refine ⟨out, s.nr, hp, fun r hr => ?_⟩
  rw [hvar] at hr
  rcases uses_fetches hm v s.nr r hr with ⟨f, hf, rfl⟩ | ⟨h1, k, hk, rfl⟩
  · exact .inr (List.mem_map_of_mem (List.mem_map.mpr ⟨f, hf, rfl⟩))
  · exact .inl (hL h1 k hk)

include ht hm in
theorem since_dwdRun (m : Libm) (dirs : Text → Bool) (vars : List Text) (filter : List Nat) :
    Since (Dwd.renderRunAsks net m w dirs vars filter run) (NeedsDwd run) := by
  have up := upward_dwd run
  have plain : ∀ {d : Deed}, Since d (fun w S => NeedsDwd run w fun q => q ∈ ([] : List Event) ∨ S q) → Since d (NeedsDwd run) :=
    fun h => h.mono fun w S => upward_dwd run w _ _ fun q hq => hq.elim (fun h => absurd h (by simp)) id
  refine .cons up ?_ (.cons up ?_ (.cons up ?_ (.cons up (.when fun _ => ?_) .nil)))
  · cases hc : variableChosen vars .cloudPrecip with
    | false => exact Since.done
    | true =>
      refine Since.need (Verif.Sim.of _).silent (Counted.of _) up fun totPrec _ => ?_
      have := since_var hm .cloudPrecip (Asking.dwdCloudPrecip net w run run.model.forecastSteps totPrec) m dirs vars filter []
        (by simp) (fun s => (Verif.sim_dwdCloudPrecip ht w run _ _ s).silent) (fun s => counted_cloudPrecip hm _ _ s)
        fun s => .bind fun _ => .bind fun _ => .bind fun _ => .bind fun _ => .bind fun _ => .bind fun _ => .bind fun _ =>
          .bind fun _ => .bind fun _ => .pure rfl
      rw [hc] at this
      exact this
  · exact plain (since_var hm .wind10m (Asking.dwdWind net w run) m dirs vars filter [] (by simp)
      (fun s => (Verif.sim_dwdWind ht w run s).silent) (fun s => counted_wind hm s)
      fun s => .bind fun _ => .bind fun _ => .bind fun _ => .bind fun _ => .pure rfl)
  · exact plain (since_var hm .temp2m (Asking.dwdTemp net w run) m dirs vars filter [] (by simp)
      (fun s => (Verif.sim_dwdTemp ht w run s).silent) (fun s => counted_temp hm s) fun s => .bind fun _ => .pure rfl)
  · refine Since.need (Verif.sim_dwdHhl ht w run _).silent (counted_hhl hm) up fun hhl _ => ?_
    have up' : Upward fun w S => NeedsDwd run w fun q => q ∈ ((dwdLevels run.model).map fun k => getOf run (.hhl k)) ∨ S q :=
      fun w S T hST => upward_dwd run w _ _ fun q hq => hq.imp id (hST q)
    refine .cons up' ?_ (.cons up' ?_ .nil)
    · exact since_var hm .verticalCloud (Asking.dwdVerticalCloud net w run _ hhl) m dirs vars filter _
        (fun _ k hk => List.mem_map.mpr ⟨k, hk, rfl⟩) (fun s => (Verif.sim_dwdVerticalCloud ht w run _ hhl s).silent)
        (fun s => counted_verticalCloud hm hhl s) fun s => .bind fun _ => .bind fun _ => .pure rfl
    · exact since_var hm .verticalWind (Asking.dwdVerticalWind net w run _ hhl) m dirs vars filter _
        (fun _ k hk => List.mem_map.mpr ⟨k, hk, rfl⟩) (fun s => (Verif.sim_dwdVerticalWind ht w run _ hhl s).silent)
        (fun s => counted_verticalWind hm hhl s) fun s => .bind fun _ => .bind fun _ => .bind fun _ => .pure rfl

end

/-- C179: nothing is written before what it shows has been downloaded: when a file of a variable at an hour is written, all
files that it needs have been requested.  This holds for every execution, whether it succeeds or not. -/
theorem C179_order (net : Net) (ht : ∀ url, ∃ a, net url a) (e : Environment) (m : FcModel) (hm : IsDwd m) (vars : List Text)
    (filter : List Nat) (pre post : List Event) (w : Write) (o : Outcome)
    (h : mainAsks net e (dwdName m) vars filter (pre ++ .write w :: post) o) :
    ∃ run, Dwd.findLatestRun m e.today e.now e.available = .ok run ∧ (∃ out n, w.path = Output.path run n out) ∧
      ∀ out n, w.path = Output.path run n out → ∀ r, Uses run.model out.variable n r → getOf run r ∈ pre := by
  rw [mainAsks_dwd hm] at h
  have hs := sim_findLatestRun m e.today e.now e.available
  rcases h with ⟨h, -⟩ | ⟨h, -⟩ | ⟨run, ev₁, ev₂, h1, h2, e1⟩
  · exact (Since.silent (hs.silent _ _ h) rfl).elim
  · exact (Since.silent (hs.silent _ _ h) rfl).elim
  · have e2 : Res.ok run = Dwd.findLatestRun m e.today e.now e.available := hs.good _ _ h1
    obtain ⟨run', hr, hd⟩ := findLatestRun_ok hm e.today e.now e.available
    have e3 := e2.trans hr
    cases e3
    obtain ⟨pre', rfl, e4⟩ := split_write (hs.silent _ _ h1) e1.symm
    obtain ⟨out, n, h3, h4⟩ := since_dwdRun ht hd e.libm e.dirs vars filter _ _ h2 _ _ _ e4
    refine ⟨run, e2.symm, ⟨out, n, h3⟩, fun out' n' h3' r hr => ?_⟩
    obtain ⟨rfl, rfl⟩ := C54_same_run run (findLatestRun_no_slash hm e2.symm) (h3.symm.trans h3')
    exact List.mem_append_right _ (h4 r hr)

end Verif.Props
