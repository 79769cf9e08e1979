import Verif.Props.Together
import Verif.Props.CatalogueFiles

/-!
# C167: calls while a run is being published
-/

namespace Verif.Props

open Verif MapTileRenderer
open Verif.Spec (Searches Item filesOf runMarkers NewestRun published ch1 IsRunTime NotAfter memberMatches AccurateRow)
open Verif.Spec.Grib2 (Msg encode)
open Res (Le)

/-! ## More steps -/

/-- The second list has the steps of the first one, and each number once. -/
def MoreSteps (l l' : List RunStep) : Prop := l ⊆ l' ∧ Numbered l'

/-- The steps of the first service are steps of the second one. -/
def StepsWithin (s s' : Swiss.Service) (t : Instant) : Prop :=
  ∀ x skip l, Swiss.steps s t x skip = .ok l → ∃ l', Swiss.steps s' t x skip = .ok l' ∧ MoreSteps l l'

theorem le_bindR {α α' β : Type} {R : α → α' → Prop} {a : Res α} {b : Res α'} {f : α → Res β} {g : α' → Res β}
    (h : ∀ x, a = .ok x → ∃ x', b = .ok x' ∧ R x x') (hf : ∀ x x', R x x' → Le (f x) (g x')) : Le (a >>= f) (b >>= g) := by
  intro y hy
  obtain ⟨x, h1, h2⟩ := Res.bind_eq_ok.mp hy
  obtain ⟨x', h3, h4⟩ := h x h1
  exact Res.bind_eq_ok.mpr ⟨x', h3, hf x x' h4 y h2⟩

theorem getStep_le {l l' : List RunStep} (h : MoreSteps l l') (n : Nat) : Le (getStepByNr l n) (getStepByNr l' n) := by
  intro r hr
  unfold getStepByNr at hr ⊢
  have h1 : l.find? (fun s => s.nr == n) = some r := by
    cases hf : l.find? (fun s => s.nr == n) with
    | none => rw [hf] at hr; cases hr
    | some a => rw [hf] at hr; cases hr; rfl
  have hm := h.1 (List.mem_of_find?_eq_some h1)
  have hn := List.find?_some h1
  cases hf : l'.find? (fun s => s.nr == n) with
  | none => exact absurd hn (List.find?_eq_none.mp hf r hm)
  | some a =>
    have ha := List.mem_of_find?_eq_some hf
    have hb := List.find?_some hf
    have : a = r := h.2 a ha r hm (by simp only [beq_iff_eq] at hn hb; rw [hn, hb])
    rw [this]
    rfl

theorem unwrap_le {α : Type} {a b : Res α} (h : Le a b) : Le (Res.unwrapResult a) (Res.unwrapResult b) := by
  intro x hx
  cases a with
  | ok y => rw [h y rfl]; exact hx
  | err => cases hx
  | panic => cases hx

theorem layers_within {w w' : World} {s s' : Swiss.Service} {t : Instant} (hw : w.Extends w') (hs : StepsWithin s s' t)
    (grid : UnstructuredGrid) (url : Text) (v : LayerType) (step : RunStep) :
    Le (swissLayers w s grid url t v step) (swissLayers w' s' grid url t v step) := by
  cases v with
  | cloudPrecip =>
    refine le_bindR (hs .clct true) fun c c' hc => le_bindR (hs .totPrec false) fun p p' hp =>
      le_bindR (hs .ceiling false) fun i i' hi => .bind ?_ fun _ => .bind ?_ fun _ => .refl _
    · refine .bind ?_ fun _ => ?_
      · unfold cloudPrecipSteps
        refine .bind (unwrap_le (getStep_le hc _)) fun _ => ?_
        split
        · exact .refl _
        · exact .bind (unwrap_le (getStep_le hp _)) fun _ => .bind (unwrap_le (getStep_le hp _)) fun _ => .refl _
      · exact .bind (hw.swissGrid _ _ _) fun _ => .bind (hw.swissGrid _ _ _) fun _ => .bind (hw.swissGrid _ _ _)
          fun _ => .refl _
    · exact .bind (unwrap_le (getStep_le hc _)) fun _ => .bind (unwrap_le (getStep_le hi _)) fun _ =>
        .bind (hw.swissGrid _ _ _) fun _ => .bind (hw.swissGrid _ _ _) fun _ => .refl _
  | wind10m =>
    refine le_bindR (hs .u10m false) fun a a' ha => le_bindR (hs .v10m false) fun b b' hb =>
      le_bindR (hs .vmax10m false) fun c c' hc => .bind ?_ fun _ => .refl _
    exact .bind (getStep_le ha _) fun _ => .bind (getStep_le hb _) fun _ => .bind (getStep_le hc _) fun _ =>
      .bind (hw.swissGrid _ _ _) fun _ => .bind (hw.swissGrid _ _ _) fun _ => .bind (hw.swissGrid _ _ _) fun _ => .refl _
  | temp2m =>
    refine le_bindR (hs .t2m false) fun a a' ha => .bind ?_ fun _ => .refl _
    exact .bind (unwrap_le (getStep_le ha _)) fun _ => .bind (hw.swissGrid _ _ _) fun _ => .refl _
  | verticalCloud =>
    refine .bind (hw.readMultiUnstructured _ _ _ _ _) fun _ => le_bindR (hs .clc false) fun a a' ha => .bind ?_ fun _ => .refl _
    exact .bind (unwrap_le (getStep_le ha _)) fun _ => .bind (hw.readMultiUnstructured _ _ _ _ _) fun _ => .refl _
  | verticalWind =>
    refine .bind (hw.readMultiUnstructured _ _ _ _ _) fun _ => le_bindR (hs .u false) fun a a' ha =>
      le_bindR (hs .v false) fun b b' hb => .bind ?_ fun _ => .refl _
    exact .bind (unwrap_le (getStep_le ha _)) fun _ => .bind (unwrap_le (getStep_le hb _)) fun _ =>
      .bind (hw.readMultiUnstructured _ _ _ _ _) fun _ => .bind (hw.readMultiUnstructured _ _ _ _ _) fun _ => .refl _
  | weather => exact .refl _

theorem swissExpected_within {m : Libm} {w w' : World} {s s' : Swiss.Service} {cal : Swiss.Calendar} {vars : List Text}
    {filter : List Nat} {grid : UnstructuredGrid} {url : Text} {t : Instant} (hw : w.Extends w') (hs : StepsWithin s s' t)
    {p : Text} {c : Content} (h : SwissExpected m w s cal vars filter grid url t p c) :
    SwissExpected m w' s' cal [] [] grid url t p c := by
  obtain ⟨v, -, run, steps, e1, e2, st, hst, -, l, hl, rest⟩ := h
  have : ∃ steps', swissSteps s' t v = .ok steps' ∧ MoreSteps steps steps' := by
    cases v
    case weather => cases e2
    all_goals exact hs _ _ _ e2
  obtain ⟨steps', e3, hsub, -⟩ := this
  exact ⟨v, .inl rfl, run, steps', e1, e3, st, hsub hst, .inl rfl, l, layers_within hw hs grid url v st l hl, rest⟩

theorem within_self (s : Swiss.Service) (t : Instant) : StepsWithin s s t :=
  fun _ _ l h => ⟨l, h, fun _ hx => hx, steps_numbered h⟩

/-- The hours of the files of each variable are 0, 1, ..., each once. -/
def WithoutGaps (catalogue : List Item) (t : Instant) : Prop :=
  ∀ x, ∃ count, ((filesOf catalogue x t).map (·.hours)).Perm (List.range count)

theorem within_catalogue {web web' : Swiss.Web} {catalogue catalogue' : List Item} (hw : Searches web catalogue)
    (hw' : Searches web' catalogue') (hc : ∀ i ∈ catalogue, i.WellFormed) (hc' : ∀ i ∈ catalogue', i.WellFormed)
    {t : Instant} (h : UsualTime t) (hr : IsRunTime t) (hg : WithoutGaps catalogue t) (hg' : WithoutGaps catalogue' t)
    (hsub : ∀ x, filesOf catalogue x t ⊆ filesOf catalogue' x t) : StepsWithin web.service web'.service t := by
  intro x skip l hl
  obtain ⟨n, hn⟩ := hg x
  obtain ⟨n', hn'⟩ := hg' x
  obtain ⟨a, ha, ma⟩ := C112_steps web catalogue hw hc x t h hr n hn skip
  obtain ⟨b, hb, mb⟩ := C112_steps web' catalogue' hw' hc' x t h hr n' hn' skip
  rw [hl] at ha
  cases ha
  refine ⟨b, hb, fun r hr => ?_, steps_numbered hb⟩
  obtain ⟨k, url⟩ := r
  obtain ⟨h1, i, hi, h2⟩ := (ma k url).mp hr
  exact (mb k url).mpr ⟨h1, i, hsub x hi, h2⟩

/-- What is expected of a call for ICON-CH1. -/
theorem expected_run {e : Environment} {web : Swiss.Web} {catalogue : List Item} {hor vert : Text} {lat lon : Msg} {n : Nat}
    {t : Instant} (h : Meets e web catalogue hor vert lat lon n t) {vars : List Text} {filter : List Nat} {p : Text}
    {c : Content} (hx : MainExpected e "icon-ch1".toList vars filter p c) :
    ∃ assets ah av grid, e.service.assets = .ok assets ∧
      Swiss.findAsset assets "horizontal_constants_icon-ch1-eps.grib2".toList = some ah ∧
      Swiss.findAsset assets "vertical_constants_icon-ch1-eps.grib2".toList = some av ∧
      Swiss.readHorConst e.world ah.href = .ok grid ∧
      SwissExpected e.libm e.world web.service Swiss.chrono vars filter grid av.href t p c := by
  have hne : "icon-ch1".toList ≠ "icon-d2".toList ∧ "icon-ch1".toList ≠ "icon-eu".toList := by decide +kernel
  rcases hx with ⟨_, ⟨h, _⟩ | ⟨h, _⟩, _⟩ | ⟨_, assets, ah, av, grid, texts, t', a1, a2, a3, a4, a5, a6, hx⟩
  · exact absurd h hne.1
  · exact absurd h hne.2
  obtain ⟨texts', t1, t2⟩ := C111_newest web catalogue h.searches h.wellFormed h.ordered t h.newest
  rw [h.service, t1] at a5
  cases a5
  rw [h.calendar, t2] at a6
  cases a6
  rw [h.service, h.calendar] at hx
  exact ⟨assets, ah, av, grid, a1, a2, a3, a4, hx⟩

/-- C167, as long as the hours of the run are published in their order.  Missing for the full statement: a run of which
a later hour is published before an earlier one, for which it is false. -/
theorem C167_partial (e e' : Environment) (hs : SameFiles e e') (web web' : Swiss.Web) (catalogue catalogue' : List Item)
    (hor hor' vert vert' : Text) (lat lat' lon lon' : Msg) (n n' : Nat) (t t' : Instant)
    (h : Meets e web catalogue hor vert lat lon n t) (h' : Meets e' web' catalogue' hor' vert' lat' lon' n' t')
    (hsub : catalogue ⊆ catalogue') (hg : WithoutGaps catalogue t) (hg' : WithoutGaps catalogue' t')
    (vars vars' : List Text) (filter filter' : List Nat) (tr tr' : List Write) (o o' : Outcome)
    (ht : mainEffect e "icon-ch1".toList vars filter tr o) (ht' : mainEffect e' "icon-ch1".toList vars' filter' tr' o') :
    ∀ x ∈ tr, ∀ x' ∈ tr', x.path = x'.path → x.content = x'.content := by
  intro x hx x' hx' hp
  have h1 := (C87_main e _ vars filter tr).1 o ht x hx
  have h2 := (C87_main e' _ vars' filter' tr').1 o' ht' x' hx'
  rw [← hp] at h2
  obtain ⟨assets, ah, av, grid, a1, a2, a3, a4, h1⟩ := expected_run h h1
  obtain ⟨assets', ah', av', grid', b1, b2, b3, b4, h2⟩ := expected_run h' h2
  obtain rfl := hs.assets _ _ a1 b1
  rw [a2] at b2
  cases b2
  rw [a3] at b3
  cases b3
  have w1 : e.world.Extends (World.both e.world e'.world) := (joint_left e e').world
  have w2 : e'.world.Extends (World.both e.world e'.world) :=
    .of_downloads (fun u b hb => or_right (fun y hy => hs.download u y b hy hb) hb)
      (fun u b hb => or_right (fun y hy => hs.file u y b hy hb) hb) hs.bunzip.symm
  have c1 := w1.horConst _ _ a4
  have c2 := w2.horConst _ _ b4
  rw [c1] at c2
  cases c2
  have et : t = t' := by
    obtain ⟨v, hv, run, steps, e1, e2, st, hs1, hc, l, hr, out, hf, hp⟩ := h1
    obtain ⟨v', hv', run', steps', e1', e2', st', hs1', hc', l', hr', out', hf', hp'⟩ := h2
    exact (C109_directories t t' h.usual h'.usual h.runTime h'.runTime run run' e1 e1' (hp.symm.trans hp')).1
  subst et
  have hw := within_catalogue h.searches h'.searches h.wellFormed h'.wellFormed h.usual h.runTime hg hg'
    fun x => List.filter_subset _ hsub
  have r1 := swissExpected_within w1 hw h1
  have r2 := swissExpected_within w2 (within_self _ _) h2
  rw [hs.libm] at r2
  exact swissExpected_functional r1 r2

/-! ## C167 is false -/

/-- The temperature files of the hours 0, 1 and 2 of a run at noon. -/
def noonItem (k : Fin 3) : Item :=
  ⟨ch1, augustNoon, "2025-08-25T12:00:00Z".toList, k, ["P0DT00H00M00S".toList, "P0DT01H00M00S".toList,
    "P0DT02H00M00S".toList].getD k [], published .t2m, false, [], ["a".toList, "b".toList, "c".toList].getD k []⟩

/-- The hour 1 is published after the hour 2. -/
def earlyCatalogue : List Item := [noonItem 0, noonItem 2]
def lateCatalogue : List Item := [noonItem 0, noonItem 2, noonItem 1]

theorem noonItem_ok (k : Fin 3) : (noonItem k).WellFormed := by
  refine ⟨augustNoon_parse, augustNoon_run, ?_, ?_⟩
  · show (k : Nat) < 256
    omega
  · have : ∀ k : Fin 3, ["P0DT00H00M00S".toList, "P0DT01H00M00S".toList, "P0DT02H00M00S".toList].getD k [] =
        'P' :: (dec ((k : Nat) / 24) ++ "DT".toList ++ decPad 2 ((k : Nat) % 24) ++ "H00M00S".toList) := by decide +kernel
    exact this k

/-- 270 K. -/
def coldMsg : Msg := fieldMsg ⟨false, 0, 0⟩ [0xB0] [270, 273, 275]

theorem coldMsg_ok : coldMsg.ok := fieldMsg_ok ⟨by decide, by decide⟩ (by decide) (by decide) (by decide)

theorem coldMsg_full : FullField coldMsg 4 :=
  fieldMsg_full (r := 0) (by decide +kernel) (by norm_num) (by decide) (.inr (by decide)) (by decide)

/-- 270 K in the file of the hour 2, 280 K in the others. -/
def coolingBody (u : Text) : List UInt8 :=
  if u = "c".toList then (swissMsgs coldMsg).flatMap encode else (swissMsgs warmMsg).flatMap encode

def coolingWorld : World := ⟨fun u => some (coolingBody u), fun u => some (coolingBody u), id⟩

def coolingEnv (m : Libm) (catalogue : List Item) (dirs : Text → Bool) : Environment :=
  ⟨m, coolingWorld, (webOf catalogue).service, Swiss.chrono, dirs, ⟨2025, 8, 25⟩, ⟨2025, 8, 25⟩, fun _ => false⟩

theorem cooling_stream (u : Text) : coolingWorld.stream u = .ok (coolingBody u) := by
  unfold World.stream
  split
  · simp only [coolingWorld, Res.okOr, Res.bind_ok, id, ite_self]
  · rfl

theorem cooling_delivers (u : Text) :
    Delivers coolingWorld u (swissMsgs (if u = "c".toList then coldMsg else warmMsg)) := by
  by_cases h : u = "c".toList
  · rw [if_pos h]
    refine ⟨(swiss_delivers coldMsg_ok trivial u).ok, [], ?_, by decide +kernel⟩
    rw [cooling_stream, coolingBody, if_pos h, List.append_nil]
  · rw [if_neg h]
    refine ⟨(swiss_delivers warmMsg_ok trivial u).ok, [], ?_, by decide +kernel⟩
    rw [cooling_stream, coolingBody, if_neg h, List.append_nil]

attribute [irreducible] coolingBody

theorem cooling_full (u : Text) : FullField (if u = "c".toList then coldMsg else warmMsg) 4 := by
  split
  exacts [coldMsg_full, warmMsg_full]

theorem cooling_constants : Constants coolingWorld "hor".toList latMsg lonMsg 4 := by
  obtain ⟨-, c2, c3, c4, c5⟩ := swiss_constants (f := warmMsg) warmMsg_ok trivial "hor".toList
  exact ⟨⟨_, cooling_delivers _, rfl, rfl⟩, c2, c3, c4, c5⟩

theorem cooling_meets {catalogue : List Item} (hc : ∀ i ∈ catalogue, ∃ k, i = noonItem k) (h0 : noonItem 0 ∈ catalogue)
    (m : Libm) (dirs : Text → Bool) : Meets (coolingEnv m catalogue dirs) (webOf catalogue) catalogue "hor".toList
      "vert".toList latMsg lonMsg 4 augustNoon where
  service := rfl
  calendar := rfl
  searches := fun _ => rfl
  wellFormed := fun i hi => by
    obtain ⟨k, rfl⟩ := hc i hi
    exact noonItem_ok k
  ordered := by
    refine List.pairwise_of_forall_mem_list fun i hi j hj => ?_
    obtain ⟨k, rfl⟩ := hc i hi
    obtain ⟨l, rfl⟩ := hc j hj
    exact .inr ⟨rfl, .inr ⟨rfl, le_refl _⟩⟩
  newest := by
    refine ⟨⟨noonItem 0, List.mem_filter.mpr ⟨h0, by simp [noonItem]⟩, rfl⟩, fun i hi => ?_⟩
    obtain ⟨k, rfl⟩ := hc i (List.mem_of_mem_filter hi)
    exact .inr ⟨rfl, .inr ⟨rfl, le_refl _⟩⟩
  usual := augustNoon_usual
  assets := ⟨_, _, _, rfl, rfl, rfl, rfl, rfl⟩
  constants := cooling_constants

theorem cooling_same (m : Libm) (catalogue catalogue' : List Item) (dirs dirs' : Text → Bool) :
    SameFiles (coolingEnv m catalogue dirs) (coolingEnv m catalogue' dirs') :=
  ⟨rfl, rfl, fun _ _ _ h h' => Option.some.inj (h.symm.trans h'), fun _ _ _ h h' => Option.some.inj (h.symm.trans h'),
    fun _ _ h h' => Res.ok.inj (h.symm.trans h')⟩

theorem temp_only {v : LayerType} (h : ChosenVar [LayerType.temp2m.name] v) : v = .temp2m := by
  rcases h with h | h
  · cases h
  · have := List.mem_singleton.mp h
    revert this
    cases v <;> decide

theorem cooling_done {catalogue : List Item} (hc : ∀ i ∈ catalogue, ∃ k, i = noonItem k) (h0 : noonItem 0 ∈ catalogue)
    (m : Libm) (hm : AccurateRow m) (dirs : Text → Bool) (filter : List Nat) :
    ∃ tr, mainEffect (coolingEnv m catalogue dirs) "icon-ch1".toList [LayerType.temp2m.name] filter tr .done := by
  refine (C113_success _ hm _ _ _ _ _ _ _ _ (cooling_meets hc h0 m dirs) latMsg_full lonMsg_full _ filter
    (fun v hv => ⟨(filesOf catalogue .t2m augustNoon).length, fun p hp => ?_⟩) fun hv => ?_).1
  · obtain rfl := temp_only hv
    obtain rfl := List.mem_singleton.mp hp
    exact ⟨rfl, fun i hi => ⟨_, _, cooling_delivers _, cooling_full _⟩⟩
  · rcases hv with hv | hv <;> exact absurd (temp_only hv) (by decide)

/-- The temperature that is written for a step. -/
theorem cooling_written {catalogue : List Item} (hc : ∀ i ∈ catalogue, ∃ k, i = noonItem k) (h0 : noonItem 0 ∈ catalogue)
    (m : Libm) (dirs : Text → Bool) {filter : List Nat} {tr : List Write}
    (hd : mainEffect (coolingEnv m catalogue dirs) "icon-ch1".toList [LayerType.temp2m.name] filter tr .done)
    {steps : List RunStep} (hs : Swiss.steps (webOf catalogue).service augustNoon .t2m false = .ok steps) {st : RunStep}
    (hst : st ∈ steps) (hf : Chosen filter st) (before : Tree) {k : Rat}
    (hk : physical (if st.url = "c".toList then coldMsg else warmMsg) 0 = some k)
    (h1 : -6399 / 100 ≤ k - 27315 / 100) (h2 : k - 27315 / 100 ≤ 6299 / 100) :
    ∃ bytes b, before.write tr (binPath (runAt augustNoon) st.nr .temp2m) = some (.bytes bytes) ∧
      bytes[397 * 1851 + 781]? = some b ∧ |((b.toNat : Rat) - 128) / 2 - (k - 27315 / 100)| ≤ 1 / 4 + 2 / 1000 := by
  have hmeet := cooling_meets hc h0 m dirs
  generalize hmsg : (if st.url = "c".toList then coldMsg else warmMsg) = msg at hk
  have hdel : Delivers coolingWorld st.url (msg :: (swissMsgs msg).tail) := by rw [← hmsg]; exact cooling_delivers _
  have hfull : FullField msg 4 := by rw [← hmsg]; exact cooling_full _
  obtain ⟨grid, hg, hrun⟩ := main_run hmeet hd
  obtain ⟨run, bytes, e1, b1, -, b3⟩ := C98_temperature _ _ _ _ _ _ _ _ _ grid _ tr hrun hg latMsg lonMsg 4 hmeet.constants
    (.inr (List.mem_singleton.mpr rfl)) steps hs st hst hf _ _ hdel hfull.toPointField before
  rw [C109_run augustNoon hmeet.runTime] at e1
  cases e1
  obtain ⟨o, b, hsh, hb, -, hv⟩ := b3 781 397 (by norm_num) (by norm_num)
  obtain rfl := demo_shown hsh
  exact ⟨bytes, b, b1, hb, (hv k hk h1 h2).2⟩

theorem early_mem : ∀ i ∈ earlyCatalogue, ∃ k, i = noonItem k := by
  intro i hi
  simp only [earlyCatalogue, List.mem_cons, List.not_mem_nil, or_false] at hi
  rcases hi with rfl | rfl
  exacts [⟨_, rfl⟩, ⟨_, rfl⟩]

theorem late_mem : ∀ i ∈ lateCatalogue, ∃ k, i = noonItem k := by
  intro i hi
  simp only [lateCatalogue, List.mem_cons, List.not_mem_nil, or_false] at hi
  rcases hi with rfl | rfl | rfl
  exacts [⟨_, rfl⟩, ⟨_, rfl⟩, ⟨_, rfl⟩]

theorem first_steps : Swiss.steps (webOf [noonItem 0]).service augustNoon .t2m false = .ok [⟨0, "a".toList⟩] := by
  unfold Swiss.steps
  rw [C111_files _ _ (fun _ => rfl) _ _ augustNoon_usual augustNoon_run]
  decide +kernel

theorem early_steps : Swiss.steps (webOf earlyCatalogue).service augustNoon .t2m false =
    .ok [⟨0, "a".toList⟩, ⟨1, "c".toList⟩] := by
  unfold Swiss.steps
  rw [C111_files _ _ (fun _ => rfl) _ _ augustNoon_usual augustNoon_run]
  decide +kernel

theorem late_steps : Swiss.steps (webOf lateCatalogue).service augustNoon .t2m false =
    .ok [⟨0, "a".toList⟩, ⟨1, "b".toList⟩, ⟨2, "c".toList⟩] := by
  unfold Swiss.steps
  rw [C111_files _ _ (fun _ => rfl) _ _ augustNoon_usual augustNoon_run]
  decide +kernel

/-- C167 (what a call has written of a run stays the same in later calls while the run is being published) is false: if the
hour 2 is published before the hour 1, the file of step 1 has the temperatures of the hour 2 at first, and those of the hour 1
after a later call. -/
theorem C167_counterexample (m : Libm) (hm : AccurateRow m) (dirs dirs' : Text → Bool) (before : Tree) :
    SameFiles (coolingEnv m earlyCatalogue dirs) (coolingEnv m lateCatalogue dirs') ∧ earlyCatalogue ⊆ lateCatalogue ∧
    (∃ lat lon n, Meets (coolingEnv m earlyCatalogue dirs) (webOf earlyCatalogue) earlyCatalogue "hor".toList "vert".toList lat lon n
      augustNoon ∧ Meets (coolingEnv m lateCatalogue dirs') (webOf lateCatalogue) lateCatalogue "hor".toList "vert".toList lat lon n
      augustNoon) ∧
    ∃ tr tr' bytes bytes' b b',
      mainEffect (coolingEnv m earlyCatalogue dirs) "icon-ch1".toList [LayerType.temp2m.name] [] tr .done ∧
      mainEffect (coolingEnv m lateCatalogue dirs') "icon-ch1".toList [LayerType.temp2m.name] [] tr' .done ∧
      before.write tr (binPath (runAt augustNoon) 1 .temp2m) = some (.bytes bytes) ∧
      (before.write tr).write tr' (binPath (runAt augustNoon) 1 .temp2m) = some (.bytes bytes') ∧
      bytes[397 * 1851 + 781]? = some b ∧ bytes'[397 * 1851 + 781]? = some b' ∧
      |((b.toNat : Rat) - 128) / 2 - (270 - 27315 / 100)| ≤ 1 / 4 + 2 / 1000 ∧
      |((b'.toNat : Rat) - 128) / 2 - (280 - 27315 / 100)| ≤ 1 / 4 + 2 / 1000 := by
  have e0 : noonItem 0 ∈ earlyCatalogue := by simp [earlyCatalogue]
  have l0 : noonItem 0 ∈ lateCatalogue := by simp [lateCatalogue]
  refine ⟨cooling_same m _ _ dirs dirs', ?_, ⟨_, _, _, cooling_meets early_mem e0 m dirs, cooling_meets late_mem l0 m dirs'⟩, ?_⟩
  · intro i hi
    simp only [earlyCatalogue, lateCatalogue, List.mem_cons, List.not_mem_nil, or_false] at hi ⊢
    rcases hi with rfl | rfl
    exacts [.inl rfl, .inr (.inl rfl)]
  · obtain ⟨tr, ht⟩ := cooling_done early_mem e0 m hm dirs []
    obtain ⟨tr', ht'⟩ := cooling_done late_mem l0 m hm dirs' []
    obtain ⟨bytes, b, h1, h2, h3⟩ := cooling_written early_mem e0 m dirs ht early_steps (st := ⟨1, "c".toList⟩) (List.mem_cons_of_mem _ List.mem_cons_self)
      (.inl rfl) before (k := 270) (by decide +kernel) (by norm_num) (by norm_num)
    obtain ⟨bytes', b', h1', h2', h3'⟩ := cooling_written late_mem l0 m dirs' ht' late_steps (st := ⟨1, "b".toList⟩) (List.mem_cons_of_mem _ List.mem_cons_self)
      (.inl rfl) (before.write tr) (k := 280) (by decide +kernel) (by norm_num) (by norm_num)
    exact ⟨tr, tr', bytes, bytes', b, b', ht, ht', h1, h1', h2, h2', h3, h3'⟩

/-- The hypotheses of C167_partial can be met: first the hour 0 only, then all three. -/
example (m : Libm) (hm : AccurateRow m) (dirs dirs' : Text → Bool) : ∃ tr tr' x x',
    mainEffect (coolingEnv m [noonItem 0] dirs) "icon-ch1".toList [LayerType.temp2m.name] [] tr .done ∧
    mainEffect (coolingEnv m lateCatalogue dirs') "icon-ch1".toList [LayerType.temp2m.name] [] tr' .done ∧
    x ∈ tr ∧ x' ∈ tr' ∧ x.path = x'.path ∧ x.content = x'.content := by
  have hc : ∀ i ∈ [noonItem 0], ∃ k, i = noonItem k := fun i hi => ⟨0, List.mem_singleton.mp hi⟩
  have h0 : noonItem 0 ∈ [noonItem 0] := List.mem_singleton.mpr rfl
  have l0 : noonItem 0 ∈ lateCatalogue := by simp [lateCatalogue]
  obtain ⟨tr, ht⟩ := cooling_done hc h0 m hm dirs []
  obtain ⟨tr', ht'⟩ := cooling_done late_mem l0 m hm dirs' []
  obtain ⟨bytes, b, h1, -⟩ := cooling_written hc h0 m dirs ht first_steps (st := ⟨0, "a".toList⟩) List.mem_cons_self
    (.inl rfl) (fun _ => none) (k := 280) (by decide +kernel) (by norm_num) (by norm_num)
  obtain ⟨bytes', b', h1', -⟩ := cooling_written late_mem l0 m dirs' ht' late_steps (st := ⟨0, "a".toList⟩) List.mem_cons_self
    (.inl rfl) (fun _ => none) (k := 280) (by decide +kernel) (by norm_num) (by norm_num)
  have key : ∀ (tr : List Write) (p : Text) (c : Content), Tree.write (fun _ => none) tr p = some c →
      ∃ x ∈ tr, x.path = p := by
    intro tr p c h
    by_contra hn
    rw [(Tree.write_eq (fun _ => none) tr p).2 fun x hx hp => hn ⟨x, hx, hp⟩] at h
    cases h
  obtain ⟨x, hx, hp⟩ := key _ _ _ h1
  obtain ⟨x', hx', hp'⟩ := key _ _ _ h1'
  have hg : ∀ (catalogue : List Item), (∀ i ∈ catalogue, ∃ k, i = noonItem k) → (∃ n,
      ((filesOf catalogue .t2m augustNoon).map (·.hours)).Perm (List.range n)) → WithoutGaps catalogue augustNoon := by
    intro catalogue hc hn x
    by_cases hx : x = .t2m
    · rw [hx]; exact hn
    · refine ⟨0, ?_⟩
      have : filesOf catalogue x augustNoon = [] := by
        refine List.filter_eq_nil_iff.mpr fun i hi => ?_
        obtain ⟨k, rfl⟩ := hc i hi
        rw [decide_eq_true_eq]
        rintro ⟨-, e1, -⟩
        exact hx (published_inj e1.symm)
      rw [this]
      exact List.Perm.refl _
  refine ⟨tr, tr', x, x', ht, ht', hx, hx', hp.trans hp'.symm, ?_⟩
  exact C167_partial _ _ (cooling_same m _ _ dirs dirs') _ _ _ _ _ _ _ _ _ _ _ _ _ _ _ _ (cooling_meets hc h0 m dirs)
    (cooling_meets late_mem l0 m dirs') (by simp [lateCatalogue]) (hg _ hc ⟨1, by decide +kernel⟩)
    (hg _ late_mem ⟨3, by decide +kernel⟩) _ _ _ _ _ _ _ _ ht ht' x hx x' hx' (hp.trans hp'.symm)

/-! ## Calls that meet the hypotheses of C166 -/

theorem Meets.usualDay {e : Environment} {web : Swiss.Web} {catalogue : List Item} {hor vert : Text} {lat lon : Msg} {n : Nat}
    {t : Instant} (h : Meets e web catalogue hor vert lat lon n t) (h1 : e.today.Usual) (h2 : e.now.yesterday.Usual) :
    UsualDay e := by
  refine ⟨h.calendar, h1, h2, fun texts t' h3 h4 => ?_⟩
  obtain ⟨texts', t1, t2⟩ := C111_newest web catalogue h.searches h.wellFormed h.ordered t h.newest
  rw [h.service, t1] at h3
  cases h3
  rw [h.calendar, t2] at h4
  cases h4
  exact ⟨h.runTime, h.usual⟩

theorem august_usual : (⟨2025, 8, 25⟩ : Date).Usual ∧ (⟨2025, 8, 25⟩ : Date).yesterday.Usual := by
  refine ⟨⟨?_, by decide +kernel, by decide +kernel⟩, ⟨?_, by decide +kernel, by decide +kernel⟩⟩ <;>
  · unfold Date.Valid
    decide +kernel

theorem common_write {e e' : Environment} (hx : e'.Extends e) {model : Text} {vars : List Text} {filter : List Nat}
    {tr tr' : List Write} (ht : mainEffect e model [] [] tr .done) (ht' : mainEffect e' model vars filter tr' .done) {p : Text}
    {c : Content} (h : Tree.write (fun _ => none) tr' p = some c) : ∃ x, x ∈ tr ∧ x ∈ tr' := by
  by_cases hp : ∃ x ∈ tr', x.path = p
  · obtain ⟨x, hx', -⟩ := hp
    have h1 := (C87_main _ _ _ _ tr').1 _ ht' x hx'
    exact ⟨x, (C87_main _ _ _ _ tr).2 ht x (h1.mono hx (narrower_all _ _)), hx'⟩
  · rw [(Tree.write_eq (fun _ => none) tr' _).2 fun x hx' e => hp ⟨x, hx', e⟩] at h
    cases h

attribute [local irreducible] swissWorld in
/-- Two calls for ICON-CH1 at the same time, one for a single hour: both succeed and write the same file. -/
example (m : Libm) (hm : AccurateRow m) (dirs dirs' : Text → Bool) : ∃ c c' : Call, c.Runs ∧ c'.Runs ∧
    UsualDay c.found ∧ UsualDay c'.found ∧ Unchanged c.found c'.found ∧ c.filter ≠ c'.filter ∧
    ∃ x, x ∈ c.written ∧ x ∈ c'.written := by
  obtain ⟨f, hok, hk, hfull⟩ : ∃ f : Msg, f.ok ∧ f.product.known ∧ FullField f 4 := ⟨warmMsg, warmMsg_ok, trivial, warmMsg_full⟩
  obtain ⟨tr, ht⟩ := demo_success hok hk hfull m hm dirs [] []
  obtain ⟨tr', ht'⟩ := demo_success hok hk hfull m hm dirs' [] [1]
  have u : ∀ dirs, UsualDay (webEnv m f demoCatalogue dirs) := fun dirs =>
    (demo_meets hok hk m dirs).usualDay august_usual.1 august_usual.2
  refine ⟨⟨_, _, _, _, tr, .done⟩, ⟨_, _, _, _, tr', .done⟩, ht, ht', u dirs, u dirs', ⟨⟨rfl, rfl, ?_, ?_, ?_⟩, ?_⟩,
    (by decide : ([] : List Nat) ≠ [1]), ?_⟩
  · exact fun _ _ _ h h' => Option.some.inj (h.symm.trans h')
  · exact fun _ _ _ h h' => Option.some.inj (h.symm.trans h')
  · exact fun _ _ h h' => Res.ok.inj (h.symm.trans h')
  · exact fun _ _ _ _ h h' => Res.ok.inj (h.symm.trans h')
  · have hd : Delivers (webEnv m f demoCatalogue dirs').world (demoItem augustNoon "2025-08-25T12:00:00Z".toList .t2m 1).href
        (f :: (swissMsgs f).tail) := swiss_delivers hok hk _
    obtain ⟨bytes, b1, -⟩ := C114_temperature (webEnv m f demoCatalogue dirs') (webOf demoCatalogue)
      demoCatalogue "hor".toList "vert".toList latMsg lonMsg 4 augustNoon (demo_meets hok hk m dirs') [] [1] tr' ht'
      (.inl rfl) 2 (demo_hours _) _ (demo_hour1 _) (.inr (by decide)) f _ hd hfull.toPointField (fun _ => none)
    exact common_write (e := webEnv m f demoCatalogue dirs) (e' := webEnv m f demoCatalogue dirs')
      ⟨rfl, (Environment.Extends.refl (webEnv m f demoCatalogue dirs)).world,
        (Environment.Extends.refl (webEnv m f demoCatalogue dirs)).service, rfl, rfl, rfl, rfl⟩ ht ht' b1

/-- Calls for ICON-D2 on different days: both succeed. -/
example (m : Libm) (hm : AccurateRow m) (dirs dirs' : Text → Bool) (vars vars' : List Text) (filter filter' : List Nat) :
    ∃ c c' : Call, c.Runs ∧ c'.Runs ∧ UsualDay c.found ∧ UsualDay c'.found ∧ Unchanged c.found c'.found ∧
    c.found.today ≠ c'.found.today := by
  obtain ⟨tr, ht⟩ := lossless_succeeds m hm dirs ⟨2025, 8, 5⟩ vars filter
  obtain ⟨tr', ht'⟩ := lossless_succeeds m hm dirs' ⟨2025, 8, 6⟩ vars' filter'
  obtain ⟨s, hs⟩ : ∃ s, s = (webOf demoCatalogue).service := ⟨_, rfl⟩
  have key : ∀ dirs today vars filter tr,
      mainEffect (lossyEnvironment m dirs today fun _ => false) "icon-d2".toList vars filter tr .done →
      mainEffect ⟨m, (lossyEnvironment m dirs today fun _ => false).world, s, Swiss.chrono, dirs, today, today, fun _ => false⟩
        "icon-d2".toList vars filter tr .done := by
    intro dirs today vars filter tr h
    have h1 : "icon-d2".toList ≠ "icon-ch1".toList := by decide +kernel
    unfold mainEffect at h ⊢
    rw [if_neg h1, if_pos rfl] at h ⊢
    exact h
  have u : ∀ (w : World) dirs (today : Date), today.Usual → today.yesterday.Usual →
      UsualDay ⟨m, w, s, Swiss.chrono, dirs, today, today, fun _ => false⟩ := by
    intro w dirs today h1 h2
    refine ⟨rfl, h1, h2, ?_⟩
    have := ((demo_meets (f := warmMsg) warmMsg_ok trivial m dirs).usualDay august_usual.1 august_usual.2).newest
    rw [hs]
    exact this
  refine ⟨⟨_, _, _, _, tr, .done⟩, ⟨_, _, _, _, tr', .done⟩, key _ _ _ _ _ ht, key _ _ _ _ _ ht', u _ _ _ ?_ ?_, u _ _ _ ?_ ?_,
    ⟨⟨rfl, rfl, ?_, ?_, ?_⟩, ?_⟩, (by decide : (⟨2025, 8, 5⟩ : Date) ≠ ⟨2025, 8, 6⟩)⟩
  · exact ⟨by unfold Date.Valid; decide +kernel, by decide +kernel, by decide +kernel⟩
  · exact ⟨by unfold Date.Valid; decide +kernel, by decide +kernel, by decide +kernel⟩
  · exact ⟨by unfold Date.Valid; decide +kernel, by decide +kernel, by decide +kernel⟩
  · exact ⟨by unfold Date.Valid; decide +kernel, by decide +kernel, by decide +kernel⟩
  · exact fun _ _ _ h h' => Option.some.inj (h.symm.trans h')
  · exact fun _ _ _ h h' => Option.some.inj (h.symm.trans h')
  · exact fun _ _ h h' => Res.ok.inj (h.symm.trans h')
  · exact fun _ _ _ _ h h' => Res.ok.inj (h.symm.trans h')

end Verif.Props
