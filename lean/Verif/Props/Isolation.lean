import Verif.Props.Turns
import Verif.Props.Portable
import Verif.Props.Downloads

/-!
# C185: a variable that cannot be rendered and the other variables of the call
-/

namespace Verif.Props

open Verif Dwd MapTileRenderer
open Verif.Spec.Grib2 (encode)
open Verif.Spec (AccurateRow exists_accurateRow)

attribute [local irreducible] mainEffect

/-! ## What holds -/

/-- A successful list of calls, taken together. -/
theorem calls_writes {e : Environment} {model : Text} {filter : List Nat} : ∀ {vs : List LayerType} {trs : List (List Write)},
    List.Forall₂ (fun call t => call t .done) (vs.map fun v => mainEffect e model [v.name] filter) trs →
    (∀ u ∈ vs, ∀ x : Write, MainExpected e model [u.name] filter x.path x.content → x ∈ trs.flatten) ∧
    ∀ x ∈ trs.flatten, ∃ u ∈ vs, MainExpected e model [u.name] filter x.path x.content
  | [], _, h => by
    cases h
    exact ⟨fun u hu => (List.not_mem_nil hu).elim, fun x hx => (List.not_mem_nil hx).elim⟩
  | v :: vs, _, h => by
    cases h with
    | cons h1 h2 =>
      obtain ⟨a, b⟩ := calls_writes h2
      have c := C87_main e model [v.name] filter
      constructor
      · intro u hu x hx
        rw [List.flatten_cons, List.mem_append]
        rcases List.mem_cons.mp hu with rfl | hu
        · exact .inl ((c _).2 h1 x hx)
        · exact .inr (a u hu x hx)
      · intro x hx
        rw [List.flatten_cons, List.mem_append] at hx
        rcases hx with hx | hx
        · exact ⟨v, List.mem_cons_self, (c _).1 _ h1 x hx⟩
        · obtain ⟨u, hu, h⟩ := b x hx
          exact ⟨u, List.mem_cons_of_mem _ hu, h⟩

theorem split_map {α β : Type} {f : α → β} : ∀ {l : List α} {before after : List β} {b : β},
    l.map f = before ++ b :: after → ∃ l1 a l2, l = l1 ++ a :: l2 ∧ l1.map f = before ∧ f a = b
  | [], before, _, _, h => by cases before <;> cases h
  | a :: l, [], after, b, h => by
    injection h with h1 h2
    exact ⟨[], a, l, rfl, rfl, h1⟩
  | a :: l, c :: before, after, b, h => by
    injection h with h1 h2
    obtain ⟨l1, a', l2, e1, e2, e3⟩ := split_map h2
    exact ⟨a :: l1, a', l2, by rw [e1]; rfl, by rw [List.map_cons, e2, h1], e3⟩

/-- The path of a file shows to which variable it belongs. -/
theorem path_variable {e : Environment} {model : Text} {u : LayerType} (hu : u ∈ turns) {filter : List Nat} {p : Text}
    {c : Content} (h : MainExpected e model [u.name] filter p c) :
    ∃ (out : Output) (run : Run) (n : Nat), p = out.path run n ∧ out.variable = u := by
  have hone : ∀ v, ChosenVar [u.name] v → v = u := by
    intro v hv
    rcases hv with hv | hv
    · cases hv
    · have hall : ∀ u v : LayerType, u ∈ turns → v.name ∈ [u.name] → v = u := by
        intro u v; cases u <;> cases v <;> decide +kernel
      exact hall u v hu hv
  rcases h with ⟨_, _, run, _, v, hv, s, hs1, hc, l, hr, out, hf, hp⟩ |
    ⟨_, _, _, _, _, _, _, _, _, _, _, _, _, v, hv, run, steps, e1, e2, s, hs1, hc, l, hr, out, hf, hp⟩
  · exact ⟨out, run, s.nr, hp, by rw [hf.variable, variable_of_dwd hr, hone v hv]⟩
  · exact ⟨out, run, s.nr, hp, by rw [hf.variable, variable_of_swiss hr, hone v hv]⟩

/-- C185, the part that holds: if a call does not succeed, there is one variable that is to blame, with which alone the call can
fail in the same way. The variables before it are complete, and nothing is written for the variables after it. -/
theorem C185_before_partial (e : Environment) (model : Text) (vars : List Text) (filter : List Nat)
    (hc : chosenTurns vars ≠ []) (tr : List Write) (o : Outcome) (h : mainEffect e model vars filter tr o)
    (ho : o ≠ .done) : ∃ before v after, chosenTurns vars = before ++ v :: after ∧
      (∃ t, t <:+ tr ∧ mainEffect e model [v.name] filter t o) ∧
      (∀ u ∈ before, ∀ x : Write, MainExpected e model [u.name] filter x.path x.content → x ∈ tr) ∧
      ∀ x ∈ tr, (∃ u ∈ before ++ [v], MainExpected e model [u.name] filter x.path x.content) ∧
        ∃ (out : Output) (run : Run) (n : Nat), x.path = out.path run n ∧ out.variable ∈ before ++ [v] := by
  rcases (C184_turns e model vars filter hc tr o).mp h with ⟨hd, -⟩ | ⟨-, before, call, after, trs, t, h1, h2, h3, rfl⟩
  · exact absurd hd ho
  · obtain ⟨l1, v, l2, e1, rfl, rfl⟩ := split_map h1
    obtain ⟨a, b⟩ := calls_writes h2
    refine ⟨l1, v, l2, e1, ⟨t, List.suffix_append _ _, h3⟩, fun u hu x hx => List.mem_append_left _ (a u hu x hx), ?_⟩
    intro x hx
    have key : ∃ u ∈ l1 ++ [v], MainExpected e model [u.name] filter x.path x.content := by
      rcases List.mem_append.mp hx with hx | hx
      · obtain ⟨u, hu, h⟩ := b x hx
        exact ⟨u, List.mem_append_left _ hu, h⟩
      · exact ⟨v, by simp, (C87_main e model _ filter t).1 _ h3 x hx⟩
    refine ⟨key, ?_⟩
    obtain ⟨u, hu, hx⟩ := key
    have hmem : u ∈ chosenTurns vars := by
      rw [e1]
      rcases List.mem_append.mp hu with hu | hu
      · exact List.mem_append_left _ hu
      · exact List.mem_append_right _ (by rw [List.mem_singleton.mp hu]; exact List.mem_cons_self)
    obtain ⟨out, run, n, hp, hv⟩ := path_variable (List.mem_filter.mp hmem).1 hx
    exact ⟨out, run, n, hp, hv ▸ hu⟩

/-- The order for all variables, and the selection for two of them, in the order of rendering. -/
example : chosenTurns [] = turns ∧ chosenTurns ["temp_2m".toList, "wind_10m".toList] = [.wind10m, .temp2m] := by
  decide +kernel

/-! ## What does not hold -/

/-- The run that is rendered as long as nothing of today is there. -/
def lateRun : Run := ⟨.iconD2, ⟨2025, 8, 4⟩, "21".toList⟩

/-- A server that has every file but one. -/
def lackingWorld (url : Text) : World :=
  ⟨fun u => if u = url then none else some (encode weatherMsg), fun _ => none, id⟩

def lackingMachine (m : Libm) (url : Text) : Environment :=
  ⟨m, lackingWorld url, ⟨.err, .err, fun _ _ => .err⟩, ⟨fun _ => .err, fun _ => ⟨2025, 8, 5⟩⟩, fun _ => false, ⟨2025, 8, 5⟩,
    ⟨2025, 8, 5⟩, fun _ => false⟩

theorem lateRun_usual : UsualRun lateRun := ⟨.inl rfl, by unfold Date.Usual Date.Valid; decide, by decide⟩

theorem lacking_published {r : Req} {url : Text} (hu : fileUrl lateRun r = .ok url) {r' : Req} (hr : r' ≠ r) :
    AreaPublished (lackingWorld url) lateRun demoArea 2 2 r' := by
  obtain ⟨url', hu', _, _⟩ := C52_download (run := lateRun) (.inl rfl) r'
  have hne : url' ≠ url := by
    rintro rfl
    exact hr (C52_injective lateRun_usual lateRun_usual r' r hu' hu).2
  exact ⟨weatherMsg, ⟨weatherMsg_ok, .inl trivial, url', encode weatherMsg, [], hu', if_neg hne,
    (List.append_nil _).symm⟩, weatherMsg_area, fun _ _ => weatherMsg_codes⟩

theorem lacking_main (m : Libm) (url : Text) (vars : List Text) (filter : List Nat) :
    mainEffect (lackingMachine m url) "icon-d2".toList vars filter =
      Dwd.renderRun m (lackingWorld url) (fun _ => false) vars filter lateRun := by
  have hrun : Dwd.findLatestRun .iconD2 ⟨2025, 8, 5⟩ ⟨2025, 8, 5⟩ (fun _ => false) = .ok lateRun := by
    rcases C51_cases (.inl rfl) (fun _ => false) ⟨2025, 8, 5⟩ ⟨2025, 8, 5⟩ with ⟨n, hn, _⟩ | ⟨_, h⟩
    · obtain ⟨url, _, h⟩ := hn.2.1 (.level .clc 48 65) (List.mem_cons_self ..)
      cases h
    · exact h
  unfold mainEffect
  rw [if_neg (by decide), if_pos rfl]
  unfold Dwd.renderLatest
  show Effect.need (Dwd.findLatestRun .iconD2 ⟨2025, 8, 5⟩ ⟨2025, 8, 5⟩ fun _ => false) _ = _
  rw [hrun]
  rfl

/-- Without the eastward wind of the third hour nothing can be written for the wind. -/
theorem lacking_wind (m : Libm) (hm : AccurateRow m) {url : Text} (hu : fileUrl lateRun (.single .u10m 3) = .ok url)
    {tr : List Write} {o : Outcome}
    (h : Dwd.renderRun m (lackingWorld url) (fun _ => false) [LayerType.wind10m.name] [3] lateRun tr o) :
    tr = [] ∧ o = .failed := by
  have hlost : Lost (lackingWorld url) url := .missing (if_pos rfl)
  have hstep : (⟨3, []⟩ : RunStep) ∈ lateRun.model.forecastSteps := step3
  have hbad := lost_not_readable (.inl rfl) hu hlost
  have hone : ∀ v, ChosenVar [LayerType.wind10m.name] v → v = .wind10m := by
    intro v hv
    rcases hv with hv | hv
    · cases hv
    · revert hv
      cases v <;> decide +kernel
  have hthree : ∀ s ∈ lateRun.model.forecastSteps, Chosen [3] s → s.nr = 3 := by
    intro s _ hs
    rcases hs with hs | hs
    · cases hs
    · exact List.mem_singleton.mp hs
  constructor
  · cases tr with
    | nil => rfl
    | cons x tr =>
      obtain ⟨v, hv, s, hs, hc, l, hl, -⟩ := (writes_dwd m _ _ _ _ lateRun).only _ _ h x List.mem_cons_self
      have hl : dwdLayers (lackingWorld url) lateRun v s.nr = .ok l := hl
      rw [hone v hv, hthree s hs hc] at hl
      exact absurd (uses_readable (.inl rfl) hl _ (by simp [Uses])) hbad
  · have hcases := ((C130_run m hm (lackingWorld url) (fun _ => false) [LayerType.wind10m.name] [3] lateRun (.inl rfl) demoArea
      demoArea_valid 2 2 (fun v hv s hs hc r hr => by
        by_cases h : r = .single .u10m 3
        · subst h
          exact .inr ⟨url, hu, hlost⟩
        · exact .inl (lacking_published hu h)) (fun hv k _ _ => .inl (lacking_published hu (by simp)))).2 tr o h).1
    cases o with
    | failed => rfl
    | panicked => exact absurd rfl hcases
    | done =>
      exact absurd (C90_dwd m _ _ _ _ lateRun (.inl rfl) tr h .wind10m (.inr (by simp)) _ hstep (.inr (by simp)) _
        (by simp [Uses])) hbad

theorem lacking_temp (m : Libm) (hm : AccurateRow m) {url : Text} (hu : fileUrl lateRun (.single .u10m 3) = .ok url) :
    (∃ tr, Dwd.renderRun m (lackingWorld url) (fun _ => false) [LayerType.temp2m.name] [3] lateRun tr .done) ∧
    ∀ tr o, Dwd.renderRun m (lackingWorld url) (fun _ => false) [LayerType.temp2m.name] [3] lateRun tr o →
      o = .done ∧ ∃ x ∈ tr, IsData x.content := by
  have hone : ∀ v, ChosenVar [LayerType.temp2m.name] v → v = .temp2m := by
    intro v hv
    rcases hv with hv | hv
    · cases hv
    · revert hv
      cases v <;> decide +kernel
  obtain ⟨h1, h2⟩ := C105_run m hm (lackingWorld url) (fun _ => false) [LayerType.temp2m.name] [3] lateRun (.inl rfl) demoArea
    demoArea_valid 2 2 (fun v hv s _ _ r hr => by
      rw [hone v hv] at hr
      have hr : r = .single .t2m s.nr := hr
      exact lacking_published hu (by rw [hr]; simp)) (fun _ k _ _ => lacking_published hu (by simp))
  refine ⟨h1, fun tr o h => ?_⟩
  have ho := h2 tr o h
  subst ho
  obtain ⟨msg, p1, -⟩ := lacking_published hu (r' := .single .t2m 3) (by simp)
  obtain ⟨url', hu', _, _⟩ := C52_download (run := lateRun) (.inl rfl) (.single .t2m 3)
  have hne : url' ≠ url := by
    rintro rfl
    cases (C52_injective lateRun_usual lateRun_usual _ _ hu' hu).2
  obtain ⟨bytes, hb, -⟩ := C89_temperature m (lackingWorld url) _ _ [3] lateRun (.inl rfl) (by decide) tr h (.inr (by simp)) _
    step3 (.inr (by decide)) weatherMsg 2 2 ⟨weatherMsg_ok, .inl trivial, url', encode weatherMsg, [], hu', if_neg hne,
      (List.append_nil _).symm⟩ weatherMsg_field (fun _ => none)
  obtain ⟨x, hx, -, hc⟩ := data_written hb
  exact ⟨rfl, x, hx, bytes, hc⟩

/-- C185 fails: a server on which a single file of the wind is missing. A call for the temperature succeeds, always, and writes
data. A call for wind and temperature always fails and writes nothing at all. -/
theorem C185_counterexample : ∃ e : Environment,
    ((∃ tr, mainEffect e "icon-d2".toList ["temp_2m".toList] [3] tr .done) ∧
      ∀ tr o, mainEffect e "icon-d2".toList ["temp_2m".toList] [3] tr o → o = .done ∧ ∃ x ∈ tr, IsData x.content) ∧
    (∃ tr o, mainEffect e "icon-d2".toList ["temp_2m".toList, "wind_10m".toList] [3] tr o) ∧
    ∀ tr o, mainEffect e "icon-d2".toList ["temp_2m".toList, "wind_10m".toList] [3] tr o → tr = [] ∧ o = .failed := by
  obtain ⟨m, hm⟩ := exists_accurateRow
  obtain ⟨url, hu, _, _⟩ := C52_download (run := lateRun) (.inl rfl) (.single .u10m 3)
  have hlost : Lost (lackingWorld url) url := .missing (if_pos rfl)
  have ht : chosenTurns ["temp_2m".toList, "wind_10m".toList] = [.wind10m, .temp2m] := by decide +kernel
  have hn : ["temp_2m".toList] = [LayerType.temp2m.name] := by decide +kernel
  refine ⟨lackingMachine m url, ?_, ?_, ?_⟩
  · rw [hn, lacking_main]
    exact lacking_temp m hm hu
  · rw [lacking_main]
    exact (C130_run m hm (lackingWorld url) (fun _ => false) _ [3] lateRun (.inl rfl) demoArea
      demoArea_valid 2 2 (fun v hv s hs hc r hr => by
        by_cases h : r = .single .u10m 3
        · subst h
          exact .inr ⟨url, hu, hlost⟩
        · exact .inl (lacking_published hu h)) (fun hv k _ _ => .inl (lacking_published hu (by simp)))).1
  · intro tr o h
    rw [main_turns _ _ _ _ (by rw [ht]; simp), ht] at h
    simp only [List.map_cons, List.map_nil, lacking_main] at h
    rcases seq_cons_iff.mp h with ⟨t1, t2, h1, -⟩ | ⟨-, h1⟩
    · cases (lacking_wind m hm hu h1).2
    · exact lacking_wind m hm hu h1

/-- C184 on a call that succeeds: files of two variables, in the order of rendering. -/
example : ∃ (e : Environment) (tr : List Write),
    mainEffect e "icon-eu".toList ["temp_2m".toList, "wind_10m".toList] [3] tr .done ∧
    OneByOne [mainEffect e "icon-eu".toList ["wind_10m".toList] [3], mainEffect e "icon-eu".toList ["temp_2m".toList] [3]]
      tr .done ∧ tr ≠ [] := by
  obtain ⟨m, hm⟩ := exists_accurateRow
  obtain ⟨tr, h, -⟩ := eu_fallback_run m hm ⟨.err, .err, fun _ _ => .err⟩ ⟨fun _ => .err, fun _ => ⟨2025, 8, 5⟩⟩
    (fun _ => false) ⟨2025, 8, 5⟩ ["temp_2m".toList, "wind_10m".toList] [3]
  obtain ⟨tr', h', x, hx, -⟩ := machine_run m hm fun _ => false
  have ht : chosenTurns ["temp_2m".toList, "wind_10m".toList] = [.wind10m, .temp2m] := by decide +kernel
  have hn : "temp_2m".toList = LayerType.temp2m.name ∧ "wind_10m".toList = LayerType.wind10m.name := by decide +kernel
  have hne : chosenTurns ["temp_2m".toList, "wind_10m".toList] ≠ [] := by rw [ht]; simp
  have hturn := (C184_turns (machine m fun _ => false) _ _ _ hne tr .done).mp h
  refine ⟨machine m fun _ => false, tr, h, ?_, ?_⟩
  · rw [ht] at hturn
    rw [hn.1, hn.2]
    exact hturn
  · rintro rfl
    rcases hturn with ⟨-, trs, h1, h2⟩ | ⟨h1, -⟩
    · obtain ⟨a, -⟩ := calls_writes h1
      have := a .temp2m (by rw [ht]; simp) x (by
        rw [← hn.1]
        exact (C87_main _ _ _ _ _).1 _ h' x hx)
      rw [← h2] at this
      exact List.not_mem_nil this
    · exact h1 rfl

end Verif.Props
