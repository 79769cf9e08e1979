import Verif.Props.Calls
import Verif.Props.Catalogue
import Verif.Props.RepeatDemo

/-!
# C166: calls at the same time, and calls one after the other
-/

namespace Verif.Props

open Verif MapTileRenderer Dwd
open Verif.Spec (IsRunTime)

/-! ## Specification -/

/-- What is published under a name does not change between two calls.  More may be published in the meantime: a download
that fails for one call may succeed for the other one. -/
structure SameFiles (e e' : Environment) : Prop where
  libm : e'.libm = e.libm
  bunzip : e'.world.bunzip = e.world.bunzip
  download : ∀ url body body', e.world.download url = some body → e'.world.download url = some body' → body = body'
  file : ∀ name body body', e.world.file name = some body → e'.world.file name = some body' → body = body'
  assets : ∀ x x', e.service.assets = .ok x → e'.service.assets = .ok x' → x = x'

/-- Nor do the answers of the web service about a run change. -/
structure Unchanged (e e' : Environment) : Prop extends SameFiles e e' where
  search : ∀ y t x x', e.service.search y t = .ok x → e'.service.search y t = .ok x' → x = x'

/-- The calendar is the usual one, years have four digits, and the newest run of the web service starts at a whole third
hour. -/
structure UsualDay (e : Environment) : Prop where
  calendar : e.calendar = Swiss.chrono
  today : e.today.Usual
  yesterday : e.now.yesterday.Usual
  newest : ∀ texts t, e.service.refTimes = .ok texts → SwissSearch.findLatest e.calendar.parse texts = .ok t →
    IsRunTime t ∧ UsualTime t

/-! ## What both calls find -/

/-- What is found by either call. -/
def World.both (w w' : World) : World :=
  ⟨fun u => (w.download u).or (w'.download u), fun n => (w.file n).or (w'.file n), w.bunzip⟩

def resOr {α : Type} : Res α → Res α → Res α
  | .ok a, _ => .ok a
  | _, b => b

theorem resOr_left {α : Type} {a b : Res α} {x : α} (h : a = .ok x) : resOr a b = .ok x := by rw [h]; rfl

theorem resOr_right {α : Type} {a b : Res α} {x : α} (hc : ∀ y, a = .ok y → y = x) (h : b = .ok x) :
    resOr a b = .ok x := by
  cases a with
  | ok y => rw [hc y rfl]; rfl
  | err => exact h
  | panic => exact h

theorem or_right {α : Type} {a b : Option α} {x : α} (hc : ∀ y, a = some y → y = x) (h : b = some x) :
    a.or b = some x := by
  cases a with
  | some y => rw [hc y rfl]; rfl
  | none => exact h

/-- The environment of one call, with the answers of both. -/
def joint (e e' at_ : Environment) : Environment :=
  ⟨e.libm, World.both e.world e'.world, ⟨resOr e.service.assets e'.service.assets, at_.service.refTimes,
    fun y t => resOr (e.service.search y t) (e'.service.search y t)⟩, at_.calendar, at_.dirs, at_.today, at_.now, at_.available⟩

theorem joint_left (e e' : Environment) : e.Extends (joint e e' e) := by
  refine ⟨rfl, .of_downloads (fun u b hb => ?_) (fun u b hb => ?_) rfl, ⟨fun x hx => ?_, fun _ hx => hx, fun y t x hx => ?_⟩,
    rfl, rfl, rfl, rfl⟩
  · show (e.world.download u).or _ = _
    rw [hb]; rfl
  · show (e.world.file u).or _ = _
    rw [hb]; rfl
  · exact resOr_left hx
  · exact resOr_left hx

theorem joint_right {e e' : Environment} (h : Unchanged e e') : e'.Extends (joint e e' e') := by
  refine ⟨h.libm.symm, .of_downloads (fun u b hb => ?_) (fun u b hb => ?_) h.bunzip.symm,
    ⟨fun x hx => ?_, fun _ hx => hx, fun y t x hx => ?_⟩, rfl, rfl, rfl, rfl⟩
  · exact or_right (fun y hy => h.download u y b hy hb) hb
  · exact or_right (fun y hy => h.file u y b hy hb) hb
  · exact resOr_right (fun y hy => h.assets y x hy hx) hx
  · exact resOr_right (fun z hz => h.search y t z x hz hx) hx

theorem narrower_all (vars : List Text) (filter : List Nat) : Narrower vars filter [] [] :=
  ⟨fun _ _ => .inl rfl, fun _ _ => .inl rfl⟩

/-! ## Runs -/

theorem dwd_run_usual {model : FcModel} (hd : IsDwd model) {today now : Date} (ht : today.Usual) (hy : now.yesterday.Usual)
    {available : Text → Bool} {run : Run} (h : findLatestRun model today now available = .ok run) :
    UsualName run ∧ IsDwd run.model := by
  have key : ∀ n ∈ runNames, n.length = 2 := by decide +kernel
  refine ⟨?_, ?_⟩
  · have hs := findLatestRun_no_slash hd h
    rcases C51_cases hd available today now with ⟨name, hn, e⟩ | ⟨_, e⟩ <;> rw [e] at h <;> cases h
    · exact ⟨ht, key _ hn.1, hs⟩
    · exact ⟨hy, (by decide : "21".toList.length = 2), hs⟩
  · rcases C51_cases hd available today now with ⟨name, hn, e⟩ | ⟨_, e⟩ <;> rw [e] at h <;> cases h
    · exact hd
    · exact .inl rfl

theorem swiss_run_usual {t : Instant} (h : UsualTime t) (hr : IsRunTime t) {run : Run}
    (e : Swiss.forecastRun Swiss.chrono t = .ok run) : UsualName run ∧ run.model = .iconCh1 := by
  rw [C109_run t hr] at e
  cases e
  exact ⟨⟨h.usual, Date.decPad_length (by have := hr.1; omega) (by norm_num), slash_not_digit (decPad_digits _ _)⟩, rfl⟩

theorem final_content {e e' : Environment} (h : Unchanged e e') (hu : UsualDay e) (hu' : UsualDay e') {model model' : Text}
    {vars vars' : List Text} {filter filter' : List Nat} {p : Text} {c c' : Content}
    (hc : MainExpected e model vars filter p c) (hc' : MainExpected e' model' vars' filter' p c') : c = c' := by
  have hm := hc.mono (joint_left e e') (narrower_all _ _)
  have hm' := hc'.mono (joint_right h) (narrower_all _ _)
  rcases hm with ⟨dwd, hd, run, hr, hx⟩ | ⟨-, assets, hor, vert, grid, texts, t, a1, a2, a3, a4, a5, a6, hx⟩ <;>
  rcases hm' with ⟨dwd', hd', run', hr', hx'⟩ | ⟨-, assets', hor', vert', grid', texts', t', b1, b2, b3, b4, b5, b6, hx'⟩
  · have i : IsDwd dwd := by rcases hd with ⟨-, rfl⟩ | ⟨-, rfl⟩; exacts [.inl rfl, .inr rfl]
    have i' : IsDwd dwd' := by rcases hd' with ⟨-, rfl⟩ | ⟨-, rfl⟩; exacts [.inl rfl, .inr rfl]
    obtain ⟨u, -⟩ := dwd_run_usual i hu.today hu.yesterday hr
    obtain ⟨u', -⟩ := dwd_run_usual i' hu'.today hu'.yesterday hr'
    have : run = run' := by
      obtain ⟨v, hv, s, hs1, hc, l, hr, out, hf, hp⟩ := hx
      obtain ⟨v', hv', s', hs1', hc', l', hr', out', hf', hp'⟩ := hx'
      exact (C54_paths u u' (hp.symm.trans hp')).1
    subst this
    exact dwdExpected_functional u.2.2 hx hx'
  · exfalso
    have i : IsDwd dwd := by rcases hd with ⟨-, rfl⟩ | ⟨-, rfl⟩; exacts [.inl rfl, .inr rfl]
    obtain ⟨u, um⟩ := dwd_run_usual i hu.today hu.yesterday hr
    obtain ⟨q1, q2⟩ := hu'.newest texts' t' b5 b6
    obtain ⟨v, hv, s, hs1, hc, l, hr, out, hf, hp⟩ := hx
    obtain ⟨v', hv', run', steps', e1', e2', st', hs1', hc', l', hr', out', hf', hp'⟩ := hx'
    have e1' : Swiss.forecastRun e'.calendar t' = .ok run' := e1'
    rw [hu'.calendar] at e1'
    obtain ⟨u', um'⟩ := swiss_run_usual q2 q1 e1'
    have := (C54_paths u u' (hp.symm.trans hp')).1
    rw [this, um'] at um
    rcases um with h | h <;> cases h
  · exfalso
    have i' : IsDwd dwd' := by rcases hd' with ⟨-, rfl⟩ | ⟨-, rfl⟩; exacts [.inl rfl, .inr rfl]
    obtain ⟨u, um⟩ := dwd_run_usual i' hu'.today hu'.yesterday hr'
    obtain ⟨q1, q2⟩ := hu.newest texts t a5 a6
    obtain ⟨v, hv, s, hs1, hc, l, hr, out, hf, hp⟩ := hx'
    obtain ⟨v', hv', run', steps', e1', e2', st', hs1', hc', l', hr', out', hf', hp'⟩ := hx
    have e1' : Swiss.forecastRun e.calendar t = .ok run' := e1'
    rw [hu.calendar] at e1'
    obtain ⟨u', um'⟩ := swiss_run_usual q2 q1 e1'
    have := (C54_paths u u' (hp.symm.trans hp')).1
    rw [this, um'] at um
    rcases um with h | h <;> cases h
  · obtain ⟨q1, q2⟩ := hu.newest texts t a5 a6
    obtain ⟨q1', q2'⟩ := hu'.newest texts' t' b5 b6
    have b1 : (joint e e' e).service.assets = .ok assets' := b1
    rw [a1] at b1
    cases b1
    rw [a2] at b2
    cases b2
    rw [a3] at b3
    cases b3
    have b4 : Swiss.readHorConst (joint e e' e).world hor.href = .ok grid' := b4
    rw [a4] at b4
    cases b4
    have ec : (joint e e' e).calendar = Swiss.chrono := hu.calendar
    have ec' : (joint e e' e').calendar = Swiss.chrono := hu'.calendar
    rw [ec] at hx
    rw [ec'] at hx'
    have : t = t' := by
      obtain ⟨v, hv, run, steps, e1, e2, st, hs1, hc, l, hr, out, hf, hp⟩ := hx
      obtain ⟨v', hv', run', steps', e1', e2', st', hs1', hc', l', hr', out', hf', hp'⟩ := hx'
      exact (C109_directories t t' q2 q2' q1 q1' run run' e1 e1' (hp.symm.trans hp')).1
    subst this
    have hx'' : SwissExpected (joint e e' e).libm (joint e e' e).world (joint e e' e).service Swiss.chrono [] [] grid
      vert.href t p c' := hx'
    exact swissExpected_functional hx hx''

/-! ## C166 -/

/-- C166: what two calls write to the same path is the same. -/
theorem C166_final (e e' : Environment) (h : Unchanged e e') (hu : UsualDay e) (hu' : UsualDay e') (model model' : Text)
    (vars vars' : List Text) (filter filter' : List Nat) (tr tr' : List Write) (o o' : Outcome)
    (ht : mainEffect e model vars filter tr o) (ht' : mainEffect e' model' vars' filter' tr' o') :
    ∀ x ∈ tr, ∀ x' ∈ tr', x.path = x'.path → x.content = x'.content := by
  intro x hx x' hx' hp
  have h1 := (C87_main e model vars filter tr).1 o ht x hx
  have h2 := (C87_main e' model' vars' filter' tr').1 o' ht' x' hx'
  rw [← hp] at h2
  exact final_content h hu hu' h1 h2

/-- A call of the program: what it finds, its command line, what it writes and how it ends. -/
structure Call where
  found : Environment
  model : Text
  vars : List Text
  filter : List Nat
  written : List Write
  outcome : Outcome

/-- The call is possible. -/
def Call.Runs (c : Call) : Prop := mainEffect c.found c.model c.vars c.filter c.written c.outcome

/-- C166: in whichever order the writes of any calls take place, the files are the same in the end. -/
theorem C166_together (calls : List Call) (hr : ∀ c ∈ calls, c.Runs) (hu : ∀ c ∈ calls, UsualDay c.found)
    (h : ∀ c ∈ calls, ∀ c' ∈ calls, Unchanged c.found c'.found) (mix : List Write)
    (hm : mix.Perm (calls.flatMap (·.written))) (before : Tree) :
    before.write mix = calls.foldl (fun t c => t.write c.written) before := by
  have e : calls.foldl (fun t c => t.write c.written) before = before.write (calls.flatMap (·.written)) := by
    clear hr hu h hm
    induction calls generalizing before with
    | nil => rfl
    | cons c cs ih => rw [List.foldl_cons, ih, List.flatMap_cons, Tree.write_append]
  rw [e]
  refine Tree.write_congr (fun w => hm.mem_iff) (fun w hw w' hw' hp => ?_) before
  obtain ⟨c, hc, hw⟩ := List.mem_flatMap.mp (hm.mem_iff.mp hw)
  obtain ⟨c', hc', hw'⟩ := List.mem_flatMap.mp (hm.mem_iff.mp hw')
  exact C166_final _ _ (h c hc c' hc') (hu c hc) (hu c' hc') _ _ _ _ _ _ _ _ _ _ (hr c hc) (hr c' hc') w hw w' hw' hp

end Verif.Props
