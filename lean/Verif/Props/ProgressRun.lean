import Verif.Props.Progress
import Verif.Props.ModelFiles

/-!
# Property C188, continued: the run that is reported is the run that is drawn
-/

namespace Verif.Props

open Verif MapTileRenderer

/-- Nothing is said to have been found. -/
def NothingFound (_ : List Happening) : Happening → Prop
  | .said m => ∃ t, m = .text t
  | .wrote _ => True

theorem nothing_more (a b : List Happening) (x : Happening) (h : NothingFound b x) : NothingFound (a ++ b) x := h

theorem nothing_text (t : Text) : FitsStory NothingFound (Story.said (.text t)) := FitsStory.said ⟨t, rfl⟩

theorem nothing_around (a b : Text) (e : Effect) : FitsStory NothingFound (Story.around a b e) :=
  FitsStory.around ⟨a, rfl⟩ (fun _ _ _ _ _ _ _ => trivial) (fun _ _ => ⟨b, rfl⟩)

/-- The message comes first, and no other of its kind follows. -/
theorem found_first {m : Message} {ds : List Story} (hd : FitsStory NothingFound (Seq ds)) {tr : List Happening} {o : Outcome}
    (h : Seq (Story.said m :: ds) tr o) :
    ∃ l, tr = .said m :: l ∧ ∀ m', .said m' ∈ l → ∃ t, m' = .text t := by
  cases h with
  | stop t1 ho => obtain ⟨-, rfl⟩ := t1; exact absurd rfl ho
  | cons t1 t2 =>
    obtain ⟨rfl, -⟩ := t1
    refine ⟨_, rfl, fun m' hm => ?_⟩
    obtain ⟨b, a, e⟩ := List.append_of_mem hm
    exact hd _ _ t2 b _ a e

theorem text_first {t : Text} {ds : List Story} {tr : List Happening} {o : Outcome}
    (h : Seq (Story.said (.text t) :: ds) tr o) : ∃ l, tr = .said (.text t) :: l ∧ Seq ds l o := by
  cases h with
  | stop t1 ho => obtain ⟨-, rfl⟩ := t1; exact absurd rfl ho
  | cons t1 t2 =>
    obtain ⟨rfl, -⟩ := t1
    exact ⟨_, rfl, t2⟩

theorem story_one {d : Story} {tr : List Happening} {o : Outcome} (h : Seq [d] tr o) : d tr o := by
  cases h with
  | cons t1 t2 => cases t2; rwa [List.append_nil]
  | stop t1 ho => exact t1

theorem dwd_found (m : Libm) (w : World) (dirs : Text → Bool) (vars : List Text) (filter : List Nat) (run : Run)
    {tr : List Happening} {o : Outcome} (h : Dwd.runStory m w dirs vars filter run tr o) :
    ∃ l, tr = .said (.runFound run) :: l ∧ ∀ m', .said m' ∈ l → ∃ t, m' = .text t :=
  found_first (.cons nothing_more (.when fun _ => nothing_around _ _ _) (.cons nothing_more (.when fun _ => nothing_around _ _ _)
    (.cons nothing_more (.when fun _ => nothing_around _ _ _) (.cons nothing_more (.when fun _ => .need fun _ _ =>
      .cons nothing_more (.when fun _ => nothing_around _ _ _) (.cons nothing_more (.when fun _ => nothing_around _ _ _) .nil)) .nil)))) h

theorem swiss_found (m : Libm) (w : World) (s : Swiss.Service) (cal : Swiss.Calendar) (dirs : Text → Bool) (vars : List Text)
    (filter : List Nat) (grid : UnstructuredGrid) (url : Text) (t : Instant) {tr : List Happening} {o : Outcome}
    (h : Swiss.runStory m w s cal dirs vars filter grid url t tr o) :
    ∃ l, tr = .said (.timeFound t) :: l ∧ ∀ m', .said m' ∈ l → ∃ t, m' = .text t :=
  found_first (.cons nothing_more (.when fun _ => nothing_around _ _ _) (.cons nothing_more (.when fun _ => nothing_around _ _ _)
    (.cons nothing_more (.when fun _ => nothing_around _ _ _) (.cons nothing_more (.when fun _ => .cons nothing_more (nothing_text _)
      (.cons nothing_more (.need fun _ _ => .cons nothing_more (nothing_text _) (.cons nothing_more (.when fun _ => nothing_around _ _ _)
        (.cons nothing_more (.when fun _ => nothing_around _ _ _) .nil))) .nil)) .nil)))) h

/-- What a message that something has been found says, as a directory of the output: that of the run, or that of the run of
the time. -/
inductive NamesDir (cal : Swiss.Calendar) : Message → Text → Prop
  | run (run : Run) : NamesDir cal (.runFound run) (runDir run.model.name run.date run.name)
  | time (t : Instant) (run : Run) (h : Swiss.forecastRun cal t = .ok run) :
      NamesDir cal (.timeFound t) (runDir "icon-ch1".toList (cal.date t) run.name)

/-- All that happens before a message is said to be text, after it as well. -/
def OneFound (m : Message) (tr : List Happening) : Prop :=
  ∃ a b, tr = a ++ .said m :: b ∧ (∀ x ∈ a, ∃ t, x = .said (.text t)) ∧ ∀ m', .said m' ∈ b → ∃ t, m' = .text t

theorem OneFound.text {m : Message} {tr : List Happening} (t : Text) (h : OneFound m tr) : OneFound m (.said (.text t) :: tr) := by
  obtain ⟨a, b, rfl, h1, h2⟩ := h
  exact ⟨.said (.text t) :: a, b, rfl, by simpa using h1, h2⟩

/-- A call either says nothing but texts and writes nothing, or says exactly once what it has found, before any file. -/
theorem dwd_latest_found (m : Libm) (w : World) (dirs : Text → Bool) (today now : Date) (available : Text → Bool)
    (model : FcModel) (vars : List Text) (filter : List Nat) (tr : List Happening) (o : Outcome)
    (h : Dwd.latestStory m w dirs today now available model vars filter tr o) :
    (∀ x ∈ tr, ∃ t, x = .said (.text t)) ∨
      ∃ run, Dwd.findLatestRun model today now available = .ok run ∧ OneFound (.runFound run) tr := by
  obtain ⟨l1, rfl, h1⟩ := text_first h
  obtain ⟨l2, rfl, h2⟩ := text_first h1
  have h3 := story_one h2
  cases hr : Dwd.findLatestRun model today now available with
  | ok run =>
    rw [hr] at h3
    obtain ⟨l, rfl, hl⟩ := dwd_found m w dirs vars filter run h3
    exact .inr ⟨run, rfl, .text _ (.text _ ⟨[], l, rfl, by simp, hl⟩)⟩
  | err => rw [hr] at h3; obtain ⟨rfl, -⟩ := h3; exact .inl (by simp)
  | panic => rw [hr] at h3; obtain ⟨rfl, -⟩ := h3; exact .inl (by simp)

theorem need_cases {α : Type} {r : Res α} {f : α → Story} {tr : List Happening} {o : Outcome} (h : Story.need r f tr o) :
    tr = [] ∨ ∃ a, r = .ok a ∧ f a tr o := by
  cases r with
  | ok a => exact .inr ⟨a, rfl, h⟩
  | err => exact .inl h.1
  | panic => exact .inl h.1

theorem swiss_latest_found (m : Libm) (w : World) (s : Swiss.Service) (cal : Swiss.Calendar) (dirs : Text → Bool)
    (vars : List Text) (filter : List Nat) (tr : List Happening) (o : Outcome)
    (h : Swiss.latestStory m w s cal dirs vars filter tr o) :
    (∀ x ∈ tr, ∃ t, x = .said (.text t)) ∨ ∃ refTimes t, s.refTimes = .ok refTimes ∧
      SwissSearch.findLatest cal.parse refTimes = .ok t ∧ OneFound (.timeFound t) tr := by
  obtain ⟨l1, rfl, h1⟩ := text_first h
  obtain ⟨l2, rfl, h2⟩ := text_first h1
  rcases need_cases (story_one h2) with rfl | ⟨assets, -, h3⟩
  · exact .inl (by simp)
  rcases need_cases h3 with rfl | ⟨hor, -, h4⟩
  · exact .inl (by simp)
  rcases need_cases h4 with rfl | ⟨grid, -, h5⟩
  · exact .inl (by simp)
  rcases need_cases h5 with rfl | ⟨vert, -, h6⟩
  · exact .inl (by simp)
  obtain ⟨l3, rfl, h7⟩ := text_first h6
  obtain ⟨l4, rfl, h8⟩ := text_first h7
  rcases need_cases (story_one h8) with rfl | ⟨refTimes, e1, h9⟩
  · exact .inl (by simp)
  rcases need_cases h9 with rfl | ⟨t, e2, h10⟩
  · exact .inl (by simp)
  obtain ⟨l, rfl, hl⟩ := swiss_found m w s cal dirs vars filter grid vert.href t h10
  exact .inr ⟨refTimes, t, e1, e2, .text _ (.text _ (.text _ (.text _ ⟨[], l, rfl, by simp, hl⟩)))⟩

theorem oneFound_wrote {m : Message} {tr before after : List Happening} {w : Write} (h : OneFound m tr)
    (hw : tr = before ++ .wrote w :: after) : .said m ∈ before ∧ ∀ m', .said m' ∈ tr → m' = m ∨ ∃ t, m' = .text t := by
  obtain ⟨a, b, e, h1, h2⟩ := h
  constructor
  · rw [hw] at e
    rcases List.append_eq_append_iff.mp e with ⟨l, e1, e2⟩ | ⟨l, e1, e2⟩
    · cases l with
      | nil => simp at e2
      | cons y l =>
        obtain ⟨rfl, -⟩ := List.cons.inj e2
        obtain ⟨t, ht⟩ := h1 (.wrote w) (by rw [e1]; simp)
        cases ht
    · cases l with
      | nil => simp at e2
      | cons y l =>
        obtain ⟨rfl, -⟩ := List.cons.inj e2
        rw [e1]; simp
  · intro m' hm
    rw [e] at hm
    rcases List.mem_append.mp hm with hm | hm
    · obtain ⟨t, ht⟩ := h1 _ hm
      cases ht
      exact .inr ⟨t, rfl⟩
    · rcases List.mem_cons.mp hm with hm | hm
      · cases hm; exact .inl rfl
      · exact .inr (h2 _ hm)

theorem wrote_filesWritten {tr : List Happening} {w : Write} : .wrote w ∈ tr → w ∈ filesWritten tr := by
  induction tr with
  | nil => simp
  | cons x l ih => cases x <;> simp [filesWritten] <;> grind

theorem filesWritten_wrote {tr : List Happening} {w : Write} : w ∈ filesWritten tr → .wrote w ∈ tr := by
  induction tr with
  | nil => simp [filesWritten]
  | cons x l ih => cases x <;> simp [filesWritten] <;> grind

/-- C188: before the first file, a call says which run, or which reference time, it has found; it says so of one only, and all
files lie in the directory of this run. -/
theorem C188_run (e : Environment) (model : Text) (vars : List Text) (filter : List Nat) (tr : List Happening) (o : Outcome)
    (h : mainStory e model vars filter tr o) (before after : List Happening) (w : Write) (hw : tr = before ++ .wrote w :: after) :
    ∃ m dir, .said m ∈ before ∧ NamesDir e.calendar m dir ∧ dir <+: w.path ∧
      ∀ m', .said m' ∈ tr → m' = m ∨ ∃ t, m' = .text t := by
  have hne : "icon-ch1".toList ≠ "icon-d2".toList ∧ "icon-ch1".toList ≠ "icon-eu".toList ∧
    "icon-d2".toList ≠ "icon-eu".toList := by decide +kernel
  have hf : w ∈ filesWritten tr := wrote_filesWritten (by rw [hw]; simp)
  have no : ¬ ∀ x ∈ tr, ∃ t, x = .said (.text t) := by
    intro hx
    obtain ⟨t, ht⟩ := hx (.wrote w) (by rw [hw]; simp)
    cases ht
  have hx := (C87_main e model vars filter _).1 o ((C188_same e model vars filter).1 tr o h) w hf
  have dwd : ∀ d : FcModel, (model = "icon-d2".toList ∧ d = FcModel.iconD2 ∨ model = "icon-eu".toList ∧ d = FcModel.iconEu) →
      Dwd.latestStory e.libm e.world e.dirs e.today e.now e.available d vars filter tr o →
      ∃ m dir, .said m ∈ before ∧ NamesDir e.calendar m dir ∧ dir <+: w.path ∧
        ∀ m', .said m' ∈ tr → m' = m ∨ ∃ t, m' = .text t := by
    intro d hd hs
    rcases dwd_latest_found _ _ _ _ _ _ _ _ _ _ _ hs with hn | ⟨run, hr, hone⟩
    · exact absurd hn no
    obtain ⟨i1, i2⟩ := oneFound_wrote hone hw
    refine ⟨_, _, i1, .run run, ?_, i2⟩
    rcases hx with ⟨d', hd', run', hr', h5⟩ | ⟨hm, _⟩
    · have : d' = d := by
        rcases hd with ⟨a, rfl⟩ | ⟨a, rfl⟩ <;> rcases hd' with ⟨b, rfl⟩ | ⟨b, rfl⟩
        · rfl
        · exact absurd (a.symm.trans b) hne.2.2
        · exact absurd (b.symm.trans a) hne.2.2
        · rfl
      subst this
      rw [hr] at hr'
      cases hr'
      obtain ⟨_, _, s, _, _, _, _, out, _, hp⟩ := h5
      rw [hp]
      exact out.in_runDir run s.nr
    · rcases hd with ⟨a, _⟩ | ⟨a, _⟩
      · exact absurd (hm.symm.trans a) hne.1
      · exact absurd (hm.symm.trans a) hne.2.1
  unfold mainStory at h
  split at h
  · rename_i hm
    rcases swiss_latest_found _ _ _ _ _ _ _ _ _ h with hn | ⟨refTimes, t, e1, e2, hone⟩
    · exact absurd hn no
    obtain ⟨i1, i2⟩ := oneFound_wrote hone hw
    rcases hx with ⟨_, ⟨b, _⟩ | ⟨b, _⟩, _⟩ | ⟨_, _, _, _, _, refTimes', t', _, _, _, _, a5, a6, hx⟩
    · exact absurd (hm.symm.trans b) hne.1
    · exact absurd (hm.symm.trans b) hne.2.1
    rw [e1] at a5; cases a5
    rw [e2] at a6; cases a6
    obtain ⟨_, _, run, _, b1, _, s, _, _, _, _, out, _, hp⟩ := hx
    refine ⟨_, _, i1, .time t run b1, ?_, i2⟩
    obtain ⟨n, _, b2⟩ := Res.bind_eq_ok.mp b1
    cases b2
    rw [hp]
    exact out.in_runDir ⟨.iconCh1, e.calendar.date t, n⟩ s.nr
  split at h
  · rename_i _ hm
    exact dwd .iconD2 (.inl ⟨hm, rfl⟩) h
  split at h
  · rename_i _ _ hm
    exact dwd .iconEu (.inr ⟨hm, rfl⟩) h
  · obtain ⟨rfl, -⟩ := h
    simp at hw

/-- A call for ICON-EU that succeeds, writes files and reports the run of ICON-D2 that they belong to. -/
example : ∃ (e : Environment) (tr before after : List Happening) (w : Write) (m : Message) (dir : Text),
    mainStory e "icon-eu".toList ["temp_2m".toList] [3] tr .done ∧ tr = before ++ .wrote w :: after ∧
    .said m ∈ before ∧ NamesDir e.calendar m dir ∧ dir <+: w.path ∧ modelDir "icon-d2".toList <+: w.path := by
  obtain ⟨e, ws, h, hn, hd⟩ := C153_counterexample
  obtain ⟨tr, h1, rfl⟩ := (C188_same _ _ _ _).2 ws .done h
  obtain ⟨w, hw⟩ := List.exists_mem_of_ne_nil _ hn
  obtain ⟨before, after, e1⟩ := List.append_of_mem (filesWritten_wrote hw)
  obtain ⟨m, dir, a, b, c, -⟩ := C188_run e _ _ _ tr _ h1 before after w e1
  exact ⟨e, tr, before, after, w, m, dir, h1, e1, a, b, c, (hd w hw).1⟩

end Verif.Props
