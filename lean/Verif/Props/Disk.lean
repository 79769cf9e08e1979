import Verif.Lemmas.Disk
import Verif.Props.Order
import Verif.Props.Repeat

/-!
# Property C173: a disk that fails
-/

namespace Verif.Props

open Verif MapTileRenderer Dwd

/-! ## Specification -/

/-- The data files of vertical layers, by their names. -/
def VerticalFile (p : Text) : Prop :=
  "VERTICAL_CLOUDS.meteobin".toList <:+ p ∨ "VERTICAL_WIND.meteobin".toList <:+ p

/-- The failures that the program notices: the directory of a tile cannot be created; a data file cannot be created, except
that of a vertical layer if already its directory cannot be. -/
def Noticed (disk : Disk) (w : Write) : Prop :=
  match w.content with
  | .picture _ => disk w.path = .noDir
  | .bytes _ => disk w.path = .noFile ∨ disk w.path = .noDir ∧ ¬ VerticalFile w.path

/-- What a file is after the call if `c` was to be written and `old` was there before. -/
def After (fate : Fate) (old : Option Content) (c : Content) : Option Content :=
  match fate with
  | .stored => some c
  | .cut left => some (.bytes left)
  | .noFile => old
  | .noDir => old

/-! ## Names of data files -/

theorem not_vertical (run : Run) (step : Nat) (b : BinType) (h : b ≠ .verticalClouds ∧ b ≠ .verticalWind) :
    ¬ VerticalFile (binPath run step b) := by
  have key : ∀ (a x : Text), x.length ≤ a.length → ¬ ('/' :: x) <:+ a → ¬ x = a → ∀ l, ¬ a <:+ (l ++ ['/']) ++ x := by
    intro a x hl hn hne l h
    rw [List.append_assoc] at h
    by_cases he : x.length = a.length
    · have := List.suffix_of_suffix_length_le (l₁ := x) (l₂ := a) (l₃ := l ++ (['/'] ++ x)) ⟨l ++ ['/'], by simp⟩ h (by omega)
      exact hne (this.eq_of_length he)
    · exact hn (List.suffix_of_suffix_length_le (l₃ := l ++ (['/'] ++ x)) ⟨l, by simp⟩ h (by simp; omega))
  unfold VerticalFile binPath outputPath
  obtain ⟨h1, h2⟩ := h
  cases b with
  | verticalClouds => exact absurd rfl h1
  | verticalWind => exact absurd rfl h2
  | precip => exact not_or.mpr ⟨key _ _ (by decide +kernel) (by decide +kernel) (by decide +kernel) _,
      key _ _ (by decide +kernel) (by decide +kernel) (by decide +kernel) _⟩
  | temp2m => exact not_or.mpr ⟨key _ _ (by decide +kernel) (by decide +kernel) (by decide +kernel) _,
      key _ _ (by decide +kernel) (by decide +kernel) (by decide +kernel) _⟩
  | wind10m => exact not_or.mpr ⟨key _ _ (by decide +kernel) (by decide +kernel) (by decide +kernel) _,
      key _ _ (by decide +kernel) (by decide +kernel) (by decide +kernel) _⟩
  | weather => exact not_or.mpr ⟨key _ _ (by decide +kernel) (by decide +kernel) (by decide +kernel) _,
      key _ _ (by decide +kernel) (by decide +kernel) (by decide +kernel) _⟩

theorem vertical_file (run : Run) (step : Nat) {b : BinType} (h : b = .verticalClouds ∨ b = .verticalWind) :
    VerticalFile (binPath run step b) := by
  rcases h with rfl | rfl
  · exact .inl ⟨_, rfl⟩
  · exact .inr ⟨_, rfl⟩

/-! ## One step -/

theorem tame_chart (disk : Disk) (m : Libm) (run : Run) (step : Nat) (c : Option Chart) :
    Tame (fun w => ¬ Noticed disk w) (runChartOn disk m run step c) (runChart m run step c) := by
  cases c with
  | none => exact .const .done
  | some c =>
    refine Tame.map (fun s : Saved => (⟨tilePath (outputPath run step c.layer) s.tile, .picture s.picture⟩ : Write)) ?_
    have zoom : ∀ z, Tame (fun s : Saved => ¬ Noticed disk ⟨tilePath (outputPath run step c.layer) s.tile, .picture s.picture⟩)
        (runZoomOn disk (outputPath run step c.layer) m c.extent c.color z) (runZoom m c.extent c.color id z) := by
      intro z
      unfold runZoomOn runZoom
      cases tileRange m c.extent z with
      | err => exact .const .failed
      | panic => exact .const .panicked
      | ok r =>
        refine Tame.seq ?_
        rw [List.forall₂_map_left_iff, List.forall₂_map_right_iff, List.forall₂_same]
        intro x _
        refine Tame.parFor _ ?_ ?_ ?_
        · intro t h
          cases hw : unwrapRes (createSingleTile m c.color t id) with
          | ok d => rw [hw, Res.bind_ok] at h; unfold saveOn at h; split at h <;> cases h
          | err => cases h' : createSingleTile m c.color t id <;> rw [h'] at hw <;> cases hw
          | panic => rw [hw] at h; cases h
        · intro t h
          cases h' : createSingleTile m c.color t id <;> rw [h'] at h <;> cases h
        · intro t d
          cases hw : unwrapRes (createSingleTile m c.color t id) with
          | ok d' =>
            rw [Res.bind_ok]
            unfold saveOn Noticed
            simp only
            split
            next e => simp [e]
            next e => simp [e]
          | err => exact ⟨fun h => (by cases h), fun h => (by cases h.1)⟩
          | panic => exact ⟨fun h => (by cases h), fun h => (by cases h.1)⟩
    unfold runAllTiles
    refine Tame.seq ?_
    rw [List.forall₂_map_left_iff, List.forall₂_map_right_iff, List.forall₂_same]
    exact fun z _ => zoom z

/-- How `x` on a disk fits `y` on a perfect disk. -/
structure FollowsOn (disk : Disk) (x y : List Write × Outcome) : Prop where
  never : x.2 ≠ .failed
  same : x.2 = .done → x = y ∧ ∀ w ∈ y.1, ¬ Noticed disk w
  back : (∀ w ∈ y.1, ¬ Noticed disk w) → x = y
  only : ∀ w ∈ x.1, w ∈ y.1

theorem binsOn_agree (disk : Disk) (run : Run) (step : Nat) (dirs : Text → Bool) (bins : List Bin)
    (hb : ∀ b ∈ bins, b.mkdir = true ↔ b.type = .verticalClouds ∨ b.type = .verticalWind) (tr : List Write)
    (ht : ∀ w ∈ tr, ¬ Noticed disk w) :
    FollowsOn disk (writeBinsOn disk run step dirs tr bins) (writeBins run step dirs tr bins) := by
  induction bins generalizing tr with
  | nil => exact ⟨by simp [writeBinsOn], fun _ => ⟨rfl, ht⟩, fun _ => rfl, fun w h => h⟩
  | cons b bs ih =>
    have hm := hb b (by simp)
    have keep := (writeBins_mem run step dirs (b :: bs) tr).2.1
    have stop : ∀ {y}, writeBinsOn disk run step dirs tr (b :: bs) = (tr, .panicked) →
        writeBins run step dirs tr (b :: bs) = y → (y = (tr, .panicked) ∨ ¬ ∀ w ∈ y.1, ¬ Noticed disk w) →
        FollowsOn disk (writeBinsOn disk run step dirs tr (b :: bs)) (writeBins run step dirs tr (b :: bs)) := by
      intro y e e' hbad
      rw [e]
      refine ⟨by simp, fun h => (by cases h), fun h => ?_, keep⟩
      rw [e'] at h ⊢
      exact hbad.elim Eq.symm fun hb => absurd h hb
    cases hd : b.data with
    | err =>
      exact stop (by rw [writeBinsOn]; simp only [hd]) (by rw [writeBins]; simp only [hd]) (.inl rfl)
    | panic =>
      exact stop (by rw [writeBinsOn]; simp only [hd]) (by rw [writeBins]; simp only [hd]) (.inl rfl)
    | ok data =>
      by_cases hdir : (b.mkdir || dirExists dirs tr (outputPath run step b.type.layer)) = true
      · have e' : writeBins run step dirs tr (b :: bs) =
            writeBins run step dirs (tr ++ [⟨binPath run step b.type, .bytes data⟩]) bs := by
          rw [writeBins]; simp only [hd]; rw [if_pos hdir]
        have self : (⟨binPath run step b.type, .bytes data⟩ : Write) ∈ (writeBins run step dirs tr (b :: bs)).1 := by
          rw [e']
          exact (writeBins_mem run step dirs bs _).2.1 _ (by simp)
        by_cases hno : Noticed disk ⟨binPath run step b.type, .bytes data⟩
        · refine stop ?_ rfl (.inr fun h => h _ self hno)
          rw [writeBinsOn]
          simp only [hd]
          rcases hno with hno | ⟨hno, hv⟩
          · simp only [hno]
            split
            · rfl
            · split <;> rfl
          · have : b.mkdir = false := by
              rw [Bool.eq_false_iff]
              intro h
              exact hv (vertical_file run step (hm.mp h))
            simp only [hno, this, Bool.false_eq_true, if_false]
            split <;> rfl
        · have e : writeBinsOn disk run step dirs tr (b :: bs) =
              writeBinsOn disk run step dirs (tr ++ [⟨binPath run step b.type, .bytes data⟩]) bs := by
            rw [writeBinsOn]
            simp only [hd]
            have h1 : disk (binPath run step b.type) ≠ .noFile := fun h => hno (.inl h)
            have h2 : b.mkdir = false → disk (binPath run step b.type) ≠ .noDir := by
              intro h h'
              refine hno (.inr ⟨h', not_vertical run step b.type ?_⟩)
              rw [Bool.eq_false_iff] at h
              exact not_or.mp (mt hm.mpr h)
            cases hmk : b.mkdir with
            | true =>
              simp only [if_true]
            | false =>
              rw [hmk, Bool.false_or] at hdir
              simp only [Bool.false_eq_true, if_false, hdir, if_true]
              cases hf : disk (binPath run step b.type) with
              | noFile => exact absurd hf h1
              | noDir => exact absurd hf (h2 hmk)
              | _ => rfl
          rw [e, e']
          refine ih (fun b' hb' => hb b' (by simp [hb'])) _ fun w hw => ?_
          rcases List.mem_append.mp hw with hw | hw
          · exact ht w hw
          · rw [List.mem_singleton.mp hw]; exact hno
      · have hmk : b.mkdir = false := by
          rw [Bool.eq_false_iff]; intro h; exact hdir (by rw [h]; rfl)
        have hde : dirExists dirs tr (outputPath run step b.type.layer) = false := by
          rw [Bool.eq_false_iff]; intro h; exact hdir (by rw [h, Bool.or_true])
        exact stop (by rw [writeBinsOn]; simp [hd, hmk, hde]) (by rw [writeBins]; simp only [hd]; rw [if_neg hdir]) (.inl rfl)

/-- Only the files of vertical layers create their directory. -/
theorem job_mkdir (l : Layers) : ∀ b ∈ l.job.bins, b.mkdir = true ↔ b.type = .verticalClouds ∨ b.type = .verticalWind := by
  cases l <;> simp [Layers.job]

theorem tame_job (disk : Disk) (m : Libm) (run : Run) (dirs : Text → Bool) (step : Nat) (job : Job)
    (hb : ∀ b ∈ job.bins, b.mkdir = true ↔ b.type = .verticalClouds ∨ b.type = .verticalWind) :
    Tame (fun w => ¬ Noticed disk w) (RunJobOn disk m run dirs step job) (RunJob m run dirs step job) := by
  have hc := tame_chart disk m run step job.chart
  have cover : ∀ {tr o}, runChart m run step job.chart tr o →
      ∃ tr' o', RunJob m run dirs step job tr' o' ∧ ∀ w ∈ tr, w ∈ tr' := by
    intro tr o h
    by_cases ho : o = .panicked
    · subst ho; exact ⟨_, _, .panicked h, fun w hw => hw⟩
    · exact ⟨_, _, .bins h ho, (writeBins_mem run step dirs job.bins tr).2.1⟩
  refine ⟨fun tr o ho => ⟨fun h => ?_, fun h => ?_⟩, fun tr o h w hw => ?_, ?_, ?_, fun hT tr => ?_⟩
  · cases h with
    | panicked _ => exact absurd rfl ho
    | @bins tr oc h hoc =>
      obtain ⟨h1, h2⟩ := (hc.agree _ _ hoc).mp h
      obtain ⟨k1, k2, k3, k4⟩ := binsOn_agree disk run step dirs job.bins hb tr h2
      have hd : (writeBinsOn disk run step dirs tr job.bins).2 = .done := by
        cases e : (writeBinsOn disk run step dirs tr job.bins).2 with
        | done => rfl
        | failed => exact absurd e k1
        | panicked => exact absurd e ho
      obtain ⟨e, hn⟩ := k2 hd
      rw [e]
      exact ⟨.bins h1 hoc, hn⟩
  · obtain ⟨h, hn⟩ := h
    cases h with
    | panicked _ => exact absurd rfl ho
    | @bins tr oc h hoc =>
      have h2 : ∀ w ∈ tr, ¬ Noticed disk w := fun w hw => hn w ((writeBins_mem run step dirs job.bins tr).2.1 w hw)
      have h1 := (hc.agree _ _ hoc).mpr ⟨h, h2⟩
      obtain ⟨k1, k2, k3, k4⟩ := binsOn_agree disk run step dirs job.bins hb tr h2
      have e := k3 hn
      rw [← e]
      exact .bins h1 hoc
  · cases h with
    | panicked h =>
      obtain ⟨tr', o', h', hm⟩ := hc.within _ _ h w hw
      obtain ⟨tr2, o2, h2, hm2⟩ := cover h'
      exact ⟨tr2, o2, h2, hm2 w hm⟩
    | @bins tr oc h hoc =>
      obtain ⟨h1, h2⟩ := (hc.agree _ _ hoc).mp h
      exact ⟨_, _, .bins h1 hoc, (binsOn_agree disk run step dirs job.bins hb tr h2).only w hw⟩
  · obtain ⟨tr, o, h⟩ := hc.total
    obtain ⟨tr2, o2, h2, _⟩ := cover h
    exact ⟨tr2, o2, h2⟩
  · obtain ⟨tr, o, h⟩ := hc.total'
    by_cases ho : o = .panicked
    · subst ho; exact ⟨_, _, .panicked h⟩
    · exact ⟨_, _, .bins h ho⟩
  · have T1 : ∀ tr o, runChart m run step job.chart tr o → ∀ w ∈ tr, ¬ Noticed disk w := by
      intro tr o h w hw
      obtain ⟨tr2, o2, h2, hm⟩ := cover h
      exact hT tr2 o2 h2 w (hm w hw)
    have bins : ∀ {tr o}, runChart m run step job.chart tr o → o ≠ .panicked →
        writeBinsOn disk run step dirs tr job.bins = writeBins run step dirs tr job.bins := fun {tr o} h ho =>
      (binsOn_agree disk run step dirs job.bins hb tr (T1 tr o h)).back fun w hw => hT _ _ (.bins h ho) w hw
    constructor
    · intro h
      generalize ho : Outcome.panicked = o at h
      cases h with
      | panicked h => exact .panicked ((hc.calm T1 _).mp h)
      | bins h hoc =>
        have h := ((hc.agree _ _ hoc).mp h).1
        rw [bins h hoc] at ho ⊢
        exact .bins h hoc
    · intro h
      generalize ho : Outcome.panicked = o at h
      cases h with
      | panicked h => exact .panicked ((hc.calm T1 _).mpr h)
      | bins h hoc =>
        rw [← bins h hoc] at ho ⊢
        exact .bins ((hc.agree _ _ hoc).mpr ⟨h, T1 _ _ h⟩) hoc

theorem tame_steps (disk : Disk) (m : Libm) (dirs : Text → Bool) (filter : List Nat) (run : Run) (steps : List RunStep)
    (read : RunStep → Res Layers) : Tame (fun w => ¬ Noticed disk w) (onDisk disk m dirs filter run steps read)
      (perfectly m dirs filter run steps read) := by
  refine Tame.parTry _ fun s _ => ?_
  show Tame _ (fun tr o => runStepOn disk m run dirs filter read s tr o) (fun tr o => runStep m run dirs filter read s tr o)
  unfold runStepOn runStep
  by_cases hs : selected filter s = true
  · simp only [hs, if_true]
    cases read s with
    | ok l => exact tame_job disk m run dirs s.nr l.job (job_mkdir l)
    | err => exact .const .failed
    | panic => exact .const .panicked
  · simp only [hs, Bool.false_eq_true, if_false]
    exact .const .done

/-! ## The program -/

theorem tame_main {S : Write → Prop} {r r' : Renderer} (h : ∀ run steps read, Tame S (r run steps read) (r' run steps read))
    (e : Environment) (model : Text) (vars : List Text) : Tame S (mainWith r e model vars) (mainWith r' e model vars) := by
  have dwd : ∀ run, Tame S (Dwd.renderRunWith r e.world vars run) (Dwd.renderRunWith r' e.world vars run) := fun run =>
    .seq (.cons (.when _ (.need _ fun _ _ => h _ _ _)) (.cons (.when _ (h _ _ _)) (.cons (.when _ (h _ _ _))
      (.cons (.when _ (.need _ fun _ _ => .seq (.cons (.when _ (h _ _ _)) (.cons (.when _ (h _ _ _)) .nil)))) .nil))))
  have swiss : ∀ grid url t, Tame S (Swiss.renderRunWith r e.world e.service e.calendar vars grid url t)
      (Swiss.renderRunWith r' e.world e.service e.calendar vars grid url t) := fun grid url t =>
    .seq (.cons (.when _ (.need _ fun _ _ => .need _ fun _ _ => .need _ fun _ _ => .need _ fun _ _ => h _ _ _))
      (.cons (.when _ (.need _ fun _ _ => .need _ fun _ _ => .need _ fun _ _ => .need _ fun _ _ => h _ _ _))
      (.cons (.when _ (.need _ fun _ _ => .need _ fun _ _ => h _ _ _))
      (.cons (.when _ (.need _ fun _ _ => .seq (.cons (.when _ (.need _ fun _ _ => .need _ fun _ _ => h _ _ _))
        (.cons (.when _ (.need _ fun _ _ => .need _ fun _ _ => .need _ fun _ _ => h _ _ _)) .nil)))) .nil))))
  unfold mainWith
  split
  · exact .need _ fun _ _ => .need _ fun _ _ => .need _ fun _ _ => .need _ fun _ _ => .need _ fun _ _ => .need _ fun _ _ =>
      swiss _ _ _
  · split
    · exact .need _ fun _ _ => dwd _
    · split
      · exact .need _ fun _ _ => dwd _
      · exact .const .done

theorem main_tame (disk : Disk) (e : Environment) (model : Text) (vars : List Text) (filter : List Nat) :
    Tame (fun w => ¬ Noticed disk w) (mainOn disk e model vars filter) (mainEffect e model vars filter) := by
  rw [mainEffect_eq]
  exact tame_main (tame_steps disk e.libm e.dirs filter) e model vars

/-- C173: how a call ends on a disk that can fail.  It always ends in some way.  Without a panic it ends exactly as on a perfect
disk, provided that none of the files that it writes fails in a way that is noticed.  If none of the files of the call fails
in such a way, all is as on a perfect disk, whatever happens to the contents of the files. -/
theorem C173_ends (disk : Disk) (e : Environment) (model : Text) (vars : List Text) (filter : List Nat) :
    (∃ tr o, mainOn disk e model vars filter tr o) ∧
    (∀ tr o, o ≠ .panicked → (mainOn disk e model vars filter tr o ↔
      mainEffect e model vars filter tr o ∧ ∀ w ∈ tr, ¬ Noticed disk w)) ∧
    ((∀ x : Write, MainExpected e model vars filter x.path x.content → ¬ Noticed disk x) →
      ∀ tr o, mainOn disk e model vars filter tr o ↔ mainEffect e model vars filter tr o) := by
  have h := main_tame disk e model vars filter
  refine ⟨h.total', h.agree, fun hx tr o => ?_⟩
  have hT : ∀ tr o, mainEffect e model vars filter tr o → ∀ w ∈ tr, ¬ Noticed disk w := fun tr o ht w hw =>
    hx w ((C87_main e model vars filter tr).1 o ht w hw)
  by_cases ho : o = .panicked
  · subst ho; exact h.calm hT tr
  · rw [h.agree tr o ho]
    exact ⟨fun h => h.1, fun h => ⟨h, hT tr o h⟩⟩

theorem Tree.writeOn_eq (disk : Disk) (t : Tree) (ws : List Write) (p : Text) :
    (∀ c, (∃ w ∈ ws, w.path = p) → (∀ w ∈ ws, w.path = p → w.content = c) → t.writeOn disk ws p = After (disk p) (t p) c) ∧
    ((∀ w ∈ ws, w.path ≠ p) → t.writeOn disk ws p = t p) := by
  induction ws using List.reverseRecOn with
  | nil => exact ⟨fun c h _ => by simp at h, fun _ => rfl⟩
  | append_singleton ws w ih =>
    have e : t.writeOn disk (ws ++ [w]) p =
        if p = w.path then After (disk p) (t.writeOn disk ws p) w.content else t.writeOn disk ws p := by
      unfold Tree.writeOn
      rw [List.foldl_append]
      rfl
    rw [e]
    constructor
    · rintro c ⟨w', hw', hp'⟩ hc
      by_cases hp : p = w.path
      · rw [if_pos hp, hc w (by simp) hp.symm]
        by_cases hx : ∃ w ∈ ws, w.path = p
        · rw [ih.1 c hx fun w'' h'' => hc w'' (by simp [h''])]
          cases disk p <;> rfl
        · rw [ih.2 fun w'' h'' e'' => hx ⟨w'', h'', e''⟩]
      · rw [if_neg hp]
        refine ih.1 c ⟨w', ?_, hp'⟩ fun w'' h'' => hc w'' (by simp [h''])
        rcases List.mem_append.mp hw' with h | h
        · exact h
        · simp only [List.mem_singleton] at h
          subst h
          exact absurd hp'.symm hp
    · intro h
      rw [if_neg (fun e => h w (by simp) e.symm)]
      exact ih.2 fun w' h' => h w' (by simp [h'])

/-- C173: what is on the disk after a call, however it ends.  Files that are not of this call are as before.  Each file of the call
is as before or as the disk left it; after a call without an error it is as the disk left it, and none has failed in a
way that is noticed. -/
theorem C173_files (disk : Disk) (e : Environment) (model : Text) (vars : List Text) (filter : List Nat) (tr : List Write)
    (o : Outcome) (h : mainOn disk e model vars filter tr o) (before : Tree) (p : Text) :
    ((∀ c, ¬ MainExpected e model vars filter p c) → before.writeOn disk tr p = before p) ∧
    ∀ c, MainExpected e model vars filter p c →
      (before.writeOn disk tr p = before p ∨ before.writeOn disk tr p = After (disk p) (before p) c) ∧
      (o = .done → before.writeOn disk tr p = After (disk p) (before p) c ∧ ¬ Noticed disk ⟨p, c⟩) := by
  have only : ∀ w ∈ tr, MainExpected e model vars filter w.path w.content := by
    intro w hw
    obtain ⟨tr', o', h', hm⟩ := (main_tame disk e model vars filter).within tr o h w hw
    exact (C87_main e model vars filter tr').1 o' h' w hm
  have key : ∀ c, MainExpected e model vars filter p c → (∃ w ∈ tr, w.path = p) →
      before.writeOn disk tr p = After (disk p) (before p) c := by
    intro c hc hw
    refine (Tree.writeOn_eq disk before tr p).1 c hw fun w hw e => ?_
    have := only w hw
    rw [e] at this
    exact mainExpected_functional this hc
  refine ⟨fun hn => ?_, fun c hc => ⟨?_, fun ho => ?_⟩⟩
  · refine (Tree.writeOn_eq disk before tr p).2 fun w hw e => hn w.content ?_
    rw [← e]
    exact only w hw
  · by_cases hw : ∃ w ∈ tr, w.path = p
    · exact .inr (key c hc hw)
    · exact .inl ((Tree.writeOn_eq disk before tr p).2 fun w h e => hw ⟨w, h, e⟩)
  · subst ho
    obtain ⟨h1, h2⟩ := ((main_tame disk e model vars filter).agree tr .done (by simp)).mp h
    have hm := (C87_main e model vars filter tr).2 h1 ⟨p, c⟩ hc
    exact ⟨key c hc ⟨_, hm, rfl⟩, h2 _ hm⟩

/-- C173: where the call would succeed on a perfect disk, a failure that is noticed always ends it with exit status 101. -/
theorem C173_status_partial (disk : Disk) (e : Environment) (model : Text) (vars : List Text) (filter : List Nat)
    (hs : ∀ tr o, mainEffect e model vars filter tr o → o = .done) (x : Write)
    (hx : MainExpected e model vars filter x.path x.content) (hn : Noticed disk x) :
    ∀ tr o, mainOn disk e model vars filter tr o → exitStatus o = 101 := by
  intro tr o h
  by_cases ho : o = .panicked
  · subst ho; rfl
  · obtain ⟨h1, h2⟩ := ((main_tame disk e model vars filter).agree tr o ho).mp h
    have hd := hs tr o h1
    subst hd
    exact absurd hn (h2 x ((C87_main e model vars filter tr).2 h1 x hx))

/-- C173: after a call on a failing disk, however it ended, a successful call on a repaired disk leaves the same files as if the
first call had never been made. -/
theorem C173_repair (disk : Disk) (e : Environment) (model : Text) (vars : List Text) (filter : List Nat)
    (tr tr' : List Write) (o : Outcome) (h : mainOn disk e model vars filter tr o)
    (h' : mainEffect e model vars filter tr' .done) (before : Tree) :
    Tree.write (before.writeOn disk tr) tr' = before.write tr' := by
  funext p
  by_cases hp : ∃ w ∈ tr', w.path = p
  · obtain ⟨w, hw, rfl⟩ := hp
    have same : ∀ w' ∈ tr', w'.path = w.path → w'.content = w.content := by
      intro w' hw' e'
      have a := (C87_main e model vars filter tr').1 .done h' w' hw'
      rw [e'] at a
      exact mainExpected_functional a ((C87_main e model vars filter tr').1 .done h' w hw)
    rw [(Tree.write_eq _ tr' w.path).1 w.content ⟨w, hw, rfl⟩ same, (Tree.write_eq before tr' w.path).1 w.content ⟨w, hw, rfl⟩ same]
  · have none : ∀ w ∈ tr', w.path ≠ p := fun w hw e' => hp ⟨w, hw, e'⟩
    rw [(Tree.write_eq _ tr' p).2 none, (Tree.write_eq before tr' p).2 none]
    exact (C173_files disk e model vars filter tr o h before p).1 fun c hc =>
      none ⟨p, c⟩ ((C87_main e model vars filter tr').2 h' ⟨p, c⟩ hc) rfl

/-- A call that succeeds on a perfect disk, and one of its files. -/
theorem disk_demo (service : Swiss.Service) (cal : Swiss.Calendar) (dirs : Text → Bool) :
    ∃ e : Environment, e.dirs = dirs ∧ e.service = service ∧ e.calendar = cal ∧
      (∃ tr, mainEffect e "icon-eu".toList [] [] tr .done) ∧
      (∀ tr o, mainEffect e "icon-eu".toList [] [] tr o → o = .done) ∧
      ∃ bytes, bytes ≠ [] ∧ MainExpected e "icon-eu".toList [] [] (binPath rainRun 4 .weather) (.bytes bytes) := by
  obtain ⟨m, _, hm⟩ := exists_both
  have hn : Newest (fun _ => true) .iconEu ⟨2025, 8, 5⟩ "21".toList := by
    refine ⟨by decide +kernel, ?_, ?_⟩
    · intro r hr
      obtain ⟨url, hu, -⟩ := C52_download (run := ⟨.iconEu, ⟨2025, 8, 5⟩, "21".toList⟩) (.inr rfl) r
      exact ⟨url, hu, rfl⟩
    · have : ∀ n ∈ runNames, ¬ valueOf "21".toList < valueOf n := by decide +kernel
      exact fun n hn h => absurd h (this n hn)
  obtain ⟨⟨tr, h⟩, always⟩ := C105_main
    ⟨m, otherWorld, service, cal, dirs, ⟨2025, 8, 5⟩, ⟨2025, 8, 5⟩, fun _ => true⟩ hm
    [] [] .iconEu (.inr rfl) "21".toList hn demoArea demoArea_valid 2 2 (fun _ _ _ _ _ r _ => other_area r)
    fun _ k _ _ => other_area _
  refine ⟨⟨m, otherWorld, service, cal, dirs, ⟨2025, 8, 5⟩, ⟨2025, 8, 5⟩, fun _ => true⟩, rfl, rfl, rfl, ⟨tr, h⟩, always, ?_⟩
  obtain ⟨bytes, k, f1, rfl, order⟩ := C172_dwd
    ⟨m, otherWorld, service, cal, dirs, ⟨2025, 8, 5⟩, ⟨2025, 8, 5⟩, fun _ => true⟩ .iconEu (.inr rfl) "21".toList
    hn [] [] tr h .weather (.inl rfl) ⟨4, []⟩ (by decide +kernel) (.inl rfl)
    (fun r => if r = .single .totPrec 4 then otherMsg else weatherMsg) 2 2
    (fun r _ => ⟨other_publishes r, by split <;> [exact otherMsg_field; exact weatherMsg_field]⟩) (fun _ => none)
  have q0 : physical weatherMsg 0 = some 0 := by decide +kernel
  obtain ⟨c, _, hc, _⟩ := order 0 0 0 0 1 (by decide) (by decide) (by decide) (by decide) (by decide)
    ⟨0, 0, q0, q0, by norm_num, by unfold Natural; norm_num, by unfold Natural; norm_num⟩
  refine ⟨bytes, (by rintro rfl; cases hc), ?_⟩
  by_contra hne
  have f2 : (Tree.write (fun _ => none) tr (binPath rainRun 4 .weather)) = some (.bytes bytes) := f1
  by_cases hw : ∃ w ∈ tr, w.path = binPath rainRun 4 .weather
  · obtain ⟨w, hw, hp⟩ := hw
    have hx := (C87_main _ _ _ _ tr).1 .done h w hw
    have := (Tree.write_eq (fun _ => none) tr (binPath rainRun 4 .weather)).1 w.content ⟨w, hw, hp⟩ fun w' hw' hp' => by
      have hx' := (C87_main _ _ _ _ tr).1 .done h w' hw'
      rw [hp] at hx
      rw [hp'] at hx'
      exact mainExpected_functional hx' hx
    rw [f2] at this
    rw [hp, ← Option.some.inj this] at hx
    exact hne hx
  · have := (Tree.write_eq (fun _ => none) tr (binPath rainRun 4 .weather)).2 fun w h e => hw ⟨w, h, e⟩
    rw [f2] at this
    cases this

/-- C173: but a call that reports no failure and ends with status 0 may have stored nothing: on a disk where files can be created
but nothing fits into them, every call that can succeed still does, and leaves all its files empty. -/
theorem C173_counterexample (service : Swiss.Service) (cal : Swiss.Calendar) (dirs : Text → Bool) :
    ∃ (e : Environment) (disk : Disk), e.dirs = dirs ∧ e.service = service ∧ e.calendar = cal ∧
      (∀ tr o, mainOn disk e "icon-eu".toList [] [] tr o → o = .done ∧ exitStatus o = 0 ∧
        ∀ (before : Tree) p c, MainExpected e "icon-eu".toList [] [] p c → before.writeOn disk tr p = some (.bytes [])) ∧
      (∃ tr, mainOn disk e "icon-eu".toList [] [] tr .done) ∧
      ∃ bytes, bytes ≠ [] ∧ MainExpected e "icon-eu".toList [] [] (binPath rainRun 4 .weather) (.bytes bytes) := by
  obtain ⟨e, e1, e2, e3, ⟨tr, h⟩, always, demo⟩ := disk_demo service cal dirs
  have same := (C173_ends (fun _ => .cut []) e "icon-eu".toList [] []).2.2 fun x _ hx => by
    unfold Noticed at hx
    split at hx
    · cases hx
    · rcases hx with hx | hx
      · cases hx
      · cases hx.1
  refine ⟨e, fun _ => .cut [], e1, e2, e3, fun tr o ht => ?_, ⟨tr, (same tr .done).mpr h⟩, demo⟩
  have ho : o = .done := always tr o ((same tr o).mp ht)
  subst ho
  exact ⟨rfl, rfl, fun before p c hc => ((C173_files _ _ _ _ _ tr .done ht before p).2 c hc).2 rfl |>.1⟩

/-- The hypotheses of `C173_repair` can be met: a full disk first. -/
example (service : Swiss.Service) (cal : Swiss.Calendar) (dirs : Text → Bool) (before : Tree) :
    ∃ (e : Environment) (tr tr' : List Write) (o : Outcome), mainOn (fun _ => .cut []) e "icon-eu".toList [] [] tr o ∧
      mainEffect e "icon-eu".toList [] [] tr' .done ∧ Tree.write (before.writeOn (fun _ => .cut []) tr) tr' = before.write tr' := by
  obtain ⟨e, -, -, -, ⟨tr', h'⟩, -⟩ := disk_demo service cal dirs
  obtain ⟨tr, o, h⟩ := (C173_ends (fun _ => .cut []) e "icon-eu".toList [] []).1
  exact ⟨e, tr, tr', o, h, h', C173_repair _ e _ [] [] tr tr' o h h' before⟩

/-- The hypotheses of `C173_status_partial` can be met: one data file cannot be created. -/
example (service : Swiss.Service) (cal : Swiss.Calendar) (dirs : Text → Bool) :
    ∃ (e : Environment) (tr : List Write) (o : Outcome),
      mainOn (fun p => if p = binPath rainRun 4 .weather then .noFile else .stored) e "icon-eu".toList [] [] tr o ∧
      exitStatus o = 101 := by
  obtain ⟨e, -, -, -, -, always, bytes, -, hx⟩ := disk_demo service cal dirs
  obtain ⟨tr, o, h⟩ := (C173_ends (fun p => if p = binPath rainRun 4 .weather then .noFile else .stored) e "icon-eu".toList
    [] []).1
  exact ⟨e, tr, o, h, C173_status_partial _ e "icon-eu".toList [] [] always ⟨_, .bytes bytes⟩ hx (.inl (if_pos rfl)) tr o h⟩

end Verif.Props
