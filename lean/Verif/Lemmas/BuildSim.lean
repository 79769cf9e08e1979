import Mathlib.Data.List.Forall2
import Verif.Lemmas.Build

/-!
# Builds that agree where the first does not panic
-/

namespace Verif

open MapTileRenderer (Outcome Seq ParFor Saved unwrapRes)

/-- The second result is the first one, unless that is a panic. -/
def Res.Sim {α : Type} (a b : Res α) : Prop := a ≠ .panic → b = a

namespace Res.Sim

theorem refl {α : Type} (a : Res α) : Res.Sim a a := fun _ => rfl

theorem bind {α β : Type} {a b : Res α} {f g : α → Res β} (h : Res.Sim a b) (hf : ∀ x, Res.Sim (f x) (g x)) :
    Res.Sim (a >>= f) (b >>= g) := by
  intro hp
  cases a with
  | ok x =>
    rw [h (by simp)]
    exact hf x hp
  | err => rw [h (by simp)]; rfl
  | panic => exact absurd rfl hp

theorem unwrapResult {α : Type} {a b : Res α} (h : Res.Sim a b) : Res.Sim (Res.unwrapResult a) (Res.unwrapResult b) := by
  intro hp
  cases a with
  | ok x => rw [h (by simp)]
  | err => exact absurd rfl hp
  | panic => exact absurd rfl hp

theorem unwrapRes {α : Type} {a b : Res α} (h : Res.Sim a b) :
    Res.Sim (MapTileRenderer.unwrapRes a) (MapTileRenderer.unwrapRes b) := by
  intro hp
  cases a with
  | ok x => rw [h (by simp)]
  | err => exact absurd rfl hp
  | panic => exact absurd rfl hp

theorem mapM {α β : Type} {f g : α → Res β} (h : ∀ x, Res.Sim (f x) (g x)) (l : List α) :
    Res.Sim (Res.mapM f l) (Res.mapM g l) := by
  induction l with
  | nil => exact refl _
  | cons a l ih => exact bind (h a) fun b => bind ih fun bs => refl _

end Res.Sim

/-- Every behaviour of the first without panic is one of the second; and if the first never panics, the second has no
other behaviours. -/
def ESim {α : Type} (R S : List α → Outcome → Prop) : Prop :=
  (∀ tr o, R tr o → o ≠ .panicked → S tr o) ∧ ((∀ tr o, R tr o → o ≠ .panicked) → ∀ tr o, S tr o → R tr o)

namespace ESim

theorem refl {α : Type} (R : List α → Outcome → Prop) : ESim R R := ⟨fun _ _ h _ => h, fun _ _ _ h => h⟩

theorem seq {α : Type} {ws ws' : List (List α → Outcome → Prop)} (h : List.Forall₂ ESim ws ws') :
    ESim (Seq ws) (Seq ws') := by
  induction h with
  | nil => exact refl _
  | @cons w w' ws ws' hw _ ih =>
    refine ⟨fun tr o hr ho => ?_, fun hn tr o hs => ?_⟩
    · cases hr with
      | cons h1 h2 => exact .cons (hw.1 _ _ h1 (by simp)) (ih.1 _ _ h2 ho)
      | stop h1 h2 => exact .stop (hw.1 _ _ h1 ho) h2
    · have hwn : ∀ tr o, w tr o → o ≠ .panicked := by
        intro tr o h1 h2
        exact hn tr o (.stop h1 (by rw [h2]; simp)) h2
      cases hs with
      | @cons _ _ tr1 tr2 _ h1 h2 =>
        have h1' := hw.2 hwn _ _ h1
        exact .cons h1' (ih.2 (fun tr o h3 h4 => hn _ o (.cons h1' h3) h4) _ _ h2)
      | stop h1 h2 => exact .stop (hw.2 hwn _ _ h1) h2

theorem seqMap {α β : Type} {f g : β → List α → Outcome → Prop} (l : List β) (h : ∀ x, ESim (f x) (g x)) :
    ESim (Seq (l.map f)) (Seq (l.map g)) := by
  refine seq ?_
  induction l with
  | nil => exact .nil
  | cons a l ih => exact .cons (h a) ih

theorem need {α : Type} {r r' : Res α} {f f' : α → Effect} (h : Res.Sim r r') (hf : ∀ x, ESim (f x) (f' x)) :
    ESim (Effect.need r f) (Effect.need r' f') := by
  cases r with
  | ok x => rw [h (by simp)]; exact hf x
  | err => rw [h (by simp)]; exact refl _
  | panic =>
    refine ⟨fun tr o h1 h2 => absurd h1.2 h2, fun hn => absurd rfl (hn [] .panicked ⟨rfl, rfl⟩)⟩

theorem when {c : Bool} {e e' : Effect} (h : ESim e e') : ESim (Effect.when c e) (Effect.when c e') := by
  cases c with
  | true => exact h
  | false => exact refl _

theorem parFor {work work' : MapTileCoord → Res Drawable} (h : ∀ t, Res.Sim (work t) (work' t))
    (jobs : List MapTileCoord) : ESim (ParFor work jobs) (ParFor work' jobs) := by
  have conv : ∀ {order : List MapTileCoord} {trace : List Saved},
      List.Forall₂ (fun t s => s.tile = t ∧ work t = .ok s.picture) order trace →
      List.Forall₂ (fun t s => s.tile = t ∧ work' t = .ok s.picture) order trace := by
    intro order trace hf
    refine hf.imp fun t s hts => ⟨hts.1, ?_⟩
    rw [h t (by rw [hts.2]; simp), hts.2]
  refine ⟨fun tr o hr ho => ?_, fun hn tr o hs => ?_⟩
  · cases hr with
    | done order _ perm hf => exact .done order _ perm (conv hf)
    | panicked => exact absurd rfl ho
  · have hw : ∀ t ∈ jobs, work' t = work t := by
      intro t ht
      refine h t fun hp => ?_
      obtain ⟨a, b, rfl⟩ := List.append_of_mem ht
      exact hn [] .panicked (.panicked [] (a ++ b) t [] List.perm_middle.symm hp .nil) rfl
    have back : ∀ {order rest : List MapTileCoord} {trace : List Saved}, (order ++ rest).Perm jobs →
        List.Forall₂ (fun t s => s.tile = t ∧ work' t = .ok s.picture) order trace →
        List.Forall₂ (fun t s => s.tile = t ∧ work t = .ok s.picture) order trace := by
      intro order rest trace hp hf
      have hsub : ∀ t ∈ order, t ∈ jobs := fun t ht => hp.mem_iff.mp (List.mem_append_left _ ht)
      clear hp
      induction hf with
      | nil => exact .nil
      | cons hts _ ih =>
        refine .cons ⟨hts.1, ?_⟩ (ih fun t ht => hsub t (List.mem_cons_of_mem _ ht))
        rw [← hw _ (hsub _ List.mem_cons_self)]; exact hts.2
    cases hs with
    | done order _ perm hf => exact .done order _ perm (back (rest := []) (by simpa using perm) hf)
    | panicked order rest bad _ perm hbad hf =>
      refine .panicked order rest bad _ perm ?_ (back perm hf)
      rw [← hw bad (perm.mem_iff.mp (by simp))]; exact hbad

theorem parTry {α β : Type} {work work' : α → List β → Outcome → Prop} (h : ∀ x, ESim (work x) (work' x))
    (items : List α) : ESim (ParTry work items) (ParTry work' items) := by
  refine ⟨fun tr o hr ho => ?_, fun hn tr o hs => ?_⟩
  · cases hr with
    | mk tagged ends _ tags ran skipped panicked failed =>
      refine .mk tagged ends o tags (fun i hi oi he => ?_) skipped panicked failed
      refine (h _).1 _ _ (ran i hi oi he) fun hoi => ?_
      subst hoi
      exact ho (panicked.mpr ⟨i, hi, he⟩)
  · have hw : ∀ x ∈ items, ∀ tr o, work x tr o → o ≠ .panicked := by
      intro x hx tr o hr ho
      subst ho
      obtain ⟨i, hi, rfl⟩ := List.getElem_of_mem hx
      have hf : ∀ j, ((tr.map fun e => (i, e)).filter fun e => e.1 == j) = if i = j then tr.map (fun e => (i, e)) else [] := by
        intro j
        by_cases hij : i = j
        · rw [if_pos hij]
          exact List.filter_eq_self.mpr fun e he => by
            obtain ⟨_, _, rfl⟩ := List.mem_map.mp he
            simpa using hij
        · rw [if_neg hij]
          exact List.filter_eq_nil_iff.mpr fun e he => by
            obtain ⟨_, _, rfl⟩ := List.mem_map.mp he
            simpa using hij
      refine hn ((tr.map fun e => (i, e)).map Prod.snd) .panicked (.mk (tr.map fun e => (i, e))
        (fun j => if i = j then some .panicked else none) .panicked ?_ ?_ ?_ ?_ ?_) rfl
      · intro e he
        obtain ⟨_, _, rfl⟩ := List.mem_map.mp he
        exact hi
      · intro j hj oi he
        by_cases hij : i = j
        · subst hij
          simp only [if_true, Option.some.injEq] at he
          subst he
          rw [hf i, if_pos rfl, List.map_map]
          simpa [Function.comp_def] using hr
        · simp [hij] at he
      · intro j hj he
        by_cases hij : i = j
        · simp [hij] at he
        · exact ⟨by rw [hf j, if_neg hij], by simp⟩
      · exact ⟨fun _ => ⟨i, hi, by simp⟩, fun _ => rfl⟩
      · exact ⟨fun h => by simp at h, fun h => absurd ⟨i, hi, by simp⟩ h.2⟩
    cases hs with
    | mk tagged ends _ tags ran skipped panicked failed =>
      refine .mk tagged ends o tags (fun i hi oi he => ?_) skipped panicked failed
      exact (h _).2 (hw _ (List.getElem_mem hi)) _ _ (ran i hi oi he)

end ESim

/-- Two builds whose parts agree unless the first one panics. -/
structure Build.Sim (b b' : Build) : Prop where
  readDoc : ∀ s, Res.Sim (b.readDoc s) (b'.readDoc s)
  succU32 : ∀ n, Res.Sim (b.succU32 n) (b'.succU32 n)
  getStep : ∀ h, Res.Sim (b.getStep h) (b'.getStep h)
  predUsize : ∀ n, Res.Sim (b.predUsize n) (b'.predUsize n)

namespace Build.Sim

variable {b b' : Build} (hb : Build.Sim b b')
include hb

theorem multiLoop (n : Nat) (s : List UInt8) : Res.Sim (b.multiLoop n s) (b'.multiLoop n s) := by
  induction n generalizing s with
  | zero => exact Res.Sim.refl _
  | succ n ih =>
    intro hp
    unfold Build.multiLoop at hp ⊢
    have h := hb.readDoc s
    cases hd : b.readDoc s with
    | ok r =>
      obtain ⟨d, s'⟩ := r
      rw [hd] at h hp
      rw [h (by simp)]
      simp only at hp ⊢
      rw [ih s' fun hq => hp (by rw [hq])]
    | err => rw [hd] at h; rw [h (by simp)]
    | panic => rw [hd] at hp; exact absurd rfl hp

theorem readMultiDoc (s : List UInt8) : Res.Sim (b.readMultiDoc s) (b'.readMultiDoc s) := by
  intro hp
  unfold Build.readMultiDoc at hp ⊢
  rw [hb.multiLoop _ s fun hq => hp (by rw [hq])]

theorem readSingle (w : World) (name : Text) : Res.Sim (b.readSingle w name) (b'.readSingle w name) :=
  .bind (.refl _) fun s => .bind (hb.readDoc s) fun _ => .refl _

theorem readMulti (w : World) (name : Text) : Res.Sim (b.readMulti w name) (b'.readMulti w name) :=
  .bind (.refl _) fun s => hb.readMultiDoc s

theorem readRectangular {T : Type} (w : World) (name : Text) (missing : T) (f : Fl → T) :
    Res.Sim (b.readRectangular w name missing f) (b'.readRectangular w name missing f) :=
  .bind (hb.readSingle w name) fun _ => .refl _

theorem readUnstructured {T : Type} (w : World) (name : Text) (missing : T) (f : Fl → T) (g : UnstructuredGrid) :
    Res.Sim (b.readUnstructured w name missing f g) (b'.readUnstructured w name missing f g) :=
  .bind (hb.readSingle w name) fun _ => .refl _

theorem readMultiUnstructured {T : Type} (w : World) (name : Text) (missing : T) (f : Fl → T) (g : UnstructuredGrid)
    (r : Option (Nat × Nat)) :
    Res.Sim (b.readMultiUnstructured w name missing f g r) (b'.readMultiUnstructured w name missing f g r) :=
  .bind (hb.readMulti w name) fun _ => .refl _

theorem sortSteps (steps : List SwissSearch.Step) : Res.Sim (b.sortSteps steps) (b'.sortSteps steps) := by
  intro hp
  unfold Build.sortSteps at hp ⊢
  by_cases h2 : 2 ≤ steps.length
  · have hg : ∀ s ∈ steps, b'.getStep s.horizon = b.getStep s.horizon := by
      intro s hs
      refine hb.getStep _ fun hq => hp ?_
      rw [if_pos ⟨h2, List.any_eq_true.mpr ⟨s, hs, by rw [hq]; rfl⟩⟩]
    have hk : ∀ s ∈ steps, b'.sortKey s = b.sortKey s := by
      intro s hs
      simp only [sortKey, hg s hs]
    have ha : (steps.any fun s => b'.getStep s.horizon == .panic) = steps.any fun s => b.getStep s.horizon == .panic := by
      rw [Bool.eq_iff_iff, List.any_eq_true, List.any_eq_true]
      exact ⟨fun ⟨s, hs, h⟩ => ⟨s, hs, by rw [← hg s hs]; exact h⟩, fun ⟨s, hs, h⟩ => ⟨s, hs, by rw [hg s hs]; exact h⟩⟩
    have hs : steps.insertionSort (fun x y => b'.sortKey x ≤ b'.sortKey y) =
        steps.insertionSort fun x y => b.sortKey x ≤ b.sortKey y :=
      insertionSort_congr fun x hx y hy => by rw [hk x hx, hk y hy]
    rw [ha, hs]
  · rw [if_neg fun h => h2 h.1, if_neg fun h => h2 h.1]
    match steps, h2 with
    | [], _ => rfl
    | [_], _ => rfl
    | _ :: _ :: _, h2 => exact absurd (by simp) h2

theorem findFiles (f : List SwissSearch.Feature) : Res.Sim (b.findFiles f) (b'.findFiles f) :=
  .bind (.refl _) fun s => hb.sortSteps s

theorem cloudPrecipSteps (step : RunStep) (c p : List RunStep) :
    Res.Sim (b.cloudPrecipSteps step c p) (b'.cloudPrecipSteps step c p) :=
  .bind (.refl _) fun _ => .bind (hb.predUsize _) fun _ => .refl _

theorem createSingleTile {T : Type} (m : Libm) (v : LatLon → Res (Option T)) (t : MapTileCoord) (c : T → Color) :
    Res.Sim (b.createSingleTile m v t c) (b'.createSingleTile m v t c) :=
  .bind (.refl _) fun _ => .bind (.refl _) fun _ => .bind (hb.succU32 _) fun _ => .bind (hb.succU32 _) fun _ => .refl _

theorem runAllTiles {T : Type} (m : Libm) (e : LatLonExtent) (z : Nat × Nat) (v : LatLon → Res (Option T))
    (c : T → Color) : ESim (b.runAllTiles m e z v c) (b'.runAllTiles m e z v c) := by
  refine .seqMap _ fun zoom => ?_
  unfold Build.runZoom
  cases MapTileRenderer.tileRange m e zoom with
  | ok r =>
    obtain ⟨xs, ys⟩ := r
    exact .seqMap _ fun x => .parFor (fun t => (hb.createSingleTile m v t c).unwrapRes) _
  | err => exact .refl _
  | panic => exact .refl _

theorem runChart (m : Libm) (run : Run) (step : Nat) (c : Option Chart) :
    ESim (b.runChart m run step c) (b'.runChart m run step c) := by
  cases c with
  | none => exact .refl _
  | some c =>
    have h := hb.runAllTiles m c.extent run.model.zoomRange c.color id
    refine ⟨?_, ?_⟩
    · rintro tr o ⟨saved, rfl, hs⟩ ho
      exact ⟨saved, rfl, h.1 _ _ hs ho⟩
    · rintro hn tr o ⟨saved, rfl, hs⟩
      exact ⟨saved, rfl, h.2 (fun s o h1 h2 => hn _ o ⟨s, rfl, h1⟩ h2) _ _ hs⟩

theorem runJob (m : Libm) (run : Run) (dirs : Text → Bool) (step : Nat) (job : Job) :
    ESim (b.RunJob m run dirs step job) (b'.RunJob m run dirs step job) := by
  have h := hb.runChart m run step job.chart
  refine ⟨fun tr o hr ho => ?_, fun hn tr o hs => ?_⟩
  · cases hr with
    | panicked _ => exact absurd rfl ho
    | bins h1 h2 => exact .bins (h.1 _ _ h1 h2) h2
  · have hn' : ∀ tr o, b.runChart m run step job.chart tr o → o ≠ .panicked := by
      intro tr o h1 h2
      subst h2
      exact hn tr .panicked (.panicked h1) rfl
    cases hs with
    | panicked h1 => exact .panicked (h.2 hn' _ _ h1)
    | bins h1 h2 => exact .bins (h.2 hn' _ _ h1) h2

theorem renderSteps (m : Libm) (run : Run) (dirs : Text → Bool) (steps : List RunStep) (filter : List Nat)
    {read read' : RunStep → Res Layers} (hr : ∀ s, Res.Sim (read s) (read' s)) :
    ESim (b.renderSteps m run dirs steps filter read) (b'.renderSteps m run dirs steps filter read') := by
  refine .parTry (fun s => ?_) _
  unfold Build.runStep
  by_cases hs : selected filter s
  · simp only [hs, if_true]
    cases h : read s with
    | ok l =>
      rw [hr s (by rw [h]; simp), h]
      exact hb.runJob m run dirs s.nr l.job
    | err =>
      rw [hr s (by rw [h]; simp), h]
      exact .refl _
    | panic =>
      exact ⟨fun tr o h1 h2 => absurd h1.2 h2, fun hn => absurd rfl (hn [] .panicked ⟨rfl, rfl⟩)⟩
  · simp only [hs]
    exact .refl _

theorem dwdGrid (w : World) (run : Run) (x : Verif.Dwd.SingleVar) (s : RunStep) :
    Res.Sim (Dwd.readGrid b w run x s) (Dwd.readGrid b' w run x s) :=
  .bind (.refl _) fun _ => hb.readRectangular w _ _ _

theorem dwdCloudPrecipLayers (w : World) (run : Run) (c p : List RunStep) (s : RunStep) :
    Res.Sim (Dwd.cloudPrecipLayers b w run c p s) (Dwd.cloudPrecipLayers b' w run c p s) :=
  .bind (.bind (hb.cloudPrecipSteps s c p) fun _ => .bind (hb.dwdGrid w run _ _) fun _ =>
    .bind (hb.dwdGrid w run _ _) fun _ => .bind (hb.dwdGrid w run _ _) fun _ => .refl _) fun _ =>
  .bind (.bind (hb.dwdGrid w run _ _) fun _ => .bind (hb.dwdGrid w run _ _) fun _ =>
    .bind (hb.dwdGrid w run _ _) fun _ => .refl _) fun _ => .refl _

theorem dwdWindLayers (w : World) (run : Run) (s : RunStep) :
    Res.Sim (Dwd.windLayers b w run s) (Dwd.windLayers b' w run s) :=
  .bind (.bind (hb.dwdGrid w run _ _) fun _ => .bind (hb.dwdGrid w run _ _) fun _ =>
    .bind (hb.dwdGrid w run _ _) fun _ => .refl _) fun _ => .refl _

theorem dwdTempLayers (w : World) (run : Run) (s : RunStep) :
    Res.Sim (Dwd.tempLayers b w run s) (Dwd.tempLayers b' w run s) :=
  .bind (.bind (hb.dwdGrid w run _ _) fun _ => .refl _) fun _ => .refl _

theorem dwdHhl (w : World) (run : Run) (l : Nat × Nat) : Res.Sim (Dwd.readHhl b w run l) (Dwd.readHhl b' w run l) :=
  .mapM (fun _ => .bind (.refl _) fun _ => hb.readRectangular w _ _ _) _

theorem dwdVerticalCloudLayers (w : World) (run : Run) (l : Nat × Nat) (hhl : List (LatLonValueGrid UInt8))
    (s : RunStep) :
    Res.Sim (Dwd.verticalCloudLayers b w run l hhl s) (Dwd.verticalCloudLayers b' w run l hhl s) :=
  .bind (.mapM (fun _ => .bind (.refl _) fun _ => hb.readRectangular w _ _ _) _) fun _ => .refl _

theorem dwdUV (w : World) (run : Run) (x : Verif.Dwd.LevelVar) (s : RunStep) (l : Nat × Nat) :
    Res.Sim (Dwd.readUV b w run x s l) (Dwd.readUV b' w run x s l) :=
  .mapM (fun _ => .bind (.refl _) fun _ => hb.readRectangular w _ _ _) _

theorem dwdVerticalWindLayers (w : World) (run : Run) (l : Nat × Nat) (hhl : List (LatLonValueGrid UInt8))
    (s : RunStep) :
    Res.Sim (Dwd.verticalWindLayers b w run l hhl s) (Dwd.verticalWindLayers b' w run l hhl s) :=
  .bind (hb.dwdUV w run _ s l) fun _ => .bind (hb.dwdUV w run _ s l) fun _ => .refl _

theorem dwdLatest (m : Libm) (w : World) (dirs : Text → Bool) (today now : Date) (available : Text → Bool)
    (model : FcModel) (vars : List Text) (filter : List Nat) :
    ESim (Dwd.renderLatest b m w dirs today now available model vars filter)
      (Dwd.renderLatest b' m w dirs today now available model vars filter) := by
  refine .need (.refl _) fun run => .seq (.cons (.when ?_) (.cons (.when ?_) (.cons (.when ?_) (.cons (.when ?_) .nil))))
  · exact .need (.refl _) fun p => hb.renderSteps _ _ _ _ _ fun s => hb.dwdCloudPrecipLayers w run _ p s
  · exact hb.renderSteps _ _ _ _ _ fun s => hb.dwdWindLayers w run s
  · exact hb.renderSteps _ _ _ _ _ fun s => hb.dwdTempLayers w run s
  · refine .need (hb.dwdHhl w run _) fun hhl => .seq (.cons (.when ?_) (.cons (.when ?_) .nil))
    · exact hb.renderSteps _ _ _ _ _ fun s => hb.dwdVerticalCloudLayers w run _ hhl s
    · exact hb.renderSteps _ _ _ _ _ fun s => hb.dwdVerticalWindLayers w run _ hhl s

theorem swissSteps (s : Verif.Swiss.Service) (t : Instant) (x : Verif.Swiss.Variable) (f : Bool) :
    Res.Sim (Swiss.steps b s t x f) (Swiss.steps b' s t x f) :=
  .bind (.refl _) fun fs => .bind (hb.findFiles fs) fun _ => .refl _

theorem swissGrid (w : World) (g : UnstructuredGrid) (f : Fl → Fl) (s : RunStep) :
    Res.Sim (Swiss.readGrid b w g f s) (Swiss.readGrid b' w g f s) := hb.readUnstructured w _ _ _ _

theorem swissRun (m : Libm) (w : World) (s : Verif.Swiss.Service) (cal : Verif.Swiss.Calendar) (dirs : Text → Bool)
    (vars : List Text) (filter : List Nat) (grid : UnstructuredGrid) (url : Text) (t : Instant) :
    ESim (Swiss.renderRun b m w s cal dirs vars filter grid url t)
      (Swiss.renderRun b' m w s cal dirs vars filter grid url t) := by
  refine .seq (.cons (.when ?_) (.cons (.when ?_) (.cons (.when ?_) (.cons (.when ?_) .nil))))
  · refine .need (.refl _) fun run => .need (hb.swissSteps _ _ _ _) fun c => .need (hb.swissSteps _ _ _ _) fun p =>
      .need (hb.swissSteps _ _ _ _) fun e => hb.renderSteps _ _ _ _ _ fun st => ?_
    exact .bind (.bind (hb.cloudPrecipSteps st c p) fun _ => .bind (hb.swissGrid w grid _ _) fun _ =>
        .bind (hb.swissGrid w grid _ _) fun _ => .bind (hb.swissGrid w grid _ _) fun _ => .refl _) fun _ =>
      .bind (.bind (.refl _) fun _ => .bind (.refl _) fun _ => .bind (hb.swissGrid w grid _ _) fun _ =>
        .bind (hb.swissGrid w grid _ _) fun _ => .refl _) fun _ => .refl _
  · refine .need (.refl _) fun run => .need (hb.swissSteps _ _ _ _) fun u => .need (hb.swissSteps _ _ _ _) fun v =>
      .need (hb.swissSteps _ _ _ _) fun g => hb.renderSteps _ _ _ _ _ fun st => ?_
    exact .bind (.bind (.refl _) fun _ => .bind (.refl _) fun _ => .bind (.refl _) fun _ =>
      .bind (hb.swissGrid w grid _ _) fun _ => .bind (hb.swissGrid w grid _ _) fun _ =>
      .bind (hb.swissGrid w grid _ _) fun _ => .refl _) fun _ => .refl _
  · refine .need (.refl _) fun run => .need (hb.swissSteps _ _ _ _) fun t2m => hb.renderSteps _ _ _ _ _ fun st => ?_
    exact .bind (.bind (.refl _) fun _ => .bind (hb.swissGrid w grid _ _) fun _ => .refl _) fun _ => .refl _
  · refine .need (hb.readMultiUnstructured w _ _ _ _ _) fun hhl => .seq (.cons (.when ?_) (.cons (.when ?_) .nil))
    · refine .need (.refl _) fun run => .need (hb.swissSteps _ _ _ _) fun c => hb.renderSteps _ _ _ _ _ fun st => ?_
      exact .bind (.bind (.refl _) fun _ => .bind (hb.readMultiUnstructured w _ _ _ _ _) fun _ => .refl _) fun _ => .refl _
    · refine .need (.refl _) fun run => .need (hb.swissSteps _ _ _ _) fun u => .need (hb.swissSteps _ _ _ _) fun v =>
        hb.renderSteps _ _ _ _ _ fun st => ?_
      exact .bind (.bind (.refl _) fun _ => .bind (.refl _) fun _ => .bind (hb.readMultiUnstructured w _ _ _ _ _) fun _ =>
        .bind (hb.readMultiUnstructured w _ _ _ _ _) fun _ => .refl _) fun _ => .refl _

theorem swissLatest (m : Libm) (w : World) (s : Verif.Swiss.Service) (cal : Verif.Swiss.Calendar) (dirs : Text → Bool)
    (vars : List Text) (filter : List Nat) :
    ESim (Swiss.renderLatest b m w s cal dirs vars filter) (Swiss.renderLatest b' m w s cal dirs vars filter) :=
  .need (.refl _) fun _ => .need (.refl _) fun _ => .need (.bind (hb.readMulti w _) fun _ => .refl _) fun _ =>
    .need (.refl _) fun _ => .need (.refl _) fun _ => .need (.refl _) fun _ => hb.swissRun ..

theorem mainEffect (e : Environment) (model : Text) (vars : List Text) (filter : List Nat) :
    ESim (b.mainEffect e model vars filter) (b'.mainEffect e model vars filter) := by
  unfold Build.mainEffect
  split
  · exact hb.swissLatest ..
  · split
    · exact hb.dwdLatest ..
    · split
      · exact hb.dwdLatest ..
      · exact .refl _

end Build.Sim

end Verif
