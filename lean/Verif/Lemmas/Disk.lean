import Verif.Model.Disk
import Verif.Lemmas.Program

/-!
# Lemmas about a disk that can fail
-/

namespace Verif

open MapTileRenderer

/-- `a` is `b` where the things written must satisfy `T` or end it with a panic. -/
structure Tame {α : Type} (T : α → Prop) (a b : List α → Outcome → Prop) : Prop where
  agree : ∀ tr o, o ≠ .panicked → (a tr o ↔ b tr o ∧ ∀ w ∈ tr, T w)
  within : ∀ tr o, a tr o → ∀ w ∈ tr, ∃ tr' o', b tr' o' ∧ w ∈ tr'
  total : ∃ tr o, b tr o
  total' : ∃ tr o, a tr o
  calm : (∀ tr o, b tr o → ∀ w ∈ tr, T w) → ∀ tr, a tr .panicked ↔ b tr .panicked

namespace Tame

variable {α : Type} {T : α → Prop}

theorem const (o : Outcome) : Tame T (fun tr o' => tr = [] ∧ o' = o) (fun tr o' => tr = [] ∧ o' = o) := by
  refine ⟨fun tr o' _ => ⟨?_, fun h => h.1⟩, ?_, ⟨[], o, rfl, rfl⟩, ⟨[], o, rfl, rfl⟩, fun _ _ => Iff.rfl⟩
  · rintro ⟨rfl, rfl⟩; exact ⟨⟨rfl, rfl⟩, by simp⟩
  · rintro tr o' ⟨rfl, rfl⟩ w hw; cases hw

theorem need {β : Type} {S : Write → Prop} (r : Res β) {f g : β → Effect} (h : ∀ x, r = .ok x → Tame S (f x) (g x)) :
    Tame S (Effect.need r f) (Effect.need r g) := by
  cases r with
  | ok x => exact h x rfl
  | err => exact const .failed
  | panic => exact const .panicked

theorem when {S : Write → Prop} (c : Bool) {e e' : Effect} (h : Tame S e e') :
    Tame S (Effect.when c e) (Effect.when c e') := by
  cases c with
  | true => exact h
  | false => exact const .done

theorem seq {as bs : List (List α → Outcome → Prop)} (h : List.Forall₂ (Tame T) as bs) : Tame T (Seq as) (Seq bs) := by
  induction h with
  | nil =>
    refine ⟨fun tr o _ => ⟨?_, ?_⟩, ?_, ⟨_, _, .nil⟩, ⟨_, _, .nil⟩, fun _ tr => ⟨?_, ?_⟩⟩
    · rintro ⟨⟩; exact ⟨.nil, by simp⟩
    · rintro ⟨⟨⟩, -⟩; exact .nil
    · rintro _ _ ⟨⟩ w hw; cases hw
    · rintro ⟨⟩
    · rintro ⟨⟩
  | @cons a b as bs h1 _ ih =>
    have tot : ∀ {tr o}, b tr o → ∃ tr' o', Seq (b :: bs) tr' o' ∧ ∀ w ∈ tr, w ∈ tr' := by
      intro tr o hb
      by_cases ho : o = .done
      · subst ho
        obtain ⟨tr2, o2, h2⟩ := ih.total
        exact ⟨_, _, .cons hb h2, fun w hw => List.mem_append.mpr (.inl hw)⟩
      · exact ⟨_, _, .stop hb ho, fun w hw => hw⟩
    refine ⟨fun tr o ho => ⟨fun h => ?_, fun h => ?_⟩, fun tr o h w hw => ?_, ?_, ?_, fun hT tr => ?_⟩
    · cases h with
      | cons x y =>
        obtain ⟨x1, x2⟩ := (h1.agree _ _ (by simp)).mp x
        obtain ⟨y1, y2⟩ := (ih.agree _ _ ho).mp y
        exact ⟨.cons x1 y1, fun w hw => (List.mem_append.mp hw).elim (x2 w) (y2 w)⟩
      | stop x hd =>
        obtain ⟨x1, x2⟩ := (h1.agree _ _ ho).mp x
        exact ⟨.stop x1 hd, x2⟩
    · obtain ⟨h, ht⟩ := h
      cases h with
      | cons x y =>
        exact .cons ((h1.agree _ _ (by simp)).mpr ⟨x, fun w hw => ht w (List.mem_append.mpr (.inl hw))⟩)
          ((ih.agree _ _ ho).mpr ⟨y, fun w hw => ht w (List.mem_append.mpr (.inr hw))⟩)
      | stop x hd => exact .stop ((h1.agree _ _ ho).mpr ⟨x, ht⟩) hd
    · cases h with
      | cons x y =>
        rcases List.mem_append.mp hw with hw | hw
        · obtain ⟨tr', o', e, hm⟩ := h1.within _ _ x w hw
          obtain ⟨tr2, o2, e2, hm2⟩ := tot e
          exact ⟨tr2, o2, e2, hm2 w hm⟩
        · obtain ⟨tr', o', e, hm⟩ := ih.within _ _ y w hw
          exact ⟨_, o', .cons ((h1.agree _ _ (by simp)).mp x).1 e, List.mem_append.mpr (.inr hm)⟩
      | stop x hd =>
        obtain ⟨tr', o', e, hm⟩ := h1.within _ _ x w hw
        obtain ⟨tr2, o2, e2, hm2⟩ := tot e
        exact ⟨tr2, o2, e2, hm2 w hm⟩
    · obtain ⟨tr, o, e⟩ := h1.total
      obtain ⟨tr2, o2, e2, _⟩ := tot e
      exact ⟨tr2, o2, e2⟩
    · obtain ⟨tr, o, e⟩ := h1.total'
      by_cases ho : o = .done
      · subst ho
        obtain ⟨tr2, o2, h2⟩ := ih.total'
        exact ⟨_, _, .cons e h2⟩
      · exact ⟨_, _, .stop e ho⟩
    · have T1 : ∀ tr o, b tr o → ∀ w ∈ tr, T w := by
        intro tr o e w hw
        obtain ⟨tr2, o2, e2, hm⟩ := tot e
        exact hT tr2 o2 e2 w (hm w hw)
      have T2 : ∀ {tr0}, b tr0 .done → ∀ tr o, Seq bs tr o → ∀ w ∈ tr, T w := by
        intro tr0 e0 tr o e w hw
        exact hT _ _ (.cons e0 e) w (List.mem_append.mpr (.inr hw))
      constructor
      · intro h
        generalize ho : Outcome.panicked = o at h
        cases h with
        | cons x y =>
          have x := ((h1.agree _ _ (by simp)).mp x).1
          subst ho
          exact .cons x ((ih.calm (T2 x) _).mp y)
        | stop x hd =>
          subst ho
          exact .stop ((h1.calm T1 _).mp x) hd
      · intro h
        generalize ho : Outcome.panicked = o at h
        cases h with
        | cons x y =>
          subst ho
          exact .cons ((h1.agree _ _ (by simp)).mpr ⟨x, T1 _ _ x⟩) ((ih.calm (T2 x) _).mpr y)
        | stop x hd =>
          subst ho
          exact .stop ((h1.calm T1 _).mpr x) hd

theorem map {β : Type} {S : β → Prop} (f : α → β) {a b : List α → Outcome → Prop} (h : Tame (fun s => S (f s)) a b) :
    Tame S (fun tr o => ∃ saved, tr = saved.map f ∧ a saved o) (fun tr o => ∃ saved, tr = saved.map f ∧ b saved o) := by
  refine ⟨fun tr o ho => ⟨?_, ?_⟩, ?_, ?_, ?_, fun hT tr => ?_⟩
  · rintro ⟨saved, rfl, e⟩
    obtain ⟨e1, e2⟩ := (h.agree _ _ ho).mp e
    refine ⟨⟨saved, rfl, e1⟩, fun w hw => ?_⟩
    obtain ⟨s, hs, rfl⟩ := List.mem_map.mp hw
    exact e2 s hs
  · rintro ⟨⟨saved, rfl, e⟩, ht⟩
    exact ⟨saved, rfl, (h.agree _ _ ho).mpr ⟨e, fun s hs => ht _ (List.mem_map.mpr ⟨s, hs, rfl⟩)⟩⟩
  · rintro tr o ⟨saved, rfl, e⟩ w hw
    obtain ⟨s, hs, rfl⟩ := List.mem_map.mp hw
    obtain ⟨tr', o', e', hm⟩ := h.within _ _ e s hs
    exact ⟨_, o', ⟨tr', rfl, e'⟩, List.mem_map.mpr ⟨s, hm, rfl⟩⟩
  · obtain ⟨tr, o, e⟩ := h.total
    exact ⟨_, o, tr, rfl, e⟩
  · obtain ⟨tr, o, e⟩ := h.total'
    exact ⟨_, o, tr, rfl, e⟩
  · have hc := h.calm fun saved o e s hs => hT _ o ⟨saved, rfl, e⟩ _ (List.mem_map.mpr ⟨s, hs, rfl⟩)
    exact exists_congr fun saved => and_congr_right fun _ => hc saved

end Tame

/-! ## Parallel loops -/

/-- If every item can be run, the loop can be run with a given course of one of them. -/
theorem parTry_exists_with {α β : Type} {work : α → List β → Outcome → Prop} {items : List α}
    (h : ∀ a ∈ items, ∃ t o, work a t o) (k : Nat) (t : List β) (o : Outcome)
    (hk : ∀ hk : k < items.length, work items[k] t o) :
    ∃ tr o', ParTry work items tr o' ∧ (k < items.length → ∀ w ∈ t, w ∈ tr) := by
  have hc : ∀ i, ∃ t' o', (∀ (hi : i < items.length), work items[i] t' o') ∧ (i = k → t' = t) := by
    intro i
    by_cases hik : i = k
    · subst hik; exact ⟨t, o, hk, fun _ => rfl⟩
    · by_cases hi : i < items.length
      · obtain ⟨t', o', ht⟩ := h items[i] (List.getElem_mem hi)
        exact ⟨t', o', fun _ => ht, fun e => absurd e hik⟩
      · exact ⟨[], .done, fun h => absurd h hi, fun e => absurd e hik⟩
  choose f g hfg using hc
  classical
  refine ⟨_, _, .mk ((List.range items.length).flatMap fun j => (f j).map fun w => (j, w)) (fun i => some (g i))
    (if ∃ i, i < items.length ∧ g i = .panicked then .panicked
      else if ∃ i, i < items.length ∧ g i = .failed then .failed else .done) ?_ ?_ ?_ ?_ ?_, ?_⟩
  · intro e he
    obtain ⟨j, hj, he⟩ := List.mem_flatMap.mp he
    obtain ⟨w, _, rfl⟩ := List.mem_map.mp he
    exact List.mem_range.mp hj
  · intro i hi oi ho
    simp only [Option.some.injEq] at ho
    subst ho
    rw [filter_tagged f _ i hi]
    exact (hfg i).1 hi
  · intro i hi hn; cases hn
  · simp only [Option.some.injEq]
    split
    next hp => simpa using hp
    next hp =>
      constructor
      · intro e; split at e <;> cases e
      · intro e; exact absurd e hp
  · simp only [Option.some.injEq]
    split
    next hp =>
      constructor
      · intro e; cases e
      · intro e; exact absurd hp e.2
    next hp =>
      split
      next hf => simpa using ⟨hf, fun x y z => hp ⟨x, y, z⟩⟩
      next hf =>
        constructor
        · intro e; cases e
        · intro e; exact absurd e.1 hf
  · intro hk w hw
    refine List.mem_map.mpr ⟨(k, w), List.mem_flatMap.mpr ⟨k, List.mem_range.mpr hk, List.mem_map.mpr ⟨w, ?_, rfl⟩⟩, rfl⟩
    rw [(hfg k).2 rfl]
    exact hw

theorem Tame.parTry {α β : Type} {T : β → Prop} {wa wb : α → List β → Outcome → Prop} (items : List α)
    (h : ∀ x ∈ items, Tame T (wa x) (wb x)) : Tame T (ParTry wa items) (ParTry wb items) := by
  refine ⟨fun tr o ho => ⟨fun ht => ?_, fun ht => ?_⟩, fun tr o ht w hw => ?_, ?_, ?_, fun hT tr => ?_⟩
  · cases ht with
    | mk tagged ends _ tags ran skipped panicked failed =>
      have np : ∀ i, i < items.length → ∀ oi, ends i = some oi → oi ≠ .panicked := by
        rintro i hi _ he rfl
        exact ho (panicked.mpr ⟨i, hi, he⟩)
      refine ⟨.mk tagged ends o tags (fun i hi oi he => ?_) skipped panicked failed, fun w hw => ?_⟩
      · exact (((h _ (List.getElem_mem hi)).agree _ _ (np i hi oi he)).mp (ran i hi oi he)).1
      · obtain ⟨i, hi, hw⟩ := (mem_tagged tags w).mp hw
        cases he : ends i with
        | none => rw [(skipped i hi he).1] at hw; cases hw
        | some oi => exact (((h _ (List.getElem_mem hi)).agree _ _ (np i hi oi he)).mp (ran i hi oi he)).2 w hw
  · obtain ⟨ht, hT⟩ := ht
    cases ht with
    | mk tagged ends _ tags ran skipped panicked failed =>
      refine .mk tagged ends o tags (fun i hi oi he => ?_) skipped panicked failed
      refine ((h _ (List.getElem_mem hi)).agree _ _ ?_).mpr ⟨ran i hi oi he, fun w hw => ?_⟩
      · rintro rfl
        exact ho (panicked.mpr ⟨i, hi, he⟩)
      · exact hT w ((mem_tagged tags w).mpr ⟨i, hi, hw⟩)
  · obtain ⟨a, ha, t, oi, hw1, hw2⟩ := parTry_any ht w hw
    obtain ⟨t', o', e, hm⟩ := (h a ha).within _ _ hw1 w hw2
    obtain ⟨k, hk, rfl⟩ := List.mem_iff_getElem.mp ha
    obtain ⟨tr', o2, e2, hm2⟩ := parTry_exists_with (fun x hx => (h x hx).total) k t' o' fun _ => e
    exact ⟨tr', o2, e2, hm2 hk w hm⟩
  · obtain ⟨tr', o2, e2, _⟩ := parTry_exists_with (fun x hx => (h x hx).total) items.length [] .done
      fun hk => absurd hk (lt_irrefl _)
    exact ⟨tr', o2, e2⟩
  · obtain ⟨tr', o2, e2, _⟩ := parTry_exists_with (fun x hx => (h x hx).total') items.length [] .done
      fun hk => absurd hk (lt_irrefl _)
    exact ⟨tr', o2, e2⟩
  · have T1 : ∀ x ∈ items, ∀ tr o, wb x tr o → ∀ w ∈ tr, T w := by
      intro x hx tr o e w hw
      obtain ⟨k, hk, rfl⟩ := List.mem_iff_getElem.mp hx
      obtain ⟨tr', o2, e2, hm2⟩ := parTry_exists_with (fun x hx => (h x hx).total) k tr o fun _ => e
      exact hT tr' o2 e2 w (hm2 hk w hw)
    have same : ∀ x ∈ items, ∀ tr o, wa x tr o ↔ wb x tr o := by
      intro x hx tr o
      by_cases ho : o = .panicked
      · subst ho; exact (h x hx).calm (T1 x hx) tr
      · rw [(h x hx).agree _ _ ho]
        exact ⟨fun e => e.1, fun e => ⟨e, T1 x hx _ _ e⟩⟩
    exact ⟨parTry_mono fun x hx tr o => (same x hx tr o).mp, parTry_mono fun x hx tr o => (same x hx tr o).mpr⟩

/-- The loop over tiles can be run so that all tiles that can be made are saved. -/
theorem parFor_exists {work : MapTileCoord → Res Drawable} (hw : ∀ t, work t ≠ .err) (jobs : List MapTileCoord) :
    ∃ tr o, ParFor work jobs tr o ∧ ∀ t ∈ jobs, ∀ d, work t = .ok d → (⟨t, d⟩ : Saved) ∈ tr := by
  classical
  let good : MapTileCoord → Bool := fun t => decide (∃ d, work t = .ok d)
  have hg : ∀ t, good t = true ↔ ∃ d, work t = .ok d := fun t => by simp [good]
  have hc : ∀ t, ∃ d, good t = true → work t = .ok d := by
    intro t
    by_cases h : good t = true
    · obtain ⟨d, hd⟩ := (hg t).mp h; exact ⟨d, fun _ => hd⟩
    · exact ⟨⟨[], 0, 0⟩, fun h' => absurd h' h⟩
  choose pic hpic using hc
  have hall : List.Forall₂ (fun t s => s.tile = t ∧ work t = .ok s.picture) (jobs.filter good)
      ((jobs.filter good).map fun t => (⟨t, pic t⟩ : Saved)) := by
    rw [List.forall₂_map_right_iff, List.forall₂_same]
    intro t ht
    exact ⟨rfl, hpic t (List.mem_filter.mp ht).2⟩
  have hperm := List.filter_append_perm good jobs
  have hmem : ∀ t ∈ jobs, ∀ d, work t = .ok d → (⟨t, d⟩ : Saved) ∈ (jobs.filter good).map fun t => (⟨t, pic t⟩ : Saved) := by
    intro t ht d hd
    have hgt := (hg t).mpr ⟨d, hd⟩
    have e := hpic t hgt
    rw [hd] at e
    cases e
    exact List.mem_map.mpr ⟨t, List.mem_filter.mpr ⟨ht, hgt⟩, rfl⟩
  cases hb : jobs.filter (fun t => !good t) with
  | nil =>
    rw [hb, List.append_nil] at hperm
    exact ⟨_, _, .done _ _ hperm hall, hmem⟩
  | cons bad rest =>
    rw [hb] at hperm
    refine ⟨_, _, .panicked _ rest bad _ hperm ?_ hall, hmem⟩
    have hbad : bad ∈ jobs.filter (fun t => !good t) := by rw [hb]; simp
    have hbad := (List.mem_filter.mp hbad).2
    cases hw' : work bad with
    | ok d => simp [(hg bad).mpr ⟨d, hw'⟩] at hbad
    | err => exact absurd hw' (hw bad)
    | panic => rfl

theorem Tame.parFor {T : Saved → Prop} {wa wb : MapTileCoord → Res Drawable} (jobs : List MapTileCoord)
    (ha : ∀ t, wa t ≠ .err) (hb : ∀ t, wb t ≠ .err) (h : ∀ t d, wa t = .ok d ↔ wb t = .ok d ∧ T ⟨t, d⟩) :
    Tame T (ParFor wa jobs) (ParFor wb jobs) := by
  have fwd : ∀ {order : List MapTileCoord} {trace : List Saved},
      List.Forall₂ (fun t s => s.tile = t ∧ wa t = .ok s.picture) order trace →
      List.Forall₂ (fun t s => s.tile = t ∧ wb t = .ok s.picture) order trace ∧ ∀ s ∈ trace, T s := by
    intro order trace hf
    induction hf with
    | nil => exact ⟨.nil, by simp⟩
    | @cons t s _ _ h1 _ ih =>
      obtain ⟨e1, e2⟩ := (h _ _).mp h1.2
      refine ⟨.cons ⟨h1.1, e1⟩ ih.1, fun s' hs' => ?_⟩
      rcases List.mem_cons.mp hs' with rfl | hs'
      · obtain ⟨rfl, -⟩ := h1; exact e2
      · exact ih.2 s' hs'
  refine ⟨fun tr o ho => ⟨fun ht => ?_, fun ht => ?_⟩, fun tr o ht w hw => ?_, ?_, ?_, fun hT tr => ?_⟩
  · cases ht with
    | done order _ perm hf => exact ⟨.done order _ perm (fwd hf).1, (fwd hf).2⟩
    | panicked => exact absurd rfl ho
  · obtain ⟨ht, hT⟩ := ht
    cases ht with
    | done order _ perm hf =>
      refine .done order _ perm ?_
      clear perm
      induction hf with
      | nil => exact .nil
      | @cons t s _ _ h1 _ ih =>
        refine .cons ⟨h1.1, (h _ _).mpr ⟨h1.2, ?_⟩⟩ (ih fun w hw => hT w (by simp [hw]))
        obtain ⟨rfl, -⟩ := h1
        exact hT s (by simp)
    | panicked => exact absurd rfl ho
  · obtain ⟨tr', o', e, hm⟩ := parFor_exists hb jobs
    have hs : ∀ {order : List MapTileCoord} {trace : List Saved},
        List.Forall₂ (fun t s => s.tile = t ∧ wb t = .ok s.picture) order trace → ∀ s ∈ trace,
        s.tile ∈ order ∧ wb s.tile = .ok s.picture := by
      intro order trace hf
      induction hf with
      | nil => simp
      | @cons t s _ _ h1 _ ih =>
        intro s' hs'
        rcases List.mem_cons.mp hs' with rfl | hs'
        · obtain ⟨rfl, h1⟩ := h1; exact ⟨by simp, h1⟩
        · exact ⟨by simp [(ih s' hs').1], (ih s' hs').2⟩
    refine ⟨tr', o', e, ?_⟩
    cases ht with
    | done order _ perm hf =>
      obtain ⟨h1, h2⟩ := hs (fwd hf).1 w hw
      exact hm w.tile (perm.subset h1) w.picture h2
    | panicked order rest bad _ perm hbad hf =>
      obtain ⟨h1, h2⟩ := hs (fwd hf).1 w hw
      exact hm w.tile (perm.subset (by simp [h1])) w.picture h2
  · obtain ⟨tr', o', e, _⟩ := parFor_exists hb jobs; exact ⟨tr', o', e⟩
  · obtain ⟨tr', o', e, _⟩ := parFor_exists ha jobs; exact ⟨tr', o', e⟩
  · obtain ⟨tr', o', e, hm⟩ := parFor_exists hb jobs
    have same : ∀ t ∈ jobs, wa t = wb t := by
      intro t ht
      cases hw : wb t with
      | ok d => exact (h t d).mpr ⟨hw, hT tr' o' e _ (hm t ht d hw)⟩
      | err => exact absurd hw (hb t)
      | panic =>
        cases hw' : wa t with
        | ok d => have := ((h t d).mp hw').1; rw [hw] at this; cases this
        | err => exact absurd hw' (ha t)
        | panic => rfl
    have swap : ∀ {u v : MapTileCoord → Res Drawable}, (∀ t ∈ jobs, u t = v t) → ParFor u jobs tr .panicked →
        ParFor v jobs tr .panicked := by
      intro u v huv hp
      cases hp with
      | panicked order rest bad _ perm hbad hf =>
        refine .panicked order rest bad _ perm (by rw [← huv bad (perm.subset (by simp)), hbad]) ?_
        have hsub : ∀ t ∈ order, t ∈ jobs := fun t ht => perm.subset (by simp [ht])
        clear perm
        induction hf with
        | nil => exact .nil
        | @cons t s _ _ h1 _ ih =>
          exact .cons ⟨h1.1, by rw [← huv t (hsub t (by simp)), h1.2]⟩ (ih fun t' ht' => hsub t' (by simp [ht']))
    exact ⟨swap same, swap fun t ht => (same t ht).symm⟩

end Verif
