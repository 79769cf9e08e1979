import Verif.Model.Render
import Verif.Props.MapTile

/-!
# Lemmas about rendering the steps of a forecast
-/

namespace Verif

open MapTileRenderer

/-! ## Files on disk -/

theorem Tree.write_nil (t : Tree) : t.write [] = t := rfl

theorem Tree.write_append (t : Tree) (a b : List Write) : t.write (a ++ b) = (t.write a).write b := by
  unfold Tree.write
  rw [List.foldl_append]

/-- If all writes to a path have the same content, the file has it afterwards. -/
theorem Tree.write_eq (t : Tree) (ws : List Write) (p : Text) :
    (∀ c, (∃ w ∈ ws, w.path = p) → (∀ w ∈ ws, w.path = p → w.content = c) → t.write ws p = some c) ∧
    ((∀ w ∈ ws, w.path ≠ p) → t.write ws p = t p) := by
  induction ws using List.reverseRecOn with
  | nil => exact ⟨fun c h _ => by simp at h, fun _ => rfl⟩
  | append_singleton ws w ih =>
    rw [Tree.write_append]
    have e : (t.write ws).write [w] p = if p = w.path then some w.content else t.write ws p := rfl
    rw [e]
    constructor
    · rintro c ⟨w', hw', hp'⟩ hc
      by_cases hp : p = w.path
      · rw [if_pos hp, hc w (by simp) hp.symm]
      · rw [if_neg hp]
        refine ih.1 c ⟨w', ?_, hp'⟩ fun w'' h'' => hc w'' (by simp [h''])
        rcases List.mem_append.mp hw' with h | h
        · exact h
        · simp only [List.mem_singleton] at h
          subst h
          exact absurd hp'.symm hp
    · intro h
      rw [if_neg (fun e => h w (by simp) e.symm)]
      exact ih.2 fun w' h' => h w' (by simp [h'])

/-- Two lists of writes with the same elements, of which no two have the same path but different contents,
give the same files. -/
theorem Tree.write_congr {a b : List Write} (h : ∀ w, w ∈ a ↔ w ∈ b)
    (hf : ∀ w ∈ a, ∀ w' ∈ a, w.path = w'.path → w.content = w'.content) (t : Tree) : t.write a = t.write b := by
  funext p
  by_cases hp : ∃ w ∈ a, w.path = p
  · obtain ⟨w, hw, e⟩ := hp
    rw [(t.write_eq a p).1 w.content ⟨w, hw, e⟩ fun w' hw' e' => hf w' hw' w hw (e'.trans e.symm)]
    rw [(t.write_eq b p).1 w.content ⟨w, (h w).mp hw, e⟩
      fun w' hw' e' => hf w' ((h w').mpr hw') w hw (e'.trans e.symm)]
  · rw [(t.write_eq a p).2 fun w hw e => hp ⟨w, hw, e⟩,
      (t.write_eq b p).2 fun w hw e => hp ⟨w, (h w).mpr hw, e⟩]

/-! ## Tiles -/

theorem seq_outcome {α β : Type} (items : List α) (run : α → List β → Outcome → Prop) (P : Outcome → Prop)
    (hd : P .done) (h : ∀ a ∈ items, ∀ tr o, run a tr o → P o) {tr : List β} {o : Outcome}
    (hr : Seq (items.map run) tr o) : P o := by
  induction items generalizing tr with
  | nil => cases hr; exact hd
  | cons a items ih =>
    cases hr with
    | cons h1 h2 => exact ih (fun b hb => h b (by simp [hb])) h2
    | stop h1 _ => exact h a (by simp) _ _ h1

theorem tileRange_ok (m : Libm) (e : LatLonExtent) {z : Nat} (hz : z ≤ 31) : ∃ xs ys, tileRange m e z = .ok (xs, ys) ∧
    xs.1 ≤ xs.2 ∧ ys.1 ≤ ys.2 := by
  unfold tileRange MapTileCoord.fromPosition
  rw [zoomPow_eq hz]
  exact ⟨_, _, rfl, by simp only; omega, by simp only; omega⟩

/-- The loop over all tiles returns no error. -/
theorem runAllTiles_not_failed {T : Type} (m : Libm) (e : LatLonExtent) {zooms : Nat × Nat} (hz : zooms.2 ≤ 31)
    (valueFn : LatLon → Res (Option T)) (colorFn : T → Color) {tr : List Saved} {o : Outcome}
    (h : runAllTiles m e zooms valueFn colorFn tr o) : o ≠ .failed := by
  refine seq_outcome _ _ (· ≠ .failed) (by simp) ?_ h
  intro z hzm tr o h
  rw [mem_rangeIncl] at hzm
  obtain ⟨xs, ys, hr, _⟩ := tileRange_ok m e (show z ≤ 31 by omega)
  unfold runZoom at h
  rw [hr] at h
  refine seq_outcome _ _ (· ≠ .failed) (by simp) ?_ h
  intro x _ tr o h
  unfold runColumn at h
  cases h <;> simp

/-- It panics only if a needed tile cannot be made. -/
theorem runAllTiles_done {T : Type} (m : Libm) (e : LatLonExtent) {zooms : Nat × Nat} (hz : zooms.2 ≤ 31)
    (valueFn : LatLon → Res (Option T)) (colorFn : T → Color)
    (hall : ∀ t, Props.Needed m e zooms t → ∃ d, createSingleTile m valueFn t colorFn = .ok d)
    {tr : List Saved} {o : Outcome} (h : runAllTiles m e zooms valueFn colorFn tr o) : o = .done := by
  refine seq_outcome _ _ (· = .done) rfl ?_ h
  intro z hzm tr o h
  rw [mem_rangeIncl] at hzm
  obtain ⟨xs, ys, hr, _⟩ := tileRange_ok m e (show z ≤ 31 by omega)
  unfold runZoom at h
  rw [hr] at h
  refine seq_outcome _ _ (· = .done) rfl ?_ h
  intro x hx tr o h
  rw [mem_rangeIncl] at hx
  unfold runColumn at h
  cases h with
  | done => rfl
  | panicked order rest bad trace perm hbad h =>
    have hm : bad ∈ (rangeIncl ys.1 ys.2).map fun y => (⟨x, y, z⟩ : MapTileCoord) := perm.subset (by simp)
    obtain ⟨y, hy, rfl⟩ := List.mem_map.mp hm
    rw [mem_rangeIncl] at hy
    obtain ⟨d, hd⟩ := hall ⟨x, y, z⟩ (by
      rw [← Props.mem_allTiles_iff, mem_allTiles]
      exact ⟨hzm.1, hzm.2, xs, ys, hr, hx.1, hx.2, hy.1, hy.2⟩)
    rw [hd] at hbad
    cases hbad

/-- There is at least one tile. -/
theorem needed_exists (m : Libm) (e : LatLonExtent) {zooms : Nat × Nat} (hz : zooms.2 ≤ 31) (h : zooms.1 ≤ zooms.2) :
    ∃ t, Props.Needed m e zooms t := by
  obtain ⟨xs, ys, hr, hx, hy⟩ := tileRange_ok m e (show zooms.1 ≤ 31 by omega)
  refine ⟨⟨xs.1, ys.1, zooms.1⟩, ?_⟩
  rw [← Props.mem_allTiles_iff, mem_allTiles]
  exact ⟨le_refl _, h, xs, ys, hr, le_refl _, hx, le_refl _, hy⟩

theorem zoomRange_le (m : FcModel) : m.zoomRange.1 ≤ m.zoomRange.2 ∧ m.zoomRange.2 ≤ 31 := by cases m <;> decide

/-! ## Meteobin files -/

theorem writeBins_mem (run : Run) (step : Nat) (dirs : Text → Bool) (bins : List Bin) (tr : List Write) :
    (∀ w ∈ (writeBins run step dirs tr bins).1, w ∈ tr ∨ ∃ b ∈ bins, ∃ data, b.data = .ok data ∧
      w = ⟨binPath run step b.type, .bytes data⟩) ∧
    (∀ w ∈ tr, w ∈ (writeBins run step dirs tr bins).1) ∧
    (writeBins run step dirs tr bins).2 ≠ .failed ∧
    ((writeBins run step dirs tr bins).2 = .done → ∀ b ∈ bins, ∃ data, b.data = .ok data ∧
      (⟨binPath run step b.type, .bytes data⟩ : Write) ∈ (writeBins run step dirs tr bins).1) := by
  induction bins generalizing tr with
  | nil => exact ⟨fun w h => .inl h, fun w h => h, by simp [writeBins], by simp⟩
  | cons b bs ih =>
    cases hd : b.data with
    | ok data =>
      by_cases hm : (b.mkdir || dirExists dirs tr (outputPath run step b.type.layer)) = true
      · have e : writeBins run step dirs tr (b :: bs) =
            writeBins run step dirs (tr ++ [⟨binPath run step b.type, .bytes data⟩]) bs := by
          rw [writeBins]; simp only [hd]; rw [if_pos hm]
        rw [e]
        obtain ⟨h1, h2, h3, h4⟩ := ih (tr ++ [⟨binPath run step b.type, .bytes data⟩])
        refine ⟨?_, fun w hw => h2 w (by simp [hw]), h3, ?_⟩
        · intro w hw
          rcases h1 w hw with h | ⟨b', hb', data', hd', e'⟩
          · rcases List.mem_append.mp h with h | h
            · exact .inl h
            · simp only [List.mem_singleton] at h
              exact .inr ⟨b, by simp, data, hd, h⟩
          · exact .inr ⟨b', by simp [hb'], data', hd', e'⟩
        · intro hdone b' hb'
          rcases List.mem_cons.mp hb' with rfl | hb'
          · exact ⟨data, hd, h2 _ (by simp)⟩
          · exact h4 hdone b' hb'
      · have e : writeBins run step dirs tr (b :: bs) = (tr, .panicked) := by
          rw [writeBins]; simp only [hd]; rw [if_neg hm]
        rw [e]
        exact ⟨fun w h => .inl h, fun w h => h, by simp, by simp⟩
    | err =>
      have e : writeBins run step dirs tr (b :: bs) = (tr, .panicked) := by
        rw [writeBins]; simp only [hd]
      rw [e]
      exact ⟨fun w h => .inl h, fun w h => h, by simp, by simp⟩
    | panic =>
      have e : writeBins run step dirs tr (b :: bs) = (tr, .panicked) := by
        rw [writeBins]; simp only [hd]
      rw [e]
      exact ⟨fun w h => .inl h, fun w h => h, by simp, by simp⟩

/-- With all data and directories there, all files are written. -/
theorem writeBins_done (run : Run) (step : Nat) (dirs : Text → Bool) (bins : List Bin) (tr : List Write)
    (hd : ∀ b ∈ bins, ∃ data, b.data = .ok data)
    (he : ∀ b ∈ bins, b.mkdir = true ∨ dirExists dirs tr (outputPath run step b.type.layer) = true) :
    (writeBins run step dirs tr bins).2 = .done := by
  induction bins generalizing tr with
  | nil => rfl
  | cons b bs ih =>
    obtain ⟨data, hdata⟩ := hd b (by simp)
    rw [writeBins]
    simp only [hdata]
    rw [if_pos (by simpa using he b (by simp))]
    refine ih _ (fun b' hb' => hd b' (by simp [hb'])) fun b' hb' => ?_
    refine (he b' (by simp [hb'])).imp id fun h => ?_
    unfold dirExists at h ⊢
    rw [Bool.or_eq_true] at h ⊢
    refine h.imp id fun h => ?_
    rw [List.any_append, h, Bool.true_or]

/-! ## Parallel steps -/

section ParTry

variable {α β : Type} {work : α → List β → Outcome → Prop} {items : List α}

theorem mem_tagged {tagged : List (Nat × β)} {n : Nat} (tags : ∀ e ∈ tagged, e.1 < n) (w : β) :
    w ∈ tagged.map Prod.snd ↔ ∃ i, i < n ∧ w ∈ (tagged.filter fun e => e.1 == i).map Prod.snd := by
  constructor
  · intro h
    obtain ⟨e, he, rfl⟩ := List.mem_map.mp h
    exact ⟨e.1, tags e he, List.mem_map.mpr ⟨e, List.mem_filter.mpr ⟨he, by simp⟩, rfl⟩⟩
  · rintro ⟨i, _, h⟩
    obtain ⟨e, he, rfl⟩ := List.mem_map.mp h
    exact List.mem_map.mpr ⟨e, (List.mem_filter.mp he).1, rfl⟩

/-- A loop that ends normally has run all items. -/
theorem parTry_done {tr : List β} (h : ParTry work items tr .done) : ∃ traces : Nat → List β,
    (∀ i (hi : i < items.length), work items[i] (traces i) .done) ∧
    ∀ w, w ∈ tr ↔ ∃ i, i < items.length ∧ w ∈ traces i := by
  cases h with
  | mk tagged ends _ tags ran skipped panicked failed =>
    refine ⟨fun i => (tagged.filter fun e => e.1 == i).map Prod.snd, ?_, mem_tagged tags⟩
    intro i hi
    cases he : ends i with
    | none => exact absurd rfl (skipped i hi he).2
    | some oi =>
      cases oi with
      | done => exact ran i hi _ he
      | failed =>
        by_cases hp : ∃ i, i < items.length ∧ ends i = some .panicked
        · have := panicked.mpr hp; cases this
        · have := failed.mpr ⟨⟨i, hi, he⟩, hp⟩; cases this
      | panicked => have := panicked.mpr ⟨i, hi, he⟩; cases this

/-- In any case what is written comes from items that were run. -/
theorem parTry_any {tr : List β} {o : Outcome} (h : ParTry work items tr o) (w : β) (hw : w ∈ tr) :
    ∃ a ∈ items, ∃ t oi, work a t oi ∧ w ∈ t := by
  cases h with
  | mk tagged ends _ tags ran skipped panicked failed =>
    obtain ⟨i, hi, hw⟩ := (mem_tagged tags w).mp hw
    cases he : ends i with
    | none => rw [(skipped i hi he).1] at hw; cases hw
    | some oi => exact ⟨items[i], List.getElem_mem hi, _, _, ran i hi oi he, hw⟩

/-- A loop that fails has run an item that failed. -/
theorem parTry_failed {tr : List β} (h : ParTry work items tr .failed) : ∃ a ∈ items, ∃ t, work a t .failed := by
  cases h with
  | mk tagged ends _ tags ran skipped panicked failed =>
    obtain ⟨⟨i, hi, he⟩, _⟩ := failed.mp rfl
    exact ⟨items[i], List.getElem_mem hi, _, ran i hi _ he⟩

/-- A loop that panics has run an item that panicked. -/
theorem parTry_panicked {tr : List β} (h : ParTry work items tr .panicked) : ∃ a ∈ items, ∃ t, work a t .panicked := by
  cases h with
  | mk tagged ends _ tags ran skipped panicked failed =>
    obtain ⟨i, hi, he⟩ := panicked.mp rfl
    exact ⟨items[i], List.getElem_mem hi, _, ran i hi _ he⟩

theorem filter_tagged (f : Nat → List β) (n i : Nat) (hi : i < n) :
    (((List.range n).flatMap fun j => (f j).map fun w => (j, w)).filter fun e => e.1 == i).map Prod.snd = f i := by
  have hz : ∀ m, m ≤ i → (((List.range m).flatMap fun j => (f j).map fun w => (j, w)).filter fun e => e.1 == i) = [] := by
    intro m hm
    rw [List.filter_eq_nil_iff]
    intro e he
    obtain ⟨j, hj, he⟩ := List.mem_flatMap.mp he
    obtain ⟨w, _, rfl⟩ := List.mem_map.mp he
    have := List.mem_range.mp hj
    simp only [beq_iff_eq]
    omega
  have hself : ∀ l : List β, ((l.map fun w => (i, w)).filter fun e => e.1 == i) = l.map fun w => (i, w) := by
    intro l
    rw [List.filter_eq_self]
    intro e he
    obtain ⟨w, _, rfl⟩ := List.mem_map.mp he
    simp
  induction n with
  | zero => omega
  | succ n ih =>
    rw [List.range_succ, List.flatMap_append, List.filter_append, List.map_append, List.flatMap_singleton]
    by_cases h : i = n
    · subst h
      rw [hz i (le_refl _), hself]
      simp
    · rw [ih (by omega)]
      have : ((f n).map fun w => (n, w)).filter (fun e => e.1 == i) = [] := by
        rw [List.filter_eq_nil_iff]
        intro e he
        obtain ⟨w, _, rfl⟩ := List.mem_map.mp he
        simp only [beq_iff_eq]
        omega
      rw [this]
      simp

theorem parTry_exists_done (h : ∀ a ∈ items, ∃ t, work a t .done) : ∃ tr, ParTry work items tr .done := by
  have hc : ∀ i, ∃ t, ∀ (hi : i < items.length), work items[i] t .done := by
    intro i
    by_cases hi : i < items.length
    · obtain ⟨t, ht⟩ := h items[i] (List.getElem_mem hi)
      exact ⟨t, fun _ => ht⟩
    · exact ⟨[], fun h => absurd h hi⟩
  choose f hf using hc
  refine ⟨_, .mk ((List.range items.length).flatMap fun j => (f j).map fun w => (j, w)) (fun _ => some .done) .done
    ?_ ?_ ?_ ?_ ?_⟩
  · intro e he
    obtain ⟨j, hj, he⟩ := List.mem_flatMap.mp he
    obtain ⟨w, _, rfl⟩ := List.mem_map.mp he
    exact List.mem_range.mp hj
  · intro i hi oi ho
    simp only [Option.some.injEq] at ho
    subst ho
    rw [filter_tagged f _ i hi]
    exact hf i hi
  · intro i hi hn; cases hn
  · simp
  · simp

theorem parTry_exists_failed {a : α} (ha : a ∈ items) (h : work a [] .failed) : ParTry work items [] .failed := by
  obtain ⟨k, hk, rfl⟩ := List.mem_iff_getElem.mp ha
  refine .mk [] (fun i => if i = k then some .failed else none) .failed ?_ ?_ ?_ ?_ ?_
  · simp
  · intro i hi oi ho
    by_cases hik : i = k
    · subst hik
      simp only [if_true, Option.some.injEq] at ho
      subst ho
      exact h
    · simp [hik] at ho
  · intro i hi ho
    exact ⟨rfl, by simp⟩
  · constructor
    · intro h; cases h
    · rintro ⟨i, _, h⟩
      split at h <;> simp at h
  · simp only [true_iff]
    refine ⟨⟨k, hk, by simp⟩, ?_⟩
    rintro ⟨i, _, h⟩
    split at h <;> simp at h

end ParTry

end Verif
