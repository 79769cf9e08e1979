import Verif.Model.Build

/-!
# The build with overflow checks is the program of the other model files
-/

namespace Verif.Build

open MapTileRenderer (Outcome Seq)

theorem multiLoop_checked (n : Nat) (s : List UInt8) : checked.multiLoop n s = Grib2.multiLoop n s := by
  induction n generalizing s with
  | zero => rfl
  | succ n ih =>
    simp only [multiLoop, Grib2.multiLoop, checked] at ih ⊢
    cases Grib2.readSingleDoc s with
    | ok r => obtain ⟨d, s'⟩ := r; simp only [ih]; rfl
    | err => rfl
    | panic => rfl

theorem readMultiDoc_checked : checked.readMultiDoc = Grib2.readMultiDoc := by
  funext s
  simp only [readMultiDoc, Grib2.readMultiDoc, multiLoop_checked]
  rfl

theorem readSingle_checked : checked.readSingle = World.readSingle := rfl

theorem readMulti_checked : checked.readMulti = World.readMulti := by
  funext w name
  simp only [readMulti, World.readMulti, readMultiDoc_checked]

theorem readRectangular_checked {T : Type} : (checked.readRectangular : World → Text → T → _ → _) = World.readRectangular :=
  rfl

theorem readUnstructured_checked {T : Type} :
    (checked.readUnstructured : World → Text → T → _ → _ → _) = World.readUnstructured := rfl

theorem readMultiUnstructured_checked {T : Type} :
    (checked.readMultiUnstructured : World → Text → T → _ → _ → _ → _) = World.readMultiUnstructured := by
  funext w name a b c d
  simp only [readMultiUnstructured, World.readMultiUnstructured, readMulti_checked]

theorem getStep_ok {h : Horizon} (hp : h.getStep ≠ .panic) :
    h.getStep = .ok (UInt8.ofNat (h.days.toNat * 24 + h.hours.toNat)) ∧ h.days.toNat * 24 + h.hours.toNat < 256 := by
  unfold Horizon.getStep ckU8 at *
  by_cases h1 : h.days.toNat * 24 < 256
  · rw [if_pos h1] at hp ⊢
    simp only [Res.bind_ok, UInt8.toNat_ofNat', Nat.reducePow, Nat.mod_eq_of_lt h1] at hp ⊢
    by_cases h2 : h.days.toNat * 24 + h.hours.toNat < 256
    · rw [if_pos h2]; exact ⟨rfl, h2⟩
    · rw [if_neg h2] at hp; exact absurd rfl hp
  · rw [if_neg h1] at hp; exact absurd rfl hp

theorem insertionSort_congr {α : Type} {r r' : α → α → Prop} [DecidableRel r] [DecidableRel r'] {l : List α}
    (h : ∀ a ∈ l, ∀ b ∈ l, r a b ↔ r' a b) : l.insertionSort r = l.insertionSort r' := by
  induction l with
  | nil => rfl
  | cons a l ih =>
    have hl : l.insertionSort r = l.insertionSort r' :=
      ih fun x hx y hy => h x (List.mem_cons_of_mem _ hx) y (List.mem_cons_of_mem _ hy)
    rw [List.insertionSort_cons, List.insertionSort_cons, hl]
    have hm : ∀ x ∈ l.insertionSort r', x ∈ l := fun x hx => (List.perm_insertionSort r' l).mem_iff.mp hx
    generalize l.insertionSort r' = k at hm
    induction k with
    | nil => rfl
    | cons b k ihk =>
      have hb := h a List.mem_cons_self b (List.mem_cons_of_mem _ (hm b List.mem_cons_self))
      by_cases hab : r a b
      · rw [List.orderedInsert_cons_of_le r _ hab, List.orderedInsert_cons_of_le r' _ (hb.mp hab)]
      · have hab' : ¬ r' a b := fun h' => hab (hb.mpr h')
        simp only [List.orderedInsert_cons, if_neg hab, if_neg hab', ihk fun x hx => hm x (List.mem_cons_of_mem _ hx)]

theorem sortKey_checked {s : SwissSearch.Step} (h : s.horizon.getStep ≠ .panic) : checked.sortKey s = SwissSearch.key s := by
  obtain ⟨h1, h2⟩ := getStep_ok h
  simp only [sortKey, checked, h1, UInt8.toNat_ofNat', Nat.reducePow, SwissSearch.key]
  omega

theorem sortSteps_checked : checked.sortSteps = SwissSearch.sortSteps := by
  funext steps
  unfold sortSteps SwissSearch.sortSteps
  show (if 2 ≤ steps.length ∧ steps.any (fun s => s.horizon.getStep == .panic) then Res.panic
    else .ok (steps.insertionSort fun x y => checked.sortKey x ≤ checked.sortKey y)) = _
  split
  · rfl
  · rename_i hn
    congr 1
    by_cases h2 : 2 ≤ steps.length
    · have hk : ∀ s ∈ steps, checked.sortKey s = SwissSearch.key s := by
        intro s hs
        refine sortKey_checked fun hp => hn ⟨h2, List.any_eq_true.mpr ⟨s, hs, ?_⟩⟩
        rw [hp]; rfl
      refine insertionSort_congr fun a ha b hb => ?_
      rw [hk a ha, hk b hb]
    · match steps, h2 with
      | [], _ => rfl
      | [_], _ => rfl
      | _ :: _ :: _, h2 => exact absurd (by simp) h2

theorem findFiles_checked : checked.findFiles = SwissSearch.findFiles := by
  funext f
  simp only [findFiles, SwissSearch.findFiles, sortSteps_checked]

theorem cloudPrecipSteps_checked : checked.cloudPrecipSteps = Verif.cloudPrecipSteps := by
  funext step clct totPrec
  unfold cloudPrecipSteps Verif.cloudPrecipSteps
  congr 1
  funext c
  by_cases h : step.nr = 0
  · simp [checked, h]
  · simp [checked, h]

theorem runAllTiles_checked {T : Type} (m : Libm) (e : LatLonExtent) (z : Nat × Nat) (v : LatLon → Res (Option T))
    (c : T → Color) : checked.runAllTiles m e z v c = MapTileRenderer.runAllTiles m e z v c := rfl

theorem runChart_checked : checked.runChart = Verif.runChart := by
  funext m run step c
  cases c <;> rfl

theorem RunJob_checked : checked.RunJob = Verif.RunJob := by
  funext m run dirs step job tr o
  refine propext ⟨fun h => ?_, fun h => ?_⟩
  · cases h with
    | panicked h => exact .panicked (runChart_checked ▸ h)
    | bins h ho => exact .bins (runChart_checked ▸ h) ho
  · cases h with
    | panicked h => exact .panicked (runChart_checked.symm ▸ h)
    | bins h ho => exact .bins (runChart_checked.symm ▸ h) ho

theorem runStep_checked : checked.runStep = Verif.runStep := by
  funext m run dirs filter read s tr o
  simp only [runStep, Verif.runStep, RunJob_checked]
  rfl

theorem renderSteps_checked : checked.renderSteps = Verif.renderSteps := by
  funext m run dirs steps filter read
  simp only [renderSteps, Verif.renderSteps, runStep_checked]

namespace Dwd

theorem readGrid_checked : readGrid checked = Verif.Dwd.readGrid := rfl
theorem readTemp_checked : readTemp checked = Verif.Dwd.readTemp := rfl
theorem readWind_checked : readWind checked = Verif.Dwd.readWind := rfl
theorem readWeather_checked : readWeather checked = Verif.Dwd.readWeather := rfl
theorem readClc_checked : readClc checked = Verif.Dwd.readClc := rfl
theorem readUV_checked : readUV checked = Verif.Dwd.readUV := rfl
theorem readHhl_checked : readHhl checked = Verif.Dwd.readHhl := rfl

theorem readCloudPrecip_checked : readCloudPrecip checked = Verif.Dwd.readCloudPrecip := by
  funext w run a b c
  simp only [readCloudPrecip, Verif.Dwd.readCloudPrecip, cloudPrecipSteps_checked, readGrid_checked]

theorem cloudPrecipLayers_checked : cloudPrecipLayers checked = Verif.Dwd.cloudPrecipLayers := by
  funext w run a b c
  simp only [cloudPrecipLayers, Verif.Dwd.cloudPrecipLayers, readCloudPrecip_checked, readWeather_checked]

theorem windLayers_checked : windLayers checked = Verif.Dwd.windLayers := rfl
theorem tempLayers_checked : tempLayers checked = Verif.Dwd.tempLayers := rfl
theorem verticalCloudLayers_checked : verticalCloudLayers checked = Verif.Dwd.verticalCloudLayers := rfl
theorem verticalWindLayers_checked : verticalWindLayers checked = Verif.Dwd.verticalWindLayers := rfl

theorem renderRun_checked : renderRun checked = Verif.Dwd.renderRun := by
  funext m w dirs vars filter run
  simp only [renderRun, Verif.Dwd.renderRun, renderSteps_checked, cloudPrecipLayers_checked, windLayers_checked,
    tempLayers_checked, readHhl_checked, verticalCloudLayers_checked, verticalWindLayers_checked,
    Verif.Dwd.renderCloudPrecip, Verif.Dwd.renderWind, Verif.Dwd.renderTemp, Verif.Dwd.renderVerticalCloud,
    Verif.Dwd.renderVerticalWind]

theorem renderLatest_checked : renderLatest checked = Verif.Dwd.renderLatest := by
  funext m w dirs today now av model vars filter
  simp only [renderLatest, Verif.Dwd.renderLatest, renderRun_checked]

end Dwd

namespace Swiss

theorem readGrid_checked : readGrid checked = Verif.Swiss.readGrid := rfl
theorem readTemp_checked : readTemp checked = Verif.Swiss.readTemp := rfl
theorem readWind_checked : readWind checked = Verif.Swiss.readWind := rfl
theorem readWeather_checked : readWeather checked = Verif.Swiss.readWeather := rfl

theorem readCloudPrecip_checked : readCloudPrecip checked = Verif.Swiss.readCloudPrecip := by
  funext w grid a b c
  simp only [readCloudPrecip, Verif.Swiss.readCloudPrecip, cloudPrecipSteps_checked, readGrid_checked]

theorem readHhl_checked : readHhl checked = Verif.Swiss.readHhl := by
  funext w grid url
  simp only [readHhl, Verif.Swiss.readHhl, readMultiUnstructured_checked]

theorem readVerticalCloud_checked : readVerticalCloud checked = Verif.Swiss.readVerticalCloud := by
  funext w grid a b c
  simp only [readVerticalCloud, Verif.Swiss.readVerticalCloud, readMultiUnstructured_checked]

theorem readVerticalWind_checked : readVerticalWind checked = Verif.Swiss.readVerticalWind := by
  funext w grid a b c d
  simp only [readVerticalWind, Verif.Swiss.readVerticalWind, readMultiUnstructured_checked]

theorem readHorConst_checked : readHorConst checked = Verif.Swiss.readHorConst := by
  funext w url
  simp only [readHorConst, Verif.Swiss.readHorConst, readMulti_checked]

theorem steps_checked : steps checked = Verif.Swiss.steps := by
  funext s t x f
  simp only [steps, Verif.Swiss.steps, findFiles_checked]

theorem renderLatest_checked : renderLatest checked = Verif.Swiss.renderLatest := by
  funext m w s cal dirs vars filter
  simp only [renderLatest, Verif.Swiss.renderLatest, renderRun, Verif.Swiss.renderRun, readHorConst_checked,
    readHhl_checked, renderCloudPrecip, Verif.Swiss.renderCloudPrecip, renderWind, Verif.Swiss.renderWind, renderTemp,
    Verif.Swiss.renderTemp, renderVerticalCloud, Verif.Swiss.renderVerticalCloud, renderVerticalWind,
    Verif.Swiss.renderVerticalWind, steps_checked, renderSteps_checked, readCloudPrecip_checked, readWeather_checked,
    readWind_checked, readTemp_checked, readVerticalCloud_checked, readVerticalWind_checked]

end Swiss

/-- The build with overflow checks is the program of `Model/Program.lean`. -/
theorem mainEffect_checked : checked.mainEffect = Verif.mainEffect := by
  funext e model vars filter
  simp only [mainEffect, Verif.mainEffect, Dwd.renderLatest_checked, Swiss.renderLatest_checked]

end Verif.Build
