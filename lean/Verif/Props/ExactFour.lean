import Verif.Props.Imaging
import Verif.Props.Dwd
import Verif.Props.Swiss

/-!
# Complements to C72, C74, C82 and C83

What happens in general where these properties fail.
-/

namespace Verif.Props

open Verif

/-- C74, how it fails: not only one picture is affected.  Every picture whose four pixels in the corner are white has the
sample 254 in all channels at x = 0x1.d76976p-2, y = 1/2. -/
theorem C74_white {i : Image} (hi : i.WF) (hw : i.width ≤ 2 ^ 24) (hh : i.height ≤ 2 ^ 24)
    (hc : ∀ x < 2, ∀ y < 2, i.pixel x y = some ⟨255, 255, 255, 255⟩) :
    i.interpolatePixelColor (.fin (15447227 / 2 ^ 25)) (.fin (1 / 2)) = .ok ⟨254, 254, 254, 254⟩ := by
  have pos : 0 < i.width ∧ 0 < i.height := by
    have := hc 0 (by decide) 0 (by decide)
    unfold Image.pixel pixelOf at this
    by_contra hx
    rw [if_neg hx] at this
    cases this
  have hw' : Fl.ofNat f32 i.width = .fin i.width := rnd32_nat hw
  have hh' : Fl.ofNat f32 i.height = .fin i.height := rnd32_nat hh
  have x1 : Fl.floor (.fin (15447227 / 2 ^ 25)) = .fin 0 := by decide +kernel
  have x2 : Fl.ceil (.fin (15447227 / 2 ^ 25)) = .fin 1 := by decide +kernel
  have y1 : Fl.floor (.fin (1 / 2)) = .fin 0 := by decide +kernel
  have y2 : Fl.ceil (.fin (1 / 2)) = .fin 1 := by decide +kernel
  have w0 : Fl.ge (.fin 0) (.fin (i.width : Rat)) = false := by
    simp only [Fl.ge, Fl.le, decide_eq_false_iff_not, not_le]
    exact_mod_cast pos.1
  have h0 : Fl.ge (.fin 0) (.fin (i.height : Rat)) = false := by
    simp only [Fl.ge, Fl.le, decide_eq_false_iff_not, not_le]
    exact_mod_cast pos.2
  have n1 : Fl.lt (.fin 1) (.fin 0) = false := by decide +kernel
  have u0 : Fl.toU32 (.fin 0) = 0 := by decide +kernel
  have u1 : Fl.toU32 (.fin 1) = 1 := by decide +kernel
  unfold Image.interpolatePixelColor
  simp only [x1, x2, y1, y2, hw', hh', w0, h0, n1, u0, u1, getPixelColor_eq hi]
  simp only [hc 0 (by decide) 0 (by decide), hc 0 (by decide) 1 (by decide), hc 1 (by decide) 0 (by decide),
    hc 1 (by decide) 1 (by decide)]
  decide +kernel

end Verif.Props

namespace Verif.Dwd

/-- The availability of files decides about the run found only by the files that are probed. -/
theorem C83_probed_only {m : FcModel} (h : IsDwd m) (available available' : Text → Bool) (today now : Date)
    (ha : ∀ name ∈ runNames, ∀ r ∈ probes (lastHour m), ∀ url, fileUrl ⟨m, today, name⟩ r = .ok url → available url = available' url) :
    findLatestRun m today now available = findLatestRun m today now available' := by
  have hc : ∀ name ∈ runNames, (Complete available ⟨m, today, name⟩ ↔ Complete available' ⟨m, today, name⟩) := by
    intro name hn
    constructor
    · intro hc r hr
      obtain ⟨url, h1, h2⟩ := hc r hr
      exact ⟨url, h1, (ha name hn r hr url h1).symm.trans h2⟩
    · intro hc r hr
      obtain ⟨url, h1, h2⟩ := hc r hr
      exact ⟨url, h1, (ha name hn r hr url h1).trans h2⟩
  rcases C51_cases h available today now with ⟨name, hn, e⟩ | ⟨hn, e⟩
  · rw [e]
    exact (C51_newest h available' today now
      ⟨hn.1, (hc name hn.1).mp hn.2.1, fun n' hn' hlt hx => hn.2.2 n' hn' hlt ((hc n' hn').mpr hx)⟩).symm
  · rcases C51_cases h available' today now with ⟨name, hn', -⟩ | ⟨-, e'⟩
    · exact absurd ((hc name hn'.1).mpr hn'.2.1) (hn name hn'.1)
    · rw [e, e']

/-- C83, how it fails: taking a file of a run of today away from the server that is not one of the ten probed files of the run
never changes which run is found, whichever other files there are.  Such are all northward winds aloft, all level
heights, all levels other than the lowest, and all steps other than the last. -/
theorem C83_unprobed {m : FcModel} (h : IsDwd m) (available : Text → Bool) (today now : Date) (hd : today.Usual) {name : Text}
    (hn : name ∈ runNames) (r : Req) (hr : r ∉ probes (lastHour m)) {url : Text} (hu : fileUrl ⟨m, today, name⟩ r = .ok url) :
    findLatestRun m today now (fun t => available t && decide (t ≠ url)) = findLatestRun m today now available := by
  refine C83_probed_only h _ _ today now fun name' hn' r' hr' url' hu' => ?_
  have : url' ≠ url := by
    rintro rfl
    exact hr ((C52_injective ⟨h, hd, hn⟩ ⟨h, hd, hn'⟩ r r' hu hu').2 ▸ hr')
  simp [this]

/-- C83, how it fails: whatever run of today is found on some server, it is also found on a server that has no other files than
the probed ones; there each of the other files that rendering needs is missing. -/
theorem C83_bare {m : FcModel} (h : IsDwd m) (available : Text → Bool) (today now : Date) (hd : today.Usual) :
    ∃ available' : Text → Bool, (∀ t, available' t = true → available t = true) ∧
      findLatestRun m today now available' = findLatestRun m today now available ∧
      ∀ name ∈ runNames, ∀ r, r ∉ probes (lastHour m) → ∃ url, fileUrl ⟨m, today, name⟩ r = .ok url ∧ available' url = false := by
  classical
  refine ⟨fun t => available t && decide (∃ name ∈ runNames, ∃ r ∈ probes (lastHour m), fileUrl ⟨m, today, name⟩ r = .ok t), ?_, ?_, ?_⟩
  · intro t ht
    exact (Bool.and_eq_true _ _ ▸ ht).1
  · refine C83_probed_only h _ _ today now fun name hn r hr url hu => ?_
    have : (∃ name ∈ runNames, ∃ r ∈ probes (lastHour m), fileUrl ⟨m, today, name⟩ r = .ok url) := ⟨name, hn, r, hr, hu⟩
    simp only [decide_eq_true this, Bool.and_true]
  · intro name hn r hr
    obtain ⟨url, hu, -⟩ := C52_download (run := ⟨m, today, name⟩) h r
    refine ⟨url, hu, ?_⟩
    have : ¬ ∃ name ∈ runNames, ∃ r ∈ probes (lastHour m), fileUrl ⟨m, today, name⟩ r = .ok url := by
      rintro ⟨name', hn', r', hr', hu'⟩
      exact hr ((C52_injective ⟨h, hd, hn⟩ ⟨h, hd, hn'⟩ r r' hu hu').2 ▸ hr')
    simp only [decide_eq_false this, Bool.and_false]

example : IsDwd .iconEu ∧ (⟨2025, 8, 5⟩ : Date).Usual ∧ "06".toList ∈ runNames ∧ Req.level .v 78 65 ∉ probes (lastHour .iconEu) ∧
    Req.hhl 65 ∉ probes (lastHour .iconEu) ∧ ∃ url, fileUrl ⟨.iconEu, ⟨2025, 8, 5⟩, "06".toList⟩ (.level .v 78 65) = .ok url :=
  ⟨.inr rfl, ⟨by decide +kernel, by norm_num, by norm_num⟩, by decide +kernel, by decide +kernel, by decide +kernel, _, rfl⟩

end Verif.Dwd

namespace Verif.Props

open Verif

/-- A white picture of 3 x 5 pixels. -/
def white15 : Image := ⟨List.replicate 60 255, 3, 5⟩

example : white15.WF ∧ (∀ x < 2, ∀ y < 2, white15.pixel x y = some ⟨255, 255, 255, 255⟩) ∧
    white15.interpolatePixelColor (.fin (15447227 / 2 ^ 25)) (.fin (1 / 2)) = .ok ⟨254, 254, 254, 254⟩ := by
  have hw : white15.WF := ⟨rfl, by decide⟩
  have hp : ∀ x < 2, ∀ y < 2, white15.pixel x y = some ⟨255, 255, 255, 255⟩ := by decide
  exact ⟨hw, hp, C74_white hw (by decide) (by decide) hp⟩

end Verif.Props

namespace Verif.SwissSearch

open Verif.Spec

/-- C82, how it fails: only the order of the response decides.  Each listed run is the one chosen for some order of the same entries;
so for each response with two runs of which one is newer there is an order in which the newer one is not chosen. -/
theorem C82_any_order (parse : Text → Res OffsetTime) (refs : List Text) :
    (∀ t ∈ refs, ∃ refs', refs'.Perm refs ∧ findLatest parse refs' = RefTime.fromParsed (parse t)) ∧
    ∀ t ∈ refs, ∀ u ∈ refs, ∀ older newer, RefTime.fromParsed (parse t) = .ok older → RefTime.fromParsed (parse u) = .ok newer →
      ¬ NotAfter newer older → ∃ refs' chosen, refs'.Perm refs ∧ findLatest parse refs' = .ok chosen ∧
        u ∈ refs' ∧ ¬ NotAfter newer chosen := by
  have key : ∀ t ∈ refs, ∃ refs', refs'.Perm refs ∧ findLatest parse refs' = RefTime.fromParsed (parse t) := by
    intro t ht
    refine ⟨refs.erase t ++ [t], ?_, ?_⟩
    · exact (List.perm_append_singleton t _).trans (List.perm_cons_erase ht).symm
    · unfold findLatest
      rw [List.getLast?_append]
      rfl
  refine ⟨key, fun t ht u hu older newer h1 h2 hn => ?_⟩
  obtain ⟨refs', hp, hf⟩ := key t ht
  exact ⟨refs', older, hp, hf.trans h1, hp.mem_iff.mpr hu, hn⟩

example : ∃ (parse : Text → Res OffsetTime) (refs : List Text) (older newer : Instant), refs = [['a'], ['a', 'b']] ∧
    RefTime.fromParsed (parse ['a']) = .ok older ∧ RefTime.fromParsed (parse ['a', 'b']) = .ok newer ∧ ¬ NotAfter newer older ∧
    findLatest parse refs = .ok newer :=
  ⟨fun t => .ok ⟨⟨20000, t.length * 10800, 0⟩, 0⟩, _, ⟨20000, 10800, 0⟩, ⟨20000, 21600, 0⟩, rfl,
    by decide +kernel, by decide +kernel, by unfold NotAfter; decide, by decide +kernel⟩

end Verif.SwissSearch

namespace Verif.Props

open Verif

/-- C72: likewise along a column (an integer x inside). -/
theorem C72_cause_column {i : Image} (hi : i.WF) (hw : i.width ≤ 2 ^ 24) (hh : i.height ≤ 2 ^ 24) {x : Nat} {y : Rat}
    (hx : x < i.width) (hy0 : 0 ≤ y) (hy : y < i.height) :
    i.interpolatePixelColor (.fin x) (.fin y) = .ok ((i.pixel x ⌊y⌋.toNat).getD Color.transparent) := by
  have fx : Fl.floor (.fin (x : Rat)) = .fin (x : Rat) := by simp [Fl.floor]
  have cx : Fl.ceil (.fin (x : Rat)) = .fin (x : Rat) := by simp [Fl.ceil]
  have hw' : Fl.ofNat f32 i.width = .fin i.width := rnd32_nat hw
  have hh' : Fl.ofNat f32 i.height = .fin i.height := rnd32_nat hh
  have x0 : (0 : Rat) ≤ x := by positivity
  have xw : (x : Rat) < i.width := by exact_mod_cast hx
  have f0 : 0 ≤ ⌊y⌋ := Int.floor_nonneg.mpr hy0
  have c0 : (0 : Rat) ≤ (⌈y⌉ : Rat) := by exact_mod_cast Int.ceil_nonneg hy0
  have f1 : (⌊y⌋ : Rat) < i.height := lt_of_le_of_lt (Int.floor_le y) hy
  have f1' : ⌊y⌋ < i.height := by exact_mod_cast f1
  unfold Image.interpolatePixelColor
  simp only [fx, cx, hw', hh']
  have n1 : Fl.lt (Fl.ceil (.fin y)) (.fin 0) = false := by
    simp only [Fl.ceil, Fl.lt, decide_eq_false_iff_not, not_lt]; exact c0
  have n2 : Fl.lt (.fin (x : Rat)) (.fin 0) = false := by simp [Fl.lt, x0]
  have n3 : Fl.ge (Fl.floor (.fin y)) (.fin i.height) = false := by
    simp only [Fl.floor, Fl.ge, Fl.le, decide_eq_false_iff_not, not_le]; exact f1
  have n4 : Fl.ge (.fin (x : Rat)) (.fin i.width) = false := by
    simp only [Fl.ge, Fl.le, decide_eq_false_iff_not, not_le]; exact xw
  rw [n1, n2, n3, n4]
  simp only [Bool.or_self, Bool.false_eq_true, if_false, true_or, if_true]
  have u1 : Fl.toU32 (Fl.floor (.fin y)) = ⌊y⌋.toNat := by
    simp only [Fl.toU32, Fl.floor, Fl.toUInt, Int.floor_intCast]
    omega
  have u2 : Fl.toU32 (.fin (x : Rat)) = x := Fl.toUInt_nat (by omega)
  rw [u1, u2, getPixelColor_eq hi]

example : img2.WF ∧ img2.interpolatePixelColor (.fin 0) (.fin (1 / 2)) = .ok ⟨0, 0, 0, 255⟩ ∧
    img2.pixel 0 1 = some ⟨0, 100, 0, 255⟩ :=
  ⟨⟨rfl, by decide⟩, by decide +kernel, by decide +kernel⟩

end Verif.Props
