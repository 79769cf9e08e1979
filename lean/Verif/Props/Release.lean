import Verif.Lemmas.Release
import Verif.Props.Catalogue
import Verif.Props.Colors
import Verif.Props.DwdSuccess
import Verif.Props.EndToEndSwiss
import Verif.Props.Imaging
import Verif.Props.Swiss

/-!
# C136-C140: the build without overflow checks
-/

namespace Verif.Grib2.Release

open Verif Rd Spec.Grib2

local macro "step" h:ident x:ident r:ident e:ident : tactic =>
  `(tactic| (replace $h := bind_ok_iff.mp $h; obtain ⟨$x, $r, $e, $h⟩ := $h))

/-! ## C136: reading messages -/

/-- How far the declared lengths must be right in the build without overflow checks: those of sections 4 and 5 may
be anything if the template is known. -/
def okUnchecked (l : Declared) (m : Msg) : Prop :=
  l.optional < 256 ∧ l.length3 < 2 ^ 32 ∧ l.length4 < 2 ^ 32 ∧ l.length5 < 2 ^ 32 ∧
  (l.length7 = 5 + 2 * m.data.length ∨ l.length7 = 6 + 2 * m.data.length) ∧ l.length7 < 2 ^ 32 ∧
  (∀ n c, m.product = .other n c → l.length4 = 9 + c.length) ∧
  (∀ n c, m.packing = .other n c → l.length5 = 11 + c.length)

theorem section3_read {m : Msg} {l : Declared} (hm : m.fields) (hl : okUnchecked l m) (r : List UInt8) :
    readSection3 (looseSection3 m l ++ r) = .ok ((m.docWith l).section3, r) := by
  obtain ⟨-, -, -, -, -, -, -, -, -, -, -, -, -, -, h15, h16, h17, h18, -⟩ := hm
  obtain ⟨l1, l2, -⟩ := hl
  obtain ⟨hc, hd⟩ := source_code _ h15
  obtain ⟨hc', hd'⟩ := interpretation_code _ h17
  unfold readSection3 looseSection3
  simp only [List.append_assoc]
  rw [u32_bind l2, u8_bind (by omega), u8_bind hc, u32_bind (by omega), u8_bind l1,
    u8_bind hc', bind_of_ok (readGrid_enc _ h18 _)]
  simp [hd, hd', Msg.doc, Msg.docWith]

theorem section4_read {m : Msg} {l : Declared} (hm : m.fields) (hl : okUnchecked l m) (r : List UInt8) :
    Release.readSection4 (looseSection4 m l ++ r) = .ok ((m.docWith l).section4, r) := by
  obtain ⟨-, -, -, -, -, -, -, -, -, -, -, -, -, -, -, -, -, -, h19, h21, h22, -⟩ := hm
  obtain ⟨-, -, l4, -, -, -, l9, -⟩ := hl
  have hw4 : ∀ w ∈ m.coordinates, ∀ r : List UInt8, u32 (be 4 w.bits ++ r) = .ok (w.bits, r) := by
    intro w hw r
    have := bits_lt w (h22 w hw)
    exact uint_be (by omega) r
  have ht := times_flatMap (m := u32) (fun w : F32Word => be 4 w.bits) F32Word.bits m.coordinates hw4 r
  have hp2 := product_read h19 (wrapSub32 l.length4 9)
    (fun k c hc => by have := l9 k c hc; rw [wrapSub32_eq l4 (by omega)]; omega)
    (m.coordinates.flatMap (fun w => be 4 w.bits) ++ r)
  unfold Release.readSection4 looseSection4
  simp only [List.append_assoc]
  rw [u32_bind (by omega), u8_bind (by omega), u16_bind (by omega), u16_bind (productNumber_lt h19)]
  refine (bind_of_ok hp2).trans ?_
  refine (bind_of_ok ht).trans ?_
  have hv : (m.coordinates.map F32Word.bits).map f32OfBits = m.coordinates.map F32Word.value := by
    rw [List.map_map]
    apply List.map_congr_left
    intro w hw
    rw [Function.comp_apply]
    exact f32OfBits_bits w (h22 w hw)
  rw [hv]
  simp [Msg.doc, Msg.docWith]

theorem section5_read {m : Msg} {l : Declared} {e : List UInt8} (hm : m.fields) (hl : okUnchecked l m)
    (he : IsPacking m.packing e) (r : List UInt8) :
    Release.readSection5 (looseSection5 m l e ++ r) = .ok ((m.docWith l).section5, r) := by
  obtain ⟨-, -, -, -, -, -, -, -, -, -, -, -, -, -, -, -, -, -, -, -, -, h23, h24, -⟩ := hm
  obtain ⟨-, -, -, l6, -, -, -, l10⟩ := hl
  have hp := packing_read h24 he (wrapSub32 l.length5 11)
    (fun k c hc => by have := l10 k c hc; rw [wrapSub32_eq l6 (by omega)]; omega) r
  unfold Release.readSection5 looseSection5
  simp only [List.append_assoc]
  rw [u32_bind (by omega), u8_bind (by omega), u32_bind (by omega), u16_bind hp.1, bind_of_ok hp.2]
  simp [Msg.doc, Msg.docWith]

theorem section7_read {m : Msg} {l : Declared} (hm : m.fields) (hl : okUnchecked l m) (r : List UInt8) :
    Release.readSection7 (looseSection7 m l ++ r) = .ok ((m.docWith l).section7, r) := by
  obtain ⟨-, -, -, -, -, -, -, -, -, -, -, -, -, -, -, -, -, -, -, -, -, -, -, -, -, h28⟩ := hm
  obtain ⟨-, -, -, -, l7, l8, -, -⟩ := hl
  have ht := times_flatMap (m := u16) (be 2) id m.data
    (fun v hv r => uint_be (by have := h28 v hv; omega) r) r
  unfold Release.readSection7 looseSection7
  simp only [List.append_assoc]
  rw [u32_bind (by omega), u8_bind (by omega), wrapSub32_eq l8 (by omega),
    show (l.length7 - 5) / 2 = m.data.length by omega, bind_of_ok ht]
  simp [Msg.doc, Msg.docWith]

theorem accepts (m : Msg) (l : Declared) (e rest : List UInt8) (hm : m.fields) (hl : okUnchecked l m)
    (he : IsMessage m l e) : Release.readSingleDoc (e ++ rest) = .ok (m.docWith l, rest) := by
  obtain ⟨pe, ip, rfl⟩ := he
  unfold Release.readSingleDoc
  rw [readSection1_eq, readSection2_eq]
  simp only [List.append_assoc]
  have b := bare_ok hm
  have r0 : ∀ r, readSection0 (encSection0 m ++ r) = .ok ((m.docWith l).section0, r) := readSection0_enc (Bare m) b
  have r1 : ∀ r, Grib2.readSection1 (encSection1 m ++ r) = .ok ((m.docWith l).section1, r) := readSection1_enc (Bare m) b
  have r2 : ∀ r, Grib2.readSection2 (encSection2 m ++ r) = .ok ((m.docWith l).section2, r) := readSection2_enc (Bare m) b
  have r6 : ∀ r, Release.readSection6 (encSection6 m ++ r) = .ok ((m.docWith l).section6, r) := fun r => by
    have h := readSection6_enc (Bare m) b r
    have h2 := sim6 (encSection6 m ++ r) (by rw [show Grib2.readSection6 (encSection6 m ++ r) = _ from h]; simp)
    rw [h2]; exact h
  rw [bind_of_ok (r0 _), bind_of_ok (r1 _), bind_of_ok (r2 _),
    bind_of_ok (section3_read hm hl _), bind_of_ok (section4_read hm hl _),
    bind_of_ok (section5_read hm hl ip _), bind_of_ok (r6 _),
    bind_of_ok (section7_read hm hl _), bind_of_ok (m := readSection8) (a := ()) (r := rest)]
  · rfl
  · unfold readSection8
    rw [bytes_bind (n := 4) [0x37, 0x37, 0x37, 0x37] rfl]
    rfl

/-- **C136.** Whatever the build with overflow checks reads or refuses without a panic, the build without checks
reads or refuses as well, with the same result. -/
theorem C136_same (s : List UInt8) (h : Grib2.readSingleDoc s ≠ .panic) :
    Release.readSingleDoc s = Grib2.readSingleDoc s := simDoc s h

/-- **C136.** Without checks only sections 1 and 2 make the reader panic, on the inputs on which it panics with
checks. -/
theorem C136_panics (s : List UInt8) : Release.readSingleDoc s = .panic ↔
    ∃ d0 s1, readSection0 s = .ok (d0, s1) ∧
      (Hazard 1 s1 ∨ ∃ d1 s2, Grib2.readSection1 s1 = .ok (d1, s2) ∧ Hazard 2 s2) := by
  have h := panic_iff s
  rw [readSection1_eq, readSection2_eq] at h
  rw [h]
  constructor
  · rintro ⟨d0, s1, h0, h | ⟨d1, s2, h1, h⟩⟩
    · exact ⟨d0, s1, h0, .inl ((section1_panic_iff s1).mp h)⟩
    · exact ⟨d0, s1, h0, .inr ⟨d1, s2, h1, (section2_panic_iff s2).mp h⟩⟩
  · rintro ⟨d0, s1, h0, h | ⟨d1, s2, h1, h⟩⟩
    · exact ⟨d0, s1, h0, .inl ((section1_panic_iff s1).mpr h)⟩
    · exact ⟨d0, s1, h0, .inr ⟨d1, s2, h1, (section2_panic_iff s2).mpr h⟩⟩

/-- **C136.** The messages that the build without checks accepts, for streams of less than 4 GiB. -/
theorem C136_accepted_iff (s : List UInt8) (hs : s.length < 2 ^ 32 - 11) (d : Document) (rest : List UInt8) :
    Release.readSingleDoc s = .ok (d, rest) ↔
      ∃ (m : Msg) (l : Declared) (e : List UInt8), m.fields ∧ okUnchecked l m ∧ m.docWith l = d ∧ IsMessage m l e ∧
        s = e ++ rest := by
  constructor
  · intro h
    unfold Release.readSingleDoc at h
    rw [readSection1_eq, readSection2_eq] at h
    step h a0 s0 e0
    step h a1 s1 e1
    step h a2 s2 e2
    step h a3 s3 e3
    step h a4 s4 e4
    step h a5 s5 e5
    step h a6 s6 e6
    step h a7 s7 e7
    step h a8 s8 e8
    have b0 := stable_len stable_section0 e0
    have b1 := stable_len stable_section1 e1
    have b2 := stable_len stable_section2 e2
    have b3 := stable_len stable_section3 e3
    obtain ⟨rfl, rfl⟩ := pure_ok h
    obtain ⟨reserved, discipline, edition, total, h1, h2, h3, h4, rfl, q0⟩ := section0_split e0
    obtain ⟨center, subcenter, master, loc, sig, time, status, dt, tail, h5, h6, h7, h8, h9, h10, h11, h12, h13, rfl,
      q1⟩ := section1_split e1
    obtain ⟨use, h14, rfl, q2⟩ := section2_split e2
    obtain ⟨l3, source, points, opt, interp, g, k1, h15, h16, k2, h17, h18, rfl, q3⟩ := section3_split e3
    obtain ⟨l4, p, ws, k4, h19, h20, h21, k5, rfl, q4⟩ := Release.section4_split (by omega) e4
    have b4 : s4.length ≤ s3.length := by
      have := congrArg List.length q4
      simp only [List.length_append] at this
      omega
    obtain ⟨l5, values, pk, pe, k7, h22, h23, k8, ip, rfl, q5⟩ := Release.section5_split (by omega) e5
    have b5 : s5.length ≤ s4.length := by
      have := congrArg List.length q5
      simp only [List.length_append] at this
      omega
    replace e6 := section6_ok (by omega) e6
    have b6 := stable_len stable_section6 e6
    replace e7 := section7_ok (by omega) e7
    obtain ⟨ind, bitmap, h24, h25, rfl, q6⟩ := section6_split e6
    obtain ⟨l7, data, k9, k10, h26, rfl, q7⟩ := section7_split e7
    have q8 := section8_split e8
    refine ⟨⟨reserved, discipline, edition, total, center, subcenter, master, loc, sig, time, status, dt, tail, use,
      source, points, interp, g, p, ws, values, pk, ind, bitmap, data⟩, ⟨opt, l3, l4, l5, l7⟩, _,
      ⟨h1, h2, h3, h4, h5, h6, h7, h8, h9, h10, h11, h12, h13, h14, h15, h16, h17, h18, h19, h20, h21, h22, h23, h24,
        h25, h26⟩, ⟨k2, k1, k4, k7, k10, k9, k5, k8⟩, rfl, ⟨pe, ip, rfl⟩, ?_⟩
    simp only [encSection0, encSection1, encSection2, encSection6, looseSection3, looseSection4, looseSection5,
      looseSection7]
    rw [q0, q1, q2, q3, q4, q5, q6, q7, q8]
    simp only [List.append_assoc]
  · rintro ⟨m, l, e, hm, hl, rfl, he, rfl⟩
    exact accepts m l e rest hm hl he

/-- **C136.** Of the messages that are accepted without checks (of less than 4 GiB), those that the build with checks
does not accept as well are those in which section 4 declares less than 9 or section 5 less than 11 bytes; on them it
panics. -/
theorem C136_accepted (s : List UInt8) (hs : s.length < 2 ^ 32 - 11) (d : Document) (rest : List UInt8)
    (h : Release.readSingleDoc s = .ok (d, rest)) :
    Grib2.readSingleDoc s = if 9 ≤ d.section4.length ∧ 11 ≤ d.section5.length then .ok (d, rest) else .panic := by
  obtain ⟨m, l, e, hm, hl, rfl, he, rfl⟩ := (C136_accepted_iff s hs d rest).mp h
  have h4 : (m.docWith l).section4.length = l.length4 := rfl
  have h5 : (m.docWith l).section5.length = l.length5 := rfl
  rw [h4, h5]
  split
  · rename_i hc
    obtain ⟨l1, l2, l3, l4, l5, l6, l7, l8⟩ := hl
    exact (C124_accepted_iff _ _ _).mpr ⟨m, l, e, hm, ⟨l1, l2, hc.1, l3, hc.2, l4, l5, l6, l7, l8⟩, rfl, he, rfl⟩
  · rename_i hc
    cases hq : Grib2.readSingleDoc (e ++ rest) with
    | panic => rfl
    | err =>
      have := simDoc (e ++ rest) (by rw [hq]; simp)
      rw [hq, h] at this
      exact absurd this (by simp)
    | ok x =>
      exfalso
      have hx := simDoc (e ++ rest) (by rw [hq]; simp)
      rw [hq, h] at hx
      rw [← hx] at hq
      obtain ⟨m', l', e', -, hl', hd', -, -⟩ := (C124_accepted_iff _ _ _).mp hq
      apply hc
      obtain ⟨-, -, l3, -, l5, -⟩ := hl'
      have d4 : (m'.docWith l').section4.length = (m.docWith l).section4.length := by rw [hd']
      have d5 : (m'.docWith l').section5.length = (m.docWith l).section5.length := by rw [hd']
      exact ⟨by rw [← h4, ← d4]; exact l3, by rw [← h5, ← d5]; exact l5⟩

/-- **C136, violated.** Every message with known templates is also accepted without checks if sections 4 and 5 declare
to be empty, which the build with checks does not accept. -/
theorem C136_counterexample (m : Msg) (hm : m.ok) (hk : m.product.known) (hp : ∀ n c, m.packing ≠ .other n c)
    (rest : List UInt8) :
    ∃ e, Release.readSingleDoc (e ++ rest) = .ok (m.docWith { m.declared with length4 := 0, length5 := 0 }, rest) ∧
      Grib2.readSingleDoc (e ++ rest) = .panic := by
  obtain ⟨h1, h2, h3, h4, h5, h6, h7, h8, h9, h10, h11, h12, h13, h14, h15, h16, h17, h18, h19, l4, h20, h21, h22,
      h23, l6, h24, h25, h26, l8⟩ := hm
  have hf : m.fields := ⟨h1, h2, h3, h4, h5, h6, h7, h8, h9, h10, h11, h12, h13, h14, h15, h16, h17, h18, h19, h20,
    h21, h22, h23, h24, h25, h26⟩
  have h3l : section3Length m < 2 ^ 32 := by
    unfold section3Length
    cases m.grid <;> simp [encGrid, encScale]
  have hl : okUnchecked { m.declared with length4 := 0, length5 := 0 } m :=
    ⟨by simp [Msg.declared], h3l, by norm_num, by norm_num, .inl rfl, l8,
      fun n c hc => by rw [hc] at hk; exact absurd hk (by simp [Product.known]), fun n c hc => absurd hc (hp n c)⟩
  have he : IsMessage m { m.declared with length4 := 0, length5 := 0 }
      (encSection0 m ++ encSection1 m ++ encSection2 m ++ looseSection3 m { m.declared with length4 := 0, length5 := 0 }
        ++ looseSection4 m { m.declared with length4 := 0, length5 := 0 }
        ++ looseSection5 m { m.declared with length4 := 0, length5 := 0 } (encPacking m.packing) ++ encSection6 m
        ++ looseSection7 m { m.declared with length4 := 0, length5 := 0 } ++ [0x37, 0x37, 0x37, 0x37]) := by
    refine ⟨_, ?_, rfl⟩
    cases hq : m.packing with
    | simple r b d bits ft => exact ⟨_, _, .inl rfl, .inl rfl, by simp [encPacking]⟩
    | other n c => rfl
  refine ⟨_, accepts m _ _ rest hf hl he, ?_⟩
  have ha := accepts m _ _ rest hf hl he
  cases hq : Grib2.readSingleDoc _ with
  | panic => rfl
  | err =>
    have := simDoc _ (by rw [hq]; simp)
    rw [hq, ha] at this
    exact absurd this (by simp)
  | ok x =>
    exfalso
    have hx := simDoc _ (by rw [hq]; simp)
    rw [hq, ha] at hx
    rw [← hx] at hq
    obtain ⟨m', l', e', -, hl', hd', -, -⟩ := (C124_accepted_iff _ _ _).mp hq
    obtain ⟨-, -, l3, -⟩ := hl'
    have d4 : (m'.docWith l').section4.length =
      (m.docWith { m.declared with length4 := 0, length5 := 0 }).section4.length := by rw [hd']
    have l3' : 9 ≤ (m'.docWith l').section4.length := l3
    rw [d4] at l3'
    exact absurd l3' (by simp [Msg.docWith])

/-- A message that the build without checks accepts and the one with checks does not. -/
example : ∃ e, Release.readSingleDoc (e ++ [1]) =
      .ok (Props.demoMsg.docWith { Props.demoMsg.declared with length4 := 0, length5 := 0 }, [1]) ∧
    Grib2.readSingleDoc (e ++ [1]) = .panic :=
  C136_counterexample Props.demoMsg Props.demoMsg_ok trivial (by intro n c h; simp [Props.demoMsg] at h) [1]

example : Grib2.readSingleDoc (encode Props.demoMsg) ≠ .panic := by
  have := Props.C01_round_trip Props.demoMsg Props.demoMsg_ok (.inl trivial) []
  rw [List.append_nil] at this
  rw [this]; simp

end Verif.Grib2.Release

namespace Verif.Props

open Verif SwissSearch MapTileRenderer Dwd
open Verif.Spec (AccurateRow Item filesOf StableSortOf)
open Verif.Spec.Grib2 (Msg)

/-! ## C137: the order of the files -/

theorem release_sortKey (s : Step) : Build.release.sortKey s = hoursOf s % 256 := by
  show (s.horizon.days * 24 + s.horizon.hours).toNat = _
  unfold hoursOf
  simp only [UInt8.toNat_add, UInt8.toNat_mul]
  have : (24 : UInt8).toNat = 24 := rfl
  rw [this]
  omega

theorem release_sortSteps (steps : List Step) : Build.release.sortSteps steps =
    .ok (steps.insertionSort fun x y => hoursOf x % 256 ≤ hoursOf y % 256) := by
  unfold Build.sortSteps
  rw [if_neg]
  · simp only [release_sortKey]
  · rintro ⟨-, h⟩
    obtain ⟨s, -, hs⟩ := List.any_eq_true.mp h
    cases hs

/-- **C137.** Without checks the search for files fails exactly if some entry has an unreadable horizon or no link, and
never panics. -/
theorem C137_error (fs : List Feature) : (Build.release.findFiles fs = .err ↔ ∃ f ∈ fs, ¬ Good f) ∧
    Build.release.findFiles fs ≠ .panic := by
  unfold Build.findFiles
  rcases mapM_createStep fs with ⟨steps, e, hf⟩ | ⟨e, g, hgm, hn⟩
  · rw [e]
    simp only [Res.bind_ok, release_sortSteps]
    refine ⟨⟨fun h => (by simp at h), ?_⟩, by simp⟩
    rintro ⟨f, hfm, hfn⟩
    exfalso
    clear e
    induction hf with
    | nil => cases hfm
    | cons h t ih =>
      rcases List.mem_cons.mp hfm with rfl | hfm
      · exact hfn (good_of_isFileOf h)
      · exact ih hfm
  · rw [e]
    exact ⟨⟨fun _ => ⟨g, hgm, hn⟩, fun _ => rfl⟩, by simp [Res.bind_err]⟩

/-- **C137.** Otherwise the files are sorted by what is left of their hours in a byte. -/
theorem C137_files (fs : List Feature) (hg : ∀ f ∈ fs, Good f) :
    ∃ files sorted, List.Forall₂ IsFileOf files fs ∧ Build.release.findFiles fs = .ok sorted ∧
      StableSortOf (fun s => hoursOf s % 256) sorted files := by
  rcases mapM_createStep fs with ⟨steps, e, hf⟩ | ⟨_, g, hgm, hn⟩
  · refine ⟨steps, _, hf, ?_, insertionSort_stable _ steps⟩
    unfold Build.findFiles
    rw [e]
    simp only [Res.bind_ok, release_sortSteps]
  · exact absurd (hg g hgm) hn

/-- **C137, for horizons below 256 hours.**  Missing for the full statement: later ones, for which it is false
(`C137_counterexample`). -/
theorem C137_sorted_partial (fs : List Feature) (hg : ∀ f ∈ fs, Good f)
    (hh : ∀ f ∈ fs, ∀ h, Horizon.fromStr f.horizon = .ok h → 24 * h.days.toNat + h.hours.toNat < 256) :
    ∃ files sorted, List.Forall₂ IsFileOf files fs ∧ Build.release.findFiles fs = .ok sorted ∧
      findFiles fs = .ok sorted ∧ StableSortOf hoursOf sorted files := by
  obtain ⟨files, sorted, h1, h2, h3⟩ := C49_files fs hg hh
  refine ⟨files, sorted, h1, ?_, h2, h3⟩
  obtain ⟨files', sorted', h1', h2', h3'⟩ := C137_files fs hg
  have hlt : ∀ s ∈ files, hoursOf s < 256 := by
    clear h2 h3 hg h2' h3' h1'
    induction h1 with
    | nil => simp
    | cons h t ih =>
      intro s hs
      rcases List.mem_cons.mp hs with rfl | hs
      · exact hh _ (by simp) _ h.2.1
      · exact ih (fun f hf => hh f (by simp [hf])) s hs
  have hsim : Build.release.findFiles fs = Build.checked.findFiles fs := by
    unfold Build.findFiles
    rcases mapM_createStep fs with ⟨steps, e, hf⟩ | ⟨_, g, hgm, hn⟩
    · have hsteps : ∀ s ∈ steps, hoursOf s < 256 := by
        clear e
        clear h1 h2 h3 h1' h2' h3' hlt hg
        induction hf with
        | nil => simp
        | cons h t ih =>
          intro s hs
          rcases List.mem_cons.mp hs with rfl | hs
          · exact hh _ (by simp) _ h.2.1
          · exact ih (fun f hf => hh f (by simp [hf])) s hs
      rw [e]
      simp only [Res.bind_ok, release_sortSteps]
      have hc : Build.checked.sortSteps steps = SwissSearch.sortSteps steps := by
        have := congrFun Build.findFiles_checked fs
        unfold Build.findFiles SwissSearch.findFiles at this
        rw [e] at this
        simpa only [Res.bind_ok] using this
      rw [hc]
      have hf2 := h2
      unfold findFiles at hf2
      rw [e] at hf2
      simp only [Res.bind_ok] at hf2
      rw [hf2]
      unfold SwissSearch.sortSteps at hf2
      split at hf2
      · cases hf2
      · rw [← Res.ok.inj hf2]
        congr 1
        refine Build.insertionSort_congr fun a ha c hc => ?_
        rw [Nat.mod_eq_of_lt (hsteps a ha), Nat.mod_eq_of_lt (hsteps c hc)]
        have hk : hoursOf = key := by funext s; unfold hoursOf key; rw [Nat.mul_comm]
        rw [hk]
    · exact absurd (hg g hgm) hn
  rw [hsim, Build.findFiles_checked, h2]

/-- **C137, violated.** A file for 256 hours is sorted before one for one hour. -/
theorem C137_counterexample : ∃ fs files, (∀ f ∈ fs, Good f) ∧ Build.release.findFiles fs = .ok files ∧
    files.map hoursOf = [256, 1] :=
  ⟨[⟨[], "P0DT01H00M00S".toList, [[]]⟩, ⟨[], "P10DT16H00M00S".toList, [[]]⟩],
    [⟨[], ⟨10, 16⟩, []⟩, ⟨[], ⟨0, 1⟩, []⟩], by
    intro f hf
    simp only [List.mem_cons, List.not_mem_nil, or_false] at hf
    rcases hf with rfl | rfl
    · exact ⟨⟨⟨0, 1⟩, by decide +kernel⟩, by simp⟩
    · exact ⟨⟨⟨10, 16⟩, by decide +kernel⟩, by simp⟩, by decide +kernel, by decide +kernel⟩

example : ∃ fs files, (∀ f ∈ fs, Good f) ∧ (∀ f ∈ fs, ∀ h, Horizon.fromStr f.horizon = .ok h →
      24 * h.days.toNat + h.hours.toNat < 256) ∧ Build.release.findFiles fs = .ok files ∧
      files.map hoursOf = [1, 33] :=
  ⟨[⟨[], "P1DT09H00M00S".toList, [[]]⟩, ⟨[], "P0DT01H00M00S".toList, [[]]⟩],
    [⟨[], ⟨0, 1⟩, []⟩, ⟨[], ⟨1, 9⟩, []⟩], by
    intro f hf
    simp only [List.mem_cons, List.not_mem_nil, or_false] at hf
    rcases hf with rfl | rfl
    · exact ⟨⟨⟨1, 9⟩, by decide +kernel⟩, by simp⟩
    · exact ⟨⟨⟨0, 1⟩, by decide +kernel⟩, by simp⟩, by
    intro f hf h hh
    simp only [List.mem_cons, List.not_mem_nil, or_false] at hf
    rcases hf with rfl | rfl
    · have : Horizon.fromStr "P1DT09H00M00S".toList = .ok ⟨1, 9⟩ := by decide +kernel
      have := Res.ok.inj (this.symm.trans hh)
      subst this; decide
    · have : Horizon.fromStr "P0DT01H00M00S".toList = .ok ⟨0, 1⟩ := by decide +kernel
      have := Res.ok.inj (this.symm.trans hh)
      subst this; decide, by decide +kernel, by decide +kernel⟩

/-! ## C138: the whole program -/

theorem build_sim : Build.Sim Build.checked Build.release where
  readDoc := Grib2.Release.simDoc
  succU32 n h := by
    show (Res.ok ((n + 1) % 2 ^ 32)) = ckU32 (n + 1)
    have h : ckU32 (n + 1) ≠ .panic := h
    unfold ckU32 at h ⊢
    split
    · rename_i hn; rw [Nat.mod_eq_of_lt hn]
    · rename_i hn; rw [if_neg hn] at h; exact absurd rfl h
  getStep h hp := by
    show (Res.ok (h.days * 24 + h.hours)) = h.getStep
    have hp : h.getStep ≠ .panic := hp
    obtain ⟨h1, h2⟩ := Build.getStep_ok hp
    rw [h1]
    congr 1
    apply UInt8.toNat_inj.mp
    simp only [UInt8.toNat_add, UInt8.toNat_mul, UInt8.toNat_ofNat']
    have : (24 : UInt8).toNat = 24 := rfl
    rw [this]
    omega
  predUsize n h := by
    show Res.ok (wrapSub64 n 1) = if n = 0 then .panic else .ok (n - 1)
    have h : (if n = 0 then Res.panic else .ok (n - 1)) ≠ .panic := h
    split
    · rename_i hn; rw [if_pos hn] at h; exact absurd rfl h
    · rename_i hn
      unfold wrapSub64
      rw [if_pos (by omega)]

/-- **C138.** Every behaviour of the program with checks that does not end with a panic is one of the program without
checks: same files, same contents, same outcome. -/
theorem C138_keeps (e : Environment) (model : Text) (vars : List Text) (filter : List Nat) (tr : List Write) (o : Outcome)
    (h : mainEffect e model vars filter tr o) (ho : o ≠ .panicked) :
    Build.release.mainEffect e model vars filter tr o := by
  rw [← Build.mainEffect_checked] at h
  exact (build_sim.mainEffect e model vars filter).1 tr o h ho

/-- **C138.** If the program with checks cannot panic, the two have the same behaviours. -/
theorem C138_same (e : Environment) (model : Text) (vars : List Text) (filter : List Nat)
    (h : ∀ tr o, mainEffect e model vars filter tr o → o ≠ .panicked) (tr : List Write) (o : Outcome) :
    Build.release.mainEffect e model vars filter tr o ↔ mainEffect e model vars filter tr o := by
  refine ⟨fun hr => ?_, fun hr => C138_keeps e model vars filter tr o hr (h tr o hr)⟩
  rw [← Build.mainEffect_checked] at h ⊢
  exact (build_sim.mainEffect e model vars filter).2 h tr o hr

/-- **C138.** So the program without checks succeeds for a model of DWD of which a complete run of today is found, and
writes what the program with checks writes. -/
theorem C138_dwd (e : Environment) (hm : AccurateRow e.libm) (vars : List Text) (filter : List Nat) (model : FcModel)
    (hd : IsDwd model) (name : Text) (hn : Newest e.available model e.today name) (a : Area) (ha : a.Valid) (ni nj : Nat)
    (hp : ∀ v, ChosenVar vars v → ∀ s ∈ model.forecastSteps, Chosen filter s → ∀ r, Uses model v s.nr r →
      AreaPublished e.world ⟨model, e.today, name⟩ a ni nj r)
    (hh : ChosenVar vars .verticalCloud ∨ ChosenVar vars .verticalWind → ∀ k, model.verticalLevels.1 ≤ k →
      k ≤ model.verticalLevels.2 → AreaPublished e.world ⟨model, e.today, name⟩ a ni nj (.hhl k)) :
    (∃ tr, Build.release.mainEffect e (dwdName model) vars filter tr .done) ∧
    ∀ tr o, Build.release.mainEffect e (dwdName model) vars filter tr o →
      o = .done ∧ mainEffect e (dwdName model) vars filter tr .done := by
  obtain ⟨⟨tr, h1⟩, h2⟩ := C105_main e hm vars filter model hd name hn a ha ni nj hp hh
  refine ⟨⟨tr, C138_keeps _ _ _ _ _ _ h1 (by simp)⟩, fun tr o h => ?_⟩
  have h3 := (C138_same e (dwdName model) vars filter (fun tr o h => by rw [h2 tr o h]; simp) tr o).mp h
  have := h2 tr o h3
  subst this
  exact ⟨rfl, h3⟩

/-- **C138.** So the program without checks succeeds for the model of MeteoSwiss if the newest run is complete, and
writes what the program with checks writes. -/
theorem C138_swiss (e : Environment) (hm : AccurateRow e.libm) (web : Swiss.Web) (catalogue : List Item)
    (hor vert : Text) (lat lon : Msg) (n : Nat) (t : Instant) (h : Meets e web catalogue hor vert lat lon n t)
    (fl : FullField lat n) (fn : FullField lon n) (vars : List Text) (filter : List Nat)
    (hp : ∀ v, ChosenVar vars v → ∃ count, ∀ p ∈ needs v, (filesOf catalogue p.1 t).length = count ∧
      ∀ i ∈ filesOf catalogue p.1 t, if p.2 then LevelFile e.world n i.href else SingleFile e.world n i.href)
    (hv : ChosenVar vars .verticalCloud ∨ ChosenVar vars .verticalWind → LevelFile e.world n vert) :
    (∃ tr, Build.release.mainEffect e "icon-ch1".toList vars filter tr .done) ∧
    ∀ tr o, Build.release.mainEffect e "icon-ch1".toList vars filter tr o →
      o = .done ∧ mainEffect e "icon-ch1".toList vars filter tr .done := by
  obtain ⟨⟨tr, h1⟩, h2⟩ := C113_success e hm web catalogue hor vert lat lon n t h fl fn vars filter hp hv
  refine ⟨⟨tr, C138_keeps _ _ _ _ _ _ h1 (by simp)⟩, fun tr o h => ?_⟩
  have h3 := (C138_same e "icon-ch1".toList vars filter (fun tr o h => by rw [h2 tr o h]; simp) tr o).mp h
  have := h2 tr o h3
  subst this
  exact ⟨rfl, h3⟩

/-- A server that delivers the demonstration message for every file: both models succeed without checks. -/
example (m : Libm) (hm : AccurateRow m) (dirs : Text → Bool) (vars : List Text) (filter : List Nat) (model : FcModel)
    (hd : IsDwd model) (service : Swiss.Service) (cal : Swiss.Calendar) (today : Date) :
    ∃ tr, Build.release.mainEffect ⟨m, constWorld weatherMsg, service, cal, dirs, today, today, fun _ => true⟩
      (dwdName model) vars filter tr .done := by
  have hp : ∀ r, AreaPublished (constWorld weatherMsg) ⟨model, today, "21".toList⟩ demoArea 2 2 r := fun r =>
    ⟨weatherMsg, constWorld_publishes weatherMsg_ok trivial hd r, weatherMsg_area, fun _ _ => weatherMsg_codes⟩
  refine (C138_dwd _ hm vars filter model hd "21".toList ?_ demoArea demoArea_valid 2 2 (fun _ _ _ _ _ r _ => hp r)
    fun _ k _ _ => hp _).1
  refine ⟨by decide +kernel, ?_, ?_⟩
  · intro r hr
    obtain ⟨url, hu, -⟩ := C52_download (run := ⟨model, today, "21".toList⟩) hd r
    exact ⟨url, hu, rfl⟩
  · have : ∀ n ∈ runNames, ¬ valueOf "21".toList < valueOf n := by decide +kernel
    exact fun n hn h => absurd h (this n hn)

/-! ## C139: the other arithmetic -/

/-- **C139.** The number of a cell of a grid with less than 2^32 columns and rows can always be computed. -/
theorem C139_cells (g : LatLonGrid) (h1 : g.dimensions.1 < 2 ^ 32) (h2 : g.dimensions.2 < 2 ^ 32) (x y : Nat) :
    g.getIndexByXY x y ≠ .panic := by
  unfold LatLonGrid.getIndexByXY
  split
  · simp
  · rename_i h
    simp only [ge_iff_le, Bool.or_eq_true, decide_eq_true_eq, not_or, not_le] at h
    have : y * g.dimensions.1 ≤ (2 ^ 32 - 1) * g.dimensions.1 := Nat.mul_le_mul_right _ (by omega)
    rw [if_neg (by omega)]
    simp

theorem dims_read {s r : List UInt8} {d : Grib2.Document} {T : Type} {missing : T} {f : Fl → T}
    {g : LatLonValueGrid T} (hb : Grib2.Release.readSingleDoc s = .ok (d, r) ∨ Grib2.readSingleDoc s = .ok (d, r))
    (h : Grib2.createRegularGrid d missing f = .ok g) :
    g.grid.dimensions.1 < 2 ^ 32 ∧ g.grid.dimensions.2 < 2 ^ 32 := by
  have hb : Grib2.Release.readSingleDoc s = .ok (d, r) := by
    rcases hb with hb | hb
    · exact hb
    · rw [Grib2.Release.simDoc s (by rw [hb]; simp), hb]
  have h3 : ∃ s2 s3, Grib2.readSection3 s2 = .ok (d.section3, s3) := by
    unfold Grib2.Release.readSingleDoc at hb
    obtain ⟨a0, s0, e0, hb⟩ := Rd.bind_ok_iff.mp hb
    obtain ⟨a1, s1, e1, hb⟩ := Rd.bind_ok_iff.mp hb
    obtain ⟨a2, s2, e2, hb⟩ := Rd.bind_ok_iff.mp hb
    obtain ⟨a3, s3, e3, hb⟩ := Rd.bind_ok_iff.mp hb
    obtain ⟨a4, s4, e4, hb⟩ := Rd.bind_ok_iff.mp hb
    obtain ⟨a5, s5, e5, hb⟩ := Rd.bind_ok_iff.mp hb
    obtain ⟨a6, s6, e6, hb⟩ := Rd.bind_ok_iff.mp hb
    obtain ⟨a7, s7, e7, hb⟩ := Rd.bind_ok_iff.mp hb
    obtain ⟨a8, s8, e8, hb⟩ := Rd.bind_ok_iff.mp hb
    obtain ⟨rfl, rfl⟩ := Rd.pure_ok hb
    exact ⟨_, _, e3⟩
  obtain ⟨s2, s3, h3⟩ := h3
  obtain ⟨l, src, pts, opt, int, gr, -, -, -, -, -, hg, ha, -⟩ := Grib2.section3_split h3
  unfold Grib2.createRegularGrid at h
  obtain ⟨v, -, h⟩ := Res.bind_eq_ok.mp h
  obtain ⟨⟨dims, ext⟩, hd, h⟩ := Res.bind_eq_ok.mp h
  have h := Res.ok.inj h
  subst h
  show dims.1 < _ ∧ dims.2 < _
  unfold Grib2.getDimensionsAndExtent at hd
  rw [ha] at hd
  cases gr with
  | latLon g =>
    obtain ⟨ext', -, hd⟩ := Res.bind_eq_ok.mp hd
    have hd := Res.ok.inj hd
    rw [Prod.mk.injEq] at hd
    rw [← hd.1]
    exact ⟨hg.2.2.2.2.1, hg.2.2.2.2.2.1⟩
  | unstructured => cases hd

/-- **C139.** Every grid read from a file of DWD is of this kind. -/
theorem C139_dwd {T : Type} (b : Build) (hb : b = .checked ∨ b = .release) (w : World) (name : Text) (missing : T)
    (f : Fl → T) (g : LatLonValueGrid T) (h : b.readRectangular w name missing f = .ok g) :
    g.grid.dimensions.1 < 2 ^ 32 ∧ g.grid.dimensions.2 < 2 ^ 32 := by
  unfold Build.readRectangular at h
  obtain ⟨d, h1, h⟩ := Res.bind_eq_ok.mp h
  unfold Build.readSingle at h1
  obtain ⟨s, -, h1⟩ := Res.bind_eq_ok.mp h1
  obtain ⟨⟨d', r⟩, h2, h1⟩ := Res.bind_eq_ok.mp h1
  have h1 := Res.ok.inj h1
  subst h1
  refine dims_read (s := s) (r := r) ?_ h
  rcases hb with rfl | rfl
  · exact .inr h2
  · exact .inl h2

/-- **C139.** Every grid made of a file of MeteoSwiss, too. -/
theorem C139_swiss {T : Type} (b : Build) (w : World) (url : Text) (grid : UnstructuredGrid)
    (hg : Build.Swiss.readHorConst b w url = .ok grid) (missing : T) (f : Fl → T) :
    (∀ name g, b.readUnstructured w name missing f grid = .ok g → g.grid.dimensions = (1851, 847)) ∧
    ∀ name range gs, b.readMultiUnstructured w name missing f grid range = .ok gs →
      ∀ g ∈ gs, g.grid.dimensions = (1851, 847) := by
  have hd : grid.latLonGrid.dimensions = (1851, 847) := by
    unfold Build.Swiss.readHorConst at hg
    obtain ⟨_, -, hg⟩ := Res.bind_eq_ok.mp hg
    obtain ⟨_, -, hg⟩ := Res.bind_eq_ok.mp hg
    obtain ⟨_, -, hg⟩ := Res.bind_eq_ok.mp hg
    obtain ⟨_, -, hg⟩ := Res.bind_eq_ok.mp hg
    obtain ⟨_, -, hg⟩ := Res.bind_eq_ok.mp hg
    obtain ⟨g0, h0, hg⟩ := Res.bind_eq_ok.mp hg
    unfold UnstructuredGrid.new at h0
    split at h0
    · cases h0
    · have h0 := Res.ok.inj h0
      subst h0
      unfold UnstructuredGrid.calcCoordDistLookupMap at hg
      obtain ⟨_, -, hg⟩ := Res.bind_eq_ok.mp hg
      have hg := Res.ok.inj hg
      subst hg
      rfl
  have key : ∀ (d : Grib2.Document) g, Grib2.convertUnstructured missing f grid d = .ok g →
      g.grid.dimensions = (1851, 847) := by
    intro d g h
    unfold Grib2.convertUnstructured at h
    obtain ⟨v, -, h⟩ := Res.bind_eq_ok.mp h
    obtain ⟨g', h', h⟩ := Res.bind_eq_ok.mp h
    have h := Res.ok.inj h
    subst h
    unfold UnstructuredValueGrid.createRegularGrid at h'
    simp only at h'
    split at h'
    · cases h'
    · obtain ⟨vs, -, h'⟩ := Res.bind_eq_ok.mp h'
      have h' := Res.ok.inj h'
      subst h'
      exact hd
  constructor
  · intro name g h
    unfold Build.readUnstructured at h
    obtain ⟨d, -, h⟩ := Res.bind_eq_ok.mp h
    exact key d g h
  · intro name range gs h g hgm
    unfold Build.readMultiUnstructured at h
    obtain ⟨ds, -, hm⟩ := Res.bind_eq_ok.mp h
    clear h
    unfold Grib2.convertMulti at hm
    rw [Res.mapM_ok_iff] at hm
    generalize Grib2.filterDocs ds range = l at hm
    induction hm with
    | nil => cases hgm
    | cons h t ih =>
      rcases List.mem_cons.mp hgm with rfl | hgm
      · exact key _ _ h
      · exact ih hgm

/-- **C139.** The powers of two, the first step of differences and the mixture of the colours of clouds and rain are in
range, too. -/
theorem C139_others (m : FcModel) :
    (∀ z ∈ rangeIncl m.zoomRange.1 m.zoomRange.2, ∃ n, zoomPow z = .ok n) ∧
    (∃ r, m.diffStepRange = .ok r) ∧ ∀ v, ∃ c, Colors.cloudPrecipColor v = .ok c := by
  refine ⟨?_, ?_, fun v => ?_⟩
  · intro z hz
    have hz := MapTileRenderer.mem_rangeIncl.mp hz
    have hm : m.zoomRange.2 ≤ 8 := by cases m <;> decide
    have : (2 : Nat) ^ z < 2 ^ 32 := Nat.pow_lt_pow_right (by omega) (by omega)
    refine ⟨Fl.ofNat f32 (2 ^ z), ?_⟩
    unfold zoomPow ckU32
    rw [if_pos this]
    rfl
  · cases m <;> exact ⟨_, rfl⟩
  · obtain ⟨c, h, -⟩ := C46_composite v.1 v.2
    exact ⟨c, h⟩

/-- The largest grid of a file: the number of its last cell needs 64 bits. -/
example : (LatLonGrid.new (2 ^ 32 - 1, 2 ^ 32 - 1) swissGrid.extent).getIndexByXY (2 ^ 32 - 2) (2 ^ 32 - 2) =
    .ok (some 18446744065119617024) := by decide +kernel

/-! ## C140: pictures -/

/-- **C140.** Pictures whose bytes can be counted with 32 bits are the same without checks. -/
theorem C140_create {w h : Nat} (hb : 4 * (w * h) < 2 ^ 32) :
    Drawable.Release.createEmpty w h = Drawable.createEmpty w h := by
  unfold Drawable.Release.createEmpty Drawable.createEmpty
  split
  · rfl
  · rw [show ckU32 (w * h) = .ok (w * h) from if_pos (by omega)]
    simp only [Res.bind_ok]
    rw [show ckU32 (w * h * 4) = .ok (w * h * 4) from if_pos (by omega), Nat.mod_eq_of_lt (by omega),
      Nat.mod_eq_of_lt (by omega)]
    rfl

/-- **C140.** So is drawing on them. -/
theorem C140_draw_point {d : Drawable} (hd : d.WF) (x y : Nat) (c : Color) :
    Drawable.Release.drawPoint d x y c = d.drawPoint x y c := by
  unfold Drawable.Release.drawPoint Drawable.drawPoint
  split
  · rfl
  · rename_i hxy
    have hx : x < d.width := by omega
    have hy : y < d.height := by omega
    have hl := cell_lt hx hy
    obtain ⟨h1, h2⟩ := hd
    rw [pixelIndex_eq hx hy h2]
    have : Drawable.Release.pixelIndex d.width x y = 4 * (d.width * y + x) := by
      unfold Drawable.Release.pixelIndex
      rw [Nat.mul_comm y, Nat.mod_eq_of_lt (a := d.width * y) (by omega), Nat.mod_eq_of_lt (a := d.width * y + x) (by omega),
        Nat.mod_eq_of_lt (by omega), Nat.mul_comm]
    rw [this]
    rfl

/-- **C140, violated.** A picture of 32769 x 32768 points, for which the build with checks panics, can be created
without checks; two different points are then the same one, and drawing on other points panics. -/
theorem C140_counterexample (c : Color) : Drawable.createEmpty 32769 32768 = .panic ∧
    ∃ d, Drawable.Release.createEmpty 32769 32768 = .ok d ∧ d.width = 32769 ∧ d.height = 32768 ∧
      (∃ d', Drawable.Release.drawPoint d 32768 32767 c = .ok d' ∧ Drawable.Release.drawPoint d 32767 0 c = .ok d') ∧
      Drawable.Release.drawPoint d 0 1 c = .panic := by
  have i1 : Drawable.Release.pixelIndex 32769 32768 32767 = 131068 := by decide +kernel
  have i2 : Drawable.Release.pixelIndex 32769 32767 0 = 131068 := by decide +kernel
  have i3 : Drawable.Release.pixelIndex 32769 0 1 = 131076 := by decide +kernel
  have hn : 32769 * 32768 % 2 ^ 32 * 4 % 2 ^ 32 = 131072 := by norm_num
  obtain ⟨l, hl⟩ : ∃ l : List UInt8, l = List.replicate (32769 * 32768 % 2 ^ 32 * 4 % 2 ^ 32) 0 := ⟨_, rfl⟩
  have hlen : l.length = 131072 := by rw [hl, List.length_replicate, hn]
  refine ⟨(C34_create _ _).2.1 (by norm_num) (by norm_num) (by norm_num), ⟨l, 32769, 32768⟩, ?_, rfl, rfl, ?_, ?_⟩
  · unfold Drawable.Release.createEmpty
    rw [if_neg (by norm_num), hl]
  · have key : ∀ x y, ¬ (x ≥ 32769 ∨ y ≥ 32768) → Drawable.Release.pixelIndex 32769 x y = 131068 →
        Drawable.Release.drawPoint ⟨l, 32769, 32768⟩ x y c = .ok ⟨setPixel l 131068 c, 32769, 32768⟩ := by
      intro x y h hi
      unfold Drawable.Release.drawPoint setByte
      rw [if_neg h]
      simp only [hi, hlen]
      rw [if_pos (by norm_num)]
      simp only [Res.bind_ok, List.length_set, hlen]
      rw [if_pos (by norm_num)]
      simp only [Res.bind_ok, List.length_set, hlen]
      rw [if_pos (by norm_num)]
      simp only [Res.bind_ok, List.length_set, hlen]
      rw [if_pos (by norm_num)]
      rfl
    exact ⟨_, key _ _ (by norm_num) i1, key _ _ (by norm_num) i2⟩
  · unfold Drawable.Release.drawPoint setByte
    rw [if_neg (by norm_num)]
    simp only [i3, hlen]
    rw [if_neg (by norm_num)]
    rfl

/-- A tile is such a picture. -/
example : 4 * (256 * 256) < 2 ^ 32 ∧ ∃ d, Drawable.Release.createEmpty 256 256 = .ok d ∧ d.WF := by
  obtain ⟨d, h1, h2, -⟩ := (C34_create 256 256).2.2 (by norm_num) (by norm_num) (by norm_num)
  exact ⟨by norm_num, d, (C140_create (by norm_num)).trans h1, h2⟩

end Verif.Props
