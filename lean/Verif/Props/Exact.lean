import Verif.Props.Swiss
import Verif.Props.Colors
import Verif.Props.Release
import Verif.Props.Grib2Sound

/-!
# Complements to C50, C59, C78, C79 and C140

Exactly when these properties fail.
-/

namespace Verif.Props

open Verif

/-! ## C50: the numbers of steps -/

section

open SwissSearch

theorem findFiles_sorted {fs : List Feature} {files : List Step} (h : findFiles fs = .ok files) :
    files.Pairwise fun x y => hoursOf x ≤ hoursOf y := by
  have hk : hoursOf = key := by funext s; unfold hoursOf key; rw [Nat.mul_comm]
  unfold findFiles at h
  rw [Res.bind_eq_ok] at h
  obtain ⟨steps, _, h⟩ := h
  unfold sortSteps at h
  split at h
  · cases h
  · simp only [Res.ok.injEq] at h
    rw [← h, hk]
    exact (insertionSort_stable key steps).sorted

/-- C50: if the files of a response are of different hours, the number of a step is how many files of earlier hours there are.
It is the hour of its file if and only if there is a file of each hour before, and too small otherwise. -/
theorem C50_exact (fs : List Feature) (files : List Step) (h : findFiles fs = .ok files) (hn : (files.map hoursOf).Nodup)
    (skip : Bool) (r : RunStep) (hr : r ∈ runSteps files skip) :
    ∃ s ∈ files, r.url = s.href ∧ r.nr = (files.filter fun s' => hoursOf s' < hoursOf s).length ∧ r.nr ≤ hoursOf s ∧
      (r.nr = hoursOf s ↔ ∀ k < hoursOf s, ∃ s' ∈ files, hoursOf s' = k) := by
  obtain ⟨s, h1, h2, -⟩ := (mem_runSteps files skip r).mp hr
  have hlt : files.Pairwise fun x y => hoursOf x < hoursOf y := by
    have := List.pairwise_map.mp hn
    exact ((findFiles_sorted h).and this).imp fun ⟨a, b⟩ => by omega
  have hcount : r.nr = (files.filter fun s' => hoursOf s' < hoursOf s).length := by
    obtain ⟨hi, e⟩ := List.getElem?_eq_some_iff.mp h1
    have e2 : files = files.take r.nr ++ s :: files.drop (r.nr + 1) := by
      rw [← e, ← List.drop_eq_getElem_cons, List.take_append_drop]
    have hp := hlt
    rw [e2, List.pairwise_append, List.pairwise_cons] at hp
    obtain ⟨-, ⟨p1, -⟩, p2⟩ := hp
    have f1 : (files.take r.nr).filter (fun s' => hoursOf s' < hoursOf s) = files.take r.nr :=
      List.filter_eq_self.mpr fun x hx => by simpa using p2 x hx s (List.mem_cons_self ..)
    have f2 : (s :: files.drop (r.nr + 1)).filter (fun s' => hoursOf s' < hoursOf s) = [] := by
      refine List.filter_eq_nil_iff.mpr fun x hx => ?_
      rcases List.mem_cons.mp hx with rfl | hx
      · simp
      · have := p1 x hx
        simp only [decide_eq_true_eq]; omega
    rw [e2, List.filter_append, f1, f2, List.append_nil, List.length_take]
    have : (files.take r.nr ++ s :: files.drop (r.nr + 1)).length = files.length := by rw [← e2]
    omega
  set l := (files.filter fun s' => hoursOf s' < hoursOf s).map hoursOf with hl
  have hnd : l.Nodup := (hn.sublist (List.filter_sublist.map _))
  have hsub : l.toFinset ⊆ Finset.range (hoursOf s) := by
    intro k hk
    simp only [hl, List.mem_toFinset, List.mem_map, List.mem_filter, decide_eq_true_eq] at hk
    obtain ⟨s', ⟨-, hk⟩, rfl⟩ := hk
    simpa using hk
  have hcard : l.toFinset.card = r.nr := by
    rw [List.toFinset_card_of_nodup hnd, hl, List.length_map, ← hcount]
  refine ⟨s, List.mem_of_getElem? h1, h2, hcount, ?_, ?_⟩
  · have := Finset.card_le_card hsub
    rwa [hcard, Finset.card_range] at this
  · constructor
    · intro e k hk
      have : l.toFinset = Finset.range (hoursOf s) := Finset.eq_of_subset_of_card_le hsub (by rw [hcard, Finset.card_range, e])
      have hm : k ∈ l.toFinset := by rw [this]; simpa using hk
      simp only [hl, List.mem_toFinset, List.mem_map, List.mem_filter] at hm
      obtain ⟨s', ⟨hs, -⟩, e⟩ := hm
      exact ⟨s', hs, e⟩
    · intro hall
      have : l.toFinset = Finset.range (hoursOf s) := by
        refine Finset.Subset.antisymm hsub fun k hk => ?_
        have hk := Finset.mem_range.mp hk
        obtain ⟨s', hs, e⟩ := hall k hk
        simp only [hl, List.mem_toFinset, List.mem_map, List.mem_filter, decide_eq_true_eq]
        exact ⟨s', ⟨hs, by omega⟩, e⟩
      rw [← hcard, this, Finset.card_range]

/-- Hours 0, 1 and 5: the last step has the number 2. -/
example : ∃ files, findFiles [⟨[], "P0DT05H00M00S".toList, ["c".toList]⟩, ⟨[], "P0DT01H00M00S".toList, ["b".toList]⟩,
    ⟨[], "P0DT00H00M00S".toList, ["a".toList]⟩] = .ok files ∧ (files.map hoursOf).Nodup ∧
    (⟨2, "c".toList⟩ : RunStep) ∈ runSteps files true :=
  ⟨[⟨[], ⟨0, 0⟩, "a".toList⟩, ⟨[], ⟨0, 1⟩, "b".toList⟩, ⟨[], ⟨0, 5⟩, "c".toList⟩], by decide +kernel, by decide +kernel,
    by decide +kernel⟩

end

/-! ## C79: equal colours -/

section

open Colors
open Verif.Spec (tempColors tempClass windColors rainLegend)

theorem tempColors_eq : ∀ i < 29, ∀ j < 29, (tempColors[i]? = tempColors[j]? ↔ i = j ∨ i = 4 ∧ j = 28 ∨ j = 4 ∧ i = 28) := by
  decide +kernel

/-- C79: two temperatures are drawn in the same colour if and only if they are of the same class, up to the rounding of the
conversion to degrees Celsius, or one is from -10 to -8 degrees and the other at least 38 degrees. -/
theorem C79_exact (k k' : Rat) (hk : |k| ≤ 1000) (hk' : |k'| ≤ 1000) :
    ∃ c c' : Rat, |c - (k - 27315 / 100)| ≤ 1 / 2 ^ 13 ∧ |c' - (k' - 27315 / 100)| ≤ 1 / 2 ^ 13 ∧
      (tempColor (.fin k) = tempColor (.fin k') ↔ tempClass c = tempClass c' ∨
        (-10 ≤ c ∧ c < -8 ∧ 38 ≤ c') ∨ (-10 ≤ c' ∧ c' < -8 ∧ 38 ≤ c)) := by
  have lt : ∀ c : Rat, tempClass c < 29 := fun c => by unfold tempClass; omega
  have c4 : ∀ c : Rat, tempClass c = 4 ↔ -10 ≤ c ∧ c < -8 := by
    intro c
    unfold tempClass
    have h1 : (⌊(c + 18) / 2⌋ : Rat) ≤ (c + 18) / 2 := Int.floor_le _
    have h2 : (c + 18) / 2 < ⌊(c + 18) / 2⌋ + 1 := Int.lt_floor_add_one _
    constructor
    · intro h
      have : ⌊(c + 18) / 2⌋ = 4 := by omega
      rw [this] at h1 h2
      constructor <;> norm_num at h1 h2 <;> linarith
    · rintro ⟨a, b⟩
      have : ⌊(c + 18) / 2⌋ = 4 := Int.floor_eq_iff.mpr ⟨by norm_num; linarith, by norm_num; linarith⟩
      omega
  have c28 : ∀ c : Rat, tempClass c = 28 ↔ 38 ≤ c := by
    intro c
    unfold tempClass
    constructor
    · intro h
      have : 28 ≤ ⌊(c + 18) / 2⌋ := by omega
      have := Int.le_floor.mp this
      norm_num at this
      linarith
    · intro h
      have : 28 ≤ ⌊(c + 18) / 2⌋ := Int.le_floor.mpr (by norm_num; linarith)
      omega
  obtain ⟨c, h1, h2⟩ := C46_temperature.1 k hk
  obtain ⟨c', h1', h2'⟩ := C46_temperature.1 k' hk'
  refine ⟨c, c', h1, h1', ?_⟩
  have := tempColors_eq _ (lt c) _ (lt c')
  rw [h2, h2', c4, c4, c28, c28] at this
  generalize tempColor (.fin k) = a at this
  generalize tempColor (.fin k') = b at this
  rw [Option.some.injEq] at this
  rw [this, and_assoc, and_assoc]

example : ∃ c c' : Rat, |c - ((26415 / 100 : Rat) - 27315 / 100)| ≤ 1 / 2 ^ 13 ∧
    |c' - ((31315 / 100 : Rat) - 27315 / 100)| ≤ 1 / 2 ^ 13 ∧ -10 ≤ c ∧ c < -8 ∧ 38 ≤ c' :=
  ⟨-9, 40, by norm_num, by norm_num, by norm_num, by norm_num, by norm_num⟩

end

/-! ## C78: clouds without rain -/

section

open Colors

theorem chain_mem (l : List (Fl × Color)) (d : Color) (v : Fl) : chain l d v ∈ d :: l.map Prod.snd := by
  induction l with
  | nil => simp [chain]
  | cons p l ih =>
    unfold chain
    split
    · simp
    · rcases List.mem_cons.mp ih with h | h
      · rw [h]; simp
      · rw [List.map_cons]
        exact List.mem_cons_of_mem _ (List.mem_cons_of_mem _ h)

theorem cloudColor_cases (cloud : Fl) : cloudColor cloud = ⟨0, 0, 0, 127⟩ ∨ ∃ a, cloudColor cloud = ⟨255, 255, 255, a⟩ := by
  have h : cloudColor cloud ∈ _ := chain_mem _ _ cloud
  simp only [List.map_cons, List.map_nil, List.mem_cons, List.not_mem_nil, or_false] at h
  rcases h with h | h | h | h | h | h | h | h | h | h | h
  · exact .inr ⟨_, h⟩
  · exact .inl h
  all_goals exact .inr ⟨_, h⟩

/-- C78: without rain, the black class is drawn in its colour and a white class in the grey whose lightness is its opacity. So a
class is drawn in its colour if and only if it is black or opaque. -/
theorem C78_exact (cloud rain : Fl) (h : (rainColor rain).a = 0) :
    ∃ col, cloudPrecipColor (cloud, rain) = .ok col ∧
      (cloudColor cloud = ⟨0, 0, 0, 127⟩ ∧ col = ⟨0, 0, 0, 127⟩ ∨
        ∃ a, cloudColor cloud = ⟨255, 255, 255, a⟩ ∧ col = ⟨a, a, a, a⟩) ∧
      (col = cloudColor cloud ↔ cloudColor cloud = ⟨0, 0, 0, 127⟩ ∨ (cloudColor cloud).a = 255) := by
  suffices key : ∃ col, cloudPrecipColor (cloud, rain) = .ok col ∧
      (cloudColor cloud = ⟨0, 0, 0, 127⟩ ∧ col = ⟨0, 0, 0, 127⟩ ∨
        ∃ a, cloudColor cloud = ⟨255, 255, 255, a⟩ ∧ col = ⟨a, a, a, a⟩) by
    obtain ⟨col, h1, h2⟩ := key
    refine ⟨col, h1, h2, ?_⟩
    rcases h2 with ⟨e, rfl⟩ | ⟨a, e, rfl⟩
    · simp [e]
    · rw [e]
      simp only [Color.mk.injEq, and_true]
      constructor
      · intro h; exact .inr h.1
      · rintro (h | h)
        · exact absurd h.1 (by decide)
        · exact ⟨h, h, h⟩
  rcases cloudColor_cases cloud with e | ⟨a, e⟩
  · obtain ⟨col, h1, -, h3⟩ := C78_no_rain_partial cloud rain h
    refine ⟨col, h1, .inl ⟨e, ?_⟩⟩
    rw [h3 (.inr (by rw [e]; decide)), e]
  · have h0 : (Fl.feq cloud (.fin 0) && Fl.feq rain (.fin 0)) = false := by
      rw [Bool.eq_false_iff]
      intro h0
      rw [Bool.and_eq_true] at h0
      have e1 : cloud = .fin 0 := by
        cases cloud <;> simp [Fl.feq] at h0
        rw [h0.1]
      have hc' : cloudColor cloud = ⟨0, 0, 0, 127⟩ := by rw [e1]; decide +kernel
      rw [e] at hc'
      exact absurd (congrArg Color.r hc') (by simp)
    obtain ⟨b1, m1, n1⟩ := mixChannel_eq (rainColor rain).r (rainColor rain).a (cloudColor cloud).r (cloudColor cloud).a
    obtain ⟨b2, m2, n2⟩ := mixChannel_eq (rainColor rain).g (rainColor rain).a (cloudColor cloud).g (cloudColor cloud).a
    obtain ⟨b3, m3, n3⟩ := mixChannel_eq (rainColor rain).b (rainColor rain).a (cloudColor cloud).b (cloudColor cloud).a
    obtain ⟨b4, m4, n4⟩ := mixAlpha_eq (rainColor rain).a (cloudColor cloud).a
    refine ⟨⟨b1, b2, b3, b4⟩, ?_, .inr ⟨a, e, ?_⟩⟩
    · unfold cloudPrecipColor
      simp only [h0, Bool.false_eq_true, if_false]
      rw [m1, m2, m3, m4]; rfl
    · rw [h, e] at n1 n2 n3 n4
      simp only [UInt8.toNat_zero, Nat.mul_zero, Nat.zero_div, Nat.sub_zero, Nat.zero_add,
        show (255 : UInt8).toNat = 255 from rfl] at n1 n2 n3 n4
      simp only [Color.mk.injEq, ← UInt8.toNat_inj]
      omega

/-- Half of the sky covered: grey of lightness 191 instead of white of opacity 191. -/
example : (rainColor (.fin 0)).a = 0 ∧ cloudColor (.fin (1 / 2)) = ⟨255, 255, 255, 191⟩ ∧
    cloudPrecipColor (.fin (1 / 2), .fin 0) = .ok ⟨191, 191, 191, 191⟩ := by decide +kernel

end

/-! ## C140: too large pictures -/

theorem release_index (w x y : Nat) : Drawable.Release.pixelIndex w x y = 4 * ((y * w + x) % 2 ^ 30) := by
  unfold Drawable.Release.pixelIndex
  omega

/-- C140: every picture of 2^30 points or more, which the build with checks refuses by a panic, can be created without checks.
Either drawing any point of it panics, or two different points of it are the same place in its memory. -/
theorem C140_beyond (w h : Nat) (hw : 0 < w) (hh : 0 < h) (hb : 2 ^ 32 ≤ 4 * (w * h)) :
    Drawable.createEmpty w h = .panic ∧ ∃ d, Drawable.Release.createEmpty w h = .ok d ∧ d.width = w ∧ d.height = h ∧
      ((∀ x y c, Drawable.Release.drawPoint d x y c = .panic) ∨
        ∃ x y, x < w ∧ y < h ∧ (x, y) ≠ (0, 0) ∧
          ∀ d' : Drawable, d'.width = w → d'.height = h → ∀ c,
            Drawable.Release.drawPoint d' x y c = Drawable.Release.drawPoint d' 0 0 c) := by
  refine ⟨(C34_create w h).2.1 hw hh hb, ⟨List.replicate ((w * h % 2 ^ 32 * 4) % 2 ^ 32) 0, w, h⟩, ?_, rfl, rfl, ?_⟩
  · unfold Drawable.Release.createEmpty
    rw [if_neg (by omega)]
  rcases Nat.lt_or_ge (2 ^ 30) (w * h) with hlt | hle
  · right
    have hx : 2 ^ 30 % w < w := Nat.mod_lt _ hw
    have hy : 2 ^ 30 / w < h := (Nat.div_lt_iff_lt_mul hw).mpr (by rwa [Nat.mul_comm])
    have hi : 2 ^ 30 / w * w + 2 ^ 30 % w = 2 ^ 30 := by rw [Nat.mul_comm]; exact Nat.div_add_mod ..
    refine ⟨2 ^ 30 % w, 2 ^ 30 / w, hx, hy, ?_, ?_⟩
    · intro e
      obtain ⟨e1, e2⟩ := Prod.mk.inj e
      rw [e1, e2] at hi
      norm_num at hi
    · intro d' h1 h2 c
      unfold Drawable.Release.drawPoint
      rw [if_neg (by omega), if_neg (by omega), release_index, release_index, h1, hi]
      norm_num
  · left
    have e : w * h = 2 ^ 30 := by omega
    have e0 : (w * h % 2 ^ 32 * 4) % 2 ^ 32 = 0 := by rw [e]; norm_num
    intro x y c
    unfold Drawable.Release.drawPoint
    split
    · rfl
    · rw [e0]
      rfl

example : ∃ d, Drawable.Release.createEmpty 32769 32768 = .ok d ∧ 2 ^ 32 ≤ 4 * (32769 * 32768) := by
  obtain ⟨-, d, h, -⟩ := C140_beyond 32769 32768 (by norm_num) (by norm_num) (by norm_num)
  exact ⟨d, h, by norm_num⟩

/-! ## C59: coordinate values after an unknown template -/

section

open Verif.Spec.Grib2 Verif.Grib2

theorem grid_length {g g' : Grid} (h : gridDoc g = gridDoc g') : (encGrid g).length = (encGrid g').length := by
  cases g <;> cases g' <;> simp [gridDoc] at h <;> simp [encGrid, encScale, be_length]

theorem words_length (l : List F32Word) : (l.flatMap fun w => be 4 w.bits).length = 4 * l.length := by
  induction l with
  | nil => rfl
  | cons x l ih => rw [List.flatMap_cons, List.length_append, ih, be_length, List.length_cons]; omega

theorem numbers_length (l : List Nat) : (l.flatMap (be 2)).length = 2 * l.length := by
  induction l with
  | nil => rfl
  | cons x l ih => rw [List.flatMap_cons, List.length_append, ih, be_length, List.length_cons]; omega

theorem packing_length {p p' : Packing} {e : List UInt8} (h : packingDoc p' = packingDoc p) (he : IsPacking p' e)
    (h2 : ∀ n c, p' = .other n c → 11 + c.length = 11 + (encPacking p).length) : e.length = (encPacking p).length := by
  cases p' with
  | other n c =>
    have := h2 n c rfl
    cases he
    omega
  | simple r a d bits ft =>
    cases p with
    | other n c => cases h
    | simple r' a' d' bits' ft' =>
      obtain ⟨x, y, hx, hy, rfl⟩ := he
      have len : ∀ {i : Int} {s : List UInt8}, IsScale i s → s.length = 2 := by
        rintro i s (rfl | ⟨-, rfl⟩) <;> rw [be_length]
      simp [encPacking, be_length, len hx, len hy]

/-- C59: no message with a product template unknown to the reader and with coordinate values after it is read as described: if
the description comes out at all, bytes after the message have been taken for a part of it, as many as the coordinate values have. -/
theorem C59_never (m : Msg) (h : m.ok) (n : Nat) (content : List UInt8) (hp : m.product = .other n content)
    (hc : m.coordinates ≠ []) (rest : List UInt8) : readSingleDoc (encode m ++ rest) ≠ .ok (m.doc, rest) ∧
      ∀ r, readSingleDoc (encode m ++ rest) = .ok (m.doc, r) → r.length + 4 * m.coordinates.length = rest.length := by
  suffices key : ∀ r, readSingleDoc (encode m ++ rest) = .ok (m.doc, r) → r.length + 4 * m.coordinates.length = rest.length by
    refine ⟨fun hr => ?_, key⟩
    have := key rest hr
    have := List.length_pos_of_ne_nil hc
    omega
  intro r hr
  obtain ⟨m', l, e, hf, hl, hd, ⟨pe, ip, rfl⟩, hs⟩ := (C124_accepted_iff _ _ _).mp hr
  obtain ⟨h0, -⟩ := h
  obtain ⟨h0', -⟩ := hf
  obtain ⟨-, -, -, -, -, -, l7, -, l9, l10⟩ := hl
  simp only [Msg.docWith, Msg.doc, Document.mk.injEq, Section1.mk.injEq, Section2.mk.injEq, Section3.mk.injEq,
    Section4.mk.injEq, Section5.mk.injEq, Section6.mk.injEq, Section7.mk.injEq] at hd
  obtain ⟨-, d1, d2, d3, d4, d5, d6, d7⟩ := hd
  have g := grid_length d3.2.2.2.2.2
  have pl := packing_length d5.2.2 ip (fun k c hk => by rw [← l10 k c hk, d5.1]; rfl)
  have hpr : (encProduct m'.product).length = content.length + 4 * m.coordinates.length := by
    have e1 := d4.2.2
    rw [hp] at e1
    cases hq : m'.product with
    | other k c =>
      have := l9 k c hq
      have e2 := d4.1
      simp only [section4Length, hp, encProduct] at e2
      simp only [encProduct]
      omega
    | _ => rw [hq] at e1; cases e1
  have hcl : m'.coordinates.length = m.coordinates.length := by
    have := congrArg List.length d4.2.1
    simpa using this
  have hdl : m'.data.length = m.data.length := by
    have := congrArg List.length d7.2
    simpa using this
  have hbl : m'.bitmap.length = m.bitmap.length := by
    have := d6.1
    omega
  have hp2 : (encProduct m.product).length = content.length := by rw [hp]; rfl
  have := congrArg List.length hs
  simp only [encode, encSection0, encSection1, encSection2, encSection3, encSection4, encSection5, encSection6, encSection7,
    looseSection3, looseSection4, looseSection5, looseSection7, List.length_append, be_length, words_length, numbers_length,
    hpr, hp2, hcl, hdl, hbl, pl, g, h0, h0', List.length_cons, List.length_nil] at this
  omega

/-- Such a message. -/
example (rest : List UInt8) : ∃ m : Msg, m.ok ∧ readSingleDoc (encode m ++ rest) ≠ .ok (m.doc, rest) :=
  ⟨demoMsg3, demoMsg3_ok, (C59_never demoMsg3 demoMsg3_ok _ _ rfl (by decide) rest).1⟩

end

end Verif.Props
