import Verif.Spec.Imaging
import Verif.Lemmas.Res
import Mathlib.Data.List.Nodup
import Mathlib.Tactic.Ring
import Mathlib.Tactic.Linarith

/-!
# Lemmas about pictures
-/

namespace Verif

/-- Cells of a rectangle and their numbers. -/
theorem cell_lt {w h x y : Nat} (hx : x < w) (hy : y < h) : w * y + x < w * h := by
  have : w * (y + 1) ≤ w * h := Nat.mul_le_mul_left w hy
  rw [Nat.mul_add, Nat.mul_one] at this
  omega

theorem cell_inj {w x y x' y' : Nat} (hx : x < w) (hx' : x' < w) (h : w * y + x = w * y' + x') :
    x = x' ∧ y = y' := by
  have hw : 0 < w := by omega
  have e1 : (w * y + x) / w = y := by rw [Nat.mul_add_div hw, Nat.div_eq_of_lt hx, Nat.add_zero]
  have e2 : (w * y' + x') / w = y' := by rw [Nat.mul_add_div hw, Nat.div_eq_of_lt hx', Nat.add_zero]
  have e3 : y = y' := by rw [← e1, ← e2, h]
  subst e3
  exact ⟨by omega, rfl⟩

theorem pixelIndex_eq {w h x y : Nat} (hx : x < w) (hy : y < h) (hb : 4 * (w * h) < 2 ^ 32) :
    pixelIndex w x y = .ok (4 * (w * y + x)) := by
  have := cell_lt hx hy
  have e : y * w = w * y := Nat.mul_comm _ _
  unfold pixelIndex ckU32
  rw [if_pos (by rw [e]; omega)]
  simp only [Res.bind_ok]
  rw [if_pos (by rw [e]; omega)]
  simp only [Res.bind_ok]
  rw [if_pos (by rw [e]; omega), e, Nat.mul_comm _ 4]

theorem colorAt_some {l : List UInt8} {i : Nat} (h : i + 3 < l.length) :
    colorAt l i = some ⟨l[i], l[i + 1], l[i + 2], l[i + 3]⟩ := by
  unfold colorAt
  rw [List.getElem?_eq_getElem (by omega), List.getElem?_eq_getElem (by omega),
    List.getElem?_eq_getElem (by omega), List.getElem?_eq_getElem (by omega)]

/-- Overwriting one pixel. -/
def setPixel (l : List UInt8) (i : Nat) (c : Color) : List UInt8 :=
  (((l.set i c.r).set (i + 1) c.g).set (i + 2) c.b).set (i + 3) c.a

theorem setPixel_length (l : List UInt8) (i : Nat) (c : Color) : (setPixel l i c).length = l.length := by
  simp [setPixel]

theorem setPixel_same {l : List UInt8} {i : Nat} (c : Color) (h : i + 3 < l.length) :
    colorAt (setPixel l i c) i = some c := by
  rw [colorAt_some (by rw [setPixel_length]; exact h)]
  simp [setPixel]

theorem setPixel_other {l : List UInt8} {i j : Nat} (c : Color) (h : i + 3 < j ∨ j + 3 < i) :
    colorAt (setPixel l i c) j = colorAt l j := by
  have key : ∀ k, j ≤ k → k ≤ j + 3 → (setPixel l i c)[k]? = l[k]? := by
    intro k h1 h2
    unfold setPixel
    rw [List.getElem?_set_ne (by omega), List.getElem?_set_ne (by omega), List.getElem?_set_ne (by omega),
      List.getElem?_set_ne (by omega)]
  unfold colorAt
  rw [key j (by omega) (by omega), key (j + 1) (by omega) (by omega), key (j + 2) (by omega) (by omega),
    key (j + 3) (by omega) (by omega)]

namespace Drawable

theorem drawPoint_eq {d : Drawable} (hd : d.WF) {x y : Nat} (hx : x < d.width) (hy : y < d.height)
    (c : Color) : d.drawPoint x y c = .ok { d with
      colorValues := setPixel d.colorValues (4 * (d.width * y + x)) c } := by
  have hl := cell_lt hx hy
  obtain ⟨h1, h2⟩ := hd
  unfold drawPoint
  rw [if_neg (by omega), pixelIndex_eq hx hy h2]
  simp only [Res.bind_ok]
  unfold setByte
  rw [if_pos (by omega)]
  simp only [Res.bind_ok, List.length_set]
  rw [if_pos (by omega)]
  simp only [Res.bind_ok, List.length_set]
  rw [if_pos (by omega)]
  simp only [Res.bind_ok, List.length_set]
  rw [if_pos (by omega)]
  rfl

/-- The effect of drawing a point. -/
theorem drawPoint_spec {d : Drawable} (hd : d.WF) {x y : Nat} (hx : x < d.width) (hy : y < d.height)
    (c : Color) : ∃ d', d.drawPoint x y c = .ok d' ∧ d'.WF ∧ d'.width = d.width ∧ d'.height = d.height ∧
      ∀ x' y', d'.pixel x' y' = if x' = x ∧ y' = y then some c else d.pixel x' y' := by
  refine ⟨_, drawPoint_eq hd hx hy c, ⟨?_, hd.2⟩, rfl, rfl, ?_⟩
  · simp only [setPixel_length]; exact hd.1
  · intro x' y'
    unfold pixel pixelOf
    simp only
    have hl := cell_lt hx hy
    by_cases h : x' = x ∧ y' = y
    · obtain ⟨rfl, rfl⟩ := h
      rw [if_pos ⟨hx, hy⟩, if_pos ⟨rfl, rfl⟩]
      apply setPixel_same
      have := hd.1
      omega
    · rw [if_neg h]
      split
      · rename_i h2
        apply setPixel_other
        have : d.width * y + x ≠ d.width * y' + x' := by
          intro e
          exact h ⟨(cell_inj hx h2.1 e).1.symm, (cell_inj hx h2.1 e).2.symm⟩
        omega
      · rfl

theorem drawPoint_outside {d : Drawable} {x y : Nat} (h : d.width ≤ x ∨ d.height ≤ y) (c : Color) :
    d.drawPoint x y c = .panic := by
  unfold drawPoint
  rw [if_pos h]

theorem createEmpty_spec {w h : Nat} (hw : 0 < w) (hh : 0 < h) (hb : 4 * (w * h) < 2 ^ 32) :
    ∃ d, createEmpty w h = .ok d ∧ d.WF ∧ d.width = w ∧ d.height = h ∧
      ∀ x y, x < w → y < h → d.pixel x y = some Color.transparent := by
  refine ⟨⟨List.replicate (w * h * 4) 0, w, h⟩, ?_, ⟨?_, hb⟩, rfl, rfl, ?_⟩
  · unfold createEmpty ckU32
    rw [if_neg (by omega), if_pos (by omega)]
    simp only [Res.bind_ok]
    rw [if_pos (by omega)]
    rfl
  · simp; ring
  · intro x y hx hy
    have := cell_lt hx hy
    unfold pixel pixelOf
    simp only
    rw [if_pos ⟨hx, hy⟩, colorAt_some (by simp; omega)]
    simp [Color.transparent]

/-- Drawing at most one point per element of a list, at different places. -/
theorem foldl_draw {ι : Type} (f : Drawable → ι → Res Drawable) (px : ι → Nat × Nat)
    (col : ι → Option Color) (l : List ι) (d : Drawable) (hd : d.WF)
    (hb : ∀ a ∈ l, (px a).1 < d.width ∧ (px a).2 < d.height)
    (hf : ∀ d' : Drawable, ∀ a ∈ l, d'.WF → d'.width = d.width → d'.height = d.height →
      f d' a = match col a with
        | some c => d'.drawPoint (px a).1 (px a).2 c
        | none => .ok d')
    (hinj : (l.map px).Nodup) :
    ∃ d', Res.foldl f d l = .ok d' ∧ d'.WF ∧ d'.width = d.width ∧ d'.height = d.height ∧
      (∀ a ∈ l, d'.pixel (px a).1 (px a).2 = match col a with
        | some c => some c
        | none => d.pixel (px a).1 (px a).2) ∧
      ∀ x y, (x, y) ∉ l.map px → d'.pixel x y = d.pixel x y := by
  induction l generalizing d with
  | nil => exact ⟨d, rfl, hd, rfl, rfl, by simp, fun _ _ _ => rfl⟩
  | cons a l ih =>
    rw [List.map_cons, List.nodup_cons] at hinj
    obtain ⟨d1, e1, w1, wd1, hg1, p1⟩ : ∃ d1, f d a = .ok d1 ∧ d1.WF ∧ d1.width = d.width ∧
        d1.height = d.height ∧ ∀ x y, d1.pixel x y = if (x, y) = px a then
          (match col a with | some c => some c | none => d.pixel x y) else d.pixel x y := by
      have hfa := hf d a (by simp) hd rfl rfl
      cases hc : col a with
      | none =>
        rw [hc] at hfa
        refine ⟨d, hfa, hd, rfl, rfl, ?_⟩
        intro x y
        split <;> rfl
      | some c =>
        rw [hc] at hfa
        obtain ⟨hx, hy⟩ := hb a (by simp)
        obtain ⟨d1, e, w, h1, h2, h3⟩ := drawPoint_spec hd hx hy c
        refine ⟨d1, by rw [hfa]; exact e, w, h1, h2, ?_⟩
        intro x y
        rw [h3]
        have : (x = (px a).1 ∧ y = (px a).2) ↔ (x, y) = px a := by
          rw [Prod.ext_iff]
        simp only [this]
    obtain ⟨d2, e2, w2, wd2, hg2, p2, q2⟩ := ih d1 w1 (by
        intro b hb'
        rw [wd1, hg1]
        exact hb b (by simp [hb'])) (by
        intro d' b hb' hw h1 h2
        exact hf d' b (by simp [hb']) hw (h1.trans wd1) (h2.trans hg1)) hinj.2
    refine ⟨d2, ?_, w2, wd2.trans wd1, hg2.trans hg1, ?_, ?_⟩
    · rw [Res.foldl, e1]; exact e2
    · intro b hb'
      rcases List.mem_cons.mp hb' with rfl | hb'
      · rw [q2 _ _ hinj.1, p1, if_pos rfl]
      · rw [p2 b hb']
        have hne : px b ≠ px a := by
          intro e
          exact hinj.1 (e ▸ List.mem_map_of_mem hb')
        cases col b with
        | some c => rfl
        | none => simp only; rw [p1, if_neg (by exact hne)]
    · intro x y hxy
      rw [List.map_cons, List.mem_cons, not_or] at hxy
      rw [q2 x y hxy.2, p1, if_neg hxy.1]

end Drawable

namespace Res

/-- Nested loops are one loop over the pairs. -/
theorem foldl_nested {α β γ : Type} (f : γ → α → β → Res γ) (m : α → List β) (l : List α) (c : γ) :
    foldl (fun c a => foldl (fun c b => f c a b) c (m a)) c l =
      foldl (fun c p => f c p.1 p.2) c (l.flatMap fun a => (m a).map fun b => (a, b)) := by
  induction l generalizing c with
  | nil => rfl
  | cons a l ih =>
    rw [List.flatMap_cons, foldl_append, foldl]
    have e : foldl (fun c p => f c p.1 p.2) c ((m a).map fun b => (a, b)) = foldl (fun c b => f c a b) c (m a) := by
      generalize m a = k
      induction k generalizing c with
      | nil => rfl
      | cons b k ih2 =>
        rw [List.map_cons, foldl, foldl]
        cases h : f c a b with
        | ok c' => simp only [Res.bind_ok]; exact ih2 c'
        | err => rfl
        | panic => rfl
    rw [e]
    cases h : foldl (fun c b => f c a b) c (m a) with
    | ok c' => simp only [Res.bind_ok]; exact ih c'
    | err => rfl
    | panic => rfl

end Res

/-- The pairs of two ranges, row by row. -/
def pairs (w h : Nat) : List (Nat × Nat) := (List.range h).flatMap fun i => (List.range w).map fun j => (i, j)

theorem mem_pairs {w h : Nat} {p : Nat × Nat} : p ∈ pairs w h ↔ p.1 < h ∧ p.2 < w := by
  unfold pairs
  rw [List.mem_flatMap]
  constructor
  · rintro ⟨i, hi, hp⟩
    rw [List.mem_map] at hp
    obtain ⟨j, hj, rfl⟩ := hp
    exact ⟨by simpa using hi, by simpa using hj⟩
  · rintro ⟨h1, h2⟩
    exact ⟨p.1, by simpa using h1, List.mem_map.mpr ⟨p.2, by simpa using h2, rfl⟩⟩

theorem nodup_pairs (w h : Nat) : (pairs w h).Nodup := by
  unfold pairs
  rw [List.nodup_flatMap]
  refine ⟨?_, ?_⟩
  · intro i _
    exact List.Nodup.map (fun a b h => (Prod.ext_iff.mp h).2) List.nodup_range
  · refine List.Pairwise.imp_of_mem ?_ (List.nodup_range (n := h))
    intro a b _ _ hab
    rw [Function.onFun, List.disjoint_left]
    intro p h1 h2
    rw [List.mem_map] at h1 h2
    obtain ⟨_, _, rfl⟩ := h1
    obtain ⟨_, _, e⟩ := h2
    exact hab (Prod.ext_iff.mp e).1.symm

end Verif
