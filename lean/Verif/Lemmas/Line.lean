import Verif.Lemmas.Imaging

/-!
# Lemmas about drawing lines
-/

namespace Verif.Drawable

/-- What makes the line loop work: `Inv n i j e` says that `n` rounds are left after `i` steps in x and
`j` steps in y with error term `e`. -/
structure Walk (dx dy : Int) (Inv : Nat → Int → Int → Int → Prop) : Prop where
  done : ∀ i j e, Inv 0 i j e → i = dx ∧ j = dy
  notDone : ∀ n i j e, Inv (n + 1) i j e → ¬ (i = dx ∧ j = dy)
  step : ∀ n i j e, Inv (n + 1) i j e → Inv n (if 2 * e > -dx then i + 1 else i)
    (if 2 * e < dy then j + 1 else j)
    ((if 2 * e > -dx then e - dy else e) + (if 2 * e < dy then dx else 0))
  bound : ∀ n i j e, Inv n i j e → 0 ≤ i ∧ i ≤ dx ∧ 0 ≤ j ∧ j ≤ dy ∧ |2 * e| ≤ 2 * dx + 2 * dy ∧
    |j * dx - i * dy| ≤ max dx dy

/-- Flat lines. -/
theorem walk_flat {dx dy : Int} (h0 : 0 ≤ dy) (h : dy < dx) : Walk dx dy (fun n i j e =>
    i = dx - n ∧ 0 ≤ i ∧ e = Int.tdiv dx 2 - i * dy + j * dx ∧ -dy ≤ 2 * e ∧ 2 * e ≤ 2 * dx - dy - 1) := by
  have ht : Int.tdiv dx 2 = dx / 2 := Int.tdiv_eq_ediv_of_nonneg (by omega)
  have hh1 : 2 * (dx / 2) ≤ dx := by omega
  have hh2 : dx - 1 ≤ 2 * (dx / 2) := by omega
  have hj : ∀ (n : Nat) (i j e : Int), i = dx - n → 0 ≤ i → e = dx / 2 - i * dy + j * dx → -dy ≤ 2 * e →
      2 * e ≤ 2 * dx - dy - 1 → 0 ≤ j ∧ j ≤ dy := by
    intro n i j e hi hi0 he h1 h2
    have hidx : i * dy ≤ dx * dy := mul_le_mul_of_nonneg_right (by omega) h0
    have hi1 : 0 ≤ i * dy := mul_nonneg hi0 h0
    constructor
    · by_contra hc
      have : (j + 1) * dx ≤ 0 := mul_nonpos_of_nonpos_of_nonneg (by omega) (by omega)
      nlinarith
    · by_contra hc
      have : 0 ≤ (j - dy - 1) * dx := mul_nonneg (by omega) (by omega)
      nlinarith
  rw [ht]
  refine ⟨?_, ?_, ?_, ?_⟩
  · rintro i j e ⟨hi, hi0, he, h1, h2⟩
    obtain ⟨a, b⟩ := hj 0 i j e hi hi0 he h1 h2
    have hi : i = dx := by simpa using hi
    refine ⟨hi, ?_⟩
    by_contra hc
    have : 0 ≤ (dy - 1 - j) * dx := mul_nonneg (by omega) (by omega)
    rw [hi] at he
    nlinarith
  · rintro n i j e ⟨hi, -⟩ ⟨h1, -⟩
    push_cast at hi
    omega
  · rintro n i j e ⟨hi, hi0, he, h1, h2⟩
    push_cast at hi
    rw [if_pos (by omega), if_pos (by omega)]
    refine ⟨by omega, by omega, ?_, ?_, ?_⟩
    · split
      · rw [he]; ring
      · rw [he]; ring
    · split <;> omega
    · split <;> omega
  · rintro n i j e ⟨hi, hi0, he, h1, h2⟩
    obtain ⟨a, b⟩ := hj n i j e hi hi0 he h1 h2
    have e2 : j * dx - i * dy = e - dx / 2 := by rw [he]; ring
    refine ⟨hi0, by omega, a, b, by rw [abs_le]; omega, ?_⟩
    rw [e2, max_eq_left (by omega), abs_le]
    omega

/-- Steep lines. -/
theorem walk_steep {dx dy : Int} (h0 : 0 ≤ dx) (h : dx < dy) : Walk dx dy (fun n i j e =>
    j = dy - n ∧ 0 ≤ j ∧ e = Int.tdiv (-dy) 2 - i * dy + j * dx ∧ dx - 2 * dy + 1 ≤ 2 * e ∧ 2 * e ≤ dx) := by
  have ht : Int.tdiv (-dy) 2 = -(dy / 2) := by
    rw [Int.neg_tdiv, Int.tdiv_eq_ediv_of_nonneg (by omega)]
  have hh1 : 2 * (dy / 2) ≤ dy := by omega
  have hh2 : dy - 1 ≤ 2 * (dy / 2) := by omega
  have hi : ∀ (n : Nat) (i j e : Int), j = dy - n → 0 ≤ j → e = -(dy / 2) - i * dy + j * dx →
      dx - 2 * dy + 1 ≤ 2 * e → 2 * e ≤ dx → 0 ≤ i ∧ i ≤ dx := by
    intro n i j e hj hj0 he h1 h2
    have hidx : j * dx ≤ dy * dx := mul_le_mul_of_nonneg_right (by omega) h0
    have hi1 : 0 ≤ j * dx := mul_nonneg hj0 h0
    constructor
    · by_contra hc
      have : (i + 1) * dy ≤ 0 := mul_nonpos_of_nonpos_of_nonneg (by omega) (by omega)
      nlinarith
    · by_contra hc
      have : 0 ≤ (i - dx - 1) * dy := mul_nonneg (by omega) (by omega)
      nlinarith
  rw [ht]
  refine ⟨?_, ?_, ?_, ?_⟩
  · rintro i j e ⟨hj, hj0, he, h1, h2⟩
    obtain ⟨a, b⟩ := hi 0 i j e hj hj0 he h1 h2
    have hj : j = dy := by simpa using hj
    refine ⟨?_, hj⟩
    by_contra hc
    have : 0 ≤ (dx - 1 - i) * dy := mul_nonneg (by omega) (by omega)
    rw [hj] at he
    nlinarith
  · rintro n i j e ⟨hj, -⟩ ⟨-, h1⟩
    push_cast at hj
    omega
  · rintro n i j e ⟨hj, hj0, he, h1, h2⟩
    push_cast at hj
    rw [if_pos (show 2 * e < dy by omega), if_pos (show 2 * e < dy by omega)]
    refine ⟨by omega, by omega, ?_, ?_, ?_⟩
    · split
      · rw [he]; ring
      · rw [he]; ring
    · split <;> omega
    · split <;> omega
  · rintro n i j e ⟨hj, hj0, he, h1, h2⟩
    obtain ⟨a, b⟩ := hi n i j e hj hj0 he h1 h2
    have e2 : j * dx - i * dy = e + dy / 2 := by rw [he]; ring
    refine ⟨a, b, hj0, by omega, by rw [abs_le]; omega, ?_⟩
    rw [e2, max_eq_right (by omega), abs_le]
    omega

/-- Diagonals of odd length. -/
theorem walk_odd {k : Int} (h0 : 0 ≤ k) (h : k % 2 = 1) : Walk k k (fun n i j e =>
    i = k - n ∧ 0 ≤ i ∧ j = i ∧ 2 * e = 1 - k) := by
  refine ⟨?_, ?_, ?_, ?_⟩
  · rintro i j e ⟨hi, hi0, hj, he⟩
    have hi : i = k := by simpa using hi
    omega
  · rintro n i j e ⟨hi, -⟩ ⟨h1, -⟩
    push_cast at hi
    omega
  · rintro n i j e ⟨hi, hi0, hj, he⟩
    push_cast at hi
    rw [if_pos (by omega), if_pos (by omega), if_pos (by omega), if_pos (by omega)]
    omega
  · rintro n i j e ⟨hi, hi0, hj, he⟩
    refine ⟨hi0, by omega, by omega, by omega, by rw [abs_le]; omega, ?_⟩
    rw [hj, sub_self, abs_zero, max_self]
    exact h0

/-- Diagonals of even length. -/
theorem walk_even {k : Int} (h0 : 0 ≤ k) (h : k % 2 = 0) : Walk k k (fun n i j e =>
    i + j = 2 * k - n ∧ 0 ≤ i ∧ ((j = i ∧ 2 * e = -k) ∨ (j = i + 1 ∧ 2 * e = k))) := by
  refine ⟨?_, ?_, ?_, ?_⟩
  · rintro i j e ⟨hi, hi0, hj⟩
    have hi : i + j = 2 * k := by simpa using hi
    omega
  · rintro n i j e ⟨hi, hi0, -⟩ ⟨h1, h2⟩
    push_cast at hi
    omega
  · rintro n i j e ⟨hi, hi0, hj⟩
    push_cast at hi
    rcases hj with ⟨hj, he⟩ | ⟨hj, he⟩
    · rw [if_neg (by omega), if_pos (by omega), if_neg (by omega), if_pos (by omega)]
      omega
    · rw [if_pos (by omega), if_neg (by omega), if_pos (by omega), if_neg (by omega)]
      omega
  · rintro n i j e ⟨hi, hi0, hj⟩
    refine ⟨hi0, by omega, by omega, by omega, by rw [abs_le]; omega, ?_⟩
    rw [max_self]
    rcases hj with ⟨hj, he⟩ | ⟨hj, he⟩
    · rw [hj, sub_self, abs_zero]; exact h0
    · rw [hj, show (i + 1) * k - i * k = k by ring, abs_of_nonneg h0]

/-- The number of rounds after the first pixel. -/
def lineRounds (dx dy : Int) : Nat :=
  if dx = dy ∧ dx % 2 = 0 then (2 * dx).toNat else (max dx dy).toNat

/-- Every line has a walk starting at its beginning. -/
theorem exists_walk {dx dy : Int} (hx : 0 ≤ dx) (hy : 0 ≤ dy) : ∃ Inv, Walk dx dy Inv ∧
    Inv (lineRounds dx dy) 0 0 (Int.tdiv (if dx > dy then dx else -dy) 2) := by
  unfold lineRounds
  rcases lt_trichotomy dx dy with h | h | h
  · refine ⟨_, walk_steep hx h, ?_⟩
    have ht : Int.tdiv (-dy) 2 = -(dy / 2) := by
      rw [Int.neg_tdiv, Int.tdiv_eq_ediv_of_nonneg (by omega)]
    rw [if_neg (by omega), if_neg (by omega), max_eq_right (by omega), ht]
    refine ⟨by omega, le_refl _, by ring, by omega, by omega⟩
  · subst h
    have ht : Int.tdiv (-dx) 2 = -(dx / 2) := by
      rw [Int.neg_tdiv, Int.tdiv_eq_ediv_of_nonneg (by omega)]
    rw [if_neg (show ¬ dx > dx by omega), ht, max_self]
    rcases Int.emod_two_eq_zero_or_one dx with h2 | h2
    · refine ⟨_, walk_even hx h2, ?_⟩
      rw [if_pos ⟨rfl, h2⟩]
      exact ⟨by omega, le_refl _, .inl ⟨rfl, by omega⟩⟩
    · refine ⟨_, walk_odd hx h2, ?_⟩
      rw [if_neg (by omega)]
      exact ⟨by omega, le_refl _, rfl, by omega⟩
  · refine ⟨_, walk_flat hy h, ?_⟩
    have ht : Int.tdiv dx 2 = dx / 2 := Int.tdiv_eq_ediv_of_nonneg (by omega)
    rw [if_neg (by omega), if_pos h, max_eq_left (by omega), ht]
    refine ⟨by omega, le_refl _, by ring, by omega, by omega⟩

theorem asU32_of {x : Int} (h0 : 0 ≤ x) (h : x < 2 ^ 32) : asU32 x = x.toNat := by
  unfold asU32
  rw [Int.emod_eq_of_lt h0 h]

/-- The loop of a walk, from any of its states. -/
theorem lineLoop_walk {dx dy : Int} {Inv : Nat → Int → Int → Int → Prop} (hw : Walk dx dy Inv)
    {x0 y0 x1 y1 sx sy : Int} (hsx : sx = 1 ∨ sx = -1) (hsy : sy = 1 ∨ sy = -1)
    (hx : x1 = x0 + sx * dx) (hy : y1 = y0 + sy * dy) (c : Color) (w h : Nat)
    (bx0 : 0 ≤ x0 ∧ x0 < w) (bx1 : 0 ≤ x1 ∧ x1 < w) (by0 : 0 ≤ y0 ∧ y0 < h) (by1 : 0 ≤ y1 ∧ y1 < h)
    (hwb : w < 2 ^ 32) (hhb : h < 2 ^ 32) (n : Nat) :
    ∀ i j e, Inv n i j e → ∃ L : List (Int × Int), L.length = n + 1 ∧
      L.head? = some (x0 + sx * i, y0 + sy * j) ∧ L.getLast? = some (x1, y1) ∧ L.IsChain Neighbours ∧
      (∀ p ∈ L, min x0 x1 ≤ p.1 ∧ p.1 ≤ max x0 x1 ∧ min y0 y1 ≤ p.2 ∧ p.2 ≤ max y0 y1 ∧
        Near x0 y0 x1 y1 p) ∧
      (∀ p ∈ L, i + j ≤ sx * (p.1 - x0) + sy * (p.2 - y0)) ∧ L.Nodup ∧
      ∀ d : Drawable, d.WF → d.width = w → d.height = h →
        ∃ d', (∀ rounds, n + 1 ≤ rounds →
            lineLoop dx dy sx sy x1 y1 c rounds d ⟨x0 + sx * i, y0 + sy * j, e⟩ = some (.ok d')) ∧
          d'.WF ∧ d'.width = w ∧ d'.height = h ∧
          ∀ a b : Nat, d'.pixel a b = if ((a : Int), (b : Int)) ∈ L then some c else d.pixel a b := by
  -- facts about a single pixel
  have single : ∀ n i j e, Inv n i j e →
      (min x0 x1 ≤ x0 + sx * i ∧ x0 + sx * i ≤ max x0 x1 ∧ min y0 y1 ≤ y0 + sy * j ∧
        y0 + sy * j ≤ max y0 y1) ∧ Near x0 y0 x1 y1 (x0 + sx * i, y0 + sy * j) := by
    intro n i j e hi
    obtain ⟨i0, i1, j0, j1, -, hd⟩ := hw.bound n i j e hi
    refine ⟨?_, ?_⟩
    · rcases hsx with rfl | rfl <;> rcases hsy with rfl | rfl <;> subst hx hy <;> omega
    · unfold Near
      simp only [add_sub_cancel_left]
      have e1 : |x1 - x0| = dx := by
        rcases hsx with rfl | rfl <;> subst hx
        · rw [show x0 + 1 * dx - x0 = dx by ring, abs_of_nonneg (by omega)]
        · rw [show x0 + -1 * dx - x0 = -dx by ring, abs_neg, abs_of_nonneg (by omega)]
      have e2 : |y1 - y0| = dy := by
        rcases hsy with rfl | rfl <;> subst hy
        · rw [show y0 + 1 * dy - y0 = dy by ring, abs_of_nonneg (by omega)]
        · rw [show y0 + -1 * dy - y0 = -dy by ring, abs_neg, abs_of_nonneg (by omega)]
      rw [e1, e2]
      have e3 : sy * j * (x1 - x0) - sx * i * (y1 - y0) = sx * sy * (j * dx - i * dy) := by
        subst hx hy; ring
      rw [e3, abs_mul]
      have e4 : |sx * sy| = 1 := by
        rcases hsx with rfl | rfl <;> rcases hsy with rfl | rfl <;> decide
      rw [e4, one_mul]
      exact hd
  have travelled : ∀ i j : Int, sx * (x0 + sx * i - x0) + sy * (y0 + sy * j - y0) = i + j := by
    intro i j
    rcases hsx with rfl | rfl <;> rcases hsy with rfl | rfl <;> ring
  have draw : ∀ n i j e, Inv n i j e → ∀ d : Drawable, d.WF → d.width = w → d.height = h →
      ∃ d', d.drawPoint (asU32 (x0 + sx * i)) (asU32 (y0 + sy * j)) c = .ok d' ∧ d'.WF ∧ d'.width = w ∧
        d'.height = h ∧ ∀ a b : Nat, d'.pixel a b =
          if ((a : Int), (b : Int)) = (x0 + sx * i, y0 + sy * j) then some c else d.pixel a b := by
    intro n i j e hi d hd hdw hdh
    obtain ⟨⟨a1, a2, a3, a4⟩, -⟩ := single n i j e hi
    have p1 : (2 : Int) ^ 32 = 4294967296 := by norm_num
    have ux : asU32 (x0 + sx * i) = (x0 + sx * i).toNat := asU32_of (by omega) (by omega)
    have uy : asU32 (y0 + sy * j) = (y0 + sy * j).toNat := asU32_of (by omega) (by omega)
    obtain ⟨d', h1, h2, h3, h4, h5⟩ := drawPoint_spec hd (x := (x0 + sx * i).toNat)
      (y := (y0 + sy * j).toNat) (by omega) (by omega) c
    refine ⟨d', by rw [ux, uy]; exact h1, h2, h3.trans hdw, h4.trans hdh, ?_⟩
    intro a b
    rw [h5]
    have : (a = (x0 + sx * i).toNat ∧ b = (y0 + sy * j).toNat) ↔
        ((a : Int), (b : Int)) = (x0 + sx * i, y0 + sy * j) := by
      rw [Prod.ext_iff]
      simp only
      omega
    simp only [this]
  induction n with
  | zero =>
    intro i j e hi
    obtain ⟨rfl, rfl⟩ := hw.done i j e hi
    refine ⟨[(x1, y1)], rfl, by rw [hx, hy]; rfl, rfl, by simp, ?_, ?_, by simp, ?_⟩
    · intro p hp
      rw [List.mem_singleton] at hp
      subst hp
      obtain ⟨⟨a1, a2, a3, a4⟩, a5⟩ := single 0 i j e hi
      rw [← hx, ← hy] at a5
      rw [← hx] at a1 a2
      rw [← hy] at a3 a4
      exact ⟨a1, a2, a3, a4, a5⟩
    · intro p hp
      rw [List.mem_singleton] at hp
      subst hp
      rw [hx, hy]
      exact (travelled i j).symm.le
    · intro d hd hdw hdh
      obtain ⟨d', h1, h2, h3, h4, h5⟩ := draw 0 i j e hi d hd hdw hdh
      refine ⟨d', ?_, h2, h3, h4, ?_⟩
      · intro rounds hr
        obtain ⟨m, rfl⟩ : ∃ m, rounds = m + 1 := ⟨rounds - 1, by omega⟩
        unfold lineLoop
        simp only [h1]
        rw [if_pos ⟨hx.symm, hy.symm⟩]
      · intro a b
        rw [h5, ← hx, ← hy]
        simp only [List.mem_singleton]
  | succ n ih =>
    intro i j e hi
    obtain ⟨i0, i1, j0, j1, he, -⟩ := hw.bound (n + 1) i j e hi
    have hnd := hw.notDone n i j e hi
    have hs := hw.step n i j e hi
    obtain ⟨L, l1, l2, l3, l4, l5, t1, t2, l6⟩ := ih _ _ _ hs
    have hmove : 2 * e > -dx ∨ 2 * e < dy := by omega
    -- the positions before and after the step
    have ex : x0 + sx * (if 2 * e > -dx then i + 1 else i) = if 2 * e > -dx then x0 + sx * i + sx else x0 + sx * i := by
      split <;> ring
    have ey : y0 + sy * (if 2 * e < dy then j + 1 else j) = if 2 * e < dy then y0 + sy * j + sy else y0 + sy * j := by
      split <;> ring
    refine ⟨(x0 + sx * i, y0 + sy * j) :: L, by simp [l1], rfl, ?_, ?_, ?_, ?_, ?_, ?_⟩
    · rw [List.getLast?_cons, l3]; rfl
    · cases L with
      | nil => simp at l1
      | cons q L =>
        rw [List.isChain_cons_cons]
        refine ⟨?_, l4⟩
        simp only [List.head?_cons, Option.some.injEq] at l2
        rw [l2, ex, ey]
        unfold Neighbours
        simp only [ne_eq, Prod.mk.injEq]
        rw [abs_le, abs_le]
        rcases hsx with rfl | rfl <;> rcases hsy with rfl | rfl <;> split <;> split <;> omega
    · intro p hp
      rcases List.mem_cons.mp hp with rfl | hp
      · obtain ⟨⟨a1, a2, a3, a4⟩, a5⟩ := single (n + 1) i j e hi
        exact ⟨a1, a2, a3, a4, a5⟩
      · exact l5 p hp
    · intro p hp
      rcases List.mem_cons.mp hp with rfl | hp
      · exact (travelled i j).symm.le
      · have := t1 p hp
        split at this <;> split at this <;> omega
    · rw [List.nodup_cons]
      refine ⟨fun hp => ?_, t2⟩
      have h1 := t1 _ hp
      rw [travelled i j] at h1
      split at h1 <;> split at h1 <;> omega
    · intro d hd hdw hdh
      obtain ⟨d1, h1, h2, h3, h4, h5⟩ := draw (n + 1) i j e hi d hd hdw hdh
      obtain ⟨d2, k1, k2, k3, k4, k5⟩ := l6 d1 h2 h3 h4
      refine ⟨d2, ?_, k2, k3, k4, ?_⟩
      · intro rounds hr
        obtain ⟨m, rfl⟩ : ∃ m, rounds = m + 1 := ⟨rounds - 1, by omega⟩
        replace k1 := k1 m (by omega)
        unfold lineLoop
        simp only [h1]
        have hend : ¬ (x0 + sx * i = x1 ∧ y0 + sy * j = y1) := by
          rintro ⟨e1, e2⟩
          apply hnd
          subst hx hy
          rcases hsx with rfl | rfl <;> rcases hsy with rfl | rfl <;> omega
        rw [if_neg hend]
        -- no overflow
        obtain ⟨⟨a1, a2, a3, a4⟩, -⟩ := single (n + 1) i j e hi
        have hdx : dx < 2 ^ 32 := by
          rcases hsx with rfl | rfl <;> omega
        have hdy : dy < 2 ^ 32 := by
          rcases hsy with rfl | rfl <;> omega
        rw [abs_le] at he
        have p1 : (2 : Int) ^ 32 = 4294967296 := by norm_num
        have p2 : (2 : Int) ^ 63 = 9223372036854775808 := by norm_num
        have c2 : ckI64 (2 * e) = .ok (2 * e) := by
          unfold ckI64
          exact if_pos (by omega)
        have cX : stepX dx dy sx (2 * e) ⟨x0 + sx * i, y0 + sy * j, e⟩ =
            .ok ⟨if 2 * e > -dx then x0 + sx * i + sx else x0 + sx * i, y0 + sy * j,
              if 2 * e > -dx then e - dy else e⟩ := by
          unfold stepX
          split
          · have q1 : ckI64 (e - dy) = .ok (e - dy) := by
              unfold ckI64; exact if_pos (by omega)
            have q2 : ckI64 (x0 + sx * i + sx) = .ok (x0 + sx * i + sx) := by
              unfold ckI64; exact if_pos (by omega)
            simp only [q1, q2, Res.bind_ok]
          · rfl
        have cY : stepY dx dy sy (2 * e) ⟨if 2 * e > -dx then x0 + sx * i + sx else x0 + sx * i, y0 + sy * j,
              if 2 * e > -dx then e - dy else e⟩ =
            .ok ⟨if 2 * e > -dx then x0 + sx * i + sx else x0 + sx * i,
              if 2 * e < dy then y0 + sy * j + sy else y0 + sy * j,
              (if 2 * e > -dx then e - dy else e) + (if 2 * e < dy then dx else 0)⟩ := by
          unfold stepY
          by_cases hc : 2 * e < dy
          · have q1 : ckI64 ((if 2 * e > -dx then e - dy else e) + dx)
                = .ok ((if 2 * e > -dx then e - dy else e) + dx) := by
              unfold ckI64
              apply if_pos
              split <;> omega
            have q2 : ckI64 (y0 + sy * j + sy) = .ok (y0 + sy * j + sy) := by
              unfold ckI64; exact if_pos (by omega)
            simp only [if_pos hc, q1, q2, Res.bind_ok]
          · simp only [if_neg hc, add_zero]
        simp only [c2, Res.bind_ok, cX, cY]
        rw [ex, ey] at k1
        exact k1
      · intro a b
        rw [k5, h5]
        simp only [List.mem_cons]
        by_cases q1 : ((a : Int), (b : Int)) ∈ L
        · rw [if_pos q1, if_pos (.inr q1)]
        · rw [if_neg q1]
          by_cases q2 : ((a : Int), (b : Int)) = (x0 + sx * i, y0 + sy * j)
          · rw [if_pos q2, if_pos (.inl q2)]
          · rw [if_neg q2, if_neg (by simp [q1, q2])]

end Verif.Drawable

namespace Verif.Drawable

theorem drawPoint_size {d d' : Drawable} {x y : Nat} {c : Color} (h : d.drawPoint x y c = .ok d') :
    d'.width = d.width ∧ d'.height = d.height := by
  unfold drawPoint at h
  split at h
  · simp at h
  · simp only [Res.bind_eq_ok, Res.ok.injEq] at h
    obtain ⟨_, _, _, _, _, _, _, _, _, _, rfl⟩ := h
    exact ⟨rfl, rfl⟩

theorem ckU32_ne_err (n : Nat) : ckU32 n ≠ .err := by unfold ckU32; split <;> simp

theorem drawPoint_ne_err (d : Drawable) (x y : Nat) (c : Color) : d.drawPoint x y c ≠ .err := by
  unfold drawPoint
  split
  · simp
  · have hb : ∀ {α β : Type} (r : Res α) (f : α → Res β), r ≠ .err → (∀ a, f a ≠ .err) → (r >>= f) ≠ .err := by
      intro α β r f h1 h2
      cases r with
      | ok a => exact h2 a
      | err => exact absurd rfl h1
      | panic => simp
    have hs : ∀ l i v, setByte l i v ≠ .err := by
      intro l i v; unfold setByte; split <;> simp
    refine hb _ _ ?_ fun _ => hb _ _ (hs _ _ _) fun _ => hb _ _ (hs _ _ _) fun _ => hb _ _ (hs _ _ _)
      fun _ => hb _ _ (hs _ _ _) fun _ => by simp
    exact hb _ _ (ckU32_ne_err _) fun _ => hb _ _ (ckU32_ne_err _) fun _ => ckU32_ne_err _

/-- A walk whose end point is outside the picture panics. -/
theorem lineLoop_outside {dx dy : Int} {Inv : Nat → Int → Int → Int → Prop} (hw : Walk dx dy Inv)
    {x0 y0 x1 y1 sx sy : Int} (hsx : sx = 1 ∨ sx = -1) (hsy : sy = 1 ∨ sy = -1)
    (hx : x1 = x0 + sx * dx) (hy : y1 = y0 + sy * dy) (c : Color) (w h : Nat)
    (bx0 : -2 ^ 31 ≤ x0 ∧ x0 < 2 ^ 31) (bx1 : -2 ^ 31 ≤ x1 ∧ x1 < 2 ^ 31)
    (by0 : -2 ^ 31 ≤ y0 ∧ y0 < 2 ^ 31) (by1 : -2 ^ 31 ≤ y1 ∧ y1 < 2 ^ 31)
    (hout : w ≤ asU32 x1 ∨ h ≤ asU32 y1) (n : Nat) :
    ∀ i j e, Inv n i j e → ∀ d : Drawable, d.width = w → d.height = h → ∀ rounds, n + 1 ≤ rounds →
      lineLoop dx dy sx sy x1 y1 c rounds d ⟨x0 + sx * i, y0 + sy * j, e⟩ = some .panic := by
  induction n with
  | zero =>
    intro i j e hi d hdw hdh rounds hr
    obtain ⟨rfl, rfl⟩ := hw.done i j e hi
    obtain ⟨m, rfl⟩ : ∃ m, rounds = m + 1 := ⟨rounds - 1, by omega⟩
    unfold lineLoop
    rw [← hx, ← hy, drawPoint_outside (by rw [hdw, hdh]; exact hout)]
  | succ n ih =>
    intro i j e hi d hdw hdh rounds hr
    obtain ⟨m, rfl⟩ : ∃ m, rounds = m + 1 := ⟨rounds - 1, by omega⟩
    obtain ⟨i0, i1, j0, j1, he, -⟩ := hw.bound (n + 1) i j e hi
    have hnd := hw.notDone n i j e hi
    have hs := hw.step n i j e hi
    have ex : x0 + sx * (if 2 * e > -dx then i + 1 else i) = if 2 * e > -dx then x0 + sx * i + sx else x0 + sx * i := by
      split <;> ring
    have ey : y0 + sy * (if 2 * e < dy then j + 1 else j) = if 2 * e < dy then y0 + sy * j + sy else y0 + sy * j := by
      split <;> ring
    unfold lineLoop
    cases hd : d.drawPoint (asU32 (x0 + sx * i)) (asU32 (y0 + sy * j)) c with
    | err => exact absurd hd (drawPoint_ne_err _ _ _ _)
    | panic => rfl
    | ok d1 =>
      obtain ⟨s1, s2⟩ := drawPoint_size hd
      have k1 := ih _ _ _ hs d1 (s1.trans hdw) (s2.trans hdh) m (by omega)
      have hend : ¬ (x0 + sx * i = x1 ∧ y0 + sy * j = y1) := by
        rintro ⟨e1, e2⟩
        apply hnd
        subst hx hy
        rcases hsx with rfl | rfl <;> rcases hsy with rfl | rfl <;> omega
      simp only
      rw [if_neg hend]
      have p0 : (2 : Int) ^ 31 = 2147483648 := by norm_num
      have p2 : (2 : Int) ^ 63 = 9223372036854775808 := by norm_num
      have hdx : dx < 2 ^ 32 := by
        rcases hsx with rfl | rfl <;> omega
      have hdy : dy < 2 ^ 32 := by
        rcases hsy with rfl | rfl <;> omega
      have p1 : (2 : Int) ^ 32 = 4294967296 := by norm_num
      have bi : -8589934592 ≤ x0 + sx * i ∧ x0 + sx * i ≤ 8589934592 := by
        rcases hsx with rfl | rfl <;> omega
      have bj : -8589934592 ≤ y0 + sy * j ∧ y0 + sy * j ≤ 8589934592 := by
        rcases hsy with rfl | rfl <;> omega
      rw [abs_le] at he
      have c2 : ckI64 (2 * e) = .ok (2 * e) := by
        unfold ckI64
        exact if_pos (by omega)
      have cX : stepX dx dy sx (2 * e) ⟨x0 + sx * i, y0 + sy * j, e⟩ =
          .ok ⟨if 2 * e > -dx then x0 + sx * i + sx else x0 + sx * i, y0 + sy * j,
            if 2 * e > -dx then e - dy else e⟩ := by
        unfold stepX
        split
        · have q1 : ckI64 (e - dy) = .ok (e - dy) := by
            unfold ckI64; exact if_pos (by omega)
          have q2 : ckI64 (x0 + sx * i + sx) = .ok (x0 + sx * i + sx) := by
            unfold ckI64; exact if_pos (by omega)
          simp only [q1, q2, Res.bind_ok]
        · rfl
      have cY : stepY dx dy sy (2 * e) ⟨if 2 * e > -dx then x0 + sx * i + sx else x0 + sx * i, y0 + sy * j,
            if 2 * e > -dx then e - dy else e⟩ =
          .ok ⟨if 2 * e > -dx then x0 + sx * i + sx else x0 + sx * i,
            if 2 * e < dy then y0 + sy * j + sy else y0 + sy * j,
            (if 2 * e > -dx then e - dy else e) + (if 2 * e < dy then dx else 0)⟩ := by
        unfold stepY
        by_cases hc : 2 * e < dy
        · have q1 : ckI64 ((if 2 * e > -dx then e - dy else e) + dx)
              = .ok ((if 2 * e > -dx then e - dy else e) + dx) := by
            unfold ckI64
            apply if_pos
            split <;> omega
          have q2 : ckI64 (y0 + sy * j + sy) = .ok (y0 + sy * j + sy) := by
            unfold ckI64; exact if_pos (by omega)
          simp only [if_pos hc, q1, q2, Res.bind_ok]
        · simp only [if_neg hc, add_zero]
      simp only [c2, Res.bind_ok, cX, cY]
      rw [ex, ey] at k1
      exact k1

/-- The beginning of `draw_line`. -/
theorem drawLine_start {x0 y0 x1 y1 : Int} (bx0 : -2 ^ 32 ≤ x0 ∧ x0 < 2 ^ 32)
    (bx1 : -2 ^ 32 ≤ x1 ∧ x1 < 2 ^ 32) (by0 : -2 ^ 32 ≤ y0 ∧ y0 < 2 ^ 32)
    (by1 : -2 ^ 32 ≤ y1 ∧ y1 < 2 ^ 32) (c : Color) :
    ∃ dx dy sx sy : Int, 0 ≤ dx ∧ 0 ≤ dy ∧ dx = |x1 - x0| ∧ dy = |y1 - y0| ∧ (sx = 1 ∨ sx = -1) ∧
      (sy = 1 ∨ sy = -1) ∧ x1 = x0 + sx * dx ∧ y1 = y0 + sy * dy ∧
      ∀ rounds d, drawLine rounds d x0 y0 x1 y1 c =
        lineLoop dx dy sx sy x1 y1 c rounds d ⟨x0 + sx * 0, y0 + sy * 0,
          Int.tdiv (if dx > dy then dx else -dy) 2⟩ := by
  have p1 : (2 : Int) ^ 32 = 4294967296 := by norm_num
  have p2 : (2 : Int) ^ 63 = 9223372036854775808 := by norm_num
  have key : ∀ a b : Int, -2 ^ 32 ≤ a ∧ a < 2 ^ 32 → -2 ^ 32 ≤ b ∧ b < 2 ^ 32 →
      0 ≤ (if a > b then a - b else b - a) ∧ (if a > b then a - b else b - a) = |b - a| ∧
      b = a + (if a < b then 1 else -1) * (if a > b then a - b else b - a) ∧
      ckI64 (if a > b then a - b else b - a) = .ok (if a > b then a - b else b - a) := by
    intro a b ha hb
    refine ⟨by split <;> omega, ?_, ?_, ?_⟩
    · split
      · rw [abs_of_nonpos (by omega)]; ring
      · rw [abs_of_nonneg (by omega)]
    · split <;> split <;> omega
    · unfold ckI64
      apply if_pos
      split <;> omega
  obtain ⟨a1, a2, a3, a4⟩ := key x0 x1 bx0 bx1
  obtain ⟨b1, b2, b3, b4⟩ := key y0 y1 by0 by1
  refine ⟨_, _, if x0 < x1 then 1 else -1, if y0 < y1 then 1 else -1, a1, b1, a2, b2, ?_, ?_, a3, b3, ?_⟩
  · split <;> simp
  · split <;> simp
  · intro rounds d
    unfold drawLine
    simp only [a4, b4, mul_zero, add_zero]

end Verif.Drawable
