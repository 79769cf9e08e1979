import Verif.Model.Metobin
import Verif.Spec.Layer
import Verif.Lemmas.Res
import Verif.Props.Geo

/-!
# Lemmas about layers and meteobin files
-/

namespace Verif

open Spec

theorem Spec.Filled.get {T : Type} [GridValue T] {g : LatLonValueGrid T} {w h : Nat} (hg : Filled g w h) {x y : Nat}
    (hx : x < w) (hy : y < h) : g.getValueByXY x y = .ok (cell g w x y) := by
  obtain ⟨v, h1, h2⟩ := (Props.C19_lookup g w h hg.dims hg.small hg.length x y).1 ⟨hx, hy⟩
  rw [h2]
  unfold cell
  rw [h1]

theorem Spec.Filled.dims' {T : Type} {g : LatLonValueGrid T} {w h : Nat} (hg : Filled g w h) : g.dims = (w, h) := hg.dims

/-- Blocks of equal size. -/
theorem flatMap_blocks {α : Type} (f : Nat → List α) (k n : Nat) (hf : ∀ i, i < n → (f i).length = k) :
    ((List.range n).flatMap f).length = n * k ∧
    ∀ i j, i < n → j < k → ((List.range n).flatMap f)[i * k + j]? = (f i)[j]? := by
  induction n with
  | zero => simp
  | succ n ih =>
    obtain ⟨h1, h2⟩ := ih (fun i hi => hf i (by omega))
    rw [List.range_succ, List.flatMap_append]
    refine ⟨?_, ?_⟩
    · rw [List.length_append, h1, List.flatMap_cons, List.flatMap_nil, List.append_nil, hf n (by omega)]; ring
    · intro i j hi hj
      rcases Nat.lt_succ_iff_lt_or_eq.mp hi with hi | rfl
      · rw [List.getElem?_append_left, h2 i j hi hj]
        rw [h1]
        calc i * k + j < i * k + k := by omega
          _ = (i + 1) * k := by ring
          _ ≤ n * k := Nat.mul_le_mul_right k hi
      · rw [List.getElem?_append_right (by rw [h1]; omega), h1]
        simp

namespace Metobin

theorem foldl_push {α : Type} (f : α → Res (List UInt8)) (b : α → List UInt8) (l : List α) (out : List UInt8)
    (h : ∀ a ∈ l, f a = .ok (b a)) :
    Res.foldl (fun out a => (f a).bind fun b => .ok (out ++ b)) out l = .ok (out ++ l.flatMap b) := by
  induction l generalizing out with
  | nil => simp [Res.foldl]
  | cons a l ih =>
    simp only [Res.foldl]
    rw [h a List.mem_cons_self]
    show Res.foldl _ (out ++ b a) l = _
    rw [ih _ (fun a ha => h a (List.mem_cons_of_mem _ ha))]
    simp

/-- The file of all cells, row by row. -/
theorem forCells_eq {w h : Nat} {f : Nat → Nat → Res (List UInt8)} (b : Nat → Nat → List UInt8)
    (hf : ∀ x y, x < w → y < h → f x y = .ok (b x y)) :
    forCells w h f = .ok ((List.range h).flatMap fun y => (List.range w).flatMap fun x => b x y) := by
  unfold forCells
  have : ∀ (l : List Nat) (out : List UInt8), (∀ y ∈ l, y < h) →
      Res.foldl (fun out y => Res.foldl (fun out x => (f x y).bind fun b => .ok (out ++ b)) out (List.range w)) out l
        = .ok (out ++ l.flatMap fun y => (List.range w).flatMap fun x => b x y) := by
    intro l
    induction l with
    | nil => intro out _; simp [Res.foldl]
    | cons y l ih =>
      intro out hl
      simp only [Res.foldl]
      rw [foldl_push (fun x => f x y) (fun x => b x y) (List.range w) out
        (fun x hx => hf x y (List.mem_range.mp hx) (hl y List.mem_cons_self))]
      simp only [Res.bind_ok]
      rw [ih _ (fun y hy => hl y (List.mem_cons_of_mem _ hy))]
      simp
  rw [this _ _ (fun y hy => List.mem_range.mp hy)]
  simp

/-- A file with `k` bytes for each cell. -/
theorem forCells_layout {w h k : Nat} {f : Nat → Nat → Res (List UInt8)} (b : Nat → Nat → List UInt8)
    (hf : ∀ x y, x < w → y < h → f x y = .ok (b x y)) (hb : ∀ x y, x < w → y < h → (b x y).length = k) :
    ∃ bytes, forCells w h f = .ok bytes ∧ bytes.length = w * h * k ∧
      ∀ x y i, x < w → y < h → i < k → bytes[(y * w + x) * k + i]? = (b x y)[i]? := by
  refine ⟨_, forCells_eq b hf, ?_, ?_⟩
  · rw [(flatMap_blocks _ (w * k) h fun y hy => (flatMap_blocks _ k w fun x hx => hb x y hx hy).1).1]
    ring
  · intro x y i hx hy hi
    have hl : ∀ y, y < h → _ := fun y hy => flatMap_blocks (fun x => b x y) k w (fun x hx => hb x y hx hy)
    have ho := (flatMap_blocks (fun y => (List.range w).flatMap fun x => b x y) (w * k) h
      (fun y hy => (hl y hy).1)).2 y (x * k + i) hy (by
        calc x * k + i < x * k + k := by omega
          _ = (x + 1) * k := by ring
          _ ≤ w * k := Nat.mul_le_mul_right k hx)
    rw [show (y * w + x) * k + i = y * (w * k) + (x * k + i) by ring, ho]
    exact (hl y hy).2 x i hx hi

theorem forLevels_layout {n k : Nat} {f : Nat → Res (List UInt8)} (b : Nat → List UInt8)
    (hf : ∀ i, i < n → f i = .ok (b i)) (hb : ∀ i, i < n → (b i).length = k) :
    ∃ bytes, forLevels n f = .ok bytes ∧ bytes.length = n * k ∧
      ∀ l i, l < n → i < k → bytes[l * k + i]? = (b l)[i]? := by
  unfold forLevels
  rw [foldl_push f b (List.range n) [] (fun i hi => hf i (List.mem_range.mp hi))]
  exact ⟨_, rfl, by simpa using flatMap_blocks b k n hb⟩

/-! ## Bytes -/

theorem asU8_toNat (x : Fl) : (asU8 x).toNat = Fl.toU8 x := by
  unfold asU8
  rw [UInt8.toNat_ofNat']
  have := Fl.toUInt_le 255 x
  unfold Fl.toU8
  omega

theorem asU8_mono {a b : Fl} (h : Fl.le a b = true) : asU8 a ≤ asU8 b := by
  rw [UInt8.le_iff_toNat_le, asU8_toNat, asU8_toNat]
  exact Fl.toUInt_mono h

theorem asU8_int {n : Int} : ((asU8 (.fin n)).toNat : Int) = max 0 (min 255 n) := by
  rw [asU8_toNat]
  simp only [Fl.toU8, Fl.toUInt, Int.floor_intCast]
  omega

theorem clamp254_mono {a b : Fl} (h : Fl.le a b = true) : clamp254 a ≤ clamp254 b :=
  asU8_mono (Fl.fmax_mono (by simp) (Fl.fmin_mono (by simp) h))

theorem clamp254_int (n : Int) : ((clamp254 (.fin n)).toNat : Int) = max 0 (min 254 n) := by
  unfold clamp254
  have e1 : Fl.fmin (.fin (n : Rat)) (.fin 254) = .fin ((min 254 n : Int) : Rat) := by
    rw [Fl.fmin_eq (by simp) (by simp)]
    by_cases h : (254 : Rat) < n
    · rw [if_pos (Fl.lt_fin.mpr h)]
      have : 254 < n := by exact_mod_cast h
      rw [min_eq_left (by omega)]; norm_num
    · rw [if_neg (by rw [Fl.lt_fin]; exact h)]
      have : ¬ 254 < n := by intro h'; exact h (by exact_mod_cast h')
      rw [min_eq_right (by omega)]
  have e2 : Fl.fmax (.fin ((min 254 n : Int) : Rat)) (.fin 0) = .fin ((max 0 (min 254 n) : Int) : Rat) := by
    rw [Fl.fmax_eq (by simp) (by simp)]
    by_cases h : ((min 254 n : Int) : Rat) < 0
    · rw [if_pos (Fl.lt_fin.mpr h)]
      have : min 254 n < 0 := by exact_mod_cast h
      rw [max_eq_left (by omega)]; norm_num
    · rw [if_neg (by rw [Fl.lt_fin]; exact h)]
      have : ¬ min 254 n < 0 := by intro h'; exact h (by exact_mod_cast h')
      rw [max_eq_right (by omega)]
  rw [e1, e2, asU8_int]
  omega

theorem clamp254_le (x : Fl) : clamp254 x ≤ 254 := by
  cases x with
  | nan => decide +kernel
  | ninf => decide +kernel
  | pinf => decide +kernel
  | fin q =>
    have h1 : Fl.le (Fl.fmax (Fl.fmin (.fin q) (.fin 254)) (.fin 0)) (Fl.fin 254) = true := by
      have : Fl.le (Fl.fmin (.fin q) (.fin 254)) (.fin 254) = true := by
        rw [Fl.fmin_eq (by simp) (by simp)]
        split
        · simp
        · rename_i h; simpa using h
      have := Fl.fmax_mono (c := .fin 0) (by simp) this
      exact this
    have := asU8_mono h1
    exact UInt8.le_trans this (show asU8 (Fl.fin 254) ≤ 254 by decide +kernel)

theorem ne255_of_le {b : UInt8} (h : b ≤ 254) : b ≠ 255 := by
  rintro rfl
  exact absurd h (by decide)

end Metobin

end Verif
