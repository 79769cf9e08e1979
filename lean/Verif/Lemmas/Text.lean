import Verif.Model.Text

/-!
# Lemmas about text
-/

namespace Verif

theorem digitChar_inj : ∀ a < 10, ∀ b < 10, Nat.digitChar a = Nat.digitChar b → a = b := by decide

theorem digitChar_isDigit : ∀ a < 10, (Nat.digitChar a).isDigit = true := by decide

theorem map_digitChar_inj {l l' : List Nat} (h : ∀ d ∈ l, d < 10) (h' : ∀ d ∈ l', d < 10)
    (e : l.map Nat.digitChar = l'.map Nat.digitChar) : l = l' := by
  induction l generalizing l' with
  | nil => cases l' with
    | nil => rfl
    | cons b l' => simp at e
  | cons a l ih => cases l' with
    | nil => simp at e
    | cons b l' =>
      simp only [List.map_cons, List.cons.injEq] at e
      rw [digitChar_inj a (h a (by simp)) b (h' b (by simp)) e.1,
        ih (fun d hd => h d (by simp [hd])) (fun d hd => h' d (by simp [hd])) e.2]

theorem dec_length_pos (n : Nat) : 0 < (dec n).length := by
  unfold dec
  split
  · simp
  · rename_i h
    have : Nat.digits 10 n ≠ [] := Nat.digits_ne_nil_iff_ne_zero.mpr h
    simpa [List.length_pos_iff] using this

/-- All characters of a number are digits. -/
theorem dec_digits (n : Nat) : ∀ c ∈ dec n, c.isDigit = true := by
  intro c hc
  unfold dec at hc
  split at hc
  · simp at hc; subst hc; decide
  · rw [List.mem_reverse, List.mem_map] at hc
    obtain ⟨d, hd, rfl⟩ := hc
    exact digitChar_isDigit d (Nat.digits_lt_base (by norm_num) hd)

theorem decPad_digits (k n : Nat) : ∀ c ∈ decPad k n, c.isDigit = true := by
  intro c hc
  unfold decPad at hc
  rw [List.mem_append] at hc
  rcases hc with hc | hc
  · rw [(List.mem_replicate.mp hc).2]; decide
  · exact dec_digits n c hc

/-- The value of a text of digits. -/
def valueOf (t : Text) : Nat := t.foldl (fun v c => 10 * v + (c.toNat - '0'.toNat)) 0

theorem digitChar_toNat : ∀ a < 10, (Nat.digitChar a).toNat - '0'.toNat = a := by decide

theorem valueOf_reverse (l : List Nat) (h : ∀ d ∈ l, d < 10) :
    valueOf ((l.map Nat.digitChar).reverse) = Nat.ofDigits 10 l := by
  unfold valueOf
  rw [List.foldl_reverse]
  induction l with
  | nil => rfl
  | cons a l ih =>
    rw [List.map_cons, List.foldr_cons, ih (fun d hd => h d (by simp [hd])), digitChar_toNat a (h a (by simp)),
      Nat.ofDigits_cons]
    ring

theorem valueOf_dec (n : Nat) : valueOf (dec n) = n := by
  unfold dec
  split
  · rename_i h; subst h; rfl
  · rw [valueOf_reverse _ (fun d hd => Nat.digits_lt_base (by norm_num) hd), Nat.ofDigits_digits]

theorem valueOf_zeros (k : Nat) (t : Text) : valueOf (List.replicate k '0' ++ t) = valueOf t := by
  unfold valueOf
  rw [List.foldl_append]
  congr 1
  induction k with
  | zero => rfl
  | succ k ih => rw [List.replicate_succ, List.foldl_cons]; exact ih

theorem valueOf_decPad (k n : Nat) : valueOf (decPad k n) = n := by
  unfold decPad
  rw [valueOf_zeros, valueOf_dec]

theorem dec_inj {a b : Nat} (h : dec a = dec b) : a = b := by
  rw [← valueOf_dec a, h, valueOf_dec]

theorem decPad_inj {k a b : Nat} (h : decPad k a = decPad k b) : a = b := by
  rw [← valueOf_decPad k a, h, valueOf_decPad]

theorem slash_not_digit {t : Text} (h : ∀ c ∈ t, c.isDigit = true) : '/' ∉ t := by
  intro hm
  have := h _ hm
  revert this
  decide

/-- Splitting at the first occurrence of a separator. -/
theorem split_sep {sep : Char} {a a' b b' : Text} (h : sep ∉ a) (h' : sep ∉ a')
    (e : a ++ sep :: b = a' ++ sep :: b') : a = a' ∧ b = b' := by
  induction a generalizing a' with
  | nil => cases a' with
    | nil => simpa using e
    | cons c a' =>
      simp only [List.nil_append, List.cons_append, List.cons.injEq] at e
      exact absurd (by simp [e.1]) h'
  | cons c a ih => cases a' with
    | nil =>
      simp only [List.nil_append, List.cons_append, List.cons.injEq] at e
      exact absurd (by simp [e.1]) h
    | cons c' a' =>
      simp only [List.cons_append, List.cons.injEq] at e
      obtain ⟨h1, h2⟩ := ih (fun hm => h (by simp [hm])) (fun hm => h' (by simp [hm])) e.2
      exact ⟨by rw [e.1, h1], h2⟩

end Verif
