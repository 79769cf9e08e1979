import Verif.Props.Swiss

/-!
# C158: which texts are horizons
-/

namespace Verif.Props

open Verif

/-- A text that is a number below 256: decimal digits, possibly after a plus sign. -/
def SmallNumber (t : Text) (n : UInt8) : Prop :=
  ∃ sign digits, t = sign ++ digits ∧ (sign = [] ∨ sign = ['+']) ∧ digits ≠ [] ∧ digits.all Char.isDigit = true ∧
    valueOf digits = n.toNat

theorem parseU8_iff (t : Text) (n : UInt8) : parseU8 t = some n ↔ SmallNumber t n := by
  constructor
  · intro h
    unfold parseU8 at h
    simp only at h
    split at h
    · rename_i hd
      split at h
      · rename_i hv
        have hn : valueOf (stripPlus t) = n.toNat := by
          have := (Option.some.inj h).symm
          rw [this, UInt8.toNat_ofNat', Nat.mod_eq_of_lt hv]
          rfl
        have : t = stripPlus t ∨ t = '+' :: stripPlus t := by
          unfold stripPlus
          split
          · exact .inr rfl
          · exact .inl rfl
        rcases this with e | e
        · exact ⟨[], stripPlus t, e, .inl rfl, hd.1, hd.2, hn⟩
        · exact ⟨['+'], stripPlus t, e, .inr rfl, hd.1, hd.2, hn⟩
      · cases h
    · cases h
  · rintro ⟨sign, digits, rfl, hs, h0, hd, hv⟩
    have e : parseU8 (sign ++ digits) = parseU8 digits := by
      rcases hs with rfl | rfl
      · rfl
      · unfold parseU8
        have : stripPlus (['+'] ++ digits) = digits := by
          cases digits with
          | nil => exact absurd rfl h0
          | cons d ds => rfl
        rw [this, stripPlus_digits hd]
    rw [e, parseU8_digits h0 hd (by rw [hv]; exact n.toNat_lt), hv]
    simp

theorem SmallNumber.not_mem {t : Text} {n : UInt8} (h : SmallNumber t n) {c : Char} (hc : c.isDigit = false) (hp : c ≠ '+') :
    c ∉ t := by
  obtain ⟨sign, digits, rfl, hs, -, hd, -⟩ := h
  rw [List.mem_append, not_or]
  refine ⟨?_, not_mem_digits hc hd⟩
  rcases hs with rfl | rfl
  · simp
  · simpa using hp

theorem splitChar_join (c : Char) (t : Text) : (splitChar c t) ≠ [] ∧ (∀ p ∈ splitChar c t, c ∉ p) ∧
    [c].intercalate (splitChar c t) = t := by
  induction t with
  | nil => simp [splitChar]
  | cons x xs ih =>
    obtain ⟨h1, h2, h3⟩ := ih
    unfold splitChar
    split
    · rename_i hx
      subst hx
      refine ⟨by simp, ?_, ?_⟩
      · simp only [List.mem_cons, forall_eq_or_imp, List.not_mem_nil, not_false_iff, true_and]
        exact h2
      · cases hs : splitChar x xs with
        | nil => exact absurd hs h1
        | cons p ps =>
          rw [hs] at h3
          rw [← h3]; simp [List.intercalate]
    · rename_i hx
      cases hs : splitChar c xs with
      | nil => exact absurd hs h1
      | cons p ps =>
        rw [hs] at h2 h3
        refine ⟨by simp, ?_, ?_⟩
        · simp only [List.mem_cons, forall_eq_or_imp] at h2 ⊢
          refine ⟨?_, h2.2⟩
          rintro (e | h)
          · exact hx e.symm
          · exact h2.1 h
        · rw [← h3]
          cases ps <;> simp [List.intercalate]

theorem trimEnd_split (c : Char) (t : Text) : ∃ k, t = trimEnd c t ++ List.replicate k c := by
  unfold trimEnd
  have h := List.takeWhile_append_dropWhile (p := (· == c)) (l := t.reverse)
  have ht : t = (t.reverse.dropWhile (· == c)).reverse ++ (t.reverse.takeWhile (· == c)).reverse := by
    rw [← List.reverse_append, h, List.reverse_reverse]
  have : (t.reverse.takeWhile (· == c)).reverse = List.replicate (t.reverse.takeWhile (· == c)).reverse.length c := by
    rw [List.eq_replicate_iff]
    refine ⟨rfl, fun x hx => ?_⟩
    rw [List.mem_reverse] at hx
    have := List.all_takeWhile (p := (· == c)) (l := t.reverse)
    rw [List.all_eq_true] at this
    simpa using this x hx
  exact ⟨_, by conv_lhs => rw [ht, this]⟩

theorem trimEnd_replicate {c : Char} {t : Text} (h : c ∉ t) (k : Nat) : trimEnd c (t ++ List.replicate k c) = t := by
  unfold trimEnd
  rw [List.reverse_append, List.reverse_replicate]
  have h1 : (List.replicate k c ++ t.reverse).dropWhile (· == c) = t.reverse := by
    induction k with
    | zero =>
      rw [List.replicate_zero, List.nil_append]
      cases ht : t.reverse with
      | nil => rfl
      | cons x xs =>
        rw [List.dropWhile_cons_of_neg]
        intro e
        have hx : x ∈ t := by rw [← List.mem_reverse, ht]; simp
        simp only [beq_iff_eq] at e
        exact h (e ▸ hx)
    | succ k ih => rw [List.replicate_succ, List.cons_append, List.dropWhile_cons_of_pos (by simp), ih]
  rw [h1, List.reverse_reverse]

/-- The texts that are accepted as horizons, with what they mean: a P, the days, any number of D, a T, the hours, an H and
any rest without T; if there is no D after the days there must be one in the rest. -/
def HorizonText (t : Text) (h : Horizon) : Prop :=
  ∃ (d : Text) (k : Nat) (u rest : Text), t = 'P' :: (d ++ List.replicate k 'D' ++ 'T' :: (u ++ 'H' :: rest)) ∧
    SmallNumber d h.days ∧ SmallNumber u h.hours ∧ 'T' ∉ rest ∧ (0 < k ∨ 'D' ∈ rest)

/-- C158: a text is accepted as a horizon exactly if it has this form. -/
theorem C158_accepted_iff (t : Text) (h : Horizon) : Horizon.fromStr t = .ok h ↔ HorizonText t h := by
  constructor
  · intro hf
    unfold Horizon.fromStr at hf
    split at hf
    · cases hf
    rename_i hc
    simp only [Bool.or_eq_true, Bool.not_eq_true', not_or, Bool.not_eq_false, beq_iff_eq, List.contains_iff_mem] at hc
    obtain ⟨⟨⟨hP, hD⟩, hT⟩, hH⟩ := hc
    obtain ⟨t', rfl⟩ : ∃ t', t = 'P' :: t' := by
      cases t with
      | nil => cases hP
      | cons x xs => exact ⟨xs, by rw [List.head?_cons] at hP; rw [Option.some.inj hP]⟩
    rw [List.drop_one, List.tail_cons] at hf
    obtain ⟨-, j2, j3⟩ := splitChar_join 'T' t'
    split at hf
    · rename_i dayPart timePart hs
      rw [hs] at j2 j3
      have hdt : t' = dayPart ++ 'T' :: timePart := by
        rw [← j3]; simp [List.intercalate]
      have hTt : 'T' ∉ timePart := j2 timePart (by simp)
      obtain ⟨days, e1, hf⟩ := Res.bind_eq_ok.mp hf
      obtain ⟨hoursStr, e2, hf⟩ := Res.bind_eq_ok.mp hf
      obtain ⟨hours, e3, hf⟩ := Res.bind_eq_ok.mp hf
      cases hf
      have okOr : ∀ {α : Type} {o : Option α} {a : α}, Res.okOr o = .ok a → o = some a := by
        intro α o a h
        cases o with
        | none => cases h
        | some b => rw [Res.okOr_some] at h; rw [Res.ok.inj h]
      have p1 := (parseU8_iff _ _).mp (okOr e1)
      have p3 := (parseU8_iff _ _).mp (okOr e3)
      obtain ⟨k, hk⟩ := trimEnd_split 'D' dayPart
      -- the part behind the T
      obtain ⟨i1, i2, i3⟩ := splitChar_join 'H' timePart
      have p2 := okOr e2
      obtain ⟨ps, hps⟩ : ∃ ps, splitChar 'H' timePart = hoursStr :: ps := by
        cases hs : splitChar 'H' timePart with
        | nil => rw [hs] at p2; cases p2
        | cons a ps => rw [hs] at p2; exact ⟨ps, by rw [Option.some.inj p2]⟩
      have hHt : 'H' ∈ timePart := by
        rw [hdt, hk] at hH
        simp only [List.mem_cons, List.mem_append, List.mem_replicate] at hH
        rcases hH with h | (h | h) | h | h
        · exact absurd h (by decide)
        · exact absurd h (p1.not_mem (by decide) (by decide))
        · exact absurd h.2 (by decide)
        · exact absurd h (by decide)
        · exact h
      obtain ⟨rest, hrest⟩ : ∃ rest, timePart = hoursStr ++ 'H' :: rest := by
        rw [hps] at i3
        cases ps with
        | nil =>
          have : timePart = hoursStr := by rw [← i3]; simp [List.intercalate]
          rw [this] at hHt
          exact absurd hHt (p3.not_mem (by decide) (by decide))
        | cons q qs =>
          exact ⟨['H'].intercalate (q :: qs), by rw [← i3]; simp [List.intercalate]⟩
      refine ⟨trimEnd 'D' dayPart, k, hoursStr, rest, ?_, p1, p3, ?_, ?_⟩
      · rw [hdt, ← hk, hrest]
      · intro h
        exact hTt (by rw [hrest]; simp [h])
      · rw [hdt, hk, hrest] at hD
        simp only [List.mem_cons, List.mem_append, List.mem_replicate] at hD
        rcases hD with h | (h | h) | h | h | h | h
        · exact absurd h (by decide)
        · exact absurd h (p1.not_mem (by decide) (by decide))
        · exact .inl (Nat.pos_of_ne_zero h.1)
        · exact absurd h (by decide)
        · exact absurd h (p3.not_mem (by decide) (by decide))
        · exact absurd h (by decide)
        · exact .inr h
    · cases hf
  · rintro ⟨d, k, u, rest, rfl, hd, hu, hT, hD⟩
    unfold Horizon.fromStr
    rw [if_neg (by
      simp only [Bool.or_eq_true, Bool.not_eq_true', not_or, Bool.not_eq_false, beq_iff_eq, List.contains_iff_mem]
      refine ⟨⟨⟨rfl, ?_⟩, by simp⟩, by simp⟩
      rcases hD with h | h
      · simp [List.mem_replicate]; omega
      · simp [h])]
    have hT1 : 'T' ∉ d ++ List.replicate k 'D' := by
      simp only [List.mem_append, List.mem_replicate, not_or, not_and]
      exact ⟨hd.not_mem (by decide) (by decide), fun _ => by decide⟩
    have hT2 : 'T' ∉ u ++ 'H' :: rest := by
      simp only [List.mem_append, List.mem_cons, not_or]
      exact ⟨hu.not_mem (by decide) (by decide), by decide, hT⟩
    rw [List.drop_one, List.tail_cons, splitChar_append hT1, splitChar_self hT2]
    simp only
    rw [trimEnd_replicate (hd.not_mem (by decide) (by decide)), splitChar_append (hu.not_mem (by decide) (by decide)),
      (parseU8_iff _ _).mpr hd]
    simp only [List.head?_cons, Res.okOr_some, Res.bind_ok]
    rw [(parseU8_iff _ _).mpr hu]
    rfl

/-- C158: reading a horizon never panics. -/
theorem C158_no_panic (t : Text) : Horizon.fromStr t ≠ .panic := by
  have : ∀ {α β : Type} (o : Option α) (f : α → Res β), (∀ a, f a ≠ .panic) → (Res.okOr o).bind f ≠ .panic := by
    intro α β o f h
    cases o with
    | none => simp [Res.okOr, Res.bind]
    | some a => exact h a
  unfold Horizon.fromStr
  split
  · simp
  · split
    · exact this _ _ fun _ => this _ _ fun _ => this _ _ fun _ => by simp
    · simp

/-- Texts of the form that the web service sends, and others that are accepted. -/
example : HorizonText "P1DT09H00M00S".toList ⟨1, 9⟩ :=
  ⟨"1".toList, 1, "09".toList, "00M00S".toList, by decide, ⟨[], "1".toList, rfl, .inl rfl, by decide, by decide, by decide⟩,
    ⟨[], "09".toList, rfl, .inl rfl, by decide, by decide, by decide⟩, by decide, .inl (by decide)⟩

example : Horizon.fromStr "P+1T09HD".toList = .ok ⟨1, 9⟩ ∧ Horizon.fromStr "P1DT0900".toList = .err := by decide +kernel

end Verif.Props
