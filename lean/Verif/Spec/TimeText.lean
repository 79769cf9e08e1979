import Verif.Lemmas.Text

/-!
# Texts of times

The form of RFC 3339 in which times are written: `2025-08-25T12:00:00.5+02:00`.
-/

namespace Verif

namespace Spec

/-- `t` is the number `n`, written with `k` decimal digits. -/
def Digits (k n : Nat) (t : Text) : Prop := t.length = k ∧ (∀ c ∈ t, c.isDigit = true) ∧ valueOf t = n

/-- The fraction of a second, in whole nanoseconds: nothing, or a point and at least one digit. -/
inductive Fraction : Nat → Text → Prop where
  | none : Fraction 0 []
  | some (ds : Text) : ds ≠ [] → (∀ c ∈ ds, c.isDigit = true) →
      Fraction (valueOf ds * 10 ^ 9 / 10 ^ ds.length) ('.' :: ds)

/-- How many seconds the clock is ahead of UTC. -/
inductive Zone : Int → Text → Prop where
  | utc (c : Char) : c = 'Z' ∨ c = 'z' → Zone 0 [c]
  | east {h m : Nat} {hh mm : Text} : Digits 2 h hh → Digits 2 m mm → m < 60 →
      Zone (h * 3600 + m * 60) ('+' :: (hh ++ ':' :: mm))
  | west {h m : Nat} {hh mm : Text} (c : Char) : c = '-' ∨ c = '−' → Digits 2 h hh → Digits 2 m mm → m < 60 →
      Zone (-(h * 3600 + m * 60)) (c :: (hh ++ ':' :: mm))

/-- What a clock shows: date, time, fraction of the second in nanoseconds, and how many seconds it is ahead of UTC. -/
structure Clock where
  year : Nat
  month : Nat
  day : Nat
  hour : Nat
  minute : Nat
  second : Nat
  nano : Nat
  ahead : Int

/-- `t` is the clock time, written as in RFC 3339. -/
def Clock.Written (c : Clock) (t : Text) : Prop :=
  ∃ (y mo d h mi s f z : Text) (sep : Char), Digits 4 c.year y ∧ Digits 2 c.month mo ∧ Digits 2 c.day d ∧
    (sep = 'T' ∨ sep = 't' ∨ sep = ' ') ∧ Digits 2 c.hour h ∧ Digits 2 c.minute mi ∧ Digits 2 c.second s ∧
    Fraction c.nano f ∧ Zone c.ahead z ∧
    t = y ++ '-' :: (mo ++ '-' :: (d ++ sep :: (h ++ ':' :: (mi ++ ':' :: (s ++ (f ++ z))))))

end Spec

end Verif
