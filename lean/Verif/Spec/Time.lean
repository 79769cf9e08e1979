import Verif.Model.Swiss

/-!
# Times of forecast runs, stated independently of the code
-/

namespace Verif.Spec

/-- The order of points in time: by day, second of the day and nanosecond. -/
def NotAfter (a b : Instant) : Prop :=
  a.day < b.day ∨ a.day = b.day ∧ (a.sec < b.sec ∨ a.sec = b.sec ∧ a.nano ≤ b.nano)

/-- An earlier second. -/
def Earlier (a b : Instant) : Prop := a.day < b.day ∨ a.day = b.day ∧ a.sec < b.sec

/-- The times at which ICON-CH runs start: every three hours from midnight (UTC) on. -/
def IsRunTime (r : Instant) : Prop := r.sec < 86400 ∧ r.sec % (3 * 3600) = 0 ∧ r.nano = 0

/-- Three hours later. -/
def plus3h (r : Instant) : Instant :=
  if r.sec + 10800 < 86400 then ⟨r.day, r.sec + 10800, r.nano⟩ else ⟨r.day + 1, r.sec + 10800 - 86400, r.nano⟩

/-- `a` is a stable sort of `b` by the key `k`: the same elements, keys ascending, elements of equal
keys in the order of `b`. -/
structure StableSortOf {α : Type} (k : α → Nat) (a b : List α) : Prop where
  perm : a.Perm b
  sorted : a.Pairwise fun x y => k x ≤ k y
  stable : ∀ n, a.filter (fun x => k x == n) = b.filter (fun x => k x == n)

end Verif.Spec
