/-!
# Outcomes of Rust functions

A Rust function returning `Result<T, E>` that may also panic is modelled as a function
returning `Res T`.  Which error is returned is not represented (all error variants of the
crate are collapsed into `err`); panics are a separate explicit outcome.
-/

namespace Verif

/-- Outcome of a Rust call: `Ok(a)`, `Err(_)` or a panic.
Simplification: the error payload (variants of `src/grib2/common/grib2_error.rs`,
`src/netcdf/common/netcdf_error.rs`, `src/imaging/imaging_error.rs`, ...) is dropped. -/
inductive Res (α : Type) where
  | ok (a : α)
  | err
  | panic
  deriving DecidableEq, Repr

namespace Res

/-- Sequencing, i.e. the `?` operator (an `Err` or a panic ends the function). -/
def bind {α β : Type} (x : Res α) (f : α → Res β) : Res β :=
  match x with
  | ok a => f a
  | err => err
  | panic => panic

instance : Monad Res where
  pure := Res.ok
  bind := Res.bind

@[simp] theorem pure_eq {α : Type} (a : α) : (pure a : Res α) = ok a := rfl
@[simp] theorem bind_ok {α β : Type} (a : α) (f : α → Res β) : (ok a >>= f) = f a := rfl
@[simp] theorem bind_err {α β : Type} (f : α → Res β) : ((err : Res α) >>= f) = err := rfl
@[simp] theorem bind_panic {α β : Type} (f : α → Res β) : ((panic : Res α) >>= f) = panic := rfl
@[simp] theorem map_ok {α β : Type} (a : α) (f : α → β) : (f <$> (ok a)) = ok (f a) := rfl
@[simp] theorem map_err {α β : Type} (f : α → β) : (f <$> (err : Res α)) = err := rfl
@[simp] theorem map_panic {α β : Type} (f : α → β) : (f <$> (panic : Res α)) = panic := rfl

/-- `Option::unwrap` / `Option::expect`: panics on `None`. -/
def unwrap {α : Type} : Option α → Res α
  | some a => ok a
  | none => panic

/-- `Option::ok_or(..)` / `ok_or_else`: `Err` on `None`. -/
def okOr {α : Type} : Option α → Res α
  | some a => ok a
  | none => err

/-- `Result::unwrap`: an `Err` becomes a panic. -/
def unwrapResult {α : Type} : Res α → Res α
  | ok a => ok a
  | err => panic
  | panic => panic

/-- Vector indexing `v[i]`: panics when out of bounds. -/
def index {α : Type} (v : List α) (i : Nat) : Res α :=
  match v[i]? with
  | some a => ok a
  | none => panic

@[simp] theorem unwrap_some {α : Type} (a : α) : unwrap (some a) = ok a := rfl
@[simp] theorem unwrap_none {α : Type} : (unwrap (none : Option α)) = panic := rfl
@[simp] theorem okOr_some {α : Type} (a : α) : okOr (some a) = ok a := rfl
@[simp] theorem okOr_none {α : Type} : (okOr (none : Option α)) = err := rfl

theorem bind_eq_ok {α β : Type} {x : Res α} {f : α → Res β} {b : β} :
    (x >>= f) = ok b ↔ ∃ a, x = ok a ∧ f a = ok b := by
  cases x <;> simp

/-- Apply a fallible function to all elements in order; the outcome is the list of results
or the first failure in list order.  Models `iter().map(f).collect::<Result<Vec<_>,_>>()`;
for rayon's `par_iter().map(f).collect()` the order of results is the same, while with
several failing elements any of their failures may be reported. -/
def mapM {α β : Type} (f : α → Res β) : List α → Res (List β)
  | [] => ok []
  | a :: as => do
    let b ← f a
    let bs ← mapM f as
    ok (b :: bs)

end Res

/-- A left fold that stops at the first failure (a Rust `for` loop over mutable state). -/
def Res.foldl {α β : Type} (f : β → α → Res β) : β → List α → Res β
  | b, [] => .ok b
  | b, a :: as => do
    let b' ← f b a
    Res.foldl f b' as

/-- The Rust range `a..=b` as a list. -/
def rangeIncl (a b : Nat) : List Nat := List.range' a (b + 1 - a)

end Verif
