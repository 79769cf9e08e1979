import Verif.Model.Answers

/-!
# What the answers of the web service mean
-/

namespace Verif.Spec

open Verif.Swiss (Value)
open Verif.Swiss.Answer (Link Properties Feature)

/-- An object has a member exactly once. -/
def Once (ms : List (Text × Value)) (key : Text) (x : Value) : Prop := (ms.filter fun m => m.1 == key) = [(key, x)]

/-- A value has exactly these values for the keys: an object with each of the members exactly once, in any order and with
any other members, or the array of the values. -/
def Has (v : Value) (keys : List Text) (xs : List Value) : Prop :=
  (∃ ms, v = .obj ms ∧ List.Forall₂ (Once ms) keys xs) ∨ (v = .arr xs ∧ xs.length = keys.length)

/-- All numbers inside a value fit in a float. -/
inductive AllFit : Value → Prop
  | null : AllFit .null
  | bool (b) : AllFit (.bool b)
  | num : AllFit (.num true)
  | str (t) : AllFit (.str t)
  | arr (l) (h : ∀ v ∈ l, AllFit v) : AllFit (.arr l)
  | obj (ms) (h : ∀ m ∈ ms, AllFit m.2) : AllFit (.obj ms)

/-- A constant file. -/
def IsAsset (v : Value) (a : Swiss.Asset) : Prop :=
  Has v ["id".toList, "title".toList, "href".toList] [.str a.id, .str a.title, .str a.href]

/-- The list of the constant files. -/
def IsAssets (v : Value) (l : List Swiss.Asset) : Prop :=
  ∃ items, Has v ["assets".toList] [.arr items] ∧ List.Forall₂ IsAsset items l

/-- A link. -/
def IsLink (v : Value) (l : Link) : Prop := Has v ["title".toList, "href".toList] [.str l.title, .str l.href]

/-- A table with the last of the values of each key. -/
def LastWins (all m : List (Text × Link)) : Prop :=
  (m.map Prod.fst).Nodup ∧ ∀ x, x ∈ m ↔ ∃ a b, all = a ++ x :: b ∧ x.1 ∉ b.map Prod.fst

/-- The named links of a file. -/
def IsLinks (v : Value) (m : List (Text × Link)) : Prop :=
  AllFit v ∧ ∃ ms all, v = .obj ms ∧ List.Forall₂ (fun x y => x.1 = y.1 ∧ IsLink x.2 y.2) ms all ∧ LastWins all m

/-- The description of a file. -/
def IsProperties (v : Value) (p : Properties) : Prop :=
  Has v ["datetime".toList, "title".toList, "forecast:reference_datetime".toList, "forecast:horizon".toList,
    "forecast:variable".toList] [.str p.datetime, .str p.title, .str p.refTime, .str p.horizon, .str p.var]

/-- A file in the answer to a search. -/
def IsFeature (v : Value) (f : Feature) : Prop :=
  ∃ p a, Has v ["id".toList, "properties".toList, "assets".toList] [.str f.id, p, a] ∧ IsProperties p f.properties ∧
    IsLinks a f.assets

/-- The answer to a search. -/
def IsResponse (v : Value) (fs : List Feature) : Prop :=
  ∃ time items, Has v ["timeStamp".toList, "features".toList] [.str time, .arr items] ∧ List.Forall₂ IsFeature items fs

/-- The same file; the links may be listed in another order. -/
def SameFeature (f g : Feature) : Prop :=
  f.id = g.id ∧ f.properties = g.properties ∧ f.assets.Perm g.assets

end Verif.Spec
