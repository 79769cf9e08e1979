import Verif.Model.Unstructured
import Mathlib.Data.List.Forall2

/-!
# Lemmas about `Res.mapM` and `Res.foldl`
-/

namespace Verif.Res

variable {α β : Type}

theorem mapM_ok_iff (f : α → Res β) (l : List α) (bs : List β) :
    mapM f l = .ok bs ↔ List.Forall₂ (fun a b => f a = .ok b) l bs := by
  induction l generalizing bs with
  | nil =>
    simp only [mapM, Res.ok.injEq]
    constructor
    · rintro rfl; exact .nil
    · intro h; cases h; rfl
  | cons a l ih =>
    simp only [mapM, bind_eq_ok]
    constructor
    · rintro ⟨b, hb, bs', hbs, he⟩
      simp only [Res.ok.injEq] at he
      subst he
      exact .cons hb ((ih bs').1 hbs)
    · intro h
      cases h with
      | cons hb hbs => exact ⟨_, hb, _, (ih _).2 hbs, rfl⟩

theorem mapM_total (f : α → β) (g : α → Res β) (l : List α) (h : ∀ a ∈ l, g a = .ok (f a)) :
    mapM g l = .ok (l.map f) := by
  induction l with
  | nil => rfl
  | cons a l ih =>
    simp only [mapM, h a List.mem_cons_self, Res.bind_ok]
    rw [ih (fun b hb => h b (List.mem_cons_of_mem _ hb))]
    rfl

/-- An invariant of a fold. -/
theorem foldl_inv (f : β → α → Res β) (P : β → Prop) (l : List α) (b : β) (h0 : P b)
    (hs : ∀ b a, a ∈ l → P b → ∃ b', f b a = .ok b' ∧ P b') : ∃ b', foldl f b l = .ok b' ∧ P b' := by
  induction l generalizing b with
  | nil => exact ⟨b, rfl, h0⟩
  | cons a l ih =>
    obtain ⟨b', h1, h2⟩ := hs b a List.mem_cons_self h0
    simp only [foldl, h1, Res.bind_ok]
    exact ih b' h2 (fun b a ha => hs b a (List.mem_cons_of_mem _ ha))

theorem foldl_append (f : β → α → Res β) (l l' : List α) (b : β) :
    foldl f b (l ++ l') = (foldl f b l).bind (fun b' => foldl f b' l') := by
  induction l generalizing b with
  | nil => rfl
  | cons a l ih =>
    simp only [List.cons_append, foldl]
    cases h : f b a with
    | ok b' => simp only [Res.bind_ok]; exact ih b'
    | err => rfl
    | panic => rfl

theorem index_ok {v : List α} {i : Nat} (h : i < v.length) : index v i = .ok v[i] := by
  simp [index, h]

end Verif.Res
