import Verif.Model.Network
import Verif.Lemmas.Disk
import Verif.Lemmas.Grib2Panic

/-!
# Lemmas about a network that is not reliable
-/

namespace Verif

open MapTileRenderer

/-! ## Parts of files -/

namespace Rd

/-- Reading does not depend on what follows: neither a result nor a panic. -/
def Firm {α : Type} (m : Rd α) : Prop := ∀ s t, (∀ a r, m s = .ok (a, r) → m (s ++ t) = .ok (a, r ++ t)) ∧
  (m s = .panic → m (s ++ t) = .panic)

theorem firm_pure {α : Type} (a : α) : Firm (pure a : Rd α) := by
  intro s t
  refine ⟨fun b r h => ?_, fun h => (by cases h)⟩
  simp only [pure_apply, Res.ok.injEq, Prod.mk.injEq] at h ⊢
  exact ⟨h.1, by rw [h.2]⟩

theorem firm_fail {α : Type} : Firm (fail : Rd α) := fun s t => ⟨fun a r h => (by simp at h), fun h => (by simp at h)⟩

theorem firm_crash {α : Type} : Firm (crash : Rd α) := fun s t => ⟨fun a r h => (by simp at h), fun _ => rfl⟩

theorem firm_stable {α : Type} {m : Rd α} (h : Stable m) (hs : Safe m) : Firm m := by
  intro s t
  refine ⟨fun a r e => ?_, fun e => absurd e (hs s)⟩
  obtain ⟨p, rfl, h2, -⟩ := h s a r e
  rw [List.append_assoc]
  exact h2 _

theorem firm_bytes (n : Nat) : Firm (bytes n) := firm_stable (stable_bytes n) (safe_bytes n)

theorem firm_uint (n : Nat) : Firm (uint n) := firm_stable (stable_uint n) (safe_uint n)

theorem firm_bind {α β : Type} {m : Rd α} {f : α → Rd β} (hm : Firm m) (hf : ∀ a, Firm (f a)) : Firm (m >>= f) := by
  intro s t
  constructor
  · intro b r h
    obtain ⟨a, s1, h1, h2⟩ := bind_ok_iff.mp h
    rw [bind_of_ok ((hm s t).1 a s1 h1)]
    exact (hf a s1 t).1 b r h2
  · intro h
    rcases bind_panic_iff.mp h with h | ⟨a, s1, h1, h2⟩
    · exact bind_panic_iff.mpr (.inl ((hm s t).2 h))
    · exact bind_panic_iff.mpr (.inr ⟨a, _, (hm s t).1 a s1 h1, (hf a s1 t).2 h2⟩)

theorem firm_ite {α : Type} {p : Prop} [Decidable p] {m n : Rd α} (hm : Firm m) (hn : Firm n) :
    Firm (if p then m else n) := by
  split <;> assumption

theorem firm_times {α : Type} {m : Rd α} (hm : Firm m) (n : Nat) : Firm (times m n) := by
  induction n with
  | zero => exact firm_pure _
  | succ n ih => exact firm_bind hm (fun _ => firm_bind ih (fun _ => firm_pure _))

end Rd

namespace Grib2

open Rd

syntax "firm" : tactic
macro_rules
  | `(tactic| firm) => `(tactic|
    repeat' first
      | assumption
      | exact firm_pure _
      | exact firm_fail
      | exact firm_crash
      | exact firm_bytes _
      | exact firm_uint _
      | (apply firm_times)
      | (apply firm_ite)
      | (apply firm_bind)
      | intro _)

theorem firm_single : Firm readSingleDoc := by
  have := firm_stable stable_section0 safe_section0
  have : Firm readRefTime := by unfold readRefTime u8 u16; firm
  have : Firm readSection1 := by unfold readSection1 u8 u16 u32; firm
  have : Firm readSection2 := by unfold readSection2 u8 u32; firm
  have := firm_stable stable_section3 safe_section3
  have : ∀ n l, Firm (readProductTemplate n l) := fun n l => firm_stable (stable_product n l) (safe_product n l)
  have : Firm readSection4 := by unfold readSection4 u8 u16 u32; firm
  have : Firm readSection5 := by unfold readSection5 u8 u16 u32; firm
  have : Firm readSection6 := by unfold readSection6 u8 u32; firm
  have : Firm readSection7 := by unfold readSection7 u8 u16 u32; firm
  have := firm_stable stable_section8 safe_section8
  unfold readSingleDoc
  firm

end Grib2

end Verif
