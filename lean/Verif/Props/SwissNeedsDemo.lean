import Verif.Props.SwissDemo
import Verif.Props.SwissNeeds

/-!
# C129: an example
-/

namespace Verif.Props

open Verif MapTileRenderer
open Verif.Spec (AccurateRow)
open Verif.Spec.Grib2 (Msg encode)

/-- A server that offers two files: the positions and the temperature of hour 1. -/
def poorWorld (f : Msg) : World :=
  ⟨fun _ => none, fun name => if name = "hor".toList ∨ name = "b".toList then some ((swissMsgs f).flatMap encode) else none, id⟩

/-- It lists temperature files only, and older runs too. -/
def poorService : Swiss.Service :=
  ⟨demoService.assets, .ok ["2025-08-05T03:00:00Z".toList, "2025-08-05T06:00:00Z".toList],
    fun x t => if x = .t2m then demoService.search x t else .err⟩

theorem demo_main (m : Libm) (f : Msg) (dirs : Text → Bool) (vars : List Text) (filter : List Nat) :
    mainEffect (demoEnv m f dirs) "icon-ch1".toList vars filter =
      Swiss.renderLatest m (swissWorld f) demoService demoCalendar dirs vars filter := by
  unfold mainEffect; rw [if_pos rfl]; rfl

theorem demo_done {f : Msg} (h : f.ok) (hk : f.product.known) (hf : FullField f 4) (m : Libm) (hm : AccurateRow m)
    (dirs : Text → Bool) (vars : List Text) (filter : List Nat) :
    ∃ tr, Swiss.renderLatest m (swissWorld f) demoService demoCalendar dirs vars filter tr .done := by
  rw [← demo_main]
  exact (C104_main (demoEnv m f dirs) hm vars filter _ rfl _ _ rfl rfl latMsg lonMsg 4
    (swiss_constants h hk _) latMsg_full lonMsg_full
    _ rfl _ rfl _ rfl (by constructor <;> decide) rfl rfl fun v _ => ⟨2, demo_published h hk hf _ _ v⟩).1

theorem poor_stream (f : Msg) {name : Text} (h : name = "hor".toList ∨ name = "b".toList) :
    (swissWorld f).stream name = (poorWorld f).stream name := by
  have u : Dwd.isUrl name = false := by rcases h with rfl | rfl <;> decide +kernel
  unfold World.stream
  rw [if_neg (by rw [u]; decide), if_neg (by rw [u]; decide)]
  unfold swissWorld poorWorld
  simp only [h, if_true]

def demoAssets : List Swiss.Asset := [⟨"vertical_constants_icon-ch1-eps.grib2".toList, [], "vert".toList⟩,
  ⟨"horizontal_constants_icon-ch1-eps.grib2".toList, [], "hor".toList⟩]

theorem demo_times : SwissSearch.findLatest demoCalendar.parse ["2025-08-05T06:00:00Z".toList] = .ok demoTime := by decide +kernel

theorem demo_list : Swiss.steps demoService demoTime .t2m false = .ok [⟨0, "a".toList⟩, ⟨1, "b".toList⟩] := by decide +kernel

attribute [local irreducible] World.stream Swiss.renderLatest

/-- The hypotheses of C129 can be met: the program makes the same of the temperature of step 1 as with the server that
offers everything, so it succeeds. -/
example {f : Msg} (h : f.ok) (hk : f.product.known) (hf : FullField f 4) (m : Libm) (hm : AccurateRow m)
    (dirs : Text → Bool) :
    ∃ tr, Swiss.renderLatest m (poorWorld f) poorService demoCalendar dirs ["temp_2m".toList] [1] tr .done := by
  obtain ⟨tr, ht⟩ := demo_done h hk hf m hm dirs ["temp_2m".toList] [1]
  have chosen : ∀ v, ChosenVar ["temp_2m".toList] v → v = .temp2m := by
    intro v hv
    rcases hv with hv | hv
    · cases hv
    · revert hv; cases v <;> decide +kernel
  have iff := C129_only_needed m (swissWorld f) (poorWorld f) demoService poorService demoCalendar dirs ["temp_2m".toList] [1]
    demoAssets demoAssets ["2025-08-05T06:00:00Z".toList] ["2025-08-05T03:00:00Z".toList, "2025-08-05T06:00:00Z".toList]
    rfl rfl rfl rfl rfl rfl List.getLast?_cons_cons.symm ?_ ?_ ?_ ?_ tr .done
  · exact ⟨tr, iff.mp ht⟩
  · intro a ha
    refine poor_stream f (.inl ?_)
    revert ha
    generalize h : Swiss.findAsset _ _ = o
    have : o = some ⟨"horizontal_constants_icon-ch1-eps.grib2".toList, [], "hor".toList⟩ := by
      rw [← h]; decide +kernel
    rw [this]
    intro ha
    cases ha
    rfl
  · rintro (hv | hv)
    · cases chosen _ hv
    · cases chosen _ hv
  · intro t ht v hv x hx
    cases chosen v hv
    cases hx
    rfl
  · intro t ht v hv steps hs st hst hc x k hx files hfiles g hg hk
    cases chosen v hv
    obtain ⟨rfl, hx⟩ := hx
    have hst1 : st.nr = 1 := by
      rcases hc with hc | hc
      · cases hc
      · simpa using hc
    have hk1 : k = 1 := by
      rcases hx with hx | hx
      · omega
      · cases hx.1
    have e : files = [⟨0, "a".toList⟩, ⟨1, "b".toList⟩] := by
      rw [demo_times] at ht
      cases ht
      rw [demo_list] at hfiles
      exact (Res.ok.inj hfiles).symm
    subst e
    simp only [List.mem_cons, List.not_mem_nil, or_false] at hg
    rcases hg with rfl | rfl
    · simp at hk; omega
    · exact poor_stream f (.inr rfl)

end Verif.Props
