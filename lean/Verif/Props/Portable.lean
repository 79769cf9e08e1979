import Verif.Lemmas.Monotone
import Verif.Props.ModelFiles

/-!
# C183: data files do not depend on the machine

Rust leaves the results of `tan`, `cos`, `ln`, `sinh` and `atan` to the platform.  Which directories exist and what the clock says
differs too.
-/

namespace Verif.Props

open Verif MapTileRenderer MapTileCoord
open Verif.Spec (AccurateRow exists_accurateRow)

/-! ## Specification -/

/-- Two machines in front of the same servers: the same files and answers, and the same DWD run is the newest; the mathematical
functions, the clock and the directories may be different. -/
structure SameServers (e e' : Environment) : Prop where
  world : e'.world = e.world
  service : e'.service = e.service
  calendar : e'.calendar = e.calendar
  run : ∀ dwd, dwd = FcModel.iconD2 ∨ dwd = FcModel.iconEu →
    Dwd.findLatestRun dwd e'.today e'.now e'.available = Dwd.findLatestRun dwd e.today e.now e.available

/-- A file with data, not a picture. -/
def IsData (c : Content) : Prop := ∃ b, c = .bytes b

/-- The library gives the same tile rows and the same latitudes of tile rows. -/
def SameRows (m m' : Libm) : Prop := (∀ lat pow, row m lat pow = row m' lat pow) ∧ ∀ y n, latitude m y n = latitude m' y n

/-! ## Proofs -/

theorem FileOf.data {m m' : Libm} {zooms : Nat × Nat} {l : Layers} {out : Output} {c : Content} (h : FileOf m zooms l out c)
    (hc : IsData c) : FileOf m' zooms l out c := by
  obtain ⟨b, rfl⟩ := hc
  cases h with
  | precip hb => exact .precip hb
  | weather hb => exact .weather hb
  | wind hb => exact .wind hb
  | temp hb => exact .temp hb
  | verticalCloud hb => exact .verticalCloud hb
  | verticalWind hb => exact .verticalWind hb

theorem FileOf.rows {m m' : Libm} (hm : SameRows m m') {zooms : Nat × Nat} {l : Layers} {out : Output} {c : Content}
    (h : FileOf m zooms l out c) : FileOf m' zooms l out c := by
  have h1 : toPosition m = toPosition m' := by funext t; unfold toPosition; simp only [hm.2]
  have h2 : fromPosition m = fromPosition m' := by funext p z; unfold fromPosition; simp only [hm.1]
  have h3 : ∀ {T : Type} (f : LatLon → Res (Option T)) (t : MapTileCoord) (g : T → Color),
      createSingleTile m f t g = createSingleTile m' f t g := by
    intro T f t g; unfold createSingleTile; rw [h1]
  have h4 : ∀ e z t, Needed m e z t → Needed m' e z t := by
    intro e z t; unfold Needed; rw [h2]; exact id
  cases h with
  | cloudPrecipTile hn hd => exact .cloudPrecipTile (h4 _ _ _ hn) (h3 _ _ _ ▸ hd)
  | windTile hn hd => exact .windTile (h4 _ _ _ hn) (h3 _ _ _ ▸ hd)
  | tempTile hn hd => exact .tempTile (h4 _ _ _ hn) (h3 _ _ _ ▸ hd)
  | precip hb => exact .precip hb
  | weather hb => exact .weather hb
  | wind hb => exact .wind hb
  | temp hb => exact .temp hb
  | verticalCloud hb => exact .verticalCloud hb
  | verticalWind hb => exact .verticalWind hb

theorem SameServers.symm {e e' : Environment} (h : SameServers e e') : SameServers e' e :=
  ⟨h.world.symm, h.service.symm, h.calendar.symm, fun d hd => (h.run d hd).symm⟩

theorem SameRows.symm {m m' : Libm} (h : SameRows m m') : SameRows m' m :=
  ⟨fun a b => (h.1 a b).symm, fun a b => (h.2 a b).symm⟩

theorem expected_other {e e' : Environment} (hs : SameServers e e') {model : Text} {vars : List Text} {filter : List Nat}
    {p : Text} {c : Content} (hf : ∀ zooms l out, FileOf e.libm zooms l out c → FileOf e'.libm zooms l out c)
    (h : MainExpected e model vars filter p c) : MainExpected e' model vars filter p c := by
  rcases h with ⟨dwd, hm, run, hr, v, hv, s, h1, h2, l, h3, out, h4, h5⟩ | ⟨hm, assets, hor, vert, grid, refTimes, t, a1, a2, a3, a4,
    a5, a6, v, hv, run, steps, b1, b2, s, h1, h2, l, h3, out, h4, h5⟩
  · refine .inl ⟨dwd, hm, run, (hs.run dwd (hm.imp (·.2) (·.2))).trans hr, v, hv, s, h1, h2, l, ?_, out, hf _ _ _ h4, h5⟩
    rw [hs.world]; exact h3
  · refine .inr ⟨hm, assets, hor, vert, grid, refTimes, t, ?_, a2, a3, ?_, ?_, ?_, v, hv, run, steps, ?_, ?_, s, h1, h2, l, ?_, out,
      hf _ _ _ h4, h5⟩
    · rw [hs.service]; exact a1
    · rw [hs.world]; exact a4
    · rw [hs.service]; exact a5
    · rw [hs.calendar]; exact a6
    · rw [hs.calendar]; exact b1
    · rw [hs.service]; exact b2
    · rw [hs.world, hs.service]; exact h3

/-! ## C183 -/

/-- C183: whatever the machines and however the calls end, a data file written by both calls has the same content, and a data
file of one is not a picture of the other. -/
theorem C183_same {e e' : Environment} (hs : SameServers e e') (model : Text) (vars : List Text) (filter : List Nat)
    {tr tr' : List Write} {o o' : Outcome} (h : mainEffect e model vars filter tr o)
    (h' : mainEffect e' model vars filter tr' o') :
    ∀ x ∈ tr, IsData x.content → ∀ x' ∈ tr', x'.path = x.path → x'.content = x.content := by
  intro x hx hd x' hx' hp
  have e1 := (C87_main e model vars filter tr).1 o h x hx
  have e2 := (C87_main e' model vars filter tr').1 o' h' x' hx'
  rw [hp] at e2
  exact mainExpected_functional e2 (expected_other hs (fun _ _ _ hf => hf.data hd) e1)

/-- C183: if both calls succeed, they write the same data files. -/
theorem C183_all {e e' : Environment} (hs : SameServers e e') (model : Text) (vars : List Text) (filter : List Nat)
    {tr tr' : List Write} (h : mainEffect e model vars filter tr .done) (h' : mainEffect e' model vars filter tr' .done)
    (x : Write) (hd : IsData x.content) : x ∈ tr ↔ x ∈ tr' := by
  constructor
  · intro hx
    exact (C87_main e' model vars filter tr').2 h' x
      (expected_other hs (fun _ _ _ hf => hf.data hd) ((C87_main e model vars filter tr).1 _ h x hx))
  · intro hx
    exact (C87_main e model vars filter tr).2 h x
      (expected_other hs.symm (fun _ _ _ hf => hf.data hd) ((C87_main e' model vars filter tr').1 _ h' x hx))

/-- C183: a difference of the machines shows in pictures at most, and there only if their mathematical functions place tile
rows differently. -/
theorem C183_pictures {e e' : Environment} (hs : SameServers e e') (hm : SameRows e.libm e'.libm) (model : Text)
    (vars : List Text) (filter : List Nat) {tr tr' : List Write} (h : mainEffect e model vars filter tr .done)
    (h' : mainEffect e' model vars filter tr' .done) (x : Write) : x ∈ tr ↔ x ∈ tr' := by
  constructor
  · intro hx
    exact (C87_main e' model vars filter tr').2 h' x
      (expected_other hs (fun _ _ _ hf => hf.rows hm) ((C87_main e model vars filter tr).1 _ h x hx))
  · intro hx
    exact (C87_main e model vars filter tr).2 h x
      (expected_other hs.symm (fun _ _ _ hf => hf.rows hm.symm) ((C87_main e' model vars filter tr').1 _ h' x hx))

theorem data_written {tr : List Write} {p : Text} {c : Content} (h : Tree.write (fun _ => none) tr p = some c) :
    ∃ x ∈ tr, x.path = p ∧ x.content = c := by
  induction tr using List.reverseRecOn with
  | nil => cases h
  | append_singleton ws w ih =>
    rw [Tree.write_append] at h
    have h : (if p = w.path then some w.content else Tree.write (fun _ => none) ws p) = some c := h
    by_cases hp : p = w.path
    · rw [if_pos hp] at h
      exact ⟨w, by simp, hp.symm, Option.some.inj h⟩
    · rw [if_neg hp] at h
      obtain ⟨x, hx, h⟩ := ih h
      exact ⟨x, by simp [hx], h⟩

/-- A machine with these mathematical functions and directories in front of the demonstration server. -/
def machine (m : Libm) (dirs : Text → Bool) : Environment :=
  ⟨m, constWorld weatherMsg, ⟨.err, .err, fun _ _ => .err⟩, ⟨fun _ => .err, fun _ => ⟨2025, 8, 5⟩⟩, dirs, ⟨2025, 8, 5⟩,
    ⟨2025, 8, 5⟩, fun _ => false⟩

theorem machine_run (m : Libm) (hm : AccurateRow m) (dirs : Text → Bool) :
    ∃ tr, mainEffect (machine m dirs) "icon-eu".toList ["temp_2m".toList] [3] tr .done ∧ ∃ x ∈ tr, IsData x.content := by
  obtain ⟨tr, h, hr⟩ := eu_fallback_run m hm ⟨.err, .err, fun _ _ => .err⟩ ⟨fun _ => .err, fun _ => ⟨2025, 8, 5⟩⟩
    dirs ⟨2025, 8, 5⟩ ["temp_2m".toList] [3]
  refine ⟨tr, h, ?_⟩
  obtain ⟨bytes, hb, -⟩ := C89_temperature m (constWorld weatherMsg) dirs ["temp_2m".toList] [3]
    ⟨.iconD2, ⟨2025, 8, 4⟩, "21".toList⟩ (.inl rfl) (by decide) tr hr (.inr (by decide)) _ step3 (.inr (by decide))
    weatherMsg 2 2 (constWorld_publishes weatherMsg_ok trivial (.inl rfl) _) weatherMsg_field (fun _ => none)
  obtain ⟨x, hx, -, hc⟩ := data_written hb
  exact ⟨x, hx, bytes, hc⟩

theorem machine_servers (m m' : Libm) (dirs dirs' : Text → Bool) : SameServers (machine m dirs) (machine m' dirs') :=
  ⟨rfl, rfl, rfl, fun _ _ => rfl⟩

/-- Two machines with different mathematical functions and different directories: both calls succeed, and there are data files. -/
example : ∃ (e e' : Environment) (tr tr' : List Write), SameServers e e' ∧ e.libm ≠ e'.libm ∧ e.dirs ≠ e'.dirs ∧
    mainEffect e "icon-eu".toList ["temp_2m".toList] [3] tr .done ∧
    mainEffect e' "icon-eu".toList ["temp_2m".toList] [3] tr' .done ∧ ∃ x ∈ tr, IsData x.content := by
  obtain ⟨m, hm⟩ := exists_accurateRow
  obtain ⟨tr, h, hx⟩ := machine_run { m with sinh := fun _ => .nan } ⟨hm.tan, hm.cos, hm.ln⟩ fun _ => false
  obtain ⟨tr', h', -⟩ := machine_run { m with sinh := fun _ => .pinf } ⟨hm.tan, hm.cos, hm.ln⟩ fun _ => true
  have hl : (machine { m with sinh := fun _ => .nan } fun _ => false).libm ≠
      (machine { m with sinh := fun _ => .pinf } fun _ => true).libm := fun hl => by
    cases congrFun (congrArg Libm.sinh hl) .nan
  have hd : (machine { m with sinh := fun _ => .nan } fun _ => false).dirs ≠
      (machine { m with sinh := fun _ => .pinf } fun _ => true).dirs := fun hd => by cases congrFun hd []
  exact ⟨_, _, tr, tr', machine_servers _ _ _ _, hl, hd, h, h', hx⟩

end Verif.Props
