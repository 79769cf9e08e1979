import Verif.Props.RepeatDemo

/-!
# C180, C181: what of a file matters, and what a file is about
-/

namespace Verif.Props

open Verif Verif.Grib2 MapTileRenderer
open Verif.Spec (AccurateRow exists_accurateRow)
open Verif.Spec.Grib2 (Msg encode F32Word Grid Packing packingDoc gridDoc)
open Verif.Spec.Decode (present rank)

/-! ## Specification -/

/-- Two messages describe the same grid: the same number of points and, on a regular grid, the same dimensions and
corners.  Anything else said about the grid may differ. -/
def SameGrid (m m' : Msg) : Prop :=
  m.numberOfPoints = m'.numberOfPoints ∧
  match m.grid, m'.grid with
  | .latLon g, .latLon g' => g.ni = g'.ni ∧ g.nj = g'.nj ∧ g.la1 = g'.la1 ∧ g.lo1 = g'.lo1 ∧ g.la2 = g'.la2 ∧ g.lo2 = g'.lo2
  | .unstructured .., .unstructured .. => True
  | _, _ => False

/-- `m'` differs from `m` in what it says about itself: producer, parameter, level, run, hour, kind of data, ... -/
def Relabelled (m m' : Msg) : Prop :=
  SameGrid m m' ∧ m'.packing = m.packing ∧ m'.bitmap = m.bitmap ∧ m'.data = m.data

/-- The message has a value for every point its bitmap marks, and point `i` has the value `field i`, or none. -/
def Carries (m : Msg) (field : Nat → Option Fl) : Prop :=
  m.data ≠ [] ∧ (m.bitmap = [] ∨ m.numberOfPoints ≤ 8 * m.bitmap.length) ∧
  rank m.bitmap m.numberOfPoints ≤ m.data.length ∧
  ∃ t, packingDoc m.packing = .simplePacking t ∧ ∀ i < m.numberOfPoints,
    field i = if present m.bitmap i then (m.data[rank m.bitmap i]?).map (unpackValue t) else none

/-- The two messages give the same values for the points of the same grid, however these are packed. -/
def SameField (m m' : Msg) : Prop := SameGrid m m' ∧ ∃ field, Carries m field ∧ Carries m' field

/-- The message can be read. -/
def GoodMsg (m : Msg) : Prop := m.ok ∧ (m.product.known ∨ m.coordinates = [])

/-- The same file, or files with messages for the same values in the same order. -/
def SameData (s s' : Res (List UInt8)) : Prop :=
  s = s' ∨ ∃ ms ms', s = .ok (ms.flatMap encode) ∧ s' = .ok (ms'.flatMap encode) ∧ ms ≠ [] ∧
    List.Forall₂ (fun m m' => GoodMsg m ∧ GoodMsg m' ∧ (Relabelled m m' ∨ SameField m m')) ms ms'

/-- All files of the one world are those of the other one up to labels and packing. -/
def SameWorld (w w' : World) : Prop := ∀ name, SameData (w.stream name) (w'.stream name)

/-! ## Documents that give the same values -/

/-- What the converters take from a document. -/
def Alike (d d' : Document) : Prop :=
  (∀ {T : Type} (missing : T) (f : Fl → T), calculateDataPoints d missing f = calculateDataPoints d' missing f) ∧
  getDimensionsAndExtent d = getDimensionsAndExtent d'

theorem Alike.refl (d : Document) : Alike d d := ⟨fun _ _ => rfl, rfl⟩

theorem extent_of_sameGrid {m m' : Msg} (h : SameGrid m m') : getDimensionsAndExtent m.doc = getDimensionsAndExtent m'.doc := by
  obtain ⟨_, h⟩ := h
  have e : ∀ m : Msg, m.doc.section3.template = gridDoc m.grid := fun _ => rfl
  unfold getDimensionsAndExtent
  rw [e, e]
  rcases hg : m.grid with g | ⟨a, b, c, d⟩ <;> rcases hg' : m'.grid with g' | ⟨a', b', c', d'⟩ <;> rw [hg, hg'] at h
  · obtain ⟨h1, h2, h3, h4, h5, h6⟩ := h
    simp only [gridDoc, h1, h2, h3, h4, h5, h6]
  · exact h.elim
  · exact h.elim
  · rfl

theorem alike_relabelled {m m' : Msg} (h : Relabelled m m') : Alike m.doc m'.doc := by
  obtain ⟨hg, h1, h2, h3⟩ := h
  refine ⟨fun missing f => ?_, extent_of_sameGrid hg⟩
  have e1 : m.doc.section5.template = m'.doc.section5.template := by
    show packingDoc m.packing = packingDoc m'.packing
    rw [h1]
  have e2 : m.doc.section6.bitmap = m'.doc.section6.bitmap := h2.symm
  have e3 : m.doc.section7.dataPoints = m'.doc.section7.dataPoints := h3.symm
  have e4 : m.doc.section3.numberOfDatapoints = m'.doc.section3.numberOfDatapoints := hg.1
  unfold calculateDataPoints
  rw [e1, e2, e3, e4]

theorem carries_values {T : Type} {m : Msg} {field : Nat → Option Fl} (h : Carries m field) (missing : T) (f : Fl → T) :
    calculateDataPoints m.doc missing f =
      .ok ((List.range m.numberOfPoints).map fun i => ((field i).map f).getD missing) := by
  obtain ⟨h1, h2, h3, t, ht, h4⟩ := h
  have ht' : m.doc.section5.template = .simplePacking t := ht
  have hraw : m.doc.section7.dataPoints ≠ [] := h1
  have hne : (m.doc.section7.dataPoints).isEmpty = false := by
    cases hd : m.doc.section7.dataPoints with
    | nil => exact absurd hd hraw
    | cons _ _ => rfl
  have key := (decodeLoop_spec m.doc.section6.bitmap m.doc.section7.dataPoints
    (fun x => f (unpackValue t x)) missing m.doc.section3.numberOfDatapoints 0)
  simp only [Nat.zero_add] at key
  have hc := key.1 ⟨by rcases h2 with h | h; exacts [.inl h, .inr (.inr h)], .inl h3⟩
  obtain ⟨vs, hv, hl, _⟩ := hc
  have hv' : calculateDataPoints m.doc missing f = .ok vs := by
    unfold calculateDataPoints
    rw [ht']
    simp only [hne, Bool.false_eq_true, if_false]
    exact hv
  obtain ⟨_, hk⟩ := C06_bitmap m.doc t missing f vs ht' hraw hv'
  rw [hv']
  congr 1
  apply List.ext_getElem?
  intro i
  have hn : m.doc.section3.numberOfDatapoints = m.numberOfPoints := rfl
  rw [hn] at hl hk
  by_cases hi : i < m.numberOfPoints
  · rw [List.getElem?_map, List.getElem?_range hi]
    simp only [Option.map_some]
    rw [h4 i hi]
    cases hp : present m.bitmap i with
    | true =>
      obtain ⟨x, hx, hvx⟩ := (hk i hi).1 hp
      have hx : m.data[rank m.bitmap i]? = some x := hx
      rw [hvx]
      simp [hx]
    | false =>
      rw [(hk i hi).2 hp]
      simp
  · rw [List.getElem?_eq_none (by omega), List.getElem?_eq_none (by simp; omega)]

theorem alike_sameField {m m' : Msg} (h : SameField m m') : Alike m.doc m'.doc := by
  obtain ⟨hg, field, h1, h2⟩ := h
  refine ⟨fun missing f => ?_, extent_of_sameGrid hg⟩
  rw [carries_values h1, carries_values h2, hg.1]

/-! ## Files with the same data -/

/-- Results that are of the same kind and related. -/
def ResRel {α : Type} (R : α → α → Prop) (a b : Res α) : Prop :=
  match a, b with
  | .ok x, .ok y => R x y
  | .err, .err => True
  | .panic, .panic => True
  | _, _ => False

theorem ResRel.refl {α : Type} {R : α → α → Prop} (h : ∀ a, R a a) (r : Res α) : ResRel R r r := by
  cases r <;> simp [ResRel, h]

theorem ResRel.bind {α β : Type} {R : α → α → Prop} {a b : Res α} (h : ResRel R a b) {f g : α → Res β}
    (hf : ∀ x y, R x y → f x = g y) : a.bind f = b.bind g := by
  cases a <;> cases b <;> simp only [ResRel] at h <;> first | exact h.elim | rfl | exact hf _ _ h

theorem sameData_docs {ms ms' : List Msg}
    (h : List.Forall₂ (fun m m' => GoodMsg m ∧ GoodMsg m' ∧ (Relabelled m m' ∨ SameField m m')) ms ms') :
    (∀ m ∈ ms, GoodMsg m) ∧ (∀ m ∈ ms', GoodMsg m) ∧ List.Forall₂ Alike (ms.map Msg.doc) (ms'.map Msg.doc) := by
  induction h with
  | nil => simp
  | cons h _ ih =>
    obtain ⟨a, b, c⟩ := h
    refine ⟨?_, ?_, ?_⟩
    · intro m hm
      rcases List.mem_cons.mp hm with rfl | hm
      exacts [a, ih.1 m hm]
    · intro m hm
      rcases List.mem_cons.mp hm with rfl | hm
      exacts [b, ih.2.1 m hm]
    · exact .cons (c.elim alike_relabelled alike_sameField) ih.2.2

theorem readEmpty : readSingleDoc [] = .err := by decide +kernel

theorem readMulti_alike {s s' : Res (List UInt8)} (h : SameData s s') :
    ResRel (List.Forall₂ Alike) (s.bind readMultiDoc) (s'.bind readMultiDoc) := by
  rcases h with rfl | ⟨ms, ms', rfl, rfl, hne, h⟩
  · refine .refl (fun l => ?_) _
    induction l with
    | nil => exact .nil
    | cons d _ ih => exact .cons (.refl d) ih
  · obtain ⟨h1, h2, h3⟩ := sameData_docs h
    have hne' : ms' ≠ [] := by
      rintro rfl
      cases h
      exact hne rfl
    have e1 := C02_multi ms hne h1 [] readEmpty
    have e2 := C02_multi ms' hne' h2 [] readEmpty
    rw [List.append_nil] at e1 e2
    show ResRel _ (readMultiDoc (ms.flatMap encode)) (readMultiDoc (ms'.flatMap encode))
    rw [e1, e2]
    exact h3

theorem readFirst {m : Msg} (h : GoodMsg m) (ms : List Msg) :
    (Res.ok ((m :: ms).flatMap encode)).bind (fun b => (readSingleDoc b).bind fun r => .ok r.1) = .ok m.doc := by
  have e : readSingleDoc ((m :: ms).flatMap encode) = .ok (m.doc, ms.flatMap encode) := by
    rw [List.flatMap_cons]
    exact C01_round_trip m h.1 h.2 _
  have g : ∀ (g : List UInt8 → Res (Document × List UInt8)) (s r : List UInt8) (d : Document), g s = .ok (d, r) →
      (Res.ok s).bind (fun b => (g b).bind fun r => .ok r.1) = .ok d := by
    intro g s r d h
    show Res.bind (g s) _ = _
    rw [h]
    rfl
  exact g readSingleDoc _ _ _ e

theorem readSingle_alike {s s' : Res (List UInt8)} (h : SameData s s') :
    ResRel Alike (s.bind fun b => (readSingleDoc b).bind fun r => .ok r.1)
      (s'.bind fun b => (readSingleDoc b).bind fun r => .ok r.1) := by
  rcases h with rfl | ⟨ms, ms', rfl, rfl, hne, h⟩
  · exact .refl Alike.refl _
  · cases h with
    | nil => exact absurd rfl hne
    | @cons m m' ms ms' h _ =>
      obtain ⟨a, b, c⟩ := h
      rw [readFirst a, readFirst b]
      exact c.elim alike_relabelled alike_sameField

theorem filterDocs_alike {ds ds' : List Document} (h : List.Forall₂ Alike ds ds') (range : Option (Nat × Nat)) :
    List.Forall₂ Alike (filterDocs ds range) (filterDocs ds' range) := by
  cases range with
  | none => exact h
  | some r =>
    obtain ⟨lo, hi⟩ := r
    show List.Forall₂ Alike (List.filterMap _ (ds.zipIdx 0)) (List.filterMap _ (ds'.zipIdx 0))
    generalize 0 = n
    induction h generalizing n with
    | nil => exact .nil
    | cons hd _ ih =>
      rw [List.zipIdx_cons, List.zipIdx_cons, List.filterMap_cons, List.filterMap_cons]
      by_cases hc : lo ≤ n ∧ n ≤ hi
      · simp only [hc, and_self, if_true]
        exact .cons hd (ih _)
      · simp only [hc, if_false]
        exact ih _

theorem mapM_alike {β : Type} {f : Document → Res β} (hf : ∀ d d', Alike d d' → f d = f d') {ds ds' : List Document}
    (h : List.Forall₂ Alike ds ds') : Res.mapM f ds = Res.mapM f ds' := by
  induction h with
  | nil => rfl
  | cons hd _ ih =>
    unfold Res.mapM
    rw [hf _ _ hd, ih]

theorem index_alike {ds ds' : List Document} (h : List.Forall₂ Alike ds ds') (i : Nat) :
    ResRel Alike (Res.index ds i) (Res.index ds' i) := by
  unfold Res.index
  induction h generalizing i with
  | nil => simp [ResRel]
  | cons hd _ ih =>
    cases i with
    | zero => simpa [ResRel] using hd
    | succ i => simpa using ih i

section Worlds

variable {w w' : World} (h : SameWorld w w')
include h

theorem SameWorld.readRectangular {T : Type} (name : Text) (missing : T) (f : Fl → T) :
    w.readRectangular name missing f = w'.readRectangular name missing f :=
  ResRel.bind (readSingle_alike (h name)) fun d d' hd => by
    unfold createRegularGrid
    rw [hd.1, hd.2]

theorem SameWorld.readUnstructured {T : Type} (name : Text) (missing : T) (f : Fl → T) (grid : UnstructuredGrid) :
    w.readUnstructured name missing f grid = w'.readUnstructured name missing f grid :=
  ResRel.bind (readSingle_alike (h name)) fun d d' hd => by
    unfold convertUnstructured
    rw [hd.1]

theorem SameWorld.readMultiUnstructured {T : Type} (name : Text) (missing : T) (f : Fl → T) (grid : UnstructuredGrid)
    (range : Option (Nat × Nat)) :
    w.readMultiUnstructured name missing f grid range = w'.readMultiUnstructured name missing f grid range :=
  ResRel.bind (readMulti_alike (h name)) fun d d' hd =>
    mapM_alike (fun a b hab => by unfold convertUnstructured; rw [hab.1]) (filterDocs_alike hd range)

theorem SameWorld.readHorConst (url : Text) : Swiss.readHorConst w url = Swiss.readHorConst w' url :=
  ResRel.bind (readMulti_alike (h url)) fun _ _ hd =>
    ResRel.bind (index_alike hd 4) fun _ _ h4 => ResRel.bind (index_alike hd 3) fun _ _ h3 => by
      unfold getLatLonValues
      rw [h4.1, h3.1]

end Worlds

/-! ## C180 -/

/-- **C180.** Of the files nothing matters but the grid and the unpacked values: with servers and disks whose files hold
messages for the same values, a call has the same effects, whatever the messages say about their producer, parameter,
level, run and hour, and however their values are packed. -/
theorem C180_only_values (e : Environment) (w' : World) (h : SameWorld e.world w') (model : Text) (vars : List Text)
    (filter : List Nat) : mainEffect { e with world := w' } model vars filter = mainEffect e model vars filter := by
  obtain ⟨m, w, s, cal, dirs, today, now, available⟩ := e
  have h : SameWorld w w' := h
  have h1 : ∀ {T : Type} name (missing : T) f, w'.readRectangular name missing f = w.readRectangular name missing f :=
    fun name missing f => (h.readRectangular name missing f).symm
  have h2 : ∀ {T : Type} name (missing : T) f grid, w'.readUnstructured name missing f grid =
    w.readUnstructured name missing f grid := fun name missing f grid => (h.readUnstructured name missing f grid).symm
  have h3 : ∀ {T : Type} name (missing : T) f grid range, w'.readMultiUnstructured name missing f grid range =
    w.readMultiUnstructured name missing f grid range :=
    fun name missing f grid range => (h.readMultiUnstructured name missing f grid range).symm
  have h4 : ∀ url, Swiss.readHorConst w' url = Swiss.readHorConst w url := fun url => (h.readHorConst url).symm
  have d : Dwd.renderRun m w' dirs vars filter = Dwd.renderRun m w dirs vars filter := by
    have l1 : Dwd.cloudPrecipLayers w' = Dwd.cloudPrecipLayers w := by
      funext run clct totPrec step
      simp only [Dwd.cloudPrecipLayers, Dwd.readCloudPrecip, Dwd.readWeather, Dwd.readGrid, h1]
    have l2 : Dwd.windLayers w' = Dwd.windLayers w := by
      funext run step
      simp only [Dwd.windLayers, Dwd.readWind, Dwd.readGrid, h1]
    have l3 : Dwd.tempLayers w' = Dwd.tempLayers w := by
      funext run step
      simp only [Dwd.tempLayers, Dwd.readTemp, Dwd.readGrid, h1]
    have l4 : Dwd.verticalCloudLayers w' = Dwd.verticalCloudLayers w := by
      funext run levels hhl step
      simp only [Dwd.verticalCloudLayers, Dwd.readClc, h1]
    have l5 : Dwd.verticalWindLayers w' = Dwd.verticalWindLayers w := by
      funext run levels hhl step
      simp only [Dwd.verticalWindLayers, Dwd.readUV, h1]
    funext run
    simp only [Dwd.renderRun, Dwd.renderCloudPrecip, Dwd.renderWind, Dwd.renderTemp, Dwd.renderVerticalCloud,
      Dwd.renderVerticalWind, Dwd.readHhl, l1, l2, l3, l4, l5, h1]
  have sw : Swiss.renderRun m w' s cal dirs vars filter = Swiss.renderRun m w s cal dirs vars filter := by
    funext grid vertUrl t
    simp only [Swiss.renderRun, Swiss.renderCloudPrecip, Swiss.renderWind, Swiss.renderTemp, Swiss.renderVerticalCloud,
      Swiss.renderVerticalWind, Swiss.readCloudPrecip, Swiss.readWeather, Swiss.readWind, Swiss.readTemp, Swiss.readGrid,
      Swiss.readVerticalCloud, Swiss.readVerticalWind, Swiss.readHhl, h2, h3]
  simp only [mainEffect, Dwd.renderLatest, Swiss.renderLatest, d, sw, h4]

/-- The same numbers as in `weatherMsg` on the same grid, about another time and parameter, with another reference value
and other unused bits of the bitmap. -/
def seaMsg : Msg :=
  { fieldMsg ⟨true, 127, 0⟩ [0xBF] [1, 4, 62] with
    discipline := .oceanographic, center := 7, time := ⟨1999, 12, 31, 18, 0, 0⟩
    product := .p4_0 .moisture 1 (List.replicate 23 0) }

theorem seaMsg_good : GoodMsg seaMsg := by
  refine ⟨?_, .inl trivial⟩
  have h : (fieldMsg ⟨true, 127, 0⟩ [0xBF] [1, 4, 62]).ok :=
    fieldMsg_ok ⟨by decide, by decide⟩ (by decide) (by decide) (by decide)
  obtain ⟨a1, a2, a3, a4, a5, a6, a7, a8, a9, a10, a11, a12, a13, a14, a15, a16, a17, a18, a19, a20, a21, a22, a23, a24,
    a25, a26, a27, a28, a29⟩ := h
  refine ⟨a1, trivial, a3, a4, by decide, a6, a7, a8, a9, ?_, a11, a12, a13, a14, a15, a16, a17, a18, ?_, by decide, a21, a22,
    a23, a24, a25, a26, a27, a28, a29⟩
  · show Spec.Grib2.timeOk ⟨1999, 12, 31, 18, 0, 0⟩
    unfold Spec.Grib2.timeOk
    decide
  · exact ⟨trivial, by decide, rfl⟩

/-- Point 1 has no value. -/
def weatherField (i : Nat) : Option Fl := [some (.fin 0), none, some (.fin 3), some (.fin 61)].getD i none

theorem weatherMsg_carries : Carries weatherMsg weatherField :=
  ⟨by decide, .inr (by decide), by decide +kernel, _, rfl,
    show ∀ i < 4, weatherField i = if present [0xB0] i then ([0, 3, 61][rank [0xB0] i]?).map
      (unpackValue ⟨F32Word.value ⟨false, 0, 0⟩, 0, 0, 16, .floatingPoint⟩) else none by decide +kernel⟩

theorem seaMsg_carries : Carries seaMsg weatherField :=
  ⟨by decide, .inr (by decide), by decide +kernel, _, rfl,
    show ∀ i < 4, weatherField i = if present [0xBF] i then ([1, 4, 62][rank [0xBF] i]?).map
      (unpackValue ⟨F32Word.value ⟨true, 127, 0⟩, 0, 0, 16, .floatingPoint⟩) else none by decide +kernel⟩

theorem other_same : SameField weatherMsg seaMsg :=
  ⟨⟨rfl, rfl, rfl, rfl, rfl, rfl, rfl⟩, weatherField, weatherMsg_carries, seaMsg_carries⟩

theorem constWorld_stream (msg : Msg) (name : Text) :
    (constWorld msg).stream name = if Dwd.isUrl name then .ok (encode msg) else .err := by
  unfold World.stream constWorld
  split
  · show Res.bind (Res.okOr (some (encode msg))) _ = _
    simp [Res.okOr, Res.bind]
  · rfl

theorem constWorld_same {m m' : Msg} (h : GoodMsg m) (h' : GoodMsg m') (hs : Relabelled m m' ∨ SameField m m') :
    SameWorld (constWorld m) (constWorld m') := by
  intro name
  rw [constWorld_stream, constWorld_stream]
  split
  · exact .inr ⟨[m], [m'], by simp, by simp, by simp, .cons ⟨h, h', hs⟩ .nil⟩
  · exact .inl rfl

/-- The hypothesis of C180 can be met by servers with different messages, by a call that succeeds and writes files. -/
example (m : Libm) (hm : AccurateRow m) (dirs : Text → Bool) (today : Date) (filter : List Nat) :
    encode weatherMsg ≠ encode seaMsg ∧ ∃ tr,
      mainEffect ⟨m, constWorld weatherMsg, webService, demoCalendar, dirs, today, today, fun _ => false⟩ "icon-d2".toList []
        filter tr .done ∧
      mainEffect ⟨m, constWorld seaMsg, webService, demoCalendar, dirs, today, today, fun _ => false⟩ "icon-d2".toList []
        filter tr .done := by
  refine ⟨by decide +kernel, ?_⟩
  obtain ⟨tr, h⟩ := lossless_succeeds m hm dirs today [] filter
  have e : (lossyEnvironment m dirs today fun _ => false).world = constWorld weatherMsg := by
    show shakyWorld _ _ = _
    unfold shakyWorld constWorld
    simp
  have h1 : mainEffect ⟨m, constWorld weatherMsg, webService, demoCalendar, dirs, today, today, fun _ => false⟩
      "icon-d2".toList [] filter tr .done := by
    rw [← e]
    exact h
  refine ⟨tr, h1, ?_⟩
  have := C180_only_values ⟨m, constWorld weatherMsg, webService, demoCalendar, dirs, today, today, fun _ => false⟩
    (constWorld seaMsg) (constWorld_same ⟨weatherMsg_ok, .inl trivial⟩ seaMsg_good (.inr other_same)) "icon-d2".toList []
    filter
  rw [← this] at h1
  exact h1

/-! ## C181 -/

/-- **C181** does not hold for the code: a call succeeds although the messages in the files it uses say that they are for
another day than that of the run. -/
theorem C181_counterexample : ¬ ∀ (e : Environment) (vars : List Text) (filter : List Nat) (tr : List Write) (run : Run),
    Dwd.findLatestRun .iconD2 e.today e.now e.available = .ok run → mainEffect e "icon-d2".toList vars filter tr .done →
    ∀ v, ChosenVar vars v → ∀ s ∈ run.model.forecastSteps, Chosen filter s → ∀ r, Uses run.model v s.nr r →
      ∀ msg, Publishes e.world run r msg →
        msg.time.year = run.date.year ∧ msg.time.month = run.date.month ∧ msg.time.day = run.date.day := by
  intro hall
  obtain ⟨m, hm⟩ := exists_accurateRow
  obtain ⟨tr, h⟩ := lossless_succeeds m hm (fun _ => false) ⟨2025, 8, 5⟩ [LayerType.temp2m.name] [3]
  have e : (lossyEnvironment m (fun _ => false) ⟨2025, 8, 5⟩ fun _ => false).world = constWorld weatherMsg := by
    show shakyWorld _ _ = _
    unfold shakyWorld constWorld
    simp
  have hd : Dwd.IsDwd FcModel.iconD2 := .inl rfl
  have := hall _ _ _ tr (fallbackRun ⟨2025, 8, 5⟩) (lossy_run _ .iconD2 hd) h .temp2m (.inr (by simp)) ⟨3, []⟩
    (by decide) (.inr (by simp)) (.single .t2m 3) rfl weatherMsg (by
      rw [e]
      exact constWorld_publishes weatherMsg_ok trivial (.inl rfl) _)
  exact absurd this.1 (by decide +kernel)

/-- What a message says about itself, replaced. -/
def relabel (m : Msg) (discipline : Discipline) (center subcenter : Nat) (time : DateTime) (product : Spec.Grib2.Product) : Msg :=
  { m with discipline := discipline, center := center, subcenter := subcenter, time := time, product := product }

theorem relabelled_relabel (m : Msg) (d : Discipline) (c c' : Nat) (t : DateTime) (p : Spec.Grib2.Product) :
    Relabelled m (relabel m d c c' t p) := by
  refine ⟨⟨rfl, ?_⟩, rfl, rfl, rfl⟩
  show match m.grid, m.grid with
    | .latLon g, .latLon g' =>
      g.ni = g'.ni ∧ g.nj = g'.nj ∧ g.la1 = g'.la1 ∧ g.lo1 = g'.lo1 ∧ g.la2 = g'.la2 ∧ g.lo2 = g'.lo2
    | .unstructured .., .unstructured .. => True
    | _, _ => False
  cases m.grid <;> simp

/-- **C181, what holds instead.** Whatever parameter, level, hour, run and producer the messages of all files claim to be
about, the call writes the same files and ends the same way: no such claim is ever looked at. -/
theorem C181_never_looked_at_partial (e : Environment) (w' : World) (label : Msg → Discipline × Nat × Nat × DateTime × Spec.Grib2.Product)
    (h : ∀ name, w'.stream name = e.world.stream name ∨ ∃ ms, ms ≠ [] ∧
      (∀ m ∈ ms, GoodMsg m ∧ GoodMsg (relabel m (label m).1 (label m).2.1 (label m).2.2.1 (label m).2.2.2.1 (label m).2.2.2.2)) ∧
      e.world.stream name = .ok (ms.flatMap encode) ∧
      w'.stream name = .ok ((ms.map fun m =>
        relabel m (label m).1 (label m).2.1 (label m).2.2.1 (label m).2.2.2.1 (label m).2.2.2.2).flatMap encode))
    (model : Text) (vars : List Text) (filter : List Nat) (tr : List Write) (o : Outcome) :
    mainEffect { e with world := w' } model vars filter tr o ↔ mainEffect e model vars filter tr o := by
  rw [C180_only_values e w' _ model vars filter]
  intro name
  rcases h name with h | ⟨ms, hne, hg, h1, h2⟩
  · exact .inl h.symm
  · refine .inr ⟨ms, _, h1, h2, hne, ?_⟩
    clear h1 h2 hne
    induction ms with
    | nil => exact .nil
    | cons m ms ih =>
      exact .cons ⟨(hg m (by simp)).1, (hg m (by simp)).2, .inl (relabelled_relabel ..)⟩
        (ih fun m' hm' => hg m' (List.mem_cons_of_mem _ hm'))

/-- The hypotheses can be met: every file is relabelled as an analysis of the sea of the year 1999. -/
example (m : Libm) (dirs : Text → Bool) (today : Date) (vars : List Text) (filter : List Nat) (tr : List Write) (o : Outcome) :
    mainEffect ⟨m, constWorld (relabel weatherMsg .oceanographic 7 0 ⟨1999, 12, 31, 18, 0, 0⟩
        (.p4_0 .moisture 1 (List.replicate 23 0))), webService, demoCalendar, dirs, today, today, fun _ => false⟩
        "icon-d2".toList vars filter tr o ↔
      mainEffect ⟨m, constWorld weatherMsg, webService, demoCalendar, dirs, today, today, fun _ => false⟩ "icon-d2".toList vars
        filter tr o := by
  have hg : GoodMsg (relabel weatherMsg .oceanographic 7 0 ⟨1999, 12, 31, 18, 0, 0⟩ (.p4_0 .moisture 1 (List.replicate 23 0))) := by
    refine ⟨?_, .inl trivial⟩
    obtain ⟨a1, a2, a3, a4, a5, a6, a7, a8, a9, a10, a11, a12, a13, a14, a15, a16, a17, a18, a19, a20, a21, a22, a23, a24,
      a25, a26, a27, a28, a29⟩ := weatherMsg_ok
    refine ⟨a1, trivial, a3, a4, by decide, by decide, a7, a8, a9, ?_, a11, a12, a13, a14, a15, a16, a17, a18, ?_, by decide, a21,
      a22, a23, a24, a25, a26, a27, a28, a29⟩
    · show Spec.Grib2.timeOk ⟨1999, 12, 31, 18, 0, 0⟩
      unfold Spec.Grib2.timeOk
      decide
    · exact ⟨trivial, by decide, rfl⟩
  exact C181_never_looked_at_partial ⟨m, constWorld weatherMsg, webService, demoCalendar, dirs, today, today, fun _ => false⟩ _
    (fun _ => (.oceanographic, 7, 0, ⟨1999, 12, 31, 18, 0, 0⟩, .p4_0 .moisture 1 (List.replicate 23 0)))
    (fun name => by
      rw [constWorld_stream]
      show _ = (constWorld weatherMsg).stream name ∨ _
      rw [constWorld_stream]
      split
      · exact .inr ⟨[weatherMsg], by simp, fun m hm => by
          rw [List.mem_singleton.mp hm]
          exact ⟨⟨weatherMsg_ok, .inl trivial⟩, hg⟩, by simp, by simp⟩
      · exact .inl rfl) _ _ _ _ _

end Verif.Props
