import Verif.Props.Locality

/-!
# Property C171 for MeteoSwiss: each byte of a file depends on one point of a few published messages only
-/

namespace Verif.Props

open Verif MapTileRenderer Metobin
open Verif.Spec (Filled cell)
open Verif.Spec.Grib2 (Msg encode)
open Verif.Spec.Decode (present rank)

/-! ## Specification -/

/-- A message of a run of MeteoSwiss: number `index` (from 0) of the file of a variable at a step, or of the file of heights. -/
inductive Record where
  | of (x : Swiss.Variable) (step index : Nat)
  | height (index : Nat)
  deriving DecidableEq

/-- The message is published. -/
def Recorded (w : World) (s : Swiss.Service) (vertUrl : Text) (t : Instant) : Record → Msg → Prop
  | .of x n i, msg => ∃ steps st msgs, Swiss.steps s t x (x = .clct) = .ok steps ∧ st ∈ steps ∧ st.nr = n ∧
      Delivers w st.url msgs ∧ msgs[i]? = some msg
  | .height i, msg => ∃ msgs, Delivers w vertUrl msgs ∧ msgs[i]? = some msg

/-- The messages that a variable at a step needs. -/
def UsesRecord : LayerType → Nat → Record → Prop
  | .cloudPrecip, n, r => r ∈ [Record.of .clct n 0, .of .totPrec (n - 1) 0, .of .totPrec n 0, .of .ceiling n 0]
  | .wind10m, n, r => r ∈ [Record.of .u10m n 0, .of .v10m n 0, .of .vmax10m n 0]
  | .temp2m, n, r => r = .of .t2m n 0
  | .verticalCloud, n, r => ∃ k, k < 49 ∧ (r = .height (31 + k) ∨ r = .of .clc n (31 + k))
  | .verticalWind, n, r => ∃ k, k < 49 ∧ (r = .height (31 + k) ∨ r = .of .u n (31 + k) ∨ r = .of .v n (31 + k))
  | .weather, _, _ => False

/-- The messages on which byte `j` of a cell may depend. -/
def records (n : Nat) : BinType → Nat → List Record
  | .temp2m, _ => [.of .t2m n 0]
  | .precip, _ => [.of .totPrec (n - 1) 0, .of .totPrec n 0]
  | .weather, j => if j = 0 then [.of .clct n 0] else [.of .ceiling n 0]
  | .wind10m, j => if j = 2 then [.of .u10m n 0, .of .v10m n 0, .of .vmax10m n 0] else [.of .u10m n 0, .of .v10m n 0]
  | .verticalClouds, j => if j % 2 = 0 then [.height (31 + j / 2)] else [.of .clc n (31 + j / 2)]
  | .verticalWind, j => if j % 3 = 0 then [.height (31 + j / 3)] else [.of .u n (31 + j / 3), .of .v n (31 + j / 3)]

/-! ## The bytes as a function of the unpacked numbers -/

/-- Byte `j` of a cell. -/
def byteOfSwiss (n : Nat) (v : Record → Option Fl) : BinType → Nat → UInt8
  | .temp2m, _ => tempByte (num (v (.of .t2m n 0)))
  | .precip, _ => precipByte (some (.fin 0, Fl.sub f32 (unwrapOr (num (v (.of .totPrec n 0))) (.fin 0))
      (unwrapOr (num (v (.of .totPrec (n - 1) 0))) (.fin 0))))
  | .weather, j =>
    if j = 0 then wwByte none (kept (.fin (-1)) clctFraction (v (.of .clct n 0))) else ceilingByte (num (v (.of .ceiling n 0)))
  | .wind10m, j => (windBytes (bothOf (num (v (.of .u10m n 0))) (num (v (.of .v10m n 0))))
      (num (v (.of .vmax10m n 0)))).getD j 0
  | .verticalClouds, j =>
    if j % 2 = 0 then (kept 0 hhlByte (v (.height (31 + j / 2)))).getD 255
    else (kept 0 clcByte (v (.of .clc n (31 + j / 2)))).getD 255
  | .verticalWind, j =>
    if j % 3 = 0 then (kept 0 hhlByte (v (.height (31 + j / 3)))).getD 255
    else (uvBytes (bothOf (kept 255 uvByte (v (.of .u n (31 + j / 3))))
      (kept 255 uvByte (v (.of .v n (31 + j / 3)))))).getD (j % 3 - 1) 0

theorem byteOfSwiss_records {n : Nat} {v v' : Record → Option Fl} {b : BinType} {j : Nat}
    (h : ∀ r ∈ records n b j, v r = v' r) : byteOfSwiss n v b j = byteOfSwiss n v' b j := by
  cases b with
  | temp2m => simp only [byteOfSwiss, h _ (List.mem_singleton.mpr rfl)]
  | precip =>
    simp only [records, List.mem_cons, List.not_mem_nil, or_false, forall_eq_or_imp, forall_eq] at h
    simp only [byteOfSwiss, h.1, h.2]
  | weather =>
    simp only [records] at h
    simp only [byteOfSwiss]
    split
    next hj =>
      simp only [hj, if_true, List.mem_cons, List.not_mem_nil, or_false, forall_eq] at h
      rw [h]
    next hj =>
      simp only [hj, if_false, List.mem_cons, List.not_mem_nil, or_false, forall_eq] at h
      rw [h]
  | wind10m =>
    simp only [records] at h
    simp only [byteOfSwiss]
    by_cases hj : j = 2
    · simp only [hj, if_true, List.mem_cons, List.not_mem_nil, or_false, forall_eq_or_imp, forall_eq] at h
      rw [h.1, h.2.1, h.2.2]
    · simp only [hj, if_false, List.mem_cons, List.not_mem_nil, or_false, forall_eq_or_imp, forall_eq] at h
      rw [h.1, h.2]
      unfold windBytes
      split
      · rcases j with _ | _ | _ | j
        · rfl
        · rfl
        · exact absurd rfl hj
        · rfl
      · rfl
  | verticalClouds =>
    simp only [records] at h
    simp only [byteOfSwiss]
    split
    next hj =>
      simp only [hj, if_true, List.mem_cons, List.not_mem_nil, or_false, forall_eq] at h
      rw [h]
    next hj =>
      simp only [hj, if_false, List.mem_cons, List.not_mem_nil, or_false, forall_eq] at h
      rw [h]
  | verticalWind =>
    simp only [records] at h
    simp only [byteOfSwiss]
    split
    next hj =>
      simp only [hj, if_true, List.mem_cons, List.not_mem_nil, or_false, forall_eq] at h
      rw [h]
    next hj =>
      simp only [hj, if_false, List.mem_cons, List.not_mem_nil, or_false, forall_eq_or_imp, forall_eq] at h
      rw [h.1, h.2]

theorem weather_explicit_none {C E : LatLonValueGrid Fl} {ni nj : Nat} {c e : Nat → Nat → Option Fl} (hC : Filled C ni nj)
    (hE : Filled E ni nj) (ec : ∀ x y, x < ni → y < nj → cell C ni x y = c x y)
    (ee : ∀ x y, x < ni → y < nj → cell E ni x y = e x y)
    {bytes : List UInt8} (hb : weatherBin ⟨C, E, none⟩ = .ok bytes) :
    Bytes bytes ni nj 2 fun x y j => if j = 0 then wwByte none (c x y) else ceilingByte (e x y) := by
  have he : ∀ x y, x < ni → y < nj → (((⟨C, E, none⟩ : WeatherLayer).getWwByXY x y).bind fun ww =>
      (C.getValueByXY x y).bind fun clct => (E.getValueByXY x y).bind fun c => .ok [wwByte ww clct, ceilingByte c]) =
      .ok [wwByte none (c x y), ceilingByte (e x y)] := by
    intro x y hx hy
    unfold WeatherLayer.getWwByXY
    simp only [hC.get hx hy, hE.get hx hy, ec x y hx hy, ee x y hx hy]
    rfl
  unfold weatherBin WeatherLayer.dims at hb
  simp only [hC.dims'] at hb
  obtain ⟨h1, h2⟩ := forCells_at (k := 2) hb fun x y b hx hy h => by rw [he x y hx hy] at h; cases h; rfl
  refine ⟨h1, fun x y j hx hy hj => ?_⟩
  obtain ⟨b, b1, _, b3⟩ := h2 x y hx hy
  rw [he x y hx hy] at b1
  cases b1
  rw [b3 j hj]
  rcases j with _ | _ | j
  · rfl
  · rfl
  · omega

/-! ## What is read -/

/-- The unpacked number of the point that a cell shows. -/
def unpackedAt (o : Option Nat) (msg : Msg) : Option Fl := o.bind (unpacked msg)

theorem converted_packed {T : Type} [GridValue T] {grid : UnstructuredGrid} {lat lon msg : Msg} {n : Nat}
    (hg : Placed grid lat lon n) (hok : msg.ok) (hf : PointField msg n) {missing : T}
    (heq : GridValue.eq missing missing = true) {f : Fl → T} {G : LatLonValueGrid T}
    (h : Grib2.convertUnstructured missing f grid msg.doc = .ok G) :
    Filled G 1851 847 ∧ ∀ x y, x < 1851 → y < 847 →
      cell G 1851 x y = kept missing f (unpackedAt (pointOf grid x y) msg) := by
  obtain ⟨hF, hmiss, _⟩ := converted hg hok hf h
  refine ⟨hF, fun x y hx hy => ?_⟩
  unfold Grib2.convertUnstructured at h
  obtain ⟨vs, hvs, h⟩ := bind_ok' h
  obtain ⟨G', hG, h⟩ := bind_ok' h
  cases h
  obtain ⟨ref, r, E, D, bits, typ, hpk, -⟩ := hf.packing
  have ht5 : msg.doc.section5.template = .simplePacking ⟨ref.value, E, D, bits, typ⟩ := by
    show Spec.Grib2.packingDoc msg.packing = _
    rw [hpk]; rfl
  obtain ⟨l1, l2⟩ := C06_bitmap msg.doc _ missing f vs ht5 hf.data hvs
  have hn : msg.doc.section3.numberOfDatapoints = n := hf.points
  rw [hn] at l1 l2
  have hdim : grid.latLonGrid.dimensions = (1851, 847) := by rw [hg.regular]; rfl
  obtain ⟨r, e, r1, -, r3, r4, r5⟩ := C25_regrid (⟨grid, vs, missing⟩ : UnstructuredValueGrid T) hg.sized
  rw [e] at hG
  cases hG
  simp only [hdim] at r1 r4 r5
  obtain ⟨o, ho, hval⟩ := r5 x y hx hy
  have hsh := hg.shows x y hx hy
  have hpt : pointOf grid x y = o.map CoordDist.coordIndex := by unfold pointOf; rw [ho]; rfl
  unfold unpackedAt cell kept
  rw [hpt] at hsh ⊢
  rw [hmiss]
  cases o with
  | none =>
    simp only at hval
    rw [hval]
    simp [heq]
  | some cd =>
    have hi : cd.coordIndex < n := hsh.1
    obtain ⟨p1, p2⟩ := l2 _ hi
    change (present msg.bitmap cd.coordIndex = true → ∃ X, msg.data[rank msg.bitmap cd.coordIndex]? = some X ∧ _) at p1
    change present msg.bitmap cd.coordIndex = false → _ at p2
    simp only at hval
    rw [hval, List.getD_eq_getElem?_getD]
    simp only [Option.map_some, Option.bind_some]
    unfold unpacked
    rw [hpk]
    cases hpr : present msg.bitmap cd.coordIndex with
    | false =>
      rw [p2 hpr]
      simp [heq]
    | true =>
      obtain ⟨X, hX, hv⟩ := p1 hpr
      rw [hX, hv]
      simp

/-- A message of a single level. -/
theorem cell_of_record {w : World} {s : Swiss.Service} {vertUrl : Text} {t : Instant} {grid : UnstructuredGrid}
    {lat lon msg : Msg} {n k : Nat} (hg : Placed grid lat lon n) {x : Swiss.Variable} {steps : List RunStep}
    (hs : Swiss.steps s t x (x = .clct) = .ok steps) (hr : Recorded w s vertUrl t (.of x k 0) msg) (hf : PointField msg n)
    {f : Fl → Fl} {st : RunStep} (hst : getStepByNr steps k = .ok st) {G : LatLonValueGrid Fl}
    (h : Swiss.readGrid w grid f st = .ok G) :
    Filled G 1851 847 ∧ ∀ x y, x < 1851 → y < 847 →
      cell G 1851 x y = kept (.fin (-1)) f (unpackedAt (pointOf grid x y) msg) := by
  obtain ⟨steps', st', msgs, h1, h2, h3, h4, h5⟩ := hr
  rw [hs] at h1
  cases h1
  rw [getStep_of_mem (steps_numbered hs) h2 h3] at hst
  cases hst
  obtain ⟨more, rfl⟩ : ∃ more, msgs = msg :: more := by
    cases msgs with
    | nil => simp at h5
    | cons a l => exact ⟨l, by simp at h5; rw [h5]⟩
  unfold Swiss.readGrid World.readUnstructured at h
  rw [h4.readFirst, Res.bind_ok] at h
  exact converted_packed hg (h4.ok msg (by simp)).1 hf num_eq h

/-- The messages of the levels. -/
theorem levels_of_records {w : World} {grid : UnstructuredGrid} {lat lon : Msg} {n : Nat} (hg : Placed grid lat lon n)
    {url : Text} {msgs : Nat → Msg}
    (hd : ∀ k, k < 49 → (∃ all, Delivers w url all ∧ all[31 + k]? = some (msgs k)) ∧ PointField (msgs k) n) {missing : UInt8}
    {f : Fl → UInt8} {gs : List (LatLonValueGrid UInt8)}
    (h : w.readMultiUnstructured url missing f grid (some Swiss.levels) = .ok gs) :
    Levels gs 49 1851 847 fun k x y => kept missing f (unpackedAt (pointOf grid x y) (msgs k)) := by
  unfold World.readMultiUnstructured at h
  obtain ⟨docs, hdocs, h⟩ := bind_ok' h
  change Grib2.convertMulti _ _ _ _ (some (31, 79)) = _ at h
  obtain ⟨h1, h2⟩ := (C14_result _ _ _ _ _ _ _).mp h
  have each : ∀ k, k < 49 → docs[31 + k]? = some (msgs k).doc ∧ (msgs k).ok := by
    intro k hk
    obtain ⟨⟨all, a1, a2⟩, _⟩ := hd k hk
    have := a1.read (by rintro rfl; simp at a2)
    rw [hdocs] at this
    cases this
    rw [List.getElem?_map, a2]
    exact ⟨rfl, (a1.ok _ (List.mem_of_getElem? a2)).1⟩
  have hlen : 79 < docs.length := by
    by_contra hge
    have := (each 48 (by omega)).1
    rw [List.getElem?_eq_none (by omega)] at this
    cases this
  refine ⟨by omega, fun k hk => ?_⟩
  have hlt : k < gs.length := by omega
  obtain ⟨d, hdoc, hc⟩ := h2 k _ (List.getElem?_eq_getElem hlt)
  rw [(each k hk).1] at hdoc
  cases hdoc
  exact ⟨gs[k], List.getElem?_eq_getElem hlt, converted_packed hg (each k hk).2 (hd k hk).2 (byte_eq _) hc⟩

theorem unwrapResult_ok {α : Type} {r : Res α} {a : α} (h : Res.unwrapResult r = .ok a) : r = .ok a := by
  cases r with
  | ok b => exact h
  | err => cases h
  | panic => cases h

/-! ## The bytes of the files of a run -/

theorem swiss_bytes (m : Libm) (w : World) (s : Swiss.Service) (cal : Swiss.Calendar) (dirs : Text → Bool)
    (vars : List Text) (filter : List Nat) (hor vertUrl : Text) (grid : UnstructuredGrid) (t : Instant) (tr : List Write)
    (h : Swiss.renderRun m w s cal dirs vars filter grid vertUrl t tr .done)
    (hg : Swiss.readHorConst w hor = .ok grid) (lat lon : Msg) (n : Nat) (hk : Constants w hor lat lon n)
    (b : BinType) (hv : ChosenVar vars (Output.bin b).variable) (steps : List RunStep)
    (hs : swissSteps s t (Output.bin b).variable = .ok steps) (st : RunStep) (hst : st ∈ steps) (hc : Chosen filter st)
    (msgs : Record → Msg)
    (hp : ∀ r, UsesRecord (Output.bin b).variable st.nr r → Recorded w s vertUrl t r (msgs r) ∧ PointField (msgs r) n) :
    ∃ run bytes, Swiss.forecastRun cal t = .ok run ∧
      (∀ before : Tree, before.write tr (binPath run st.nr b) = some (.bytes bytes)) ∧
      Bytes bytes 1851 847 (width 49 b) fun x y j =>
        byteOfSwiss st.nr (fun r => unpackedAt (pointOf grid x y) (msgs r)) b j := by
  obtain ⟨run, l, e, hl, hd, hfile⟩ := bin_of_swiss h hv (by cases b <;> simp [Output.variable]) hs hst hc
  have hpl := placed hk hg
  cases b with
  | temp2m =>
    simp only [swissLayers, Output.variable, Res.bind_eq_ok, Res.ok.injEq] at hl
    obtain ⟨ss, hss, L, hL, rfl⟩ := hl
    unfold Swiss.readTemp at hL
    obtain ⟨st', h1, hL⟩ := bind_ok' hL
    obtain ⟨G, hG, hL⟩ := bind_ok' hL
    cases hL
    obtain ⟨_, bytes, hb⟩ := hd
    obtain ⟨p, q⟩ := hp (.of .t2m st.nr 0) rfl
    obtain ⟨f1, f2⟩ := cell_of_record hpl (by simpa using hss) p q (unwrapResult_ok h1) hG
    exact ⟨run, bytes, e, fun before => hfile before (.bin .temp2m) _ (.temp hb), temp_explicit f1 f2 hb⟩
  | precip =>
    simp only [swissLayers, Output.variable, Res.bind_eq_ok, Res.ok.injEq] at hl
    obtain ⟨cs, hcs, ps, hps, es, hes, L, hL, W, hW, rfl⟩ := hl
    unfold Swiss.readCloudPrecip at hL
    obtain ⟨⟨c, p0, p1⟩, h1, hL⟩ := bind_ok' hL
    obtain ⟨C, hC, hL⟩ := bind_ok' hL
    obtain ⟨P0, hP0, hL⟩ := bind_ok' hL
    obtain ⟨P1, hP1, hL⟩ := bind_ok' hL
    obtain rfl := cloudPrecip_new hL
    obtain ⟨s1, s2, s3⟩ : getStepByNr cs st.nr = .ok c ∧ getStepByNr ps (st.nr - 1) = .ok p0 ∧
        getStepByNr ps st.nr = .ok p1 := by
      unfold cloudPrecipSteps at h1
      obtain ⟨c', e1, h1⟩ := bind_ok' h1
      split at h1
      · cases h1
      · obtain ⟨p0', e2, h1⟩ := bind_ok' h1
        obtain ⟨p1', e3, h1⟩ := bind_ok' h1
        cases h1
        exact ⟨unwrapResult_ok e1, unwrapResult_ok e2, unwrapResult_ok e3⟩
    obtain ⟨_, ⟨bytes, hb⟩, _⟩ := hd
    obtain ⟨p, q⟩ := hp (.of .clct st.nr 0) (by simp [UsesRecord, Output.variable])
    obtain ⟨f1, _⟩ := cell_of_record hpl (by simpa using hcs) p q s1 hC
    obtain ⟨p, q⟩ := hp (.of .totPrec (st.nr - 1) 0) (by simp [UsesRecord, Output.variable])
    obtain ⟨g1, g2⟩ := cell_of_record hpl (by simpa using hps) p q s2 hP0
    obtain ⟨p, q⟩ := hp (.of .totPrec st.nr 0) (by simp [UsesRecord, Output.variable])
    obtain ⟨k1, k2⟩ := cell_of_record hpl (by simpa using hps) p q s3 hP1
    exact ⟨run, bytes, e, fun before => hfile before (.bin .precip) _ (.precip hb), precip_explicit f1 g1 k1 g2 k2 hb⟩
  | weather =>
    simp only [swissLayers, Output.variable, Res.bind_eq_ok, Res.ok.injEq] at hl
    obtain ⟨cs, hcs, ps, hps, es, hes, L, hL, W, hW, rfl⟩ := hl
    unfold Swiss.readWeather at hW
    obtain ⟨c, s1, hW⟩ := bind_ok' hW
    obtain ⟨d, s2, hW⟩ := bind_ok' hW
    obtain ⟨C, hC, hW⟩ := bind_ok' hW
    obtain ⟨E, hE, hW⟩ := bind_ok' hW
    obtain rfl := weather_new hW
    obtain ⟨_, _, bytes, hb⟩ := hd
    obtain ⟨p, q⟩ := hp (.of .clct st.nr 0) (by simp [UsesRecord, Output.variable])
    obtain ⟨f1, f2⟩ := cell_of_record hpl (by simpa using hcs) p q (unwrapResult_ok s1) hC
    obtain ⟨p, q⟩ := hp (.of .ceiling st.nr 0) (by simp [UsesRecord, Output.variable])
    obtain ⟨g1, g2⟩ := cell_of_record hpl (by simpa using hes) p q (unwrapResult_ok s2) hE
    exact ⟨run, bytes, e, fun before => hfile before (.bin .weather) _ (.weather hb), weather_explicit_none f1 g1 f2 g2 hb⟩
  | wind10m =>
    simp only [swissLayers, Output.variable, Res.bind_eq_ok, Res.ok.injEq] at hl
    obtain ⟨us, hus, vs, hvs, gs, hgs, L, hL, rfl⟩ := hl
    unfold Swiss.readWind at hL
    obtain ⟨u, s1, hL⟩ := bind_ok' hL
    obtain ⟨v, s2, hL⟩ := bind_ok' hL
    obtain ⟨g, s3, hL⟩ := bind_ok' hL
    obtain ⟨U, hU, hL⟩ := bind_ok' hL
    obtain ⟨V, hV, hL⟩ := bind_ok' hL
    obtain ⟨G, hG, hL⟩ := bind_ok' hL
    obtain rfl := wind_new hL
    obtain ⟨_, bytes, hb⟩ := hd
    obtain ⟨p, q⟩ := hp (.of .u10m st.nr 0) (by simp [UsesRecord, Output.variable])
    obtain ⟨f1, f2⟩ := cell_of_record hpl (by simpa using hus) p q s1 hU
    obtain ⟨p, q⟩ := hp (.of .v10m st.nr 0) (by simp [UsesRecord, Output.variable])
    obtain ⟨g1, g2⟩ := cell_of_record hpl (by simpa using hvs) p q s2 hV
    obtain ⟨p, q⟩ := hp (.of .vmax10m st.nr 0) (by simp [UsesRecord, Output.variable])
    obtain ⟨k1, k2⟩ := cell_of_record hpl (by simpa using hgs) p q s3 hG
    exact ⟨run, bytes, e, fun before => hfile before (.bin .wind10m) _ (.wind hb), wind_explicit f1 g1 k1 f2 g2 k2 hb⟩
  | verticalClouds =>
    simp only [swissLayers, Output.variable, Res.bind_eq_ok, Res.ok.injEq] at hl
    obtain ⟨H, hH, cs, hcs, L, hL, rfl⟩ := hl
    unfold Swiss.readVerticalCloud at hL
    obtain ⟨c, s1, hL⟩ := bind_ok' hL
    obtain ⟨C, hC, hL⟩ := bind_ok' hL
    obtain rfl := verticalCloud_new hL
    obtain ⟨bytes, hb⟩ := hd
    refine ⟨run, bytes, e, fun before => hfile before (.bin .verticalClouds) _ (.verticalCloud hb), ?_⟩
    have s1 := unwrapResult_ok s1
    refine clouds_explicit (by norm_num)
      (levels_of_records (msgs := fun k => msgs (.height (31 + k))) hpl (fun k hk => hp _ ⟨k, hk, .inl rfl⟩) hH)
      (levels_of_records (msgs := fun k => msgs (.of .clc st.nr (31 + k))) hpl (fun k hk => ?_) hC) hb
    obtain ⟨⟨steps', st', all, h1, h2, h3, h4⟩, q⟩ := hp (.of .clc st.nr (31 + k)) ⟨k, hk, .inr rfl⟩
    have hcs' : Swiss.steps s t .clc (Swiss.Variable.clc = .clct) = .ok cs := by simpa using hcs
    rw [hcs'] at h1
    cases h1
    rw [getStep_of_mem (steps_numbered hcs) h2 h3] at s1
    cases s1
    exact ⟨⟨all, h4⟩, q⟩
  | verticalWind =>
    simp only [swissLayers, Output.variable, Res.bind_eq_ok, Res.ok.injEq] at hl
    obtain ⟨H, hH, us, hus, vs, hvs, L, hL, rfl⟩ := hl
    unfold Swiss.readVerticalWind at hL
    obtain ⟨u, s1, hL⟩ := bind_ok' hL
    obtain ⟨v, s2, hL⟩ := bind_ok' hL
    obtain ⟨U, hU, hL⟩ := bind_ok' hL
    obtain ⟨V, hV, hL⟩ := bind_ok' hL
    obtain rfl := verticalWind_new hL
    obtain ⟨bytes, hb⟩ := hd
    refine ⟨run, bytes, e, fun before => hfile before (.bin .verticalWind) _ (.verticalWind hb), ?_⟩
    have s1 := unwrapResult_ok s1
    have s2 := unwrapResult_ok s2
    refine winds_explicit (by norm_num)
      (levels_of_records (msgs := fun k => msgs (.height (31 + k))) hpl (fun k hk => hp _ ⟨k, hk, .inl rfl⟩) hH)
      (levels_of_records (msgs := fun k => msgs (.of .u st.nr (31 + k))) hpl (fun k hk => ?_) hU)
      (levels_of_records (msgs := fun k => msgs (.of .v st.nr (31 + k))) hpl (fun k hk => ?_) hV) hb
    · obtain ⟨⟨steps', st', all, h1, h2, h3, h4⟩, q⟩ := hp (.of .u st.nr (31 + k)) ⟨k, hk, .inr (.inl rfl)⟩
      have hcs' : Swiss.steps s t .u (Swiss.Variable.u = .clct) = .ok us := by simpa using hus
      rw [hcs'] at h1
      cases h1
      rw [getStep_of_mem (steps_numbered hus) h2 h3] at s1
      cases s1
      exact ⟨⟨all, h4⟩, q⟩
    · obtain ⟨⟨steps', st', all, h1, h2, h3, h4⟩, q⟩ := hp (.of .v st.nr (31 + k)) ⟨k, hk, .inr (.inr rfl)⟩
      have hcs' : Swiss.steps s t .v (Swiss.Variable.v = .clct) = .ok vs := by simpa using hvs
      rw [hcs'] at h1
      cases h1
      rw [getStep_of_mem (steps_numbered hvs) h2 h3] at s2
      cases s2
      exact ⟨⟨all, h4⟩, q⟩

/-- Files of constants with the same positions give the same grid. -/
theorem constants_grid {w w' : World} {hor hor' : Text} {lat lon : Msg} {n : Nat} {grid grid' : UnstructuredGrid}
    (hk : Constants w hor lat lon n) (hk' : Constants w' hor' lat lon n) (hg : Swiss.readHorConst w hor = .ok grid)
    (hg' : Swiss.readHorConst w' hor' = .ok grid') : grid = grid' := by
  obtain ⟨a, a1, a2, a3⟩ := hk.there
  obtain ⟨b, b1, b2, b3⟩ := hk'.there
  have key : ∀ (w : World) (url : Text) (l : List Msg), Delivers w url l → l[4]? = some lat → l[3]? = some lon →
      Swiss.readHorConst w url = Res.bind Swiss.gridExtent fun ext => Res.bind (Grib2.getLatLonValues lat.doc lon.doc)
        fun coordinates => Res.bind (UnstructuredGrid.new Swiss.gridDims ext coordinates) fun g =>
          g.calcCoordDistLookupMap Swiss.maxDist := by
    intro w url l h1 h2 h3
    unfold Swiss.readHorConst
    rw [h1.read (by rintro rfl; simp at h2), Res.bind_ok, Res.index_some (a := lat.doc) (by rw [List.getElem?_map, h2]; rfl),
      Res.bind_ok, Res.index_some (a := lon.doc) (by rw [List.getElem?_map, h3]; rfl), Res.bind_ok]
    rfl
  rw [key _ _ _ a1 a2 a3] at hg
  rw [key _ _ _ b1 b2 b3] at hg'
  exact Res.ok.inj (hg.symm.trans hg')

/-- **C171, MeteoSwiss.**  Two successful runs with the same positions of the data points.  Both leave the file of the
step; and the two files agree in a byte of a cell if the few messages on which this byte depends agree at the one data
point that the cell shows, whatever they hold at other points and whatever other messages hold.  If the cell shows no
data point, the two files agree there. -/
theorem C171_swiss (m m' : Libm) (w w' : World) (s s' : Swiss.Service) (cal cal' : Swiss.Calendar) (dirs dirs' : Text → Bool)
    (vars vars' : List Text) (filter filter' : List Nat) (hor hor' vertUrl vertUrl' : Text) (grid grid' : UnstructuredGrid)
    (t t' : Instant) (tr tr' : List Write)
    (h : Swiss.renderRun m w s cal dirs vars filter grid vertUrl t tr .done)
    (h' : Swiss.renderRun m' w' s' cal' dirs' vars' filter' grid' vertUrl' t' tr' .done)
    (hg : Swiss.readHorConst w hor = .ok grid) (hg' : Swiss.readHorConst w' hor' = .ok grid') (lat lon : Msg) (n : Nat)
    (hk : Constants w hor lat lon n) (hk' : Constants w' hor' lat lon n) (b : BinType)
    (hv : ChosenVar vars (Output.bin b).variable) (hv' : ChosenVar vars' (Output.bin b).variable)
    (steps steps' : List RunStep) (hs : swissSteps s t (Output.bin b).variable = .ok steps)
    (hs' : swissSteps s' t' (Output.bin b).variable = .ok steps') (st st' : RunStep) (hst : st ∈ steps) (hst' : st' ∈ steps')
    (hnr : st'.nr = st.nr) (hc : Chosen filter st) (hc' : Chosen filter' st') (msgs msgs' : Record → Msg)
    (hp : ∀ r, UsesRecord (Output.bin b).variable st.nr r → Recorded w s vertUrl t r (msgs r) ∧ PointField (msgs r) n)
    (hp' : ∀ r, UsesRecord (Output.bin b).variable st.nr r → Recorded w' s' vertUrl' t' r (msgs' r) ∧ PointField (msgs' r) n)
    (before before' : Tree) :
    ∃ run run' bytes bytes' k, Swiss.forecastRun cal t = .ok run ∧ Swiss.forecastRun cal' t' = .ok run' ∧
      before.write tr (binPath run st.nr b) = some (.bytes bytes) ∧
      before'.write tr' (binPath run' st.nr b) = some (.bytes bytes') ∧
      k = width 49 b ∧ bytes.length = 1851 * 847 * k ∧ bytes'.length = 1851 * 847 * k ∧
      ∀ x y, x < 1851 → y < 847 → ∃ o : Option Nat, Spec.Shows (position lat lon) n x y o ∧ ∀ j, j < k →
        (∀ i, o = some i → ∀ r ∈ records st.nr b j, SameAt (msgs r) (msgs' r) i) →
        bytes[(y * 1851 + x) * k + j]? = bytes'[(y * 1851 + x) * k + j]? := by
  obtain rfl := constants_grid hk hk' hg hg'
  obtain ⟨run, bytes, e1, f1, l1, g1⟩ := swiss_bytes m w s cal dirs vars filter hor vertUrl grid t tr h hg lat lon n hk b hv
    steps hs st hst hc msgs hp
  obtain ⟨run', bytes', e2, f2, l2, g2⟩ := swiss_bytes m' w' s' cal' dirs' vars' filter' hor' vertUrl' grid t' tr' h' hg' lat
    lon n hk' b hv' steps' hs' st' hst' hc' msgs' (by rw [hnr]; exact hp')
  rw [hnr] at f2 g2
  refine ⟨run, run', bytes, bytes', _, e1, e2, f1 before, f2 before', rfl, l1, l2, fun x y hx hy => ?_⟩
  refine ⟨_, (placed hk hg).shows x y hx hy, fun j hj hsame => ?_⟩
  rw [g1 x y j hx hy hj, g2 x y j hx hy hj]
  refine congrArg some (byteOfSwiss_records fun r hr => ?_)
  unfold unpackedAt
  cases ho : pointOf grid x y with
  | none => rfl
  | some i => exact (hsame i ho r hr).unpacked

/-! ## The hypotheses can be met -/

/-- Like `weatherMsg` at the first point only. -/
def elsewhereMsg : Msg := fieldMsg ⟨false, 0, 0⟩ [] [0, 1, 2, 5]

theorem elsewhereMsg_ok : elsewhereMsg.ok := fieldMsg_ok ⟨by decide, by decide⟩ (by decide) (by decide) (by decide)

theorem elsewhereMsg_full : FullField elsewhereMsg 4 :=
  fieldMsg_full (r := 0) (by decide +kernel) (by norm_num) (by decide) (.inl rfl) (by decide)

theorem demo_recorded {f : Msg} (h : f.ok) (hk : f.product.known) {n : Nat} {r : Record}
    (hr : UsesRecord .verticalCloud n r) (hn : n = 1) :
    Recorded (swissWorld f) demoService "vert".toList demoTime r f := by
  obtain ⟨k, hk49, rfl | rfl⟩ := hr
  · refine ⟨_, swiss_delivers h hk _, ?_⟩
    interval_cases k <;> rfl
  · subst hn
    obtain ⟨steps, hs, h1, -⟩ := demo_steps .clc false
    refine ⟨steps, _, _, hs, h1, rfl, swiss_delivers h hk _, ?_⟩
    interval_cases k <;> rfl

/-- Two runs whose messages agree at the first point only: the files of vertical clouds agree in all bytes of the cell at
46 degrees north and 7 degrees east, which shows this point. -/
example (m : Libm) (hm : Spec.AccurateRow m) (dirs : Text → Bool) (before : Tree) : ∃ grid tr tr' run bytes bytes',
    Swiss.renderRun m (swissWorld weatherMsg) demoService demoCalendar dirs [] [] grid "vert".toList demoTime tr .done ∧
    Swiss.renderRun m (swissWorld elsewhereMsg) demoService demoCalendar dirs [] [] grid "vert".toList demoTime tr' .done ∧
    before.write tr (binPath run 1 .verticalClouds) = some (.bytes bytes) ∧
    before.write tr' (binPath run 1 .verticalClouds) = some (.bytes bytes') ∧
    ∀ j, j < 98 → bytes[(397 * 1851 + 781) * 98 + j]? = bytes'[(397 * 1851 + 781) * 98 + j]? := by
  have hk : weatherMsg.product.known := trivial
  have hk' : elsewhereMsg.product.known := trivial
  obtain ⟨grid, tr, hg, ht⟩ := swiss_demo weatherMsg_ok hk weatherMsg_full hm dirs [] []
  obtain ⟨grid', tr', hg', ht'⟩ := swiss_demo elsewhereMsg_ok hk' elsewhereMsg_full hm dirs [] []
  have hc := swiss_constants weatherMsg_ok hk "hor".toList
  have hc' := swiss_constants elsewhereMsg_ok hk' "hor".toList
  obtain rfl := constants_grid hc hc' hg hg'
  obtain ⟨steps, hs, h1, -⟩ := demo_steps .clc false
  obtain ⟨run, run', bytes, bytes', k, e1, e2, f1, f2, rfl, l1, l2, same⟩ := C171_swiss m m _ _ _ _ _ _ dirs dirs [] [] [] []
    "hor".toList "hor".toList "vert".toList "vert".toList grid grid demoTime demoTime tr tr' ht ht' hg hg' latMsg lonMsg 4 hc hc'
    .verticalClouds (.inl rfl) (.inl rfl) steps steps hs hs _ _ h1 h1 rfl (.inl rfl) (.inl rfl)
    (fun _ => weatherMsg) (fun _ => elsewhereMsg)
    (fun r hr => ⟨demo_recorded weatherMsg_ok hk hr rfl, weatherMsg_full.toPointField⟩)
    (fun r hr => ⟨demo_recorded elsewhereMsg_ok hk' hr rfl, elsewhereMsg_full.toPointField⟩) before before
  rw [e1] at e2
  cases e2
  refine ⟨grid, tr, tr', run, bytes, bytes', ht, ht', f1, f2, fun j hj => ?_⟩
  obtain ⟨o, hsh, hv⟩ := same 781 397 (by norm_num) (by norm_num)
  obtain rfl := demo_shown hsh
  refine hv j hj fun i hi r hr => ?_
  cases hi
  exact ⟨rfl, by decide, fun _ => by decide⟩

end Verif.Props
