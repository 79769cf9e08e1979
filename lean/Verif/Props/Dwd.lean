import Verif.Model.Dwd
import Verif.Lemmas.Text
import Verif.Lemmas.Res
import Mathlib.Data.Nat.Digits.Lemmas
import Mathlib.Tactic.NormNum
import Mathlib.Tactic.Linarith

/-!
# C51, C52, C83: DWD forecasts
-/

namespace Verif

namespace Date

theorem decPad_length {k n : Nat} (h : n < 10 ^ k) (hk : 0 < k) : (decPad k n).length = k := by
  have hl : (dec n).length ≤ k := by
    unfold dec
    split
    · simp; omega
    · rw [List.length_reverse, List.length_map]
      exact (Nat.digits_length_le_iff (by norm_num) n).mpr h
  unfold decPad
  rw [List.length_append, List.length_replicate]
  omega

/-- The dates of the four-digit years. -/
def Usual (d : Date) : Prop := d.Valid ∧ 0 ≤ d.year ∧ d.year ≤ 9999

theorem daysIn_le (y : Int) (m : Nat) : daysIn y m ≤ 31 := by
  unfold daysIn
  split
  · split <;> omega
  · split <;> omega

theorem fmt_length {d : Date} (h : d.Usual) : d.fmt.length = 8 := by
  obtain ⟨⟨h1, h2, h3, h4⟩, h5, h6⟩ := h
  have := daysIn_le d.year d.month
  unfold fmt fmtYear
  rw [if_pos ⟨h5, h6⟩, List.length_append, List.length_append, decPad_length (by omega) (by norm_num),
    decPad_length (by omega) (by norm_num), decPad_length (by omega) (by norm_num)]

theorem fmt_inj {d e : Date} (hd : d.Usual) (he : e.Usual) (h : d.fmt = e.fmt) : d = e := by
  obtain ⟨⟨h1, h2, h3, h4⟩, h5, h6⟩ := hd
  obtain ⟨⟨k1, k2, k3, k4⟩, k5, k6⟩ := he
  have := daysIn_le d.year d.month
  have := daysIn_le e.year e.month
  unfold fmt fmtYear at h
  rw [if_pos ⟨h5, h6⟩, if_pos ⟨k5, k6⟩] at h
  have l1 : (decPad 2 d.day).length = (decPad 2 e.day).length := by
    rw [decPad_length (by omega) (by norm_num), decPad_length (by omega) (by norm_num)]
  obtain ⟨a, b⟩ := List.append_inj' h l1
  have l2 : (decPad 2 d.month).length = (decPad 2 e.month).length := by
    rw [decPad_length (by omega) (by norm_num), decPad_length (by omega) (by norm_num)]
  obtain ⟨a, c⟩ := List.append_inj' a l2
  have e1 := decPad_inj a
  have e2 := decPad_inj b
  have e3 := decPad_inj c
  cases d
  cases e
  simp only at *
  simp only [Date.mk.injEq]
  exact ⟨by omega, e3, e2⟩

end Date

namespace Dwd

/-- The models of which DWD files are read. -/
def IsDwd (m : FcModel) : Prop := m = .iconD2 ∨ m = .iconEu

/-- The run names. -/
def runNames : List Text :=
  ["00".toList, "03".toList, "06".toList, "09".toList, "12".toList, "15".toList, "18".toList, "21".toList]

/-- The usual runs: of a DWD model, of a year with four digits, at 0, 3, ..., 21 UTC. -/
def UsualRun (r : Run) : Prop := IsDwd r.model ∧ r.date.Usual ∧ r.name ∈ runNames

/-- The directory of a file. -/
def dirOf : Req → Text
  | .single .clctMod _ => "clct_mod".toList
  | .single .totPrec _ => "tot_prec".toList
  | .single .ceiling _ => "ceiling".toList
  | .single .ww _ => "ww".toList
  | .single .u10m _ => "u_10m".toList
  | .single .v10m _ => "v_10m".toList
  | .single .vmax10m _ => "vmax_10m".toList
  | .single .t2m _ => "t_2m".toList
  | .level .clc _ _ => "clc".toList
  | .level .u _ _ => "u".toList
  | .level .v _ _ => "v".toList
  | .hhl _ => "hhl".toList

/-- The start of the file name. -/
def stemOf (m : FcModel) (r : Req) : Text :=
  (match m with
    | .iconD2 => "icon-d2_germany_regular-lat-lon_".toList
    | _ => "icon-eu_europe_regular-lat-lon_".toList) ++
  match r with
    | .single _ _ => "single-level_".toList
    | .level _ _ _ => "model-level_".toList
    | .hhl _ => "time-invariant_".toList

/-- What distinguishes the files of a run and variable. -/
def tailOf (m : FcModel) : Req → Text
  | .single _ step => decPad 3 step
  | .level _ step level => decPad 3 step ++ '_' :: dec level
  | .hhl level => (match m with | .iconD2 => "000_".toList | _ => []) ++ dec level

/-- Checks the parts of a prefix and suffix. -/
def checkParts (r : Res (Text × Text)) (pre : Text) : Bool :=
  match r with
  | .ok (p, s) => p == pre && s.head? == some '_' && ".bz2".toList.isSuffixOf s.tail
  | _ => false

theorem checkParts_spec {r : Res (Text × Text)} {pre : Text} (h : checkParts r pre = true) : ∃ suf,
    r = .ok (pre, '_' :: suf) ∧ ".bz2".toList <:+ suf := by
  unfold checkParts at h
  split at h
  · rename_i p s
    simp only [Bool.and_eq_true, beq_iff_eq, List.isSuffixOf_iff_suffix] at h
    obtain ⟨⟨rfl, h2⟩, h3⟩ := h
    cases s with
    | nil => cases h2
    | cons c s =>
      simp only [List.head?_cons, Option.some.injEq] at h2
      subst h2
      exact ⟨s, rfl, h3⟩
  · cases h

theorem dirOf_single (x : SingleVar) (s : Nat) : dirOf (.single x s) = dirOf (.single x 0) := by cases x <;> rfl
theorem dirOf_level (x : LevelVar) (s l : Nat) : dirOf (.level x s l) = dirOf (.level x 0 0) := by cases x <;> rfl

theorem single_parts {m : FcModel} (h : IsDwd m) (x : SingleVar) (s : Nat) : ∃ suf,
    singlePrefixSuffix m x = .ok ('/' :: (dirOf (.single x s) ++ '/' :: stemOf m (.single x s)), '_' :: suf) ∧
    ".bz2".toList <:+ suf := by
  apply checkParts_spec
  rw [dirOf_single, show stemOf m (.single x s) = stemOf m (.single x 0) from rfl]
  rcases h with rfl | rfl <;> cases x <;> decide +kernel

theorem level_parts {m : FcModel} (h : IsDwd m) (x : LevelVar) (s l : Nat) : ∃ suf,
    levelPrefixSuffix m x = .ok ('/' :: (dirOf (.level x s l) ++ '/' :: stemOf m (.level x s l)), '_' :: suf) ∧
    ".bz2".toList <:+ suf := by
  apply checkParts_spec
  rw [dirOf_level, show stemOf m (.level x s l) = stemOf m (.level x 0 0) from rfl]
  rcases h with rfl | rfl <;> cases x <;> decide +kernel

theorem hhl_parts {m : FcModel} (h : IsDwd m) (l : Nat) : ∃ suf,
    hhlPrefixSuffix m = .ok ('/' :: (dirOf (.hhl l) ++ '/' :: stemOf m (.hhl l)), '_' :: suf) ∧
    ".bz2".toList <:+ suf := by
  apply checkParts_spec
  rw [show dirOf (.hhl l) = dirOf (.hhl 0) from rfl, show stemOf m (.hhl l) = stemOf m (.hhl 0) from rfl]
  rcases h with rfl | rfl <;> decide +kernel

theorem base_ok {m : FcModel} (h : IsDwd m) : ∃ b, baseUrl m = .ok b ∧ b.length = 49 ∧
    "https://".toList <+: b := by
  rcases h with rfl | rfl
  · exact ⟨_, rfl, by decide +kernel, by decide +kernel⟩
  · exact ⟨_, rfl, by decide +kernel, by decide +kernel⟩

theorem base_inj {m m' : FcModel} (hm : IsDwd m) (hm' : IsDwd m') {b : Text} (h : baseUrl m = .ok b)
    (h' : baseUrl m' = .ok b) : m = m' := by
  rw [← h'] at h
  revert h
  rcases hm with rfl | rfl <;> rcases hm' with rfl | rfl <;> decide +kernel

theorem fileUrl_form {run : Run} (h : IsDwd run.model) (r : Req) : ∃ base suf, baseUrl run.model = .ok base ∧
    fileUrl run r = .ok (base ++ (run.name ++ '/' :: (dirOf r ++ '/' :: (stemOf run.model r ++
      (run.date.fmt ++ (run.name ++ '_' :: (tailOf run.model r ++ '_' :: suf))))))) ∧
    ".bz2".toList <:+ suf := by
  obtain ⟨base, hb, _, _⟩ := base_ok h
  cases r with
  | single x s =>
    obtain ⟨suf, e1, e4⟩ := single_parts h x s
    refine ⟨base, suf, hb, ?_, e4⟩
    unfold fileUrl singleLevelUrl
    simp only [e1, hb, Res.bind_ok]
    simp [tailOf]
  | level x s l =>
    obtain ⟨suf, e1, e4⟩ := level_parts h x s l
    refine ⟨base, suf, hb, ?_, e4⟩
    unfold fileUrl multiLevelUrl
    simp only [e1, hb, Res.bind_ok]
    simp [tailOf]
  | hhl l =>
    obtain ⟨suf, e1, e4⟩ := hhl_parts h l
    refine ⟨base, suf, hb, ?_, e4⟩
    unfold fileUrl invariantUrl
    have hi : invariantStep run.model = .ok (match run.model with | .iconD2 => "000_".toList | _ => []) := by
      rcases h with h | h <;> rw [h] <;> rfl
    simp only [e1, hb, hi, Res.bind_ok]
    simp [tailOf]

theorem dirOf_inj {r r' : Req} (h : dirOf r = dirOf r') : (∃ x s s', r = .single x s ∧ r' = .single x s') ∨
    (∃ x s l s' l', r = .level x s l ∧ r' = .level x s' l') ∨ (∃ l l', r = .hhl l ∧ r' = .hhl l') := by
  have key : ∀ a b, (∃ x, a = Req.single x 0) ∨ (∃ x, a = Req.level x 0 0) ∨ a = .hhl 0 →
      (∃ x, b = Req.single x 0) ∨ (∃ x, b = Req.level x 0 0) ∨ b = .hhl 0 → dirOf a = dirOf b → a = b := by
    rintro a b (⟨x, rfl⟩ | ⟨x, rfl⟩ | rfl) (⟨y, rfl⟩ | ⟨y, rfl⟩ | rfl) <;>
      first | (cases x <;> cases y <;> decide +kernel) | (cases x <;> decide +kernel) | (cases y <;> decide +kernel) |
        decide +kernel
  have d1 := dirOf_single
  have d2 := dirOf_level
  have d3 : ∀ l, dirOf (.hhl l) = dirOf (.hhl 0) := fun _ => rfl
  cases r with
  | single x s => cases r' with
    | single y s' =>
      rw [d1, d1 y] at h
      have := key _ _ (.inl ⟨x, rfl⟩) (.inl ⟨y, rfl⟩) h
      cases this
      exact .inl ⟨x, s, s', rfl, rfl⟩
    | level y s' l' =>
      rw [d1, d2] at h
      cases key _ _ (.inl ⟨x, rfl⟩) (.inr (.inl ⟨y, rfl⟩)) h
    | hhl l' =>
      rw [d1, d3] at h
      cases key _ _ (.inl ⟨x, rfl⟩) (.inr (.inr rfl)) h
  | level x s l => cases r' with
    | single y s' =>
      rw [d2, d1] at h
      cases key _ _ (.inr (.inl ⟨x, rfl⟩)) (.inl ⟨y, rfl⟩) h
    | level y s' l' =>
      rw [d2, d2 y] at h
      cases key _ _ (.inr (.inl ⟨x, rfl⟩)) (.inr (.inl ⟨y, rfl⟩)) h
      exact .inr (.inl ⟨x, s, l, s', l', rfl, rfl⟩)
    | hhl l' =>
      rw [d2, d3] at h
      cases key _ _ (.inr (.inl ⟨x, rfl⟩)) (.inr (.inr rfl)) h
  | hhl l => cases r' with
    | single y s' =>
      rw [d3, d1] at h
      cases key _ _ (.inr (.inr rfl)) (.inl ⟨y, rfl⟩) h
    | level y s' l' =>
      rw [d3, d2] at h
      cases key _ _ (.inr (.inr rfl)) (.inr (.inl ⟨y, rfl⟩)) h
    | hhl l' => exact .inr (.inr ⟨l, l', rfl, rfl⟩)

theorem dirOf_no_slash (r : Req) : '/' ∉ dirOf r := by
  cases r with
  | single x s => rw [dirOf_single]; cases x <;> decide +kernel
  | level x s l => rw [dirOf_level]; cases x <;> decide +kernel
  | hhl l => rw [show dirOf (.hhl l) = dirOf (.hhl 0) from rfl]; decide +kernel

theorem not_mem_of_digits {c : Char} (hc : c.isDigit = false) {t : Text} (h : ∀ x ∈ t, x.isDigit = true) : c ∉ t := by
  intro hm
  have := h c hm
  rw [hc] at this
  cases this

theorem runName_length {n : Text} (h : n ∈ runNames) : n.length = 2 := by
  revert h
  simp only [runNames, List.mem_cons, List.not_mem_nil, or_false]
  rintro (rfl | rfl | rfl | rfl | rfl | rfl | rfl | rfl) <;> decide +kernel

/-! ## C52: URLs -/

/-- C52: a URL determines everything: the model, date and name of the run, the variable, the step and the
level.  In particular the files of a run have different URLs. -/
theorem C52_injective {run run' : Run} (hr : UsualRun run) (hr' : UsualRun run') (r r' : Req) {url : Text}
    (h : fileUrl run r = .ok url) (h' : fileUrl run' r' = .ok url) : run = run' ∧ r = r' := by
  obtain ⟨b, suf, hb, hf, _⟩ := fileUrl_form hr.1 r
  obtain ⟨b', suf', hb', hf', _⟩ := fileUrl_form hr'.1 r'
  rw [hf] at h
  rw [hf'] at h'
  rw [← h'] at h
  simp only [Res.ok.injEq] at h
  obtain ⟨_, e, hl, _⟩ := base_ok hr.1
  rw [hb] at e; cases e
  obtain ⟨_, e, hl', _⟩ := base_ok hr'.1
  rw [hb'] at e; cases e
  obtain ⟨e1, h1⟩ := List.append_inj h (by rw [hl, hl'])
  have em := base_inj hr.1 hr'.1 hb (by rw [e1]; exact hb')
  obtain ⟨en, h2⟩ := List.append_inj h1 (by rw [runName_length hr.2.2, runName_length hr'.2.2])
  have h3 := (List.cons.inj h2).2
  obtain ⟨ed, h4⟩ := split_sep (dirOf_no_slash r) (dirOf_no_slash r') h3
  have hst : stemOf run.model r = stemOf run'.model r' := by
    rw [em]
    rcases dirOf_inj ed with ⟨_, _, _, rfl, rfl⟩ | ⟨_, _, _, _, _, rfl, rfl⟩ | ⟨_, _, rfl, rfl⟩ <;> rfl
  rw [hst] at h4
  have h5 := List.append_cancel_left h4
  obtain ⟨edate, h6⟩ := List.append_inj h5 (by rw [Date.fmt_length hr.2.1, Date.fmt_length hr'.2.1])
  have edate := Date.fmt_inj hr.2.1 hr'.2.1 edate
  rw [en] at h6
  have h7 := List.append_cancel_left h6
  have h := (List.cons.inj h7).2
  clear h1 h2 h3 h4 h5 h6 h7 hf hf'
  refine ⟨by cases run; cases run'; simp only at em en edate; simp only [em, en, edate], ?_⟩
  have hd : ∀ k n, '_' ∉ decPad k n := fun k n => not_mem_of_digits (by decide) (decPad_digits k n)
  have hdd : ∀ n, '_' ∉ dec n := fun n => not_mem_of_digits (by decide) (dec_digits n)
  rcases dirOf_inj ed with ⟨x, s, s', rfl, rfl⟩ | ⟨x, s, l, s', l', rfl, rfl⟩ | ⟨l, l', rfl, rfl⟩
  · unfold tailOf at h
    have := (split_sep (hd 3 s) (hd 3 s') h).1
    rw [decPad_inj this]
  · unfold tailOf at h
    simp only [List.append_assoc, List.cons_append] at h
    obtain ⟨a, h⟩ := split_sep (hd 3 s) (hd 3 s') h
    have b := (split_sep (hdd l) (hdd l') h).1
    rw [decPad_inj a, dec_inj b]
  · unfold tailOf at h
    rw [em] at h
    simp only [List.append_assoc] at h
    have h := List.append_cancel_left h
    have b := (split_sep (hdd l) (hdd l') h).1
    rw [dec_inj b]

/-- C52: every file has a URL, which is recognised as one and as compressed. -/
theorem C52_download {run : Run} (h : IsDwd run.model) (r : Req) :
    ∃ url, fileUrl run r = .ok url ∧ isUrl url = true ∧ isBz2 url = true := by
  obtain ⟨b, suf, hb, hf, hs⟩ := fileUrl_form h r
  obtain ⟨_, e, _, hp⟩ := base_ok h
  rw [hb] at e; cases e
  refine ⟨_, hf, ?_, ?_⟩
  · unfold isUrl
    rw [Bool.or_eq_true]
    right
    rw [List.isPrefixOf_iff_prefix]
    exact hp.trans (List.prefix_append _ _)
  · unfold isBz2
    rw [List.isSuffixOf_iff_suffix]
    obtain ⟨t, rfl⟩ := hs
    refine ⟨b ++ (run.name ++ '/' :: (dirOf r ++ '/' :: (stemOf run.model r ++ (run.date.fmt ++ (run.name ++ '_' ::
      (tailOf run.model r ++ '_' :: t)))))), ?_⟩
    simp only [List.append_assoc, List.cons_append]

/-- C52: the step is written with at least three digits. -/
theorem C52_three_digits (step : Nat) : 3 ≤ (decPad 3 step).length ∧ valueOf (decPad 3 step) = step ∧
    ∀ c ∈ decPad 3 step, c.isDigit = true := by
  refine ⟨?_, valueOf_decPad 3 step, decPad_digits 3 step⟩
  unfold decPad
  rw [List.length_append, List.length_replicate]
  omega

example : fileUrl ⟨.iconD2, ⟨2025, 8, 5⟩, "06".toList⟩ (.level .u 7 65) = .ok
    "https://opendata.dwd.de/weather/nwp/icon-d2/grib/06/u/icon-d2_germany_regular-lat-lon_model-level_2025080506_007_65_u.grib2.bz2".toList := by
  decide +kernel

example : UsualRun ⟨.iconD2, ⟨2025, 8, 5⟩, "06".toList⟩ := by
  refine ⟨.inl rfl, ⟨by decide +kernel, by norm_num, by norm_num⟩, ?_⟩
  decide +kernel

/-! ## C51, C83: the latest run -/

/-- The last forecast hour of a model. -/
def lastHour : FcModel → Nat
  | .iconD2 => 48
  | _ => 78

/-- The files probed: the last hour of eight single-level variables and the lowest level of cloud cover and
eastward wind. -/
def probes (hour : Nat) : List Req :=
  [.level .clc hour 65, .level .u hour 65] ++
    ([.clctMod, .totPrec, .ceiling, .ww, .u10m, .v10m, .vmax10m, .t2m] : List SingleVar).map (.single · hour)

/-- All probed files of a run are on the server. -/
def Complete (available : Text → Bool) (run : Run) : Prop :=
  ∀ r ∈ probes (lastHour run.model), ∃ url, fileUrl run r = .ok url ∧ available url = true

/-- The newest complete run of a day. -/
def Newest (available : Text → Bool) (m : FcModel) (d : Date) (name : Text) : Prop :=
  name ∈ runNames ∧ Complete available ⟨m, d, name⟩ ∧
    ∀ name' ∈ runNames, valueOf name < valueOf name' → ¬Complete available ⟨m, d, name'⟩

theorem mapM_ok_of_forall {f : α → Res β} : ∀ {l : List α}, (∀ a ∈ l, ∃ b, f a = .ok b) →
    ∃ bs, Res.mapM f l = .ok bs ∧ ∀ p : β → Bool, bs.all p = true ↔ ∀ a ∈ l, ∃ b, f a = .ok b ∧ p b = true
  | [], _ => ⟨[], rfl, by simp⟩
  | a :: l, h => by
    obtain ⟨b, hb⟩ := h a (by simp)
    obtain ⟨bs, hbs, hp⟩ := mapM_ok_of_forall (l := l) fun x hx => h x (by simp [hx])
    refine ⟨b :: bs, by simp [Res.mapM, hb, hbs], fun p => ?_⟩
    simp [hb, hp]

theorem probe_spec {m : FcModel} (h : IsDwd m) (available : Text → Bool) (d : Date) (name : Text) :
    ∃ urls, probeUrls ⟨m, d, name⟩ m.stepRange.2 = .ok urls ∧
      (urls.all available = true ↔ Complete available ⟨m, d, name⟩) := by
  unfold probeUrls
  obtain ⟨urls, hu, hp⟩ := mapM_ok_of_forall (f := fileUrl ⟨m, d, name⟩) (l := [.single .clctMod m.stepRange.2,
    .single .totPrec m.stepRange.2, .single .ceiling m.stepRange.2, .single .ww m.stepRange.2,
    .single .u10m m.stepRange.2, .single .v10m m.stepRange.2, .single .vmax10m m.stepRange.2,
    .single .t2m m.stepRange.2, .level .clc m.stepRange.2 65, .level .u m.stepRange.2 65])
    fun r _ => (C52_download (run := ⟨m, d, name⟩) h r).imp fun _ h => h.1
  refine ⟨urls, hu, ?_⟩
  rw [hp available]
  have hl : lastHour m = m.stepRange.2 := by rcases h with rfl | rfl <;> rfl
  unfold Complete
  show _ ↔ ∀ r ∈ probes (lastHour m), _
  rw [hl]
  generalize m.stepRange.2 = k
  constructor <;>
  · intro h r hr
    apply h
    revert hr
    simp only [probes, List.mem_append, List.mem_map, List.mem_cons, List.not_mem_nil, or_false]
    first
      | (rintro ((rfl | rfl) | ⟨x, hx, rfl⟩) <;> [simp; simp; (rcases hx with rfl | rfl | rfl | rfl | rfl | rfl | rfl | rfl <;> simp)])
      | (rintro (rfl | rfl | rfl | rfl | rfl | rfl | rfl | rfl | rfl | rfl) <;> simp)

theorem tryRuns_spec {m : FcModel} (h : IsDwd m) (available : Text → Bool) (d : Date) : ∀ names : List Text,
    names.Pairwise (fun a b => valueOf b < valueOf a) →
    (∃ name ∈ names, tryRuns m d available names = .ok (some ⟨m, d, name⟩) ∧ Complete available ⟨m, d, name⟩ ∧
      ∀ name' ∈ names, valueOf name < valueOf name' → ¬Complete available ⟨m, d, name'⟩) ∨
    tryRuns m d available names = .ok none ∧ ∀ name ∈ names, ¬Complete available ⟨m, d, name⟩
  | [], _ => .inr ⟨rfl, by simp⟩
  | name :: names, hs => by
    obtain ⟨urls, hu, hp⟩ := probe_spec h available d name
    have hs := List.pairwise_cons.mp hs
    by_cases hc : Complete available ⟨m, d, name⟩
    · refine .inl ⟨name, by simp, ?_, hc, ?_⟩
      · rw [tryRuns]
        show Res.bind _ _ = _
        rw [hu]
        exact if_pos (hp.mpr hc)
      · intro n hn hlt
        rcases List.mem_cons.mp hn with rfl | hn
        · omega
        · have := hs.1 n hn
          omega
    · have e : tryRuns m d available (name :: names) = tryRuns m d available names := by
        have : ¬urls.all available = true := fun h => hc (hp.mp h)
        rw [tryRuns]
        show Res.bind _ _ = _
        rw [hu]
        exact if_neg this
      rw [e]
      rcases tryRuns_spec h available d names hs.2 with ⟨n, hn, h1, h2, h3⟩ | ⟨h1, h2⟩
      · refine .inl ⟨n, by simp [hn], h1, h2, ?_⟩
        intro n' hn' hlt
        rcases List.mem_cons.mp hn' with rfl | hn'
        · exact hc
        · exact h3 n' hn' hlt
      · refine .inr ⟨h1, ?_⟩
        intro n hn
        rcases List.mem_cons.mp hn with rfl | hn
        · exact hc
        · exact h2 n hn

theorem runNames_sorted : runNamesReversed.Pairwise (fun a b => valueOf b < valueOf a) := by decide +kernel

theorem mem_runNames (n : Text) : n ∈ runNamesReversed ↔ n ∈ runNames := by
  simp only [runNamesReversed, runNames, List.mem_reverse]

/-- C51: whichever files are on the server, the newest complete run of today is found. -/
theorem C51_newest {m : FcModel} (h : IsDwd m) (available : Text → Bool) (today now : Date) {name : Text}
    (hn : Newest available m today name) : findLatestRun m today now available = .ok ⟨m, today, name⟩ := by
  unfold findLatestRun
  rcases tryRuns_spec h available today runNamesReversed runNames_sorted with ⟨n, hm, h1, h2, h3⟩ | ⟨_, h2⟩
  · have : n = name := by
      have a : ¬valueOf n < valueOf name := fun hlt => h3 name ((mem_runNames _).mpr hn.1) hlt hn.2.1
      have b : ¬valueOf name < valueOf n := fun hlt => hn.2.2 n ((mem_runNames _).mp hm) hlt h2
      have e : valueOf n = valueOf name := by omega
      have key : ∀ a ∈ runNames, ∀ b ∈ runNames, valueOf b = valueOf a → b = a := by decide +kernel
      exact key _ hn.1 _ ((mem_runNames _).mp hm) e
    subst this
    rw [h1]
    rfl
  · exact absurd hn.2.1 (h2 _ ((mem_runNames _).mpr hn.1))

/-- C51: a run of today is only returned if it is the newest complete one; without a complete run of today the
result is the 21 UTC run of yesterday, of ICON-D2. -/
theorem C51_cases {m : FcModel} (h : IsDwd m) (available : Text → Bool) (today now : Date) :
    (∃ name, Newest available m today name ∧ findLatestRun m today now available = .ok ⟨m, today, name⟩) ∨
    (∀ name ∈ runNames, ¬Complete available ⟨m, today, name⟩) ∧
      findLatestRun m today now available = .ok ⟨.iconD2, now.yesterday, "21".toList⟩ := by
  unfold findLatestRun
  rcases tryRuns_spec h available today runNamesReversed runNames_sorted with ⟨n, hm, h1, h2, h3⟩ | ⟨h1, h2⟩
  · refine .inl ⟨n, ⟨(mem_runNames _).mp hm, h2, fun n' hn' => h3 n' ((mem_runNames _).mpr hn')⟩, ?_⟩
    rw [h1]; rfl
  · refine .inr ⟨fun n hn => h2 n ((mem_runNames _).mpr hn), ?_⟩
    rw [h1]; rfl

/-- C51 for ICON-D2: the fallback is yesterday's run of the same model.  Missing for the full property: other
models, for which it is false (`C51_counterexample`). -/
theorem C51_fallback_partial (available : Text → Bool) (today now : Date)
    (h : ∀ name ∈ runNames, ¬Complete available ⟨.iconD2, today, name⟩) :
    findLatestRun .iconD2 today now available = .ok ⟨.iconD2, now.yesterday, "21".toList⟩ := by
  rcases C51_cases (.inl rfl) available today now with ⟨n, hn, _⟩ | ⟨_, h⟩
  · exact absurd hn.2.1 (h n hn.1)
  · exact h

/-- C51 fails for ICON-EU: while no run of today is complete, a run of ICON-D2 is returned. -/
theorem C51_counterexample : ∃ (available : Text → Bool) (today : Date) (run : Run),
    findLatestRun .iconEu today today available = .ok run ∧ run.model ≠ .iconEu := by
  refine ⟨fun _ => false, ⟨2025, 8, 5⟩, ⟨.iconD2, ⟨2025, 8, 4⟩, "21".toList⟩, ?_, by decide⟩
  rcases C51_cases (.inr rfl) (fun _ => false) ⟨2025, 8, 5⟩ ⟨2025, 8, 5⟩ with ⟨n, hn, _⟩ | ⟨_, h⟩
  · obtain ⟨url, _, h⟩ := hn.2.1 (.level .clc 78 65) (List.mem_cons_self ..)
    cases h
  · exact h

/-- The fallback date is the day before: a valid date whose successor is the given one. -/
theorem C51_yesterday {d : Date} (h : d.Valid) : d.yesterday.Valid ∧
    (d.yesterday.day + 1 = d.day ∧ d.yesterday.month = d.month ∧ d.yesterday.year = d.year ∨
     d.day = 1 ∧ d.yesterday.day = Date.daysIn d.yesterday.year d.yesterday.month ∧
      (d.yesterday.month + 1 = d.month ∧ d.yesterday.year = d.year ∨
       d.month = 1 ∧ d.yesterday.month = 12 ∧ d.yesterday.year + 1 = d.year)) := by
  obtain ⟨h1, h2, h3, h4⟩ := h
  have hd : ∀ y m, 1 ≤ Date.daysIn y m := by
    intro y m; unfold Date.daysIn; split <;> [split; split] <;> omega
  unfold Date.yesterday
  split
  · refine ⟨⟨h1, h2, ?_, ?_⟩, .inl ⟨?_, rfl, rfl⟩⟩ <;> dsimp only <;> omega
  · split
    · refine ⟨⟨?_, ?_, hd _ _, le_refl _⟩, .inr ⟨?_, rfl, .inl ⟨?_, rfl⟩⟩⟩ <;> (try dsimp only) <;> omega
    · refine ⟨⟨by norm_num, by norm_num, by norm_num, le_refl 31⟩, .inr ⟨?_, rfl, .inr ⟨?_, rfl, ?_⟩⟩⟩ <;>
        (try dsimp only) <;> omega

/-- C83 fails: the run found need not have all the files that rendering it reads.  Neither the northward wind
nor the level heights are probed; here they are missing for all levels and hours. -/
theorem C83_counterexample : ∃ (available : Text → Bool) (today : Date) (run : Run),
    findLatestRun .iconD2 today today available = .ok run ∧ run.date = today ∧
      (∀ step ∈ rangeIncl 2 48, ∀ level ∈ rangeIncl 25 65,
        ∃ url, fileUrl run (.level .v step level) = .ok url ∧ available url = false) ∧
      ∀ level ∈ rangeIncl 25 65, ∃ url, fileUrl run (.hhl level) = .ok url ∧ available url = false := by
  classical
  let run : Run := ⟨.iconD2, ⟨2025, 8, 5⟩, "21".toList⟩
  have hu : UsualRun run := by
    refine ⟨.inl rfl, ⟨by decide +kernel, by norm_num, by norm_num⟩, ?_⟩
    decide +kernel
  let av : Text → Bool := fun t => decide (∃ r ∈ probes 48, fileUrl run r = .ok t)
  have hno : ∀ r, r ∉ probes 48 → ∃ url, fileUrl run r = .ok url ∧ av url = false := by
    intro r hr
    obtain ⟨url, hurl, _⟩ := C52_download (run := run) (.inl rfl) r
    refine ⟨url, hurl, decide_eq_false ?_⟩
    rintro ⟨r', hr', h⟩
    exact hr ((C52_injective hu hu r r' hurl h).2 ▸ hr')
  refine ⟨av, ⟨2025, 8, 5⟩, run, ?_, rfl, ?_, ?_⟩
  · refine C51_newest (.inl rfl) av _ _ ⟨by decide +kernel, ?_, ?_⟩
    · intro r hr
      obtain ⟨url, hurl, _⟩ := C52_download (run := run) (.inl rfl) r
      exact ⟨url, hurl, decide_eq_true ⟨r, hr, hurl⟩⟩
    · intro n hn hlt
      exfalso
      revert n
      decide +kernel
  · intro step _ level _
    exact hno _ (by simp [probes])
  · intro level _
    exact hno _ (by simp [probes])

example : Newest (fun _ => true) .iconEu ⟨2024, 3, 1⟩ "21".toList := by
  refine ⟨by decide +kernel, ?_, ?_⟩
  · intro r _
    obtain ⟨url, h, _⟩ := C52_download (run := ⟨.iconEu, ⟨2024, 3, 1⟩, "21".toList⟩) (.inr rfl) r
    exact ⟨url, h, rfl⟩
  · intro n hn hlt
    exfalso
    revert n
    decide +kernel

example : (⟨2024, 3, 1⟩ : Date).yesterday = ⟨2024, 2, 29⟩ := by decide +kernel

end Dwd

end Verif
