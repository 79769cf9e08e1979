import Verif.Props.Imaging
import Verif.Props.NetCdfSound
import Verif.Props.Dwd

/-!
# Complements to C52, C66 and C69, and property C170: the names of the files of DWD
-/

namespace Verif.Props

open Verif

/-! ## C69: too many rows or columns -/

/-- A loop that goes on with the same kind of state until it panics. -/
theorem foldl_panic_iff {α β : Type} (f : β → α → Res β) (I : β → Prop) (bad : α → Prop)
    (hbad : ∀ b a, I b → bad a → f b a = .panic) (hgood : ∀ b a, I b → ¬ bad a → ∃ b', f b a = .ok b' ∧ I b') :
    ∀ (l : List α) (b : β), I b → ((∃ a ∈ l, bad a) → Res.foldl f b l = .panic) ∧
      ((∀ a ∈ l, ¬ bad a) → ∃ b', Res.foldl f b l = .ok b' ∧ I b') := by
  intro l
  induction l with
  | nil => intro b hb; exact ⟨by simp, fun _ => ⟨b, rfl, hb⟩⟩
  | cons a l ih =>
    intro b hb
    by_cases ha : bad a
    · refine ⟨fun _ => ?_, fun h => absurd ha (h a (by simp))⟩
      rw [Res.foldl, hbad b a hb ha]; rfl
    · obtain ⟨b', e, hb'⟩ := hgood b a hb ha
      obtain ⟨h1, h2⟩ := ih b' hb'
      rw [Res.foldl, e, Res.bind_ok]
      refine ⟨?_, fun h => h2 fun c hc => h c (by simp [hc])⟩
      rintro ⟨c, hc, hcb⟩
      rcases List.mem_cons.mp hc with rfl | hc
      · exact absurd hcb ha
      · exact h1 ⟨c, hc, hcb⟩

/-- **C69**: the creation of a picture from rows of colours panics exactly if a colour lies outside of the picture (a row
has more than `w` colours, or a row from the `h`-th on has a colour), and else gives a picture. -/
theorem C69_panics {w h : Nat} (hw : 0 < w) (hh : 0 < h) (hb : 4 * (w * h) < 2 ^ 32) (rows : List (List Color)) :
    (Drawable.createWithData w h rows = .panic ↔ ∃ x y r c, rows[y]? = some r ∧ r[x]? = some c ∧ (w ≤ x ∨ h ≤ y)) ∧
    ((∃ d, Drawable.createWithData w h rows = .ok d) ↔
      ∀ x y r c, rows[y]? = some r → r[x]? = some c → x < w ∧ y < h) := by
  obtain ⟨d0, e0, w0, hw0, hh0, -⟩ := Drawable.createEmpty_spec hw hh hb
  have e : Drawable.createWithData w h rows = Res.foldl (fun (d : Drawable) (q : (List Color × Nat) × (Color × Nat)) => (do
      let a ← subU32 h q.1.2
      let b ← subU32 a 1
      d.drawPoint q.2.2 b q.2.1)) d0 (rows.zipIdx.flatMap (fun a => a.1.zipIdx.map fun b => (a, b))) := by
    unfold Drawable.createWithData Drawable.drawRow
    simp only [e0, Res.bind_ok]
    exact Res.foldl_nested (fun (d : Drawable) (a : List Color × Nat) (p : Color × Nat) => (do
      let a ← subU32 h a.2
      let b ← subU32 a 1
      d.drawPoint p.2 b p.1)) (fun a => a.1.zipIdx) rows.zipIdx d0
  have hmem : ∀ q : (List Color × Nat) × (Color × Nat),
      q ∈ rows.zipIdx.flatMap (fun a => a.1.zipIdx.map fun b => (a, b)) ↔
        rows[q.1.2]? = some q.1.1 ∧ q.1.1[q.2.2]? = some q.2.1 := by
    intro q
    rw [List.mem_flatMap]
    constructor
    · rintro ⟨a, ha, hq⟩
      rw [List.mem_map] at hq
      obtain ⟨b, hb', rfl⟩ := hq
      exact ⟨List.mem_zipIdx_iff_getElem?.mp ha, List.mem_zipIdx_iff_getElem?.mp hb'⟩
    · rintro ⟨h1, h2⟩
      exact ⟨q.1, List.mem_zipIdx_iff_getElem?.mpr h1, List.mem_map.mpr
        ⟨q.2, List.mem_zipIdx_iff_getElem?.mpr h2, rfl⟩⟩
  have key := foldl_panic_iff (fun (d : Drawable) (q : (List Color × Nat) × (Color × Nat)) => (do
      let a ← subU32 h q.1.2
      let b ← subU32 a 1
      d.drawPoint q.2.2 b q.2.1)) (fun d => d.WF ∧ d.width = w ∧ d.height = h) (fun q => w ≤ q.2.2 ∨ h ≤ q.1.2)
    (by
      rintro d q ⟨_, d2, d3⟩ hq
      by_cases hy : h ≤ q.1.2
      · rcases Nat.eq_or_lt_of_le hy with hy | hy
        · have e1 : subU32 h q.1.2 = .ok 0 := by unfold subU32; rw [if_pos (by omega)]; congr 1; omega
          rw [e1]; rfl
        · have e1 : subU32 h q.1.2 = .panic := by unfold subU32; exact if_neg (by omega)
          rw [e1]; rfl
      · have e1 : subU32 h q.1.2 = .ok (h - q.1.2) := by unfold subU32; exact if_pos (by omega)
        have e2 : subU32 (h - q.1.2) 1 = .ok (h - q.1.2 - 1) := by unfold subU32; exact if_pos (by omega)
        rw [e1, Res.bind_ok, e2, Res.bind_ok]
        unfold Drawable.drawPoint
        exact if_pos (.inl (by rcases hq with hq | hq <;> omega)))
    (by
      rintro d q ⟨d1, d2, d3⟩ hq
      rw [not_or, not_le, not_le] at hq
      have e1 : subU32 h q.1.2 = .ok (h - q.1.2) := by unfold subU32; exact if_pos (by omega)
      have e2 : subU32 (h - q.1.2) 1 = .ok (h - q.1.2 - 1) := by unfold subU32; exact if_pos (by omega)
      obtain ⟨d', f1, f2, f3, f4, -⟩ := C34_draw_point d1 (x := q.2.2) (y := h - q.1.2 - 1) (by omega) (by omega) q.2.1
      refine ⟨d', ?_, f2, f3.trans d2, f4.trans d3⟩
      rw [e1, Res.bind_ok, e2, Res.bind_ok, f1])
    (rows.zipIdx.flatMap (fun a => a.1.zipIdx.map fun b => (a, b))) d0 ⟨w0, hw0, hh0⟩
  rw [← e] at key
  by_cases hbad : ∃ x y r c, rows[y]? = some r ∧ r[x]? = some c ∧ (w ≤ x ∨ h ≤ y)
  · have hp : Drawable.createWithData w h rows = .panic := by
      obtain ⟨x, y, r, c, h1, h2, h3⟩ := hbad
      exact key.1 ⟨((r, y), (c, x)), (hmem _).mpr ⟨h1, h2⟩, h3⟩
    refine ⟨⟨fun _ => hbad, fun _ => hp⟩, ⟨fun ⟨d, hd⟩ => ?_, fun hall => ?_⟩⟩
    · rw [hp] at hd; cases hd
    · obtain ⟨x, y, r, c, h1, h2, h3⟩ := hbad
      have := hall x y r c h1 h2
      omega
  · have hall : ∀ x y r c, rows[y]? = some r → r[x]? = some c → x < w ∧ y < h := by
      intro x y r c h1 h2
      by_contra hc
      exact hbad ⟨x, y, r, c, h1, h2, by omega⟩
    obtain ⟨d, hd, -⟩ := key.2 (by
      intro q hq
      have := hall _ _ _ _ ((hmem q).mp hq).1 ((hmem q).mp hq).2
      omega)
    refine ⟨⟨fun hp => ?_, fun h => absurd h hbad⟩, ⟨fun _ => hall, fun _ => ⟨d, hd⟩⟩⟩
    rw [hd] at hp; cases hp

/-- Three colours in a picture of two columns. -/
example : Drawable.createWithData 2 3 [[⟨0, 0, 0, 255⟩], [⟨1, 1, 1, 255⟩, ⟨2, 2, 2, 255⟩, ⟨3, 3, 3, 255⟩]] = .panic :=
  (C69_panics (by norm_num) (by norm_num) (by norm_num) _).1.mpr ⟨2, 1, _, ⟨3, 3, 3, 255⟩, rfl, rfl, .inl (by norm_num)⟩

/-- An empty row too many does no harm. -/
example : ∃ d, Drawable.createWithData 2 1 [[⟨0, 0, 0, 255⟩], []] = .ok d := ⟨_, rfl⟩

end Verif.Props

namespace Verif.NetCdf

open Verif
open Verif.Spec.NetCdf (Data)

/-! ## C66: how many values are read -/

/-- The number of values. -/
def Values.number : Values → Nat
  | .bytes v => v.length
  | .chars v => v.length
  | .shorts v => v.length
  | .ints v => v.length
  | .floats v => v.length
  | .doubles v => v.length

/-- The product of the lengths of the dimensions with the given numbers. -/
def extent (dims : List Dim) : List Nat → Option Nat
  | [] => some 1
  | i :: ids => do
    let d ← dims[i]?
    let n ← extent dims ids
    some (d.length * n)

/-- The next multiple of four. -/
def roundUp4 (n : Nat) : Nat := (n + 3) / 4 * 4

theorem decoded_number (d : Data) : (decoded d).number = d.count := by
  cases d <;> simp [decoded, Values.number, Data.count]

/-- **C66**, the part that holds: if a variable without record dimension has the size that the format prescribes (the product `n`
of its dimensions times the size of a value, rounded up to four bytes), then reading it yields `n` values if no
padding is needed, which is always so for values of four or eight bytes, and else up to three more. -/
theorem C66_read_partial {file : List UInt8} {h : Header} {name : List UInt8} {vals : Values} {pre post : List Var}
    {v : Var} {n : Nat} (hr : readDataByVar file h name = .ok vals) (hl : h.varList = pre ++ v :: post)
    (hv : v.name = name) (hp : ∀ w ∈ pre, w.name ≠ name) (hn : extent h.dimList v.dimIds = some n)
    (hs : v.size = roundUp4 (n * v.ncType.byteSize)) :
    n ≤ vals.number ∧ vals.number ≤ n + 3 ∧ (vals.number = n ↔ n * v.ncType.byteSize % 4 = 0) ∧
      (4 ≤ v.ncType.byteSize → vals.number = n) := by
  obtain ⟨pre', post', v', d, e, hv', hp', -, -, -, hc, -, rfl⟩ := (C123_data_iff file h name vals).mp hr
  have hvv : v' = v := by
    have f1 := (findVar_some_iff name h.varList v).mpr ⟨pre, post, hl, hv, hp⟩
    have f2 := (findVar_some_iff name h.varList v').mpr ⟨pre', post', e, hv', hp'⟩
    rw [f1] at f2
    exact (Option.some.inj f2).symm
  subst hvv
  rw [decoded_number, hc, hs]
  unfold roundUp4
  clear hr hl hv hp hn hs e hv' hp' hc
  cases v'.ncType <;> simp only [ValueType.byteSize] <;> refine ⟨?_, ?_, ⟨?_, ?_⟩, ?_⟩ <;> omega

/-- Three shorts, read as four. -/
example : readDataByVar [0, 1, 0, 2, 0, 3, 0xAB, 0xCD] ⟨⟨[], 2⟩, 0, [⟨[0x78], 3⟩], [], [⟨[0x76], [0], [], .ncShort, 8, 0⟩]⟩ [0x76] =
    .ok (.shorts [1, 2, 3, -21555]) := by decide +kernel

/-- Two by three floats. -/
example : extent [⟨[0x78], 2⟩, ⟨[0x79], 3⟩] [0, 1] = some 6 ∧ roundUp4 (6 * ValueType.ncFloat.byteSize) = 24 := by decide

end Verif.NetCdf

namespace Verif.Dwd

open Verif

/-! ## C52, C170: the names of the files -/

/-- The name that DWD gives to what a file holds. -/
def quantity : Req → Text
  | .single .clctMod _ => "clct_mod".toList
  | .single .totPrec _ => "tot_prec".toList
  | .single .ceiling _ => "ceiling".toList
  | .single .ww _ => "ww".toList
  | .single .u10m _ => "u_10m".toList
  | .single .v10m _ => "v_10m".toList
  | .single .vmax10m _ => "vmax_10m".toList
  | .single .t2m _ => "t_2m".toList
  | .level .clc _ _ => "clc".toList
  | .level .u _ _ => "u".toList
  | .level .v _ _ => "v".toList
  | .hhl _ => "hhl".toList

/-- The name of the model and of its area. -/
def modelArea : FcModel → Text × Text
  | .iconD2 => ("icon-d2".toList, "germany".toList)
  | _ => ("icon-eu".toList, "europe".toList)

/-- The kind of a file. -/
def kind : Req → Text
  | .single _ _ => "single-level".toList
  | .level _ _ _ => "model-level".toList
  | .hhl _ => "time-invariant".toList

/-- The numbers in the name of a file: the step with three digits, and the level; the files that hold for all steps
have the step 0 in the one model and none in the other. -/
def numbers (m : FcModel) : Req → List Text
  | .single _ step => [decPad 3 step]
  | .level _ step level => [decPad 3 step, dec level]
  | .hhl level => if m = .iconD2 then ["000".toList, dec level] else [dec level]

/-- The end of the name: in lower case and with a "2d" for files without levels in the one model, in upper case in the
other. -/
def ending (m : FcModel) (r : Req) : List Text :=
  match m, r with
  | .iconD2, .single _ _ => ["2d".toList, quantity r]
  | .iconD2, _ => [quantity r]
  | _, _ => [(quantity r).map Char.toUpper]

/-- The scheme by which DWD names its files. -/
def published (run : Run) (r : Req) : Text :=
  "https://opendata.dwd.de/weather/nwp/".toList ++ (modelArea run.model).1 ++ "/grib/".toList ++ run.name ++ "/".toList ++
    quantity r ++ "/".toList ++
    List.intercalate "_".toList ([(modelArea run.model).1, (modelArea run.model).2, "regular-lat-lon".toList, kind r,
      run.date.fmt ++ run.name] ++ numbers run.model r ++ ending run.model r) ++ ".grib2.bz2".toList

/-- The start of the path and of the name of a file. -/
def pre (m : FcModel) (r : Req) : Text :=
  '/' :: (quantity r ++ '/' :: ((modelArea m).1 ++ '_' :: ((modelArea m).2 ++ '_' :: ("regular-lat-lon".toList ++ '_' ::
    (kind r ++ ['_'])))))

/-- The end of the name of a file. -/
def post (m : FcModel) (r : Req) : Text :=
  (match m, r with | .iconD2, .single _ _ => "_2d_".toList ++ quantity r | .iconD2, _ => '_' :: quantity r | _, _ => '_' :: (quantity r).map Char.toUpper) ++
    ".grib2.bz2".toList

theorem singleParts {m : FcModel} (h : IsDwd m) (x : SingleVar) (s : Nat) :
    singlePrefixSuffix m x = .ok (pre m (.single x s), post m (.single x s)) := by
  have e : pre m (.single x s) = pre m (.single x 0) ∧ post m (.single x s) = post m (.single x 0) := by
    rcases h with rfl | rfl <;> cases x <;> exact ⟨rfl, rfl⟩
  rw [e.1, e.2]
  rcases h with rfl | rfl <;> cases x <;> decide +kernel

theorem levelParts {m : FcModel} (h : IsDwd m) (x : LevelVar) (s l : Nat) :
    levelPrefixSuffix m x = .ok (pre m (.level x s l), post m (.level x s l)) := by
  have e : pre m (.level x s l) = pre m (.level x 0 0) ∧ post m (.level x s l) = post m (.level x 0 0) := by
    rcases h with rfl | rfl <;> cases x <;> exact ⟨rfl, rfl⟩
  rw [e.1, e.2]
  rcases h with rfl | rfl <;> cases x <;> decide +kernel

theorem hhlParts {m : FcModel} (h : IsDwd m) (l : Nat) :
    hhlPrefixSuffix m = .ok (pre m (.hhl l), post m (.hhl l)) := by
  have e : pre m (.hhl l) = pre m (.hhl 0) ∧ post m (.hhl l) = post m (.hhl 0) := by
    rcases h with rfl | rfl <;> exact ⟨rfl, rfl⟩
  rw [e.1, e.2]
  rcases h with rfl | rfl <;> decide +kernel

/-- **C170**: for every run of a DWD model and every file, the program asks for the name that the scheme of the server
prescribes: directory and name of the file agree on the quantity, and on the run. -/
theorem C170_scheme {run : Run} (h : IsDwd run.model) (r : Req) : fileUrl run r = .ok (published run r) := by
  have base : baseUrl run.model = .ok ("https://opendata.dwd.de/weather/nwp/".toList ++ ((modelArea run.model).1 ++ "/grib/".toList)) := by
    rcases h with h | h <;> rw [h] <;> decide +kernel
  have joined : ∀ (a b : Text) (l : List Text), List.intercalate "_".toList (a :: b :: l) =
      a ++ '_' :: List.intercalate "_".toList (b :: l) := fun a b l => by simp [List.intercalate]
  have us : "_2d_".toList = '_' :: ("2d".toList ++ ['_']) := by decide
  have sl : "/".toList = ['/'] := by decide
  have z : "000_".toList = "000".toList ++ ['_'] := by decide
  have end1 : ∀ a : Text, a ++ post run.model r =
      List.intercalate "_".toList (a :: ending run.model r) ++ ".grib2.bz2".toList := by
    intro a
    unfold post ending
    rw [us]
    generalize ".grib2.bz2".toList = x
    generalize "2d".toList = y
    split <;> simp
  have start : published run r = "https://opendata.dwd.de/weather/nwp/".toList ++ ((modelArea run.model).1 ++ ("/grib/".toList ++
      (run.name ++ (pre run.model r ++ (run.date.fmt ++ (run.name ++ '_' ::
        (List.intercalate "_".toList (numbers run.model r ++ ending run.model r) ++ ".grib2.bz2".toList))))))) := by
    have h0 : ∃ a l, numbers run.model r ++ ending run.model r = a :: l := by
      cases r <;> unfold numbers
      · exact ⟨_, _, rfl⟩
      · exact ⟨_, _, rfl⟩
      · by_cases hm : run.model = .iconD2
        · exact ⟨_, _, by simp only [if_pos hm]; rfl⟩
        · exact ⟨_, _, by simp only [if_neg hm]; rfl⟩
    obtain ⟨a, l, h0⟩ := h0
    unfold published pre
    rw [List.append_assoc [_, _, _, _, _], h0, sl]
    generalize "https://opendata.dwd.de/weather/nwp/".toList = x1
    generalize "/grib/".toList = x2
    generalize "regular-lat-lon".toList = x3
    generalize ".grib2.bz2".toList = x4
    simp
  rw [start]
  generalize "https://opendata.dwd.de/weather/nwp/".toList = x1 at base
  generalize "/grib/".toList = x2 at base
  generalize ".grib2.bz2".toList = x4 at end1
  cases r with
  | single x s =>
    unfold fileUrl singleLevelUrl
    simp only [singleParts h x s, base, Res.bind_ok, numbers, List.append_assoc, end1, List.cons_append, List.nil_append]
  | level x s l =>
    unfold fileUrl multiLevelUrl
    simp only [levelParts h x s l, base, Res.bind_ok, numbers, List.append_assoc, end1, List.cons_append, List.nil_append, joined]
  | hhl l =>
    have step : invariantStep run.model = .ok (if run.model = .iconD2 then "000_".toList else []) := by
      rcases h with h | h <;> rw [h] <;> decide +kernel
    unfold fileUrl invariantUrl
    simp only [hhlParts h l, base, step, Res.bind_ok, numbers, List.append_assoc, end1]
    rw [z]
    generalize "000".toList = y
    split <;> simp only [List.append_assoc, List.cons_append, List.nil_append, joined]

/-- **C52**: in the URL of a file of a step, the step stands after the date and the run, between underscores, with at
least three digits. -/
theorem C52_step_written {run : Run} (h : IsDwd run.model) (r : Req) (step : Nat)
    (hr : (∃ x, r = .single x step) ∨ ∃ x l, r = .level x step l) :
    ∃ before digits after : Text, fileUrl run r = .ok (before ++ run.date.fmt ++ run.name ++ '_' :: (digits ++ '_' :: after)) ∧
      3 ≤ digits.length ∧ (∀ c ∈ digits, c.isDigit = true) ∧ valueOf digits = step ∧ ".bz2".toList <:+ after := by
  obtain ⟨base, suf, _, hf, hs⟩ := fileUrl_form h r
  obtain ⟨c1, c2, c3⟩ := C52_three_digits step
  rcases hr with ⟨x, rfl⟩ | ⟨x, l, rfl⟩
  · refine ⟨base ++ (run.name ++ '/' :: (dirOf (.single x step) ++ '/' :: stemOf run.model (.single x step))), decPad 3 step, suf,
      ?_, c1, c3, c2, hs⟩
    rw [hf]; simp [tailOf]
  · refine ⟨base ++ (run.name ++ '/' :: (dirOf (.level x step l) ++ '/' :: stemOf run.model (.level x step l))), decPad 3 step,
      dec l ++ '_' :: suf, ?_, c1, c3, c2, ?_⟩
    · rw [hf]; simp [tailOf]
    · obtain ⟨t, rfl⟩ := hs
      exact ⟨dec l ++ '_' :: t, by simp⟩

example : published ⟨.iconEu, ⟨2025, 8, 5⟩, "21".toList⟩ (.single .vmax10m 12) =
    "https://opendata.dwd.de/weather/nwp/icon-eu/grib/21/vmax_10m/icon-eu_europe_regular-lat-lon_single-level_2025080521_012_VMAX_10M.grib2.bz2".toList := by
  decide +kernel

example : published ⟨.iconD2, ⟨2025, 8, 5⟩, "06".toList⟩ (.hhl 7) =
    "https://opendata.dwd.de/weather/nwp/icon-d2/grib/06/hhl/icon-d2_germany_regular-lat-lon_time-invariant_2025080506_000_7_hhl.grib2.bz2".toList := by
  decide +kernel

end Verif.Dwd
