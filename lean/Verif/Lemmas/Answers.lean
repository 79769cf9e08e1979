import Verif.Spec.Answers
import Verif.Lemmas.Program

/-!
# Lemmas about decoding answers
-/

namespace Verif.Swiss.Answer

open Verif.Spec

theorem collect_eq (keys : List Text) (ms seen : List (Text × Value)) (h : (seen.map Prod.fst).Nodup) :
    collect keys seen ms =
      if ((seen ++ ms.filter fun m => decide (m.1 ∈ keys)).map Prod.fst).Nodup
      then .ok (seen ++ ms.filter fun m => decide (m.1 ∈ keys)) else .err := by
  induction ms generalizing seen with
  | nil => simp [collect, h]
  | cons m ms ih =>
    obtain ⟨k, v⟩ := m
    unfold collect
    by_cases hk : k ∈ keys
    · rw [if_pos hk]
      simp only [List.filter_cons, hk, decide_true, if_true]
      by_cases hs : k ∈ seen.map Prod.fst
      · rw [if_pos hs, if_neg]
        intro hn
        rw [List.map_append, List.nodup_append] at hn
        exact hn.2.2 k hs k (by simp) rfl
      · rw [if_neg hs, ih (seen ++ [(k, v)])]
        · simp only [List.append_assoc, List.singleton_append]
        · rw [List.map_append, List.nodup_append]
          refine ⟨h, by simp, ?_⟩
          rintro a ha b hb rfl
          simp at hb
          subst hb
          exact hs ha
    · rw [if_neg hk, ih seen h]
      simp only [List.filter_cons, hk, decide_false, Bool.false_eq_true, if_false]

theorem fields_obj (keys : List Text) (ms : List (Text × Value)) : fields keys (.obj ms) =
    if ((ms.filter fun m => decide (m.1 ∈ keys)).map Prod.fst).Nodup
    then .ok (ms.filter fun m => decide (m.1 ∈ keys)) else .err := by
  have := collect_eq keys ms [] (by simp)
  simp only [List.nil_append] at this
  exact this

theorem fields_arr (keys : List Text) (l : List Value) : fields keys (.arr l) =
    if l.length = keys.length then .ok (keys.zip l) else .err := rfl

theorem find_of_nodup {l : List (Text × Value)} (h : (l.map Prod.fst).Nodup) {k : Text} {x : Value} :
    l.find? (fun m => m.1 == k) = some (k, x) ↔ (l.filter fun m => m.1 == k) = [(k, x)] := by
  induction l with
  | nil => simp
  | cons m l ih =>
    rw [List.map_cons, List.nodup_cons] at h
    by_cases hm : m.1 = k
    · have : (l.filter fun m => m.1 == k) = [] := by
        rw [List.filter_eq_nil_iff]
        intro y hy e
        rw [beq_iff_eq] at e
        exact h.1 (List.mem_map.mpr ⟨y, hy, e.trans hm.symm⟩)
      rw [List.find?_cons_of_pos (by simpa using hm), List.filter_cons_of_pos (by simpa using hm), this]
      simp
    · rw [List.find?_cons_of_neg (by simpa using hm), List.filter_cons_of_neg (by simpa using hm)]
      exact ih h.2

theorem field_iff {fs : List (Text × Value)} {k : Text} {x : Value} :
    field fs k = .ok x ↔ fs.find? (fun m => m.1 == k) = some (k, x) := by
  unfold field
  cases h : fs.find? (fun m => m.1 == k) with
  | none => simp [Res.okOr]
  | some m =>
    have := List.find?_some h
    simp only [beq_iff_eq] at this
    obtain ⟨a, b⟩ := m
    simp only at this
    subst this
    simp [Res.okOr]

theorem filter_filter_key {ms : List (Text × Value)} {keys : List Text} {k : Text} (hk : k ∈ keys) :
    ((ms.filter fun m => decide (m.1 ∈ keys)).filter fun m => m.1 == k) = ms.filter fun m => m.1 == k := by
  rw [List.filter_filter]
  refine List.filter_congr fun m _ => ?_
  by_cases h : m.1 = k
  · simp [h, hk]
  · simp [h]

/-- The fields that are found are those that the value has. -/
theorem fields_iff {keys : List Text} (hn : keys.Nodup) {v : Value} {xs : List Value} :
    (∃ fs, fields keys v = .ok fs ∧ List.Forall₂ (fun k x => field fs k = .ok x) keys xs) ↔ Has v keys xs := by
  constructor
  · rintro ⟨fs, h, hf⟩
    cases v with
    | obj ms =>
      left
      refine ⟨ms, rfl, ?_⟩
      rw [fields_obj] at h
      split at h
      · rename_i hnd
        cases h
        have key : ∀ (ks : List Text) (xs : List Value), (∀ k ∈ ks, k ∈ keys) →
            List.Forall₂ (fun k x => field (ms.filter fun m => decide (m.1 ∈ keys)) k = .ok x) ks xs →
            List.Forall₂ (Once ms) ks xs := by
          intro ks xs hk hf
          induction hf with
          | nil => exact .nil
          | @cons k x ks xs h1 h2 ih =>
            refine .cons ?_ (ih fun k hk' => hk k (List.mem_cons_of_mem _ hk'))
            unfold Once
            rw [← filter_filter_key (hk k (by simp)), ← find_of_nodup hnd]
            exact field_iff.mp h1
        exact key keys xs (fun _ h => h) hf
      · cases h
    | arr l =>
      right
      rw [fields_arr] at h
      split at h
      · rename_i hl
        cases h
        have key : ∀ (ks : List Text) (l xs : List Value) (pre : List (Text × Value)), ks.Nodup →
            (∀ m ∈ pre, m.1 ∉ ks) → l.length = ks.length →
            List.Forall₂ (fun k x => field (pre ++ ks.zip l) k = .ok x) ks xs → xs = l := by
          intro ks
          induction ks with
          | nil =>
            intro l xs pre _ _ hl hf
            cases hf
            simp at hl
            exact hl.symm
          | cons k ks ih =>
            intro l xs pre hnd hpre hl hf
            cases l with
            | nil => simp at hl
            | cons y l =>
              cases hf with
              | @cons _ x _ xs h1 h2 =>
                rw [List.nodup_cons] at hnd
                have e : pre ++ (k :: ks).zip (y :: l) = (pre ++ [(k, y)]) ++ ks.zip l := by simp
                rw [e] at h1 h2
                have hx : x = y := by
                  rw [field_iff, List.append_assoc, List.find?_append] at h1
                  have : pre.find? (fun m => m.1 == k) = none := by
                    rw [List.find?_eq_none]
                    intro m hm
                    simp only [beq_iff_eq]
                    rintro e
                    exact hpre m hm (by simp [e])
                  rw [this] at h1
                  simp at h1
                  exact h1.symm
                subst hx
                rw [ih l xs (pre ++ [(k, x)]) hnd.2 ?_ (by simpa using hl) h2]
                intro m hm
                rcases List.mem_append.mp hm with hm | hm
                · exact fun h => hpre m hm (List.mem_cons_of_mem _ h)
                · simp at hm
                  subst hm
                  exact hnd.1
        have := key keys l xs [] hn (by simp) hl hf
        subst this
        exact ⟨rfl, hl⟩
      · cases h
    | null => cases h
    | bool b => cases h
    | num b => cases h
    | str t => cases h
  · rintro (⟨ms, rfl, h⟩ | ⟨rfl, hl⟩)
    · have hnd : ((ms.filter fun m => decide (m.1 ∈ keys)).map Prod.fst).Nodup := by
        rw [List.nodup_iff_count_le_one]
        intro k
        by_cases hk : k ∈ keys
        · have : ∃ x, Once ms k x := by
            clear hn
            induction h with
            | nil => simp at hk
            | @cons k' x ks xs h1 h2 ih =>
              rcases List.mem_cons.mp hk with rfl | hk
              · exact ⟨x, h1⟩
              · exact ih hk
          obtain ⟨x, hx⟩ := this
          rw [List.count, List.countP_map]
          have e : ((fun y => y == k) ∘ Prod.fst : Text × Value → Bool) = fun m => m.1 == k := rfl
          rw [e, List.countP_eq_length_filter, filter_filter_key hk, hx]
          simp
        · rw [List.count_eq_zero_of_not_mem]
          · omega
          · intro hm
            obtain ⟨m, hm', rfl⟩ := List.mem_map.mp hm
            rw [List.mem_filter] at hm'
            exact hk (by simpa using hm'.2)
      refine ⟨ms.filter fun m => decide (m.1 ∈ keys), ?_, ?_⟩
      · rw [fields_obj, if_pos hnd]
      · have key : ∀ (ks : List Text) (xs : List Value), (∀ k ∈ ks, k ∈ keys) → List.Forall₂ (Once ms) ks xs →
            List.Forall₂ (fun k x => field (ms.filter fun m => decide (m.1 ∈ keys)) k = .ok x) ks xs := by
          intro ks xs hk hf
          induction hf with
          | nil => exact .nil
          | @cons k x ks xs h1 h2 ih =>
            refine .cons ?_ (ih fun k hk' => hk k (List.mem_cons_of_mem _ hk'))
            rw [field_iff, find_of_nodup hnd, filter_filter_key (hk k (by simp))]
            exact h1
        exact key keys xs (fun _ h => h) h
    · refine ⟨keys.zip xs, ?_, ?_⟩
      · rw [fields_arr, if_pos hl]
      · have key : ∀ (ks : List Text) (xs : List Value) (pre : List (Text × Value)), ks.Nodup →
            (∀ m ∈ pre, m.1 ∉ ks) → xs.length = ks.length →
            List.Forall₂ (fun k x => field (pre ++ ks.zip xs) k = .ok x) ks xs := by
          intro ks
          induction ks with
          | nil =>
            intro xs pre _ _ hl
            simp at hl
            subst hl
            exact .nil
          | cons k ks ih =>
            intro xs pre hnd hpre hl
            cases xs with
            | nil => simp at hl
            | cons y l =>
              rw [List.nodup_cons] at hnd
              have e : pre ++ (k :: ks).zip (y :: l) = (pre ++ [(k, y)]) ++ ks.zip l := by simp
              rw [e]
              refine .cons ?_ (ih l (pre ++ [(k, y)]) hnd.2 ?_ (by simpa using hl))
              · rw [field_iff, List.append_assoc, List.find?_append]
                have : pre.find? (fun m => m.1 == k) = none := by
                  rw [List.find?_eq_none]
                  intro m hm
                  simp only [beq_iff_eq]
                  rintro e
                  exact hpre m hm (by simp [e])
                rw [this]
                simp
              · intro m hm
                rcases List.mem_append.mp hm with hm | hm
                · exact fun h => hpre m hm (List.mem_cons_of_mem _ h)
                · simp at hm
                  subst hm
                  exact hnd.1
        simpa using key keys xs [] hn (by simp) hl

theorem string_iff {v : Value} {t : Text} : string v = .ok t ↔ v = .str t := by
  cases v <;> simp [string]

theorem text_iff {fs : List (Text × Value)} {k t : Text} : text fs k = .ok t ↔ field fs k = .ok (.str t) := by
  unfold text
  rw [Res.bind_eq_ok]
  simp only [string_iff]
  constructor
  · rintro ⟨v, h, rfl⟩; exact h
  · exact fun h => ⟨_, h, rfl⟩

theorem vec_iff {α : Type} {f : Value → Res α} {v : Value} {l : List α} :
    vec f v = .ok l ↔ ∃ items, v = .arr items ∧ List.Forall₂ (fun x y => f x = .ok y) items l := by
  cases v <;> simp [vec, Res.mapM_ok_iff]

theorem fits_iff (v : Value) : v.fits = true ↔ AllFit v := by
  refine Value.rec (motive_1 := fun v => v.fits = true ↔ AllFit v)
    (motive_2 := fun l => Value.allFit l = true ↔ ∀ v ∈ l, AllFit v)
    (motive_3 := fun ms => Value.membersFit ms = true ↔ ∀ m ∈ ms, AllFit m.2)
    (motive_4 := fun m => m.2.fits = true ↔ AllFit m.2) ?_ ?_ ?_ ?_ ?_ ?_ ?_ ?_ ?_ ?_ ?_ v
  · simp [Value.fits, AllFit.null]
  · intro b; simp [Value.fits, AllFit.bool]
  · intro b
    constructor
    · intro h
      have h : b = true := h
      subst h
      exact .num
    · intro h
      cases h
      rfl
  · intro t; simp [Value.fits, AllFit.str]
  · intro l ih
    unfold Value.fits
    rw [ih]
    exact ⟨.arr l, fun h => by cases h; assumption⟩
  · intro ms ih
    unfold Value.fits
    rw [ih]
    exact ⟨.obj ms, fun h => by cases h; assumption⟩
  · simp [Value.allFit]
  · intro v l h1 h2
    simp [Value.allFit, h1, h2]
  · simp [Value.membersFit]
  · rintro ⟨k, v⟩ l h1 h2
    simp only at h1
    simp [Value.membersFit, h1, h2]
  · intro k v h
    exact h

theorem insert_lastWins {all m : List (Text × Link)} (h : LastWins all m) (x : Text × Link) :
    LastWins (all ++ [x]) (insert m x) := by
  obtain ⟨hn, hm⟩ := h
  refine ⟨?_, fun y => ?_⟩
  · unfold insert
    rw [List.map_append, List.nodup_append]
    refine ⟨hn.sublist (List.filter_sublist.map _), by simp, ?_⟩
    rintro a ha b hb rfl
    simp only [List.map_cons, List.map_nil, List.mem_singleton] at hb
    obtain ⟨z, hz, rfl⟩ := List.mem_map.mp ha
    rw [List.mem_filter] at hz
    simp [hb] at hz
  · unfold insert
    rw [List.mem_append, List.mem_filter, List.mem_singleton]
    constructor
    · rintro (⟨h1, h2⟩ | rfl)
      · obtain ⟨a, b, rfl, hb⟩ := (hm y).mp h1
        refine ⟨a, b ++ [x], by simp, ?_⟩
        rw [List.map_append, List.mem_append]
        rintro (h | h)
        · exact hb h
        · simp at h
          simp [h] at h2
      · exact ⟨all, [], rfl, by simp⟩
    · rintro ⟨a, b, e, hb⟩
      rcases List.eq_nil_or_concat b with rfl | ⟨b', z, rfl⟩
      · have := (List.append_inj' e rfl).2
        simp at this
        exact .inr this.symm
      · rw [List.concat_eq_append] at e hb
        have e' : all ++ [x] = (a ++ y :: b') ++ [z] := by rw [e]; simp
        obtain ⟨e1, e2⟩ := List.append_inj' e' rfl
        simp at e2
        subst e2
        refine .inl ⟨(hm y).mpr ⟨a, b', e1, fun h => hb (by simp at h ⊢; exact .inl h)⟩, ?_⟩
        simp only [bne_iff_ne]
        intro h
        exact hb (by simp [h])

theorem foldl_lastWins (all pre m : List (Text × Link)) (h : LastWins pre m) :
    LastWins (pre ++ all) (all.foldl insert m) := by
  induction all generalizing pre m with
  | nil => simpa using h
  | cons x all ih =>
    have := ih (pre ++ [x]) (insert m x) (insert_lastWins h x)
    simpa using this

theorem lastWins_nil : LastWins [] [] := ⟨by simp, by simp⟩

theorem LastWins.perm {all m m' : List (Text × Link)} (h : LastWins all m) (h' : LastWins all m') : m.Perm m' := by
  have n := h.1.of_map
  have n' := h'.1.of_map
  rw [List.perm_ext_iff_of_nodup n n']
  exact fun x => (h.2 x).trans (h'.2 x).symm

end Verif.Swiss.Answer
