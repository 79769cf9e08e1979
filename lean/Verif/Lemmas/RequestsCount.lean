import Verif.Lemmas.Requests

/-!
# Lemmas about which requests are made, and when
-/

namespace Verif

open MapTileRenderer

theorem requests_append (a b : List Event) : requests (a ++ b) = requests a ++ requests b := List.filter_append ..

theorem requests_write (tr : List Write) : requests (tr.map .write) = [] := by
  unfold requests
  rw [List.filter_eq_nil_iff]
  intro e he
  obtain ⟨w, -, rfl⟩ := List.mem_map.mp he
  simp [Event.written]

/-! ## Interleavings -/

theorem tagged_perm {β : Type} (n : Nat) (tagged : List (Nat × β)) (tags : ∀ e ∈ tagged, e.1 < n) :
    tagged.Perm ((List.range n).flatMap fun i => tagged.filter fun e => e.1 == i) := by
  induction n generalizing tagged with
  | zero =>
    cases tagged with
    | nil => rfl
    | cons a l => exact absurd (tags a (by simp)) (by omega)
  | succ n ih =>
    have h1 := List.filter_append_perm (fun e : Nat × β => e.1 == n) tagged
    have h2 := ih (tagged.filter fun e => !(e.1 == n)) (by
      intro e he
      obtain ⟨h, h'⟩ := List.mem_filter.mp he
      have := tags e h
      simp at h'
      omega)
    have h3 : (List.range n).flatMap (fun i => (tagged.filter fun e => !(e.1 == n)).filter fun e => e.1 == i) =
        (List.range n).flatMap fun i => tagged.filter fun e => e.1 == i := by
      rw [List.flatMap_def, List.flatMap_def]
      congr 1
      refine List.map_congr_left fun i hi => ?_
      rw [List.filter_filter]
      refine List.filter_congr fun e he => ?_
      have := List.mem_range.mp hi
      cases h : e.1 == i with
      | false => rfl
      | true =>
        simp only [beq_iff_eq] at h
        have : e.1 ≠ n := by omega
        simp [this]
    rw [h3] at h2
    rw [List.range_succ, List.flatMap_append]
    simp only [List.flatMap_cons, List.flatMap_nil, List.append_nil]
    exact h1.symm.trans (List.perm_append_comm.trans (h2.append_right _))

theorem flatMap_subperm {α β : Type} (l : List α) {f g : α → List β} (h : ∀ a ∈ l, (f a).Subperm (g a)) :
    (l.flatMap f).Subperm (l.flatMap g) := by
  induction l with
  | nil => exact List.Subperm.refl _
  | cons a l ih =>
    simp only [List.flatMap_cons]
    exact (h a (by simp)).append (ih fun b hb => h b (by simp [hb]))

theorem flatMap_perm {α β : Type} (l : List α) {f g : α → List β} (h : ∀ a ∈ l, (f a).Perm (g a)) :
    (l.flatMap f).Perm (l.flatMap g) := by
  induction l with
  | nil => exact List.Perm.refl _
  | cons a l ih =>
    simp only [List.flatMap_cons]
    exact (h a (by simp)).append (ih fun b hb => h b (by simp [hb]))

theorem flatMap_range {α β : Type} (items : List α) (L : α → List β) :
    (List.range items.length).flatMap (fun i => match items[i]? with | some a => L a | none => []) = items.flatMap L := by
  induction items with
  | nil => rfl
  | cons a as ih =>
    rw [List.length_cons, List.range_succ_eq_map, List.flatMap_cons, List.flatMap_map, List.flatMap_cons, ← ih]
    simp

theorem requests_tagged (n : Nat) (tagged : List (Nat × Event)) (tags : ∀ e ∈ tagged, e.1 < n) :
    (requests (tagged.map Prod.snd)).Perm
      ((List.range n).flatMap fun i => requests ((tagged.filter fun e => e.1 == i).map Prod.snd)) := by
  have h := ((tagged_perm n tagged tags).map Prod.snd).filter fun e : Event => e.written.isNone
  rw [List.map_flatMap, List.filter_flatMap] at h
  exact h

/-! ## Counting requests -/

/-- The requests of a computation are among `l`, and are all of `l` if it succeeds. -/
def Counted {α : Type} (x : Asking α) (l : List Event) : Prop :=
  ∀ ev r, x ev r → (requests ev).Subperm l ∧ ∀ a, r = .ok a → (requests ev).Perm l

/-- The same for a part of the program. -/
def CountedD (d : Deed) (l : List Event) : Prop :=
  ∀ ev o, d ev o → (requests ev).Subperm l ∧ (o = .done → (requests ev).Perm l)

theorem Counted.of {α : Type} (r : Res α) : Counted (Asking.of r) [] := by
  rintro ev x ⟨rfl, -⟩
  exact ⟨List.Subperm.refl _, fun _ _ => List.Perm.refl _⟩

theorem Counted.lift {α : Type} (r : Res α) : Counted (liftM r : Asking α) [] := Counted.of r

theorem Counted.pure {α : Type} (a : α) : Counted (pure a : Asking α) [] := Counted.of (.ok a)

theorem Counted.one {α : Type} (e : Event) (he : e.written = none) (r : Res α) : Counted (Asking.one e r) [e] := by
  rintro ev x ⟨rfl, -⟩
  have : requests [e] = [e] := by unfold requests; simp [he]
  rw [this]
  exact ⟨List.Subperm.refl _, fun _ _ => List.Perm.refl _⟩

theorem Counted.request (net : Net) (url : Text) : Counted (Asking.request net url) [.get url] := by
  rintro ev x ⟨rfl, -⟩
  exact ⟨List.Subperm.refl _, fun _ _ => List.Perm.refl _⟩

theorem Counted.bind {α β : Type} {x : Asking α} {f : α → Asking β} {l₁ l₂ : List Event} (h : Counted x l₁)
    (hf : ∀ a, (∃ ev, x ev (.ok a)) → Counted (f a) l₂) : Counted (x >>= f) (l₁ ++ l₂) := by
  have left : ∀ {l : List Event}, l.Subperm l₁ → l.Subperm (l₁ ++ l₂) := fun h =>
    h.trans (List.sublist_append_left _ _).subperm
  rintro ev r (⟨h1, rfl⟩ | ⟨h1, rfl⟩ | ⟨a, e1, e2, h1, h2, rfl⟩)
  · exact ⟨left (h _ _ h1).1, by simp⟩
  · exact ⟨left (h _ _ h1).1, by simp⟩
  · have h3 := (h _ _ h1).2 a rfl
    obtain ⟨h4, h5⟩ := hf a ⟨_, h1⟩ _ _ h2
    rw [requests_append]
    exact ⟨h3.subperm.append h4, fun b hb => h3.append (h5 b hb)⟩

theorem Counted.cast {α : Type} {x : Asking α} {l l' : List Event} (h : Counted x l) (e : l = l') : Counted x l' := e ▸ h

theorem Counted.par {α β : Type} {f : α → Asking β} {items : List α} {L : α → List Event}
    (h : ∀ a ∈ items, Counted (f a) (L a)) : Counted (ParMap f items) (items.flatMap L) := by
  intro ev r hx
  obtain ⟨tagged, ends, rfl, tags, ran, skipped, hok, -⟩ := hx.inv
  have h1 := requests_tagged _ _ tags
  rw [← flatMap_range items L]
  constructor
  · refine h1.subperm.trans (flatMap_subperm _ fun i hi => ?_)
    have hi := List.mem_range.mp hi
    rw [List.getElem?_eq_getElem hi]
    cases he : ends i with
    | none =>
      rw [skipped i hi he]
      exact List.nil_subperm
    | some ri => exact (h _ (List.getElem_mem hi) _ _ (ran i hi ri he)).1
  · intro bs hb
    refine h1.trans (flatMap_perm _ fun i hi => ?_)
    have hi := List.mem_range.mp hi
    rw [List.getElem?_eq_getElem hi]
    obtain ⟨b, -, he⟩ := (hok bs hb).2 i hi
    exact (h _ (List.getElem_mem hi) _ _ (ran i hi _ he)).2 b rfl

theorem CountedD.done : CountedD (fun ev o => ev = [] ∧ o = .done) [] := by
  rintro ev o ⟨rfl, rfl⟩
  exact ⟨List.Subperm.refl _, fun _ => List.Perm.refl _⟩

theorem CountedD.of (e : Effect) : CountedD (Deed.of e) [] := by
  rintro ev o ⟨tr, -, rfl⟩
  rw [requests_write]
  exact ⟨List.Subperm.refl _, fun _ => List.Perm.refl _⟩

theorem CountedD.cast {d : Deed} {l l' : List Event} (h : CountedD d l) (e : l = l') : CountedD d l' := e ▸ h

theorem CountedD.perm {d : Deed} {l l' : List Event} (h : CountedD d l) (e : l.Perm l') : CountedD d l' :=
  fun ev o hd => ⟨(h ev o hd).1.trans e.subperm, fun ho => ((h ev o hd).2 ho).trans e⟩

theorem CountedD.when {d : Deed} {l : List Event} (h : CountedD d l) (c : Bool) :
    CountedD (Deed.when c d) (if c then l else []) := by
  cases c with
  | true => exact h
  | false => exact CountedD.done

theorem CountedD.need {α : Type} {x : Asking α} {f : α → Deed} {l₁ l₂ : List Event} (h : Counted x l₁)
    (hf : ∀ a, (∃ ev, x ev (.ok a)) → CountedD (f a) l₂) : CountedD (Deed.need x f) (l₁ ++ l₂) := by
  have left : ∀ {l : List Event}, l.Subperm l₁ → l.Subperm (l₁ ++ l₂) := fun h =>
    h.trans (List.sublist_append_left _ _).subperm
  rintro ev o (⟨h1, rfl⟩ | ⟨h1, rfl⟩ | ⟨a, e1, e2, h1, h2, rfl⟩)
  · exact ⟨left (h _ _ h1).1, by simp⟩
  · exact ⟨left (h _ _ h1).1, by simp⟩
  · have h3 := (h _ _ h1).2 a rfl
    obtain ⟨h4, h5⟩ := hf a ⟨_, h1⟩ _ _ h2
    rw [requests_append]
    exact ⟨h3.subperm.append h4, fun hb => h3.append (h5 hb)⟩

theorem CountedD.nil : CountedD (Seq []) [] := by
  intro ev o h
  cases h
  exact ⟨List.Subperm.refl _, fun _ => List.Perm.refl _⟩

theorem CountedD.cons {d : Deed} {ds : List Deed} {l₁ l₂ : List Event} (h : CountedD d l₁) (hs : CountedD (Seq ds) l₂) :
    CountedD (Seq (d :: ds)) (l₁ ++ l₂) := by
  intro ev o hd
  cases hd with
  | cons h1 h2 =>
    have h3 := (h _ _ h1).2 rfl
    obtain ⟨h4, h5⟩ := hs _ _ h2
    rw [requests_append]
    exact ⟨h3.subperm.append h4, fun hb => h3.append (h5 hb)⟩
  | stop h1 ho => exact ⟨(h _ _ h1).1.trans (List.sublist_append_left _ _).subperm, fun hb => absurd hb ho⟩

theorem CountedD.par {α : Type} {d : α → Deed} {items : List α} {L : α → List Event}
    (h : ∀ a ∈ items, CountedD (d a) (L a)) : CountedD (ParTry d items) (items.flatMap L) := by
  intro ev o hx
  obtain ⟨tagged, ends, rfl, tags, ran, skipped, hdone⟩ := hx.inv
  have h1 := requests_tagged _ _ tags
  rw [← flatMap_range items L]
  constructor
  · refine h1.subperm.trans (flatMap_subperm _ fun i hi => ?_)
    have hi := List.mem_range.mp hi
    rw [List.getElem?_eq_getElem hi]
    cases he : ends i with
    | none =>
      rw [(skipped i hi he).1]
      exact List.nil_subperm
    | some ri => exact (h _ (List.getElem_mem hi) _ _ (ran i hi ri he)).1
  · intro ho
    refine h1.trans (flatMap_perm _ fun i hi => ?_)
    have hi := List.mem_range.mp hi
    rw [List.getElem?_eq_getElem hi]
    exact (h _ (List.getElem_mem hi) _ _ (ran i hi _ (hdone.mp ho i hi))).2 rfl

theorem CountedD.step {m : Libm} {run : Run} {dirs : Text → Bool} {filter : List Nat} {read : RunStep → Asking Layers}
    {s : RunStep} {l : List Event} (h : Counted (read s) l) :
    CountedD (runStepAsks m run dirs filter read s) (if selected filter s then l else []) := by
  unfold runStepAsks
  split
  · exact (CountedD.need h fun _ _ => CountedD.of _).cast (List.append_nil _)
  · exact CountedD.done

theorem CountedD.steps {m : Libm} {run : Run} {dirs : Text → Bool} {steps : List RunStep} {filter : List Nat}
    {read : RunStep → Asking Layers} {L : RunStep → List Event} (h : ∀ s ∈ steps, Counted (read s) (L s)) :
    CountedD (renderStepsAsks m run dirs steps filter read)
      (steps.flatMap fun s => if selected filter s then L s else []) :=
  CountedD.par (d := runStepAsks m run dirs filter read) fun s hs => CountedD.step (h s hs)

/-! ## Requests come before the files for which they are made -/

/-- Whenever a file is written, what `R` demands has been requested. -/
def Since (d : Deed) (R : Write → (Event → Prop) → Prop) : Prop :=
  ∀ ev o, d ev o → ∀ pre w post, ev = pre ++ .write w :: post → R w (· ∈ pre)

/-- Demands that stay met. -/
def Upward (R : Write → (Event → Prop) → Prop) : Prop := ∀ w (S T : Event → Prop), (∀ q, S q → T q) → R w S → R w T

theorem Since.mono {d : Deed} {R R' : Write → (Event → Prop) → Prop} (h : Since d R) (hr : ∀ w S, R w S → R' w S) :
    Since d R' := fun ev o hd pre w post e => hr _ _ (h ev o hd pre w post e)

theorem Since.done {R : Write → (Event → Prop) → Prop} : Since (fun ev o => ev = [] ∧ o = .done) R := by
  rintro ev o ⟨rfl, -⟩ pre w post e
  simp at e

theorem Since.when {d : Deed} {R : Write → (Event → Prop) → Prop} {c : Bool} (h : c = true → Since d R) :
    Since (Deed.when c d) R := by
  cases c with
  | true => exact h rfl
  | false => exact Since.done

theorem Since.silent {ev : List Event} {pre post : List Event} {w : Write} (h : written ev = [])
    (e : ev = pre ++ .write w :: post) : False := by
  have := written_nil.mp h (.write w) (by rw [e]; simp)
  cases this

/-- Where a write of two parts is. -/
theorem split_write {e1 e2 pre post : List Event} {w : Write} (h1 : written e1 = []) (e : e1 ++ e2 = pre ++ .write w :: post) :
    ∃ pre', pre = e1 ++ pre' ∧ e2 = pre' ++ .write w :: post := by
  rcases List.append_eq_append_iff.mp e with ⟨a, rfl, h⟩ | ⟨a, h, h'⟩
  · exact ⟨a, rfl, h⟩
  · cases a with
    | nil => exact ⟨[], by simpa using h.symm, by simpa using h'.symm⟩
    | cons x a =>
      simp only [List.cons_append, List.cons.injEq] at h'
      obtain ⟨rfl, -⟩ := h'
      rw [h, written_append] at h1
      simp [written, Event.written] at h1

theorem requests_silent {ev : List Event} (h : written ev = []) : requests ev = ev :=
  List.filter_eq_self.mpr fun e he => by rw [written_nil.mp h e he]; rfl

theorem Since.need {α : Type} {x : Asking α} {f : α → Deed} {R : Write → (Event → Prop) → Prop} {l : List Event}
    (hs : ∀ ev r, x ev r → written ev = []) (h : Counted x l) (hR : Upward R)
    (hf : ∀ a, (∃ ev, x ev (.ok a)) → Since (f a) fun w S => R w fun q => q ∈ l ∨ S q) : Since (Deed.need x f) R := by
  rintro ev o (⟨h1, rfl⟩ | ⟨h1, rfl⟩ | ⟨a, e1, e2, h1, h2, rfl⟩) pre w post e
  · exact (Since.silent (hs _ _ h1) e).elim
  · exact (Since.silent (hs _ _ h1) e).elim
  · obtain ⟨pre', rfl, e'⟩ := split_write (hs _ _ h1) e
    refine hR _ _ _ ?_ (hf a ⟨_, h1⟩ _ _ h2 _ _ _ e')
    rintro q (hq | hq)
    · have := ((h _ _ h1).2 a rfl).mem_iff.mpr hq
      rw [requests_silent (hs _ _ h1)] at this
      exact List.mem_append_left _ this
    · exact List.mem_append_right _ hq

theorem Since.nil {R : Write → (Event → Prop) → Prop} : Since (Seq []) R := by
  intro ev o h pre w post e
  cases h
  simp at e

theorem Since.cons {d : Deed} {ds : List Deed} {R : Write → (Event → Prop) → Prop} (hR : Upward R) (h : Since d R)
    (hs : Since (Seq ds) R) : Since (Seq (d :: ds)) R := by
  intro ev o hd pre w post e
  cases hd with
  | cons h1 h2 =>
    rcases List.append_eq_append_iff.mp e with ⟨a, rfl, h'⟩ | ⟨a, h', h''⟩
    · exact hR _ _ _ (fun q hq => List.mem_append_right _ hq) (hs _ _ h2 _ _ _ h')
    · cases a with
      | nil => exact hR _ _ _ (fun q hq => (by simp at hq)) (hs _ _ h2 [] _ _ h''.symm)
      | cons x a =>
        simp only [List.cons_append, List.cons.injEq] at h''
        obtain ⟨rfl, -⟩ := h''
        exact h _ _ h1 _ _ _ h'
  | stop h1 ho => exact h _ _ h1 _ _ _ e

theorem Since.par {α : Type} {d : α → Deed} {items : List α} {R : Write → (Event → Prop) → Prop} (hR : Upward R)
    (h : ∀ a ∈ items, Since (d a) R) : Since (ParTry d items) R := by
  intro ev o hx pre w post e
  obtain ⟨tagged, ends, rfl, tags, ran, skipped, -⟩ := hx.inv
  obtain ⟨t1, t2, rfl, rfl, h2⟩ := List.map_eq_append_iff.mp e
  obtain ⟨⟨i, x⟩, t3, rfl, rfl, rfl⟩ := List.map_eq_cons_iff.mp h2
  have hi : i < items.length := tags (i, .write w) (by simp)
  have hf : ((t1 ++ (i, Event.write w) :: t3).filter fun e => e.1 == i).map Prod.snd =
      (t1.filter fun e => e.1 == i).map Prod.snd ++ .write w :: (t3.filter fun e => e.1 == i).map Prod.snd := by
    simp
  cases he : ends i with
  | none =>
    have := (skipped i hi he).1
    rw [this] at hf
    simp at hf
  | some oi =>
    have h3 := h _ (List.getElem_mem hi) _ _ (ran i hi oi he) _ _ _ hf
    refine hR _ _ _ ?_ h3
    intro q hq
    obtain ⟨y, hy, rfl⟩ := List.mem_map.mp hq
    exact List.mem_map_of_mem (List.mem_filter.mp hy).1

theorem Since.step {m : Libm} {run : Run} {dirs : Text → Bool} {filter : List Nat} {read : RunStep → Asking Layers}
    {s : RunStep} {l : List Event} {R : Write → (Event → Prop) → Prop} (hR : Upward R)
    (hs : ∀ ev r, read s ev r → written ev = []) (h : Counted (read s) l)
    (hw : ∀ ls ev, read s ev (.ok ls) → ∀ tr o, RunJob m run dirs s.nr ls.job tr o → ∀ w ∈ tr, R w (· ∈ l)) :
    Since (runStepAsks m run dirs filter read s) R := by
  unfold runStepAsks
  split
  · refine Since.need hs h hR fun ls ⟨ev', hls⟩ => ?_
    rintro ev o ⟨tr, ht, rfl⟩ pre w post e
    have hm : w ∈ tr := by
      have : Event.write w ∈ tr.map Event.write := by rw [e]; simp
      obtain ⟨w', hw', e'⟩ := List.mem_map.mp this
      cases e'
      exact hw'
    exact hR _ _ _ (fun q hq => .inl hq) (hw ls ev' hls tr o ht w hm)
  · exact Since.done

theorem Since.skip {α : Type} {x : Asking α} {f : α → Deed} {R : Write → (Event → Prop) → Prop} {l : List Event}
    (hs : ∀ ev r, x ev r → written ev = []) (h : Counted x l) (hR : Upward R)
    (hf : ∀ a, (∃ ev, x ev (.ok a)) → Since (f a) R) : Since (Deed.need x f) R :=
  Since.need hs h hR fun a ha => (hf a ha).mono fun w _ => hR w _ _ fun _ hq => .inr hq

/-- What results are like. -/
def Ends {α : Type} (x : Asking α) (P : α → Prop) : Prop := ∀ ev a, x ev (.ok a) → P a

theorem Ends.bind {α β : Type} {x : Asking α} {f : α → Asking β} {P : β → Prop} (h : ∀ a, Ends (f a) P) : Ends (x >>= f) P := by
  rintro ev b (⟨-, e⟩ | ⟨-, e⟩ | ⟨a, e1, e2, -, h2, -⟩)
  · cases e
  · cases e
  · exact h a e2 b h2

theorem Ends.pure {α : Type} {a : α} {P : α → Prop} (h : P a) : Ends (pure a : Asking α) P := by
  rintro ev b ⟨-, e⟩
  cases e
  exact h

end Verif
