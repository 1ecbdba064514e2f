import Verif.Eustace.MonthInput.Props

/-!
C151 for one source on one day.
-/

namespace Verif.Eustace.MonthInput

open Verif Verif.Eustace.RawBinary Verif.Eustace.ObsSource Verif.Eustace.Components

theorem mapM_cons_bind {α β : Type} (f : α → Except PyErr β) (a : α) (l : List α) :
    (a :: l).mapM f = (f a).bind fun x => (l.mapM f).bind fun xs => .ok (x :: xs) := by
  rw [List.mapM_cons]
  rfl

/-- A loop in which every step succeeds. -/
theorem mapM_forall₂ {α β : Type} (f : α → Except PyErr β) (l : List α) (P : α → β → Prop) (h : ∀ a ∈ l, ∃ b, f a = .ok b ∧ P a b) :
    ∃ l', l.mapM f = .ok l' ∧ List.Forall₂ P l l' := by
  induction l with
  | nil => exact ⟨[], rfl, .nil⟩
  | cons a l ih =>
    obtain ⟨b, h1, h2⟩ := h a List.mem_cons_self
    obtain ⟨bs, h3, h4⟩ := ih fun x hx => h x (List.mem_cons_of_mem _ hx)
    exact ⟨b :: bs, by rw [mapM_cons_bind, h1, h3]; rfl, .cons h2 h4⟩

/-- Lookup in a dictionary made by a loop over another. -/
theorem lookup_forall₂ {α β : Type} {P : α → β → Prop} {l : List (String × α)} {l' : List (String × β)}
    (h : List.Forall₂ (fun p q => q.1 = p.1 ∧ P p.2 q.2) l l') (key : String) :
    (∀ x, l.lookup key = some x → ∃ y, l'.lookup key = some y ∧ P x y) ∧ (l.lookup key = none → l'.lookup key = none) := by
  induction h with
  | nil => exact ⟨fun x hx => by simp at hx, fun _ => rfl⟩
  | @cons p q l l' hpq _ ih =>
    obtain ⟨k, x⟩ := p
    obtain ⟨k', y⟩ := q
    obtain ⟨h1, h2⟩ := hpq
    dsimp only at h1 h2
    subst h1
    simp only [List.lookup_cons]
    by_cases hk : key == k'
    · simp only [hk]
      exact ⟨fun z hz => ⟨y, rfl, by cases hz; exact h2⟩, fun hn => by cases hn⟩
    · simp only [hk]
      exact ih

theorem lookup_isSome_of_mem {α : Type} {l : List (String × α)} {q : String × α} (h : q ∈ l) : ∃ x, l.lookup q.1 = some x ∧ (q.1, x) ∈ l := by
  induction l with
  | nil => cases h
  | cons p l ih =>
    obtain ⟨k, x⟩ := p
    rw [List.lookup_cons]
    by_cases hk : q.1 == k
    · simp only [hk]
      exact ⟨x, rfl, by rw [beq_iff_eq.1 hk]; exact List.mem_cons_self⟩
    · simp only [hk]
      rcases List.mem_cons.1 h with rfl | h
      · simp at hk
      · obtain ⟨y, h1, h2⟩ := ih h
        exact ⟨y, h1, List.mem_cons_of_mem _ h2⟩

theorem readRanges_ok {disk : Disk} {f : String} {values : List UInt64} (h : disk f = some (writeRanges values)) :
    ((openFile disk (some f)).bind fun bytes => readRanges bytes) = .ok values := by
  rw [openFile, h]
  exact c24_ranges values

/-- A loader is made, and it knows the ranges of each observable. -/
theorem oneDay_ok {disk : Disk} {s : DaySource} {c : Nat} (hr : RangesOf disk s c) {fixed : Option Lookup} (hf : readFixed disk s.fixed = .ok fixed) :
    ∃ l, oneDay disk s = .ok l ∧ l.observables = s.observables ∧ l.fixed = fixed ∧ l.mobile = firstMobile s.mobile ∧
      ∃ specs, filespecs l = .ok specs ∧
        (∀ o f, s.observables.lookup o = some f → ∃ values, specs.lookup o = some (f, values) ∧ values.length = c) ∧
        (∀ o, s.observables.lookup o = none → specs.lookup o = none) := by
  obtain ⟨ranges, h1, h2⟩ := mapM_forall₂
    (fun p : String × Option String => (openFile disk p.2).bind fun bytes => (readRanges bytes).bind fun r => Except.ok (p.1, r))
    s.ranges (fun p q => q.1 = p.1 ∧ (fun _ r => r.length = c) p.2 q.2) (by
      intro p hp
      obtain ⟨f, values, e1, e2, e3⟩ := hr.2 p hp
      refine ⟨(p.1, values), ?_, rfl, e3⟩
      simp only [e1, openFile, e2, Except.bind, c24_ranges])
  refine ⟨⟨ranges, s.observables, fixed, firstMobile s.mobile⟩, by rw [oneDay, h1]; show (readFixed disk s.fixed).bind _ = _; rw [hf]; rfl, rfl, rfl, rfl, ?_⟩
  obtain ⟨specs, h3, h4⟩ := mapM_forall₂
    (fun p : String × Option String => match ranges.lookup p.1 with
      | none => Except.error PyErr.keyError
      | some r => Except.ok (p.1, p.2, r))
    s.observables (fun p q => q.1 = p.1 ∧ (fun f s => s.1 = f ∧ s.2.length = c) p.2 q.2) (by
      intro p hp
      obtain ⟨q, hq, hqp⟩ := hr.1 p hp
      obtain ⟨x, hx, -⟩ := lookup_isSome_of_mem hq
      obtain ⟨y, hy, hyc⟩ := (lookup_forall₂ (P := fun (_ : Option String) (r : List UInt64) => r.length = c) h2 q.1).1 x hx
      refine ⟨(p.1, p.2, y), ?_, rfl, rfl, hyc⟩
      rw [← hqp, hy])
  refine ⟨specs, h3, ?_, ?_⟩
  · intro o f hof
    obtain ⟨⟨f', values⟩, e1, e2, e3⟩ := (lookup_forall₂ (P := fun (f : Option String) (s : Option String × List UInt64) => s.1 = f ∧ s.2.length = c) h4 o).1 f hof
    dsimp only at e2 e3
    exact ⟨values, by rw [e1, e2], e3⟩
  · intro o ho
    exact (lookup_forall₂ (P := fun (f : Option String) (s : Option String × List UInt64) => s.1 = f ∧ s.2.length = c) h4 o).2 ho

theorem fixed_ok {disk : Disk} {s : DaySource} {uuid : Bytes} {table : List (UInt64 × UInt64)} (h : LocationsOf disk s uuid table) :
    ∃ fixed, readFixed disk s.fixed = .ok fixed ∧ ∀ l : DayLoader, l.fixed = fixed → l.mobile = firstMobile s.mobile →
      locationLookup disk l = .ok (some (uuid, table)) := by
  obtain ⟨hu, ⟨f, h1, h2⟩ | ⟨h1, v, f, h2, h3⟩⟩ := h
  · refine ⟨some (uuid, table), ?_, fun l hl _ => ?_⟩
    · rw [h1, readFixed, openFile, h2]
      show (readLookup (writeLookup uuid table)).bind _ = _
      rw [(c24_lookup uuid hu table).1]
      rfl
    · rw [locationLookup, hl]
  · refine ⟨none, by rw [h1, readFixed], fun l hl hm => ?_⟩
    rw [locationLookup, hl, hm, h2]
    simp only [firstMobile]
    rw [openFile, h3]
    show (readLookup (writeLookup uuid table)).bind _ = _
    rw [(c24_lookup uuid hu table).1]
    rfl

theorem loadDay_eq {value : UInt64 → ℝ} {disk : Disk} {day : Int} {l : DayLoader} {lookup : Option Lookup}
    {specs : List (String × Option String × List UInt64)} {obs : Observations ℝ} {r : List Record} {c : Nat} {table : List (UInt64 × UInt64)}
    (h1 : locationLookup disk l = .ok lookup) (h2 : filespecs l = .ok specs) (h3 : dailyMean value disk lookup day specs = .ok obs)
    (hp : IsPlain obs r day c) (ht : tableOf value lookup = table.map fun p => (value p.1, value p.2)) (hr : ∀ x ∈ r, x.1.toNat < table.length) :
    ∃ o, loadDay value disk day l = .ok o ∧ o.time = day ∧ IsObs value table r o := by
  obtain ⟨o, g1, g2, g3⟩ := structureOf_plain (value := value) hp hr
  refine ⟨o, ?_, g2, g3⟩
  rw [loadDay, h1]
  show ((filespecs l).bind fun specs => _) = _
  rw [h2]
  show ((dailyMean value disk lookup day specs).bind fun obs => _) = _
  rw [h3, ← g1, ← ht]
  rfl

theorem isObs_nil {value : UInt64 → ℝ} {table table' : List (UInt64 × UInt64)} {o : Obs} (h : IsObs value table [] o) : IsObs value table' [] o := by
  have h0 : o.m = 0 := h.number
  exact ⟨h.number, fun k hk => by omega, h.measurement, h.precision⟩

/-- **C151** for one source and one day: the analysis sees exactly the observations of the day, at their places, with the precisions of
their errors; means of minimum and maximum if there is no file of daily means; nothing if there are no files. -/
theorem c151_day {value : UInt64 → ℝ} {disk : Disk} {s : DaySource} {day : Int} {c : Nat} {table : List (UInt64 × UInt64)} {r : List Record}
    (hr : RangesOf disk s c) (h : Seen value disk s day c table r) :
    ∃ l o, oneDay disk s = .ok l ∧ loadDay value disk day l = .ok o ∧ o.time = day ∧ IsObs value table r o := by
  cases h with
  | @mean uuid _ f obs _ hl hf ho hd ht =>
    obtain ⟨fixed, f1, f2⟩ := fixed_ok hl
    obtain ⟨l, h1, h2, h3, h4, specs, h5, h6, -⟩ := oneDay_ok hr f1
    obtain ⟨values, h7, h8⟩ := h6 _ _ hf
    obtain ⟨x, h9, h10⟩ := read_file (table := table) hl.1 ho hd h8
    obtain ⟨o, g⟩ := loadDay_eq (table := table) (f2 l h3 h4) h5 (by rw [dailyMean, h7]; exact h9) h10 rfl ht
    exact ⟨l, o, h1, g⟩
  | @minmax uuid _ f g tmin tmax a b hl hn hf hg hmin hmax ha hb ia ib ht =>
    obtain ⟨fixed, f1, f2⟩ := fixed_ok hl
    obtain ⟨l, h1, h2, h3, h4, specs, h5, h6, h6'⟩ := oneDay_ok hr f1
    obtain ⟨values, h7, h8⟩ := h6 _ _ hf
    obtain ⟨values', h7', h8'⟩ := h6 _ _ hg
    obtain ⟨x, h9, h10⟩ := read_file (table := table) hl.1 hmin ha h8
    obtain ⟨y, h9', h10'⟩ := read_file (table := table) hl.1 hmax hb h8'
    obtain ⟨z, h11, h12⟩ := mean_plain h10 h10' ia ib
    obtain ⟨o, g⟩ := loadDay_eq (table := table) (f2 l h3 h4) h5 (by
      rw [dailyMean, h6' _ hn]
      dsimp only
      rw [h7, h7']
      dsimp only
      rw [h9]
      show (readObservable value disk (some (uuid, table)) day (some _, values')).bind _ = _
      rw [h9']
      exact h11) h12 rfl ht
    exact ⟨l, o, h1, g⟩
  | @nothing uuid _ hl hf =>
    obtain ⟨fixed, f1, f2⟩ := fixed_ok hl
    obtain ⟨l, h1, h2, h3, h4, specs, h5, h6, h6'⟩ := oneDay_ok hr f1
    have hp : ∃ c' z, dailyMean value disk (some (uuid, table)) day specs = .ok z ∧ IsPlain z [] day c' := by
      rcases hf with hf | ⟨hn, hf, hg⟩
      · obtain ⟨values, h7, h8⟩ := h6 _ _ hf
        exact ⟨0, _, by rw [dailyMean, h7]; exact read_nothing _ _ _ _ _ (.inl rfl), decode_missing value day⟩
      · obtain ⟨values, h7, h8⟩ := h6 _ _ hf
        obtain ⟨values', h7', h8'⟩ := h6 _ _ hg
        obtain ⟨z, h11, h12⟩ := mean_plain (decode_missing value day) (decode_missing value day) List.Pairwise.nil List.Pairwise.nil
        refine ⟨0, z, ?_, h12⟩
        rw [dailyMean, h6' _ hn]
        dsimp only
        rw [h7, h7']
        dsimp only
        rw [read_nothing _ _ _ _ _ (.inl rfl), read_nothing _ _ _ _ _ (.inl rfl)]
        exact h11
    obtain ⟨c', z, g1, g2⟩ := hp
    obtain ⟨o, g⟩ := loadDay_eq (table := table) (f2 l h3 h4) h5 g1 g2 rfl (by simp)
    exact ⟨l, o, h1, g⟩
  | nowhere hl hf =>
    obtain ⟨l, h1, h2, h3, h4, specs, h5, h6, h6'⟩ := oneDay_ok hr (fixed := none) (by rw [hl.1, readFixed])
    have hlook : locationLookup disk l = .ok none := by
      have hm : firstMobile s.mobile = none := by
        rcases hl.2 with hm | ⟨v, hm⟩ <;> rw [hm] <;> rfl
      rw [locationLookup, h3, h4, hm]
    have hp : ∃ c' z, dailyMean value disk none day specs = .ok z ∧ IsPlain z [] day c' := by
      cases hm : s.observables.lookup "Tmean" with
      | some f =>
        obtain ⟨values, h7, h8⟩ := h6 _ _ hm
        exact ⟨0, _, by rw [dailyMean, h7]; exact read_nothing _ _ _ _ _ (.inr rfl), decode_missing value day⟩
      | none =>
        obtain ⟨hf, hg⟩ := hf.resolve_left (by rw [hm]; simp)
        obtain ⟨f, hf⟩ := Option.isSome_iff_exists.1 hf
        obtain ⟨g, hg⟩ := Option.isSome_iff_exists.1 hg
        obtain ⟨values, h7, h8⟩ := h6 _ _ hf
        obtain ⟨values', h7', h8'⟩ := h6 _ _ hg
        obtain ⟨z, h11, h12⟩ := mean_plain (decode_missing value day) (decode_missing value day) List.Pairwise.nil List.Pairwise.nil
        refine ⟨0, z, ?_, h12⟩
        rw [dailyMean, h6' _ hm]
        dsimp only
        rw [h7, h7']
        dsimp only
        rw [read_nothing _ _ _ _ _ (.inr rfl), read_nothing _ _ _ _ _ (.inr rfl)]
        exact h11
    obtain ⟨c', z, g1, g2⟩ := hp
    obtain ⟨o, g3, g4, g5⟩ := loadDay_eq (table := []) hlook h5 g1 g2 rfl (by simp)
    exact ⟨l, o, h1, g3, g4, isObs_nil g5⟩

end Verif.Eustace.MonthInput
