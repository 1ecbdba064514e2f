import Verif.Eustace.MonthInput.Day

/-!
C151 for all sources and days of a month, C152: the month as a whole is solved as its days are.
-/

namespace Verif.Eustace.MonthInput

open Verif Verif.Eustace.RawBinary Verif.Eustace.ObsSource Verif.Eustace.Components Verif.Eustace.Linear

/-- What is seen is known in full. -/
theorem isObs_unique {value : UInt64 → ℝ} {table : List (UInt64 × UInt64)} {r : List Record} {o : Obs} (h : IsObs value table r o) :
    o = obsOf value table o.time r := by
  obtain ⟨time, m, loc, y, R⟩ := o
  have hm : m = r.length := h.number
  subst hm
  unfold obsOf
  dsimp only
  congr 1
  · funext k
    obtain ⟨x, p, h1, h2, h3⟩ := h.place k.1 k.2
    have hx : r[k] = x := by
      have := List.getElem?_eq_getElem k.2
      rw [this] at h1
      exact Option.some.inj h1
    rw [hx, List.getD_eq_getElem?_getD, h2]
    exact h3
  · funext k
    obtain ⟨x, h1, h3⟩ := h.measurement k.1 k.2
    have hx : r[k] = x := by
      have := List.getElem?_eq_getElem k.2
      rw [this] at h1
      exact Option.some.inj h1
    rw [hx]
    exact h3
  · ext k l
    obtain ⟨x, h1, h3⟩ := h.precision k.1 l.1 k.2 l.2
    have hx : r[k] = x := by
      have := List.getElem?_eq_getElem k.2
      rw [this] at h1
      exact Option.some.inj h1
    rw [Matrix.diagonal_apply]
    by_cases hkl : k = l
    · subst hkl
      rw [if_pos rfl, hx]
      simpa using h3
    · rw [if_neg hkl]
      have : k.1 ≠ l.1 := fun h => hkl (Fin.ext h)
      simpa [this] using h3

theorem mapM_eq {α β : Type} (f : α → Except PyErr β) (g : α → β) (l : List α) (h : ∀ a ∈ l, f a = .ok (g a)) : l.mapM f = .ok (l.map g) := by
  induction l with
  | nil => rfl
  | cons a l ih =>
    rw [mapM_cons_bind, h a List.mem_cons_self, ih fun x hx => h x (List.mem_cons_of_mem _ hx)]
    rfl

theorem itemAt_ok {l : List (Option String)} {i : Nat} (h : i < l.length) : itemAt l i = .ok (l.getD i none) := by
  rw [itemAt, List.getD_eq_getElem?_getD, List.getElem?_eq_getElem h]
  rfl

theorem sliceDict_ok {d : List (String × List (Option String))} {i n : Nat} (hi : i < n) (h : ∀ p ∈ d, p.2.length = n) :
    sliceDict d i = .ok (d.map fun p => (p.1, p.2.getD i none)) := by
  apply mapM_eq
  intro p hp
  rw [itemAt_ok (by rw [h p hp]; exact hi)]
  rfl

/-- The names of a day are taken from those of the month. -/
theorem slice_ok {s : MonthSource} {i n : Nat} (hi : i < n) (h : Covers s n) : slice s i = .ok (dayNames s i) := by
  obtain ⟨h1, h2, h3, h4⟩ := h
  rw [slice, sliceDict_ok hi h1, sliceDict_ok hi h2]
  have e3 : sliceFixed s.fixed i = .ok (s.fixed.bind fun l => l.getD i none) := by
    cases hf : s.fixed with
    | none => rfl
    | some l => rw [sliceFixed, itemAt_ok (by rw [h3 l hf]; exact hi)]; rfl
  have e4 : sliceMobile s.mobile i = .ok (s.mobile.map fun d => d.map fun p => (p.1, p.2.getD i none)) := by
    cases hf : s.mobile with
    | none => rfl
    | some d => rw [sliceMobile, sliceDict_ok hi (h4 d hf)]; rfl
  rw [e3, e4]
  rfl

/-- The loaders of a day. -/
theorem day_ok {value : UInt64 → ℝ} {disk : Disk} {s : DaySource} {day : Int} {c : Nat} {table : List (UInt64 × UInt64)} {r : List Record}
    (hr : RangesOf disk s c) (h : Seen value disk s day c table r) :
    ∃ l, oneDay disk s = .ok l ∧ loadDay value disk day l = .ok (obsOf value table day r) := by
  obtain ⟨l, o, h1, h2, h3, h4⟩ := c151_day hr h
  refine ⟨l, h1, h2.trans ?_⟩
  rw [isObs_unique h4, h3]

theorem forall₂_mapM {α β γ : Type} {f : β → Except PyErr γ} {g : α → γ} {l : List α} {l' : List β}
    (h : List.Forall₂ (fun a b => f b = .ok (g a)) l l') : l'.mapM f = .ok (l.map g) := by
  induction h with
  | nil => rfl
  | cons h _ ih =>
    rw [mapM_cons_bind, h, ih]
    rfl

/-- Loaders of one day and their observations. -/
theorem days_ok {value : UInt64 → ℝ} {disk : Disk} {days : List Int} {inputs : List Given} (h : ∀ g ∈ inputs, g.OnDisk value disk days)
    {i : Nat} {t : Int} (ht : days[i]? = some t) :
    ∃ ls, (((inputs.map Given.source).mapM fun s => slice s i).bind fun day => day.mapM (oneDay disk)) = .ok ls ∧
      ls.mapM (loadDay value disk t) = .ok (inputs.map fun g => g.loader value t) := by
  have hi : i < days.length := (List.getElem?_eq_some_iff.1 ht).1
  rw [mapM_eq _ (fun s => dayNames s i) _ (by
    intro s hs
    obtain ⟨g, hg, rfl⟩ := List.mem_map.1 hs
    exact slice_ok hi (h g hg).1)]
  rw [List.map_map]
  show ∃ ls, (inputs.map _).mapM _ = _ ∧ _
  have : ∀ (l : List Given), (∀ g ∈ l, g ∈ inputs) →
      ∃ ls, (l.map (fun g => dayNames g.source i)).mapM (oneDay disk) = .ok ls ∧ List.Forall₂ (fun g b => loadDay value disk t b = .ok (g.loader value t)) l ls := by
    intro l
    induction l with
    | nil => exact fun _ => ⟨[], rfl, .nil⟩
    | cons g l ih =>
      intro hl
      obtain ⟨ls, h1, h2⟩ := ih fun x hx => hl x (List.mem_cons_of_mem _ hx)
      obtain ⟨c, h3, h4⟩ := (h g (hl g List.mem_cons_self)).2 i t ht
      obtain ⟨b, h5, h6⟩ := day_ok h3 h4
      exact ⟨b :: ls, by rw [List.map_cons, mapM_cons_bind, h5, h1]; rfl, .cons h6 h2⟩
  obtain ⟨ls, h1, h2⟩ := this inputs fun _ h => h
  exact ⟨ls, h1, forall₂_mapM h2⟩

theorem stLoaders_const {A : Analysis} (S : Store A) (k : Fin A.K) (t : Int) (ls : List Loader) (r : Storage (A.comp k).n × STSolution (A.comp k).n) :
    stLoaders A S k t (ls.map fun l => fun _ => l t) r = stLoaders A S k t ls r := by
  induction ls generalizing r with
  | nil => rfl
  | cons l ls ih => simp only [List.map_cons, stLoaders, ih]

theorem spLoaders_const {A : Analysis} (S : Store A) (k : Fin A.K) (t : Int) (ls : List Loader) (r : SpSolution (A.comp k).n) :
    spLoaders A S k t (ls.map fun l => fun _ => l t) r = spLoaders A S k t ls r := by
  induction ls generalizing r with
  | nil => rfl
  | cons l ls ih => simp only [List.map_cons, spLoaders, ih]

theorem stBatch_const {A : Analysis} (S : Store A) (k : Fin A.K) (ls : List Loader) (days : List Int) (r : Storage (A.comp k).n × STSolution (A.comp k).n) :
    stBatch A S k (days.map fun t => (t, ls.map fun l => fun _ => l t)) r = stBatch A S k (days.map fun t => (t, ls)) r := by
  induction days generalizing r with
  | nil => rfl
  | cons t days ih => simp only [List.map_cons, stBatch, stLoaders_const, ih, List.map_eq_nil_iff]

theorem spBatch_const {A : Analysis} (S : Store A) (k : Fin A.K) (ls : List Loader) (days : List Int) (r : Storage (A.comp k).n × SpSolution (A.comp k).n) :
    spBatch A S k (days.map fun t => (t, ls.map fun l => fun _ => l t)) r = spBatch A S k (days.map fun t => (t, ls)) r := by
  induction days generalizing r with
  | nil => rfl
  | cons t days ih => simp only [List.map_cons, spBatch, spLoaders_const, ih, List.map_eq_nil_iff]

theorem times_const {A : Analysis} (S : Store A) (k : Fin A.K) (ls : List Loader) (days : List Int) :
    updateComponentTimes A k (days.map fun t => (t, ls.map fun l => fun _ => l t)) S = updateComponentTimes A k (days.map fun t => (t, ls)) S := by
  unfold updateComponentTimes
  rw [stBatch_const, spBatch_const]

/-- **C151** for a month: the operation for a month updates the component with exactly the observations of all its days. -/
theorem c151_month {value : UInt64 → ℝ} {disk : Disk} {days : List Int} {inputs : List Given} (h : ∀ g ∈ inputs, g.OnDisk value disk days)
    (A : Analysis) (k : Fin A.K) (S : Store A) :
    processInputsBatch value disk A (inputs.map Given.source) days k S =
      updateComponentTimes A k (days.map fun t => (t, inputs.map (Given.loader value))) S := by
  obtain ⟨L, h1, h2⟩ := mapM_forall₂ (fun i => ((inputs.map Given.source).mapM fun s => slice s i).bind fun day => day.mapM (oneDay disk))
    (List.range days.length) (fun i ls => ∀ t, days[i]? = some t → ls.mapM (loadDay value disk t) = .ok (inputs.map fun g => g.loader value t)) (by
      intro i hi
      have hi := List.mem_range.1 hi
      obtain ⟨ls, h1, h2⟩ := days_ok h (List.getElem?_eq_getElem hi)
      refine ⟨ls, h1, fun t ht => ?_⟩
      rw [List.getElem?_eq_getElem hi] at ht
      rw [← Option.some.inj ht]
      exact h2)
  have hlen : L.length = days.length := by
    have := h2.length_eq
    rw [List.length_range] at this
    exact this.symm
  have h3 : loadMonth value disk days L = .ok (days.map fun t => (t, (inputs.map (Given.loader value)).map fun l => fun _ => l t)) := by
    rw [loadMonth, mapM_eq _ (fun p : Int × List DayLoader => (p.1, (inputs.map (Given.loader value)).map fun l => fun _ => l p.1))]
    · have hz : (days.zip L).map Prod.fst = days := List.map_fst_zip (by omega)
      conv_rhs => rw [← hz, List.map_map]
      rfl
    · intro p hp
      obtain ⟨i, hi, rfl⟩ := List.mem_iff_getElem.1 hp
      have hi' : i < days.length := by
        rw [List.length_zip] at hi
        omega
      rw [List.getElem_zip]
      have h4 := (List.forall₂_iff_get.1 h2).2 i (by simpa using hi') (by omega)
      have h5 := h4 days[i] (by simp [hi'])
      simp only [List.get_eq_getElem] at h5
      dsimp only
      rw [h5]
      show Except.ok _ = _
      rw [List.map_map, List.map_map]
      rfl
  rw [processInputsBatch, monthLoaders, h1]
  show (loadMonth value disk days L).bind _ = _
  rw [h3]
  exact times_const S k _ days

/-- A source for one day. -/
theorem one_ok {value : UInt64 → ℝ} {disk : Disk} {t : Int} {inputs : List (DaySource × List (UInt64 × UInt64) × List Record)}
    (h : ∀ q ∈ inputs, ∃ c, RangesOf disk q.1 c ∧ Seen value disk q.1 t c q.2.1 q.2.2) (A : Analysis) (k : Fin A.K) (S : Store A) :
    processInputs value disk A (inputs.map Prod.fst) t k S =
      updateComponentTime A (inputs.map fun q => fun _ => obsOf value q.2.1 t q.2.2) k t S := by
  have : ∀ (l : List (DaySource × List (UInt64 × UInt64) × List Record)), (∀ q ∈ l, q ∈ inputs) →
      ∃ ls, (l.map Prod.fst).mapM (oneDay disk) = .ok ls ∧ List.Forall₂ (fun q b => loadDay value disk t b = .ok (obsOf value q.2.1 t q.2.2)) l ls := by
    intro l
    induction l with
    | nil => exact fun _ => ⟨[], rfl, .nil⟩
    | cons g l ih =>
      intro hl
      obtain ⟨ls, h1, h2⟩ := ih fun x hx => hl x (List.mem_cons_of_mem _ hx)
      obtain ⟨c, h3, h4⟩ := h g (hl g List.mem_cons_self)
      obtain ⟨b, h5, h6⟩ := day_ok h3 h4
      exact ⟨b :: ls, by rw [List.map_cons, mapM_cons_bind, h5, h1]; rfl, .cons h6 h2⟩
  obtain ⟨ls, h1, h2⟩ := this inputs fun _ h => h
  rw [processInputs, h1]
  show (ls.mapM (loadDay value disk t)).bind _ = _
  rw [forall₂_mapM h2]
  show updateComponentTime A (List.map _ (inputs.map _)) k t S = _
  rw [List.map_map]
  rfl

end Verif.Eustace.MonthInput
