import Verif.Eustace.Storage.Spec
import Mathlib.Data.List.Nodup

/-!
C43: reads of stored solutions give what was written last, for any number of storage objects which share the files; where this
is not so.
-/

namespace Verif.Eustace.Storage

open Verif

variable {V σ : Type}

/-! ### In memory -/

/-- The storage in memory after a history. -/
def memoryAfter : List (Write V) → SpatialMemory V → SpatialMemory V
  | [], m => m
  | w :: rest, m => memoryAfter rest (m.write w.quantity w.value w.time)

theorem memoryAfter_append (a b : List (Write V)) (m : SpatialMemory V) :
    memoryAfter (a ++ b) m = memoryAfter b (memoryAfter a m) := by
  induction a generalizing m with
  | nil => rfl
  | cons w a ih => exact ih _

theorem memory_unchanged (h : List (Write V)) (q : Quantity) (t : Int) (m : SpatialMemory V)
    (hn : ∀ w ∈ h, w.quantity = q → w.time ≠ t) : (memoryAfter h m).atTime q t = m.atTime q t := by
  induction h generalizing m with
  | nil => rfl
  | cons w h ih =>
    rw [memoryAfter, ih _ fun w' hw => hn w' (List.mem_cons_of_mem _ hw)]
    refine if_neg ?_
    rintro ⟨h1, h2⟩
    exact hn w List.mem_cons_self h1.symm h2.symm

/-- **C43**, in memory: a read gives the value of the last write for this quantity and time. -/
theorem c43_memory_last (before after : List (Write V)) (q : Quantity) (t : Int) (v : Option V)
    (hn : ∀ w ∈ after, w.quantity = q → w.time ≠ t) :
    (memoryAfter (before ++ ⟨q, t, v⟩ :: after) SpatialMemory.init).read q t = .ok v := by
  rw [memoryAfter_append, memoryAfter, SpatialMemory.read, memory_unchanged after q t _ hn]
  simp [SpatialMemory.write]

/-- **C43**, in memory: `None` if there was no such write. -/
theorem c43_memory_never (h : List (Write V)) (q : Quantity) (t : Int) (hn : ∀ w ∈ h, w.quantity = q → w.time ≠ t) :
    (memoryAfter h SpatialMemory.init).read q t = .ok none := by
  rw [SpatialMemory.read, memory_unchanged h q t _ hn]
  rfl

/-- Non-vacuity: two writes for one time, one for another. -/
example : (memoryAfter [⟨.state, 3, some 1⟩, ⟨.state, 3, some 2⟩, ⟨.state, 4, some 5⟩, ⟨.sample, 3, some 7⟩]
    (SpatialMemory.init (V := Nat))).read .state 3 = .ok (some 2) :=
  c43_memory_last [⟨.state, 3, some 1⟩] [⟨.state, 4, some 5⟩, ⟨.sample, 3, some 7⟩] .state 3 (some 2) (by
    intro w hw
    rcases List.mem_cons.1 hw with rfl | hw
    · intro _ h; cases h
    · rcases List.mem_cons.1 hw with rfl | hw
      · intro h; cases h
      · cases hw)

/-- The measurements of the storage in memory after a history of `(time, value)`. -/
def measurementsAfter : List (Int × Option V) → SpatialMemory V → SpatialMemory V
  | [], m => m
  | w :: rest, m => measurementsAfter rest (m.writeMeasurement w.2 w.1)

theorem measurements_append (a b : List (Int × Option V)) (m : SpatialMemory V) :
    measurementsAfter (a ++ b) m = measurementsAfter b (measurementsAfter a m) := by
  induction a generalizing m with
  | nil => rfl
  | cons w a ih => exact ih _

theorem measurements_unchanged (h : List (Int × Option V)) (t : Int) (m : SpatialMemory V) (hn : ∀ w ∈ h, w.1 ≠ t) :
    (measurementsAfter h m).measurement t = m.measurement t := by
  induction h generalizing m with
  | nil => rfl
  | cons w h ih =>
    rw [measurementsAfter, ih _ fun w' hw => hn w' (List.mem_cons_of_mem _ hw)]
    exact if_neg fun h1 => hn w List.mem_cons_self h1.symm

/-- **C43**, measurements in memory: the last write, or KeyError; and they are apart from the other quantities. -/
theorem c43_memory_measurement (before after : List (Int × Option V)) (t : Int) (v : Option V) (m : SpatialMemory V)
    (hn : ∀ w ∈ after, w.1 ≠ t) :
    (measurementsAfter (before ++ (t, v) :: after) m).readMeasurement t = .ok v ∧
      (measurementsAfter after SpatialMemory.init : SpatialMemory V).readMeasurement t = .error .keyError ∧
      (measurementsAfter after m).atTime = m.atTime := by
  refine ⟨?_, ?_, ?_⟩
  · rw [measurements_append, measurementsAfter, SpatialMemory.readMeasurement, measurements_unchanged after t _ hn]
    simp [SpatialMemory.writeMeasurement]
  · rw [SpatialMemory.readMeasurement, measurements_unchanged after t _ hn]
    rfl
  · clear hn
    induction after generalizing m with
    | nil => rfl
    | cons w h ih => exact ih _

/-- The storage of one state in memory after a history. -/
def singleAfter : List (Quantity × Option V) → SpaceTimeMemory V → SpaceTimeMemory V
  | [], m => m
  | w :: rest, m => singleAfter rest (m.write w.1 w.2)

theorem single_unchanged (h : List (Quantity × Option V)) (q : Quantity) (m : SpaceTimeMemory V) (hn : ∀ w ∈ h, w.1 ≠ q) :
    (singleAfter h m).value q = m.value q := by
  induction h generalizing m with
  | nil => rfl
  | cons w h ih =>
    rw [singleAfter, ih _ fun w' hw => hn w' (List.mem_cons_of_mem _ hw)]
    exact if_neg fun h1 => hn w List.mem_cons_self h1.symm

/-- **C43**, one state in memory. -/
theorem c43_memory_single (before after : List (Quantity × Option V)) (q : Quantity) (v : Option V)
    (hn : ∀ w ∈ after, w.1 ≠ q) :
    (singleAfter (before ++ (q, v) :: after) SpaceTimeMemory.init).read q = .ok v ∧
      (singleAfter after (SpaceTimeMemory.init : SpaceTimeMemory V)).read q = .ok none := by
  constructor
  · have happ : ∀ (a b : List (Quantity × Option V)) m, singleAfter (a ++ b) m = singleAfter b (singleAfter a m) := by
      intro a
      induction a with
      | nil => intro b m; rfl
      | cons w a ih => intro b m; exact ih _ _
    rw [happ, singleAfter, SpaceTimeMemory.read, single_unchanged after q _ hn]
    simp [SpaceTimeMemory.write]
  · rw [SpaceTimeMemory.read, single_unchanged after q _ hn]
    rfl

/-! ### Files without a cache -/

/-- A method for writing puts accepted values into files with the given names, and does nothing else. -/
def WritesAs (write : σ → Quantity → Option V → Int → Disk V → Except PyErr (Disk V))
    (accepts : σ → Quantity → Int → Prop) (name : Quantity → Int → String) (s : σ) : Prop :=
  ∀ q t v disk, (accepts s q t ∧ write s q v t disk = .ok (writepickle v (name q t) disk)) ∨
    (¬ accepts s q t ∧ ∃ e, write s q v t disk = .error e)

theorem disk_unchanged {write : σ → Quantity → Option V → Int → Disk V → Except PyErr (Disk V)}
    {accepts : σ → Quantity → Int → Prop} {name : Quantity → Int → String} (hd : Distinct name) (history : List (σ × Write V))
    (hw : ∀ e ∈ history, WritesAs write accepts name e.1) (q : Quantity) (t : Int)
    (hn : NeverWritten accepts history q t) (disk : Disk V) :
    diskAfter write disk history (name q t) = disk (name q t) := by
  induction history generalizing disk with
  | nil => rfl
  | cons e h ih =>
    obtain ⟨s, w⟩ := e
    have hw' := fun e he => hw e (List.mem_cons_of_mem _ he)
    have hn' : NeverWritten accepts h q t := fun e he => hn e (List.mem_cons_of_mem _ he)
    rw [diskAfter]
    rcases hw _ List.mem_cons_self w.quantity w.time w.value disk with ⟨ha, hok⟩ | ⟨_, e, he⟩
    · simp only at hok ha
      rw [hok]
      dsimp only
      rw [ih hw' hn']
      refine if_neg fun hname => ?_
      obtain ⟨h1, h2⟩ := hd _ _ _ _ hname
      refine hn _ List.mem_cons_self h1.symm h2.symm ?_
      rw [h1, h2]; exact ha
    · simp only at he
      rw [he]
      exact ih hw' hn' disk

theorem diskAfter_append (write : σ → Quantity → Option V → Int → Disk V → Except PyErr (Disk V))
    (a b : List (σ × Write V)) (disk : Disk V) :
    diskAfter write disk (a ++ b) = diskAfter write (diskAfter write disk a) b := by
  induction a generalizing disk with
  | nil => rfl
  | cons e a ih =>
    obtain ⟨s, w⟩ := e
    rw [List.cons_append, diskAfter, diskAfter]
    cases write s w.quantity w.value w.time disk <;> exact ih _

theorem disk_last {write : σ → Quantity → Option V → Int → Disk V → Except PyErr (Disk V)}
    {accepts : σ → Quantity → Int → Prop} {name : Quantity → Int → String} (hd : Distinct name) (history : List (σ × Write V))
    (hw : ∀ e ∈ history, WritesAs write accepts name e.1) (q : Quantity) (t : Int) (v : Option V)
    (hl : LastWritten accepts history q t v) (disk : Disk V) :
    diskAfter write disk history (name q t) = some v := by
  obtain ⟨a, s, b, rfl, ha, hb⟩ := hl
  rw [diskAfter_append, diskAfter]
  rcases hw (s, ⟨q, t, v⟩) (by simp) q t v (diskAfter write disk a) with ⟨_, hok⟩ | ⟨hna, _⟩
  · simp only at hok
    rw [hok]
    dsimp only
    rw [disk_unchanged hd b (fun e he => hw e (by simp [he])) q t hb]
    exact if_pos rfl
  · exact absurd ha hna

theorem spatial_writesAs (s : SpatialFiles) (name : Quantity → Int → String)
    (hs : ∀ q t f, s.WritesTo q t f → f = name q t) :
    WritesAs (V := V) SpatialFiles.write (fun s q t => ∃ f, s.WritesTo q t f) name s := by
  intro q t v disk
  cases hn : s.writeName q with
  | none =>
    refine .inr ⟨?_, .valueError, ?_⟩
    · rintro ⟨f, _, h⟩; rw [hn] at h; cases h
    · rw [SpatialFiles.write, hn]
  | some f =>
    by_cases ht : s.time = some t
    · refine .inl ⟨⟨f, ht, hn⟩, ?_⟩
      rw [SpatialFiles.write, hn, ← hs q t f ⟨ht, hn⟩]
      exact if_neg (not_not.2 ht)
    · refine .inr ⟨?_, .valueError, ?_⟩
      · rintro ⟨f, h, _⟩; exact ht h
      · rw [SpatialFiles.write, hn]
        exact if_pos ht

theorem spatial_read (s : SpatialFiles) (q : Quantity) (t : Int) (f : String) (hr : s.ReadsFrom q t f) (disk : Disk V) :
    s.read q t disk = readpickle f disk := by
  rw [SpatialFiles.read, hr.2]
  exact if_neg (not_not.2 hr.1)

/-- **C43**, files of single times: any number of storage objects, each of one time, with names of files which belong to
quantities and times.  What one reads is what any of them wrote last. -/
theorem c43_spatial_last (name : Quantity → Int → String) (hd : Distinct name) (history : List (SpatialFiles × Write V))
    (hh : ∀ e ∈ history, ∀ q t f, e.1.WritesTo q t f → f = name q t) (disk : Disk V) (reader : SpatialFiles) (q : Quantity)
    (t : Int) (hr : reader.ReadsFrom q t (name q t)) (v : Option V)
    (hl : LastWritten (fun s q t => ∃ f, SpatialFiles.WritesTo s q t f) history q t v) :
    reader.read q t (diskAfter SpatialFiles.write disk history) = .ok v := by
  rw [spatial_read _ _ _ _ hr, readpickle,
    disk_last hd history (fun e he => spatial_writesAs e.1 name (hh e he)) q t v hl disk]

/-- **C43**, files of single times: what was on the disk before stays; without a file IOError is raised. -/
theorem c43_spatial_never (name : Quantity → Int → String) (hd : Distinct name) (history : List (SpatialFiles × Write V))
    (hh : ∀ e ∈ history, ∀ q t f, e.1.WritesTo q t f → f = name q t) (disk : Disk V) (reader : SpatialFiles) (q : Quantity)
    (t : Int) (hr : reader.ReadsFrom q t (name q t))
    (hn : NeverWritten (fun s q t => ∃ f, SpatialFiles.WritesTo s q t f) history q t) :
    (∀ v, disk (name q t) = some v → reader.read q t (diskAfter SpatialFiles.write disk history) = .ok v) ∧
      (disk (name q t) = none → reader.read q t (diskAfter SpatialFiles.write disk history) = .error .other) := by
  have hu := disk_unchanged hd history (fun e he => spatial_writesAs e.1 name (hh e he)) q t hn disk
  constructor
  · intro v hv
    rw [spatial_read _ _ _ _ hr, readpickle, hu, hv]
  · intro hv
    rw [spatial_read _ _ _ _ hr, readpickle, hu, hv]

/-- Names of files for the examples: as many letters as a code of quantity and time. -/
def letters (q : Quantity) (t : Int) : String :=
  String.ofList (List.replicate (8 * t.natAbs + (if t < 0 then 4 else 0) + q.ctorIdx) 'a')

theorem letters_distinct : Distinct letters := by
  intro q t q' t' h
  have h1 : 8 * t.natAbs + (if t < 0 then 4 else 0) + q.ctorIdx = 8 * t'.natAbs + (if t' < 0 then 4 else 0) + q'.ctorIdx := by
    have := congrArg (fun s : String => s.toList.length) h
    simpa [letters] using this
  have hb : ∀ q : Quantity, q.ctorIdx < 4 := by intro q; cases q <;> decide
  have := hb q
  have := hb q'
  have hq : q.ctorIdx = q'.ctorIdx := by split at h1 <;> split at h1 <;> omega
  refine ⟨?_, ?_⟩
  · revert hq
    cases q <;> cases q' <;> simp [Quantity.ctorIdx]
  · split at h1 <;> split at h1 <;> omega

/-- A storage object of one time. -/
def exampleSpatial (t : Int) (w r : Bool) : SpatialFiles :=
  ⟨some t, fun q => if r then some (letters q t) else none, fun q => if w then some (letters q t) else none⟩

/-- Non-vacuity: one object writes twice for day 3, another for day 4, a third cannot write; a fourth reads. -/
example : (exampleSpatial 3 false true).read .state 3 (diskAfter SpatialFiles.write (fun _ => none)
    [(exampleSpatial 3 true false, ⟨.state, 3, some 1⟩), (exampleSpatial 3 true false, ⟨.state, 3, some 2⟩),
      (exampleSpatial 4 true false, ⟨.state, 4, some 5⟩), (exampleSpatial 4 true false, ⟨.state, 3, some 6⟩)]) =
    .ok (some (2 : Nat)) := by
  refine c43_spatial_last letters letters_distinct _ ?_ _ _ _ _ ⟨rfl, rfl⟩ _
    ⟨[(exampleSpatial 3 true false, ⟨.state, 3, some 1⟩)], exampleSpatial 3 true false, _, rfl,
      ⟨letters .state 3, rfl, rfl⟩, ?_⟩
  · intro e he q t f hf
    have : ∃ t', e.1 = exampleSpatial t' true false := by
      simp only [List.mem_cons, List.not_mem_nil, or_false] at he
      rcases he with rfl | rfl | rfl | rfl <;> exact ⟨_, rfl⟩
    obtain ⟨t', ht'⟩ := this
    rw [ht'] at hf
    obtain ⟨h1, h2⟩ := hf
    cases h1
    cases h2
    rfl
  · intro e he h1 h2
    simp only [List.mem_cons, List.not_mem_nil, or_false] at he
    rcases he with rfl | rfl
    · cases h2
    · rintro ⟨f, hf, _⟩
      cases hf

theorem lastIndex_mem (keys : List Int) (key : Int) (i : Nat) (h : lastIndex keys key = some i) : keys[i]? = some key := by
  induction keys generalizing i with
  | nil => cases h
  | cons k rest ih =>
    rw [lastIndex] at h
    cases hl : lastIndex rest key with
    | some j =>
      rw [hl] at h
      cases h
      rw [List.getElem?_cons_succ]
      exact ih j hl
    | none =>
      rw [hl] at h
      by_cases hk : k = key
      · rw [if_pos hk] at h
        cases h
        rw [hk]; rfl
      · rw [if_neg hk] at h; cases h

theorem lastIndex_isSome (keys : List Int) (key : Int) (h : key ∈ keys) : ∃ i, lastIndex keys key = some i := by
  induction keys with
  | nil => cases h
  | cons k rest ih =>
    rw [lastIndex]
    cases hl : lastIndex rest key with
    | some j => exact ⟨j + 1, rfl⟩
    | none =>
      rcases List.mem_cons.1 h with h | h
      · exact ⟨0, if_pos h.symm⟩
      · obtain ⟨i, hi⟩ := ih h
        rw [hi] at hl; cases hl

theorem lastIndex_nodup (keys : List Int) (key : Int) (i : Nat) (hk : keys.Nodup) (h : keys[i]? = some key) :
    lastIndex keys key = some i := by
  obtain ⟨j, hj⟩ := lastIndex_isSome keys key (List.mem_of_getElem? h)
  have hj' := lastIndex_mem keys key j hj
  rw [hj]
  congr 1
  obtain ⟨h1, _⟩ := List.getElem?_eq_some_iff.1 hj'
  exact (List.getElem?_inj h1 hk).1 (hj'.trans h.symm)

/-- Times are listed once. -/
def IndexedFiles.Proper (s : IndexedFiles) : Prop := ∃ times, s.timeList = some times ∧ times.Nodup

theorem indexed_writesAs (s : IndexedFiles) (hp : s.Proper) (name : Quantity → Int → String)
    (hs : ∀ q t f, s.WritesTo q t f → f = name q t) :
    WritesAs (V := V) IndexedFiles.write (fun s q t => ∃ f, s.WritesTo q t f) name s := by
  obtain ⟨times, ht, hnd⟩ := hp
  have hlook : s.lookup = lastIndex times := by rw [IndexedFiles.lookup, ht]
  intro q t v disk
  by_cases hw : ∃ f, s.WritesTo q t f
  · obtain ⟨f, times', files, i, h1, h2, h3, h4⟩ := hw
    obtain rfl : times' = times := by rw [ht] at h1; exact (Option.some.inj h1).symm
    refine .inl ⟨⟨f, times', files, i, h1, h2, h3, h4⟩, ?_⟩
    rw [IndexedFiles.write, h2, hlook]
    dsimp only
    rw [lastIndex_nodup _ _ _ hnd h3]
    dsimp only
    rw [h4, hs q t f ⟨times', files, i, h1, h2, h3, h4⟩]
  · refine .inr ⟨hw, ?_⟩
    rw [IndexedFiles.write]
    cases h2 : s.writeList q with
    | none => exact ⟨_, rfl⟩
    | some files =>
      rw [hlook]
      dsimp only
      cases h3 : lastIndex times t with
      | none => exact ⟨_, rfl⟩
      | some i =>
        dsimp only
        cases h4 : files[i]? with
        | none => exact ⟨_, rfl⟩
        | some f => exact absurd ⟨f, times, files, i, ht, h2, lastIndex_mem _ _ _ h3, h4⟩ hw

theorem indexed_read (s : IndexedFiles) (hp : s.Proper) (q : Quantity) (t : Int) (f : String) (hr : s.ReadsFrom q t f)
    (disk : Disk V) : s.read q t disk = readpickle f disk := by
  obtain ⟨times, ht, hnd⟩ := hp
  obtain ⟨times', files, i, h1, h2, h3, h4⟩ := hr
  obtain rfl : times' = times := by rw [ht] at h1; exact (Option.some.inj h1).symm
  rw [IndexedFiles.read, h2, IndexedFiles.lookup, ht]
  dsimp only
  rw [lastIndex_nodup _ _ _ hnd h3]
  dsimp only
  rw [h4]

/-- **C43**, lists of files with lists of times. -/
theorem c43_indexed_last (name : Quantity → Int → String) (hd : Distinct name) (history : List (IndexedFiles × Write V))
    (hp : ∀ e ∈ history, e.1.Proper) (hh : ∀ e ∈ history, ∀ q t f, e.1.WritesTo q t f → f = name q t) (disk : Disk V)
    (reader : IndexedFiles) (hrp : reader.Proper) (q : Quantity) (t : Int) (hr : reader.ReadsFrom q t (name q t))
    (v : Option V) (hl : LastWritten (fun s q t => ∃ f, IndexedFiles.WritesTo s q t f) history q t v) :
    reader.read q t (diskAfter IndexedFiles.write disk history) = .ok v := by
  rw [indexed_read _ hrp _ _ _ hr, readpickle,
    disk_last hd history (fun e he => indexed_writesAs e.1 (hp e he) name (hh e he)) q t v hl disk]

/-- **C43**, lists of files with lists of times: without a write the disk is as before. -/
theorem c43_indexed_never (name : Quantity → Int → String) (hd : Distinct name) (history : List (IndexedFiles × Write V))
    (hp : ∀ e ∈ history, e.1.Proper) (hh : ∀ e ∈ history, ∀ q t f, e.1.WritesTo q t f → f = name q t) (disk : Disk V)
    (reader : IndexedFiles) (hrp : reader.Proper) (q : Quantity) (t : Int) (hr : reader.ReadsFrom q t (name q t))
    (hn : NeverWritten (fun s q t => ∃ f, IndexedFiles.WritesTo s q t f) history q t) :
    (∀ v, disk (name q t) = some v → reader.read q t (diskAfter IndexedFiles.write disk history) = .ok v) ∧
      (disk (name q t) = none → reader.read q t (diskAfter IndexedFiles.write disk history) = .error .other) := by
  have hu := disk_unchanged hd history (fun e he => indexed_writesAs e.1 (hp e he) name (hh e he)) q t hn disk
  constructor
  · intro v hv
    rw [indexed_read _ hrp _ _ _ hr, readpickle, hu, hv]
  · intro hv
    rw [indexed_read _ hrp _ _ _ hr, readpickle, hu, hv]

theorem delayed_writesAs (s : DelayedFiles) (name : Quantity → Int → String)
    (hs : ∀ q t f, s.WritesTo q t f → f = name q t) :
    WritesAs (V := V) DelayedFiles.write (fun s q t => ∃ f, s.WritesTo q t f) name s := by
  intro q t v disk
  by_cases hw : ∃ f, s.WritesTo q t f
  · obtain ⟨f, hq, names, h1, h2⟩ := hw
    refine .inl ⟨⟨f, hq, names, h1, h2⟩, ?_⟩
    rw [← hs q t f ⟨hq, names, h1, h2⟩]
    rcases hq with rfl | rfl <;> (rw [DelayedFiles.write, h1]; dsimp only; rw [h2])
  · refine .inr ⟨hw, ?_⟩
    have hcase : q = .state ∨ q = .marginalStd ∨ q = .sample ∨ q = .priorSample := by cases q <;> simp
    rcases hcase with hq | hq | hq | hq
    · subst hq
      rw [DelayedFiles.write]
      cases h1 : s.writeNames .state with
      | none => exact ⟨_, rfl⟩
      | some names =>
        dsimp only
        cases h2 : names t with
        | none => exact ⟨_, rfl⟩
        | some f => exact absurd ⟨f, .inl rfl, names, h1, h2⟩ hw
    · subst hq
      rw [DelayedFiles.write]
      cases h1 : s.writeNames .marginalStd with
      | none => exact ⟨_, rfl⟩
      | some names =>
        dsimp only
        cases h2 : names t with
        | none => exact ⟨_, rfl⟩
        | some f => exact absurd ⟨f, .inr rfl, names, h1, h2⟩ hw
    · subst hq; exact ⟨_, rfl⟩
    · subst hq; exact ⟨_, rfl⟩

/-- **C43**, dictionaries of files: states and standard deviations. -/
theorem c43_delayed_last (name : Quantity → Int → String) (hd : Distinct name) (history : List (DelayedFiles × Write V))
    (hh : ∀ e ∈ history, ∀ q t f, e.1.WritesTo q t f → f = name q t) (disk : Disk V) (reader : DelayedFiles) (q : Quantity)
    (t : Int) (hr : reader.ReadsFrom q t (name q t)) (v : Option V)
    (hl : LastWritten (fun s q t => ∃ f, DelayedFiles.WritesTo s q t f) history q t v) :
    reader.read q t (diskAfter DelayedFiles.write disk history) = .ok v := by
  have hlast := disk_last hd history (fun e he => delayed_writesAs e.1 name (hh e he)) q t v hl disk
  obtain ⟨hq, names, h1, h2⟩ := hr
  rcases hq with rfl | rfl <;>
    (rw [DelayedFiles.read, h1]; dsimp only; rw [h2]; dsimp only; rw [readpickle, hlast])

/-- **C43**, dictionaries of files: a file which is listed for reading but is not there is an error, a time which is not listed
gives `None`. -/
theorem c43_delayed_never (name : Quantity → Int → String) (hd : Distinct name) (history : List (DelayedFiles × Write V))
    (hh : ∀ e ∈ history, ∀ q t f, e.1.WritesTo q t f → f = name q t) (disk : Disk V) (reader : DelayedFiles) (q : Quantity)
    (t : Int) (hn : NeverWritten (fun s q t => ∃ f, DelayedFiles.WritesTo s q t f) history q t) :
    (reader.ReadsFrom q t (name q t) → disk (name q t) = none →
      reader.read q t (diskAfter DelayedFiles.write disk history) = .error .other) ∧
    (q = .state ∨ q = .marginalStd → (∀ f, ¬ reader.ReadsFrom q t f) →
      reader.read q t (diskAfter DelayedFiles.write disk history) = .ok none) := by
  have hu := disk_unchanged hd history (fun e he => delayed_writesAs e.1 name (hh e he)) q t hn disk
  constructor
  · rintro ⟨hq, names, h1, h2⟩ hv
    rcases hq with rfl | rfl <;>
      (rw [DelayedFiles.read, h1]; dsimp only; rw [h2]; dsimp only; rw [readpickle, hu, hv])
  · intro hq hno
    cases h1 : reader.readNames q with
    | none => rcases hq with rfl | rfl <;> rw [DelayedFiles.read, h1]
    | some names =>
      cases h2 : names t with
      | none => rcases hq with rfl | rfl <;> (rw [DelayedFiles.read, h1]; dsimp only; rw [h2])
      | some f => exact absurd ⟨hq, names, h1, h2⟩ (hno f)

/-- The method with the key as an `int`. -/
def flexibleWrite (s : FlexibleFiles) (q : Quantity) (v : Option V) (t : Int) (disk : Disk V) : Except PyErr (Disk V) :=
  s.write q v (.int t) disk

theorem flexible_writesAs (s : FlexibleFiles) (name : Quantity → Int → String)
    (hs : ∀ q t f, s.WritesTo q t f → f = name q t) :
    WritesAs (V := V) flexibleWrite (fun s q t => ∃ f, s.WritesTo q t f) name s := by
  intro q t v disk
  by_cases hw : ∃ f, s.WritesTo q t f
  · obtain ⟨f, hq, names, h1, h2⟩ := hw
    refine .inl ⟨⟨f, hq, names, h1, h2⟩, ?_⟩
    rw [← hs q t f ⟨hq, names, h1, h2⟩, ← h2]
    rcases hq with rfl | rfl <;>
      (rw [flexibleWrite, FlexibleFiles.write, h1, fileWrite, filenameFromPatterns])
  · refine .inr ⟨hw, ?_⟩
    have hcase : q = .state ∨ q = .marginalStd ∨ q = .sample ∨ q = .priorSample := by cases q <;> simp
    rcases hcase with hq | hq | hq | hq
    · subst hq
      cases h1 : s.writeName .state with
      | none => rw [flexibleWrite, FlexibleFiles.write, h1, fileWrite]; exact ⟨_, rfl⟩
      | some names => exact absurd ⟨_, .inl rfl, names, h1, rfl⟩ hw
    · subst hq
      cases h1 : s.writeName .marginalStd with
      | none => rw [flexibleWrite, FlexibleFiles.write, h1, fileWrite]; exact ⟨_, rfl⟩
      | some names => exact absurd ⟨_, .inr rfl, names, h1, rfl⟩ hw
    · subst hq; exact ⟨_, rfl⟩
    · subst hq; exact ⟨_, rfl⟩

theorem flexible_read (s : FlexibleFiles) (q : Quantity) (t : Int) (f : String) (hr : s.ReadsFrom q t f) (disk : Disk V) :
    s.read q (.int t) disk = .ok (match disk f with | none => none | some v => v) := by
  obtain ⟨hq, names, h1, h2⟩ := hr
  have : s.read q (.int t) disk = fileRead (s.readName q) (.int t) disk := by
    rcases hq with rfl | rfl <;> rfl
  rw [this, h1, fileRead, filenameFromPatterns]
  dsimp only
  rw [h2]
  cases hd : disk f with
  | none => rfl
  | some v => rw [Option.isSome_some, if_pos rfl, readpickle, hd]

/-- **C43**, patterns of names: states and standard deviations; here a missing file gives `None`, as in memory. -/
theorem c43_flexible (name : Quantity → Int → String) (hd : Distinct name) (history : List (FlexibleFiles × Write V))
    (hh : ∀ e ∈ history, ∀ q t f, e.1.WritesTo q t f → f = name q t) (disk : Disk V) (reader : FlexibleFiles) (q : Quantity)
    (t : Int) (hr : reader.ReadsFrom q t (name q t)) :
    (∀ v, LastWritten (fun s q t => ∃ f, FlexibleFiles.WritesTo s q t f) history q t v →
      reader.read q (.int t) (diskAfter flexibleWrite disk history) = .ok v) ∧
    (NeverWritten (fun s q t => ∃ f, FlexibleFiles.WritesTo s q t f) history q t → disk (name q t) = none →
      reader.read q (.int t) (diskAfter flexibleWrite disk history) = .ok none) := by
  constructor
  · intro v hl
    have hlast := disk_last hd history (fun e he => flexible_writesAs e.1 name (hh e he)) q t v hl disk
    rw [flexible_read _ _ _ _ hr, hlast]
  · intro hn hv
    have hu := disk_unchanged hd history (fun e he => flexible_writesAs e.1 name (hh e he)) q t hn disk
    rw [flexible_read _ _ _ _ hr, hu, hv]

/-- Non-vacuity: lists of two times, the writer another object than the reader. -/
def exampleIndexed (w r : Bool) : IndexedFiles where
  readList := fun q => if r ∧ q = .state then some ["a", "b"] else none
  writeList := fun q => if w ∧ q = .state then some ["a", "b"] else none
  measurementRead := none
  measurementWrite := none
  timeList := some [100, 200]

example : (exampleIndexed false true).read .state 200
    (diskAfter IndexedFiles.write (fun _ => none) [(exampleIndexed true false, ⟨.state, 100, some 1⟩),
      (exampleIndexed true false, ⟨.state, 200, some 2⟩), (exampleIndexed false true, ⟨.state, 200, some 3⟩)]) =
    .ok (some (2 : Nat)) := by
  simp [diskAfter, exampleIndexed, IndexedFiles.write, IndexedFiles.read, IndexedFiles.lookup, lastIndex, writepickle,
    readpickle]

/-! ### One state in files, with and without a cache -/

/-- **C43**, one state in files: any number of objects, names different for the four quantities. -/
theorem c43_single_files (name : Quantity → String) (hd : ∀ q q', name q = name q' → q = q') (disk : Disk V)
    (writer reader : SpaceTimeFiles) (q q' : Quantity) (hw : writer.writeName q = some (name q))
    (hr : reader.readName q' = some (name q')) (v : Option V) :
    ∃ disk', writer.write q v disk = .ok disk' ∧
      reader.read q' disk' = if q = q' then .ok v else reader.read q' disk := by
  refine ⟨writepickle v (name q) disk, by rw [SpaceTimeFiles.write, hw], ?_⟩
  rw [SpaceTimeFiles.read, hr]
  dsimp only
  by_cases h : q = q'
  · subst h
    rw [if_pos rfl, readpickle, writepickle, if_pos rfl]
  · rw [if_neg h]
    rw [readpickle, writepickle, if_neg fun hc => h (hd _ _ hc).symm, SpaceTimeFiles.read, hr]
    rfl

/-- **C43**, measurements in files: what one object wrote for time `i`, another with the same file at position `i` reads. -/
theorem c43_single_measurement (writer reader : SpaceTimeFiles) (v : Option V) (i : Nat) (files : List String) (f : String)
    (hw : writer.measurementWrite = some f) (ht : writer.measurementTime = some (i : Int))
    (hr : reader.measurementRead = some files) (hf : files[i]? = some f) (disk : Disk V) :
    ∃ disk', writer.writeMeasurement v i disk = .ok disk' ∧ reader.readMeasurement i disk' = .ok v ∧
      ∀ (j : Nat) f', files[j]? = some f' → f' ≠ f → reader.readMeasurement j disk' = reader.readMeasurement j disk := by
  refine ⟨writepickle v f disk, ?_, ?_, ?_⟩
  · rw [SpaceTimeFiles.writeMeasurement, hw]
    exact if_neg (not_not.2 ht)
  · obtain ⟨hi, _⟩ := List.getElem?_eq_some_iff.1 hf
    rw [SpaceTimeFiles.readMeasurement, hr]
    dsimp only
    rw [if_neg (by omega), Int.toNat_natCast, hf]
    dsimp only
    rw [readpickle, writepickle, if_pos rfl]
  · intro j f' hj hne
    obtain ⟨hi, _⟩ := List.getElem?_eq_some_iff.1 hj
    rw [SpaceTimeFiles.readMeasurement, SpaceTimeFiles.readMeasurement, hr]
    dsimp only
    have hb : ¬ ((j : Int) < 0 ∨ (files.length : Int) ≤ j) := by omega
    rw [if_neg hb, if_neg hb, Int.toNat_natCast, hj]
    dsimp only
    rw [readpickle, writepickle, if_neg hne]
    rfl

/-- **C43**, measurements in files of dictionaries. -/
theorem c43_delayed_measurement (writer reader : DelayedFiles) (v : Option V) (t : Int) (wnames rnames : Int → Option String)
    (f : String) (hw : writer.measurementWrite = some wnames) (hwf : wnames t = some f)
    (hr : reader.measurementRead = some rnames) (hrf : rnames t = some f) (disk : Disk V) :
    ∃ disk', writer.writeMeasurement v t disk = .ok disk' ∧ reader.readMeasurement t disk' = .ok v ∧
      ∀ t' f', rnames t' = some f' → f' ≠ f → reader.readMeasurement t' disk' = reader.readMeasurement t' disk := by
  refine ⟨writepickle v f disk, ?_, ?_, ?_⟩
  · rw [DelayedFiles.writeMeasurement, hw]
    dsimp only
    rw [hwf]
  · rw [DelayedFiles.readMeasurement, hr]
    dsimp only
    rw [hrf]
    dsimp only
    rw [readpickle, writepickle, if_pos rfl]
  · intro t' f' h hne
    rw [DelayedFiles.readMeasurement, DelayedFiles.readMeasurement, hr]
    dsimp only
    rw [h]
    dsimp only
    rw [readpickle, writepickle, if_neg hne]
    rfl

/-- A list given for a dictionary: positions are keys, as in a list; negative keys are not. -/
theorem c43_parse_list (names : List String) (k : Int) :
    ∃ d, parseLookup (.list names) = some d ∧ (∀ f, d k = some f ↔ ∃ i : Nat, k = i ∧ names[i]? = some f) := by
  refine ⟨_, rfl, ?_⟩
  intro f
  by_cases hk : k < 0
  · rw [if_pos hk]
    constructor
    · intro h; cases h
    · rintro ⟨i, rfl, _⟩; omega
  · rw [if_neg hk]
    constructor
    · intro h; exact ⟨k.toNat, by omega, h⟩
    · rintro ⟨i, rfl, h⟩
      rwa [Int.toNat_natCast]

/-- **C43**, measurements in lists of files with lists of times. -/
theorem c43_indexed_measurement (writer reader : IndexedFiles) (hwp : writer.Proper) (hrp : reader.Proper) (v : Option V)
    (t : Int) (wtimes rtimes : List Int) (wfiles rfiles : List String) (i j : Nat) (f : String)
    (hwt : writer.timeList = some wtimes) (hw : writer.measurementWrite = some wfiles) (hi : wtimes[i]? = some t)
    (hfi : wfiles[i]? = some f) (hrt : reader.timeList = some rtimes) (hr : reader.measurementRead = some rfiles)
    (hj : rtimes[j]? = some t) (hfj : rfiles[j]? = some f) (disk : Disk V) :
    ∃ disk', writer.writeMeasurement v t disk = .ok disk' ∧ reader.readMeasurement t disk' = .ok v := by
  obtain ⟨_, h1, h2⟩ := hwp
  obtain ⟨_, h3, h4⟩ := hrp
  rw [hwt] at h1
  rw [hrt] at h3
  cases h1
  cases h3
  refine ⟨writepickle v f disk, ?_, ?_⟩
  · rw [IndexedFiles.writeMeasurement, hw, IndexedFiles.lookup, hwt]
    dsimp only
    rw [lastIndex_nodup _ _ _ h2 hi]
    dsimp only
    rw [hfi]
  · rw [IndexedFiles.readMeasurement, hr, IndexedFiles.lookup, hrt]
    dsimp only
    rw [lastIndex_nodup _ _ _ h4 hj]
    dsimp only
    rw [hfj]
    dsimp only
    rw [readpickle, writepickle, if_pos rfl]

/-- **C43**, lists of files without times: the positions are the times. -/
theorem c43_indexed_positions (s : IndexedFiles) (files : List String) (ht : s.timeList = none)
    (hw : s.readList .state = some files) (hw' : s.writeList .state = some files) (i : Nat) (f : String)
    (hf : files[i]? = some f) (v : Option V) (disk : Disk V) :
    ∃ disk', s.write .state v i disk = .ok disk' ∧ s.read .state i disk' = .ok v := by
  obtain ⟨hi, _⟩ := List.getElem?_eq_some_iff.1 hf
  have hs : s.substeps = files.length := by rw [IndexedFiles.substeps, ht]; dsimp only; rw [hw]
  have hl : s.lookup i = some i := by
    rw [IndexedFiles.lookup, ht]
    dsimp only
    refine lastIndex_nodup _ _ _ ?_ ?_
    · exact List.Nodup.map (fun a b h => Int.ofNat.inj h) List.nodup_range
    · rw [hs, List.getElem?_map, List.getElem?_range hi]
      rfl
  refine ⟨writepickle v f disk, ?_, ?_⟩
  · rw [IndexedFiles.write, hw']
    dsimp only
    rw [hl]
    dsimp only
    rw [hf]
  · rw [IndexedFiles.read, hw]
    dsimp only
    rw [hl]
    dsimp only
    rw [hf]
    dsimp only
    rw [readpickle, writepickle, if_pos rfl]

/-- Reads and writes of one state. -/
inductive Access (V : Type) where
  | write (q : Quantity) (v : Option V)
  | read (q : Quantity)

/-- The object and the disk after a history of accesses; an access with an error changes nothing. -/
def batchedAfter : List (Access V) → BatchedFiles V × Disk V → BatchedFiles V × Disk V
  | [], x => x
  | .write q v :: rest, x =>
    match x.1.write q v x.2 with
    | .ok x' => batchedAfter rest x'
    | .error _ => batchedAfter rest x
  | .read q :: rest, x =>
    match x.1.read q x.2 with
    | .ok (s, _) => batchedAfter rest (s, x.2)
    | .error _ => batchedAfter rest x

/-- What is kept in memory is what is in the file. -/
def Coherent (name : Quantity → String) (x : BatchedFiles V × Disk V) : Prop :=
  (∀ q, x.1.readName q = some (name q)) ∧ (∀ q, x.1.writeName q = some (name q)) ∧
    (x.1.keepInMemory = true → ∀ q v, x.1.cache q = some v → x.2 (name q) = some (some v))

theorem batched_write (name : Quantity → String) (hd : ∀ q q', name q = name q' → q = q') (x : BatchedFiles V × Disk V)
    (hc : Coherent name x) (q : Quantity) (v : Option V) :
    ∃ x', x.1.write q v x.2 = .ok x' ∧ Coherent name x' ∧ x'.2 (name q) = some v ∧
      ∀ q', q' ≠ q → x'.2 (name q') = x.2 (name q') := by
  obtain ⟨s, disk⟩ := x
  obtain ⟨hr, hw, hk⟩ := hc
  dsimp only at hr hw hk ⊢
  have hother : ∀ q', q' ≠ q → writepickle v (name q) disk (name q') = disk (name q') :=
    fun q' hq => if_neg fun h => hq (hd _ _ h)
  have hself : writepickle v (name q) disk (name q) = some v := if_pos rfl
  rw [BatchedFiles.write, hw q]
  dsimp only
  cases hkeep : s.keepInMemory with
  | false =>
    refine ⟨_, rfl, ⟨hr, hw, ?_⟩, hself, hother⟩
    intro h
    dsimp only at h
    rw [if_neg Bool.false_ne_true, hkeep] at h
    cases h
  | true =>
    refine ⟨_, rfl, ⟨hr, hw, ?_⟩, hself, hother⟩
    intro _ q' v' hv
    dsimp only at hv ⊢
    rw [if_pos rfl] at hv
    dsimp only at hv
    by_cases hq : q' = q
    · subst hq
      rw [if_pos rfl] at hv
      rw [hself, hv]
    · rw [if_neg hq] at hv
      rw [hother q' hq]
      exact hk hkeep q' v' hv

theorem batched_read (name : Quantity → String) (hd : ∀ q q', name q = name q' → q = q') (x : BatchedFiles V × Disk V)
    (hc : Coherent name x) (q : Quantity) :
    (∀ v, x.2 (name q) = some v → ∃ s, x.1.read q x.2 = .ok (s, v) ∧ Coherent name (s, x.2)) ∧
      (x.2 (name q) = none → x.1.read q x.2 = .error .other) := by
  obtain ⟨s, disk⟩ := x
  obtain ⟨hr, hw, hk⟩ := hc
  dsimp only at hr hw hk ⊢
  rw [BatchedFiles.read, hr q]
  dsimp only
  cases hkeep : s.keepInMemory with
  | false =>
    rw [if_neg Bool.false_ne_true]
    constructor
    · intro v hv
      rw [readpickle, hv]
      exact ⟨_, rfl, hr, hw, fun h => by rw [hkeep] at h; cases h⟩
    · intro hv
      rw [readpickle, hv]
  | true =>
    rw [if_pos rfl]
    cases hcache : s.cache q with
    | some u =>
      have hu := hk hkeep q u hcache
      dsimp only
      constructor
      · intro v hv
        rw [hu] at hv
        cases hv
        exact ⟨_, rfl, hr, hw, hk⟩
      · intro hv
        rw [hu] at hv
        cases hv
    | none =>
      dsimp only
      constructor
      · intro v hv
        rw [readpickle, hv]
        refine ⟨_, rfl, hr, hw, ?_⟩
        intro _ q' v' hv'
        dsimp only at hv' ⊢
        by_cases hq : q' = q
        · subst hq
          rw [if_pos rfl] at hv'
          rw [hv, hv']
        · rw [if_neg hq] at hv'
          exact hk hkeep q' v' hv'
      · intro hv
        rw [readpickle, hv]

/-- Where an access is, and what it is for. -/
def Access.Writes (q : Quantity) : Access V → Prop
  | .write q' _ => q' = q
  | .read _ => False

theorem batchedAfter_append (a b : List (Access V)) (x : BatchedFiles V × Disk V) :
    batchedAfter (a ++ b) x = batchedAfter b (batchedAfter a x) := by
  induction a generalizing x with
  | nil => rfl
  | cons e a ih =>
    cases e with
    | write q v =>
      rw [List.cons_append, batchedAfter, batchedAfter]
      cases x.1.write q v x.2 <;> exact ih _
    | read q =>
      rw [List.cons_append, batchedAfter, batchedAfter]
      cases x.1.read q x.2 <;> exact ih _

theorem batched_coherent (name : Quantity → String) (hd : ∀ q q', name q = name q' → q = q') (h : List (Access V))
    (x : BatchedFiles V × Disk V) (hc : Coherent name x) : Coherent name (batchedAfter h x) := by
  induction h generalizing x with
  | nil => exact hc
  | cons e h ih =>
    cases e with
    | write q v =>
      obtain ⟨x', h1, h2, _⟩ := batched_write name hd x hc q v
      rw [batchedAfter, h1]
      exact ih _ h2
    | read q =>
      rw [batchedAfter]
      cases hx : x.2 (name q) with
      | none => rw [(batched_read name hd x hc q).2 hx]; exact ih _ hc
      | some v =>
        obtain ⟨s, h1, h2⟩ := (batched_read name hd x hc q).1 v hx
        rw [h1]
        exact ih _ h2

theorem batched_unchanged (name : Quantity → String) (hd : ∀ q q', name q = name q' → q = q') (h : List (Access V))
    (x : BatchedFiles V × Disk V) (hc : Coherent name x) (q : Quantity) (hn : ∀ e ∈ h, ¬ e.Writes q) :
    (batchedAfter h x).2 (name q) = x.2 (name q) := by
  induction h generalizing x with
  | nil => rfl
  | cons e h ih =>
    have hn' := fun e he => hn e (List.mem_cons_of_mem _ he)
    cases e with
    | write q' v =>
      obtain ⟨x', h1, h2, _, h4⟩ := batched_write name hd x hc q' v
      rw [batchedAfter, h1]
      exact (ih _ h2 hn').trans (h4 q fun hq => hn _ List.mem_cons_self hq.symm)
    | read q' =>
      rw [batchedAfter]
      cases hx : x.2 (name q') with
      | none => rw [(batched_read name hd x hc q').2 hx]; exact ih _ hc hn'
      | some v =>
        obtain ⟨s, h1, h2⟩ := (batched_read name hd x hc q').1 v hx
        rw [h1]
        exact ih _ h2 hn'

/-- **C43**, one state in files with or without values kept in memory: an object which reads from the files it writes, and is
alone in writing them, gives what was written last. -/
theorem c43_batched_last (name : Quantity → String) (hd : ∀ q q', name q = name q' → q = q') (s : BatchedFiles V)
    (hr : ∀ q, s.readName q = some (name q)) (hw : ∀ q, s.writeName q = some (name q)) (hs : ∀ q, s.cache q = none)
    (disk : Disk V) (before after : List (Access V)) (q : Quantity) (v : Option V) (hn : ∀ e ∈ after, ¬ e.Writes q) :
    ∃ s', (batchedAfter (before ++ .write q v :: after) (s, disk)).1.read q
      (batchedAfter (before ++ .write q v :: after) (s, disk)).2 = .ok (s', v) := by
  have h0 : Coherent name (s, disk) := ⟨hr, hw, fun _ q v hv => by rw [hs q] at hv; cases hv⟩
  have h1 := batched_coherent name hd before _ h0
  obtain ⟨x', h2, h3, h4, _⟩ := batched_write name hd _ h1 q v
  have hx : batchedAfter (before ++ .write q v :: after) (s, disk) = batchedAfter after x' := by
    rw [batchedAfter_append, batchedAfter, h2]
  rw [hx]
  have h5 := batched_unchanged name hd after x' h3 q hn
  obtain ⟨s', h6, _⟩ := (batched_read name hd _ (batched_coherent name hd after x' h3) q).1 v (h5.trans h4)
  exact ⟨s', h6⟩

/-- **C43**, one state in files with or without values kept in memory: without a write, what the file has, or IOError. -/
theorem c43_batched_never (name : Quantity → String) (hd : ∀ q q', name q = name q' → q = q') (s : BatchedFiles V)
    (hr : ∀ q, s.readName q = some (name q)) (hw : ∀ q, s.writeName q = some (name q)) (hs : ∀ q, s.cache q = none)
    (disk : Disk V) (h : List (Access V)) (q : Quantity) (hn : ∀ e ∈ h, ¬ e.Writes q) :
    (∀ v, disk (name q) = some v →
      ∃ s', (batchedAfter h (s, disk)).1.read q (batchedAfter h (s, disk)).2 = .ok (s', v)) ∧
    (disk (name q) = none → (batchedAfter h (s, disk)).1.read q (batchedAfter h (s, disk)).2 = .error .other) := by
  have h0 : Coherent name (s, disk) := ⟨hr, hw, fun _ q v hv => by rw [hs q] at hv; cases hv⟩
  have h5 := batched_unchanged name hd h _ h0 q hn
  have h6 := batched_read name hd _ (batched_coherent name hd h _ h0) q
  constructor
  · intro v hv
    obtain ⟨s', h7, _⟩ := h6.1 v (h5.trans hv)
    exact ⟨s', h7⟩
  · intro hv
    exact h6.2 (h5.trans hv)

/-- Names and an object for the examples. -/
def exampleName : Quantity → String
  | .state => "state"
  | .marginalStd => "std"
  | .sample => "sample"
  | .priorSample => "prior"

def exampleBatched (keep : Bool) : BatchedFiles Nat where
  readName := fun q => some (exampleName q)
  writeName := fun q => some (exampleName q)
  measurementRead := none
  keepInMemory := keep
  cache := fun _ => none

theorem exampleName_inj : ∀ q q', exampleName q = exampleName q' → q = q' := by
  intro q q'
  cases q <;> cases q' <;> simp [exampleName]

/-- Non-vacuity. -/
example : ∃ s', (batchedAfter [.write .state (some 1), .read .state, .write .state (some 2), .write .sample (some 3)]
      (exampleBatched true, fun _ => none)).1.read .state
    (batchedAfter [.write .state (some 1), .read .state, .write .state (some 2), .write .sample (some 3)]
      (exampleBatched true, fun _ => none)).2 = .ok (s', some 2) :=
  c43_batched_last exampleName exampleName_inj (exampleBatched true) (fun _ => rfl) (fun _ => rfl) (fun _ => rfl) _
    [.write .state (some 1), .read .state] [.write .sample (some 3)] .state (some 2) (by
      intro e he
      rcases List.mem_cons.1 he with rfl | he
      · intro h; cases h
      · cases he)

/-! ### Where it is not so -/

/-- **C43 violated**: an object which keeps values in memory does not see what another wrote into the file since. -/
theorem c43_stale_violated :
    ∃ (a b : BatchedFiles Nat) (disk : Disk Nat) (a' a'' : BatchedFiles Nat) (b' : BatchedFiles Nat) (disk' : Disk Nat),
      (∀ q, a.readName q = b.writeName q) ∧ a.read .state disk = .ok (a', some 1) ∧
        b.write .state (some 2) disk = .ok (b', disk') ∧ b.read .state disk' = .ok (b, some 2) ∧
        a'.read .state disk' = .ok (a'', some 1) := by
  refine ⟨exampleBatched true, exampleBatched false, fun _ => some (some 1), _, _, _, _, fun _ => rfl, rfl, rfl, ?_, rfl⟩
  simp [BatchedFiles.read, exampleBatched, readpickle, writepickle]

/-- **C43 violated**: an object which keeps values in memory and whose files for reading and writing differ gives, after it wrote,
the written value, though without keeping it would give what the other file has. -/
theorem c43_kept_violated :
    ∃ (s s' s'' : BatchedFiles Nat) (disk disk' : Disk Nat),
      s.write .state (some 2) disk = .ok (s', disk') ∧ s'.read .state disk' = .ok (s'', some 2) ∧
        ({ s' with keepInMemory := false } : BatchedFiles Nat).read .state disk' =
          .ok ({ s' with keepInMemory := false }, some 1) := by
  refine ⟨{ exampleBatched true with writeName := fun _ => some "new" }, _, _,
    fun f => if f = "state" then some (some 1) else none, _, rfl, rfl, ?_⟩
  simp [BatchedFiles.read, exampleBatched, readpickle, writepickle, exampleName]

/-- **C43 violated**: what was not written is `None` in memory, and an error if it is to be in a file. -/
theorem c43_missing_violated :
    (SpatialMemory.init : SpatialMemory Nat).read .state 0 = .ok none ∧
      ∃ s : SpatialFiles, s.ReadsFrom .state 0 "state" ∧ s.read .state 0 (fun _ => none : Disk Nat) = .error .other := by
  refine ⟨rfl, ⟨some 0, fun _ => some "state", fun _ => none⟩, ⟨rfl, rfl⟩, rfl⟩

/-- **C43 violated**: the storage with dictionaries of files can neither write nor read samples. -/
theorem c43_delayed_sample_violated (s : DelayedFiles) (v : Option V) (t : Int) (disk : Disk V) :
    s.write .sample v t disk = .error .attributeError ∧ s.read .sample t disk = .error .attributeError :=
  ⟨rfl, rfl⟩

/-- **C43 violated**: with patterns of names, what is called as the spatial component does cannot write samples; reading a prior
sample is an error, or replaces the file by what was passed. -/
theorem c43_flexible_sample_violated (s : FlexibleFiles) (v : Option V) (t : Int) (disk : Disk V) (names : Int → String)
    (h : s.readName .priorSample = some names) :
    s.write .sample v (.int t) disk = .error .typeError ∧ s.read .priorSample (.int t) disk = .error .typeError ∧
      s.priorRead v (.int t) disk = .ok (none, writepickle v (names t) disk) := by
  refine ⟨rfl, rfl, ?_⟩
  rw [FlexibleFiles.priorRead, h]
  rfl

/-- Samples which the delayed component writes with patterns of names are read again. -/
theorem c43_flexible_sample (s : FlexibleFiles) (v : Option V) (t : Int) (disk : Disk V) (names : Int → String)
    (hw : s.writeName .sample = some names) (hr : s.readName .sample = some names) :
    ∃ disk', s.writeSample v (.int t) disk = .ok disk' ∧ s.read .sample (.int t) disk' = .ok v := by
  refine ⟨writepickle v (names t) disk, by rw [FlexibleFiles.writeSample, hw]; rfl, ?_⟩
  have : writepickle v (names t) disk (names t) = some v := if_pos rfl
  rw [FlexibleFiles.read, hr]
  · rw [fileRead, filenameFromPatterns]
    dsimp only
    rw [readpickle, this, Option.isSome_some, if_pos rfl]
  · intro h; cases h

/-- **C43 violated**: measurements of an object with values kept in memory cannot be read. -/
theorem c43_batched_measurement_violated (s : BatchedFiles V) : ∃ e, s.readMeasurement = .error e := by
  rw [BatchedFiles.readMeasurement]
  cases s.measurementRead <;> exact ⟨_, rfl⟩

/-- **C43 violated**: with a time listed twice, its first file is neither written nor read. -/
theorem c43_repeated_time_violated :
    ∃ (s : IndexedFiles) (disk disk' : Disk Nat), s.ReadsFrom .state 7 "first" ∧ s.WritesTo .state 7 "first" ∧
      disk "first" = some (some 1) ∧ s.write .state (some 2) 7 disk = .ok disk' ∧ disk' "first" = some (some 1) ∧
      s.read .state 7 disk = .error .other := by
  refine ⟨⟨fun _ => some ["first", "second"], fun _ => some ["first", "second"], none, none, some [7, 7]⟩,
    fun f => if f = "first" then some (some 1) else none, _, ⟨[7, 7], ["first", "second"], 0, rfl, rfl, rfl, rfl⟩,
    ⟨[7, 7], ["first", "second"], 0, rfl, rfl, rfl, rfl⟩, rfl, rfl, rfl, rfl⟩

end Verif.Eustace.Storage
