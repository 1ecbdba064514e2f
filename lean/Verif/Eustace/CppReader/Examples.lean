import Verif.Eustace.CppReader.Names

/-!
A world with all files of one source, to which the theorems of C104, C105 and C106 apply.
-/

namespace Verif.Eustace.CppReader.Examples

open Verif RawBinary Calendar

/-- An identifier of a table of locations. -/
def uuid : Bytes := List.replicate 16 7

/-- Three locations. -/
def table : List (UInt64 × UInt64) := [(10, 11), (20, 21), (30, 31)]

/-- The observations of the first and second of January 1850. -/
def days : List (UInt64 × List (List UInt64)) := [(0, [[2, 5, 6, 7], [0, 8, 9, 10]]), (1, [[2, 11, 12, 13]])]

/-- Some base directory. -/
def base : List Char := "/data".toList

/-- The files. -/
noncomputable def world (pointers : List (List (UInt64 × UInt64))) : World where
  files path :=
    if path = rangesPath base .insituLand .tmin then some (writeRanges [99])
    else if path = lookupPath base "insitu_land".toList then some (writeLookup uuid table)
    else if path = pointersPath base .insituLand .tmin then some (writePointers uuid pointers)
    else if path = observationPath base .insituLand .tmin 0 then some (dayFile uuid [[2, 5, 6, 7], [0, 8, 9, 10]])
    else if path = observationPath base .insituLand .tmin 1 then some (dayFile uuid [[2, 11, 12, 13]])
    else none
  junk _ := List.replicate 16 1

theorem lengths (day : Int) : (rangesPath base .insituLand .tmin).length = 49 ∧
    (lookupPath base "insitu_land".toList).length = 36 ∧ (pointersPath base .insituLand .tmin).length = 43 ∧
      (observationPath base .insituLand .tmin day).length = 52 := by
  refine ⟨by decide, by decide, by decide, ?_⟩
  rw [observationPath]
  simp only [List.length_append, List.length_take, dateText_length]
  decide

theorem ne_of_length {a b : List Char} (h : a.length ≠ b.length) : a ≠ b := fun e => h (by rw [e])

theorem days_differ : observationPath base .insituLand .tmin 1 ≠ observationPath base .insituLand .tmin 0 := by
  intro h
  have := (c106_distinct base .insituLand .insituLand .tmin .tmin 1 0 (by decide +kernel) (by decide +kernel)
    (by decide +kernel) (by decide +kernel) h).2.2
  exact absurd this (by decide)

theorem files (pointers : List (List (UInt64 × UInt64))) :
    (world pointers).files (rangesPath base .insituLand .tmin) = some (writeRanges [99]) ∧
    (world pointers).files (lookupPath base "insitu_land".toList) = some (writeLookup uuid table) ∧
    (world pointers).files (pointersPath base .insituLand .tmin) = some (writePointers uuid pointers) ∧
    (world pointers).files (observationPath base .insituLand .tmin 0) = some (dayFile uuid [[2, 5, 6, 7], [0, 8, 9, 10]]) ∧
    (world pointers).files (observationPath base .insituLand .tmin 1) = some (dayFile uuid [[2, 11, 12, 13]]) := by
  obtain ⟨l1, l2, l3, l4⟩ := lengths 0
  obtain ⟨_, _, _, l5⟩ := lengths 1
  refine ⟨?_, ?_, ?_, ?_, ?_⟩ <;> dsimp only [world]
  · rw [if_pos rfl]
  · rw [if_neg (ne_of_length (by rw [l1, l2]; decide)), if_pos rfl]
  · rw [if_neg (ne_of_length (by rw [l1, l3]; decide)), if_neg (ne_of_length (by rw [l2, l3]; decide)), if_pos rfl]
  · rw [if_neg (ne_of_length (by rw [l1, l4]; decide)), if_neg (ne_of_length (by rw [l2, l4]; decide)),
      if_neg (ne_of_length (by rw [l3, l4]; decide)), if_pos rfl]
  · rw [if_neg (ne_of_length (by rw [l1, l5]; decide)), if_neg (ne_of_length (by rw [l2, l5]; decide)),
      if_neg (ne_of_length (by rw [l3, l5]; decide)), if_neg days_differ, if_pos rfl]

/-- Non-vacuity of C104: the second day, after any earlier requests. -/
example (m : Manager) (hm : Faithful (world []) m) (hb : m.base = base) : ∃ r m',
    retrieveDay (world []) m .insituLand .tmin 1 = .ok (r, m') ∧ itemsOf r.observations = [⟨2, 11, 12, [13]⟩] ∧
      locations r = [some (30, 31)] := by
  have hf := files []
  rw [← hb] at hf
  let obs : Observations UInt64 := ⟨[false, true], .scalar 1, [2, 0], [11, 3], [12, 4], [[13, 5]]⟩
  have hs : obs.Sized 2 := ⟨rfl, rfl, rfl, rfl, by simp [obs]⟩
  obtain ⟨kept, hk, _, hwr⟩ := write_ok uuid obs 2 hs trivial 1
  have hkept : kept = [0] := by
    have hmem : ∀ i, i ∈ kept ↔ i = 0 := by
      intro i
      rw [hk.2 i]
      match i with
      | 0 => simp [obs, OnDay]
      | 1 => simp [obs]
      | i + 2 => simp [obs]
    cases kept with
    | nil => exact absurd ((hmem 0).2 rfl) (by simp)
    | cons a t =>
      have ha := (hmem a).1 List.mem_cons_self
      cases t with
      | nil => rw [ha]
      | cons b t =>
        have hlt := (List.pairwise_cons.1 hk.1).1 b List.mem_cons_self
        have hb := (hmem b).1 (List.mem_cons_of_mem _ List.mem_cons_self)
        omega
  rw [hkept] at hwr
  obtain ⟨r, m', kept', h1, _, h2, _, _, _, _, h3, h4⟩ := c104_day (world []) (fun _ => rfl) m hm .insituLand .tmin 1 obs 2 hs
    trivial uuid uuid rfl rfl table [99] rfl hf.1 hf.2.1 _ hwr hf.2.2.2.2
  have hkk : kept' = kept := by
    apply List.Perm.eq_of_pairwise (fun a b _ _ h h' => absurd h (by omega)) h2.1 hk.1
    apply (List.perm_ext_iff_of_nodup (h2.1.imp fun h => Nat.ne_of_lt h) (hk.1.imp fun h => Nat.ne_of_lt h)).2
    intro i
    rw [h2.2, hk.2]
  rw [hkk, hkept] at h3 h4
  exact ⟨r, m', h1, h3, h4⟩

/-- Non-vacuity of C105: the third location has two observations, the first one, the second none. -/
example : ∃ pointers rs m', retrieveLocations (world pointers) (fresh base) .insituLand .tmin [2, 0, 1] = .ok (rs, m') ∧
    rs.map (fun r => itemsOf r.observations) =
      [[⟨0, 5, 6, [7]⟩, ⟨1, 11, 12, [13]⟩], [⟨0, 8, 9, [10]⟩], []] := by
  obtain ⟨pointers, h1, h2, h3⟩ := c25_collect 1 uuid rfl 3 days (by simp [days]) (by simp [days])
  have hf := files pointers
  have hlen : (writePointers uuid pointers).length < 2 ^ 64 := by
    have hp : appendDays 1 uuid (days.map fun d => (d.1, dayFile uuid d.2)) (List.replicate 3 []) =
        .ok [[(0, 88)], [], [(0, 56), (1, 56)]] := by decide +kernel
    rw [hp] at h1
    cases h1
    decide +kernel
  obtain ⟨rs, m', h4, _, _, h5⟩ := c105_series (world pointers) (fun _ => rfl) (fresh base) (fresh_faithful _ _) .insituLand .tmin
    _ rfl [99] uuid uuid rfl rfl table days (by simp [days]) (by simp [days, table]) pointers h1 hf.1 hf.2.1 hf.2.2.1
    (by
      intro d hd
      simp only [days, List.mem_cons, List.not_mem_nil, or_false] at hd
      rcases hd with rfl | rfl
      · exact hf.2.2.2.1
      · exact hf.2.2.2.2)
    hlen (by
      intro d hd
      simp only [days, List.mem_cons, List.not_mem_nil, or_false] at hd
      rcases hd with rfl | rfl <;> decide +kernel)
    [2, 0, 1] (by decide)
  exact ⟨pointers, rs, m', h4, by rw [h5]; decide⟩

end Verif.Eustace.CppReader.Examples
