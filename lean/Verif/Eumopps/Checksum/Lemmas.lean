import Verif.Eumopps.Checksum.Spec

namespace Verif.Eumopps.Checksum
open Verif

theorem range3_mul (m step : Nat) (hs : 0 < step) :
    Py.range3 0 (m * step) step = (List.range m).map (fun i => i * step) := by
  unfold Py.range3
  have : (m * step - 0 + step - 1) / step = m := by
    rw [Nat.sub_zero, Nat.add_sub_assoc (by omega), Nat.mul_comm, Nat.mul_add_div hs,
      Nat.div_eq_of_lt (by omega)]
    rfl
  rw [this]
  simp

/-- Closed form of the returned list. -/
theorem threadIndices_eq (n t : Nat) (hn : n ≠ 0) (ht : t ≠ 0) :
    ∃ step m, 0 < step ∧ m = n / step - 1 ∧ 0 < n / step ∧ step = max 1 (n / t) ∧
      threadIndices n t = .ok ((List.range m).map (fun i => (i * step, i * step + step))
        ++ [(m * step, n)]) := by
  refine ⟨max 1 (n / t), n / max 1 (n / t) - 1, by omega, rfl, ?_, rfl, ?_⟩
  · apply Nat.div_pos _ (by omega)
    have : n / t ≤ n := Nat.div_le_self n t
    omega
  · have hstep : (if n / t < 1 then 1 else n / t) = max 1 (n / t) := by
      split <;> omega
    have hle : max 1 (n / t) ≤ n := by
      have : n / t ≤ n := Nat.div_le_self n t
      omega
    unfold threadIndices
    simp only [hn, ht, if_false, hstep]
    generalize hst : max 1 (n / t) = step at *
    have hs : 0 < step := by omega
    rw [range3_mul _ _ hs]
    have hm : 0 < n / step := Nat.div_pos hle hs
    obtain ⟨m, hm'⟩ : ∃ m, n / step = m + 1 := ⟨n / step - 1, by omega⟩
    rw [hm']
    simp [Py.setLast, List.range_succ]

theorem flatMap_blocks (step k : Nat) :
    (List.range k).flatMap (fun i => List.range' (i * step) (i * step + step - i * step))
      = List.range (k * step) := by
  induction k with
  | zero => simp
  | succ k ih =>
    rw [List.range_succ, List.flatMap_append, ih]
    simp only [List.flatMap_cons, List.flatMap_nil, List.append_nil]
    rw [List.range_eq_range', List.range_eq_range', Nat.add_sub_cancel_left, Nat.succ_mul]
    have := List.range'_append (s := 0) (m := k * step) (n := step) (step := 1)
    simpa using this

theorem threadIndices_partition (n t : Nat) (ht : t ≠ 0) :
    ∃ rs, threadIndices n t = .ok rs ∧ ExactPartition rs n := by
  by_cases hn : n = 0
  · subst hn; exact ⟨[], by simp [threadIndices], by simp [ExactPartition]⟩
  · obtain ⟨step, m, hs, hm, hpos, hst, h⟩ := threadIndices_eq n t hn ht
    refine ⟨_, h, ?_, ?_⟩
    · have hlt : m * step < n := by
        have h1 : (n / step) * step ≤ n := Nat.div_mul_le_self n step
        have h2 : (m + 1) * step = (n / step) * step := by rw [hm]; congr 1; omega
        rw [Nat.succ_mul] at h2
        omega
      intro r hr
      simp only [List.mem_append, List.mem_map, List.mem_range, List.mem_singleton] at hr
      rcases hr with ⟨i, _, rfl⟩ | rfl
      · simpa using hs
      · exact hlt
    · have hlt : m * step ≤ n := by
        have h1 : (n / step) * step ≤ n := Nat.div_mul_le_self n step
        have h2 : (m + 1) * step = (n / step) * step := by rw [hm]; congr 1; omega
        rw [Nat.succ_mul] at h2
        omega
      rw [List.flatMap_append, List.flatMap_map, flatMap_blocks]
      simp only [List.flatMap_cons, List.flatMap_nil, List.append_nil]
      rw [List.range_eq_range', List.range_eq_range']
      have := List.range'_append (s := 0) (m := m * step) (n := n - m * step) (step := 1)
      simp only [Nat.zero_add, Nat.one_mul] at this
      rw [this]
      congr 1
      omega

/-- Entries after the actions in `done` have been performed. -/
def applied (read : Reader) (es : List Entry) (done : List Action) : List Entry :=
  es.mapIdx (fun i e => match read e.name with
    | none => e
    | some (c, s) =>
      { e with
        checksum := if Action.setChecksum i ∈ done then some c else e.checksum
        size := if Action.setSize i ∈ done then some s else e.size })

theorem apply_applied (read : Reader) (es : List Entry) (done : List Action) (a : Action) :
    a.apply read (applied read es done) = applied read es (a :: done) := by
  apply List.ext_getElem?
  intro j
  cases a with
  | setChecksum i =>
    simp only [Action.apply, applied, List.getElem?_modify, List.getElem?_mapIdx]
    cases he : es[j]? with
    | none => simp
    | some e =>
      by_cases hij : i = j
      · subst hij
        cases hr : read e.name <;> simp [hr]
      · cases hr : read e.name <;> simp [hr, hij, Ne.symm hij]
  | setSize i =>
    simp only [Action.apply, applied, List.getElem?_modify, List.getElem?_mapIdx]
    cases he : es[j]? with
    | none => simp
    | some e =>
      by_cases hij : i = j
      · subst hij
        cases hr : read e.name <;> simp [hr]
      · cases hr : read e.name <;> simp [hr, hij, Ne.symm hij]

theorem steps_inv (read : Reader) (es : List Entry) (ws : List (List Action)) (c c0 : Config)
    (h0 : c0 = ⟨ws, es⟩) (h : Steps read c0 c) :
    ∃ done, c.entries = applied read es done ∧
      ∀ a, (∃ w ∈ ws, a ∈ w) ↔ (a ∈ done ∨ ∃ w ∈ c.workers, a ∈ w) := by
  induction h with
  | refl =>
    subst h0
    refine ⟨[], ?_, by simp⟩
    apply List.ext_getElem?
    intro j
    simp only [applied, List.getElem?_mapIdx]
    cases he : es[j]? with
    | none => simp
    | some e => cases hr : read e.name <;> simp [hr]
  | tail hs hstep ih =>
    obtain ⟨done, hent, hacts⟩ := ih
    cases hstep with
    | run k a rest ws' es' hk =>
      refine ⟨a :: done, ?_, ?_⟩
      · simp only at hent ⊢
        rw [hent, apply_applied]
      · intro b
        rw [hacts b]
        simp only at *
        constructor
        · rintro (hb | ⟨w, hw, hbw⟩)
          · simp [hb]
          · obtain ⟨j, hj⟩ := List.mem_iff_getElem?.mp hw
            by_cases hjk : j = k
            · subst hjk
              rw [hk] at hj
              cases hj
              rcases List.mem_cons.mp hbw with rfl | hbr
              · simp
              · right
                refine ⟨rest, ?_, hbr⟩
                rw [List.mem_iff_getElem?]
                refine ⟨j, ?_⟩
                have := (List.getElem?_eq_some_iff.mp hk).1
                simp [this]
            · right
              refine ⟨w, ?_, hbw⟩
              rw [List.mem_iff_getElem?]
              exact ⟨j, by rw [List.getElem?_set_ne (by omega)]; exact hj⟩
        · rintro (hb | ⟨w, hw, hbw⟩)
          · rcases List.mem_cons.mp hb with rfl | hb
            · right
              exact ⟨_ :: rest, List.mem_iff_getElem?.mpr ⟨k, hk⟩, by simp⟩
            · exact Or.inl hb
          · right
            rcases List.mem_or_eq_of_mem_set hw with hw | rfl
            · exact ⟨w, hw, hbw⟩
            · exact ⟨_ :: w, List.mem_iff_getElem?.mpr ⟨k, hk⟩, by simp [hbw]⟩

theorem applied_all (read : Reader) (es : List Entry) (done : List Action)
    (h : ∀ i < es.length, Action.setChecksum i ∈ done ∧ Action.setSize i ∈ done) :
    applied read es done = es.map (checksummed read) := by
  apply List.ext_getElem?
  intro j
  simp only [applied, List.getElem?_mapIdx, List.getElem?_map]
  cases he : es[j]? with
  | none => simp
  | some e =>
    have hj := (List.getElem?_eq_some_iff.mp he).1
    obtain ⟨h1, h2⟩ := h j hj
    cases hr : read e.name <;> simp [checksummed, hr, h1, h2]

theorem partition_actions (rs : List (Nat × Nat)) (n : Nat) (h : ExactPartition rs n) (i : Nat) :
    (∃ r ∈ rs, r.1 ≤ i ∧ i < r.2) ↔ i < n := by
  have : i ∈ rs.flatMap (fun r => List.range' r.1 (r.2 - r.1)) ↔ i ∈ List.range n := by rw [h.2]
  simp only [List.mem_flatMap, List.mem_range, List.mem_range'_1] at this
  rw [← this]
  constructor
  · rintro ⟨r, hr, h1, h2⟩; exact ⟨r, hr, h1, by omega⟩
  · rintro ⟨r, hr, h1, h2⟩; have := h.1 r hr; exact ⟨r, hr, h1, by omega⟩

theorem mem_workerProgram (a b i : Nat) :
    (Action.setChecksum i ∈ workerProgram a b ↔ a ≤ i ∧ i < b) ∧
    (Action.setSize i ∈ workerProgram a b ↔ a ≤ i ∧ i < b) := by
  constructor <;> simp [workerProgram, List.mem_flatMap, List.mem_range'_1] <;> omega

/-- Number of remaining actions. -/
def remaining (c : Config) : Nat := (c.workers.map List.length).sum

theorem remaining_step (read : Reader) (c c' : Config) (h : Step read c c') :
    remaining c = remaining c' + 1 := by
  cases h with
  | run k a rest ws es hk =>
    simp only [remaining]
    induction ws generalizing k with
    | nil => simp at hk
    | cons w ws ih =>
      cases k with
      | zero => simp at hk; subst hk; simp; omega
      | succ k =>
        simp at hk
        have := ih k hk
        simp at this ⊢
        omega

end Verif.Eumopps.Checksum
