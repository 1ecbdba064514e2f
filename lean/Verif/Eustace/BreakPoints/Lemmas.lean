import Verif.Eustace.BreakPoints.Model

/-!
Lemmas for breaks of homogeneity: selections by masks keep arrays aligned, sorting and runs.
-/

namespace Verif.Eustace.BreakPoints

open Verif Verif.Eustace.ObsSource

/-! ### Specification -/

/-- A break: time, station and likelihood. -/
abbrev Row := Int × Int × Int

/-- The breaks of a collection. -/
def Breaks.rows (b : Breaks) : List Row := b.time.zip (b.station.zip b.likelihood)

/-- The breaks of a collection of the C++ program. -/
def CppBreaks.rows (b : CppBreaks) : List Row := b.time.zip (b.station.zip b.likelihood)

/-- Arrays of one length. -/
structure Breaks.Aligned (b : Breaks) : Prop where
  station : b.station.length = b.time.length
  likelihood : b.likelihood.length = b.time.length

/-- Arrays of one length. -/
structure CppBreaks.Aligned (b : CppBreaks) : Prop where
  station : b.station.length = b.time.length
  likelihood : b.likelihood.length = b.time.length

/-- Whether likelihoods are missing. -/
def File.missing (f : File) : List Bool :=
  match f.mask with
  | .array m => m
  | _ => f.time.map fun _ => false

/-- The breaks of a file, each with whether its likelihood is missing. -/
def File.rows (f : File) : List (Row × Bool) := (f.time.zip (f.station.zip f.likelihood)).zip f.missing

/-- Variables which share the dimension of breaks. -/
structure File.Complete (f : File) : Prop where
  station : f.station.length = f.time.length
  likelihood : f.likelihood.length = f.time.length
  missing : f.missing.length = f.time.length

/-! ### Masks -/

theorem select_length {α β : Type} (m : List Bool) (a : List α) (b : List β) (h : a.length = b.length) :
    (select m a).length = (select m b).length := by
  induction m generalizing a b with
  | nil => cases a <;> cases b <;> rfl
  | cons x m ih =>
    cases a with
    | nil =>
      cases b with
      | nil => rfl
      | cons _ _ => simp at h
    | cons u a =>
      cases b with
      | nil => simp at h
      | cons v b =>
        have := ih a b (by simpa using h)
        cases x <;> simp [select, this]

theorem select_zip {α β : Type} (m : List Bool) (a : List α) (b : List β) (h : a.length = b.length) :
    (select m a).zip (select m b) = select m (a.zip b) := by
  induction m generalizing a b with
  | nil => cases a <;> cases b <;> rfl
  | cons x m ih =>
    cases a with
    | nil =>
      cases b with
      | nil => rfl
      | cons _ _ => simp at h
    | cons u a =>
      cases b with
      | nil => simp at h
      | cons v b =>
        have := ih a b (by simpa using h)
        cases x <;> simp [select, this]

theorem select_map {α : Type} (p : α → Bool) (l : List α) : select (l.map p) l = l.filter p := by
  induction l with
  | nil => rfl
  | cons x l ih =>
    rw [List.map_cons, select, ih, List.filter_cons]

/-- A selection by a mask, as a filter of the values with their flags. -/
theorem select_eq {α : Type} (m : List Bool) (l : List α) : select m l = ((l.zip m).filter Prod.snd).map Prod.fst := by
  induction m generalizing l with
  | nil => cases l <;> rfl
  | cons x m ih =>
    cases l with
    | nil => rfl
    | cons y l => cases x <;> simp [select, ih]

theorem argwhere_cons (x : Bool) (m : List Bool) :
    argwhere (x :: m) = (if x then [0] else []) ++ (argwhere m).map Nat.succ := by
  have e : (fun i => (x :: m)[i]? == some true) ∘ Nat.succ = fun i => m[i]? == some true := by
    funext i
    simp
  rw [argwhere, List.length_cons, List.range_succ_eq_map, List.filter_cons, argwhere, ← e, List.filter_map]
  cases x <;> simp

theorem gather_succ {α : Type} (x : α) (l : List α) (places : List Nat) :
    gather (x :: l) (places.map Nat.succ) = gather l places := by
  induction places with
  | nil => rfl
  | cons i rest ih =>
    rw [List.map_cons, gather, gather, ih, List.getElem?_cons_succ]

/-- Taking the places where a mask holds is selecting by the mask. -/
theorem gather_argwhere {α : Type} (m : List Bool) (l : List α) (h : m.length = l.length) :
    gather l (argwhere m) = .ok (select m l) := by
  induction m generalizing l with
  | nil =>
    cases l with
    | nil => rfl
    | cons _ _ => simp at h
  | cons x m ih =>
    cases l with
    | nil => simp at h
    | cons y l =>
      rw [argwhere_cons, select]
      have hi := ih l (by simpa using h)
      cases x
      · simpa [gather_succ] using hi
      · rw [if_pos rfl, List.singleton_append, gather, List.getElem?_cons_zero, gather_succ, hi]
        rfl

/-- Masks made from the likelihoods, on rows. -/
theorem select_rows (p : Int → Bool) (t s l : List Int) (hs : s.length = t.length) (hl : l.length = t.length) :
    (select (l.map p) t).zip ((select (l.map p) s).zip (select (l.map p) l)) =
      (t.zip (s.zip l)).filter fun r => p r.2.2 := by
  rw [select_zip _ s l (by omega), select_zip _ t (s.zip l) (by rw [List.length_zip]; omega)]
  have e : l.map p = (t.zip (s.zip l)).map fun r => p r.2.2 := by
    have h1 : (t.zip (s.zip l)).map Prod.snd = s.zip l := List.map_snd_zip (by rw [List.length_zip]; omega)
    have h2 : (s.zip l).map Prod.snd = l := List.map_snd_zip (by omega)
    have h3 : (t.zip (s.zip l)).map (fun r => p r.2.2) = ((((t.zip (s.zip l)).map Prod.snd).map Prod.snd).map p) := by
      rw [List.map_map, List.map_map]
      rfl
    rw [h3, h1, h2]
  rw [e, select_map]

/-! ### C++ loops -/

theorem rejectFrom_ok {α : Type} (members : List Int) (accept : α → Bool) (i : Nat) (ds : List α)
    (h : i + ds.length ≤ members.length) :
    rejectFrom members accept i ds = .ok (select (ds.map accept) (members.drop i)) := by
  induction ds generalizing i with
  | nil => cases members.drop i <;> rfl
  | cons d ds ih =>
    rw [List.length_cons] at h
    have hi : i < members.length := by omega
    rw [List.drop_eq_getElem_cons hi, List.map_cons, rejectFrom, select, List.getElem?_eq_getElem hi, ih (i + 1) (by omega)]
    cases accept d <;> simp

theorem cppFilteredFrom_ok (times : List Int) (s : Int) (i : Nat) (stations : List Int)
    (h : i + stations.length ≤ times.length) :
    cppFilteredFrom times s i stations = .ok (select (stations.map fun x => x == s) (times.drop i)) := by
  induction stations generalizing i with
  | nil => cases times.drop i <;> rfl
  | cons d ds ih =>
    rw [List.length_cons] at h
    have hi : i < times.length := by omega
    rw [List.drop_eq_getElem_cons hi, List.map_cons, cppFilteredFrom, select, List.getElem?_eq_getElem hi, ih (i + 1) (by omega)]
    by_cases hd : d = s <;> simp [hd]

/-! ### Sorting -/

theorem insert_perm (x : Int) (l : List Int) : (insert x l).Perm (x :: l) := by
  induction l with
  | nil => exact List.Perm.refl _
  | cons y l ih =>
    rw [insert]
    split
    · exact List.Perm.refl _
    · exact (ih.cons y).trans (List.Perm.swap x y l)

theorem sort_perm (l : List Int) : (sort l).Perm l := by
  induction l with
  | nil => exact List.Perm.refl _
  | cons x l ih => exact (insert_perm x _).trans (ih.cons x)

theorem insert_sorted (x : Int) (l : List Int) (h : l.Pairwise (· ≤ ·)) : (insert x l).Pairwise (· ≤ ·) := by
  induction l with
  | nil => simp [insert]
  | cons y l ih =>
    rw [insert]
    split
    · rename_i hxy
      refine List.pairwise_cons.2 ⟨fun z hz => ?_, h⟩
      rcases List.mem_cons.1 hz with rfl | hz
      · exact hxy
      · exact le_trans hxy ((List.pairwise_cons.1 h).1 z hz)
    · rename_i hxy
      refine List.pairwise_cons.2 ⟨fun z hz => ?_, ih (List.pairwise_cons.1 h).2⟩
      rcases List.mem_cons.1 ((insert_perm x l).mem_iff.1 hz) with rfl | hz
      · omega
      · exact (List.pairwise_cons.1 h).1 z hz

theorem sort_sorted (l : List Int) : (sort l).Pairwise (· ≤ ·) := by
  induction l with
  | nil => exact List.Pairwise.nil
  | cons x l ih => exact insert_sorted x _ ih

/-- The runs of a sorted list: strictly increasing, exactly its values, each with the number of times it is there. -/
theorem runs_spec (l : List Int) (h : l.Pairwise (· ≤ ·)) :
    ((runs l).map Prod.fst).Pairwise (· < ·) ∧ (∀ s, s ∈ (runs l).map Prod.fst ↔ s ∈ l) ∧
      ∀ p ∈ runs l, p.2 = l.count p.1 := by
  induction l with
  | nil => simp [runs]
  | cons x l ih =>
    obtain ⟨hx, hl⟩ := List.pairwise_cons.1 h
    obtain ⟨h1, h2, h3⟩ := ih hl
    rw [runs]
    match hr : runs l with
    | [] =>
      rw [hr] at h2
      have hnil : l = [] := List.eq_nil_iff_forall_not_mem.2 fun s hs => by simpa using (h2 s).2 hs
      subst hnil
      simp
    | (y, n) :: more =>
      rw [hr] at h1 h2 h3
      have hy : y ∈ l := (h2 y).1 (by simp)
      have hmore : ∀ p ∈ more, y < p.1 := by
        intro p hp
        exact (List.pairwise_cons.1 h1).1 _ (List.mem_map_of_mem hp)
      dsimp only
      by_cases hxy : x = y
      · subst hxy
        rw [if_pos rfl]
        refine ⟨h1, fun s => ?_, ?_⟩
        · rw [List.mem_cons, ← h2]
          simp
        · intro p hp
          rcases List.mem_cons.1 hp with rfl | hp
          · have := h3 (x, n) (by simp)
            dsimp only at this ⊢
            rw [List.count_cons_self, this]
          · rw [h3 p (List.mem_cons_of_mem _ hp), List.count_cons_of_ne]
            have := hmore p hp
            omega
      · rw [if_neg hxy]
        have hlt : x < y := by
          have := hx y hy
          omega
        refine ⟨?_, fun s => ?_, ?_⟩
        · rw [List.map_cons]
          refine List.pairwise_cons.2 ⟨fun s hs => ?_, h1⟩
          rw [List.map_cons] at hs
          rcases List.mem_cons.1 hs with rfl | hs
          · exact hlt
          · obtain ⟨p, hp, rfl⟩ := List.mem_map.1 hs
            exact lt_trans hlt (hmore p hp)
        · rw [List.map_cons, List.mem_cons, List.mem_cons, h2]
        · intro p hp
          have hnot : x ∉ l := by
            intro hxl
            have hxm := (h2 x).2 hxl
            rw [List.map_cons] at hxm
            rcases List.mem_cons.1 hxm with h' | h'
            · exact hxy h'
            · obtain ⟨p, hp, hpx⟩ := List.mem_map.1 h'
              have := hmore p hp
              omega
          rcases List.mem_cons.1 hp with rfl | hp
          · dsimp only
            rw [List.count_cons_self, List.count_eq_zero.2 hnot]
          · rw [h3 p hp, List.count_cons_of_ne]
            intro hpx
            have hmem : p.1 ∈ l := (h2 p.1).1 (List.mem_map_of_mem hp)
            exact hnot (hpx ▸ hmem)

theorem uniqueFrom_runs (x : Int) (n : Nat) (l : List Int) (more : List (Int × Nat))
    (h : runs (x :: l) = (x, n) :: more) : uniqueFrom x l = more.map Prod.fst := by
  induction l generalizing x n more with
  | nil =>
    simp only [runs, List.cons.injEq] at h
    rw [← h.2]
    rfl
  | cons y l ih =>
    rw [runs] at h
    match hr : runs (y :: l) with
    | [] =>
      exfalso
      rw [runs] at hr
      split at hr
      · cases hr
      · split at hr <;> cases hr
    | (z, k) :: more' =>
      have hz : z = y := by
        rw [runs] at hr
        split at hr
        · cases hr; rfl
        · split at hr
          · rename_i heq
            simp only [List.cons.injEq, Prod.mk.injEq] at hr
            rw [← hr.1.1, heq]
          · simp only [List.cons.injEq, Prod.mk.injEq] at hr
            exact hr.1.1.symm
      subst hz
      rw [hr] at h
      dsimp only at h
      rw [uniqueFrom]
      by_cases hxz : x = z
      · subst hxz
        rw [if_pos rfl] at h ⊢
        simp only [List.cons.injEq] at h
        rw [← h.2]
        exact ih x k more' hr
      · rw [if_neg hxz] at h ⊢
        simp only [List.cons.injEq] at h
        rw [← h.2, List.map_cons, ih z k more' hr]

/-- Removing equal neighbours gives the values of the runs. -/
theorem unique_runs (l : List Int) : unique l = (runs l).map Prod.fst := by
  cases l with
  | nil => rfl
  | cons x l =>
    match hr : runs (x :: l) with
    | [] =>
      exfalso
      rw [runs] at hr
      split at hr
      · cases hr
      · split at hr <;> cases hr
    | (z, k) :: more =>
      have hz : z = x := by
        rw [runs] at hr
        split at hr
        · cases hr; rfl
        · split at hr
          · rename_i heq
            simp only [List.cons.injEq, Prod.mk.injEq] at hr
            rw [← hr.1.1, heq]
          · simp only [List.cons.injEq, Prod.mk.injEq] at hr
            exact hr.1.1.symm
      subst hz
      rw [unique, uniqueFrom_runs z k l more hr]
      rfl

end Verif.Eustace.BreakPoints
