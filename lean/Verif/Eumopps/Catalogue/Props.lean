import Verif.Eumopps.Catalogue.Model
import Verif.Eumopps.Operation.Model

/-! Meaning of the catalogue lookups used in the statements about placeholders and operations (C05-C10, C66). -/
namespace Verif.Eumopps.Catalogue
open Verif

/-- Data set `ds` is the first one called `name`, at position `k`. -/
def FirstNamed (c : Catalogue) (name : String) (k : Nat) (ds : DataSet) : Prop :=
  c.datasets[k]? = some ds ∧ ds.name = name ∧ ∀ j < k, ∀ d, c.datasets[j]? = some d → d.name ≠ name

/-- **C05-C10.** A name refers to the first data set carrying it. -/
theorem c05_datasetindex {c : Catalogue} {name : String} {k : Nat} :
    c.datasetindex name = some k ↔ ∃ ds, FirstNamed c name k ds := by
  unfold Catalogue.datasetindex FirstNamed
  rw [List.findIdx?_eq_some_iff_getElem]
  constructor
  · rintro ⟨h, hp, hj⟩
    refine ⟨c.datasets[k], by simp, by simpa using hp, ?_⟩
    intro j hlt d hd
    obtain ⟨hl, rfl⟩ := List.getElem?_eq_some_iff.1 hd
    simpa using hj j hlt
  · rintro ⟨ds, h1, h2, h3⟩
    obtain ⟨hl, rfl⟩ := List.getElem?_eq_some_iff.1 h1
    exact ⟨hl, by simpa using h2, fun j hj => by simpa using h3 j hj _ (List.getElem?_eq_getElem (by omega))⟩

theorem dataset_iff {c : Catalogue} {name : String} {ds : DataSet} :
    c.dataset name = some ds ↔ ∃ k, FirstNamed c name k ds := by
  unfold Catalogue.dataset FirstNamed
  rw [List.find?_eq_some_iff_getElem]
  constructor
  · rintro ⟨h1, i, hi, h2, h3⟩
    refine ⟨i, by simp [← h2], by simpa using h1, ?_⟩
    intro j hj d hd
    obtain ⟨hl, rfl⟩ := List.getElem?_eq_some_iff.1 hd
    simpa using h3 j hj
  · rintro ⟨k, h1, h2, h3⟩
    obtain ⟨hl, rfl⟩ := List.getElem?_eq_some_iff.1 h1
    exact ⟨by simpa using h2, k, hl, rfl, fun j hj => by simpa using h3 j hj _ (List.getElem?_eq_getElem (by omega))⟩

/-- **C05-C10.** A subset is addressed by its position in the first data set with the name; positions out of range
(including negative ones) address nothing. -/
theorem c05_datasubset {c : Catalogue} {name : String} {i : Int} {s : Subset} :
    c.datasubset name i = some s ↔
      ∃ k ds, FirstNamed c name k ds ∧ ∃ n : Nat, i = n ∧ ds.subsets[n]? = some s := by
  unfold Catalogue.datasubset
  constructor
  · intro h
    cases hd : c.dataset name with
    | none => rw [hd] at h; cases h
    | some ds =>
      rw [hd] at h
      simp only [DataSet.subset] at h
      split at h
      · rename_i hi
        obtain ⟨k, hk⟩ := dataset_iff.1 hd
        exact ⟨k, ds, hk, i.toNat, by omega, h⟩
      · cases h
  · rintro ⟨k, ds, hk, n, rfl, hn⟩
    rw [dataset_iff.2 ⟨k, hk⟩]
    have := (List.getElem?_eq_some_iff.1 hn).1
    simp only [DataSet.subset]
    rw [if_pos (by omega)]
    simpa using hn

example : FirstNamed ⟨[⟨"a", "", []⟩, ⟨"b", "x", []⟩, ⟨"b", "y", []⟩]⟩ "b" 1 ⟨"b", "x", []⟩ := by
  refine ⟨rfl, rfl, ?_⟩
  intro j hj d hd
  have : j = 0 := by omega
  subst this; cases hd; decide

/-- **C66.** The path name of a file: directory and name separated by one slash, whether or not the directory is written
with a final slash. (Empty directories and absolute names, for which the name is taken alone, are the other two cases.) -/
theorem c66_path {dir name : String} (h : ¬ name.startsWith "/") :
    (dir ≠ "" → ¬ dir.endsWith "/" → Operation.pathJoin dir name = dir ++ "/" ++ name) ∧
    (dir.endsWith "/" → Operation.pathJoin dir name = dir ++ name) ∧
    (Operation.pathJoin "" name = name) := by
  unfold Operation.pathJoin
  refine ⟨fun h1 h2 => ?_, fun h1 => ?_, ?_⟩
  · simp [h, h1, h2]
  · simp [h, h1]
  · simp

theorem c66_path_absolute {dir name : String} (h : name.startsWith "/") : Operation.pathJoin dir name = name := by
  unfold Operation.pathJoin; simp [h]

end Verif.Eumopps.Catalogue
