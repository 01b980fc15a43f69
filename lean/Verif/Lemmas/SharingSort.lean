import Verif.Lemmas.SharingParallel

/-!
# A sorting routine that meets the contract of `SliceSorter`
-/

namespace Verif
open Spec

/-- Reads `n` cells. -/
def readCells (k : Kind) (a : Nat) : Nat → Nat → Prog (List Nat)
  | _, 0 => .ret []
  | i, n + 1 => .read ⟨k, a, i⟩ fun x => (readCells k a (i + 1) n).bind fun xs => .ret (x :: xs)

/-- Writes cells. -/
def writeCells (k : Kind) (a : Nat) : Nat → List Nat → Prog Unit
  | _, [] => .ret ()
  | i, x :: xs => .write ⟨k, a, i⟩ x (writeCells k a (i + 1) xs)

theorem readCells_run (k : Kind) (a i n : Nat) (m : Mem) :
    (readCells k a i n).run m = ((List.range n).map fun j => m ⟨k, a, i + j⟩, m) := by
  induction n generalizing i with
  | zero => rfl
  | succ n ih =>
    show ((readCells k a (i + 1) n).bind fun xs => .ret (m ⟨k, a, i⟩ :: xs)).run m = _
    rw [Prog.run_bind, ih, List.range_succ_eq_map]
    simp only [Prog.run, List.map_cons, List.map_map, Nat.add_zero]
    congr 2
    apply List.map_congr_left
    intro j _
    show m ⟨k, a, i + 1 + j⟩ = m ⟨k, a, i + (j + 1)⟩
    rw [show i + 1 + j = i + (j + 1) by omega]

theorem readCells_touches {F : Loc → Prop} (k : Kind) (a i n : Nat) (m : Mem) (hF : ∀ j, j < n → F ⟨k, a, i + j⟩) :
    (readCells k a i n).Touches F m := by
  induction n generalizing i with
  | zero => trivial
  | succ n ih =>
    refine ⟨hF 0 (by omega), touches_bind (ih (i + 1) fun j hj => ?_) trivial⟩
    rw [show i + 1 + j = i + (j + 1) by omega]
    exact hF (j + 1) (by omega)

theorem writeCells_touches {F : Loc → Prop} (k : Kind) (a i : Nat) (xs : List Nat) (m : Mem)
    (hF : ∀ j, j < xs.length → F ⟨k, a, i + j⟩) : (writeCells k a i xs).Touches F m := by
  induction xs generalizing i m with
  | nil => trivial
  | cons x xs ih =>
    refine ⟨hF 0 (by simp), ih (i + 1) _ fun j hj => ?_⟩
    rw [show i + 1 + j = i + (j + 1) by omega]
    exact hF (j + 1) (by simpa using hj)

theorem writeCells_run (k : Kind) (a i : Nat) (xs : List Nat) (m : Mem) :
    (List.range xs.length).map (fun j => ((writeCells k a i xs).run m).2 ⟨k, a, i + j⟩) = xs := by
  induction xs generalizing i m with
  | nil => rfl
  | cons x xs ih =>
    rw [List.length_cons, List.range_succ_eq_map, List.map_cons, List.map_map]
    congr 1
    · show ((writeCells k a (i + 1) xs).run (m.set ⟨k, a, i⟩ x)).2 ⟨k, a, i⟩ = x
      rw [(writeCells_touches (F := fun l => i < l.index) k a (i + 1) xs _ (fun j _ => by show i < i + 1 + j; omega)).outside
        (by show ¬ i < i; omega)]
      unfold Mem.set
      rw [if_pos rfl]
    · refine Eq.trans ?_ (ih (i + 1) (m.set ⟨k, a, i⟩ x))
      apply List.map_congr_left
      intro j _
      show ((writeCells k a (i + 1) xs).run (m.set ⟨k, a, i⟩ x)).2 ⟨k, a, i + (j + 1)⟩ = _
      rw [show i + 1 + j = i + (j + 1) by omega]

/-- Reads the elements, sorts them, and writes them back. -/
def sliceSorter (sn : Sorter) : SliceSorter where
  sort k key s := (readCells k s.array s.off s.len).bind fun xs => writeCells k s.array s.off (sn.run key xs)
  touches k key s m := by
    refine touches_bind (readCells_touches _ _ _ _ _ fun j hj => cell_of_lt hj) ?_
    refine writeCells_touches _ _ _ _ _ fun j hj => cell_of_lt ?_
    rw [readCells_run, (sn.perm key _).length_eq] at hj
    simpa using hj
  perm k key s m := by
    rw [Prog.run_bind, readCells_run]
    simp only
    have h := writeCells_run k s.array s.off (sn.run key (s.contents k m)) m
    rw [(sn.perm key _).length_eq, contents_length] at h
    exact (List.Perm.of_eq h).trans (sn.perm key _)
  sorted k key s m := by
    rw [Prog.run_bind, readCells_run]
    simp only
    have h := writeCells_run k s.array s.off (sn.run key (s.contents k m)) m
    rw [(sn.perm key _).length_eq, contents_length] at h
    exact Eq.subst (motive := fun l => List.Pairwise _ l) h.symm (sn.sorted key _)

end Verif
