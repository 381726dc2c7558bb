import Verif.Spec.SinglePhase
import Mathlib.Algebra.Order.Ring.Unbundled.Rat
import Mathlib.Data.Fintype.Sigma
import Mathlib.Tactic.Ring
import Mathlib.Tactic.Linarith
import Mathlib.Tactic.FinCases
import Mathlib.Tactic.NormNum

/-!
A concrete input: two cubes of side 7, `[0,7]` and `[7,14]` in the first direction, over the rationals. The reference points are
3 away from the low sides, which makes the orthonormal basis rational.
-/

namespace Verif.SinglePhase

/-- Face `i` of cell `c`: `i / 2` is the direction, even `i` the low side. -/
def exFace (u : Bool) (c : Fin 2) (i : Fin 6) : HalfFace ℚ where
  nbr := if c = 0 ∧ i = 1 then some 1 else if c = 1 ∧ i = 0 then some 0 else none
  bid := if u then (if c = 0 then ![1, 0, 2, 3, 4, 5] i else ![0, 6, 7, 8, 9, 10] i)
    else if (c = 0 ∧ i = 1) ∨ (c = 1 ∧ i = 0) then 0 else i.val + 1
  area := 49
  centroid k := (if k.val = 0 then 7 * (c.val : ℚ) else 0) + if k.val = i.val / 2 then (if i.val % 2 = 0 then 0 else 7) else 3
  normal k := if k.val = i.val / 2 then (if i.val % 2 = 0 then -1 else 1) else 0

/-- `u`: unique boundary identifiers instead of side numbers. -/
def exGrid (u : Bool) : Grid ℚ where
  nc := 2
  cell c := ⟨6, exFace u c, fun k => (if k.val = 0 then 7 * (c.val : ℚ) else 0) + 3, 343⟩

def exLo : Fin 3 → ℚ := ![0, 0, 0]
def exHi : Fin 3 → ℚ := ![14, 7, 7]

def exSide (f : Boundary.Face ℚ) : Nat :=
  if f.centroid 0 = 0 then 0 else if f.centroid 0 = 14 then 1 else if f.centroid 1 = 0 then 2 else if f.centroid 1 = 7 then 3
  else if f.centroid 2 = 0 then 4 else 5

def exQ (i : Fin 6) (k : Fin 3) : ℚ := if k.val = i.val / 2 then (if i.val % 2 = 0 then -3 / 5 else 4 / 5) else 0

open Classical in
/-- A linear solver. -/
noncomputable def exSolver (s : Hybrid.Sys ℚ) (N : Nat) : Nat → ℚ :=
  if h : ∃ x, Hybrid.Solves s N x then h.choose else fun _ => 0

noncomputable def exInput (bct : Upscale.BCType) (g : ℚ) (perm : Fin 2 → Fin 3 → Fin 3 → ℚ) : Input ℚ where
  G := exGrid (bct != .fixed)
  perm := perm
  Q _ := exQ
  gravity := g
  mob _ := [1 / 2, 1]
  rho _ := [3, 3]
  bct := bct
  twodim := false
  sort l := l
  solver := exSolver

theorem ex_tiling (u : Bool) : Tiling (exGrid u) where
  area _ := by change (0 : ℚ) < 49; norm_num
  volume _ := by change (0 : ℚ) < 343; norm_num
  surface := by cases u <;> decide +kernel
  closed := by cases u <;> decide +kernel
  mate := by
    intro p d h
    have key : ∀ (p : Half (exGrid u)), ((exGrid u).face p).nbr ≠ none → ∃ q : Half (exGrid u),
        ((exGrid u).face p).nbr = some q.1.val ∧ q.1 ≠ p.1 ∧ ((exGrid u).face q).nbr = some p.1.val ∧
        ((exGrid u).face q).area = ((exGrid u).face p).area ∧ ((exGrid u).face q).centroid = ((exGrid u).face p).centroid ∧
        ∀ d, ((exGrid u).face q).normal d = -((exGrid u).face p).normal d := by
      cases u <;> decide +kernel
    obtain ⟨q, h1, h2⟩ := key p (by rw [h]; simp)
    rw [h] at h1
    exact ⟨q, (Option.some.inj h1).symm, h2⟩
  once := by
    intro c i j d h h'
    have key : ∀ (c : Fin (exGrid u).nc) (i j : Fin ((exGrid u).cell c).nf), (((exGrid u).cell c).face i).nbr ≠ none →
        (((exGrid u).cell c).face i).nbr = (((exGrid u).cell c).face j).nbr → i = j := by
      cases u <;> decide +kernel
    exact key c i j (by rw [h]; simp) (h.trans h'.symm)
  connected := by
    intro a b
    have key : ∀ a b : Fin (exGrid u).nc, a = b ∨ ∃ i, (((exGrid u).cell a).face i).nbr = some b.val := by
      cases u <;> decide +kernel
    rcases key a b with h | h
    · rw [h]
    · exact Relation.ReflTransGen.single h

theorem ex_box (u : Bool) : FillsBox (exGrid u) exLo exHi exSide where
  bid := by cases u <;> decide +kernel
  sides := by cases u <;> decide +kernel
  ne := by cases u <;> decide +kernel
  lt := by decide +kernel

theorem ex_sideIds : SideIds (exGrid false) exSide := by
  unfold SideIds
  decide +kernel

theorem ex_faceIds : FaceIds (exGrid true) exLo exHi exSide where
  unique := by unfold Boundary.UniqueIds; decide +kernel
  extents := by
    constructor
    · decide +kernel
    · decide +kernel
    · decide +kernel
    · intro d
      fin_cases d <;> constructor <;> norm_num [exLo, exHi]
  at_side := by unfold Boundary.AtSide; decide +kernel

theorem ex_matching : Matching (exGrid true) exSide where
  image := by decide +kernel
  single := by
    unfold Boundary.SingleImage Boundary.PeriodicImage
    decide +kernel

theorem ex_suited (bct : Upscale.BCType) (g : ℚ) (perm : Fin 2 → Fin 3 → Fin 3 → ℚ) :
    Suited (exInput bct g perm) exLo exHi exSide := by
  cases bct
  · exact ex_sideIds
  · exact ⟨ex_faceIds, rfl⟩
  · exact ⟨ex_faceIds, ex_matching, rfl⟩

theorem ex_regular (bct : Upscale.BCType) (g : ℚ) (perm : Fin 2 → Fin 3 → Fin 3 → ℚ) (hs : ∀ c i j, perm c i j = perm c j i)
    (hp : ∀ c, Mimetic.PosDef (perm c)) : Regular (exInput bct g perm) where
  symm := hs
  posdef := hp
  mob _ := by change (0 : ℚ) < [1 / 2, 1].sum; norm_num
  basis c := by
    constructor
    · change ∀ k l : Fin 3, ∑ i : Fin 6, exQ i k * exQ i l = if k = l then 1 else 0
      decide +kernel
    · refine ⟨fun k e => if k = e then 245 else 0, ?_⟩
      have key : ∀ (u : Bool) (c : Fin 2) (i : Fin 6) (e : Fin 3), ((exFace u c i).centroid e -
          ((if e.val = 0 then 7 * (c.val : ℚ) else 0) + 3)) * (exFace u c i).area =
          ∑ k : Fin 3, exQ i k * if k = e then 245 else 0 := by decide +kernel
      exact key (bct != .fixed) c
  sort l := List.Perm.refl _
  solver s N h := by
    change Hybrid.Solves s N (exSolver s N)
    unfold exSolver
    rw [dif_pos h]
    exact h.choose_spec

/-- A full tensor in the first cell, the threefold of the unit tensor in the second. -/
def exPerm (c : Fin 2) (i j : Fin 3) : ℚ :=
  if c = 0 then (if i = j then 2 else if i.val + j.val = 1 then 1 else 0) else if i = j then 3 else 0

theorem exPerm_symm (c : Fin 2) (i j : Fin 3) : exPerm c i j = exPerm c j i := by revert c i j; decide +kernel

theorem exPerm_posdef (c : Fin 2) : Mimetic.PosDef (exPerm c) := by
  intro v hv
  have h0 := mul_self_nonneg (v 0)
  have h1 := mul_self_nonneg (v 1)
  have h2 := mul_self_nonneg (v 2)
  have h01 := mul_self_nonneg (v 0 + v 1)
  have hpos : 0 < v 0 * v 0 + v 1 * v 1 + v 2 * v 2 := by
    obtain ⟨i, hi⟩ := hv
    have := mul_self_pos.mpr hi
    fin_cases i <;> simp only [Fin.zero_eta, Fin.mk_one, Fin.reduceFinMk] at this <;> linarith
  fin_cases c
  · have e : Mimetic.quadForm (exPerm 0) v =
        (v 0 * v 0 + v 1 * v 1 + v 2 * v 2) + v 2 * v 2 + (v 0 + v 1) * (v 0 + v 1) := by
      simp [Mimetic.quadForm, Fin.sum_univ_three, exPerm]
      ring
    change 0 < Mimetic.quadForm (exPerm 0) v
    rw [e]; linarith
  · have e : Mimetic.quadForm (exPerm 1) v = 3 * (v 0 * v 0 + v 1 * v 1 + v 2 * v 2) := by
      simp [Mimetic.quadForm, Fin.sum_univ_three, exPerm]
      ring
    change 0 < Mimetic.quadForm (exPerm 1) v
    rw [e]; linarith

theorem ex_sound (bct : Upscale.BCType) : Sound (exInput bct 0 exPerm) :=
  ⟨ex_regular bct 0 exPerm exPerm_symm exPerm_posdef, rfl⟩

end Verif.SinglePhase
