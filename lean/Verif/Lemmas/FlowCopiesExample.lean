import Verif.Lemmas.SinglePhaseExample
import Verif.Spec.FlowCopies
import Mathlib.Data.Fintype.Pi
import Mathlib.Data.Fintype.Prod

/-!
Two copies of the sample of `Verif.Lemmas.SinglePhaseExample`, next to each other in the second direction: four cubes.
-/

namespace Verif.SinglePhase

def twoM (d : Fin 3) : Nat := if d = 1 then 2 else 1

/-- Cell `n` is the copy of cell `n % 2` at place `n / 2`. -/
def twoCell : Place twoM × Fin 2 ≃ Fin 4 where
  toFun x := ⟨x.2.val + 2 * (x.1 1).val, by
    have h1 : (x.1 1).val < 2 := (x.1 1).2
    have h2 := x.2.2
    omega⟩
  invFun n := (fun d => ⟨if d = 1 then n.val / 2 else 0, by
    unfold twoM
    split <;> omega⟩, ⟨n.val % 2, by omega⟩)
  left_inv := by unfold Function.LeftInverse; decide +kernel
  right_inv := by unfold Function.RightInverse Function.LeftInverse; decide +kernel

def twoFace (n : Fin 4) (i : Fin 6) : HalfFace ℚ where
  nbr := if n.val % 2 = 0 ∧ i = 1 then some (n.val + 1) else if n.val % 2 = 1 ∧ i = 0 then some (n.val - 1)
    else if n.val / 2 = 0 ∧ i = 3 then some (n.val + 2) else if n.val / 2 = 1 ∧ i = 2 then some (n.val - 2) else none
  bid := if (n.val % 2 = 0 ∧ i = 1) ∨ (n.val % 2 = 1 ∧ i = 0) ∨ (n.val / 2 = 0 ∧ i = 3) ∨ (n.val / 2 = 1 ∧ i = 2) then 0 else n.val * 4 + ![0, 0, 1, 1, 2, 3] i + 1
  area := 49
  centroid k := (if k.val = 0 then 7 * ((n.val % 2 : ℕ) : ℚ) else 0) + (if k.val = 1 then 7 * ((n.val / 2 : ℕ) : ℚ) else 0) +
    if k.val = i.val / 2 then (if i.val % 2 = 0 then 0 else 7) else 3
  normal k := if k.val = i.val / 2 then (if i.val % 2 = 0 then -1 else 1) else 0

def twoGrid : Grid ℚ where
  nc := 4
  cell n := ⟨6, twoFace n, fun k => (if k.val = 0 then 7 * ((n.val % 2 : ℕ) : ℚ) else 0) + (if k.val = 1 then 7 * ((n.val / 2 : ℕ) : ℚ) else 0) + 3, 343⟩

def twoLo : Fin 3 → ℚ := ![0, 0, 0]
def twoHi : Fin 3 → ℚ := ![14, 14, 7]

def twoSide (f : Boundary.Face ℚ) : Nat :=
  if f.centroid 0 = 0 then 0 else if f.centroid 0 = 14 then 1 else if f.centroid 1 = 0 then 2 else if f.centroid 1 = 14 then 3
  else if f.centroid 2 = 0 then 4 else 5

noncomputable def twoInput : Input ℚ where
  G := twoGrid
  perm n := exPerm ⟨n.val % 2, by omega⟩
  Q _ := exQ
  gravity := 0
  mob _ := [1 / 2, 1]
  rho _ := [3, 3]
  bct := .periodic
  twodim := false
  sort l := l
  solver := exSolver

theorem two_tiling : Tiling twoGrid where
  area _ := by change (0 : ℚ) < 49; norm_num
  volume _ := by change (0 : ℚ) < 343; norm_num
  surface := by decide +kernel
  closed := by decide +kernel
  mate := by
    intro p d h
    have key : ∀ (p : Half twoGrid), (twoGrid.face p).nbr ≠ none → ∃ q : Half twoGrid,
        (twoGrid.face p).nbr = some q.1.val ∧ q.1 ≠ p.1 ∧ (twoGrid.face q).nbr = some p.1.val ∧
        (twoGrid.face q).area = (twoGrid.face p).area ∧ (twoGrid.face q).centroid = (twoGrid.face p).centroid ∧
        ∀ d, (twoGrid.face q).normal d = -(twoGrid.face p).normal d := by
      decide +kernel
    obtain ⟨q, h1, h2⟩ := key p (by rw [h]; simp)
    rw [h] at h1
    exact ⟨q, (Option.some.inj h1).symm, h2⟩
  once := by
    intro c i j d h h'
    have key : ∀ (c : Fin twoGrid.nc) (i j : Fin (twoGrid.cell c).nf), ((twoGrid.cell c).face i).nbr ≠ none →
        ((twoGrid.cell c).face i).nbr = ((twoGrid.cell c).face j).nbr → i = j := by
      decide +kernel
    exact key c i j (by rw [h]; simp) (h.trans h'.symm)
  connected := by
    intro a b
    have key : ∀ a b : Fin twoGrid.nc, a = b ∨ (∃ i, ((twoGrid.cell a).face i).nbr = some b.val) ∨
        ∃ c : Fin twoGrid.nc, (∃ i, ((twoGrid.cell a).face i).nbr = some c.val) ∧ ∃ i, ((twoGrid.cell c).face i).nbr = some b.val := by
      decide +kernel
    rcases key a b with h | h | ⟨c, h1, h2⟩
    · rw [h]
    · exact Relation.ReflTransGen.single h
    · exact (Relation.ReflTransGen.single h1).tail h2

theorem two_box : FillsBox twoGrid twoLo twoHi twoSide where
  bid := by decide +kernel
  sides := by decide +kernel
  ne := by decide +kernel
  lt := by decide +kernel

theorem two_faceIds : FaceIds twoGrid twoLo twoHi twoSide where
  unique := by unfold Boundary.UniqueIds; decide +kernel
  extents := by
    constructor
    · decide +kernel
    · decide +kernel
    · decide +kernel
    · intro d
      fin_cases d <;> constructor <;> norm_num [twoLo, twoHi]
  at_side := by unfold Boundary.AtSide; decide +kernel

theorem two_matching : Matching twoGrid twoSide where
  image := by decide +kernel
  single := by
    unfold Boundary.SingleImage Boundary.PeriodicImage
    decide +kernel

theorem two_suited : Suited twoInput twoLo twoHi twoSide := ⟨two_faceIds, two_matching, rfl⟩

theorem two_sound : Sound twoInput where
  symm c i j := exPerm_symm _ _ _
  posdef c := exPerm_posdef _
  mob _ := by change (0 : ℚ) < [1 / 2, 1].sum; norm_num
  basis c := by
    constructor
    · change ∀ k l : Fin 3, ∑ i : Fin 6, exQ i k * exQ i l = if k = l then 1 else 0
      decide +kernel
    · refine ⟨fun k e => if k = e then 245 else 0, ?_⟩
      have key : ∀ (n : Fin 4) (i : Fin 6) (e : Fin 3), ((twoFace n i).centroid e - (twoGrid.cell n).centroid e) * (twoFace n i).area =
          ∑ k : Fin 3, exQ i k * if k = e then 245 else 0 := by decide +kernel
      exact key c
  sort l := List.Perm.refl _
  solver := (ex_sound .periodic).solver
  gravity := rfl

theorem two_stacked : Stacked (exInput .periodic 0 exPerm) twoInput exLo exHi 0 twoM twoCell (fun _ => Equiv.refl (Fin 6)) where
  area _ _ := rfl
  normal _ _ _ := rfl
  face := by
    have key : ∀ (x : Place twoM × Fin 2) (i : Fin 6) (d : Fin 3),
        (twoFace (twoCell x) i).centroid d = (exFace true x.2 i).centroid d + ((x.1 d).val * (exHi d - exLo d) + 0) := by decide +kernel
    exact key
  cell := by
    have key : ∀ (x : Place twoM × Fin 2) (d : Fin 3),
        (twoGrid.cell (twoCell x)).centroid d = ((exGrid true).cell x.2).centroid d + ((x.1 d).val * (exHi d - exLo d) + 0) := by decide +kernel
    exact key
  volume _ := rfl
  rock := by
    have key : ∀ (x : Place twoM × Fin 2) (i j : Fin 3), ([1 / 2, 1] : List ℚ).sum * exPerm ⟨(twoCell x).val % 2, by omega⟩ i j =
        ([1 / 2, 1] : List ℚ).sum * exPerm x.2 i j := by decide +kernel
    exact key
  inner := by
    have key : ∀ (k : Place twoM) (c : Fin 2) (i : Fin 6) (b : Fin 2), (exFace true c i).nbr = some b.val →
        (twoFace (twoCell (k, c)) i).nbr = some (twoCell (k, b)).val := by decide +kernel
    exact key
  low := by
    have key : ∀ (k : Place twoM) (c : Fin 2) (i : Fin 6) (d : Fin 3), (exFace true c i).nbr = none → (exFace true c i).normal d = -1 → (k d).val = 0 →
        (twoFace (twoCell (k, c)) i).nbr = none := by decide +kernel
    exact key
  high := by
    have key : ∀ (k : Place twoM) (c : Fin 2) (i : Fin 6) (d : Fin 3), (exFace true c i).nbr = none → (exFace true c i).normal d = 1 →
        (k d).val + 1 = twoM d → (twoFace (twoCell (k, c)) i).nbr = none := by decide +kernel
    exact key
  next := by
    have key : ∀ (k l : Place twoM) (c : Fin 2) (i : Fin 6) (b : Fin 2) (j : Fin 6) (d : Fin 3), (exFace true c i).nbr = none → (exFace true c i).normal d = 1 →
        (exFace true b j).nbr = none → (exFace true b j).normal d = -1 → (exFace true c i).area = (exFace true b j).area →
        (∀ e, e ≠ d → (exFace true c i).centroid e = (exFace true b j).centroid e) → (l d).val = (k d).val + 1 → (∀ e, e ≠ d → l e = k e) →
        (twoFace (twoCell (k, c)) i).nbr = some (twoCell (l, b)).val ∧ (twoFace (twoCell (l, b)) j).nbr = some (twoCell (k, c)).val := by decide +kernel
    exact key

end Verif.SinglePhase
