import Verif.Lemmas.SinglePhaseExample
import Verif.Spec.Mirror
import Verif.Spec.Relabel

/-!
A sample that is its own mirror image in the first direction: two cubes of side 7 with reference points 3 away from the outer sides, and full tensors that
are mirror images of each other.
-/

namespace Verif.SinglePhase

def symFace (u : Bool) (c : Fin 2) (i : Fin 6) : HalfFace ℚ where
  nbr := if c = 0 ∧ i = 1 then some 1 else if c = 1 ∧ i = 0 then some 0 else none
  bid := if u then (if c = 0 then ![1, 0, 2, 3, 4, 5] i else ![0, 6, 7, 8, 9, 10] i)
    else if (c = 0 ∧ i = 1) ∨ (c = 1 ∧ i = 0) then 0 else i.val + 1
  area := 49
  centroid k := (if k = 0 then 7 * (c.val : ℚ) else 0) + if k.val = i.val / 2 then (if i.val % 2 = 0 then 0 else 7) else if k = 0 ∧ c = 1 then 4 else 3
  normal k := if k.val = i.val / 2 then (if i.val % 2 = 0 then -1 else 1) else 0

def symGrid (u : Bool) : Grid ℚ where
  nc := 2
  cell c := ⟨6, symFace u c, fun k => (if k = 0 then 7 * (c.val : ℚ) else 0) + if k = 0 ∧ c = 1 then 4 else 3, 343⟩

def symQ (c : Fin 2) (i : Fin 6) (k : Fin 3) : ℚ :=
  if k.val = i.val / 2 then (if k = 0 ∧ c = 1 then (if i.val % 2 = 0 then -4 / 5 else 3 / 5) else if i.val % 2 = 0 then -3 / 5 else 4 / 5) else 0

/-- The directions of high permeability lean to the right in the first cell and to the left in the second. -/
def symPerm (c : Fin 2) (i j : Fin 3) : ℚ := if i = j then 2 else if i.val + j.val = 1 then (if c = 0 then 1 else -1) else 0

noncomputable def symInput (bct : Upscale.BCType) : Input ℚ where
  G := symGrid (bct != .fixed)
  perm := symPerm
  Q := symQ
  gravity := 0
  mob _ := [1 / 2, 1]
  rho _ := [3, 3]
  bct := bct
  twodim := false
  sort l := l
  solver := exSolver

theorem sym_tiling (u : Bool) : Tiling (symGrid u) where
  area _ := by change (0 : ℚ) < 49; norm_num
  volume _ := by change (0 : ℚ) < 343; norm_num
  surface := by cases u <;> decide +kernel
  closed := by cases u <;> decide +kernel
  mate := by
    intro p d h
    have key : ∀ (p : Half (symGrid u)), ((symGrid u).face p).nbr ≠ none → ∃ q : Half (symGrid u),
        ((symGrid u).face p).nbr = some q.1.val ∧ q.1 ≠ p.1 ∧ ((symGrid u).face q).nbr = some p.1.val ∧
        ((symGrid u).face q).area = ((symGrid u).face p).area ∧ ((symGrid u).face q).centroid = ((symGrid u).face p).centroid ∧
        ∀ d, ((symGrid u).face q).normal d = -((symGrid u).face p).normal d := by
      cases u <;> decide +kernel
    obtain ⟨q, h1, h2⟩ := key p (by rw [h]; simp)
    rw [h] at h1
    exact ⟨q, (Option.some.inj h1).symm, h2⟩
  once := by
    intro c i j d h h'
    have key : ∀ (c : Fin (symGrid u).nc) (i j : Fin ((symGrid u).cell c).nf), (((symGrid u).cell c).face i).nbr ≠ none →
        (((symGrid u).cell c).face i).nbr = (((symGrid u).cell c).face j).nbr → i = j := by
      cases u <;> decide +kernel
    exact key c i j (by rw [h]; simp) (h.trans h'.symm)
  connected := by
    intro a b
    have key : ∀ a b : Fin (symGrid u).nc, a = b ∨ ∃ i, (((symGrid u).cell a).face i).nbr = some b.val := by
      cases u <;> decide +kernel
    rcases key a b with h | h
    · rw [h]
    · exact Relation.ReflTransGen.single h

theorem sym_box (u : Bool) : FillsBox (symGrid u) exLo exHi exSide where
  bid := by cases u <;> decide +kernel
  sides := by cases u <;> decide +kernel
  ne := by cases u <;> decide +kernel
  lt := by decide +kernel

theorem sym_sideIds : SideIds (symGrid false) exSide := by
  unfold SideIds
  decide +kernel

theorem sym_faceIds : FaceIds (symGrid true) exLo exHi exSide where
  unique := by unfold Boundary.UniqueIds; decide +kernel
  extents := by
    constructor
    · decide +kernel
    · decide +kernel
    · decide +kernel
    · intro d
      fin_cases d <;> constructor <;> norm_num [exLo, exHi]
  at_side := by unfold Boundary.AtSide; decide +kernel

theorem sym_matching : Matching (symGrid true) exSide where
  image := by decide +kernel
  single := by
    unfold Boundary.SingleImage Boundary.PeriodicImage
    decide +kernel

theorem sym_suited (bct : Upscale.BCType) : Suited (symInput bct) exLo exHi exSide := by
  cases bct
  · exact sym_sideIds
  · exact ⟨sym_faceIds, rfl⟩
  · exact ⟨sym_faceIds, sym_matching, rfl⟩

theorem symPerm_posdef (c : Fin 2) : Mimetic.PosDef (symPerm c) := by
  intro v hv
  have h0 := mul_self_nonneg (v 0)
  have h1 := mul_self_nonneg (v 1)
  have h2 := mul_self_nonneg (v 2)
  have h01 := mul_self_nonneg (v 0 + v 1)
  have h10 := mul_self_nonneg (v 0 - v 1)
  have hpos : 0 < v 0 * v 0 + v 1 * v 1 + v 2 * v 2 := by
    obtain ⟨i, hi⟩ := hv
    have := mul_self_pos.mpr hi
    fin_cases i <;> simp only [Fin.zero_eta, Fin.mk_one, Fin.reduceFinMk] at this <;> linarith
  fin_cases c
  · have e : Mimetic.quadForm (symPerm 0) v =
        (v 0 * v 0 + v 1 * v 1 + v 2 * v 2) + v 2 * v 2 + (v 0 + v 1) * (v 0 + v 1) := by
      simp [Mimetic.quadForm, Fin.sum_univ_three, symPerm]
      ring
    change 0 < Mimetic.quadForm (symPerm 0) v
    rw [e]; linarith
  · have e : Mimetic.quadForm (symPerm 1) v =
        (v 0 * v 0 + v 1 * v 1 + v 2 * v 2) + v 2 * v 2 + (v 0 - v 1) * (v 0 - v 1) := by
      simp [Mimetic.quadForm, Fin.sum_univ_three, symPerm]
      ring
    change 0 < Mimetic.quadForm (symPerm 1) v
    rw [e]; linarith

theorem sym_sound (bct : Upscale.BCType) : Sound (symInput bct) where
  symm := by
    have key : ∀ (c : Fin 2) (i j : Fin 3), symPerm c i j = symPerm c j i := by decide +kernel
    exact key
  posdef := symPerm_posdef
  mob _ := by change (0 : ℚ) < [1 / 2, 1].sum; norm_num
  basis c := by
    constructor
    · have key : ∀ (c : Fin 2) (k l : Fin 3), ∑ i : Fin 6, symQ c i k * symQ c i l = if k = l then 1 else 0 := by decide +kernel
      exact key c
    · refine ⟨fun k e => if k = e then 245 else 0, ?_⟩
      have key : ∀ (u : Bool) (c : Fin 2) (i : Fin 6) (e : Fin 3), ((symFace u c i).centroid e -
          ((if e = 0 then 7 * (c.val : ℚ) else 0) + if e = 0 ∧ c = 1 then 4 else 3)) * (symFace u c i).area =
          ∑ k : Fin 3, symQ c i k * if k = e then 245 else 0 := by decide +kernel
      exact key (bct != .fixed) c
  sort l := List.Perm.refl _
  solver s N h := by
    change Hybrid.Solves s N (exSolver s N)
    unfold exSolver
    rw [dif_pos h]
    exact h.choose_spec
  gravity := rfl

/-! The mirror image. -/

def symSign : Fin 3 → ℚ := ![-1, 1, 1]

theorem symSign_sign (k : Fin 3) : symSign k = 1 ∨ symSign k = -1 := by revert k; decide +kernel

def symMirLo : Fin 3 → ℚ := ![-14, 0, 0]
def symMirHi : Fin 3 → ℚ := ![0, 7, 7]

def symMirSide (f : Boundary.Face ℚ) : Nat :=
  if f.centroid 0 = -14 then 0 else if f.centroid 0 = 0 then 1 else if f.centroid 1 = 0 then 2 else if f.centroid 1 = 7 then 3
  else if f.centroid 2 = 0 then 4 else 5

/-- Unique identifiers are kept; side numbers are exchanged in the first direction. -/
def symBid (u : Bool) (p : Half (symGrid u)) : Nat :=
  if u then ((symGrid u).face p).bid else
    if ((symGrid u).face p).bid = 1 then 2 else if ((symGrid u).face p).bid = 2 then 1 else ((symGrid u).face p).bid

theorem symMir_box (u : Bool) : FillsBox (mirrorGrid symSign (symGrid u) (symBid u)) symMirLo symMirHi symMirSide where
  bid := by cases u <;> decide +kernel
  sides := by cases u <;> decide +kernel
  ne := by cases u <;> decide +kernel
  lt := by decide +kernel

theorem symMir_sideIds : SideIds (mirrorGrid symSign (symGrid false) (symBid false)) symMirSide := by
  unfold SideIds
  decide +kernel

theorem symMir_faceIds : FaceIds (mirrorGrid symSign (symGrid true) (symBid true)) symMirLo symMirHi symMirSide where
  unique := by unfold Boundary.UniqueIds; decide +kernel
  extents := by
    constructor
    · decide +kernel
    · decide +kernel
    · decide +kernel
    · intro d
      fin_cases d <;> constructor <;> norm_num [symMirLo, symMirHi]
  at_side := by unfold Boundary.AtSide; decide +kernel

theorem symMir_matching : Matching (mirrorGrid symSign (symGrid true) (symBid true)) symMirSide where
  image := by decide +kernel
  single := by
    unfold Boundary.SingleImage Boundary.PeriodicImage
    decide +kernel

theorem symMir_suited (bct : Upscale.BCType) : Suited (mirror symSign (symInput bct) (symBid (bct != .fixed))) symMirLo symMirHi symMirSide := by
  cases bct
  · exact symMir_sideIds
  · exact ⟨symMir_faceIds, rfl⟩
  · exact ⟨symMir_faceIds, symMir_matching, rfl⟩

def symCells : Equiv.Perm (Fin 2) := Equiv.swap 0 1

def symFaces : Equiv.Perm (Fin 6) := Equiv.swap 0 1

/-- The sample is its own mirror image: the cells and the faces of the first direction exchange their numbers. -/
theorem sym_same (bct : Upscale.BCType) : SameSample (mirror symSign (symInput bct) (symBid (bct != .fixed))) (symInput bct) 1 ![14, 0, 0] (Equiv.refl _)
    symCells (fun _ => symFaces) where
  unit := one_pos
  outer := by
    have key : ∀ (u : Bool) (c : Fin 2) (i : Fin 6), (symFace u (symCells c) (symFaces i)).nbr = none ↔ (symFace u c i).nbr = none := by decide +kernel
    exact key (bct != .fixed)
  inner := by
    have key : ∀ (u : Bool) (c : Fin 2) (i : Fin 6) (d : Fin 2), (symFace u c i).nbr = some d.val →
        (symFace u (symCells c) (symFaces i)).nbr = some (symCells d).val := by decide +kernel
    exact key (bct != .fixed)
  area _ _ := by change (49 : ℚ) = 1 ^ 2 * 49; norm_num
  normal := by
    have key : ∀ (u : Bool) (c : Fin 2) (i : Fin 6) (k : Fin 3),
        (symFace u (symCells c) (symFaces i)).normal k = symSign k * (symFace u c i).normal k := by decide +kernel
    exact key (bct != .fixed)
  face := by
    have key : ∀ (u : Bool) (c : Fin 2) (i : Fin 6) (k : Fin 3),
        (symFace u (symCells c) (symFaces i)).centroid k = 1 * (symSign k * (symFace u c i).centroid k) + (![14, 0, 0] : Fin 3 → ℚ) k := by decide +kernel
    exact key (bct != .fixed)
  cell := by
    have key : ∀ (u : Bool) (c : Fin 2) (k : Fin 3),
        ((symGrid u).cell (symCells c)).centroid k = 1 * (symSign k * ((symGrid u).cell c).centroid k) + (![14, 0, 0] : Fin 3 → ℚ) k := by decide +kernel
    exact key (bct != .fixed)
  volume _ := by change (343 : ℚ) = 1 ^ 3 * 343; norm_num
  rock := by
    have key : ∀ (c : Fin 2) (i j : Fin 3), ([1 / 2, 1] : List ℚ).sum * symPerm (symCells c) i j =
        ([1 / 2, 1] : List ℚ).sum * (symSign i * symSign j * symPerm c i j) := by decide +kernel
    exact key
  conditions := rfl

end Verif.SinglePhase
