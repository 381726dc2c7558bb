import Verif.Lemmas.SinglePhaseExample
import Verif.Spec.Relabel

/-!
The sample of `Verif.Lemmas.SinglePhaseExample` described differently: the two cells exchange their numbers, the first two axes their names (and with them
the faces their numbers), lengths are doubled, and the origin is moved by 1, 2 and 3.
-/

namespace Verif.SinglePhase

def swapAxes : Equiv.Perm (Fin 3) := Equiv.swap 0 1

def swapCells : Equiv.Perm (Fin 2) := Equiv.swap 0 1

/-- The faces of the first two directions exchange their numbers. -/
def swapFaces : Equiv.Perm (Fin 6) := (Equiv.swap 0 2).trans (Equiv.swap 1 3)

def ex2Shift : Fin 3 → ℚ := ![1, 2, 3]

/-- Cell 1 is `[2,16] × [1,15] × [3,17]`, cell 0 is `[2,16] × [15,29] × [3,17]`. -/
def ex2Face (u : Bool) (c : Fin 2) (i : Fin 6) : HalfFace ℚ where
  nbr := if c = 1 ∧ i = 3 then some 0 else if c = 0 ∧ i = 2 then some 1 else none
  bid := if u then (if c = 0 then ![1, 2, 0, 3, 4, 5] i else ![6, 7, 8, 0, 9, 10] i)
    else if (c = 1 ∧ i = 3) ∨ (c = 0 ∧ i = 2) then 0 else i.val + 1
  area := 196
  centroid k := ![2, 1, 3] k + (if k = 1 then 14 * (1 - (c.val : ℚ)) else 0) + if k.val = i.val / 2 then (if i.val % 2 = 0 then 0 else 14) else 6
  normal k := if k.val = i.val / 2 then (if i.val % 2 = 0 then -1 else 1) else 0

def ex2Grid (u : Bool) : Grid ℚ where
  nc := 2
  cell c := ⟨6, ex2Face u c, fun k => ![2, 1, 3] k + (if k = 1 then 14 * (1 - (c.val : ℚ)) else 0) + 6, 2744⟩

def ex2Lo : Fin 3 → ℚ := ![2, 1, 3]
def ex2Hi : Fin 3 → ℚ := ![16, 29, 17]

def ex2Side (f : Boundary.Face ℚ) : Nat :=
  if f.centroid 0 = 2 then 0 else if f.centroid 0 = 16 then 1 else if f.centroid 1 = 1 then 2 else if f.centroid 1 = 29 then 3
  else if f.centroid 2 = 3 then 4 else 5

noncomputable def ex2Input (bct : Upscale.BCType) : Input ℚ where
  G := ex2Grid (bct != .fixed)
  perm c i j := exPerm (swapCells c) (swapAxes i) (swapAxes j)
  Q _ := exQ
  gravity := 0
  mob _ := [1 / 2, 1]
  rho _ := [3, 3]
  bct := bct
  twodim := false
  sort l := l
  solver := exSolver

theorem ex2_tiling (u : Bool) : Tiling (ex2Grid u) where
  area _ := by change (0 : ℚ) < 196; norm_num
  volume _ := by change (0 : ℚ) < 2744; norm_num
  surface := by cases u <;> decide +kernel
  closed := by cases u <;> decide +kernel
  mate := by
    intro p d h
    have key : ∀ (p : Half (ex2Grid u)), ((ex2Grid u).face p).nbr ≠ none → ∃ q : Half (ex2Grid u),
        ((ex2Grid u).face p).nbr = some q.1.val ∧ q.1 ≠ p.1 ∧ ((ex2Grid u).face q).nbr = some p.1.val ∧
        ((ex2Grid u).face q).area = ((ex2Grid u).face p).area ∧ ((ex2Grid u).face q).centroid = ((ex2Grid u).face p).centroid ∧
        ∀ d, ((ex2Grid u).face q).normal d = -((ex2Grid u).face p).normal d := by
      cases u <;> decide +kernel
    obtain ⟨q, h1, h2⟩ := key p (by rw [h]; simp)
    rw [h] at h1
    exact ⟨q, (Option.some.inj h1).symm, h2⟩
  once := by
    intro c i j d h h'
    have key : ∀ (c : Fin (ex2Grid u).nc) (i j : Fin ((ex2Grid u).cell c).nf), (((ex2Grid u).cell c).face i).nbr ≠ none →
        (((ex2Grid u).cell c).face i).nbr = (((ex2Grid u).cell c).face j).nbr → i = j := by
      cases u <;> decide +kernel
    exact key c i j (by rw [h]; simp) (h.trans h'.symm)
  connected := by
    intro a b
    have key : ∀ a b : Fin (ex2Grid u).nc, a = b ∨ ∃ i, (((ex2Grid u).cell a).face i).nbr = some b.val := by
      cases u <;> decide +kernel
    rcases key a b with h | h
    · rw [h]
    · exact Relation.ReflTransGen.single h

theorem ex2_box (u : Bool) : FillsBox (ex2Grid u) ex2Lo ex2Hi ex2Side where
  bid := by cases u <;> decide +kernel
  sides := by cases u <;> decide +kernel
  ne := by cases u <;> decide +kernel
  lt := by decide +kernel

theorem ex2_sideIds : SideIds (ex2Grid false) ex2Side := by
  unfold SideIds
  decide +kernel

theorem ex2_faceIds : FaceIds (ex2Grid true) ex2Lo ex2Hi ex2Side where
  unique := by unfold Boundary.UniqueIds; decide +kernel
  extents := by
    constructor
    · decide +kernel
    · decide +kernel
    · decide +kernel
    · intro d
      fin_cases d <;> constructor <;> norm_num [ex2Lo, ex2Hi]
  at_side := by unfold Boundary.AtSide; decide +kernel

theorem ex2_matching : Matching (ex2Grid true) ex2Side where
  image := by decide +kernel
  single := by
    unfold Boundary.SingleImage Boundary.PeriodicImage
    decide +kernel

theorem ex2_suited (bct : Upscale.BCType) : Suited (ex2Input bct) ex2Lo ex2Hi ex2Side := by
  cases bct
  · exact ex2_sideIds
  · exact ⟨ex2_faceIds, rfl⟩
  · exact ⟨ex2_faceIds, ex2_matching, rfl⟩

theorem ex2Perm (c : Fin 2) (i j : Fin 3) : exPerm c (swapAxes i) (swapAxes j) = exPerm c i j := by revert c i j; decide +kernel

theorem ex2_sound (bct : Upscale.BCType) : Sound (ex2Input bct) where
  symm c i j := exPerm_symm _ _ _
  posdef c := by
    change Mimetic.PosDef fun i j => exPerm (swapCells c) (swapAxes i) (swapAxes j)
    simp only [ex2Perm]
    exact exPerm_posdef _
  mob _ := by change (0 : ℚ) < [1 / 2, 1].sum; norm_num
  basis c := by
    constructor
    · change ∀ k l : Fin 3, ∑ i : Fin 6, exQ i k * exQ i l = if k = l then 1 else 0
      decide +kernel
    · refine ⟨fun k e => if k = e then 1960 else 0, ?_⟩
      have key : ∀ (u : Bool) (c : Fin 2) (i : Fin 6) (e : Fin 3), ((ex2Face u c i).centroid e -
          (![2, 1, 3] e + (if e = 1 then 14 * (1 - (c.val : ℚ)) else 0) + 6)) * (ex2Face u c i).area =
          ∑ k : Fin 3, exQ i k * if k = e then 1960 else 0 := by decide +kernel
      exact key (bct != .fixed) c
  sort l := List.Perm.refl _
  solver s N h := by
    change Hybrid.Solves s N (exSolver s N)
    unfold exSolver
    rw [dif_pos h]
    exact h.choose_spec
  gravity := rfl

theorem ex2_same (bct : Upscale.BCType) :
    SameSample (exInput bct 0 exPerm) (ex2Input bct) 2 ex2Shift swapAxes swapCells (fun _ => swapFaces) where
  unit := by norm_num
  outer := by
    have key : ∀ (u : Bool) (c : Fin 2) (i : Fin 6), (ex2Face u (swapCells c) (swapFaces i)).nbr = none ↔ (exFace u c i).nbr = none := by decide +kernel
    exact key _
  inner := by
    have key : ∀ (u : Bool) (c : Fin 2) (i : Fin 6) (d : Fin 2), (exFace u c i).nbr = some d.val →
        (ex2Face u (swapCells c) (swapFaces i)).nbr = some (swapCells d).val := by decide +kernel
    exact key _
  area _ _ := by change (196 : ℚ) = 2 ^ 2 * 49; norm_num
  normal := by
    have key : ∀ (u : Bool) (c : Fin 2) (i : Fin 6) (k : Fin 3),
        (ex2Face u (swapCells c) (swapFaces i)).normal (swapAxes k) = (exFace u c i).normal k := by decide +kernel
    exact key _
  face := by
    have key : ∀ (u : Bool) (c : Fin 2) (i : Fin 6) (k : Fin 3),
        (ex2Face u (swapCells c) (swapFaces i)).centroid (swapAxes k) = 2 * (exFace u c i).centroid k + ex2Shift k := by decide +kernel
    exact key _
  cell := by
    have key : ∀ (u : Bool) (c : Fin 2) (k : Fin 3),
        ((ex2Grid u).cell (swapCells c)).centroid (swapAxes k) = 2 * ((exGrid u).cell c).centroid k + ex2Shift k := by decide +kernel
    exact key _
  volume _ := by change (2744 : ℚ) = 2 ^ 3 * 343; norm_num
  rock := by
    have key : ∀ (c : Fin 2) (i j : Fin 3), ([1 / 2, 1] : List ℚ).sum * exPerm (swapCells (swapCells c)) (swapAxes (swapAxes i)) (swapAxes (swapAxes j)) =
        ([1 / 2, 1] : List ℚ).sum * exPerm c i j := by decide +kernel
    exact key
  conditions := rfl

/-! The same sample with lengths divided by a hundred million, for periodic boundary conditions. -/

def tinyUnit : ℚ := 1 / 10 ^ 8

def tinyGrid : Grid ℚ where
  nc := 2
  cell c := ⟨6, fun i => { exFace true c i with area := tinyUnit ^ 2 * 49, centroid := fun k => tinyUnit * (exFace true c i).centroid k },
    fun k => tinyUnit * ((if k.val = 0 then 7 * (c.val : ℚ) else 0) + 3), tinyUnit ^ 3 * 343⟩

noncomputable def tinyInput : Input ℚ := { exInput .periodic 0 exPerm with G := tinyGrid, Q := fun _ => exQ, perm := exPerm }

def tinyLo : Fin 3 → ℚ := ![0, 0, 0]
def tinyHi : Fin 3 → ℚ := ![14 / 10 ^ 8, 7 / 10 ^ 8, 7 / 10 ^ 8]

def tinySide (f : Boundary.Face ℚ) : Nat :=
  if f.centroid 0 = 0 then 0 else if f.centroid 0 = 14 / 10 ^ 8 then 1 else if f.centroid 1 = 0 then 2 else if f.centroid 1 = 7 / 10 ^ 8 then 3
  else if f.centroid 2 = 0 then 4 else 5

theorem tiny_tiling : Tiling tinyGrid where
  area _ := by change (0 : ℚ) < tinyUnit ^ 2 * 49; norm_num [tinyUnit]
  volume _ := by change (0 : ℚ) < tinyUnit ^ 3 * 343; norm_num [tinyUnit]
  surface := by decide +kernel
  closed := by decide +kernel
  mate := by
    intro p d h
    have key : ∀ (p : Half tinyGrid), (tinyGrid.face p).nbr ≠ none → ∃ q : Half tinyGrid,
        (tinyGrid.face p).nbr = some q.1.val ∧ q.1 ≠ p.1 ∧ (tinyGrid.face q).nbr = some p.1.val ∧
        (tinyGrid.face q).area = (tinyGrid.face p).area ∧ (tinyGrid.face q).centroid = (tinyGrid.face p).centroid ∧
        ∀ d, (tinyGrid.face q).normal d = -(tinyGrid.face p).normal d := by
      decide +kernel
    obtain ⟨q, h1, h2⟩ := key p (by rw [h]; simp)
    rw [h] at h1
    exact ⟨q, (Option.some.inj h1).symm, h2⟩
  once := by
    intro c i j d h h'
    have key : ∀ (c : Fin tinyGrid.nc) (i j : Fin (tinyGrid.cell c).nf), ((tinyGrid.cell c).face i).nbr ≠ none →
        ((tinyGrid.cell c).face i).nbr = ((tinyGrid.cell c).face j).nbr → i = j := by
      decide +kernel
    exact key c i j (by rw [h]; simp) (h.trans h'.symm)
  connected := by
    intro a b
    have key : ∀ a b : Fin tinyGrid.nc, a = b ∨ ∃ i, ((tinyGrid.cell a).face i).nbr = some b.val := by
      decide +kernel
    rcases key a b with h | h
    · rw [h]
    · exact Relation.ReflTransGen.single h

theorem tiny_box : FillsBox tinyGrid tinyLo tinyHi tinySide where
  bid := by decide +kernel
  sides := by decide +kernel
  ne := by decide +kernel
  lt := by decide +kernel

/-- Opposite sides match exactly. -/
theorem tiny_image : ∀ p, (tinyGrid.face p).nbr = none → ∃ q, (tinyGrid.face q).nbr = none ∧ tinySide (tinyGrid.bface p) / 2 = tinySide (tinyGrid.bface q) / 2 ∧
    tinySide (tinyGrid.bface p) ≠ tinySide (tinyGrid.bface q) ∧ (tinyGrid.face p).area = (tinyGrid.face q).area ∧
    ∀ d : Fin 3, d.val ≠ tinySide (tinyGrid.bface p) / 2 → (tinyGrid.face p).centroid d = (tinyGrid.face q).centroid d := by
  decide +kernel

theorem tiny_sound : Sound tinyInput where
  symm := exPerm_symm
  posdef := exPerm_posdef
  mob _ := by change (0 : ℚ) < [1 / 2, 1].sum; norm_num
  basis c := by
    constructor
    · change ∀ k l : Fin 3, ∑ i : Fin 6, exQ i k * exQ i l = if k = l then 1 else 0
      decide +kernel
    · refine ⟨fun k e => if k = e then tinyUnit ^ 3 * 245 else 0, ?_⟩
      have key : ∀ (c : Fin 2) (i : Fin 6) (e : Fin 3), (tinyUnit * (exFace true c i).centroid e -
          tinyUnit * ((if e.val = 0 then 7 * (c.val : ℚ) else 0) + 3)) * (tinyUnit ^ 2 * 49) =
          ∑ k : Fin 3, exQ i k * if k = e then tinyUnit ^ 3 * 245 else 0 := by decide +kernel
      exact key c
  sort l := List.Perm.refl _
  solver := (ex_sound .periodic).solver
  gravity := rfl

theorem tiny_same : SameSample (exInput .periodic 0 exPerm) tinyInput tinyUnit (fun _ => 0) (Equiv.refl _) (Equiv.refl (Fin 2)) (fun _ => Equiv.refl (Fin 6)) where
  unit := by norm_num [tinyUnit]
  outer _ _ := Iff.rfl
  inner _ _ _ h := h
  area _ _ := rfl
  normal _ _ _ := rfl
  face _ _ _ := (add_zero _).symm
  cell _ _ := (add_zero _).symm
  volume _ := rfl
  rock _ _ _ := rfl
  conditions := rfl

/-- What happens before the first linear system is solved. -/
theorem tiny_start : ((setup tinyInput 0 ⟨⟨[], []⟩, [], []⟩).bind fun b0 => (Numbering.enumerate tinyInput.G.topology).bind fun n =>
    (perFaces tinyInput.G n b0).bind fun l => (Numbering.partnerDofs l).map fun _ => ()) = none := by
  decide +kernel

end Verif.SinglePhase
