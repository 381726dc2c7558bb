import Verif.Props.ElasticPeriodic
import Verif.Lemmas.Laminate
import Verif.Lemmas.StraightBar

/-!
C160: upscaling of layered elastic samples.
-/

namespace Verif.ElasticUp

open Verif.Elastic Verif.Asm

variable {K : Type} [Field K] [LinearOrder K] [IsStrictOrderedRing K]

theorem form_shift (R : Fin 6 → Fin 6 → K) (hR : ∀ m n, R m n = R n m) (x y : Fin 6 → K) (t : K) :
    ∑ m, (x m + t * y m) * ∑ n, R m n * (x n + t * y n) =
      ∑ m, x m * ∑ n, R m n * x n + 2 * t * ∑ m, y m * ∑ n, R m n * x n + t ^ 2 * ∑ m, y m * ∑ n, R m n * y n := by
  have h1 : ∑ m, x m * ∑ n, R m n * y n = ∑ m, y m * ∑ n, R m n * x n := by
    simp only [Finset.mul_sum]
    rw [Finset.sum_comm]
    refine Finset.sum_congr rfl fun m _ => Finset.sum_congr rfl fun n _ => ?_
    rw [hR n m]; ring
  have h2 : ∀ m, ∑ n, R m n * (x n + t * y n) = ∑ n, R m n * x n + t * ∑ n, R m n * y n := by
    intro m
    rw [Finset.mul_sum, ← Finset.sum_add_distrib]
    exact Finset.sum_congr rfl fun n _ => by ring
  have h3 : ∀ m, (x m + t * y m) * ∑ n, R m n * (x n + t * y n) = x m * ∑ n, R m n * x n + t * (x m * ∑ n, R m n * y n) +
      (t * (y m * ∑ n, R m n * x n) + t ^ 2 * (y m * ∑ n, R m n * y n)) := by
    intro m
    rw [h2]; ring
  simp only [h3, Finset.sum_add_distrib, ← Finset.mul_sum, h1]
  ring

/-- The energy of displacements with constant strains in the cells. -/
theorem energy_const (S : Sample K) (D : Cell K → Fin 6 → Fin 6 → K) (x : Fin 6 → K) (v : Nat → Nat → K)
    (t : Fin S.cells.length → Fin 6 → K) (ht : ∀ c : Fin S.cells.length, ∀ q ∈ (S.cells[c]).pts, ∀ i, strainAt v S.cells[c] q i = t c i) :
    energy D S.cells x v = ∑ c : Fin S.cells.length, cellVolume S.cells[c] *
      ∑ i, (x i + t c i) * ∑ j, D S.cells[c] i j * (x j + t c j) := by
  unfold energy
  rw [← Fin.sum_univ_fun_getElem]
  refine Finset.sum_congr rfl fun c _ => ?_
  unfold cellVolume
  rw [← List.sum_map_mul_right]
  congr 1
  apply List.map_congr_left
  intro q hq
  have h := fun i => ht c q hq i
  simp only [Fin.getElem_fin] at h ⊢
  simp only [h]

/-- Stresses `s c` that cells bear at the strains `t c` and that do no work on `v` bound the energy from below. -/
theorem energy_bound_cells (S : Sample K) (D : Cell K → Fin 6 → Fin 6 → K) (hS : Sound S D) (v : Nat → Nat → K)
    (s t : Fin S.cells.length → Fin 6 → K) (hst : ∀ c i, ∑ k, D S.cells[c] i k * t c k = s c i)
    (hm : ∑ c : Fin S.cells.length, ∑ i, s c i * ((S.cells[c]).pts.map fun q => q.w * strainAt v S.cells[c] q i).sum = 0) (x : Fin 6 → K) :
    ∑ c : Fin S.cells.length, cellVolume S.cells[c] * (2 * ∑ i, s c i * x i - ∑ i, s c i * t c i) ≤ energy D S.cells x v := by
  have hpt : ∀ c : Fin S.cells.length, ∀ e : Fin 6 → K, 2 * ∑ i, s c i * e i - ∑ i, s c i * t c i ≤ ∑ i, e i * ∑ k, D S.cells[c] i k * e k := by
    intro c e
    have hc := List.getElem_mem (l := S.cells) c.isLt
    have h1 := hS.psd _ hc fun i => e i + (-1) * t c i
    have h0 := form_shift (D S.cells[c]) (hS.symm _ hc) e (t c) (-1)
    have e1 : ∑ m, t c m * ∑ n, D S.cells[c] m n * e n = ∑ i, s c i * e i := by
      simp only [← hst c, Finset.mul_sum, Finset.sum_mul]
      rw [Finset.sum_comm]
      refine Finset.sum_congr rfl fun k _ => Finset.sum_congr rfl fun i _ => ?_
      have h4 : D S.cells[c] i k = D S.cells[c] k i := hS.symm _ hc i k
      rw [h4]; ring
    have e2 : ∑ m, t c m * ∑ n, D S.cells[c] m n * t c n = ∑ i, s c i * t c i := by
      refine Finset.sum_congr rfl fun m _ => ?_
      rw [hst c m, mul_comm]
    rw [e1, e2] at h0
    have h3 : 0 ≤ ∑ m, (e m + (-1) * t c m) * ∑ n, D S.cells[c] m n * (e n + (-1) * t c n) := h1
    rw [h0] at h3
    linarith
  have h3 : ∑ c : Fin S.cells.length, ((S.cells[c]).pts.map fun q =>
      q.w * (2 * ∑ i, s c i * (x i + strainAt v S.cells[c] q i) - ∑ i, s c i * t c i)).sum ≤ energy D S.cells x v := by
    unfold energy
    rw [← Fin.sum_univ_fun_getElem]
    refine Finset.sum_le_sum fun c _ => ?_
    apply List.sum_le_sum
    intro q hq
    exact mul_le_mul_of_nonneg_left (hpt c _) (hS.weight _ (List.getElem_mem _) q hq)
  refine le_trans (le_of_eq ?_) h3
  have h4 : ∀ c : Fin S.cells.length, ((S.cells[c]).pts.map fun q =>
      q.w * (2 * ∑ i, s c i * (x i + strainAt v S.cells[c] q i) - ∑ i, s c i * t c i)).sum =
      cellVolume S.cells[c] * (2 * ∑ i, s c i * x i - ∑ i, s c i * t c i) +
        2 * ∑ i, s c i * ((S.cells[c]).pts.map fun q => q.w * strainAt v S.cells[c] q i).sum := by
    intro c
    unfold cellVolume
    generalize (S.cells[c]).pts = l
    induction l with
    | nil => simp
    | cons q l ih =>
      simp only [List.map_cons, List.sum_cons]
      rw [ih]
      simp only [mul_add, Finset.sum_add_distrib]
      have : ∑ i, s c i * (q.w * strainAt v S.cells[c] q i) = q.w * ∑ i, s c i * strainAt v S.cells[c] q i := by
        rw [Finset.mul_sum]
        exact Finset.sum_congr rfl fun i _ => by ring
      rw [this]
      ring
  simp only [h4, Finset.sum_add_distrib, ← Finset.mul_sum, hm, mul_zero, add_zero]

/-- **C160**. A periodic sample that consists of layers between parallel planes, each of one material with any symmetry and however many
cells, has the stiffness of a laminate: the stress it reports for a mean strain `x` is the average over the volume of the stresses of the
layers, whose strains differ from `x` by displacements that depend on the height only and are such that the forces between layers are in
balance. The direction of the layers and the shapes of the cells within them are arbitrary. -/
theorem C160_laminate (S : Sample K) (D : Cell K → Fin 6 → Fin 6 → K) (hS : Sound S D) (ht : S.tol < 1)
    (h0 : ∀ s c, S.handler.mpcs s = some c → Tie c) (F : List (Shape.Linear K 3)) (X : Nat → Fin 3 → K) (rule : List (K × (Fin 3 → K)))
    (next : Fin 3 → Equiv.Perm (Fin S.cells.length)) (hT : Torus S F X rule next) (k : Fin 3) (n : Fin 3 → K)
    (hL : Layers S D X next k n) (solver : Nat → (Nat → Nat → K) → (Nat → K) → Nat → K) (hX : Exact solver) :
    ∃ R : Fin 6 → Fin 6 → K, (∀ m : Fin 6, upscaleCase solver S m = some (R m)) ∧ (∀ m n, R m n = R n m) ∧
      ∀ x g a, Shares S D X next k n x g a → ∀ i,
        volume S.cells * ∑ m, R i m * x m = ∑ c : Fin S.cells.length, cellVolume S.cells[c] * layerStress (D S.cells[c]) x (a c) n i := by
  obtain ⟨R, h1, h2, h3⟩ := C94_ties S D hS ht h0 solver hX
  refine ⟨R, h1, h2, fun x g a hg i => ?_⟩
  have hs : ∀ b ≠ k, ∀ c, layerStress (D S.cells[next b c]) x (a (next b c)) n = layerStress (D S.cells[c]) x (a c) n := by
    intro b hb c
    rw [hL.material b hb c, hg.layer b hb c]
  have hwork := fun v hv => layers_mean hT hL (fun c => layerStress (D S.cells[c]) x (a c) n) hs hg.balance v hv
  have hstr : ∀ c : Fin S.cells.length, ∀ q ∈ (S.cells[c]).pts, ∀ i,
      strainAt (fun node d => g (height X n node) d) S.cells[c] q i = Spec.strain3 (fun d e => a c d * n e) i := by
    intro c q hq i
    refine strain_linear F hT.shapes rule X S.cells[c] (hT.hexahedra _ (List.getElem_mem _)) _
      (fun d => g (height X n ((S.cells[c]).vertex.getD 0 0)) d - a c d * height X n ((S.cells[c]).vertex.getD 0 0)) (a c) n
      (fun f hf d => ?_) q hq i
    rw [hg.slope c f hf d]; ring
  have hself : ∑ c : Fin S.cells.length, cellVolume S.cells[c] *
      ∑ i, layerStress (D S.cells[c]) x (a c) n i * Spec.strain3 (fun d e => a c d * n e) i = 0 := by
    rw [← hwork _ hg.admissible]
    refine Finset.sum_congr rfl fun c _ => ?_
    rw [Finset.mul_sum]
    refine Finset.sum_congr rfl fun i _ => ?_
    have : ((S.cells[c]).pts.map fun q => q.w * strainAt (fun node d => g (height X n node) d) S.cells[c] q i).sum =
        cellVolume S.cells[c] * Spec.strain3 (fun d e => a c d * n e) i := by
      unfold cellVolume
      rw [← List.sum_map_mul_right]
      congr 1
      exact List.map_congr_left fun q hq => by rw [hstr c q hq i]
    rw [this]; ring
  -- the energy of the laminate
  have hE : ∀ (y : Fin 6 → K) (t : K), energy D S.cells (fun i => x i + t * y i) (fun node d => g (height X n node) d) =
      ∑ c : Fin S.cells.length, cellVolume S.cells[c] * ∑ i, layerStress (D S.cells[c]) x (a c) n i * x i +
        2 * t * ∑ c : Fin S.cells.length, cellVolume S.cells[c] * ∑ i, y i * layerStress (D S.cells[c]) x (a c) n i +
        t ^ 2 * ∑ c : Fin S.cells.length, cellVolume S.cells[c] * ∑ i, y i * ∑ j, D S.cells[c] i j * y j := by
    intro y t
    rw [energy_const S D _ _ _ hstr]
    have h4 : ∀ c : Fin S.cells.length, cellVolume S.cells[c] * ∑ i, (x i + t * y i + Spec.strain3 (fun d e => a c d * n e) i) *
          ∑ j, D S.cells[c] i j * (x j + t * y j + Spec.strain3 (fun d e => a c d * n e) j) =
        cellVolume S.cells[c] * ∑ i, layerStress (D S.cells[c]) x (a c) n i * x i +
        cellVolume S.cells[c] * ∑ i, layerStress (D S.cells[c]) x (a c) n i * Spec.strain3 (fun d e => a c d * n e) i +
        2 * t * (cellVolume S.cells[c] * ∑ i, y i * layerStress (D S.cells[c]) x (a c) n i) +
        t ^ 2 * (cellVolume S.cells[c] * ∑ i, y i * ∑ j, D S.cells[c] i j * y j) := by
      intro c
      have h5 := form_shift (D S.cells[c]) (hS.symm _ (List.getElem_mem _)) (layerStrain x (a c) n) y t
      have h6 : ∀ i, x i + t * y i + Spec.strain3 (fun d e => a c d * n e) i = layerStrain x (a c) n i + t * y i := by
        intro i; unfold layerStrain; ring
      simp only [h6]
      rw [h5]
      have h7 : ∑ m, layerStrain x (a c) n m * ∑ n_1, D S.cells[c] m n_1 * layerStrain x (a c) n n_1 =
          ∑ i, layerStress (D S.cells[c]) x (a c) n i * x i +
            ∑ i, layerStress (D S.cells[c]) x (a c) n i * Spec.strain3 (fun d e => a c d * n e) i := by
        rw [← Finset.sum_add_distrib]
        refine Finset.sum_congr rfl fun m _ => ?_
        rw [← mul_add, mul_comm]
        rfl
      rw [h7]
      change _ * (_ + _ + 2 * t * ∑ m, y m * layerStress (D S.cells[c]) x (a c) n m + _) = _
      ring
    simp only [h4, Finset.sum_add_distrib, ← Finset.mul_sum, hself]
    ring
  have hmin : volume S.cells * ∑ m, x m * ∑ n, R m n * x n =
      ∑ c : Fin S.cells.length, cellVolume S.cells[c] * ∑ i, layerStress (D S.cells[c]) x (a c) n i * x i := by
    apply le_antisymm
    · have h4 := (h3 x).2 _ hg.admissible
      have h5 := hE 0 0
      simp only [Pi.zero_apply, mul_zero, add_zero, zero_mul, Finset.sum_const_zero, ne_eq, OfNat.ofNat_ne_zero, not_false_eq_true,
        zero_pow] at h5
      rw [h5] at h4
      exact h4
    · obtain ⟨v, hv, e⟩ := (h3 x).1
      rw [e]
      refine le_trans (le_of_eq ?_) (energy_bound_cells S D hS v (fun c => layerStress (D S.cells[c]) x (a c) n)
        (fun c => layerStrain x (a c) n) (fun c i => rfl) (hwork v hv) x)
      have h6 : ∀ c : Fin S.cells.length, cellVolume S.cells[c] * (2 * ∑ i, layerStress (D S.cells[c]) x (a c) n i * x i -
          ∑ i, layerStress (D S.cells[c]) x (a c) n i * layerStrain x (a c) n i) =
          cellVolume S.cells[c] * ∑ i, layerStress (D S.cells[c]) x (a c) n i * x i -
          cellVolume S.cells[c] * ∑ i, layerStress (D S.cells[c]) x (a c) n i * Spec.strain3 (fun d e => a c d * n e) i := by
        intro c
        unfold layerStrain
        simp only [mul_add, Finset.sum_add_distrib]
        ring
      simp only [h6, Finset.sum_sub_distrib, hself, sub_zero]
  have hlin : ∀ y : Fin 6 → K, volume S.cells * ∑ m, y m * ∑ n, R m n * x n =
      ∑ c : Fin S.cells.length, cellVolume S.cells[c] * ∑ i, y i * layerStress (D S.cells[c]) x (a c) n i := by
    intro y
    rw [← sub_eq_zero]
    refine linear_zero (B := (volume S.cells * ∑ m, y m * ∑ n, R m n * y n -
      ∑ c : Fin S.cells.length, cellVolume S.cells[c] * ∑ i, y i * ∑ j, D S.cells[c] i j * y j) / 2) fun t => ?_
    have h4 := (h3 fun i => x i + t * y i).2 _ hg.admissible
    rw [hE y t, form_shift R h2 x y t] at h4
    have h5 : volume S.cells * (∑ m, x m * ∑ n, R m n * x n + 2 * t * ∑ m, y m * ∑ n, R m n * x n + t ^ 2 * ∑ m, y m * ∑ n, R m n * y n) =
        volume S.cells * ∑ m, x m * ∑ n, R m n * x n + 2 * t * (volume S.cells * ∑ m, y m * ∑ n, R m n * x n) +
          t ^ 2 * (volume S.cells * ∑ m, y m * ∑ n, R m n * y n) := by ring
    rw [h5, hmin] at h4
    linarith
  have := hlin (Pi.single i 1)
  simpa [Pi.single_apply] using this

theorem stress3_place (s : Fin 6 → K) (d k : Fin 3) : stress3 s d k = s (place d k) := by
  fin_cases d <;> fin_cases k <;> rfl

theorem strain_place (d k : Fin 3) (r : K) (i : Fin 6) :
    Spec.strain3 (fun e f => (if e = d then r else 0) * (Pi.single k 1 : Fin 3 → K) f) i = if i = place d k then r else 0 := by
  fin_cases d <;> fin_cases k <;> fin_cases i <;> simp [Spec.strain3, place]

/-- **C160** (moduli across the layers). Let the layers be normal to axis `k`, and let the strain of the directions `d` and `k` (stretching
for `d = k`, shear otherwise) cause no other force on the planes, as in isotropic and orthotropic layers. Then the upscaled modulus of this
strain is the harmonic mean of the moduli of the layers, and the other stresses it causes are those of the layers, each stretched in
proportion to its compliance. -/
theorem C160_across (S : Sample K) (D : Cell K → Fin 6 → Fin 6 → K) (hS : Sound S D) (ht : S.tol < 1)
    (h0 : ∀ s c, S.handler.mpcs s = some c → Tie c) (F : List (Shape.Linear K 3)) (X : Nat → Fin 3 → K) (rule : List (K × (Fin 3 → K)))
    (next : Fin 3 → Equiv.Perm (Fin S.cells.length)) (hT : Torus S F X rule next) (k d : Fin 3)
    (hL : Layers S D X next k (Pi.single k 1)) (solver : Nat → (Nat → Nat → K) → (Nat → K) → Nat → K) (hX : Exact solver)
    (hpos : ∀ c ∈ S.cells, D c (place d k) (place d k) ≠ 0)
    (hother : ∀ c ∈ S.cells, ∀ e ≠ d, D c (place e k) (place d k) = 0) (g : K → K) (tau : K)
    (hg : Admissible S.handler fun node e => if e = d.val then g (X node k) else 0)
    (hslope : ∀ c ∈ S.cells, ∀ f < 8, g (X (c.vertex.getD f 0) k) = g (X (c.vertex.getD 0 0) k) +
      (tau / D c (place d k) (place d k) - 1) * (X (c.vertex.getD f 0) k - X (c.vertex.getD 0 0) k)) :
    ∃ R : Fin 6 → Fin 6 → K, (∀ m : Fin 6, upscaleCase solver S m = some (R m)) ∧ (∀ m n, R m n = R n m) ∧
      R (place d k) (place d k) = tau ∧
      tau * (S.cells.map fun c => cellVolume c / D c (place d k) (place d k)).sum = volume S.cells ∧
      ∀ i, volume S.cells * R i (place d k) = tau * (S.cells.map fun c => cellVolume c * D c i (place d k) / D c (place d k) (place d k)).sum := by
  obtain ⟨R, h1, h2, h3⟩ := C160_laminate S D hS ht h0 F X rule next hT k _ hL solver hX
  have hh : ∀ node, height X (Pi.single k 1) node = X node k := by
    intro node
    unfold height
    simp [Pi.single_apply]
  let a : Fin S.cells.length → Fin 3 → K := fun c e => if e = d then tau / D S.cells[c] (place d k) (place d k) - 1 else 0
  have hstrain : ∀ c i, layerStrain (Pi.single (place d k) 1) (a c) (Pi.single k 1) i =
      if i = place d k then tau / D S.cells[c] (place d k) (place d k) else 0 := by
    intro c i
    unfold layerStrain
    rw [strain_place d k _ i, Pi.single_apply]
    split <;> ring
  have hstress : ∀ (c : Fin S.cells.length) i, layerStress (D S.cells[c]) (Pi.single (place d k) 1) (a c) (Pi.single k 1) i =
      D S.cells[c] i (place d k) * (tau / D S.cells[c] (place d k) (place d k)) := by
    intro c i
    unfold layerStress
    simp only [hstrain]
    simp
  have htr : ∀ c : Fin S.cells.length, traction (layerStress (D S.cells[c]) (Pi.single (place d k) 1) (a c) (Pi.single k 1)) (Pi.single k 1) =
      fun e => if e = d then tau else 0 := by
    intro c
    funext e
    have hc := List.getElem_mem (l := S.cells) c.isLt
    have : traction (layerStress (D S.cells[c]) (Pi.single (place d k) 1) (a c) (Pi.single k 1)) (Pi.single k 1) e =
        stress3 (layerStress (D S.cells[c]) (Pi.single (place d k) 1) (a c) (Pi.single k 1)) e k := by
      unfold traction
      simp [Pi.single_apply]
    rw [this, stress3_place, hstress]
    by_cases he : e = d
    · subst he
      rw [if_pos rfl]
      exact mul_div_cancel₀ _ (hpos _ hc)
    · rw [if_neg he]
      have : D S.cells[c] (place e k) (place d k) = 0 := hother _ hc e he
      rw [this, zero_mul]
  have hsh : Shares S D X next k (Pi.single k 1) (Pi.single (place d k) 1) (fun h e => if e = d.val then g h else 0) a := by
    refine ⟨?_, ?_, ?_, ?_⟩
    · simp only [hh]; exact hg
    · intro c f hf e
      simp only [hh]
      have hc := List.getElem_mem (l := S.cells) c.isLt
      by_cases he : e = d
      · subst he
        simp only [a, if_true]
        exact hslope _ hc f hf
      · have : e.val ≠ d.val := fun h => he (Fin.ext h)
        simp [a, he, this]
    · intro b hb c
      simp only [a]
      rw [hL.material b hb c]
    · intro c
      rw [htr, htr]
  have hcol : ∀ i, volume S.cells * R i (place d k) =
      tau * (S.cells.map fun c => cellVolume c * D c i (place d k) / D c (place d k) (place d k)).sum := by
    intro i
    have h4 := h3 _ _ _ hsh i
    simp only [hstress] at h4
    have h5 : ∑ m, R i m * (Pi.single (place d k) 1 : Fin 6 → K) m = R i (place d k) := by simp [Pi.single_apply]
    rw [h5] at h4
    rw [h4, ← List.sum_map_mul_left, ← Fin.sum_univ_fun_getElem]
    refine Finset.sum_congr rfl fun c _ => ?_
    simp only [Fin.getElem_fin]
    ring
  have hone : ∀ c ∈ S.cells, cellVolume c * D c (place d k) (place d k) / D c (place d k) (place d k) = cellVolume c := by
    intro c hc
    rw [mul_div_assoc, div_self (hpos c hc), mul_one]
  have htau : R (place d k) (place d k) = tau := by
    have h4 := hcol (place d k)
    rw [List.map_congr_left hone] at h4
    change _ = tau * volume S.cells at h4
    rw [mul_comm tau] at h4
    exact mul_left_cancel₀ hS.volume.ne' h4
  refine ⟨R, h1, h2, htau, ?_, hcol⟩
  have hm := torus_mean hT _ hsh.admissible (place d k)
  have h6 : ∀ c ∈ S.cells, (c.pts.map fun q => q.w * strainAt (fun node e =>
      (fun h e => if e = d.val then g h else 0 : K → Nat → K) (height X (Pi.single k 1) node) e) c q (place d k)).sum =
      tau * (cellVolume c / D c (place d k) (place d k)) - cellVolume c := by
    intro c hc
    have h7 : ∀ q ∈ c.pts, q.w * strainAt (fun node e =>
      (fun h e => if e = d.val then g h else 0 : K → Nat → K) (height X (Pi.single k 1) node) e) c q (place d k) =
        q.w * (tau / D c (place d k) (place d k) - 1) := by
      intro q hq
      rw [strain_linear F hT.shapes rule X c (hT.hexahedra c hc) _
        (fun e => if e = d then g (X (c.vertex.getD 0 0) k) - (tau / D c (place d k) (place d k) - 1) * X (c.vertex.getD 0 0) k else 0)
        (fun e => if e = d then tau / D c (place d k) (place d k) - 1 else 0) (Pi.single k 1) (fun f hf e => ?_) q hq (place d k),
        strain_place, if_pos rfl]
      simp only [hh]
      by_cases he : e = d
      · subst he
        simp only [if_true]
        rw [hslope c hc f hf]; ring
      · have : e.val ≠ d.val := fun h => he (Fin.ext h)
        simp [he, this]
    rw [List.map_congr_left h7, List.sum_map_mul_right]
    unfold cellVolume
    ring
  have h8 : ∀ (l : List (Cell K)) (f h : Cell K → K), (l.map fun c => f c - h c).sum = (l.map f).sum - (l.map h).sum := by
    intro l f h
    induction l with
    | nil => simp
    | cons c l ih => simp only [List.map_cons, List.sum_cons, ih]; ring
  rw [List.map_congr_left h6, h8, List.sum_map_mul_left] at hm
  change _ - volume S.cells = 0 at hm
  linarith

/-! ### Two layers that are not parallel to the axes -/

theorem bar_height (node : Nat) : height barX ![1, -1 / 2, 0] node = ([0, 1, 3] : List ℚ).getD (node % 3) 0 := by
  unfold height
  simp [Fin.sum_univ_three, barX]
  ring

/-- Displacement of the plane between the layers. -/
def barG (h : ℚ) (d : Nat) : ℚ := if h = 1 then ([38 / 75, 11 / 75] : List ℚ).getD d 0 else 0

def barA (m1 m2 : Material ℚ) : Fin (barOf 0 m1 m2).cells.length → Fin 3 → ℚ :=
  (![![38 / 75, 11 / 75, 0], ![-19 / 75, -11 / 150, 0]] : Fin 2 → Fin 3 → ℚ)

theorem bar_cells (P : Fin 2 → Cell ℚ → Prop) (E1 E2 : ℚ)
    (h1 : P 0 (barCell [0, 1, 3, 4, 6, 7, 9, 10] 1 (.iso (E1 * if (0 : ℚ) < 0 then 0 else 1) (1 / 4) 0)))
    (h2 : P 1 (barCell [1, 2, 4, 5, 7, 8, 10, 11] 2 (.iso (E2 * if (0 : ℚ) < 0 then 0 else 1) (1 / 4) 0))) :
    ∀ c : Fin (bar 0 E1 E2).cells.length, P c (bar 0 E1 E2).cells[c] := by
  change ∀ c : Fin 2, P c (bar 0 E1 E2).cells[c]
  intro c
  fin_cases c
  · exact h1
  · exact h2

theorem bar_layers : Layers (bar 0 (5 / 2) 5) (barD 0) barX (barNext 0 _ _) 0 ![1, -1 / 2, 0] where
  normal := fun h => by simpa using congrFun h 0
  plane := by
    refine bar_cells (fun _ c => ∀ f < 8, ∀ g < 8, f.testBit (0 : Fin 3) = g.testBit (0 : Fin 3) →
      height barX ![1, -1 / 2, 0] (c.vertex.getD f 0) = height barX ![1, -1 / 2, 0] (c.vertex.getD g 0)) _ _ ?_ ?_
    · simp only [bar_height, barCell]
      decide +kernel
    · simp only [bar_height, barCell]
      decide +kernel
  material := by
    intro b hb c
    fin_cases b
    · exact absurd rfl hb
    · rfl
    · rfl

theorem bar_shares : Shares (bar 0 (5 / 2) 5) (barD 0) barX (barNext 0 _ _) 0 ![1, -1 / 2, 0] (Pi.single 0 1) barG (barA _ _) where
  admissible := by
    simp only [bar_height]
    refine ⟨fun n i hp => ?_, fun n i m hn hi hm => ?_⟩
    · obtain ⟨f, hf, -⟩ := hp
      have := (bar_fixed hf).1
      have h3 : n % 3 = 0 ∨ n % 3 = 2 := by simp at this; omega
      rcases h3 with h | h <;> simp [h, barG]
    · have hm' : barHandler.mpcs (n * 3 + i) = some m := hm
      obtain ⟨a, ha, rfl⟩ := bar_mpcs hm'
      have hi' : i < 3 := hi
      have e1 : n % 3 = 1 := by omega
      have e2 : a % 3 = 1 := by omega
      have e3 : (n * 3 + i) % 3 = i := by omega
      simp [e1, e2, e3]
  slope := by
    simp only [bar_height]
    refine bar_cells (fun k c => ∀ f < 8, ∀ d : Fin 3, barG (([0, 1, 3] : List ℚ).getD (c.vertex.getD f 0 % 3) 0) d =
      barG (([0, 1, 3] : List ℚ).getD (c.vertex.getD 0 0 % 3) 0) d + (![![38 / 75, 11 / 75, 0], ![-19 / 75, -11 / 150, 0]] : Fin 2 → Fin 3 → ℚ) k d *
        (([0, 1, 3] : List ℚ).getD (c.vertex.getD f 0 % 3) 0 - ([0, 1, 3] : List ℚ).getD (c.vertex.getD 0 0 % 3) 0)) _ _ ?_ ?_
    · simp only [barCell]
      decide +kernel
    · simp only [barCell]
      decide +kernel
  layer := by
    intro b hb c
    fin_cases b
    · exact absurd rfl hb
    · rfl
    · rfl
  balance := by
    change ∀ c : Fin 2, _
    decide +kernel

/-- A sample of two layers of lengths 1 and 2 with moduli 5/2 and 5, whose planes are oblique: the stresses of the first load case. -/
example (solver : Nat → (Nat → Nat → ℚ) → (Nat → ℚ) → Nat → ℚ) (hX : Exact solver) :
    upscaleCase solver (bar 0 (5 / 2) 5) 0 = some ![2033 / 450, 707 / 450, 137 / 90, 8 / 225, 0, 0] := by
  obtain ⟨R, h1, h2, h3⟩ := C160_laminate _ _ (bar_sound 0 (5 / 2) 5 (by norm_num) (by norm_num)) (by unfold bar barOf; norm_num)
    (bar_ties 0 _ _) _ _ _ _ (bar_torus 0 _ _) 0 _ bar_layers solver hX
  have h4 := h3 _ _ _ bar_shares
  refine (h1 0).trans (congrArg some (funext fun i => ?_))
  have h5 := h4 i
  have hv : volume (bar 0 (5 / 2) 5).cells = 3 := by decide +kernel
  have h6 : ∀ i, (∑ c : Fin 2, cellVolume (bar 0 (5 / 2) 5).cells[c] *
      layerStress (barD 0 (bar 0 (5 / 2) 5).cells[c]) (Pi.single 0 1) (barA (.iso 0 0 0) (.iso 0 0 0) c) ![1, -1 / 2, 0] i) =
      3 * (![2033 / 450, 707 / 450, 137 / 90, 8 / 225, 0, 0] : Fin 6 → ℚ) i := by decide +kernel
  rw [hv] at h5
  have h7 := h5.trans (h6 i)
  have h8 := mul_left_cancel₀ (by norm_num) h7
  rw [h2 0 i, ← h8]
  simp [Pi.single_apply]

/-! ### Two layers normal to the first axis -/

theorem straight_cells (P : Cell ℚ → Prop) (E1 E2 : ℚ)
    (h1 : P (Straight.barCell [0, 1, 3, 4, 6, 7, 9, 10] 1 (.iso (E1 * if (0 : ℚ) < 0 then 0 else 1) (1 / 4) 0)))
    (h2 : P (Straight.barCell [1, 2, 4, 5, 7, 8, 10, 11] 2 (.iso (E2 * if (0 : ℚ) < 0 then 0 else 1) (1 / 4) 0))) :
    ∀ c ∈ (Straight.bar 0 E1 E2).cells, P c := by
  intro c hc
  rcases List.mem_cons.mp hc with rfl | hc
  · exact h1
  · obtain rfl := List.mem_singleton.mp hc
    exact h2

theorem straight_height (node : Nat) : Straight.barX node 0 = ([0, 1, 3] : List ℚ).getD (node % 3) 0 := rfl

theorem straight_layers : Layers (Straight.bar 0 (5 / 2) 5) (barD 0) Straight.barX (Straight.barNext 0 _ _) 0 (Pi.single 0 1) where
  normal := fun h => by simpa using congrFun h 0
  plane := by
    have hh : ∀ node, height Straight.barX (Pi.single 0 1) node = ([0, 1, 3] : List ℚ).getD (node % 3) 0 := by
      intro node
      unfold height
      simp [Pi.single_apply, straight_height]
    intro c
    refine straight_cells (fun c => ∀ f < 8, ∀ g < 8, f.testBit (0 : Fin 3) = g.testBit (0 : Fin 3) →
      height Straight.barX (Pi.single 0 1) (c.vertex.getD f 0) = height Straight.barX (Pi.single 0 1) (c.vertex.getD g 0)) _ _ ?_ ?_ _
      (List.getElem_mem _)
    · simp only [hh, Straight.barCell]
      decide +kernel
    · simp only [hh, Straight.barCell]
      decide +kernel
  material := by
    intro b hb c
    fin_cases b
    · exact absurd rfl hb
    · rfl
    · rfl

theorem straight_admissible (d : Fin 3) :
    Admissible (Straight.bar 0 (5 / 2) 5).handler fun node e => if e = d.val then (if Straight.barX node 0 = 1 then 1 / 2 else 0) else 0 := by
  simp only [straight_height]
  refine ⟨fun n i hp => ?_, fun n i m hn hi hm => ?_⟩
  · obtain ⟨f, hf, -⟩ := hp
    have := (bar_fixed hf).1
    have h3 : n % 3 = 0 ∨ n % 3 = 2 := by simp at this; omega
    rcases h3 with h | h <;> simp [h]
  · have hm' : barHandler.mpcs (n * 3 + i) = some m := hm
    obtain ⟨a, ha, rfl⟩ := bar_mpcs hm'
    have hi' : i < 3 := hi
    have e1 : n % 3 = 1 := by omega
    have e2 : a % 3 = 1 := by omega
    have e3 : (n * 3 + i) % 3 = i := by omega
    simp [e1, e2, e3]

/-- Layers of lengths 1 and 2 with moduli 3 and 6 for stretching, 1 and 2 for shear: the upscaled ones are 9/2 and 3/2, while the
arithmetic means are 5 and 5/3. -/
example (solver : Nat → (Nat → Nat → ℚ) → (Nat → ℚ) → Nat → ℚ) (hX : Exact solver) (d : Fin 3) :
    ∃ R : Fin 6 → Fin 6 → ℚ, (∀ m : Fin 6, upscaleCase solver (Straight.bar 0 (5 / 2) 5) m = some (R m)) ∧
      R (place d 0) (place d 0) = if d = 0 then 9 / 2 else 3 / 2 := by
  obtain ⟨R, h1, -, h2, -, -⟩ := C160_across _ _ (Straight.bar_sound 0 (5 / 2) 5 (by norm_num) (by norm_num))
    (by unfold Straight.bar Straight.barOf; norm_num)
    (Straight.bar_ties 0 _ _) _ _ _ _ (Straight.bar_torus 0 _ _) 0 d straight_layers solver hX
    (straight_cells (fun c => barD 0 c (place d 0) (place d 0) ≠ 0) _ _ (by revert d; decide +kernel) (by revert d; decide +kernel))
    (straight_cells (fun c => ∀ e ≠ d, barD 0 c (place e 0) (place d 0) = 0) _ _ (by revert d; decide +kernel) (by revert d; decide +kernel))
    (fun h => if h = 1 then 1 / 2 else 0) (if d = 0 then 9 / 2 else 3 / 2) (straight_admissible d)
    (straight_cells (fun c => ∀ f < 8, (if Straight.barX (c.vertex.getD f 0) 0 = 1 then (1 / 2 : ℚ) else 0) =
      (if Straight.barX (c.vertex.getD 0 0) 0 = 1 then 1 / 2 else 0) +
        ((if d = 0 then 9 / 2 else 3 / 2) / barD 0 c (place d 0) (place d 0) - 1) *
          (Straight.barX (c.vertex.getD f 0) 0 - Straight.barX (c.vertex.getD 0 0) 0)) _ _
      (by revert d; decide +kernel) (by revert d; decide +kernel))
  exact ⟨R, h1, h2⟩

end Verif.ElasticUp
