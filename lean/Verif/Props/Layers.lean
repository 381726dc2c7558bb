import Verif.Spec.Layers
import Verif.Props.PeriodicBCs
import Mathlib.LinearAlgebra.FiniteDimensional.Basic

/-!
C154: layered samples (`Verif.Model.ElasticUpscale`, `Verif.Model.PeriodicBCs`) are upscaled exactly.
-/

namespace Verif.ElasticUp

open Verif.Elastic Verif.Asm Verif.Layers

variable {K : Type} [Field K]

/-- Displacements that are linear in the height have a uniform strain in the cell. -/
theorem linear_strain (F : List (Shape.Linear K 3)) (hF : Shape.p1Set 3 = some F) (rule : List (K × (Fin 3 → K)))
    (X : Nat → Fin 3 → K) (c : Cell K) (hc : Hexahedron F X rule c) (v : Nat → Nat → K) (a b : Fin 3 → K)
    (hv : ∀ f < 8, ∀ d : Fin 3, v (c.vertex.getD f 0) d = a d + b d * X (c.vertex.getD f 0) 2) (q : QP K 6) (hq : q ∈ c.pts) (i : Fin 6) :
    strainAt v c q i = Spec.strain3 (fun d e => if e = 2 then b d else 0) i := by
  obtain ⟨Jinv, hJ, hp⟩ := hc
  rw [hp] at hq
  obtain ⟨p, hpr, rfl⟩ := List.mem_map.mp hq
  have h3 := congrFun (C49_strain 8 (physGrad F (Jinv p.2) p.2) fun j => v (c.vertex.getD (j / 3) 0) (j % 3)) i
  refine h3.trans ?_
  congr 1
  funext d e
  have h2 : ∀ f, physGrad F (Jinv p.2) p.2 f e = ∑ k, Jinv p.2 e k * refGrad F p.2 f k := by
    intro f
    unfold physGrad dNdX
    rw [dif_pos e.isLt]
  have hone : ∀ k, ∑ f ∈ Finset.range 8, refGrad F p.2 f k = 0 := by
    intro k
    have := grad_mono F hF p.2 fun _ => 1
    simp only [one_mul, mono] at this
    fin_cases k
    · refine this.1.trans (by ring)
    · refine this.2.1.trans (by ring)
    · refine this.2.2.trans (by ring)
  have e0 : ∀ f ∈ Finset.range 8, v (c.vertex.getD ((3 * f + d.val) / 3) 0) ((3 * f + d.val) % 3) * physGrad F (Jinv p.2) p.2 f e =
      ∑ k, (a d * Jinv p.2 e k * refGrad F p.2 f k + b d * (X (c.vertex.getD f 0) 2 * refGrad F p.2 f k * Jinv p.2 e k)) := by
    intro f hf
    have e1 : (3 * f + d.val) / 3 = f := by omega
    have e2 : (3 * f + d.val) % 3 = d.val := by omega
    rw [e1, e2, hv f (Finset.mem_range.mp hf), h2, Finset.mul_sum]
    exact Finset.sum_congr rfl fun k _ => by ring
  refine (Finset.sum_congr rfl e0).trans ?_
  rw [Finset.sum_comm]
  simp only [Finset.sum_add_distrib, ← Finset.mul_sum, hone, mul_zero, ← Finset.sum_mul, zero_add]
  have := hJ p hpr 2 e
  unfold jacobian at this
  rw [this]
  by_cases he : e = 2
  · rw [if_pos he, if_pos he.symm, mul_one]
  · rw [if_neg he, if_neg (Ne.symm he), mul_zero]

/-- No flux through horizontal faces in horizontal directions. -/
theorem side_flat (u : Nat) (hu : u = 0 ∨ u = 4) (v y z : Nat → K)
    (h : (∀ f < 4, y (f + u) = y u) ∨ (∀ f < 4, z (f + u) = z u)) : side 2 u v y z = 0 := by
  unfold side
  rw [if_neg (by decide), if_neg (by decide)]
  rcases h with h | h
  · have h1 := h 1 (by norm_num); have h2 := h 2 (by norm_num); have h3 := h 3 (by norm_num)
    rw [h1, h2, h3]
    unfold faceFlux
    ring
  · have h1 := h 1 (by norm_num); have h2 := h 2 (by norm_num); have h3 := h 3 (by norm_num)
    rw [h1, h2, h3]
    unfold faceFlux
    ring

variable [LinearOrder K] [IsStrictOrderedRing K]

/-- In every layer with flat interfaces admissible displacements have no mean strain in its plane. -/
theorem layer_mean {S : Sample K} {F : List (Shape.Linear K 3)} {X : Nat → Fin 3 → K} {rule : List (K × (Fin 3 → K))}
    {next : Fin 3 → Equiv.Perm (Fin S.cells.length)} (hT : Torus S F X rule next) (layer : Cell K → Nat)
    (hlay : ∀ a ≠ (2 : Fin 3), ∀ c : Fin S.cells.length, layer (S.cells[next a c]) = layer (S.cells[c]))
    (hflat : ∀ c ∈ S.cells, ∀ f < 4, X (c.vertex.getD f 0) 2 = X (c.vertex.getD 0 0) 2 ∧
      X (c.vertex.getD (f + 4) 0) 2 = X (c.vertex.getD 4 0) 2)
    (v : Nat → Nat → K) (hv : Admissible S.handler v) (σ : Nat → K) (i : Fin 6) (hi : i ∈ [(0 : Fin 6), 1, 3]) :
    (S.cells.map fun c => σ (layer c) * (c.pts.map fun q => q.w * strainAt v c q i).sum).sum = 0 := by
  have h0 : ∀ d e : Fin 3, e ≠ 2 → (S.cells.map fun c => σ (layer c) * fluxes (fun f => v (c.vertex.getD f 0) d)
      (fun f => X (c.vertex.getD f 0) (e + 1)) (fun f => X (c.vertex.getD f 0) (e + 2))).sum = 0 := by
    intro d e he
    rw [← Fin.sum_univ_fun_getElem]
    simp only [fluxes_side, Finset.sum_sub_distrib, mul_sub]
    rw [sub_eq_zero]
    simp only [Finset.mul_sum]
    rw [Finset.sum_comm]
    refine Eq.trans ?_ Finset.sum_comm
    refine Finset.sum_congr rfl fun a _ => ?_
    by_cases ha : a = 2
    · subst ha
      have hz : ∀ (c : Fin S.cells.length) (u : Nat), u = 0 ∨ u = 4 → side 2 u (fun f => v ((S.cells[c]).vertex.getD f 0) d)
          (fun f => X ((S.cells[c]).vertex.getD f 0) (e + 1)) (fun f => X ((S.cells[c]).vertex.getD f 0) (e + 2)) = 0 := by
        intro c u hu
        refine side_flat u hu _ _ _ ?_
        have hf := hflat (S.cells[c]) (List.getElem_mem _)
        have key : ∀ f < 4, X ((S.cells[c]).vertex.getD (f + u) 0) 2 = X ((S.cells[c]).vertex.getD u 0) 2 := by
          intro f h4
          rcases hu with rfl | rfl
          · exact (hf f h4).1
          · exact (hf f h4).2
        fin_cases e
        · right; exact key
        · left; exact key
        · exact absurd rfl he
      refine Finset.sum_congr rfl fun c _ => ?_
      have z1 := hz c (2 ^ (2 : Fin 3).val) (Or.inr rfl)
      have z2 := hz c 0 (Or.inl rfl)
      simp only [Fin.getElem_fin] at z1 z2
      rw [z1, z2]
    · refine Eq.trans ?_ (Equiv.sum_comp (next a) _)
      refine Finset.sum_congr rfl fun c _ => ?_
      obtain ⟨L, hL⟩ := hT.meet a c
      have hl := hlay a ha c
      simp only [Fin.getElem_fin] at hl
      rw [hl]
      congr 1
      exact side_moved a _ _ _ _ _ _ (L (e + 1)) (L (e + 2)) (fun f h1 h2 => (hL f h1 h2).2 v hv d d.isLt)
        (fun f h1 h2 => (hL f h1 h2).1 _) (fun f h1 h2 => (hL f h1 h2).1 _)
  rw [List.map_congr_left (fun c hc => by rw [cell_mean F hT.shapes rule hT.exact X c (hT.hexahedra c hc) v i])]
  have h1 : ∀ H : Cell K → Fin 3 → Fin 3 → K, (∀ d e, e ≠ 2 → (S.cells.map fun c => σ (layer c) * H c d e).sum = 0) →
      (S.cells.map fun c => σ (layer c) * Spec.strain3 (H c) i).sum = 0 := by
    intro H hH
    simp only [List.mem_cons, List.not_mem_nil, or_false] at hi
    rcases hi with rfl | rfl | rfl
    · exact hH 0 0 (by decide)
    · exact hH 1 1 (by decide)
    · have e : ∀ c, σ (layer c) * Spec.strain3 (H c) 3 = σ (layer c) * H c 0 1 + σ (layer c) * H c 1 0 := fun c => by
        simp [Spec.strain3]; ring
      simp only [e, List.sum_map_add]
      rw [hH 0 1 (by decide), hH 1 0 (by decide), add_zero]
  exact h1 _ h0

/-- Displacements whose total strain is in equilibrium with all admissible ones give the upscaled stress. -/
theorem equilibrium (S : Sample K) (D : Cell K → Fin 6 → Fin 6 → K) (hS : Sound S D) (ht : S.tol < 1)
    (h0 : ∀ s c, S.handler.mpcs s = some c → Tie c)
    (solver : Nat → (Nat → Nat → K) → (Nat → K) → Nat → K) (hX : Exact solver) :
    ∃ R : Fin 6 → Fin 6 → K, (∀ m : Fin 6, upscaleCase solver S m = some (R m)) ∧
      ∀ (x : Fin 6 → K) (v : Nat → Nat → K), Admissible S.handler v →
        (∀ w, Admissible S.handler w → ep D S.cells (fun c q i => strainAt w c q i) (fun c q i => uniform x c q i + strainAt v c q i) = 0) →
        ∀ y : Fin 6 → K, volume S.cells * ∑ i, y i * ∑ k, R i k * x k =
          ep D S.cells (uniform y) (fun c q i => uniform x c q i + strainAt v c q i) := by
  obtain ⟨R, h1, h2, h3⟩ := C94_ties S D hS ht h0 solver hX
  refine ⟨R, h1, fun x v hv hw y => ?_⟩
  obtain ⟨u, hu, eu⟩ := (h3 y).1
  obtain ⟨u0, hu0, eu0⟩ := (h3 x).1
  have hsym := hS.symm
  have hadd : ∀ (s : K) (w w' : Nat → Nat → K), Admissible S.handler w → Admissible S.handler w' →
      Admissible S.handler fun n i => w n i + s * w' n i := by
    intro s w w' hw hw'
    refine ⟨fun n i hp => by beta_reduce; rw [hw.1 n i hp, hw'.1 n i hp]; ring, fun n i m hn hi hm => ?_⟩
    beta_reduce
    rw [hw.2 n i m hn hi hm, hw'.2 n i m hn hi hm, ← List.sum_map_mul_left, ← List.sum_map_add]
    congr 1
    exact List.map_congr_left fun a _ => by ring
  -- energy of a sum
  have hE : ∀ (s : K) (z : Fin 6 → K) (w : Nat → Nat → K), energy D S.cells (fun i => x i + s * z i) (fun n i => v n i + s * w n i) =
      energy D S.cells x v + 2 * s * ep D S.cells (fun c q i => uniform z c q i + strainAt w c q i)
        (fun c q i => uniform x c q i + strainAt v c q i) + s * s * energy D S.cells z w := by
    intro s z w
    rw [energy_ep, energy_ep, energy_ep]
    have e1 : (fun (c : Cell K) (q : QP K 6) (i : Fin 6) => uniform (fun i => x i + s * z i) c q i +
        strainAt (fun n i => v n i + s * w n i) c q i) = fun c q i => (uniform x c q i + strainAt v c q i) +
          s * (uniform z c q i + strainAt w c q i) := by
      funext c q i
      rw [strainAt_add v (fun n i => s * w n i), strainAt_smul]
      unfold uniform
      ring
    rw [e1, ep_quad hsym (fun c q i => uniform x c q i + strainAt v c q i) (fun c q i => s * (uniform z c q i + strainAt w c q i)),
      ep_smul_left, ep_smul_left, ep_symm hsym (fun c q i => uniform z c q i + strainAt w c q i)
        (fun c q i => s * (uniform z c q i + strainAt w c q i)), ep_smul_left]
    ring
  have hnn : ∀ w, 0 ≤ energy D S.cells 0 w := fun w => by
    rw [energy_ep]; exact ep_nonneg hS.weight hS.psd _
  -- the displacements are the best ones
  have hx : volume S.cells * ∑ m, x m * ∑ n, R m n * x n = energy D S.cells x v := by
    refine le_antisymm ((h3 x).2 v hv) ?_
    rw [eu0]
    have := hE 1 0 (fun n i => u0 n i + (-1) * v n i)
    have e1 : energy D S.cells (fun i => x i + 1 * (0 : Fin 6 → K) i) (fun n i => v n i + 1 * (u0 n i + -1 * v n i)) = energy D S.cells x u0 := by
      congr 1
      · funext i; simp
      · funext n i; ring
    have e2 : ep D S.cells (fun c q i => uniform 0 c q i + strainAt (fun n i => u0 n i + (-1) * v n i) c q i)
        (fun c q i => uniform x c q i + strainAt v c q i) = 0 := by
      have := hw _ (hadd (-1) _ _ hu0 hv)
      simpa [uniform] using this
    rw [e1, e2] at this
    have := hnn (fun n i => u0 n i + (-1) * v n i)
    linarith
  have hep : ep D S.cells (fun c q i => uniform y c q i + strainAt u c q i) (fun c q i => uniform x c q i + strainAt v c q i) =
      ep D S.cells (uniform y) (fun c q i => uniform x c q i + strainAt v c q i) := by
    have := ep_add_left (D := D) (cells := S.cells) (uniform y) (fun c q i => strainAt u c q i) (fun c q i => uniform x c q i + strainAt v c q i)
    rw [this, hw u hu, add_zero]
  have hquad : ∀ s : K, ∑ m, (x m + s * y m) * ∑ n, R m n * (x n + s * y n) = ∑ m, x m * ∑ n, R m n * x n +
      2 * s * ∑ i, y i * ∑ k, R i k * x k + s * s * ∑ m, y m * ∑ n, R m n * y n := by
    intro s
    have e1 : ∑ m, x m * ∑ n, R m n * y n = ∑ m, y m * ∑ n, R m n * x n := by
      simp only [Finset.mul_sum]
      rw [Finset.sum_comm]
      refine Finset.sum_congr rfl fun m _ => Finset.sum_congr rfl fun n _ => ?_
      rw [h2 n m]; ring
    have e2 : ∀ m, (x m + s * y m) * ∑ n, R m n * (x n + s * y n) = x m * (∑ n, R m n * x n) + s * (x m * ∑ n, R m n * y n) +
        s * (y m * ∑ n, R m n * x n) + s * s * (y m * ∑ n, R m n * y n) := by
      intro m
      have : ∑ n, R m n * (x n + s * y n) = (∑ n, R m n * x n) + s * ∑ n, R m n * y n := by
        rw [Finset.mul_sum, ← Finset.sum_add_distrib]
        exact Finset.sum_congr rfl fun n _ => by ring
      rw [this]; ring
    simp only [e2, Finset.sum_add_distrib, ← Finset.mul_sum]
    rw [e1]; ring
  have key : ∀ s : K, 2 * s * (volume S.cells * ∑ i, y i * ∑ k, R i k * x k -
      ep D S.cells (uniform y) (fun c q i => uniform x c q i + strainAt v c q i)) ≤ 0 := by
    intro s
    have h4 := (h3 fun i => x i + s * y i).2 _ (hadd s v u hv hu)
    rw [hquad s, hE s y u, hep, ← hx, ← eu] at h4
    linarith [mul_add (volume S.cells) (∑ m, x m * ∑ n, R m n * x n + 2 * s * ∑ i, y i * ∑ k, R i k * x k) (s * s * ∑ m, y m * ∑ n, R m n * y n),
      mul_add (volume S.cells) (∑ m, x m * ∑ n, R m n * x n) (2 * s * ∑ i, y i * ∑ k, R i k * x k)]
  have k1 := key 1
  have k2 := key (-1)
  linarith

/-- Layers with flat interfaces in a periodic sample. -/
theorem layers_torus (S : Sample K) (D0 : Nat → Fin 6 → Fin 6 → K) (layer : Cell K → Nat) (hS : Sound S fun c => D0 (layer c))
    (ht : S.tol < 1) (h0 : ∀ s c, S.handler.mpcs s = some c → Tie c) {F : List (Shape.Linear K 3)} {X : Nat → Fin 3 → K}
    {rule : List (K × (Fin 3 → K))} {next : Fin 3 → Equiv.Perm (Fin S.cells.length)} (hT : Torus S F X rule next)
    (hlay : ∀ a ≠ (2 : Fin 3), ∀ c : Fin S.cells.length, layer (S.cells[next a c]) = layer (S.cells[c]))
    (hflat : ∀ c ∈ S.cells, ∀ f < 4, X (c.vertex.getD f 0) 2 = X (c.vertex.getD 0 0) 2 ∧
      X (c.vertex.getD (f + 4) 0) 2 = X (c.vertex.getD 4 0) 2)
    (n : Nat) (hn : ∀ c ∈ S.cells, layer c < n)
    (solver : Nat → (Nat → Nat → K) → (Nat → K) → Nat → K) (hX : Exact solver) :
    ∃ R : Fin 6 → Fin 6 → K, (∀ m : Fin 6, upscaleCase solver S m = some (R m)) ∧
      ∀ (x : Fin 6 → K) (h : Nat → K) (t : Nat → Fin 6 → K), Laminate n h D0 x t → ∀ v, Admissible S.handler v →
        (∀ c ∈ S.cells, ∃ a : Fin 3 → K, ∀ f < 8, ∀ d : Fin 3, v (c.vertex.getD f 0) d =
          a d + ![t (layer c) 4 - x 4, t (layer c) 5 - x 5, t (layer c) 2 - x 2] d * X (c.vertex.getD f 0) 2) →
        ∀ i, volume S.cells * ∑ k, R i k * x k =
          (S.cells.map fun c => (c.pts.map fun q => q.w).sum * stress (D0 (layer c)) (t (layer c)) i).sum := by
  obtain ⟨R, h1, h2⟩ := equilibrium S _ hS ht h0 solver hX
  refine ⟨R, h1, fun x h t hl v hv hlin i => ?_⟩
  have hne : S.cells ≠ [] := by
    intro e
    have := hS.volume
    rw [e] at this
    simp [volume] at this
  obtain ⟨c0, hc0⟩ := List.exists_mem_of_ne_nil _ hne
  -- the total strain
  have hst : ∀ c ∈ S.cells, ∀ q ∈ c.pts, ∀ k, uniform x c q k + strainAt v c q k = t (layer c) k := by
    intro c hc q hq k
    obtain ⟨a, ha⟩ := hlin c hc
    rw [linear_strain F hT.shapes rule X c (hT.hexahedra c hc) v a _ ha q hq k]
    have hp := hl.plane _ (hn c hc)
    unfold uniform
    fin_cases k
    · simp [Spec.strain3, hp 0 (by simp)]
    · simp [Spec.strain3, hp 1 (by simp)]
    · simp [Spec.strain3]
    · simp [Spec.strain3, hp 3 (by simp)]
    · simp [Spec.strain3]
    · simp [Spec.strain3]
  have hep : ∀ s : Cell K → QP K 6 → Fin 6 → K, ep (fun c => D0 (layer c)) S.cells s (fun c q k => uniform x c q k + strainAt v c q k) =
      ∑ k, (S.cells.map fun c => stress (D0 (layer c)) (t (layer c)) k * (c.pts.map fun q => q.w * s c q k).sum).sum := by
    intro s
    unfold ep
    have e1 : ∀ c ∈ S.cells, (c.pts.map fun q => q.w * ∑ i, s c q i * ∑ k, D0 (layer c) i k * (uniform x c q k + strainAt v c q k)).sum =
        ∑ k, stress (D0 (layer c)) (t (layer c)) k * (c.pts.map fun q => q.w * s c q k).sum := by
      intro c hc
      have e2 : ∀ q ∈ c.pts, q.w * ∑ i, s c q i * ∑ k, D0 (layer c) i k * (uniform x c q k + strainAt v c q k) =
          ∑ k, stress (D0 (layer c)) (t (layer c)) k * (q.w * s c q k) := by
        intro q hq
        rw [Finset.mul_sum]
        refine Finset.sum_congr rfl fun i _ => ?_
        unfold Layers.stress
        rw [Finset.sum_congr rfl fun k _ => by rw [hst c hc q hq k]]
        ring
      rw [List.map_congr_left e2]
      generalize c.pts = l
      induction l with
      | nil => simp
      | cons q l ih =>
        simp only [List.map_cons, List.sum_cons]
        rw [ih, ← Finset.sum_add_distrib]
        exact Finset.sum_congr rfl fun k _ => by ring
    rw [List.map_congr_left e1]
    generalize S.cells = l
    induction l with
    | nil => simp
    | cons c l ih =>
      simp only [List.map_cons, List.sum_cons]
      rw [ih, ← Finset.sum_add_distrib]
  have hw : ∀ w, Admissible S.handler w → ep (fun c => D0 (layer c)) S.cells (fun c q i => strainAt w c q i)
      (fun c q i => uniform x c q i + strainAt v c q i) = 0 := by
    intro w hw
    rw [hep]
    refine Finset.sum_eq_zero fun k _ => ?_
    have hin : k ∈ [(0 : Fin 6), 1, 3] ∨ k ∈ [(2 : Fin 6), 4, 5] := by revert k; decide
    rcases hin with hk | hk
    · exact layer_mean hT layer hlay hflat w hw (fun l => stress (D0 l) (t l) k) k hk
    · have e1 : ∀ c ∈ S.cells, stress (D0 (layer c)) (t (layer c)) k * (c.pts.map fun q => q.w * strainAt w c q k).sum =
          stress (D0 (layer c0)) (t (layer c0)) k * (c.pts.map fun q => q.w * strainAt w c q k).sum := fun c hc => by
        rw [hl.traction _ (hn c hc) _ (hn c0 hc0) k hk]
      rw [List.map_congr_left e1, List.sum_map_mul_left, torus_mean hT w hw k, mul_zero]
  have h3 := h2 x v hv hw (Pi.single i 1)
  rw [hep] at h3
  have e1 : ∑ j, (Pi.single i 1 : Fin 6 → K) j * ∑ k, R j k * x k = ∑ k, R i k * x k := by
    rw [Finset.sum_eq_single i (fun j _ hj => by rw [Pi.single_eq_of_ne hj, zero_mul]) (by simp), Pi.single_eq_same, one_mul]
  rw [e1] at h3
  rw [h3, Finset.sum_eq_single i]
  · congr 1
    refine List.map_congr_left fun c _ => ?_
    unfold uniform
    simp only [Pi.single_eq_same, mul_one]
    ring
  · intro j _ hj
    unfold uniform
    simp [Pi.single_eq_of_ne hj]
  · simp

end Verif.ElasticUp

namespace Verif.Layers

variable {K : Type} [Field K] [LinearOrder K] [IsStrictOrderedRing K]

/-- **C154** (the strains exist). For every mean strain there are strains of the layers that are compatible with each other and have
equal tractions at the interfaces. -/
theorem C154_strains (n : Nat) (hn : 0 < n) (h : Nat → K) (hh : ∀ l < n, 0 < h l) (D : Nat → Fin 6 → Fin 6 → K)
    (hD : ∀ l < n, ∀ e : Fin 6 → K, e ≠ 0 → 0 < ∑ i, e i * ∑ k, D l i k * e k) (x : Fin 6 → K) : ∃ t, Laminate n h D x t := by
  let E : Fin 3 → Fin 6 := ![2, 4, 5]
  let A : (Fin n → Fin 3 → K) × (Fin 3 → K) →ₗ[K] (Fin n → Fin 3 → K) × (Fin 3 → K) :=
    { toFun := fun p => (fun l j => ∑ k, D l (E j) (E k) * p.1 l k - p.2 j, fun j => ∑ l : Fin n, h l * p.1 l j)
      map_add' := by
        rintro ⟨u, s⟩ ⟨u', s'⟩
        refine Prod.ext ?_ ?_
        · funext l j
          simp only [Prod.fst_add, Prod.snd_add, Pi.add_apply, mul_add, Finset.sum_add_distrib]
          ring
        · funext j
          simp only [Prod.fst_add, Prod.snd_add, Pi.add_apply, mul_add, Finset.sum_add_distrib]
      map_smul' := by
        rintro a ⟨u, s⟩
        refine Prod.ext ?_ ?_
        · funext l j
          simp only [Prod.smul_fst, Prod.smul_snd, Pi.smul_apply, smul_eq_mul, RingHom.id_apply, mul_sub, Finset.mul_sum]
          congr 1
          exact Finset.sum_congr rfl fun k _ => by ring
        · funext j
          simp only [Prod.smul_fst, Prod.smul_snd, Pi.smul_apply, smul_eq_mul, RingHom.id_apply, Finset.mul_sum]
          exact Finset.sum_congr rfl fun k _ => by ring }
  have form : ∀ (l : Fin n) (u : Fin 3 → K), u ≠ 0 → 0 < ∑ j, u j * ∑ k, D l (E j) (E k) * u k := by
    intro l u hu
    have := hD l l.isLt ![0, 0, u 0, 0, u 1, u 2] (fun h0 => hu (by
      funext j
      fin_cases j
      · exact congrFun h0 2
      · exact congrFun h0 4
      · exact congrFun h0 5))
    simp only [Fin.sum_univ_succ, Fin.sum_univ_zero] at this ⊢
    simp [E, Fin.succ] at this ⊢
    linarith
  have hinj : Function.Injective A := by
    rw [← LinearMap.ker_eq_bot, LinearMap.ker_eq_bot']
    rintro ⟨u, s⟩ h0
    have h1 : ∀ l j, ∑ k, D (l : Fin n) (E j) (E k) * u l k = s j := fun l j => sub_eq_zero.mp (congrFun (congrFun (congrArg Prod.fst h0) l) j)
    have h2 : ∀ j, ∑ l : Fin n, h l * u l j = 0 := fun j => congrFun (congrArg Prod.snd h0) j
    have h3 : ∑ l : Fin n, h l * ∑ j, u l j * s j = 0 := by
      have : ∀ l ∈ (Finset.univ : Finset (Fin n)), h l * ∑ j, u l j * s j = ∑ j, h l * u l j * s j := fun l _ => by
        rw [Finset.mul_sum]; exact Finset.sum_congr rfl fun j _ => by ring
      rw [Finset.sum_congr rfl this, Finset.sum_comm]
      refine Finset.sum_eq_zero fun j _ => ?_
      rw [← Finset.sum_mul, h2 j, zero_mul]
    have h4 : ∀ l : Fin n, 0 ≤ h l * ∑ j, u l j * s j := by
      intro l
      refine mul_nonneg (hh l l.isLt).le ?_
      by_cases hu : u l = 0
      · rw [hu]; simp
      · rw [Finset.sum_congr rfl fun j _ => by rw [← h1 l j]]
        exact (form l _ hu).le
    have h5 : ∀ l, u l = 0 := by
      intro l
      by_contra hu
      have e := (Finset.sum_eq_zero_iff_of_nonneg fun l _ => h4 l).mp h3 l (Finset.mem_univ l)
      have := form l _ hu
      rw [Finset.sum_congr rfl fun j _ => by rw [h1 l j]] at this
      exact absurd e (mul_pos (hh l l.isLt) this).ne'
    refine Prod.ext (funext h5) (funext fun j => ?_)
    rw [show ((u, s) : (Fin n → Fin 3 → K) × (Fin 3 → K)).2 j = s j from rfl, ← h1 ⟨0, hn⟩ j, h5]
    simp
  obtain ⟨⟨u, s⟩, hu⟩ := (LinearMap.injective_iff_surjective.mp hinj)
    (fun l j => -(D l (E j) 0 * x 0 + D l (E j) 1 * x 1 + D l (E j) 3 * x 3), fun j => (∑ l : Fin n, h l) * x (E j))
  have h1 : ∀ l j, ∑ k, D (l : Fin n) (E j) (E k) * u l k - s j = -(D l (E j) 0 * x 0 + D l (E j) 1 * x 1 + D l (E j) 3 * x 3) :=
    fun l j => congrFun (congrFun (congrArg Prod.fst hu) l) j
  have h2 : ∀ j, ∑ l : Fin n, h l * u l j = (∑ l : Fin n, h l) * x (E j) := fun j => congrFun (congrArg Prod.snd hu) j
  let t : Nat → Fin 6 → K := fun l => if hl : l < n then ![x 0, x 1, u ⟨l, hl⟩ 0, x 3, u ⟨l, hl⟩ 1, u ⟨l, hl⟩ 2] else x
  have ht : ∀ l : Fin n, t l = ![x 0, x 1, u l 0, x 3, u l 1, u l 2] := fun l => dif_pos l.isLt
  have hs : ∀ (l : Fin n) j, stress (D l) (t l) (E j) = s j := by
    intro l j
    have := h1 l j
    unfold stress
    rw [ht]
    simp only [Fin.sum_univ_succ, Fin.sum_univ_zero] at this ⊢
    simp [E, Fin.succ] at this ⊢
    linear_combination this
  refine ⟨t, fun l hl i hi => ?_, fun i => ?_, fun l hl m hm i hi => ?_⟩
  · rw [ht ⟨l, hl⟩]
    simp only [List.mem_cons, List.not_mem_nil, or_false] at hi
    rcases hi with rfl | rfl | rfl <;> rfl
  · rw [Finset.sum_range, Finset.sum_range]
    rw [Finset.sum_congr rfl fun l _ => by rw [ht l]]
    fin_cases i
    · exact (Finset.sum_mul _ _ _).symm
    · exact (Finset.sum_mul _ _ _).symm
    · exact h2 0
    · exact (Finset.sum_mul _ _ _).symm
    · exact h2 1
    · exact h2 2
  · have hE : ∃ j, E j = i := by
      simp only [List.mem_cons, List.not_mem_nil, or_false] at hi
      rcases hi with rfl | rfl | rfl
      · exact ⟨0, rfl⟩
      · exact ⟨1, rfl⟩
      · exact ⟨2, rfl⟩
    obtain ⟨j, rfl⟩ := hE
    rw [hs ⟨l, hl⟩ j, hs ⟨m, hm⟩ j]

/-- **C154** (one matrix). Only one matrix gives the mean stresses. -/
theorem C154_unique (n : Nat) (hn : 0 < n) (h : Nat → K) (hh : ∀ l < n, 0 < h l) (D : Nat → Fin 6 → Fin 6 → K)
    (hD : ∀ l < n, ∀ e : Fin 6 → K, e ≠ 0 → 0 < ∑ i, e i * ∑ k, D l i k * e k) (R R' : Fin 6 → Fin 6 → K) (hR : Effective n h D R)
    (hR' : Effective n h D R') : R = R' := by
  have hH : 0 < ∑ l ∈ Finset.range n, h l := Finset.sum_pos (fun l hl => hh l (Finset.mem_range.mp hl)) ⟨0, Finset.mem_range.mpr hn⟩
  funext i k
  obtain ⟨t, ht⟩ := C154_strains n hn h hh D hD (Pi.single k 1)
  have e := mul_left_cancel₀ hH.ne' ((hR _ t ht i).trans (hR' _ t ht i).symm)
  have hs : ∀ M : Fin 6 → Fin 6 → K, stress M (Pi.single k 1) i = M i k := by
    intro M
    unfold stress
    rw [Finset.sum_eq_single k (fun j _ hj => by rw [Pi.single_eq_of_ne hj, mul_zero]) (by simp), Pi.single_eq_same, mul_one]
  rwa [hs, hs] at e

/-- **C154** (identical layers). Layers of one material return its matrix. -/
theorem C154_same (n : Nat) (h : Nat → K) (D : Nat → Fin 6 → Fin 6 → K) (D0 R : Fin 6 → Fin 6 → K) (hD : ∀ l < n, D l = D0)
    (hH : 0 < ∑ l ∈ Finset.range n, h l) (hR : Effective n h D R) : R = D0 := by
  funext i k
  have e := hR (Pi.single k 1) (fun _ => Pi.single k 1) ⟨fun _ _ _ _ => rfl, fun i => by rw [← Finset.sum_mul],
    fun l hl m hm i _ => by rw [hD l hl, hD m hm]⟩ i
  have e1 : ∑ l ∈ Finset.range n, h l * stress (D l) (Pi.single k 1) i = (∑ l ∈ Finset.range n, h l) * stress D0 (Pi.single k 1) i := by
    rw [Finset.sum_mul]
    exact Finset.sum_congr rfl fun l hl => by rw [hD l (Finset.mem_range.mp hl)]
  have e := e.trans e1
  have e := mul_left_cancel₀ hH.ne' e
  have hs : ∀ M : Fin 6 → Fin 6 → K, stress M (Pi.single k 1) i = M i k := by
    intro M
    unfold stress
    rw [Finset.sum_eq_single k (fun j _ hj => by rw [Pi.single_eq_of_ne hj, mul_zero]) (by simp), Pi.single_eq_same, mul_one]
  rwa [hs, hs] at e

/-- **C154** (shear along the layers). The modulus for shear in the plane of the layers is the arithmetic mean of those of the layers. -/
theorem C154_arithmetic (n : Nat) (h : Nat → K) (D : Nat → Fin 6 → Fin 6 → K) (R : Fin 6 → Fin 6 → K) (hR : Effective n h D R)
    (h0 : ∀ l < n, D l 2 3 = 0 ∧ D l 4 3 = 0 ∧ D l 5 3 = 0) :
    (∑ l ∈ Finset.range n, h l) * R 3 3 = ∑ l ∈ Finset.range n, h l * D l 3 3 := by
  have hs : ∀ (M : Fin 6 → Fin 6 → K) i, stress M (Pi.single 3 1) i = M i 3 := by
    intro M i
    unfold stress
    rw [Finset.sum_eq_single 3 (fun j _ hj => by rw [Pi.single_eq_of_ne hj, mul_zero]) (by simp), Pi.single_eq_same, mul_one]
  have e := hR (Pi.single 3 1) (fun _ => Pi.single 3 1) ⟨fun _ _ _ _ => rfl, fun i => by rw [← Finset.sum_mul],
    fun l hl m hm i hi => by
      rw [hs, hs]
      obtain ⟨a1, a2, a3⟩ := h0 l hl
      obtain ⟨b1, b2, b3⟩ := h0 m hm
      simp only [List.mem_cons, List.not_mem_nil, or_false] at hi
      rcases hi with rfl | rfl | rfl
      · rw [a1, b1]
      · rw [a2, b2]
      · rw [a3, b3]⟩ 3
  simp only [hs] at e
  exact e

/-- **C154** (compression and shear across the layers). The modulus for compression across the layers (`i = 2`) and those for shear
across them (`i = 4`, `i = 5`) are the harmonic means of those of the layers. -/
theorem C154_harmonic (n : Nat) (h : Nat → K) (D : Nat → Fin 6 → Fin 6 → K) (R : Fin 6 → Fin 6 → K) (hR : Effective n h D R)
    (i : Fin 6) (hi : i ∈ [(2 : Fin 6), 4, 5]) (h0 : ∀ l < n, ∀ j ∈ [(2 : Fin 6), 4, 5], j ≠ i → D l j i = 0) (hpos : ∀ l < n, 0 < D l i i)
    (hH : 0 < ∑ l ∈ Finset.range n, h l) :
    R i i * ∑ l ∈ Finset.range n, h l / D l i i = ∑ l ∈ Finset.range n, h l := by
  have hs : ∀ (M : Fin 6 → Fin 6 → K) (a : K) j, stress M (Pi.single i a) j = M j i * a := by
    intro M a j
    unfold stress
    rw [Finset.sum_eq_single i (fun j _ hj => by rw [Pi.single_eq_of_ne hj, mul_zero]) (by simp), Pi.single_eq_same]
  have hip : ∀ j ∈ [(0 : Fin 6), 1, 3], j ≠ i := by
    have : ∀ i ∈ [(2 : Fin 6), 4, 5], ∀ j ∈ [(0 : Fin 6), 1, 3], j ≠ i := by decide
    exact this i hi
  have e := hR (Pi.single i (∑ l ∈ Finset.range n, h l / D l i i)) (fun l => Pi.single i ((∑ l ∈ Finset.range n, h l) / D l i i))
    ⟨fun l _ j hj => by rw [Pi.single_eq_of_ne (hip j hj), Pi.single_eq_of_ne (hip j hj)], fun j => by
      by_cases hj : j = i
      · subst hj
        simp only [Pi.single_eq_same, Finset.mul_sum]
        exact Finset.sum_congr rfl fun l _ => by ring
      · simp only [Pi.single_eq_of_ne hj, mul_zero, Finset.sum_const_zero],
    fun l hl m hm j hj => by
      rw [hs, hs]
      by_cases hji : j = i
      · subst hji
        rw [mul_div_cancel₀ _ (hpos l hl).ne', mul_div_cancel₀ _ (hpos m hm).ne']
      · rw [h0 l hl j hj hji, h0 m hm j hj hji, zero_mul, zero_mul]⟩ i
  simp only [hs] at e
  have e1 : ∑ l ∈ Finset.range n, h l * (D l i i * ((∑ l ∈ Finset.range n, h l) / D l i i)) =
      (∑ l ∈ Finset.range n, h l) * ∑ l ∈ Finset.range n, h l := by
    rw [Finset.sum_mul]
    exact Finset.sum_congr rfl fun l hl => by rw [mul_div_cancel₀ _ (hpos l (Finset.mem_range.mp hl)).ne']
  exact mul_left_cancel₀ hH.ne' (e.trans e1)

end Verif.Layers

namespace Verif.PBC

open Verif.BGrid Verif.Asm Verif.ElasticUp
open Verif.Layers (Laminate Effective)

variable {K : Type} [Field K] [LinearOrder K] [IsStrictOrderedRing K] {tol g : K} {N : Fin 3 → Nat} {pts : Fin 3 → Nat → K}

/-- Sums over the cells of a grid of boxes. -/
theorem box_sum (hN : ∀ d, 0 < N d) (G : (Fin 3 → Nat) → K) :
    ((List.range (N 0 * N 1 * N 2)).map fun k => G (digits N k)).sum =
      ∑ a ∈ Finset.range (N 0), ∑ b ∈ Finset.range (N 1), ∑ c ∈ Finset.range (N 2), G ![a, b, c] := by
  have e1 : ((List.range (N 0 * N 1 * N 2)).map fun k => G (digits N k)).sum = ∑ k ∈ Finset.range (N 0 * N 1 * N 2), G (digits N k) := rfl
  have e2 : ∑ a ∈ Finset.range (N 0), ∑ b ∈ Finset.range (N 1), ∑ c ∈ Finset.range (N 2), G ![a, b, c] =
      ∑ p ∈ Finset.range (N 0) ×ˢ (Finset.range (N 1) ×ˢ Finset.range (N 2)), G ![p.1, p.2.1, p.2.2] := by
    rw [Finset.sum_product]
    exact Finset.sum_congr rfl fun a _ => (Finset.sum_product _ _ fun p : Nat × Nat => G ![a, p.1, p.2]).symm
  rw [e1, e2]
  refine Finset.sum_nbij' (fun k => (digits N k 0, digits N k 1, digits N k 2)) (fun p => number N ![p.1, p.2.1, p.2.2]) ?_ ?_ ?_ ?_ ?_
  · intro k hk
    have := digits_lt N hN k (Finset.mem_range.mp hk)
    simp only [Finset.mem_product, Finset.mem_range]
    exact ⟨this 0, this 1, this 2⟩
  · rintro ⟨a, b, c⟩ hp
    simp only [Finset.mem_product, Finset.mem_range] at hp
    refine Finset.mem_range.mpr (number_lt N _ fun d => ?_)
    fin_cases d
    · exact hp.1
    · exact hp.2.1
    · exact hp.2.2
  · intro k _
    exact (congrArg (number N) (by funext d; fin_cases d <;> rfl)).trans (number_digits N k)
  · rintro ⟨a, b, c⟩ hp
    simp only [Finset.mem_product, Finset.mem_range] at hp
    have := digits_number N ![a, b, c] hp.1 hp.2.1
    dsimp only
    rw [this]
    rfl
  · intro k _
    congr 1

/-- **C154** (layered samples). Layers of any number, thickness and material with horizontal interfaces, on a grid of boxes with
periodic boundary conditions: the stresses that the upscaled matrix gives for a mean strain are the mean stresses of the layers. -/
theorem C154_box {srt : (Vertex K → K) → List (Vertex K) → List (Vertex K)} (hs : IsSort srt) (sqrt : K → K) (hS : Spaced tol g N pts)
    (F : List (Shape.Linear K 3)) (hF : Shape.p1Set 3 = some F) (rule : List (K × (Fin 3 → K))) (hr : ExactRule rule)
    (hw : ∀ p ∈ rule, 0 ≤ p.1) :
    ∃ h, periodicBCs srt sqrt tol (boxMesh N pts) (fun d => pts d 0) (fun d => pts d (N d))
        (Handler.new 3 ((N 0 + 1) * (N 1 + 1) * (N 2 + 1))) = some h ∧
      ∀ (S : Sample K) (mat : Nat → Elastic.Material K) (D : Nat → Fin 6 → Fin 6 → K), S.handler = h → 4 ≤ S.fuel → S.tol < 1 →
        S.color.flatten.flatten.Perm (List.range S.cells.length) →
        (S.cells = (List.range (N 0 * N 1 * N 2)).map fun k =>
          ⟨boxCell N (digits N k), mat (digits N k 2), boxPts F rule (edges pts (digits N k))⟩) →
        (∀ l < N 2, ∀ C, ∃ b, (mat l).constitutive false C = some (b, fun i j => D l i j * scale S)) →
        (∀ l < N 2, ∀ i k, D l i k = D l k i) → (∀ l < N 2, ∀ e : Fin 6 → K, 0 ≤ ∑ i, e i * ∑ k, D l i k * e k) →
        (0 < S.Escale → 0 < S.Emin) → ∀ (solver : Nat → (Nat → Nat → K) → (Nat → K) → Nat → K), Exact solver →
        ∃ R : Fin 6 → Fin 6 → K, (∀ m : Fin 6, upscaleCase solver S m = some (R m)) ∧
          Effective (N 2) (fun l => pts 2 (l + 1) - pts 2 l) D R := by
  have hM := box_matched hS
  obtain ⟨h, hh, -⟩ := C99_constraints hs sqrt tol _ _ _ _ hM
  refine ⟨h, hh, fun S mat D hSh hfuel ht hord hcells hmat hsym hpsd hem solver hX => ?_⟩
  let layer : Cell K → Nat := fun c => digits (rad N) (c.vertex.getD 0 0) 2
  have hmem : ∀ c ∈ S.cells, ∃ k, k < N 0 * N 1 * N 2 ∧
      c = ⟨boxCell N (digits N k), mat (digits N k 2), boxPts F rule (edges pts (digits N k))⟩ := by
    intro c hc
    rw [hcells] at hc
    obtain ⟨k, hk, rfl⟩ := List.mem_map.mp hc
    exact ⟨k, List.mem_range.mp hk, rfl⟩
  have hv8 : ∀ k < N 0 * N 1 * N 2, ∀ f < 8, digits (rad N) ((boxCell N (digits N k)).getD f 0) 2 = digits N k 2 + (f.testBit 2).toNat := by
    intro k hk f hf
    rw [cell_getD _ f hf, digits_node _ fun d => corner_le _ (fun d => digits_lt N hS.cells k hk d) f d]
    rfl
  have hlayer : ∀ (c : Cell K) k, k < N 0 * N 1 * N 2 → c.vertex = boxCell N (digits N k) → layer c = digits N k 2 := by
    intro c k hk hc
    change digits (rad N) (c.vertex.getD 0 0) 2 = _
    rw [hc, hv8 k hk 0 (by norm_num)]
    rfl
  have hlt : ∀ c ∈ S.cells, layer c < N 2 := by
    intro c hc
    obtain ⟨k, hk, rfl⟩ := hmem c hc
    rw [hlayer _ k hk rfl]
    exact digits_lt N hS.cells k hk 2
  have hme : Measured S fun c => D (layer c) := box_measured hS F rule hr hw S (fun k => mat (digits N k 2)) _ hord hcells
    (fun c hc C => by
      obtain ⟨k, hk, rfl⟩ := hmem c hc
      beta_reduce
      rw [hlayer _ k hk rfl]
      exact hmat _ (digits_lt N hS.cells k hk 2) C)
    (fun c hc => hsym _ (hlt c hc)) (fun c hc => hpsd _ (hlt c hc)) hem
  have hvert : S.cells.map (·.vertex) = (boxMesh N pts).cells := by rw [hcells, List.map_map]; rfl
  have hlen : S.cells.length = (boxMesh N pts).cells.length := by rw [← hvert, List.length_map]
  have hSh' : periodicBCs srt sqrt tol (boxMesh N pts) (fun d => pts d 0) (fun d => pts d (N d)) (Handler.new 3 (boxMesh N pts).nodes) =
      some S.handler := by rw [hSh]; exact hh
  obtain ⟨hSo, hTie⟩ := C99_sound hs hM S hSh' hvert hfuel _ hme
  have hT := torus_next hs hM S hSh' hvert F hF rule hr (fun c hc => by
    obtain ⟨k, hk, rfl⟩ := hmem c hc
    exact box_hexahedron hS F hF rule _ (fun d => digits_lt N hS.cells k hk d) _ rfl rfl) (boxNext hS.cells) (box_neighbours hS) hlen
  have hvtx : ∀ c : Fin S.cells.length, (S.cells[c]).vertex = boxCell N (digits N c) := by
    intro c
    have := cells_get (pts := pts) (finCongr hlen c)
    simp only [Fin.getElem_fin, ← hvert, List.getElem_map, finCongr_apply, Fin.val_cast] at this
    exact this
  have hclt : ∀ c : Fin S.cells.length, c.val < N 0 * N 1 * N 2 := fun c => lt_of_lt_of_eq c.isLt (hlen.trans cells_length)
  obtain ⟨R, hR, hlam⟩ := layers_torus S D layer hSo ht hTie hT
    (fun a ha c => by
      rw [hlayer _ _ (hclt _) (hvtx _), hlayer _ _ (hclt _) (hvtx _)]
      change digits N (number N (step N (digits N c) a)) 2 = _
      have hst := fun d => step_lt (digits N c) (fun d => digits_lt N hS.cells c (hclt c) d) a d
      rw [digits_number N _ (hst 0) (hst 1)]
      exact Function.update_of_ne (Ne.symm ha) _ _)
    (fun c hc f hf => by
      obtain ⟨k, hk, rfl⟩ := hmem c hc
      simp only [X_eq]
      rw [hv8 k hk f (by omega), hv8 k hk 0 (by norm_num), hv8 k hk (f + 4) (by omega), hv8 k hk 4 (by norm_num)]
      interval_cases f <;> exact ⟨rfl, rfl⟩)
    (N 2) hlt solver hX
  refine ⟨R, hR, fun x t hl i => ?_⟩
  let b : Nat → Nat → K := fun j d => if d = 0 then t j 4 - x 4 else if d = 1 then t j 5 - x 5 else t j 2 - x 2
  let v : Nat → Nat → K := fun n d => ∑ j ∈ Finset.range (digits (rad N) n 2), (pts 2 (j + 1) - pts 2 j) * b j d
  have htel : ∀ n, ∑ j ∈ Finset.range n, (pts 2 (j + 1) - pts 2 j) = pts 2 n - pts 2 0 := fun n => Finset.sum_range_sub (pts 2) n
  have hend : ∀ d, ∑ j ∈ Finset.range (N 2), (pts 2 (j + 1) - pts 2 j) * b j d = 0 := by
    intro d
    have hk : ∀ k, ∑ j ∈ Finset.range (N 2), (pts 2 (j + 1) - pts 2 j) * (t j k - x k) = 0 := by
      intro k
      simp only [mul_sub, Finset.sum_sub_distrib]
      rw [hl.mean k, ← Finset.sum_mul]
      simp only [Finset.sum_sub_distrib, sub_self]
    by_cases h0 : d = 0
    · simp only [b, if_pos h0]; exact hk 4
    · by_cases h1 : d = 1
      · simp only [b, if_neg h0, if_pos h1]; exact hk 5
      · simp only [b, if_neg h0, if_neg h1]; exact hk 2
  have hadm : Admissible S.handler v := by
    rw [C99_periodic hs hM hSh' v]
    refine ⟨fun n hn hc d _ => ?_, fun n hn a ha d _ => ?_⟩
    · rcases hc 2 with h0 | h0
      · have := pts_eq hS 2 _ _ (node_digits n hn 2) (Nat.zero_le _) h0
        change ∑ j ∈ Finset.range (digits (rad N) n 2), _ = _
        rw [this, Finset.sum_range_zero]
      · have := pts_eq hS 2 _ _ (node_digits n hn 2) le_rfl h0
        change ∑ j ∈ Finset.range (digits (rad N) n 2), _ = _
        rw [this]
        exact hend d
    · have ho : digits (rad N) (boxOpp N a n) = Function.update (digits (rad N) n) a 0 := by
        refine digits_node _ fun e => ?_
        by_cases he : e = a
        · rw [he, Function.update_self]; exact Nat.zero_le _
        · rw [Function.update_of_ne he]; exact node_digits n hn e
      change ∑ j ∈ Finset.range (digits (rad N) n 2), _ = ∑ j ∈ Finset.range (digits (rad N) (boxOpp N a n) 2), _
      rw [ho]
      by_cases h2 : a = 2
      · subst h2
        rw [Function.update_self, pts_eq hS 2 _ _ (node_digits n hn 2) le_rfl ha, Finset.sum_range_zero]
        exact hend d
      · rw [Function.update_of_ne (Ne.symm h2)]
  have hfin := hlam x _ t hl v hadm (fun c hc => by
    obtain ⟨k, hk, rfl⟩ := hmem c hc
    rw [hlayer _ k hk rfl]
    refine ⟨fun d => ∑ j ∈ Finset.range (digits N k 2), (pts 2 (j + 1) - pts 2 j) * b j d - b (digits N k 2) d * pts 2 (digits N k 2),
      fun f hf d => ?_⟩
    change ∑ j ∈ Finset.range (digits (rad N) ((boxCell N (digits N k)).getD f 0) 2), _ = _
    rw [X_eq, hv8 k hk f hf]
    have hb : (![t (digits N k 2) 4 - x 4, t (digits N k 2) 5 - x 5, t (digits N k 2) 2 - x 2] : Fin 3 → K) d = b (digits N k 2) d := by
      fin_cases d <;> rfl
    rw [hb]
    cases f.testBit 2
    · simp
    · rw [Bool.toNat_true, Finset.sum_range_succ]
      ring) i
  have hcellsum : ∀ G : Nat → K, (S.cells.map fun c => (c.pts.map fun q => q.w).sum * G (layer c)).sum =
      (∑ a ∈ Finset.range (N 0), (pts 0 (a + 1) - pts 0 a)) * (∑ a ∈ Finset.range (N 1), (pts 1 (a + 1) - pts 1 a)) *
        ∑ l ∈ Finset.range (N 2), (pts 2 (l + 1) - pts 2 l) * G l := by
    intro G
    have e1 : (S.cells.map fun c => (c.pts.map fun q => q.w).sum * G (layer c)) = (List.range (N 0 * N 1 * N 2)).map fun k =>
        (fun m : Fin 3 → Nat => edges pts m 0 * edges pts m 1 * edges pts m 2 * G (m 2)) (digits N k) := by
      rw [hcells, List.map_map]
      refine List.map_congr_left fun k hk => ?_
      simp only [Function.comp_apply]
      rw [hlayer _ k (List.mem_range.mp hk) rfl, boxPts_weight F rule hr]
    rw [e1, box_sum hS.cells fun m : Fin 3 → Nat => edges pts m 0 * edges pts m 1 * edges pts m 2 * G (m 2)]
    rw [Finset.sum_mul, Finset.sum_mul]
    refine Finset.sum_congr rfl fun a _ => ?_
    rw [mul_assoc, Finset.sum_mul_sum, Finset.mul_sum]
    refine Finset.sum_congr rfl fun a' _ => ?_
    rw [Finset.mul_sum]
    refine Finset.sum_congr rfl fun l _ => ?_
    change (pts 0 (a + 1) - pts 0 a) * (pts 1 (a' + 1) - pts 1 a') * (pts 2 (l + 1) - pts 2 l) * G l = _
    ring
  have hvol : volume S.cells = (∑ a ∈ Finset.range (N 0), (pts 0 (a + 1) - pts 0 a)) * (∑ a ∈ Finset.range (N 1), (pts 1 (a + 1) - pts 1 a)) *
      (pts 2 (N 2) - pts 2 0) := by
    have := hcellsum fun _ => 1
    simp only [mul_one] at this
    rw [htel (N 2)] at this
    exact this
  have hv0 : volume S.cells ≠ 0 := hSo.volume.ne'
  rw [hvol] at hfin hv0
  rw [hcellsum fun l => Layers.stress (D l) (t l) i, mul_assoc] at hfin
  rw [htel (N 2)]
  exact mul_left_cancel₀ (left_ne_zero_of_mul hv0) hfin

/-- The hypotheses are met: two layers of different thickness and of different isotropic materials, Simpson's rule. The upscaled shear
moduli are 450/269 across the layers and 161/90 along them, between those of the layers, 6/5 and 25/12. -/
example (solver : Nat → (Nat → Nat → ℚ) → (Nat → ℚ) → Nat → ℚ) (hX : Exact solver) : ∃ (S : Sample ℚ) (R : Fin 6 → Fin 6 → ℚ),
    S.cells.length = 4 ∧ (∀ m : Fin 6, upscaleCase solver S m = some (R m)) ∧ R 4 4 = 450 / 269 ∧ R 3 3 = 161 / 90 := by
  have hsp : Spaced (1 / 10 ^ 6 : ℚ) (1 / 2) ![1, 2, 2] ![fun i => (i : ℚ) * i, fun i => (i : ℚ) / 2, fun i => (i : ℚ) * (i + 1)] := by
    refine ⟨by decide, by norm_num, by norm_num, by norm_num, fun d i hi => ?_⟩
    have h0 : (0 : ℚ) ≤ i := Nat.cast_nonneg i
    fin_cases d
    · change (i : ℚ) * i + 1 / 2 ≤ ((i + 1 : Nat) : ℚ) * ((i + 1 : Nat) : ℚ)
      push_cast
      linarith
    · change (i : ℚ) / 2 + 1 / 2 ≤ ((i + 1 : Nat) : ℚ) / 2
      push_cast
      linarith
    · change (i : ℚ) * (i + 1) + 1 / 2 ≤ ((i + 1 : Nat) : ℚ) * (((i + 1 : Nat) : ℚ) + 1)
      push_cast
      linarith
  obtain ⟨h, hh, hbox⟩ := C154_box isSort_insertion id hsp hexShapes rfl simpson simpson_exact (by decide +kernel)
  obtain ⟨C, hC, h3, h4⟩ := Elastic.C43_posdef (3 : ℚ) (1 / 4) (by norm_num) (by norm_num) (by norm_num)
  obtain ⟨C', hC', h3', h4'⟩ := Elastic.C43_posdef (5 : ℚ) (1 / 5) (by norm_num) (by norm_num) (by norm_num)
  have hn : ∀ (C : Fin 6 → Fin 6 → ℚ), (∀ e : Fin 6 → ℚ, e ≠ 0 → 0 < ∑ i, e i * ∑ k, C i k * e k) → ∀ e : Fin 6 → ℚ, 0 ≤ ∑ i, e i * ∑ k, C i k * e k := by
    intro C h e
    by_cases he : e = 0
    · subst he; simp
    · exact (h e he).le
  have hcon : ∀ (E nu : ℚ) (C B : Fin 6 → Fin 6 → ℚ), Elastic.isoC6 E nu false = (true, C) →
      (Elastic.Material.iso E nu 0 : Elastic.Material ℚ).constitutive false B = some (true, C) := by
    intro E nu C B hC
    exact congrArg some hC
  let S : Sample ℚ := ⟨(List.range 4).map fun k => ⟨boxCell ![1, 2, 2] (digits ![1, 2, 2] k),
      (fun l => if l = 0 then .iso 3 (1 / 4) 0 else .iso 5 (1 / 5) 0) (digits ![1, 2, 2] k 2),
      boxPts hexShapes simpson (edges ![fun i => (i : ℚ) * i, fun i => (i : ℚ) / 2, fun i => (i : ℚ) * (i + 1)] (digits ![1, 2, 2] k))⟩,
    [[[0, 1, 2, 3]]], fun _ _ => 0, 0, 0, 1 / 10 ^ 8, 4, h⟩
  have hsc : scale S = 1 := if_neg (lt_irrefl _)
  obtain ⟨R, hR, hE⟩ := hbox S (fun l => if l = 0 then .iso 3 (1 / 4) 0 else .iso 5 (1 / 5) 0) (fun l => if l = 0 then C else C') rfl le_rfl
    (by change (1 / 10 ^ 8 : ℚ) < 1; norm_num) (List.Perm.refl _) rfl
    (fun l _ B => ⟨true, by
      rw [hsc]
      simp only [mul_one]
      by_cases hl : l = 0
      · simp only [if_pos hl]; exact hcon _ _ _ _ hC
      · simp only [if_neg hl]; exact hcon _ _ _ _ hC'⟩)
    (fun l _ => by
      by_cases hl : l = 0
      · simp only [if_pos hl]; exact h3
      · simp only [if_neg hl]; exact h3')
    (fun l _ => by
      by_cases hl : l = 0
      · simp only [if_pos hl]; exact hn _ h4
      · simp only [if_neg hl]; exact hn _ h4')
    (fun h => absurd h (lt_irrefl _)) solver hX
  have e : ∀ i k, C i k = (Elastic.isoC6 (3 : ℚ) (1 / 4) false).2 i k := fun i k => by rw [hC]
  have e' : ∀ i k, C' i k = (Elastic.isoC6 (5 : ℚ) (1 / 5) false).2 i k := fun i k => by rw [hC']
  refine ⟨S, R, rfl, hR, ?_, ?_⟩
  · have := Layers.C154_harmonic _ _ _ R hE 4 (by decide) (fun l _ j hj hne => by
      by_cases hl : l = 0
      · simp only [if_pos hl, e]; revert j; decide +kernel
      · simp only [if_neg hl, e']; revert j; decide +kernel) (fun l _ => by
      by_cases hl : l = 0
      · simp only [if_pos hl, e]; decide +kernel
      · simp only [if_neg hl, e']; decide +kernel) (by decide +kernel)
    change R 4 4 * ∑ l ∈ Finset.range 2, _ = ∑ l ∈ Finset.range 2, _ at this
    rw [Finset.sum_range_succ, Finset.sum_range_one, Finset.sum_range_succ, Finset.sum_range_one] at this
    simp only [if_pos, if_neg (one_ne_zero), e, e'] at this
    rw [show (Elastic.isoC6 (3 : ℚ) (1 / 4) false).2 4 4 = 6 / 5 by decide +kernel,
      show (Elastic.isoC6 (5 : ℚ) (1 / 5) false).2 4 4 = 25 / 12 by decide +kernel] at this
    simp at this
    norm_num at this
    linarith
  · have := Layers.C154_arithmetic _ _ _ R hE (fun l _ => by
      by_cases hl : l = 0
      · simp only [if_pos hl, e]; decide +kernel
      · simp only [if_neg hl, e']; decide +kernel)
    change (∑ l ∈ Finset.range 2, _) * R 3 3 = ∑ l ∈ Finset.range 2, _ at this
    rw [Finset.sum_range_succ, Finset.sum_range_one, Finset.sum_range_succ, Finset.sum_range_one] at this
    simp only [if_pos, if_neg (one_ne_zero), e, e'] at this
    rw [show (Elastic.isoC6 (3 : ℚ) (1 / 4) false).2 3 3 = 6 / 5 by decide +kernel,
      show (Elastic.isoC6 (5 : ℚ) (1 / 5) false).2 3 3 = 25 / 12 by decide +kernel] at this
    simp at this
    norm_num at this
    linarith

end Verif.PBC
