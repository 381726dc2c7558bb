import Verif.Props.Laminate
import Verif.Lemmas.Turn

/-!
C161: upscaling of turned, moved, enlarged and renumbered elastic samples.
-/

namespace Verif.ElasticUp

open Verif.Elastic Verif.Asm

variable {K : Type} [Field K] [LinearOrder K] [IsStrictOrderedRing K]

theorem admissible_scaled {h : Handler K} {v : Nat → Nat → K} (hv : Admissible h v) (l : K) : Admissible h fun m d => l * v m d := by
  refine ⟨fun n i hp => by beta_reduce; rw [hv.1 n i hp, mul_zero], fun n i m hn hi hm => ?_⟩
  beta_reduce
  rw [hv.2 n i m hn hi hm, ← List.sum_map_mul_left]
  congr 1
  exact List.map_congr_left fun a _ => by ring

section
variable {S S' : Sample K} {D D' : Cell K → Fin 6 → Fin 6 → K} {F : List (Shape.Linear K 3)} {rule : List (K × (Fin 3 → K))}
  {X X' : Nat → Fin 3 → K} {Q : Fin 3 → Fin 3 → K} {l : K} {o : Fin 3 → K} {node : Equiv.Perm Nat}
  {cell : Fin S.cells.length ≃ Fin S'.cells.length} {vertex : Fin S.cells.length → Local}

theorem turned_vertex (hT : Turned S S' D D' F rule X X' Q l o node cell vertex) (c : Fin S.cells.length) (f : Nat) (hf : f < 8) :
    (S'.cells[cell c]).vertex.getD ((vertex c).tau f) 0 = node ((S.cells[c]).vertex.getD f 0) :=
  hT.vertices c f hf _ (tau_lt _ f) fun k => tau_bits (vertex c) f k

theorem turned_jacobian (hT : Turned S S' D D' F rule X X' Q l o node cell vertex) (c : Fin S.cells.length) (x : Fin 3 → K) (d k : Fin 3) :
    jacobian F X' S'.cells[cell c] ((vertex c).point x) d k =
      l * ∑ e, Q d e * ((vertex c).sign k * jacobian F X S.cells[c] x e ((vertex c).axis k)) :=
  turn_jacobian F hT.shapes X X' _ _ Q l o (vertex c) (fun f hf d => by rw [turned_vertex hT c f hf, hT.places]) x d k

/-- Weights are not negative, so the sign of the determinant is that of the numbering. -/
theorem turned_weight (hS : Sound S D) (hS' : Sound S' D') (hT : Turned S S' D D' F rule X X' Q l o node cell vertex)
    (c : Fin S.cells.length) (p : K × (Fin 3 → K)) (hp : p ∈ rule) (hp' : (p.1, (vertex c).point p.2) ∈ rule) :
    p.1 * (Matrix.of (jacobian F X' S'.cells[cell c] ((vertex c).point p.2))).det =
      l ^ 3 * (p.1 * (Matrix.of (jacobian F X S.cells[c] p.2)).det) := by
  obtain ⟨q, hq, e⟩ := turn_det hT.rotation l (vertex c) _ _ (turned_jacobian hT c p.2)
  have h1 : 0 ≤ p.1 * (Matrix.of (jacobian F X S.cells[c] p.2)).det := by
    obtain ⟨I, -, hpt⟩ := hT.hexahedra _ (List.getElem_mem c.isLt)
    have := hS.weight _ (List.getElem_mem c.isLt)
    rw [hpt] at this
    exact this _ (List.mem_map.mpr ⟨p, hp, rfl⟩)
  have h2 : 0 ≤ p.1 * (Matrix.of (jacobian F X' S'.cells[cell c] ((vertex c).point p.2))).det := by
    obtain ⟨I, -, hpt⟩ := hT.hexahedra' _ (List.getElem_mem (cell c).isLt)
    have := hS'.weight _ (List.getElem_mem (cell c).isLt)
    rw [hpt] at this
    exact this _ (List.mem_map.mpr ⟨_, hp', rfl⟩)
  have hl3 : 0 < l ^ 3 := pow_pos hT.larger 3
  have h3 : q = 1 ∨ q = -1 := mul_self_eq_one_iff.mp hq
  have h4 : p.1 * (Matrix.of (jacobian F X' S'.cells[cell c] ((vertex c).point p.2))).det =
      q * (l ^ 3 * (p.1 * (Matrix.of (jacobian F X S.cells[c] p.2)).det)) := by
    rw [e]; ring
  rcases h3 with rfl | rfl
  · rw [h4, one_mul]
  · have h5 := mul_nonneg hl3.le h1
    rw [h4] at h2 ⊢
    linarith

theorem turned_rule (hT : Turned S S' D D' F rule X X' Q l o node cell vertex) (c : Fin S.cells.length) (h : K × (Fin 3 → K) → K) :
    (rule.map h).sum = (rule.map fun p => h (p.1, (vertex c).point p.2)).sum := by
  have := ((hT.symmetric c).map h).sum_eq
  rw [List.map_map] at this
  exact this.symm

theorem turned_mem (hT : Turned S S' D D' F rule X X' Q l o node cell vertex) (c : Fin S.cells.length) {p : K × (Fin 3 → K)} (hp : p ∈ rule) :
    (p.1, (vertex c).point p.2) ∈ rule := (hT.symmetric c).subset (List.mem_map.mpr ⟨p, hp, rfl⟩)

theorem turned_volume (hS : Sound S D) (hS' : Sound S' D') (hT : Turned S S' D D' F rule X X' Q l o node cell vertex) :
    volume S'.cells = l ^ 3 * volume S.cells := by
  unfold volume
  rw [← Fin.sum_univ_fun_getElem, ← Fin.sum_univ_fun_getElem, ← Equiv.sum_comp cell, Finset.mul_sum]
  refine Finset.sum_congr rfl fun c _ => ?_
  obtain ⟨I, -, hp⟩ := hT.hexahedra _ (List.getElem_mem c.isLt)
  obtain ⟨I', -, hp'⟩ := hT.hexahedra' _ (List.getElem_mem (cell c).isLt)
  rw [hp, hp', List.map_map, List.map_map, turned_rule hT c, ← List.sum_map_mul_left]
  congr 1
  apply List.map_congr_left
  intro p hpr
  exact turned_weight hS hS' hT c p hpr (turned_mem hT c hpr)

theorem point_work (hQ : Rotation Q) {M M' : Fin 6 → Fin 6 → K} (hM : TurnedMatrix Q M M') (x e e' : Fin 6 → K) (w w' r : K)
    (he : e' = turnStrain Q e) (hw : w' = r * w) :
    w' * ∑ i, (turnStrain Q x i + e' i) * ∑ k, M' i k * (turnStrain Q x k + e' k) =
      r * (w * ∑ i, (x i + e i) * ∑ k, M i k * (x k + e k)) := by
  have h1 := turn_work hQ hM (fun i => x i + e i) (fun i => x i + e i)
  simp only [turnStrain_add] at h1
  rw [he, hw, h1]
  ring

omit [LinearOrder K] [IsStrictOrderedRing K] in
theorem rule_sum {α : Type} {rule : List (K × (Fin 3 → K))} (φ : Local) (hrule : (rule.map fun p => (p.1, φ.point p.2)).Perm rule)
    (f f' : α → K) (pt pt' : K × (Fin 3 → K) → α) (r : K) (h : ∀ p ∈ rule, f' (pt' (p.1, φ.point p.2)) = r * f (pt p)) :
    ((rule.map pt').map f').sum = r * ((rule.map pt).map f).sum := by
  have h1 := ((hrule.map pt').map f').sum_eq
  rw [← h1, List.map_map, List.map_map, List.map_map, ← List.sum_map_mul_left]
  congr 1
  exact List.map_congr_left h

theorem cell_energy (hF : Shape.p1Set 3 = some F) (hQ : Rotation Q) (hl : l ≠ 0) (φ : Local) (c c' : Cell K)
    (hc : Hexahedron F X rule c) (hc' : Hexahedron F X' rule c') (hrule : (rule.map fun p => (p.1, φ.point p.2)).Perm rule)
    (hjac : ∀ x d k, jacobian F X' c' (φ.point x) d k = l * ∑ e, Q d e * (φ.sign k * jacobian F X c x e (φ.axis k)))
    (hw : ∀ p ∈ rule, p.1 * (Matrix.of (jacobian F X' c' (φ.point p.2))).det = l ^ 3 * (p.1 * (Matrix.of (jacobian F X c p.2)).det))
    (M M' : Fin 6 → Fin 6 → K) (hM : TurnedMatrix Q M M') (x : Fin 6 → K) (v v' : Nat → Nat → K)
    (hv : ∀ f < 8, ∀ d : Fin 3, v' (c'.vertex.getD (φ.tau f) 0) d = l * ∑ e : Fin 3, Q d e * v (c.vertex.getD f 0) e) :
    (c'.pts.map fun q => q.w * ∑ i, (turnStrain Q x i + strainAt v' c' q i) * ∑ k, M' i k * (turnStrain Q x k + strainAt v' c' q k)).sum =
      l ^ 3 * (c.pts.map fun q => q.w * ∑ i, (x i + strainAt v c q i) * ∑ k, M i k * (x k + strainAt v c q k)).sum := by
  obtain ⟨I, hI, hp⟩ := hc
  obtain ⟨I', hI', hp'⟩ := hc'
  rw [hp, hp']
  refine rule_sum φ hrule _ _ _ _ _ fun p hpr => ?_
  have hpr' : (p.1, φ.point p.2) ∈ rule := hrule.subset (List.mem_map.mpr ⟨p, hpr, rfl⟩)
  have hI2 : ∀ d e, ∑ k, jacobian F X' c' (φ.point p.2) d k * I' (φ.point p.2) e k = if d = e then 1 else 0 := by
    intro d e
    have h := hI' (p.1, φ.point p.2) hpr' d e
    dsimp only at h
    exact h
  have hinv : ∀ e k, I' (φ.point p.2) e k = l⁻¹ * ∑ g, Q e g * (φ.sign k * I p.2 g (φ.axis k)) :=
    turn_inverse hQ l hl φ (jacobian F X c p.2) (jacobian F X' c' (φ.point p.2)) (I p.2) (I' (φ.point p.2)) (hjac p.2) (hI p hpr) hI2
  have hs := strain_turned F hF l hl φ c c' v v' (p.1 * (Matrix.of (jacobian F X c p.2)).det)
    (p.1 * (Matrix.of (jacobian F X' c' (φ.point p.2))).det) (I p.2) (I' (φ.point p.2)) p.2 hinv hv
  have hfin := point_work hQ hM x _ _ _ _ (l ^ 3) hs (hw p hpr)
  exact hfin

theorem turned_energy (hS : Sound S D) (hS' : Sound S' D') (hT : Turned S S' D D' F rule X X' Q l o node cell vertex) (x : Fin 6 → K)
    (v v' : Nat → Nat → K) (hv : ∀ m, ∀ d : Fin 3, v' (node m) d = l * ∑ e : Fin 3, Q d e * v m e) :
    energy D' S'.cells (turnStrain Q x) v' = l ^ 3 * energy D S.cells x v := by
  unfold energy
  rw [← Fin.sum_univ_fun_getElem, ← Fin.sum_univ_fun_getElem, ← Equiv.sum_comp cell, Finset.mul_sum]
  refine Finset.sum_congr rfl fun c _ => ?_
  exact cell_energy hT.shapes hT.rotation hT.larger.ne' (vertex c) _ _ (hT.hexahedra _ (List.getElem_mem c.isLt))
    (hT.hexahedra' _ (List.getElem_mem (cell c).isLt)) (hT.symmetric c) (turned_jacobian hT c)
    (fun p hp => turned_weight hS hS' hT c p hp (turned_mem hT c hp)) _ _ (hT.material c) x v v'
    (fun f hf d => (congrArg (fun m => v' m d) (turned_vertex hT c f hf)).trans (hv _ d))

/-- **C161**. An elastic sample that is turned or mirrored, moved, enlarged and whose cells, nodes and local vertices are
numbered differently has the same upscaled
elasticity matrix, in turned axes: the stress of a turned strain is the turned stress. -/
theorem C161_turned (hS : Sound S D) (hS' : Sound S' D') (ht : S.tol < 1) (ht' : S'.tol < 1)
    (h0 : ∀ s c, S.handler.mpcs s = some c → Tie c) (h0' : ∀ s c, S'.handler.mpcs s = some c → Tie c)
    (hT : Turned S S' D D' F rule X X' Q l o node cell vertex) (solver : Nat → (Nat → Nat → K) → (Nat → K) → Nat → K) (hX : Exact solver) :
    ∃ R R' : Fin 6 → Fin 6 → K, (∀ m : Fin 6, upscaleCase solver S m = some (R m)) ∧ (∀ m : Fin 6, upscaleCase solver S' m = some (R' m)) ∧
      TurnedMatrix Q R R' := by
  obtain ⟨R, h1, h2, h3⟩ := C94_ties S D hS ht h0 solver hX
  obtain ⟨R', h1', h2', h3'⟩ := C94_ties S' D' hS' ht' h0' solver hX
  refine ⟨R, R', h1, h1', ?_⟩
  have hl3 : 0 < l ^ 3 := pow_pos hT.larger 3
  have hform : ∀ x : Fin 6 → K, ∑ m, turnStrain Q x m * ∑ n, R' m n * turnStrain Q x n = ∑ m, x m * ∑ n, R m n * x n := by
    intro x
    have key : volume S'.cells * ∑ m, turnStrain Q x m * ∑ n, R' m n * turnStrain Q x n =
        l ^ 3 * (volume S.cells * ∑ m, x m * ∑ n, R m n * x n) := by
      apply le_antisymm
      · obtain ⟨v, hv, e⟩ := (h3 x).1
        rw [e, ← turned_energy hS hS' hT x v (fun m d => l * turnDisplacement Q node v m d) (fun m d => by
          simp only [turnDisplacement, Fin.is_lt, dif_pos, Equiv.symm_apply_apply])]
        exact (h3' (turnStrain Q x)).2 _ (admissible_scaled (hT.constraints v hv) l)
      · obtain ⟨v', hv', e⟩ := (h3' (turnStrain Q x)).1
        have hv := admissible_scaled (hT.constraints' v' hv') l⁻¹
        rw [e, turned_energy hS hS' hT x _ v' (fun m d => ?_)]
        · exact mul_le_mul_of_nonneg_left ((h3 x).2 _ hv) hl3.le
        · simp only [turnDisplacement, Fin.is_lt, dif_pos, Equiv.symm_symm, Fin.eta]
          have h4 : ∀ g : Fin 3, ∑ e : Fin 3, Q d e * Q g e = if d = g then 1 else 0 := fun g => hT.rotation.orth' d g
          have h5 : l * ∑ e : Fin 3, Q d e * (l⁻¹ * ∑ g : Fin 3, Q g e * v' (node m) g) =
              ∑ g : Fin 3, (∑ e : Fin 3, Q d e * Q g e) * v' (node m) g := by
            simp only [Finset.sum_mul, Finset.mul_sum]
            rw [Finset.sum_comm]
            refine Finset.sum_congr rfl fun g _ => Finset.sum_congr rfl fun e _ => ?_
            have := hT.larger.ne'
            field_simp
          rw [h5]
          simp only [h4]
          simp
    rw [turned_volume hS hS' hT, mul_assoc] at key
    exact mul_left_cancel₀ hS.volume.ne' (mul_left_cancel₀ hl3.ne' key)
  have hbil : ∀ x y : Fin 6 → K, ∑ m, turnStrain Q y m * ∑ n, R' m n * turnStrain Q x n = ∑ m, y m * ∑ n, R m n * x n := by
    intro x y
    have a := form_shift R h2 x y 1
    have b := form_shift R' h2' (turnStrain Q x) (turnStrain Q y) 1
    have c := hform fun i => x i + y i
    simp only [turnStrain_add] at c
    simp only [one_mul] at a b
    rw [a, b, hform x, hform y] at c
    linarith
  intro x
  have hall : ∀ H : Fin 3 → Fin 3 → K, ∑ d, ∑ e, stressOf R' (turnStrain Q x) d e * turn Q H d e = ∑ d, ∑ e, stressOf R x d e * H d e := by
    intro H
    unfold stressOf
    rw [← strain_pair, ← strain_pair, strain_turn]
    have := hbil x (Spec.strain3 H)
    refine Eq.trans ?_ (this.trans ?_)
    · exact Finset.sum_congr rfl fun i _ => mul_comm _ _
    · exact Finset.sum_congr rfl fun i _ => mul_comm _ _
  funext d e
  have h4 := hall (turn (fun d e => Q e d) fun a b => if a = d ∧ b = e then 1 else 0)
  rw [turn_back hT.rotation, ← turn_pair hT.rotation (stressOf R x), turn_back hT.rotation] at h4
  beta_reduce at h4
  have h5 : ∀ A : Fin 3 → Fin 3 → K, ∑ a, ∑ b, A a b * (if a = d ∧ b = e then 1 else 0) = A d e := by
    intro A
    simp [ite_and]
  rw [h5, h5] at h4
  exact h4

/-- **C161** (symmetric samples). A sample that a rotation or reflection turns into itself, up to numbering and place, has an elasticity matrix with
this symmetry. -/
theorem C161_symmetric {cell : Fin S.cells.length ≃ Fin S.cells.length} (hS : Sound S D) (ht : S.tol < 1)
    (h0 : ∀ s c, S.handler.mpcs s = some c → Tie c)
    (hT : Turned S S D D F rule X X Q l o node cell vertex) (solver : Nat → (Nat → Nat → K) → (Nat → K) → Nat → K) (hX : Exact solver) :
    ∃ R : Fin 6 → Fin 6 → K, (∀ m : Fin 6, upscaleCase solver S m = some (R m)) ∧ TurnedMatrix Q R R := by
  obtain ⟨R, R', h1, h2, h3⟩ := C161_turned hS hS ht ht h0 h0 hT solver hX
  have : R' = R := funext fun m => Option.some.inj ((h2 m).symm.trans (h1 m))
  exact ⟨R, h1, this ▸ h3⟩

end

/-! ### A sample that is its own mirror image -/

/-- Nodes exchange places in the second direction. -/
def flipNode : Equiv.Perm Nat where
  toFun n := if n / 3 % 2 = 0 then n + 3 else n - 3
  invFun n := if n / 3 % 2 = 0 then n + 3 else n - 3
  left_inv n := by
    beta_reduce
    split <;> split <;> omega
  right_inv n := by
    beta_reduce
    split <;> split <;> omega

theorem flipNode_apply (n : Nat) : flipNode n = if n / 3 % 2 = 0 then n + 3 else n - 3 := rfl

theorem flipNode_symm (n : Nat) : flipNode.symm n = flipNode n := rfl

theorem flipNode_lt (n : Nat) (h : n < 12) : flipNode n < 12 ∧ flipNode n % 3 = n % 3 := by
  rw [flipNode_apply]
  split <;> omega

theorem bar_admissible_of (v : Nat → Nat → ℚ) (h0 : ∀ n < 12, ∀ i < 3, n % 3 ≠ 1 → v n i = 0)
    (h1 : ∀ n < 12, ∀ i < 3, n % 3 = 1 → v n i = v 1 i) : Admissible barHandler v := by
  refine ⟨fun n i hp => ?_, fun n i m hn hi hm => ?_⟩
  · obtain ⟨f, hf, hb⟩ := hp
    obtain ⟨hn, rfl⟩ := bar_fixed hf
    have hi : i < 3 := by
      by_contra hi
      have : Nat.testBit 7 i = false := Nat.testBit_lt_two_pow (lt_of_lt_of_le (by norm_num) (Nat.pow_le_pow_right (by norm_num) (Nat.le_of_not_lt hi)))
      rw [this] at hb
      cases hb
    simp at hn
    exact h0 n (by omega) i hi (by omega)
  · have hm' : barHandler.mpcs (n * 3 + i) = some m := hm
    have hi' : i < 3 := hi
    have hn' : n < 12 := hn
    obtain ⟨a, ha, rfl⟩ := bar_mpcs hm'
    have e1 : n % 3 = 1 := by omega
    have e2 : a % 3 = 1 := by omega
    have e3 : (n * 3 + i) % 3 = i := by omega
    have e4 : a < 12 := by omega
    simp [e3, h1 n hn' i hi' e1, h1 a e4 i hi' e2]

theorem bar_values (v : Nat → Nat → ℚ) (h : Admissible barHandler v) (n : Nat) (hn : n < 12) (i : Nat) (hi : i < 3) :
    v n i = if n % 3 = 1 then v 1 i else 0 := by
  obtain ⟨g0, g4, g7, g10⟩ := bar_admissible v h i hi
  interval_cases n <;> first | rfl | exact g0 _ (by decide) | exact g4 | exact g7 | exact g10.trans g7

/-- Reflection of the second axis. -/
def flipQ : Fin 3 → Fin 3 → ℚ := ![![1, 0, 0], ![0, -1, 0], ![0, 0, 1]]

theorem flip_admissible (Q : Fin 3 → Fin 3 → ℚ) (v : Nat → Nat → ℚ) (h : Admissible barHandler v) :
    Admissible barHandler (turnDisplacement Q flipNode v) := by
  have hv : ∀ n < 12, ∀ i (hi : i < 3), turnDisplacement Q flipNode v n i = if n % 3 = 1 then ∑ e : Fin 3, Q ⟨i, hi⟩ e * v 1 e else 0 := by
    intro n hn i hi
    unfold turnDisplacement
    rw [dif_pos hi, flipNode_symm]
    obtain ⟨f1, f2⟩ := flipNode_lt n hn
    have : ∀ e : Fin 3, v (flipNode n) e = if n % 3 = 1 then v 1 e else 0 := by
      intro e
      rw [bar_values v h _ f1 e e.isLt, f2]
    simp only [this]
    split <;> simp
  refine bar_admissible_of _ (fun n hn i hi h1 => ?_) fun n hn i hi h1 => ?_
  · rw [hv n hn i hi, if_neg h1]
  · rw [hv n hn i hi, hv 1 (by decide) i hi, if_pos h1]
    rfl

def flipVertex : Local := ⟨1, ![false, true, false]⟩

theorem iso_flipped (M : Fin 6 → Fin 6 → ℚ) (a b c : ℚ) (h : ∀ i j, M i j =
    ![![a, b, b, 0, 0, 0], ![b, a, b, 0, 0, 0], ![b, b, a, 0, 0, 0], ![0, 0, 0, c, 0, 0], ![0, 0, 0, 0, c, 0], ![0, 0, 0, 0, 0, c]] i j) :
    TurnedMatrix flipQ M M := by
  intro x
  funext d e
  have hx : turnStrain flipQ x = ![x 0, x 1, x 2, -x 3, x 4, -x 5] := by
    funext i
    fin_cases i <;> simp [turnStrain, Spec.strain3, turn, sym3, flipQ, Fin.sum_univ_three] <;> ring
  rw [hx]
  unfold stressOf
  simp only [h]
  fin_cases d <;> fin_cases e <;> simp [stress3, turn, flipQ, Fin.sum_univ_three, Fin.sum_univ_six]

theorem straight_turned : Turned (Straight.bar 0 (5 / 2) 5) (Straight.bar 0 (5 / 2) 5) (barD 0) (barD 0) hexShapes simpson
    Straight.barX Straight.barX flipQ 1 ![0, 1, 0] flipNode (Equiv.refl _) (fun _ => flipVertex) where
  shapes := shapes_eq
  rotation := ⟨by decide +kernel, by decide +kernel⟩
  larger := one_pos
  hexahedra := (Straight.bar_torus 0 _ _).hexahedra
  hexahedra' := (Straight.bar_torus 0 _ _).hexahedra
  symmetric := by
    intro c
    change (simpson.map fun p => (p.1, flipVertex.point p.2)).Perm simpson
    decide +kernel
  vertices := by
    intro c
    refine straight_cells (fun c => ∀ f < 8, ∀ f' < 8, (∀ k : Fin 3, f'.testBit k = (f.testBit (flipVertex.axis k) != flipVertex.down k)) →
      c.vertex.getD f' 0 = flipNode (c.vertex.getD f 0)) _ _ ?_ ?_ _ (List.getElem_mem _)
    · simp only [Straight.barCell, flipNode_apply]
      decide +kernel
    · simp only [Straight.barCell, flipNode_apply]
      decide +kernel
  places := by
    intro m d
    rw [flipNode_apply]
    have h3 : (if m / 3 % 2 = 0 then m + 3 else m - 3) % 3 = m % 3 := by split <;> omega
    have h6 : (if m / 3 % 2 = 0 then m + 3 else m - 3) / 6 = m / 6 := by split <;> omega
    have h2 : (if m / 3 % 2 = 0 then m + 3 else m - 3) / 3 % 2 = 1 - m / 3 % 2 := by split <;> omega
    fin_cases d
    · simp [Straight.barX, flipQ, Fin.sum_univ_three, h3]
    · simp only [Straight.barX, h2]
      rcases Nat.mod_two_eq_zero_or_one (m / 3) with h | h <;> simp [h, flipQ, Fin.sum_univ_three]
    · simp [Straight.barX, flipQ, Fin.sum_univ_three, h6]
  material := by
    intro c
    refine straight_cells (fun c => TurnedMatrix flipQ (barD 0 c) (barD 0 c)) _ _ ?_ ?_ _ (List.getElem_mem _)
    · exact iso_flipped _ 3 1 1 (by decide +kernel)
    · exact iso_flipped _ 6 2 2 (by decide +kernel)
  constraints := fun v hv => flip_admissible _ v hv
  constraints' := fun v hv => flip_admissible _ v hv

/-- The sample is its own mirror image, so stretching along the axis causes no shear stress in the plane of the first two axes. -/
example (solver : Nat → (Nat → Nat → ℚ) → (Nat → ℚ) → Nat → ℚ) (hX : Exact solver) :
    ∃ R : Fin 6 → Fin 6 → ℚ, (∀ m : Fin 6, upscaleCase solver (Straight.bar 0 (5 / 2) 5) m = some (R m)) ∧ R 3 0 = 0 := by
  obtain ⟨R, h1, h2⟩ := C161_symmetric (Straight.bar_sound 0 (5 / 2) 5 (by norm_num) (by norm_num))
    (by unfold Straight.bar Straight.barOf; norm_num) (Straight.bar_ties 0 _ _) straight_turned solver hX
  refine ⟨R, h1, ?_⟩
  have h3 := congrFun (congrFun (h2 (Pi.single 0 1)) 0) 1
  have hx : turnStrain flipQ (Pi.single 0 1) = Pi.single 0 1 := by
    funext i
    fin_cases i <;> simp [turnStrain, Spec.strain3, turn, sym3, flipQ, Fin.sum_univ_three]
  rw [hx] at h3
  simp [stressOf, stress3, turn, flipQ, Fin.sum_univ_three, Pi.single_apply] at h3
  linarith

end Verif.ElasticUp
