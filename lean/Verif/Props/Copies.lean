import Verif.Props.Turn
import Verif.Spec.Copies

/-!
C162: a sample that consists of copies of a periodic sample has the same upscaled elasticity matrix.
-/

namespace Verif.ElasticUp

open Verif.Elastic Verif.Asm

variable {K : Type} [Field K] [LinearOrder K] [IsStrictOrderedRing K]

section
variable {S S' : Sample K} {D D' : Cell K → Fin 6 → Fin 6 → K} {F : List (Shape.Linear K 3)} {rule : List (K × (Fin 3 → K))}
  {X X' : Nat → Fin 3 → K} {tie tie' : Nat → Nat → Prop} {corner corner' N : Nat} {node : Fin N → Nat → Nat}
  {offset : Fin N → Fin 3 → K} {cell : Fin N × Fin S.cells.length ≃ Fin S'.cells.length}

omit [Field K] [LinearOrder K] [IsStrictOrderedRing K] in
theorem getD_copy (l : List Nat) (f : Nat) (hf : f < l.length) (g : Nat → Nat) : (l.map g).getD f 0 = g (l.getD f 0) ∧ l.getD f 0 ∈ l := by
  have e : l.getD f 0 = l[f] := by simp [List.getD, hf]
  rw [e]
  exact ⟨by simp [List.getD, hf], List.getElem_mem hf⟩

/-- The copy of a vertex is the vertex of the copy. -/
theorem copy_vertex (hS : Sound S D) (hC : Copies S S' D D' F rule X X' tie tie' corner corner' N node offset cell) (k : Fin N)
    (c : Fin S.cells.length) (f : Nat) (hf : f < 8) :
    (S'.cells[cell (k, c)]).vertex.getD f 0 = node k ((S.cells[c]).vertex.getD f 0) ∧ (S.cells[c]).vertex.getD f 0 < S.handler.nodes := by
  have h8 : (S.cells[c]).vertex.length = 8 := hS.corners _ (List.getElem_mem c.isLt)
  obtain ⟨h1, h2⟩ := getD_copy (S.cells[c]).vertex f (by omega) (node k)
  exact ⟨(congrArg (fun l => l.getD f 0) (hC.vertices k c)).trans h1, hS.inside _ (List.getElem_mem c.isLt) _ h2⟩

omit [IsStrictOrderedRing K] in
/-- A matrix has one inverse. -/
theorem inverse_unique {J I I' : Fin 3 → Fin 3 → K} (h : ∀ d e, ∑ k, J d k * I e k = if d = e then 1 else 0)
    (h' : ∀ d e, ∑ k, J d k * I' e k = if d = e then 1 else 0) : I = I' := by
  have a : Matrix.of J * (Matrix.of I).transpose = 1 := by
    ext d e
    simp [Matrix.mul_apply, h, Matrix.one_apply]
  have b : Matrix.of J * (Matrix.of I').transpose = 1 := by
    ext d e
    simp [Matrix.mul_apply, h', Matrix.one_apply]
  have c : (Matrix.of I).transpose = (Matrix.of I').transpose := by
    have a' := mul_eq_one_comm.mp a
    calc (Matrix.of I).transpose = (Matrix.of I).transpose * (Matrix.of J * (Matrix.of I').transpose) := by rw [b, mul_one]
      _ = (Matrix.of I').transpose := by rw [← mul_assoc, a', one_mul]
  exact Matrix.of.injective (Matrix.transpose_injective c)

theorem copy_jacobian (hF : Shape.p1Set 3 = some F) (c c' : Cell K) (o : Fin 3 → K)
    (hX : ∀ f < 8, ∀ d, X' (c'.vertex.getD f 0) d = X (c.vertex.getD f 0) d + o d) (x : Fin 3 → K) :
    jacobian F X' c' x = jacobian F X c x := by
  funext d k
  unfold jacobian
  have : ∀ f ∈ Finset.range 8, X' (c'.vertex.getD f 0) d * refGrad F x f k =
      X (c.vertex.getD f 0) d * refGrad F x f k + o d * refGrad F x f k := by
    intro f hf
    rw [hX f (Finset.mem_range.mp hf) d]
    ring
  rw [Finset.sum_congr rfl this, Finset.sum_add_distrib, ← Finset.mul_sum, grad_zero F hF, mul_zero, add_zero]

theorem copy_points (hF : Shape.p1Set 3 = some F) (c c' : Cell K) (o : Fin 3 → K)
    (hX : ∀ f < 8, ∀ d, X' (c'.vertex.getD f 0) d = X (c.vertex.getD f 0) d + o d)
    (hc : Hexahedron F X rule c) (hc' : Hexahedron F X' rule c') : c'.pts = c.pts := by
  have hj := copy_jacobian hF c c' o hX
  obtain ⟨I, hI, hp⟩ := hc
  obtain ⟨I', hI', hp'⟩ := hc'
  rw [hp, hp']
  refine List.map_congr_left fun p hpr => ?_
  have : I p.2 = I' p.2 := inverse_unique (hI p hpr) fun d e => by rw [← hj]; exact hI' p hpr d e
  rw [this, hj]

theorem copy_pts (hS : Sound S D) (hC : Copies S S' D D' F rule X X' tie tie' corner corner' N node offset cell) (k : Fin N)
    (c : Fin S.cells.length) : (S'.cells[cell (k, c)]).pts = (S.cells[c]).pts :=
  copy_points hC.shapes _ _ (offset k) (fun f hf d => by
      obtain ⟨h1, h2⟩ := copy_vertex hS hC k c f hf
      rw [h1, hC.places k _ h2]) (hC.hexahedra _ (List.getElem_mem c.isLt))
    (hC.hexahedra' _ (List.getElem_mem (cell (k, c)).isLt))

theorem copies_volume (hS : Sound S D) (hC : Copies S S' D D' F rule X X' tie tie' corner corner' N node offset cell) :
    volume S'.cells = N * volume S.cells := by
  unfold volume
  rw [← Fin.sum_univ_fun_getElem, ← Fin.sum_univ_fun_getElem, ← Equiv.sum_comp cell, Fintype.sum_prod_type]
  have : ∀ k : Fin N, ∑ c : Fin S.cells.length, ((S'.cells[cell (k, c)]).pts.map fun q => q.w).sum =
      ∑ c : Fin S.cells.length, ((S.cells[c]).pts.map fun q => q.w).sum := by
    intro k
    exact Finset.sum_congr rfl fun c _ => by rw [copy_pts hS hC]
  refine (Finset.sum_congr rfl fun k _ => this k).trans ?_
  simp

omit [LinearOrder K] [IsStrictOrderedRing K] in
theorem strainAt_moved (v v' : Nat → Nat → K) (c c' : Cell K) (q : QP K 6) (i : Fin 6)
    (h : ∀ f < 8, ∀ d < 3, v' (c'.vertex.getD f 0) d = v (c.vertex.getD f 0) d) : strainAt v' c' q i = strainAt v c q i := by
  unfold strainAt
  refine Finset.sum_congr rfl fun j hj => ?_
  have := Finset.mem_range.mp hj
  rw [h (j / 3) (by omega) (j % 3) (by omega)]

omit [LinearOrder K] [IsStrictOrderedRing K] in
theorem cell_copy (M M' : Fin 6 → Fin 6 → K) (p p' : List (QP K 6)) (e : (QP K 6 → Fin 6 → K) × (QP K 6 → Fin 6 → K))
    (x : Fin 6 → K) (hp : p' = p) (hM : M' = M) (he : ∀ q i, e.2 q i = e.1 q i) :
    (p'.map fun q => q.w * ∑ i, (x i + e.2 q i) * ∑ k, M' i k * (x k + e.2 q k)).sum =
      (p.map fun q => q.w * ∑ i, (x i + e.1 q i) * ∑ k, M i k * (x k + e.1 q k)).sum := by
  subst hp hM
  simp only [he]

/-- The energy of the copies adds up. -/
theorem copies_energy (hS : Sound S D) (hC : Copies S S' D D' F rule X X' tie tie' corner corner' N node offset cell) (x : Fin 6 → K)
    (v' : Nat → Nat → K) : energy D' S'.cells x v' = ∑ k : Fin N, energy D S.cells x fun m i => v' (node k m) i := by
  unfold energy
  rw [← Fin.sum_univ_fun_getElem, ← Equiv.sum_comp cell, Fintype.sum_prod_type]
  refine Finset.sum_congr rfl fun k _ => ?_
  rw [← Fin.sum_univ_fun_getElem]
  refine Finset.sum_congr rfl fun c _ => ?_
  have hs : ∀ q i, strainAt v' S'.cells[cell (k, c)] q i = strainAt (fun m i => v' (node k m) i) S.cells[c] q i := fun q i =>
    strainAt_moved _ _ _ _ q i fun f hf d _ => by rw [(copy_vertex hS hC k c f hf).1]
  exact cell_copy _ _ _ _ (_, _) x (copy_pts hS hC k c) (hC.material k c) hs

/-- A quadratic form at the mean is at most the mean of the form. -/
theorem form_mean (M : Fin 6 → Fin 6 → K) (hM : ∀ e : Fin 6 → K, 0 ≤ ∑ i, e i * ∑ k, M i k * e k) (e : Fin N → Fin 6 → K) (hN : 0 < N) :
    (N : K) * ∑ i, ((∑ k, e k i) / N) * ∑ j, M i j * ((∑ k, e k j) / N) ≤ ∑ k, ∑ i, e k i * ∑ j, M i j * e k j := by
  have hn : (N : K) ≠ 0 := by exact_mod_cast hN.ne'
  set a : Fin 6 → K := fun i => (∑ k, e k i) / N with ha
  have h0 : 0 ≤ ∑ k, ∑ i, (e k i - a i) * ∑ j, M i j * (e k j - a j) := Finset.sum_nonneg fun k _ => hM fun i => e k i - a i
  have hsum : ∀ i, ∑ k, e k i = N * a i := by
    intro i
    rw [ha]
    field_simp
  have h1 : ∑ k, ∑ i, (e k i - a i) * ∑ j, M i j * (e k j - a j) =
      ∑ k, ∑ i, e k i * ∑ j, M i j * e k j - N * ∑ i, a i * ∑ j, M i j * a j := by
    have hk : ∀ k, ∑ i, (e k i - a i) * ∑ j, M i j * (e k j - a j) = ∑ i, e k i * ∑ j, M i j * e k j -
        ∑ i, a i * ∑ j, M i j * e k j - ∑ i, e k i * ∑ j, M i j * a j + ∑ i, a i * ∑ j, M i j * a j := by
      intro k
      rw [← Finset.sum_sub_distrib, ← Finset.sum_sub_distrib, ← Finset.sum_add_distrib]
      refine Finset.sum_congr rfl fun i _ => ?_
      have : ∑ j, M i j * (e k j - a j) = ∑ j, M i j * e k j - ∑ j, M i j * a j := by
        rw [← Finset.sum_sub_distrib]
        exact Finset.sum_congr rfl fun j _ => by ring
      rw [this]
      ring
    have hA : ∑ k, ∑ i, a i * ∑ j, M i j * e k j = N * ∑ i, a i * ∑ j, M i j * a j := by
      rw [Finset.sum_comm, Finset.mul_sum]
      refine Finset.sum_congr rfl fun i _ => ?_
      rw [← Finset.mul_sum, Finset.sum_comm]
      have : ∑ j, ∑ k, M i j * e k j = N * ∑ j, M i j * a j := by
        rw [Finset.mul_sum]
        exact Finset.sum_congr rfl fun j _ => by rw [← Finset.mul_sum, hsum]; ring
      rw [this]
      ring
    have hB : ∑ k, ∑ i, e k i * ∑ j, M i j * a j = N * ∑ i, a i * ∑ j, M i j * a j := by
      rw [Finset.sum_comm, Finset.mul_sum]
      refine Finset.sum_congr rfl fun i _ => ?_
      rw [← Finset.sum_mul, hsum]
      ring
    simp only [hk]
    rw [Finset.sum_add_distrib, Finset.sum_sub_distrib, Finset.sum_sub_distrib, hA, hB, Finset.sum_const, Finset.card_univ, Fintype.card_fin,
      nsmul_eq_mul]
    ring
  rw [h1] at h0
  linarith

theorem list_mean {α : Type} (l : List α) (f : α → K) (g : Fin N → α → K) (h : ∀ q ∈ l, (N : K) * f q ≤ ∑ k, g k q) :
    (N : K) * (l.map f).sum ≤ ∑ k, (l.map (g k)).sum := by
  induction l with
  | nil => simp
  | cons q l ih =>
    simp only [List.map_cons, List.sum_cons, mul_add, Finset.sum_add_distrib]
    exact add_le_add (h q List.mem_cons_self) (ih fun r hr => h r (List.mem_cons_of_mem _ hr))

/-- The mean of displacements has at most the mean of their energies. -/
theorem energy_mean (hS : Sound S D) (hN : 0 < N) (x : Fin 6 → K) (v : Fin N → Nat → Nat → K) :
    (N : K) * energy D S.cells x (fun m i => (∑ k, v k m i) / N) ≤ ∑ k, energy D S.cells x (v k) := by
  have hn : (N : K) ≠ 0 := by exact_mod_cast hN.ne'
  unfold energy
  refine list_mean _ _ _ fun c hc => list_mean _ _ _ fun q hq => ?_
  rw [← Finset.mul_sum, mul_left_comm]
  refine mul_le_mul_of_nonneg_left ?_ (hS.weight c hc q hq)
  have hs : ∀ i, x i + strainAt (fun m i => (∑ k, v k m i) / N) c q i = (∑ k, (x i + strainAt (v k) c q i)) / N := by
    intro i
    rw [Finset.sum_add_distrib, Finset.sum_const, Finset.card_univ, Fintype.card_fin, nsmul_eq_mul, add_div, mul_div_cancel_left₀ _ hn]
    congr 1
    unfold strainAt
    rw [Finset.sum_comm, div_eq_mul_inv, Finset.sum_mul]
    refine Finset.sum_congr rfl fun j _ => ?_
    rw [← Finset.mul_sum]
    ring
  simp only [hs]
  exact form_mean _ (hS.psd c hc) (fun k i => x i + strainAt (v k) c q i) hN

/-- Moving the whole sample needs no energy. -/
theorem energy_moved (hS : Sound S D) (hF : Shape.p1Set 3 = some F) (hH : ∀ c ∈ S.cells, Hexahedron F X rule c) (x : Fin 6 → K)
    (v : Nat → Nat → K) (a : Nat → K) : energy D S.cells x (fun m i => v m i + a i) = energy D S.cells x v := by
  unfold energy
  congr 1
  refine List.map_congr_left fun c hc => ?_
  congr 1
  obtain ⟨I, -, hp⟩ := hH c hc
  refine List.map_congr_left fun q hq => ?_
  rw [hp] at hq
  obtain ⟨p, -, rfl⟩ := List.mem_map.mp hq
  have hs : strainAt (fun m i => v m i + a i) c ⟨p.1 * (Matrix.of (jacobian F X c p.2)).det, B3 (physGrad F (I p.2) p.2)⟩ =
      strainAt v c ⟨p.1 * (Matrix.of (jacobian F X c p.2)).det, B3 (physGrad F (I p.2) p.2)⟩ := by
    rw [strain_hex, strain_hex]
    congr 1
    funext d e
    refine Finset.sum_congr rfl fun k _ => ?_
    congr 1
    simp only [add_mul, Finset.sum_add_distrib, ← Finset.mul_sum, grad_zero F hF, mul_zero, add_zero]
  rw [hs]

/-- Displacements of the sample, repeated. -/
theorem copies_extend (hC : Copies S S' D D' F rule X X' tie tie' corner corner' N node offset cell) (v : Nat → Nat → K)
    (hv : Admissible S.handler v) : ∃ v', Admissible S'.handler v' ∧ ∀ k, ∀ m < S.handler.nodes, ∀ i < 3, v' (node k m) i = v m i := by
  classical
  have h := (hC.periodic.admissible v).mp hv
  have hrefl := hC.periodic'.equiv.refl
  let v' : Nat → Nat → K := fun n i => if hn : n < S'.handler.nodes then v (hC.cover n hn).choose_spec.choose i else 0
  have key : ∀ k, ∀ m < S.handler.nodes, ∀ i < 3, v' (node k m) i = v m i := by
    intro k m hm i hi
    have hn := hC.inside k m hm
    have hs := (hC.cover _ hn).choose_spec.choose_spec
    simp only [v', dif_pos hn]
    refine ((h _ hs.1 i hi).2 m hm (hC.onto (hC.cover _ hn).choose k _ hs.1 m hm ?_))
    rw [← hs.2]
    exact hrefl _
  refine ⟨v', (hC.periodic'.admissible v').mpr fun n hn i hi => ?_, key⟩
  obtain ⟨k, m, hm, rfl⟩ := hC.cover n hn
  rw [key k m hm i hi]
  refine ⟨fun ht => ?_, fun n' hn' ht => ?_⟩
  · obtain ⟨l, hl⟩ := hC.corners
    exact (h m hm i hi).1 (hC.onto _ _ m hm _ hC.periodic.inside (hC.periodic'.equiv.trans ht hl))
  · obtain ⟨l, m', hm', rfl⟩ := hC.cover n' hn'
    rw [key l m' hm' i hi]
    exact (h m hm i hi).2 m' hm' (hC.onto _ _ m hm m' hm' ht)

/-- The mean of the displacements of the copies, moved so that the corner is at rest. -/
theorem copies_mean (hC : Copies S S' D D' F rule X X' tie tie' corner corner' N node offset cell) (v' : Nat → Nat → K)
    (hv : Admissible S'.handler v') :
    Admissible S.handler fun m i => (∑ k, v' (node k m) i) / N + -((∑ k, v' (node k corner) i) / N) := by
  have h := (hC.periodic'.admissible v').mp hv
  have key : ∀ m < S.handler.nodes, ∀ n < S.handler.nodes, tie m n → ∀ i < 3, ∑ k, v' (node k m) i = ∑ k, v' (node k n) i := by
    intro m hm n hn ht i hi
    obtain ⟨σ, hσ⟩ := hC.sides m hm n hn ht
    rw [← Equiv.sum_comp σ fun k => v' (node k n) i]
    exact Finset.sum_congr rfl fun k _ => (h _ (hC.inside k m hm) i hi).2 _ (hC.inside _ n hn) (hσ k)
  refine (hC.periodic.admissible _).mpr fun m hm i hi => ⟨fun ht => ?_, fun n hn ht => ?_⟩
  · rw [key m hm corner hC.periodic.inside ht i hi]
    ring
  · rw [key m hm n hn ht i hi]

/-- **C162**. A sample that consists of copies of a periodic sample has the elasticity matrix of one copy. -/
theorem C162_copies (hS : Sound S D) (hS' : Sound S' D') (ht : S.tol < 1) (ht' : S'.tol < 1)
    (h0 : ∀ s c, S.handler.mpcs s = some c → Tie c) (h0' : ∀ s c, S'.handler.mpcs s = some c → Tie c)
    (hC : Copies S S' D D' F rule X X' tie tie' corner corner' N node offset cell)
    (solver : Nat → (Nat → Nat → K) → (Nat → K) → Nat → K) (hX : Exact solver) :
    ∃ R : Fin 6 → Fin 6 → K, ∀ m : Fin 6, upscaleCase solver S m = some (R m) ∧ upscaleCase solver S' m = some (R m) := by
  obtain ⟨R, h1, h2, h3⟩ := C94_ties S D hS ht h0 solver hX
  obtain ⟨R', h1', h2', h3'⟩ := C94_ties S' D' hS' ht' h0' solver hX
  have hN : 0 < N := by
    obtain ⟨k, -⟩ := hC.corners
    exact k.pos
  have hn : (0 : K) < N := by exact_mod_cast hN
  have hform : ∀ x : Fin 6 → K, ∑ m, x m * ∑ n, R' m n * x n = ∑ m, x m * ∑ n, R m n * x n := by
    intro x
    have key : volume S'.cells * ∑ m, x m * ∑ n, R' m n * x n = N * (volume S.cells * ∑ m, x m * ∑ n, R m n * x n) := by
      apply le_antisymm
      · obtain ⟨v, hv, e⟩ := (h3 x).1
        obtain ⟨v', hv', hk⟩ := copies_extend hC v hv
        refine ((h3' x).2 v' hv').trans (le_of_eq ?_)
        rw [copies_energy hS hC x v', e]
        have : ∀ k : Fin N, energy D S.cells x (fun m i => v' (node k m) i) = energy D S.cells x v := by
          intro k
          unfold energy
          congr 1
          refine List.map_congr_left fun c hc => ?_
          have h8 : c.vertex.length = 8 := hS.corners _ hc
          have hs : ∀ q i, strainAt (fun m i => v' (node k m) i) c q i = strainAt v c q i := fun q i =>
            strainAt_moved _ _ _ _ q i fun f hf d hd => by
              have hf' : f < c.vertex.length := by omega
              have e : c.vertex.getD f 0 = c.vertex[f] := by simp [List.getD, hf']
              rw [e]
              exact hk k _ (hS.inside _ hc _ (List.getElem_mem hf')) d hd
          simp only [hs]
        rw [Finset.sum_congr rfl fun k _ => this k]
        simp
      · obtain ⟨v', hv', e⟩ := (h3' x).1
        rw [e, copies_energy hS hC x v']
        refine le_trans ?_ (energy_mean hS hN x fun k m i => v' (node k m) i)
        refine mul_le_mul_of_nonneg_left ?_ hn.le
        rw [← energy_moved hS hC.shapes hC.hexahedra x _ fun i => -((∑ k, v' (node k corner) i) / N)]
        exact (h3 x).2 _ (copies_mean hC v' hv')
    rw [copies_volume hS hC, mul_assoc] at key
    exact mul_left_cancel₀ hS.volume.ne' (mul_left_cancel₀ hn.ne' key)
  have hbil : ∀ x y : Fin 6 → K, ∑ m, y m * ∑ n, R' m n * x n = ∑ m, y m * ∑ n, R m n * x n := by
    intro x y
    have a := form_shift R h2 x y 1
    have b := form_shift R' h2' x y 1
    have c := hform fun i => x i + 1 * y i
    rw [a, b, hform x, hform y] at c
    linarith
  have : R' = R := by
    funext m n
    have := hbil (Pi.single n 1) (Pi.single m 1)
    simpa [Pi.single_apply] using this
  subst this
  exact ⟨_, fun m => ⟨h1 m, h1' m⟩⟩

end

/-! ### Two copies of a bar with two materials -/

namespace Long

def nodeOf (k : Fin 2) (m : Nat) : Nat := m % 3 + 2 * k.val + 5 * (m / 3)

/-- Twenty nodes: five in the first direction, two in the others. -/
def longX (n : Nat) : Fin 3 → ℚ :=
  ![([0, 1, 3, 4, 6] : List ℚ).getD (n % 5) 0, ((n / 5 % 2 : Nat) : ℚ), ((n / 10 : Nat) : ℚ)]

/-- The ends are held, the sides are tied. -/
def longHandler : Handler ℚ where
  dim := 3
  nodes := 20
  fixed n := if n < 20 ∧ (n % 5 = 0 ∨ n % 5 = 4) then some ⟨7, fun _ => 0⟩ else none
  mpcs s := if 5 ≤ s / 3 ∧ s / 3 < 20 ∧ s / 3 % 5 ≠ 0 ∧ s / 3 % 5 ≠ 4 then some ⟨s / 3, s % 3, 0, [⟨s / 3 % 5, s % 3, 1⟩]⟩ else none
  meqn := []
  maxeqn := 0

def longOf (m1 m2 : Material ℚ) : Sample ℚ where
  cells := [Straight.barCell ([0, 1, 3, 4, 6, 7, 9, 10].map (nodeOf 0)) 1 m1, Straight.barCell ([1, 2, 4, 5, 7, 8, 10, 11].map (nodeOf 0)) 2 m2,
    Straight.barCell ([0, 1, 3, 4, 6, 7, 9, 10].map (nodeOf 1)) 1 m1, Straight.barCell ([1, 2, 4, 5, 7, 8, 10, 11].map (nodeOf 1)) 2 m2]
  color := [[[0, 2]], [[1, 3]]]
  C0 := fun _ _ => 5
  Escale := 0
  Emin := 1
  tol := 1 / 10 ^ 8
  fuel := 60
  handler := longHandler

def long (E1 E2 : ℚ) : Sample ℚ := longOf (.iso (E1 * if (0 : ℚ) < 0 then 0 else 1) (1 / 4) 0) (.iso (E2 * if (0 : ℚ) < 0 then 0 else 1) (1 / 4) 0)

theorem long_fixed {n : Nat} {f : Fixed ℚ} (h : longHandler.fixed n = some f) : n < 20 ∧ (n % 5 = 0 ∨ n % 5 = 4) ∧ f = ⟨7, fun _ => 0⟩ := by
  change (if _ then _ else _) = _ at h
  split at h
  · rename_i hn
    exact ⟨hn.1, hn.2, (Option.some.inj h).symm⟩
  · cases h

theorem long_mpcs {s : Nat} {c : Mpc ℚ} (h : longHandler.mpcs s = some c) :
    5 ≤ s / 3 ∧ s / 3 < 20 ∧ s / 3 % 5 ≠ 0 ∧ s / 3 % 5 ≠ 4 ∧ c = ⟨s / 3, s % 3, 0, [⟨s / 3 % 5, s % 3, 1⟩]⟩ := by
  change (if _ then _ else _) = _ at h
  split at h
  · rename_i hn
    exact ⟨hn.1, hn.2.1, hn.2.2.1, hn.2.2.2, (Option.some.inj h).symm⟩
  · cases h

theorem dir_lt {i : Nat} (hb : Nat.testBit 7 i = true) : i < 3 := by
  by_contra hi
  have : Nat.testBit 7 i = false := Nat.testBit_lt_two_pow (lt_of_lt_of_le (by norm_num) (Nat.pow_le_pow_right (by norm_num) (Nat.le_of_not_lt hi)))
  rw [this] at hb
  cases hb

/-- What holds for the cells of the bar as materials and weights holds for those of its copies. -/
theorem long_cells {P : Cell ℚ → Prop} (m1 m2 : Material ℚ) (h1 : ∀ k, P (Straight.barCell ([0, 1, 3, 4, 6, 7, 9, 10].map (nodeOf k)) 1 m1))
    (h2 : ∀ k, P (Straight.barCell ([1, 2, 4, 5, 7, 8, 10, 11].map (nodeOf k)) 2 m2)) : ∀ c ∈ (longOf m1 m2).cells, P c := by
  intro c hc
  rcases List.mem_cons.mp hc with rfl | hc
  · exact h1 0
  rcases List.mem_cons.mp hc with rfl | hc
  · exact h2 0
  rcases List.mem_cons.mp hc with rfl | hc
  · exact h1 1
  · obtain rfl := List.mem_singleton.mp hc
    exact h2 1

theorem long_sound (E1 E2 : ℚ) (h1 : 0 < E1) (h2 : 0 < E2) : Sound (long E1 E2) (barD 0) := by
  have hb := Straight.bar_sound 0 E1 E2 h1 h2
  have e1 := List.mem_cons_self (a := Straight.barCell [0, 1, 3, 4, 6, 7, 9, 10] 1 (.iso (E1 * if (0 : ℚ) < 0 then 0 else 1) (1 / 4) 0))
    (l := [Straight.barCell [1, 2, 4, 5, 7, 8, 10, 11] 2 (.iso (E2 * if (0 : ℚ) < 0 then 0 else 1) (1 / 4) 0)])
  have e2 := List.mem_cons_of_mem (Straight.barCell [0, 1, 3, 4, 6, 7, 9, 10] 1 (.iso (E1 * if (0 : ℚ) < 0 then 0 else 1) (1 / 4) 0))
    (List.mem_singleton_self (Straight.barCell [1, 2, 4, 5, 7, 8, 10, 11] 2 (.iso (E2 * if (0 : ℚ) < 0 then 0 else 1) (1 / 4) 0)))
  constructor
  · rfl
  · rfl
  · change List.Perm [0, 2, 1, 3] [0, 1, 2, 3]
    decide
  · exact long_cells _ _ (fun _ => rfl) fun _ => rfl
  · refine long_cells _ _ (fun k => ?_) fun k => ?_
    · change ∀ n ∈ [0, 1, 3, 4, 6, 7, 9, 10].map (nodeOf k), n < 20
      revert k; decide
    · change ∀ n ∈ [1, 2, 4, 5, 7, 8, 10, 11].map (nodeOf k), n < 20
      revert k; decide
  · have g1 := hb.material _ e1
    have g2 := hb.material _ e2
    exact long_cells _ _ (fun _ => g1) fun _ => g2
  · have g1 := hb.symm _ e1
    have g2 := hb.symm _ e2
    exact long_cells _ _ (fun _ => g1) fun _ => g2
  · have g1 := hb.psd _ e1
    have g2 := hb.psd _ e2
    exact long_cells _ _ (fun _ => g1) fun _ => g2
  · have g1 := hb.weight _ e1
    have g2 := hb.weight _ e2
    exact long_cells _ _ (fun _ => g1) fun _ => g2
  · have hv := hb.volume
    have : volume (long E1 E2).cells = volume (Straight.bar 0 E1 E2).cells + volume (Straight.bar 0 E1 E2).cells := by
      simp only [volume, long, longOf, Straight.bar, Straight.barOf, List.map_cons, List.map_nil, List.sum_cons, List.sum_nil, Straight.barCell]
      ring
    rw [this]
    exact add_pos hv hv
  · exact fun _ => one_pos
  · exact fun n f hf => (long_fixed hf).1
  · intro n f hf i _
    rw [(long_fixed hf).2.2]
  · rintro n i ⟨f, hf, hbit⟩ ⟨m, hm⟩
    obtain ⟨-, hn, rfl⟩ := long_fixed hf
    have hi := dir_lt hbit
    have hm' : longHandler.mpcs (n * 3 + i) = some m := hm
    obtain ⟨-, -, h3, h4, -⟩ := long_mpcs hm'
    omega
  · refine ⟨fun s => if s < 60 then s else 0, ?_, fun s => ?_⟩
    · intro t c hc a ha
      obtain ⟨g1, g2, g3, g4, rfl⟩ := long_mpcs hc
      obtain rfl := List.mem_singleton.mp ha
      change (if t / 3 % 5 * 3 + t % 3 < 60 then t / 3 % 5 * 3 + t % 3 else 0) < if t < 60 then t else 0
      rw [if_pos (by omega), if_pos (by omega)]
      omega
    · change (if _ then _ else _) < 60
      split <;> omega
  · intro t c hc
    obtain ⟨g1, g2, -⟩ := long_mpcs hc
    change t < 20 * 3
    omega
  · intro t c hc a ha
    obtain ⟨g1, g2, -, -, rfl⟩ := long_mpcs hc
    obtain rfl := List.mem_singleton.mp ha
    change t / 3 % 5 < 20 ∧ t % 3 < 3
    omega

theorem long_ties (E1 E2 : ℚ) : ∀ t c, (long E1 E2).handler.mpcs t = some c → Tie c := by
  intro t c hc
  obtain ⟨-, -, -, -, rfl⟩ := long_mpcs hc
  exact ⟨_, rfl, rfl⟩

/-- The same point up to a period. -/
def tie (m n : Nat) : Prop := m % 3 % 2 = n % 3 % 2

def tie' (m n : Nat) : Prop := m % 5 % 4 = n % 5 % 4

theorem bar_periodic : PeriodicTies barHandler tie 0 where
  equiv := ⟨fun _ => rfl, fun h => Eq.symm h, fun h h' => Eq.trans h h'⟩
  inside := by decide
  admissible v := by
    constructor
    · intro h m hm i hi
      rw [bar_values v h m hm i hi]
      refine ⟨fun ht => if_neg (by unfold tie at ht; omega), fun n hn ht => ?_⟩
      rw [bar_values v h n hn i hi]
      unfold tie at ht
      congr 1
      apply propext
      omega
    · intro h
      refine bar_admissible_of v (fun n hn i hi hn1 => (h n hn i hi).1 ?_) fun n hn i hi hn1 => (h n hn i hi).2 1 (by decide) ?_
      · unfold tie; omega
      · unfold tie; omega

theorem long_periodic : PeriodicTies longHandler tie' 0 where
  equiv := ⟨fun _ => rfl, fun h => Eq.symm h, fun h h' => Eq.trans h h'⟩
  inside := by decide
  admissible v := by
    constructor
    · intro h
      have hv : ∀ n < 20, ∀ i < 3, v n i = if n % 5 % 4 = 0 then 0 else v (n % 5) i := by
        intro n hn i hi
        have hb : Nat.testBit 7 i = true := by interval_cases i <;> rfl
        split
        · rename_i hc
          exact h.1 n i ⟨⟨7, fun _ => 0⟩, if_pos ⟨hn, by omega⟩, hb⟩
        · rename_i hc
          by_cases h5 : n < 5
          · rw [Nat.mod_eq_of_lt h5]
          · have e1 : (n * 3 + i) / 3 = n := by omega
            have e2 : (n * 3 + i) % 3 = i := by omega
            have hm : longHandler.mpcs (n * 3 + i) = some ⟨n, i, 0, [⟨n % 5, i, 1⟩]⟩ := by
              change (if _ then _ else _) = _
              rw [e1, e2, if_pos (by omega)]
            have := h.2 n i _ hn hi hm
            simpa using this
      intro m hm i hi
      rw [hv m hm i hi]
      refine ⟨fun ht => if_pos (by unfold tie' at ht; omega), fun n hn ht => ?_⟩
      rw [hv n hn i hi]
      unfold tie' at ht
      rw [ht]
      split
      · rfl
      · have : m % 5 = n % 5 := by omega
        rw [this]
    · intro h
      refine ⟨fun n i hp => ?_, fun n i m hn hi hm => ?_⟩
      · obtain ⟨f, hf, hb⟩ := hp
        obtain ⟨hn, hn', rfl⟩ := long_fixed hf
        exact (h n hn i (dir_lt hb)).1 (by unfold tie'; omega)
      · have hm' : longHandler.mpcs (n * 3 + i) = some m := hm
        have hi' : i < 3 := hi
        have hn' : n < 20 := hn
        obtain ⟨g1, g2, g3, g4, rfl⟩ := long_mpcs hm'
        have e1 : (n * 3 + i) / 3 = n := by omega
        have e2 : (n * 3 + i) % 3 = i := by omega
        simp only [e1, e2, List.map_cons, List.map_nil, List.sum_cons, List.sum_nil, one_mul, add_zero]
        exact (h n hn' i hi').2 _ (by omega) (by unfold tie'; omega)

theorem hex_moved {F : List (Shape.Linear K 3)} {rule : List (K × (Fin 3 → K))} {X X' : Nat → Fin 3 → K} (hF : Shape.p1Set 3 = some F)
    (c c' : Cell K) (o : Fin 3 → K) (hX : ∀ f < 8, ∀ d, X' (c'.vertex.getD f 0) d = X (c.vertex.getD f 0) d + o d)
    (hp : c'.pts = c.pts) (hc : Hexahedron F X rule c) : Hexahedron F X' rule c' := by
  have hj := copy_jacobian hF c c' o hX
  obtain ⟨I, hI, hp'⟩ := hc
  refine ⟨I, fun p hpr d e => by rw [hj]; exact hI p hpr d e, ?_⟩
  rw [hp, hp']
  simp only [hj]

theorem node_mod (k : Fin 2) (m : Nat) : nodeOf k m % 5 = m % 3 + 2 * k.val ∧ m % 3 < 3 := by
  have := k.isLt
  have h : m % 3 < 3 := Nat.mod_lt _ (by decide)
  refine ⟨?_, h⟩
  unfold nodeOf
  rw [Nat.add_mul_mod_self_left, Nat.mod_eq_of_lt (by omega)]

theorem long_copies (E1 E2 : ℚ) : Copies (Straight.bar 0 E1 E2) (long E1 E2) (barD 0) (barD 0) hexShapes simpson Straight.barX longX tie tie' 0 0 2
    nodeOf (fun k => ![3 * k.val, 0, 0]) (finProdFinEquiv : Fin 2 × Fin 2 ≃ Fin 4) where
  shapes := shapes_eq
  hexahedra := (Straight.bar_torus 0 _ _).hexahedra
  hexahedra' := by
    have hb := (Straight.bar_torus 0 (.iso (E1 * if (0 : ℚ) < 0 then 0 else 1) (1 / 4) 0)
      (.iso (E2 * if (0 : ℚ) < 0 then 0 else 1) (1 / 4) 0)).hexahedra
    refine long_cells _ _ (fun k => ?_) fun k => ?_
    · refine hex_moved shapes_eq (Straight.barCell [0, 1, 3, 4, 6, 7, 9, 10] 1 _) _ ![3 * k.val, 0, 0] ?_ rfl (hb _ List.mem_cons_self)
      simp only [Straight.barCell]
      revert k
      decide +kernel
    · refine hex_moved shapes_eq (Straight.barCell [1, 2, 4, 5, 7, 8, 10, 11] 2 _) _ ![3 * k.val, 0, 0] ?_ rfl (hb _ (List.mem_cons_of_mem _ (List.mem_singleton_self _)))
      simp only [Straight.barCell]
      revert k
      decide +kernel
  periodic := bar_periodic
  periodic' := long_periodic
  vertices := by
    intro k c
    change Fin 2 at c
    fin_cases k <;> fin_cases c <;> rfl
  places := by
    change ∀ k, ∀ m < 12, ∀ d, longX (nodeOf k m) d = Straight.barX m d + (![3 * k.val, 0, 0] : Fin 3 → ℚ) d
    decide +kernel
  material := by
    intro k c
    change Fin 2 at c
    fin_cases k <;> fin_cases c <;> rfl
  inside := by
    change ∀ k, ∀ m < 12, nodeOf k m < 20
    decide +kernel
  cover := by
    change ∀ n < 20, ∃ k, ∃ m < 12, n = nodeOf k m
    decide +kernel
  onto := by
    intro k l m _ n _ ht
    have h1 := node_mod k m
    have h2 := node_mod l n
    unfold tie' at ht
    unfold tie
    generalize nodeOf k m % 5 = a at *
    generalize nodeOf l n % 5 = b at *
    generalize m % 3 = c at *
    generalize n % 3 = d at *
    omega
  sides := by
    intro m _ n _ ht
    unfold tie at ht
    by_cases h : m % 3 = n % 3
    · refine ⟨1, fun k => ?_⟩
      have h1 := node_mod k m
      have h2 := node_mod k n
      unfold tie'
      simp only [Equiv.Perm.one_apply]
      omega
    · refine ⟨Equiv.swap 0 1, fun k => ?_⟩
      have : ((Equiv.swap (0 : Fin 2) 1) k).val = 1 - k.val := by revert k; decide
      have h1 := node_mod k m
      have h2 := node_mod (Equiv.swap (0 : Fin 2) 1 k) n
      unfold tie'
      generalize nodeOf k m % 5 = a at *
      generalize nodeOf (Equiv.swap (0 : Fin 2) 1 k) n % 5 = b at *
      generalize m % 3 = c at *
      generalize n % 3 = d at *
      omega
  corners := ⟨0, rfl⟩

end Long

/-- Two copies of the bar have the matrix of one. -/
example (solver : Nat → (Nat → Nat → ℚ) → (Nat → ℚ) → Nat → ℚ) (hX : Exact solver) :
    ∃ R : Fin 6 → Fin 6 → ℚ, ∀ m : Fin 6, upscaleCase solver (Straight.bar 0 (5 / 2) 5) m = some (R m) ∧
      upscaleCase solver (Long.long (5 / 2) 5) m = some (R m) :=
  C162_copies (Straight.bar_sound 0 (5 / 2) 5 (by norm_num) (by norm_num)) (Long.long_sound (5 / 2) 5 (by norm_num) (by norm_num))
    (by unfold Straight.bar Straight.barOf; norm_num) (by unfold Long.long Long.longOf; norm_num) (Straight.bar_ties 0 _ _)
    (Long.long_ties _ _) (Long.long_copies _ _) solver hX

end Verif.ElasticUp
