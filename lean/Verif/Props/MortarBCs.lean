import Verif.Spec.MortarBCs
import Verif.Props.Mortar
import Verif.Props.BoundaryCoupling

/-!
C146: the coupling block of the mortar method expresses periodicity in the mean.
-/

namespace Verif.Asm

open Verif.BGrid MortarSpec

variable {K : Type} [Field K]

theorem sum_pairs (n : Nat) (F : Nat → K) : ∑ j ∈ Finset.range (2 * n), F j = ∑ a ∈ Finset.range n, ∑ b ∈ Finset.range 2, F (a * 2 + b) := by
  induction n with
  | zero => simp
  | succ n ih =>
    rw [Finset.sum_range_succ _ n, ← ih, show 2 * (n + 1) = 2 * n + 1 + 1 by ring, Finset.sum_range_succ, Finset.sum_range_succ, Finset.sum_range_succ, Finset.sum_range_succ,
      Finset.sum_range_zero, mul_comm n 2]
    ring

/-- The numbering of the multipliers of one grid: what `C82_numbering` provides. -/
structure Numbered (n p : Nat) (nodes : List (List Int)) (total : Nat) (f : Nat → Nat → Int) : Prop where
  count : total = n * (if p > 1 then p else p + 1) - 1
  num : MultiplierNumbering n (if p > 1 then p else p + 1) total f
  len : nodes.length = n
  get : ∀ e < n, ∃ l, nodes[e]? = some l ∧ l.length = 2 * (p + 1) ∧ ∀ i1 < 2, ∀ i2 < p + 1,
        l[i2 * 2 + i1]? = some (f ((e + i1) % n) (if i2 = p ∧ p > 1 then 0 else i2))

theorem numbered (n p : Nat) (hn : 2 ≤ n) (hp : 1 ≤ p) : ∃ nodes total f, renumber n 2 (p + 1) = some (nodes, total) ∧ Numbered n p nodes total f := by
  obtain ⟨nodes, total, f, h1, h2, h3, h4⟩ := C82_numbering n (p + 1) hn (by omega)
  refine ⟨nodes, total, f, h1, ⟨?_, ?_, h3, ?_⟩⟩
  · rw [renumber_eq hn (by omega)] at h1
    have := congrArg Prod.snd (Option.some.inj h1)
    dsimp only at this
    rw [← this]
    unfold rowsOf
    congr 2
    by_cases hp1 : p > 1
    · rw [if_pos hp1, if_pos (by omega)]; omega
    · rw [if_neg hp1, if_neg (by omega)]
  · by_cases hp1 : p > 1
    · rw [if_pos hp1]; rw [if_pos (by omega)] at h2; simpa using h2
    · rw [if_neg hp1]; rw [if_neg (by omega)] at h2; exact h2
  · intro e he
    obtain ⟨l, a, b, c⟩ := h4 e he
    refine ⟨l, a, b, fun i1 hi1 i2 hi2 => ?_⟩
    rw [c i1 hi1 i2 hi2]
    congr 2
    by_cases hc : i2 = p ∧ p > 1
    · rw [if_pos hc, if_pos (by omega)]
    · rw [if_neg hc, if_neg (by omega)]

variable {n p : Nat} {nodes : List (List Int)} {total : Nat} {f : Nat → Nat → Int}

theorem Numbered.row_lt (hp : 1 ≤ p) {i2 : Nat} (hi : i2 < p + 1) :
    (if i2 = p ∧ p > 1 then 0 else i2) < (if p > 1 then p else p + 1) := by
  by_cases hp1 : p > 1
  · rw [if_pos hp1]; split <;> omega
  · rw [if_neg hp1, if_neg (by omega)]; exact hi

theorem Numbered.range (N : Numbered n p nodes total f) (hp : 1 ≤ p) : ∀ ln ∈ nodes, ∀ l ∈ ln, -1 ≤ l ∧ l < total := by
  intro ln hln l hl
  obtain ⟨e, he⟩ := List.mem_iff_getElem?.mp hln
  have hen : e < n := by
    rw [← N.len]; exact (List.getElem?_eq_some_iff.mp he).1
  obtain ⟨ln', a, b, c⟩ := N.get e hen
  rw [he] at a
  obtain rfl := Option.some.inj a
  obtain ⟨j, hj⟩ := List.mem_iff_getElem?.mp hl
  have hjl : j < 2 * (p + 1) := by rw [← b]; exact (List.getElem?_eq_some_iff.mp hj).1
  have := c (j % 2) (Nat.mod_lt _ (by omega)) (j / 2) (by omega)
  rw [Nat.div_add_mod', hj] at this
  obtain rfl := Option.some.inj this
  have hk : (e + j % 2) % n < n := Nat.mod_lt _ (by omega)
  have hr := Numbered.row_lt hp (show j / 2 < p + 1 by omega)
  by_cases h0 : ((e + j % 2) % n, if j / 2 = p ∧ p > 1 then 0 else j / 2) = (0, 0)
  · rw [Prod.mk.injEq] at h0
    rw [h0.1, h0.2, N.num.fixed]
    omega
  · have := N.num.range _ hk _ hr h0
    omega

/-- The couplings of all quads of a side are the integral against the multiplier field with the values of the columns. -/
theorem Numbered.couplings (N : Numbered n p nodes total f) (cols : List (List (MortarQuad K))) (hc : cols.length = n) (colofs : Nat) (v : Nat → Nat → K)
    (x : Nat → K) :
    ((nodes.zip cols).map fun t => (t.2.map fun q => quadCoupling q t.1 colofs v x).sum).sum =
      sideIntegral n p cols v fun k r d => multiplier x colofs (f k r) d := by
  unfold sideIntegral
  congr 1
  apply List.ext_getElem?
  intro e
  rw [List.getElem?_map, List.getElem?_map]
  by_cases he : e < n
  · obtain ⟨l, a, b, c⟩ := N.get e he
    have hce : e < cols.length := by omega
    rw [(show (nodes.zip cols)[e]? = some (l, cols[e]) from List.getElem?_zip_eq_some.mpr ⟨a, List.getElem?_eq_getElem hce⟩), List.getElem?_range he]
    simp only [Option.map_some, Option.some.injEq]
    rw [show cols.getD e [] = cols[e] by rw [List.getD_eq_getElem?_getD, List.getElem?_eq_getElem hce, Option.getD_some]]
    congr 1
    refine List.map_congr_left fun q _ => ?_
    unfold quadCoupling
    refine Finset.sum_congr rfl fun d _ => Finset.sum_congr rfl fun i _ => ?_
    rw [b, sum_pairs]
    refine Finset.sum_congr rfl fun i2 h2 => Finset.sum_congr rfl fun i1 h1 => ?_
    rw [show l.getD (i2 * 2 + i1) (-1) = f ((e + i1) % n) (if i2 = p ∧ p > 1 then 0 else i2) by
      rw [List.getD_eq_getElem?_getD, c i1 (Finset.mem_range.mp h1) i2 (Finset.mem_range.mp h2), Option.getD_some]]
  · rw [List.getElem?_eq_none (by rw [List.length_zip, N.len]; omega), List.getElem?_eq_none (by rw [List.length_range]; omega)]
    rfl

/-- Every multiplier field that vanishes where the multiplier is fixed is that of values of the columns. -/
theorem Numbered.field (N : Numbered n p nodes total f) (μ : Nat → Nat → Nat → K) (h0 : ∀ d < 3, μ 0 0 d = 0) :
    ∃ z : Nat → K, ∀ (colofs : Nat) (x : Nat → K), (∀ c < 3 * total, x (c + colofs) = z c) →
      ∀ k < n, ∀ r < (if p > 1 then p else p + 1), ∀ d < 3, multiplier x colofs (f k r) d = μ k r d := by
  classical
  choose! k hk r hr e using N.num.surj
  refine ⟨fun c => μ (k (c / 3)) (r (c / 3)) (c % 3), fun colofs x hx a ha b hb d hd => ?_⟩
  unfold multiplier
  by_cases hab : (a, b) = (0, 0)
  · rw [Prod.mk.injEq] at hab
    obtain ⟨rfl, rfl⟩ := hab
    rw [if_pos N.num.fixed, h0 d hd]
  · have hrange := N.num.range a ha b hb hab
    rw [if_neg (by omega)]
    obtain ⟨c, hc⟩ := Int.eq_ofNat_of_zero_le hrange.1
    have hct : c < total := by omega
    rw [show (f a b * 3 + (d : Int)).toNat = 3 * c + d by omega, hx _ (by omega)]
    have h3 : (3 * c + d) / 3 = c := by omega
    have h4 : (3 * c + d) % 3 = d := by omega
    dsimp only
    rw [h3, h4]
    obtain ⟨e1, e2⟩ := N.num.inj _ (hk c hct) _ (hr c hct) a ha b hb (by rw [e c hct, hc])
    rw [e1, e2]

theorem sideIntegral_congr (hn : 0 < n) (hp : 1 ≤ p) (cols : List (List (MortarQuad K))) (v : Nat → Nat → K) (μ ν : Nat → Nat → Nat → K)
    (h : ∀ k < n, ∀ r < (if p > 1 then p else p + 1), ∀ d < 3, μ k r d = ν k r d) : sideIntegral n p cols v μ = sideIntegral n p cols v ν := by
  unfold sideIntegral
  congr 1
  refine List.map_congr_left fun e _ => ?_
  congr 1
  refine List.map_congr_left fun q _ => ?_
  refine Finset.sum_congr rfl fun d hd => Finset.sum_congr rfl fun i _ => Finset.sum_congr rfl fun i2 h2 => Finset.sum_congr rfl fun i1 _ => ?_
  rw [h _ (Nat.mod_lt _ hn) _ (Numbered.row_lt hp (Finset.mem_range.mp h2)) d (Finset.mem_range.mp hd)]

theorem sideIntegral_zero (cols : List (List (MortarQuad K))) (v : Nat → Nat → K) : sideIntegral n p cols v (fun _ _ _ => 0) = 0 := by
  unfold sideIntegral
  apply List.sum_eq_zero
  intro t ht
  obtain ⟨e, _, rfl⟩ := List.mem_map.mp ht
  apply List.sum_eq_zero
  intro t ht
  obtain ⟨q, _, rfl⟩ := List.mem_map.mp ht
  simp

theorem pattern_some (h : Handler K) (ln : List (List Int)) (cols : List (List (MortarQuad K))) (hc : ln.length = cols.length) (colofs M : Nat)
    (hln : ∀ l ∈ ln, ∀ a ∈ l, -1 ≤ a ∧ a * 3 + 2 + colofs < M) (hN : ∀ n i k, h.eqn n i = some k → k < h.maxeqn) (pat : List (Nat × Nat))
    (hpat : ∀ t ∈ pat, t.1 < h.maxeqn ∧ t.2 < M) :
    ∃ pat', mortarPattern h ln cols colofs pat = some pat' ∧ ∀ t ∈ pat', t.1 < h.maxeqn ∧ t.2 < M := by
  unfold mortarPattern pillars
  rw [if_pos hc.le]
  refine ⟨_, rfl, fun t ht => ?_⟩
  rcases (mem_mortarFold h colofs _ pat t).mp ht with ⟨q, hq, d, hd, v, _, h1, c, hc', h2⟩ | ht
  · obtain ⟨n', hn'⟩ := mem_mortarRows h1
    obtain ⟨l, hl, hpos, he⟩ := mem_mortarCols hc'
    obtain ⟨pc, hpc, hq⟩ := List.mem_flatMap.mp hq
    obtain ⟨q', _, rfl⟩ := List.mem_map.mp hq
    have := hln pc.1 (List.of_mem_zip (show (pc.1, pc.2) ∈ ln.zip cols from hpc)).1 l hl
    exact ⟨hN _ _ _ hn', by rw [h2, he]; omega⟩
  · exact hpat t ht

variable (h : Handler K)

/-- `C83_coupling_partial` with one result for all vectors. -/
theorem coupling_all (hd : h.dim = 3) (hapart : ∀ n i, Prescribed h n i → ¬ Slave h n i)
    (hunit : ∀ n d m, d < h.dim → h.mpcs (n * h.dim + d) = some m → ∀ a ∈ m.masters, a.dof = d ∧ a.coeff = 1)
    (lnodes : List (List Int)) (cols : List (List (MortarQuad K))) (hsize : lnodes.length = cols.length) (colofs M : Nat)
    (hln : ∀ ln ∈ lnodes, ∀ l ∈ ln, -1 ≤ l ∧ l * 3 + 2 + colofs < M)
    (hv : ∀ c ∈ cols, ∀ q ∈ c, ∀ n ∈ q.vertex, n < h.nodes) (alpha : K) (B : Sys K) :
    ∃ B', assembleMortar (preprocess h) lnodes cols colofs alpha B = some B' ∧ ∀ y x : Nat → K,
      ∑ r ∈ Finset.range (preprocess h).maxeqn, ∑ c ∈ Finset.range M, y r * B'.A r c * x c =
        ∑ r ∈ Finset.range (preprocess h).maxeqn, ∑ c ∈ Finset.range M, y r * B.A r c * x c +
        alpha * ((lnodes.zip cols).map fun p => (p.2.map fun q =>
          quadCoupling q p.1 colofs (expandSolution (homogeneous (preprocess h)) y) x).sum).sum := by
  obtain ⟨B', e, -⟩ := C83_coupling_partial h hd hapart hunit lnodes cols hsize colofs M hln hv alpha B (fun _ => 0) (fun _ => 0)
  refine ⟨B', e, fun y x => ?_⟩
  obtain ⟨B'', e', g⟩ := C83_coupling_partial h hd hapart hunit lnodes cols hsize colofs M hln hv alpha B y x
  obtain rfl := Option.some.inj (e.symm.trans e')
  exact g

/-- **C146 (partial)**: with constraints of coefficient one on top and bottom, at least two cells in both directions and one column of quads for each of them on every side, the block
is assembled without leaving its pattern, it has three columns for every free multiplier, and unknowns `y` satisfy the constraint `Bᵀ y = 0` iff the displacements expanded from them
have equal integrals over the left and the right side against every multiplier field that vanishes at the fixed multiplier, and equal integrals over the front and the back side against every
such field. (Missing: constraints with other coefficients, see `C83_violated`, and single cells, see `C146_violated_single`.) -/
theorem C146_constraint_partial (hd : h.dim = 3) (hapart : ∀ n i, Prescribed h n i → ¬ Slave h n i)
    (hunit : ∀ n d m, d < h.dim → h.mpcs (n * h.dim + d) = some m → ∀ a ∈ m.masters, a.dof = d ∧ a.coeff = 1)
    (n1 n2 p1 p2 : Nat) (hn1 : 2 ≤ n1) (hn2 : 2 ≤ n2) (hp1 : 1 ≤ p1) (hp2 : 1 ≤ p2) (S : Sides K)
    (hl : S.left.length = n2) (hr : S.right.length = n2) (hf : S.front.length = n1) (hb : S.back.length = n1)
    (hv : ∀ side ∈ [S.left, S.right, S.front, S.back], ∀ c ∈ side, ∀ q ∈ c, ∀ n ∈ q.vertex, n < h.nodes) :
    ∃ B m, mortarBlock (preprocess h) n1 n2 p1 p2 S = some (B, m) ∧
      m = 3 * (n2 * (if p2 > 1 then p2 else p2 + 1) - 1) + 3 * (n1 * (if p1 > 1 then p1 else p1 + 1) - 1) ∧
      ∀ y : Nat → K, (∀ c < m, ∑ r ∈ Finset.range (preprocess h).maxeqn, y r * B.A r c = 0) ↔
        (∀ μ : Nat → Nat → Nat → K, (∀ d < 3, μ 0 0 d = 0) →
          sideIntegral n2 p2 S.left (expandSolution (homogeneous (preprocess h)) y) μ = sideIntegral n2 p2 S.right (expandSolution (homogeneous (preprocess h)) y) μ) ∧
        (∀ μ : Nat → Nat → Nat → K, (∀ d < 3, μ 0 0 d = 0) →
          sideIntegral n1 p1 S.front (expandSolution (homogeneous (preprocess h)) y) μ = sideIntegral n1 p1 S.back (expandSolution (homogeneous (preprocess h)) y) μ) := by
  obtain ⟨lx, tx, fx, ex, Nx⟩ := numbered n2 p2 hn2 hp2
  obtain ⟨ly, ty, fy, ey, Ny⟩ := numbered n1 p1 hn1 hp1
  have hN : ∀ n i k, (preprocess h).eqn n i = some k → k < (preprocess h).maxeqn := fun n i k hk => eqn_lt h hk
  have bx : ∀ ln ∈ lx, ∀ l ∈ ln, -1 ≤ l ∧ l * 3 + 2 + ((0 : Nat) : Int) < ((3 * tx + 3 * ty : Nat) : Int) := fun ln hln l hl' => by
    have := Nx.range hp2 ln hln l hl'; omega
  have bY : ∀ ln ∈ ly, ∀ l ∈ ln, -1 ≤ l ∧ l * 3 + 2 + ((3 * tx : Nat) : Int) < ((3 * tx + 3 * ty : Nat) : Int) := fun ln hln l hl' => by
    have := Ny.range hp1 ln hln l hl'; omega
  simp only [List.mem_cons, List.not_mem_nil, or_false, forall_eq_or_imp, forall_eq] at hv
  obtain ⟨v1, v2, v3, v4⟩ := hv
  obtain ⟨B1, a1, c1⟩ := coupling_all h hd hapart hunit lx S.left (by rw [Nx.len, hl]) 0 _ bx v1 1 ⟨fun _ _ => 0, fun _ => 0, []⟩
  obtain ⟨B2, a2, c2⟩ := coupling_all h hd hapart hunit lx S.right (by rw [Nx.len, hr]) 0 _ bx v2 (-1) B1
  obtain ⟨B3, a3, c3⟩ := coupling_all h hd hapart hunit ly S.front (by rw [Ny.len, hf]) (3 * tx) _ bY v3 1 B2
  obtain ⟨B4, a4, c4⟩ := coupling_all h hd hapart hunit ly S.back (by rw [Ny.len, hb]) (3 * tx) _ bY v4 (-1) B3
  obtain ⟨q1, e1, -, t1⟩ := C83_pattern (preprocess h) lx S.left 0 1 ⟨fun _ _ => 0, fun _ => 0, []⟩ B1 [] (by intro t ht; exact ht) a1
  obtain ⟨q2, e2, -, t2⟩ := C83_pattern (preprocess h) lx S.right 0 (-1) B1 B2 q1 t1 a2
  obtain ⟨q3, e3, -, t3⟩ := C83_pattern (preprocess h) ly S.front (3 * tx) 1 B2 B3 q2 t2 a3
  obtain ⟨q4, e4, -, t4⟩ := C83_pattern (preprocess h) ly S.back (3 * tx) (-1) B3 B4 q3 t3 a4
  obtain ⟨q1', e1', g1⟩ := pattern_some (preprocess h) lx S.left (by rw [Nx.len, hl]) 0 _ bx hN [] (by simp)
  obtain rfl : q1 = q1' := Option.some.inj (e1.symm.trans e1')
  obtain ⟨q2', e2', g2⟩ := pattern_some (preprocess h) lx S.right (by rw [Nx.len, hr]) 0 _ bx hN q1 g1
  obtain rfl : q2 = q2' := Option.some.inj (e2.symm.trans e2')
  obtain ⟨q3', e3', g3⟩ := pattern_some (preprocess h) ly S.front (by rw [Ny.len, hf]) (3 * tx) _ bY hN q2 g2
  obtain rfl : q3 = q3' := Option.some.inj (e3.symm.trans e3')
  obtain ⟨q4', e4', g4⟩ := pattern_some (preprocess h) ly S.back (by rw [Ny.len, hb]) (3 * tx) _ bY hN q3 g3
  obtain rfl : q4 = q4' := Option.some.inj (e4.symm.trans e4')
  refine ⟨B4, 3 * tx + 3 * ty, ?_, by rw [Nx.count, Ny.count], fun y => ?_⟩
  · unfold mortarBlock mortarPatterns mortarAssembly
    simp only [show 1 + 1 = 2 from rfl, ex, ey, Option.bind_some, e1, e2, e3, e4, a1, a2, a3, a4]
    rw [if_pos ⟨g4, t4⟩]
  · have hform : ∀ x : Nat → K, ∑ r ∈ Finset.range (preprocess h).maxeqn, ∑ c ∈ Finset.range (3 * tx + 3 * ty), y r * B4.A r c * x c =
        (sideIntegral n2 p2 S.left (expandSolution (homogeneous (preprocess h)) y) (fun k r d => multiplier x 0 (fx k r) d) -
          sideIntegral n2 p2 S.right (expandSolution (homogeneous (preprocess h)) y) (fun k r d => multiplier x 0 (fx k r) d)) +
        (sideIntegral n1 p1 S.front (expandSolution (homogeneous (preprocess h)) y) (fun k r d => multiplier x (3 * tx) (fy k r) d) -
          sideIntegral n1 p1 S.back (expandSolution (homogeneous (preprocess h)) y) (fun k r d => multiplier x (3 * tx) (fy k r) d)) := by
      intro x
      rw [c4, c3, c2, c1, Nx.couplings _ hl, Nx.couplings _ hr, Ny.couplings _ hf, Ny.couplings _ hb]
      simp only [mul_zero, zero_mul, Finset.sum_const_zero]
      ring
    have hcol : ∀ x : Nat → K, ∑ r ∈ Finset.range (preprocess h).maxeqn, ∑ c ∈ Finset.range (3 * tx + 3 * ty), y r * B4.A r c * x c =
        ∑ c ∈ Finset.range (3 * tx + 3 * ty), (∑ r ∈ Finset.range (preprocess h).maxeqn, y r * B4.A r c) * x c := by
      intro x
      rw [Finset.sum_comm]
      exact Finset.sum_congr rfl fun c _ => by rw [Finset.sum_mul]
    constructor
    · intro hz
      have hall : ∀ x : Nat → K, ∑ r ∈ Finset.range (preprocess h).maxeqn, ∑ c ∈ Finset.range (3 * tx + 3 * ty), y r * B4.A r c * x c = 0 := by
        intro x
        rw [hcol]
        exact Finset.sum_eq_zero fun c hc => by rw [hz c (Finset.mem_range.mp hc), zero_mul]
      constructor
      · intro μ hμ
        obtain ⟨z, hz'⟩ := Nx.field μ hμ
        have h1 := hz' 0 (fun c => if c < 3 * tx then z c else 0) (fun c hc => by simp [hc])
        have h2 : ∀ k r d, k < n1 → r < (if p1 > 1 then p1 else p1 + 1) → d < 3 →
            multiplier (fun c => if c < 3 * tx then z c else 0) (3 * tx) (fy k r) d = 0 := by
          intro k r d _ _ _
          unfold multiplier
          split
          · rfl
          · exact if_neg (by omega)
        have h3 := (hform fun c => if c < 3 * tx then z c else 0).symm.trans (hall _)
        rw [sideIntegral_congr (by omega) hp2 S.left _ _ μ h1, sideIntegral_congr (by omega) hp2 S.right _ _ μ h1,
          sideIntegral_congr (by omega) hp1 S.front _ _ (fun _ _ _ => 0) (fun k hk r hr d hd => h2 k r d hk hr hd),
          sideIntegral_congr (by omega) hp1 S.back _ _ (fun _ _ _ => 0) (fun k hk r hr d hd => h2 k r d hk hr hd),
          sideIntegral_zero, sideIntegral_zero, sub_zero, add_zero] at h3
        exact sub_eq_zero.mp h3
      · intro μ hμ
        obtain ⟨z, hz'⟩ := Ny.field μ hμ
        have h1 := hz' (3 * tx) (fun c => if c < 3 * tx then 0 else z (c - 3 * tx)) (fun c hc => by
          rw [if_neg (by omega), Nat.add_sub_cancel])
        have h2 : ∀ k < n2, ∀ r < (if p2 > 1 then p2 else p2 + 1), ∀ d < 3,
            multiplier (fun c => if c < 3 * tx then 0 else z (c - 3 * tx)) 0 (fx k r) d = 0 := by
          intro k hk r hr d hd'
          unfold multiplier
          by_cases h0 : (k, r) = (0, 0)
          · rw [Prod.mk.injEq] at h0
            rw [h0.1, h0.2, if_pos Nx.num.fixed]
          · have := Nx.num.range k hk r hr h0
            rw [if_neg (by omega)]
            exact if_pos (by omega)
        have h3 := (hform fun c => if c < 3 * tx then 0 else z (c - 3 * tx)).symm.trans (hall _)
        rw [sideIntegral_congr (by omega) hp1 S.front _ _ μ h1, sideIntegral_congr (by omega) hp1 S.back _ _ μ h1,
          sideIntegral_congr (by omega) hp2 S.left _ _ (fun _ _ _ => 0) h2, sideIntegral_congr (by omega) hp2 S.right _ _ (fun _ _ _ => 0) h2,
          sideIntegral_zero, sideIntegral_zero, sub_zero, zero_add] at h3
        exact sub_eq_zero.mp h3
    · rintro ⟨hX, hY⟩ c hc
      have h3 := (hcol fun c' => if c' = c then 1 else 0).symm.trans (hform _)
      rw [hX _ fun d _ => by simp [multiplier, Nx.num.fixed], hY _ fun d _ => by simp [multiplier, Ny.num.fixed], sub_self, sub_self, add_zero] at h3
      simpa [Finset.sum_ite_eq', hc] using h3

/-- **C146**: if opposite sides match and corresponding vertices move alike, the constraint holds. -/
theorem C146_matching (n p : Nat) (v : Nat → Nat → K) (a b : List (List (MortarQuad K))) (hm : Matching v a b) (μ : Nat → Nat → Nat → K) :
    sideIntegral n p a v μ = sideIntegral n p b v μ := by
  unfold sideIntegral
  congr 1
  refine List.map_congr_left fun e he => ?_
  clear he
  have hcol : List.Forall₂ (fun q q' : MortarQuad K => q.vertex.length = q'.vertex.length ∧ q.mat = q'.mat ∧
      ∀ i < q.vertex.length, ∀ d < 3, v (q.vertex.getD i 0) d = v (q'.vertex.getD i 0) d) (a.getD e []) (b.getD e []) := by
    unfold Matching at hm
    induction hm generalizing e with
    | nil => simp
    | cons h1 _ ih => cases e with
      | zero => simpa using h1
      | succ e => simpa using ih e
  generalize a.getD e [] = l at hcol
  generalize b.getD e [] = l' at hcol
  induction hcol with
  | nil => rfl
  | cons hq _ ih =>
    rw [List.map_cons, List.map_cons, List.sum_cons, List.sum_cons, ih]
    congr 1
    obtain ⟨h1, h2, h3⟩ := hq
    rw [← h1, ← h2]
    refine Finset.sum_congr rfl fun d hd => Finset.sum_congr rfl fun i hi => Finset.sum_congr rfl fun i2 _ => Finset.sum_congr rfl fun i1 _ => ?_
    rw [h3 i (Finset.mem_range.mp hi) d (Finset.mem_range.mp hd)]

/-- **C146 is violated** for a single cell in one of the directions: the numbering of the multipliers reads past the end of a vector. -/
theorem C146_violated_single (n1 n2 p1 p2 : Nat) (hp1 : 1 ≤ p1) (hp2 : 1 ≤ p2) (h1 : n1 = 1 ∨ n2 = 1) (S : Sides K) : mortarBlock h n1 n2 p1 p2 S = none := by
  unfold mortarBlock
  rcases h1 with rfl | rfl
  · rw [show 1 + 1 = 2 from rfl, C82_violated_single (p1 + 1) (by omega)]
    cases renumber n2 2 (p2 + 1) <;> rfl
  · rw [show 1 + 1 = 2 from rfl, C82_violated_single (p2 + 1) (by omega)]
    rfl

/-! ### An example -/

/-- Eight nodes, nodes 6 and 7 follow nodes 0 and 1 in the first direction; a side has two columns with one quad of two nodes each. -/
def exHandler : Handler ℚ := runCalls (Handler.new 3 8) [.constrain ⟨6, 0, 0, [⟨0, 0, 1⟩]⟩, .constrain ⟨7, 0, 0, [⟨1, 0, 1⟩]⟩]

def exQuad (a b : Nat) : MortarQuad ℚ := ⟨[a, b], fun i j => i + 2 * j + 1⟩

def exSides : Sides ℚ := ⟨[[exQuad 0 1], [exQuad 1 2]], [[exQuad 3 4], [exQuad 4 5]], [[exQuad 0 3], [exQuad 3 6]], [[exQuad 2 5], [exQuad 5 7]]⟩

/-- The hypotheses of `C146_constraint_partial` hold. -/
example : exHandler.dim = 3 ∧ (∀ n i, Prescribed exHandler n i → ¬ Slave exHandler n i) ∧
    (∀ n d m, d < exHandler.dim → exHandler.mpcs (n * exHandler.dim + d) = some m → ∀ a ∈ m.masters, a.dof = d ∧ a.coeff = 1) ∧
    (∀ side ∈ [exSides.left, exSides.right, exSides.front, exSides.back], side.length = 2 ∧ ∀ c ∈ side, ∀ q ∈ c, ∀ n ∈ q.vertex, n < exHandler.nodes) := by
  refine ⟨rfl, (fun n i ⟨f, hf, _⟩ => by cases hf), fun n d m hd hm => ?_, by decide⟩
  have hd : d < 3 := hd
  have hk : exHandler.mpcs (n * 3 + d) = if n * 3 + d = 21 then some ⟨7, 0, 0, [⟨1, 0, 1⟩]⟩ else if n * 3 + d = 18 then some ⟨6, 0, 0, [⟨0, 0, 1⟩]⟩ else none := by
    by_cases h1 : n * 3 + d = 21
    · simp [exHandler, runCalls, addMPC, Handler.new, fixedDof, key, h1]
    · simp [exHandler, runCalls, addMPC, Handler.new, fixedDof, key, h1]
  have hm : exHandler.mpcs (n * 3 + d) = some m := hm
  rw [hk] at hm
  intro a ha
  by_cases h1 : n * 3 + d = 21
  · rw [if_pos h1] at hm
    obtain rfl := Option.some.inj hm
    obtain rfl : a = ⟨1, 0, 1⟩ := by simpa using ha
    exact ⟨show 0 = d by omega, rfl⟩
  · rw [if_neg h1] at hm
    by_cases h2 : n * 3 + d = 18
    · rw [if_pos h2] at hm
      obtain rfl := Option.some.inj hm
      obtain rfl : a = ⟨0, 0, 1⟩ := by simpa using ha
      exact ⟨show 0 = d by omega, rfl⟩
    · rw [if_neg h2] at hm; cases hm

/-- The block of the example has 18 columns; the entry of node 0 in the first direction and the multiplier shared by both elements of the sides left and right. -/
example : ((mortarBlock (preprocess exHandler) 2 2 1 1 exSides).map fun r => (r.2, (List.range 18).map fun c => r.1.A 0 c)) =
    some (18, [3, 0, 0, 5, 0, 0, 7, 0, 0, 5, 0, 0, 13, 0, 0, 13, 0, 0]) := by decide +kernel

end Verif.Asm
