import Verif.Model.Shape
import Mathlib.Algebra.BigOperators.Fin
import Mathlib.Algebra.BigOperators.Ring.Finset
import Mathlib.Analysis.Calculus.Deriv.Mul
import Mathlib.Analysis.Calculus.Deriv.Add
import Mathlib.LinearAlgebra.Lagrange
import Mathlib.Data.List.Nodup
import Mathlib.Tactic.FinCases
import Mathlib.Tactic.Ring
import Mathlib.Tactic.Linarith
import Mathlib.Tactic.FieldSimp
import Mathlib.Tactic.LinearCombination
import Mathlib.Tactic.IntervalCases

/-!
Property C44: shape functions.
-/

namespace Verif.Shape

variable {K : Type} [Field K]

/-! ### linear functions -/

theorem foldl_mul_prod {α : Type} (g : α → K) (l : List α) (r : K) :
    l.foldl (fun r i => r * g i) r = r * (l.map g).prod := by
  induction l generalizing r with
  | nil => simp
  | cons a l ih => rw [List.foldl_cons, ih, List.map_cons, List.prod_cons, mul_assoc]

theorem eval_eq {dim : Nat} (f : Linear K dim) (x : Fin dim → K) : f.eval x = ∏ i, (f.c0 i + f.c1 i * x i) := by
  unfold Linear.eval
  rw [foldl_mul_prod, one_mul, ← List.ofFn_eq_map, List.prod_ofFn]

theorem grad_eq {dim : Nat} (f : Linear K dim) (x : Fin dim → K) (i : Fin dim) :
    f.grad x i = ∏ j, if i = j then f.c1 j else f.c0 j + f.c1 j * x j := by
  unfold Linear.grad
  have h : (fun (r : K) (j : Fin dim) => if i = j then r * f.c1 j else r * (f.c0 j + f.c1 j * x j)) =
      fun r j => r * (if i = j then f.c1 j else f.c0 j + f.c1 j * x j) := by
    funext r j
    split <;> rfl
  rw [h, foldl_mul_prod, one_mul, ← List.ofFn_eq_map, List.prod_ofFn]

/-- C44: in any dimension the reported gradient consists of the partial derivatives of the function. -/
theorem C44_gradient {dim : Nat} (f : Linear ℝ dim) (x : Fin dim → ℝ) (i : Fin dim) :
    HasDerivAt (fun t => f.eval (Function.update x i t)) (f.grad x i) (x i) := by
  have h1 : ∀ t, f.eval (Function.update x i t) =
      (f.c0 i + f.c1 i * t) * ∏ j ∈ Finset.univ.erase i, (f.c0 j + f.c1 j * x j) := by
    intro t
    rw [eval_eq, ← Finset.mul_prod_erase _ _ (Finset.mem_univ i), Function.update_self]
    congr 1
    apply Finset.prod_congr rfl
    intro j hj
    rw [Function.update_of_ne (Finset.ne_of_mem_erase hj)]
  have h2 : f.grad x i = f.c1 i * ∏ j ∈ Finset.univ.erase i, (f.c0 j + f.c1 j * x j) := by
    rw [grad_eq, ← Finset.mul_prod_erase _ _ (Finset.mem_univ i), if_pos rfl]
    congr 1
    apply Finset.prod_congr rfl
    intro j hj
    rw [if_neg (Finset.ne_of_mem_erase hj).symm]
  rw [funext h1, h2]
  have h3 : HasDerivAt (fun t => f.c0 i + f.c1 i * t) (f.c1 i) (x i) := by
    simpa using ((hasDerivAt_id (x i)).const_mul (f.c1 i)).const_add (f.c0 i)
  exact h3.mul_const _

/-- Corner `k` of the reference cube: its coordinates are the binary digits of `k`. -/
def corner (dim : Nat) (k : Nat) (j : Fin dim) : K := if (k / 2 ^ j.val) % 2 = 1 then 1 else 0

/-- The usual form of the multilinear functions: a factor `x_j` or `1 - x_j` for each direction. -/
def hat (dim : Nat) (k : Nat) (x : Fin dim → K) : K :=
  ∏ j : Fin dim, if (k / 2 ^ j.val) % 2 = 1 then x j else 1 - x j

theorem p1_two (i : Nat) (h : i < 4) : ∃ f : Linear K 2, p1 2 i = some f ∧ ∀ x, f.eval x = hat 2 i x := by
  interval_cases i
  all_goals
    refine ⟨_, rfl, fun x => ?_⟩
    rw [eval_eq]
    simp [hat, Fin.prod_univ_two, table0, table1, -mul_eq_mul_left_iff, -mul_eq_mul_right_iff]
  all_goals ring

theorem p1_three (i : Nat) (h : i < 8) : ∃ f : Linear K 3, p1 3 i = some f ∧ ∀ x, f.eval x = hat 3 i x := by
  interval_cases i
  all_goals
    refine ⟨_, rfl, fun x => ?_⟩
    rw [eval_eq]
    simp [hat, Fin.prod_univ_three, table0, table1, -mul_eq_mul_left_iff, -mul_eq_mul_right_iff]
  all_goals ring

/-- C44: the set of four functions on the square and of eight on the cube exists; function `i` is one at corner `i` and zero
at the others, at every point the functions sum to one and the reported gradients to zero. -/
theorem C44_square :
    ∃ F : List (Linear K 2), p1Set 2 = some F ∧ F.length = 4 ∧
      (∀ i k, i < 4 → k < 4 → ∃ f, F[i]? = some f ∧ f.eval (corner 2 k) = if i = k then 1 else 0) ∧
      (∀ x, (F.map fun f => f.eval x).sum = 1) ∧ (∀ x d, (F.map fun f => f.grad x d).sum = 0) := by
  obtain ⟨f0, h0, e0⟩ := p1_two (K := K) 0 (by omega)
  obtain ⟨f1, h1, e1⟩ := p1_two (K := K) 1 (by omega)
  obtain ⟨f2, h2, e2⟩ := p1_two (K := K) 2 (by omega)
  obtain ⟨f3, h3, e3⟩ := p1_two (K := K) 3 (by omega)
  refine ⟨[f0, f1, f2, f3], ?_, rfl, ?_, ?_, ?_⟩
  · simp [p1Set, setSize, List.range_succ, h0, h1, h2, h3]
  · intro i k hi hk
    interval_cases i <;> interval_cases k <;>
      exact ⟨_, rfl, by simp [e0, e1, e2, e3, hat, corner, Fin.prod_univ_two]⟩
  · intro x
    simp only [List.map_cons, List.map_nil, List.sum_cons, List.sum_nil, e0, e1, e2, e3]
    simp [hat, Fin.prod_univ_two]
    ring
  · intro x d
    simp only [p1, readCoeffs, table0, table1] at h0 h1 h2 h3
    simp at h0 h1 h2 h3
    subst h0 h1 h2 h3
    simp only [List.map_cons, List.map_nil, List.sum_cons, List.sum_nil, grad_eq]
    fin_cases d <;> simp [Fin.prod_univ_two] <;> ring

theorem C44_cube :
    ∃ F : List (Linear K 3), p1Set 3 = some F ∧ F.length = 8 ∧
      (∀ i k, i < 8 → k < 8 → ∃ f, F[i]? = some f ∧ f.eval (corner 3 k) = if i = k then 1 else 0) ∧
      (∀ x, (F.map fun f => f.eval x).sum = 1) ∧ (∀ x d, (F.map fun f => f.grad x d).sum = 0) := by
  obtain ⟨f0, h0, e0⟩ := p1_three (K := K) 0 (by omega)
  obtain ⟨f1, h1, e1⟩ := p1_three (K := K) 1 (by omega)
  obtain ⟨f2, h2, e2⟩ := p1_three (K := K) 2 (by omega)
  obtain ⟨f3, h3, e3⟩ := p1_three (K := K) 3 (by omega)
  obtain ⟨f4, h4, e4⟩ := p1_three (K := K) 4 (by omega)
  obtain ⟨f5, h5, e5⟩ := p1_three (K := K) 5 (by omega)
  obtain ⟨f6, h6, e6⟩ := p1_three (K := K) 6 (by omega)
  obtain ⟨f7, h7, e7⟩ := p1_three (K := K) 7 (by omega)
  refine ⟨[f0, f1, f2, f3, f4, f5, f6, f7], ?_, rfl, ?_, ?_, ?_⟩
  · simp [p1Set, setSize, List.range_succ, h0, h1, h2, h3, h4, h5, h6, h7]
  · intro i k hi hk
    interval_cases i <;> interval_cases k <;>
      exact ⟨_, rfl, by simp [e0, e1, e2, e3, e4, e5, e6, e7, hat, corner, Fin.prod_univ_three]⟩
  · intro x
    simp only [List.map_cons, List.map_nil, List.sum_cons, List.sum_nil, e0, e1, e2, e3, e4, e5, e6, e7]
    simp [hat, Fin.prod_univ_three]
    ring
  · intro x d
    simp only [p1, readCoeffs, table0, table1] at h0 h1 h2 h3 h4 h5 h6 h7
    simp at h0 h1 h2 h3 h4 h5 h6 h7
    subst h0 h1 h2 h3 h4 h5 h6 h7
    simp only [List.map_cons, List.map_nil, List.sum_cons, List.sum_nil, grad_eq]
    fin_cases d <;> simp [Fin.prod_univ_three] <;> ring

/-- C44 is violated in one dimension: the constructor of the set reads eight functions from tables of two. -/
theorem C44_violated_line : (p1Set 1 : Option (List (Linear K 1))) = none := by
  simp [p1Set, setSize, List.range_succ, p1, readCoeffs, table0, table1]

/-! ### Lagrange cardinal functions -/

variable [DecidableEq K]

/-- The loop over nodes with a division: it fails exactly if some division is by zero. -/
theorem foldlM_div (skip : Nat → Bool) (y x : K) (l : List (K × Nat)) (r : K) :
    ((∀ p ∈ l, skip p.2 = false → y ≠ p.1) →
      l.foldlM (fun r p => if skip p.2 = true then some r else if y - p.1 = 0 then none
        else some (r * ((x - p.1) / (y - p.1)))) r =
        some (r * (l.map fun p => if skip p.2 = true then 1 else (x - p.1) / (y - p.1)).prod)) ∧
    ((∃ p ∈ l, skip p.2 = false ∧ y = p.1) →
      l.foldlM (fun r p => if skip p.2 = true then some r else if y - p.1 = 0 then none
        else some (r * ((x - p.1) / (y - p.1)))) r = none) := by
  induction l generalizing r with
  | nil => simp
  | cons a l ih =>
    constructor
    · intro h
      rw [List.foldlM_cons]
      cases hs : skip a.2 with
      | true =>
        simp only [if_true]
        refine ((ih r).1 fun p hp => h p (by simp [hp])).trans ?_
        simp [hs]
      | false =>
        have hne : y - a.1 ≠ 0 := sub_ne_zero.mpr (h a (by simp) hs)
        simp only [Bool.false_eq_true, if_false, hne]
        refine ((ih _).1 fun p hp => h p (by simp [hp])).trans ?_
        simp [hs, mul_assoc]
    · rintro ⟨p, hp, hs, hy⟩
      rw [List.foldlM_cons]
      cases hsa : skip a.2 with
      | true =>
        simp only [if_true]
        apply (ih r).2
        rcases List.mem_cons.mp hp with rfl | hp
        · rw [hs] at hsa; cases hsa
        · exact ⟨p, hp, hs, hy⟩
      | false =>
        simp only [Bool.false_eq_true, if_false]
        by_cases h0 : y - a.1 = 0
        · rw [if_pos h0]; rfl
        · rw [if_neg h0]
          apply (ih _).2
          rcases List.mem_cons.mp hp with rfl | hp
          · exact absurd (sub_eq_zero.mpr hy) h0
          · exact ⟨p, hp, hs, hy⟩

theorem lagrange_unfold (nodes : List K) (node : Nat) (y x : K) (hy : nodes[node]? = some y) :
    lagrange nodes node x = nodes.zipIdx.foldlM (fun r p => if (decide (p.2 = node)) = true then some r
      else if y - p.1 = 0 then none else some (r * ((x - p.1) / (y - p.1)))) 1 := by
  unfold lagrange
  rw [hy]
  simp only [decide_eq_true_eq]

/-- The value of a cardinal function as a product over the other nodes. -/
theorem lagrange_eq (n : Nat) (v : Fin n → K) (hv : Function.Injective v) (i : Fin n) (x : K) :
    lagrange (List.ofFn v) i x = some (∏ j, if j = i then 1 else (x - v j) / (v i - v j)) := by
  rw [lagrange_unfold (List.ofFn v) i (v i) x (by simp)]
  rw [(foldlM_div (fun k => decide (k = i.val)) (v i) x _ 1).1 ?_]
  · rw [one_mul]
    congr 1
    have : ((List.ofFn v).zipIdx.map fun p : K × Nat => if decide (p.2 = i.val) = true then (1 : K)
        else (x - p.1) / (v i - p.1)) = List.ofFn fun j => if j = i then 1 else (x - v j) / (v i - v j) := by
      apply List.ext_getElem
      · simp
      · intro k h1 h2
        simp only [List.getElem_map, List.getElem_zipIdx, List.getElem_ofFn, Nat.zero_add, decide_eq_true_eq, Fin.ext_iff]
    rw [this, List.prod_ofFn]
  · rintro ⟨p, k⟩ hp hk heq
    rw [List.mem_zipIdx_iff_getElem?] at hp
    simp only [decide_eq_false_iff_not] at hk
    rw [List.getElem?_ofFn] at hp
    simp only at heq
    by_cases hkn : k < n
    · simp only [hkn, dif_pos, Option.some.injEq] at hp
      have := hv (heq.trans hp.symm)
      exact hk (by rw [this])
    · simp [hkn] at hp

/-- C44: cardinal functions on distinct nodes are one at their own node and zero at the others. -/
theorem C44_lagrange_nodal (n : Nat) (v : Fin n → K) (hv : Function.Injective v) (i k : Fin n) :
    lagrange (List.ofFn v) i (v k) = some (if i = k then 1 else 0) := by
  rw [lagrange_eq n v hv]
  congr 1
  by_cases h : i = k
  · subst h
    rw [if_pos rfl]
    apply Finset.prod_eq_one
    intro j _
    by_cases hj : j = i
    · rw [if_pos hj]
    · rw [if_neg hj, div_self (sub_ne_zero.mpr fun he => hj (hv he).symm)]
  · rw [if_neg h]
    apply Finset.prod_eq_zero (Finset.mem_univ k)
    rw [if_neg (fun h' => h h'.symm), sub_self, zero_div]

theorem lagrange_basis (n : Nat) (v : Fin n → K) (hv : Function.Injective v) (i : Fin n) (x : K) :
    lagrange (List.ofFn v) i x = some ((Lagrange.basis Finset.univ v i).eval x) := by
  rw [lagrange_eq n v hv]
  congr 1
  unfold Lagrange.basis
  rw [Polynomial.eval_prod, ← Finset.mul_prod_erase _ _ (Finset.mem_univ i), if_pos rfl, one_mul]
  apply Finset.prod_congr rfl
  intro j hj
  rw [if_neg (Finset.ne_of_mem_erase hj)]
  simp [Lagrange.basisDivisor, div_eq_inv_mul]

/-- C44: cardinal functions reproduce every polynomial of degree below the number of nodes from its values at the nodes;
with the constant one this is the partition of unity. -/
theorem C44_lagrange_reproduce (n : Nat) (v : Fin n → K) (hv : Function.Injective v) (p : Polynomial K)
    (hp : p.degree < n) (x : K) :
    ∃ val : Fin n → K, (∀ i : Fin n, lagrange (List.ofFn v) i x = some (val i)) ∧ ∑ i, p.eval (v i) * val i = p.eval x := by
  refine ⟨fun i => (Lagrange.basis Finset.univ v i).eval x, fun i => lagrange_basis n v hv i x, ?_⟩
  have h := Lagrange.eq_interpolate (s := Finset.univ) (v := v) (f := p) hv.injOn (by simpa using hp)
  conv_rhs => rw [h]
  rw [Lagrange.interpolate_apply, Polynomial.eval_finset_sum]
  apply Finset.sum_congr rfl
  intro i _
  simp

theorem C44_lagrange_unity (n : Nat) (hn : 0 < n) (v : Fin n → K) (hv : Function.Injective v) (x : K) :
    ∃ val : Fin n → K, (∀ i : Fin n, lagrange (List.ofFn v) i x = some (val i)) ∧ ∑ i, val i = 1 := by
  obtain ⟨val, h1, h2⟩ := C44_lagrange_reproduce n v hv 1 (by rw [Polynomial.degree_one]; exact_mod_cast hn) x
  exact ⟨val, h1, by simpa using h2⟩

/-- C44: repeated nodes make the functions undefined (a division by zero). -/
theorem C44_lagrange_repeated (nodes : List K) (i j : Nat) (y x : K) (hij : i ≠ j) (hi : nodes[i]? = some y)
    (hj : nodes[j]? = some y) : lagrange nodes i x = none := by
  rw [lagrange_unfold nodes i y x hi]
  apply (foldlM_div (fun k => decide (k = i)) y x _ 1).2
  exact ⟨(y, j), by rw [List.mem_zipIdx_iff_getElem?]; exact hj, by simpa using hij.symm, rfl⟩

theorem foldlM_none {α β : Type} (f : β → α → Option β) (l : List α) (a : α) (h : a ∈ l) (hf : ∀ r, f r a = none) (r : β) :
    l.foldlM f r = none := by
  induction l generalizing r with
  | nil => cases h
  | cons b l ih =>
    rw [List.foldlM_cons]
    rcases List.mem_cons.mp h with rfl | h
    · rw [hf]; rfl
    · cases f r b with
      | none => rfl
      | some s => exact ih h s

/-- C44 is violated by the derivative of a cardinal function: whatever the nodes are, the term of the function's own
node divides by zero. -/
theorem C44_violated_lagrange_gradient (nodes : List K) (node : Nat) (x : K) : lagrangeGrad nodes node x = none := by
  unfold lagrangeGrad
  cases h : nodes[node]? with
  | none => rfl
  | some y =>
    apply foldlM_none _ _ (y, node)
    · rw [List.mem_zipIdx_iff_getElem?]; exact h
    · intro r
      dsimp only
      cases lagrangeInner nodes y node node x with
      | none => rfl
      | some f => simp

/-- The inner product of the derivative, over the nodes other than `i` and the function's own. -/
theorem inner_eq (n : Nat) (v : Fin n → K) (hv : Function.Injective v) (k i : Fin n) (x : K) :
    lagrangeInner (List.ofFn v) (v k) k i x = some (∏ j, if j = i ∨ j = k then 1 else (x - v j) / (v k - v j)) := by
  have e : lagrangeInner (List.ofFn v) (v k) k i x = (List.ofFn v).zipIdx.foldlM (fun r p => if (decide (p.2 = i.val ∨ p.2 = k.val)) = true then some r
      else if v k - p.1 = 0 then none else some (r * ((x - p.1) / (v k - p.1)))) 1 := by
    unfold lagrangeInner
    congr 1
    funext r p
    by_cases h1 : p.2 = i.val
    · rw [if_neg (fun h => h.1 h1.symm), if_pos (decide_eq_true (Or.inl h1))]
    · by_cases h2 : p.2 = k.val
      · rw [if_neg (fun h => h.2 h2), if_pos (decide_eq_true (Or.inr h2))]
      · rw [if_pos ⟨fun h => h1 h.symm, h2⟩, if_neg (c := decide (p.2 = i.val ∨ p.2 = k.val) = true) (fun h => (of_decide_eq_true h).elim h1 h2)]
  rw [e, (foldlM_div (fun m => decide (m = i.val ∨ m = k.val)) (v k) x _ 1).1 ?_]
  · rw [one_mul]
    congr 1
    have : ((List.ofFn v).zipIdx.map fun p : K × Nat => if decide (p.2 = i.val ∨ p.2 = k.val) = true then (1 : K)
        else (x - p.1) / (v k - p.1)) = List.ofFn fun j => if j = i ∨ j = k then 1 else (x - v j) / (v k - v j) := by
      apply List.ext_getElem
      · simp
      · intro k h1 h2
        simp only [List.getElem_map, List.getElem_zipIdx, List.getElem_ofFn, Nat.zero_add, decide_eq_true_eq, Fin.ext_iff]
    rw [this, List.prod_ofFn]
  · rintro ⟨p, m⟩ hp hm heq
    rw [List.mem_zipIdx_iff_getElem?, List.getElem?_ofFn] at hp
    simp only [decide_eq_false_iff_not, not_or] at hm
    simp only at heq
    by_cases hmn : m < n
    · simp only [hmn, dif_pos, Option.some.injEq] at hp
      have := hv (heq.trans hp.symm)
      exact hm.2 (by rw [this])
    · simp [hmn] at hp

/-- C44, derivative of a cardinal function: all the terms the program computes but that of the function's own node are right: they are defined and their sum is the
derivative. Missing: the program adds the term of the own node too (`C44_violated_lagrange_gradient`). -/
theorem C44_lagrange_gradient_partial (n : Nat) (v : Fin n → ℝ) (hv : Function.Injective v) (k : Fin n) (x : ℝ) (L : ℝ → ℝ)
    (hL : ∀ t, lagrange (List.ofFn v) k t = some (L t)) :
    ∃ f : Fin n → ℝ, (∀ i : Fin n, lagrangeInner (List.ofFn v) (v k) k i x = some (f i)) ∧
      HasDerivAt L (∑ i ∈ Finset.univ.erase k, f i / (v k - v i)) x := by
  refine ⟨_, fun i => inner_eq n v hv k i x, ?_⟩
  have e : L = fun t => ∏ j ∈ Finset.univ.erase k, (t - v j) / (v k - v j) := by
    funext t
    have := (hL t).symm.trans (lagrange_eq n v hv k t)
    rw [Option.some.inj this, ← Finset.mul_prod_erase _ _ (Finset.mem_univ k), if_pos rfl, one_mul]
    exact Finset.prod_congr rfl fun j hj => if_neg (Finset.ne_of_mem_erase hj)
  rw [e]
  have hd := HasDerivAt.fun_finsetProd (u := Finset.univ.erase k) (f := fun j t => (t - v j) / (v k - v j)) (f' := fun j => 1 / (v k - v j)) (x := x)
    fun j _ => ((hasDerivAt_id x).sub_const (v j)).div_const (v k - v j)
  refine hd.congr_deriv (Finset.sum_congr rfl fun i hi => ?_)
  symm
  rw [smul_eq_mul, mul_one_div]
  congr 1
  rw [← Finset.mul_prod_erase _ _ (Finset.mem_univ k), if_pos (Or.inr rfl), one_mul, ← Finset.mul_prod_erase _ _ hi, if_pos (Or.inl rfl), one_mul]
  refine Finset.prod_congr rfl fun j hj => ?_
  rw [if_neg]
  rintro (h | h)
  · exact Finset.ne_of_mem_erase hj h
  · exact Finset.ne_of_mem_erase (Finset.mem_of_mem_erase hj) h

/-! ### tensor products -/

theorem tensor_eq {dim : Nat} (nodes : Fin dim → List K) (node : Fin dim → Nat) (x : Fin dim → K) (val : Fin dim → K)
    (h : ∀ i, lagrange (nodes i) (node i) (x i) = some (val i)) : tensor nodes node x = some (∏ i, val i) := by
  unfold tensor
  have key : ∀ (l : List (Fin dim)) (r : K), l.foldlM (fun r i => (lagrange (nodes i) (node i) (x i)).map fun v => r * v) r =
      some (r * (l.map val).prod) := by
    intro l
    induction l with
    | nil => simp
    | cons a l ih =>
      intro r
      rw [List.foldlM_cons, h a, Option.map_some]
      exact (ih _).trans (by simp [mul_assoc])
  rw [key, one_mul, ← List.ofFn_eq_map, List.prod_ofFn]

omit [Field K] [DecidableEq K] in
/-- C44: order of the tensor product functions: first direction fastest. -/
theorem C44_pn_order (n1 n2 n3 i j k : Nat) (hi : i < n1) (hj : j < n2) (hk : k < n3) :
    (pnNodes3 n1 n2 n3)[i + n1 * (j + n2 * k)]? = some ![i, j, k] ∧ (pnNodes3 n1 n2 n3).length = n1 * n2 * n3 ∧
    (pnNodes2 n1 n2)[i + n1 * j]? = some ![i, j] ∧ (pnNodes2 n1 n2).length = n1 * n2 := by
  have get_flat : ∀ {α : Type} (m n : Nat) (f : Nat → List α), (∀ q, q < n → (f q).length = m) → ∀ q r, q < n → r < m →
      ((List.range n).flatMap f)[r + m * q]? = (f q)[r]? := by
    intro α m n f hlen q r hq hr
    induction n with
    | zero => omega
    | succ n ih =>
      have hl : ((List.range n).flatMap f).length = m * n := by
        rw [List.length_flatMap]
        have : (List.range n).map (fun a => (f a).length) = List.replicate n m := by
          rw [List.eq_replicate_iff]
          refine ⟨by simp, fun b hb => ?_⟩
          obtain ⟨a, ha, rfl⟩ := List.mem_map.mp hb
          exact hlen a (by have := List.mem_range.mp ha; omega)
        rw [this, List.sum_replicate, smul_eq_mul, Nat.mul_comm]
      rw [List.range_succ, List.flatMap_append]
      by_cases h : q < n
      · rw [List.getElem?_append_left]
        · exact ih (fun a ha => hlen a (by omega)) h
        · rw [hl]
          have := Nat.mul_le_mul_left m (show q + 1 ≤ n by omega)
          rw [Nat.mul_add] at this
          omega
      · have : q = n := by omega
        subst this
        rw [List.getElem?_append_right (by rw [hl]; omega), hl]
        simp
  have len_flat : ∀ {α : Type} (m n : Nat) (f : Nat → List α), (∀ q, (f q).length = m) →
      ((List.range n).flatMap f).length = m * n := by
    intro α m n f hlen
    rw [List.length_flatMap]
    have : (List.range n).map (fun a => (f a).length) = List.replicate n m := by
      rw [List.eq_replicate_iff]
      refine ⟨by simp, fun b hb => ?_⟩
      obtain ⟨a, ha, rfl⟩ := List.mem_map.mp hb
      exact hlen a
    rw [this, List.sum_replicate, smul_eq_mul, Nat.mul_comm]
  have hrow : ∀ k q, ((List.range n1).map fun i => (![i, q, k] : Fin 3 → Nat)).length = n1 := by simp
  have hlayer : ∀ k, ((List.range n2).flatMap fun j => (List.range n1).map fun i => (![i, j, k] : Fin 3 → Nat)).length =
      n1 * n2 := fun k => len_flat n1 n2 _ (hrow k)
  refine ⟨?_, ?_, ?_, ?_⟩
  · unfold pnNodes3
    rw [show i + n1 * (j + n2 * k) = (i + n1 * j) + (n1 * n2) * k by ring,
      get_flat (n1 * n2) n3 _ (fun q _ => hlayer q) k (i + n1 * j) hk ?_, get_flat n1 n2 _ (fun q _ => hrow k q) j i hj hi]
    · simp [hi]
    · have := Nat.mul_le_mul_left n1 (show j + 1 ≤ n2 by omega)
      rw [Nat.mul_add] at this
      omega
  · exact len_flat (n1 * n2) n3 _ hlayer
  · unfold pnNodes2
    rw [get_flat n1 n2 _ (fun q _ => by simp) j i hj hi]
    simp [hi]
  · exact len_flat n1 n2 _ (fun q => by simp)

/-- C44: the tensor product function of node `(i, j, ...)` is one at its own node and zero at every other one, in any
dimension. -/
theorem C44_pn_nodal (dim : Nat) (n : Fin dim → Nat) (v : (d : Fin dim) → Fin (n d) → K)
    (hv : ∀ d, Function.Injective (v d)) (i k : (d : Fin dim) → Fin (n d)) :
    tensor (fun d => List.ofFn (v d)) (fun d => i d) (fun d => v d (k d)) = some (if i = k then 1 else 0) := by
  rw [tensor_eq _ _ _ _ fun d => C44_lagrange_nodal (n d) (v d) (hv d) (i d) (k d)]
  congr 1
  by_cases h : i = k
  · subst h; simp
  · rw [if_neg h]
    obtain ⟨d, hd⟩ := Function.ne_iff.mp h
    exact Finset.prod_eq_zero (Finset.mem_univ d) (by rw [if_neg hd])

/-- C44: tensor product functions sum to one everywhere. -/
theorem C44_pn_unity (dim : Nat) (n : Fin dim → Nat) (hn : ∀ d, 0 < n d) (v : (d : Fin dim) → Fin (n d) → K)
    (hv : ∀ d, Function.Injective (v d)) (x : Fin dim → K) :
    ∃ val : ((d : Fin dim) → Fin (n d)) → K,
      (∀ i, tensor (fun d => List.ofFn (v d)) (fun d => i d) x = some (val i)) ∧ ∑ i, val i = 1 := by
  choose w hw1 hw2 using fun d => C44_lagrange_unity (n d) (hn d) (v d) (hv d) (x d)
  refine ⟨fun i => ∏ d, w d (i d), fun i => tensor_eq _ _ _ _ fun d => hw1 d (i d), ?_⟩
  rw [← Fintype.prod_sum]
  simp [hw2]

example : lagrange ([0, 1 / 2, 1] : List ℚ) 1 (1 / 4) = some (3 / 4) ∧
    (tensor (![[0, 1 / 2, 1], [0, 1]] : Fin 2 → List ℚ) ![1, 0] ![1 / 4, 1 / 3]) = some (1 / 2) ∧
    lagrange ([0, 0, 1] : List ℚ) 1 (1 / 4) = none := by decide +kernel

end Verif.Shape
