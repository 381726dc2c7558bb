import Verif.Model.Mortar
import Verif.Props.AsmForm

/-!
C83: the coupling block between displacements and multipliers.
-/

namespace Verif.Asm

variable {K : Type} [Field K]

/-- Value of a multiplier in direction `d`: zero for the fixed multiplier `-1`. -/
def multiplier (x : Nat → K) (colofs : Nat) (l : Int) (d : Nat) : K := if l = -1 then 0 else x ((l * 3 + d).toNat + colofs)

/-- Coupling of displacements `v` (by node and direction) and multipliers `x` (by column) over a quad, for the multipliers `ln` of the
element of the multiplier grid. -/
def quadCoupling (q : MortarQuad K) (ln : List Int) (colofs : Nat) (v : Nat → Nat → K) (x : Nat → K) : K :=
  ∑ d ∈ Finset.range 3, ∑ i ∈ Finset.range q.vertex.length, ∑ j ∈ Finset.range ln.length,
    v (q.vertex.getD i 0) d * q.mat i j * multiplier x colofs (ln.getD j (-1)) d

/-- Rectangular bilinear form. -/
def form2 (N M : Nat) (y x : Nat → K) (s : Sys K) : K := ∑ r ∈ Finset.range N, ∑ c ∈ Finset.range M, y r * s.A r c * x c

theorem form2_add (N M : Nat) (y x : Nat → K) (s : Sys K) (row col : Nat) (v : K) (hr : row < N) (hc : col < M) :
    form2 N M y x (s.add row col v) = form2 N M y x s + y row * v * x col := by
  unfold form2 Sys.add
  have : ∀ r ∈ Finset.range N, ∑ c ∈ Finset.range M, y r * (if r = row ∧ c = col then s.A r c + v else s.A r c) * x c =
      ∑ c ∈ Finset.range M, y r * s.A r c * x c + if r = row then y row * v * x col else 0 := by
    intro r _
    by_cases hrr : r = row
    · subst hrr
      simp only [true_and, if_true]
      have : ∀ c ∈ Finset.range M, y r * (if c = col then s.A r c + v else s.A r c) * x c =
          y r * s.A r c * x c + if c = col then y r * v * x c else 0 := by
        intro c _; split <;> ring
      rw [Finset.sum_congr rfl this, Finset.sum_add_distrib, Finset.sum_ite_eq', if_pos (Finset.mem_range.mpr hc)]
    · simp [hrr]
  rw [Finset.sum_congr rfl this, Finset.sum_add_distrib, Finset.sum_ite_eq', if_pos (Finset.mem_range.mpr hr)]

/-- A functional that changes by a term in every step. -/
theorem fold_sum {S A : Type} (F : S → K) (step : S → A → S) (D : A → K) (l : List A) (s : S)
    (h : ∀ a ∈ l, ∀ s, F (step s a) = F s + D a) : F (l.foldl step s) = F s + (l.map D).sum := by
  induction l generalizing s with
  | nil => simp
  | cons a l ih =>
    rw [List.foldl_cons, ih _ fun a ha => h a (List.mem_cons_of_mem _ ha), h a List.mem_cons_self, List.map_cons, List.sum_cons]; ring

theorem zipIdx_sum {A : Type} (l : List A) (a0 : A) (f : A × Nat → K) :
    (l.zipIdx.map f).sum = ∑ i ∈ Finset.range l.length, f (l.getD i a0, i) := by
  rw [← range_sum]
  congr 1
  refine List.ext_getElem? fun i => ?_
  rw [List.getElem?_map, List.getElem?_map, List.getElem?_zipIdx]
  by_cases hi : i < l.length
  · rw [List.getElem?_range hi, List.getElem?_eq_getElem hi]
    simp [List.getD_eq_getElem?_getD, List.getElem?_eq_getElem hi]
  · rw [List.getElem?_eq_none (by omega), List.getElem?_eq_none (l := List.range _) (by simpa using by omega)]; rfl

theorem filterMap_sum {A B : Type} (g : A → Option B) (f : B → K) (l : List A) :
    ((l.filterMap g).map f).sum = (l.map fun a => (g a).elim 0 f).sum := by
  induction l with
  | nil => rfl
  | cons a l ih =>
    rw [List.filterMap_cons, List.map_cons, List.sum_cons, ← ih]
    cases g a <;> simp

/-- Sum over the columns of the row of a vertex. -/
theorem cols_sum (ln : List Int) (hln : ∀ l ∈ ln, -1 ≤ l) (colofs d : Nat) (hd : d < 3) (mat : Nat → K) (x : Nat → K) :
    ((mortarCols ln colofs d).map fun c => mat c.1 * x c.2).sum =
      ∑ j ∈ Finset.range ln.length, mat j * multiplier x colofs (ln.getD j (-1)) d := by
  unfold mortarCols
  rw [filterMap_sum]
  have e : (ln.zipIdx.map fun (p : Int × Nat) =>
      Option.elim (if p.1 * 3 + d > -1 then some (p.2, (p.1 * 3 + d).toNat + colofs) else none) 0 fun (c : Nat × Nat) => mat c.1 * x c.2) =
      ln.zipIdx.map fun (p : Int × Nat) => mat p.2 * multiplier x colofs p.1 d := by
    refine List.map_congr_left fun p hp => ?_
    have hp1 : p.1 ∈ ln := by
      obtain ⟨a, b⟩ := p
      exact (List.mem_zipIdx' hp).2 ▸ List.getElem_mem _
    have hge := hln p.1 hp1
    by_cases h1 : p.1 = -1
    · have : ¬ (p.1 * 3 + d > -1) := by omega
      simp only [if_neg this, multiplier, if_pos h1, mul_zero, Option.elim_none]
    · have : p.1 * 3 + d > -1 := by omega
      simp only [if_pos this, multiplier, if_neg h1, Option.elim_some]
  rw [e, zipIdx_sum ln (-1)]

/-- The value of an unknown as the mortar assembly sees it. -/
def mortarVal (h : Handler K) (y : Nat → K) (n d : Nat) : K := ((mortarRows h n d).map y).sum

/-- Constraints whose masters act in the same direction with coefficient one. -/
def UnitConstraints (h : Handler K) : Prop :=
  ∀ n d m, d < h.dim → h.mpcs (n * h.dim + d) = some m → ∀ a ∈ m.masters, a.dof = d ∧ a.coeff = 1

theorem mortarVal_colVal (h : Handler K) (hu : UnitConstraints h) (y : Nat → K) (n d v : Nat) (hd : d < h.dim) :
    mortarVal h y n d = colVal h y (v, n, d) := by
  unfold mortarVal mortarRows colVal
  simp only
  cases hm : h.mpcs (key h.dim n d) with
  | none =>
    simp only [eqnValue]
    cases h.eqn n d <;> simp
  | some m =>
    simp only
    rw [filterMap_sum]
    congr 1
    refine List.map_congr_left fun a ha => ?_
    obtain ⟨h1, h2⟩ := hu n d m hd hm a ha
    rw [h2, h1, one_mul]
    unfold eqnValue
    cases h.eqn a.node d <;> rfl

theorem mem_mortarRows {h : Handler K} {n d r : Nat} (hr : r ∈ mortarRows h n d) : ∃ n', h.eqn n' d = some r := by
  unfold mortarRows at hr
  split at hr
  · obtain ⟨a, -, ha⟩ := List.mem_filterMap.mp hr
    exact ⟨_, ha⟩
  · exact ⟨n, by simpa using hr⟩

theorem mem_mortarCols {ln : List Int} {colofs d : Nat} {c : Nat × Nat} (hc : c ∈ mortarCols ln colofs d) :
    ∃ l ∈ ln, l * 3 + d > -1 ∧ c.2 = (l * 3 + d).toNat + colofs := by
  unfold mortarCols at hc
  obtain ⟨p, hp, he⟩ := List.mem_filterMap.mp hc
  by_cases h : p.1 * 3 + d > -1
  · rw [if_pos h] at he
    obtain rfl := Option.some.inj he
    obtain ⟨a, b⟩ := p
    exact ⟨a, (List.mem_zipIdx' hp).2 ▸ List.getElem_mem _, h, rfl⟩
  · rw [if_neg h] at he; cases he

theorem quad_form {h : Handler K} {N M : Nat} (hN : ∀ n i k, h.eqn n i = some k → k < N) (colofs : Nat) (alpha : K) (y x : Nat → K)
    (p : List Int × MortarQuad K) (hln : ∀ l ∈ p.1, -1 ≤ l) (hM : ∀ l ∈ p.1, l * 3 + 2 + colofs < M) (s : Sys K) :
    form2 N M y x (addMortarQuad h colofs alpha s p) = form2 N M y x s + alpha * quadCoupling p.2 p.1 colofs (mortarVal h y) x := by
  unfold addMortarQuad
  rw [fold_sum (form2 N M y x) _ (fun t => alpha * (mortarVal h y t.2.1 t.1 *
    ∑ j ∈ Finset.range p.1.length, p.2.mat t.2.2 j * multiplier x colofs (p.1.getD j (-1)) t.1))]
  · congr 1
    unfold mortarDofs quadCoupling
    rw [List.map_flatMap, List.flatMap_def, List.sum_flatten, List.map_map, range_sum, Finset.mul_sum]
    refine Finset.sum_congr rfl fun d _ => ?_
    simp only [Function.comp, List.map_map]
    rw [zipIdx_sum p.2.vertex 0, Finset.mul_sum]
    refine Finset.sum_congr rfl fun i _ => ?_
    simp only [Function.comp]
    congr 1
    rw [Finset.mul_sum]
    exact Finset.sum_congr rfl fun j _ => by ring
  · intro t ht s
    have hd : t.1 < 3 := by
      unfold mortarDofs at ht
      obtain ⟨d, hd, ht⟩ := List.mem_flatMap.mp ht
      obtain ⟨v, -, rfl⟩ := List.mem_map.mp ht
      exact List.mem_range.mp hd
    rw [fold_sum (form2 N M y x) _ (fun r => y r * (alpha *
      ∑ j ∈ Finset.range p.1.length, p.2.mat t.2.2 j * multiplier x colofs (p.1.getD j (-1)) t.1))]
    · congr 1
      unfold mortarVal
      generalize ∑ j ∈ Finset.range p.1.length, p.2.mat t.2.2 j * multiplier x colofs (p.1.getD j (-1)) t.1 = z
      generalize mortarRows h t.2.1 t.1 = l
      induction l with
      | nil => simp
      | cons r l ih => rw [List.map_cons, List.sum_cons, ih, List.map_cons, List.sum_cons]; ring
    · intro r hr s
      obtain ⟨n', hn'⟩ := mem_mortarRows hr
      rw [fold_sum (form2 N M y x) _ (fun c => y r * (alpha * p.2.mat t.2.2 c.1) * x c.2)]
      · congr 1
        rw [← cols_sum p.1 hln colofs t.1 hd (p.2.mat t.2.2) x]
        generalize mortarCols p.1 colofs t.1 = l
        induction l with
        | nil => simp
        | cons c l ih => rw [List.map_cons, List.sum_cons, ih, List.map_cons, List.sum_cons]; ring
      · intro c hc s
        obtain ⟨l, hl, hpos, he⟩ := mem_mortarCols hc
        have := hM l hl
        refine form2_add N M y x s r c.2 _ (hN _ _ _ hn') ?_
        rw [he]; omega

/-- **C83 (partial)**: with constraints of coefficient one the assembled block couples multipliers with the displacements that are expanded
from the unknowns: its form is the sum of the couplings of all quads, times `alpha`, added to what was there. (Missing: constraints with
other coefficients, see `C83_violated`.) -/
theorem C83_coupling_partial (h : Handler K) (hd : h.dim = 3) (hapart : ∀ n i, Prescribed h n i → ¬ Slave h n i)
    (hunit : ∀ n d m, d < h.dim → h.mpcs (n * h.dim + d) = some m → ∀ a ∈ m.masters, a.dof = d ∧ a.coeff = 1)
    (lnodes : List (List Int)) (cols : List (List (MortarQuad K))) (hsize : lnodes.length = cols.length) (colofs M : Nat)
    (hln : ∀ ln ∈ lnodes, ∀ l ∈ ln, -1 ≤ l ∧ l * 3 + 2 + colofs < M)
    (hv : ∀ c ∈ cols, ∀ q ∈ c, ∀ n ∈ q.vertex, n < h.nodes) (alpha : K) (B : Sys K) (y x : Nat → K) :
    ∃ B', assembleMortar (preprocess h) lnodes cols colofs alpha B = some B' ∧
      ∑ r ∈ Finset.range (preprocess h).maxeqn, ∑ c ∈ Finset.range M, y r * B'.A r c * x c =
        ∑ r ∈ Finset.range (preprocess h).maxeqn, ∑ c ∈ Finset.range M, y r * B.A r c * x c +
        alpha * ((lnodes.zip cols).map fun p => (p.2.map fun q =>
          quadCoupling q p.1 colofs (expandSolution (homogeneous (preprocess h)) y) x).sum).sum := by
  unfold assembleMortar pillars
  rw [if_pos hsize.le]
  refine ⟨_, rfl, ?_⟩
  have hN : ∀ n i k, (preprocess h).eqn n i = some k → k < (preprocess h).maxeqn := fun n i k hk => eqn_lt h hk
  have hu : UnitConstraints (preprocess h) := hunit
  have hstep : ∀ p ∈ (lnodes.zip cols).flatMap (fun p => p.2.map fun q => (p.1, q)), ∀ s,
      form2 (preprocess h).maxeqn M y x (addMortarQuad (preprocess h) colofs alpha s p) =
        form2 (preprocess h).maxeqn M y x s +
          alpha * quadCoupling p.2 p.1 colofs (expandSolution (homogeneous (preprocess h)) y) x := by
    intro p hp s
    obtain ⟨pc, hpc, hp⟩ := List.mem_flatMap.mp hp
    obtain ⟨q, hq, rfl⟩ := List.mem_map.mp hp
    obtain ⟨m1, m2⟩ := List.of_mem_zip (show (pc.1, pc.2) ∈ lnodes.zip cols from hpc)
    rw [quad_form hN colofs alpha y x (pc.1, q) (fun l hl => (hln _ m1 l hl).1) (fun l hl => (hln _ m1 l hl).2)]
    congr 2
    unfold quadCoupling
    refine Finset.sum_congr rfl fun d hd3 => Finset.sum_congr rfl fun i hi => Finset.sum_congr rfl fun j _ => ?_
    have hi' := Finset.mem_range.mp hi
    have hn : q.vertex.getD i 0 < h.nodes := by
      rw [List.getD_eq_getElem?_getD, List.getElem?_eq_getElem hi']
      exact hv _ m2 q hq _ (List.getElem_mem hi')
    rw [mortarVal_colVal (preprocess h) hu y _ _ 0 (by change d < h.dim; rw [hd]; exact Finset.mem_range.mp hd3), colVal_field h hapart y 0 _ _ ⟨hn, by rw [hd]; exact Finset.mem_range.mp hd3⟩]
  have := fold_sum (form2 (preprocess h).maxeqn M y x) (addMortarQuad (preprocess h) colofs alpha) _
    ((lnodes.zip cols).flatMap (fun p => p.2.map fun q => (p.1, q))) B hstep
  refine this.trans ?_
  congr 1
  rw [List.map_flatMap, List.flatMap_def, List.sum_flatten, List.map_map, ← List.sum_map_mul_left]
  congr 1
  refine List.map_congr_left fun p _ => ?_
  simp only [Function.comp, List.map_map]
  rw [← List.sum_map_mul_left]; rfl

/-- **C83**: the assembly is undefined behaviour if there are more elements of the multiplier grid than columns of quads. -/
theorem C83_columns (h : Handler K) (lnodes : List (List Int)) (cols : List (List (MortarQuad K))) (colofs : Nat) (alpha : K) (B : Sys K) :
    assembleMortar h lnodes cols colofs alpha B = none ↔ cols.length < lnodes.length := by
  unfold assembleMortar pillars
  by_cases hl : lnodes.length ≤ cols.length
  · rw [if_pos hl]; simp; exact hl
  · rw [if_neg hl]; simp; omega

/-! ### Pattern -/

/-- Entries that a quad touches. -/
def quadEntries (h : Handler K) (colofs : Nat) (p : List Int × MortarQuad K) (t : Nat × Nat) : Prop :=
  ∃ d < 3, ∃ v ∈ p.2.vertex, t.1 ∈ mortarRows h v d ∧ ∃ c ∈ mortarCols p.1 colofs d, t.2 = c.2

theorem fold_mem' {A T S : Type} (mem : T → S → Prop) (step : S → A → S) (D : A → T → Prop) (l : List A) (s : S) (t : T)
    (h : ∀ a ∈ l, ∀ s t, mem t (step s a) ↔ D a t ∨ mem t s) : mem t (l.foldl step s) ↔ (∃ a ∈ l, D a t) ∨ mem t s := by
  induction l generalizing s with
  | nil => simp
  | cons a l ih =>
    rw [List.foldl_cons, ih _ fun a ha => h a (List.mem_cons_of_mem _ ha), h a List.mem_cons_self]
    simp only [List.mem_cons]
    constructor
    · rintro (⟨b, hb, hd⟩ | hd | hs)
      · exact Or.inl ⟨b, Or.inr hb, hd⟩
      · exact Or.inl ⟨a, Or.inl rfl, hd⟩
      · exact Or.inr hs
    · rintro (⟨b, rfl | hb, hd⟩ | hs)
      · exact Or.inr (Or.inl hd)
      · exact Or.inl ⟨b, hb, hd⟩
      · exact Or.inr (Or.inr hs)

theorem quad_touched (h : Handler K) (colofs : Nat) (alpha : K) (p : List Int × MortarQuad K) (s : Sys K) (t : Nat × Nat) :
    t ∈ (addMortarQuad h colofs alpha s p).touched ↔ quadEntries h colofs p t ∨ t ∈ s.touched := by
  unfold addMortarQuad
  rw [fold_mem' (fun t (s : Sys K) => t ∈ s.touched) _
    (fun (q : Nat × Nat × Nat) (t : Nat × Nat) => t.1 ∈ mortarRows h q.2.1 q.1 ∧ ∃ c ∈ mortarCols p.1 colofs q.1, t.2 = c.2)]
  · refine or_congr_left ?_
    unfold quadEntries mortarDofs
    constructor
    · rintro ⟨q, hq, h1, h2⟩
      obtain ⟨d, hd, hq⟩ := List.mem_flatMap.mp hq
      obtain ⟨v, hv, rfl⟩ := List.mem_map.mp hq
      obtain ⟨a, b⟩ := v
      exact ⟨d, List.mem_range.mp hd, a, (List.mem_zipIdx' hv).2 ▸ List.getElem_mem _, h1, h2⟩
    · rintro ⟨d, hd, v, hv, h1, h2⟩
      obtain ⟨i, hi, rfl⟩ := List.mem_iff_getElem.mp hv
      refine ⟨(d, p.2.vertex[i], i), List.mem_flatMap.mpr ⟨d, List.mem_range.mpr hd, List.mem_map.mpr ⟨(p.2.vertex[i], i), ?_, rfl⟩⟩, h1, h2⟩
      rw [List.mem_zipIdx_iff_getElem?]
      exact List.getElem?_eq_getElem hi
  · intro q _ s t
    rw [fold_mem' (fun t (s : Sys K) => t ∈ s.touched) _
      (fun (r : Nat) (t : Nat × Nat) => t.1 = r ∧ ∃ c ∈ mortarCols p.1 colofs q.1, t.2 = c.2)]
    · refine or_congr_left ?_
      constructor
      · rintro ⟨r, hr, rfl, h2⟩; exact ⟨hr, h2⟩
      · rintro ⟨h1, h2⟩; exact ⟨_, h1, rfl, h2⟩
    · intro r _ s t
      rw [fold_mem' (fun t (s : Sys K) => t ∈ s.touched) _ (fun (c : Nat × Nat) (t : Nat × Nat) => t.1 = r ∧ t.2 = c.2)]
      · refine or_congr_left ?_
        constructor
        · rintro ⟨c, hc, h1, h2⟩; exact ⟨h1, c, hc, h2⟩
        · rintro ⟨h1, c, hc, h2⟩; exact ⟨c, hc, h1, h2⟩
      · intro c _ s t
        change t ∈ (r, c.2) :: s.touched ↔ _
        rw [List.mem_cons, Prod.ext_iff]

theorem mem_mortarFold (h : Handler K) (colofs : Nat) (ps : List (List Int × MortarQuad K)) (pat : List (Nat × Nat)) (t : Nat × Nat) :
    t ∈ ps.foldl (fun pat p => (p.2.vertex).foldl (fun pat v => (List.range 3).foldl (fun pat d =>
      (mortarRows h v d).foldl (fun pat r => (mortarCols p.1 colofs d).foldl (fun pat c => (r, c.2) :: pat) pat) pat) pat) pat) pat ↔
      (∃ p ∈ ps, quadEntries h colofs p t) ∨ t ∈ pat := by
  refine fold_mem' (fun t (s : List (Nat × Nat)) => t ∈ s) _ (fun p t => quadEntries h colofs p t) ps pat t ?_
  intro p _ s t
  rw [fold_mem' (fun t (s : List (Nat × Nat)) => t ∈ s) _ (fun (v : Nat) (t : Nat × Nat) =>
    ∃ d < 3, t.1 ∈ mortarRows h v d ∧ ∃ c ∈ mortarCols p.1 colofs d, t.2 = c.2)]
  · refine or_congr_left ?_
    unfold quadEntries
    constructor
    · rintro ⟨v, hv, d, hd, h1⟩; exact ⟨d, hd, v, hv, h1⟩
    · rintro ⟨d, hd, v, hv, h1⟩; exact ⟨v, hv, d, hd, h1⟩
  · intro v _ s t
    rw [fold_mem' (fun t (s : List (Nat × Nat)) => t ∈ s) _ (fun (d : Nat) (t : Nat × Nat) =>
      t.1 ∈ mortarRows h v d ∧ ∃ c ∈ mortarCols p.1 colofs d, t.2 = c.2)]
    · refine or_congr_left ?_
      constructor
      · rintro ⟨d, hd, h1⟩; exact ⟨d, List.mem_range.mp hd, h1⟩
      · rintro ⟨d, hd, h1⟩; exact ⟨d, List.mem_range.mpr hd, h1⟩
    · intro d _ s t
      rw [fold_mem' (fun t (s : List (Nat × Nat)) => t ∈ s) _ (fun (r : Nat) (t : Nat × Nat) =>
        t.1 = r ∧ ∃ c ∈ mortarCols p.1 colofs d, t.2 = c.2)]
      · refine or_congr_left ?_
        constructor
        · rintro ⟨r, hr, rfl, h2⟩; exact ⟨hr, h2⟩
        · rintro ⟨h1, h2⟩; exact ⟨_, h1, rfl, h2⟩
      · intro r _ s t
        rw [fold_mem' (fun t (s : List (Nat × Nat)) => t ∈ s) _ (fun (c : Nat × Nat) (t : Nat × Nat) => t.1 = r ∧ t.2 = c.2)]
        · refine or_congr_left ?_
          constructor
          · rintro ⟨c, hc, h1, h2⟩; exact ⟨h1, c, hc, h2⟩
          · rintro ⟨h1, c, hc, h2⟩; exact ⟨c, hc, h1, h2⟩
        · intro c _ s t
          rw [List.mem_cons, Prod.ext_iff]

/-- **C83**: every entry of the block that the assembly accesses is in the pattern that was built for it. -/
theorem C83_pattern (h : Handler K) (lnodes : List (List Int)) (cols : List (List (MortarQuad K))) (colofs : Nat) (alpha : K) (B B' : Sys K)
    (pat : List (Nat × Nat)) (hB : ∀ t ∈ B.touched, t ∈ pat) (hasm : assembleMortar h lnodes cols colofs alpha B = some B') :
    ∃ pat', mortarPattern h lnodes cols colofs pat = some pat' ∧ (∀ t ∈ pat, t ∈ pat') ∧ ∀ t ∈ B'.touched, t ∈ pat' := by
  unfold assembleMortar at hasm
  obtain ⟨ps, hps, rfl⟩ := Option.map_eq_some_iff.mp hasm
  unfold mortarPattern
  rw [hps]
  refine ⟨_, rfl, ?_⟩
  have hpat := mem_mortarFold h colofs ps pat
  have htouch : ∀ t : Nat × Nat, t ∈ (ps.foldl (addMortarQuad h colofs alpha) B).touched ↔
      (∃ p ∈ ps, quadEntries h colofs p t) ∨ t ∈ B.touched := fun t =>
    fold_mem' (fun t (s : Sys K) => t ∈ s.touched) _ (fun p t => quadEntries h colofs p t) ps B t
      fun p _ s t => quad_touched h colofs alpha p s t
  refine ⟨fun t ht => (hpat t).mpr (Or.inr ht), fun t ht => (hpat t).mpr ?_⟩
  rcases (htouch t).mp ht with h1 | h1
  · exact Or.inl h1
  · exact Or.inr (hB t h1)

/-! ### Weighted constraints -/

/-- Three nodes in space: node 2 is coupled in the first direction to nodes 0 and 1 with the weights `w` and `1 - w`. -/
def weighted (w : ℚ) : Handler ℚ := runCalls (Handler.new 3 3) [.constrain ⟨2, 0, 0, [⟨0, 0, w⟩, ⟨1, 0, 1 - w⟩]⟩]

/-- One quad at node 2 (other vertices have no effect) with one multiplier. -/
def oneQuad : List (List (MortarQuad ℚ)) := [[⟨[2], fun _ _ => 1⟩]]

/-- **C83 is violated** for weighted constraints, which periodic conditions on grids that do not match produce: a unit translation of all
nodes is coupled twice. -/
theorem C83_violated : ∃ (h : Handler ℚ) (cols : List (List (MortarQuad ℚ))) (y x : Nat → ℚ),
    (∀ m, h.mpcs (2 * h.dim + 0) = some m → (m.masters.map (·.coeff)).sum = 1) ∧
    (assembleMortar (preprocess h) [[0]] cols 0 1 ⟨fun _ _ => 0, fun _ => 0, []⟩).map (fun B =>
      ((List.range 8).map fun r => ((List.range 3).map fun c => y r * B.A r c * x c).sum).sum) = some 2 ∧
    (cols.map fun c => (c.map fun q =>
      quadCoupling q [0] 0 (expandSolution (homogeneous (preprocess h)) y) x).sum).sum = 1 := by
  refine ⟨weighted (1 / 2), oneQuad, fun _ => 1, fun c => if c = 0 then 1 else 0, ?_, by decide +kernel, by decide +kernel⟩
  intro m hm
  have : (weighted (1 / 2)).mpcs 6 = some ⟨2, 0, 0, [⟨0, 0, 1 / 2⟩, ⟨1, 0, 1 - 1 / 2⟩]⟩ := rfl
  have hm' : (weighted (1 / 2)).mpcs 6 = some m := hm
  rw [this] at hm'
  obtain rfl := Option.some.inj hm'
  norm_num

/-- A constraint with a single master of weight one: the coupling is that of the expanded displacements. -/
example : (assembleMortar (preprocess (runCalls (Handler.new 3 3) [.constrain ⟨2, 0, 0, [⟨0, 0, (1 : ℚ)⟩]⟩])) [[0]] oneQuad 0 1
    ⟨fun _ _ => 0, fun _ => 0, []⟩).map (fun B => (List.range 8).map fun r => (List.range 3).map fun c => B.A r c) =
    some [[1, 0, 0], [0, 0, 0], [0, 0, 0], [0, 0, 0], [0, 0, 0], [0, 0, 0], [0, 1, 0], [0, 0, 1]] := by decide +kernel

end Verif.Asm
