import Verif.Spec.ElasticUpscale
import Verif.Lemmas.AsmResolved
import Verif.Lemmas.Solvable
import Verif.Props.AsmForm
import Verif.Props.AvgStress
import Mathlib.Tactic.IntervalCases
import Mathlib.Tactic.FieldSimp

/-! Lemmas for the run of a load case of the elasticity upscaling. -/

namespace Verif.ElasticUp

open Verif.Elastic Verif.Asm

variable {K : Type} [Field K] [LinearOrder K] [IsStrictOrderedRing K]

/-! ### Assembly -/

/-- The element of a cell. -/
def elemOf (D : Cell K → Fin 6 → Fin 6 → K) (lc : Option Nat) (matrix : Bool) (c : Cell K) : Element K :=
  ⟨c.vertex, if matrix then elemK (D c) c.pts else fun _ _ => 0,
    match lc with | some m => elemLoad (D c) (unitStrain m) c.pts | none => fun _ => 0⟩

theorem chunk_fold (h : Handler K) (S : Sample K) (D : Cell K → Fin 6 → Fin 6 → K)
    (hD : ∀ c ∈ S.cells, ∀ C, ∃ b, c.mat.constitutive false C = some (b, D c)) (lc : Option Nat) (matrix : Bool)
    (l : List Nat) (hl : ∀ k ∈ l, k < S.cells.length) (st : (Fin 6 → Fin 6 → K) × Sys K) :
    ∃ C, l.foldlM (chunkStep h S lc matrix) st =
      some (C, (l.filterMap fun k => (S.cells[k]?).map (elemOf D lc matrix)).foldl (addElement h) st.2) := by
  induction l generalizing st with
  | nil => exact ⟨st.1, rfl⟩
  | cons k l ih =>
    have hk := hl k List.mem_cons_self
    obtain ⟨b, hb⟩ := hD S.cells[k] (List.getElem_mem hk) st.1
    have hstep : chunkStep h S lc matrix st k = some (D S.cells[k], addElement h st.2 (elemOf D lc matrix S.cells[k])) := by
      unfold chunkStep
      rw [List.getElem?_eq_getElem hk, Option.bind_some, hb]
      rfl
    obtain ⟨C, hC⟩ := ih (fun k' hk' => hl k' (List.mem_cons_of_mem _ hk')) (D S.cells[k], addElement h st.2 (elemOf D lc matrix S.cells[k]))
    refine ⟨C, ?_⟩
    rw [List.foldlM_cons, hstep, List.filterMap_cons, List.getElem?_eq_getElem hk]
    exact hC

theorem assembleCase_eq (h : Handler K) (S : Sample K) (D : Cell K → Fin 6 → Fin 6 → K)
    (hD : ∀ c ∈ S.cells, ∀ C, ∃ b, c.mat.constitutive false C = some (b, D c)) (lc : Option Nat) (matrix : Bool)
    (ho : S.color.flatten.flatten.Perm (List.range S.cells.length)) :
    ∃ es, assembleCase h S lc matrix = some (assemble h es) ∧ es.Perm (S.cells.map (elemOf D lc matrix)) := by
  have key : ∀ (cs : List (List Nat)), (∀ k ∈ cs.flatten, k < S.cells.length) → ∀ s : Sys K,
      cs.foldlM (fun s chunk => (chunk.foldlM (chunkStep h S lc matrix) (S.C0, s)).map fun r => r.2) s =
        some ((cs.flatten.filterMap fun k => (S.cells[k]?).map (elemOf D lc matrix)).foldl (addElement h) s) := by
    intro cs
    induction cs with
    | nil => intro _ s; rfl
    | cons c cs ih =>
      intro hk s
      rw [List.flatten_cons] at hk
      obtain ⟨C, hC⟩ := chunk_fold h S D hD lc matrix c (fun k hk' => hk k (List.mem_append_left _ hk')) (S.C0, s)
      rw [List.foldlM_cons, hC, List.flatten_cons, List.filterMap_append, List.foldl_append]
      exact ih (fun k hk' => hk k (List.mem_append_right _ hk')) _
  refine ⟨S.color.flatten.flatten.filterMap fun k => (S.cells[k]?).map (elemOf D lc matrix), ?_, ?_⟩
  · unfold assembleCase
    rw [key _ fun k hk => List.mem_range.mp ((ho.mem_iff).mp hk)]
    rfl
  · refine (ho.filterMap _).trans (List.Perm.of_eq ?_)
    apply List.ext_getElem?
    intro i
    have e : (List.range S.cells.length).filterMap (fun k => (S.cells[k]?).map (elemOf D lc matrix)) =
        (List.range S.cells.length).map fun k => elemOf D lc matrix (S.cells.getD k ⟨[], .iso 0 0 0, []⟩) := by
      rw [← List.filterMap_eq_map]
      apply List.filterMap_congr
      intro k hk
      simp [List.getD_eq_getElem?_getD, List.getElem?_eq_getElem (List.mem_range.mp hk)]
    rw [e]
    by_cases hi : i < S.cells.length
    · rw [List.getElem?_map, List.getElem?_map, List.getElem?_range hi, List.getElem?_eq_getElem hi, Option.map_some, Option.map_some,
        List.getD_eq_getElem?_getD, List.getElem?_eq_getElem hi]
      rfl
    · rw [List.getElem?_eq_none (by simpa using hi), List.getElem?_eq_none (by simpa using hi)]

/-! ### Strains and products -/

omit [LinearOrder K] [IsStrictOrderedRing K] in
theorem strainAt_add (v w : Nat → Nat → K) (c : Cell K) (q : QP K 6) (i : Fin 6) :
    strainAt (fun n d => v n d + w n d) c q i = strainAt v c q i + strainAt w c q i := by
  unfold strainAt
  rw [← Finset.sum_add_distrib]
  exact Finset.sum_congr rfl fun j _ => by ring

omit [LinearOrder K] [IsStrictOrderedRing K] in
theorem strainAt_smul (a : K) (v : Nat → Nat → K) (c : Cell K) (q : QP K 6) (i : Fin 6) :
    strainAt (fun n d => a * v n d) c q i = a * strainAt v c q i := by
  unfold strainAt
  rw [Finset.mul_sum]
  exact Finset.sum_congr rfl fun j _ => by ring

/-- Product of two strain fields. -/
def ep (D : Cell K → Fin 6 → Fin 6 → K) (cells : List (Cell K)) (s t : Cell K → QP K 6 → Fin 6 → K) : K :=
  (cells.map fun c => (c.pts.map fun q => q.w * ∑ i, s c q i * ∑ k, D c i k * t c q k).sum).sum

variable {D : Cell K → Fin 6 → Fin 6 → K} {cells : List (Cell K)}

omit [LinearOrder K] [IsStrictOrderedRing K] in
theorem ep_add_left (s s' t : Cell K → QP K 6 → Fin 6 → K) :
    ep D cells (fun c q i => s c q i + s' c q i) t = ep D cells s t + ep D cells s' t := by
  unfold ep
  rw [← List.sum_map_add]
  congr 1
  apply List.map_congr_left
  intro c _
  rw [← List.sum_map_add]
  congr 1
  apply List.map_congr_left
  intro q _
  rw [← mul_add, ← Finset.sum_add_distrib]
  congr 1
  exact Finset.sum_congr rfl fun i _ => by ring

omit [LinearOrder K] [IsStrictOrderedRing K] in
theorem ep_smul_left (a : K) (s t : Cell K → QP K 6 → Fin 6 → K) :
    ep D cells (fun c q i => a * s c q i) t = a * ep D cells s t := by
  unfold ep
  rw [← List.sum_map_mul_left]
  congr 1
  apply List.map_congr_left
  intro c _
  rw [← List.sum_map_mul_left]
  congr 1
  apply List.map_congr_left
  intro q _
  rw [Finset.mul_sum, Finset.mul_sum, Finset.mul_sum]
  exact Finset.sum_congr rfl fun i _ => by ring

omit [LinearOrder K] [IsStrictOrderedRing K] in
theorem ep_symm (hD : ∀ c ∈ cells, ∀ i k, D c i k = D c k i) (s t : Cell K → QP K 6 → Fin 6 → K) :
    ep D cells s t = ep D cells t s := by
  unfold ep
  congr 1
  apply List.map_congr_left
  intro c hc
  congr 1
  apply List.map_congr_left
  intro q _
  congr 1
  simp only [Finset.mul_sum]
  rw [Finset.sum_comm]
  apply Finset.sum_congr rfl
  intro i _
  apply Finset.sum_congr rfl
  intro k _
  rw [hD c hc k i]
  ring

theorem ep_nonneg (hw : ∀ c ∈ cells, ∀ q ∈ c.pts, 0 ≤ q.w)
    (hD : ∀ c ∈ cells, ∀ e : Fin 6 → K, 0 ≤ ∑ i, e i * ∑ k, D c i k * e k) (s : Cell K → QP K 6 → Fin 6 → K) :
    0 ≤ ep D cells s s := by
  unfold ep
  apply List.sum_nonneg
  intro x hx
  obtain ⟨c, hc, rfl⟩ := List.mem_map.mp hx
  apply List.sum_nonneg
  intro y hy
  obtain ⟨q, hq, rfl⟩ := List.mem_map.mp hy
  exact mul_nonneg (hw c hc q hq) (hD c hc _)

omit [LinearOrder K] [IsStrictOrderedRing K] in
theorem ep_zero_left (t : Cell K → QP K 6 → Fin 6 → K) : ep D cells (fun _ _ _ => 0) t = 0 := by
  unfold ep; simp

omit [LinearOrder K] [IsStrictOrderedRing K] in
theorem ep_sum_left (S : Finset (Fin 6)) (x : Fin 6 → K) (s : Fin 6 → Cell K → QP K 6 → Fin 6 → K)
    (t : Cell K → QP K 6 → Fin 6 → K) :
    ep D cells (fun c q i => ∑ m ∈ S, x m * s m c q i) t = ∑ m ∈ S, x m * ep D cells (s m) t := by
  classical
  induction S using Finset.induction_on with
  | empty => simp [ep_zero_left]
  | insert a S ha ih =>
    rw [Finset.sum_insert ha, ← ih, ← ep_smul_left, ← ep_add_left]
    congr 1
    funext c q i
    rw [Finset.sum_insert ha]

omit [LinearOrder K] [IsStrictOrderedRing K] in
theorem ep_scale (a : K) (s t : Cell K → QP K 6 → Fin 6 → K) :
    ep (fun c i k => D c i k * a) cells s t = ep D cells s t * a := by
  unfold ep
  rw [← List.sum_map_mul_right]
  congr 1
  apply List.map_congr_left
  intro c _
  rw [← List.sum_map_mul_right]
  congr 1
  apply List.map_congr_left
  intro q _
  rw [mul_assoc, Finset.sum_mul]
  congr 1
  apply Finset.sum_congr rfl
  intro i _
  rw [mul_assoc, Finset.sum_mul]
  congr 1
  exact Finset.sum_congr rfl fun k _ => by ring

omit [LinearOrder K] [IsStrictOrderedRing K] in
theorem ep_quad (hD : ∀ c ∈ cells, ∀ i k, D c i k = D c k i) (s t : Cell K → QP K 6 → Fin 6 → K) :
    ep D cells (fun c q i => s c q i + t c q i) (fun c q i => s c q i + t c q i) =
      ep D cells s s + 2 * ep D cells t s + ep D cells t t := by
  rw [ep_add_left, ep_symm hD s (fun c q i => s c q i + t c q i), ep_add_left,
    ep_symm hD t (fun c q i => s c q i + t c q i), ep_add_left, ep_symm hD s t]
  ring

/-- A field without energy is orthogonal to all fields. -/
theorem ep_null (hS : ∀ c ∈ cells, ∀ i k, D c i k = D c k i) (hw : ∀ c ∈ cells, ∀ q ∈ c.pts, 0 ≤ q.w)
    (hD : ∀ c ∈ cells, ∀ e : Fin 6 → K, 0 ≤ ∑ i, e i * ∑ k, D c i k * e k) (s t : Cell K → QP K 6 → Fin 6 → K)
    (h0 : ep D cells s s = 0) : ep D cells s t = 0 := by
  by_contra hne
  have key : ∀ a : K, 0 ≤ ep D cells t t + 2 * (a * ep D cells s t) := by
    intro a
    have h1 := ep_nonneg hw hD (fun c q i => t c q i + a * s c q i)
    rw [ep_quad hS t (fun c q i => a * s c q i), ep_smul_left, ep_smul_left, ep_symm hS s (fun c q i => a * s c q i), ep_smul_left, h0] at h1
    simpa using h1
  have h2 := key (-(ep D cells t t + 1) / (2 * ep D cells s t))
  have h3 : 2 * (-(ep D cells t t + 1) / (2 * ep D cells s t) * ep D cells s t) = -(ep D cells t t + 1) := by
    field_simp
  rw [h3] at h2
  linarith

/-! ### Elements -/

omit [LinearOrder K] [IsStrictOrderedRing K] in
theorem strain_mulB (c : Cell K) (q : QP K 6) (v : Nat → Nat → K) (i : Fin 6) :
    mulB q.B 24 (vertexValue 3 ⟨c.vertex, fun _ _ => 0, fun _ => 0⟩ v) i = strainAt v c q i := rfl

omit [LinearOrder K] [IsStrictOrderedRing K] in
theorem elementForm_eq (c : Cell K) (hc : c.vertex.length = 8) (lc : Option Nat) (v w : Nat → Nat → K) :
    elementForm 3 (elemOf D lc true c) v w =
      (c.pts.map fun q => q.w * ∑ i, strainAt v c q i * ∑ k, D c i k * strainAt w c q k).sum := by
  have h := C49_energy (D c) c.pts 24 (vertexValue 3 ⟨c.vertex, fun _ _ => 0, fun _ => 0⟩ v) (vertexValue 3 ⟨c.vertex, fun _ _ => 0, fun _ => 0⟩ w)
  refine Eq.trans ?_ h
  unfold elementForm
  have e : (elemOf D lc true c).vertex.length * 3 = 24 := by
    change c.vertex.length * 3 = 24
    rw [hc]
  rw [e]
  refine Finset.sum_congr rfl fun p _ => ?_
  rw [Finset.mul_sum]
  refine Finset.sum_congr rfl fun q _ => ?_
  change vertexValue 3 ⟨c.vertex, fun _ _ => 0, fun _ => 0⟩ v p * elemK (D c) c.pts p q * vertexValue 3 ⟨c.vertex, fun _ _ => 0, fun _ => 0⟩ w q = _
  ring

omit [LinearOrder K] [IsStrictOrderedRing K] in
theorem elementLoad_eq (c : Cell K) (hc : c.vertex.length = 8) (m : Nat) (b : Bool) (v : Nat → Nat → K) :
    elementLoad 3 (elemOf D (some m) b c) v =
      -(c.pts.map fun q => q.w * ∑ i, strainAt v c q i * ∑ k, D c i k * (unitStrain m : Fin 6 → K) k).sum := by
  have h := C49_load_work (D c) (unitStrain m) c.pts 24 (vertexValue 3 ⟨c.vertex, fun _ _ => 0, fun _ => 0⟩ v)
  refine Eq.trans ?_ h
  unfold elementLoad
  have e : (elemOf D (some m) b c).vertex.length * 3 = 24 := by
    change c.vertex.length * 3 = 24
    rw [hc]
  rw [e]
  rfl

/-! ### Expanded solutions -/

omit [LinearOrder K] [IsStrictOrderedRing K] in
theorem eqnValue_add (h : Handler K) (a : K) (x y : Nat → K) (n i : Nat) :
    eqnValue h (fun k => x k + a * y k) n i = eqnValue h x n i + a * eqnValue h y n i := by
  unfold eqnValue
  cases h.eqn n i <;> simp

omit [LinearOrder K] [IsStrictOrderedRing K] in
theorem expand_add (h : Handler K) (hz : ∀ n f, h.fixed n = some f → ∀ i, f.dir.testBit i = true → f.val i = 0)
    (a : K) (x y : Nat → K) (n i : Nat) :
    expandSolution h (fun k => x k + a * y k) n i = expandSolution h x n i + a * expandSolution h y n i := by
  have h1 : expand1 h (fun k => x k + a * y k) n i = expand1 h x n i + a * expand1 h y n i := by
    unfold expand1
    cases hf : h.fixed n with
    | none => exact eqnValue_add h a x y n i
    | some f =>
      dsimp only
      by_cases hb : f.dir.testBit i = true
      · rw [if_pos hb, if_pos hb, if_pos hb, hz n f hf i hb]; simp
      · rw [if_neg hb, if_neg hb, if_neg hb]; exact eqnValue_add h a x y n i
  unfold expandSolution
  cases h.mpcs (key h.dim n i) with
  | none => exact h1
  | some m =>
    dsimp only
    rw [masterSum_eq, masterSum_eq, masterSum_eq, h1]
    have : (m.masters.map fun b => eqnValue h (fun k => x k + a * y k) b.node b.dof * b.coeff).sum =
        (m.masters.map fun b => eqnValue h x b.node b.dof * b.coeff).sum +
          a * (m.masters.map fun b => eqnValue h y b.node b.dof * b.coeff).sum := by
      rw [← List.sum_map_mul_left, ← List.sum_map_add]
      congr 1
      apply List.map_congr_left
      intro b _
      rw [eqnValue_add]; ring
    rw [this]
    ring

omit [LinearOrder K] [IsStrictOrderedRing K] in
theorem expand_zero (h : Handler K) (hz : ∀ n f, h.fixed n = some f → ∀ i, f.dir.testBit i = true → f.val i = 0) (n i : Nat) :
    expandSolution h (fun _ => 0) n i = 0 := by
  have := expand_add h hz (-1) (fun _ => 0) (fun _ => 0) n i
  simpa using this

omit [LinearOrder K] [IsStrictOrderedRing K] in
theorem expand_sum (h : Handler K) (hz : ∀ n f, h.fixed n = some f → ∀ i, f.dir.testBit i = true → f.val i = 0)
    (x : Fin 6 → K) (u : Fin 6 → Nat → K) (n i : Nat) :
    expandSolution h (fun k => ∑ m, x m * u m k) n i = ∑ m, x m * expandSolution h (u m) n i := by
  have key : ∀ s : Finset (Fin 6), expandSolution h (fun k => ∑ m ∈ s, x m * u m k) n i = ∑ m ∈ s, x m * expandSolution h (u m) n i := by
    intro s
    classical
    induction s using Finset.induction_on with
    | empty => simp [expand_zero h hz]
    | insert a s ha ih =>
      rw [Finset.sum_insert ha]
      have e : (fun k => ∑ m ∈ insert a s, x m * u m k) = fun k => (∑ m ∈ s, x m * u m k) + x a * u a k := by
        funext k
        rw [Finset.sum_insert ha]; ring
      rw [e, expand_add h hz, ih]; ring
  exact key _

/-- The displacements of a cell. -/
theorem extract_cell (h : Handler K) (hd : h.dim = 3) (hapart : ∀ n i, Prescribed h n i → ¬ Slave h n i) (u : Nat → K)
    (c : Cell K) (hc : c.vertex.length = 8) (hin : ∀ n ∈ c.vertex, n < h.nodes) :
    ∃ v, extractCell (preprocess h) u c = some v ∧
      ∀ j < 24, v j = expandSolution (preprocess h) u (c.vertex.getD (j / 3) 0) (j % 3) := by
  have hd' : (preprocess h).dim = 3 := hd
  let l : List (Nat × Nat) := c.vertex.flatMap fun n => (List.range (preprocess h).dim).map fun i => (n, i)
  have hmap : ∀ l' : List (Nat × Nat), (∀ q ∈ l', q.1 < h.nodes ∧ q.2 < h.dim) →
      l'.mapM (fun q => extractValue (preprocess h) u q.1 q.2) = some (l'.map fun q => expandSolution (preprocess h) u q.1 q.2) := by
    intro l' hl'
    induction l' with
    | nil => rfl
    | cons q l' ih =>
      rw [List.mapM_cons, C42_extract h hapart u q.1 q.2 (hl' q List.mem_cons_self), ih fun q' h' => hl' q' (List.mem_cons_of_mem _ h')]
      rfl
  have hl : ∀ q ∈ l, q.1 < h.nodes ∧ q.2 < h.dim := by
    intro q hq
    obtain ⟨n, hn, hq⟩ := List.mem_flatMap.mp hq
    obtain ⟨i, hi, rfl⟩ := List.mem_map.mp hq
    exact ⟨hin n hn, List.mem_range.mp hi⟩
  refine ⟨fun k => (l.map fun q => expandSolution (preprocess h) u q.1 q.2).getD k 0, ?_, ?_⟩
  · unfold extractCell
    change Option.map _ (List.mapM (m := Option) _ l) = _
    rw [hmap l hl]
    rfl
  · intro j hj
    obtain ⟨a0, a1, a2, a3, a4, a5, a6, a7, hv⟩ : ∃ a0 a1 a2 a3 a4 a5 a6 a7, c.vertex = [a0, a1, a2, a3, a4, a5, a6, a7] := by
      match c.vertex, hc with
      | [a, b, c, d, a', b', c', d'], _ => exact ⟨_, _, _, _, _, _, _, _, rfl⟩
    have hl' : l = [(a0, 0), (a0, 1), (a0, 2), (a1, 0), (a1, 1), (a1, 2), (a2, 0), (a2, 1), (a2, 2), (a3, 0), (a3, 1), (a3, 2),
        (a4, 0), (a4, 1), (a4, 2), (a5, 0), (a5, 1), (a5, 2), (a6, 0), (a6, 1), (a6, 2), (a7, 0), (a7, 1), (a7, 2)] := by
      change (c.vertex.flatMap fun n => (List.range (preprocess h).dim).map fun i => (n, i)) = _
      rw [hd', hv]
      rfl
    rw [hl', hv]
    interval_cases j <;> rfl

end Verif.ElasticUp
