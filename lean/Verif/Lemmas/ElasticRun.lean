import Verif.Lemmas.ElasticUpscale

/-! The run of the six load cases of the elasticity upscaling. -/

namespace Verif.ElasticUp

open Verif.Elastic Verif.Asm

variable {K : Type} [Field K] [LinearOrder K] [IsStrictOrderedRing K]

/-- The constraints after the resolution of chains. -/
structure Ready (S : Sample K) (h : Handler K) : Prop where
  eq : resolveChains S.tol S.fuel S.handler = some h
  dim : h.dim = 3
  nodes : h.nodes = S.handler.nodes
  fixed : h.fixed = S.handler.fixed
  fresh : h.maxeqn = 0
  apart : ∀ n i, Prescribed h n i → ¬ Slave h n i
  clean : Clean h

theorem ready (S : Sample K) (D : Cell K → Fin 6 → Fin 6 → K) (hS : Sound S D) : ∃ h, Ready S h := by
  obtain ⟨rank, hr, hf⟩ := hS.ranked
  obtain ⟨m', h1, h2, h3, h4⟩ := chains_subst (tol := S.tol) S.handler rank hr S.fuel hf hS.slaves
  have hap : ∀ n i, Prescribed { S.handler with mpcs := m' } n i → ¬ Slave { S.handler with mpcs := m' } n i := by
    rintro n i hp ⟨m, hm⟩
    have hm' : m' (n * S.handler.dim + i) = some m := hm
    have : (S.handler.mpcs (n * S.handler.dim + i)).isSome := by rw [← h2, hm']; rfl
    obtain ⟨c, hc⟩ := Option.isSome_iff_exists.mp this
    exact hS.apart n i hp ⟨c, hc⟩
  refine ⟨_, h1, hS.dim, rfl, rfl, hS.fresh, hap, hap, fun n i m hm a ha => ?_, fun n i m hm a ha hs => ?_,
    fun n i m hm a ha f hf hb => ?_⟩
  · exact resolved_masters hr h2 h4 (fun n i => n < S.handler.nodes ∧ i < S.handler.dim) hS.masters _ m hm a ha
  · obtain ⟨c, hc⟩ := hs
    have := h3 _ m hm a ha
    have hc' : m' (a.node * S.handler.dim + a.dof) = some c := hc
    rw [this] at hc'
    cases hc'
  · exact hS.fixedZero a.node f hf a.dof hb

variable {S : Sample K} {D : Cell K → Fin 6 → Fin 6 → K} {h : Handler K}

theorem Ready.zero (hR : Ready S h) (hS : Sound S D) :
    ∀ n f, (preprocess h).fixed n = some f → ∀ i, f.dir.testBit i = true → f.val i = 0 := by
  intro n f hf
  have hf' : h.fixed n = some f := hf
  rw [hR.fixed] at hf'
  exact hS.fixedZero n f hf'

/-- The strains of a solution vector. -/
def strainOf (h : Handler K) (u : Nat → K) (c : Cell K) (q : QP K 6) (i : Fin 6) : K := strainAt (expandSolution (preprocess h) u) c q i

/-- A uniform strain. -/
def uniform (x : Fin 6 → K) (_ : Cell K) (_ : QP K 6) (i : Fin 6) : K := x i

theorem scale_pos (hS : Sound S D) : 0 < scale S := by
  unfold scale
  by_cases hs : 0 < S.Escale
  · rw [if_pos hs]; exact div_pos hs (hS.emin hs)
  · rw [if_neg hs]; exact one_pos

/-- The assembled matrix and load vectors as products of strains. -/
theorem assembled (hR : Ready S h) (hS : Sound S D) :
    ∃ A : Sys K, assembleCase (preprocess h) S none true = some A ∧
      (∀ y x : Nat → K, ∑ r ∈ Finset.range (preprocess h).maxeqn, ∑ c ∈ Finset.range (preprocess h).maxeqn, y r * A.A r c * x c =
        ep D S.cells (strainOf h y) (strainOf h x) * scale S) ∧
      ∀ m : Fin 6, ∃ b : Sys K, assembleCase (preprocess h) S (some m) false = some b ∧
        ∀ y : Nat → K, ∑ r ∈ Finset.range (preprocess h).maxeqn, y r * b.b r =
          -(ep D S.cells (strainOf h y) (uniform (Pi.single m 1)) * scale S) := by
  let D' : Cell K → Fin 6 → Fin 6 → K := fun c i k => D c i k * scale S
  have hD' : ∀ c ∈ S.cells, ∀ C, ∃ b, c.mat.constitutive false C = some (b, D' c) := hS.material
  have hfix : ∀ n f, h.fixed n = some f → n < h.nodes := by
    intro n f hf
    rw [hR.fixed] at hf
    rw [hR.nodes]
    exact hS.fixedIn n f hf
  have hes : ∀ (lc : Option Nat) (b : Bool) (es : List (Element K)), es.Perm (S.cells.map (elemOf D' lc b)) →
      ∀ e ∈ es, ∀ n ∈ e.vertex, n < h.nodes := by
    intro lc b es hp e he n hn
    obtain ⟨c, hc, rfl⟩ := List.mem_map.mp ((hp.mem_iff).mp he)
    rw [hR.nodes]
    exact hS.inside c hc n hn
  have hh : ∀ z, expandSolution (homogeneous (preprocess h)) z = expandSolution (preprocess h) z := fun z => by
    funext n i; exact expand_homogeneous (preprocess h) (hR.zero hS) z n i
  obtain ⟨es, he, hp⟩ := assembleCase_eq (preprocess h) S D' hD' none true hS.order
  refine ⟨_, he, fun y x => ?_, fun m => ?_⟩
  · rw [(C76_forms h hR.dim.le hR.apart hfix es (hes _ _ _ hp) y x).1, hh, hh, (hp.map _).sum_eq, List.map_map, ← ep_scale]
    unfold ep
    congr 1
    apply List.map_congr_left
    intro c hc
    simp only [Function.comp]
    rw [hR.dim]
    exact elementForm_eq c (hS.corners c hc) none _ _
  · obtain ⟨es, he, hp⟩ := assembleCase_eq (preprocess h) S D' hD' (some m) false hS.order
    refine ⟨_, he, fun y => ?_⟩
    rw [(C76_forms h hR.dim.le hR.apart hfix es (hes _ _ _ hp) y y).2, hh, (hp.map _).sum_eq, List.map_map, ← ep_scale]
    unfold ep
    rw [← list_sum_neg]
    congr 1
    apply List.map_congr_left
    intro c hc
    simp only [Function.comp]
    rw [hR.dim]
    refine (elementLoad_eq c (hS.corners c hc) m false _).trans ?_
    congr 2
    apply List.map_congr_left
    intro q _
    congr 1
    apply Finset.sum_congr rfl
    intro i _
    congr 1
    apply Finset.sum_congr rfl
    intro k _
    congr 1
    unfold unitStrain uniform
    rw [Pi.single_apply]
    simp only [Fin.ext_iff]

/-- Every load case runs: there are solutions in equilibrium, and the result is the mean stress. -/
theorem case_ok (hR : Ready S h) (hS : Sound S D) {solver : Nat → (Nat → Nat → K) → (Nat → K) → Nat → K} (hX : Exact solver) :
    ∃ (u : Fin 6 → Nat → K) (R : Fin 6 → Fin 6 → K), (∀ m : Fin 6, upscaleCase solver S m = some (R m)) ∧
      (∀ (m : Fin 6) (y : Nat → K), ep D S.cells (strainOf h y) (fun c q k => uniform (Pi.single m 1) c q k + strainOf h (u m) c q k) = 0) ∧
      ∀ m i : Fin 6, R m i * volume S.cells =
        ep D S.cells (uniform (Pi.single i 1)) (fun c q k => uniform (Pi.single m 1) c q k + strainOf h (u m) c q k) := by
  obtain ⟨A, hA, hform, hload⟩ := assembled hR hS
  choose b hb hwork using hload
  have hsp := scale_pos hS
  have hsol : ∀ m, ∃ x : Nat → K, ∀ r < (preprocess h).maxeqn, ∑ c ∈ Finset.range (preprocess h).maxeqn, A.A r c * x c = (b m).b r := by
    intro m
    apply Solvable.exists_solution
    intro y hy
    have h0 : ep D S.cells (strainOf h y) (strainOf h y) = 0 := by
      have := hform y y
      rw [hy y] at this
      exact (mul_eq_zero.mp this.symm).resolve_right hsp.ne'
    rw [hwork, ep_null hS.symm hS.weight hS.psd _ _ h0]
    simp
  let u : Fin 6 → Nat → K := fun m => solver (preprocess h).maxeqn A.A (b m).b
  have hu : ∀ m, ∀ r < (preprocess h).maxeqn, ∑ c ∈ Finset.range (preprocess h).maxeqn, A.A r c * u m c = (b m).b r :=
    fun m => hX _ _ _ (hsol m)
  have heq : ∀ (m : Fin 6) (y : Nat → K), ep D S.cells (strainOf h y) (strainOf h (u m)) = -ep D S.cells (strainOf h y) (uniform (Pi.single m 1)) := by
    intro m y
    have h1 := hform y (u m)
    have h2 : ∑ r ∈ Finset.range (preprocess h).maxeqn, ∑ c ∈ Finset.range (preprocess h).maxeqn, y r * A.A r c * u m c =
        ∑ r ∈ Finset.range (preprocess h).maxeqn, y r * (b m).b r := by
      refine Finset.sum_congr rfl fun r hr => ?_
      rw [← hu m r (Finset.mem_range.mp hr), Finset.mul_sum]
      exact Finset.sum_congr rfl fun c _ => by ring
    rw [h2, hwork] at h1
    have : (ep D S.cells (strainOf h y) (strainOf h (u m)) + ep D S.cells (strainOf h y) (uniform (Pi.single m 1))) * scale S = 0 := by
      rw [add_mul, ← h1]; ring
    have := (mul_eq_zero.mp this).resolve_right hsp.ne'
    linarith
  have hcell : ∀ m, ∃ V : Cell K → Nat → K, ∀ c ∈ S.cells, extractCell (preprocess h) (u m) c = some (V c) ∧
      ∀ j < 24, V c j = expandSolution (preprocess h) (u m) (c.vertex.getD (j / 3) 0) (j % 3) := by
    intro m
    have h1 : ∀ c : Cell K, ∃ v : Nat → K, c ∈ S.cells → extractCell (preprocess h) (u m) c = some v ∧
        ∀ j < 24, v j = expandSolution (preprocess h) (u m) (c.vertex.getD (j / 3) 0) (j % 3) := by
      intro c
      by_cases hc : c ∈ S.cells
      · obtain ⟨v, hv⟩ := extract_cell h hR.dim hR.apart (u m) c (hS.corners c hc)
          (by intro n hn; rw [hR.nodes]; exact hS.inside c hc n hn)
        exact ⟨v, fun _ => hv⟩
      · exact ⟨fun _ => 0, fun hc' => absurd hc' hc⟩
    choose V hV using h1
    exact ⟨V, fun c hc => hV c hc⟩
  choose V hV1 using hcell
  let D' : Cell K → Fin 6 → Fin 6 → K := fun c i k => D c i k * scale S
  have hrun : ∀ m : Fin 6, ∃ R : Fin 6 → K, upscaleCase solver S m = some R ∧ ∀ i, R i * volume S.cells =
      ep D S.cells (uniform (Pi.single i 1)) (fun c q k => uniform (Pi.single m 1) c q k + strainOf h (u m) c q k) := by
    intro m
    have hels : (S.cells.mapM fun c => (extractCell (preprocess h) (u m) c).map fun v => (⟨c.mat, v, c.pts⟩ : Elem K)) =
        some (S.cells.map fun c => ⟨c.mat, V m c, c.pts⟩) := by
      have : ∀ l : List (Cell K), (∀ c ∈ l, c ∈ S.cells) →
          (l.mapM fun c => (extractCell (preprocess h) (u m) c).map fun v => (⟨c.mat, v, c.pts⟩ : Elem K)) =
            some (l.map fun c => ⟨c.mat, V m c, c.pts⟩) := by
        intro l
        induction l with
        | nil => intro _; rfl
        | cons c l ih =>
          intro hl
          rw [List.mapM_cons, (hV1 m c (hl c List.mem_cons_self)).1, ih fun c' hc' => hl c' (List.mem_cons_of_mem _ hc')]
          rfl
      exact this _ fun _ hc => hc
    have hcase : upscaleCase solver S m = averageStress S.Escale S.Emin 24 S.C0 (fun _ => 0) m (S.cells.map fun c => ⟨c.mat, V m c, c.pts⟩) := by
      unfold upscaleCase initForAssembly
      rw [hR.eq, Option.map_some, Option.bind_some, hA, Option.bind_some, hb m, Option.bind_some]
      change Option.bind (S.cells.mapM fun c => (extractCell (preprocess h) (u m) c).map fun v => (⟨c.mat, v, c.pts⟩ : Elem K)) _ = _
      rw [hels, Option.bind_some]
    -- the stress
    have hw : ∀ e ∈ (S.cells.map fun c => (⟨c.mat, V m c, c.pts⟩ : Elem K)), ∃ M, Writes e.mat M := by
      intro e he
      obtain ⟨c, hc, rfl⟩ := List.mem_map.mp he
      exact ⟨D' c, hS.material c hc⟩
    let DE : Elem K → Fin 6 → Fin 6 → K := fun e => match e.mat.constitutive false (fun _ _ => 0) with
      | some r => r.2
      | none => fun _ _ => 0
    have hDE : ∀ c ∈ S.cells, DE ⟨c.mat, V m c, c.pts⟩ = D' c := by
      intro c hc
      obtain ⟨b, hb⟩ := hS.material c hc (fun _ _ => 0)
      change (match c.mat.constitutive false (fun _ _ => 0) with | some r => r.2 | none => fun _ _ => 0) = _
      rw [hb]
    have hwr : ∀ e ∈ (S.cells.map fun c => (⟨c.mat, V m c, c.pts⟩ : Elem K)), Writes e.mat (DE e) := by
      intro e he
      obtain ⟨c, hc, rfl⟩ := List.mem_map.mp he
      rw [hDE c hc]
      exact hS.material c hc
    have hvol : ((S.cells.map fun c => (⟨c.mat, V m c, c.pts⟩ : Elem K)).map fun e => (e.pts.map fun q => q.w).sum).sum = volume S.cells := by
      rw [List.map_map]; rfl
    obtain ⟨σ, h1, h2⟩ := C73_mean S.Escale S.Emin 24 S.C0 (fun _ => 0) m DE _ hwr (by rw [hvol]; exact hS.volume.ne')
      (fun hs => (hS.emin hs).ne')
    refine ⟨σ, by rw [hcase, h1], fun i => ?_⟩
    have h3 := h2 i
    rw [hvol, List.map_map] at h3
    have h4 : (S.cells.map ((fun e : Elem K => (e.pts.map fun q => q.w * ∑ k, DE e i k * (mulB q.B 24 e.v k + if k = m then 1 else 0)).sum) ∘
        fun c => (⟨c.mat, V m c, c.pts⟩ : Elem K))).sum =
        ep D S.cells (uniform (Pi.single i 1)) (fun c q k => uniform (Pi.single m 1) c q k + strainOf h (u m) c q k) * scale S := by
      rw [← ep_scale]
      unfold ep
      congr 1
      apply List.map_congr_left
      intro c hc
      simp only [Function.comp]
      congr 1
      apply List.map_congr_left
      intro q _
      rw [hDE c hc]
      congr 1
      have : ∀ j : Fin 6, uniform (K := K) (Pi.single i 1) c q j = if j = i then 1 else 0 := fun j => by
        unfold uniform; rw [Pi.single_apply]
      simp only [this, ite_mul, one_mul, zero_mul, Finset.sum_ite_eq', Finset.mem_univ, if_true]
      apply Finset.sum_congr rfl
      intro k _
      congr 1
      rw [add_comm]
      congr 1
      · unfold uniform; rw [Pi.single_apply]
      · unfold strainOf strainAt mulB
        refine Finset.sum_congr rfl fun j hj => ?_
        rw [(hV1 m c hc).2 j (Finset.mem_range.mp hj)]
    rw [h4] at h3
    have hsc : (if 0 < S.Escale then S.Escale / S.Emin else 1) = scale S := rfl
    rw [hsc] at h3
    apply mul_right_cancel₀ hsp.ne'
    rw [← h3]; ring
  choose R hR1 hR2 using hrun
  refine ⟨u, R, hR1, fun m y => ?_, hR2⟩
  rw [ep_symm hS.symm, ep_add_left, ep_symm hS.symm (strainOf h (u m)), heq, ep_symm hS.symm (uniform _)]
  ring

/-! ### Admissible displacements -/

theorem expand_admissible (hR : Ready S h) (hS : Sound S D) (y : Nat → K) : Admissible h (expandSolution (preprocess h) y) := by
  refine ⟨fun n i hp => ?_, fun n i m hn hi hm => ?_⟩
  · obtain ⟨f, hf, hb⟩ := hp
    rw [expand_prescribed h y n i (hR.apart n i ⟨f, hf, hb⟩) f hf hb]
    exact hR.zero hS n f hf i hb
  · exact (C42_expand_partial h hR.clean y n i ⟨hn, hi⟩).2.2 m hm

theorem admissible_expand (hR : Ready S h) (hS : Sound S D) (v : Nat → Nat → K) (hv : Admissible h v) :
    ∃ y, ∀ n i, n < h.nodes → i < h.dim → expandSolution (preprocess h) y n i = v n i := by
  classical
  obtain ⟨h1, -, -, h4⟩ := C39_equations h hR.fresh
  let y : Nat → K := fun k => if hk : ∃ p : Nat × Nat, Unknown h p.1 p.2 ∧ (preprocess h).eqn p.1 p.2 = some k then
    v hk.choose.1 hk.choose.2 else 0
  have hy : ∀ n i k, Unknown h n i → (preprocess h).eqn n i = some k → y k = v n i := by
    intro n i k hu hk
    have hex : ∃ p : Nat × Nat, Unknown h p.1 p.2 ∧ (preprocess h).eqn p.1 p.2 = some k := ⟨(n, i), hu, hk⟩
    change dite _ _ _ = _
    rw [dif_pos hex]
    obtain ⟨e1, e2⟩ := h4 _ _ n i k hex.choose_spec.1 hu hex.choose_spec.2 hk
    rw [e1, e2]
  have hbase : ∀ n i, Unknown h n i → ¬ Slave h n i → expandSolution (preprocess h) y n i = v n i := by
    intro n i hu hs
    obtain ⟨c1, c2, -⟩ := C42_expand_partial h hR.clean y n i hu
    by_cases hp : Prescribed h n i
    · obtain ⟨f, hf, hb⟩ := hp
      rw [c2 f hf hb, hv.1 n i ⟨f, hf, hb⟩]
      exact hR.zero hS n f hf i hb
    · obtain ⟨e, he, hx⟩ := c1 hp hs
      rw [hx, hy n i e hu he]
  refine ⟨y, fun n i hn hi => ?_⟩
  by_cases hs : Slave h n i
  · obtain ⟨m, hm⟩ := hs
    rw [(C42_expand_partial h hR.clean y n i ⟨hn, hi⟩).2.2 m hm, hv.2 n i m hn hi hm]
    congr 1
    apply List.map_congr_left
    intro a ha
    rw [hbase a.node a.dof (hR.clean.inside n i m hm a ha) (hR.clean.unchained n i m hm a ha)]
  · exact hbase n i ⟨hn, hi⟩ hs

theorem strainAt_congr (hS : Sound S D) (hn : h.nodes = S.handler.nodes) (v w : Nat → Nat → K) (hvw : ∀ n i, n < h.nodes → i < 3 → v n i = w n i) :
    ∀ c ∈ S.cells, ∀ q i, strainAt v c q i = strainAt w c q i := by
  intro c hc q i
  unfold strainAt
  refine Finset.sum_congr rfl fun j hj => ?_
  have hj' := Finset.mem_range.mp hj
  have h3 : j / 3 < c.vertex.length := by rw [hS.corners c hc]; omega
  rw [hvw _ _ ?_ (by omega)]
  rw [List.getD_eq_getElem?_getD, List.getElem?_eq_getElem h3, hn]
  exact hS.inside c hc _ (List.getElem_mem h3)

/-- Ties: resolving chains does not change which displacements are admissible. -/
theorem tie_admissible (hS : Sound S D) (ht : S.tol < 1) (h0 : ∀ s c, S.handler.mpcs s = some c → Tie c) (hR : Ready S h)
    (v : Nat → Nat → K) : Admissible h v ↔ Admissible S.handler v := by
  obtain ⟨rank, hr, hf⟩ := hS.ranked
  obtain ⟨m', h1, h2, h3, h4⟩ := chains_subst (tol := S.tol) S.handler rank hr S.fuel hf hS.slaves
  rw [hR.eq] at h1
  obtain rfl := Option.some.inj h1
  let w : Nat → K := fun k => v (k / 3) (k % 3)
  have hdim := hS.dim
  have hw : ∀ n i, i < 3 → w (n * 3 + i) = v n i := by
    intro n i hi
    change v ((n * 3 + i) / 3) ((n * 3 + i) % 3) = _
    rw [show (n * 3 + i) / 3 = n by omega, show (n * 3 + i) % 3 = i by omega]
  -- both systems as conditions on `w`
  have conv : ∀ M : Nat → Option (Mpc K), (∀ s c, M s = some c → s < S.handler.nodes * 3 ∧
      ∀ a ∈ c.masters, a.node < S.handler.nodes ∧ a.dof < 3) →
      ((∀ n i m, n < S.handler.nodes → i < S.handler.dim → M (n * S.handler.dim + i) = some m →
        v n i = (m.masters.map fun a => a.coeff * v a.node a.dof).sum) ↔
      ∀ s c, M s = some c → w s = (c.masters.map fun a => a.coeff * w (a.node * 3 + a.dof)).sum) := by
    intro M hM
    have e : ∀ s c, M s = some c → (c.masters.map fun a => a.coeff * w (a.node * 3 + a.dof)) =
        c.masters.map fun a => a.coeff * v a.node a.dof := by
      intro s c hc
      apply List.map_congr_left
      intro a ha
      rw [hw _ _ ((hM s c hc).2 a ha).2]
    rw [hdim]
    constructor
    · intro hv s c hc
      rw [e s c hc]
      have hs := (hM s c hc).1
      exact hv (s / 3) (s % 3) c (by omega) (by omega) (by rw [show s / 3 * 3 + s % 3 = s by omega]; exact hc)
    · intro hv n i m hn hi hm
      rw [← hw n i hi, hv _ m hm, e _ m hm]
  have hin : ∀ s c, S.handler.mpcs s = some c → s < S.handler.nodes * 3 ∧
      ∀ a ∈ c.masters, a.node < S.handler.nodes ∧ a.dof < 3 := fun s c hc =>
    ⟨by have := hS.slaves s c hc; rwa [hdim] at this, fun a ha => by have := hS.masters s c hc a ha; rwa [hdim] at this⟩
  have hin' : ∀ s c, m' s = some c → s < S.handler.nodes * 3 ∧
      ∀ a ∈ c.masters, a.node < S.handler.nodes ∧ a.dof < 3 := by
    intro s c hc
    refine ⟨?_, resolved_masters hr h2 h4 (fun n i => n < S.handler.nodes ∧ i < 3) (fun s c hc => (hin s c hc).2) s c hc⟩
    obtain ⟨c0, hc0⟩ := Option.isSome_iff_exists.mp (show (S.handler.mpcs s).isSome by rw [← h2, hc]; rfl)
    exact (hin s c0 hc0).1
  refine and_congr Iff.rfl ((conv m' hin').trans (Iff.trans ?_ (conv S.handler.mpcs hin).symm))
  rw [hdim] at hr h4
  constructor
  · intro hv s c hc
    obtain ⟨a, ha, h1⟩ := h0 s c hc
    rw [tie_values ht hr h2 h4 h0 w hv s c a hc ha, ha]
    simp [h1]
  · intro hv
    have key : ∀ n s, rank s = n → ∀ c, m' s = some c → w s = (c.masters.map fun a => a.coeff * w (a.node * 3 + a.dof)).sum := by
      intro n
      induction n using Nat.strong_induction_on with
      | _ n ih =>
        intro s hs c hc
        obtain ⟨c0, hc0⟩ := Option.isSome_iff_exists.mp (show (S.handler.mpcs s).isSome by rw [← h2, hc]; rfl)
        obtain ⟨a, ha, h1⟩ := h0 s c0 hc0
        have e := h4 s c0 hc0
        rw [hc] at e
        cases e
        have h5 := hv s c0 hc0
        rw [ha] at h5
        simp only [List.map_cons, List.map_nil, List.sum_cons, List.sum_nil, h1, one_mul, add_zero] at h5
        cases hm : m' (a.node * 3 + a.dof) with
        | none =>
          rw [(subst_tie ht ha h1).1 hm]
          simp [h1, h5]
        | some r =>
          obtain ⟨b, hb, hb1⟩ := resolved_tie ht hr h2 h4 h0 _ r hm
          rw [(subst_tie ht ha h1).2 r b hm hb hb1]
          have h6 := ih _ (by rw [← hs]; exact hr s c0 hc0 a (by rw [ha]; exact List.mem_singleton.mpr rfl)) _ rfl r hm
          rw [hb] at h6
          simp only [List.map_cons, List.map_nil, List.sum_cons, List.sum_nil, hb1, one_mul, add_zero] at h6
          simp [h5, h6]
    exact fun s => key _ s rfl

end Verif.ElasticUp
