import Verif.Spec.RelPermLayers
import Verif.Props.RelPermSum
import Verif.Props.PeriodicLayers

/-!
C155: relative permeability upscaling of layered samples (`Verif.Model.RelPermChain`).
-/

namespace Verif.RelPermChain

open Verif.RelPerm Verif.SinglePhase

variable {K : Type} [Field K] [LinearOrder K] [IsStrictOrderedRing K]

variable {J : Job K} {lo hi : Fin 3 → K} {side : Boundary.Face K → Nat}

theorem cond_iso (I : Input K) (l : List Nat) (g : Nat → K) (hl : l.length = I.G.nc) (c : Fin I.G.nc) (i j : Fin 3) :
    SinglePhase.cond (tracer (setPerms I (l.map fun c (_ : Fin 3) => g c))) c i j = if i = j then g (l.getD c.val 0) else 0 := by
  have e := tracer_cond (setPerms I (l.map fun c (_ : Fin 3) => g c)) c i j
  rw [(setPerms_perm I l _ hl c).2] at e
  exact e

/-- Layers along the flow. -/
theorem flow_parallel (h : Ready J lo hi side) (l : List Nat) (g : Nat → K) (hl : l.length = J.I.G.nc) (hg : ∀ c ∈ l, 0 < g c)
    (hbc : J.I.bct = .fixed) (d : Fin 3) (hlay : AlongLayers J.I.G d fun c => g (l.getD c.val 0)) :
    ∃ T, (∀ b, upscaleSinglePhase (setPerms J.I (l.map fun c (_ : Fin 3) => g c)) b = some T) ∧
      T d d = (∑ c : Fin J.I.G.nc, (J.I.G.cell c).volume * g (l.getD c.val 0)) / vol J.I := by
  obtain ⟨T, h1, h2⟩ := C90_parallel (ready_sound h l (fun c _ => g c) hl fun c hc _ => hg c hc) h.tiling h.box h.suited hbc d
    (fun c k hk => (cond_iso J.I l g hl c k d).trans (if_neg hk))
    (fun p q e1 e2 e3 => ((cond_iso J.I l g hl p.1 d d).trans (if_pos rfl)).trans
      ((hlay p q e1 e2 e3).trans ((cond_iso J.I l g hl q.1 d d).trans (if_pos rfl)).symm))
  refine ⟨T, h1, h2.trans ?_⟩
  unfold mean
  congr 1
  exact Finset.sum_congr rfl fun c _ => congrArg _ ((cond_iso J.I l g hl c d d).trans (if_pos rfl))

/-- Layers across the flow. -/
theorem flow_series (h : Ready J lo hi side) (l : List Nat) (g : Nat → K) (hl : l.length = J.I.G.nc) (hg : ∀ c ∈ l, 0 < g c)
    (hbc : J.I.bct = .fixed) (d : Fin 3) (hlay : AcrossLayers J.I.G d fun c => 1 / g (l.getD c.val 0)) :
    ∃ T, (∀ b, upscaleSinglePhase (setPerms J.I (l.map fun c (_ : Fin 3) => g c)) b = some T) ∧
      T d d * ∑ c : Fin J.I.G.nc, (J.I.G.cell c).volume / g (l.getD c.val 0) = vol J.I := by
  obtain ⟨F, q, hF⟩ := hlay
  obtain ⟨T, h1, h2⟩ := C90_series (ready_sound h l (fun c _ => g c) hl fun c hc _ => hg c hc) h.tiling h.box h.suited hbc d
    (fun c k hk => (cond_iso J.I l g hl c k d).trans (if_neg hk)) (fun c => 1 / g (l.getD c.val 0))
    (fun c => by
      have hm : l.getD c.val 0 ∈ l := (setPerms_perm J.I l (fun c _ => g c) hl c).1
      have e := (cond_iso J.I l g hl c d d).trans (if_pos rfl)
      beta_reduce
      rw [e]
      exact mul_one_div_cancel (hg _ hm).ne') F q hF
  refine ⟨T, h1, ?_⟩
  have hV : vol J.I ≠ 0 := (vol_pos h.tiling h.box).ne'
  have e : mean (tracer (setPerms J.I (l.map fun c (_ : Fin 3) => g c))) (fun c => 1 / g (l.getD c.val 0)) =
      (∑ c : Fin J.I.G.nc, (J.I.G.cell c).volume / g (l.getD c.val 0)) / vol J.I := by
    unfold mean
    congr 1
    exact Finset.sum_congr rfl fun c _ => mul_one_div _ _
  rw [e, ← mul_div_assoc, div_eq_one_iff_eq hV] at h2
  exact h2

theorem mem_getD {l : List Nat} {n : Nat} (hl : l.length = n) (c : Nat) (hc : c ∈ l) : ∃ i : Fin n, l.getD i.val 0 = c := by
  obtain ⟨i, hi, e⟩ := List.mem_iff_getElem.mp hc
  refine ⟨⟨i, hl ▸ hi⟩, ?_⟩
  rw [List.getD_eq_getElem?_getD, List.getElem?_eq_getElem hi, Option.getD_some, e]

theorem top_le (S : Sys K) (kr : Nat → K → K) (minPerm : K) (s : Nat → K) (l : List Nat) (m u : K) (hm : m ≤ u) (hu : minPerm ≤ u)
    (h : ∀ c ∈ l, raw S kr s c ≤ u) : top S kr minPerm s m l ≤ u := by
  induction l generalizing m with
  | nil => exact hm
  | cons c l ih =>
    unfold top
    rw [List.foldl_cons]
    refine ih _ ?_ fun d hd => h d (List.mem_cons_of_mem _ hd)
    split
    · exact max_le (max_le hm (h c (List.mem_cons_self ..))) hu
    · exact hm

/-- Without floor the permeabilities are those of the cells. -/
theorem cellK_eq (hv : Valid J) (kr : Nat → K → K) (s : Nat → K) (hn : NoFloor J kr s) (c : Fin J.I.G.nc) :
    cellK J.S kr J.contrast J.minPerm s (J.S.globalCell.getD c.val 0) = phaseK J kr s c := by
  have hcp : 0 < J.contrast := zero_lt_one.trans_le hv.contrast
  have hraw : ∀ c : Fin J.I.G.nc, raw J.S kr s (J.S.globalCell.getD c.val 0) = phaseK J kr s c := fun c =>
    if_pos (hn.rock _ (setPerms_perm J.I J.S.globalCell (fun _ _ => 0) hv.cells c).1)
  have hpos : 0 < phaseK J kr s c := hv.minPerm.trans_le (hn.least c)
  unfold cellK
  rw [hraw]
  refine max_eq_right (max_le ?_ (hn.least c))
  rw [div_le_iff₀ hcp, mul_comm]
  refine top_le _ _ _ _ _ _ _ (mul_pos hcp hpos).le ?_ fun c' hc' => ?_
  · exact (hn.least c).trans (le_mul_of_one_le_left hpos.le hv.contrast)
  · obtain ⟨i, rfl⟩ := mem_getD hv.cells c' hc'
    rw [hraw]
    exact hn.phase c i

theorem singleK_eq (hv : Valid J) (kr : Nat → K → K) (hk : UnitRange kr) (s : Nat → K) (hn : NoFloor J kr s) (c : Fin J.I.G.nc) :
    singleK J.S J.contrast J.minPerm (J.S.globalCell.getD c.val 0) = absK J c := by
  have hcp : 0 < J.contrast := zero_lt_one.trans_le hv.contrast
  have hm := (setPerms_perm J.I J.S.globalCell (fun _ _ => 0) hv.cells c).1
  have h0 : 0 ≤ absK J c := hv.perm _ hm
  unfold singleK
  refine max_eq_left (max_le ?_ ?_)
  · rw [div_le_iff₀ hcp, mul_comm]
    refine maxSingle_le _ _ _ _ (mul_nonneg hcp.le h0) fun c' hc' => ?_
    obtain ⟨i, rfl⟩ := mem_getD hv.cells c' hc'
    exact hn.single c i
  · exact (hn.least c).trans (mul_le_of_le_one_left h0 (hk _ _).2)

/-- **C155** (flow along layers). If rock does not change in the direction of flow, the relative permeability in that direction is
exactly the mean of those of the cells, weighted with volume times permeability. -/
theorem C155_parallel (h : Ready J lo hi side) (hv : Valid J) (hbc : J.I.bct = .fixed) (ha : J.S.aniso = false)
    (kr : Fin 3 → Nat → K → K) (hk : UnitRange (kr 0)) (p : K) (s : Nat → K)
    (hs : ∀ c ∈ J.S.globalCell, RelPerm.Spec.CellSat J.S p c (s c)) (hn : NoFloor J (kr 0) s) (d : Fin 3)
    (hlay : AlongLayers J.I.G d (absK J)) (hlay' : AlongLayers J.I.G d (phaseK J (kr 0) s)) :
    ∃ w, ∃ r : Fin 3 → K, (∀ b b', point J kr p b b' = some (w, [r 0, r 1, r 2])) ∧
      r d * ∑ c, (J.I.G.cell c).volume * absK J c = ∑ c, (J.I.G.cell c).volume * phaseK J (kr 0) s c := by
  obtain ⟨T, P, w, r, t1, p1, -, q1, g1⟩ := C143_unit h hv hbc ha kr hk p
  refine ⟨w, r, q1, ?_⟩
  have b0 : Boundary.BCs K := ⟨⟨[], []⟩, [], []⟩
  have hV : vol J.I ≠ 0 := (vol_pos h.tiling h.box).ne'
  obtain ⟨T', x1, x2⟩ := flow_parallel h J.S.globalCell (singleK J.S J.contrast J.minPerm) hv.cells
    (fun c _ => singleK_pos _ _ _ hv.minPerm c) hbc d (by simp only [singleK_eq hv (kr 0) hk s hn]; exact hlay)
  obtain ⟨P', y1, y2⟩ := flow_parallel h J.S.globalCell (cellK J.S (kr 0) J.contrast J.minPerm s) hv.cells
    (fun c _ => cellK_pos _ _ _ _ _ hv.minPerm c) hbc d (by simp only [cellK_eq hv (kr 0) s hn]; exact hlay')
  obtain rfl : T' = T := Option.some.inj ((x1 b0).symm.trans ((single_eq ha b0).symm.trans (t1 b0)))
  obtain rfl : P' = P := Option.some.inj ((y1 b0).symm.trans ((phase_eq ha kr p s (fun c hc _ => hs c hc) b0).symm.trans (p1 b0)))
  simp only [singleK_eq hv (kr 0) hk s hn] at x2
  simp only [cellK_eq hv (kr 0) s hn] at y2
  have e := (g1 d).1
  rw [x2, y2, ← mul_div_assoc, div_left_inj' hV] at e
  exact e

/-- **C155** (flow across layers). If rock changes in the direction of flow only, the relative permeability in that direction is exactly
the mean resistance without the other phase over the mean resistance with it. -/
theorem C155_series (h : Ready J lo hi side) (hv : Valid J) (hbc : J.I.bct = .fixed) (ha : J.S.aniso = false)
    (kr : Fin 3 → Nat → K → K) (hk : UnitRange (kr 0)) (p : K) (s : Nat → K)
    (hs : ∀ c ∈ J.S.globalCell, RelPerm.Spec.CellSat J.S p c (s c)) (hn : NoFloor J (kr 0) s) (d : Fin 3)
    (hlay : AcrossLayers J.I.G d fun c => 1 / absK J c) (hlay' : AcrossLayers J.I.G d fun c => 1 / phaseK J (kr 0) s c) :
    ∃ w, ∃ r : Fin 3 → K, (∀ b b', point J kr p b b' = some (w, [r 0, r 1, r 2])) ∧
      r d * ∑ c, (J.I.G.cell c).volume / phaseK J (kr 0) s c = ∑ c, (J.I.G.cell c).volume / absK J c := by
  obtain ⟨T, P, w, r, t1, p1, -, q1, g1⟩ := C143_unit h hv hbc ha kr hk p
  refine ⟨w, r, q1, ?_⟩
  have b0 : Boundary.BCs K := ⟨⟨[], []⟩, [], []⟩
  have hV : vol J.I ≠ 0 := (vol_pos h.tiling h.box).ne'
  obtain ⟨T', x1, x2⟩ := flow_series h J.S.globalCell (singleK J.S J.contrast J.minPerm) hv.cells
    (fun c _ => singleK_pos _ _ _ hv.minPerm c) hbc d (by simp only [singleK_eq hv (kr 0) hk s hn]; exact hlay)
  obtain ⟨P', y1, y2⟩ := flow_series h J.S.globalCell (cellK J.S (kr 0) J.contrast J.minPerm s) hv.cells
    (fun c _ => cellK_pos _ _ _ _ _ hv.minPerm c) hbc d (by simp only [cellK_eq hv (kr 0) s hn]; exact hlay')
  obtain rfl : T' = T := Option.some.inj ((x1 b0).symm.trans ((single_eq ha b0).symm.trans (t1 b0)))
  obtain rfl : P' = P := Option.some.inj ((y1 b0).symm.trans ((phase_eq ha kr p s (fun c hc _ => hs c hc) b0).symm.trans (p1 b0)))
  simp only [singleK_eq hv (kr 0) hk s hn] at x2
  simp only [cellK_eq hv (kr 0) s hn] at y2
  have e := (g1 d).1
  have hT : T' d d ≠ 0 := fun h0 => hV (by rw [← x2, h0, zero_mul])
  have e2 : T' d d * (r d * ∑ c, (J.I.G.cell c).volume / phaseK J (kr 0) s c) = T' d d * ∑ c, (J.I.G.cell c).volume / absK J c := by
    rw [x2, ← y2, ← e]
    ring
  exact mul_left_cancel₀ hT e2

/-- Layers along the flow, periodic conditions. -/
theorem flow_parallel_periodic (h : Ready J lo hi side) (l : List Nat) (g : Nat → K) (hl : l.length = J.I.G.nc) (hg : ∀ c ∈ l, 0 < g c)
    (hbc : J.I.bct = .periodic) (d : Fin 3) (hlay : AlongLayers J.I.G d fun c => g (l.getD c.val 0))
    (hend : EndsMatch J.I.G lo hi d fun c => g (l.getD c.val 0)) :
    ∃ T, (∀ b, upscaleSinglePhase (setPerms J.I (l.map fun c (_ : Fin 3) => g c)) b = some T) ∧
      T d d = (∑ c : Fin J.I.G.nc, (J.I.G.cell c).volume * g (l.getD c.val 0)) / vol J.I ∧ ∀ k, k ≠ d → T k d = 0 := by
  obtain ⟨T, h1, h2, h3⟩ := C91_parallel (ready_sound h l (fun c _ => g c) hl fun c hc _ => hg c hc) h.tiling h.box h.suited hbc d
    (fun c k hk => (cond_iso J.I l g hl c k d).trans (if_neg hk))
    (fun p q e1 e2 e3 => ((cond_iso J.I l g hl p.1 d d).trans (if_pos rfl)).trans
      ((hlay p q e1 e2 e3).trans ((cond_iso J.I l g hl q.1 d d).trans (if_pos rfl)).symm))
    (fun p q e1 e2 e3 e4 e5 => ((cond_iso J.I l g hl p.1 d d).trans (if_pos rfl)).trans
      ((hend p q e1 e2 e3 e4 e5).trans ((cond_iso J.I l g hl q.1 d d).trans (if_pos rfl)).symm))
  refine ⟨T, h1, h2.trans ?_, fun k hk => (h3 k hk).1⟩
  unfold mean
  congr 1
  exact Finset.sum_congr rfl fun c _ => congrArg _ ((cond_iso J.I l g hl c d d).trans (if_pos rfl))

/-- Layers across the flow, periodic conditions. -/
theorem flow_series_periodic (h : Ready J lo hi side) (l : List Nat) (g : Nat → K) (hl : l.length = J.I.G.nc) (hg : ∀ c ∈ l, 0 < g c)
    (hbc : J.I.bct = .periodic) (d : Fin 3) (hlay : AcrossLayers J.I.G d fun c => 1 / g (l.getD c.val 0)) :
    ∃ T, (∀ b, upscaleSinglePhase (setPerms J.I (l.map fun c (_ : Fin 3) => g c)) b = some T) ∧
      T d d * ∑ c : Fin J.I.G.nc, (J.I.G.cell c).volume / g (l.getD c.val 0) = vol J.I ∧ ∀ k, k ≠ d → T k d = 0 := by
  obtain ⟨F, q, hF⟩ := hlay
  obtain ⟨T, h1, h2, h3⟩ := C91_series (ready_sound h l (fun c _ => g c) hl fun c hc _ => hg c hc) h.tiling h.box h.suited hbc d
    (fun c k hk => (cond_iso J.I l g hl c k d).trans (if_neg hk)) (fun c => 1 / g (l.getD c.val 0))
    (fun c => by
      have hm : l.getD c.val 0 ∈ l := (setPerms_perm J.I l (fun c _ => g c) hl c).1
      have e := (cond_iso J.I l g hl c d d).trans (if_pos rfl)
      beta_reduce
      rw [e]
      exact mul_one_div_cancel (hg _ hm).ne') F q hF
  refine ⟨T, h1, ?_, fun k hk => (h3 k hk).1⟩
  have hV : vol J.I ≠ 0 := (vol_pos h.tiling h.box).ne'
  have e : mean (tracer (setPerms J.I (l.map fun c (_ : Fin 3) => g c))) (fun c => 1 / g (l.getD c.val 0)) =
      (∑ c : Fin J.I.G.nc, (J.I.G.cell c).volume / g (l.getD c.val 0)) / vol J.I := by
    unfold mean
    congr 1
    exact Finset.sum_congr rfl fun c _ => mul_one_div _ _
  rw [e, ← mul_div_assoc, div_eq_one_iff_eq hV] at h2
  exact h2

/-- The column of the relative permeability in a principal direction. -/
theorem column_quot (r : Fin 9 → K) (T P : Fin 3 → Fin 3 → K) (e : ofVoigt r * Matrix.of T = Matrix.of P) (d : Fin 3)
    (hT : ∀ k, k ≠ d → T k d = 0) (i : Fin 3) : ofVoigt r i d * T d d = P i d := by
  have h1 := congrFun (congrFun e i) d
  rw [Matrix.mul_apply, Finset.sum_eq_single d] at h1
  · exact h1
  · intro k _ hk
    rw [Matrix.of_apply, hT k hk, mul_zero]
  · simp

/-- **C155** (flow along layers, periodic conditions). As `C155_parallel`; moreover a pressure gradient along the layers drives no flow in
other directions. -/
theorem C155_parallel_periodic (h : Ready J lo hi side) (hv : Valid J) (hbc : J.I.bct = .periodic) (ha : J.S.aniso = false)
    (kr : Fin 3 → Nat → K → K) (hk : UnitRange (kr 0)) (p : K) (s : Nat → K)
    (hs : ∀ c ∈ J.S.globalCell, RelPerm.Spec.CellSat J.S p c (s c)) (hn : NoFloor J (kr 0) s) (d : Fin 3)
    (hlay : AlongLayers J.I.G d (absK J)) (hlay' : AlongLayers J.I.G d (phaseK J (kr 0) s))
    (hend : EndsMatch J.I.G lo hi d (absK J)) (hend' : EndsMatch J.I.G lo hi d (phaseK J (kr 0) s)) :
    ∃ w, ∃ r : Fin 9 → K, (∀ b b', point J kr p b b' = some (w, List.ofFn r)) ∧
      ofVoigt r d d * ∑ c, (J.I.G.cell c).volume * absK J c = ∑ c, (J.I.G.cell c).volume * phaseK J (kr 0) s c ∧
      ∀ k, k ≠ d → ofVoigt r k d = 0 := by
  obtain ⟨T, P, w, r, t1, p1, -, q1, g1, -, -, hpd, -⟩ := C143_periodic h hv hbc ha kr hk p
  have b0 : Boundary.BCs K := ⟨⟨[], []⟩, [], []⟩
  have hV : vol J.I ≠ 0 := (vol_pos h.tiling h.box).ne'
  obtain ⟨T', x1, x2, x3⟩ := flow_parallel_periodic h J.S.globalCell (singleK J.S J.contrast J.minPerm) hv.cells
    (fun c _ => singleK_pos _ _ _ hv.minPerm c) hbc d (by simp only [singleK_eq hv (kr 0) hk s hn]; exact hlay)
    (by simp only [singleK_eq hv (kr 0) hk s hn]; exact hend)
  obtain ⟨P', y1, y2, y3⟩ := flow_parallel_periodic h J.S.globalCell (cellK J.S (kr 0) J.contrast J.minPerm s) hv.cells
    (fun c _ => cellK_pos _ _ _ _ _ hv.minPerm c) hbc d (by simp only [cellK_eq hv (kr 0) s hn]; exact hlay')
    (by simp only [cellK_eq hv (kr 0) s hn]; exact hend')
  obtain rfl : T' = T := Option.some.inj ((x1 b0).symm.trans ((single_eq ha b0).symm.trans (t1 b0)))
  obtain rfl : P' = P := Option.some.inj ((y1 b0).symm.trans ((phase_eq ha kr p s (fun c hc _ => hs c hc) b0).symm.trans (p1 b0)))
  simp only [singleK_eq hv (kr 0) hk s hn] at x2
  simp only [cellK_eq hv (kr 0) s hn] at y2
  have hc := column_quot r T' P' g1 d x3
  refine ⟨w, r, q1, ?_, fun k hk' => ?_⟩
  · have e := hc d
    rw [x2, y2, ← mul_div_assoc, div_left_inj' hV] at e
    exact e
  · have e := hc k
    rw [y3 k hk'] at e
    rcases mul_eq_zero.mp e with e | e
    · exact e
    · exfalso
      have := hpd (Pi.single d 1) ⟨d, by simp⟩
      have q : Mimetic.quadForm T' (Pi.single d 1) = T' d d := by
        unfold Mimetic.quadForm
        rw [Finset.sum_eq_single d (fun j _ hj => by simp [Pi.single_eq_of_ne hj]) (by simp),
          Finset.sum_eq_single d (fun j _ hj => by simp [Pi.single_eq_of_ne hj]) (by simp)]
        simp
      rw [q, e] at this
      linarith

/-- **C155** (flow across layers, periodic conditions). -/
theorem C155_series_periodic (h : Ready J lo hi side) (hv : Valid J) (hbc : J.I.bct = .periodic) (ha : J.S.aniso = false)
    (kr : Fin 3 → Nat → K → K) (hk : UnitRange (kr 0)) (p : K) (s : Nat → K)
    (hs : ∀ c ∈ J.S.globalCell, RelPerm.Spec.CellSat J.S p c (s c)) (hn : NoFloor J (kr 0) s) (d : Fin 3)
    (hlay : AcrossLayers J.I.G d fun c => 1 / absK J c) (hlay' : AcrossLayers J.I.G d fun c => 1 / phaseK J (kr 0) s c) :
    ∃ w, ∃ r : Fin 9 → K, (∀ b b', point J kr p b b' = some (w, List.ofFn r)) ∧
      ofVoigt r d d * ∑ c, (J.I.G.cell c).volume / phaseK J (kr 0) s c = ∑ c, (J.I.G.cell c).volume / absK J c ∧
      ∀ k, k ≠ d → ofVoigt r k d = 0 := by
  obtain ⟨T, P, w, r, t1, p1, -, q1, g1, -⟩ := C143_periodic h hv hbc ha kr hk p
  have b0 : Boundary.BCs K := ⟨⟨[], []⟩, [], []⟩
  have hV : vol J.I ≠ 0 := (vol_pos h.tiling h.box).ne'
  obtain ⟨T', x1, x2, x3⟩ := flow_series_periodic h J.S.globalCell (singleK J.S J.contrast J.minPerm) hv.cells
    (fun c _ => singleK_pos _ _ _ hv.minPerm c) hbc d (by simp only [singleK_eq hv (kr 0) hk s hn]; exact hlay)
  obtain ⟨P', y1, y2, y3⟩ := flow_series_periodic h J.S.globalCell (cellK J.S (kr 0) J.contrast J.minPerm s) hv.cells
    (fun c _ => cellK_pos _ _ _ _ _ hv.minPerm c) hbc d (by simp only [cellK_eq hv (kr 0) s hn]; exact hlay')
  obtain rfl : T' = T := Option.some.inj ((x1 b0).symm.trans ((single_eq ha b0).symm.trans (t1 b0)))
  obtain rfl : P' = P := Option.some.inj ((y1 b0).symm.trans ((phase_eq ha kr p s (fun c hc _ => hs c hc) b0).symm.trans (p1 b0)))
  simp only [singleK_eq hv (kr 0) hk s hn] at x2
  simp only [cellK_eq hv (kr 0) s hn] at y2
  have hc := column_quot r T' P' g1 d x3
  have hT : T' d d ≠ 0 := fun h0 => hV (by rw [← x2, h0, zero_mul])
  refine ⟨w, r, q1, ?_, fun k hk' => ?_⟩
  · have e2 : T' d d * (ofVoigt r d d * ∑ c, (J.I.G.cell c).volume / phaseK J (kr 0) s c) =
        T' d d * ∑ c, (J.I.G.cell c).volume / absK J c := by
      rw [x2, ← y2, ← hc d]
      ring
    exact mul_left_cancel₀ hT e2
  · have e := hc k
    rw [y3 k hk'] at e
    exact (mul_eq_zero.mp e).resolve_right hT

/-! ### The hypotheses are met -/

/-- Two cells side by side in the first direction, with permeabilities 1 and 2 and relative permeabilities 9/16 and 1/4. -/
theorem ex_noFloor (bct : Upscale.BCType) : NoFloor (exJob bct false (fun c => c + 1) fun _ => 0) (exKr 0) (fun c => 3 / 4 - c / 4) where
  rock _ _ := by change (0 : Int) < 1; decide
  least := by
    have : ∀ c : Fin 2, (1 / 10 ^ 12 : ℚ) ≤ exKr 0 0 (3 / 4 - (([0, 1].getD c.val 0 : Nat) : ℚ) / 4) * (([0, 1].getD c.val 0 : Nat) + 1) := by
      decide +kernel
    exact this
  phase := by
    have : ∀ c c' : Fin 2, exKr 0 0 (3 / 4 - (([0, 1].getD c'.val 0 : Nat) : ℚ) / 4) * (([0, 1].getD c'.val 0 : Nat) + 1) ≤
        10 ^ 7 * (exKr 0 0 (3 / 4 - (([0, 1].getD c.val 0 : Nat) : ℚ) / 4) * (([0, 1].getD c.val 0 : Nat) + 1)) := by
      decide +kernel
    exact this
  single := by
    have : ∀ c c' : Fin 2, (([0, 1].getD c'.val 0 : Nat) : ℚ) + 1 ≤ 10 ^ 7 * ((([0, 1].getD c.val 0 : Nat) : ℚ) + 1) := by
      decide +kernel
    exact this

theorem ex_sats (bct : Upscale.BCType) : ∀ c ∈ (exJob bct false (fun c => c + 1) fun _ => 0).S.globalCell,
    RelPerm.Spec.CellSat (exJob bct false (fun c => c + 1) fun _ => 0).S (1 / 16) c (3 / 4 - c / 4) := by
  intro c hc
  refine ⟨0, Or.inl ⟨rfl, rfl⟩, ?_⟩
  have hc : c = 0 ∨ c = 1 := by simpa [exJob] using hc
  change (3 / 4 - (c : ℚ) / 4) = max 0 (min 1 (1 - max 0 (((c : ℚ) + 1) / (1 / 4)) * (1 / 16 - 0)))
  rcases hc with rfl | rfl <;> norm_num

/-- Flow along the two cells lying side by side: the relative permeability is (1 * 9/16 + 2 * 1/4) / (1 + 2). -/
example : ∃ w, ∃ r : Fin 3 → ℚ, (∀ b b', point (exJob .fixed false (fun c => c + 1) fun _ => 0) exKr (1 / 16) b b' =
    some (w, [r 0, r 1, r 2])) ∧ r 2 = 17 / 48 := by
  obtain ⟨w, r, h1, h2⟩ := C155_parallel (ex_ready .fixed false (fun c => c + 1) fun _ => 0) (ex_valid _ _ _ _ fun c => by positivity)
    rfl rfl exKr (exKr_unit 0) (1 / 16) (fun c => 3 / 4 - c / 4) (ex_sats .fixed) (ex_noFloor .fixed) 2
    (by
      have : ∀ p q : Half (exGrid false), ((exGrid false).face p).nbr = some q.1.val → ((exGrid false).face q).nbr = some p.1.val →
          ((exGrid false).face p).normal 2 ≠ 0 → (([0, 1].getD p.1.val 0 : Nat) : ℚ) + 1 = ([0, 1].getD q.1.val 0 : Nat) + 1 := by
        decide +kernel
      exact this)
    (by
      have : ∀ p q : Half (exGrid false), ((exGrid false).face p).nbr = some q.1.val → ((exGrid false).face q).nbr = some p.1.val →
          ((exGrid false).face p).normal 2 ≠ 0 →
          exKr 0 0 (3 / 4 - (([0, 1].getD p.1.val 0 : Nat) : ℚ) / 4) * (([0, 1].getD p.1.val 0 : Nat) + 1) =
            exKr 0 0 (3 / 4 - (([0, 1].getD q.1.val 0 : Nat) : ℚ) / 4) * (([0, 1].getD q.1.val 0 : Nat) + 1) := by
        decide +kernel
      exact this)
  refine ⟨w, r, h1, ?_⟩
  change r 2 * ∑ c : Fin 2, (343 : ℚ) * ((([0, 1].getD c.val 0 : Nat) : ℚ) + 1) =
    ∑ c : Fin 2, (343 : ℚ) * (exKr 0 0 (3 / 4 - (([0, 1].getD c.val 0 : Nat) : ℚ) / 4) * (([0, 1].getD c.val 0 : Nat) + 1)) at h2
  rw [show (∑ c : Fin 2, (343 : ℚ) * ((([0, 1].getD c.val 0 : Nat) : ℚ) + 1)) = 1029 by decide +kernel,
    show (∑ c : Fin 2, (343 : ℚ) * (exKr 0 0 (3 / 4 - (([0, 1].getD c.val 0 : Nat) : ℚ) / 4) * (([0, 1].getD c.val 0 : Nat) + 1))) =
      5831 / 16 by decide +kernel] at h2
  linarith

/-- Flow from one cell to the other, with periodic conditions: (1 + 1/2) / (16/9 + 2). -/
example : ∃ w, ∃ r : Fin 9 → ℚ, (∀ b b', point (exJob .periodic false (fun c => c + 1) fun _ => 0) exKr (1 / 16) b b' =
    some (w, List.ofFn r)) ∧ ofVoigt r 0 0 = 27 / 68 ∧ ofVoigt r 1 0 = 0 := by
  obtain ⟨w, r, h1, h2, h3⟩ := C155_series_periodic (ex_ready .periodic false (fun c => c + 1) fun _ => 0)
    (ex_valid _ _ _ _ fun c => by positivity) rfl rfl exKr (exKr_unit 0) (1 / 16) (fun c => 3 / 4 - c / 4) (ex_sats .periodic)
    (ex_noFloor .periodic) 0
    ⟨fun x => if x ≤ 7 then x else 7 + 1 / 2 * (x - 7), fun c : Fin 2 => if c = 0 then 3 else 17 / 2, by
      have : ∀ p : Half (exGrid true), (fun x : ℚ => if x ≤ 7 then x else 7 + 1 / 2 * (x - 7)) (((exGrid true).face p).centroid 0) = (fun c : Fin 2 => if c = 0 then (3 : ℚ) else 17 / 2) p.1 +
            (fun c : Fin 2 => if c = 0 then (1 : ℚ) else 1 / 2) p.1 *
              (((exGrid true).face p).centroid 0 - ((exGrid true).cell p.1).centroid 0) := by
        decide +kernel
      have e : ∀ c : Fin 2, (if c = 0 then (1 : ℚ) else 1 / 2) = 1 / ((([0, 1].getD c.val 0 : Nat) : ℚ) + 1) := by
        intro c; fin_cases c <;> norm_num
      intro p
      exact (this p).trans (congrArg (fun z : ℚ => _ + z * _) (e p.1))⟩
    ⟨fun x => if x ≤ 7 then 16 / 9 * x else 112 / 9 + 2 * (x - 7), fun c : Fin 2 => if c = 0 then 16 / 3 else 166 / 9, by
      have : ∀ p : Half (exGrid true), (fun x : ℚ => if x ≤ 7 then 16 / 9 * x else 112 / 9 + 2 * (x - 7)) (((exGrid true).face p).centroid 0) = (fun c : Fin 2 => if c = 0 then (16 / 3 : ℚ) else 166 / 9) p.1 +
            (fun c : Fin 2 => if c = 0 then (16 / 9 : ℚ) else 2) p.1 *
              (((exGrid true).face p).centroid 0 - ((exGrid true).cell p.1).centroid 0) := by
        decide +kernel
      have e : ∀ c : Fin 2, (if c = 0 then (16 / 9 : ℚ) else 2) =
          1 / (exKr 0 0 (3 / 4 - (([0, 1].getD c.val 0 : Nat) : ℚ) / 4) * (([0, 1].getD c.val 0 : Nat) + 1)) := by
        intro c; fin_cases c <;> norm_num [exKr]
      intro p
      exact (this p).trans (congrArg (fun z : ℚ => _ + z * _) (e p.1))⟩
  refine ⟨w, r, h1, ?_, h3 1 (by decide)⟩
  change ofVoigt r 0 0 * ∑ c : Fin 2, (343 : ℚ) / (exKr 0 0 (3 / 4 - (([0, 1].getD c.val 0 : Nat) : ℚ) / 4) * (([0, 1].getD c.val 0 : Nat) + 1)) =
    ∑ c : Fin 2, (343 : ℚ) / ((([0, 1].getD c.val 0 : Nat) : ℚ) + 1) at h2
  rw [show (∑ c : Fin 2, (343 : ℚ) / (exKr 0 0 (3 / 4 - (([0, 1].getD c.val 0 : Nat) : ℚ) / 4) * (([0, 1].getD c.val 0 : Nat) + 1))) =
      11662 / 9 by decide +kernel,
    show (∑ c : Fin 2, (343 : ℚ) / ((([0, 1].getD c.val 0 : Nat) : ℚ) + 1)) = 1029 / 2 by decide +kernel] at h2
  linarith

end Verif.RelPermChain
