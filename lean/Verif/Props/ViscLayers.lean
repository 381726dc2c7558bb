import Verif.Spec.ViscLayers
import Verif.Props.ViscChain
import Verif.Props.RelPermLayers

/-!
C144 (sum of the phases) and C156: relative permeabilities of the two phases and of layered samples in the viscous limit.
-/

namespace Verif.ViscChain

open Verif.RelPerm Verif.SinglePhase Verif.Visc

variable {K : Type} [Field K] [LinearOrder K] [IsStrictOrderedRing K]

variable {J : Job K} {lo hi : Fin 3 → K} {side : Boundary.Face K → Nat}

omit [Field K] [IsStrictOrderedRing K] in
theorem maxRock_le (l : List (Cell K)) (m u : K) (hm : m ≤ u) (h : ∀ c ∈ l, c.perm 0 ≤ u) :
    l.foldl (fun m c => if c.satnum > 0 then max m (c.perm 0) else m) m ≤ u := by
  induction l generalizing m with
  | nil => exact hm
  | cons c l ih =>
    rw [List.foldl_cons]
    refine ih _ ?_ fun d hd => h d (List.mem_cons_of_mem _ hd)
    split
    · exact max_le hm (h c (List.mem_cons_self ..))
    · exact hm

theorem floor_le (hv : Valid J) (kr : Nat → Fin 3 → Curve K) (s : Nat → K) {u : K} (hu : J.O.minPerm ≤ u)
    (h : ∀ c ∈ J.cells, 0 < c.satnum → (kr (rockOf c) 0).eval (s (rockOf c)) * c.perm 0 ≤ J.O.contrast * u) :
    phaseFloor J.O (J.cells.map (cellPhase J.O false kr s)) ≤ u := by
  have hcp : 0 < J.O.contrast := zero_lt_one.trans_le hv.contrast
  have hu0 : 0 < u := hv.minPerm.trans_le hu
  have hm : J.O.minPerm ≤ J.O.contrast * u := hu.trans (le_mul_of_one_le_left hu0.le hv.contrast)
  unfold phaseFloor
  refine max_le ?_ hu
  rw [div_le_iff₀ hcp, mul_comm]
  unfold maxPhase
  refine maxFold_le _ _ _ (mul_pos hcp hu0).le fun x hx => ?_
  obtain ⟨c, hc, rfl⟩ := List.mem_map.mp hx
  unfold cellPhase
  split_ifs with h0 h1
  · exact absurd h1 (by simp)
  · exact ⟨h c hc h0, fun _ => hm⟩
  · exact ⟨hm, fun _ => hm⟩

theorem grid_iso (O : Opts K) (kr : Nat → Fin 3 → Curve K) (s : Nat → K) (cells : List (Cell K)) :
    gridPerms O false kr s cells = cells.map fun c _ => max (phaseFloor O (cells.map (cellPhase O false kr s))) (cellPhase O false kr s c).1 := by
  unfold gridPerms
  simp

theorem single_iso (O : Opts K) (cells : List (Cell K)) :
    Visc.singlePerms O false cells = cells.map fun c _ => max (c.perm 0) (Visc.singleFloor O cells) := by
  unfold Visc.singlePerms
  simp

/-- The phase permeabilities of a cell add up to at most its permeability, save for what the floors add. -/
theorem cell_sum (hv : Valid J) (k1 k2 : Nat → Fin 3 → Curve K) (s : Nat → K) (n1 : ∀ r x, 0 ≤ (k1 r 0).eval x) (n2 : ∀ r x, 0 ≤ (k2 r 0).eval x)
    (hs : ∀ r x, (k1 r 0).eval x + (k2 r 0).eval x ≤ 1) {δ : K} (hδ : 0 ≤ δ)
    (hf : δ = 1 ∨ ∀ c ∈ J.cells, J.O.minPerm ≤ δ * c.perm 0 ∧ ∀ c' ∈ J.cells, c'.perm 0 ≤ δ * c.perm 0 * J.O.contrast)
    (c : Cell K) (hc : c ∈ J.cells) :
    max (phaseFloor J.O (J.cells.map (cellPhase J.O false k1 s))) (cellPhase J.O false k1 s c).1 +
      max (phaseFloor J.O (J.cells.map (cellPhase J.O false k2 s))) (cellPhase J.O false k2 s c).1 ≤
      (1 + δ) * max (c.perm 0) (Visc.singleFloor J.O J.cells) := by
  set g := max (c.perm 0) (Visc.singleFloor J.O J.cells) with hg
  have hcp : 0 < J.O.contrast := zero_lt_one.trans_le hv.contrast
  have hmg : J.O.minPerm ≤ g := (le_max_right _ _).trans (le_max_right _ _)
  have hg0 : 0 < g := hv.minPerm.trans_le hmg
  have hpg : c.perm 0 ≤ g := le_max_left _ _
  have hp := hv.perm c hc 0
  have u1 : ∀ r x, (k1 r 0).eval x ≤ 1 := fun r x => by linarith [hs r x, n2 r x]
  have u2 : ∀ r x, (k2 r 0).eval x ≤ 1 := fun r x => by linarith [hs r x, n1 r x]
  obtain ⟨M0, M1⟩ := maxSingle_ge J.cells (0 : K)
  have bound : ∀ k : Nat → Fin 3 → Curve K, (∀ r x, (k r 0).eval x ≤ 1) →
      phaseFloor J.O (J.cells.map (cellPhase J.O false k s)) ≤ g ∧ (cellPhase J.O false k s c).1 ≤ g := by
    intro k hk
    constructor
    · refine floor_le hv k s hmg fun c' hc' h0 => ?_
      refine (mul_le_of_le_one_left (hv.perm c' hc' 0) (hk _ _)).trans ((M1 c' hc' h0).trans ?_)
      rw [mul_comm, ← div_le_iff₀ hcp]
      exact (le_max_left _ _).trans (le_max_right _ _)
    · unfold cellPhase
      split_ifs with h0 h1
      · exact hmg
      · exact (mul_le_of_le_one_left hp (hk _ _)).trans hpg
      · exact hmg
  have two : max (phaseFloor J.O (J.cells.map (cellPhase J.O false k1 s))) (cellPhase J.O false k1 s c).1 +
      max (phaseFloor J.O (J.cells.map (cellPhase J.O false k2 s))) (cellPhase J.O false k2 s c).1 ≤ (1 + 1) * g := by
    have e1 := max_le (bound k1 u1).1 (bound k1 u1).2
    have e2 := max_le (bound k2 u2).1 (bound k2 u2).2
    linarith
  by_cases h1 : 1 ≤ δ
  · exact two.trans (mul_le_mul_of_nonneg_right (by linarith) hg0.le)
  · have hd := not_le.mp h1
    rcases hf with e | hf
    · exact absurd e.ge h1
    · obtain ⟨q1, q2⟩ := hf c hc
      have fl : ∀ k : Nat → Fin 3 → Curve K, (∀ r x, (k r 0).eval x ≤ 1) →
          phaseFloor J.O (J.cells.map (cellPhase J.O false k s)) ≤ δ * c.perm 0 := by
        intro k hk
        refine floor_le hv k s q1 fun c' hc' h0 => ?_
        refine (mul_le_of_le_one_left (hv.perm c' hc' 0) (hk _ _)).trans ((q2 c' hc').trans ?_)
        rw [mul_comm]
      have hdp : δ * c.perm 0 ≤ c.perm 0 := mul_le_of_le_one_left hp hd.le
      have main : max (phaseFloor J.O (J.cells.map (cellPhase J.O false k1 s))) (cellPhase J.O false k1 s c).1 +
          max (phaseFloor J.O (J.cells.map (cellPhase J.O false k2 s))) (cellPhase J.O false k2 s c).1 ≤ (1 + δ) * c.perm 0 := by
        have f1 := fl k1 u1
        have f2 := fl k2 u2
        by_cases h0 : c.satnum > 0
        · have c1 : (cellPhase J.O false k1 s c).1 = (k1 (rockOf c) 0).eval (s (rockOf c)) * c.perm 0 := by
            unfold cellPhase; rw [if_pos h0]; rfl
          have c2 : (cellPhase J.O false k2 s c).1 = (k2 (rockOf c) 0).eval (s (rockOf c)) * c.perm 0 := by
            unfold cellPhase; rw [if_pos h0]; rfl
          rw [c1, c2]
          have a1 := mul_nonneg (n1 (rockOf c) (s (rockOf c))) hp
          have a2 := mul_nonneg (n2 (rockOf c) (s (rockOf c))) hp
          have a3 := mul_le_mul_of_nonneg_right (hs (rockOf c) (s (rockOf c))) hp
          have a4 := mul_nonneg hδ hp
          rw [add_mul, one_mul] at a3
          rw [add_mul, one_mul]
          rcases max_cases (phaseFloor J.O (J.cells.map (cellPhase J.O false k1 s))) ((k1 (rockOf c) 0).eval (s (rockOf c)) * c.perm 0) with ⟨e1, _⟩ | ⟨e1, _⟩ <;>
          rcases max_cases (phaseFloor J.O (J.cells.map (cellPhase J.O false k2 s))) ((k2 (rockOf c) 0).eval (s (rockOf c)) * c.perm 0) with ⟨e2, _⟩ | ⟨e2, _⟩ <;>
          rw [e1, e2] <;> linarith
        · have c1 : (cellPhase J.O false k1 s c).1 = J.O.minPerm := by unfold cellPhase; rw [if_neg h0]
          have c2 : (cellPhase J.O false k2 s c).1 = J.O.minPerm := by unfold cellPhase; rw [if_neg h0]
          rw [c1, c2]
          have e1 := max_le f1 q1
          have e2 := max_le f2 q1
          rw [add_mul, one_mul]
          linarith
      exact main.trans (mul_le_mul_of_nonneg_left hpg (by linarith))

theorem rel_sum (hv : Valid J) (k1 k2 : Nat → Fin 3 → Curve K) (s : Nat → K) (n1 : ∀ r x, 0 ≤ (k1 r 0).eval x) (n2 : ∀ r x, 0 ≤ (k2 r 0).eval x)
    (hs : ∀ r x, (k1 r 0).eval x + (k2 r 0).eval x ≤ 1) {δ : K} (hδ : 0 ≤ δ)
    (hf : δ = 1 ∨ ∀ c ∈ J.cells, J.O.minPerm ≤ δ * c.perm 0 ∧ ∀ c' ∈ J.cells, c'.perm 0 ≤ δ * c.perm 0 * J.O.contrast)
    (i : Nat) (hi : i < J.cells.length) (d : Fin 3) :
    0 < ((gridPerms J.O false k1 s J.cells).getD i fun _ => 0) d ∧ 0 < ((gridPerms J.O false k2 s J.cells).getD i fun _ => 0) d ∧
      0 < ((Visc.singlePerms J.O false J.cells).getD i fun _ => 0) d ∧
      ((gridPerms J.O false k1 s J.cells).getD i fun _ => 0) d + ((gridPerms J.O false k2 s J.cells).getD i fun _ => 0) d ≤
        (1 + δ) * ((Visc.singlePerms J.O false J.cells).getD i fun _ => 0) d := by
  rw [grid_iso, grid_iso, single_iso]
  simp only [List.getD_eq_getElem?_getD, List.getElem?_map, List.getElem?_eq_getElem hi, Option.map_some, Option.getD_some]
  have p : ∀ k, 0 < phaseFloor J.O (J.cells.map (cellPhase J.O false k s)) := fun k => hv.minPerm.trans_le (le_max_right _ _)
  exact ⟨(p k1).trans_le (le_max_left _ _), (p k2).trans_le (le_max_left _ _),
    (show 0 < Visc.singleFloor J.O J.cells from hv.minPerm.trans_le (le_max_right _ _)).trans_le (le_max_right _ _),
    cell_sum hv k1 k2 s n1 n2 hs hδ hf _ (List.getElem_mem hi)⟩

theorem mean_unique (hv : Valid J) {v w w' : K} (h : MeanSat J v w) (h' : MeanSat J v w') : w = w' :=
  mul_right_cancel₀ hv.volume.ne' (h.trans h'.symm)

/-- **C144** The relative permeabilities of the two phases at the same ratio: if they add up to at most one in every rock, then so do the upscaled ones
(isotropic input, fixed conditions), save for what the floor on phase permeabilities adds: twice at most, and a part `δ` if all permeabilities are above
the least permeability and the allowed contrast by the factor `1 / δ`. -/
theorem C144_sum (h : Ready J lo hi side) (hv : Valid J) (hbc : J.I.bct = .fixed) (ha : J.aniso = false) (k1 k2 : Nat → Fin 3 → Curve K)
    (n1 : ∀ r d x, 0 ≤ (k1 r d).eval x) (n2 : ∀ r d x, 0 ≤ (k2 r d).eval x) (hs : ∀ r d x, (k1 r d).eval x + (k2 r d).eval x ≤ 1) (v : K) {δ : K}
    (hδ : 0 ≤ δ) (hf : δ = 1 ∨ ∀ c ∈ J.cells, J.O.minPerm ≤ δ * c.perm 0 ∧ ∀ c' ∈ J.cells, c'.perm 0 ≤ δ * c.perm 0 * J.O.contrast) :
    ∃ w, ∃ r1 r2 : Fin 3 → K, (∀ b b', point J k1 v b b' = some (w, [r1 0, r1 1, r1 2])) ∧ (∀ b b', point J k2 v b b' = some (w, [r2 0, r2 1, r2 2])) ∧
      ∀ d, 0 < r1 d ∧ 0 < r2 d ∧ r1 d + r2 d ≤ 1 + δ := by
  have u1 : UnitRange k1 := fun r d x => ⟨n1 r d x, by linarith [hs r d x, n2 r d x]⟩
  have u2 : UnitRange k2 := fun r d x => ⟨n2 r d x, by linarith [hs r d x, n1 r d x]⟩
  have hx : J.aniso = true → XLargest J := fun e => absurd (ha.symm.trans e) (by simp)
  obtain ⟨T, P1, w, r1, t1, p1, m1, q1, g1⟩ := C144_unit_partial h hv hbc hx k1 u1 v
  obtain ⟨T', P2, w', r2, t2, p2, m2, q2, g2⟩ := C144_unit_partial h hv hbc hx k2 u2 v
  have b0 : Boundary.BCs K := ⟨⟨[], []⟩, [], []⟩
  obtain rfl : T = T' := Option.some.inj ((t1 b0).symm.trans (t2 b0))
  obtain rfl : w = w' := mean_unique hv m1 m2
  refine ⟨w, r1, r2, q1, q2, fun d => ⟨(g1 d).2.1, (g2 d).2.1, ?_⟩⟩
  have rs := rel_sum hv k1 k2 (rockSats J v) (fun r => n1 r 0) (fun r => n2 r 0) (fun r => hs r 0) hδ hf
  have hl1 : (gridPerms J.O false k1 (rockSats J v) J.cells).length = J.cells.length := grid_length ..
  have hl2 : (gridPerms J.O false k2 (rockSats J v) J.cells).length = J.cells.length := grid_length ..
  have hl3 : (Visc.singlePerms J.O false J.cells).length = J.cells.length := by rw [single_iso, List.length_map]
  have i1 := indexed (gridPerms J.O false k1 (rockSats J v) J.cells)
  have i2 := indexed (gridPerms J.O false k2 (rockSats J v) J.cells)
  have i3 := indexed (Visc.singlePerms J.O false J.cells)
  rw [hl1] at i1
  rw [hl2] at i2
  rw [hl3] at i3
  have key := RelPermChain.sum_fixed (base_ready h) (List.range J.cells.length) _ _ _ (by rw [List.length_range]; exact hv.cells)
    (fun c hc d => (rs c (List.mem_range.mp hc) d).1) (fun c hc d => (rs c (List.mem_range.mp hc) d).2.1)
    (fun c hc d => (rs c (List.mem_range.mp hc) d).2.2.1) (show 0 < 1 + δ by linarith)
    (fun c hc d => (rs c (List.mem_range.mp hc) d).2.2.2) hbc P1 P2 T
    (fun b => by have := p1 b; unfold phase at this; rw [ha, i1] at this; exact this)
    (fun b => by have := p2 b; unfold phase at this; rw [ha, i2] at this; exact this)
    (fun b => by have := t1 b; unfold single at this; rw [ha, i3] at this; exact this) d
  obtain ⟨a1, b1, -⟩ := g1 d
  obtain ⟨a2, b2, -⟩ := g2 d
  have hT : 0 < T d d := by
    obtain ⟨P, T', x1, y1, -, -, le⟩ := flow2_fixed h _ _ (by rw [grid_length]; exact hv.cells)
      (grid_le_single J.O J.aniso k1 u1 (rockSats J v) J.cells hv.contrast hv.minPerm hv.perm hx) hbc
    obtain rfl : T' = T := Option.some.inj ((y1 b0).symm.trans (t1 b0))
    exact (le d).1.trans_le (le d).2
  rw [← a1, ← a2, ← add_mul] at key
  exact le_of_mul_le_mul_right key hT

/-- **C144** The same with periodic conditions, for the phase permeabilities as quadratic forms. -/
theorem C144_sum_periodic (h : Ready J lo hi side) (hv : Valid J) (hbc : J.I.bct = .periodic) (ha : J.aniso = false) (k1 k2 : Nat → Fin 3 → Curve K)
    (n1 : ∀ r d x, 0 ≤ (k1 r d).eval x) (n2 : ∀ r d x, 0 ≤ (k2 r d).eval x) (hs : ∀ r d x, (k1 r d).eval x + (k2 r d).eval x ≤ 1) (v : K) {δ : K}
    (hδ : 0 ≤ δ) (hf : δ = 1 ∨ ∀ c ∈ J.cells, J.O.minPerm ≤ δ * c.perm 0 ∧ ∀ c' ∈ J.cells, c'.perm 0 ≤ δ * c.perm 0 * J.O.contrast) :
    ∃ T P1 P2, (∀ b, single J b = some T) ∧ (∀ b, phase J k1 v b = some P1) ∧ (∀ b, phase J k2 v b = some P2) ∧
      ∀ x, Mimetic.quadForm P1 x + Mimetic.quadForm P2 x ≤ (1 + δ) * Mimetic.quadForm T x := by
  have u1 : UnitRange k1 := fun r d x => ⟨n1 r d x, by linarith [hs r d x, n2 r d x]⟩
  have u2 : UnitRange k2 := fun r d x => ⟨n2 r d x, by linarith [hs r d x, n1 r d x]⟩
  have hx : J.aniso = true → XLargest J := fun e => absurd (ha.symm.trans e) (by simp)
  obtain ⟨T, P1, w, r1, t1, p1, -⟩ := C144_periodic_partial h hv hbc hx k1 u1 v
  obtain ⟨T', P2, w', r2, t2, p2, -⟩ := C144_periodic_partial h hv hbc hx k2 u2 v
  have b0 : Boundary.BCs K := ⟨⟨[], []⟩, [], []⟩
  obtain rfl : T = T' := Option.some.inj ((t1 b0).symm.trans (t2 b0))
  have rs := rel_sum hv k1 k2 (rockSats J v) (fun r => n1 r 0) (fun r => n2 r 0) (fun r => hs r 0) hδ hf
  have hl1 : (gridPerms J.O false k1 (rockSats J v) J.cells).length = J.cells.length := grid_length ..
  have hl2 : (gridPerms J.O false k2 (rockSats J v) J.cells).length = J.cells.length := grid_length ..
  have hl3 : (Visc.singlePerms J.O false J.cells).length = J.cells.length := by rw [single_iso, List.length_map]
  have i1 := indexed (gridPerms J.O false k1 (rockSats J v) J.cells)
  have i2 := indexed (gridPerms J.O false k2 (rockSats J v) J.cells)
  have i3 := indexed (Visc.singlePerms J.O false J.cells)
  rw [hl1] at i1
  rw [hl2] at i2
  rw [hl3] at i3
  exact ⟨T, P1, P2, t1, p1, p2, RelPermChain.sum_periodic (base_ready h) (List.range J.cells.length) _ _ _ (by rw [List.length_range]; exact hv.cells)
    (fun c hc d => (rs c (List.mem_range.mp hc) d).1) (fun c hc d => (rs c (List.mem_range.mp hc) d).2.1)
    (fun c hc d => (rs c (List.mem_range.mp hc) d).2.2.1) (show 0 < 1 + δ by linarith)
    (fun c hc d => (rs c (List.mem_range.mp hc) d).2.2.2) hbc P1 P2 T
    (fun b => by have := p1 b; unfold phase at this; rw [ha, i1] at this; exact this)
    (fun b => by have := p2 b; unfold phase at this; rw [ha, i2] at this; exact this)
    (fun b => by have := t1 b; unfold single at this; rw [ha, i3] at this; exact this)⟩

/-! ### Layers -/

theorem rockSats_iso (ha : J.aniso = false) (v : K) (r : Nat) : rockSats J v r = (J.C[r]?).elim 0 fun q => Visc.Spec.rockSat false q v := by
  unfold rockSats
  rw [ha]
  rfl

/-- Without floor the phase permeabilities are those of the cells. -/
theorem grid_eq (hv : Valid J) (ha : J.aniso = false) (kr : Nat → Fin 3 → Curve K) (v : K) (hn : NoFloor J kr v) :
    gridPerms J.O J.aniso kr (rockSats J v) J.cells = (List.range J.cells.length).map fun c _ => phaseK J kr v c := by
  have hcell : ∀ x ∈ J.cells, (kr (rockOf x) 0).eval (rockSats J v (rockOf x)) * x.perm 0 = mobK J kr v x := fun x _ => by
    rw [rockSats_iso ha]; rfl
  rw [ha, grid_iso]
  apply List.ext_getElem
  · simp
  · intro i h1 h2
    have hi : i < J.cells.length := by simpa using h1
    have hm := List.getElem_mem hi
    rw [List.getElem_map, List.getElem_map, List.getElem_range]
    funext _
    unfold phaseK
    rw [List.getElem?_eq_getElem hi]
    have e : (cellPhase J.O false kr (rockSats J v) J.cells[i]).1 = mobK J kr v J.cells[i] := by
      unfold cellPhase
      rw [if_pos (hn.rock _ hm)]
      exact hcell _ hm
    rw [e]
    exact max_eq_right (floor_le hv kr _ (hn.least _ hm) fun c' hc' _ => by rw [hcell c' hc']; exact hn.phase _ hm _ hc')

theorem single_eq (hv : Valid J) (ha : J.aniso = false) (kr : Nat → Fin 3 → Curve K) (hk : UnitRange kr) (v : K) (hn : NoFloor J kr v) :
    Visc.singlePerms J.O J.aniso J.cells = (List.range J.cells.length).map fun c _ => absK J c := by
  have hcp : 0 < J.O.contrast := zero_lt_one.trans_le hv.contrast
  rw [ha, single_iso]
  apply List.ext_getElem
  · simp
  · intro i h1 h2
    have hi : i < J.cells.length := by simpa using h1
    have hm := List.getElem_mem hi
    rw [List.getElem_map, List.getElem_map, List.getElem_range]
    funext _
    unfold absK
    rw [List.getElem?_eq_getElem hi]
    have h0 := hv.perm _ hm 0
    refine max_eq_left (max_le ?_ ?_)
    · rw [div_le_iff₀ hcp, mul_comm]
      exact maxRock_le _ _ _ (mul_nonneg hcp.le h0) fun c hc => hn.single _ hm c hc
    · exact (hn.least _ hm).trans (mul_le_of_le_one_left h0 (hk _ _ _).2)

theorem absK_pos (hv : Valid J) (kr : Nat → Fin 3 → Curve K) (hk : UnitRange kr) (v : K) (hn : NoFloor J kr v) (c : Nat) (hc : c ∈ List.range J.cells.length) :
    0 < absK J c := by
  have hi := List.mem_range.mp hc
  have hm := List.getElem_mem hi
  unfold absK
  rw [List.getElem?_eq_getElem hi]
  exact hv.minPerm.trans_le ((hn.least _ hm).trans (mul_le_of_le_one_left (hv.perm _ hm 0) (hk _ _ _).2))

theorem phaseK_pos (hv : Valid J) (kr : Nat → Fin 3 → Curve K) (v : K) (hn : NoFloor J kr v) (c : Nat) (hc : c ∈ List.range J.cells.length) :
    0 < phaseK J kr v c := by
  have hi := List.mem_range.mp hc
  unfold phaseK
  rw [List.getElem?_eq_getElem hi]
  exact hv.minPerm.trans_le (hn.least _ (List.getElem_mem hi))

theorem range_getD (hv : Valid J) (c : Fin J.I.G.nc) : (List.range J.cells.length).getD c.val 0 = c.val := by
  have : c.val < J.cells.length := by rw [hv.cells]; exact c.isLt
  simp [List.getD_eq_getElem?_getD, this]

/-- **C156** (flow along layers). If rock does not change in the direction of flow, the relative permeability in that direction is
exactly the mean of those of the cells, weighted with volume times permeability. -/
theorem C156_parallel (h : Ready J lo hi side) (hv : Valid J) (hbc : J.I.bct = .fixed) (ha : J.aniso = false) (kr : Nat → Fin 3 → Curve K)
    (hk : UnitRange kr) (v : K) (hn : NoFloor J kr v) (d : Fin 3) (hlay : RelPermChain.AlongLayers J.I.G d fun c => absK J c.val)
    (hlay' : RelPermChain.AlongLayers J.I.G d fun c => phaseK J kr v c.val) :
    ∃ w, MeanSat J v w ∧ ∃ r : Fin 3 → K, (∀ b b', point J kr v b b' = some (w, [r 0, r 1, r 2])) ∧
      r d * ∑ c : Fin J.I.G.nc, (J.I.G.cell c).volume * absK J c.val = ∑ c : Fin J.I.G.nc, (J.I.G.cell c).volume * phaseK J kr v c.val := by
  obtain ⟨T, P, w, r, t1, p1, m, q1, g1⟩ := C144_unit_partial h hv hbc (fun e => absurd (ha.symm.trans e) (by simp)) kr hk v
  refine ⟨w, m, r, q1, ?_⟩
  have b0 : Boundary.BCs K := ⟨⟨[], []⟩, [], []⟩
  have hV : vol J.I ≠ 0 := (vol_pos h.tiling h.box).ne'
  have hl : (List.range J.cells.length).length = J.I.G.nc := by rw [List.length_range]; exact hv.cells
  obtain ⟨T', x1, x2⟩ := RelPermChain.flow_parallel (base_ready h) (List.range J.cells.length) (absK J) hl (absK_pos hv kr hk v hn) hbc d
    (by intro p q e1 e2 e3; simp only [base, range_getD hv]; exact hlay p q e1 e2 e3)
  obtain ⟨P', y1, y2⟩ := RelPermChain.flow_parallel (base_ready h) (List.range J.cells.length) (phaseK J kr v) hl (phaseK_pos hv kr v hn) hbc d
    (by intro p q e1 e2 e3; simp only [base, range_getD hv]; exact hlay' p q e1 e2 e3)
  rw [← single_eq hv ha kr hk v hn] at x1
  rw [← grid_eq hv ha kr v hn] at y1
  obtain rfl : T' = T := Option.some.inj ((x1 b0).symm.trans (t1 b0))
  obtain rfl : P' = P := Option.some.inj ((y1 b0).symm.trans (p1 b0))
  simp only [base, range_getD hv] at x2 y2
  have e := (g1 d).1
  rw [x2, y2, ← mul_div_assoc, div_left_inj' hV] at e
  exact e

/-- **C156** (flow across layers). If rock changes in the direction of flow only, the relative permeability in that direction is exactly
the mean resistance without the other phase over the mean resistance with it. -/
theorem C156_series (h : Ready J lo hi side) (hv : Valid J) (hbc : J.I.bct = .fixed) (ha : J.aniso = false) (kr : Nat → Fin 3 → Curve K)
    (hk : UnitRange kr) (v : K) (hn : NoFloor J kr v) (d : Fin 3) (hlay : RelPermChain.AcrossLayers J.I.G d fun c => 1 / absK J c.val)
    (hlay' : RelPermChain.AcrossLayers J.I.G d fun c => 1 / phaseK J kr v c.val) :
    ∃ w, MeanSat J v w ∧ ∃ r : Fin 3 → K, (∀ b b', point J kr v b b' = some (w, [r 0, r 1, r 2])) ∧
      r d * ∑ c : Fin J.I.G.nc, (J.I.G.cell c).volume / phaseK J kr v c.val = ∑ c : Fin J.I.G.nc, (J.I.G.cell c).volume / absK J c.val := by
  obtain ⟨T, P, w, r, t1, p1, m, q1, g1⟩ := C144_unit_partial h hv hbc (fun e => absurd (ha.symm.trans e) (by simp)) kr hk v
  refine ⟨w, m, r, q1, ?_⟩
  have b0 : Boundary.BCs K := ⟨⟨[], []⟩, [], []⟩
  have hV : vol J.I ≠ 0 := (vol_pos h.tiling h.box).ne'
  have hl : (List.range J.cells.length).length = J.I.G.nc := by rw [List.length_range]; exact hv.cells
  obtain ⟨T', x1, x2⟩ := RelPermChain.flow_series (base_ready h) (List.range J.cells.length) (absK J) hl (absK_pos hv kr hk v hn) hbc d
    (by simp only [base, range_getD hv]; exact hlay)
  obtain ⟨P', y1, y2⟩ := RelPermChain.flow_series (base_ready h) (List.range J.cells.length) (phaseK J kr v) hl (phaseK_pos hv kr v hn) hbc d
    (by simp only [base, range_getD hv]; exact hlay')
  rw [← single_eq hv ha kr hk v hn] at x1
  rw [← grid_eq hv ha kr v hn] at y1
  obtain rfl : T' = T := Option.some.inj ((x1 b0).symm.trans (t1 b0))
  obtain rfl : P' = P := Option.some.inj ((y1 b0).symm.trans (p1 b0))
  simp only [base, range_getD hv] at x2 y2
  have e := (g1 d).1
  have hT : T' d d ≠ 0 := fun h0 => hV (by rw [← x2, h0, zero_mul])
  have e2 : T' d d * (r d * ∑ c : Fin J.I.G.nc, (J.I.G.cell c).volume / phaseK J kr v c.val) =
      T' d d * ∑ c : Fin J.I.G.nc, (J.I.G.cell c).volume / absK J c.val := by
    refine Eq.trans ?_ x2.symm
    refine Eq.trans ?_ y2
    rw [← e, ← mul_assoc, mul_comm (T' d d)]
    rfl
  exact mul_left_cancel₀ hT e2

/-- **C156** (flow along layers, periodic conditions). As `C156_parallel`; moreover a pressure gradient along the layers drives no flow in
other directions. -/
theorem C156_parallel_periodic (h : Ready J lo hi side) (hv : Valid J) (hbc : J.I.bct = .periodic) (ha : J.aniso = false) (kr : Nat → Fin 3 → Curve K)
    (hk : UnitRange kr) (v : K) (hn : NoFloor J kr v) (d : Fin 3) (hlay : RelPermChain.AlongLayers J.I.G d fun c => absK J c.val)
    (hlay' : RelPermChain.AlongLayers J.I.G d fun c => phaseK J kr v c.val) (hend : RelPermChain.EndsMatch J.I.G lo hi d fun c => absK J c.val)
    (hend' : RelPermChain.EndsMatch J.I.G lo hi d fun c => phaseK J kr v c.val) :
    ∃ w, MeanSat J v w ∧ ∃ r : Fin 9 → K, (∀ b b', point J kr v b b' = some (w, List.ofFn r)) ∧
      RelPermChain.ofVoigt r d d * ∑ c : Fin J.I.G.nc, (J.I.G.cell c).volume * absK J c.val =
        ∑ c : Fin J.I.G.nc, (J.I.G.cell c).volume * phaseK J kr v c.val ∧ ∀ k, k ≠ d → RelPermChain.ofVoigt r k d = 0 := by
  obtain ⟨T, P, w, r, t1, p1, m, q1, g1, -, -, hpd, -⟩ := C144_periodic_partial h hv hbc (fun e => absurd (ha.symm.trans e) (by simp)) kr hk v
  have b0 : Boundary.BCs K := ⟨⟨[], []⟩, [], []⟩
  have hV : vol J.I ≠ 0 := (vol_pos h.tiling h.box).ne'
  have hl : (List.range J.cells.length).length = J.I.G.nc := by rw [List.length_range]; exact hv.cells
  obtain ⟨T', x1, x2, x3⟩ := RelPermChain.flow_parallel_periodic (base_ready h) (List.range J.cells.length) (absK J) hl (absK_pos hv kr hk v hn) hbc d
    (by simp only [base, range_getD hv]; exact hlay) (by simp only [base, range_getD hv]; exact hend)
  obtain ⟨P', y1, y2, y3⟩ := RelPermChain.flow_parallel_periodic (base_ready h) (List.range J.cells.length) (phaseK J kr v) hl (phaseK_pos hv kr v hn) hbc d
    (by simp only [base, range_getD hv]; exact hlay') (by simp only [base, range_getD hv]; exact hend')
  rw [← single_eq hv ha kr hk v hn] at x1
  rw [← grid_eq hv ha kr v hn] at y1
  obtain rfl : T' = T := Option.some.inj ((x1 b0).symm.trans (t1 b0))
  obtain rfl : P' = P := Option.some.inj ((y1 b0).symm.trans (p1 b0))
  simp only [base, range_getD hv] at x2 y2
  have hc := RelPermChain.column_quot r T' P' g1 d x3
  have hT : T' d d ≠ 0 := by
    intro e
    have := hpd (Pi.single d 1) ⟨d, by simp⟩
    have q : Mimetic.quadForm T' (Pi.single d 1) = T' d d := by
      unfold Mimetic.quadForm
      rw [Finset.sum_eq_single d (fun j _ hj => by simp [Pi.single_eq_of_ne hj]) (by simp),
        Finset.sum_eq_single d (fun j _ hj => by simp [Pi.single_eq_of_ne hj]) (by simp)]
      simp
    rw [q, e] at this
    linarith
  refine ⟨w, m, r, q1, ?_, fun k hk' => ?_⟩
  · have e := hc d
    rw [x2, y2, ← mul_div_assoc, div_left_inj' hV] at e
    exact e
  · have e := hc k
    rw [y3 k hk'] at e
    exact (mul_eq_zero.mp e).resolve_right hT

/-- **C156** (flow across layers, periodic conditions). -/
theorem C156_series_periodic (h : Ready J lo hi side) (hv : Valid J) (hbc : J.I.bct = .periodic) (ha : J.aniso = false) (kr : Nat → Fin 3 → Curve K)
    (hk : UnitRange kr) (v : K) (hn : NoFloor J kr v) (d : Fin 3) (hlay : RelPermChain.AcrossLayers J.I.G d fun c => 1 / absK J c.val)
    (hlay' : RelPermChain.AcrossLayers J.I.G d fun c => 1 / phaseK J kr v c.val) :
    ∃ w, MeanSat J v w ∧ ∃ r : Fin 9 → K, (∀ b b', point J kr v b b' = some (w, List.ofFn r)) ∧
      RelPermChain.ofVoigt r d d * ∑ c : Fin J.I.G.nc, (J.I.G.cell c).volume / phaseK J kr v c.val =
        ∑ c : Fin J.I.G.nc, (J.I.G.cell c).volume / absK J c.val ∧ ∀ k, k ≠ d → RelPermChain.ofVoigt r k d = 0 := by
  obtain ⟨T, P, w, r, t1, p1, m, q1, g1, -⟩ := C144_periodic_partial h hv hbc (fun e => absurd (ha.symm.trans e) (by simp)) kr hk v
  have b0 : Boundary.BCs K := ⟨⟨[], []⟩, [], []⟩
  have hV : vol J.I ≠ 0 := (vol_pos h.tiling h.box).ne'
  have hl : (List.range J.cells.length).length = J.I.G.nc := by rw [List.length_range]; exact hv.cells
  obtain ⟨T', x1, x2, x3⟩ := RelPermChain.flow_series_periodic (base_ready h) (List.range J.cells.length) (absK J) hl (absK_pos hv kr hk v hn) hbc d
    (by simp only [base, range_getD hv]; exact hlay)
  obtain ⟨P', y1, y2, y3⟩ := RelPermChain.flow_series_periodic (base_ready h) (List.range J.cells.length) (phaseK J kr v) hl (phaseK_pos hv kr v hn) hbc d
    (by simp only [base, range_getD hv]; exact hlay')
  rw [← single_eq hv ha kr hk v hn] at x1
  rw [← grid_eq hv ha kr v hn] at y1
  obtain rfl : T' = T := Option.some.inj ((x1 b0).symm.trans (t1 b0))
  obtain rfl : P' = P := Option.some.inj ((y1 b0).symm.trans (p1 b0))
  simp only [base, range_getD hv] at x2 y2
  have hc := RelPermChain.column_quot r T' P' g1 d x3
  have hT : T' d d ≠ 0 := fun h0 => hV (by rw [← x2, h0, zero_mul])
  refine ⟨w, m, r, q1, ?_, fun k hk' => ?_⟩
  · have e2 : T' d d * (RelPermChain.ofVoigt r d d * ∑ c : Fin J.I.G.nc, (J.I.G.cell c).volume / phaseK J kr v c.val) =
        T' d d * ∑ c : Fin J.I.G.nc, (J.I.G.cell c).volume / absK J c.val := by
      refine Eq.trans ?_ x2.symm
      refine Eq.trans ?_ y2
      rw [← hc d, ← mul_assoc, mul_comm (T' d d)]
      rfl
    exact mul_left_cancel₀ hT e2
  · have e := hc k
    rw [y3 k hk'] at e
    exact (mul_eq_zero.mp e).resolve_right hT

/-! ### The hypotheses are met -/

/-- Two cells of different rock side by side in the first direction, with permeabilities 1 and 2; the saturation of the first rock is the ratio, that of
the second one half of it, both limited by zero and one. -/
noncomputable def exJob2 (bct : Upscale.BCType) : Job ℚ where
  O := ⟨1 / 10 ^ 4, 1 / 10 ^ 12, 10 ^ 5, 10 ^ 7, 1 / 10 ^ 5, 1, 1, 1 / 10 ^ 12⟩
  aniso := false
  cells := [⟨1, 1 / 4, fun _ => 1, 343⟩, ⟨2, 1 / 4, fun _ => 2, 343⟩]
  C := [fun _ => ⟨[(0, 0), (1, 1)], fun x => max 0 (min 1 x)⟩, fun _ => ⟨[(0, 0), (2, 1)], fun x => max 0 (min 1 (x / 2))⟩]
  vols := [343 / 4, 343 / 4]
  I := exInput bct 0 exPerm
  invert := RelPermChain.exInvert

theorem ex2_ready (bct : Upscale.BCType) : Ready (exJob2 bct) exLo exHi exSide :=
  have h := RelPermChain.ex_ready bct false (fun _ => 1) (fun _ => 1)
  ⟨h.tiling, h.box, h.suited, h.basis, h.sort, h.solver, h.gravity, h.invert⟩

theorem ex2_valid (bct : Upscale.BCType) : Valid (exJob2 bct) where
  cells := rfl
  typed c hc := by
    rcases List.mem_cons.mp hc with rfl | hc
    · exact ⟨show (1 : Int) ≤ 2 by decide, by norm_num, by norm_num⟩
    · rw [List.mem_singleton.mp hc]
      exact ⟨show (2 : Int) ≤ 2 by decide, by norm_num, by norm_num⟩
  volume := by
    change (0 : ℚ) < [(343 : ℚ) * (1 / 4), 343 * (1 / 4)].sum
    norm_num
  vols := ⟨rfl, fun r hr => by
    have hr : r < 2 := hr
    rcases (show r = 0 ∨ r = 1 by omega) with rfl | rfl
    · change some (343 / 4 : ℚ) = some [(343 : ℚ) * (1 / 4)].sum
      norm_num
    · change some (343 / 4 : ℚ) = some [(343 : ℚ) * (1 / 4)].sum
      norm_num⟩
  perm c hc d := by
    rcases List.mem_cons.mp hc with rfl | hc
    · exact zero_le_one
    · rw [List.mem_singleton.mp hc]; exact zero_le_two
  minPerm := by change (0 : ℚ) < 1 / 10 ^ 12; norm_num
  contrast := by change (1 : ℚ) ≤ 10 ^ 7; norm_num

/-- At the ratio one half the cells have the phase permeabilities 1/4 and 1/8. -/
theorem ex2_mob (bct : Upscale.BCType) : mobK (exJob2 bct) exKr (1 / 2) ⟨1, 1 / 4, fun _ => 1, 343⟩ = 1 / 4 ∧
    mobK (exJob2 bct) exKr (1 / 2) ⟨2, 1 / 4, fun _ => 2, 343⟩ = 1 / 8 := by
  constructor
  · change (max 0 (min 1 (max 0 (min 1 (1 / 2 : ℚ))))) ^ 2 * 1 = 1 / 4
    norm_num
  · change (max 0 (min 1 (max 0 (min 1 (1 / 2 / 2 : ℚ))))) ^ 2 * 2 = 1 / 8
    norm_num

theorem ex2_noFloor (bct : Upscale.BCType) : NoFloor (exJob2 bct) exKr (1 / 2) := by
  obtain ⟨h1, h2⟩ := ex2_mob bct
  refine ⟨fun x hx => ?_, fun x hx => ?_, fun x hx x' hx' => ?_, fun x hx x' hx' => ?_⟩
  · rcases List.mem_cons.mp hx with rfl | hx
    · exact Int.one_pos
    · rw [List.mem_singleton.mp hx]; exact two_pos
  · change (1 / 10 ^ 12 : ℚ) ≤ _
    rcases List.mem_cons.mp hx with rfl | hx
    · rw [h1]; norm_num
    · rw [List.mem_singleton.mp hx, h2]; norm_num
  · change _ ≤ (10 ^ 7 : ℚ) * _
    rcases List.mem_cons.mp hx with rfl | hx <;> rcases List.mem_cons.mp hx' with rfl | hx'
    · rw [h1]; norm_num
    · rw [List.mem_singleton.mp hx', h1, h2]; norm_num
    · rw [List.mem_singleton.mp hx, h1, h2]; norm_num
    · rw [List.mem_singleton.mp hx, List.mem_singleton.mp hx', h2]; norm_num
  · change _ ≤ (10 ^ 7 : ℚ) * _
    rcases List.mem_cons.mp hx with rfl | hx <;> rcases List.mem_cons.mp hx' with rfl | hx'
    · norm_num
    · rw [List.mem_singleton.mp hx']; norm_num
    · rw [List.mem_singleton.mp hx]; norm_num
    · rw [List.mem_singleton.mp hx, List.mem_singleton.mp hx']; norm_num

theorem ex2_phase (bct : Upscale.BCType) (c : Fin 2) : phaseK (exJob2 bct) exKr (1 / 2) c.val = if c = 0 then 1 / 4 else 1 / 8 := by
  obtain ⟨h1, h2⟩ := ex2_mob bct
  fin_cases c
  · exact h1
  · exact h2

theorem ex2_abs (bct : Upscale.BCType) (c : Fin 2) : absK (exJob2 bct) c.val = if c = 0 then 1 else 2 := by
  fin_cases c <;> rfl

/-- Flow along the two cells lying side by side: the relative permeability is (1/4 + 1/8) / (1 + 2). -/
example : ∃ w, ∃ r : Fin 3 → ℚ, (∀ b b', point (exJob2 .fixed) exKr (1 / 2) b b' = some (w, [r 0, r 1, r 2])) ∧ r 2 = 1 / 8 := by
  have flat : ∀ p q : Half (exGrid false), ((exGrid false).face p).nbr = some q.1.val → ((exGrid false).face q).nbr = some p.1.val →
      ((exGrid false).face p).normal 2 ≠ 0 → p.1 = q.1 := by decide +kernel
  obtain ⟨w, -, r, h1, h2⟩ := C156_parallel (ex2_ready .fixed) (ex2_valid _) rfl rfl exKr exKr_unit (1 / 2) (ex2_noFloor _) 2
    (fun p q e1 e2 e3 => by rw [flat p q e1 e2 e3]) (fun p q e1 e2 e3 => by rw [flat p q e1 e2 e3])
  refine ⟨w, r, h1, ?_⟩
  change r 2 * ∑ c : Fin 2, (343 : ℚ) * absK (exJob2 .fixed) c.val = ∑ c : Fin 2, (343 : ℚ) * phaseK (exJob2 .fixed) exKr (1 / 2) c.val at h2
  simp only [ex2_abs, ex2_phase, Fin.sum_univ_two] at h2
  norm_num at h2
  linarith

/-- Flow from one cell to the other, with periodic conditions: (1 + 1/2) / (4 + 8). -/
example : ∃ w, ∃ r : Fin 9 → ℚ, (∀ b b', point (exJob2 .periodic) exKr (1 / 2) b b' = some (w, List.ofFn r)) ∧ RelPermChain.ofVoigt r 0 0 = 1 / 8 ∧
    RelPermChain.ofVoigt r 1 0 = 0 := by
  obtain ⟨w, -, r, h1, h2, h3⟩ := C156_series_periodic (ex2_ready .periodic) (ex2_valid _) rfl rfl exKr exKr_unit (1 / 2) (ex2_noFloor _) 0
    ⟨fun x => if x ≤ 7 then x else 7 + 1 / 2 * (x - 7), fun c : Fin 2 => if c = 0 then 3 else 17 / 2, by
      have : ∀ p : Half (exGrid true), (fun x : ℚ => if x ≤ 7 then x else 7 + 1 / 2 * (x - 7)) (((exGrid true).face p).centroid 0) =
          (fun c : Fin 2 => if c = 0 then (3 : ℚ) else 17 / 2) p.1 + (fun c : Fin 2 => if c = 0 then (1 : ℚ) else 1 / 2) p.1 *
              (((exGrid true).face p).centroid 0 - ((exGrid true).cell p.1).centroid 0) := by
        decide +kernel
      have e : ∀ c : Fin 2, (if c = 0 then (1 : ℚ) else 1 / 2) = 1 / absK (exJob2 .periodic) c.val := by
        intro c; rw [ex2_abs]; fin_cases c <;> norm_num
      intro p
      exact (this p).trans (congrArg (fun z : ℚ => _ + z * _) (e p.1))⟩
    ⟨fun x => if x ≤ 7 then 4 * x else 28 + 8 * (x - 7), fun c : Fin 2 => if c = 0 then 12 else 52, by
      have : ∀ p : Half (exGrid true), (fun x : ℚ => if x ≤ 7 then 4 * x else 28 + 8 * (x - 7)) (((exGrid true).face p).centroid 0) =
          (fun c : Fin 2 => if c = 0 then (12 : ℚ) else 52) p.1 + (fun c : Fin 2 => if c = 0 then (4 : ℚ) else 8) p.1 *
              (((exGrid true).face p).centroid 0 - ((exGrid true).cell p.1).centroid 0) := by
        decide +kernel
      have e : ∀ c : Fin 2, (if c = 0 then (4 : ℚ) else 8) = 1 / phaseK (exJob2 .periodic) exKr (1 / 2) c.val := by
        intro c; rw [ex2_phase]; fin_cases c <;> norm_num
      intro p
      exact (this p).trans (congrArg (fun z : ℚ => _ + z * _) (e p.1))⟩
  refine ⟨w, r, h1, ?_, h3 1 (by decide)⟩
  change RelPermChain.ofVoigt r 0 0 * ∑ c : Fin 2, (343 : ℚ) / phaseK (exJob2 .periodic) exKr (1 / 2) c.val =
    ∑ c : Fin 2, (343 : ℚ) / absK (exJob2 .periodic) c.val at h2
  simp only [ex2_abs, ex2_phase, Fin.sum_univ_two] at h2
  norm_num at h2
  linarith

/-- The relative permeability (1 - s)² of oil. -/
def exKro (_ : Nat) (_ : Fin 3) : Curve ℚ := ⟨[(0, 1), (1, 0)], fun s => (1 - max 0 (min 1 s)) ^ 2⟩

/-- The two phases at any ratio. -/
example (v : ℚ) : ∃ w, ∃ r1 r2 : Fin 3 → ℚ, (∀ b b', point (exJob2 .fixed) exKr v b b' = some (w, [r1 0, r1 1, r1 2])) ∧
    (∀ b b', point (exJob2 .fixed) exKro v b b' = some (w, [r2 0, r2 1, r2 2])) ∧ ∀ d, 0 < r1 d ∧ 0 < r2 d ∧ r1 d + r2 d ≤ 1 + 2 / 10 ^ 7 := by
  refine C144_sum (ex2_ready .fixed) (ex2_valid _) rfl rfl exKr exKro (fun r d x => sq_nonneg _) (fun r d x => sq_nonneg _) (fun r d x => ?_) v (by norm_num)
    (Or.inr fun c hc => ⟨?_, fun c' hc' => ?_⟩)
  · have h0 : (0 : ℚ) ≤ max 0 (min 1 x) := le_max_left _ _
    have h1 : max 0 (min 1 x) ≤ (1 : ℚ) := max_le (by norm_num) (min_le_left _ _)
    unfold exKr exKro
    dsimp only
    nlinarith
  · change (1 / 10 ^ 12 : ℚ) ≤ _
    rcases List.mem_cons.mp hc with rfl | hc
    · norm_num
    · rw [List.mem_singleton.mp hc]; norm_num
  · change _ ≤ _ * (10 ^ 7 : ℚ)
    rcases List.mem_cons.mp hc with rfl | hc <;> rcases List.mem_cons.mp hc' with rfl | hc'
    · norm_num
    · rw [List.mem_singleton.mp hc']; norm_num
    · rw [List.mem_singleton.mp hc]; norm_num
    · rw [List.mem_singleton.mp hc, List.mem_singleton.mp hc']; norm_num

end Verif.ViscChain
