import Verif.Props.RelPermChainAniso
import Verif.Props.Superadditive

/-!
C143: the relative permeabilities of two phases at the same point.
-/

namespace Verif.RelPermChain

open Verif.RelPerm Verif.SinglePhase

variable {K : Type} [Field K] [LinearOrder K] [IsStrictOrderedRing K]

variable {J : Job K} {lo hi : Fin 3 → K} {side : Boundary.Face K → Nat}

theorem cond_tracer (I : Input K) (l : List Nat) (g : Nat → Fin 3 → K) (hl : l.length = I.G.nc) (c : Fin I.G.nc) (x : Fin 3 → K) :
    Mimetic.quadForm (SinglePhase.cond (tracer (setPerms I (l.map g))) c) x = ∑ i, g (l.getD c.val 0) i * x i ^ 2 := by
  have e : SinglePhase.cond (tracer (setPerms I (l.map g))) c = (setPerms I (l.map g)).perm c :=
    funext fun i => funext fun j => tracer_cond (setPerms I (l.map g)) c i j
  rw [e, (setPerms_perm I l g hl c).2, quad_diag]

theorem parts_le (I : Input K) (l : List Nat) (f1 f2 g : Nat → Fin 3 → K) (hl : l.length = I.G.nc) (hs : ∀ c ∈ l, ∀ d, f1 c d + f2 c d ≤ g c d) (c : Fin I.G.nc) (x : Fin 3 → K) :
    (tracerMob (1 : K)).sum * Mimetic.quadForm ((setPerms I (l.map f1)).perm c) x + (tracerMob (1 : K)).sum * Mimetic.quadForm ((setPerms I (l.map f2)).perm c) x ≤
      Mimetic.quadForm (SinglePhase.cond (tracer (setPerms I (l.map g))) c) x := by
  have e1 : (tracerMob (1 : K)).sum = 1 := by simp [tracerMob]
  obtain ⟨hm, h1⟩ := setPerms_perm I l f1 hl c
  obtain ⟨_, h2⟩ := setPerms_perm I l f2 hl c
  rw [cond_tracer I l g hl, e1, one_mul, one_mul, h1, h2, quad_diag, quad_diag, ← Finset.sum_add_distrib]
  refine Finset.sum_le_sum fun i _ => ?_
  rw [← add_mul]
  exact mul_le_mul_of_nonneg_right (hs _ hm i) (sq_nonneg _)

/-- A multiple of all permeabilities. -/
theorem flow_scaled (h : Ready J lo hi side) (l : List Nat) (g : Nat → Fin 3 → K) (hl : l.length = J.I.G.nc) (hg : ∀ c ∈ l, ∀ d, 0 < g c d) {a : K} (ha : 0 < a) :
    ∃ T, (∀ b, upscaleSinglePhase (setPerms J.I (l.map g)) b = some T) ∧ ∀ b, upscaleSinglePhase (setPerms J.I (l.map fun c d => a * g c d)) b = some fun i j => a * T i j := by
  have sg := ready_sound h l g hl hg
  have sa := ready_sound h l (fun c d => a * g c d) hl fun c hc d => mul_pos ha (hg c hc d)
  obtain ⟨T, h1, h2⟩ := C92_scaling sg h.tiling h.box h.suited (tracer (setPerms J.I (l.map fun c d => a * g c d))).perm (fun _ => tracerMob 1) (fun _ => tracerRho) sa a (by
    intro c i j
    change _ * (setPerms J.I (l.map fun c d => a * g c d)).perm c i j = a * (_ * (setPerms J.I (l.map g)).perm c i j)
    rw [(setPerms_perm J.I l _ hl c).2, (setPerms_perm J.I l g hl c).2]
    have e1 : (tracerMob (1 : K)).sum = 1 := by simp [tracerMob]
    change (tracerMob (1 : K)).sum * _ = a * ((tracerMob (1 : K)).sum * _)
    rw [e1]
    dsimp only
    split <;> ring)
  exact ⟨T, h1, h2⟩

theorem sum_fixed (h : Ready J lo hi side) (l : List Nat) (f1 f2 g : Nat → Fin 3 → K) (hl : l.length = J.I.G.nc) (h1 : ∀ c ∈ l, ∀ d, 0 < f1 c d) (h2 : ∀ c ∈ l, ∀ d, 0 < f2 c d)
    (hg : ∀ c ∈ l, ∀ d, 0 < g c d) {a : K} (ha : 0 < a) (hs : ∀ c ∈ l, ∀ d, f1 c d + f2 c d ≤ a * g c d) (hbc : J.I.bct = .fixed) (P1 P2 T : Fin 3 → Fin 3 → K)
    (e1 : ∀ b, upscaleSinglePhase (setPerms J.I (l.map f1)) b = some P1) (e2 : ∀ b, upscaleSinglePhase (setPerms J.I (l.map f2)) b = some P2)
    (eT : ∀ b, upscaleSinglePhase (setPerms J.I (l.map g)) b = some T) (d : Fin 3) : P1 d d + P2 d d ≤ a * T d d := by
  have b0 : Boundary.BCs K := ⟨⟨[], []⟩, [], []⟩
  obtain ⟨T', t1, t2⟩ := flow_scaled h l g hl hg ha
  obtain rfl : T' = T := Option.some.inj ((t1 b0).symm.trans (eT b0))
  have sa := ready_sound h l (fun c d => a * g c d) hl fun c hc d => mul_pos ha (hg c hc d)
  obtain ⟨Ta, A1, A2, q1, q2, q3, q4⟩ := C92_parts_fixed (I := tracer (setPerms J.I (l.map fun c d => a * g c d))) sa h.tiling h.box h.suited hbc
    (p1 := (tracer (setPerms J.I (l.map f1))).perm) (m1 := fun _ => tracerMob 1) (r1 := fun _ => tracerRho)
    (p2 := (tracer (setPerms J.I (l.map f2))).perm) (m2 := fun _ => tracerMob 1) (r2 := fun _ => tracerRho)
    (ready_sound h l f1 hl h1) (ready_sound h l f2 hl h2) (parts_le J.I l f1 f2 (fun c d => a * g c d) hl hs)
  obtain rfl : A1 = P1 := Option.some.inj ((q2 b0).symm.trans (e1 b0))
  obtain rfl : A2 = P2 := Option.some.inj ((q3 b0).symm.trans (e2 b0))
  have e : Ta = fun i j => a * T' i j := Option.some.inj ((q1 b0).symm.trans (t2 b0))
  have := q4 d
  rw [e] at this
  exact this

theorem sum_periodic (h : Ready J lo hi side) (l : List Nat) (f1 f2 g : Nat → Fin 3 → K) (hl : l.length = J.I.G.nc) (h1 : ∀ c ∈ l, ∀ d, 0 < f1 c d) (h2 : ∀ c ∈ l, ∀ d, 0 < f2 c d)
    (hg : ∀ c ∈ l, ∀ d, 0 < g c d) {a : K} (ha : 0 < a) (hs : ∀ c ∈ l, ∀ d, f1 c d + f2 c d ≤ a * g c d) (hbc : J.I.bct = .periodic) (P1 P2 T : Fin 3 → Fin 3 → K)
    (e1 : ∀ b, upscaleSinglePhase (setPerms J.I (l.map f1)) b = some P1) (e2 : ∀ b, upscaleSinglePhase (setPerms J.I (l.map f2)) b = some P2)
    (eT : ∀ b, upscaleSinglePhase (setPerms J.I (l.map g)) b = some T) (x : Fin 3 → K) : Mimetic.quadForm P1 x + Mimetic.quadForm P2 x ≤ a * Mimetic.quadForm T x := by
  have b0 : Boundary.BCs K := ⟨⟨[], []⟩, [], []⟩
  obtain ⟨T', t1, t2⟩ := flow_scaled h l g hl hg ha
  obtain rfl : T' = T := Option.some.inj ((t1 b0).symm.trans (eT b0))
  have sa := ready_sound h l (fun c d => a * g c d) hl fun c hc d => mul_pos ha (hg c hc d)
  obtain ⟨Ta, A1, A2, q1, q2, q3, q4⟩ := C92_parts_periodic (I := tracer (setPerms J.I (l.map fun c d => a * g c d))) sa h.tiling h.box h.suited hbc
    (p1 := (tracer (setPerms J.I (l.map f1))).perm) (m1 := fun _ => tracerMob 1) (r1 := fun _ => tracerRho)
    (p2 := (tracer (setPerms J.I (l.map f2))).perm) (m2 := fun _ => tracerMob 1) (r2 := fun _ => tracerRho)
    (ready_sound h l f1 hl h1) (ready_sound h l f2 hl h2) (parts_le J.I l f1 f2 (fun c d => a * g c d) hl hs)
  obtain rfl : A1 = P1 := Option.some.inj ((q2 b0).symm.trans (e1 b0))
  obtain rfl : A2 = P2 := Option.some.inj ((q3 b0).symm.trans (e2 b0))
  have e : Ta = fun i j => a * T' i j := Option.some.inj ((q1 b0).symm.trans (t2 b0))
  have := q4 x
  rw [e] at this
  have e5 : Mimetic.quadForm (fun i j => a * T' i j) x = a * Mimetic.quadForm T' x := by
    unfold Mimetic.quadForm
    rw [Finset.mul_sum]
    refine Finset.sum_congr rfl fun i _ => ?_
    rw [Finset.mul_sum]
    exact Finset.sum_congr rfl fun j _ => by ring
  rw [e5] at this
  exact this

/-- Floors of the phases are at most that of the single phase calculation. -/
theorem cellK_le_floor (S : Sys K) (kr : Nat → K → K) (contrast minPerm : K) (s : Nat → K) (hc : 1 ≤ contrast) (hmin : 0 < minPerm)
    (hr : ∀ c ∈ S.globalCell, 0 < S.satnum c → raw S kr s c ≤ S.permx c) (c : Nat) : cellK S kr contrast minPerm s c ≤ max (singleFloor S contrast minPerm) (raw S kr s c) := by
  have ht := top_le_single S kr minPerm s S.globalCell hr 0 0 (le_max_left _ _)
  have hcp : 0 < contrast := zero_lt_one.trans_le hc
  have hfl : top S kr minPerm s 0 S.globalCell / contrast ≤ singleFloor S contrast minPerm := by
    unfold singleFloor
    rw [div_le_iff₀ hcp]
    refine ht.trans (max_le ?_ ?_)
    · rw [← div_le_iff₀ hcp]; exact le_max_left _ _
    · calc minPerm ≤ max (S.globalCell.foldl (maxSingle S) 0 / contrast) minPerm := le_max_right _ _
        _ ≤ _ := le_mul_of_one_le_right (hmin.le.trans (le_max_right _ _)) hc
  unfold cellK
  exact max_le_max (max_le hfl (le_max_right _ _)) (le_refl _)

theorem maxSingle_le (S : Sys K) (l : List Nat) (m u : K) (hm : m ≤ u) (h : ∀ c ∈ l, S.permx c ≤ u) : l.foldl (maxSingle S) m ≤ u := by
  induction l generalizing m with
  | nil => exact hm
  | cons c l ih =>
    rw [List.foldl_cons]
    refine ih _ ?_ fun d hd => h d (List.mem_cons_of_mem _ hd)
    unfold maxSingle
    split
    · exact max_le hm (h c (List.mem_cons_self ..))
    · exact hm

/-- The two phases together conduct at most what the single phase does, save for the floor. -/
theorem cells_sum (S : Sys K) (k1 k2 : Nat → K → K) (contrast minPerm δ : K) (s : Nat → K) (hc : 1 ≤ contrast) (hmin : 0 < minPerm) (hp : ∀ c ∈ S.globalCell, 0 ≤ S.permx c)
    (n1 : ∀ r x, 0 ≤ k1 r x) (n2 : ∀ r x, 0 ≤ k2 r x) (h : ∀ r x, k1 r x + k2 r x ≤ 1) (hδ : 0 ≤ δ)
    (hf : δ = 1 ∨ ∀ c ∈ S.globalCell, minPerm ≤ δ * S.permx c ∧ ∀ c' ∈ S.globalCell, S.permx c' ≤ δ * S.permx c * contrast)
    (c : Nat) (hm : c ∈ S.globalCell) : cellK S k1 contrast minPerm s c + cellK S k2 contrast minPerm s c ≤ (1 + δ) * singleK S contrast minPerm c := by
  have hr1 : ∀ c ∈ S.globalCell, 0 < S.satnum c → raw S k1 s c ≤ S.permx c := fun c hc hs => by
    unfold raw; rw [if_pos hs]; exact mul_le_of_le_one_left (hp c hc) (by linarith [h (S.satnum c - 1).toNat (s c), n2 (S.satnum c - 1).toNat (s c)])
  have hr2 : ∀ c ∈ S.globalCell, 0 < S.satnum c → raw S k2 s c ≤ S.permx c := fun c hc hs => by
    unfold raw; rw [if_pos hs]; exact mul_le_of_le_one_left (hp c hc) (by linarith [h (S.satnum c - 1).toNat (s c), n1 (S.satnum c - 1).toNat (s c)])
  have e1 := cellK_le_floor S k1 contrast minPerm s hc hmin hr1 c
  have e2 := cellK_le_floor S k2 contrast minPerm s hc hmin hr2 c
  have hcp : 0 < contrast := zero_lt_one.trans_le hc
  have hfl : 0 ≤ singleFloor S contrast minPerm := hmin.le.trans (le_max_right _ _)
  have hraw : 0 ≤ raw S k1 s c ∧ 0 ≤ raw S k2 s c ∧ raw S k1 s c + raw S k2 s c ≤ S.permx c := by
    unfold raw
    split
    · refine ⟨mul_nonneg (n1 _ _) (hp c hm), mul_nonneg (n2 _ _) (hp c hm), ?_⟩
      rw [← add_mul]; exact mul_le_of_le_one_left (hp c hm) (h _ _)
    · exact ⟨le_refl _, le_refl _, by rw [add_zero]; exact hp c hm⟩
  have hsum : cellK S k1 contrast minPerm s c + cellK S k2 contrast minPerm s c ≤ singleK S contrast minPerm c + singleFloor S contrast minPerm := by
    have k1' : S.permx c ≤ singleK S contrast minPerm c := le_max_left _ _
    have k2' : singleFloor S contrast minPerm ≤ singleK S contrast minPerm c := le_max_right _ _
    obtain ⟨r1, r2, r3⟩ := hraw
    rcases le_total (singleFloor S contrast minPerm) (raw S k1 s c) with a | a <;> rcases le_total (singleFloor S contrast minPerm) (raw S k2 s c) with b | b
    · rw [max_eq_right a] at e1; rw [max_eq_right b] at e2; linarith
    · rw [max_eq_right a] at e1; rw [max_eq_left b] at e2; linarith
    · rw [max_eq_left a] at e1; rw [max_eq_right b] at e2; linarith
    · rw [max_eq_left a] at e1; rw [max_eq_left b] at e2; linarith
  have hsm : singleFloor S contrast minPerm ≤ δ * singleK S contrast minPerm c := by
    rcases hf with rfl | hf
    · rw [one_mul]; exact le_max_right _ _
    · refine le_trans ?_ (mul_le_mul_of_nonneg_left (le_max_left _ _) hδ)
      obtain ⟨f1, f2⟩ := hf c hm
      refine max_le ?_ f1
      rw [div_le_iff₀ hcp]
      exact maxSingle_le S _ _ _ (mul_nonneg (mul_nonneg hδ (hp c hm)) hcp.le) f2
  linarith

/-- **C143** The relative permeabilities of the two phases at the same point: if they add up to at most one in every rock, then so do the upscaled ones (isotropic input, fixed conditions), save for what
the floor on phase permeabilities adds: twice at most, and a part `δ` if all permeabilities are above the least permeability and the allowed contrast by the factor `1 / δ`. -/
theorem C143_sum (h : Ready J lo hi side) (hv : Valid J) (hbc : J.I.bct = .fixed) (ha : J.S.aniso = false) (k1 k2 : Fin 3 → Nat → K → K) (n1 : ∀ r x, 0 ≤ k1 0 r x) (n2 : ∀ r x, 0 ≤ k2 0 r x)
    (hs : ∀ r x, k1 0 r x + k2 0 r x ≤ 1) (p : K) {δ : K} (hδ : 0 ≤ δ)
    (hf : δ = 1 ∨ ∀ c ∈ J.S.globalCell, J.minPerm ≤ δ * J.S.permx c ∧ ∀ c' ∈ J.S.globalCell, J.S.permx c' ≤ δ * J.S.permx c * J.contrast) :
    ∃ w, ∃ r1 r2 : Fin 3 → K, (∀ b b', point J k1 p b b' = some (w, [r1 0, r1 1, r1 2])) ∧ (∀ b b', point J k2 p b b' = some (w, [r2 0, r2 1, r2 2])) ∧
      ∀ d, 0 < r1 d ∧ 0 < r2 d ∧ r1 d + r2 d ≤ 1 + δ := by
  obtain ⟨hd, hsat⟩ := heads_of hv
  have u1 : UnitRange (k1 0) := fun r x => ⟨n1 r x, by linarith [hs r x, n2 r x]⟩
  have u2 : UnitRange (k2 0) := fun r x => ⟨n2 r x, by linarith [hs r x, n1 r x]⟩
  obtain ⟨T, P1, w, r1, t1, p1, m1, q1, g1⟩ := C143_unit h hv hbc ha k1 u1 p
  obtain ⟨T', P2, w', r2, t2, p2, m2, q2, g2⟩ := C143_unit h hv hbc ha k2 u2 p
  have b0 : Boundary.BCs K := ⟨⟨[], []⟩, [], []⟩
  obtain rfl : T = T' := Option.some.inj ((t1 b0).symm.trans (t2 b0))
  obtain rfl : w = w' := mean_unique m1 m2
  refine ⟨w, r1, r2, q1, q2, fun d => ⟨(g1 d).2.1, (g2 d).2.1, ?_⟩⟩
  have key := sum_fixed h J.S.globalCell (fun c _ => cellK J.S (k1 0) J.contrast J.minPerm (sats J.S hd p) c) (fun c _ => cellK J.S (k2 0) J.contrast J.minPerm (sats J.S hd p) c)
    (fun c _ => singleK J.S J.contrast J.minPerm c) hv.cells (fun c _ _ => cellK_pos _ _ _ _ _ hv.minPerm c) (fun c _ _ => cellK_pos _ _ _ _ _ hv.minPerm c)
    (fun c _ _ => singleK_pos _ _ _ hv.minPerm c) (show 0 < 1 + δ by linarith)
    (fun c hc _ => cells_sum J.S (k1 0) (k2 0) J.contrast J.minPerm δ _ hv.contrast hv.minPerm hv.perm n1 n2 hs hδ hf c hc) hbc P1 P2 T
    (fun b => (phase_eq ha k1 p _ (hsat p) b).symm.trans (p1 b)) (fun b => (phase_eq ha k2 p _ (hsat p) b).symm.trans (p2 b)) (fun b => (single_eq ha b).symm.trans (t1 b)) d
  obtain ⟨a1, b1, -⟩ := g1 d
  obtain ⟨a2, b2, -⟩ := g2 d
  have hT : 0 < T d d := by
    have hP : 0 < P1 d d := by
      obtain ⟨P, _, x1, -, -, -, x2⟩ := flow_fixed h J.S.globalCell (fun c (_ : Fin 3) => cellK J.S (k1 0) J.contrast J.minPerm (sats J.S hd p) c) _ hv.cells
        (fun c _ _ => cellK_pos _ _ _ _ _ hv.minPerm c) (fun _ _ _ => le_refl _) hbc
      have : P = P1 := Option.some.inj ((x1 b0).symm.trans ((phase_eq ha k1 p _ (hsat p) b0).symm.trans (p1 b0)))
      rw [← this]; exact (x2 d).1
    by_contra hn
    have := mul_nonpos_of_nonneg_of_nonpos b1.le (not_lt.1 hn)
    rw [a1] at this
    exact absurd hP (not_lt.2 this)
  rw [← a1, ← a2, ← add_mul] at key
  exact le_of_mul_le_mul_right key hT

/-- **C143** The same with periodic conditions, for the phase permeabilities as quadratic forms. -/
theorem C143_sum_periodic (h : Ready J lo hi side) (hv : Valid J) (hbc : J.I.bct = .periodic) (ha : J.S.aniso = false) (k1 k2 : Fin 3 → Nat → K → K) (n1 : ∀ r x, 0 ≤ k1 0 r x)
    (n2 : ∀ r x, 0 ≤ k2 0 r x) (hs : ∀ r x, k1 0 r x + k2 0 r x ≤ 1) (p : K) {δ : K} (hδ : 0 ≤ δ)
    (hf : δ = 1 ∨ ∀ c ∈ J.S.globalCell, J.minPerm ≤ δ * J.S.permx c ∧ ∀ c' ∈ J.S.globalCell, J.S.permx c' ≤ δ * J.S.permx c * J.contrast) :
    ∃ T P1 P2, (∀ b, single J b = some T) ∧ (∀ b, phase J k1 p b = some P1) ∧ (∀ b, phase J k2 p b = some P2) ∧
      ∀ x, Mimetic.quadForm P1 x + Mimetic.quadForm P2 x ≤ (1 + δ) * Mimetic.quadForm T x := by
  obtain ⟨hd, hsat⟩ := heads_of hv
  have u1 : UnitRange (k1 0) := fun r x => ⟨n1 r x, by linarith [hs r x, n2 r x]⟩
  have u2 : UnitRange (k2 0) := fun r x => ⟨n2 r x, by linarith [hs r x, n1 r x]⟩
  obtain ⟨T, P1, w, r1, t1, p1, -⟩ := C143_periodic h hv hbc ha k1 u1 p
  obtain ⟨T', P2, w', r2, t2, p2, -⟩ := C143_periodic h hv hbc ha k2 u2 p
  have b0 : Boundary.BCs K := ⟨⟨[], []⟩, [], []⟩
  obtain rfl : T = T' := Option.some.inj ((t1 b0).symm.trans (t2 b0))
  exact ⟨T, P1, P2, t1, p1, p2, sum_periodic h J.S.globalCell (fun c _ => cellK J.S (k1 0) J.contrast J.minPerm (sats J.S hd p) c) (fun c _ => cellK J.S (k2 0) J.contrast J.minPerm (sats J.S hd p) c)
    (fun c _ => singleK J.S J.contrast J.minPerm c) hv.cells (fun c _ _ => cellK_pos _ _ _ _ _ hv.minPerm c) (fun c _ _ => cellK_pos _ _ _ _ _ hv.minPerm c)
    (fun c _ _ => singleK_pos _ _ _ hv.minPerm c) (show 0 < 1 + δ by linarith)
    (fun c hc _ => cells_sum J.S (k1 0) (k2 0) J.contrast J.minPerm δ _ hv.contrast hv.minPerm hv.perm n1 n2 hs hδ hf c hc) hbc P1 P2 T
    (fun b => (phase_eq ha k1 p _ (hsat p) b).symm.trans (p1 b)) (fun b => (phase_eq ha k2 p _ (hsat p) b).symm.trans (p2 b)) (fun b => (single_eq ha b).symm.trans (t1 b))⟩

/-- The relative permeability (1 - s)² of oil. -/
def exKro (_ : Fin 3) (_ : Nat) (s : ℚ) : ℚ := (1 - max 0 (min 1 s)) ^ 2

/-- Two different cells at any pressure, with a contrast of two of permeabilities and an allowed one of ten millions. -/
example (p : ℚ) : ∃ w, ∃ r1 r2 : Fin 3 → ℚ, (∀ b b', point (exJob .fixed false (fun c => c + 1) fun _ => 0) exKr p b b' = some (w, [r1 0, r1 1, r1 2])) ∧
    (∀ b b', point (exJob .fixed false (fun c => c + 1) fun _ => 0) exKro p b b' = some (w, [r2 0, r2 1, r2 2])) ∧ ∀ d, 0 < r1 d ∧ 0 < r2 d ∧ r1 d + r2 d ≤ 1 + 2 / 10 ^ 7 := by
  refine C143_sum (ex_ready .fixed false (fun c => c + 1) fun _ => 0) (ex_valid _ _ _ _ fun c => by positivity) rfl rfl exKr exKro (fun r x => sq_nonneg _) (fun r x => sq_nonneg _)
    (fun r x => ?_) p (by norm_num) (Or.inr fun c hc => ⟨?_, fun c' hc' => ?_⟩)
  · have h0 : (0 : ℚ) ≤ max 0 (min 1 x) := le_max_left _ _
    have h1 : max 0 (min 1 x) ≤ (1 : ℚ) := max_le (by norm_num) (min_le_left _ _)
    unfold exKr exKro
    nlinarith
  · have hc : c = 0 ∨ c = 1 := by simpa [exJob] using hc
    change (1 : ℚ) / 10 ^ 12 ≤ 2 / 10 ^ 7 * ((c : ℚ) + 1)
    rcases hc with rfl | rfl <;> norm_num
  · have hc : c = 0 ∨ c = 1 := by simpa [exJob] using hc
    have hc' : c' = 0 ∨ c' = 1 := by simpa [exJob] using hc'
    change ((c' : ℚ) + 1) ≤ 2 / 10 ^ 7 * ((c : ℚ) + 1) * 10 ^ 7
    rcases hc with rfl | rfl <;> rcases hc' with rfl | rfl <;> norm_num

end Verif.RelPermChain
