import Verif.Props.ViscLayers

/-!
C157: samples in which all cells have the same relative permeability (`Verif.Model.RelPermChain`, `Verif.Model.ViscChain`).
-/

namespace Verif.RelPermChain

open Verif.RelPerm Verif.SinglePhase Verif.Dense

variable {K : Type} [Field K] [LinearOrder K] [IsStrictOrderedRing K]

variable {J : Job K} {lo hi : Fin 3 → K} {side : Boundary.Face K → Nat}

/-- Permeabilities of the cells that are multiples of others give that multiple of the upscaled permeability. -/
theorem flow_scale (h : Ready J lo hi side) (l : List Nat) (g g' : Nat → K) (hl : l.length = J.I.G.nc) (hg : ∀ c ∈ l, 0 < g c)
    (s : K) (hs : 0 < s) (he : ∀ c ∈ l, g' c = s * g c) :
    ∃ T, (∀ b, upscaleSinglePhase (setPerms J.I (l.map fun c (_ : Fin 3) => g c)) b = some T) ∧
      ∀ b, upscaleSinglePhase (setPerms J.I (l.map fun c (_ : Fin 3) => g' c)) b = some fun i j => s * T i j := by
  refine C92_scaling (I := tracer (setPerms J.I (l.map fun c (_ : Fin 3) => g c)))
    (ready_sound h l (fun c _ => g c) hl fun c hc _ => hg c hc) h.tiling h.box h.suited
    (setPerms J.I (l.map fun c (_ : Fin 3) => g' c)).perm (tracer (setPerms J.I (l.map fun c (_ : Fin 3) => g' c))).mob
    (tracer (setPerms J.I (l.map fun c (_ : Fin 3) => g' c))).rho
    (ready_sound h l (fun c _ => g' c) hl fun c hc _ => by rw [he c hc]; exact mul_pos hs (hg c hc)) s fun c i j => ?_
  obtain ⟨hm, e⟩ := setPerms_perm J.I l (fun c _ => g c) hl c
  obtain ⟨-, e'⟩ := setPerms_perm J.I l (fun c _ => g' c) hl c
  have k : (setPerms J.I (l.map fun c (_ : Fin 3) => g' c)).perm c i j =
      s * (setPerms J.I (l.map fun c (_ : Fin 3) => g c)).perm c i j := by
    rw [e, e']
    dsimp only
    split
    · exact he _ hm
    · rw [mul_zero]
  change (tracerMob (1 : K)).sum * (setPerms J.I (l.map fun c (_ : Fin 3) => g' c)).perm c i j =
    s * ((tracerMob (1 : K)).sum * (setPerms J.I (l.map fun c (_ : Fin 3) => g c)).perm c i j)
  rw [k]
  ring

/-- What is written for a tensor that is a multiple of the single phase permeability. -/
theorem relPerm_multiple (h : Ready J lo hi side) (T : Fin 3 → Fin 3 → K) (hu : IsUnit (Matrix.of T)) (r : K)
    (hf : J.I.bct = .fixed → (∀ i j, i ≠ j → T i j = 0) ∧ ∀ d, 0 < T d d) :
    relPerm J T (fun i j => r * T i j) = some (if J.I.bct = .fixed then [r, r, r] else [r, r, r, 0, 0, 0, 0, 0, 0]) := by
  have full : J.I.bct ≠ .fixed → relPerm J T (fun i j => r * T i j) = some [r, r, r, 0, 0, 0, 0, 0, 0] := by
    intro hb
    have hn : elements J.I.bct = 9 := by cases e : J.I.bct <;> first | rfl | exact absurd e hb
    obtain ⟨q, e1, e2⟩ := C69_full (J.invert (tensor T)) _ (Matrix.of T) (h.invert _ _ (tensor_rep T) hu)
      (Matrix.nonsing_inv_mul _ ((Matrix.isUnit_iff_isUnit_det _).mp hu))
      ![r * T 0 0, r * T 1 1, r * T 2 2, r * T 1 2, r * T 0 2, r * T 0 1, r * T 2 1, r * T 2 0, r * T 1 0]
    have e3 : ofVoigt q * Matrix.of T = (r • (1 : Matrix (Fin 3) (Fin 3) K)) * Matrix.of T := by
      refine Eq.trans e2 ?_
      rw [Matrix.smul_mul, Matrix.one_mul]
      ext i j
      fin_cases i <;> fin_cases j <;> rfl
    have e : ofVoigt q = r • (1 : Matrix (Fin 3) (Fin 3) K) := hu.mul_right_cancel e3
    have g : ∀ i j, ofVoigt q i j = (r • (1 : Matrix (Fin 3) (Fin 3) K)) i j := fun i j => by rw [e]
    have q0 : q 0 = r := (g 0 0).trans (by simp)
    have q1 : q 1 = r := (g 1 1).trans (by simp)
    have q2 : q 2 = r := (g 2 2).trans (by simp)
    have q3 : q 3 = 0 := (g 1 2).trans (by simp)
    have q4 : q 4 = 0 := (g 0 2).trans (by simp)
    have q5 : q 5 = 0 := (g 0 1).trans (by simp)
    have q6 : q 6 = 0 := (g 2 1).trans (by simp)
    have q7 : q 7 = 0 := (g 2 0).trans (by simp)
    have q8 : q 8 = 0 := (g 1 0).trans (by simp)
    unfold relPerm
    rw [hn]
    refine Eq.trans ?_ (e1.trans ?_)
    · change relPermRow zeroTensor (J.invert (tensor T)) 9
        [r * T 0 0, r * T 1 1, r * T 2 2, r * T 1 2, r * T 0 2, r * T 0 1, r * T 2 1, r * T 2 0, r * T 1 0] = _
      congr 1
    · rw [show List.ofFn q = [q 0, q 1, q 2, q 3, q 4, q 5, q 6, q 7, q 8] by simp [List.ofFn_succ, Fin.succ],
        q0, q1, q2, q3, q4, q5, q6, q7, q8]
  by_cases hb : J.I.bct = .fixed
  · obtain ⟨h0, hp⟩ := hf hb
    rw [if_pos hb, relPerm_fixed h hb T _ h0 hp]
    simp only [mul_div_cancel_right₀ r (hp _).ne']
  · rw [if_neg hb, full hb]

/-- The single phase permeability with fixed and periodic conditions. -/
theorem single_unit (h : Ready J lo hi side) (l : List Nat) (g : Nat → K) (hl : l.length = J.I.G.nc) (hg : ∀ c ∈ l, 0 < g c)
    (T : Fin 3 → Fin 3 → K) (hT : ∀ b, upscaleSinglePhase (setPerms J.I (l.map fun c (_ : Fin 3) => g c)) b = some T)
    (hlin : J.I.bct = .linear → IsUnit (Matrix.of T)) :
    IsUnit (Matrix.of T) ∧ (J.I.bct = .fixed → (∀ i j, i ≠ j → T i j = 0) ∧ ∀ d, 0 < T d d) := by
  have b0 : Boundary.BCs K := ⟨⟨[], []⟩, [], []⟩
  cases hb : J.I.bct with
  | linear => exact ⟨hlin hb, fun e => by simp at e⟩
  | fixed =>
    obtain ⟨_, T', _, t1, _, t0, tp⟩ := flow_fixed h l (fun c _ => g c) (fun c _ => g c) hl (fun c hc _ => hg c hc) (fun c _ _ => le_refl _) hb
    obtain rfl : T' = T := Option.some.inj ((t1 b0).symm.trans (hT b0))
    have hp : ∀ d, 0 < T' d d := fun d => (tp d).1.trans_le (tp d).2
    exact ⟨unit_posdef T' (posdef_diag T' t0 hp), fun _ => ⟨t0, hp⟩⟩
  | periodic =>
    obtain ⟨_, T', _, t1, _, _, _, t3, _⟩ := flow_periodic h l (fun c _ => g c) (fun c _ => g c) hl (fun c hc _ => hg c hc) (fun c _ _ => le_refl _) hb
    obtain rfl : T' = T := Option.some.inj ((t1 b0).symm.trans (hT b0))
    exact ⟨unit_posdef T' t3, fun e => by simp at e⟩

/-- **C157** (capillary limit). If the phase has the same relative permeability in all cells, the upscaled relative permeability is that number in all
directions and zero off the diagonal, however the permeability varies from cell to cell, for all types of boundary conditions (for linear ones the
single phase permeability must have an inverse). -/
theorem C157_capillary (h : Ready J lo hi side) (hv : Valid J) (ha : J.S.aniso = false)
    (hlin : J.I.bct = .linear → ∀ b T, single J b = some T → IsUnit (Matrix.of T))
    (kr : Fin 3 → Nat → K → K) (hk : UnitRange (kr 0)) (p : K) (s : Nat → K)
    (hs : ∀ c ∈ J.S.globalCell, RelPerm.Spec.CellSat J.S p c (s c)) (hn : NoFloor J (kr 0) s)
    (r : K) (hr : ∀ c ∈ J.S.globalCell, kr 0 (J.S.satnum c - 1).toNat (s c) = r) :
    ∃ w, RelPerm.Spec.MeanSat J.S p w ∧ ∀ b b', point J kr p b b' =
      some (w, if J.I.bct = .fixed then [r, r, r] else [r, r, r, 0, 0, 0, 0, 0, 0]) := by
  have b0 : Boundary.BCs K := ⟨⟨[], []⟩, [], []⟩
  obtain ⟨w, hw⟩ := C68_defined J.S p hv.heads hv.volume
  have hm := C68_mean J.S p w hw
  obtain ⟨q, hq, -⟩ := h.box.ne 0 (by omega)
  have hcell : ∀ c : Fin J.I.G.nc, J.S.globalCell.getD c.val 0 ∈ J.S.globalCell := fun c =>
    (setPerms_perm J.I J.S.globalCell (fun _ _ => 0) hv.cells c).1
  have hph : ∀ c : Fin J.I.G.nc, phaseK J (kr 0) s c = r * absK J c := fun c => by
    unfold phaseK; rw [hr _ (hcell c)]
  have habs : ∀ c : Fin J.I.G.nc, 0 ≤ absK J c := fun c => hv.perm _ (hcell c)
  have hr0 : 0 < r := by
    have h1 := hv.minPerm.trans_le (hn.least q.1)
    rw [hph] at h1
    exact pos_of_mul_pos_left h1 (habs _)
  obtain ⟨T, t1, t2⟩ := flow_scale h J.S.globalCell (singleK J.S J.contrast J.minPerm) (cellK J.S (kr 0) J.contrast J.minPerm s) hv.cells
    (fun c _ => singleK_pos _ _ _ hv.minPerm c) r hr0 (fun c hc => by
      obtain ⟨i, rfl⟩ := mem_getD hv.cells c hc
      rw [cellK_eq hv (kr 0) s hn, singleK_eq hv (kr 0) hk s hn, hph])
  have eT : ∀ b, single J b = some T := fun b => (single_eq ha b).trans (t1 b)
  have eP : ∀ b, phase J kr p b = some fun i j => r * T i j := fun b => (phase_eq ha kr p s (fun c hc _ => hs c hc) b).trans (t2 b)
  obtain ⟨hu, hf⟩ := single_unit h J.S.globalCell _ hv.cells (fun c _ => singleK_pos _ _ _ hv.minPerm c) T t1 fun e => hlin e b0 T (eT b0)
  refine ⟨w, hm, fun b b' => ?_⟩
  unfold point
  rw [eT b, eP b', hw]
  simp only [Option.bind_some]
  rw [relPerm_multiple h T hu r hf]
  rfl

/-- **C157** (one line of the input). If all cells have the same saturation `s` and their rocks the same relative permeability `r` there, the line of the
upscaled table is the line of the input: saturation `s`, relative permeability `r`. -/
theorem C157_capillary_line (h : Ready J lo hi side) (hv : Valid J) (ha : J.S.aniso = false)
    (hlin : J.I.bct = .linear → ∀ b T, single J b = some T → IsUnit (Matrix.of T))
    (kr : Fin 3 → Nat → K → K) (hk : UnitRange (kr 0)) (p s r : K)
    (hs : ∀ c ∈ J.S.globalCell, RelPerm.Spec.CellSat J.S p c s) (hn : NoFloor J (kr 0) fun _ => s)
    (hr : ∀ c ∈ J.S.globalCell, kr 0 (J.S.satnum c - 1).toNat s = r) (b b' : Boundary.BCs K) :
    point J kr p b b' = some (s, if J.I.bct = .fixed then [r, r, r] else [r, r, r, 0, 0, 0, 0, 0, 0]) := by
  obtain ⟨w, hm, e⟩ := C157_capillary h hv ha hlin kr hk p (fun _ => s) hs hn r hr
  have : w = s := mean_unique hm ⟨fun _ => s, fun c hc _ => hs c hc, hv.volume, (List.sum_map_mul_left ..).symm⟩
  rw [e b b', this]

/-! ### The hypotheses are met -/

/-- Two cells with permeabilities 1 and 2 and the relative permeability 1/3 at all saturations. -/
example : ∃ w, ∀ b b', point (exJob .periodic false (fun c => c + 1) fun _ => 0) (fun _ _ _ => 1 / 3) (1 / 16) b b' =
    some (w, [1 / 3, 1 / 3, 1 / 3, 0, 0, 0, 0, 0, 0]) := by
  obtain ⟨w, -, h⟩ := C157_capillary (ex_ready .periodic false (fun c => c + 1) fun _ => 0) (ex_valid _ _ _ _ fun c => by positivity) rfl
    (fun e => by cases e) (fun _ _ _ => 1 / 3) (fun _ _ => by norm_num) (1 / 16) (fun c => 3 / 4 - c / 4) (ex_sats .periodic)
    { rock := (ex_noFloor .periodic).rock
      least := by
        have : ∀ c : Fin 2, (1 / 10 ^ 12 : ℚ) ≤ 1 / 3 * (([0, 1].getD c.val 0 : Nat) + 1) := by decide +kernel
        exact this
      phase := by
        have : ∀ c c' : Fin 2, (1 / 3 : ℚ) * (([0, 1].getD c'.val 0 : Nat) + 1) ≤ 10 ^ 7 * (1 / 3 * (([0, 1].getD c.val 0 : Nat) + 1)) := by
          decide +kernel
        exact this
      single := (ex_noFloor .periodic).single } (1 / 3) (fun _ _ => rfl)
  exact ⟨w, h⟩

/-- Two equal cells at the saturation 3/4 with the curve s². -/
example (b b' : Boundary.BCs ℚ) : point (exJob .fixed false (fun _ => 1) fun _ => 0) exKr (1 / 16) b b' =
    some (3 / 4, [9 / 16, 9 / 16, 9 / 16]) := by
  refine C157_capillary_line (ex_ready .fixed false (fun _ => 1) fun _ => 0) (ex_valid _ _ _ _ fun c => by positivity) rfl
    (fun e => by cases e) exKr (exKr_unit 0) (1 / 16) (3 / 4) (9 / 16) (fun c hc => ⟨0, Or.inl ⟨rfl, rfl⟩, ?_⟩)
    { rock := fun _ _ => by change (0 : Int) < 1; decide
      least := fun _ => by
        have : (1 / 10 ^ 12 : ℚ) ≤ exKr 0 0 (3 / 4) * 1 := by decide +kernel
        exact this
      phase := fun _ _ => by
        have : exKr 0 0 (3 / 4) * 1 ≤ (10 ^ 7 : ℚ) * (exKr 0 0 (3 / 4) * 1) := by decide +kernel
        exact this
      single := fun _ _ => by
        have : (1 : ℚ) ≤ 10 ^ 7 * 1 := by norm_num
        exact this } (fun c hc => ?_) b b'
  · change (3 / 4 : ℚ) = max 0 (min 1 (1 - max 0 ((1 : ℚ) / (1 / 4)) * (1 / 16 - 0)))
    norm_num
  · change (max 0 (min 1 (3 / 4 : ℚ))) ^ 2 = 9 / 16
    norm_num

end Verif.RelPermChain

namespace Verif.ViscChain

open Verif.RelPerm Verif.SinglePhase Verif.Dense Verif.Visc

variable {K : Type} [Field K] [LinearOrder K] [IsStrictOrderedRing K]

variable {J : Job K} {lo hi : Fin 3 → K} {side : Boundary.Face K → Nat}

/-- **C157** (viscous limit). If all cells are of the same rock, every line of the upscaled table is a line of the rock's curve: the saturation of the
rock at the ratio of mobilities, and its relative permeability there, in all directions; zero off the diagonal. The permeability may vary from cell to
cell. For linear conditions the single phase permeability must have an inverse. -/
theorem C157_viscous (h : Ready J lo hi side) (hv : Valid J) (ha : J.aniso = false)
    (hlin : J.I.bct = .linear → ∀ b T, single J b = some T → IsUnit (Matrix.of T))
    (kr : Nat → Fin 3 → Curve K) (hk : UnitRange kr) (v : K) (hn : NoFloor J kr v)
    (n : Nat) (q : Fin 3 → Curve K) (hq : J.C[n]? = some q) (hone : ∀ c ∈ J.cells, c.satnum = (n : Int) + 1) (b b' : Boundary.BCs K) :
    point J kr v b b' = some ((q 0).eval v, if J.I.bct = .fixed then
      [(kr n 0).eval ((q 0).eval v), (kr n 0).eval ((q 0).eval v), (kr n 0).eval ((q 0).eval v)] else
      [(kr n 0).eval ((q 0).eval v), (kr n 0).eval ((q 0).eval v), (kr n 0).eval ((q 0).eval v), 0, 0, 0, 0, 0, 0]) := by
  have b0 : Boundary.BCs K := ⟨⟨[], []⟩, [], []⟩
  set r := (kr n 0).eval ((q 0).eval v) with hr
  have hl : (List.range J.cells.length).length = J.I.G.nc := by rw [List.length_range]; exact hv.cells
  obtain ⟨w, hw, hm⟩ := sat_of hv v
  have hnum : ∀ c ∈ J.cells, (c.satnum - 1).toNat = n := fun c hc => by rw [hone c hc]; simp
  have hws : w = (q 0).eval v := by
    refine mean_unique hv hm ?_
    unfold MeanSat
    rw [← List.sum_map_mul_left]
    congr 1
    refine List.map_congr_left fun c hc => ?_
    rw [hnum c hc, hq, ha]
    rfl
  have hmob : ∀ c ∈ J.cells, mobK J kr v c = r * c.perm 0 := fun c hc => by
    unfold mobK
    rw [hnum c hc, hq]
    rfl
  obtain ⟨y, -, -⟩ := h.box.ne 0 (by omega)
  have hr0 : 0 < r := by
    have hy : y.1.val < J.cells.length := by rw [hv.cells]; exact y.1.2
    have h1 := hv.minPerm.trans_le (hn.least _ (List.getElem_mem hy))
    rw [hmob _ (List.getElem_mem hy)] at h1
    exact pos_of_mul_pos_left h1 (hv.perm _ (List.getElem_mem hy) 0)
  obtain ⟨T, t1, t2⟩ := RelPermChain.flow_scale (base_ready h) (List.range J.cells.length) (absK J) (phaseK J kr v) hl (absK_pos hv kr hk v hn) r hr0
    (fun c hc => by
      have hc : c < J.cells.length := List.mem_range.mp hc
      unfold phaseK absK
      rw [List.getElem?_eq_getElem hc]
      exact hmob _ (List.getElem_mem hc))
  have eT : ∀ b, single J b = some T := fun b => by
    unfold single
    rw [single_eq hv ha kr hk v hn]
    exact t1 b
  have eP : ∀ b, phase J kr v b = some fun i j => r * T i j := fun b => by
    unfold phase
    rw [grid_eq hv ha kr v hn]
    exact t2 b
  obtain ⟨hu, hf⟩ := RelPermChain.single_unit (base_ready h) _ _ hl (absK_pos hv kr hk v hn) T t1 fun e => hlin e b0 T (eT b0)
  unfold point
  rw [eT b, eP b', hw, hws]
  simp only [Option.bind_some]
  rw [relPerm_eq, RelPermChain.relPerm_multiple (base_ready h) T hu r hf]
  rfl

/-! ### The hypotheses are met -/

/-- Two cells with permeabilities 1 and 2 of a rock with the curve s²; at the ratio one half the saturation is one half. -/
example (b b' : Boundary.BCs ℚ) : point (exJob .fixed false (fun _ => 1) fun _ => 2) exKr (1 / 2) b b' = some (1 / 2, [1 / 4, 1 / 4, 1 / 4]) := by
  have m1 : mobK (exJob .fixed false (fun _ => 1) fun _ => 2) exKr (1 / 2) ⟨1, 1 / 4, fun _ => 1, 343⟩ = 1 / 4 := by
    change (max 0 (min 1 (max 0 (min 1 (1 / 2 : ℚ))))) ^ 2 * 1 = 1 / 4
    norm_num
  have m2 : mobK (exJob .fixed false (fun _ => 1) fun _ => 2) exKr (1 / 2) ⟨1, 1 / 4, fun _ => 2, 343⟩ = 1 / 2 := by
    change (max 0 (min 1 (max 0 (min 1 (1 / 2 : ℚ))))) ^ 2 * 2 = 1 / 2
    norm_num
  refine (C157_viscous (ex_ready .fixed false (fun _ => 1) fun _ => 2) (ex_valid _ _ _ _ (fun _ => by norm_num) fun _ => by norm_num) rfl
    (fun e => by cases e) exKr exKr_unit (1 / 2) ⟨fun x hx => ?_, fun x hx => ?_, fun x hx x' hx' => ?_, fun x hx x' hx' => ?_⟩ 0
    (fun _ => ⟨[(0, 0), (1, 1)], fun x => max 0 (min 1 x)⟩) rfl (fun x hx => ?_) b b').trans ?_
  · rcases List.mem_cons.mp hx with rfl | hx
    · exact Int.one_pos
    · rw [List.mem_singleton.mp hx]; exact Int.one_pos
  · change (1 / 10 ^ 12 : ℚ) ≤ _
    rcases List.mem_cons.mp hx with rfl | hx
    · rw [m1]; norm_num
    · rw [List.mem_singleton.mp hx, m2]; norm_num
  · change _ ≤ (10 ^ 7 : ℚ) * _
    rcases List.mem_cons.mp hx with rfl | hx <;> rcases List.mem_cons.mp hx' with rfl | hx'
    · rw [m1]; norm_num
    · rw [List.mem_singleton.mp hx', m1, m2]; norm_num
    · rw [List.mem_singleton.mp hx, m1, m2]; norm_num
    · rw [List.mem_singleton.mp hx, List.mem_singleton.mp hx', m2]; norm_num
  · change _ ≤ (10 ^ 7 : ℚ) * _
    rcases List.mem_cons.mp hx with rfl | hx <;> rcases List.mem_cons.mp hx' with rfl | hx'
    · norm_num
    · rw [List.mem_singleton.mp hx']; norm_num
    · rw [List.mem_singleton.mp hx]; norm_num
    · rw [List.mem_singleton.mp hx, List.mem_singleton.mp hx']; norm_num
  · rcases List.mem_cons.mp hx with rfl | hx
    · rfl
    · rw [List.mem_singleton.mp hx]; rfl
  · have e : (max 0 (min 1 (1 / 2 : ℚ))) = 1 / 2 := by norm_num
    have e' : (exKr 0 0).eval (1 / 2) = (1 / 4 : ℚ) := by
      change (max 0 (min 1 (1 / 2 : ℚ))) ^ 2 = 1 / 4
      norm_num
    dsimp only
    rw [e, e']
    rfl

end Verif.ViscChain
