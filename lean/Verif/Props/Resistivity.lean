import Verif.Spec.Resistivity
import Verif.Props.Collect
import Verif.Props.RelPerm
import Verif.Props.PcSampling
import Verif.Props.SinglePhase
import Mathlib.Analysis.SpecialFunctions.Pow.Real
import Mathlib.Tactic

/-!
C111: resistivity upscaling (`upscale_cond`).
-/

namespace Verif.Resist

open Verif.Resist.Spec Verif.RelPerm Verif.Upscale Verif.Collect

section
variable {K : Type} [Field K] [LinearOrder K] [IsStrictOrderedRing K]

/-! ### The check of the input -/

omit [IsStrictOrderedRing K] in
/-- **C111.** With sensible limits a cell is accepted exactly if its rock type is 0 to 1000, its porosity between 0 and 1 and its
permeability not negative. -/
theorem C111_check (O : Opts K) (c : Cell K) (h0 : 0 ≤ O.minPoro) (h1 : O.minPoro ≤ 1) (h2 : 0 ≤ O.minPerm) :
    (∃ d, check O c = some d) ↔ 0 ≤ c.satnum ∧ c.satnum ≤ 1000 ∧ 0 ≤ c.poro ∧ c.poro ≤ 1 ∧ 0 ≤ c.perm := by
  constructor
  · rintro ⟨d, h⟩
    unfold check at h
    split at h
    · cases h
    · rename_i hs
      push Not at hs
      split at h
      · cases h
      · rename_i hp
        push Not at hp
        split at h
        · cases h
        · rename_i hk
          push Not at hk
          unfold raisePoro at hp
          unfold raisePerm at hk
          refine ⟨hs.1, hs.2, ?_, ?_, ?_⟩
          · by_contra hn
            rw [if_neg (fun hh => hn hh.1)] at hp
            exact hn hp.1
          · by_cases hh : 0 ≤ c.poro ∧ c.poro < O.minPoro
            · exact hh.2.le.trans h1
            · rw [if_neg hh] at hp
              exact hp.2
          · by_cases hh : c.perm = 0
            · exact hh.ge
            · rw [if_neg hh] at hk
              exact hk
  · rintro ⟨a, b, p0, p1, k0⟩
    have n1 : ¬ (c.satnum < 0 ∨ c.satnum > 1000) := by omega
    have n2 : ¬ (raisePoro O c.poro < 0 ∨ raisePoro O c.poro > 1) := by
      unfold raisePoro
      push Not
      split
      · exact ⟨h0, h1⟩
      · exact ⟨p0, p1⟩
    have n3 : ¬ raisePerm O c.perm < 0 := by
      unfold raisePerm
      push Not
      split
      · exact h2
      · exact k0
    unfold check
    rw [if_neg n1, if_neg n2, if_neg n3]
    split
    · exact ⟨_, rfl⟩
    · exact ⟨_, rfl⟩

omit [IsStrictOrderedRing K] in
/-- **C111.** What an accepted cell becomes: rock has at least the minimal porosity, and the minimal permeability instead of zero; no rock has
porosity zero and the minimal permeability; all else is kept. -/
theorem C111_accepted (O : Opts K) (c d : Cell K) (h : check O c = some d) :
    d.satnum = c.satnum ∧ d.vol = c.vol ∧
    (0 < c.satnum → d.poro = max O.minPoro c.poro ∧ d.perm = if c.perm = 0 then O.minPerm else c.perm) ∧
    (c.satnum = 0 → d.poro = 0 ∧ d.perm = O.minPerm) := by
  unfold check at h
  split at h
  · cases h
  · rename_i hs
    push Not at hs
    split at h
    · cases h
    · rename_i hp
      push Not at hp
      split at h
      · cases h
      · split at h
        · rename_i h0
          obtain rfl := Option.some.inj h
          exact ⟨rfl, rfl, fun hh => by omega, fun _ => ⟨rfl, rfl⟩⟩
        · rename_i h0
          obtain rfl := Option.some.inj h
          refine ⟨rfl, rfl, fun _ => ⟨?_, rfl⟩, fun hh => absurd hh h0⟩
          change raisePoro O c.poro = _
          unfold raisePoro at hp ⊢
          by_cases hh : 0 ≤ c.poro ∧ c.poro < O.minPoro
          · rw [if_pos hh, max_eq_left hh.2.le]
          · rw [if_neg hh] at hp ⊢
            rw [max_eq_right]
            by_contra hn
            exact hh ⟨hp.1, lt_of_not_ge hn⟩

/-- **C111, violated.** The comment in the program says that permeabilities below the minimum are raised to it. A positive one below the
minimum is kept. -/
theorem C111_violated_small_perm (O : Opts K) (h0 : 0 ≤ O.minPoro) (h1 : O.minPoro ≤ 1) (h2 : 0 < O.minPerm) :
    ∃ c d : Cell K, check O c = some d ∧ 0 < c.satnum ∧ d.perm < O.minPerm := by
  have hs : (1 : Int) ≤ 1000 := by decide
  obtain ⟨d, hd⟩ := (C111_check O ⟨1, 1, O.minPerm / 2, 1⟩ h0 h1 h2.le).mpr
    ⟨zero_le_one, hs, zero_le_one, le_rfl, by simpa using (half_pos h2).le⟩
  refine ⟨⟨1, 1, O.minPerm / 2, 1⟩, d, hd, zero_lt_one, ?_⟩
  rw [((C111_accepted O _ d hd).2.2.1 zero_lt_one).2, if_neg (half_pos h2).ne']
  exact half_lt_self h2

/-! ### Resistivity of a cell -/

omit [IsStrictOrderedRing K] in
theorem exponent_pos {a b : K} (hb : 0 < b) : 0 < exponent a b := by
  unfold exponent
  split
  · assumption
  · exact hb

theorem archie_ok (O : Opts K) (hO : Sensible O) (c : Cell K) (s : K) (hp : 0 < c.poro) (hs : 0 ≤ s) :
    ∃ R, archie O c s = some R ∧ 0 < R ∧ R ≤ O.cutoff ∧
      (O.pow c.poro (exponent (O.cemOpt c.satnum.toNat) O.cem) * O.pow s (exponent (O.satOpt c.satnum.toNat) O.sat) = 0 → R = O.cutoff) ∧
      (O.pow c.poro (exponent (O.cemOpt c.satnum.toNat) O.cem) * O.pow s (exponent (O.satOpt c.satnum.toNat) O.sat) ≠ 0 →
        R = min (O.litho * O.water /
          (O.pow c.poro (exponent (O.cemOpt c.satnum.toNat) O.cem) * O.pow s (exponent (O.satOpt c.satnum.toNat) O.sat))) O.cutoff) := by
  have hnum : 0 < O.litho * O.water := mul_pos hO.litho hO.water
  have h1 := hO.pow.pos c.poro (exponent (O.cemOpt c.satnum.toNat) O.cem) hp
  have h2 : 0 ≤ O.pow s (exponent (O.satOpt c.satnum.toNat) O.sat) := by
    rcases hs.eq_or_lt with rfl | h
    · exact hO.pow.zero _
    · exact (hO.pow.pos s _ h).le
  unfold archie
  simp only
  generalize O.pow c.poro (exponent (O.cemOpt c.satnum.toNat) O.cem) = d1 at *
  generalize O.pow s (exponent (O.satOpt c.satnum.toNat) O.sat) = d2 at *
  by_cases h : d2 = 0
  · rw [if_pos (Or.inr h), if_pos hnum]
    exact ⟨_, rfl, hO.cutoff, le_rfl, fun _ => rfl, fun hn => absurd (by rw [h, mul_zero]) hn⟩
  · rw [if_neg (by rintro (h' | h') <;> [exact h1.ne' h'; exact h h'])]
    refine ⟨_, rfl, lt_min (div_pos (div_pos hnum h1) (lt_of_le_of_ne h2 (Ne.symm h))) hO.cutoff, min_le_right _ _, fun h0 => ?_,
      fun _ => by rw [div_div]⟩
    rcases mul_eq_zero.mp h0 with h0 | h0
    · exact absurd h0 h1.ne'
    · exact absurd h0 h

/-- **C111.** Every rock cell gets a resistivity: positive, that of Archie's law, at most the cutoff unless it is mud. -/
theorem C111_resistivity (O : Opts K) (hO : Sensible O) (c : Cell K) (s : K) (hr : 0 < c.satnum) (hp : 0 < c.poro) (hs : 0 ≤ s) :
    ∃ R, rockRes O c s = some R ∧ IsResistivity O c s R ∧ 0 < R ∧ (¬ isMud O c → R ≤ O.cutoff) := by
  obtain ⟨R, h1, h2, h3, h4, h5⟩ := archie_ok O hO c s hp hs
  unfold rockRes
  by_cases hm : c.satnum = O.mud1 ∨ c.satnum = O.mud2
  · rw [if_pos hm]
    have hmm : isMud O c := ⟨hr, hm⟩
    exact ⟨_, rfl, ⟨fun h => by omega, fun _ => rfl, fun _ h => absurd hmm h, fun _ h => absurd hmm h⟩, hO.mud, fun h => absurd hmm h⟩
  · rw [if_neg hm]
    exact ⟨R, h1, ⟨fun h => by omega, fun h => absurd h.2 hm, fun _ _ => h4, fun _ _ => h5⟩, h2, fun _ => h3⟩

/-- **C111.** More water or more porosity never increases the resistivity of a cell. -/
theorem C111_monotone (O : Opts K) (hO : Sensible O) (c d : Cell K) (s t R Q : K) (hr : 0 < c.satnum) (hcd : d.satnum = c.satnum)
    (hp : 0 < c.poro) (hpq : c.poro ≤ d.poro) (hs : 0 ≤ s) (hst : s ≤ t) (hR : IsResistivity O c s R) (hQ : IsResistivity O d t Q) :
    Q ≤ R := by
  have hrd : 0 < d.satnum := by omega
  by_cases hm : isMud O c
  · have hm' : isMud O d := ⟨hrd, by rw [hcd]; exact hm.2⟩
    rw [hR.mud hm, hQ.mud hm']
  have hm' : ¬ isMud O d := fun h => hm ⟨hr, by rw [← hcd]; exact h.2⟩
  have ec : cementation O d = cementation O c := by unfold cementation; rw [hcd]
  have es : satExponent O d = satExponent O c := by unfold satExponent; rw [hcd]
  have pc : 0 < cementation O c := exponent_pos (a := O.cemOpt c.satnum.toNat) hO.cem
  have ps : 0 < satExponent O c := exponent_pos (a := O.satOpt c.satnum.toNat) hO.sat
  have hQc : Q ≤ O.cutoff := by
    by_cases h : O.pow d.poro (cementation O d) * O.pow t (satExponent O d) = 0
    · exact (hQ.dry hrd hm' h).le
    · rw [hQ.wet hrd hm' h]; exact min_le_right _ _
  by_cases h : O.pow c.poro (cementation O c) * O.pow s (satExponent O c) = 0
  · rw [hR.dry hr hm h]
    exact hQc
  · have m1 := hO.pow.mono c.poro d.poro (cementation O c) pc hp.le hpq
    have m2 := hO.pow.mono s t (satExponent O c) ps hs hst
    have p1 := hO.pow.pos c.poro (cementation O c) hp
    have p2 : 0 ≤ O.pow s (satExponent O c) := by
      rcases hs.eq_or_lt with rfl | h
      · exact hO.pow.zero _
      · exact (hO.pow.pos s _ h).le
    have hpos : 0 < O.pow c.poro (cementation O c) * O.pow s (satExponent O c) :=
      lt_of_le_of_ne (mul_nonneg p1.le p2) (Ne.symm h)
    have hle : O.pow c.poro (cementation O c) * O.pow s (satExponent O c) ≤
        O.pow d.poro (cementation O d) * O.pow t (satExponent O d) := by
      rw [ec, es]
      exact mul_le_mul m1 m2 p2 (p1.le.trans m1)
    rw [hR.wet hr hm h]
    refine le_min ?_ hQc
    rw [hQ.wet hrd hm' (lt_of_lt_of_le hpos hle).ne']
    exact (min_le_left _ _).trans (div_le_div_of_nonneg_left (mul_pos hO.litho hO.water).le hpos hle)

/-! ### One pressure -/

omit [IsStrictOrderedRing K] in
theorem porev_rock (c : Cell K) (h : 0 < c.satnum) : porev c = c.vol * c.poro := if_pos h

omit [IsStrictOrderedRing K] in
theorem total_eq (cells : List (Cell K)) : totalPorev cells = poreVolume cells := by
  have key : ∀ (l : List (Cell K)) (a : K), l.foldl (fun a c => a + porev c) a = a + ((rocks l).map fun c => c.vol * c.poro).sum := by
    intro l
    induction l with
    | nil => intro a; simp [rocks]
    | cons c l ih =>
      intro a
      rw [List.foldl_cons, ih]
      by_cases h : 0 < c.satnum
      · simp [rocks, porev, h, add_assoc]
      · simp [rocks, porev, h]
  rw [totalPorev, key, zero_add]
  rfl

theorem poreVolume_pos (O : Opts K) (J : Nat → JCurve K) (cells : List (Cell K)) (hc : ∀ c ∈ cells, Checked O J c) (hne : rocks cells ≠ []) :
    0 < poreVolume cells := by
  refine List.sum_pos _ ?_ (by simpa using hne)
  intro x hx
  obtain ⟨c, hc', rfl⟩ := List.mem_map.mp hx
  obtain ⟨h1, h2⟩ := List.mem_filter.mp hc'
  exact mul_pos (hc c h1).vol ((hc c h1).poro (of_decide_eq_true h2))

theorem lev_ok (O : Opts K) (hO : Sensible O) (c : Cell K) (hp : 0 < c.poro) (hk : 0 < c.perm) :
    lev O c = some (leverett O c) ∧ 0 < leverett O c := by
  unfold lev quot
  rw [if_neg hp.ne']
  exact ⟨rfl, hO.sqrt _ (div_pos (mul_pos hk hO.mD) hp)⟩

theorem cellSw_ok (O : Opts K) (hO : Sensible O) (J : Nat → JCurve K) (p : K) (c : Cell K) (hp : 0 < c.poro) (hk : 0 < c.perm) :
    cellSw O J p c = some (saturation O J p c) := by
  unfold cellSw
  rw [(lev_ok O hO c hp hk).1, Option.bind_some, quot, if_neg hO.sigma.ne']
  rfl

theorem sat_nonneg (O : Opts K) (J : Nat → JCurve K) (p : K) (c : Cell K) (hc : Checked O J c) : 0 ≤ saturation O J p c :=
  hc.nonneg.trans (hc.lo _)

theorem cellCond_ok (O : Opts K) (hO : Sensible O) (J : Nat → JCurve K) (p : K) (c : Cell K) (hc : Checked O J c) :
    ∃ R, IsResistivity O c (saturation O J p c) R ∧ 0 < R ∧ (¬ isMud O c → R ≤ O.cutoff) ∧
      cellCond O J p c = some (1 / R, if 0 < c.satnum then saturation O J p c * (c.vol * c.poro) else 0) := by
  unfold cellCond
  by_cases h : 0 < c.satnum
  · obtain ⟨R, h1, h2, h3, h4⟩ := C111_resistivity O hO c (saturation O J p c) h (hc.poro h) (sat_nonneg O J p c hc)
    refine ⟨R, h2, h3, h4, ?_⟩
    rw [if_pos h, cellSw_ok O hO J p c (hc.poro h) (hc.perm h), Option.bind_some, h1, Option.bind_some, quot, if_neg h3.ne',
      Option.map_some, porev_rock c h, if_pos h]
  · refine ⟨O.cutoff, ⟨fun _ => rfl, fun hm => absurd hm.1 h, fun h' => absurd h' h, fun h' => absurd h' h⟩, hO.cutoff, fun _ => le_rfl, ?_⟩
    rw [if_neg h, quot, if_neg hO.cutoff.ne', Option.map_some, if_neg h]

theorem foldl_sum (l : List K) (a : K) : l.foldl (· + ·) a = a + l.sum := by
  induction l generalizing a with
  | nil => simp
  | cons x l ih => rw [List.foldl_cons, ih, List.sum_cons, add_assoc]

/-- **C111.** For every pressure all cells get a conductivity, the reciprocal of the resistivity that Archie's law gives for the saturation
of the cell at that pressure, and the water volume is that of the rock. -/
theorem C111_point (O : Opts K) (hO : Sensible O) (J : Nat → JCurve K) (cells : List (Cell K)) (hc : ∀ c ∈ cells, Checked O J c) (p : K) :
    ∃ Rs : List K, List.Forall₂ (fun c R => IsResistivity O c (saturation O J p c) R ∧ 0 < R ∧ (¬ isMud O c → R ≤ O.cutoff)) cells Rs ∧
      compute O J cells p =
        some (Rs.map (1 / ·), ((rocks cells).map fun c => saturation O J p c * (c.vol * c.poro)).sum) := by
  have key : ∀ l : List (Cell K), (∀ c ∈ l, Checked O J c) → ∃ Rs : List K,
      List.Forall₂ (fun c R => IsResistivity O c (saturation O J p c) R ∧ 0 < R ∧ (¬ isMud O c → R ≤ O.cutoff)) l Rs ∧
      ∃ z, l.mapM (cellCond O J p) = some z ∧ z.map Prod.fst = Rs.map (1 / ·) ∧
        (z.map Prod.snd).sum = ((rocks l).map fun c => saturation O J p c * (c.vol * c.poro)).sum := by
    intro l
    induction l with
    | nil => intro _; exact ⟨[], .nil, [], rfl, rfl, rfl⟩
    | cons c l ih =>
      intro h
      obtain ⟨Rs, f, z, h1, h2, h3⟩ := ih fun d hd => h d (List.mem_cons_of_mem _ hd)
      obtain ⟨R, g1, g2, g3, g4⟩ := cellCond_ok O hO J p c (h c List.mem_cons_self)
      refine ⟨R :: Rs, .cons ⟨g1, g2, g3⟩ f,
        (1 / R, if 0 < c.satnum then saturation O J p c * (c.vol * c.poro) else 0) :: z, ?_, ?_, ?_⟩
      · rw [List.mapM_cons, g4, h1]
        rfl
      · rw [List.map_cons, List.map_cons, h2]
      · rw [List.map_cons, List.sum_cons, h3]
        by_cases hs : 0 < c.satnum
        · simp [rocks, hs]
        · simp [rocks, hs]
  obtain ⟨Rs, f, z, h1, h2, h3⟩ := key cells hc
  refine ⟨Rs, f, ?_⟩
  unfold compute
  rw [h1, Option.map_some, h2, foldl_sum, zero_add, h3]

/-- **C111.** The water saturation of a point lies between the mean smallest and the mean largest saturation of the rock, weighted with the pore
volumes. -/
theorem C111_saturation (O : Opts K) (J : Nat → JCurve K) (cells : List (Cell K)) (hc : ∀ c ∈ cells, Checked O J c)
    (hne : rocks cells ≠ []) (p : K) :
    ((rocks cells).map fun c => (J (c.satnum.toNat - 1)).minF * (c.vol * c.poro)).sum / poreVolume cells ≤
      ((rocks cells).map fun c => saturation O J p c * (c.vol * c.poro)).sum / poreVolume cells ∧
    ((rocks cells).map fun c => saturation O J p c * (c.vol * c.poro)).sum / poreVolume cells ≤
      ((rocks cells).map fun c => (J (c.satnum.toNat - 1)).maxF * (c.vol * c.poro)).sum / poreVolume cells := by
  have hp := poreVolume_pos O J cells hc hne
  have hw : ∀ c ∈ rocks cells, Checked O J c ∧ 0 ≤ c.vol * c.poro := fun c h => by
    obtain ⟨h1, h2⟩ := List.mem_filter.mp h
    exact ⟨hc c h1, (mul_pos (hc c h1).vol ((hc c h1).poro (of_decide_eq_true h2))).le⟩
  constructor
  · exact div_le_div_of_nonneg_right (List.sum_le_sum fun c h => mul_le_mul_of_nonneg_right ((hw c h).1.lo _) (hw c h).2) hp.le
  · exact div_le_div_of_nonneg_right (List.sum_le_sum fun c h => mul_le_mul_of_nonneg_right ((hw c h).1.hi _) (hw c h).2) hp.le

/-! ### Sampling -/

theorem swAt_ok (O : Opts K) (hO : Sensible O) (J : Nat → JCurve K) (cells : List (Cell K)) (hc : ∀ c ∈ cells, Checked O J c)
    (hne : rocks cells ≠ []) (p : K) :
    swAt O J cells p = some (((rocks cells).map fun c => saturation O J p c * (c.vol * c.poro)).sum / poreVolume cells) := by
  have key : ∀ (l : List (Cell K)) (a : K), (∀ c ∈ l, Checked O J c) →
      l.foldlM (fun (a : K) c => (if c.satnum > 0 then cellSw O J p c else some 0).map fun s => a + s * porev c) a =
        some (a + ((rocks l).map fun c => saturation O J p c * (c.vol * c.poro)).sum) := by
    intro l
    induction l with
    | nil => intro a _; simp [rocks]
    | cons c l ih =>
      intro a h
      rw [List.foldlM_cons]
      have hcc := h c List.mem_cons_self
      by_cases hs : 0 < c.satnum
      · rw [if_pos hs, cellSw_ok O hO J p c (hcc.poro hs) (hcc.perm hs), Option.map_some, porev_rock c hs]
        change List.foldlM _ _ l = _
        rw [ih _ fun d hd => h d (List.mem_cons_of_mem _ hd)]
        simp [rocks, hs, add_assoc]
      · rw [if_neg hs, Option.map_some]
        change List.foldlM _ _ l = _
        rw [ih _ fun d hd => h d (List.mem_cons_of_mem _ hd)]
        simp [rocks, hs]
  unfold swAt
  rw [key cells 0 hc, Option.bind_some, zero_add, total_eq, quot, if_neg (poreVolume_pos O J cells hc hne).ne']

/-- **C111.** The sampled curve has increasing pressures, each with the upscaled saturation at that pressure, and once the loop ends no two
neighbours are further apart in saturation than 1/500 of the range. -/
theorem C111_sampling (O : Opts K) (hO : Sensible O) (J : Nat → JCurve K) (cells : List (Cell K)) (hc : ∀ c ∈ cells, Checked O J c)
    (hne : rocks cells ≠ []) (hanti : ∀ c ∈ cells, ∀ x y, x ≤ y → (J (c.satnum.toNat - 1)).eval y ≤ (J (c.satnum.toNat - 1)).eval x)
    {missing : List (K × K) → K × K} (hm : RelPerm.Spec.Missing missing) {R : Range K} (hp : R.pcmin < R.pcmax) (hs : R.swir < R.swor)
    (n : Nat) (s : Samp K) (h : sampling O J cells missing R n = some (s, true)) :
    (s.table.Pairwise fun a b => a.1 < b.1) ∧ RelPerm.Spec.Resolved s.table ((R.swor - R.swir) / 500) ∧
    ∀ e ∈ s.table, e.2 = ((rocks cells).map fun c => saturation O J e.1 c * (c.vol * c.poro)).sum / poreVolume cells := by
  have hN : (1 : K) < 500 := by norm_num
  refine ⟨C88_increasing _ _ _ _ _ _ h, C88_resolved hm hp hs hN ?_ n s h, fun e he => ?_⟩
  · intro p q v w hpq hv hw
    rw [swAt_ok O hO J cells hc hne] at hv hw
    rw [← Option.some.inj hv, ← Option.some.inj hw]
    refine div_le_div_of_nonneg_right (List.sum_le_sum fun c h => ?_) (poreVolume_pos O J cells hc hne).le
    obtain ⟨h1, h2⟩ := List.mem_filter.mp h
    have h2 := of_decide_eq_true h2
    refine mul_le_mul_of_nonneg_right (hanti c h1 _ _ ?_) (mul_pos (hc c h1).vol ((hc c h1).poro h2)).le
    exact div_le_div_of_nonneg_right (mul_le_mul_of_nonneg_left hpq (lev_ok O hO c ((hc c h1).poro h2) ((hc c h1).perm h2)).2.le) hO.sigma.le
  · have := C88_sound _ _ _ _ _ _ h e he
    rw [swAt_ok O hO J cells hc hne] at this
    exact (Option.some.inj this).symm

/-! ### Range of capillary pressures -/

theorem range_fold (O : Opts K) (hO : Sensible O) (J : Nat → JCurve K) (l : List (Cell K)) (a : Acc K) (h : ∀ c ∈ l, Checked O J c) :
    l.foldlM (rangeStep O J) a = some
      ⟨((rocks l).map fun c => (J (c.satnum.toNat - 1)).minX / leverett O c * O.sigma).foldl optMin a.pcmin,
       ((rocks l).map fun c => (J (c.satnum.toNat - 1)).maxX / leverett O c * O.sigma).foldl optMax a.pcmax,
       a.swir + ((rocks l).map fun c => (J (c.satnum.toNat - 1)).minF * (c.vol * c.poro)).sum,
       a.swor + ((rocks l).map fun c => (J (c.satnum.toNat - 1)).maxF * (c.vol * c.poro)).sum⟩ := by
  induction l generalizing a with
  | nil => simp [rocks]
  | cons c l ih =>
    have hc := h c List.mem_cons_self
    have ih := fun a => ih a fun d hd => h d (List.mem_cons_of_mem _ hd)
    rw [List.foldlM_cons]
    by_cases hs : 0 < c.satnum
    · obtain ⟨l1, l2⟩ := lev_ok O hO c (hc.poro hs) (hc.perm hs)
      have e : rangeStep O J a c = some ⟨optMin a.pcmin ((J (c.satnum.toNat - 1)).minX / leverett O c * O.sigma),
          optMax a.pcmax ((J (c.satnum.toNat - 1)).maxX / leverett O c * O.sigma),
          a.swir + (J (c.satnum.toNat - 1)).minF * (c.vol * c.poro), a.swor + (J (c.satnum.toNat - 1)).maxF * (c.vol * c.poro)⟩ := by
        unfold rangeStep quot curve
        rw [if_pos hs, l1, Option.bind_some, if_neg l2.ne', Option.bind_some, if_neg l2.ne', Option.map_some, porev_rock c hs]
      rw [e]
      change List.foldlM _ _ l = _
      rw [ih]
      have hr : rocks (c :: l) = c :: rocks l := by simp [rocks, hs]
      rw [hr]
      simp only [List.map_cons, List.foldl_cons, List.sum_cons, add_assoc]
    · have e : rangeStep O J a c = some a := if_neg hs
      rw [e]
      change List.foldlM _ _ l = _
      rw [ih]
      have hr : rocks (c :: l) = rocks l := by simp [rocks, hs]
      rw [hr]

omit [Field K] [IsStrictOrderedRing K] in
theorem optMin_some (l : List K) (y : K) : ∃ m, l.foldl optMin (some y) = some m := by
  induction l generalizing y with
  | nil => exact ⟨y, rfl⟩
  | cons x l ih => exact ih _

omit [Field K] [IsStrictOrderedRing K] in
theorem optMax_some (l : List K) (y : K) : ∃ m, l.foldl optMax (some y) = some m := by
  induction l generalizing y with
  | nil => exact ⟨y, rfl⟩
  | cons x l ih => exact ih _

omit [IsStrictOrderedRing K] in
theorem snapHi_id (tol s : K) (h : s ≤ 1) : snapHi tol s = s := if_neg fun hh => absurd hh.1 (not_lt.mpr h)

omit [IsStrictOrderedRing K] in
theorem snapLo_id (tol s : K) (h : 0 ≤ s) : snapLo tol s = s := if_neg fun hh => absurd hh.1 (not_lt.mpr h)

/-- **C111.** If the curves of all rock have values in [0,1], there is a range: the smallest and largest capillary pressure at the ends of a curve of
some cell, and the end saturations weighted with the pore volumes. -/
theorem C111_range (O : Opts K) (hO : Sensible O) (J : Nat → JCurve K) (cells : List (Cell K)) (hc : ∀ c ∈ cells, Checked O J c)
    (hne : rocks cells ≠ []) (h1 : ∀ c ∈ rocks cells, (J (c.satnum.toNat - 1)).maxF ≤ 1)
    (hx : ∀ c ∈ rocks cells, (J (c.satnum.toNat - 1)).minX ≤ (J (c.satnum.toNat - 1)).maxX) :
    ∃ R, range O J cells = some R ∧
      IsLeast {p | ∃ c ∈ rocks cells, p = (J (c.satnum.toNat - 1)).minX / leverett O c * O.sigma} R.pcmin ∧
      IsGreatest {p | ∃ c ∈ rocks cells, p = (J (c.satnum.toNat - 1)).maxX / leverett O c * O.sigma} R.pcmax ∧
      R.swir = ((rocks cells).map fun c => (J (c.satnum.toNat - 1)).minF * (c.vol * c.poro)).sum / poreVolume cells ∧
      R.swor = ((rocks cells).map fun c => (J (c.satnum.toNat - 1)).maxF * (c.vol * c.poro)).sum / poreVolume cells ∧
      0 ≤ R.swir ∧ R.swir ≤ R.swor ∧ R.swor ≤ 1 := by
  have hp := poreVolume_pos O J cells hc hne
  have hw : ∀ c ∈ rocks cells, Checked O J c ∧ 0 < c.satnum ∧ 0 ≤ c.vol * c.poro := fun c h => by
    obtain ⟨h1, h2⟩ := List.mem_filter.mp h
    exact ⟨hc c h1, of_decide_eq_true h2, (mul_pos (hc c h1).vol ((hc c h1).poro (of_decide_eq_true h2))).le⟩
  have hf := range_fold O hO J cells ⟨none, none, 0, 0⟩ hc
  simp only [zero_add] at hf
  obtain ⟨lo, hlo⟩ : ∃ m, ((rocks cells).map fun c => (J (c.satnum.toNat - 1)).minX / leverett O c * O.sigma).foldl optMin none = some m := by
    cases hr : rocks cells with
    | nil => exact absurd hr hne
    | cons c l => exact optMin_some _ _
  obtain ⟨hi, hhi⟩ : ∃ m, ((rocks cells).map fun c => (J (c.satnum.toNat - 1)).maxX / leverett O c * O.sigma).foldl optMax none = some m := by
    cases hr : rocks cells with
    | nil => exact absurd hr hne
    | cons c l => exact optMax_some _ _
  rw [hlo, hhi] at hf
  obtain ⟨a1, _, a3⟩ := optMin_fold _ _ _ hlo
  obtain ⟨b1, _, b3⟩ := optMax_fold _ _ _ hhi
  have a3 : lo ∈ (rocks cells).map fun c => (J (c.satnum.toNat - 1)).minX / leverett O c * O.sigma := by
    rcases a3 with h | h
    · exact h
    · cases h
  have b3 : hi ∈ (rocks cells).map fun c => (J (c.satnum.toNat - 1)).maxX / leverett O c * O.sigma := by
    rcases b3 with h | h
    · exact h
    · cases h
  have hlh : lo ≤ hi := by
    obtain ⟨c, hcm, hcl⟩ := List.mem_map.mp a3
    have := b1 _ (List.mem_map_of_mem (f := fun c : Cell K => (J (c.satnum.toNat - 1)).maxX / leverett O c * O.sigma) hcm)
    refine le_trans ?_ this
    rw [← hcl]
    have hl := (lev_ok O hO c ((hw c hcm).1.poro (hw c hcm).2.1) ((hw c hcm).1.perm (hw c hcm).2.1)).2
    exact mul_le_mul_of_nonneg_right (div_le_div_of_nonneg_right (hx c hcm) hl.le) hO.sigma.le
  obtain ⟨s1, s2⟩ := C111_saturation O J cells hc hne 0
  have h0 : 0 ≤ ((rocks cells).map fun c => (J (c.satnum.toNat - 1)).minF * (c.vol * c.poro)).sum / poreVolume cells := by
    refine div_nonneg (List.sum_nonneg fun x hx' => ?_) hp.le
    obtain ⟨c, hcm, rfl⟩ := List.mem_map.mp hx'
    exact mul_nonneg (hw c hcm).1.nonneg (hw c hcm).2.2
  have h1' : ((rocks cells).map fun c => (J (c.satnum.toNat - 1)).maxF * (c.vol * c.poro)).sum / poreVolume cells ≤ 1 := by
    rw [div_le_one hp]
    exact List.sum_le_sum fun c hcm => by
      have := mul_le_mul_of_nonneg_right (h1 c hcm) (hw c hcm).2.2
      rwa [one_mul] at this
  have h01 := s1.trans s2
  have e : range O J cells = some ⟨lo, hi,
      ((rocks cells).map fun c => (J (c.satnum.toNat - 1)).minF * (c.vol * c.poro)).sum / poreVolume cells,
      ((rocks cells).map fun c => (J (c.satnum.toNat - 1)).maxF * (c.vol * c.poro)).sum / poreVolume cells⟩ := by
    unfold range
    rw [hf]
    simp only [quot, total_eq, if_neg (not_lt.mpr hlh), if_neg hp.ne', Option.bind_some]
    rw [snapHi_id _ _ h1', snapLo_id _ _ h0, if_neg]
    push Not
    exact ⟨h0, h01.trans h1', h0.trans h01, h1'⟩
  refine ⟨_, e, ⟨?_, ?_⟩, ⟨?_, ?_⟩, rfl, rfl, h0, h01, h1'⟩
  · obtain ⟨c, hcm, hcl⟩ := List.mem_map.mp a3
    exact ⟨c, hcm, hcl.symm⟩
  · rintro _ ⟨c, hcm, rfl⟩
    exact a1 _ (List.mem_map_of_mem (f := fun c : Cell K => (J (c.satnum.toNat - 1)).minX / leverett O c * O.sigma) hcm)
  · obtain ⟨c, hcm, hcl⟩ := List.mem_map.mp b3
    exact ⟨c, hcm, hcl.symm⟩
  · rintro _ ⟨c, hcm, rfl⟩
    exact b1 _ (List.mem_map_of_mem (f := fun c : Cell K => (J (c.satnum.toNat - 1)).maxX / leverett O c * O.sigma) hcm)

omit [IsStrictOrderedRing K] in
/-- **C111.** Whatever the curves: a range that is reported has its end saturations in [0,1] and pressures in order. -/
theorem C111_range_sane (O : Opts K) (J : Nat → JCurve K) (cells : List (Cell K)) (R : Range K) (h : range O J cells = some R) :
    R.pcmin ≤ R.pcmax ∧ 0 ≤ R.swir ∧ R.swir ≤ 1 ∧ 0 ≤ R.swor ∧ R.swor ≤ 1 := by
  unfold range at h
  split at h
  · split at h
    · cases h
    · rename_i hlh
      obtain ⟨a, _, h⟩ := Option.bind_eq_some_iff.mp h
      obtain ⟨b, _, h⟩ := Option.bind_eq_some_iff.mp h
      simp only at h
      split at h
      · cases h
      · rename_i hn
        push Not at hn
        obtain rfl := Option.some.inj h
        exact ⟨not_lt.mp hlh, hn⟩
  · cases h

/-! ### The points -/

/-- **C111.** From two points on the wanted saturations are evenly spaced, the first is the smallest, the last the largest. -/
theorem C111_wanted (R : Range K) (points : Nat) (h : 2 ≤ points) :
    ∃ l, wanted R points = some l ∧ l.length = points ∧
      (∀ i < points, l[i]? = some (R.swir + (i : K) * ((R.swor - R.swir) / ((points : K) - 1)))) ∧
      l.head? = some R.swir ∧ l.getLast? = some R.swor := by
  have hd : ((points : K) - 1) ≠ 0 := by
    have : (2 : K) ≤ points := by exact_mod_cast h
    exact (by linarith : (0 : K) < (points : K) - 1).ne'
  have e : wanted R points = some ((List.range points).map fun (i : Nat) => R.swir + (R.swor - R.swir) / ((points : K) - 1) * (i : K)) := by
    unfold wanted quot
    simp only [if_neg hd, Option.map_some]
    have : ∀ l : List Nat, l.mapM (fun (i : Nat) => some (R.swir + (R.swor - R.swir) / ((points : K) - 1) * (i : K))) =
        some (l.map fun (i : Nat) => R.swir + (R.swor - R.swir) / ((points : K) - 1) * (i : K)) := by
      intro l
      induction l with
      | nil => rfl
      | cons x l ih => rw [List.mapM_cons, ih]; rfl
    exact this _
  refine ⟨_, e, by simp, fun i hi => ?_, ?_, ?_⟩
  · rw [List.getElem?_map, List.getElem?_range hi, Option.map_some, mul_comm]
  · obtain ⟨n, rfl⟩ : ∃ n, points = n + 1 := ⟨points - 1, by omega⟩
    rw [List.range_succ_eq_map]
    simp
  · obtain ⟨n, rfl⟩ : ∃ n, points = n + 1 := ⟨points - 1, by omega⟩
    rw [List.range_succ, List.map_append]
    rw [List.map_singleton, List.getLast?_concat]
    have : ((n + 1 : Nat) : K) - 1 = (n : K) := by push_cast; ring
    rw [this] at hd ⊢
    rw [div_mul_cancel₀ _ hd]
    congr 1
    ring

omit [IsStrictOrderedRing K] in
/-- **C111, violated.** For a single point the wanted saturation is zero divided by zero or a number divided by zero: nothing is defined. -/
theorem C111_violated_one_point (R : Range K) (inv : K → K) : pressures inv R 1 = none := by
  unfold pressures wanted quot
  simp [List.range_one]

/-! ### Ranks -/

theorem step_congr {L : Type} {sync both : Bool} {nodes points t : Nat} {f g : Nat → Nat → Row L}
    (h : ∀ r i, i < points → owner nodes i = r → f r i = g r i) {s u : St L} (hs : Step sync both nodes points t f s u) :
    Step sync both nodes points t g s u := by
  cases hs with
  | own a b => exact .own s a b
  | recv a b m ms c => exact .recv s a b m ms c
  | skip r a b c d e => exact .skip s r a b c d e
  | send r a b c d e => rw [h r _ c d]; exact .send s r a b c d e

theorem steps_congr {L : Type} {sync both : Bool} {nodes points t : Nat} {f g : Nat → Nat → Row L}
    (h : ∀ r i, i < points → owner nodes i = r → f r i = g r i) {n : Nat} {s u : St L} (hs : Steps sync both nodes points t f n s u) :
    Steps sync both nodes points t g n s u := by
  induction hs with
  | refl => exact .refl _
  | tail _ a ih => exact .tail ih (step_congr h a)

theorem node_inv (O : Opts K) (J : Nat → JCurve K) (cells : List (Cell K)) (up : List K → List K) (nodes rank t : Nat) (ps init : List K)
    (hup : ∀ l, (up l).length = t) (hpv : poreVolume cells ≠ 0) (hok : ∀ p ∈ ps, ∃ w, compute O J cells p = some w) (k : Nat)
    (hk : k ≤ ps.length) :
    ∃ N, node O J cells up nodes rank k ps init t = some N ∧
      (∀ i, i < k → owner nodes i = rank → ∀ p w, ps[i]? = some p → compute O J cells p = some w →
        N.rows i = ⟨w.2 / poreVolume cells, up w.1, []⟩) ∧
      ∀ i, (N.rows i).perm0.length = t ∧ (N.rows i).perm1 = [] := by
  induction k with
  | zero => exact ⟨_, rfl, fun i hi => by omega, fun i => ⟨by simp, rfl⟩⟩
  | succ k ih =>
    obtain ⟨N, h1, h2, h3⟩ := ih (by omega)
    unfold node at h1 ⊢
    rw [List.range_succ, List.foldlM_append, h1]
    simp only [List.foldlM_cons, List.foldlM_nil, Option.bind_eq_bind, Option.bind_some, Option.pure_def]
    obtain ⟨p, hp⟩ : ∃ p, ps[k]? = some p := ⟨ps[k], List.getElem?_eq_getElem (by omega)⟩
    obtain ⟨w, hw⟩ := hok p (List.mem_of_getElem? hp)
    unfold nodeStep quot
    rw [total_eq]
    simp only [if_neg hpv]
    by_cases ho : owner nodes k = rank
    · rw [if_pos ho, hp, Option.bind_some, hw, Option.bind_some, Option.map_some]
      refine ⟨_, rfl, fun i hi hoi q v hq hv => ?_, fun i => ?_⟩
      · by_cases e : i = k
        · subst e
          rw [hp] at hq
          obtain rfl := Option.some.inj hq
          rw [hw] at hv
          obtain rfl := Option.some.inj hv
          exact if_pos rfl
        · refine (if_neg e).trans (h2 i (by omega) hoi q v hq hv)
      · change ((if i = k then (⟨w.2 / poreVolume cells, up w.1, []⟩ : Row K) else N.rows i)).perm0.length = t ∧ _
        by_cases e : i = k
        · simp [e, hup]
        · simp [e, h3 i]
    · rw [if_neg ho, Option.bind_some, Option.map_some]
      refine ⟨_, rfl, fun i hi hoi q v hq hv => ?_, fun i => ?_⟩
      · by_cases e : i = k
        · subst e
          exact absurd hoi ho
        · refine (if_neg e).trans (h2 i (by omega) hoi q v hq hv)
      · change ((if i = k then (⟨N.water / poreVolume cells, up N.cond, []⟩ : Row K) else N.rows i)).perm0.length = t ∧ _
        by_cases e : i = k
        · simp [e, hup]
        · simp [e, h3 i]

/-- **C111.** Whatever the number of ranks and the interleaving of their messages: every rank gets through its points, no run deadlocks or goes on
for ever, and when the master's loop has ended its table holds for every pressure the upscaled saturation and the result of upscaling the
conductivities that Archie's law gives at that pressure, although every rank also upscales what was left in its grid by other points. -/
theorem C111_ranks (O : Opts K) (hO : Sensible O) (J : Nat → JCurve K) (cells : List (Cell K)) (hc : ∀ c ∈ cells, Checked O J c)
    (hne : rocks cells ≠ []) (up : List K → List K) (nodes t : Nat) (hn : 0 < nodes) (hup : ∀ l, (up l).length = t) (ps init : List K) :
    ∃ mem : Nat → Nat → Row K, (∀ r, ∃ N, node O J cells up nodes r ps.length ps init t = some N ∧ N.rows = mem r) ∧
      ∀ sync n s, Steps sync false nodes ps.length t mem n (gather mem) s →
        n ≤ ps.length * (nodes + 1) ∧
        ((s.mpos < ps.length ∨ ∃ r, 0 < r ∧ r < nodes ∧ s.pos r < ps.length) → ∃ u, Step sync false nodes ps.length t mem s u) ∧
        (s.mpos = ps.length → ∀ i p, ps[i]? = some p → ∃ Rs : List K,
          List.Forall₂ (fun c R => IsResistivity O c (saturation O J p c) R) cells Rs ∧
          (s.mem i).sat = ((rocks cells).map fun c => saturation O J p c * (c.vol * c.poro)).sum / poreVolume cells ∧
          (s.mem i).perm0 = up (Rs.map (1 / ·))) := by
  have hpv := (poreVolume_pos O J cells hc hne).ne'
  have hok : ∀ p ∈ ps, ∃ w, compute O J cells p = some w := fun p _ => by
    obtain ⟨Rs, _, h⟩ := C111_point O hO J cells hc p
    exact ⟨_, h⟩
  choose N hN1 hN2 hN3 using fun r => node_inv O J cells up nodes r t ps init hup hpv hok ps.length le_rfl
  refine ⟨fun r => (N r).rows, fun r => ⟨N r, hN1 r, rfl⟩, ?_⟩
  -- the values the owners have
  have hval : ∀ i, ∃ v : Row K, (v.perm0.length = t ∧ v.perm1 = []) ∧ (¬ i < ps.length → v = (N 0).rows i) ∧
      (∀ r, i < ps.length → owner nodes i = r → (N r).rows i = v) ∧
      ∀ p, ps[i]? = some p → ∃ Rs : List K, List.Forall₂ (fun c R => IsResistivity O c (saturation O J p c) R) cells Rs ∧
          v.sat = ((rocks cells).map fun c => saturation O J p c * (c.vol * c.poro)).sum / poreVolume cells ∧
          v.perm0 = up (Rs.map (1 / ·)) := by
    intro i
    by_cases hi : i < ps.length
    · obtain ⟨Rs, f, h⟩ := C111_point O hO J cells hc ps[i]
      have hp : ps[i]? = some ps[i] := List.getElem?_eq_getElem hi
      refine ⟨⟨_, up (Rs.map (1 / ·)), []⟩, ⟨hup _, rfl⟩, fun h => absurd hi h, fun r _ ho => hN2 r i hi ho _ _ hp h, fun p hp' => ?_⟩
      rw [hp] at hp'
      obtain rfl := Option.some.inj hp'
      exact ⟨Rs, f.imp fun _ _ h => h.1, rfl, rfl⟩
    · refine ⟨(N 0).rows i, hN3 0 i, fun _ => rfl, fun r h => absurd h hi, fun p hp => ?_⟩
      rw [List.getElem?_eq_none (by omega)] at hp
      cases hp
  choose val v1 v2 v3 v4 using hval
  have hag : ∀ r i, i < ps.length → owner nodes i = r → (N r).rows i = localMem nodes val (N 0).rows r i := by
    intro r i hi ho
    unfold localMem
    rw [if_pos ho]
    exact v3 i r hi ho
  have hag' : ∀ r i, i < ps.length → owner nodes i = r → localMem nodes val (N 0).rows r i = (N r).rows i :=
    fun r i hi ho => (hag r i hi ho).symm
  have hinit : gather (fun r => (N r).rows) = St.init nodes val (N 0).rows := by
    unfold gather St.init
    congr 1
    funext i
    by_cases hi : i < ps.length
    · unfold localMem
      by_cases ho : owner nodes i = 0
      · rw [if_pos ho]; exact v3 i 0 hi ho
      · rw [if_neg ho]
    · unfold localMem
      split
      · exact (v2 i hi).symm
      · rfl
  have hw : ∀ i, (val i).perm0.length = t ∧ (false = true → (val i).perm1.length = t) ∧
      (false = false → (val i).perm1 = ((N 0).rows i).perm1) :=
    fun i => ⟨(v1 i).1, fun h => (by cases h), fun _ => by rw [(v1 i).2, (hN3 0 i).2]⟩
  intro sync n s hs
  rw [hinit] at hs
  have hs' := steps_congr hag hs
  refine ⟨C32_terminates hn hw hs', fun hd => ?_, fun hd i p hp => ?_⟩
  · obtain ⟨u, hu⟩ := C32_no_deadlock hn hw hs' hd
    exact ⟨u, step_congr hag' hu⟩
  · have hi : i < ps.length := by
      by_contra h
      rw [List.getElem?_eq_none (by omega)] at hp
      cases hp
    rw [C32_gathered hn hw hs' hd i hi]
    exact v4 i p hp

/-! ### Output -/

omit [Field K] [IsStrictOrderedRing K] in
theorem ends_some (x : K) (l : List K) : ∃ lo hi, ends (x :: l) = (some lo, some hi) ∧ IsLeast {y | y ∈ x :: l} lo ∧ IsGreatest {y | y ∈ x :: l} hi := by
  have k1 : ∀ (l : List K) (x : K), ∃ lo, l.foldl (fun a x => match a with | none => some x | some y => if x < y then some x else some y) (some x) = some lo ∧
      IsLeast {y | y ∈ x :: l} lo := by
    intro l
    induction l with
    | nil => exact fun x => ⟨x, rfl, by simp, fun y hy => by simpa using (le_of_eq (by simpa using hy : y = x).symm)⟩
    | cons z l ih =>
      intro x
      by_cases h : z < x
      · obtain ⟨lo, h1, h2, h3⟩ := ih z
        refine ⟨lo, by rw [List.foldl_cons]; simp only [if_pos h]; exact h1, ?_, ?_⟩
        · exact List.mem_cons_of_mem _ h2
        · intro y hy
          rcases List.mem_cons.mp hy with rfl | hy
          · exact (h3 List.mem_cons_self).trans h.le
          · exact h3 hy
      · obtain ⟨lo, h1, h2, h3⟩ := ih x
        refine ⟨lo, by rw [List.foldl_cons]; simp only [if_neg h]; exact h1, ?_, ?_⟩
        · rcases List.mem_cons.mp h2 with e | e
          · exact List.mem_cons.mpr (Or.inl e)
          · exact List.mem_cons_of_mem _ (List.mem_cons_of_mem _ e)
        · intro y hy
          rcases List.mem_cons.mp hy with rfl | hy
          · exact h3 List.mem_cons_self
          · rcases List.mem_cons.mp hy with rfl | hy
            · exact (h3 List.mem_cons_self).trans (not_lt.mp h)
            · exact h3 (List.mem_cons_of_mem _ hy)
  have k2 : ∀ (l : List K) (x : K), ∃ hi, l.foldl (fun a x => match a with | none => some x | some y => if x > y then some x else some y) (some x) = some hi ∧
      IsGreatest {y | y ∈ x :: l} hi := by
    intro l
    induction l with
    | nil => exact fun x => ⟨x, rfl, by simp, fun y hy => by simpa using (le_of_eq (by simpa using hy : y = x))⟩
    | cons z l ih =>
      intro x
      by_cases h : z > x
      · obtain ⟨lo, h1, h2, h3⟩ := ih z
        refine ⟨lo, by rw [List.foldl_cons]; simp only [if_pos h]; exact h1, ?_, ?_⟩
        · exact List.mem_cons_of_mem _ h2
        · intro y hy
          rcases List.mem_cons.mp hy with rfl | hy
          · exact h.le.trans (h3 List.mem_cons_self)
          · exact h3 hy
      · obtain ⟨lo, h1, h2, h3⟩ := ih x
        refine ⟨lo, by rw [List.foldl_cons]; simp only [if_neg h]; exact h1, ?_, ?_⟩
        · rcases List.mem_cons.mp h2 with e | e
          · exact List.mem_cons.mpr (Or.inl e)
          · exact List.mem_cons_of_mem _ (List.mem_cons_of_mem _ e)
        · intro y hy
          rcases List.mem_cons.mp hy with rfl | hy
          · exact h3 List.mem_cons_self
          · rcases List.mem_cons.mp hy with rfl | hy
            · exact (not_lt.mp h).trans (h3 List.mem_cons_self)
            · exact h3 (List.mem_cons_of_mem _ hy)
  obtain ⟨lo, h1, h2⟩ := k1 l x
  obtain ⟨hi, h3, h4⟩ := k2 l x
  refine ⟨lo, hi, ?_, h2, h4⟩
  unfold ends
  rw [List.foldl_cons, List.foldl_cons]
  exact Prod.ext h1 h3

omit [IsStrictOrderedRing K] in
/-- **C111.** Without interpolation the output has one line for each point: pressure, saturation and the tensor entries of that point. -/
theorem C111_lines (interp : List K → List K → K → K) (ps : List K) (rows : List (Row K)) (t ipoints : Nat) (hi : ipoints ≤ 1)
    (hl : ps.length = rows.length) (ht : ∀ r ∈ rows, r.perm0.length = t) :
    ∃ l, lines interp ps rows t ipoints = some l ∧ l.length = rows.length ∧
      ∀ (i : Nat) (p : K) (r : Row K), ps[i]? = some p → rows[i]? = some r → l[i]? = some (p, r.sat, r.perm0) := by
  unfold lines
  simp only
  rw [if_neg (by omega)]
  refine ⟨_, rfl, by simp, fun i p r hp hr => ?_⟩
  obtain ⟨hi, hr'⟩ := List.getElem?_eq_some_iff.mp hr
  rw [List.getElem?_map, List.getElem?_range hi, Option.map_some, List.getD_eq_getElem?_getD, hp, List.getD_eq_getElem?_getD,
    List.getElem?_map, hr]
  congr 3
  rw [List.map_map]
  refine List.ext_getElem (by simp [ht r (List.mem_of_getElem? hr)]) fun v h1 h2 => ?_
  rw [List.getElem_map, List.getElem_range]
  simp only [Function.comp]
  rw [List.getD_eq_getElem?_getD, List.getElem?_map, hr, Option.map_some, Option.getD_some, List.getD_eq_getElem?_getD,
    List.getElem?_eq_getElem h2, Option.getD_some]

/-- **C111.** With interpolation the lines are at evenly spaced saturations from the smallest to the largest computed one, and every other column is the
interpolation of the computed values against the computed saturations. -/
theorem C111_interpolated (interp : List K → List K → K → K) (ps : List K) (rows : List (Row K)) (t ipoints : Nat) (hi : 2 ≤ ipoints)
    (hne : rows ≠ []) :
    ∃ l lo hi, lines interp ps rows t ipoints = some l ∧ l.length = ipoints ∧
      IsLeast {y | ∃ r ∈ rows, r.sat = y} lo ∧ IsGreatest {y | ∃ r ∈ rows, r.sat = y} hi ∧
      ∀ i < ipoints, ∃ x, x = lo + (i : K) * ((hi - lo) / ((ipoints : K) - 1)) ∧
        l[i]? = some (interp (rows.map Row.sat) ps x, x,
          (List.range t).map fun v => interp (rows.map Row.sat) (rows.map fun r => r.perm0.getD v 0) x) := by
  obtain ⟨r0, rest, rfl⟩ := List.exists_cons_of_ne_nil hne
  obtain ⟨lo, hi', he, hlo, hhi⟩ := ends_some r0.sat (rest.map Row.sat)
  have hd : ((ipoints : K) - 1) ≠ 0 := by
    have : (2 : K) ≤ ipoints := by exact_mod_cast hi
    exact (by linarith : (0 : K) < (ipoints : K) - 1).ne'
  have hset : {y | y ∈ r0.sat :: rest.map Row.sat} = {y | ∃ r ∈ r0 :: rest, r.sat = y} := by
    ext y
    change y ∈ List.map Row.sat (r0 :: rest) ↔ _
    rw [List.mem_map]
    rfl
  rw [hset] at hlo hhi
  have hg : satGrid lo hi' ipoints = some ((List.range ipoints).map fun (i : Nat) => lo + (i : K) / ((ipoints : K) - 1) * (hi' - lo)) := by
    unfold satGrid quot
    simp only [if_neg hd, Option.map_some]
    have : ∀ l : List Nat, l.mapM (fun (i : Nat) => some (lo + (i : K) / ((ipoints : K) - 1) * (hi' - lo))) =
        some (l.map fun (i : Nat) => lo + (i : K) / ((ipoints : K) - 1) * (hi' - lo)) := by
      intro l
      induction l with
      | nil => rfl
      | cons x l ih => rw [List.mapM_cons, ih]; rfl
    exact this _
  have hL : lines interp ps (r0 :: rest) t ipoints = some (((List.range ipoints).map fun (i : Nat) => lo + (i : K) / ((ipoints : K) - 1) * (hi' - lo)).map
      fun x => (interp ((r0 :: rest).map Row.sat) ps x, x,
        (List.range t).map fun v => interp ((r0 :: rest).map Row.sat) ((r0 :: rest).map fun r => r.perm0.getD v 0) x)) := by
    unfold lines
    simp only
    rw [if_pos (by omega)]
    have he' : ends ((r0 :: rest).map Row.sat) = (some lo, some hi') := he
    rw [he']
    simp only
    rw [hg, Option.map_some]
    simp only [List.map_map, Function.comp_def]
  refine ⟨_, lo, hi', hL, by simp, hlo, hhi, fun i hii => ⟨_, rfl, ?_⟩⟩
  rw [List.getElem?_map, List.getElem?_map, List.getElem?_range hii, Option.map_some, Option.map_some]
  have e : lo + (i : K) / ((ipoints : K) - 1) * (hi' - lo) = lo + (i : K) * ((hi' - lo) / ((ipoints : K) - 1)) := by
    rw [div_mul_eq_mul_div, mul_div_assoc]
  rw [e]

/-! ### The upscaled tensor -/

open Verif.SinglePhase in
/-- **C111.** Fixed boundary conditions: the upscaled resistivity, the inverse of the upscaled conductivity, is diagonal; in each direction it lies between
the volume weighted harmonic and arithmetic mean of the cell resistivities. So it does not exceed the largest cell resistivity. -/
theorem C111_fixed {I : Input K} {lo hi : Fin 3 → K} {side : Boundary.Face K → Nat} (ρ : Fin I.G.nc → K)
    (hρ : ∀ c, 0 < ρ c) (hperm : ∀ c i j, I.perm c i j = if i = j then 1 / ρ c else 0) (h : Sound (tracer I)) (ht : Tiling I.G)
    (hb : FillsBox I.G lo hi side) (hs : Suited I lo hi side) (hbc : I.bct = .fixed) (b : Boundary.BCs K)
    (T S : Fin 3 → Fin 3 → K) (hT : upscaleSinglePhase I b = some T) (hS : ∀ i j, ∑ k, T i k * S k j = if i = j then 1 else 0) :
    (∀ i j, i ≠ j → S i j = 0) ∧
    ∀ d, 1 / ((∑ c, (I.G.cell c).volume * (1 / ρ c)) / ∑ c, (I.G.cell c).volume) ≤ S d d ∧
      S d d ≤ (∑ c, (I.G.cell c).volume * ρ c) / ∑ c, (I.G.cell c).volume := by
  obtain ⟨T', h1, h2, h3⟩ := C90_single_phase h ht hb hs hbc (fun c i j => if i = j then ρ c else 0) fun c i j => by
    simp only [hperm]
    rw [Finset.sum_eq_single i]
    · rw [if_pos rfl]
      by_cases e : i = j
      · rw [if_pos e, if_pos e, one_div, inv_mul_cancel₀ (hρ c).ne']
      · rw [if_neg e, if_neg e, mul_zero]
    · intro k _ hk
      rw [if_neg (Ne.symm hk), zero_mul]
    · intro hk; exact absurd (Finset.mem_univ i) hk
  rw [h1 b] at hT
  obtain rfl := Option.some.inj hT
  have key : ∀ i j, T' i i * S i j = if i = j then 1 else 0 := by
    intro i j
    rw [← hS i j, Finset.sum_eq_single i]
    · intro k _ hk; rw [h2 i k (Ne.symm hk), zero_mul]
    · intro hk; exact absurd (Finset.mem_univ i) hk
  refine ⟨fun i j hij => ?_, fun d => ?_⟩
  · have := key i j
    rw [if_neg hij] at this
    rcases mul_eq_zero.mp this with e | e
    · exact absurd e (h3 i).1.ne'
    · exact e
  · obtain ⟨p0, p1, p2⟩ := h3 d
    have hSd : S d d = 1 / T' d d := by
      rw [eq_div_iff p0.ne', mul_comm]
      simpa using key d d
    simp only [hperm, if_true] at p1 p2
    rw [hSd]
    constructor
    · exact one_div_le_one_div_of_le p0 p1
    · rw [div_le_iff₀ p0, mul_comm]
      exact p2

open Verif.SinglePhase in
/-- **C111.** If all cells have the same resistivity, so has the sample, whatever the boundary conditions. -/
theorem C111_uniform {I : Input K} {lo hi : Fin 3 → K} {side : Boundary.Face K → Nat} (ρ : K) (hρ : 0 < ρ)
    (hperm : ∀ c i j, I.perm c i j = if i = j then 1 / ρ else 0) (h : Sound (tracer I)) (ht : Tiling I.G)
    (hb : FillsBox I.G lo hi side) (hs : Suited I lo hi side) (b : Boundary.BCs K) :
    ∃ T, upscaleSinglePhase I b = some T ∧
      ∀ S : Fin 3 → Fin 3 → K, (∀ i j, ∑ k, T i k * S k j = if i = j then 1 else 0) → ∀ i j, S i j = if i = j then ρ else 0 := by
  refine ⟨_, C89_single_phase h ht hb hs (fun i j => if i = j then 1 / ρ else 0) hperm (fun _ i j hij => if_neg hij) b, fun S hS i j => ?_⟩
  have := hS i j
  rw [Finset.sum_eq_single i (fun k _ hk => by rw [if_neg (Ne.symm hk), zero_mul]) fun hk => absurd (Finset.mem_univ i) hk, if_pos rfl] at this
  by_cases e : i = j
  · rw [if_pos e] at this ⊢
    rw [one_div, inv_mul_eq_div, div_eq_one_iff_eq hρ.ne'] at this
    exact this
  · rw [if_neg e] at this ⊢
    rcases mul_eq_zero.mp this with e' | e'
    · exact absurd e' (one_div_pos.mpr hρ).ne'
    · exact e'

end

/-! ### The hypotheses can be met -/

/-- The real power function. -/
theorem rpow_like : PowerLike (fun x e : ℝ => x ^ e) where
  pos _ _ h := Real.rpow_pos_of_pos h _
  zero e := Real.rpow_nonneg le_rfl e
  mono _ _ _ he hx h := Real.rpow_le_rpow hx h he.le

/-- The default options. -/
noncomputable def exOpts : Opts ℝ :=
  ⟨1 / 100, 1 / 10, 1, 11 / 1000, 1 / 10 ^ 12, 10000, 7 / 5, 2, 0, 1, 9 / 5, 23 / 10, 1 / 5, fun _ => 0, fun n => if n = 1 then 2 else 0,
    Real.sqrt, fun x e => x ^ e⟩

theorem exOpts_sensible : Sensible exOpts := by
  refine ⟨?_, ?_, ?_, ?_, ?_, ?_, ?_, ?_, fun x h => Real.sqrt_pos.mpr h, rpow_like⟩ <;> norm_num [exOpts]

/-- A falling curve from 1 to 1/5. -/
noncomputable def exJ : Nat → JCurve ℝ := fun _ => ⟨0, 1, 1 / 5, 1, fun x => max (1 / 5) (min 1 (1 - 4 / 5 * x))⟩

noncomputable def exCells : List (Cell ℝ) := [⟨1, 1 / 4, 100, 2⟩, ⟨2, 1 / 10, 1, 1⟩, ⟨0, 0, 1 / 10, 1⟩]

theorem exCells_checked : ∀ c ∈ exCells, Checked exOpts exJ c := by
  intro c hc
  simp only [exCells, List.mem_cons, List.not_mem_nil, or_false] at hc
  rcases hc with rfl | rfl | rfl <;>
  · refine ⟨by norm_num, fun h => ?_, fun h => ?_, fun x => le_max_left _ _, fun x => ?_, by norm_num [exJ]⟩
    · first
        | exact absurd h (by decide)
        | norm_num
    · first
        | exact absurd h (by decide)
        | norm_num
    · exact max_le (by norm_num [exJ]) (min_le_left _ _)

theorem exCells_rocks : rocks exCells ≠ [] := by simp [rocks, exCells]

example (p : ℝ) : ∃ Rs : List ℝ, Rs.length = 3 ∧ ∃ w, compute exOpts exJ exCells p = some (Rs.map (1 / ·), w) := by
  obtain ⟨Rs, f, h⟩ := C111_point exOpts exOpts_sensible exJ exCells exCells_checked p
  exact ⟨Rs, by rw [← f.length_eq]; rfl, _, h⟩

example : ∃ R, range exOpts exJ exCells = some R ∧ R.swor ≤ 1 := by
  obtain ⟨R, h, _, _, _, _, _, _, h1⟩ := C111_range exOpts exOpts_sensible exJ exCells exCells_checked exCells_rocks
    (fun _ _ => by norm_num [exJ]) (fun _ _ => by norm_num [exJ])
  exact ⟨R, h, h1⟩

example : ∀ ps init : List ℝ, ∃ mem : Nat → Nat → Row ℝ,
    (∀ r, ∃ N, node exOpts exJ exCells (fun l => [l.sum]) 3 r ps.length ps init 1 = some N ∧ N.rows = mem r) := fun ps init => by
  obtain ⟨mem, h, _⟩ := C111_ranks exOpts exOpts_sensible exJ exCells exCells_checked exCells_rocks (fun l => [l.sum]) 3 1 (by omega)
    (fun _ => rfl) ps init
  exact ⟨mem, h⟩

/-- Archie's law with its own saturation exponent 2 for rock type 1. -/
example (p : ℝ) : satExponent exOpts ⟨1, 1 / 4, p, 2⟩ = 2 ∧ cementation exOpts ⟨1, 1 / 4, p, 2⟩ = 9 / 5 := by
  unfold satExponent cementation exOpts
  norm_num

example : check (⟨1 / 100, 1 / 10, 1, 1, 0, 1, 1, 0, 0, 1, 1, 1, 1, fun _ => 0, fun _ => 0, id, fun x _ => x⟩ : Opts ℚ) ⟨1, 0, 0, 1⟩ =
    some ⟨1, 1 / 100, 1 / 10, 1⟩ := by
  unfold check raisePoro raisePerm
  norm_num

open Verif.SinglePhase in
/-- Two cells of resistivity 1 and 1/3, one after the other in the first direction: between 1/2 and 2/3 in every direction. -/
example (b : Boundary.BCs ℚ) : ∃ T, upscaleSinglePhase (exInput .fixed 0 exSeries) b = some T ∧
    ∀ S : Fin 3 → Fin 3 → ℚ, (∀ i j, ∑ k, T i k * S k j = if i = j then 1 else 0) → ∀ d, 1 / 2 ≤ S d d ∧ S d d ≤ 2 / 3 := by
  have hr := ex_regular .fixed 0 exSeries (by decide +kernel) exSeries_posdef
  have h : Sound (tracer (exInput .fixed 0 exSeries)) :=
    ⟨⟨hr.symm, hr.posdef, fun c => (by change (0 : ℚ) < [1, 1 - 1].sum; norm_num), hr.basis, hr.sort, hr.solver⟩, rfl⟩
  obtain ⟨T, h1, _⟩ := C90_single_phase h (ex_tiling false) (ex_box false) (ex_suited _ _ _) rfl
    (fun (c : Fin 2) i j => if i = j then (if c = 0 then 1 else 1 / 3) else 0)
    (by
      have : ∀ (c : Fin 2) (i j : Fin 3), ∑ k, exSeries c i k * (if k = j then (if c = 0 then 1 else 1 / 3) else 0) = if i = j then 1 else 0 := by
        decide +kernel
      exact this)
  refine ⟨T, h1 b, fun S hS d => ?_⟩
  obtain ⟨_, h2⟩ := C111_fixed (I := exInput .fixed 0 exSeries) (fun c : Fin 2 => if c = 0 then 1 else 1 / 3)
    (by
      have : ∀ c : Fin 2, (0 : ℚ) < if c = 0 then 1 else 1 / 3 := by decide +kernel
      exact this)
    (by
      have : ∀ (c : Fin 2) (i j : Fin 3), exSeries c i j = if i = j then 1 / (if c = 0 then 1 else 1 / 3) else 0 := by decide +kernel
      exact this)
    h (ex_tiling false) (ex_box false) (ex_suited _ _ _) rfl b T S (h1 b) hS
  have e1 : (1 : ℚ) / ((∑ c : Fin 2, (343 : ℚ) * (1 / (if c = 0 then 1 else 1 / 3))) / ∑ _c : Fin 2, (343 : ℚ)) = 1 / 2 := by decide +kernel
  have e2 : (∑ c : Fin 2, (343 : ℚ) * (if c = 0 then 1 else 1 / 3)) / ∑ _c : Fin 2, (343 : ℚ) = 2 / 3 := by decide +kernel
  exact ⟨e1.symm.le.trans (h2 d).1, (h2 d).2.trans e2.le⟩

end Verif.Resist
