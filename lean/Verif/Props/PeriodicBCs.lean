import Verif.Lemmas.PeriodicBox
import Verif.Lemmas.ElasticExample
import Verif.Props.ElasticPeriodic

/-! C99: periodic boundary conditions on meshes whose opposite sides match. -/

namespace Verif.PBC

open Verif.BGrid Verif.Asm Verif.ElasticUp

variable {K : Type} [Field K] [LinearOrder K] [IsStrictOrderedRing K]

/-- **C99** (constraints). On a mesh whose opposite sides match, `periodicBCs` fixes exactly the nodes at the corners of the box, to
zero, and ties every other node of an upper side to the node opposite to it in the first direction in which it lies on an upper
side; there are no other constraints. -/
theorem C99_constraints {srt : (Vertex K → K) → List (Vertex K) → List (Vertex K)} (hs : IsSort srt) (sqrt : K → K) (tol : K) (M : Mesh K)
    (mn mx : Fin 3 → K) (opp : Fin 3 → Nat → Nat) (hM : Matched tol M mn mx opp) :
    ∃ h, periodicBCs srt sqrt tol M mn mx (Handler.new 3 M.nodes) = some h ∧ h.dim = 3 ∧ h.nodes = M.nodes ∧ h.maxeqn = 0 ∧
      (∀ n, (n < M.nodes ∧ Corner M mn mx n) → h.fixed n = some ⟨7, fun _ => 0⟩) ∧
      (∀ n, ¬ (n < M.nodes ∧ Corner M mn mx n) → h.fixed n = none) ∧
      (∀ n i, n < M.nodes → i < 3 → Corner M mn mx n → h.mpcs (n * 3 + i) = none) ∧
      (∀ n i d, n < M.nodes → i < 3 → ¬ Corner M mn mx n → M.X n d = mx d → (∀ e < d, M.X n e ≠ mx e) →
        h.mpcs (n * 3 + i) = some ⟨n, i, 0, [⟨opp d n, i, 1⟩]⟩) ∧
      (∀ n i, n < M.nodes → i < 3 → (∀ d, M.X n d ≠ mx d) → h.mpcs (n * 3 + i) = none) ∧
      ∀ s, M.nodes * 3 ≤ s → h.mpcs s = none := by
  have h0 : AllZero (Handler.new 3 M.nodes : Handler K) := fun n f hf => by cases hf
  obtain ⟨c1, c2, c3, c4, c5, c6⟩ := fixCorners_fold tol M (corners mn mx) (Handler.new 3 M.nodes) h0
  have hfx1 : ∀ n, (n < M.nodes ∧ Corner M mn mx n) → (fixCorners tol M mn mx (Handler.new 3 M.nodes)).fixed n = some zeroFix :=
    fun n hn => c5 n ⟨hn.1, (corner_iff hM hn.1).mpr hn.2⟩
  have hfx2 : ∀ n, ¬ (n < M.nodes ∧ Corner M mn mx n) → (fixCorners tol M mn mx (Handler.new 3 M.nodes)).fixed n = none :=
    fun n hn => c6 n fun h => hn ⟨h.1, (corner_iff hM h.1).mp h.2⟩
  have hz : AllZero (fixCorners tol M mn mx (Handler.new 3 M.nodes)) := by
    intro n f hf
    by_cases hn : n < M.nodes ∧ Corner M mn mx n
    · rw [hfx1 n hn] at hf; exact (Option.some.inj hf).symm
    · rw [hfx2 n hn] at hf; cases hf
  obtain ⟨v0, e0, -⟩ := master_spec hs hM 0
  obtain ⟨v1, e1, -⟩ := master_spec hs hM 1
  obtain ⟨v2, e2, -⟩ := master_spec hs hM 2
  have hz' : ∀ h : Handler K, h.fixed = (fixCorners tol M mn mx (Handler.new 3 M.nodes)).fixed → AllZero h :=
    fun h he n f hf => hz n f (he ▸ hf)
  obtain ⟨ha, a1, a2, a3, a4, a5, a6⟩ := plane_spec hs sqrt hM 0 e0 (fixCorners tol M mn mx (Handler.new 3 M.nodes)) c1 hz
  obtain ⟨hb, b1, b2, b3, b4, b5, b6⟩ := plane_spec hs sqrt hM 1 e1 ha (a2.trans c1) (hz' _ a4)
  obtain ⟨hc, d1, d2, d3, d4, d5, d6⟩ := plane_spec hs sqrt hM 2 e2 hb (b2.trans (a2.trans c1)) (hz' _ (b4.trans a4))
  have hfix : hc.fixed = (fixCorners tol M mn mx (Handler.new 3 M.nodes)).fixed := d4.trans (b4.trans a4)
  have hm0 : ∀ k, (fixCorners tol M mn mx (Handler.new 3 M.nodes)).mpcs k = none := fun k => congrFun c3 k
  have hmpc : ∀ n i, i < 3 → hc.mpcs (n * 3 + i) =
      ((if (n < M.nodes ∧ M.X n 0 = mx 0) ∧ hc.fixed n = none then some (tieOf (opp 0) (n * 3 + i)) else none).or
        (if (n < M.nodes ∧ M.X n 1 = mx 1) ∧ hc.fixed n = none then some (tieOf (opp 1) (n * 3 + i)) else none)).or
        (if (n < M.nodes ∧ M.X n 2 = mx 2) ∧ hc.fixed n = none then some (tieOf (opp 2) (n * 3 + i)) else none) := by
    intro n i hi
    have hdiv : (n * 3 + i) / 3 = n := by omega
    rw [d6, b6, a6, hm0, hdiv, Option.none_or, hfix, b4, a4]
  have htie : ∀ d n i, i < 3 → (tieOf (opp d) (n * 3 + i) : Mpc K) = ⟨n, i, 0, [⟨opp d n, i, 1⟩]⟩ := by
    intro d n i hi
    unfold tieOf
    rw [show (n * 3 + i) / 3 = n by omega, show (n * 3 + i) % 3 = i by omega]
  refine ⟨hc, ?_, d2.trans (b2.trans (a2.trans c1)), d3.trans (b3.trans (a3.trans c2)), d5.trans (b5.trans (a5.trans c4)), ?_, ?_, ?_, ?_, ?_, ?_⟩
  · unfold periodicBCs
    dsimp only
    rw [e0, e1, e2]
    change (periodicPlane _ _ _ _).bind _ = _
    rw [a1]
    change (periodicPlane _ _ _ _).bind _ = _
    rw [b1]
    exact d1
  · intro n hn; rw [hfix]; exact hfx1 n hn
  · intro n hn; rw [hfix]; exact hfx2 n hn
  · intro n i hn hi hcn
    have : ¬ hc.fixed n = none := by rw [hfix, hfx1 n ⟨hn, hcn⟩]; simp
    rw [hmpc n i hi, if_neg (fun h => this h.2), if_neg (fun h => this h.2), if_neg (fun h => this h.2)]
    rfl
  · intro n i d hn hi hcn hd hmin
    have hf : hc.fixed n = none := by rw [hfix, hfx2 n (fun h => hcn h.2)]
    rw [hmpc n i hi]
    fin_cases d
    · rw [if_pos ⟨⟨hn, hd⟩, hf⟩, htie 0 n i hi]
      rfl
    · rw [if_neg (fun h => hmin 0 (by decide) h.1.2), if_pos ⟨⟨hn, hd⟩, hf⟩, htie 1 n i hi]
      rfl
    · rw [if_neg (fun h => hmin 0 (by decide) h.1.2), if_neg (fun h => hmin 1 (by decide) h.1.2), if_pos ⟨⟨hn, hd⟩, hf⟩, htie 2 n i hi]
      rfl
  · intro n i hn hi hno
    rw [hmpc n i hi, if_neg (fun h => hno 0 h.1.2), if_neg (fun h => hno 1 h.1.2), if_neg (fun h => hno 2 h.1.2)]
    rfl
  · intro s hsn
    have e : s = s / 3 * 3 + s % 3 := by omega
    have hlt : ¬ s / 3 < M.nodes := by omega
    rw [e, hmpc _ _ (by omega), if_neg (fun h => hlt h.1.1), if_neg (fun h => hlt h.1.1), if_neg (fun h => hlt h.1.1)]
    rfl

/-- The hypothesis is met by a grid of two by three by one boxes of different sizes. -/
example : Matched (1 / 10 ^ 6 : ℚ) (boxMesh ![2, 3, 1] somePlanes) (fun d => somePlanes d 0) (fun d => somePlanes d ((![2, 3, 1] : Fin 3 → Nat) d))
    (boxOpp ![2, 3, 1]) := box_matched some_spaced

section
variable {srt : (Vertex K → K) → List (Vertex K) → List (Vertex K)} {sqrt : K → K} {tol : K} {M : Mesh K} {mn mx : Fin 3 → K}
  {opp : Fin 3 → Nat → Nat} {h : Handler K}

/-- The first direction in which a node lies on an upper side. -/
theorem first_upper (n : Nat) (d : Fin 3) (hd : M.X n d = mx d) : ∃ d, M.X n d = mx d ∧ ∀ e < d, M.X n e ≠ mx e := by
  by_cases h0 : M.X n 0 = mx 0
  · exact ⟨0, h0, fun e he => absurd he (by simp)⟩
  · by_cases h1 : M.X n 1 = mx 1
    · refine ⟨1, h1, fun e he => ?_⟩
      have : e = 0 := by omega
      rw [this]; exact h0
    · refine ⟨2, ?_, fun e he => ?_⟩
      · fin_cases d
        · exact absurd hd h0
        · exact absurd hd h1
        · exact hd
      · have : e = 0 ∨ e = 1 := by omega
        rcases this with rfl | rfl
        · exact h0
        · exact h1

/-- What a constraint can be. -/
theorem mpc_cases (hs : IsSort srt) (hM : Matched tol M mn mx opp)
    (hh : periodicBCs srt sqrt tol M mn mx (Handler.new 3 M.nodes) = some h) (s : Nat) (c : Mpc K) (hc : h.mpcs s = some c) :
    s / 3 < M.nodes ∧ ¬ Corner M mn mx (s / 3) ∧ ∃ d, M.X (s / 3) d = mx d ∧ c = ⟨s / 3, s % 3, 0, [⟨opp d (s / 3), s % 3, 1⟩]⟩ := by
  obtain ⟨h', e, -, -, -, -, -, h4, h5, h6, h7⟩ := C99_constraints hs sqrt tol M mn mx opp hM
  obtain rfl := Option.some.inj (e.symm.trans hh)
  have hlt : s / 3 < M.nodes := by
    by_contra hge
    rw [h7 s (by omega)] at hc
    cases hc
  have hs3 : s / 3 * 3 + s % 3 = s := by omega
  have hcn : ¬ Corner M mn mx (s / 3) := by
    intro hcn
    have := h4 (s / 3) (s % 3) hlt (by omega) hcn
    rw [hs3, hc] at this
    cases this
  refine ⟨hlt, hcn, ?_⟩
  by_cases hup : ∃ d, M.X (s / 3) d = mx d
  · obtain ⟨d0, hd0⟩ := hup
    obtain ⟨d, hd, hmin⟩ := first_upper (s / 3) d0 hd0
    have := h5 (s / 3) (s % 3) d hlt (by omega) hcn hd hmin
    rw [hs3, hc] at this
    exact ⟨d, hd, Option.some.inj this⟩
  · have := h6 (s / 3) (s % 3) hlt (by omega) fun d hd => hup ⟨d, hd⟩
    rw [hs3, hc] at this
    cases this

theorem corner_opp (hM : Matched tol M mn mx opp) {n : Nat} (hn : n < M.nodes) {d : Fin 3} (hd : M.X n d = mx d) :
    Corner M mn mx (opp d n) ↔ Corner M mn mx n := by
  obtain ⟨-, h2, h3⟩ := hM.opposite n hn d hd
  constructor
  · intro hc e
    by_cases he : e = d
    · rw [he]; exact Or.inr hd
    · rw [← h3 e he]; exact hc e
  · intro hc e
    by_cases he : e = d
    · rw [he]; exact Or.inl h2
    · rw [h3 e he]; exact hc e

theorem min_ne_max (hM : Matched tol M mn mx opp) (d : Fin 3) : mn d ≠ mx d := by
  have := hM.thick d
  have := hM.pos
  intro e
  linarith

/-- Opposite nodes in two directions. -/
theorem opp_comm (hM : Matched tol M mn mx opp) {n : Nat} (hn : n < M.nodes) {d e : Fin 3} (hde : d ≠ e) (hd : M.X n d = mx d)
    (he : M.X n e = mx e) : opp e (opp d n) = opp d (opp e n) := by
  obtain ⟨a1, a2, a3⟩ := hM.opposite n hn d hd
  obtain ⟨b1, b2, b3⟩ := hM.opposite n hn e he
  obtain ⟨c1, c2, c3⟩ := hM.opposite (opp d n) a1 e (by rw [a3 e hde.symm]; exact he)
  obtain ⟨d1, d2, d3⟩ := hM.opposite (opp e n) b1 d (by rw [b3 d hde]; exact hd)
  refine hM.apart d _ c1 _ d1 (by rw [c3 d hde]; exact a2) d2 fun g hg => ?_
  have : M.X (opp e (opp d n)) g = M.X (opp d (opp e n)) g := by
    by_cases hge : g = e
    · rw [hge, c2, d3 e hde.symm, b2]
    · rw [c3 g hge, a3 g hg, d3 g hg, b3 g hge]
  rw [this, sub_self, abs_zero]
  positivity

/-- **C99** (periodicity). The displacements that satisfy the constraints are exactly those that vanish at the corners and are
equal at opposite nodes. -/
theorem C99_periodic (hs : IsSort srt) (hM : Matched tol M mn mx opp)
    (hh : periodicBCs srt sqrt tol M mn mx (Handler.new 3 M.nodes) = some h) (v : Nat → Nat → K) :
    Admissible h v ↔ PeriodicField M mn mx opp v := by
  obtain ⟨h', e, hdim, hnod, -, hf1, hf2, h4, h5, h6, h7⟩ := C99_constraints hs sqrt tol M mn mx opp hM
  obtain rfl := Option.some.inj (e.symm.trans hh)
  have bit : ∀ i < 3, (7 : Nat).testBit i = true := by decide
  constructor
  · rintro ⟨p1, p2⟩
    have hz : ∀ n < M.nodes, Corner M mn mx n → ∀ i < 3, v n i = 0 := fun n hn hc i hi => p1 n i ⟨_, hf1 n ⟨hn, hc⟩, bit i hi⟩
    -- the tie of a node
    have ht : ∀ n < M.nodes, ∀ d, M.X n d = mx d → (∀ e < d, M.X n e ≠ mx e) → ∀ i < 3, v n i = v (opp d n) i := by
      intro n hn d hd hmin i hi
      by_cases hc : Corner M mn mx n
      · rw [hz n hn hc i hi, hz _ (hM.opposite n hn d hd).1 ((corner_opp hM hn hd).mpr hc) i hi]
      · have := p2 n i _ (by rw [hnod]; exact hn) (by rw [hdim]; exact hi) (by rw [hdim]; exact h5 n i d hn hi hc hd hmin)
        simpa using this
    refine ⟨hz, ?_⟩
    -- induction over the direction
    have main : ∀ k : Nat, ∀ d : Fin 3, d.val = k → ∀ n < M.nodes, M.X n d = mx d → ∀ i < 3, v n i = v (opp d n) i := by
      intro k
      induction k using Nat.strong_induction_on with
      | _ k ih =>
        intro d hdk n hn hd i hi
        by_cases hmin : ∀ e < d, M.X n e ≠ mx e
        · exact ht n hn d hd hmin i hi
        · push Not at hmin
          obtain ⟨e, hed, he⟩ := hmin
          have hlt : e.val < k := by rw [← hdk]; exact hed
          have hne : e ≠ d := ne_of_lt hed
          obtain ⟨a1, a2, a3⟩ := hM.opposite n hn e he
          obtain ⟨b1, b2, b3⟩ := hM.opposite n hn d hd
          -- through the node opposite in direction `e`
          have s1 := ih e.val hlt e rfl n hn he i hi
          have s2 := ih e.val hlt e rfl (opp d n) b1 (by rw [b3 e hne]; exact he) i hi
          rw [s1, s2, opp_comm hM hn hne.symm hd he]
          -- the same step with fewer upper sides
          have had : M.X (opp e n) d = mx d := by rw [a3 d hne.symm]; exact hd
          by_cases hmin' : ∀ e' < d, M.X (opp e n) e' ≠ mx e'
          · exact ht _ a1 d had hmin' i hi
          · push Not at hmin'
            obtain ⟨e', hed', he'⟩ := hmin'
            have hlt' : e'.val < k := by rw [← hdk]; exact hed'
            have hne' : e' ≠ d := ne_of_lt hed'
            have hee : e' ≠ e := by
              rintro rfl
              rw [a2] at he'
              exact min_ne_max hM _ he'
            obtain ⟨c1, c2, c3⟩ := hM.opposite _ a1 e' he'
            obtain ⟨g1, g2, g3⟩ := hM.opposite _ a1 d had
            have s3 := ih e'.val hlt' e' rfl _ a1 he' i hi
            have s4 := ih e'.val hlt' e' rfl (opp d (opp e n)) g1 (by rw [g3 e' hne']; exact he') i hi
            rw [s3, s4, opp_comm hM a1 hne'.symm had he']
            refine ht _ c1 d (by rw [c3 d hne'.symm]; exact had) (fun e'' hed'' hx => ?_) i hi
            by_cases h1 : e'' = e'
            · rw [h1, c2] at hx; exact min_ne_max hM _ hx
            · by_cases h2 : e'' = e
              · rw [c3 e'' h1, h2, a2] at hx; exact min_ne_max hM _ hx
              · omega
    exact fun n hn d hd i hi => main d.val d rfl n hn hd i hi
  · rintro ⟨p1, p2⟩
    refine ⟨fun n i hp => ?_, fun n i c hn hi hc => ?_⟩
    · obtain ⟨f, hf, hb⟩ := hp
      by_cases hn : n < M.nodes ∧ Corner M mn mx n
      · rw [hf1 n hn] at hf
        obtain rfl := Option.some.inj hf
        have hi : i < 3 := by
          by_contra hge
          have : (7 : Nat).testBit i = false := Nat.testBit_lt_two_pow (lt_of_lt_of_le (by norm_num) (Nat.pow_le_pow_right (by norm_num) (not_lt.mp hge) : 2 ^ 3 ≤ 2 ^ i))
          rw [this] at hb
          cases hb
        exact p1 n hn.1 hn.2 i hi
      · rw [hf2 n hn] at hf; cases hf
    · rw [hdim] at hi hc
      obtain ⟨h1, h2, d, hd, rfl⟩ := mpc_cases hs hM hh _ c hc
      rw [show (n * 3 + i) / 3 = n by omega] at h1 h2 hd ⊢
      rw [show (n * 3 + i) % 3 = i by omega]
      simpa using p2 n h1 d hd i hi

/-- **C99** (upscaling). A sample with these constraints can be upscaled: all statements of C94 to C97 about such samples apply. -/
theorem C99_sound (hs : IsSort srt) (hM : Matched tol M mn mx opp) (S : Sample K)
    (hh : periodicBCs srt sqrt tol M mn mx (Handler.new 3 M.nodes) = some S.handler) (hcells : S.cells.map (·.vertex) = M.cells)
    (hfuel : 4 ≤ S.fuel) (D : Cell K → Fin 6 → Fin 6 → K) (hD : Measured S D) :
    Sound S D ∧ ∀ s c, S.handler.mpcs s = some c → Tie c := by
  obtain ⟨h', e, hdim, hnod, hmax, hf1, hf2, h4, h5, h6, h7⟩ := C99_constraints hs sqrt tol M mn mx opp hM
  obtain rfl := Option.some.inj (e.symm.trans hh)
  have hcm : ∀ c ∈ S.cells, c.vertex ∈ M.cells := fun c hc => by rw [← hcells]; exact List.mem_map_of_mem hc
  have fixed : ∀ n f, S.handler.fixed n = some f → (n < M.nodes ∧ Corner M mn mx n) ∧ f = ⟨7, fun _ => 0⟩ := by
    intro n f hf
    by_cases hn : n < M.nodes ∧ Corner M mn mx n
    · rw [hf1 n hn] at hf; exact ⟨hn, (Option.some.inj hf).symm⟩
    · rw [hf2 n hn] at hf; cases hf
  have cases := mpc_cases hs hM hh
  refine ⟨⟨hdim, hmax, hD.order, fun c hc => (hM.hexahedra _ (hcm c hc)).1, fun c hc n hn => ?_, hD.material, hD.symm, hD.psd, hD.weight,
    hD.volume, hD.emin, fun n f hf => ?_, fun n f hf i _ => ?_, ?_, ?_, fun s c hc => ?_, fun s c hc a ha => ?_⟩, fun s c hc => ?_⟩
  · rw [hnod]; exact (hM.hexahedra _ (hcm c hc)).2 n hn
  · rw [hnod]; exact (fixed n f hf).1.1
  · rw [(fixed n f hf).2]
  · rintro n i ⟨f, hf, hb⟩ ⟨m, hm⟩
    obtain ⟨⟨hn, hc⟩, rfl⟩ := fixed n f hf
    have hi : i < 3 := by
      by_contra hge
      have : (7 : Nat).testBit i = false := Nat.testBit_lt_two_pow (lt_of_lt_of_le (by norm_num) (Nat.pow_le_pow_right (by norm_num) (not_lt.mp hge) : 2 ^ 3 ≤ 2 ^ i))
      rw [this] at hb
      cases hb
    rw [hdim, h4 n i hn hi hc] at hm
    cases hm
  · refine ⟨fun s => ∑ d : Fin 3, if M.X (s / 3) d = mx d then 1 else 0, fun s c hc a ha => ?_, fun s => ?_⟩
    · obtain ⟨h1, -, d, hd, rfl⟩ := cases s c hc
      obtain rfl := List.mem_singleton.mp ha
      obtain ⟨o1, o2, o3⟩ := hM.opposite _ h1 d hd
      have e1 : (opp d (s / 3) * S.handler.dim + s % 3) / 3 = opp d (s / 3) := by rw [hdim]; omega
      dsimp only
      rw [e1]
      refine Finset.sum_lt_sum (fun e _ => ?_) ⟨d, Finset.mem_univ d, ?_⟩
      · by_cases he : e = d
        · rw [he, if_pos hd]; split <;> omega
        · rw [o3 e he]
      · rw [if_pos hd, if_neg (by rw [o2]; exact min_ne_max hM d)]
        exact Nat.zero_lt_one
    · refine lt_of_le_of_lt (Finset.sum_le_card_nsmul _ _ 1 fun d _ => by split <;> omega) ?_
      simp
      omega
  · obtain ⟨h1, -, -⟩ := cases s c hc
    rw [hnod, hdim]; omega
  · obtain ⟨h1, -, d, hd, rfl⟩ := cases s c hc
    obtain rfl := List.mem_singleton.mp ha
    rw [hnod, hdim]
    exact ⟨(hM.opposite _ h1 d hd).1, by dsimp only; omega⟩
  · obtain ⟨-, -, d, -, rfl⟩ := cases s c hc
    exact ⟨_, rfl, rfl⟩

/-- The neighbours among the cells of the sample. -/
theorem torus_next (hs : IsSort srt) (hM : Matched tol M mn mx opp) (S : Sample K)
    (hh : periodicBCs srt sqrt tol M mn mx (Handler.new 3 M.nodes) = some S.handler) (hcells : S.cells.map (·.vertex) = M.cells)
    (F : List (Shape.Linear K 3)) (hF : Shape.p1Set 3 = some F) (rule : List (K × (Fin 3 → K))) (hr : ExactRule rule)
    (hhex : ∀ c ∈ S.cells, Hexahedron F M.X rule c) (next : Fin 3 → Equiv.Perm (Fin M.cells.length)) (hN : Neighbours M mx opp next)
    (hlen : S.cells.length = M.cells.length) :
    Torus S F M.X rule fun a => (finCongr hlen).trans ((next a).trans (finCongr hlen).symm) := by
  refine ⟨hF, hr, hhex, fun a c => ?_⟩
  have hv : ∀ c : Fin S.cells.length, (S.cells[c]).vertex = M.cells[finCongr hlen c] := by
    intro c
    simp only [Fin.getElem_fin, ← hcells, List.getElem_map, finCongr_apply, Fin.val_cast]
  have e1 : (S.cells[((finCongr hlen).trans ((next a).trans (finCongr hlen).symm)) c]).vertex = M.cells[next a (finCongr hlen c)] := by
    rw [hv]
    simp
  obtain ⟨hin8, -⟩ := hM.hexahedra (M.cells[finCongr hlen c]) (List.getElem_mem _)
  have hin : ∀ f < 8, (M.cells[finCongr hlen c]).getD f 0 < M.nodes := by
    intro f hf
    rw [List.getD_eq_getElem?_getD, List.getElem?_eq_getElem (by omega), Option.getD_some]
    exact (hM.hexahedra _ (List.getElem_mem _)).2 _ (List.getElem_mem _)
  rw [e1, hv]
  rcases hN a (finCongr hlen c) with h | h
  · refine ⟨fun _ => 0, fun f hf hb => ⟨fun d => ?_, fun v _ i _ => ?_⟩⟩
    · rw [h f hf hb, add_zero]
    · rw [h f hf hb]
  · refine ⟨fun d => if d = a then mx d - mn d else 0, fun f hf hb => ?_⟩
    obtain ⟨h1, h2⟩ := h f hf hb
    obtain ⟨o1, o2, o3⟩ := hM.opposite _ (hin f hf) a h1
    rw [h2]
    refine ⟨fun d => ?_, fun v hv i hi => ?_⟩
    · beta_reduce
      by_cases hd : d = a
      · rw [if_pos hd, hd, o2, h1]; ring
      · rw [if_neg hd, o3 d hd, add_zero]
    · exact ((C99_periodic hs hM hh v).mp hv).2 _ (hin f hf) a h1 i hi

/-- **C99** (the sample is periodic). Cells that share sides or lie at opposite sides of the box form a periodic sample in the sense
of C96. -/
theorem C99_torus (hs : IsSort srt) (hM : Matched tol M mn mx opp) (S : Sample K)
    (hh : periodicBCs srt sqrt tol M mn mx (Handler.new 3 M.nodes) = some S.handler) (hcells : S.cells.map (·.vertex) = M.cells)
    (F : List (Shape.Linear K 3)) (hF : Shape.p1Set 3 = some F) (rule : List (K × (Fin 3 → K))) (hr : ExactRule rule)
    (hhex : ∀ c ∈ S.cells, Hexahedron F M.X rule c) (next : Fin 3 → Equiv.Perm (Fin M.cells.length)) (hN : Neighbours M mx opp next) :
    ∃ next', Torus S F M.X rule next' := by
  have hlen : S.cells.length = M.cells.length := by rw [← hcells, List.length_map]
  exact ⟨_, torus_next hs hM S hh hcells F hF rule hr hhex next hN hlen⟩

/-- **C99** (exactness). A homogeneous mesh whose opposite sides match returns its elasticity matrix. -/
theorem C99_homogeneous (hs : IsSort srt) (hM : Matched tol M mn mx opp) (S : Sample K)
    (hh : periodicBCs srt sqrt tol M mn mx (Handler.new 3 M.nodes) = some S.handler) (hcells : S.cells.map (·.vertex) = M.cells)
    (hfuel : 4 ≤ S.fuel) (ht : S.tol < 1) (D0 : Fin 6 → Fin 6 → K) (hD : Measured S fun _ => D0)
    (F : List (Shape.Linear K 3)) (hF : Shape.p1Set 3 = some F) (rule : List (K × (Fin 3 → K))) (hr : ExactRule rule)
    (hhex : ∀ c ∈ S.cells, Hexahedron F M.X rule c) (next : Fin 3 → Equiv.Perm (Fin M.cells.length)) (hN : Neighbours M mx opp next)
    (solver : Nat → (Nat → Nat → K) → (Nat → K) → Nat → K) (hX : Exact solver) (m : Fin 6) : upscaleCase solver S m = some (D0 m) := by
  obtain ⟨hS, hT⟩ := C99_sound hs hM S hh hcells hfuel _ hD
  obtain ⟨next', hTo⟩ := C99_torus hs hM S hh hcells F hF rule hr hhex next hN
  exact C96_homogeneous S D0 hS ht hT F M.X rule next' hTo solver hX m

end

section

variable {tol g : K} {N : Fin 3 → Nat} {pts : Fin 3 → Nat → K}

/-- Weights of a box. -/
theorem boxPts_weight (F : List (Shape.Linear K 3)) (rule : List (K × (Fin 3 → K))) (hr : ExactRule rule) (h : Fin 3 → K) :
    ((boxPts F rule h).map fun q => q.w).sum = h 0 * h 1 * h 2 := by
  have hone : (rule.map fun p => p.1).sum = 1 := by
    have := hr 0 0 0 (by norm_num) (by norm_num) (by norm_num)
    simpa using this
  unfold boxPts
  rw [List.map_map]
  have : ((rule.map ((fun q : Elastic.QP K 6 => q.w) ∘ fun p => (⟨p.1 * (h 0 * h 1 * h 2),
      Elastic.B3 (Elastic.physGrad F (fun e k' => if e = k' then 1 / h e else 0) p.2)⟩ : Elastic.QP K 6)))).sum =
      (rule.map fun p => p.1).sum * (h 0 * h 1 * h 2) := by
    rw [← List.sum_map_mul_right]
    rfl
  rw [this, hone, one_mul]

/-- Samples on grids of boxes. -/
theorem box_measured (hS : Spaced tol g N pts) (F : List (Shape.Linear K 3)) (rule : List (K × (Fin 3 → K))) (hr : ExactRule rule)
    (hw : ∀ p ∈ rule, 0 ≤ p.1) (S : Sample K) (mat : Nat → Elastic.Material K) (D : Cell K → Fin 6 → Fin 6 → K)
    (hord : S.color.flatten.flatten.Perm (List.range S.cells.length))
    (hcells : S.cells = (List.range (N 0 * N 1 * N 2)).map fun k => ⟨boxCell N (digits N k), mat k, boxPts F rule (edges pts (digits N k))⟩)
    (hmat : ∀ c ∈ S.cells, ∀ C, ∃ b, c.mat.constitutive false C = some (b, fun i k => D c i k * scale S))
    (hsym : ∀ c ∈ S.cells, ∀ i k, D c i k = D c k i) (hpsd : ∀ c ∈ S.cells, ∀ e : Fin 6 → K, 0 ≤ ∑ i, e i * ∑ k, D c i k * e k)
    (hem : 0 < S.Escale → 0 < S.Emin) : Measured S D := by
  have hmem : ∀ c ∈ S.cells, ∃ k, k < N 0 * N 1 * N 2 ∧
      c = ⟨boxCell N (digits N k), mat k, boxPts F rule (edges pts (digits N k))⟩ := by
    intro c hc
    rw [hcells] at hc
    obtain ⟨k, hk, rfl⟩ := List.mem_map.mp hc
    exact ⟨k, List.mem_range.mp hk, rfl⟩
  have hwt : ∀ c ∈ S.cells, ∀ q ∈ c.pts, 0 ≤ q.w := by
    intro c hc q hq
    obtain ⟨k, hk, rfl⟩ := hmem c hc
    obtain ⟨p, hp, rfl⟩ := List.mem_map.mp hq
    have e := fun d => edges_pos hS _ (fun d => digits_lt N hS.cells k hk d) d
    exact mul_nonneg (hw p hp) (mul_pos (mul_pos (e 0) (e 1)) (e 2)).le
  have hvol : ∀ c ∈ S.cells, 0 < (c.pts.map fun q => q.w).sum := by
    intro c hc
    obtain ⟨k, hk, rfl⟩ := hmem c hc
    have e := fun d => edges_pos hS _ (fun d => digits_lt N hS.cells k hk d) d
    rw [boxPts_weight F rule hr]
    exact mul_pos (mul_pos (e 0) (e 1)) (e 2)
  have hne : S.cells ≠ [] := by
    intro h0
    have : S.cells.length = N 0 * N 1 * N 2 := by rw [hcells, List.length_map, List.length_range]
    rw [h0] at this
    exact absurd this.symm (Nat.mul_pos (Nat.mul_pos (hS.cells 0) (hS.cells 1)) (hS.cells 2)).ne'
  have hvolS : 0 < volume S.cells := by
    unfold volume
    obtain ⟨c, l, hcl⟩ := List.exists_cons_of_ne_nil hne
    rw [hcl] at hvol ⊢
    rw [List.map_cons, List.sum_cons]
    refine add_pos_of_pos_of_nonneg (hvol c (by simp)) (List.sum_nonneg fun y hy => ?_)
    obtain ⟨c', hc', rfl⟩ := List.mem_map.mp hy
    exact (hvol c' (by simp [hc'])).le
  exact ⟨hord, hmat, hsym, hpsd, hwt, hvolS, hem⟩

/-- **C99** (grids of boxes). On every grid of boxes `periodicBCs` succeeds, and a homogeneous sample on it, integrated exactly,
returns its elasticity matrix, whatever the numbers and sizes of the boxes. -/
theorem C99_box {srt : (Vertex K → K) → List (Vertex K) → List (Vertex K)} (hs : IsSort srt) (sqrt : K → K) (hS : Spaced tol g N pts)
    (F : List (Shape.Linear K 3)) (hF : Shape.p1Set 3 = some F) (rule : List (K × (Fin 3 → K))) (hr : ExactRule rule)
    (hw : ∀ p ∈ rule, 0 ≤ p.1) :
    ∃ h, periodicBCs srt sqrt tol (boxMesh N pts) (fun d => pts d 0) (fun d => pts d (N d))
        (Handler.new 3 ((N 0 + 1) * (N 1 + 1) * (N 2 + 1))) = some h ∧
      ∀ (S : Sample K) (mat : Nat → Elastic.Material K) (D0 : Fin 6 → Fin 6 → K), S.handler = h → 4 ≤ S.fuel → S.tol < 1 →
        S.color.flatten.flatten.Perm (List.range S.cells.length) →
        (S.cells = (List.range (N 0 * N 1 * N 2)).map fun k => ⟨boxCell N (digits N k), mat k, boxPts F rule (edges pts (digits N k))⟩) →
        (∀ k C, ∃ b, (mat k).constitutive false C = some (b, fun i j => D0 i j * scale S)) →
        (∀ i k, D0 i k = D0 k i) → (∀ e : Fin 6 → K, 0 ≤ ∑ i, e i * ∑ k, D0 i k * e k) → (0 < S.Escale → 0 < S.Emin) →
        ∀ (solver : Nat → (Nat → Nat → K) → (Nat → K) → Nat → K), Exact solver → ∀ m : Fin 6, upscaleCase solver S m = some (D0 m) := by
  have hM := box_matched hS
  obtain ⟨h, hh, -⟩ := C99_constraints hs sqrt tol _ _ _ _ hM
  refine ⟨h, hh, fun S mat D0 hSh hfuel ht hord hcells hmat hsym hpsd hem solver hX m => ?_⟩
  have hmem : ∀ c ∈ S.cells, ∃ k, k < N 0 * N 1 * N 2 ∧
      c = ⟨boxCell N (digits N k), mat k, boxPts F rule (edges pts (digits N k))⟩ := by
    intro c hc
    rw [hcells] at hc
    obtain ⟨k, hk, rfl⟩ := List.mem_map.mp hc
    exact ⟨k, List.mem_range.mp hk, rfl⟩
  refine C99_homogeneous hs hM S (sqrt := sqrt) (by rw [hSh]; exact hh) ?_ hfuel ht D0
    (box_measured hS F rule hr hw S mat _ hord hcells (fun c hc C => ?_) (fun _ _ => hsym) (fun _ _ => hpsd) hem) F hF rule hr
    (fun c hc => ?_) (boxNext hS.cells) (box_neighbours hS) solver hX m
  · rw [hcells, List.map_map]; rfl
  · obtain ⟨k, hk, rfl⟩ := hmem c hc
    exact hmat k C
  · obtain ⟨k, hk, rfl⟩ := hmem c hc
    exact box_hexahedron hS F hF rule _ (fun d => digits_lt N hS.cells k hk d) _ rfl rfl

/-- The hypotheses are met: two by three by one boxes of different sizes, one isotropic material, Simpson's rule, corners and sides of
which are constrained by `periodicBCs`. -/
example (solver : Nat → (Nat → Nat → ℚ) → (Nat → ℚ) → Nat → ℚ) (hX : Exact solver) : ∃ S : Sample ℚ,
    periodicBCs (fun key l => l.insertionSort fun v w => key v ≤ key w) id (1 / 10 ^ 6) (boxMesh ![2, 3, 1] somePlanes)
      (fun d => somePlanes d 0) (fun d => somePlanes d ((![2, 3, 1] : Fin 3 → Nat) d)) (Handler.new 3 24) = some S.handler ∧
    S.cells.length = 6 ∧ ∀ m : Fin 6, upscaleCase solver S m = some ((Elastic.isoC6 (3 : ℚ) (1 / 4) false).2 m) := by
  obtain ⟨h, hh, hbox⟩ := C99_box isSort_insertion id some_spaced hexShapes rfl simpson simpson_exact (by decide +kernel)
  obtain ⟨C, hC, h3, h4⟩ := Elastic.C43_posdef (3 : ℚ) (1 / 4) (by norm_num) (by norm_num) (by norm_num)
  refine ⟨⟨(List.range 6).map fun k => ⟨boxCell ![2, 3, 1] (digits ![2, 3, 1] k), .iso 3 (1 / 4) 0,
    boxPts hexShapes simpson (edges somePlanes (digits ![2, 3, 1] k))⟩, [[[0, 1, 2, 3, 4, 5]]], fun _ _ => 0, 0, 0, 1 / 10 ^ 8, 4, h⟩, hh, rfl, ?_⟩
  rw [hC]
  refine hbox _ (fun _ => .iso 3 (1 / 4) 0) C rfl le_rfl (by norm_num) (List.Perm.refl _) rfl (fun k C' => ⟨true, ?_⟩) h3 (fun e => ?_)
    (fun h => absurd h (lt_irrefl _)) solver hX
  · change some (Elastic.isoC6 (3 : ℚ) (1 / 4) false) = _
    rw [hC]
    unfold scale
    rw [if_neg (lt_irrefl _)]
    simp only [mul_one]
  · by_cases he : e = 0
    · subst he; simp
    · exact (h4 e he).le

/-- **C99** (violated). A cube of eight cells with edges of 0.1 mm, given in metres, has matching sides, but the quads of its sides are
below the absolute limit of the boundary grid: they are dropped, and no counterpart is found for the nodes of the upper sides. -/
theorem C99_violated_small : periodicBCs (fun key l => l.insertionSort fun v w => key v ≤ key w) id (1 / 10 ^ 8)
    (boxMesh ![2, 2, 2] fun _ i => (i : ℚ) / 10000) (fun _ => 0) (fun _ => 2 / 10000) (Handler.new 3 27) = none := by
  decide +kernel

end

end Verif.PBC
