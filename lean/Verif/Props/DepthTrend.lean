import Mathlib.Algebra.Order.Archimedean.Basic
import Mathlib.Tactic.Linarith
import Mathlib.Tactic.Positivity
import Verif.Spec.DepthTrend
import Verif.Props.Chopper
import Verif.Props.Subsample

/-!
C118: the depth trend tool.
-/

namespace Verif.DepthTrend

open Verif.Chopper Verif.Spec.Chop Verif.DepthTrend.Spec

section

variable {K : Type} [Field K] [LinearOrder K]

/-! ### the check of the options -/

/-- **C118.** For positive lengths, the run goes beyond the check of the options exactly when a subsample of the given size fits in the given part of the grid. -/
theorem C118_fits (D : Deck K) (L : Limits K) (hL : limits D = some L) (U : Upscaler K) (o : Opts K) (hi : 0 < o.ilen) (hj : 0 < o.jlen)
    (draws : Nat → Int × Int) (fuel : Nat) :
    (Fits D o → run D L U o draws fuel = loop D L U o draws fuel 0 0 Out.init ⟨[], [], [], [], []⟩) ∧
    (¬ Fits D o → run D L U o draws fuel = .refused ∨ run D L U o draws fuel = .ub) := by
  have hs := C30_shoebox D L hL o.imin o.ilen o.imax o.jmin o.jlen o.jmax o.zmin o.zlen o.zmax
  constructor
  · intro hf
    unfold run
    rw [if_pos (hs.2 ?_), if_pos ?_]
    · have := hf.icol; have := hf.jcol; omega
    · have a1 := hf.i0; have a2 := hf.i1; have a3 := hf.j0; have a4 := hf.j1; have a5 := hf.icol; have a6 := hf.jcol
      exact ⟨by omega, by omega, by omega, by omega, by omega, by omega, hf.top, hf.bot, hf.height⟩
  · intro hf
    unfold run
    split
    · rename_i h
      obtain ⟨b1, b2, b3, b4, b5, b6, b7, b8, b9⟩ := hs.1 h
      rw [if_neg ?_]
      · exact Or.inr rfl
      · rintro ⟨c1, c2⟩
        exact hf ⟨b1, b2, b4, b5, hi, hj, by omega, by omega, b7, b8, b9⟩
    · exact Or.inl rfl

omit [Field K] in
theorem limits_mem (D : Deck K) (L : Limits K) (hL : limits D = some L) :
    L.botmax ∈ D.zcorn ∧ L.topmin ∈ D.zcorn ∧ (L.abszmin ∈ D.zcorn ∧ ∀ x ∈ D.zcorn, L.abszmin ≤ x) ∧
      L.abszmax ∈ D.zcorn ∧ ∀ x ∈ D.zcorn, x ≤ L.abszmax := by
  unfold limits at hL
  split at hL
  · exact absurd hL (by simp)
  · split at hL
    · rename_i b t mn mx h1 h2 h3 h4
      have := Option.some.inj hL
      subst this
      exact ⟨List.mem_of_mem_take (maxElt_spec h1).1, List.mem_of_mem_drop (List.mem_of_mem_take (minElt_spec h2).1), minElt_spec h3, maxElt_spec h4⟩
    · exact absurd hL (by simp)

/-- **C118.** With only the step given, or nothing: subsamples cover all columns and rows and are as high as the step, which is 1 if it is not given; this fits
exactly if the corners of the grid span at least that depth. -/
theorem C118_defaults [IsStrictOrderedRing K] (D : Deck K) (hD : WF D) (L : Limits K) (hL : limits D = some L) (r : Option K) :
    let o := options D.nx D.ny L.botmax L.topmin ⟨none, none, none, none, none, none, none, none, r, none, none, none⟩
    o.ilen = D.nx ∧ o.jlen = D.ny ∧ o.zlen = r.getD 1 ∧ o.zresolution = r.getD 1 ∧ o.upscale = true ∧
      (∀ d, Possible o d ↔ d = (0, 0)) ∧
      (Fits D o ↔ ∃ z ∈ D.zcorn, ∃ z' ∈ D.zcorn, r.getD 1 ≤ z - z') := by
  obtain ⟨m1, m2, ⟨m3, m4⟩, m5, m6⟩ := limits_mem D L hL
  have hnx := hD.nx
  have hny := hD.ny
  refine ⟨by show (D.nx : Int) - 0 = D.nx; omega, by show (D.ny : Int) - 0 = D.ny; omega, rfl, rfl, rfl, ?_, ?_⟩
  · rintro ⟨a, b⟩
    show (((0 : Int) ≤ a ∧ a ≤ D.nx - (D.nx - 0)) ∧ (0 : Int) ≤ b ∧ b ≤ D.ny - (D.ny - 0)) ↔ (a, b) = (0, 0)
    rw [Prod.mk.injEq]
    omega
  · constructor
    · intro h
      obtain ⟨z, hz, z', hz', _, hl⟩ := h.height
      exact ⟨z, hz, z', hz', hl⟩
    · rintro ⟨z, hz, z', hz', hl⟩
      refine ⟨le_refl (0 : Int), le_refl (D.nx : Int), le_refl (0 : Int), le_refl (D.ny : Int), show (0 : Int) < D.nx - 0 by omega, show (0 : Int) < D.ny - 0 by omega,
        show (0 : Int) + (D.nx - 0) ≤ D.nx by omega, show (0 : Int) + (D.ny - 0) ≤ D.ny by omega,
        ⟨_, m1, le_rfl⟩, ⟨_, m2, le_rfl⟩, ⟨_, m5, _, m3, fun x hx => ⟨m4 x hx, m6 x hx⟩, ?_⟩⟩
      show r.getD 1 ≤ _
      have := m6 z hz
      have := m4 z' hz'
      linarith

/-- The request made at a depth where the subsample ends above `zmax`. -/
theorem request_eq [IsStrictOrderedRing K] (D : Deck K) (o : Opts K) (hf : Fits D o) (d : Int × Int) (hd : Possible o d) (z : K) (hz : z ≤ o.zmax - o.zlen) :
    request o d z = boxAt o d z ∧ InGrid D (boxAt o d z) := by
  have a1 := hf.i0; have a2 := hf.i1; have a3 := hf.j0; have a4 := hf.j1; have a5 := hf.ilen; have a6 := hf.jlen
  obtain ⟨⟨d1, d2⟩, d3, d4⟩ := hd
  constructor
  · unfold request boxAt
    rw [min_eq_left (by linarith), show (d.1 + o.ilen).toNat = d.1.toNat + o.ilen.toNat by omega,
      show (d.2 + o.jlen).toNat = d.2.toNat + o.jlen.toNat by omega]
  · unfold InGrid boxAt
    simp only
    omega

/-! ### one subsample -/

theorem rock_iff (D : Deck K) (R : Req K) (zlo zhi h : K) (hz : ZRange D R zlo zhi) (hR : R.zmax = R.zmin + h) :
    Rock D R.zmin h ↔ zlo < zhi := by
  constructor
  · rintro ⟨a, b, hab, h1, h2, h3, h4⟩
    refine lt_of_le_of_lt (?_ : zlo ≤ a) (lt_of_lt_of_le hab ?_)
    · rcases hz.lo_att with e | ⟨i, j, p, q, hi, hj, hp, hq, e⟩
      · rw [e]; exact h1
      · exact h3 i j p q _ hi hj hp hq e
    · rcases hz.hi_att with e | ⟨i, j, p, q, hi, hj, hp, hq, e⟩
      · rw [e, hR]; exact h2
      · exact h4 i j p q _ hi hj hp hq e
  · intro hlt
    exact ⟨zlo, zhi, hlt, hz.lo_req, hR ▸ hz.hi_req, hz.lo_top, hz.hi_bot⟩

variable [IsStrictOrderedRing K]

/-- What a pass of the loop gets from the chopper. -/
theorem chop_at (D : Deck K) (hD : WF D) (L : Limits K) (hL : limits D = some L) (o : Opts K) (hf : Fits D o) (d : Int × Int) (hd : Possible o d)
    (z : K) (hz : z ≤ o.zmax - o.zlen) :
    (Rock D z o.zlen → ∃ sub, chop D L Out.init (request o d z) = .ok sub ∧
      ∃ zlo zhi kmin kmax, ZRange D (boxAt o d z) zlo zhi ∧ IsSubBox D (boxAt o d z) zlo zhi kmin kmax sub) ∧
    (¬ Rock D z o.zlen → ∃ e, chop D L Out.init (request o d z) = .error e) := by
  obtain ⟨e, hg⟩ := request_eq D o hf d hd z hz
  rw [e]
  obtain ⟨zlo, zhi, hr, h1, h2⟩ := C29_chop D hD L hL Out.init (boxAt o d z) hg
  have hri := rock_iff D (boxAt o d z) zlo zhi o.zlen hr rfl
  constructor
  · intro h
    obtain ⟨kmin, kmax, o', a, b, _⟩ := h2 (hri.1 h)
    exact ⟨o', a, zlo, zhi, kmin, kmax, hr, b⟩
  · intro h
    obtain ⟨o', a⟩ := h1 (le_of_not_gt fun hlt => h (hri.2 hlt))
    exact ⟨_, a⟩

omit [IsStrictOrderedRing K] in
theorem chop_init {D : Deck K} {L : Limits K} {ch : Out K} (hu : Untouched D ch) {R : Req K} :
    (∀ sub, chop D L Out.init R = .ok sub → chop D L ch R = .ok sub) ∧
    (∀ e, chop D L Out.init R = .error e → ∃ e', chop D L ch R = .error e') := by
  rcases chop_same D L ch Out.init hu (fun _ _ => rfl) R with ⟨r, h1, h2⟩ | ⟨e, a, b, h1, h2⟩
  · rw [h1, h2]
    exact ⟨fun _ h => h, fun _ h => (by cases h)⟩
  · rw [h1, h2]
    exact ⟨fun _ h => (by cases h), fun _ _ => ⟨_, rfl⟩⟩

/-! ### the table -/

/-- The vectors have one entry for each row of a list. -/
def colsOf (rows : List (Row K)) : Cols K :=
  ⟨rows.map (·.z), rows.map (·.poro), rows.map (·.kx), rows.map (·.ky), rows.map (·.kz)⟩

/-- The line of a subsample, if there is one. -/
def line (U : Upscaler K) (z : K) (sub : Out K) : Option (Row K) :=
  (U.tensor sub).map fun T => ⟨z, U.poro sub, T 0 0 / U.mD, T 1 1 / U.mD, T 2 2 / U.mD⟩

omit [IsStrictOrderedRing K] in
theorem table_colsOf (rows : List (Row K)) : table (colsOf rows) = some rows := by
  unfold table
  rw [show (colsOf rows).poro.length = rows.length from List.length_map _,
    Verif.Pattern.mapM_total (List.range rows.length) _ (fun s => (rows[s]?).getD ⟨0, 0, 0, 0, 0⟩)]
  · congr 1
    apply List.ext_getElem?
    intro i
    by_cases hi : i < rows.length
    · simp [hi]
    · simp [hi]
  · intro s hs
    have hl := List.mem_range.mp hs
    simp [colsOf, List.getElem?_eq_getElem hl]

omit [IsStrictOrderedRing K] in
theorem record_colsOf (U : Upscaler K) (o : Opts K) (hu : o.upscale = true) (z : K) (sub : Out K) (rows : List (Row K)) :
    record U o z sub (colsOf rows) = colsOf (rows ++ (line U z sub).toList) := by
  unfold record line
  rw [if_pos hu]
  cases U.tensor sub with
  | none => simp
  | some T => simp [colsOf, div_eq_mul_inv]

/-- The loop, when all subsamples up to depth number `n` are cut. -/
theorem loop_ok (D : Deck K) (L : Limits K) (U : Upscaler K) (o : Opts K) (hup : o.upscale = true) (draws : Nat → Int × Int) (n : Nat)
    (hin : ∀ k < n, (k : K) * o.zresolution ≤ o.zmax - o.zlen) (hout : ¬ (n : K) * o.zresolution ≤ o.zmax - o.zlen)
    (sub : Nat → Out K) (hsub : ∀ k < n, chop D L Out.init (request o (draws k) (k * o.zresolution)) = .ok (sub k)) :
    ∀ m k, k + m = n → ∀ fuel, m < fuel → ∀ ch, Untouched D ch → ∀ rows,
      loop D L U o draws fuel k (k * o.zresolution) ch (colsOf rows) =
        .printed (rows ++ (List.range' k m).filterMap fun (i : Nat) => line U (i * o.zresolution) (sub i)) := by
  intro m
  induction m with
  | zero =>
    intro k hk fuel hfu ch _ rows
    obtain ⟨f, rfl⟩ : ∃ f, fuel = f + 1 := ⟨fuel - 1, by omega⟩
    have hk : k = n := by omega
    subst hk
    rw [loop, if_neg hout, report, if_pos hup, table_colsOf]
    simp
  | succ m ih =>
    intro k hk fuel hfu ch hch rows
    obtain ⟨f, rfl⟩ : ∃ f, fuel = f + 1 := ⟨fuel - 1, by omega⟩
    have hc := (chop_init hch).1 _ (hsub k (by omega))
    rw [loop, if_pos (hin k (by omega)), hc]
    simp only
    rw [record_colsOf U o hup, show (k : K) * o.zresolution + o.zresolution = ((k + 1 : Nat) : K) * o.zresolution by push_cast; ring,
      ih (k + 1) (by omega) f (by omega) _ ((chop_untouched D L ch hch _).1 _ hc), List.range'_succ, List.filterMap_cons]
    cases hl : line U (k * o.zresolution) (sub k) <;> simp

/-- The loop, when the subsamples before number `n` are cut and number `n` is not. -/
theorem loop_abort (D : Deck K) (L : Limits K) (U : Upscaler K) (o : Opts K) (draws : Nat → Int × Int) (n : Nat)
    (hin : ∀ k ≤ n, (k : K) * o.zresolution ≤ o.zmax - o.zlen)
    (hbad : ∃ e, chop D L Out.init (request o (draws n) (n * o.zresolution)) = .error e) :
    ∀ m k, k + m = n → ∀ fuel, m < fuel → ∀ ch, Untouched D ch → ∀ c,
      loop D L U o draws fuel k (k * o.zresolution) ch c = .aborted := by
  intro m
  induction m with
  | zero =>
    intro k hk fuel hfu ch hch c
    obtain ⟨f, rfl⟩ : ∃ f, fuel = f + 1 := ⟨fuel - 1, by omega⟩
    have hk : k = n := by omega
    subst hk
    obtain ⟨e, he⟩ := hbad
    obtain ⟨e', he'⟩ := (chop_init hch).2 e he
    rw [loop, if_pos (hin k le_rfl), he']
  | succ m ih =>
    intro k hk fuel hfu ch hch c
    obtain ⟨f, rfl⟩ : ∃ f, fuel = f + 1 := ⟨fuel - 1, by omega⟩
    rw [loop, if_pos (hin k (by omega))]
    cases hc : chop D L ch (request o (draws k) (k * o.zresolution)) with
    | error e => rfl
    | ok sub =>
      simp only
      rw [show (k : K) * o.zresolution + o.zresolution = ((k + 1 : Nat) : K) * o.zresolution by push_cast; ring]
      exact ih (k + 1) (by omega) f (by omega) _ ((chop_untouched D L ch hch _).1 _ hc) _

/-- **C118 (partial).** For a well-formed grid, options that fit and a positive step: if there is rock at every depth of the trend, the run ends with a table
that has a line for each of the depths `0, zresolution, 2 * zresolution, …` at which a subsample of the given height ends within `zmax`, in that order and without those
whose upscaling fails. The line has the depth, the porosity and the three diagonal permeabilities in millidarcy of the sub-box of the grid at that depth
with the given numbers of columns and rows. What is missing: the trend should begin at `zmin`. -/
theorem C118_trend_partial [Archimedean K] (D : Deck K) (hD : WF D) (L : Limits K) (hL : limits D = some L) (U : Upscaler K) (o : Opts K)
    (hf : Fits D o) (hup : o.upscale = true) (hz : 0 < o.zresolution) (draws : Nat → Int × Int) (hd : ∀ k, Possible o (draws k))
    (hrock : ∀ k : Nat, (k : K) * o.zresolution + o.zlen ≤ o.zmax → Rock D (k * o.zresolution) o.zlen) :
    ∃ (n : Nat) (sub : Nat → Out K), (∀ k : Nat, k < n ↔ (k : K) * o.zresolution + o.zlen ≤ o.zmax) ∧
      (∀ k < n, ∃ zlo zhi kmin kmax, ZRange D (boxAt o (draws k) (k * o.zresolution)) zlo zhi ∧
        IsSubBox D (boxAt o (draws k) (k * o.zresolution)) zlo zhi kmin kmax (sub k)) ∧
      ∀ fuel, n < fuel → run D L U o draws fuel = .printed ((List.range n).filterMap fun (k : Nat) =>
        (U.tensor (sub k)).map fun T => ⟨k * o.zresolution, U.poro (sub k), T 0 0 / U.mD, T 1 1 / U.mD, T 2 2 / U.mD⟩) := by
  have hex : ∃ n : Nat, ¬ (n : K) * o.zresolution ≤ o.zmax - o.zlen := by
    obtain ⟨n, hn⟩ := exists_nat_gt ((o.zmax - o.zlen) / o.zresolution)
    exact ⟨n, not_le.mpr ((div_lt_iff₀ hz).mp hn)⟩
  classical
  have hmin : ∀ k < Nat.find hex, (k : K) * o.zresolution ≤ o.zmax - o.zlen := fun k hk => not_not.mp (Nat.find_min hex hk)
  have hfind := Nat.find_spec hex
  generalize Nat.find hex = n at hmin hfind
  have hn : ∀ k : Nat, k < n ↔ (k : K) * o.zresolution + o.zlen ≤ o.zmax := by
    intro k
    constructor
    · intro hk
      have := hmin k hk
      linarith
    · intro hk
      by_contra hge
      apply hfind
      have : (n : K) * o.zresolution ≤ (k : K) * o.zresolution :=
        mul_le_mul_of_nonneg_right (by exact_mod_cast (not_lt.mp hge)) hz.le
      linarith
  have hchop : ∀ k, ∃ s, k < n → chop D L Out.init (request o (draws k) (k * o.zresolution)) = .ok s ∧
      ∃ zlo zhi kmin kmax, ZRange D (boxAt o (draws k) (k * o.zresolution)) zlo zhi ∧
        IsSubBox D (boxAt o (draws k) (k * o.zresolution)) zlo zhi kmin kmax s := by
    intro k
    by_cases hk : k < n
    · obtain ⟨s, h1, h2⟩ := (chop_at D hD L hL o hf (draws k) (hd k) _ (hmin k hk)).1 (hrock k ((hn k).1 hk))
      exact ⟨s, fun _ => ⟨h1, h2⟩⟩
    · exact ⟨Out.init, fun h => absurd h hk⟩
  choose sub hsub using hchop
  refine ⟨n, sub, hn, fun k hk => (hsub k hk).2, fun fuel hfu => ?_⟩
  rw [(C118_fits D L hL U o hf.ilen hf.jlen draws fuel).1 hf]
  have := loop_ok D L U o hup draws n hmin hfind sub (fun k hk => (hsub k hk).1) n 0 (by omega) fuel hfu Out.init (fun _ _ => rfl) []
  rw [Nat.cast_zero, zero_mul] at this
  rw [show (⟨[], [], [], [], []⟩ : Cols K) = colsOf [] from rfl, this, List.nil_append, List.range_eq_range']
  rfl

/-- **C118.** If at one of these depths there is no rock, the whole run ends with an exception and there is no table. -/
theorem C118_no_rock (D : Deck K) (hD : WF D) (L : Limits K) (hL : limits D = some L) (U : Upscaler K) (o : Opts K)
    (hf : Fits D o) (hz : 0 ≤ o.zresolution) (draws : Nat → Int × Int) (hd : ∀ k, Possible o (draws k)) (n : Nat)
    (hn : (n : K) * o.zresolution + o.zlen ≤ o.zmax) (hr : ¬ Rock D (n * o.zresolution) o.zlen) :
    ∀ fuel, n < fuel → run D L U o draws fuel = .aborted := by
  intro fuel hfu
  have hin : ∀ k ≤ n, (k : K) * o.zresolution ≤ o.zmax - o.zlen := by
    intro k hk
    have : (k : K) * o.zresolution ≤ (n : K) * o.zresolution := mul_le_mul_of_nonneg_right (by exact_mod_cast hk) hz
    linarith
  rw [(C118_fits D L hL U o hf.ilen hf.jlen draws fuel).1 hf]
  have := loop_abort D L U o draws n hin ((chop_at D hD L hL o hf (draws n) (hd n) _ (hin n le_rfl)).2 hr) n 0 (by omega) fuel hfu
    Out.init (fun _ _ => rfl) ⟨[], [], [], [], []⟩
  rwa [Nat.cast_zero, zero_mul] at this

/-- **C118 (deviation).** The trend begins at depth 0 and not at `zmin`: if a corner of the top of the grid is at least as deep as the subsample is high, the run always
ends with an exception, however `zmin` is chosen. -/
theorem C118_violated_deep (D : Deck K) (hD : WF D) (L : Limits K) (hL : limits D = some L) (U : Upscaler K) (o : Opts K)
    (hf : Fits D o) (draws : Nat → Int × Int) (hd : ∀ k, Possible o (draws k)) (h0 : o.zlen ≤ o.zmax)
    (i j p q : Nat) (t : K) (hi : i < D.nx) (hj : j < D.ny) (hp : p < 2) (hq : q < 2) (ht : depth D i j 0 p q 0 = some t) (hlt : o.zlen ≤ t) :
    ∀ fuel, 0 < fuel → run D L U o draws fuel = .aborted := by
  intro fuel hfu
  have hr : ¬ Rock D 0 o.zlen := by
    rintro ⟨a, b, hab, _, h2, h3, _⟩
    have := h3 i j p q t hi hj hp hq ht
    rw [zero_add] at h2
    exact absurd (lt_of_le_of_lt this hab) (not_lt.mpr (le_trans h2 hlt))
  have hz : (0 : K) ≤ o.zmax - o.zlen := by linarith
  rw [(C118_fits D L hL U o hf.ilen hf.jlen draws fuel).1 hf]
  obtain ⟨f, rfl⟩ : ∃ f, fuel = f + 1 := ⟨fuel - 1, by omega⟩
  obtain ⟨e, he⟩ := (chop_at D hD L hL o hf (draws 0) (hd 0) 0 hz).2 hr
  rw [loop, if_pos hz, he]

/-- **C118 (deviation).** A step of zero is accepted, and the run does not end. -/
theorem C118_violated_forever (D : Deck K) (hD : WF D) (L : Limits K) (hL : limits D = some L) (U : Upscaler K) (o : Opts K)
    (hf : Fits D o) (hz : o.zresolution = 0) (draws : Nat → Int × Int) (hd : ∀ k, Possible o (draws k)) (h0 : o.zlen ≤ o.zmax)
    (hr : Rock D 0 o.zlen) : ∀ fuel, run D L U o draws fuel = .running := by
  intro fuel
  have h0' : (0 : K) ≤ o.zmax - o.zlen := by linarith
  rw [(C118_fits D L hL U o hf.ilen hf.jlen draws fuel).1 hf]
  suffices h : ∀ fuel k ch, Untouched D ch → ∀ c, loop D L U o draws fuel k 0 ch c = .running from h fuel 0 _ (fun _ _ => rfl) _
  intro fuel
  induction fuel with
  | zero => intros; rfl
  | succ f ih =>
    intro k ch hch c
    obtain ⟨s, hs, _⟩ := (chop_at D hD L hL o hf (draws k) (hd k) 0 h0').1 hr
    have hc := (chop_init hch).1 _ hs
    rw [loop, if_pos h0', hc]
    simp only
    rw [hz, add_zero]
    exact ih _ _ ((chop_untouched D L ch hch _).1 _ hc) _

end

/-! ### examples -/

/-- The second column of the example grid, in two subsamples of height 1; `zmin` is 1. -/
def exOpts (zres : ℚ) : Opts ℚ := ⟨1, 2, 0, 1, 1, 2, 1, 1, zres, 1, true, true⟩

/-- An upscaler that reports the sum of the porosities of the cells, and fails for none. -/
def exUp : Upscaler ℚ := ⟨fun s => some fun i _ => i + s.nz, fun s => (s.field "PORO").sum, 1 / 2⟩

theorem exFits (zres : ℚ) : Fits exDeck (exOpts zres) := by
  refine ⟨show (0 : Int) ≤ 1 by decide, show (2 : Int) ≤ (2 : Nat) by decide, show (0 : Int) ≤ 0 by decide, show (1 : Int) ≤ (1 : Nat) by decide,
    show (0 : Int) < 1 by decide, show (0 : Int) < 1 by decide, show (1 : Int) + 1 ≤ 2 by decide, show (0 : Int) + 1 ≤ 1 by decide,
    ⟨0, by decide +kernel, ?_⟩, ⟨2, by decide +kernel, ?_⟩, ⟨2, by decide +kernel, 0, by decide +kernel, ?_⟩⟩
  · show (0 : ℚ) ≤ 1; norm_num
  · show (2 : ℚ) ≤ 2; norm_num
  · refine ⟨by decide +kernel, ?_⟩
    show (1 : ℚ) ≤ 2 - 0; norm_num

theorem exRock (z : ℚ) (h0 : 0 ≤ z) (h1 : z ≤ 1) : Rock exDeck z 1 := by
  refine ⟨z, z + 1, by linarith, le_rfl, le_rfl, ?_, ?_⟩
  · intro i j p q t hi hj hp hq ht
    have : ∀ i < 2, ∀ j < 1, ∀ p < 2, ∀ q < 2, depth exDeck i j 0 p q 0 = some 0 := by decide +kernel
    rw [this i hi j hj p hp q hq] at ht
    cases ht; exact h0
  · intro i j p q t hi hj hp hq ht
    have : ∀ i < 2, ∀ j < 1, ∀ p < 2, ∀ q < 2, depth exDeck i j (exDeck.nz - 1) p q 1 = some 2 := by decide +kernel
    rw [this i hi j hj p hp q hq] at ht
    cases ht; linarith

/-- The hypotheses of `C118_trend_partial` hold for the example. -/
example : WF exDeck ∧ limits exDeck = some ⟨0, 2, 0, 2⟩ ∧ Fits exDeck (exOpts 1) ∧ (∀ k : Nat, Possible (exOpts 1) ((fun _ => (1, 0)) k)) ∧
    ∀ k : Nat, (k : ℚ) * (exOpts 1).zresolution + (exOpts 1).zlen ≤ (exOpts 1).zmax → Rock exDeck (k * (exOpts 1).zresolution) (exOpts 1).zlen := by
  refine ⟨exDeck_wf, Verif.Subsample.exLimits, exFits 1, fun _ => show ((1 : Int) ≤ 1 ∧ (1 : Int) ≤ 2 - 1) ∧ (0 : Int) ≤ 0 ∧ (0 : Int) ≤ 1 - 1 by decide, fun k hk => ?_⟩
  have hk : (k : ℚ) * 1 + 1 ≤ 2 := hk
  exact exRock _ (by show (0 : ℚ) ≤ (k : ℚ) * 1; positivity) (by show (k : ℚ) * 1 ≤ 1; linarith)

/-- **C118 (deviation).** Asked for the depths from 1 to 2, the tool reports a subsample from depth 0 to 1. -/
theorem C118_violated_zmin : (exOpts 1).zmin = 1 ∧
    ∃ rows, run exDeck ⟨0, 2, 0, 2⟩ exUp (exOpts 1) (fun _ => (1, 0)) 3 = .printed rows ∧
      rows = [⟨0, 2 / 10, 2, 4, 6⟩, ⟨1, 4 / 10, 2, 4, 6⟩] := by
  refine ⟨rfl, ?_⟩
  have h : (match run exDeck ⟨0, 2, 0, 2⟩ exUp (exOpts 1) (fun _ => (1, 0)) 3 with | .printed rows => some rows | _ => none) =
      some [⟨0, 2 / 10, 2, 4, 6⟩, ⟨1, 4 / 10, 2, 4, 6⟩] := by decide +kernel
  split at h
  · rename_i rows e
    exact ⟨rows, e, Option.some.inj h⟩
  · cases h

/-- The example grid ten units deeper. -/
def deepDeck : Deck ℚ := { exDeck with zcorn := exDeck.zcorn.map (· + 10) }

/-- With the defaults, and a grid at depth 10, there is no table: the hypotheses of `C118_violated_deep` hold. -/
example : WF deepDeck ∧ limits deepDeck = some ⟨10, 12, 10, 12⟩ ∧
    Fits deepDeck (options 2 1 10 12 ⟨none, none, none, none, none, none, none, none, none, none, none, none⟩) ∧
    depth deepDeck 0 0 0 0 0 0 = some 10 := by
  refine ⟨⟨by decide, by decide, by decide, by decide, by decide, exDeck_wf.field⟩, ?_, ?_, by decide +kernel⟩
  · have h : (limits deepDeck).map (fun L => (L.botmax, L.topmin, L.abszmin, L.abszmax)) = some (10, 12, 10, 12) := by decide +kernel
    obtain ⟨⟨a, b, c, d⟩, e, h⟩ := Option.map_eq_some_iff.mp h
    simp only [Prod.mk.injEq] at h
    obtain ⟨rfl, rfl, rfl, rfl⟩ := h
    exact e
  · refine ⟨by decide, by decide, by decide, by decide, by decide, by decide, by decide, by decide, ⟨10, by decide +kernel, ?_⟩, ⟨12, by decide +kernel, ?_⟩, ⟨12, by decide +kernel, 10, by decide +kernel, ?_⟩⟩
    · show (10 : ℚ) ≤ 10; norm_num
    · show (12 : ℚ) ≤ 12; norm_num
    · refine ⟨by decide +kernel, ?_⟩
      show (1 : ℚ) ≤ 12 - 10; norm_num

/-- A step of zero. -/
example : Fits exDeck (exOpts 0) ∧ Rock exDeck 0 (exOpts 0).zlen := ⟨exFits 0, exRock 0 le_rfl (by norm_num)⟩

/-- Between the two layers' ends: at depth 3 there is no rock in the example. -/
example : ¬ Rock exDeck 3 1 := by
  rintro ⟨a, b, hab, h1, _, _, h4⟩
  have := h4 0 0 0 0 2 (by decide) (by decide) (by decide) (by decide) (by decide +kernel)
  linarith

end Verif.DepthTrend
