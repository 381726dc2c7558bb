import Mathlib.Tactic.Linarith
import Mathlib.Analysis.Real.Sqrt
import Verif.Spec.Variogram
import Verif.Props.DepthTrend

/-!
C119: the experimental variogram.
-/

namespace Verif.Variogram

open Verif.Chopper Verif.Spec.Chop Verif.Variogram.Spec
open Verif.DepthTrend (Upscaler chop_init)

section

variable {K : Type} [Field K] [LinearOrder K]

/-! ### the pairs -/

/-- **C119.** For options that fit, both subsamples of every pair lie in the given columns and rows and begin at or below `zmin`; they end within `zmax` if
a subsample fits between the two depths. Horizontal pairs have the same depth, vertical pairs the same columns and rows. -/
theorem C119_pair_partial [IsStrictOrderedRing K] (D : Deck K) (o : Opts K) (hf : Fits D o) (d : Draw K) (hd : Possible o d) :
    (∀ s ∈ [first d, second o d],
      (o.imin ≤ s.i ∧ s.i + o.ilen ≤ o.imax) ∧ (o.jmin ≤ s.j ∧ s.j + o.jlen ≤ o.jmax) ∧ o.zmin ≤ s.z ∧
      (o.zmin + o.zlen ≤ o.zmax → s.z + o.zlen ≤ o.zmax) ∧
      request o s = boxAt o s.i s.j s.z ∧ InGrid D (boxAt o s.i s.j s.z)) ∧
    ((o.direction = "vertical" ∨ o.direction = "vert") → (second o d).i = (first d).i ∧ (second o d).j = (first d).j ∧ (second o d).z = d.z2) ∧
    (¬ (o.direction = "vertical" ∨ o.direction = "vert") → (second o d).i = d.i2 ∧ (second o d).j = d.j2 ∧ (second o d).z = (first d).z) := by
  obtain ⟨hi, hj, hz⟩ := hd
  have key : ∀ i ∈ [d.i1, d.i2], ∀ j ∈ [d.j1, d.j2], ∀ z ∈ [d.z1, d.z2],
      (o.imin ≤ i ∧ i + o.ilen ≤ o.imax) ∧ (o.jmin ≤ j ∧ j + o.jlen ≤ o.jmax) ∧ o.zmin ≤ z ∧
      (o.zmin + o.zlen ≤ o.zmax → z + o.zlen ≤ o.zmax) ∧
      request o ⟨i, j, z⟩ = boxAt o i j z ∧ InGrid D (boxAt o i j z) := by
    intro i mi j mj z mz
    have a1 := hf.i0; have a2 := hf.i1; have a3 := hf.j0; have a4 := hf.j1; have a5 := hf.ilen; have a6 := hf.jlen
    obtain ⟨b1, b2⟩ := hi i mi
    obtain ⟨b3, b4⟩ := hj j mj
    obtain ⟨b5, b6⟩ := hz z mz
    refine ⟨⟨b1, by omega⟩, ⟨b3, by omega⟩, b5, fun hr => ?_, ?_, ?_⟩
    · rcases b6 with b6 | ⟨b6, _⟩
      · rw [max_eq_left (by linarith)] at b6; linarith
      · rw [b6]; exact hr
    · unfold request boxAt
      simp only
      rw [show (i + o.ilen).toNat = i.toNat + o.ilen.toNat by omega, show (j + o.jlen).toNat = j.toNat + o.jlen.toNat by omega]
    · unfold InGrid boxAt
      simp only
      omega
  refine ⟨?_, ?_, ?_⟩
  · intro s hs
    rcases List.mem_cons.mp hs with rfl | hs
    · exact key d.i1 (by simp) d.j1 (by simp) d.z1 (by simp)
    · obtain rfl := List.mem_singleton.mp hs
      unfold second
      split
      · exact key d.i1 (by simp) d.j1 (by simp) d.z2 (by simp)
      · exact key d.i2 (by simp) d.j2 (by simp) d.z1 (by simp)
  · intro h
    have : vertical o = true := by unfold vertical; simpa using h
    rw [second, if_pos this]
    exact ⟨rfl, rfl, rfl⟩
  · intro h
    have : ¬ vertical o = true := by unfold vertical; simpa using h
    rw [second, if_neg this]
    exact ⟨rfl, rfl, rfl⟩

/-! ### one pass -/

def colsOf (rows : List (Row K)) : Cols K :=
  ⟨rows.map (·.dist), rows.map (·.poro), rows.map (·.kx), rows.map (·.ky), rows.map (·.kz)⟩

/-- The line of a pair. -/
def line (U : Upscaler K) (δ : K) (s1 : Out K) (T1 : Nat → Nat → K) (s2 : Out K) (T2 : Nat → Nat → K) : Row K :=
  ⟨δ, |U.poro s2 - U.poro s1|, |T2 0 0 / U.mD - T1 0 0 / U.mD|, |T2 1 1 / U.mD - T1 1 1 / U.mD|, |T2 2 2 / U.mD - T1 2 2 / U.mD|⟩

theorem table_colsOf (o : Opts K) (rows : List (Row K)) (h : rows.length = o.pairs.toNat) : table o (colsOf rows) = some rows := by
  unfold table
  rw [← h, Verif.Pattern.mapM_total (List.range rows.length) _ (fun s => (rows[s]?).getD ⟨0, 0, 0, 0, 0⟩)]
  · congr 1
    apply List.ext_getElem?
    intro i
    by_cases hi : i < rows.length
    · simp [hi]
    · simp [hi]
  · intro s hs
    have hl := List.mem_range.mp hs
    simp [colsOf, List.getElem?_eq_getElem hl]

theorem take_ok {D : Deck K} {L : Limits K} {U : Upscaler K} {ch : Out K} (hu : Untouched D ch) {R : Req K} {sub : Out K} {T : Nat → Nat → K}
    (h1 : chop D L Out.init R = .ok sub) (h2 : U.tensor sub = some T) :
    take D L U ch R = some (sub, ⟨U.poro sub, T 0 0 / U.mD, T 1 1 / U.mD, T 2 2 / U.mD⟩) := by
  unfold take
  rw [(chop_init hu).1 _ h1]
  simp only [h2, div_eq_mul_inv, one_mul]

theorem take_inv {D : Deck K} {L : Limits K} {U : Upscaler K} {ch : Out K} (hu : Untouched D ch) {R : Req K} {r : Out K × Sample K}
    (h : take D L U ch R = some r) : Untouched D r.1 ∧ ∃ T, chop D L Out.init R = .ok r.1 ∧ U.tensor r.1 = some T := by
  unfold take at h
  cases hc : chop D L ch R with
  | error e => rw [hc] at h; cases h
  | ok sub =>
    rw [hc] at h
    simp only at h
    cases hT : U.tensor sub with
    | none => rw [hT] at h; cases h
    | some T =>
      rw [hT] at h
      obtain rfl := Option.some.inj h
      refine ⟨(chop_untouched D L ch hu R).1 _ hc, T, ?_, hT⟩
      rcases chop_same D L ch Out.init hu (fun _ _ => rfl) R with ⟨r, h1, h2⟩ | ⟨e, a, b, h1, h2⟩
      · rw [hc] at h1; cases h1; exact h2
      · rw [hc] at h1; cases h1

theorem pass_ok {D : Deck K} {L : Limits K} {U : Upscaler K} {sqrt : K → K} {o : Opts K} {draws : Nat → Draw K} {ch : Out K} (hu : Untouched D ch)
    {p : Nat} {s1 s2 : Out K} {T1 T2 : Nat → Nat → K}
    (h1 : chop D L Out.init (request o (first (draws p))) = .ok s1) (h1' : U.tensor s1 = some T1)
    (h2 : chop D L Out.init (request o (second o (draws p))) = .ok s2) (h2' : U.tensor s2 = some T2) (rows : List (Row K)) :
    pass D L U sqrt o draws (ch, colsOf rows) p =
      some (s2, colsOf (rows ++ [line U (distance sqrt o (first (draws p)) (second o (draws p))) s1 T1 s2 T2])) ∧ Untouched D s2 := by
  have t1 := take_ok (U := U) hu h1 h1'
  have u1 := (take_inv hu t1).1
  have t2 := take_ok (U := U) u1 h2 h2'
  have u2 := (take_inv u1 t2).1
  refine ⟨?_, u2⟩
  unfold pass
  simp only [t1, t2, Option.bind_eq_bind, Option.bind_some, Option.pure_def]
  simp [colsOf, line]

theorem pass_inv {D : Deck K} {L : Limits K} {U : Upscaler K} {sqrt : K → K} {o : Opts K} {draws : Nat → Draw K} {st st' : Out K × Cols K}
    (hu : Untouched D st.1) {p : Nat} (h : pass D L U sqrt o draws st p = some st') : Untouched D st'.1 ∧
      (∃ s T, chop D L Out.init (request o (first (draws p))) = .ok s ∧ U.tensor s = some T) ∧
      (∃ s T, chop D L Out.init (request o (second o (draws p))) = .ok s ∧ U.tensor s = some T) := by
  unfold pass at h
  simp only [Option.bind_eq_bind, Option.pure_def] at h
  cases t1 : take D L U st.1 (request o (first (draws p))) with
  | none => rw [t1] at h; cases h
  | some a =>
    rw [t1, Option.bind_some] at h
    obtain ⟨u1, T1, e1, e1'⟩ := take_inv hu t1
    cases t2 : take D L U a.1 (request o (second o (draws p))) with
    | none => rw [t2] at h; cases h
    | some b =>
      rw [t2, Option.bind_some] at h
      obtain ⟨u2, T2, e2, e2'⟩ := take_inv u1 t2
      obtain rfl := Option.some.inj h
      exact ⟨u2, ⟨_, T1, e1, e1'⟩, ⟨_, T2, e2, e2'⟩⟩

theorem passes_ok {D : Deck K} {L : Limits K} {U : Upscaler K} {sqrt : K → K} {o : Opts K} {draws : Nat → Draw K} {s1 s2 : Nat → Out K}
    {T1 T2 : Nat → Nat → Nat → K} (n : Nat)
    (h1 : ∀ p < n, chop D L Out.init (request o (first (draws p))) = .ok (s1 p) ∧ U.tensor (s1 p) = some (T1 p))
    (h2 : ∀ p < n, chop D L Out.init (request o (second o (draws p))) = .ok (s2 p) ∧ U.tensor (s2 p) = some (T2 p)) :
    ∃ ch, (List.range n).foldlM (pass D L U sqrt o draws) (Out.init, colsOf []) =
      some (ch, colsOf ((List.range n).map fun p =>
        line U (distance sqrt o (first (draws p)) (second o (draws p))) (s1 p) (T1 p) (s2 p) (T2 p))) ∧ Untouched D ch := by
  induction n with
  | zero => exact ⟨Out.init, rfl, fun _ _ => rfl⟩
  | succ n ih =>
    obtain ⟨ch, e, hu⟩ := ih (fun p hp => h1 p (by omega)) (fun p hp => h2 p (by omega))
    obtain ⟨e2, hu2⟩ := pass_ok (sqrt := sqrt) hu (h1 n (by omega)).1 (h1 n (by omega)).2 (h2 n (by omega)).1 (h2 n (by omega)).2
      ((List.range n).map fun p => line U (distance sqrt o (first (draws p)) (second o (draws p))) (s1 p) (T1 p) (s2 p) (T2 p))
    refine ⟨s2 n, ?_, hu2⟩
    rw [List.range_succ, List.foldlM_append, e]
    simp only [Option.bind_eq_bind, Option.bind_some]
    rw [List.foldlM_cons, e2]
    simp

theorem passes_inv {D : Deck K} {L : Limits K} {U : Upscaler K} {sqrt : K → K} {o : Opts K} {draws : Nat → Draw K} (n : Nat) {st : Out K × Cols K}
    (h : (List.range n).foldlM (pass D L U sqrt o draws) (Out.init, colsOf []) = some st) : Untouched D st.1 ∧ ∀ p < n,
      (∃ s T, chop D L Out.init (request o (first (draws p))) = .ok s ∧ U.tensor s = some T) ∧
      (∃ s T, chop D L Out.init (request o (second o (draws p))) = .ok s ∧ U.tensor s = some T) := by
  induction n generalizing st with
  | zero => obtain rfl := Option.some.inj h; exact ⟨fun _ _ => rfl, fun p hp => absurd hp (by omega)⟩
  | succ n ih =>
    rw [List.range_succ, List.foldlM_append] at h
    cases e : (List.range n).foldlM (pass D L U sqrt o draws) (Out.init, colsOf []) with
    | none => rw [e] at h; cases h
    | some a =>
      rw [e] at h
      simp only [Option.bind_eq_bind, Option.bind_some] at h
      rw [List.foldlM_cons] at h
      cases e2 : pass D L U sqrt o draws a n with
      | none => rw [e2] at h; cases h
      | some b =>
        rw [e2] at h
        obtain rfl := Option.some.inj h
        obtain ⟨hu, ha⟩ := ih e
        obtain ⟨hu2, hb⟩ := pass_inv hu e2
        refine ⟨hu2, fun p hp => ?_⟩
        by_cases hpn : p < n
        · exact ha p hpn
        · obtain rfl : p = n := by omega
          exact hb

/-! ### the run -/

/-- The run for options that fit. -/
theorem run_fits (D : Deck K) (L : Limits K) (hL : limits D = some L) (U : Upscaler K) (sqrt : K → K) (o : Opts K) (hf : Fits D o) (draws : Nat → Draw K) :
    run D L U sqrt o draws = match (List.range o.pairs.toNat).foldlM (pass D L U sqrt o draws) (Out.init, colsOf []) with
      | none => .aborted
      | some st =>
        match table o st.2 with
        | none => .ub
        | some rows => .printed (if vertical o then "zcorn" else "cells") rows := by
  have hs := C30_shoebox D L hL o.imin o.ilen o.imax o.jmin o.jlen o.jmax o.zmin o.zlen o.zmax
  have a1 := hf.i0; have a2 := hf.i1; have a3 := hf.j0; have a4 := hf.j1; have a5 := hf.icol; have a6 := hf.jcol
  have a7 := hf.ilen; have a8 := hf.jlen
  unfold run
  rw [if_neg ?_, if_pos (hs.2 ⟨by omega, by omega, by omega, by omega, by omega, by omega, hf.top, hf.bot, hf.height⟩), if_pos (by omega)]
  · rfl
  · rintro (h | h | h)
    · omega
    · omega
    · exact absurd h (not_le.mpr hf.zlen)

/-- **C119.** A size that is not positive ends the program with a message; other options that do not fit give no table either. -/
theorem C119_refused (D : Deck K) (L : Limits K) (hL : limits D = some L) (U : Upscaler K) (sqrt : K → K) (o : Opts K) (draws : Nat → Draw K) (hf : ¬ Fits D o) :
    ((o.ilen ≤ 0 ∨ o.jlen ≤ 0 ∨ o.zlen ≤ 0) → run D L U sqrt o draws = .exits) ∧
    (¬ (o.ilen ≤ 0 ∨ o.jlen ≤ 0 ∨ o.zlen ≤ 0) → run D L U sqrt o draws = .refused ∨ run D L U sqrt o draws = .ub) := by
  have hs := C30_shoebox D L hL o.imin o.ilen o.imax o.jmin o.jlen o.jmax o.zmin o.zlen o.zmax
  constructor
  · intro h
    rw [run, if_pos h]
  · intro h
    rw [run, if_neg h]
    split
    · rename_i h'
      obtain ⟨b1, b2, b3, b4, b5, b6, b7, b8, b9⟩ := hs.1 h'
      rw [if_neg ?_]
      · exact Or.inr rfl
      · rintro ⟨c1, c2⟩
        exact hf ⟨b1, b2, b4, b5, not_le.mp fun x => h (.inl x), not_le.mp fun x => h (.inr (.inl x)), not_le.mp fun x => h (.inr (.inr x)),
          by omega, by omega, b7, b8, b9⟩
    · exact Or.inl rfl

/-- **C119.** For options that fit and any draws: if every subsample of every pair can be cut and upscaled, the table has one line for each pair, in order. The
horizontal variogram compares the subsamples at two places of the same depth, with the square root of the sum of the squared differences of column and row as distance;
the vertical one compares two depths at the same place, with the difference of depth as distance. -/
theorem C119_table [IsStrictOrderedRing K] (D : Deck K) (L : Limits K) (hL : limits D = some L) (U : Upscaler K) (sqrt : K → K) (o : Opts K)
    (hf : Fits D o) (draws : Nat → Draw K) (hd : ∀ p, Possible o (draws p)) (s1 s2 : Nat → Out K) (T1 T2 : Nat → Nat → Nat → K)
    (h1 : ∀ p < o.pairs.toNat, Cut D L U o (draws p).i1 (draws p).j1 (draws p).z1 (s1 p) (T1 p)) :
    ((o.direction = "vertical" ∨ o.direction = "vert") →
      (∀ p < o.pairs.toNat, Cut D L U o (draws p).i1 (draws p).j1 (draws p).z2 (s2 p) (T2 p)) →
      ∃ rows, run D L U sqrt o draws = .printed "zcorn" rows ∧ rows.length = o.pairs.toNat ∧
        ∀ p r, rows[p]? = some r → Differs U (s1 p) (T1 p) (s2 p) (T2 p) r ∧ r.dist = |(draws p).z2 - (draws p).z1|) ∧
    (¬ (o.direction = "vertical" ∨ o.direction = "vert") →
      (∀ p < o.pairs.toNat, Cut D L U o (draws p).i2 (draws p).j2 (draws p).z1 (s2 p) (T2 p)) →
      ∃ rows, run D L U sqrt o draws = .printed "cells" rows ∧ rows.length = o.pairs.toNat ∧
        ∀ p r, rows[p]? = some r → Differs U (s1 p) (T1 p) (s2 p) (T2 p) r ∧
          r.dist = sqrt ((((draws p).i2 : K) - (draws p).i1) ^ 2 + (((draws p).j2 : K) - (draws p).j1) ^ 2)) := by
  have key : (∀ p < o.pairs.toNat, Cut D L U o (second o (draws p)).i (second o (draws p)).j (second o (draws p)).z (s2 p) (T2 p)) →
      ∃ rows, run D L U sqrt o draws = .printed (if vertical o then "zcorn" else "cells") rows ∧ rows.length = o.pairs.toNat ∧
        ∀ p r, rows[p]? = some r → Differs U (s1 p) (T1 p) (s2 p) (T2 p) r ∧ r.dist = distance sqrt o (first (draws p)) (second o (draws p)) := by
    intro h2
    have g1 : ∀ p < o.pairs.toNat, chop D L Out.init (request o (first (draws p))) = .ok (s1 p) ∧ U.tensor (s1 p) = some (T1 p) := by
      intro p hp
      rw [((C119_pair_partial D o hf _ (hd p)).1 (first (draws p)) (by simp)).2.2.2.2.1]
      exact h1 p hp
    have g2 : ∀ p < o.pairs.toNat, chop D L Out.init (request o (second o (draws p))) = .ok (s2 p) ∧ U.tensor (s2 p) = some (T2 p) := by
      intro p hp
      rw [((C119_pair_partial D o hf _ (hd p)).1 (second o (draws p)) (by simp)).2.2.2.2.1]
      exact h2 p hp
    obtain ⟨ch, e, _⟩ := passes_ok (sqrt := sqrt) o.pairs.toNat g1 g2
    refine ⟨(List.range o.pairs.toNat).map fun p =>
      line U (distance sqrt o (first (draws p)) (second o (draws p))) (s1 p) (T1 p) (s2 p) (T2 p), ?_, ?_, ?_⟩
    · rw [run_fits D L hL U sqrt o hf, e]
      simp only
      rw [table_colsOf o _ (by simp)]
    · simp
    · intro p r hr
      rw [List.getElem?_map] at hr
      by_cases hp : p < o.pairs.toNat
      · rw [List.getElem?_range hp] at hr
        obtain rfl := Option.some.inj hr
        exact ⟨⟨rfl, rfl, rfl, rfl⟩, rfl⟩
      · rw [List.getElem?_eq_none (by simpa using hp)] at hr
        cases hr
  constructor
  · intro hv h2
    have hv' : vertical o = true := by unfold vertical; simpa using hv
    obtain ⟨rows, e, hl, hr⟩ := key (fun p hp => by rw [second, if_pos hv']; exact h2 p hp)
    rw [if_pos hv'] at e
    refine ⟨rows, e, hl, fun p r h => ⟨(hr p r h).1, ?_⟩⟩
    rw [(hr p r h).2, distance, if_pos hv', second, if_pos hv']
    rfl
  · intro hv h2
    have hv' : ¬ vertical o = true := by unfold vertical; simpa using hv
    obtain ⟨rows, e, hl, hr⟩ := key (fun p hp => by rw [second, if_neg hv']; exact h2 p hp)
    rw [if_neg hv'] at e
    refine ⟨rows, e, hl, fun p r h => ⟨(hr p r h).1, ?_⟩⟩
    rw [(hr p r h).2, distance, if_neg hv', second, if_neg hv']
    simp only [first]
    push_cast
    rfl

/-- **C119.** A single subsample that cannot be cut or upscaled is enough: the program ends with an exception and there is no table. -/
theorem C119_all_or_nothing [IsStrictOrderedRing K] (D : Deck K) (L : Limits K) (hL : limits D = some L) (U : Upscaler K) (sqrt : K → K) (o : Opts K)
    (hf : Fits D o) (draws : Nat → Draw K) (hd : ∀ p, Possible o (draws p)) (p : Nat) (hp : p < o.pairs.toNat)
    (h : (¬ ∃ s T, Cut D L U o (draws p).i1 (draws p).j1 (draws p).z1 s T) ∨
      ((o.direction = "vertical" ∨ o.direction = "vert") ∧ ¬ ∃ s T, Cut D L U o (draws p).i1 (draws p).j1 (draws p).z2 s T) ∨
      (¬ (o.direction = "vertical" ∨ o.direction = "vert") ∧ ¬ ∃ s T, Cut D L U o (draws p).i2 (draws p).j2 (draws p).z1 s T)) :
    run D L U sqrt o draws = .aborted := by
  rw [run_fits D L hL U sqrt o hf]
  cases e : (List.range o.pairs.toNat).foldlM (pass D L U sqrt o draws) (Out.init, colsOf []) with
  | none => rfl
  | some st =>
    exfalso
    obtain ⟨⟨s, T, c1, c2⟩, s', T', c3, c4⟩ := (passes_inv _ e).2 p hp
    obtain ⟨hb, hv, hh⟩ := C119_pair_partial D o hf _ (hd p)
    rw [(hb (first (draws p)) (by simp)).2.2.2.2.1] at c1
    rw [(hb (second o (draws p)) (by simp)).2.2.2.2.1] at c3
    rcases h with h | ⟨hd', h⟩ | ⟨hd', h⟩
    · exact h ⟨s, T, c1, c2⟩
    · obtain ⟨x, y, z⟩ := hv hd'
      rw [x, y, z] at c3
      exact h ⟨s', T', c3, c4⟩
    · obtain ⟨x, y, z⟩ := hh hd'
      rw [x, y, z] at c3
      exact h ⟨s', T', c3, c4⟩

/-- **C119.** A subsample can be cut exactly if there is rock in every column of the grid at its depth; then it is the sub-box of the grid with its columns, rows and depths. -/
theorem C119_cut [IsStrictOrderedRing K] (D : Deck K) (hD : WF D) (L : Limits K) (hL : limits D = some L) (U : Upscaler K) (hU : ∀ s, (U.tensor s).isSome) (o : Opts K)
    (hf : Fits D o) (d : Draw K) (hd : Possible o d) (s : Start K) (hs : s ∈ [first d, second o d]) :
    (DepthTrend.Spec.Rock D s.z o.zlen ↔ ∃ sub T, Cut D L U o s.i s.j s.z sub T) ∧
    ∀ sub T, Cut D L U o s.i s.j s.z sub T → ∃ zlo zhi kmin kmax, ZRange D (boxAt o s.i s.j s.z) zlo zhi ∧ IsSubBox D (boxAt o s.i s.j s.z) zlo zhi kmin kmax sub := by
  obtain ⟨_, _, _, _, _, hg⟩ := (C119_pair_partial D o hf d hd).1 s hs
  obtain ⟨zlo, zhi, hr, h1, h2⟩ := C29_chop D hD L hL Out.init (boxAt o s.i s.j s.z) hg
  have hri := DepthTrend.rock_iff D (boxAt o s.i s.j s.z) zlo zhi o.zlen hr rfl
  have hbad : ¬ zlo < zhi → ∀ sub, chop D L Out.init (boxAt o s.i s.j s.z) ≠ .ok sub := by
    intro hn sub hc
    obtain ⟨o', e⟩ := h1 (not_lt.mp hn)
    rw [e] at hc
    cases hc
  constructor
  · constructor
    · intro h
      obtain ⟨kmin, kmax, o', a, b, _⟩ := h2 (hri.1 h)
      obtain ⟨T, hT⟩ := Option.isSome_iff_exists.mp (hU o')
      exact ⟨o', T, a, hT⟩
    · rintro ⟨sub, T, hc, _⟩
      by_contra hn
      exact hbad (fun h => hn (hri.2 h)) sub hc
  · rintro sub T ⟨hc, _⟩
    by_cases hlt : zlo < zhi
    · obtain ⟨kmin, kmax, o', a, b, _⟩ := h2 hlt
      rw [a] at hc
      cases hc
      exact ⟨zlo, zhi, kmin, kmax, hr, b⟩
    · exact absurd hc (hbad hlt sub)

end

/-! ### examples -/

/-- Pairs of unit subsamples of the example grid. -/
def exOpts (dir : String) : Opts ℚ := ⟨0, 2, 0, 1, 0, 2, 2, 1, 1, 1, dir⟩

def exDraws : Nat → Draw ℚ
  | 0 => ⟨0, 0, 0, 1, 0, 1 / 2⟩
  | _ => ⟨1, 0, 1 / 4, 1, 0, 3 / 4⟩

/-- A square root that is right for 0 and 1. -/
def exSqrt (x : ℚ) : ℚ := x

theorem exFits (dir : String) : Fits exDeck (exOpts dir) := by
  refine ⟨show (0 : Int) ≤ 0 by decide, show (2 : Int) ≤ (2 : Nat) by decide, show (0 : Int) ≤ 0 by decide, show (1 : Int) ≤ (1 : Nat) by decide,
    show (0 : Int) < 1 by decide, show (0 : Int) < 1 by decide, show (0 : ℚ) < 1 by norm_num, show (0 : Int) + 1 ≤ 2 by decide, show (0 : Int) + 1 ≤ 1 by decide,
    ⟨0, by decide +kernel, ?_⟩, ⟨2, by decide +kernel, ?_⟩, ⟨2, by decide +kernel, 0, by decide +kernel, ?_⟩⟩
  · show (0 : ℚ) ≤ 0; norm_num
  · show (2 : ℚ) ≤ 2; norm_num
  · refine ⟨by decide +kernel, ?_⟩
    show (1 : ℚ) ≤ 2 - 0; norm_num

theorem exPossible (dir : String) (p : Nat) : Possible (exOpts dir) (exDraws p) := by
  have e : Possible (exOpts dir) (exDraws p) = Possible (exOpts "") (exDraws p) := rfl
  rw [e]
  cases p with
  | zero => unfold Possible; decide +kernel
  | succ p => show Possible (exOpts "") ⟨1, 0, 1 / 4, 1, 0, 3 / 4⟩; unfold Possible; decide +kernel

/-- What is printed. -/
def shown (r : Result ℚ) : Option (String × List (Row ℚ)) :=
  match r with
  | .printed m rows => some (m, rows)
  | _ => none

/-- The two variograms of the example. -/
example : shown (run exDeck ⟨0, 2, 0, 2⟩ DepthTrend.exUp exSqrt (exOpts "vertical") exDraws) =
      some ("zcorn", [⟨1 / 2, 3 / 10, 2, 2, 2⟩, ⟨1 / 2, 0, 0, 0, 0⟩]) ∧
    shown (run exDeck ⟨0, 2, 0, 2⟩ DepthTrend.exUp exSqrt (exOpts "horizontal") exDraws) =
      some ("cells", [⟨1, 1 / 10, 0, 0, 0⟩, ⟨0, 0, 0, 0, 0⟩]) := by
  decide +kernel

/-- The hypotheses of `C119_table` hold for the example: both subsamples of every pair can be cut. -/
example (dir : String) (p : Nat) : WF exDeck ∧ limits exDeck = some ⟨0, 2, 0, 2⟩ ∧ Fits exDeck (exOpts dir) ∧ Possible (exOpts dir) (exDraws p) ∧
    ∃ sub T, Cut exDeck ⟨0, 2, 0, 2⟩ DepthTrend.exUp (exOpts dir) (exDraws p).i1 (exDraws p).j1 (exDraws p).z1 sub T := by
  refine ⟨exDeck_wf, Verif.Subsample.exLimits, exFits dir, exPossible dir p, ?_⟩
  refine (C119_cut exDeck exDeck_wf ⟨0, 2, 0, 2⟩ Verif.Subsample.exLimits DepthTrend.exUp (fun _ => rfl) (exOpts dir) (exFits dir) (exDraws p)
    (exPossible dir p) (first (exDraws p)) (by simp)).1.1 ?_
  cases p with
  | zero => exact DepthTrend.exRock 0 le_rfl (by norm_num)
  | succ p => exact DepthTrend.exRock (1 / 4) (by norm_num) (by norm_num)

/-- **C119 (deviation).** A direction that is not known is not refused: the result is that of the horizontal variogram. -/
theorem C119_violated_direction {K : Type} [Field K] [LinearOrder K] (D : Deck K) (L : Limits K) (U : Upscaler K) (sqrt : K → K) (o : Opts K)
    (draws : Nat → Draw K) (s : String) (h1 : s ≠ "vertical") (h2 : s ≠ "vert") :
    run D L U sqrt { o with direction := s } draws = run D L U sqrt { o with direction := "horizontal" } draws := by
  have e1 : vertical { o with direction := s } = false := by unfold vertical; simp [h1, h2]
  have e2 : vertical { o with direction := "horizontal" } = false := by unfold vertical; rfl
  have es : ∀ d, second { o with direction := s } d = second { o with direction := "horizontal" } d := by
    intro d; unfold second; rw [e1, e2]
  have ed : ∀ a b, distance sqrt { o with direction := s } a b = distance sqrt { o with direction := "horizontal" } a b := by
    intro a b; unfold distance; rw [e1, e2]
  have ep : pass D L U sqrt { o with direction := s } draws = pass D L U sqrt { o with direction := "horizontal" } draws := by
    funext st p
    unfold pass
    simp only [es, ed]
    rfl
  unfold run
  rw [ep, e1, e2]
  rfl

/-- "Vertical" with a capital letter gives the horizontal variogram. -/
example : shown (run exDeck ⟨0, 2, 0, 2⟩ DepthTrend.exUp exSqrt (exOpts "Vertical") exDraws) =
    some ("cells", [⟨1, 1 / 10, 0, 0, 0⟩, ⟨0, 0, 0, 0, 0⟩]) := by
  decide +kernel

/-- **C119 (deviation).** Subsamples higher than the interval from `zmin` to `zmax` are accepted, and the part of the grid below `zmax` is sampled: here
the depths 0 to 1 are asked for, and the subsamples reach down to 2. -/
theorem C119_violated_zmax :
    let o : Opts ℚ := ⟨0, 2, 0, 1, 0, 1, 1, 1, 1, 2, "horizontal"⟩
    Fits exDeck o ∧ Possible o ⟨0, 0, 0, 1, 0, 0⟩ ∧
      ∃ sub, chop exDeck ⟨0, 2, 0, 2⟩ Out.init (request o (first ⟨0, 0, 0, 1, 0, 0⟩)) = .ok sub ∧ o.zmax = 1 ∧ (2 : ℚ) ∈ sub.zcorn := by
  refine ⟨?_, ?_, ?_⟩
  · refine ⟨by decide, by decide, by decide, by decide, by decide, by decide, by decide +kernel, by decide, by decide, by decide +kernel, by decide +kernel, by decide +kernel⟩
  · unfold Possible; decide +kernel
  · have h : agrees (chop exDeck ⟨0, 2, 0, 2⟩ Out.init (request ⟨0, 2, 0, 1, 0, 1, 1, 1, 1, 2, "horizontal"⟩ (first ⟨0, 0, 0, 1, 0, 0⟩))) (fun o => decide ((2 : ℚ) ∈ o.zcorn)) = true := by
      decide +kernel
    unfold agrees at h
    split at h
    · rename_i sub e
      exact ⟨sub, e, rfl, by simpa using h⟩
    · cases h

/-- With the square root of the reals, the distance of a horizontal pair is the length of the line between the two places. -/
example : Real.sqrt (((3 : ℤ) : ℝ) ^ 2 + ((4 : ℤ) : ℝ) ^ 2) = 5 := by
  rw [show (((3 : ℤ) : ℝ) ^ 2 + ((4 : ℤ) : ℝ) ^ 2) = 5 ^ 2 by norm_num]
  exact Real.sqrt_sq (by norm_num)

end Verif.Variogram
