import Verif.Model.RelPermReuse
import Verif.Spec.RelPermReuse
import Verif.Props.RelPermOutput
import Verif.Props.RelPermFiles
import Verif.Props.RelPermMore

/-!
C147: headings of the results of `upscale_relperm`, pressures in them, and results used as input.
-/

namespace Verif.RelPermOut

open Spec Verif.Spec

variable {K : Type} [Field K] [LinearOrder K]

/-- **C147.** The headings are as many as the columns, and each column of relative permeability is named after the phase and the component it holds: components come
in Voigt order (`C69`: in the data, list `k` holds Voigt component `k`). -/
theorem C147_headings (interp : List K → List K → Option (K → K)) (tension : K) (points : Int) (hp : points ≤ 1) (both water fixed : Bool) (out : Name)
    (krow : Nat → K) (d : Data K) (hc : Complete both d) (n : Nat) (hn : n = if fixed then 3 else 9) (hk : d.kr1.length = n) :
    ∃ t files, output interp tension points both water out krow d = some (t, files) ∧
      (∀ r ∈ t, r.length = (headings both water fixed).length) ∧
      (headings both water fixed)[0]? = some "Pc (Pa)".toList ∧ (headings both water fixed)[1]? = some (if water then "Sw".toList else "Sg".toList) ∧
      ∀ i < d.S.length, ∃ r, t[i]? = some r ∧ r[1]? = some (d.S.getD i 0) ∧ ∀ (k a b : Nat), k < n → voigtComponents[k]? = some (a, b) →
        ((headings both water fixed)[2 + k]? = some ("Kr".toList ++ (if both then (if water then ['w'] else ['g']) else []) ++ [dirName a, dirName b]) ∧
          r[2 + k]? = some ((d.kr1.getD k []).getD i 0)) ∧
        (both = true → (headings both water fixed)[2 + n + k]? = some ("Kr".toList ++ ['o'] ++ [dirName a, dirName b]) ∧
          r[2 + n + k]? = some ((d.kr2.getD k []).getD i 0)) := by
  obtain ⟨t, files, h1, h2, h3, -⟩ := C126_table interp tension points hp both water out krow d hc
  have hlen : (headings both water fixed).length = 2 + n + if both then n else 0 := by
    subst hn
    cases both <;> cases water <;> cases fixed <;> rfl
  have hl2 : both = true → d.kr2.length = n := fun hb => by rw [(hc.second hb).2, hk]
  refine ⟨t, files, h1, ?_, ?_, ?_, ?_⟩
  · intro r hr
    obtain ⟨i, hi⟩ := List.mem_iff_getElem?.mp hr
    have hlt : i < d.S.length := by
      rw [← h2]
      exact (List.getElem?_eq_some_iff.mp hi).1
    rw [h3 i hlt] at hi
    rw [← Option.some.inj hi, hlen]
    cases both with
    | false => simp [hk]; omega
    | true => simp [hk, hl2 rfl]; omega
  · cases both <;> cases water <;> cases fixed <;> rfl
  · cases both <;> cases water <;> cases fixed <;> rfl
  · intro i hi
    refine ⟨_, h3 i hi, rfl, ?_⟩
    intro k a b hkn hv
    have hget : ∀ (l : List (List K)) (k : Nat), k < l.length → (l.map (·.getD i 0))[k]? = some ((l.getD k []).getD i 0) := by
      intro l k hk
      rw [List.getElem?_map, List.getElem?_eq_getElem hk, show l.getD k [] = l[k] by simp [List.getD_eq_getElem?_getD, List.getElem?_eq_getElem hk]]
      rfl
    have e1 : ∀ l : List K, ([d.P.getD i 0 * (tension / 1000), d.S.getD i 0] ++ d.kr1.map (·.getD i 0) ++ l)[2 + k]? = some ((d.kr1.getD k []).getD i 0) := by
      intro l
      rw [List.getElem?_append_left (by simp [hk]; omega), List.getElem?_append_right (by simp), ← hget d.kr1 k (by omega)]
      congr 1
      simp
    refine ⟨⟨?_, e1 _⟩, ?_⟩
    · subst hn
      have h9 : k < 9 := by split at hkn <;> omega
      interval_cases k <;> (simp [voigtComponents] at hv; obtain ⟨rfl, rfl⟩ := hv) <;> cases fixed <;> (try (simp at hkn; done)) <;>
        cases both <;> cases water <;> rfl
    · intro hb
      subst hb
      constructor
      · subst hn
        have h9 : k < 9 := by split at hkn <;> omega
        interval_cases k <;> (simp [voigtComponents] at hv; obtain ⟨rfl, rfl⟩ := hv) <;> cases fixed <;> (try (simp at hkn; done)) <;>
          cases water <;> rfl
      · rw [List.getElem?_append_right (by simp [hk]; omega), if_pos rfl, ← hget d.kr2 k (by rw [hl2 rfl]; exact hkn)]
        congr 1
        simp [hk]
        omega

/-- The rows of the table, with their width. -/
theorem table_rows (interp : List K → List K → Option (K → K)) (tension : K) (points : Int) (hp : points ≤ 1) (both water : Bool) (out : Name)
    (krow : Nat → K) (d : Data K) (hc : Complete both d) (t : List (List K)) (files : List (Name × List (List K)))
    (ho : output interp tension points both water out krow d = some (t, files)) :
    (∀ r ∈ t, r.length = 2 + d.kr1.length + if both then d.kr1.length else 0) ∧
    t = (List.range d.S.length).map fun i => [d.P.getD i 0 * (tension / 1000), d.S.getD i 0] ++ d.kr1.map (·.getD i 0) ++
      (if both then d.kr2.map (·.getD i 0) else []) := by
  obtain ⟨t', files', h1, h2, h3, -⟩ := C126_table interp tension points hp both water out krow d hc
  rw [ho] at h1
  have e := Option.some.inj h1
  have e1 : t = t' := congrArg Prod.fst e
  subst e1
  have ht : t = (List.range d.S.length).map fun i => [d.P.getD i 0 * (tension / 1000), d.S.getD i 0] ++ d.kr1.map (·.getD i 0) ++
      (if both then d.kr2.map (·.getD i 0) else []) := by
    refine List.ext_getElem? fun i => ?_
    rcases lt_or_ge i d.S.length with hi | hi
    · rw [h3 i hi, List.getElem?_map, List.getElem?_range hi]
      rfl
    · rw [List.getElem?_eq_none (by omega), List.getElem?_eq_none (by simpa using hi)]
  refine ⟨?_, ht⟩
  intro r hr
  rw [ht] at hr
  obtain ⟨i, -, rfl⟩ := List.mem_map.mp hr
  cases both with
  | false => simp; omega
  | true => simp [(hc.second rfl).2]; omega

/-- The second run: what it reads from the table. -/
theorem reuse (interp : List K → List K → Option (K → K)) (tension : K) (points : Int) (hp : points ≤ 1) (both water : Bool) (out : Name)
    (krow : Nat → K) (d : Data K) (hc : Complete both d) (t : List (List K)) (files : List (Name × List (List K)))
    (ho : output interp tension points both water out krow d = some (t, files))
    (hinv : Invertible ((List.range d.S.length).map fun i => (d.S.getD i 0, d.P.getD i 0 * (tension / 1000))))
    (load : Name → Int → Int → Option (Curve K)) (readable : Name → Bool) (f : Name) (hf : TableFile load f t) (hr : readable f = true)
    (both' : Bool) (hb : both' = true → 6 ≤ d.kr1.length + if both then d.kr1.length else 0) (j k : Int) (n : Nat) :
    ∃ h, functions load readable true both' j k n [f] = .ok h ∧ h.swPc.length = n ∧ (∀ c ∈ h.swPc,
      c.Perm ((List.range d.S.length).map fun i => (d.P.getD i 0 * (tension / 1000), d.S.getD i 0))) ∧
      (∀ e : Fin 3, (h.kr e 0).length = n ∧ ∀ c ∈ h.kr e 0, c.Perm ((List.range d.S.length).map fun i => (d.S.getD i 0, (d.kr1.getD e []).getD i 0))) ∧
      (both' = true → ∀ e : Fin 3, (h.kr e 1).length = n ∧ ∀ c ∈ h.kr e 1,
        c.Perm (t.map fun r => (r.getD 1 0, r.getD (5 + e) 0))) := by
  obtain ⟨hw, ht⟩ := table_rows interp tension points hp both water out krow d hc t files ho
  have h3 := hc.three
  have hcol : ∀ x y : Nat, 1 ≤ x → 1 ≤ y → x ≤ 2 + d.kr1.length + (if both then d.kr1.length else 0) →
      y ≤ 2 + d.kr1.length + (if both then d.kr1.length else 0) → ∃ c, load f x y = some c ∧ c.Perm (t.map fun r => (r.getD (x - 1) 0, r.getD (y - 1) 0)) :=
    fun x y hx hy hxw hyw => hf x y hx hy fun r hr => by rw [hw r hr]; exact ⟨hxw, hyw⟩
  have hsp : (t.map fun r => (r.getD 1 0, r.getD 0 0)) = (List.range d.S.length).map fun i => (d.S.getD i 0, d.P.getD i 0 * (tension / 1000)) := by
    rw [ht, List.map_map]
    rfl
  have hsk : ∀ e : Fin 3, (t.map fun r => (r.getD 1 0, r.getD (2 + (e : Nat)) 0)) =
      (List.range d.S.length).map fun i => (d.S.getD i 0, (d.kr1.getD e []).getD i 0) := by
    intro e
    rw [ht, List.map_map]
    refine List.map_congr_left fun i _ => ?_
    have he : (e : Nat) < d.kr1.length := by omega
    simp only [Function.comp]
    refine Prod.ext rfl ?_
    simp only [List.getD_eq_getElem?_getD]
    rw [List.getElem?_append_left (by simp; omega), List.getElem?_append_right (by simp)]
    simp [List.getElem?_eq_getElem he]
  have hperm : ∀ c : Curve K, c.Perm (t.map fun r => (r.getD 1 0, r.getD 0 0)) → Invertible c := by
    intro c hc
    rw [hsp] at hc
    rcases hinv with hi | hi
    · exact Or.inl fun p hp q hq => hi p (hc.mem_iff.mp hp) q (hc.mem_iff.mp hq)
    · exact Or.inr fun p hp q hq => hi p (hc.mem_iff.mp hp) q (hc.mem_iff.mp hq)
  have some' : ∀ y : Nat, 1 ≤ y → y ≤ 2 + d.kr1.length + (if both then d.kr1.length else 0) → (load f 2 (y : Int)).isSome := by
    intro y hy hyw
    obtain ⟨c, h, -⟩ := hcol 2 y (by omega) hy (by omega) hyw
    rw [show ((2 : Nat) : Int) = 2 from rfl] at h
    rw [h]
    rfl
  obtain ⟨c0, hc0, hc0p⟩ := hcol 2 1 (by omega) (by omega) (by omega) (by omega)
  obtain ⟨h, hh⟩ := C125_accepted load readable true both' j k n [f] (Or.inr rfl) (by
    intro g hg
    rw [List.mem_singleton] at hg
    subst hg
    refine ⟨hr, ⟨c0, hc0, hperm c0 hc0p⟩, (fun h => (by cases h)), (fun h => (by cases h)), fun _ => ⟨?_, ?_, ?_⟩, fun _ h => ⟨?_, ?_, ?_⟩⟩
    · exact some' 3 (by omega) (by omega)
    · exact some' 4 (by omega) (by omega)
    · exact some' 5 (by omega) (by omega)
    · exact some' 6 (by omega) (by have := hb h; omega)
    · exact some' 7 (by omega) (by have := hb h; omega)
    · exact some' 8 (by omega) (by have := hb h; omega))
  obtain ⟨a1, a2, a3, -⟩ := C125_anisotropic load readable both' j k n [f] h hh
  have hfile : ∀ i g, FileOf n [f] i g → g = f := by
    intro i g hg
    rcases hg with ⟨-, h⟩ | h
    · cases i with
      | zero => exact (Option.some.inj h).symm
      | succ i => cases h
    · exact (List.cons.inj h).1.symm
  have col : ∀ (y : Nat) (L : List (Curve K)), 1 ≤ y → y ≤ 2 + d.kr1.length + (if both then d.kr1.length else 0) → Columns load n [f] 2 (y : Int) L →
      L.length = n ∧ ∀ c ∈ L, c.Perm (t.map fun r => (r.getD 1 0, r.getD (y - 1) 0)) := by
    intro y L hy hyw hL
    refine ⟨hL.1, fun c hcm => ?_⟩
    obtain ⟨i, hi⟩ := List.mem_iff_getElem?.mp hcm
    obtain ⟨g, hg, hl⟩ := hL.2 i c hi
    rw [hfile i g hg] at hl
    obtain ⟨c', h', hp'⟩ := hcol 2 y (by omega) hy (by omega) hyw
    rw [show ((2 : Nat) : Int) = 2 from rfl, hl] at h'
    rw [Option.some.inj h']
    exact hp'
  refine ⟨h, hh, a1.1, ?_, ?_, ?_⟩
  · intro c hcm
    obtain ⟨i, hi⟩ := List.mem_iff_getElem?.mp hcm
    obtain ⟨g, c', hg, hl, -, rfl⟩ := a1.2 i c hi
    rw [hfile i g hg] at hl
    have e : c0 = c' := Option.some.inj (hc0.symm.trans hl)
    subst e
    have := hc0p.map Prod.swap
    rw [hsp, List.map_map] at this
    exact this
  · intro e
    have := col (3 + e) (h.kr e 0) (by omega) (by omega) (by exact_mod_cast a2 e)
    rw [show 3 + (e : Nat) - 1 = 2 + e by omega, hsk e] at this
    exact this
  · intro hb' e
    have := col (6 + e) (h.kr e 1) (by omega) (by have := hb hb'; omega) (by exact_mod_cast a3 hb' e)
    rw [show 6 + (e : Nat) - 1 = 5 + e by omega] at this
    exact this

/-- **C147.** Partial: with fixed boundary conditions, the table can be the saturation functions of a next run with anisotropic input, for every number of rock types:
if the printed pressures are strictly monotone in the saturation the run accepts it, and finds for each rock type the saturation at each printed pressure and the relative permeabilities
of each direction at each saturation, for the phases it was told to upscale. Missing: the same with periodic or linear boundary conditions and both phases
(`C147_violated_phases`). -/
theorem C147_reuse_partial (interp : List K → List K → Option (K → K)) (tension : K) (points : Int) (hp : points ≤ 1) (both water : Bool) (out : Name)
    (krow : Nat → K) (d : Data K) (hc : Complete both d) (h3 : d.kr1.length = 3) (t : List (List K)) (files : List (Name × List (List K)))
    (ho : output interp tension points both water out krow d = some (t, files))
    (hinv : Invertible ((List.range d.S.length).map fun i => (d.S.getD i 0, d.P.getD i 0 * (tension / 1000))))
    (load : Name → Int → Int → Option (Curve K)) (readable : Name → Bool) (f : Name) (hf : TableFile load f t) (hr : readable f = true)
    (both' : Bool) (hb : both' = true → both = true) (j k : Int) (n : Nat) :
    ∃ h, functions load readable true both' j k n [f] = .ok h ∧ h.swPc.length = n ∧ (∀ c ∈ h.swPc,
      c.Perm ((List.range d.S.length).map fun i => (d.P.getD i 0 * (tension / 1000), d.S.getD i 0))) ∧
      (∀ e : Fin 3, (h.kr e 0).length = n ∧ ∀ c ∈ h.kr e 0, c.Perm ((List.range d.S.length).map fun i => (d.S.getD i 0, (d.kr1.getD e []).getD i 0))) ∧
      (both' = true → ∀ e : Fin 3, (h.kr e 1).length = n ∧ ∀ c ∈ h.kr e 1,
        c.Perm ((List.range d.S.length).map fun i => (d.S.getD i 0, (d.kr2.getD e []).getD i 0))) := by
  obtain ⟨h, h1, h2, h2', h4, h5⟩ := reuse interp tension points hp both water out krow d hc t files ho hinv load readable f hf hr both'
    (fun h => by rw [if_pos (hb h)]; omega) j k n
  refine ⟨h, h1, h2, h2', h4, fun hb' e => ?_⟩
  obtain ⟨l1, l2⟩ := h5 hb' e
  refine ⟨l1, fun c hcm => ?_⟩
  have := l2 c hcm
  rw [(table_rows interp tension points hp both water out krow d hc t files ho).2, List.map_map] at this
  refine this.trans (List.Perm.of_eq (List.map_congr_left fun i _ => ?_))
  simp only [Function.comp]
  refine Prod.ext rfl ?_
  have hk2 : d.kr2.length = 3 := by rw [(hc.second (hb hb')).2, h3]
  have he : (e : Nat) < d.kr2.length := by omega
  simp only [List.getD_eq_getElem?_getD]
  rw [List.getElem?_append_right (by simp [h3]), if_pos (hb hb'), List.getElem?_map]
  rw [show 5 + (e : Nat) - ([d.P[i]?.getD 0 * (tension / 1000), d.S[i]?.getD 0] ++ d.kr1.map fun x => x[i]?.getD 0).length = e by simp [h3]]
  simp [List.getElem?_eq_getElem he]

/-- C147, violated: with periodic or linear boundary conditions the table has nine columns for each phase. A next run for both phases accepts it, but what it takes for the relative
permeabilities of the second phase in x, y and z direction are the off-diagonal components yz, xz and xy of the first phase. -/
theorem C147_violated_phases (interp : List K → List K → Option (K → K)) (tension : K) (points : Int) (hp : points ≤ 1) (water : Bool) (out : Name)
    (krow : Nat → K) (d : Data K) (hc : Complete true d) (h9 : d.kr1.length = 9) (t : List (List K)) (files : List (Name × List (List K)))
    (ho : output interp tension points true water out krow d = some (t, files))
    (hinv : Invertible ((List.range d.S.length).map fun i => (d.S.getD i 0, d.P.getD i 0 * (tension / 1000))))
    (load : Name → Int → Int → Option (Curve K)) (readable : Name → Bool) (f : Name) (hf : TableFile load f t) (hr : readable f = true) (j k : Int) (n : Nat) :
    ∃ h, functions load readable true true j k n [f] = .ok h ∧ ∀ e : Fin 3, (h.kr e 1).length = n ∧ ∀ c ∈ h.kr e 1,
        c.Perm ((List.range d.S.length).map fun i => (d.S.getD i 0, (d.kr1.getD (3 + e) []).getD i 0)) := by
  obtain ⟨h, h1, -, -, -, h5⟩ := reuse interp tension points hp true water out krow d hc t files ho hinv load readable f hf hr true
    (fun _ => by omega) j k n
  refine ⟨h, h1, fun e => ?_⟩
  obtain ⟨l1, l2⟩ := h5 rfl e
  refine ⟨l1, fun c hcm => ?_⟩
  have := l2 c hcm
  rw [(table_rows interp tension points hp true water out krow d hc t files ho).2, List.map_map] at this
  refine this.trans (List.Perm.of_eq (List.map_congr_left fun i _ => ?_))
  simp only [Function.comp]
  refine Prod.ext rfl ?_
  have he : 3 + (e : Nat) < d.kr1.length := by omega
  simp only [List.getD_eq_getElem?_getD]
  rw [List.getElem?_append_left (by simp [h9]; omega), List.getElem?_append_right (by simp; omega)]
  rw [show 5 + (e : Nat) - ([d.P[i]?.getD 0 * (tension / 1000), d.S[i]?.getD 0]).length = 3 + e by simp; omega]
  simp [List.getElem?_eq_getElem he]

/-- **C147.** Partial: for isotropic input without gravity, the system has the printed saturation at the printed pressure, for the surface tension in N/m (the option is in dynes/cm).
Missing: anisotropic input (`C147_violated_pressure`), where it holds for a tension of 1000 dynes/cm. -/
theorem C147_pressure_partial (S : RelPerm.Sys K) (hg : S.dP = []) (tension : K) (ht : tension / 1000 ≠ 0) (h : S.aniso = false ∨ tension / 1000 = 1) (interp : List K → List K → Option (K → K)) (points : Int) (hp : points ≤ 1) (both water : Bool) (out : Name)
    (krow : Nat → K) (d : Data K) (hc : Complete both d) (t : List (List K)) (files : List (Name × List (List K)))
    (ho : output interp tension points both water out krow d = some (t, files))
    (hs : ∀ i < d.S.length, RelPerm.upscaledSw S (d.P.getD i 0) = some (d.S.getD i 0)) :
    ∀ r ∈ t, ∃ p w rest, r = p :: w :: rest ∧ SaturationAt S (tension / 1000) p w := by
  intro r hr
  rw [(table_rows interp tension points hp both water out krow d hc t files ho).2] at hr
  obtain ⟨i, hi, rfl⟩ := List.mem_map.mp hr
  refine ⟨_, _, _, rfl, ?_⟩
  obtain ⟨s, h1, h2, h3⟩ := RelPerm.C68_mean S _ _ (hs i (List.mem_range.mp hi))
  refine ⟨s, fun c hcm hn => ?_, h2, h3⟩
  obtain ⟨hd, hhd, e⟩ := h1 c hcm hn
  have h0 : hd = 0 := by
    rcases hhd with ⟨-, h⟩ | ⟨h, -⟩
    · exact h
    · exact absurd hg h
  rw [e, h0, sub_zero]
  unfold RelPerm.Spec.scale
  congr 1
  rcases h with h | h
  · rw [if_neg (by simp [h]), if_neg (by simp [h]), ← mul_assoc, mul_div_assoc, div_self ht, mul_one]
  · rw [h, mul_one, div_one]
    split <;> simp

/-- Two points of the uniform model of `RelPermMore`, three components. -/
def twoPoints : Data ℚ := ⟨[0, 1], [1, 0], [[1, 1 / 10], [1, 1 / 5], [1, 3 / 10]], [[1 / 2, 9 / 10], [1 / 2, 4 / 5], [1 / 2, 7 / 10]]⟩

theorem twoPoints_complete : Complete true twoPoints :=
  ⟨by decide, rfl, by decide +kernel, by decide, fun _ => ⟨by decide +kernel, rfl⟩⟩

/-- The table printed for them with the default surface tension of 11 dynes/cm. -/
def twoTable : List (List ℚ) := [[0, 1, 1, 1, 1, 1 / 2, 1 / 2, 1 / 2], [11 / 1000, 0, 1 / 10, 1 / 5, 3 / 10, 9 / 10, 4 / 5, 7 / 10]]

theorem twoTable_output : output (fun _ _ => none) 11 0 true true [] (fun _ => 0) twoPoints = some (twoTable, []) := by decide +kernel

/-- C147, violated: for anisotropic input, where capillary pressures are given in Pascal, the pressures that are printed are those of the input times the surface tension, although it takes no part in their
scaling. In a model of one cell, whose saturation falls from 1 to 0 between 0 and 1 Pa, the saturation 0 is printed next to the pressure 0.011 Pa. -/
theorem C147_violated_pressure : ∃ (S : RelPerm.Sys ℚ) (d : Data ℚ) (t : List (List ℚ)), S.aniso = true ∧ S.dP = [] ∧ Complete true d ∧
    output (fun _ _ => none) 11 0 true true [] (fun _ => 0) d = some (t, []) ∧
    (∀ i < d.S.length, RelPerm.upscaledSw S (d.P.getD i 0) = some (d.S.getD i 0)) ∧
    ∃ p w rest, p :: w :: rest ∈ t ∧ ∀ sigma, ¬ SaturationAt S sigma p w := by
  refine ⟨RelPerm.exSys [0] (fun _ => 1) [] true, twoPoints, twoTable, rfl, rfl, twoPoints_complete, twoTable_output, by decide +kernel,
    11 / 1000, 0, [1 / 10, 1 / 5, 3 / 10, 9 / 10, 4 / 5, 7 / 10], by decide +kernel, ?_⟩
  rintro sigma ⟨s, h1, -, h3⟩
  have h := h1 0 (by decide) (by decide)
  have e : (RelPerm.Spec.curve (RelPerm.exSys [0] (fun _ => 1) [] true) 0).eval (11 / 1000) = 989 / 1000 := by decide +kernel
  rw [if_pos (by rfl), e] at h
  have hpv : RelPerm.Spec.pv (RelPerm.exSys [0] (fun _ => 1) [] true) 0 = 1 := by decide +kernel
  rw [zero_mul] at h3
  change 0 = ([0].map fun c => s c * RelPerm.Spec.pv (RelPerm.exSys [0] (fun _ => 1) [] true) c).sum at h3
  rw [List.map_singleton, List.sum_singleton, hpv, h] at h3
  norm_num at h3

/-- The hypotheses are met: the isotropic model with the same points. -/
example : ∀ r ∈ twoTable, ∃ p w rest, r = p :: w :: rest ∧ SaturationAt (RelPerm.exSys [0] (fun _ => 1) [] false) (11 / 1000) p w :=
  C147_pressure_partial (RelPerm.exSys [0] (fun _ => 1) [] false) rfl 11 (by norm_num) (Or.inl rfl) (fun _ _ => none) 0 (by omega) true true [] (fun _ => 0)
    twoPoints twoPoints_complete twoTable [] twoTable_output (by decide +kernel)

/-- A file with that table. -/
def twoLoad (_ : Name) (x y : Int) : Option (Curve ℚ) :=
  if 1 ≤ x ∧ x ≤ 8 ∧ 1 ≤ y ∧ y ≤ 8 then some (twoTable.map fun r => (r.getD (x - 1).toNat 0, r.getD (y - 1).toNat 0)) else none

theorem twoLoad_file (f : Name) : TableFile twoLoad f twoTable := by
  intro x y hx hy h
  have h8 := h _ (List.mem_cons_self ..)
  have hx8 : x ≤ 8 := h8.1
  have hy8 : y ≤ 8 := h8.2
  refine ⟨_, if_pos ⟨by omega, by omega, by omega, by omega⟩, List.Perm.of_eq (List.map_congr_left fun r _ => ?_)⟩
  rw [show ((x : Int) - 1).toNat = x - 1 by omega, show ((y : Int) - 1).toNat = y - 1 by omega]

example : ∃ h, functions twoLoad (fun _ => true) true true 4 2 5 [['u', 'p']] = .ok h ∧ h.swPc.length = 5 := by
  obtain ⟨h, h1, h2, -⟩ := C147_reuse_partial (fun _ _ => none) 11 0 (by omega) true true [] (fun _ => 0) twoPoints twoPoints_complete rfl twoTable [] twoTable_output
    (Or.inr (by decide +kernel)) twoLoad (fun _ => true) ['u', 'p'] (twoLoad_file _) rfl true (fun _ => rfl) 4 2 5
  exact ⟨h, h1, h2⟩

/-- Nine components: off-diagonal ones are zero. -/
def ninePoints : Data ℚ :=
  ⟨[0, 1], [1, 0], [[1, 1 / 10], [1, 1 / 5], [1, 3 / 10]] ++ List.replicate 6 [0, 0], [[1 / 2, 9 / 10], [1 / 2, 4 / 5], [1 / 2, 7 / 10]] ++ List.replicate 6 [0, 0]⟩

example : Complete true ninePoints ∧ ninePoints.kr1.length = 9 ∧ ninePoints.kr1.getD 3 [] ≠ ninePoints.kr2.getD 0 [] ∧
    Invertible ((List.range ninePoints.S.length).map fun i => (ninePoints.S.getD i 0, ninePoints.P.getD i 0 * ((11 : ℚ) / 1000))) :=
  ⟨⟨by decide, rfl, by decide +kernel, by decide, fun _ => ⟨by decide +kernel, rfl⟩⟩, rfl, by decide +kernel, Or.inr (by decide +kernel)⟩

/-- The headings of a run for both phases with fixed boundary conditions. -/
example : headings true true true = ["Pc (Pa)", "Sw", "Krwxx", "Krwyy", "Krwzz", "Kroxx", "Kroyy", "Krozz"].map String.toList := by decide +kernel

end Verif.RelPermOut
