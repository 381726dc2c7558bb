import Verif.Model.TransportDefs
import Mathlib.Algebra.BigOperators.Group.List.Basic
import Mathlib.Tactic.Ring
import Mathlib.Tactic.Linarith
import Mathlib.Tactic.Positivity
import Mathlib.Algebra.BigOperators.Ring.List
import Mathlib.Tactic.NormNum

/-!
Theorems about the containers of the implicit transport solver (C117).
-/

namespace Verif.TransportDefs

variable {K : Type} [Field K]

/-- Positions in a row-major array are different for different cells, rows and columns. -/
theorem pos_inj {d c i j c' i' j' : Nat} (hi : i < d) (hj : j < d) (hi' : i' < d) (hj' : j' < d)
    (h : c * (d * d) + (i * d + j) = c' * (d * d) + (i' * d + j')) : c = c' ∧ i = i' ∧ j = j' := by
  have hd : 0 < d := by omega
  have b1 : i * d + j < d * d := by nlinarith
  have b2 : i' * d + j' < d * d := by nlinarith
  have hc : c = c' := by
    have e1 : (c * (d * d) + (i * d + j)) / (d * d) = c := by
      rw [Nat.mul_comm, Nat.mul_add_div (by positivity), Nat.div_eq_of_lt b1, Nat.add_zero]
    have e2 : (c' * (d * d) + (i' * d + j')) / (d * d) = c' := by
      rw [Nat.mul_comm, Nat.mul_add_div (by positivity), Nat.div_eq_of_lt b2, Nat.add_zero]
    rw [← e1, ← e2, h]
  subst hc
  have h' : i * d + j = i' * d + j' := by omega
  have hii : i = i' := by
    have e1 : (i * d + j) / d = i := by
      rw [Nat.mul_comm, Nat.mul_add_div hd, Nat.div_eq_of_lt hj, Nat.add_zero]
    have e2 : (i' * d + j') / d = i' := by
      rw [Nat.mul_comm, Nat.mul_add_div hd, Nat.div_eq_of_lt hj', Nat.add_zero]
    rw [← e1, ← e2, h']
  subst hii
  exact ⟨rfl, rfl, by omega⟩

theorem cell_ok {d n c : Nat} (k : K) (hc : c < n) {v : List K} (hv : v.length = n * d * d) (m : Nat) (hm : m ≤ d) :
    ∃ v', (List.range m).foldlM (fun (v : List K) i => put v (c * (d * d) + i * (d + 1)) k) v = some v' ∧ v'.length = v.length ∧
      ∀ p, v'[p]? = if ∃ i < m, p = c * (d * d) + i * (d + 1) then some k else v[p]? := by
  induction m with
  | zero => exact ⟨v, rfl, rfl, fun p => by simp⟩
  | succ m ih =>
    obtain ⟨v', e, l, h⟩ := ih (by omega)
    have hlt : c * (d * d) + m * (d + 1) < v'.length := by
      rw [l, hv]
      have h1 : (c + 1) * (d * d) ≤ n * (d * d) := Nat.mul_le_mul_right _ hc
      have h2 : m * (d + 1) < d * d := by nlinarith
      nlinarith
    refine ⟨v'.set (c * (d * d) + m * (d + 1)) k, ?_, by simp [l], fun p => ?_⟩
    · rw [List.range_succ, List.foldlM_append, e]
      simp [put, hlt]
    · rw [List.getElem?_set]
      by_cases hp : c * (d * d) + m * (d + 1) = p
      · rw [if_pos hp, if_pos (by omega), if_pos ⟨m, by omega, hp.symm⟩]
      · rw [if_neg hp, h p]
        by_cases hex : ∃ i < m, p = c * (d * d) + i * (d + 1)
        · obtain ⟨i, hi, e⟩ := hex
          rw [if_pos ⟨i, hi, e⟩, if_pos ⟨i, by omega, e⟩]
        · rw [if_neg hex, if_neg]
          rintro ⟨i, hi, ep⟩
          by_cases him : i = m
          · rw [him] at ep; exact hp ep.symm
          · exact hex ⟨i, by omega, ep⟩

/-- **C117** (homogeneous rock). For every number of cells and every dimension, setting a permeability succeeds, whatever was set before,
and then each cell has that number times the identity; porosities are not touched. -/
theorem C117_permeability {n d : Nat} {r : HRock K} (hd : r.dim = d) (hn : r.poro.length = n) (hp : r.perm.length = n * d * d) (k : K) :
    ∃ r', r.permHomogeneous k = some r' ∧ r'.dim = d ∧ r'.poro = r.poro ∧ r'.perm.length = n * d * d ∧
      ∀ c i j : Nat, c < n → i < d → j < d → r'.perm[c * (d * d) + (i * d + j)]? = some (if i = j then k else 0) := by
  subst hd
  have key : ∀ m ≤ n, ∃ v, (List.range m).foldlM (cellLoop r.dim k) (List.replicate r.perm.length 0) = some v ∧ v.length = n * r.dim * r.dim ∧
      ∀ c i j : Nat, c < n → i < r.dim → j < r.dim →
        v[c * (r.dim * r.dim) + (i * r.dim + j)]? = some (if i = j ∧ c < m then k else 0) := by
    intro m
    induction m with
    | zero =>
      intro _
      refine ⟨_, rfl, by simp [hp], fun c i j hc hi hj => ?_⟩
      rw [List.getElem?_replicate, if_pos]
      · simp
      · rw [hp]
        have h1 : (c + 1) * (r.dim * r.dim) ≤ n * (r.dim * r.dim) := Nat.mul_le_mul_right _ hc
        have h2 : i * r.dim + j < r.dim * r.dim := by nlinarith
        nlinarith
    | succ m ih =>
      intro hm
      obtain ⟨v, e, l, h⟩ := ih (by omega)
      obtain ⟨v', e', l', h'⟩ := cell_ok (c := m) k (by omega) l r.dim le_rfl
      refine ⟨v', ?_, by rw [l', l], fun c i j hc hi hj => ?_⟩
      · rw [List.range_succ, List.foldlM_append, e]
        simp only [List.foldlM_cons, List.foldlM_nil, Option.bind_eq_bind, Option.bind_some]
        show (cellLoop r.dim k v m).bind _ = _
        unfold cellLoop
        rw [e']
        rfl
      · rw [h', h c i j hc hi hj]
        by_cases hex : ∃ i' < r.dim, c * (r.dim * r.dim) + (i * r.dim + j) = m * (r.dim * r.dim) + i' * (r.dim + 1)
        · rw [if_pos hex]
          obtain ⟨i', hi', e''⟩ := hex
          obtain ⟨h1, h2, h3⟩ := pos_inj hi hj hi' hi' (e''.trans (by ring))
          rw [if_pos ⟨h2.trans h3.symm, by omega⟩]
        · rw [if_neg hex]
          by_cases hij : i = j ∧ c < m
          · rw [if_pos hij, if_pos ⟨hij.1, by omega⟩]
          · rw [if_neg hij, if_neg]
            rintro ⟨rfl, hcm⟩
            have : c = m := by
              by_contra hne
              exact hij ⟨rfl, by omega⟩
            subst this
            exact hex ⟨i, hi, by ring⟩
  obtain ⟨v, e, l, h⟩ := key n le_rfl
  refine ⟨{ r with perm := v }, ?_, rfl, rfl, l, fun c i j hc hi hj => ?_⟩
  · unfold HRock.permHomogeneous
    rw [hn, e]
    rfl
  · rw [h c i j hc hi hj]
    by_cases hij : i = j
    · rw [if_pos ⟨hij, hc⟩, if_pos hij]
    · rw [if_neg fun h => hij h.1, if_neg hij]

/-- A new rock meets the hypotheses. -/
example : ∃ r', (HRock.new 2 3 : HRock ℚ).permHomogeneous 5 = some r' ∧ r'.perm[9 + 4]? = some 5 ∧ r'.perm[9 + 5]? = some 0 := by
  obtain ⟨r', e, _, _, _, h⟩ := C117_permeability (K := ℚ) (r := HRock.new 2 3) (n := 2) (d := 3) rfl rfl rfl 5
  exact ⟨r', e, h 1 1 1 (by omega) (by omega) (by omega), h 1 1 2 (by omega) (by omega) (by omega)⟩

/-- **C117** (pore volumes). The pore volume of each cell is its porosity times its volume; with a uniform porosity all pore volumes
together are the porosity times the volume. A rock of another size is refused. -/
theorem C117_porevolume {r : HRock K} {volumes : List K} {cells : Nat} (hv : volumes.length = cells) :
    (r.poro.length ≠ cells → computePorevolume cells volumes r = none) ∧
    (r.poro.length = cells → ∃ pv, computePorevolume cells volumes r = some pv ∧ pv.length = cells ∧
      ∀ (c : Nat) (p v : K), r.poro[c]? = some p → volumes[c]? = some v → pv[c]? = some (p * v)) ∧
    ∀ phi, r.poro.length = cells → ∃ pv, computePorevolume cells volumes (r.poroHomogeneous phi) = some pv ∧ pv.sum = phi * volumes.sum := by
  have main : ∀ r : HRock K, r.poro.length = cells → ∃ pv, computePorevolume cells volumes r = some pv ∧ pv.length = cells ∧
      ∀ (c : Nat) (p v : K), r.poro[c]? = some p → volumes[c]? = some v → pv[c]? = some (p * v) := by
    intro r hr
    refine ⟨(List.range r.poro.length).map fun i => r.poro.getD i 0 * volumes.getD i 0, ?_, by simp [hr], fun c p v hp hv => ?_⟩
    · unfold computePorevolume
      rw [if_pos hr]
      have : ∀ l : List Nat, (∀ i ∈ l, i < cells) →
          l.mapM (fun (i : Nat) => (r.poro[i]?).bind fun p => (volumes[i]?).map fun v => p * v) =
            some (l.map fun i => r.poro.getD i 0 * volumes.getD i 0) := by
        intro l
        induction l with
        | nil => intro _; rfl
        | cons a l ih =>
          intro h
          have ha := h a (by simp)
          rw [List.mapM_cons, ih fun i hi => h i (by simp [hi])]
          simp [List.getElem?_eq_getElem (show a < r.poro.length by omega), List.getElem?_eq_getElem (show a < volumes.length by omega)]
      exact this _ fun i hi => by rw [List.mem_range] at hi; omega
    · have hc := (List.getElem?_eq_some_iff.mp hp).1
      rw [List.getElem?_map, List.getElem?_range hc, Option.map_some, List.getD_eq_getElem?_getD, List.getD_eq_getElem?_getD, hp, hv]
      rfl
  refine ⟨fun h => if_neg h, main r, fun phi hr => ?_⟩
  obtain ⟨pv, e, l, h⟩ := main (r.poroHomogeneous phi) (by simp [HRock.poroHomogeneous, hr])
  refine ⟨pv, e, ?_⟩
  have : pv = volumes.map fun v => phi * v := by
    apply List.ext_getElem?
    intro c
    by_cases hc : c < cells
    · rw [List.getElem?_map, List.getElem?_eq_getElem (show c < volumes.length by omega)]
      exact h c phi _ (by simp [HRock.poroHomogeneous, List.getElem?_replicate, hr, hc]) (List.getElem?_eq_getElem _)
    · rw [List.getElem?_eq_none (by omega), List.getElem?_eq_none (by simp; omega)]
  rw [this, List.sum_map_mul_left, List.map_id']

example : computePorevolume 2 [3, 4] ((HRock.new 2 3 : HRock ℚ).poroHomogeneous (1 / 2)) = some [3 / 2, 2] := by decide +kernel

/-- **C117** (sources). After any sequence of additions, the number of sources is the number of additions, and each source can be found
with its cell, pressure, rate and saturations at its place, if all additions give the same number `np` of saturations. -/
theorem C117_sources (np : Nat) (l : List (Nat × K × K × List K)) (h : ∀ q ∈ l, q.2.2.2.length = np) :
    let s := l.foldl (fun s q => Source.append s q.1 q.2.1 q.2.2.1 q.2.2.2) Source.new
    s.nsrc = l.length ∧ s.saturation.length = np * l.length ∧
    ∀ (i c : Nat) (p v : K) (sat : List K), l[i]? = some (c, p, v, sat) →
      s.cell[i]? = some c ∧ s.pressure[i]? = some p ∧ s.flux[i]? = some v ∧ (s.saturation.drop (np * i)).take np = sat := by
  intro s
  have key : s.nsrc = l.length ∧ s.cell = l.map (·.1) ∧ s.pressure = l.map (·.2.1) ∧ s.flux = l.map (·.2.2.1) ∧
      s.saturation = (l.map (·.2.2.2)).flatten := by
    have gen : ∀ (l : List (Nat × K × K × List K)) (s0 : Source K),
        let s := l.foldl (fun s q => Source.append s q.1 q.2.1 q.2.2.1 q.2.2.2) s0
        s.nsrc = s0.nsrc + l.length ∧ s.cell = s0.cell ++ l.map (·.1) ∧ s.pressure = s0.pressure ++ l.map (·.2.1) ∧
        s.flux = s0.flux ++ l.map (·.2.2.1) ∧ s.saturation = s0.saturation ++ (l.map (·.2.2.2)).flatten := by
      intro l
      induction l with
      | nil => intro s0; simp
      | cons q l ih =>
        intro s0
        obtain ⟨a, b, c, d, e⟩ := ih (Source.append s0 q.1 q.2.1 q.2.2.1 q.2.2.2)
        simp only [List.foldl_cons]
        refine ⟨by rw [a]; simp [Source.append]; omega, by rw [b]; simp [Source.append], by rw [c]; simp [Source.append],
          by rw [d]; simp [Source.append], by rw [e]; simp [Source.append]⟩
    obtain ⟨a, b, c, d, e⟩ := gen l Source.new
    exact ⟨by rw [a]; simp [Source.new], b, c, d, e⟩
  obtain ⟨k1, k2, k3, k4, k5⟩ := key
  have hlen : ∀ l : List (Nat × K × K × List K), (∀ q ∈ l, q.2.2.2.length = np) → (l.map (·.2.2.2)).flatten.length = np * l.length := by
    intro l
    induction l with
    | nil => intro _; simp
    | cons q l ih =>
      intro h
      simp only [List.map_cons, List.flatten_cons, List.length_append, List.length_cons]
      rw [ih fun q hq => h q (by simp [hq]), h q (by simp)]
      ring
  refine ⟨k1, by rw [k5, hlen l h], fun i c p v sat hi => ⟨by rw [k2]; simp [hi], by rw [k3]; simp [hi], by rw [k4]; simp [hi], ?_⟩⟩
  rw [k5]
  clear k1 k2 k3 k4 k5 s
  induction l generalizing i with
  | nil => simp at hi
  | cons q l ih =>
    have hq := h q (by simp)
    cases i with
    | zero =>
      simp only [List.getElem?_cons_zero, Option.some.injEq] at hi
      subst hi
      simp only at hq
      simp [← hq]
    | succ i =>
      simp only [List.getElem?_cons_succ] at hi
      have := ih (fun q hq => h q (by simp [hq])) i hi
      simp only [List.map_cons, List.flatten_cons]
      rw [show np * (i + 1) = q.2.2.2.length + np * i by rw [hq]; ring, ← List.drop_drop, List.drop_left]
      exact this

example : ((Source.new : Source ℚ).append 4 1 2 [1, 0]).nsrc = 1 := rfl

/-- **C117** (a new state). All arrays of a new state are zero and have the sizes of the grid. -/
theorem C117_state (np cells faces : Nat) : ∀ s, s = (RState.new np cells faces : RState K) →
    s.pressure.length = cells ∧ s.facepressure.length = faces ∧ s.faceflux.length = faces ∧ s.saturation.length = np * cells ∧
    ∀ x, x ∈ s.pressure ∨ x ∈ s.facepressure ∨ x ∈ s.faceflux ∨ x ∈ s.saturation → x = 0 := by
  rintro s rfl
  refine ⟨by simp [RState.new], by simp [RState.new], by simp [RState.new], by simp [RState.new], fun x hx => ?_⟩
  simp only [RState.new, List.mem_replicate] at hx
  tauto

/-- **C117** (fixed mobility). For a fluid with given mobilities the total mobility of a cell is the given one, the whole flow is of the
first phase, and density weighted by mobility is the mobility, whatever the saturation; both functions for mobilities agree. -/
theorem C117_fixed (mobs : List K) (c : Nat) (s : K) {m : K} (h : mobs[c]? = some m) :
    ∃ a b, phaseMobilities mobs c s = some [a, b] ∧ phaseMobility mobs 0 c s = some a ∧ phaseMobility mobs 1 c s = some b ∧
      a + b = m ∧ (m ≠ 0 → a / (a + b) = 1) ∧
      ∃ r0 r1, phaseDensities (K := K) c = [r0, r1] ∧ a * r0 + b * r1 = m := by
  refine ⟨m, 0, by simp [phaseMobilities, h], by simp [phaseMobility, h], by simp [phaseMobility], by ring, fun hm => ?_, 1, 0, rfl, by ring⟩
  rw [add_zero, div_self hm]

/-- **C117** (densities). The fluid of the implicit solver has the density of the first phase for phase 0 and that of the second for phase 1, so the difference
that drives gravity segregation has the sign of first minus second. -/
theorem C117_densities (first second : K) : (List.range 2).map (density first second) = [first, second] := rfl

example : phaseMobilities [(2 : ℚ), 3] 1 (1 / 2) = some [3, 0] := by decide +kernel

end Verif.TransportDefs
