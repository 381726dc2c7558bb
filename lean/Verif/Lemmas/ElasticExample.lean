import Verif.Lemmas.ElasticMean
import Verif.Props.AvgStress
import Mathlib.Algebra.Order.Ring.Unbundled.Rat
import Mathlib.Algebra.Order.Field.Rat
import Mathlib.Tactic.IntervalCases

/-!
A sample for examples: two sheared hexahedra of different lengths in a row, with isotropic materials. The corners of the sample are
fixed, the four nodes in the middle are tied in a chain.
-/

namespace Verif.ElasticUp

open Verif.Elastic Verif.Asm

/-- Simpson's rule in each direction. -/
def simpson : List (ℚ × (Fin 3 → ℚ)) :=
  let r : List (ℚ × ℚ) := [(1 / 6, 0), (2 / 3, 1 / 2), (1 / 6, 1)]
  r.flatMap fun a => r.flatMap fun b => r.map fun c => (a.1 * b.1 * c.1, ![a.2, b.2, c.2])

/-- The shape functions. -/
def hexShapes : List (Shape.Linear ℚ 3) := (List.range 8).map fun i =>
    ⟨fun j => (Shape.table0 3).getD (i * 3 + j) 0, fun j => (Shape.table1 3).getD (i * 3 + j) 0⟩

/-- Twelve nodes: three in the first direction, two in the others. -/
def barX (n : Nat) : Fin 3 → ℚ :=
  ![([0, 1, 3] : List ℚ).getD (n % 3) 0 + ((n / 3 % 2 : Nat) : ℚ) / 2, ((n / 3 % 2 : Nat) : ℚ), ((n / 6 : Nat) : ℚ)]

def barInv (len : ℚ) : Fin 3 → Fin 3 → ℚ := ![![1 / len, 0, 0], ![-1 / (2 * len), 1, 0], ![0, 0, 1]]

def barCell (vertex : List Nat) (len : ℚ) (m : Material ℚ) : Cell ℚ :=
  ⟨vertex, m, simpson.map fun p => ⟨p.1 * len, B3 (physGrad hexShapes (barInv len) p.2)⟩⟩

/-- Fixed corners; nodes 4 and 7 follow node 1, node 10 follows node 7. -/
def barHandler : Handler ℚ where
  dim := 3
  nodes := 12
  fixed n := if n ∈ [0, 2, 3, 5, 6, 8, 9, 11] then some ⟨7, fun _ => 0⟩ else none
  mpcs s := (([(4, 1), (7, 1), (10, 7)] : List (Nat × Nat)).lookup (s / 3)).map fun m => ⟨s / 3, s % 3, 0, [⟨m, s % 3, 1⟩]⟩
  meqn := []
  maxeqn := 0

/-- The sample with two materials, whose moduli were multiplied by `Escale` if it is positive. -/
def barOf (Escale : ℚ) (m1 m2 : Material ℚ) : Sample ℚ where
  cells := [barCell [0, 1, 3, 4, 6, 7, 9, 10] 1 m1, barCell [1, 2, 4, 5, 7, 8, 10, 11] 2 m2]
  color := [[[1]], [[0]]]
  C0 := fun _ _ => 5
  Escale := Escale
  Emin := 1
  tol := 1 / 10 ^ 8
  fuel := 36
  handler := barHandler

/-- The sample with moduli `E1` and `E2`, read with the scaling `Escale` (no scaling if it is not positive). -/
def bar (Escale E1 E2 : ℚ) : Sample ℚ :=
  barOf Escale (.iso (E1 * if 0 < Escale then Escale else 1) (1 / 4) 0) (.iso (E2 * if 0 < Escale then Escale else 1) (1 / 4) 0)

/-- The elasticity matrices before scaling. -/
def barD (s : ℚ) (c : Cell ℚ) : Fin 6 → Fin 6 → ℚ :=
  match c.mat with
  | .iso E nu _ => (isoC6 (E / if 0 < s then s else 1) nu false).2
  | _ => fun _ _ => 0

theorem simpson_exact : ExactRule simpson := by
  have key : ∀ i j k : Fin 3, (simpson.map fun p => p.1 * p.2 0 ^ i.val * p.2 1 ^ j.val * p.2 2 ^ k.val).sum =
      1 / (((i.val : ℚ) + 1) * ((j.val : ℚ) + 1) * ((k.val : ℚ) + 1)) := by decide +kernel
  intro i j k hi hj hk
  exact key ⟨i, by omega⟩ ⟨j, by omega⟩ ⟨k, by omega⟩

theorem bar_mpcs {s : Nat} {c : Mpc ℚ} (h : barHandler.mpcs s = some c) :
    ∃ m, ((s / 3 = 4 ∧ m = 1) ∨ (s / 3 = 7 ∧ m = 1) ∨ (s / 3 = 10 ∧ m = 7)) ∧ c = ⟨s / 3, s % 3, 0, [⟨m, s % 3, 1⟩]⟩ := by
  obtain ⟨m, hm, rfl⟩ := Option.map_eq_some_iff.mp h
  refine ⟨m, ?_, rfl⟩
  simp only [List.lookup_cons, List.lookup_nil] at hm
  split at hm
  · rename_i e; left; exact ⟨by simpa using e, (Option.some.inj hm).symm⟩
  split at hm
  · rename_i e; right; left; exact ⟨by simpa using e, (Option.some.inj hm).symm⟩
  split at hm
  · rename_i e; right; right; exact ⟨by simpa using e, (Option.some.inj hm).symm⟩
  · cases hm

theorem bar_fixed {n : Nat} {f : Fixed ℚ} (h : barHandler.fixed n = some f) :
    n ∈ [0, 2, 3, 5, 6, 8, 9, 11] ∧ f = ⟨7, fun _ => 0⟩ := by
  change (if _ then _ else _) = _ at h
  split at h
  · rename_i hn
    exact ⟨hn, (Option.some.inj h).symm⟩
  · cases h

theorem bar_weights (len : ℚ) (hl : 0 < len) (vertex : List Nat) (m : Material ℚ) : ∀ q ∈ (barCell vertex len m).pts, 0 ≤ q.w := by
  intro q hq
  obtain ⟨p, hp, rfl⟩ := List.mem_map.mp hq
  have : ∀ p ∈ simpson, 0 ≤ p.1 := by decide +kernel
  exact mul_nonneg (this p hp) hl.le

theorem bar_definite (s E1 E2 : ℚ) (h1 : 0 < E1) (h2 : 0 < E2) : ∀ c ∈ (bar s E1 E2).cells, (∀ i k, barD s c i k = barD s c k i) ∧
    ∀ e : Fin 6 → ℚ, e ≠ 0 → 0 < ∑ i, e i * ∑ k, barD s c i k * e k := by
  have hs : 0 < (if 0 < s then s else 1) := by split <;> [assumption; exact one_pos]
  have key : ∀ (E : ℚ), 0 < E → ∀ (vx : List Nat) (l : ℚ),
      (∀ i k, barD s (barCell vx l (.iso (E * if 0 < s then s else 1) (1 / 4) 0)) i k = barD s (barCell vx l (.iso (E * if 0 < s then s else 1) (1 / 4) 0)) k i) ∧
      ∀ e : Fin 6 → ℚ, e ≠ 0 → 0 < ∑ i, e i * ∑ k, barD s (barCell vx l (.iso (E * if 0 < s then s else 1) (1 / 4) 0)) i k * e k := by
    intro E hE vx l
    have hD : barD s (barCell vx l (.iso (E * if 0 < s then s else 1) (1 / 4) 0)) = (isoC6 E (1 / 4) false).2 := by
      change (isoC6 ((E * if 0 < s then s else 1) / if 0 < s then s else 1) (1 / 4) false).2 = _
      rw [mul_div_cancel_right₀ _ hs.ne']
    obtain ⟨C, hC, h3, h4⟩ := C43_posdef E (1 / 4) hE (by norm_num) (by norm_num)
    rw [hD, hC]
    exact ⟨h3, h4⟩
  intro c hc
  rcases List.mem_cons.mp hc with rfl | hc
  · exact key E1 h1 _ _
  · obtain rfl := List.mem_singleton.mp hc
    exact key E2 h2 _ _

theorem barOf_sound (s : ℚ) (m1 m2 : Material ℚ) (D : Cell ℚ → Fin 6 → Fin 6 → ℚ)
    (hmat : ∀ c ∈ (barOf s m1 m2).cells, ∀ C, ∃ b, c.mat.constitutive false C = some (b, fun i k => D c i k * scale (barOf s m1 m2)))
    (hsym : ∀ c ∈ (barOf s m1 m2).cells, ∀ i k, D c i k = D c k i)
    (hpsd : ∀ c ∈ (barOf s m1 m2).cells, ∀ e : Fin 6 → ℚ, 0 ≤ ∑ i, e i * ∑ k, D c i k * e k) : Sound (barOf s m1 m2) D where
  dim := rfl
  fresh := rfl
  order := by
    change List.Perm [1, 0] [0, 1]
    exact List.Perm.swap _ _ _
  corners := by
    intro c hc
    rcases List.mem_cons.mp hc with rfl | hc
    · rfl
    · obtain rfl := List.mem_singleton.mp hc; rfl
  inside := by
    intro c hc
    rcases List.mem_cons.mp hc with rfl | hc
    · change ∀ n ∈ [0, 1, 3, 4, 6, 7, 9, 10], n < 12; decide
    · obtain rfl := List.mem_singleton.mp hc
      change ∀ n ∈ [1, 2, 4, 5, 7, 8, 10, 11], n < 12; decide
  material := hmat
  symm := hsym
  psd := hpsd
  weight := by
    intro c hc
    rcases List.mem_cons.mp hc with rfl | hc
    · exact bar_weights 1 (by norm_num) _ _
    · obtain rfl := List.mem_singleton.mp hc
      exact bar_weights 2 (by norm_num) _ _
  volume := by
    change (0 : ℚ) < (List.map _ [_, _]).sum
    simp only [List.map_cons, List.map_nil, List.sum_cons, List.sum_nil, barCell, List.map_map]
    have : ∀ l : ℚ, (simpson.map ((fun q : QP ℚ 6 => q.w) ∘ fun p => ⟨p.1 * l, B3 (physGrad hexShapes (barInv l) p.2)⟩)).sum = l := by
      intro l
      change (simpson.map fun p => p.1 * l).sum = l
      rw [List.sum_map_mul_right]
      have : (simpson.map fun p => p.1).sum = 1 := by decide +kernel
      rw [this, one_mul]
    rw [this, this]
    norm_num
  emin := fun _ => one_pos
  fixedIn := by
    intro n f hf
    have := (bar_fixed hf).1
    change n < 12
    revert this
    simp
    omega
  fixedZero := by
    intro n f hf i _
    rw [(bar_fixed hf).2]
  apart := by
    rintro n i ⟨f, hf, hb⟩ ⟨m, hm⟩
    obtain ⟨hn, rfl⟩ := bar_fixed hf
    have hi : i < 3 := by
      by_contra hi
      have : Nat.testBit 7 i = false := Nat.testBit_lt_two_pow (lt_of_lt_of_le (by norm_num) (Nat.pow_le_pow_right (by norm_num) (Nat.le_of_not_lt hi)))
      rw [this] at hb
      cases hb
    have hm' : barHandler.mpcs (n * 3 + i) = some m := hm
    obtain ⟨a, ha, -⟩ := bar_mpcs hm'
    simp at hn
    omega
  ranked := by
    refine ⟨fun s => if s < 36 then s else 0, ?_, fun s => ?_⟩
    · intro t c hc a ha
      obtain ⟨m, hm, rfl⟩ := bar_mpcs hc
      obtain rfl := List.mem_singleton.mp ha
      change (if m * 3 + t % 3 < 36 then m * 3 + t % 3 else 0) < if t < 36 then t else 0
      rw [if_pos (by omega), if_pos (by omega)]
      omega
    · change (if _ then _ else _) < 36
      split <;> omega
  slaves := by
    intro t c hc
    obtain ⟨m, hm, -⟩ := bar_mpcs hc
    change t < 12 * 3
    omega
  masters := by
    intro t c hc a ha
    obtain ⟨m, hm, rfl⟩ := bar_mpcs hc
    obtain rfl := List.mem_singleton.mp ha
    change m < 12 ∧ t % 3 < 3
    omega

theorem bar_sound (s E1 E2 : ℚ) (h1 : 0 < E1) (h2 : 0 < E2) : Sound (bar s E1 E2) (barD s) := by
  refine barOf_sound s _ _ _ ?_ (fun c hc => (bar_definite s E1 E2 h1 h2 c hc).1) fun c hc e => ?_
  · change ∀ c ∈ (bar s E1 E2).cells, ∀ C, ∃ b, c.mat.constitutive false C = some (b, fun i k => barD s c i k * scale (bar s E1 E2))
    have hs : 0 < (if 0 < s then s else 1) := by split <;> [assumption; exact one_pos]
    have hsc : scale (bar s E1 E2) = if 0 < s then s else 1 := by
      unfold scale bar barOf
      simp
    have key : ∀ (E : ℚ) (vx : List Nat) (l : ℚ) (C : Fin 6 → Fin 6 → ℚ),
        ∃ b, (barCell vx l (.iso (E * if 0 < s then s else 1) (1 / 4) 0)).mat.constitutive false C =
          some (b, fun i k => barD s (barCell vx l (.iso (E * if 0 < s then s else 1) (1 / 4) 0)) i k * scale (bar s E1 E2)) := by
      intro E vx l C
      obtain ⟨b, hb⟩ := iso_writes (E * if 0 < s then s else 1) (1 / 4) 0 C
      refine ⟨b, ?_⟩
      change Material.constitutive (Material.iso (E * if 0 < s then s else 1) (1 / 4) 0) false C = _
      rw [hb, hsc]
      congr 2
      funext i k
      unfold barD
      change _ = (isoC6 ((E * if 0 < s then s else 1) / if 0 < s then s else 1) (1 / 4) false).2 i k * _
      rw [mul_div_cancel_right₀ _ hs.ne', iso_scaled]
    intro c hc
    rcases List.mem_cons.mp hc with rfl | hc
    · exact key E1 _ _
    · obtain rfl := List.mem_singleton.mp hc
      exact key E2 _ _
  · by_cases he : e = 0
    · subst he; simp
    · exact ((bar_definite s E1 E2 h1 h2 c hc).2 e he).le

/-- All constraints are ties. -/
theorem bar_ties (s : ℚ) (m1 m2 : Material ℚ) : ∀ t c, (barOf s m1 m2).handler.mpcs t = some c → Tie c := by
  intro t c hc
  obtain ⟨m, -, rfl⟩ := bar_mpcs hc
  exact ⟨_, rfl, rfl⟩

theorem bar_jacobian (vx : List Nat) (len : ℚ) (E : Material ℚ) (x : Fin 3 → ℚ)
    (hX : ∀ f < 8, barX (vx.getD f 0) = ![barX (vx.getD 0 0) 0 + len * (f % 2 : Nat) + ((f / 2 % 2 : Nat) : ℚ) / 2,
      ((f / 2 % 2 : Nat) : ℚ), ((f / 4 : Nat) : ℚ)]) (d k : Fin 3) :
    jacobian hexShapes barX (barCell vx len E) x d k = ![![len, 1 / 2, 0], ![0, 1, 0], ![0, 0, 1]] d k := by
  unfold jacobian
  have h : ∀ d, ∀ f ∈ Finset.range 8, barX ((barCell vx len E).vertex.getD f 0) d * refGrad hexShapes x f k =
      (![barX (vx.getD 0 0) 0 + len * (f % 2 : Nat) + ((f / 2 % 2 : Nat) : ℚ) / 2,
      ((f / 2 % 2 : Nat) : ℚ), ((f / 4 : Nat) : ℚ)] : Fin 3 → ℚ) d * refGrad hexShapes x f k := by
    intro d f hf
    rw [← hX f (Finset.mem_range.mp hf)]
    rfl
  rw [Finset.sum_congr rfl (h d)]
  generalize barX (vx.getD 0 0) 0 = x0
  have g := grad_mono hexShapes shapes_eq x fun f => (![x0 + len * (f % 2 : Nat) + ((f / 2 % 2 : Nat) : ℚ) / 2,
      ((f / 2 % 2 : Nat) : ℚ), ((f / 4 : Nat) : ℚ)] : Fin 3 → ℚ) d
  fin_cases k
  · refine g.1.trans ?_
    fin_cases d <;> simp [mono] <;> exact .inl (.inl (by ring))
  · refine g.2.1.trans ?_
    fin_cases d <;> simp [mono] <;> exact .inl (.inl (by ring))
  · refine g.2.2.trans ?_
    fin_cases d <;> simp [mono] <;> exact .inl (.inl (by ring))

theorem bar_hex (vx : List Nat) (len : ℚ) (E : Material ℚ) (hl : len ≠ 0)
    (hX : ∀ f < 8, barX (vx.getD f 0) = ![barX (vx.getD 0 0) 0 + len * (f % 2 : Nat) + ((f / 2 % 2 : Nat) : ℚ) / 2,
      ((f / 2 % 2 : Nat) : ℚ), ((f / 4 : Nat) : ℚ)]) : Hexahedron hexShapes barX simpson (barCell vx len E) := by
  refine ⟨fun _ => barInv len, fun p _ d e => ?_, ?_⟩
  · simp only [bar_jacobian vx len E p.2 hX, Fin.sum_univ_three]
    fin_cases d <;> fin_cases e <;> simp [barInv] <;> field_simp <;> norm_num
  · have e : (barCell vx len E).pts = simpson.map fun p => ⟨p.1 * len, B3 (physGrad hexShapes (barInv len) p.2)⟩ := rfl
    rw [e]
    apply List.map_congr_left
    intro p _
    have : jacobian hexShapes barX (barCell vx len E) p.2 = ![![len, 1 / 2, 0], ![0, 1, 0], ![0, 0, 1]] :=
      funext fun d => funext fun k => bar_jacobian vx len E p.2 hX d k
    rw [this]
    congr 1
    simp [Matrix.det_fin_three]

/-- Behind the second cell comes the first one; in the other directions every cell follows itself. -/
def barNext (s : ℚ) (m1 m2 : Material ℚ) : Fin 3 → Equiv.Perm (Fin (barOf s m1 m2).cells.length) :=
  (![Equiv.swap (0 : Fin 2) 1, 1, 1] : Fin 3 → Equiv.Perm (Fin 2))

theorem bar_admissible (v : Nat → Nat → ℚ) (h : Admissible barHandler v) (i : Nat) (hi : i < 3) :
    (∀ n ∈ [0, 2, 3, 5, 6, 8, 9, 11], v n i = 0) ∧ v 4 i = v 1 i ∧ v 7 i = v 1 i ∧ v 10 i = v 7 i := by
  have hb : Nat.testBit 7 i = true := by interval_cases i <;> rfl
  have hm : ∀ n m : Nat, n < 12 → ([(4, 1), (7, 1), (10, 7)] : List (Nat × Nat)).lookup n = some m → v n i = v m i := by
    intro n m hn hl
    have h1 : barHandler.mpcs (n * 3 + i) = some ⟨n, i, 0, [⟨m, i, 1⟩]⟩ := by
      change (([(4, 1), (7, 1), (10, 7)] : List (Nat × Nat)).lookup ((n * 3 + i) / 3)).map _ = _
      rw [show (n * 3 + i) / 3 = n by omega, show (n * 3 + i) % 3 = i by omega, hl]
      rfl
    have := h.2 n i _ hn hi h1
    simpa using this
  refine ⟨fun n hn => h.1 n i ⟨⟨7, fun _ => 0⟩, if_pos hn, hb⟩, hm 4 1 (by decide) rfl, hm 7 1 (by decide) rfl,
    hm 10 7 (by decide) rfl⟩

theorem bar_torus (s : ℚ) (m1 m2 : Material ℚ) : Torus (barOf s m1 m2) hexShapes barX simpson (barNext s m1 m2) where
  shapes := shapes_eq
  exact := simpson_exact
  hexahedra := by
    intro c hc
    rcases List.mem_cons.mp hc with rfl | hc
    · exact bar_hex _ 1 _ (by norm_num) (by decide +kernel)
    · obtain rfl := List.mem_singleton.mp hc
      exact bar_hex _ 2 _ (by norm_num) (by decide +kernel)
  meet := by
    have key : ∀ (a : Fin 3) (c : Fin 2), ∃ L : Fin 3 → ℚ, ∀ f < 8, f.testBit a →
        (∀ d, barX (([[0, 1, 3, 4, 6, 7, 9, 10], [1, 2, 4, 5, 7, 8, 10, 11]][c] : List Nat).getD f 0) d =
          barX (([[0, 1, 3, 4, 6, 7, 9, 10], [1, 2, 4, 5, 7, 8, 10, 11]][
            (![Equiv.swap (0 : Fin 2) 1, 1, 1] : Fin 3 → Equiv.Perm (Fin 2)) a c] : List Nat).getD (f - 2 ^ a.val) 0) d + L d) := by
      intro a c
      refine ⟨(![![0, ![3, 0, 0]], fun _ => ![1 / 2, 1, 0], fun _ => ![0, 0, 1]] : Fin 3 → Fin 2 → Fin 3 → ℚ) a c, ?_⟩
      revert a c
      decide +kernel
    have key2 : ∀ (a : Fin 3) (c : Fin 2), ∀ f < 8, f.testBit a → ∃ p q : Nat,
        ([[0, 1, 3, 4, 6, 7, 9, 10], [1, 2, 4, 5, 7, 8, 10, 11]][c] : List Nat).getD f 0 = p ∧
        ([[0, 1, 3, 4, 6, 7, 9, 10], [1, 2, 4, 5, 7, 8, 10, 11]][
            (![Equiv.swap (0 : Fin 2) 1, 1, 1] : Fin 3 → Equiv.Perm (Fin 2)) a c] : List Nat).getD (f - 2 ^ a.val) 0 = q ∧
        p < 12 ∧ q < 12 ∧ (p % 3 = 1 ↔ q % 3 = 1) := by
      have : ∀ (a : Fin 3) (c : Fin 2), ∀ f < 8, f.testBit a →
        ([[0, 1, 3, 4, 6, 7, 9, 10], [1, 2, 4, 5, 7, 8, 10, 11]][c] : List Nat).getD f 0 < 12 ∧
        ([[0, 1, 3, 4, 6, 7, 9, 10], [1, 2, 4, 5, 7, 8, 10, 11]][
            (![Equiv.swap (0 : Fin 2) 1, 1, 1] : Fin 3 → Equiv.Perm (Fin 2)) a c] : List Nat).getD (f - 2 ^ a.val) 0 < 12 ∧
        (([[0, 1, 3, 4, 6, 7, 9, 10], [1, 2, 4, 5, 7, 8, 10, 11]][c] : List Nat).getD f 0 % 3 = 1 ↔
        ([[0, 1, 3, 4, 6, 7, 9, 10], [1, 2, 4, 5, 7, 8, 10, 11]][
            (![Equiv.swap (0 : Fin 2) 1, 1, 1] : Fin 3 → Equiv.Perm (Fin 2)) a c] : List Nat).getD (f - 2 ^ a.val) 0 % 3 = 1) := by
        decide +kernel
      exact fun a c f h1 h2 => ⟨_, _, rfl, rfl, this a c f h1 h2⟩
    intro a c
    have hvx : ∀ c : Fin 2, ((barOf s m1 m2).cells[c]).vertex = [[0, 1, 3, 4, 6, 7, 9, 10], [1, 2, 4, 5, 7, 8, 10, 11]][c] := by
      intro c; fin_cases c <;> rfl
    obtain ⟨L, hL⟩ := key a c
    refine ⟨L, fun f h1 h2 => ⟨fun d => ?_, fun v hv i hi => ?_⟩⟩
    · refine (congrArg (fun l : List Nat => barX (l.getD f 0) d) (hvx c)).trans ((hL f h1 h2 d).trans ?_)
      congr 1
      exact (congrArg (fun l : List Nat => barX (l.getD (f - 2 ^ a.val) 0) d) (hvx (barNext s m1 m2 a c))).symm
    · obtain ⟨p, q, hp, hq, hpq⟩ := key2 a c f h1 h2
      have e1 : ((barOf s m1 m2).cells[c]).vertex.getD f 0 = p := (congrArg (fun l : List Nat => l.getD f 0) (hvx c)).trans hp
      have e2 : ((barOf s m1 m2).cells[barNext s m1 m2 a c]).vertex.getD (f - 2 ^ a.val) 0 = q :=
        (congrArg (fun l : List Nat => l.getD (f - 2 ^ a.val) 0) (hvx (barNext s m1 m2 a c))).trans hq
      rw [e1, e2]
      obtain ⟨g0, g4, g7, g10⟩ := bar_admissible v hv i hi
      obtain ⟨h3, h4, h5⟩ := hpq
      have hc : ∀ p < 12, v p i = if p % 3 = 1 then v 1 i else 0 := by
        intro p hp
        interval_cases p <;> first | rfl | exact g0 _ (by decide) | exact g4 | exact g7 | exact g10.trans g7
      rw [hc p h3, hc q h4]
      simp only [h5]

/-- There are exact solvers. -/
theorem exists_exact {K : Type} [Field K] : ∃ solver : Nat → (Nat → Nat → K) → (Nat → K) → Nat → K, Exact solver := by
  classical
  refine ⟨fun N A b => if h : ∃ x : Nat → K, ∀ r < N, ∑ c ∈ Finset.range N, A r c * x c = b r then h.choose else fun _ => 0, ?_⟩
  intro N A b h
  beta_reduce
  rw [dif_pos h]
  exact h.choose_spec

end Verif.ElasticUp
