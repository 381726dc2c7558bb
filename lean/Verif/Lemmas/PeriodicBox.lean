import Verif.Lemmas.PeriodicBCs
import Verif.Props.ElasticPeriodic

/-! C99 for grids of boxes. -/

namespace Verif.PBC

open Verif.BGrid Verif.Asm Verif.ElasticUp

variable {K : Type} [Field K] [LinearOrder K] [IsStrictOrderedRing K]

/-! ### Numbers and digits -/

theorem digits_number (R c : Fin 3 → Nat) (h0 : c 0 < R 0) (h1 : c 1 < R 1) : digits R (number R c) = c := by
  have hR : 0 < R 0 := by omega
  have hR1 : 0 < R 1 := by omega
  have e0 : (c 0 + R 0 * (c 1 + R 1 * c 2)) % R 0 = c 0 := by rw [Nat.add_mul_mod_self_left, Nat.mod_eq_of_lt h0]
  have e1 : (c 0 + R 0 * (c 1 + R 1 * c 2)) / R 0 = c 1 + R 1 * c 2 := by
    rw [Nat.add_mul_div_left _ _ hR, Nat.div_eq_of_lt h0, Nat.zero_add]
  unfold digits number
  funext d
  fin_cases d
  · exact e0
  · change (c 0 + R 0 * (c 1 + R 1 * c 2)) / R 0 % R 1 = c 1
    rw [e1, Nat.add_mul_mod_self_left, Nat.mod_eq_of_lt h1]
  · change (c 0 + R 0 * (c 1 + R 1 * c 2)) / R 0 / R 1 = c 2
    rw [e1, Nat.add_mul_div_left _ _ hR1, Nat.div_eq_of_lt h1, Nat.zero_add]

theorem number_digits (R : Fin 3 → Nat) (k : Nat) : number R (digits R k) = k := by
  unfold digits number
  change k % R 0 + R 0 * (k / R 0 % R 1 + R 1 * (k / R 0 / R 1)) = k
  rw [Nat.mod_add_div, Nat.mod_add_div]

theorem digits_lt (R : Fin 3 → Nat) (hR : ∀ d, 0 < R d) (k : Nat) (hk : k < R 0 * R 1 * R 2) (d : Fin 3) : digits R k d < R d := by
  fin_cases d
  · exact Nat.mod_lt _ (hR 0)
  · exact Nat.mod_lt _ (hR 1)
  · change k / R 0 / R 1 < R 2
    rw [Nat.div_div_eq_div_mul]
    exact Nat.div_lt_of_lt_mul hk

theorem number_lt (R c : Fin 3 → Nat) (h : ∀ d, c d < R d) : number R c < R 0 * R 1 * R 2 := by
  unfold number
  have h0 := h 0
  have h1 := h 1
  have h2 := h 2
  have a1 : c 1 + R 1 * c 2 + 1 ≤ R 1 * R 2 := by
    calc c 1 + R 1 * c 2 + 1 ≤ R 1 + R 1 * c 2 := by omega
      _ = R 1 * (c 2 + 1) := by ring
      _ ≤ R 1 * R 2 := Nat.mul_le_mul_left _ h2
  calc c 0 + R 0 * (c 1 + R 1 * c 2) < R 0 + R 0 * (c 1 + R 1 * c 2) := by omega
    _ = R 0 * (c 1 + R 1 * c 2 + 1) := by ring
    _ ≤ R 0 * (R 1 * R 2) := Nat.mul_le_mul_left _ a1
    _ = R 0 * R 1 * R 2 := by ring

/-! ### Box grids -/

section
variable {tol g : K} {N : Fin 3 → Nat} {pts : Fin 3 → Nat → K}

/-- Radices of the nodes. -/
abbrev rad (N : Fin 3 → Nat) : Fin 3 → Nat := fun d => N d + 1

theorem node_digits (n : Nat) (hn : n < (boxMesh N pts).nodes) (d : Fin 3) : digits (rad N) n d ≤ N d :=
  Nat.lt_succ_iff.mp (digits_lt (rad N) (fun _ => Nat.succ_pos _) n hn d)

theorem digits_node (c : Fin 3 → Nat) (h : ∀ d, c d ≤ N d) : digits (rad N) (number (rad N) c) = c :=
  digits_number _ _ (Nat.lt_succ_of_le (h 0)) (Nat.lt_succ_of_le (h 1))

theorem node_lt (c : Fin 3 → Nat) (h : ∀ d, c d ≤ N d) : number (rad N) c < (boxMesh N pts).nodes :=
  number_lt (rad N) c fun d => Nat.lt_succ_of_le (h d)

theorem X_eq (n : Nat) (d : Fin 3) : (boxMesh N pts).X n d = pts d (digits (rad N) n d) := rfl

theorem g_pos (hS : Spaced tol g N pts) : 0 < g := lt_of_lt_of_le hS.pos hS.tol

theorem g_large (hS : Spaced tol g N pts) : 1 / 10 ^ 8 < g := by
  by_contra h
  have h1 : g ≤ 1 / 10 ^ 8 := not_lt.mp h
  have h0 := g_pos hS
  have h2 : g * g ≤ 1 / 10 ^ 8 * (1 / 10 ^ 8) := mul_le_mul h1 h1 h0.le (by positivity)
  have h3 := hS.area
  norm_num at h2 h3
  linarith

theorem pts_mono (hS : Spaced tol g N pts) (d : Fin 3) : ∀ j ≤ N d, ∀ i < j, pts d i + g ≤ pts d j := by
  intro j
  induction j with
  | zero => intro _ i hi; omega
  | succ j ih =>
    intro hj i hi
    have h1 := hS.gap d j (by omega)
    rcases Nat.lt_or_ge i j with h | h
    · have := ih (by omega) i h
      linarith [g_pos hS]
    · have : i = j := by omega
      rw [this]; exact h1

theorem pts_inj (hS : Spaced tol g N pts) (d : Fin 3) (i j : Nat) (hi : i ≤ N d) (hj : j ≤ N d) (h : |pts d i - pts d j| < g) : i = j := by
  rcases Nat.lt_trichotomy i j with hlt | he | hlt
  · have := pts_mono hS d j hj i hlt
    have h1 := (abs_lt.mp h).1
    linarith
  · exact he
  · have := pts_mono hS d i hi j hlt
    have h1 := (abs_lt.mp h).2
    linarith

theorem pts_eq (hS : Spaced tol g N pts) (d : Fin 3) (i j : Nat) (hi : i ≤ N d) (hj : j ≤ N d) (h : pts d i = pts d j) : i = j :=
  pts_inj hS d i j hi hj (by rw [h, sub_self, abs_zero]; exact g_pos hS)

theorem mem_cells {c : List Nat} (h : c ∈ (boxMesh N pts).cells) (hN : ∀ d, 0 < N d) : ∃ l : Fin 3 → Nat, (∀ d, l d < N d) ∧ c = boxCell N l := by
  obtain ⟨k, hk, rfl⟩ := List.mem_map.mp h
  exact ⟨_, fun d => digits_lt N hN k (List.mem_range.mp hk) d, rfl⟩

theorem cell_mem (l : Fin 3 → Nat) (h : ∀ d, l d < N d) : boxCell N l ∈ (boxMesh N pts).cells := by
  refine List.mem_map.mpr ⟨number N l, List.mem_range.mpr (number_lt N l h), ?_⟩
  beta_reduce
  rw [digits_number N l (h 0) (h 1)]

theorem cell_get (l : Fin 3 → Nat) (f : Nat) (hf : f < 8) :
    (boxCell N l)[f]? = some (number (rad N) fun d => l d + (f.testBit d).toNat) := by
  unfold boxCell
  rw [List.getElem?_map, List.getElem?_range hf]
  rfl

theorem corner_le (l : Fin 3 → Nat) (h : ∀ d, l d < N d) (f : Nat) (d : Fin 3) : l d + (f.testBit d).toNat ≤ N d := by
  have := h d
  have := Bool.toNat_le (f.testBit d)
  omega

/-- A vertex number from its bits. -/
theorem bits_exist (b : Fin 3 → Bool) : ∃ f < 8, ∀ d : Fin 3, f.testBit d = b d := by
  refine ⟨(b 0).toNat + 2 * (b 1).toNat + 4 * (b 2).toNat, ?_, ?_⟩
  · have := Bool.toNat_le (b 0); have := Bool.toNat_le (b 1); have := Bool.toNat_le (b 2); omega
  · intro d
    rcases h0 : b 0 <;> rcases h1 : b 1 <;> rcases h2 : b 2 <;> fin_cases d <;> simp [h0, h1, h2] <;> decide

/-- The nodes of the lower side of a cell. -/
theorem lower_iff (l : Fin 3 → Nat) (h : ∀ d, l d < N d) (d : Fin 3) (n : Nat) (hn : n < (boxMesh N pts).nodes) :
    LowerSide d (boxCell N l) n ↔ digits (rad N) n d = l d ∧ ∀ e ≠ d, digits (rad N) n e = l e ∨ digits (rad N) n e = l e + 1 := by
  constructor
  · rintro ⟨f, hf, hb, hg⟩
    rw [cell_get l f hf] at hg
    obtain rfl := Option.some.inj hg
    rw [digits_node _ fun e => corner_le l h f e]
    refine ⟨by beta_reduce; rw [hb]; rfl, fun e _ => ?_⟩
    beta_reduce
    rcases f.testBit e
    · exact Or.inl rfl
    · exact Or.inr rfl
  · rintro ⟨h1, h2⟩
    obtain ⟨f, hf, hb⟩ := bits_exist fun e => decide (digits (rad N) n e = l e + 1)
    refine ⟨f, hf, ?_, ?_⟩
    · rw [hb d]; simp [h1]
    · rw [cell_get l f hf]
      congr 1
      rw [← number_digits (rad N) n]
      congr 1
      funext e
      rw [hb e]
      by_cases he : e = d
      · rw [he, h1]; simp
      · rcases h2 e he with h3 | h3
        · rw [h3]; simp
        · rw [h3]; simp

/-- The sides of a grid of boxes match. -/
theorem box_matched (hS : Spaced tol g N pts) :
    Matched tol (boxMesh N pts) (fun d => pts d 0) (fun d => pts d (N d)) (boxOpp N) := by
  have low : ∀ d, ∀ n < (boxMesh N pts).nodes, (boxMesh N pts).X n d = pts d 0 ↔ digits (rad N) n d = 0 := by
    intro d n hn
    constructor
    · intro h; exact pts_eq hS d _ _ (node_digits n hn d) (Nat.zero_le _) h
    · intro h; rw [X_eq, h]
  have upp : ∀ d, ∀ n < (boxMesh N pts).nodes, (boxMesh N pts).X n d = pts d (N d) ↔ digits (rad N) n d = N d := by
    intro d n hn
    constructor
    · intro h; exact pts_eq hS d _ _ (node_digits n hn d) le_rfl h
    · intro h; rw [X_eq, h]
  have cellIn : ∀ l : Fin 3 → Nat, (∀ d, l d < N d) → ∀ d n, LowerSide d (boxCell N l) n → n < (boxMesh N pts).nodes := by
    rintro l hl d n ⟨f, hf, -, hg⟩
    rw [cell_get l f hf] at hg
    obtain rfl := Option.some.inj hg
    exact node_lt _ fun e => corner_le l hl f e
  -- a node of the lower side with given offsets
  have lowNode : ∀ l : Fin 3 → Nat, (∀ d, l d < N d) → ∀ (d e : Fin 3) (b : Nat), d ≠ e → b ≤ 1 → ∃ a, LowerSide d (boxCell N l) a ∧
      (boxMesh N pts).X a e = pts e (l e + b) := by
    intro l hl d e b hde hb
    have hle : ∀ x, Function.update l e (l e + b) x ≤ N x := by
      intro x
      by_cases hx : x = e
      · rw [hx, Function.update_self]; have := hl e; omega
      · rw [Function.update_of_ne hx]; exact (hl x).le
    refine ⟨number (rad N) (Function.update l e (l e + b)), ?_, ?_⟩
    · rw [lower_iff l hl d _ (node_lt (pts := pts) _ hle), digits_node _ hle]
      refine ⟨Function.update_of_ne hde _ _, fun x hx => ?_⟩
      by_cases hxe : x = e
      · rw [hxe, Function.update_self]; omega
      · rw [Function.update_of_ne hxe]; exact Or.inl rfl
    · rw [X_eq, digits_node _ hle, Function.update_self]
  refine ⟨hS.pos, fun d => ?_, fun c hc => ?_, fun n hn d => ?_, fun n hn d hd => ?_, fun d n hn m hm hnd hmd hne => ?_,
    fun d n hn hd => ?_, fun d c hc hall n hn hd hbox => ?_⟩
  · have := pts_mono hS d (N d) le_rfl 0 (hS.cells d)
    have := hS.tol
    linarith
  · obtain ⟨l, hl, rfl⟩ := mem_cells hc hS.cells
    refine ⟨by simp [boxCell], fun n hn => ?_⟩
    obtain ⟨f, -, rfl⟩ := List.mem_map.mp hn
    exact node_lt _ fun e => corner_le l hl f e
  · have h1 := node_digits n hn d
    rcases Nat.eq_zero_or_pos (digits (rad N) n d) with h0 | h0
    · exact Or.inl ((low d n hn).mpr h0)
    · rcases Nat.lt_or_ge (digits (rad N) n d) (N d) with h2 | h2
      · refine Or.inr (Or.inr ⟨?_, ?_⟩)
        · rw [X_eq]; linarith [pts_mono hS d _ h1 0 h0, hS.tol]
        · rw [X_eq]; linarith [pts_mono hS d _ le_rfl _ h2, hS.tol]
      · exact Or.inr (Or.inl ((upp d n hn).mpr (by omega)))
  · have hle : ∀ x, Function.update (digits (rad N) n) d 0 x ≤ N x := by
      intro x
      by_cases hx : x = d
      · rw [hx, Function.update_self]; exact Nat.zero_le _
      · rw [Function.update_of_ne hx]; exact node_digits n hn x
    refine ⟨node_lt _ hle, ?_, fun e he => ?_⟩
    · rw [X_eq]; unfold boxOpp; rw [digits_node _ hle, Function.update_self]
    · rw [X_eq, X_eq]; unfold boxOpp; rw [digits_node _ hle, Function.update_of_ne he]
  · have hdig : digits (rad N) n = digits (rad N) m := by
      funext e
      by_cases he : e = d
      · rw [he, (low d n hn).mp hnd, (low d m hm).mp hmd]
      · exact pts_inj hS e _ _ (node_digits n hn e) (node_digits m hm e) ((hne e he).trans (g_large hS))
    rw [← number_digits (rad N) n, hdig, number_digits]
  · -- the cell below the node
    have hl : ∀ e, min (digits (rad N) n e) (N e - 1) < N e := fun e => by have := hS.cells e; omega
    have h0 := (low d n hn).mp hd
    refine ⟨boxCell N fun e => min (digits (rad N) n e) (N e - 1), cell_mem _ hl, ?_, fun m hm => ?_, fun e e' hde hde' hee => ?_⟩
    · rw [lower_iff _ hl d n hn]
      refine ⟨by rw [h0]; omega, fun e _ => ?_⟩
      have := node_digits n hn e
      omega
    · have hm' := cellIn _ hl d m hm
      rw [lower_iff _ hl d m hm'] at hm
      refine (low d m hm').mpr ?_
      rw [hm.1, h0]
      omega
    · obtain ⟨a, la, xa⟩ := lowNode _ hl d e 0 hde (by omega)
      obtain ⟨b, lb, xb⟩ := lowNode _ hl d e 1 hde le_rfl
      obtain ⟨a', la', xa'⟩ := lowNode _ hl d e' 0 hde' (by omega)
      obtain ⟨b', lb', xb'⟩ := lowNode _ hl d e' 1 hde' le_rfl
      have g1 := hS.gap e _ (hl e)
      have g2 := hS.gap e' _ (hl e')
      have hg := g_pos hS
      rw [Nat.add_zero] at xa xa'
      refine ⟨a, b, a', b', la, lb, la', lb', by rw [xa, xb]; linarith, by rw [xa', xb']; linarith, ?_⟩
      rw [xa, xb, xa', xb']
      exact hS.area.trans (mul_le_mul (by linarith) (by linarith) hg.le (by linarith))
  · obtain ⟨l, hl, rfl⟩ := mem_cells hc hS.cells
    rw [lower_iff l hl d n hn]
    have hld : l d = 0 := by
      obtain ⟨e, he⟩ : ∃ e, d ≠ e := ⟨d + 1, (by decide : ∀ d : Fin 3, d ≠ d + 1) d⟩
      obtain ⟨a, la, -⟩ := lowNode l hl d e 0 he (by omega)
      have ha := cellIn l hl d a la
      rw [← ((lower_iff l hl d a ha).mp la).1]
      exact (low d a ha).mp (hall a la)
    refine ⟨by rw [hld]; exact (low d n hn).mp hd, fun e he => ?_⟩
    obtain ⟨⟨a, la, xa⟩, b, lb, xb⟩ := hbox e he
    have ha := cellIn l hl d a la
    have hb := cellIn l hl d b lb
    have da := ((lower_iff l hl d a ha).mp la).2 e he
    have db := ((lower_iff l hl d b hb).mp lb).2 e he
    rw [X_eq, X_eq] at xa xb
    have hgl := g_large hS
    have o1 : digits (rad N) a e ≤ digits (rad N) n e := by
      by_contra hlt
      have := pts_mono hS e _ (node_digits a ha e) _ (not_le.mp hlt)
      linarith
    have o2 : digits (rad N) n e ≤ digits (rad N) b e := by
      by_contra hlt
      have := pts_mono hS e _ (node_digits n hn e) _ (not_le.mp hlt)
      linarith
    omega

/-! ### Neighbours -/

theorem cells_length : (boxMesh N pts).cells.length = N 0 * N 1 * N 2 := by
  unfold boxMesh
  rw [List.length_map, List.length_range]

theorem cells_get (c : Fin (boxMesh N pts).cells.length) : (boxMesh N pts).cells[c] = boxCell N (digits N c) := by
  have h1 : (boxMesh N pts).cells[c.val]? = some (boxCell N (digits N c)) := by
    change ((List.range (N 0 * N 1 * N 2)).map fun k => boxCell N (digits N k))[c.val]? = _
    rw [List.getElem?_map, List.getElem?_range (lt_of_lt_of_eq c.isLt cells_length)]
    rfl
  rw [List.getElem?_eq_getElem c.isLt] at h1
  exact Option.some.inj h1

/-- Indices of the next cell. -/
def step (N l : Fin 3 → Nat) (a : Fin 3) : Fin 3 → Nat := Function.update l a ((l a + 1) % N a)

theorem step_lt (l : Fin 3 → Nat) (h : ∀ d, l d < N d) (a d : Fin 3) : step N l a d < N d := by
  unfold step
  by_cases hd : d = a
  · rw [hd, Function.update_self]; exact Nat.mod_lt _ (by have := h a; omega)
  · rw [Function.update_of_ne hd]; exact h d

theorem step_inj (l l' : Fin 3 → Nat) (h : ∀ d, l d < N d) (h' : ∀ d, l' d < N d) (a : Fin 3) (he : step N l a = step N l' a) : l = l' := by
  funext d
  have e := congrFun he d
  unfold step at e
  by_cases hd : d = a
  · subst hd
    rw [Function.update_self, Function.update_self] at e
    have h1 := h d
    have h2 := h' d
    rcases Nat.lt_or_ge (l d + 1) (N d) with g1 | g1 <;> rcases Nat.lt_or_ge (l' d + 1) (N d) with g2 | g2
    · rw [Nat.mod_eq_of_lt g1, Nat.mod_eq_of_lt g2] at e; omega
    · rw [Nat.mod_eq_of_lt g1, show l' d + 1 = N d by omega, Nat.mod_self] at e; omega
    · rw [Nat.mod_eq_of_lt g2, show l d + 1 = N d by omega, Nat.mod_self] at e; omega
    · omega
  · rw [Function.update_of_ne hd, Function.update_of_ne hd] at e
    exact e

/-- The next cell. -/
noncomputable def boxNext (hN : ∀ d, 0 < N d) (a : Fin 3) : Equiv.Perm (Fin (boxMesh N pts).cells.length) :=
  Equiv.ofBijective (fun c => ⟨number N (step N (digits N c) a),
      lt_of_lt_of_eq (number_lt N _ fun d => step_lt _ (fun d => digits_lt N hN c (lt_of_lt_of_eq c.isLt cells_length) d) a d)
        cells_length.symm⟩)
    (Finite.injective_iff_bijective.mp fun c c' he => by
      have hc : ∀ c : Fin (boxMesh N pts).cells.length, ∀ d, digits N c d < N d :=
        fun c d => digits_lt N hN c (lt_of_lt_of_eq c.isLt cells_length) d
      have e1 := congrArg (digits N) (congrArg Fin.val he)
      dsimp only at e1
      rw [digits_number N _ (step_lt _ (hc c) a 0) (step_lt _ (hc c) a 1),
        digits_number N _ (step_lt _ (hc c') a 0) (step_lt _ (hc c') a 1)] at e1
      have e2 := step_inj _ _ (hc c) (hc c') a e1
      apply Fin.ext
      rw [← number_digits N c, e2, number_digits])

theorem cell_getD (l : Fin 3 → Nat) (f : Nat) (hf : f < 8) :
    (boxCell N l).getD f 0 = number (rad N) fun d => l d + (f.testBit d).toNat := by
  rw [List.getD_eq_getElem?_getD, cell_get l f hf, Option.getD_some]

theorem bits_sub : ∀ f : Fin 8, ∀ a d : Fin 3, f.val.testBit a = true →
    (f.val - 2 ^ a.val).testBit d = (if d = a then false else f.val.testBit d) := by decide

/-- Cells of a grid of boxes have neighbours. -/
theorem box_neighbours (hS : Spaced tol g N pts) :
    Neighbours (boxMesh N pts) (fun d => pts d (N d)) (boxOpp N) (boxNext hS.cells) := by
  intro a c
  have hc : ∀ d, digits N c d < N d := fun d => digits_lt N hS.cells c (lt_of_lt_of_eq c.isLt cells_length) d
  have hn : (boxMesh N pts).cells[boxNext hS.cells a c] = boxCell N (step N (digits N c) a) := by
    rw [cells_get]
    congr 1
    exact digits_number N _ (step_lt _ hc a 0) (step_lt _ hc a 1)
  rw [hn, cells_get]
  rcases Nat.lt_or_ge (digits N c a + 1) (N a) with h | h
  · left
    intro f hf hb
    rw [cell_getD _ f hf, cell_getD _ _ (lt_of_le_of_lt (Nat.sub_le _ _) hf)]
    congr 1
    funext d
    rw [bits_sub ⟨f, hf⟩ a d hb]
    unfold step
    by_cases hd : d = a
    · rw [if_pos hd, hd, Function.update_self, Nat.mod_eq_of_lt h, hb]; rfl
    · rw [if_neg hd, Function.update_of_ne hd]
  · right
    intro f hf hb
    have he : digits N c a + 1 = N a := by have := hc a; omega
    have hdig : digits (rad N) ((boxCell N (digits N c)).getD f 0) = fun d => digits N c d + (f.testBit d).toNat := by
      rw [cell_getD _ f hf, digits_node _ fun d => corner_le _ hc f d]
    refine ⟨?_, ?_⟩
    · rw [X_eq, hdig]
      beta_reduce
      rw [hb, ← he]; rfl
    · unfold boxOpp
      rw [hdig, cell_getD _ _ (lt_of_le_of_lt (Nat.sub_le _ _) hf)]
      congr 1
      funext d
      rw [bits_sub ⟨f, hf⟩ a d hb]
      unfold step
      by_cases hd : d = a
      · rw [if_pos hd, hd, Function.update_self, Function.update_self, he, Nat.mod_self]; rfl
      · rw [if_neg hd, Function.update_of_ne hd, Function.update_of_ne hd]

/-! ### Samples -/

theorem box_jacobian (F : List (Shape.Linear K 3)) (hF : Shape.p1Set 3 = some F) (l : Fin 3 → Nat) (hl : ∀ d, l d < N d) (c : Cell K)
    (hc : c.vertex = boxCell N l) (x : Fin 3 → K) (d k : Fin 3) :
    ElasticUp.jacobian F (boxMesh N pts).X c x d k = if d = k then edges pts l d else 0 := by
  have hX : ∀ f ∈ Finset.range 8, (boxMesh N pts).X (c.vertex.getD f 0) d * Elastic.refGrad F x f k =
      pts d (l d + (f.testBit d).toNat) * Elastic.refGrad F x f k := by
    intro f hf
    rw [hc, cell_getD l f (Finset.mem_range.mp hf), X_eq, digits_node _ fun e => corner_le l hl f e]
  unfold ElasticUp.jacobian
  rw [Finset.sum_congr rfl hX]
  obtain ⟨g0, g1, g2⟩ := grad_mono F hF x fun f => pts d (l d + (f.testBit d).toNat)
  unfold edges
  have hd : d = 0 ∨ d = 1 ∨ d = 2 := by fin_cases d <;> simp
  have hk : k = 0 ∨ k = 1 ∨ k = 2 := by fin_cases k <;> simp
  rcases hk with rfl | rfl | rfl
  · refine g0.trans ?_
    rcases hd with rfl | rfl | rfl
    · change (pts 0 (l 0 + 1) - pts 0 (l 0)) + (pts 0 (l 0 + 1) - pts 0 (l 0) - pts 0 (l 0 + 1) + pts 0 (l 0)) * x 1 +
        (pts 0 (l 0 + 1) - pts 0 (l 0) - pts 0 (l 0 + 1) + pts 0 (l 0)) * x 2 +
        (pts 0 (l 0 + 1) - pts 0 (l 0) - pts 0 (l 0 + 1) - pts 0 (l 0 + 1) + pts 0 (l 0) + pts 0 (l 0) + pts 0 (l 0 + 1) - pts 0 (l 0)) *
          x 1 * x 2 = pts 0 (l 0 + 1) - pts 0 (l 0)
      ring
    · change (pts 1 (l 1) - pts 1 (l 1)) + (pts 1 (l 1 + 1) - pts 1 (l 1 + 1) - pts 1 (l 1) + pts 1 (l 1)) * x 1 +
        (pts 1 (l 1) - pts 1 (l 1) - pts 1 (l 1) + pts 1 (l 1)) * x 2 +
        (pts 1 (l 1 + 1) - pts 1 (l 1 + 1) - pts 1 (l 1) - pts 1 (l 1 + 1) + pts 1 (l 1) + pts 1 (l 1 + 1) + pts 1 (l 1) - pts 1 (l 1)) *
          x 1 * x 2 = 0
      ring
    · change (pts 2 (l 2) - pts 2 (l 2)) + (pts 2 (l 2) - pts 2 (l 2) - pts 2 (l 2) + pts 2 (l 2)) * x 1 +
        (pts 2 (l 2 + 1) - pts 2 (l 2 + 1) - pts 2 (l 2) + pts 2 (l 2)) * x 2 +
        (pts 2 (l 2 + 1) - pts 2 (l 2 + 1) - pts 2 (l 2 + 1) - pts 2 (l 2) + pts 2 (l 2 + 1) + pts 2 (l 2) + pts 2 (l 2) - pts 2 (l 2)) *
          x 1 * x 2 = 0
      ring
  · refine g1.trans ?_
    rcases hd with rfl | rfl | rfl
    · change (pts 0 (l 0) - pts 0 (l 0)) + (pts 0 (l 0 + 1) - pts 0 (l 0) - pts 0 (l 0 + 1) + pts 0 (l 0)) * x 0 +
        (pts 0 (l 0) - pts 0 (l 0) - pts 0 (l 0) + pts 0 (l 0)) * x 2 +
        (pts 0 (l 0 + 1) - pts 0 (l 0) - pts 0 (l 0 + 1) - pts 0 (l 0 + 1) + pts 0 (l 0) + pts 0 (l 0) + pts 0 (l 0 + 1) - pts 0 (l 0)) *
          x 0 * x 2 = 0
      ring
    · change (pts 1 (l 1 + 1) - pts 1 (l 1)) + (pts 1 (l 1 + 1) - pts 1 (l 1 + 1) - pts 1 (l 1) + pts 1 (l 1)) * x 0 +
        (pts 1 (l 1 + 1) - pts 1 (l 1) - pts 1 (l 1 + 1) + pts 1 (l 1)) * x 2 +
        (pts 1 (l 1 + 1) - pts 1 (l 1 + 1) - pts 1 (l 1) - pts 1 (l 1 + 1) + pts 1 (l 1) + pts 1 (l 1 + 1) + pts 1 (l 1) - pts 1 (l 1)) *
          x 0 * x 2 = pts 1 (l 1 + 1) - pts 1 (l 1)
      ring
    · change (pts 2 (l 2) - pts 2 (l 2)) + (pts 2 (l 2) - pts 2 (l 2) - pts 2 (l 2) + pts 2 (l 2)) * x 0 +
        (pts 2 (l 2 + 1) - pts 2 (l 2 + 1) - pts 2 (l 2) + pts 2 (l 2)) * x 2 +
        (pts 2 (l 2 + 1) - pts 2 (l 2 + 1) - pts 2 (l 2 + 1) - pts 2 (l 2) + pts 2 (l 2 + 1) + pts 2 (l 2) + pts 2 (l 2) - pts 2 (l 2)) *
          x 0 * x 2 = 0
      ring
  · refine g2.trans ?_
    rcases hd with rfl | rfl | rfl
    · change (pts 0 (l 0) - pts 0 (l 0)) + (pts 0 (l 0 + 1) - pts 0 (l 0) - pts 0 (l 0 + 1) + pts 0 (l 0)) * x 0 +
        (pts 0 (l 0) - pts 0 (l 0) - pts 0 (l 0) + pts 0 (l 0)) * x 1 +
        (pts 0 (l 0 + 1) - pts 0 (l 0) - pts 0 (l 0 + 1) - pts 0 (l 0 + 1) + pts 0 (l 0) + pts 0 (l 0) + pts 0 (l 0 + 1) - pts 0 (l 0)) *
          x 0 * x 1 = 0
      ring
    · change (pts 1 (l 1) - pts 1 (l 1)) + (pts 1 (l 1) - pts 1 (l 1) - pts 1 (l 1) + pts 1 (l 1)) * x 0 +
        (pts 1 (l 1 + 1) - pts 1 (l 1) - pts 1 (l 1 + 1) + pts 1 (l 1)) * x 1 +
        (pts 1 (l 1 + 1) - pts 1 (l 1 + 1) - pts 1 (l 1) - pts 1 (l 1 + 1) + pts 1 (l 1) + pts 1 (l 1 + 1) + pts 1 (l 1) - pts 1 (l 1)) *
          x 0 * x 1 = 0
      ring
    · change (pts 2 (l 2 + 1) - pts 2 (l 2)) + (pts 2 (l 2 + 1) - pts 2 (l 2 + 1) - pts 2 (l 2) + pts 2 (l 2)) * x 0 +
        (pts 2 (l 2 + 1) - pts 2 (l 2 + 1) - pts 2 (l 2) + pts 2 (l 2)) * x 1 +
        (pts 2 (l 2 + 1) - pts 2 (l 2 + 1) - pts 2 (l 2 + 1) - pts 2 (l 2) + pts 2 (l 2 + 1) + pts 2 (l 2) + pts 2 (l 2) - pts 2 (l 2)) *
          x 0 * x 1 = pts 2 (l 2 + 1) - pts 2 (l 2)
      ring

theorem edges_pos (hS : Spaced tol g N pts) (l : Fin 3 → Nat) (hl : ∀ d, l d < N d) (d : Fin 3) : 0 < edges pts l d := by
  have := hS.gap d _ (hl d)
  have := g_pos hS
  unfold edges
  linarith

theorem box_hexahedron (hS : Spaced tol g N pts) (F : List (Shape.Linear K 3)) (hF : Shape.p1Set 3 = some F)
    (rule : List (K × (Fin 3 → K))) (l : Fin 3 → Nat) (hl : ∀ d, l d < N d) (c : Cell K) (hc : c.vertex = boxCell N l)
    (hp : c.pts = boxPts F rule (edges pts l)) : Hexahedron F (boxMesh N pts).X rule c := by
  refine ⟨fun _ e k => if e = k then 1 / edges pts l e else 0, fun p _ d e => ?_, ?_⟩
  · have hne := (edges_pos hS l hl d).ne'
    rw [Finset.sum_congr rfl fun k _ => by rw [box_jacobian F hF l hl c hc]]
    rw [Finset.sum_eq_single d (fun k _ hk => by rw [if_neg (Ne.symm hk), zero_mul]) (fun h => absurd (Finset.mem_univ d) h), if_pos rfl]
    beta_reduce
    by_cases hde : d = e
    · subst hde; rw [if_pos rfl, if_pos rfl, mul_one_div_cancel hne]
    · rw [if_neg (Ne.symm hde), if_neg hde, mul_zero]
  · rw [hp]
    unfold boxPts
    refine List.map_congr_left fun p _ => ?_
    congr 2
    rw [Matrix.det_fin_three]
    simp only [Matrix.of_apply, box_jacobian F hF l hl c hc]
    simp

/-- Planes of two by three by one boxes of different sizes. -/
def somePlanes : Fin 3 → Nat → ℚ := ![fun i => (i : ℚ) * i, fun i => (i : ℚ) / 2, fun i => 7 + (i : ℚ)]

theorem some_spaced : Spaced (1 / 10 ^ 6 : ℚ) (1 / 2) ![2, 3, 1] somePlanes := by
  refine ⟨by decide, by norm_num, by norm_num, by norm_num, fun d i hi => ?_⟩
  fin_cases d
  · change (i : ℚ) * i + 1 / 2 ≤ ((i + 1 : Nat) : ℚ) * ((i + 1 : Nat) : ℚ)
    push_cast
    have : (0 : ℚ) ≤ i := Nat.cast_nonneg i
    linarith
  · change (i : ℚ) / 2 + 1 / 2 ≤ ((i + 1 : Nat) : ℚ) / 2
    push_cast
    linarith
  · change 7 + (i : ℚ) + 1 / 2 ≤ 7 + ((i + 1 : Nat) : ℚ)
    push_cast
    linarith

end

end Verif.PBC
