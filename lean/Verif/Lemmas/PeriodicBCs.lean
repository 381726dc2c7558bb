import Verif.Spec.PeriodicBCs
import Verif.Props.BoundaryFind
import Verif.Props.BoundaryFaces
import Verif.Props.BoundaryUniform

/-! Lemmas for C99. -/

namespace Verif.PBC

open Verif.BGrid Verif.Asm

variable {K : Type} [Field K] [LinearOrder K] [IsStrictOrderedRing K]

/-! ### Quads of a side -/

/-- A quad with a large box is kept. -/
theorem add_kept2 (g : List (Quad K)) (v : Fin 4 → Vertex K) (m n m' n' : Fin 4) (hx : (v m).c.1 ≤ (v n).c.1)
    (hy : (v m').c.2 ≤ (v n').c.2) (harea : 1 / 10 ^ 7 ≤ ((v n).c.1 - (v m).c.1) * ((v n').c.2 - (v m').c.2)) :
    ∃ q, add g v = g ++ [q] ∧ q.v = v := by
  unfold add
  dsimp only
  set b0 : (K × K) × (K × K) := ((v 0).c, (v 0).c) with hb0
  set b1 := widen b0 (v 1).c with hb1
  set b2 := widen b1 (v 2).c with hb2
  set b3 := widen b2 (v 3).c with hb3
  obtain ⟨p1, p2, p3, p4, p5, p6, p7, p8⟩ := widen_le b0 (v 1).c
  obtain ⟨q1, q2, q3, q4, q5, q6, q7, q8⟩ := widen_le b1 (v 2).c
  obtain ⟨r1, r2, r3, r4, r5, r6, r7, r8⟩ := widen_le b2 (v 3).c
  rw [← hb1] at p1 p2 p3 p4 p5 p6 p7 p8
  rw [← hb2] at q1 q2 q3 q4 q5 q6 q7 q8
  rw [← hb3] at r1 r2 r3 r4 r5 r6 r7 r8
  have z1 : b0.1.1 = (v 0).c.1 := rfl
  have z2 : b0.1.2 = (v 0).c.2 := rfl
  have z3 : b0.2.1 = (v 0).c.1 := rfl
  have z4 : b0.2.2 = (v 0).c.2 := rfl
  have all : ∀ m : Fin 4, b3.1.1 ≤ (v m).c.1 ∧ b3.1.2 ≤ (v m).c.2 ∧ (v m).c.1 ≤ b3.2.1 ∧ (v m).c.2 ≤ b3.2.2 := by
    intro m
    fin_cases m
    · refine ⟨?_, ?_, ?_, ?_⟩ <;> simp only [Fin.zero_eta] <;> linarith
    · refine ⟨?_, ?_, ?_, ?_⟩ <;> simp only [Fin.mk_one] <;> linarith
    · refine ⟨?_, ?_, ?_, ?_⟩ <;> simp only [Fin.reduceFinMk] <;> linarith
    · refine ⟨?_, ?_, ?_, ?_⟩ <;> simp only [Fin.reduceFinMk] <;> linarith
  have hge : ((v n).c.1 - (v m).c.1) * ((v n').c.2 - (v m').c.2) ≤ (b3.2.1 - b3.1.1) * (b3.2.2 - b3.1.2) :=
    mul_le_mul (by linarith [(all m).1, (all n).2.2.1]) (by linarith [(all m').2.1, (all n').2.2.2]) (by linarith)
      (by linarith [(all m).1, (all n).2.2.1])
  rw [if_neg (by linarith)]
  exact ⟨_, rfl, rfl⟩

theorem add_cases (g : List (Quad K)) (v : Fin 4 → Vertex K) : add g v = g ∨ ∃ q, add g v = g ++ [q] ∧ q.v = v := by
  unfold add
  dsimp only
  split
  · exact Or.inl rfl
  · exact Or.inr ⟨_, rfl, rfl⟩

theorem add_fold_mem (vs : List (Fin 4 → Vertex K)) (g : List (Quad K)) (q : Quad K) (h : q ∈ vs.foldl add g) :
    q ∈ g ∨ q.v ∈ vs := by
  induction vs generalizing g with
  | nil => exact Or.inl h
  | cons v vs ih =>
    rcases ih _ h with h | h
    · rcases add_cases g v with e | ⟨q', e, hq⟩
      · exact Or.inl (e ▸ h)
      · rw [e] at h
        rcases List.mem_append.mp h with h | h
        · exact Or.inl h
        · obtain rfl := List.mem_singleton.mp h
          exact Or.inr (by rw [hq]; simp)
    · exact Or.inr (List.mem_cons_of_mem _ h)

theorem add_fold_sub (vs : List (Fin 4 → Vertex K)) (g : List (Quad K)) (q : Quad K) (h : q ∈ g) : q ∈ vs.foldl add g := by
  induction vs generalizing g with
  | nil => exact h
  | cons v vs ih =>
    refine ih _ ?_
    rcases add_cases g v with e | ⟨q', e, -⟩ <;> rw [e]
    · exact h
    · exact List.mem_append_left _ h

theorem add_fold_has (vs : List (Fin 4 → Vertex K)) (g : List (Quad K)) (v : Fin 4 → Vertex K) (hv : v ∈ vs)
    (hk : ∀ g, ∃ q, add g v = g ++ [q] ∧ q.v = v) : ∃ q ∈ vs.foldl add g, q.v = v := by
  induction vs generalizing g with
  | nil => simp at hv
  | cons w vs ih =>
    rcases List.mem_cons.mp hv with rfl | hv
    · obtain ⟨q, e, hq⟩ := hk g
      exact ⟨q, add_fold_sub vs _ q (by rw [e]; simp), hq⟩
    · exact ih _ hv

/-- The four nodes of the lower side. -/
theorem side_nodes (d : Fin 3) (c : List Nat) (h : c.length = 8) :
    ∃ ns, (sideTable false d).mapM (fun v => c[v]?) = some ns ∧ ns.length = 4 ∧ ∀ n, n ∈ ns ↔ LowerSide d c n := by
  match c, h with
  | [a0, a1, a2, a3, a4, a5, a6, a7], _ =>
    have key : ∀ n, LowerSide d [a0, a1, a2, a3, a4, a5, a6, a7] n ↔
        ∃ f : Fin 8, f.val.testBit d = false ∧ [a0, a1, a2, a3, a4, a5, a6, a7][f.val]? = some n := by
      intro n
      constructor
      · rintro ⟨f, hf, h1, h2⟩
        exact ⟨⟨f, hf⟩, h1, h2⟩
      · rintro ⟨f, h1, h2⟩
        exact ⟨f.val, f.isLt, h1, h2⟩
    have pick : ∀ i j k l : Fin 8, (∀ f : Fin 8, f.val.testBit d = false ↔ f = i ∨ f = j ∨ f = k ∨ f = l) →
        sideTable false d = [i.val, j.val, k.val, l.val] → ∃ ns,
        (sideTable false d).mapM (fun v => [a0, a1, a2, a3, a4, a5, a6, a7][v]?) = some ns ∧ ns.length = 4 ∧
          ∀ n, n ∈ ns ↔ LowerSide d [a0, a1, a2, a3, a4, a5, a6, a7] n := by
      intro i j k l hb ht
      have hl : ∀ f : Fin 8, f.val < [a0, a1, a2, a3, a4, a5, a6, a7].length := fun f => f.isLt
      refine ⟨[i, j, k, l].map fun f : Fin 8 => [a0, a1, a2, a3, a4, a5, a6, a7][f.val]'(hl f), ?_, rfl, fun n => ?_⟩
      · rw [ht]
        simp only [List.mapM_cons, List.mapM_nil, List.getElem?_eq_getElem (hl i), List.getElem?_eq_getElem (hl j),
          List.getElem?_eq_getElem (hl k), List.getElem?_eq_getElem (hl l)]
        rfl
      · rw [key, List.mem_map]
        constructor
        · rintro ⟨f, hf, rfl⟩
          exact ⟨f, (hb f).mpr (by simpa using hf), List.getElem?_eq_getElem (hl f)⟩
        · rintro ⟨f, h1, h2⟩
          refine ⟨f, by simpa using (hb f).mp h1, ?_⟩
          rw [List.getElem?_eq_getElem (hl f)] at h2
          exact Option.some.inj h2
    fin_cases d
    · exact pick 0 2 4 6 (by decide) rfl
    · exact pick 0 1 4 5 (by decide) rfl
    · exact pick 0 1 2 3 (by decide) rfl

/-- The vertex of a node. -/
def vertexOf (M : Mesh K) (d : Fin 3) (n : Nat) : Vertex K := ⟨n, extract (M.X n) d⟩

/-- Nodes on a lower side. -/
theorem onPlane_lower {tol : K} {M : Mesh K} {mn mx : Fin 3 → K} {opp : Fin 3 → Nat → Nat} (hM : Matched tol M mn mx opp) {n : Nat}
    (hn : n < M.nodes) (d : Fin 3) : onPlane tol M d (mn d) n ↔ M.X n d = mn d := by
  unfold onPlane
  constructor
  · intro h
    have ht := hM.thick d
    rcases hM.clear n hn d with e | e | e
    · exact e
    · rw [e, abs_sub_comm, abs_of_nonneg (by linarith [hM.pos])] at h
      linarith
    · rw [abs_sub_comm, abs_of_nonneg (by linarith [hM.pos])] at h
      linarith
  · intro h
    rw [h, sub_self, abs_zero]
    exact hM.pos

/-- Nodes on an upper side. -/
theorem onPlane_upper {tol : K} {M : Mesh K} {mn mx : Fin 3 → K} {opp : Fin 3 → Nat → Nat} (hM : Matched tol M mn mx opp) {n : Nat}
    (hn : n < M.nodes) (d : Fin 3) : onPlane tol M d (mx d) n ↔ M.X n d = mx d := by
  unfold onPlane
  constructor
  · intro h
    have ht := hM.thick d
    rcases hM.clear n hn d with e | e | e
    · rw [e, abs_of_nonneg (by linarith [hM.pos])] at h
      linarith
    · exact e
    · rw [abs_of_nonneg (by linarith [hM.pos])] at h
      linarith
  · intro h
    rw [h, sub_self, abs_zero]
    exact hM.pos

/-- Vertices of one cell. -/
theorem sideVerts_spec {tol : K} {M : Mesh K} {mn mx : Fin 3 → K} {opp : Fin 3 → Nat → Nat} (hM : Matched tol M mn mx opp)
    (d : Fin 3) (c : List Nat) (hc : c ∈ M.cells) :
    ∃ vs, sideVerts tol M false d (mn d) c = some vs ∧
      ((∀ m, LowerSide d c m → M.X m d = mn d) → vs.length = 4 ∧ ∀ v, v ∈ vs ↔ ∃ n, LowerSide d c n ∧ v = vertexOf M d n) ∧
      ((¬ ∀ m, LowerSide d c m → M.X m d = mn d) → vs.length ≠ 4) := by
  obtain ⟨h8, hin⟩ := hM.hexahedra c hc
  obtain ⟨ns, e, h4, hmem⟩ := side_nodes d c h8
  have hlt : ∀ n ∈ ns, n < M.nodes := by
    intro n hn
    obtain ⟨f, hf, -, hg⟩ := (hmem n).mp hn
    exact hin n (List.mem_of_getElem? hg)
  unfold sideVerts
  rw [e]
  obtain ⟨n0, ns', rfl⟩ : ∃ n0 ns', ns = n0 :: ns' := by
    cases ns with
    | nil => simp at h4
    | cons a l => exact ⟨a, l, rfl⟩
  have h0 := onPlane_lower hM (hlt n0 (by simp)) d
  refine ⟨_, rfl, fun hall => ?_, fun hnot => ?_⟩
  · have ho : ∀ n ∈ n0 :: ns', onPlane tol M d (mn d) n := fun n hn => (onPlane_lower hM (hlt n hn) d).mpr (hall n ((hmem n).mp hn))
    simp only [List.head?_cons]
    rw [if_pos (ho n0 (by simp)), List.filter_eq_self.mpr (fun n hn => by simpa using ho n hn)]
    refine ⟨by rw [List.length_map]; exact h4, fun v => ?_⟩
    rw [List.mem_map]
    constructor
    · rintro ⟨n, hn, rfl⟩; exact ⟨n, (hmem n).mp hn, rfl⟩
    · rintro ⟨n, hn, rfl⟩; exact ⟨n, (hmem n).mpr hn, rfl⟩
  · simp only [List.head?_cons]
    split
    · rw [List.length_map]
      intro hl
      apply hnot
      intro m hm
      have hfl : ((n0 :: ns').filter fun n => decide (onPlane tol M d (mn d) n)) = n0 :: ns' :=
        List.filter_sublist.eq_of_length (hl.trans h4.symm)
      have := List.filter_eq_self.mp hfl m ((hmem m).mpr hm)
      exact (onPlane_lower hM (hlt m ((hmem m).mpr hm)) d).mp (by simpa using this)
    · simp

/-- What the quads of a lower side are. -/
theorem master_spec {srt : (Vertex K → K) → List (Vertex K) → List (Vertex K)} (hs : IsSort srt) {tol : K} {M : Mesh K}
    {mn mx : Fin 3 → K} {opp : Fin 3 → Nat → Nat} (hM : Matched tol M mn mx opp) (d : Fin 3) :
    ∃ vs : List (Fin 4 → Vertex K), extractMasterFace srt tol M false false d (mn d) = some (vs.foldl add []) ∧
      (∀ v ∈ vs, ∃ c ∈ M.cells, (∀ m, LowerSide d c m → M.X m d = mn d) ∧
        (∀ k, ∃ n, LowerSide d c n ∧ v k = vertexOf M d n) ∧ ∀ n, LowerSide d c n → ∃ k, v k = vertexOf M d n) ∧
      ∀ c ∈ M.cells, (∀ m, LowerSide d c m → M.X m d = mn d) → ∃ v ∈ vs, ∀ n, LowerSide d c n → ∃ k, v k = vertexOf M d n := by
  have gen : ∀ (cells : List (List Nat)), (∀ c ∈ cells, c ∈ M.cells) → ∀ vs0 : List (Fin 4 → Vertex K),
      ∃ vs : List (Fin 4 → Vertex K),
        cells.foldlM (masterStep srt tol M false false d (mn d)) (vs0.foldl add []) = some ((vs0 ++ vs).foldl add []) ∧
        (∀ v ∈ vs, ∃ c ∈ cells, (∀ m, LowerSide d c m → M.X m d = mn d) ∧
          (∀ k, ∃ n, LowerSide d c n ∧ v k = vertexOf M d n) ∧ ∀ n, LowerSide d c n → ∃ k, v k = vertexOf M d n) ∧
        ∀ c ∈ cells, (∀ m, LowerSide d c m → M.X m d = mn d) → ∃ v ∈ vs, ∀ n, LowerSide d c n → ∃ k, v k = vertexOf M d n := by
    intro cells
    induction cells with
    | nil => intro _ vs0; exact ⟨[], by simp, by simp, by simp⟩
    | cons c cells ih =>
      intro hsub vs0
      obtain ⟨ws, hw, hpos, hneg⟩ := sideVerts_spec hM d c (hsub c (by simp))
      by_cases hall : ∀ m, LowerSide d c m → M.X m d = mn d
      · obtain ⟨h4, hmem⟩ := hpos hall
        obtain ⟨p, q, r, t, hq, -, hperm, -⟩ := C78_corners hs ws h4
        obtain ⟨vs, e1, e2, e3⟩ := ih (fun c' hc' => hsub c' (by simp [hc'])) (vs0 ++ [![p, q, r, t]])
        have hstep : masterStep srt tol M false false d (mn d) (vs0.foldl add []) c = some ((vs0 ++ [![p, q, r, t]]).foldl add []) := by
          unfold masterStep
          rw [hw]
          change (if ws.length = 4 then _ else _) = _
          rw [if_pos h4, hq]
          simp
        have hk1 : ∀ k, ∃ n, LowerSide d c n ∧ (![p, q, r, t] : Fin 4 → Vertex K) k = vertexOf M d n := by
          intro k
          refine (hmem _).mp (hperm.subset ?_)
          fin_cases k <;> simp
        have hk2 : ∀ n, LowerSide d c n → ∃ k, (![p, q, r, t] : Fin 4 → Vertex K) k = vertexOf M d n := by
          intro n hn
          have := hperm.symm.subset ((hmem _).mpr ⟨n, hn, rfl⟩)
          simp only [List.mem_cons, List.not_mem_nil, or_false] at this
          rcases this with h | h | h | h
          · exact ⟨0, h.symm⟩
          · exact ⟨1, h.symm⟩
          · exact ⟨2, h.symm⟩
          · exact ⟨3, h.symm⟩
        refine ⟨![p, q, r, t] :: vs, ?_, ?_, ?_⟩
        · rw [List.foldlM_cons, hstep]
          change List.foldlM _ _ cells = _
          rw [e1]
          simp
        · intro v hv
          rcases List.mem_cons.mp hv with rfl | hv
          · exact ⟨c, by simp, hall, hk1, hk2⟩
          · obtain ⟨c', h1, h2⟩ := e2 v hv
            exact ⟨c', by simp [h1], h2⟩
        · intro c' hc' ha
          rcases List.mem_cons.mp hc' with rfl | hc'
          · exact ⟨_, by simp, hk2⟩
          · obtain ⟨v, h1, h2⟩ := e3 c' hc' ha
            exact ⟨v, by simp [h1], h2⟩
      · obtain ⟨vs, e1, e2, e3⟩ := ih (fun c' hc' => hsub c' (by simp [hc'])) vs0
        have hstep : masterStep srt tol M false false d (mn d) (vs0.foldl add []) c = some (vs0.foldl add []) := by
          unfold masterStep
          rw [hw]
          change (if ws.length = 4 then _ else _) = _
          rw [if_neg (hneg hall)]
        refine ⟨vs, ?_, ?_, ?_⟩
        · rw [List.foldlM_cons, hstep]
          exact e1
        · intro v hv
          obtain ⟨c', h1, h2⟩ := e2 v hv
          exact ⟨c', by simp [h1], h2⟩
        · intro c' hc' ha
          rcases List.mem_cons.mp hc' with rfl | hc'
          · exact absurd ha hall
          · exact e3 c' hc' ha
  obtain ⟨vs, e1, e2, e3⟩ := gen M.cells (fun c hc => hc) []
  exact ⟨vs, e1, e2, e3⟩

/-! ### Location of slaves -/

/-- First and second of the two other directions. -/
def dirs (d : Fin 3) : Fin 3 × Fin 3 := if d = 0 then (1, 2) else if d = 1 then (0, 2) else (0, 1)

theorem dirs_ne (d : Fin 3) : d ≠ (dirs d).1 ∧ d ≠ (dirs d).2 ∧ (dirs d).1 ≠ (dirs d).2 := by
  revert d; decide

theorem dirs_cases (d e : Fin 3) (h : e ≠ d) : e = (dirs d).1 ∨ e = (dirs d).2 := by
  revert d e; decide

theorem extract_eq (x : Fin 3 → K) (d : Fin 3) : extract x d = (x (dirs d).1, x (dirs d).2) := by
  fin_cases d <;> rfl

theorem near_of_dist2 {a b : K × K} (h : dist2 a b < (1 / 10 ^ 8) * (1 / 10 ^ 8)) : |a.1 - b.1| < 1 / 10 ^ 8 ∧ |a.2 - b.2| < 1 / 10 ^ 8 := by
  unfold dist2 at h
  constructor
  · apply abs_lt_of_sq_lt_sq _ (by positivity)
    nlinarith [mul_self_nonneg (a.2 - b.2)]
  · apply abs_lt_of_sq_lt_sq _ (by positivity)
    nlinarith [mul_self_nonneg (a.1 - b.1)]

/-- A slave finds its opposite node. -/
theorem find_spec {srt : (Vertex K → K) → List (Vertex K) → List (Vertex K)} (hs : IsSort srt) (sqrt : K → K) {tol : K} {M : Mesh K}
    {mn mx : Fin 3 → K} {opp : Fin 3 → Nat → Nat} (hM : Matched tol M mn mx opp) (d : Fin 3) {g : List (Quad K)}
    (hg : extractMasterFace srt tol M false false d (mn d) = some g) (m : Nat) (hm : m < M.nodes) (hmd : M.X m d = mn d) :
    find sqrt g (extract (M.X m) d) = some (.node m) := by
  obtain ⟨vs, e, h1, h2⟩ := master_spec hs hM d
  obtain rfl := Option.some.inj (e.symm.trans hg)
  obtain ⟨hd1, hd2, hd3⟩ := dirs_ne d
  -- a quad with this node
  obtain ⟨c, hc, hmc, hall, harea⟩ := hM.covered d m hm hmd
  obtain ⟨v, hv, hk⟩ := h2 c hc hall
  obtain ⟨a, b, a', b', la, lb, la', lb', o1, o2, har⟩ := harea (dirs d).1 (dirs d).2 hd1 hd2 hd3
  obtain ⟨ka, ea⟩ := hk a la
  obtain ⟨kb, eb⟩ := hk b lb
  obtain ⟨ka', ea'⟩ := hk a' la'
  obtain ⟨kb', eb'⟩ := hk b' lb'
  have cx : ∀ n, (vertexOf M d n).c = (M.X n (dirs d).1, M.X n (dirs d).2) := fun n => extract_eq _ _
  obtain ⟨q, hq, hqv⟩ := add_fold_has vs [] v hv fun g => add_kept2 g v ka kb ka' kb' (by rw [ea, eb, cx, cx]; exact o1)
    (by rw [ea', eb', cx, cx]; exact o2) (by rw [ea, eb, ea', eb', cx, cx, cx, cx]; exact har)
  obtain ⟨km, em⟩ := hk m hmc
  have hself : dist2 (extract (M.X m) d) (q.v km).c < (1 / 10 ^ 8) * (1 / 10 ^ 8) := by
    rw [hqv, em]
    change dist2 (extract (M.X m) d) (extract (M.X m) d) < _
    unfold dist2
    rw [sub_self, sub_self, mul_zero, add_zero]
    positivity
  -- something is found
  have hfound : ∃ f, find sqrt (vs.foldl add []) (extract (M.X m) d) = some f := by
    rw [← Option.isSome_iff_exists]
    unfold find
    rw [List.findSome?_isSome_iff]
    refine ⟨q, hq, ?_⟩
    obtain ⟨hbox, -⟩ := C77_boxes vs q hq
    have hb := hbox km
    rw [hqv, em] at hb
    change q.lo.1 ≤ (extract (M.X m) d).1 ∧ (extract (M.X m) d).1 ≤ q.hi.1 ∧ q.lo.2 ≤ (extract (M.X m) d).2 ∧
      (extract (M.X m) d).2 ≤ q.hi.2 at hb
    have hp : (0 : K) < 1 / 10 ^ 8 := by positivity
    unfold tryQuad
    rw [if_pos (show bounded _ q from ⟨by linarith [hb.1], by linarith [hb.2.1], by linarith [hb.2.2.1], by linarith [hb.2.2.2]⟩)]
    split
    · rfl
    · rename_i hn
      exfalso
      have := List.find?_eq_none.mp hn (q.v km) (by fin_cases km <;> simp)
      exact this (by simpa using hself)
  obtain ⟨f, hf⟩ := hfound
  rw [hf]
  obtain ⟨q', hq', hin, hcase⟩ := C77_find sqrt _ _ f hf
  -- the quad that is used has this node
  rcases add_fold_mem vs [] q' hq' with h | hv'
  · simp at h
  obtain ⟨c', hc', hall', hk1, hk2⟩ := h1 q'.v hv'
  obtain ⟨-, ⟨i1, j1⟩, ⟨i2, j2⟩, ⟨i3, j3⟩, ⟨i4, j4⟩⟩ := C77_boxes vs q' hq'
  obtain ⟨n1, l1, w1⟩ := hk1 i1
  obtain ⟨n2, l2, w2⟩ := hk1 i2
  obtain ⟨n3, l3, w3⟩ := hk1 i3
  obtain ⟨n4, l4, w4⟩ := hk1 i4
  rw [w1, cx] at j1
  rw [w2, cx] at j2
  rw [w3, cx] at j3
  rw [w4, cx] at j4
  obtain ⟨b1, b2, b3, b4⟩ := hin
  rw [extract_eq] at b1 b2 b3 b4
  dsimp only at j1 j2 j3 j4 b1 b2 b3 b4
  have hlow : LowerSide d c' m := by
    refine hM.boxed d c' hc' hall' m hm hmd fun e he => ?_
    rcases dirs_cases d e he with rfl | rfl
    · exact ⟨⟨n1, l1, by rw [j1]; linarith⟩, n2, l2, by rw [j2]; linarith⟩
    · exact ⟨⟨n3, l3, by rw [j3]; linarith⟩, n4, l4, by rw [j4]; linarith⟩
  obtain ⟨k', ek⟩ := hk2 m hlow
  rcases hcase with ⟨k, rfl, hdist⟩ | ⟨r, -, hfar, -⟩
  · obtain ⟨n, ln, wn⟩ := hk1 k
    rw [wn] at hdist ⊢
    obtain ⟨g1, g2⟩ := near_of_dist2 hdist
    rw [extract_eq, cx] at g1 g2
    have hnn : n < M.nodes := by
      obtain ⟨f, -, -, hg⟩ := ln
      exact (hM.hexahedra c' hc').2 n (List.mem_of_getElem? hg)
    have : m = n := hM.apart d m hm n hnn hmd (hall' n ln) fun e he => by
      rcases dirs_cases d e he with rfl | rfl
      · exact g1
      · exact g2
    rw [this]
    rfl
  · exfalso
    refine hfar k' ?_
    rw [ek]
    change dist2 (extract (M.X m) d) (extract (M.X m) d) < _
    unfold dist2
    rw [sub_self, sub_self, mul_zero, add_zero]
    positivity

/-! ### Corners -/

/-- The prescribed value of a corner. -/
def zeroFix : Fixed K := ⟨7, fun _ => 0⟩

/-- Nodes without or with the value zero prescribed. -/
def AllZero (h : Handler K) : Prop := ∀ n f, h.fixed n = some f → f = zeroFix

theorem fixPoint_spec (tol : K) (M : Mesh K) (p : Fin 3 → K) (h : Handler K) (h0 : AllZero h) :
    (fixPoint tol M h p).dim = h.dim ∧ (fixPoint tol M h p).nodes = h.nodes ∧ (fixPoint tol M h p).mpcs = h.mpcs ∧
    (fixPoint tol M h p).maxeqn = h.maxeqn ∧
    ∀ n, (fixPoint tol M h p).fixed n = if n < M.nodes ∧ onPoint tol M p n then some zeroFix else h.fixed n := by
  have gen : ∀ (l : List Nat) (h : Handler K), AllZero h →
      (l.foldl (fun h n => if onPoint tol M p n then updateFixedNode h n ⟨7, fun _ => 0⟩ else h) h).dim = h.dim ∧
      (l.foldl (fun h n => if onPoint tol M p n then updateFixedNode h n ⟨7, fun _ => 0⟩ else h) h).nodes = h.nodes ∧
      (l.foldl (fun h n => if onPoint tol M p n then updateFixedNode h n ⟨7, fun _ => 0⟩ else h) h).mpcs = h.mpcs ∧
      (l.foldl (fun h n => if onPoint tol M p n then updateFixedNode h n ⟨7, fun _ => 0⟩ else h) h).maxeqn = h.maxeqn ∧
      ∀ n, (l.foldl (fun h n => if onPoint tol M p n then updateFixedNode h n ⟨7, fun _ => 0⟩ else h) h).fixed n =
        if n ∈ l ∧ onPoint tol M p n then some zeroFix else h.fixed n := by
    intro l
    induction l with
    | nil => intro h _; simp
    | cons a l ih =>
      intro h h0
      rw [List.foldl_cons]
      by_cases ha : onPoint tol M p a
      · rw [if_pos ha]
        have hfix : ∀ n, (updateFixedNode h a ⟨7, fun _ => 0⟩).fixed n = if n = a then some zeroFix else h.fixed n := by
          intro n
          unfold updateFixedNode
          dsimp only
          split
          · congr 1
            unfold mergeFixed
            split
            · rfl
            · rename_i f hf
              rw [h0 a f hf]
              rfl
          · rfl
        have h0' : AllZero (updateFixedNode h a ⟨7, fun _ => 0⟩) := by
          intro n f hf
          rw [hfix] at hf
          split at hf
          · exact (Option.some.inj hf).symm
          · exact h0 n f hf
        obtain ⟨e1, e2, e3, e4, e5⟩ := ih _ h0'
        refine ⟨e1, e2, e3, e4, fun n => ?_⟩
        rw [e5, hfix]
        by_cases hn : n = a
        · subst hn
          simp [ha]
        · simp [hn]
      · rw [if_neg ha]
        obtain ⟨e1, e2, e3, e4, e5⟩ := ih _ h0
        refine ⟨e1, e2, e3, e4, fun n => ?_⟩
        rw [e5]
        by_cases hn : n = a
        · subst hn
          simp [ha]
        · simp [hn]
  obtain ⟨e1, e2, e3, e4, e5⟩ := gen (List.range M.nodes) h h0
  refine ⟨e1, e2, e3, e4, fun n => ?_⟩
  have := e5 n
  simp only [List.mem_range] at this
  exact this

theorem fixCorners_fold (tol : K) (M : Mesh K) (ps : List (Fin 3 → K)) (h : Handler K) (h0 : AllZero h) :
    (ps.foldl (fixPoint tol M) h).dim = h.dim ∧ (ps.foldl (fixPoint tol M) h).nodes = h.nodes ∧
    (ps.foldl (fixPoint tol M) h).mpcs = h.mpcs ∧ (ps.foldl (fixPoint tol M) h).maxeqn = h.maxeqn ∧
    (∀ n, (n < M.nodes ∧ ∃ p ∈ ps, onPoint tol M p n) → (ps.foldl (fixPoint tol M) h).fixed n = some zeroFix) ∧
    ∀ n, ¬ (n < M.nodes ∧ ∃ p ∈ ps, onPoint tol M p n) → (ps.foldl (fixPoint tol M) h).fixed n = h.fixed n := by
  induction ps generalizing h with
  | nil => refine ⟨rfl, rfl, rfl, rfl, ?_, fun _ _ => rfl⟩; rintro n ⟨-, p, hp, -⟩; simp at hp
  | cons p ps ih =>
    obtain ⟨a1, a2, a3, a4, a5⟩ := fixPoint_spec tol M p h h0
    have h0' : AllZero (fixPoint tol M h p) := by
      intro n f hf
      rw [a5] at hf
      split at hf
      · exact (Option.some.inj hf).symm
      · exact h0 n f hf
    obtain ⟨b1, b2, b3, b4, b5, b6⟩ := ih _ h0'
    rw [List.foldl_cons]
    refine ⟨b1.trans a1, b2.trans a2, b3.trans a3, b4.trans a4, ?_, ?_⟩
    · rintro n ⟨hn, q, hq, ho⟩
      by_cases hex : ∃ q ∈ ps, onPoint tol M q n
      · exact b5 n ⟨hn, hex⟩
      · rw [b6 n (fun h => hex h.2), a5]
        rcases List.mem_cons.mp hq with rfl | hq
        · rw [if_pos ⟨hn, ho⟩]
        · exact absurd ⟨q, hq, ho⟩ hex
    · intro n hno
      rw [b6 n (fun h => hno ⟨h.1, by obtain ⟨q, hq, ho⟩ := h.2; exact ⟨q, by simp [hq], ho⟩⟩), a5,
        if_neg (fun h => hno ⟨h.1, p, by simp, h.2⟩)]

theorem corner_iff {tol : K} {M : Mesh K} {mn mx : Fin 3 → K} {opp : Fin 3 → Nat → Nat} (hM : Matched tol M mn mx opp) {n : Nat}
    (hn : n < M.nodes) : (∃ p ∈ corners mn mx, onPoint tol M p n) ↔ Corner M mn mx n := by
  constructor
  · rintro ⟨p, hp, ho⟩ d
    have hpd : p d = mn d ∨ p d = mx d := by
      unfold corners at hp
      simp only [List.mem_cons, List.not_mem_nil, or_false] at hp
      rcases hp with rfl | rfl | rfl | rfl | rfl | rfl | rfl | rfl <;> fin_cases d <;> simp
    have hd : |p d - M.X n d| < tol := by
      unfold onPoint at ho
      have a0 := abs_nonneg (p 0 - M.X n 0)
      have a1 := abs_nonneg (p 1 - M.X n 1)
      have a2 := abs_nonneg (p 2 - M.X n 2)
      fin_cases d
      · change |p 0 - M.X n 0| < tol; linarith
      · change |p 1 - M.X n 1| < tol; linarith
      · change |p 2 - M.X n 2| < tol; linarith
    rcases hpd with e | e
    · rw [e] at hd; exact Or.inl ((onPlane_lower hM hn d).mp hd)
    · rw [e] at hd; exact Or.inr ((onPlane_upper hM hn d).mp hd)
  · intro h
    have hx : M.X n = ![M.X n 0, M.X n 1, M.X n 2] := by
      funext d; fin_cases d <;> rfl
    refine ⟨M.X n, ?_, ?_⟩
    · rw [hx]
      unfold corners
      rcases h 0 with e0 | e0 <;> rcases h 1 with e1 | e1 <;> rcases h 2 with e2 | e2 <;> rw [e0, e1, e2] <;> simp
    · unfold onPoint
      simp only [sub_self, abs_zero, add_zero]
      exact hM.pos

/-! ### Constraints -/

/-- The constraint that ties entry `k` to the opposite node. -/
def tieOf (opp : Nat → Nat) (k : Nat) : Mpc K := ⟨k / 3, k % 3, 0, [⟨opp (k / 3), k % 3, 1⟩]⟩

theorem coupling_node (s m i : Nat) : coupling (K := K) s i (.node (m : Int)) = ⟨s, i, 0, [⟨m, i, 1⟩]⟩ := by
  have : (1 : K) > 1 / 10 ^ 8 := by norm_num
  unfold coupling couplingMasters
  simp only [List.filter_cons, List.filter_nil]
  rw [if_pos (by simpa using Or.inr (by simpa using this))]
  simp

theorem couple_spec (sqrt : K → K) (g : List (Quad K)) (h : Handler K) (hdim : h.dim = 3) (n m : Nat) (c : K × K)
    (hf : find sqrt g c = some (.node (m : Int))) (opp : Nat → Nat) (ho : opp n = m)
    (hz : AllZero h) :
    ∃ h', coupleNode sqrt g h ⟨n, c⟩ = some h' ∧ h'.dim = h.dim ∧ h'.nodes = h.nodes ∧ h'.fixed = h.fixed ∧ h'.maxeqn = h.maxeqn ∧
      ∀ k, h'.mpcs k = (h.mpcs k).or (if k / 3 = n ∧ h.fixed n = none then some (tieOf opp k) else none) := by
  unfold coupleNode
  rw [hf]
  refine ⟨_, rfl, ?_⟩
  change _ ∧ _
  have hn : ((n : Int)).toNat = n := rfl
  simp only [hn, coupling_node, List.foldl_cons, List.foldl_nil]
  by_cases hfix : h.fixed n = none
  · have hno : ∀ i, fixedDof h n i = false := by intro i; unfold fixedDof; rw [hfix]
    have one : ∀ (h1 : Handler K) (i : Nat), h1.fixed = h.fixed → h1.dim = 3 → addMPC h1 ⟨n, i, 0, [⟨m, i, 1⟩]⟩ =
        { h1 with mpcs := fun k => (h1.mpcs k).or (if k = n * 3 + i then some ⟨n, i, 0, [⟨m, i, 1⟩]⟩ else none) } := by
      intro h1 i he hd
      unfold addMPC
      have : fixedDof h1 n i = false := by unfold fixedDof; rw [he, hfix]
      dsimp only
      rw [this, hd]
      rw [if_neg (by simp)]
      congr 1
      funext k
      unfold key
      cases h1.mpcs k <;> simp
    rw [one h 0 rfl hdim, one _ 1 (by rfl) (by exact hdim), one _ 2 (by rfl) (by exact hdim)]
    refine ⟨rfl, rfl, rfl, rfl, fun k => ?_⟩
    change (((h.mpcs k).or _).or _).or _ = _
    rw [Option.or_assoc, Option.or_assoc]
    refine congrArg _ ?_
    by_cases hk : k / 3 = n
    · rw [if_pos (⟨hk, hfix⟩ : k / 3 = n ∧ h.fixed n = none)]
      unfold tieOf
      rw [hk, ho]
      have cases3 : k % 3 = 0 ∨ k % 3 = 1 ∨ k % 3 = 2 := by omega
      rcases cases3 with e | e | e
      · rw [if_pos (by omega : k = n * 3 + 0), e]
        rfl
      · rw [if_neg (by omega : ¬ k = n * 3 + 0), if_pos (by omega : k = n * 3 + 1), e]
        rfl
      · rw [if_neg (by omega : ¬ k = n * 3 + 0), if_neg (by omega : ¬ k = n * 3 + 1), if_pos (by omega : k = n * 3 + 2), e]
        rfl
    · rw [if_neg (by omega : ¬ k = n * 3 + 0), if_neg (by omega : ¬ k = n * 3 + 1), if_neg (by omega : ¬ k = n * 3 + 2),
        if_neg (fun h => hk h.1)]
      rfl
  · have hfull : ∀ i < 3, fixedDof h n i = true := by
      intro i hi
      unfold fixedDof
      obtain ⟨f, hf⟩ := Option.ne_none_iff_exists'.mp hfix
      rw [hf, hz n f hf]
      unfold zeroFix
      dsimp only
      have : i = 0 ∨ i = 1 ∨ i = 2 := by omega
      rcases this with rfl | rfl | rfl <;> rfl
    have one : ∀ i < 3, addMPC h ⟨n, i, 0, [⟨m, i, 1⟩]⟩ = h := by
      intro i hi
      unfold addMPC
      rw [if_pos (hfull i hi)]
    rw [one 0 (by norm_num), one 1 (by norm_num), one 2 (by norm_num)]
    refine ⟨rfl, rfl, rfl, rfl, fun k => ?_⟩
    rw [if_neg (fun h => hfix h.2), Option.or_none]

theorem plane_fold (sqrt : K → K) (g : List (Quad K)) (M : Mesh K) (d : Fin 3) (opp : Nat → Nat) (ns : List Nat)
    (hf : ∀ n ∈ ns, find sqrt g (extract (M.X n) d) = some (.node (opp n : Int))) (h : Handler K) (hdim : h.dim = 3) (hz : AllZero h) :
    ∃ h', (ns.map fun (n : Nat) => (⟨n, extract (M.X n) d⟩ : Vertex K)).foldlM (coupleNode sqrt g) h = some h' ∧ h'.dim = h.dim ∧
      h'.nodes = h.nodes ∧ h'.fixed = h.fixed ∧ h'.maxeqn = h.maxeqn ∧
      ∀ k, h'.mpcs k = (h.mpcs k).or (if k / 3 ∈ ns ∧ h.fixed (k / 3) = none then some (tieOf opp k) else none) := by
  induction ns generalizing h with
  | nil => exact ⟨h, rfl, rfl, rfl, rfl, rfl, fun k => by simp⟩
  | cons n ns ih =>
    obtain ⟨h1, a1, a2, a3, a4, a5, a6⟩ := couple_spec sqrt g h hdim n (opp n) _ (hf n (by simp)) opp rfl hz
    have hz1 : AllZero h1 := by intro n f hn; rw [a4] at hn; exact hz n f hn
    obtain ⟨h2, b1, b2, b3, b4, b5, b6⟩ := ih (fun n' hn' => hf n' (by simp [hn'])) h1 (a2.trans hdim) hz1
    refine ⟨h2, ?_, b2.trans a2, b3.trans a3, b4.trans a4, b5.trans a5, fun k => ?_⟩
    · rw [List.map_cons, List.foldlM_cons, a1]
      exact b1
    · rw [b6, a6, a4, Option.or_assoc]
      congr 1
      by_cases hk : k / 3 = n
      · by_cases hfx : h.fixed n = none
        · rw [if_pos ⟨hk, hfx⟩, if_pos (⟨by simp [hk], by rw [hk]; exact hfx⟩ : k / 3 ∈ n :: ns ∧ h.fixed (k / 3) = none)]
          rfl
        · rw [if_neg (fun h => hfx h.2), if_neg (fun h' => hfx (hk ▸ h'.2)), if_neg (fun h' => hfx (hk ▸ h'.2))]
          rfl
      · rw [if_neg (fun h => hk h.1), Option.none_or]
        simp [hk]

/-- One pair of sides. -/
theorem plane_spec {srt : (Vertex K → K) → List (Vertex K) → List (Vertex K)} (hs : IsSort srt) (sqrt : K → K) {tol : K} {M : Mesh K}
    {mn mx : Fin 3 → K} {opp : Fin 3 → Nat → Nat} (hM : Matched tol M mn mx opp) (d : Fin 3) {g : List (Quad K)}
    (hg : extractMasterFace srt tol M false false d (mn d) = some g) (h : Handler K) (hdim : h.dim = 3) (hz : AllZero h) :
    ∃ h', periodicPlane sqrt (extractFace tol M d (mx d)) g h = some h' ∧ h'.dim = h.dim ∧ h'.nodes = h.nodes ∧ h'.fixed = h.fixed ∧
      h'.maxeqn = h.maxeqn ∧ ∀ k, h'.mpcs k =
        (h.mpcs k).or (if (k / 3 < M.nodes ∧ M.X (k / 3) d = mx d) ∧ h.fixed (k / 3) = none then some (tieOf (opp d) k) else none) := by
  obtain ⟨h', a1, a2, a3, a4, a5, a6⟩ := plane_fold sqrt g M d (opp d)
    ((List.range M.nodes).filter fun n => onPlane tol M d (mx d) n) (fun n hn => by
      rw [List.mem_filter, List.mem_range] at hn
      have hx := (onPlane_upper hM hn.1 d).mp (by simpa using hn.2)
      obtain ⟨h1, h2, h3⟩ := hM.opposite n hn.1 d hx
      have hex : extract (M.X n) d = extract (M.X (opp d n)) d := by
        obtain ⟨d1, d2, -⟩ := dirs_ne d
        rw [extract_eq, extract_eq, h3 _ d1.symm, h3 _ d2.symm]
      rw [hex]
      exact find_spec hs sqrt hM d hg (opp d n) h1 h2) h hdim hz
  refine ⟨h', a1, a2, a3, a4, a5, fun k => ?_⟩
  rw [a6]
  have hiff : (k / 3 ∈ (List.range M.nodes).filter fun n => onPlane tol M d (mx d) n) ↔ (k / 3 < M.nodes ∧ M.X (k / 3) d = mx d) := by
    rw [List.mem_filter, List.mem_range]
    constructor
    · rintro ⟨h1, h2⟩; exact ⟨h1, (onPlane_upper hM h1 d).mp (by simpa using h2)⟩
    · rintro ⟨h1, h2⟩; exact ⟨h1, by simpa using (onPlane_upper hM h1 d).mpr h2⟩
  simp only [hiff]

end Verif.PBC
