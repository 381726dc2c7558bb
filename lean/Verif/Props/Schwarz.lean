import Verif.Spec.Schwarz
import Verif.Props.AsmForm
import Verif.Model.PeriodicBCs

/-!
C131: subdomains of the Schwarz preconditioner for elasticity.
-/

namespace Verif.Schwarz

open Verif.Asm Spec

variable {K : Type}

theorem insertAt_fold (k : Nat) (l : List Nat) (rows : List (List Nat)) (hk : l ≠ [] → k < rows.length) (hn : ∀ s ∈ rows, s.Nodup) :
    ∃ rows', l.foldlM (insertAt k) rows = some rows' ∧ rows'.length = rows.length ∧ (∀ s ∈ rows', s.Nodup) ∧
      ∀ q e, (∃ s, rows'[q]? = some s ∧ e ∈ s) ↔ (∃ s, rows[q]? = some s ∧ e ∈ s) ∨ (q = k ∧ e ∈ l) := by
  induction l generalizing rows with
  | nil => exact ⟨rows, rfl, rfl, hn, fun q e => by simp⟩
  | cons x l ih =>
    have hk' : k < rows.length := hk (by simp)
    have hx : insertAt k rows x = some (rows.set k (rows[k].insert x)) := by
      unfold insertAt
      rw [List.getElem?_eq_getElem hk']
      rfl
    obtain ⟨r, h1, h2, h3, h4⟩ := ih (rows.set k (rows[k].insert x)) (fun _ => by rw [List.length_set]; exact hk') (by
      intro s hs
      rcases List.mem_or_eq_of_mem_set hs with h | h
      · exact hn s h
      · rw [h]; exact (hn _ (List.getElem_mem hk')).insert)
    refine ⟨r, ?_, ?_, h3, fun q e => ?_⟩
    · rw [List.foldlM_cons, hx]; exact h1
    · rw [h2, List.length_set]
    · rw [h4]
      rw [List.getElem?_set]
      by_cases hq : k = q
      · subst hq
        rw [if_pos rfl, if_pos hk', List.getElem?_eq_getElem hk']
        simp only [Option.some.injEq, exists_eq_left', List.mem_insert_iff, List.mem_cons, true_and]
        tauto
      · rw [if_neg hq]
        have : ¬ q = k := fun h => hq h.symm
        simp [this]

theorem cells_fold (h : Handler K) (nel1 : Nat) (cells : List Cell) (rows : List (List Nat)) (hk : ∀ c ∈ cells, rowix nel1 c < rows.length)
    (hn : ∀ s ∈ rows, s.Nodup) :
    ∃ rows', cells.foldlM (addCell h nel1) rows = some rows' ∧ rows'.length = rows.length ∧ (∀ s ∈ rows', s.Nodup) ∧
      ∀ q e, (∃ s, rows'[q]? = some s ∧ e ∈ s) ↔ (∃ s, rows[q]? = some s ∧ e ∈ s) ∨
        ∃ c ∈ cells, q = rowix nel1 c ∧ ∃ n ∈ c.vertex, ∃ m < 3, e ∈ dofEquations h n m := by
  induction cells generalizing rows with
  | nil => exact ⟨rows, rfl, rfl, hn, fun q e => by simp⟩
  | cons c cells ih =>
    obtain ⟨r, h1, h2, h3, h4⟩ := insertAt_fold (rowix nel1 c) (c.vertex.flatMap fun idx => (List.range 3).flatMap fun m => dofEquations h idx m) rows
      (fun _ => hk c (by simp)) hn
    obtain ⟨r', g1, g2, g3, g4⟩ := ih r (fun c' hc' => by rw [h2]; exact hk c' (List.mem_cons_of_mem _ hc')) h3
    refine ⟨r', ?_, by rw [g2, h2], g3, fun q e => ?_⟩
    · rw [List.foldlM_cons]
      have : addCell h nel1 rows c = some r := h1
      rw [this]; exact g1
    · rw [g4, h4]
      simp only [List.mem_flatMap, List.mem_range, List.mem_cons]
      constructor
      · rintro ((h | ⟨hq, n, hn, m, hm, he⟩) | ⟨c', hc', hq, hh⟩)
        · exact .inl h
        · exact .inr ⟨c, .inl rfl, hq, n, hn, m, hm, he⟩
        · exact .inr ⟨c', .inr hc', hq, hh⟩
      · rintro (h | ⟨c', rfl | hc', hq, n, hn, m, hm, he⟩)
        · exact .inl (.inl h)
        · exact .inl (.inr ⟨hq, n, hn, m, hm, he⟩)
        · exact .inr ⟨c', hc', hq, n, hn, m, hm, he⟩

theorem rowix_lt {nel1 nel2 : Nat} {c : Cell} (hi : c.i < nel1) (hj : c.j < nel2) : rowix nel1 c < nel1 * nel2 := by
  unfold rowix
  calc c.i + nel1 * c.j < nel1 + nel1 * c.j := by omega
    _ = nel1 * (c.j + 1) := by ring
    _ ≤ nel1 * nel2 := Nat.mul_le_mul_left _ hj

theorem rowix_inj {nel1 a b c d : Nat} (ha : a < nel1) (hc : c < nel1) : a + nel1 * b = c + nel1 * d ↔ a = c ∧ b = d := by
  constructor
  · intro h
    have h1 : (a + nel1 * b) % nel1 = (c + nel1 * d) % nel1 := by rw [h]
    rw [Nat.add_mul_mod_self_left, Nat.add_mul_mod_self_left, Nat.mod_eq_of_lt ha, Nat.mod_eq_of_lt hc] at h1
    refine ⟨h1, ?_⟩
    subst h1
    have h2 : nel1 * b = nel1 * d := by omega
    exact Nat.eq_of_mul_eq_mul_left (by omega) h2
  · rintro ⟨rfl, rfl⟩; rfl

theorem mem_dofEquations (h : Handler K) (hs : SameDirection h) (n m e : Nat) (hm : m < h.dim) : e ∈ dofEquations h n m ↔ TakesPart h n m e := by
  unfold dofEquations TakesPart key
  cases hc : h.mpcs (n * h.dim + m) with
  | none => simp
  | some c =>
    simp only [List.mem_filterMap, reduceCtorEq, false_and, Option.some.injEq, exists_eq_left', false_or]
    refine exists_congr fun a => and_congr_right fun ha => ?_
    rw [hs n m c hm hc a ha]

/-- C131. There is one subdomain for each column of cells, column `(i, j)` having number `i + nel1*j`. The subdomain has each of its equations once, and has exactly those that take part in the displacements at the vertices of the cells of its column. -/
theorem C131_columns (h : Handler K) (hd : h.dim = 3) (hs : SameDirection h) (nel1 nel2 : Nat) (cells : List Cell) (hc : ∀ c ∈ cells, c.i < nel1 ∧ c.j < nel2) :
    ∃ rows, subdomains h nel1 nel2 cells = some rows ∧ rows.length = nel1 * nel2 ∧ (∀ s ∈ rows, s.Nodup) ∧
      ∀ i j, i < nel1 → j < nel2 → ∃ s, rows[i + nel1 * j]? = some s ∧ ∀ e, e ∈ s ↔ InColumn h cells i j e := by
  obtain ⟨rows, h1, h2, h3, h4⟩ := cells_fold h nel1 cells (List.replicate (nel1 * nel2) [])
    (fun c hcc => by rw [List.length_replicate]; exact rowix_lt (hc c hcc).1 (hc c hcc).2) (by
      intro s hs; rw [(List.mem_replicate.mp hs).2]; exact List.nodup_nil)
  rw [List.length_replicate] at h2
  refine ⟨rows, h1, h2, h3, fun i j hi hj => ?_⟩
  have hlt : i + nel1 * j < rows.length := by
    rw [h2]; exact rowix_lt (c := ⟨i, j, []⟩) hi hj
  refine ⟨rows[i + nel1 * j], List.getElem?_eq_getElem hlt, fun e => ?_⟩
  have := h4 (i + nel1 * j) e
  rw [List.getElem?_eq_getElem hlt] at this
  simp only [Option.some.injEq, exists_eq_left'] at this
  rw [this]
  unfold InColumn
  constructor
  · rintro (⟨s, hs', he⟩ | ⟨c, hcc, hq, n, hn, m, hm, he⟩)
    · rw [List.getElem?_replicate] at hs'
      split at hs'
      · cases hs'; simp at he
      · cases hs'
    · obtain ⟨g1, g2⟩ := (rowix_inj hi (hc c hcc).1).mp hq
      exact ⟨c, hcc, g1.symm, g2.symm, n, hn, m, hm, (mem_dofEquations h hs n m e (by omega)).mp he⟩
  · rintro ⟨c, hcc, rfl, rfl, n, hn, m, hm, he⟩
    exact .inr ⟨c, hcc, rfl, n, hn, m, hm, (mem_dofEquations h hs n m e (by omega)).mpr he⟩

/-- C131. Every equation of the system belongs to some subdomain, whatever the constraints, if every node is a vertex of a cell: the preconditioner acts on every unknown. -/
theorem C131_cover (h : Handler K) (hd : h.dim = 3) (h0 : h.maxeqn = 0) (nel1 nel2 : Nat) (cells : List Cell) (hc : ∀ c ∈ cells, c.i < nel1 ∧ c.j < nel2)
    (hv : ∀ n < h.nodes, ∃ c ∈ cells, n ∈ c.vertex) :
    ∃ rows, subdomains (preprocess h) nel1 nel2 cells = some rows ∧ ∀ e < (preprocess h).maxeqn, ∃ s ∈ rows, e ∈ s := by
  obtain ⟨rows, h1, h2, h3, h4⟩ := cells_fold (preprocess h) nel1 cells (List.replicate (nel1 * nel2) [])
    (fun c hcc => by rw [List.length_replicate]; exact rowix_lt (hc c hcc).1 (hc c hcc).2) (by
      intro s hs; rw [(List.mem_replicate.mp hs).2]; exact List.nodup_nil)
  refine ⟨rows, h1, fun e he => ?_⟩
  obtain ⟨ha, _, hb, _⟩ := C39_equations h h0
  obtain ⟨n, i, hu, hn⟩ := hb e he
  obtain ⟨c, hcc, hnc⟩ := hv n hu.1
  have hslave : ¬ Slave h n i := fun hsl => by
    have := (ha n i hu).mpr (.inr hsl)
    rw [this] at hn; cases hn
  obtain ⟨s, hs, hes⟩ := (h4 (rowix nel1 c) e).mpr (.inr ⟨c, hcc, rfl, n, hnc, i, by have := hu.2; omega, by
    unfold dofEquations
    have : (preprocess h).mpcs (key (preprocess h).dim n i) = none := by
      cases hm : h.mpcs (n * h.dim + i) with
      | none => exact hm
      | some m => exact absurd ⟨m, hm⟩ hslave
    rw [this]
    exact Option.mem_toList.mpr hn⟩)
  exact ⟨s, List.mem_of_getElem? hs, hes⟩

theorem mem_eqns (h : Handler K) (q : Nat × Nat × Nat) (e : Nat) : e ∈ eqns h q ↔ TakesPart h q.2.1 q.2.2 e := by
  unfold Asm.eqns TakesPart key
  cases hc : h.mpcs (q.2.1 * h.dim + q.2.2) with
  | none => simp
  | some c => simp [List.mem_filterMap]

theorem mem_unknowns (dim : Nat) (e : Element K) (q : Nat × Nat × Nat) (hq : q ∈ unknowns dim e) : q.2.1 ∈ e.vertex ∧ q.2.2 < dim := by
  unfold unknowns at hq
  simp only [List.mem_flatMap, List.mem_map, List.mem_range] at hq
  obtain ⟨p, hp, l, hl, rfl⟩ := hq
  refine ⟨?_, hl⟩
  have := List.mem_zipIdx hp
  simp only
  rw [this.2.2]
  exact List.getElem_mem _

theorem mem_rowEntries (h : Handler K) (e : Element K) (q : Nat × Nat × Nat) (x : Nat × Nat) (hx : x ∈ rowEntries h e q) :
    TakesPart h q.2.1 q.2.2 x.1 ∧ ∃ p ∈ unknowns h.dim e, TakesPart h p.2.1 p.2.2 x.2 := by
  have hent : ∀ r, x ∈ entries h e (some r) → x.1 = r ∧ ∃ p ∈ unknowns h.dim e, TakesPart h p.2.1 p.2.2 x.2 := by
    intro r hr
    unfold entries at hr
    simp only [List.mem_flatMap, List.mem_map] at hr
    obtain ⟨p, hp, c, hc, rfl⟩ := hr
    exact ⟨rfl, p, hp, (mem_eqns h p c).mp hc⟩
  rw [← mem_eqns]
  unfold rowEntries at hx
  unfold Asm.eqns
  split at hx
  · rename_i m hm
    obtain ⟨a, ha, hxa⟩ := List.mem_flatMap.mp hx
    cases he : h.eqn a.node a.dof with
    | none => rw [he] at hxa; simp [entries] at hxa
    | some r =>
      rw [he] at hxa
      obtain ⟨g1, g2⟩ := hent r hxa
      refine ⟨?_, g2⟩
      exact List.mem_filterMap.mpr ⟨a, ha, by rw [he, g1]⟩
  · rename_i hm
    cases he : h.eqn q.2.1 q.2.2 with
    | none => rw [he] at hx; simp [entries] at hx
    | some r =>
      rw [he] at hx
      obtain ⟨g1, g2⟩ := hent r hx
      exact ⟨by simp [g1], g2⟩

theorem mem_determinePattern [Field K] [LinearOrder K] (h : Handler K) (es : List (Element K)) (x : Nat × Nat) :
    x ∈ determinePattern h es ↔ ∃ e ∈ es, ∃ q ∈ unknowns h.dim e, x ∈ rowEntries h e q := by
  unfold determinePattern
  rw [fold_mem _ (fun e => (unknowns h.dim e).flatMap (rowEntries h e)) (fun s e x => by
    rw [fold_mem _ (fun q => rowEntries h e q) (fun s q x => mem_patRow ..), List.mem_flatMap])]
  simp [List.mem_flatMap]

/-- C131. Every entry of the matrix couples two equations of a common subdomain: the subdomains together see the whole matrix. -/
theorem C131_couplings [Field K] [LinearOrder K] (h : Handler K) (hd : h.dim = 3) (hs : SameDirection (preprocess h)) (nel1 nel2 : Nat) (cells : List Cell) (hc : ∀ c ∈ cells, c.i < nel1 ∧ c.j < nel2)
    (es : List (Element K)) (hes : ∀ e ∈ es, ∃ c ∈ cells, c.vertex = e.vertex) :
    ∃ rows, subdomains (preprocess h) nel1 nel2 cells = some rows ∧ ∀ x ∈ (assemble (preprocess h) es).touched, ∃ s ∈ rows, x.1 ∈ s ∧ x.2 ∈ s := by
  obtain ⟨rows, h1, _, _, h4⟩ := C131_columns (preprocess h) hd hs nel1 nel2 cells hc
  refine ⟨rows, h1, fun x hx => ?_⟩
  obtain ⟨e, he, q, hq, hxe⟩ := (mem_determinePattern (preprocess h) es x).mp ((C76_pattern h es).1 x hx)
  obtain ⟨g1, p, hp, g2⟩ := mem_rowEntries _ _ _ _ hxe
  obtain ⟨c, hcc, hcv⟩ := hes e he
  obtain ⟨s, hs1, hs2⟩ := h4 c.i c.j (hc c hcc).1 (hc c hcc).2
  have hd' : (preprocess h).dim = 3 := hd
  obtain ⟨q1, q2⟩ := mem_unknowns _ _ _ hq
  obtain ⟨p1, p2⟩ := mem_unknowns _ _ _ hp
  rw [hd'] at q2 p2
  exact ⟨s, List.mem_of_getElem? hs1, (hs2 _).mpr ⟨c, hcc, rfl, rfl, _, hcv ▸ q1, _, q2, g1⟩, (hs2 _).mpr ⟨c, hcc, rfl, rfl, _, hcv ▸ p1, _, p2, g2⟩⟩

/-! ### Constraints of the tool keep the direction -/

theorem same_addMPC (h : Handler K) (hs : SameDirection h) (m : Mpc K) (hi : m.dof < h.dim) (hm : ∀ a ∈ m.masters, a.dof = m.dof) : SameDirection (addMPC h m) := by
  unfold addMPC
  split
  · exact hs
  · intro n i c hi' hc a ha
    change (if n * h.dim + i = key h.dim m.node m.dof ∧ h.mpcs (n * h.dim + i) = none then some m else h.mpcs (n * h.dim + i)) = some c at hc
    change i < h.dim at hi'
    split at hc
    · rename_i hk
      cases hc
      have h1 := hk.1
      unfold key at h1
      have h2 : (n * h.dim + i) % h.dim = (m.node * h.dim + m.dof) % h.dim := by rw [h1]
      rw [Nat.mul_add_mod_of_lt hi', Nat.mul_add_mod_of_lt hi] at h2
      rw [hm a ha, h2]
    · exact hs n i c hi' hc a ha

/-- The same by position. -/
def Dir (dim : Nat) (m : Nat → Option (Mpc K)) : Prop := ∀ s c, m s = some c → ∀ a ∈ c.masters, a.dof = s % dim

theorem same_iff (h : Handler K) (hd : 0 < h.dim) : SameDirection h ↔ Dir h.dim h.mpcs := by
  constructor
  · intro hs s c hc a ha
    refine hs (s / h.dim) (s % h.dim) c (Nat.mod_lt _ hd) ?_ a ha
    rw [Nat.mul_comm, Nat.div_add_mod]; exact hc
  · intro hs n i c hi hc a ha
    have := hs _ c hc a ha
    rwa [Nat.mul_add_mod_of_lt hi] at this

section

variable [Field K] [LinearOrder K]

theorem dir_update {dim : Nat} {m : Nat → Option (Mpc K)} (hm : Dir dim m) (s : Nat) (c : Mpc K) (hc : ∀ a ∈ c.masters, a.dof = s % dim) :
    Dir dim fun k => if k = s then some c else m k := by
  intro k c' hk a ha
  by_cases h : k = s
  · simp only [h, if_true, Option.some.injEq] at hk
    subst hk
    rw [h]; exact hc a ha
  · simp only [h, if_false] at hk
    exact hm k c' hk a ha

theorem dir_loop {dim : Nat} (hd : 0 < dim) (tol : K) (rec : Nat → (Nat → Option (Mpc K)) → Option (Nat → Option (Mpc K)))
    (hrec : ∀ t m m', Dir dim m → rec t m = some m' → Dir dim m') (s n : Nat) :
    ∀ (i : Nat) (m m' : Nat → Option (Mpc K)), Dir dim m → resolveLoop dim tol rec s n i m = some m' → Dir dim m' := by
  induction n with
  | zero => intro i m m' hm h; cases h; exact hm
  | succ n ih =>
    intro i m m' hm h
    unfold resolveLoop at h
    obtain ⟨mpc, h1, h⟩ := Option.bind_eq_some_iff.mp h
    obtain ⟨a, h2, h⟩ := Option.bind_eq_some_iff.mp h
    split at h
    · split at h
      · obtain ⟨m1, h3, h⟩ := Option.bind_eq_some_iff.mp h
        obtain ⟨mpc2, h4, h⟩ := Option.bind_eq_some_iff.mp h
        obtain ⟨mpc1, h5, h⟩ := Option.bind_eq_some_iff.mp h
        have hm1 := hrec _ _ _ hm h3
        refine ih _ _ _ (dir_update hm1 s _ ?_) h
        intro b hb
        have hb := List.mem_of_mem_eraseIdx hb
        rcases List.mem_append.mp hb with hb | hb
        · exact hm1 s mpc1 h5 b hb
        · unfold scaledMasters at hb
          obtain ⟨b', hb', rfl⟩ := List.mem_map.mp (List.mem_of_mem_filter hb)
          have g := hm1 _ mpc2 h4 b' hb'
          have g2 := hm s mpc h1 a (List.mem_of_getElem? h2)
          simp only
          rw [g, key, g2, Nat.mul_add_mod_of_lt (Nat.mod_lt _ hd)]
      · exact ih _ _ _ hm h
    · refine ih _ _ _ (dir_update hm s _ ?_) h
      intro b hb
      exact hm s mpc h1 b (List.mem_of_mem_eraseIdx hb)

theorem dir_chain {dim : Nat} (hd : 0 < dim) (tol : K) (fuel : Nat) :
    ∀ (s : Nat) (m m' : Nat → Option (Mpc K)), Dir dim m → resolveChain dim tol fuel s m = some m' → Dir dim m' := by
  induction fuel with
  | zero => intro s m m' _ h; cases h
  | succ fuel ih =>
    intro s m m' hm h
    unfold resolveChain at h
    split at h
    · cases h; exact hm
    · exact dir_loop hd tol _ ih s _ 0 m m' hm h

theorem same_chains (h h' : Handler K) (hd : 0 < h.dim) (hs : SameDirection h) (tol : K) (fuel : Nat) (hr : resolveChains tol fuel h = some h') :
    SameDirection h' ∧ h'.dim = h.dim := by
  unfold resolveChains at hr
  obtain ⟨m, hm, rfl⟩ := Option.map_eq_some_iff.mp hr
  refine ⟨(same_iff { h with mpcs := m } hd).mpr ?_, rfl⟩
  have hs := (same_iff h hd).mp hs
  generalize (List.range (h.nodes * h.dim)).filter (fun s => (h.mpcs s).isSome) = l at hm
  generalize h.mpcs = M at hm hs
  change Dir h.dim m
  induction l generalizing M with
  | nil => cases hm; exact hs
  | cons s l ih =>
    rw [List.foldlM_cons] at hm
    obtain ⟨M1, h1, h2⟩ := Option.bind_eq_some_iff.mp hm
    exact ih M1 h2 (dir_chain hd tol fuel s M M1 hs h1)

end

section

variable [Field K] [LinearOrder K]

open Verif.PBC

/-- What is kept of a handler while boundary conditions are set. -/
def Keeps (h : Handler K) : Prop := SameDirection h ∧ h.dim = 3

theorem keeps_fold {α : Type} (l : List α) (f : Handler K → α → Handler K) (hf : ∀ h a, Keeps h → Keeps (f h a)) (h : Handler K) (hk : Keeps h) : Keeps (l.foldl f h) := by
  induction l generalizing h with
  | nil => exact hk
  | cons a l ih => exact ih _ (hf h a hk)

theorem keeps_fixPoint [IsStrictOrderedRing K] (tol : K) (M : Mesh K) (h : Handler K) (p : Fin 3 → K) (hk : Keeps h) : Keeps (fixPoint tol M h p) := by
  unfold fixPoint
  refine keeps_fold _ _ (fun h n hk => ?_) h hk
  split
  · exact hk
  · exact hk

theorem keeps_coupleNode [IsStrictOrderedRing K] (sqrt : K → K) (g : List (BGrid.Quad K)) (h h' : Handler K) (v : BGrid.Vertex K) (hk : Keeps h) (hr : coupleNode sqrt g h v = some h') : Keeps h' := by
  unfold coupleNode at hr
  obtain ⟨f, _, rfl⟩ := Option.map_eq_some_iff.mp hr
  have step : ∀ (h : Handler K) (i : Nat), i < 3 → Keeps h → Keeps (addMPC h (coupling v.i.toNat i f)) := by
    intro h i hi hk
    refine ⟨same_addMPC h hk.1 _ (by rw [hk.2]; exact hi) ?_, ?_⟩
    · intro a ha
      unfold coupling at ha
      obtain ⟨b, _, rfl⟩ := List.mem_map.mp ha
      rfl
    · unfold addMPC
      split <;> exact hk.2
  exact step _ 2 (by omega) (step _ 1 (by omega) (step _ 0 (by omega) hk))

theorem keeps_periodicPlane [IsStrictOrderedRing K] (sqrt : K → K) (slaves : List (BGrid.Vertex K)) (g : List (BGrid.Quad K)) (h h' : Handler K) (hk : Keeps h)
    (hr : periodicPlane sqrt slaves g h = some h') : Keeps h' := by
  unfold periodicPlane at hr
  induction slaves generalizing h with
  | nil => cases hr; exact hk
  | cons v l ih =>
    rw [List.foldlM_cons] at hr
    obtain ⟨h1, g1, g2⟩ := Option.bind_eq_some_iff.mp hr
    exact ih h1 (keeps_coupleNode sqrt g h h1 v hk g1) g2

/-- C131. Periodic boundary conditions tie unknowns of the same direction, also after chains have been resolved and the equations numbered, on every mesh on which they can be set: the statements about subdomains apply to them. -/
theorem C131_periodic [IsStrictOrderedRing K] (srt : (BGrid.Vertex K → K) → List (BGrid.Vertex K) → List (BGrid.Vertex K)) (sqrt : K → K) (tol : K) (M : Mesh K)
    (mn mx : Fin 3 → K) (nodes : Nat) (h h' : Handler K) (hp : periodicBCs srt sqrt tol M mn mx (Handler.new 3 nodes) = some h) (tol' : K) (fuel : Nat) (hr : resolveChains tol' fuel h = some h') :
    SameDirection (preprocess h') ∧ (preprocess h').dim = 3 := by
  have hk : Keeps h := by
    unfold periodicBCs at hp
    obtain ⟨m0, _, hp⟩ := Option.bind_eq_some_iff.mp hp
    obtain ⟨m1, _, hp⟩ := Option.bind_eq_some_iff.mp hp
    obtain ⟨m2, _, hp⟩ := Option.bind_eq_some_iff.mp hp
    obtain ⟨h1, g1, hp⟩ := Option.bind_eq_some_iff.mp hp
    obtain ⟨h2, g2, hp⟩ := Option.bind_eq_some_iff.mp hp
    refine keeps_periodicPlane sqrt _ _ h2 h (keeps_periodicPlane sqrt _ _ h1 h2 (keeps_periodicPlane sqrt _ _ _ h1 ?_ g1) g2) hp
    unfold fixCorners
    refine keeps_fold _ _ (fun h p hk => keeps_fixPoint tol M h p hk) _ ⟨?_, rfl⟩
    intro n i c _ hc
    cases hc
  obtain ⟨g1, g2⟩ := same_chains h h' (by rw [hk.2]; decide) hk.1 tol' fuel hr
  exact ⟨g1, g2.trans hk.2⟩

end

/-! ### Constraints between directions -/

/-- Two cells beside each other in the first direction, with four of their vertices: the displacement of node 3 in direction 0 is tied to that of node 0 in direction `d`. -/
def tied (d : Nat) : Handler ℚ := runCalls (Handler.new 3 4) [.constrain ⟨3, 0, 0, [⟨0, d, 1⟩]⟩]

/-- Cells of `tied`. -/
def tiedCells : List Cell := [⟨0, 0, [0, 1]⟩, ⟨1, 0, [2, 3]⟩]

/-- C131. A constraint between different directions, which the handler accepts and the assembly treats (C76), is not seen by the subdomains: the second cell couples equation 1, the master, with equation 6, but no subdomain has both. -/
theorem C131_violated_direction : ∃ rows, subdomains (preprocess (tied 1)) 2 1 tiedCells = some rows ∧
    (6, 1) ∈ (assemble (preprocess (tied 1)) [⟨[0, 1], fun _ _ => 1, fun _ => 0⟩, ⟨[2, 3], fun _ _ => 1, fun _ => 0⟩]).touched ∧ ∀ s ∈ rows, ¬ (6 ∈ s ∧ 1 ∈ s) :=
  ⟨_, rfl, by decide +kernel, by decide +kernel⟩

/-- Hypotheses are met: the same constraint within one direction. (For `C131_periodic` see the example beside `C99_box`.) -/
example : SameDirection (preprocess (tied 0)) :=
  same_addMPC (Handler.new 3 4) (fun _ _ _ _ hc => by cases hc) ⟨3, 0, 0, [⟨0, 0, 1⟩]⟩ (by decide) (by simp)

example : (tied 0).dim = 3 ∧ (tied 0).maxeqn = 0 ∧ (∀ c ∈ tiedCells, c.i < 2 ∧ c.j < 1) ∧ (∀ n < 4, ∃ c ∈ tiedCells, n ∈ c.vertex) ∧
    subdomains (preprocess (tied 0)) 2 1 tiedCells = some [[5, 4, 3, 2, 1, 0], [10, 9, 0, 8, 7, 6]] := by decide +kernel

end Verif.Schwarz
