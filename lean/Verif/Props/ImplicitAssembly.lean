import Verif.Props.Implicit
import Mathlib.Algebra.BigOperators.Group.Finset.Basic
import Mathlib.Algebra.BigOperators.Group.List.Basic
import Mathlib.Algebra.BigOperators.Fin

/-! C19 (total) and C22: the assembled system. -/

namespace Verif.Implicit

/-! ### Layout -/

/-- Number of values of each quantity. -/
def Spec.qtyCount (nc totconn nf : Nat) : Qty → Nat
  | .mob | .dmob => 2 * nc
  | .porevol | .ds | .pc | .dpc => nc
  | .dg => totconn
  | .trans => nf

/-- **C22** In the parameter array different values have different places, all within the array; for the transmissibilities, which are indexed by face, provided that there are no more faces
than half faces. -/
theorem C22_storage (nc totconn nf : Nat) (hf : nf ≤ totconn) :
    (∀ q i, i < Spec.qtyCount nc totconn nf q → offset nc totconn q + i < allocSize nc totconn) ∧
    (∀ q q' i i', i < Spec.qtyCount nc totconn nf q → i' < Spec.qtyCount nc totconn nf q' →
      offset nc totconn q + i = offset nc totconn q' + i' → q = q' ∧ i = i') := by
  constructor
  · intro q i h
    cases q <;> simp only [Spec.qtyCount, offset, allocSize] at * <;> omega
  · intro q q' i i' h h' e
    cases q <;> cases q' <;> simp only [Spec.qtyCount, offset] at h h' e <;>
      first
      | exact ⟨rfl, by omega⟩
      | (exfalso; omega)

example : offset 3 12 .trans + 6 < allocSize 3 12 := by decide

/-- The blocks of the work buffer: the accumulation Jacobian, two Jacobians per connection, and `n + 2` residuals. -/
inductive Spec.Block (n : Nat) where
  | acc
  | J1 (k : Fin n)
  | J2 (k : Fin n)
  | F (k : Fin (n + 2))

/-- Where a block starts and how many values it has. -/
def Spec.Block.start {n : Nat} (ndof : Nat) : Spec.Block n → Nat
  | .acc => 0
  | .J1 k => offJ1 n ndof + k * (ndof * ndof)
  | .J2 k => offJ2 n ndof + k * (ndof * ndof)
  | .F k => offF n ndof + k * ndof

def Spec.Block.size {n : Nat} (ndof : Nat) : Spec.Block n → Nat
  | .F _ => ndof
  | _ => ndof * ndof

theorem mul_block {a b d i j : Nat} (hi : i < d) (hj : j < d) (h : a * d + i = b * d + j) : a = b ∧ i = j := by
  have hd : 0 < d := by omega
  have h1 : (a * d + i) / d = a := by rw [Nat.mul_comm, Nat.mul_add_div hd, Nat.div_eq_of_lt hi]; omega
  have h2 : (b * d + j) / d = b := by rw [Nat.mul_comm, Nat.mul_add_div hd, Nat.div_eq_of_lt hj]; omega
  have : a = b := by rw [← h1, ← h2, h]
  subst this
  exact ⟨rfl, by omega⟩

/-- **C22** The work buffer of a cell is partitioned into disjoint blocks within its bounds, for any number of connections and of unknowns per cell. -/
theorem C22_buffer (n ndof : Nat) :
    (∀ (b : Spec.Block n) (i : Nat), i < b.size ndof → b.start ndof + i < bufSize n ndof) ∧
    (∀ (b b' : Spec.Block n) (i i' : Nat), i < b.size ndof → i' < b'.size ndof → b.start ndof + i = b'.start ndof + i' → b = b' ∧ i = i') := by
  have bnd : ∀ (k m d i : Nat), k < m → i < d → k * d + i < m * d := by
    intro k m d i hk hi
    have : (k + 1) * d ≤ m * d := Nat.mul_le_mul_right _ hk
    rw [Nat.add_mul] at this
    omega
  constructor
  · intro b i h
    cases b with
    | acc =>
      simp only [Spec.Block.start, Spec.Block.size, bufSize] at *
      have := bnd 0 (2 * n + 1) (ndof * ndof) i (by omega) h
      omega
    | J1 k =>
      simp only [Spec.Block.start, Spec.Block.size, bufSize, offJ1] at *
      have := bnd (k + 1) (2 * n + 1) (ndof * ndof) i (by omega) h
      have e : ((k : Nat) + 1) * (ndof * ndof) = (0 * n + 1) * (ndof * ndof) + k * (ndof * ndof) := by ring
      omega
    | J2 k =>
      simp only [Spec.Block.start, Spec.Block.size, bufSize, offJ1, offJ2] at *
      have := bnd (n + k + 1) (2 * n + 1) (ndof * ndof) i (by omega) h
      have e : (n + (k : Nat) + 1) * (ndof * ndof) = (0 * n + 1) * (ndof * ndof) + (1 * n + 0) * (ndof * ndof) + k * (ndof * ndof) := by ring
      omega
    | F k =>
      simp only [Spec.Block.start, Spec.Block.size, bufSize, offF] at *
      have := bnd k (n + 2) ndof i k.2 h
      omega
  · intro b b' i i' h h' e
    -- J blocks have numbers 0, 1 + k, 1 + n + k; all lie before the residuals
    have num : ∀ b : Spec.Block n, (∃ k, b = .F k) ∨ ∃ m, m < 2 * n + 1 ∧ b.start ndof = m * (ndof * ndof) ∧ b.size ndof = ndof * ndof ∧
        ((m = 0 ∧ b = .acc) ∨ (∃ k : Fin n, m = 1 + k ∧ b = .J1 k) ∨ (∃ k : Fin n, m = 1 + n + k ∧ b = .J2 k)) := by
      intro b
      cases b with
      | acc => exact Or.inr ⟨0, by omega, by simp [Spec.Block.start], rfl, Or.inl ⟨rfl, rfl⟩⟩
      | J1 k => exact Or.inr ⟨1 + k, by omega, by simp only [Spec.Block.start, offJ1]; ring, rfl, Or.inr (Or.inl ⟨k, rfl, rfl⟩)⟩
      | J2 k => exact Or.inr ⟨1 + n + k, by omega, by simp only [Spec.Block.start, offJ1, offJ2]; ring, rfl, Or.inr (Or.inr ⟨k, rfl, rfl⟩)⟩
      | F k => exact Or.inl ⟨k, rfl⟩
    rcases num b with ⟨k, rfl⟩ | ⟨m, hm, hs, hz, hb⟩ <;> rcases num b' with ⟨k', rfl⟩ | ⟨m', hm', hs', hz', hb'⟩
    · simp only [Spec.Block.start, Spec.Block.size] at *
      have := mul_block (a := k) (b := k') h h' (by omega)
      exact ⟨by rw [Fin.ext this.1], this.2⟩
    · exfalso
      rw [hs'] at e; rw [hz'] at h'
      have := bnd m' (2 * n + 1) (ndof * ndof) i' hm' h'
      simp only [Spec.Block.start, offF] at e
      omega
    · exfalso
      rw [hs] at e; rw [hz] at h
      have := bnd m (2 * n + 1) (ndof * ndof) i hm h
      simp only [Spec.Block.start, offF] at e
      omega
    · rw [hs, hs'] at e; rw [hz] at h; rw [hz'] at h'
      obtain ⟨e1, e2⟩ := mul_block h h' e
      refine ⟨?_, e2⟩
      rcases hb with ⟨a, rfl⟩ | ⟨k, a, rfl⟩ | ⟨k, a, rfl⟩ <;> rcases hb' with ⟨a', rfl⟩ | ⟨k', a', rfl⟩ | ⟨k', a', rfl⟩ <;>
        first
        | rfl
        | (exfalso; omega)
        | (have : k = k' := Fin.ext (by omega)
           rw [this])

/-- The faces of a cell with cells on both sides. -/
def Spec.conns (g : Grid) (c : Nat) : List Nat := (g.cellFaces c).filter g.internal

theorem countConn_eq (g : Grid) (c : Nat) : countConn g c = (Spec.conns g c).length := by
  unfold countConn Spec.conns
  have gen : ∀ (l : List Nat) (n : Nat), l.foldl (fun n f => n + (if g.internal f then 1 else 0)) n = n + (l.filter g.internal).length := by
    intro l
    induction l with
    | nil => intro n; simp
    | cons f l ih =>
      intro n
      rw [List.foldl_cons, ih]
      by_cases h : g.internal f = true
      · simp [h]; omega
      · simp [h]
  rw [gen]; simp

theorem rowStructure_eq (g : Grid) (c : Nat) : rowStructure g c = (c : Int) :: (Spec.conns g c).map (g.other c) := by
  unfold rowStructure Spec.conns
  have gen : ∀ (l : List Nat) (r : List Int), l.foldl (fun l f => if g.internal f then l ++ [g.other c f] else l) r =
      r ++ (l.filter g.internal).map (g.other c) := by
    intro l
    induction l with
    | nil => intro n; simp
    | cons f l ih =>
      intro n
      rw [List.foldl_cons, ih]
      by_cases h : g.internal f = true
      · simp [h]
      · simp [h]
  rw [gen]; simp

/-- **C22** The number of non-zeros reserved is the sum of the sizes of the rows inserted afterwards. -/
theorem C22_nnz (g : Grid) : nnz g = ((List.range g.nc).map fun c => (rowStructure g c).length).sum := by
  unfold nnz
  have gen : ∀ (l : List Nat) (n : Nat), l.length + l.foldl (fun n c => n + countConn g c) n = n + (l.map fun c => (rowStructure g c).length).sum := by
    intro l
    induction l with
    | nil => intro n; simp
    | cons c l ih =>
      intro n
      rw [List.foldl_cons, List.map_cons, List.sum_cons, rowStructure_eq, List.length_cons, List.length_cons, List.length_map]
      have := ih (n + countConn g c)
      rw [countConn_eq] at this ⊢
      omega
  have := gen (List.range g.nc) 0
  rw [List.length_range] at this
  omega

/-! ### Assembly -/

section
variable {K : Type} [Field K] [LinearOrder K]

theorem bump_spec (buf : List K) (i : Nat) (x : K) (h : i < buf.length) :
    ∃ b, bump buf i x = some b ∧ b.length = buf.length ∧ ∀ k, b.getD k 0 = buf.getD k 0 + if k = i then x else 0 := by
  refine ⟨buf.set i (buf[i] + x), ?_, by simp, ?_⟩
  · unfold bump; rw [List.getElem?_eq_getElem h]
  · intro k
    by_cases hk : k = i
    · subst hk; simp [h]
    · rw [if_neg hk, add_zero, List.getD_eq_getElem?_getD, List.getElem?_set_ne (Ne.symm hk), ← List.getD_eq_getElem?_getD]

/-- The values of `l` placed from position `o` on. -/
def placed (o : Nat) (l : List K) (k : Nat) : K := if o ≤ k then l.getD (k - o) 0 else 0

theorem placed_cons (o : Nat) (x : K) (l : List K) (k : Nat) : placed o (x :: l) k = (if k = o then x else 0) + placed (o + 1) l k := by
  unfold placed
  rcases lt_trichotomy k o with h | h | h
  · rw [if_neg (by omega), if_neg (by omega), if_neg (by omega), add_zero]
  · subst h; simp
  · rw [if_pos (by omega), if_neg (by omega), if_pos (by omega), zero_add]
    obtain ⟨d, rfl⟩ : ∃ d, k = o + 1 + d := ⟨k - (o + 1), by omega⟩
    rw [show o + 1 + d - o = d + 1 by omega, show o + 1 + d - (o + 1) = d by omega]
    simp

theorem placed_nil (o k : Nat) : placed o ([] : List K) k = 0 := by simp [placed]

/-- The contribution of every connection of a cell is defined, with values `x`. -/
def Spec.Contribs (P : Problem K) (x : Nat → Nat → Contrib K) : Prop :=
  ∀ c, c < P.grid.nc → ∀ f ∈ Spec.conns P.grid c,
    fluxConnection P.st P.dt (P.faceflux f) (P.g0 f) c f (P.grid.faceCells f).1.toNat (P.grid.faceCells f).2.toNat = some (x c f)

theorem contribLoop_spec (P : Problem K) (c : Nat) (x : Nat → Contrib K) (fs : List Nat)
    (hx : ∀ f ∈ fs.filter P.grid.internal,
      fluxConnection P.st P.dt (P.faceflux f) (P.g0 f) c f (P.grid.faceCells f).1.toNat (P.grid.faceCells f).2.toNat = some (x f))
    (o1 o2 oF : Nat) (buf : List K)
    (h1 : o1 + (fs.filter P.grid.internal).length ≤ buf.length) (h2 : o2 + (fs.filter P.grid.internal).length ≤ buf.length)
    (h3 : oF + (fs.filter P.grid.internal).length ≤ buf.length) :
    ∃ b, contribLoop P c fs o1 o2 oF buf = some (b, oF + (fs.filter P.grid.internal).length) ∧ b.length = buf.length ∧
      ∀ k, b.getD k 0 = buf.getD k 0 + placed o1 ((fs.filter P.grid.internal).map fun f => (x f).J1) k +
        placed o2 ((fs.filter P.grid.internal).map fun f => (x f).J2) k + placed oF ((fs.filter P.grid.internal).map fun f => (x f).F) k := by
  induction fs generalizing o1 o2 oF buf with
  | nil => exact ⟨buf, by simp [contribLoop], rfl, by simp [placed_nil]⟩
  | cons f fs ih =>
    by_cases h : P.grid.internal f = true
    · rw [List.filter_cons_of_pos h] at *
      rw [List.length_cons] at *
      obtain ⟨b1, e1, l1, v1⟩ := bump_spec buf o1 (x f).J1 (by omega)
      obtain ⟨b2, e2, l2, v2⟩ := bump_spec b1 o2 (x f).J2 (by omega)
      obtain ⟨b3, e3, l3, v3⟩ := bump_spec b2 oF (x f).F (by omega)
      obtain ⟨b, e, l, v⟩ := ih (fun f hf => hx f (List.mem_cons_of_mem _ hf)) (o1 + 1) (o2 + 1) (oF + 1) b3 (by omega) (by omega) (by omega)
      refine ⟨b, ?_, by omega, ?_⟩
      · unfold contribLoop
        rw [if_pos h]
        simp only [hx f (List.mem_cons_self ..), e1, e2, e3, bind, Option.bind, e]
        congr 2; omega
      · intro k
        rw [v, v3, v2, v1, List.map_cons, List.map_cons, List.map_cons, placed_cons, placed_cons, placed_cons]
        ring
    · rw [List.filter_cons_of_neg h] at *
      obtain ⟨b, e, l, v⟩ := ih hx o1 o2 oF buf h1 h2 h3
      refine ⟨b, ?_, l, v⟩
      unfold contribLoop
      rw [if_neg h, e]

theorem getD_to_get {buf : List K} {i : Nat} {v : K} (h : i < buf.length) (hv : buf.getD i 0 = v) : buf[i]? = some v := by
  rw [List.getElem?_eq_getElem h, ← hv]; simp [h]

theorem placed_at (o : Nat) (l : List K) (k : Nat) : placed o l (o + k) = l.getD k 0 := by
  unfold placed; rw [if_pos (by omega), show o + k - o = k by omega]

theorem placed_before (o : Nat) (l : List K) (k : Nat) (h : k < o) : placed o l k = 0 := by
  unfold placed; rw [if_neg (by omega)]

theorem placed_after (o : Nat) (l : List K) (k : Nat) (h : o + l.length ≤ k) : placed o l k = 0 := by
  unfold placed; rw [if_pos (by omega), List.getD_eq_getElem?_getD, List.getElem?_eq_none (by omega)]; rfl

/-- What the work buffer of a cell contains. -/
theorem cellContrib_spec (P : Problem K) (c : Nat) (x : Nat → Contrib K)
    (hx : ∀ f ∈ Spec.conns P.grid c,
      fluxConnection P.st P.dt (P.faceflux f) (P.g0 f) c f (P.grid.faceCells f).1.toNat (P.grid.faceCells f).2.toNat = some (x f)) :
    ∃ b, cellContrib P c = some ((Spec.conns P.grid c).length, b) ∧
      b[0]? = some (P.st.porevol c) ∧
      (∀ k, k < (Spec.conns P.grid c).length → b[0 + 1 + k]? = some (((Spec.conns P.grid c).map fun f => (x f).J1).getD k 0)) ∧
      (∀ k, k < (Spec.conns P.grid c).length →
        b[0 + (1 * (Spec.conns P.grid c).length + 1) * 1 + k]? = some (((Spec.conns P.grid c).map fun f => (x f).J2).getD k 0)) ∧
      (∀ k, k < (Spec.conns P.grid c).length + 2 → b[(2 * (Spec.conns P.grid c).length + 1) * 1 + k]? =
        some (((0 : K) :: ((Spec.conns P.grid c).map fun f => (x f).F) ++ [P.st.porevol c * P.st.ds c]).getD k 0)) := by
  set n := (Spec.conns P.grid c).length with hn
  have hlen : (P.grid.cellFaces c).filter P.grid.internal = Spec.conns P.grid c := rfl
  have hb0 : ((List.replicate (bufSize n 1) (0 : K)).set (offF n 1) 0).length = 3 * n + 3 := by simp [bufSize]; omega
  obtain ⟨b1, e1, l1, v1⟩ := contribLoop_spec P c x (P.grid.cellFaces c) hx (offJ1 n 1) (offJ2 n 1) (offF n 1 + 1)
    ((List.replicate (bufSize n 1) (0 : K)).set (offF n 1) 0)
    (by rw [hb0, hlen, ← hn]; simp [offJ1]; omega) (by rw [hb0, hlen, ← hn]; simp [offJ1, offJ2]; omega)
    (by rw [hb0, hlen, ← hn]; simp [offF]; omega)
  rw [hlen, ← hn] at e1
  rw [hlen] at v1
  rw [hb0] at l1
  obtain ⟨b2, e2, l2, v2⟩ := bump_spec b1 0 (P.st.porevol c) (by omega)
  obtain ⟨b3, e3, l3, v3⟩ := bump_spec b2 (offF n 1 + 1 + n) (P.st.porevol c * P.st.ds c) (by rw [l2, l1]; simp [offF]; omega)
  have z : ∀ k, ((List.replicate (bufSize n 1) (0 : K)).set (offF n 1) 0).getD k 0 = 0 := by
    intro k
    rw [List.getD_eq_getElem?_getD, List.getElem?_set]
    split
    · split <;> simp
    · rw [List.getElem?_replicate]; split <;> simp
  have v : ∀ k, b3.getD k 0 = placed 1 ((Spec.conns P.grid c).map fun f => (x f).J1) k + placed (1 + n) ((Spec.conns P.grid c).map fun f => (x f).J2) k +
      placed (2 * n + 2) ((Spec.conns P.grid c).map fun f => (x f).F) k + (if k = 0 then P.st.porevol c else 0) +
      (if k = 3 * n + 2 then P.st.porevol c * P.st.ds c else 0) := by
    intro k
    rw [v3, v2, v1, z]
    have a1 : offJ1 n 1 = 1 := by simp [offJ1]
    have a2 : offJ2 n 1 = 1 + n := by simp [offJ1, offJ2]
    have a3 : offF n 1 + 1 = 2 * n + 2 := by simp [offF]
    have a4 : 2 * n + 2 + n = 3 * n + 2 := by omega
    rw [a1, a2, a3, a4, zero_add]
  have ll : b3.length = 3 * n + 3 := by omega
  refine ⟨b3, ?_, ?_, ?_, ?_, ?_⟩
  · unfold cellContrib
    rw [countConn_eq, ← hn]
    simp only [e1, e2, e3, bind, Option.bind, pure]
  · apply getD_to_get (by omega)
    rw [v, placed_before _ _ _ (by omega), placed_before _ _ _ (by omega), placed_before _ _ _ (by omega), if_pos rfl, if_neg (by omega)]
    ring
  · intro k hk
    apply getD_to_get (by omega)
    rw [v, show 0 + 1 + k = 1 + k by omega, placed_at, placed_before _ _ _ (by omega), placed_before _ _ _ (by omega), if_neg (by omega), if_neg (by omega)]
    ring
  · intro k hk
    apply getD_to_get (by omega)
    rw [v, show 0 + (1 * n + 1) * 1 + k = 1 + n + k by omega, placed_at, placed_after 1 _ _ (by simp [← hn]), placed_before _ _ _ (by omega), if_neg (by omega),
      if_neg (by omega)]
    ring
  · intro k hk
    apply getD_to_get (by omega)
    rw [v, placed_after 1 _ _ (by simp [← hn]; omega), placed_after (1 + n) _ _ (by simp [← hn]; omega), if_neg (by omega)]
    rcases Nat.eq_zero_or_pos k with rfl | hk0
    · rw [placed_before _ _ _ (by omega), if_neg (by omega)]; simp
    · obtain ⟨j, rfl⟩ : ∃ j, k = j + 1 := ⟨k - 1, by omega⟩
      rw [show (2 * n + 1) * 1 + (j + 1) = 2 * n + 2 + j by omega, placed_at, List.cons_append, List.getD_cons_succ]
      by_cases hj : j < n
      · rw [if_neg (by omega), List.getD_eq_getElem?_getD, List.getD_eq_getElem?_getD, List.getElem?_append_left (by simpa [← hn] using hj)]; ring
      · have : j = n := by omega
        subst this
        rw [if_pos (by omega), List.getD_eq_getElem?_getD, List.getD_eq_getElem?_getD, List.getElem?_eq_none (by simp [← hn]),
          List.getElem?_append_right (by simp [← hn])]
        simp [← hn]

theorem other_nonneg (g : Grid) (c f : Nat) (h : (g.faceCells f).1 = (c : Int) ∨ (g.faceCells f).2 = (c : Int)) :
    g.other c f ≥ 0 ↔ g.internal f = true := by
  unfold Grid.other Grid.internal
  rw [Bool.and_eq_true, decide_eq_true_eq, decide_eq_true_eq]
  by_cases h1 : (g.faceCells f).1 = (c : Int)
  · rw [if_pos h1, h1]; simp
  · rw [if_neg h1]
    rcases h with h | h
    · exact absurd h h1
    · rw [h]; simp

/-- Row `c` of the matrix receives, at column `b`. -/
def Spec.rowSum (g : Grid) (c : Nat) (x : Nat → Contrib K) (fs : List Nat) (b : Nat) : K :=
  (fs.map fun f => (if b = c then (x f).J1 else 0) + (if (b : Int) = g.other c f then (x f).J2 else 0)).sum

theorem asmLoop_spec (g : Grid) (c : Nat) (hc : c < g.nc) (x : Nat → Contrib K) (buf : List K) (fs : List Nat)
    (hsub : ∀ f ∈ fs, f ∈ g.cellFaces c ∧ ((g.faceCells f).1 = (c : Int) ∨ (g.faceCells f).2 = (c : Int))) (o1 o2 : Nat) (S : Sys K)
    (h1 : ∀ k, k < (fs.filter g.internal).length → buf[o1 + k]? = some (((fs.filter g.internal).map fun f => (x f).J1).getD k 0))
    (h2 : ∀ k, k < (fs.filter g.internal).length → buf[o2 + k]? = some (((fs.filter g.internal).map fun f => (x f).J2).getD k 0)) :
    ∃ S', asmLoop g c buf fs o1 o2 S = some S' ∧ S'.res = S.res ∧
      ∀ a b, S'.mat a b = S.mat a b + if a = c then Spec.rowSum g c x (fs.filter g.internal) b else 0 := by
  induction fs generalizing o1 o2 S with
  | nil => exact ⟨S, rfl, rfl, by simp [Spec.rowSum]⟩
  | cons f fs ih =>
    obtain ⟨hf, hmine⟩ := hsub f (List.mem_cons_self ..)
    have hiff := other_nonneg g c f hmine
    by_cases h : g.internal f = true
    · rw [List.filter_cons_of_pos h] at *
      rw [List.length_cons] at *
      have v1 : buf[o1]? = some (x f).J1 := by simpa using h1 0 (by omega)
      have v2 : buf[o2]? = some (x f).J2 := by simpa using h2 0 (by omega)
      have m1 : (c : Int) ∈ rowStructure g c := by rw [rowStructure_eq]; simp
      have m2 : g.other c f ∈ rowStructure g c := by
        rw [rowStructure_eq]
        exact List.mem_cons_of_mem _ (List.mem_map_of_mem (by unfold Spec.conns; rw [List.mem_filter]; exact ⟨hf, h⟩))
      obtain ⟨S', e, r, v⟩ := ih (fun f hf => hsub f (List.mem_cons_of_mem _ hf)) (o1 + 1) (o2 + 1)
        ⟨fun a b => if a = c ∧ (b : Int) = g.other c f then (if a = c ∧ (b : Int) = (c : Int) then S.mat a b + (x f).J1 else S.mat a b) + (x f).J2
          else (if a = c ∧ (b : Int) = (c : Int) then S.mat a b + (x f).J1 else S.mat a b), S.res⟩
        (fun k hk => by have := h1 (k + 1) (by omega); rw [show o1 + (k + 1) = o1 + 1 + k by omega] at this; simpa using this)
        (fun k hk => by have := h2 (k + 1) (by omega); rw [show o2 + (k + 1) = o2 + 1 + k by omega] at this; simpa using this)
      refine ⟨S', ?_, r, ?_⟩
      · unfold asmLoop
        rw [if_pos (hiff.2 h)]
        simp only [v1, v2, bind, Option.bind, addMat, if_pos (And.intro hc m1), if_pos (And.intro hc m2)]
        exact e
      · intro a b
        rw [v]
        simp only [Spec.rowSum, List.map_cons, List.sum_cons]
        by_cases ha : a = c
        · simp only [ha, true_and, if_true, Nat.cast_inj]
          by_cases hb : b = c
          · by_cases ho : (b : Int) = g.other c f
            · simp only [if_pos hb, if_pos ho]; ring
            · simp only [if_pos hb, if_neg ho]; ring
          · by_cases ho : (b : Int) = g.other c f
            · simp only [if_neg hb, if_pos ho]; ring
            · simp only [if_neg hb, if_neg ho]; ring
        · simp [ha]
    · rw [List.filter_cons_of_neg h] at *
      obtain ⟨S', e, r, v⟩ := ih (fun f hf => hsub f (List.mem_cons_of_mem _ hf)) o1 o2 S h1 h2
      refine ⟨S', ?_, r, v⟩
      unfold asmLoop
      rw [if_neg (fun hh => h (hiff.1 hh)), e]

theorem resLoop_spec (g : Grid) (c : Nat) (hc : c < g.nc) (buf : List K) (l : List K) (oF : Nat) (S : Sys K)
    (h : ∀ k, k < l.length → buf[oF + k]? = some (l.getD k 0)) :
    ∃ S', resLoop g c buf l.length oF S = some S' ∧ S'.mat = S.mat ∧ ∀ a, S'.res a = S.res a + if a = c then l.sum else 0 := by
  induction l generalizing oF S with
  | nil => exact ⟨S, rfl, rfl, by simp⟩
  | cons v l ih =>
    have v1 : buf[oF]? = some v := by simpa using h 0 (by simp)
    obtain ⟨S', e, r, w⟩ := ih (oF + 1) { S with res := fun a => if a = c then S.res a + v else S.res a }
      (fun k hk => by have := h (k + 1) (by simpa using hk); rw [show oF + (k + 1) = oF + 1 + k by omega] at this; simpa using this)
    refine ⟨S', ?_, r, ?_⟩
    · rw [List.length_cons]
      unfold resLoop
      simp only [v1, bind, Option.bind, addRes, if_pos hc]
      exact e
    · intro a
      rw [w, List.sum_cons]
      by_cases ha : a = c
      · simp only [ha, if_true]; ring
      · simp [ha]

/-- Residual and matrix of cell `c` as they should be, without sources. -/
def Spec.cellRes (P : Problem K) (x : Nat → Nat → Contrib K) (c : Nat) : K :=
  ((Spec.conns P.grid c).map fun f => (x c f).F).sum + P.st.porevol c * P.st.ds c

def Spec.cellMat (P : Problem K) (x : Nat → Nat → Contrib K) (c b : Nat) : K :=
  Spec.rowSum P.grid c (x c) (Spec.conns P.grid c) b + if b = c then P.st.porevol c else 0

theorem assembleCell_spec (P : Problem K) (hg : Spec.WellFormed P.grid) (x : Nat → Nat → Contrib K) (hx : Spec.Contribs P x) (c : Nat) (hc : c < P.grid.nc)
    (S : Sys K) :
    ∃ n buf S', cellContrib P c = some (n, buf) ∧ assembleCell P.grid c n buf S = some S' ∧
      (∀ a b, S'.mat a b = S.mat a b + if a = c then Spec.cellMat P x c b else 0) ∧
      ∀ a, S'.res a = S.res a + if a = c then Spec.cellRes P x c else 0 := by
  obtain ⟨b, e, b0, b1, b2, b3⟩ := cellContrib_spec P c (x c) (hx c hc)
  have m1 : (c : Int) ∈ rowStructure P.grid c := by rw [rowStructure_eq]; simp
  obtain ⟨S1, e1, r1, v1⟩ := asmLoop_spec P.grid c hc (x c) b (P.grid.cellFaces c) (fun f hf => ⟨hf, hg.mine c f hc hf⟩) (0 + 1)
    (0 + (1 * (Spec.conns P.grid c).length + 1) * 1)
    { S with mat := fun a q => if a = c ∧ (q : Int) = (c : Int) then S.mat a q + P.st.porevol c else S.mat a q } b1 b2
  obtain ⟨S2, e2, r2, v2⟩ := resLoop_spec P.grid c hc b ((0 : K) :: ((Spec.conns P.grid c).map fun f => (x c f).F) ++ [P.st.porevol c * P.st.ds c])
    ((2 * (Spec.conns P.grid c).length + 1) * 1) S1 (fun k hk => b3 k (by simpa using hk))
  refine ⟨_, b, S2, e, ?_, ?_, ?_⟩
  · unfold assembleCell
    simp only [b0, bind, Option.bind, addMat, if_pos (And.intro hc m1), e1]
    rw [← e2]; congr 1; simp
  · intro a q
    rw [r2, v1]
    have : (P.grid.cellFaces c).filter P.grid.internal = Spec.conns P.grid c := rfl
    rw [this]
    simp only [Spec.cellMat, Nat.cast_inj]
    by_cases ha : a = c
    · by_cases hq : q = c
      · simp only [ha, hq, and_self, if_true]; ring
      · simp only [ha, hq, and_false, if_true, if_false]; ring
    · simp [ha]
  · intro a
    rw [v2, r1]
    simp [Spec.cellRes]

theorem assembleCells_spec (P : Problem K) (hg : Spec.WellFormed P.grid) (x : Nat → Nat → Contrib K) (hx : Spec.Contribs P x) (cs : List Nat)
    (hcs : ∀ c ∈ cs, c < P.grid.nc) (hn : cs.Nodup) (S : Sys K) :
    ∃ S', assembleCells P cs S = some S' ∧ (∀ a b, S'.mat a b = S.mat a b + if a ∈ cs then Spec.cellMat P x a b else 0) ∧
      ∀ a, S'.res a = S.res a + if a ∈ cs then Spec.cellRes P x a else 0 := by
  induction cs generalizing S with
  | nil => exact ⟨S, rfl, by simp, by simp⟩
  | cons c cs ih =>
    obtain ⟨n, buf, S1, e1, e2, v1, w1⟩ := assembleCell_spec P hg x hx c (hcs c (List.mem_cons_self ..)) S
    rw [List.nodup_cons] at hn
    obtain ⟨S2, e3, v2, w2⟩ := ih (fun d hd => hcs d (List.mem_cons_of_mem _ hd)) hn.2 S1
    refine ⟨S2, ?_, ?_, ?_⟩
    · unfold assembleCells
      simp only [e1, e2, bind, Option.bind, e3]
    · intro a b
      rw [v2, v1]
      by_cases ha : a = c
      · subst ha; simp [hn.1]
      · simp [ha]
    · intro a
      rw [w2, w1]
      by_cases ha : a = c
      · subst ha; simp [hn.1]
      · simp [ha]

/-- The source contributions are defined, with Jacobian and residual parts `y`. -/
def Spec.Sources (P : Problem K) (y : Nat × K × K → K × K) : Prop :=
  ∀ s ∈ P.src, s.1 < P.grid.nc ∧ sourceTerms P.st P.dt s.2.1 s.2.2 s.1 = some (y s)

theorem assembleSources_spec (P : Problem K) (y : Nat × K × K → K × K) (ss : List (Nat × K × K)) (hb : ss ≠ [] → 0 < P.grid.nc)
    (hy : ∀ s ∈ ss, s.1 < P.grid.nc ∧ sourceTerms P.st P.dt s.2.1 s.2.2 s.1 = some (y s)) (S : Sys K) :
    ∃ S', assembleSources P (decide (0 < P.grid.nc)) ss S = some S' ∧
      (∀ a b, S'.mat a b = S.mat a b + if b = a then ((ss.filter fun s => s.1 = a).map fun s => (y s).1).sum else 0) ∧
      ∀ a, S'.res a = S.res a + ((ss.filter fun s => s.1 = a).map fun s => (y s).2).sum := by
  induction ss generalizing S with
  | nil => exact ⟨S, rfl, by simp, by simp⟩
  | cons s ss ih =>
    obtain ⟨hc, hs⟩ := hy s (List.mem_cons_self ..)
    have hpos := hb (by simp)
    have m1 : (s.1 : Int) ∈ rowStructure P.grid s.1 := by rw [rowStructure_eq]; simp
    obtain ⟨S', e, v, w⟩ := ih (fun _ => hpos) (fun t ht => hy t (List.mem_cons_of_mem _ ht))
      ⟨fun a b => if a = s.1 ∧ (b : Int) = (s.1 : Int) then S.mat a b + (y s).1 else S.mat a b, fun a => if a = s.1 then S.res a + (y s).2 else S.res a⟩
    refine ⟨S', ?_, ?_, ?_⟩
    · unfold assembleSources
      rw [if_pos (by simpa using hpos)]
      simp only [hs, bind, Option.bind, addMat, addRes, if_pos (And.intro hc m1), if_pos hc]
      exact e
    · intro a b
      rw [v]
      by_cases ha : s.1 = a
      · rw [List.filter_cons_of_pos (by simpa using ha), List.map_cons, List.sum_cons]
        by_cases hba : b = a
        · simp only [ha, hba, and_self, if_true]; ring
        · simp only [ha, hba, Nat.cast_inj, and_false, if_false]
      · rw [List.filter_cons_of_neg (by simpa using ha)]
        simp [Ne.symm ha]
    · intro a
      rw [w]
      by_cases ha : s.1 = a
      · rw [List.filter_cons_of_pos (by simpa using ha), List.map_cons, List.sum_cons]
        simp only [ha, if_true]; ring
      · rw [List.filter_cons_of_neg (by simpa using ha)]
        simp [Ne.symm ha]

/-- **C22** Assembly never leaves its work buffers or the reserved matrix pattern, and the system it builds is the one intended: the residual of a cell is the sum of the fluxes over its
connections plus the accumulation term and the sources in the cell; its matrix row has the own-cell derivatives, the pore volume and the source derivatives on the diagonal and the
neighbour derivatives in the columns of the neighbours. -/
theorem C22_assemble (P : Problem K) (hg : Spec.WellFormed P.grid) (x : Nat → Nat → Contrib K) (hx : Spec.Contribs P x) (y : Nat × K × K → K × K)
    (hy : Spec.Sources P y) :
    ∃ S, assemble P = some S ∧
      (∀ c, c < P.grid.nc → S.res c = ((Spec.conns P.grid c).map fun f => (x c f).F).sum + P.st.porevol c * P.st.ds c +
        ((P.src.filter fun s => s.1 = c).map fun s => (y s).2).sum) ∧
      (∀ c b, c < P.grid.nc → S.mat c b =
        ((Spec.conns P.grid c).map fun f => (if b = c then (x c f).J1 else 0) + (if (b : Int) = P.grid.other c f then (x c f).J2 else 0)).sum +
        (if b = c then P.st.porevol c else 0) + (if b = c then ((P.src.filter fun s => s.1 = c).map fun s => (y s).1).sum else 0)) := by
  obtain ⟨S1, e1, v1, w1⟩ := assembleCells_spec P hg x hx (List.range P.grid.nc) (by simp) List.nodup_range ⟨fun _ _ => 0, fun _ => 0⟩
  obtain ⟨S2, e2, v2, w2⟩ := assembleSources_spec P y P.src (fun h => by
    obtain ⟨s, hs⟩ := List.exists_mem_of_ne_nil _ h
    have := (hy s hs).1; omega) hy S1
  refine ⟨S2, ?_, ?_, ?_⟩
  · unfold assemble
    simp only [e1, bind, Option.bind, e2]
  · intro c hc
    rw [w2, w1]
    simp [hc, Spec.cellRes]
  · intro c b hc
    rw [v2, v1]
    simp only [List.mem_range, hc, if_true, zero_add, Spec.cellMat, Spec.rowSum]

open Finset in
/-- **C19** In a conforming grid the residuals of all cells add up to accumulation and sources: the internal fluxes cancel. -/
theorem C19_total (P : Problem K) (hg : Spec.Conforming P.grid) (x : Nat → Nat → Contrib K) (hx : Spec.Contribs P x) (y : Nat × K × K → K × K)
    (hy : Spec.Sources P y) :
    ∃ S, assemble P = some S ∧
      ∑ c ∈ range P.grid.nc, S.res c = ∑ c ∈ range P.grid.nc, P.st.porevol c * P.st.ds c + (P.src.map fun s => (y s).2).sum := by
  obtain ⟨S, e, hr, _⟩ := C22_assemble P hg.toWellFormed x hx y hy
  refine ⟨S, e, ?_⟩
  rw [sum_congr rfl (fun c hc => hr c (mem_range.1 hc)), sum_add_distrib, sum_add_distrib]
  have hsrc : ∑ c ∈ range P.grid.nc, ((P.src.filter fun s => s.1 = c).map fun s => (y s).2).sum = (P.src.map fun s => (y s).2).sum := by
    have hlt : ∀ s ∈ P.src, s.1 < P.grid.nc := fun s hs => (hy s hs).1
    clear hy hr e
    generalize P.src = l at hlt
    induction l with
    | nil => simp
    | cons s ss ih =>
      have hs := hlt s (List.mem_cons_self ..)
      rw [List.map_cons, List.sum_cons, ← ih (fun t ht => hlt t (List.mem_cons_of_mem _ ht))]
      have : ∀ c, (((s :: ss).filter fun s => s.1 = c).map fun s => (y s).2).sum =
          (if c = s.1 then (y s).2 else 0) + ((ss.filter fun s => s.1 = c).map fun s => (y s).2).sum := by
        intro c
        by_cases h : s.1 = c
        · rw [List.filter_cons_of_pos (by simpa using h), List.map_cons, List.sum_cons, if_pos h.symm]
        · rw [List.filter_cons_of_neg (by simpa using h), if_neg (Ne.symm h), zero_add]
      simp only [this, sum_add_distrib]
      rw [sum_ite_eq', if_pos (mem_range.2 hs)]
  rw [hsrc]
  have hzero : ∑ c ∈ range P.grid.nc, ((Spec.conns P.grid c).map fun f => (x c f).F).sum = 0 := by
    -- all faces that occur
    set A := (range P.grid.nc).biUnion fun c => (Spec.conns P.grid c).toFinset with hA
    have step : ∀ c ∈ range P.grid.nc, ((Spec.conns P.grid c).map fun f => (x c f).F).sum = ∑ f ∈ A, (Spec.conns P.grid c).count f • (x c f).F := by
      intro c hc
      rw [sum_list_map_count]
      apply sum_subset
      · intro f hf; rw [hA, mem_biUnion]; exact ⟨c, hc, hf⟩
      · intro f _ hf
        rw [List.mem_toFinset] at hf
        rw [List.count_eq_zero_of_not_mem hf, zero_nsmul]
    rw [sum_congr rfl step, sum_comm]
    apply sum_eq_zero
    intro f hf
    rw [hA, mem_biUnion] at hf
    obtain ⟨c0, hc0, hf0⟩ := hf
    rw [List.mem_toFinset] at hf0
    have hint : P.grid.internal f = true := by unfold Spec.conns at hf0; exact (List.mem_filter.1 hf0).2
    unfold Grid.internal at hint
    rw [Bool.and_eq_true, decide_eq_true_eq, decide_eq_true_eq] at hint
    obtain ⟨a, ha⟩ := Int.eq_ofNat_of_zero_le hint.1
    obtain ⟨b, hb⟩ := Int.eq_ofNat_of_zero_le hint.2
    have hv := hg.valid f
    have hab : a ≠ b := by
      have := hg.distinct f hint.1
      rw [ha, hb] at this
      exact fun h => this (by rw [h])
    have hI : Spec.Interior P.grid f a b := ⟨by rw [← ha, ← hb], by rw [ha] at hv; exact_mod_cast hv.1, by rw [hb] at hv; exact_mod_cast hv.2, hab⟩
    have hcount : ∀ c ∈ range P.grid.nc, (Spec.conns P.grid c).count f • (x c f).F = (if c = a then (x a f).F else 0) + (if c = b then (x b f).F else 0) := by
      intro c hc
      have hint' : P.grid.internal f = true := by unfold Grid.internal; simp [hint.1, hint.2]
      have : (Spec.conns P.grid c).count f = (P.grid.cellFaces c).count f := by
        unfold Spec.conns; exact List.count_filter hint'
      rw [this, hg.both f a b hI c (mem_range.1 hc)]
      by_cases h1 : c = a
      · subst h1; simp [hab]
      · by_cases h2 : c = b
        · subst h2; simp [h1]
        · simp [h1, h2]
    rw [sum_congr rfl hcount, sum_add_distrib, sum_ite_eq', sum_ite_eq', if_pos (mem_range.2 hI.2.1), if_pos (mem_range.2 hI.2.2.1)]
    have conn : ∀ c, c < P.grid.nc → (c = a ∨ c = b) → f ∈ Spec.conns P.grid c := by
      intro c hc hcab
      have h1 := hg.both f a b hI c hc
      rw [if_pos hcab] at h1
      have hint' : P.grid.internal f = true := by unfold Grid.internal; simp [hint.1, hint.2]
      unfold Spec.conns
      rw [List.mem_filter]
      exact ⟨List.count_pos_iff.1 (by omega), hint'⟩
    have ea := hx a hI.2.1 f (conn a hI.2.1 (Or.inl rfl))
    have eb := hx b hI.2.2.1 f (conn b hI.2.2.1 (Or.inr rfl))
    rw [ha, hb] at ea eb
    exact C19_cancel P.st P.dt (P.faceflux f) (P.g0 f) f a b hab _ _ ea eb
  rw [hzero, zero_add]

end

/-! ### A case that meets the hypotheses -/

/-- Three cells in a row, with the end faces 0 and 3 and the inner faces 1 and 2. -/
def exGrid : Grid where
  nc := 3
  nf := 4
  cellFaces c := [c, c + 1]
  faceCells f := match f with
    | 0 => (-1, 0)
    | 1 => (0, 1)
    | 2 => (1, 2)
    | _ => (2, -1)

/-- Different mobilities in the three cells, flow to the right, a driving force to the left, injection in cell 0 and production in cell 2. -/
def exProblem : Problem ℚ where
  grid := exGrid
  st := { drho := 1, mob := fun c => (1 + c, 3 - c), dmob := fun _ => (1, -1), porevol := fun c => 2 + c, dg := fun _ => 0, ds := fun c => c / 10
          pc := fun c => 1 - c / 4, dpc := fun _ => -1 / 4, trans := fun _ => 2 }
  dt := 1 / 2
  faceflux _ := 3
  g0 _ := -5
  src := [(0, 3, 1), (2, -3, 0)]

theorem exGrid_wf : Spec.WellFormed exProblem.grid := by
  constructor
  · intro c f hc hf
    have : c = 0 ∨ c = 1 ∨ c = 2 := by have : c < 3 := hc; omega
    rcases this with rfl | rfl | rfl <;> · simp [exProblem, exGrid] at hf ⊢; rcases hf with rfl | rfl <;> simp
  · intro f
    match f with
    | 0 => decide
    | 1 => decide
    | 2 => decide
    | n + 3 => exact (by decide : ((2 : Int) < 3) ∧ ((-1 : Int) < 3))

theorem exGrid_conf : Spec.Conforming exProblem.grid := by
  refine ⟨exGrid_wf, ?_, ?_⟩
  · intro f
    match f with
    | 0 => decide
    | 1 => decide
    | 2 => decide
    | n + 3 => intro _; exact (by decide : (2 : Int) ≠ -1)
  · intro f a b hI c hc
    have hc3 : c = 0 ∨ c = 1 ∨ c = 2 := by have : c < 3 := hc; omega
    match f with
    | 0 => have := congrArg Prod.fst hI.1; simp [exProblem, exGrid] at this
    | 1 =>
      have h1 := congrArg Prod.fst hI.1; have h2 := congrArg Prod.snd hI.1
      have k1 : a = 0 := by simp [exProblem, exGrid] at h1; omega
      have k2 : b = 1 := by simp [exProblem, exGrid] at h2; omega
      subst k1 k2; rcases hc3 with rfl | rfl | rfl <;> decide
    | 2 =>
      have h1 := congrArg Prod.fst hI.1; have h2 := congrArg Prod.snd hI.1
      have k1 : a = 1 := by simp [exProblem, exGrid] at h1; omega
      have k2 : b = 2 := by simp [exProblem, exGrid] at h2; omega
      subst k1 k2; rcases hc3 with rfl | rfl | rfl <;> decide
    | n + 3 => have := congrArg Prod.snd hI.1; simp [exProblem, exGrid] at this

example : (assemble exProblem).isSome = true ∧
    ((assemble exProblem).map fun S => S.res 0 + S.res 1 + S.res 2) = some (2 * 0 + 3 * (1 / 10) + 4 * (2 / 10) + (-(3 / 2) + 3 / 2 * (3 / 4))) := by
  decide +kernel

/-- The Jacobian of a row is different from zero exactly in the columns of the cell and its neighbours. -/
example : ((assemble exProblem).map fun S => decide (S.mat 0 1 ≠ 0) && decide (S.mat 0 2 = 0)) = some true := by decide +kernel

end Verif.Implicit
