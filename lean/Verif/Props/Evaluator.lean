import Verif.Spec.Evaluator
import Verif.Props.Dense
import Verif.Props.Mimetic
import Verif.Lemmas.Pattern

/-!
C113: the inner product evaluators keep the cells apart.
-/

namespace Verif.Evaluator

open Verif.Dense Verif.Mimetic

section

variable {K : Type} [Field K] {dim : Nat}

/-! ### filling matrices -/

theorem rep_wf {A : FullMatrix K} {r c : Nat} {M : Matrix (Fin r) (Fin c) K} (h : Represents A M) : WF A := by
  unfold WF
  rw [h.size_eq, h.rows_eq, h.cols_eq]

theorem rep_set {A : FullMatrix K} {r c : Nat} {M : Matrix (Fin r) (Fin c) K} (h : Represents A M) (i : Fin r) (j : Fin c) (v : K) :
    ∃ A', A.set i j v = some A' ∧ A'.ord = A.ord ∧ Represents A' (Matrix.of fun a b => if a = i ∧ b = j then v else M a b) := by
  obtain ⟨A', h1, h2, h3, h4, h5, h6, h7⟩ := FullMatrix.set_spec A (rep_wf h) (r := i) (c := j) (by rw [h.rows_eq]; exact i.2) (by rw [h.cols_eq]; exact j.2) v
  refine ⟨A', h1, h4, h2.trans h.rows_eq, h3.trans h.cols_eq, ?_, fun a b => ?_⟩
  · rw [h5, h2, h3, h.rows_eq, h.cols_eq]
  · by_cases e : a = i ∧ b = j
    · obtain ⟨rfl, rfl⟩ := e
      simpa using h6
    · rw [h7 a b (fun he => e (by simpa [Prod.ext_iff, Fin.ext_iff] using he)), h.entry]
      simp [e]

theorem rep_setRow {A : FullMatrix K} {r : Nat} {M : Matrix (Fin r) (Fin dim) K} (h : Represents A M) (i : Fin r) (v : Fin dim → K) :
    ∃ A', setRow A i v = some A' ∧ A'.ord = A.ord ∧ Represents A' (Matrix.of fun a b => if a = i then v b else M a b) := by
  have key : ∀ (l : List (Fin dim)) (A : FullMatrix K) (M : Matrix (Fin r) (Fin dim) K), Represents A M →
      ∃ A', l.foldlM (fun (X : FullMatrix K) j => X.set i j.val (v j)) A = some A' ∧ A'.ord = A.ord ∧
        Represents A' (Matrix.of fun a b => if a = i ∧ b ∈ l then v b else M a b) := by
    intro l
    induction l with
    | nil => intro A M h; exact ⟨A, rfl, rfl, represents_congr h fun a b => by simp⟩
    | cons j l ih =>
      intro A M h
      obtain ⟨B, h1, h2, h3⟩ := rep_set h i j (v j)
      obtain ⟨C, g1, g2, g3⟩ := ih B _ h3
      refine ⟨C, by rw [List.foldlM_cons, h1]; exact g1, g2.trans h2, represents_congr g3 fun a b => ?_⟩
      by_cases ha : a = i
      · by_cases hb : b ∈ l
        · simp [ha, hb]
        · by_cases hj : b = j
          · simp [ha, hj]
          · simp [ha, hb, hj]
      · simp [ha]
  obtain ⟨A', h1, h2, h3⟩ := key (List.finRange dim) A M h
  exact ⟨A', h1, h2, represents_congr h3 fun a b => by simp⟩

theorem rep_cleared (w : List K) (r c : Nat) (h : r * c ≤ w.length) :
    ∃ A, cleared w r c = some A ∧ A.ord = .fortran ∧ Represents A (0 : Matrix (Fin r) (Fin c) K) := by
  unfold cleared view
  rw [if_pos h]
  obtain ⟨Z, h1, h2, h3⟩ := zero_spec (A := (⟨.fortran, r, c, w.take (r * c)⟩ : FullMatrix K)) (m := r) (n := c)
    (by simp [WF, h]) rfl rfl
  exact ⟨Z, h1, h2, h3⟩

/-- The matrices after the loop over the faces. -/
theorem faces_spec {n : Nat} (c : Cell K dim n) {s : Filled K} (o1 : s.eye.ord = .fortran) (o2 : s.fa.ord = .fortran) (o3 : s.n.ord = .fortran)
    (o4 : s.c.ord = .fortran) (h1 : Represents s.eye (0 : Matrix (Fin n) (Fin n) K)) (h2 : Represents s.fa (0 : Matrix (Fin n) (Fin n) K))
    (h3 : Represents s.n (0 : Matrix (Fin n) (Fin dim) K)) (h4 : Represents s.c (0 : Matrix (Fin n) (Fin dim) K)) :
    ∃ w, faces c n s = some w ∧ w.eye.ord = .fortran ∧ w.fa.ord = .fortran ∧ w.n.ord = .fortran ∧ w.c.ord = .fortran ∧
      Represents w.eye (1 : Matrix (Fin n) (Fin n) K) ∧ Represents w.fa (Matrix.diagonal fun i => (c.face i).area) ∧
      Represents w.n (Matrix.of (nmat c)) ∧ Represents w.c (Matrix.of (cmat c)) := by
  have key : ∀ (l : List (Fin n)) (s : Filled K) (M1 M2 : Matrix (Fin n) (Fin n) K) (M3 M4 : Matrix (Fin n) (Fin dim) K),
      s.eye.ord = .fortran → s.fa.ord = .fortran → s.n.ord = .fortran → s.c.ord = .fortran →
      Represents s.eye M1 → Represents s.fa M2 → Represents s.n M3 → Represents s.c M4 →
      ∃ w, l.foldlM (faceStep c) s = some w ∧ w.eye.ord = .fortran ∧ w.fa.ord = .fortran ∧ w.n.ord = .fortran ∧ w.c.ord = .fortran ∧
        Represents w.eye (Matrix.of fun a b => if a = b ∧ a ∈ l then 1 else M1 a b) ∧
        Represents w.fa (Matrix.of fun a b => if a = b ∧ a ∈ l then (c.face a).area else M2 a b) ∧
        Represents w.n (Matrix.of fun a b => if a ∈ l then nmat c a b else M3 a b) ∧
        Represents w.c (Matrix.of fun a b => if a ∈ l then cmat c a b else M4 a b) := by
    intro l
    induction l with
    | nil =>
      intro s M1 M2 M3 M4 o1 o2 o3 o4 h1 h2 h3 h4
      exact ⟨s, rfl, o1, o2, o3, o4, represents_congr h1 fun _ _ => by simp, represents_congr h2 fun _ _ => by simp,
        represents_congr h3 fun _ _ => by simp, represents_congr h4 fun _ _ => by simp⟩
    | cons i l ih =>
      intro s M1 M2 M3 M4 o1 o2 o3 o4 h1 h2 h3 h4
      obtain ⟨A1, a1, b1, c1⟩ := rep_set h1 i i 1
      obtain ⟨A2, a2, b2, c2⟩ := rep_set h2 i i (c.face i).area
      obtain ⟨A3, a3, b3, c3⟩ := rep_setRow h3 i (nmat c i)
      obtain ⟨A4, a4, b4, c4⟩ := rep_setRow h4 i (cmat c i)
      have hstep : faceStep c s i = some ⟨A1, A2, A3, A4⟩ := by
        unfold faceStep
        rw [a1, a2]
        change (setRow s.n i.val (nmat c i)).bind (fun nn => (setRow s.c i.val (cmat c i)).bind fun cc => some (⟨A1, A2, nn, cc⟩ : Filled K)) = _
        rw [a3, a4]
        rfl
      obtain ⟨w, e0, e1, e2, e3, e4, f1, f2, f3, f4⟩ := ih ⟨A1, A2, A3, A4⟩ _ _ _ _ (b1.trans o1) (b2.trans o2) (b3.trans o3) (b4.trans o4) c1 c2 c3 c4
      refine ⟨w, by rw [List.foldlM_cons, hstep]; exact e0, e1, e2, e3, e4, represents_congr f1 fun a b => ?_, represents_congr f2 fun a b => ?_,
        represents_congr f3 fun a b => ?_, represents_congr f4 fun a b => ?_⟩
      · by_cases ha : a = i
        · subst ha
          by_cases hb : a = b <;> simp_all [eq_comm]
        · by_cases hb : a = b <;> by_cases hl : a ∈ l <;> simp_all
      · by_cases ha : a = i
        · subst ha
          by_cases hb : a = b <;> simp_all [eq_comm]
        · by_cases hb : a = b <;> by_cases hl : a ∈ l <;> simp_all
      · by_cases ha : a = i <;> by_cases hl : a ∈ l <;> simp_all
      · by_cases ha : a = i <;> by_cases hl : a ∈ l <;> simp_all
  obtain ⟨w, e0, e1, e2, e3, e4, f1, f2, f3, f4⟩ := key (List.finRange n) s 0 0 0 0 o1 o2 o3 o4 h1 h2 h3 h4
  refine ⟨w, by unfold faces; rw [e0]; simp, e1, e2, e3, e4, represents_congr f1 fun a b => ?_, represents_congr f2 fun a b => ?_,
    represents_congr f3 fun a b => ?_, represents_congr f4 fun a b => ?_⟩
  · by_cases h : a = b <;> simp [h, Matrix.one_apply]
  · by_cases h : a = b <;> simp [h, Matrix.diagonal_apply]
  · simp
  · simp

theorem mulNN_spec {m k n : Nat} {A B C : FullMatrix K} {MA : Matrix (Fin m) (Fin k) K}
    {MB : Matrix (Fin k) (Fin n) K} {MC : Matrix (Fin m) (Fin n) K}
    (hA : Represents A MA) (hB : Represents B MB) (hC : Represents C MC)
    (oA : A.ord = .fortran) (oC : C.ord = .fortran)
    (hm : 0 < m) (hk : 0 < k) (hn : 0 < n) (a1 a2 : K) :
    ∃ C', mulNN a1 A B a2 C = some C' ∧ C'.ord = .fortran ∧ Represents C' (a1 • (MA * MB) + a2 • MC) := by
  unfold mulNN
  exact C02_matMulAddNN hA hB hC oA oC hm hk hn a1 a2

theorem finish_spec {n : Nat} (hn : 0 < n) (hd : 0 < dim) (vol : K) {P N B T : FullMatrix K} {MP : Matrix (Fin dim) (Fin dim) K}
    {MN MT : Matrix (Fin n) (Fin dim) K} {MB : Matrix (Fin n) (Fin n) K} (hP : Represents P MP) (hN : Represents N MN) (hB : Represents B MB)
    (hT : Represents T MT) (oN : N.ord = .fortran) (oB : B.ord = .fortran) (oT : T.ord = .fortran) :
    ∃ B' T', finish dim vol P N B T = some (B', T') ∧ B'.ord = .fortran ∧ T'.ord = .fortran ∧
      Represents B' ((1 / vol) • ((MN * MP) * MN.transpose) + (6 * (∑ i, MP i i) / (dim : K) / vol) • MB) ∧ Represents T' (MN * MP) := by
  obtain ⟨T', t1, t2, t3⟩ := mulNN_spec hN hP hT oN oT hn hd hd 1 0
  have t4 : Represents T' (MN * MP) := represents_congr t3 fun a b => by simp
  obtain ⟨B', b1, b2, b3⟩ := C02_matMulAddNT t4 hN hB t2 oN oB hn hn (1 / vol) (6 * (∑ i, MP i i) / (dim : K) / vol)
  refine ⟨B', T', ?_, b2, t2, b3, t4⟩
  unfold finish
  rw [t1, C02_trace hP]
  change (FullMatrix.matMulAddNT (1 / vol) T' N (6 * (∑ i, MP i i) / (dim : K) / vol) B).bind (fun B => some (B, T')) = _
  rw [b1]
  rfl

theorem core_spec {n : Nat} (hn : 0 < n) (hd : 0 < dim) {orth : FullMatrix K → Option (FullMatrix K)} (c : Cell K dim n) {P : FullMatrix K}
    {MP : Fin dim → Fin dim → K} (hP : Represents P (Matrix.of MP)) {Q : Fin n → Fin dim → K} (ho : Orth orth c Q) (fa t1 t2 row : List K)
    (h1 : n * n ≤ fa.length) (h2 : n * dim ≤ t1.length) (h3 : n * dim ≤ t2.length) (h4 : n * n ≤ row.length) :
    ∃ B fa' t1' t2', core orth c P n fa t1 t2 row = some (B, fa', t1', t2') ∧ B.ord = .fortran ∧ Represents B (Matrix.of (inner c Q MP)) ∧
      fa'.length = fa.length ∧ t1'.length = t1.length ∧ t2'.length = t2.length := by
  obtain ⟨B0, a1, a2, a3⟩ := rep_cleared row n n h4
  obtain ⟨N0, b1, b2, b3⟩ := rep_cleared t1 n dim h2
  obtain ⟨C0, c1, c2, c3⟩ := rep_cleared t2 n dim h3
  obtain ⟨F0, d1, d2, d3⟩ := rep_cleared fa n n h1
  obtain ⟨w, e0, o1, o2, o3, o4, e1, e2, e3, e4⟩ := faces_spec c (s := ⟨B0, F0, N0, C0⟩) a2 d2 b2 c2 a3 d3 b3 c3
  obtain ⟨Q', q1, q2, q3⟩ := ho w.c o4 (represents_congr e4 fun _ _ => rfl)
  obtain ⟨B1, f1, f2, f3⟩ := C02_symmetricUpdate q3 e1 q2 o1 hn (by simp) (-1) 1
  obtain ⟨B2, g1, g2, g3⟩ := C02_symmetricUpdate2_partial e2 f3 o2 f2 hn (by
    rw [Matrix.transpose_add, Matrix.transpose_smul, Matrix.transpose_smul, Matrix.transpose_mul, Matrix.transpose_transpose, Matrix.transpose_one])
  obtain ⟨B3, T3, k1, k2, k3, k4, k5⟩ := finish_spec hn hd c.volume hP e3 g3 q3 o3 g2 q2
  have len : ∀ (w : List K) {r k : Nat} {A : FullMatrix K} {M : Matrix (Fin r) (Fin k) K}, Represents A M → r * k ≤ w.length →
      (back w A).length = w.length := fun w r k A M hA hw => by
    unfold back
    rw [List.length_append, List.length_drop, hA.size_eq]
    omega
  refine ⟨B3, _, _, _, ?_, k2, represents_congr k4 fun i j => ?_, len fa e2 h1, len t1 e3 h2, len t2 k5 h3⟩
  · unfold core
    simp only [a1, b1, c1, d1, e0, q1, f1, g1, k1, Option.bind_eq_bind, Option.bind_some]
  · simp only [Matrix.add_apply, Matrix.smul_apply, smul_eq_mul, Matrix.diagonal_transpose, Matrix.mul_diagonal, Matrix.diagonal_mul]
    simp only [Matrix.mul_apply, Matrix.transpose_apply, Matrix.of_apply, inner, second, trace, Matrix.one_apply]
    ring

/-! ### `buildStaticContrib` -/

theorem gravityRow_spec {n : Nat} (c : Cell K dim n) (v : Fin dim → K) :
    gravityRow c (List.ofFn v) = some (List.ofFn fun i => ∑ k, nmat c i k * v k) := by
  unfold gravityRow
  rw [List.ofFn_eq_map (f := fun i => ∑ k, nmat c i k * v k)]
  refine Verif.Pattern.mapM_total _ _ _ fun i _ => ?_
  have key : ∀ (l : List (Fin dim)) (a : K),
      l.foldlM (fun (a : K) j => ((List.ofFn v)[j.val]?).map fun k => a + (c.face i).normal j * (c.face i).area * k) a =
        some (a + (l.map fun j => nmat c i j * v j).sum) := by
    intro l
    induction l with
    | nil => intro a; simp
    | cons j l ih =>
      intro a
      have hj : (List.ofFn v)[j.val]? = some (v j) := by simp
      rw [List.foldlM_cons, hj]
      change l.foldlM _ (a + nmat c i j * v j) = _
      rw [ih, List.map_cons, List.sum_cons, add_assoc]
  rw [key, zero_add]
  congr 1

theorem map_length_get {l : List (List K)} {sz : List Nat} {f : Nat → Nat} (h : l.map List.length = sz.map f) {ci n : Nat} (hc : sz[ci]? = some n) :
    ∃ row, l[ci]? = some row ∧ row.length = f n := by
  have := congrArg (·[ci]?) h
  simp only [List.getElem?_map, hc, Option.map_some] at this
  obtain ⟨row, h1, h2⟩ := Option.map_eq_some_iff.mp this
  exact ⟨row, h1, h2⟩

theorem map_length_set {l : List (List K)} {sz : List Nat} {f : Nat → Nat} (h : l.map List.length = sz.map f) {ci n : Nat} (hc : sz[ci]? = some n)
    {row : List K} (hr : row.length = f n) : (l.set ci row).map List.length = sz.map f := by
  rw [List.map_set, h, hr]
  refine List.ext_getElem? fun k => ?_
  by_cases hk : ci = k
  · subst hk
    have : ci < (sz.map f).length := by
      rw [List.length_map]
      exact (List.getElem?_eq_some_iff.mp hc).1
    rw [List.getElem?_set_self this, List.getElem?_map, hc]
    rfl
  · rw [List.getElem?_set_ne hk]

theorem set_get_self {l : List (List K)} {ci : Nat} {row row' : List K} (h : l[ci]? = some row) : (l.set ci row')[ci]? = some row' := by
  rw [List.getElem?_set_self (List.getElem?_eq_some_iff.mp h).1]

/-- **C113.** `init` with the largest number of faces and `reserveMatrices` with all numbers make room for every cell. -/
theorem C113_ready (s : Iso K) (dim m : Nat) (sz : List Nat) (h : ∀ n ∈ sz, n ≤ m) : Ready dim sz ((s.init dim m).reserve sz) where
  fa := fun n hn => by
    simp only [Iso.reserve, Iso.init, List.length_replicate]
    exact Nat.mul_le_mul (h n hn) (h n hn)
  t1 := fun n hn => by
    simp only [Iso.reserve, Iso.init, List.length_replicate]
    exact Nat.mul_le_mul_right _ (h n hn)
  t2 := fun n hn => by
    simp only [Iso.reserve, Iso.init, List.length_replicate]
    exact Nat.mul_le_mul_right _ (h n hn)
  binv := by simp [Iso.reserve, Iso.init, Function.comp_def]
  gflux := by simp [Iso.reserve, Iso.init, Function.comp_def]

/-- **C113.** `buildStaticContrib`: whatever the work arrays and rows held before, the rows of the cell now hold the inverse inner product of the cell and its
fluxes of gravity; the rows of all other cells and the dynamic numbers are as before. -/
theorem C113_build (hd : 0 < dim) {orth : FullMatrix K → Option (FullMatrix K)} {sz : List Nat} {s : Iso K} (hs : Ready dim sz s) {ci n : Nat}
    (hc : sz[ci]? = some n) (hn : 0 < n) (c : Cell K dim n) {P : FullMatrix K} {MP : Fin dim → Fin dim → K} (hP : Represents P (Matrix.of MP))
    {Q : Fin n → Fin dim → K} (ho : Orth orth c Q) (g : Fin dim → K) :
    ∃ s', s.build orth ci c P g n = some s' ∧ Ready dim sz s' ∧ Holds s'.binv[ci]? (inner c Q MP) ∧
      s'.gflux[ci]? = some (List.ofFn fun i => ∑ k, (c.face i).normal k * (c.face i).area * ∑ l, MP k l * g l) ∧
      (∀ k, k ≠ ci → s'.binv[k]? = s.binv[k]? ∧ s'.gflux[k]? = s.gflux[k]?) ∧ s'.totmob = s.totmob ∧ s'.mobDens = s.mobDens := by
  obtain ⟨row, r1, r2⟩ := map_length_get hs.binv hc
  obtain ⟨grow, g1, g2⟩ := map_length_get (f := id) (by rw [hs.gflux]; simp) hc
  have hmem := List.mem_of_getElem? hc
  obtain ⟨B, fa', t1', t2', k1, k2, k3, k4, k5, k6⟩ := core_spec hn hd c hP ho s.fa s.t1 s.t2 row (hs.fa n hmem) (hs.t1 n hmem) (hs.t2 n hmem) (le_of_eq r2.symm)
  obtain ⟨kg, p1, p2⟩ := C02_prodVec hP (x := List.ofFn g) (v := g) rfl
  have hkg : kg = List.ofFn ((Matrix.of MP).mulVec g) := p2
  have hback : back row B = B.data := by
    unfold back
    rw [k3.size_eq, ← r2, List.drop_length, List.append_nil]
  have hdrop : grow.drop n = [] := by
    rw [List.drop_eq_nil_iff, g2]
    exact le_refl _
  refine ⟨⟨s.maxNf, s.totmob, s.mobDens, fa', t1', t2', s.binv.set ci (back row B),
      s.gflux.set ci ((List.ofFn fun i => ∑ k, nmat c i k * (Matrix.of MP).mulVec g k) ++ grow.drop n)⟩, ?_, ⟨fun m hm => ?_, fun m hm => ?_, fun m hm => ?_, ?_, ?_⟩, ?_, ?_, fun k hk => ⟨?_, ?_⟩, rfl, rfl⟩
  · unfold Iso.build
    have hlen : n ≤ grow.length := le_of_eq g2.symm
    simp only [r1, g1, p1, hkg, gravityRow_spec, k1, Option.bind_eq_bind, Option.bind_some, if_pos hlen]
  · exact le_of_le_of_eq (hs.fa m hm) k4.symm
  · exact le_of_le_of_eq (hs.t1 m hm) k5.symm
  · exact le_of_le_of_eq (hs.t2 m hm) k6.symm
  · exact map_length_set hs.binv hc (by rw [hback, k3.size_eq])
  · have := map_length_set (f := id) (l := s.gflux) (by rw [hs.gflux]; simp) hc
      (row := (List.ofFn fun i => ∑ k, nmat c i k * (Matrix.of MP).mulVec g k) ++ grow.drop n) (by simp [hdrop])
    simpa using this
  · refine ⟨_, set_get_self r1, ?_⟩
    rw [hback]
    have hB : B = ⟨.fortran, n, n, B.data⟩ := by
      cases B
      simp only at k2
      have e1 := k3.rows_eq
      have e2 := k3.cols_eq
      simp only at e1 e2
      rw [k2, e1, e2]
    rw [← hB]
    exact k3
  · change (s.gflux.set ci _)[ci]? = _
    rw [set_get_self g1, hdrop, List.append_nil]
    rfl
  · change (s.binv.set ci _)[k]? = _
    rw [List.getElem?_set_ne (Ne.symm hk)]
  · change (s.gflux.set ci _)[k]? = _
    rw [List.getElem?_set_ne (Ne.symm hk)]

/-- **C113.** `evaluate` gives the inverse inner product of the cell into any square matrix of the right size, whatever the work arrays held, and leaves what is
stored for the cells as it was. -/
theorem C113_evaluate (hd : 0 < dim) {orth : FullMatrix K → Option (FullMatrix K)} {s : Iso K} {n : Nat} (hn : 0 < n) (c : Cell K dim n) {P : FullMatrix K}
    {MP : Fin dim → Fin dim → K} (hP : Represents P (Matrix.of MP)) {Q : Fin n → Fin dim → K} (ho : Orth orth c Q) (out : FullMatrix K)
    (hm : (n : Int) ≤ s.maxNf) (h1 : s.fa.length = s.maxNf.toNat * s.maxNf.toNat) (h2 : s.t1.length = s.maxNf.toNat * dim)
    (h3 : s.t2.length = s.maxNf.toNat * dim) (o1 : out.ord = .fortran) (o2 : out.rows = n) (o3 : out.cols = n) (o4 : out.data.length = n * n) :
    ∃ B s', s.evaluate orth c P out = some (B, s') ∧ Represents B (Matrix.of (inner c Q MP)) ∧ s'.binv = s.binv ∧ s'.gflux = s.gflux ∧
      s'.totmob = s.totmob ∧ s'.mobDens = s.mobDens := by
  have hle : n ≤ s.maxNf.toNat := by omega
  obtain ⟨B, fa', t1', t2', k1, k2, k3, _⟩ := core_spec hn hd c hP ho s.fa s.t1 s.t2 out.data (h1 ▸ Nat.mul_le_mul hle hle)
    (h2 ▸ Nat.mul_le_mul_right _ hle) (h3 ▸ Nat.mul_le_mul_right _ hle) (le_of_eq o4.symm)
  refine ⟨B, { s with fa := fa', t1 := t1', t2 := t2' }, ?_, k3, rfl, rfl, rfl, rfl⟩
  unfold Iso.evaluate
  rw [if_pos ⟨by rw [o2]; exact hm, by rw [o2, o3], o1⟩, o2, k1]
  rfl

/-! ### histories -/

theorem calls_append (orth : FullMatrix K → Option (FullMatrix K)) (a b : List (Call K dim)) (s : Iso K) :
    calls orth (a ++ b) s = (calls orth a s).bind (calls orth b) := by
  unfold calls
  rw [List.foldlM_append]
  rfl

/-- Calls succeed and keep what they are not about. -/
theorem calls_ok (hd : 0 < dim) {orth : FullMatrix K → Option (FullMatrix K)} {sz : List Nat} (l : List (Call K dim)) :
    ∀ (s : Iso K), Ready dim sz s → Proper orth sz l → ∃ s', calls orth l s = some s' ∧ Ready dim sz s' ∧
      ∀ ci, (∀ j P, Call.build ci j P ∉ l) → s'.binv[ci]? = s.binv[ci]? ∧ s'.gflux[ci]? = s.gflux[ci]? := by
  induction l with
  | nil => intro s hs _; exact ⟨s, rfl, hs, fun _ _ => ⟨rfl, rfl⟩⟩
  | cons a l ih =>
    intro s hs hp
    have hp' : Proper orth sz l := fun ci j P h => hp ci j P (List.mem_cons_of_mem _ h)
    cases a with
    | build ci j P =>
      obtain ⟨p1, p2, p3, p4⟩ := hp ci j P List.mem_cons_self
      obtain ⟨s1, b1, b2, _, _, b5, _⟩ := C113_build hd hs p1 p2 j.cell p4 p3 j.grav
      obtain ⟨s2, c1, c2, c3⟩ := ih s1 b2 hp'
      refine ⟨s2, ?_, c2, fun k hk => ?_⟩
      · unfold calls
        rw [List.foldlM_cons]
        simp only [b1, Option.bind_eq_bind, Option.bind_some]
        exact c1
      · have hne : k ≠ ci := fun h => hk j P (h ▸ List.mem_cons_self)
        obtain ⟨d1, d2⟩ := c3 k fun j P h => hk j P (List.mem_cons_of_mem _ h)
        exact ⟨d1.trans (b5 k hne).1, d2.trans (b5 k hne).2⟩
    | dynamic ci rho mob =>
      obtain ⟨s2, c1, c2, c3⟩ := ih (s.dynamic rho mob ci) ⟨hs.fa, hs.t1, hs.t2, hs.binv, hs.gflux⟩ hp'
      exact ⟨s2, c1, c2, fun k hk => c3 k fun j P h => hk j P (List.mem_cons_of_mem _ h)⟩

/-- **C113.** After any history of calls on the cells of a grid, in any order and any number of times: what is stored for a cell is the inverse inner product of
the last call about that cell, and after `computeDynamicParams` for the cell the matrix that is handed out is this matrix times the total mobility of the cell,
and the fluxes of gravity are those of the densities and mobilities of the cell. -/
theorem C113_history (hd : 0 < dim) {orth : FullMatrix K → Option (FullMatrix K)} {sz : List Nat} {s : Iso K} (hs : Ready dim sz s) (l : List (Call K dim))
    (hp : Proper orth sz l) : ∃ s', calls orth l s = some s' ∧ ∀ ci j, LastBuild l ci j → Holds s'.binv[ci]? (inner j.cell j.Q j.P) ∧
      ∀ (rho mob : Nat → List K) (out : FullMatrix K), out.ord = .fortran → out.rows = j.nf → out.cols = j.nf → out.data.length = j.nf * j.nf →
        (∃ B, (s'.dynamic rho mob ci).inverse ci out = some B ∧ Represents B (Matrix.of fun a b => inner j.cell j.Q j.P a b * (mob ci).sum)) ∧
        (s'.dynamic rho mob ci).gravity ci = some (List.ofFn fun i =>
          (∑ k, (j.cell.face i).normal k * (j.cell.face i).area * ∑ m, j.P k m * j.grav m) * (((rho ci).zip (mob ci)).map fun p => p.1 * p.2).sum) := by
  obtain ⟨s', e1, e2, _⟩ := calls_ok hd l s hs hp
  refine ⟨s', e1, fun ci j hlast => ?_⟩
  obtain ⟨P, pre, post, rfl, hno⟩ := hlast
  obtain ⟨p1, p2, p3, p4⟩ := hp ci j P (by simp)
  obtain ⟨s1, a1, a2, _⟩ := calls_ok hd pre s hs fun ci j P h => hp ci j P (by simp [h])
  obtain ⟨s2, b1, b2, b3, b4, _⟩ := C113_build hd a2 p1 p2 j.cell p4 p3 j.grav
  obtain ⟨s3, c1, c2, c3⟩ := calls_ok hd post s2 b2 fun ci j P h => hp ci j P (by simp [h])
  have hs3 : s3 = s' := by
    have := e1
    rw [calls_append, a1, Option.bind_some] at this
    unfold calls at this
    rw [List.foldlM_cons] at this
    simp only [b1, Option.bind_eq_bind, Option.bind_some] at this
    unfold calls at c1
    rw [c1] at this
    exact Option.some.inj this
  obtain ⟨d1, d2⟩ := c3 ci hno
  rw [hs3] at d1 d2
  obtain ⟨row, r1, r2⟩ := b3
  have hrow : s'.binv[ci]? = some row := d1.trans r1
  refine ⟨⟨row, hrow, r2⟩, fun rho mob out o1 o2 o3 o4 => ⟨?_, ?_⟩⟩
  · have hlen : row.length ≤ out.data.length := by rw [o4]; exact le_of_eq r2.size_eq
    refine ⟨{ out with data := row.map (fun x => x * totmob (mob ci)) ++ out.data.drop row.length }, ?_, o2, o3, ?_, fun a b => ?_⟩
    · unfold Iso.inverse
      simp only [Iso.dynamic, hrow, Option.bind_eq_bind, Option.bind_some, if_pos hlen]
    · have := r2.size_eq
      simp only at this
      simp only [List.length_append, List.length_map, List.length_drop, o4, this]
      omega
    · have h1 := r2.entry a b
      have hlt := idx_lt Ordering.fortran a.2 b.2
      have hsz := r2.size_eq
      simp only at hsz
      rw [← hsz] at hlt
      simp only [FullMatrix.get, a.2, b.2, and_self, if_true] at h1
      simp only [FullMatrix.get, o1, o2, o3, a.2, b.2, and_self, if_true]
      rw [List.getElem?_append_left (by rw [List.length_map]; exact hlt), List.getElem?_map, h1]
      simp [totmob, List.sum_eq_foldl]
  · unfold Iso.gravity
    simp only [Iso.dynamic, d2, b4, Option.bind_eq_bind, Option.bind_some]
    rw [List.map_ofFn]
    congr 2
    funext i
    simp only [Function.comp_apply, mobDens, foldl_pairs, zero_add]

/-! ### tensor mobilities -/

/-- Room for every cell. -/
theorem aready_init (s : Aniso K) (dim m : Nat) (sz : List Nat) (h : ∀ n ∈ sz, n ≤ m) : AReady dim sz ((s.init dim m).reserve dim sz) where
  fa := fun n hn => by
    simp only [Aniso.reserve, Aniso.init, List.length_replicate]
    exact Nat.mul_le_mul (h n hn) (h n hn)
  t2 := fun n hn => by
    simp only [Aniso.reserve, Aniso.init, List.length_replicate]
    exact Nat.mul_le_mul_right _ (h n hn)
  second := by simp [Aniso.reserve, Aniso.init, Function.comp_def]
  n := by simp [Aniso.reserve, Aniso.init, Function.comp_def]
  kg := by simp [Aniso.reserve, Aniso.init, Function.comp_def]

theorem rep_data {A : FullMatrix K} {r c : Nat} {M : Matrix (Fin r) (Fin c) K} (h : Represents A M) (ho : A.ord = .fortran) : A = ⟨.fortran, r, c, A.data⟩ := by
  cases A
  have e1 := h.rows_eq
  have e2 := h.cols_eq
  simp only at e1 e2 ho
  rw [ho, e1, e2]

theorem back_full (row : List K) {A : FullMatrix K} {r c : Nat} {M : Matrix (Fin r) (Fin c) K} (h : Represents A M) (hr : row.length = r * c) :
    back row A = A.data := by
  unfold back
  rw [h.size_eq, ← hr, List.drop_length, List.append_nil]

theorem back_le (w : List K) (A : FullMatrix K) : w.length ≤ (back w A).length := by
  unfold back
  rw [List.length_append, List.length_drop]
  omega

/-- What is stored for a cell. -/
structure AHolds (s : Aniso K) (ci : Nat) (j : Job K dim) : Prop where
  second : Holds s.second[ci]? (second j.cell j.Q)
  n : ∃ row, s.n[ci]? = some row ∧ Represents (⟨.fortran, j.nf, dim, row⟩ : FullMatrix K) (Matrix.of (nmat j.cell))
  kg : s.kg[ci]? = some (List.ofFn fun k => ∑ l, j.P k l * j.grav l)

theorem mulVec_spec (hd : 0 < dim) {A : FullMatrix K} {M : Matrix (Fin dim) (Fin dim) K} (h : Represents A M) {x y : List K} {vx vy : Fin dim → K}
    (hx : IsVec x vx) (hy : IsVec y vy) (a1 a2 : K) : ∃ z, mulVec a1 A x a2 y = some z ∧ IsVec z (a1 • M.mulVec vx + a2 • vy) := by
  obtain ⟨z, h1, h2⟩ := C02_vecMulAddN h hx hy hd hd a1 a2
  refine ⟨z, ?_, h2⟩
  unfold mulVec
  rcases hA : A.ord with _ | _
  all_goals
    rw [hA] at h1
    exact h1

theorem aniso_build (hd : 0 < dim) {orth : FullMatrix K → Option (FullMatrix K)} {sz : List Nat} {s : Aniso K} (hs : AReady dim sz s) {ci : Nat} (j : Job K dim)
    (hc : sz[ci]? = some j.nf) (hn : 0 < j.nf) (ho : Orth orth j.cell j.Q) {r : Nat → FullMatrix K} (hP : Represents (r ci) (Matrix.of j.P)) :
    ∃ s', s.build orth ci j.cell r j.grav j.nf = some s' ∧ AReady dim sz s' ∧ AHolds s' ci j ∧ s'.rock = some r ∧
      (∀ k, k ≠ ci → s'.second[k]? = s.second[k]? ∧ s'.n[k]? = s.n[k]? ∧ s'.kg[k]? = s.kg[k]?) := by
  obtain ⟨n, c, P, grav, Q⟩ := j
  simp only at hc hn ho hP ⊢
  obtain ⟨row, r1, r2⟩ := map_length_get hs.second hc
  obtain ⟨nrow, n1, n2⟩ := map_length_get hs.n hc
  obtain ⟨krow, m1, m2⟩ := map_length_get hs.kg hc
  have hmem := List.mem_of_getElem? hc
  obtain ⟨B0, a1, a2, a3⟩ := rep_cleared row n n (le_of_eq r2.symm)
  obtain ⟨N0, b1, b2, b3⟩ := rep_cleared nrow n dim (le_of_eq n2.symm)
  obtain ⟨C0, c1, c2, c3⟩ := rep_cleared s.t2 n dim (hs.t2 n hmem)
  obtain ⟨F0, d1, d2, d3⟩ := rep_cleared s.fa n n (hs.fa n hmem)
  obtain ⟨w, e0, o1, o2, o3, o4, e1, e2, e3, e4⟩ := faces_spec c (s := ⟨B0, F0, N0, C0⟩) a2 d2 b2 c2 a3 d3 b3 c3
  obtain ⟨Q', q1, q2, q3⟩ := ho w.c o4 (represents_congr e4 fun _ _ => rfl)
  obtain ⟨B1, f1, f2, f3⟩ := C02_symmetricUpdate q3 e1 q2 o1 hn (by simp) (-1) 1
  obtain ⟨B2, g1, g2, g3⟩ := C02_symmetricUpdate2_partial e2 f3 o2 f2 hn (by
    rw [Matrix.transpose_add, Matrix.transpose_smul, Matrix.transpose_smul, Matrix.transpose_mul, Matrix.transpose_transpose, Matrix.transpose_one])
  have g4 : Represents B2 (Matrix.of (second c Q)) := represents_congr g3 fun a b => by
    simp only [Matrix.add_apply, Matrix.smul_apply, smul_eq_mul, Matrix.diagonal_transpose, Matrix.mul_diagonal, Matrix.diagonal_mul]
    simp only [Matrix.mul_apply, Matrix.transpose_apply, Matrix.of_apply, second, Matrix.one_apply]
    ring
  have hkr : krow = List.ofFn (fun i : Fin dim => krow[i.val]'(by have := i.2; omega)) := by
    refine List.ext_getElem (by simp [m2]) fun i h1 h2 => by simp
  obtain ⟨kg, p1, p2⟩ := mulVec_spec hd hP (x := List.ofFn grav) (y := krow) (vx := grav) rfl hkr 1 0
  have hkg : kg = List.ofFn fun k => ∑ l, P k l * grav l := by
    rw [show kg = List.ofFn _ from p2]
    congr 1
    funext i
    simp [Matrix.mulVec, dotProduct]
  refine ⟨⟨back s.fa w.fa, back s.t2 Q', s.second.set ci (back row B2), s.n.set ci (back nrow w.n), s.kg.set ci kg, s.dynKg, s.lambdaK, some r⟩,
    ?_, ⟨fun m hm => (hs.fa m hm).trans (back_le _ _), fun m hm => (hs.t2 m hm).trans (back_le _ _), ?_, ?_, ?_⟩, ⟨?_, ?_, ?_⟩, rfl, fun k hk => ⟨?_, ?_, ?_⟩⟩
  · unfold Aniso.build
    simp only [r1, n1, m1, a1, b1, c1, d1, e0, q1, f1, g1, p1, Option.bind_eq_bind, Option.bind_some]
  · exact map_length_set hs.second hc (by rw [back_full row g4 r2, g4.size_eq])
  · exact map_length_set hs.n hc (by rw [back_full nrow e3 n2, e3.size_eq])
  · exact map_length_set hs.kg hc (by rw [hkg]; simp)
  · refine ⟨_, set_get_self r1, ?_⟩
    rw [back_full row g4 r2, ← rep_data g4 g2]
    exact g4
  · refine ⟨_, set_get_self n1, ?_⟩
    rw [back_full nrow e3 n2, ← rep_data e3 o3]
    exact e3
  · change (s.kg.set ci kg)[ci]? = _
    rw [set_get_self m1, hkg]
  · change (s.second.set ci _)[k]? = _
    rw [List.getElem?_set_ne (Ne.symm hk)]
  · change (s.n.set ci _)[k]? = _
    rw [List.getElem?_set_ne (Ne.symm hk)]
  · change (s.kg.set ci _)[k]? = _
    rw [List.getElem?_set_ne (Ne.symm hk)]

/-- `computeDynamicParams` only changes the dynamic numbers. -/
theorem dynamic_keeps {s s' : Aniso K} {phases : Nat → List (K × FullMatrix K)} {ci : Nat} (h : s.dynamic dim phases ci = some s') :
    s'.fa = s.fa ∧ s'.t2 = s.t2 ∧ s'.second = s.second ∧ s'.n = s.n ∧ s'.kg = s.kg ∧ s'.rock = s.rock := by
  unfold Aniso.dynamic at h
  simp only [Option.bind_eq_bind, Option.bind_eq_some_iff] at h
  obtain ⟨_, _, _, _, _, _, _, _, h⟩ := h
  obtain rfl := Option.some.inj h
  exact ⟨rfl, rfl, rfl, rfl, rfl, rfl⟩

/-- `getInverseMatrix` only changes a work array. -/
theorem inverse_keeps {s s' : Aniso K} {ci : Nat} {vol : K} {out B : FullMatrix K} (h : s.inverse dim ci vol out = some (B, s')) :
    s'.fa = s.fa ∧ s.t2.length ≤ s'.t2.length ∧ s'.second = s.second ∧ s'.n = s.n ∧ s'.kg = s.kg ∧ s'.rock = s.rock ∧ s'.dynKg = s.dynKg := by
  unfold Aniso.inverse at h
  simp only [Option.bind_eq_bind, Option.bind_eq_some_iff] at h
  obtain ⟨_, _, _, _, _, _, _, _, _, _, _, _, _, _, _, _, h⟩ := h
  obtain ⟨_, rfl⟩ := Prod.mk.inj (Option.some.inj h)
  exact ⟨rfl, back_le _ _, rfl, rfl, rfl, rfl, rfl⟩

theorem reach_ok (hd : 0 < dim) {orth : FullMatrix K → Option (FullMatrix K)} {sz : List Nat} {rock : Nat → FullMatrix K} {b : Nat → Option (Job K dim)}
    {s : Aniso K} (h : Reach orth sz rock b s) : AReady dim sz s ∧ ∀ ci j, b ci = some j → AHolds s ci j ∧ s.rock = some rock ∧ sz[ci]? = some j.nf ∧ 0 < j.nf ∧
      Represents (rock ci) (Matrix.of j.P) := by
  induction h with
  | start s m h => exact ⟨aready_init s dim m sz h, fun _ _ e => by cases e⟩
  | build ci j h h1 h2 h3 h4 h5 ih =>
    obtain ⟨i1, i2⟩ := ih
    obtain ⟨s1, e1, e2, e3, e4, e5⟩ := aniso_build hd i1 j h1 h2 h3 h4
    obtain rfl := Option.some.inj (e1.symm.trans h5)
    refine ⟨e2, fun k j' hk => ?_⟩
    replace hk : (if k = ci then some j else _) = some j' := hk
    by_cases hki : k = ci
    · rw [if_pos hki] at hk
      obtain rfl := Option.some.inj hk
      subst hki
      exact ⟨e3, e4, h1, h2, h4⟩
    · rw [if_neg hki] at hk
      obtain ⟨a, _, c, d, e⟩ := i2 k j' hk
      obtain ⟨f1, f2, f3⟩ := e5 k hki
      exact ⟨⟨f1 ▸ a.second, f2 ▸ a.n, f3 ▸ a.kg⟩, e4, c, d, e⟩
  | dynamic ci phases h h1 ih =>
    obtain ⟨i1, i2⟩ := ih
    obtain ⟨k1, k2, k3, k4, k5, k6⟩ := dynamic_keeps h1
    refine ⟨⟨fun m hm => k1 ▸ i1.fa m hm, fun m hm => k2 ▸ i1.t2 m hm, k3 ▸ i1.second, k4 ▸ i1.n, k5 ▸ i1.kg⟩, fun k j' hk => ?_⟩
    obtain ⟨a, b, c⟩ := i2 k j' hk
    exact ⟨⟨k3 ▸ a.second, k4 ▸ a.n, k5 ▸ a.kg⟩, k6 ▸ b, c⟩
  | inverse ci vol out B h h1 ih =>
    obtain ⟨i1, i2⟩ := ih
    obtain ⟨k1, k2, k3, k4, k5, k6, _⟩ := inverse_keeps h1
    refine ⟨⟨fun m hm => k1 ▸ i1.fa m hm, fun m hm => (i1.t2 m hm).trans k2, k3 ▸ i1.second, k4 ▸ i1.n, k5 ▸ i1.kg⟩, fun k j' hk => ?_⟩
    obtain ⟨a, b, c⟩ := i2 k j' hk
    exact ⟨⟨k3 ▸ a.second, k4 ▸ a.n, k5 ▸ a.kg⟩, k6 ▸ b, c⟩

theorem phases_fold (hd : 0 < dim) (v : Fin dim → K) {l : List (K × FullMatrix K)} {m : List (K × (Fin dim → Fin dim → K))} (h : Phases l m) :
    ∀ (d : Fin dim → K) (t : List K) (M : Fin dim → Fin dim → K), Represents (⟨.fortran, dim, dim, t⟩ : FullMatrix K) (Matrix.of M) →
      ∃ t', l.foldlM (phaseStep (List.ofFn v)) (List.ofFn d, t) =
          some (List.ofFn (m.foldl (fun a p => fun i => a i + p.1 * ∑ k, p.2 i k * v k) d), t') ∧
        Represents (⟨.fortran, dim, dim, t'⟩ : FullMatrix K) (Matrix.of (m.foldl (fun a p => fun i j => a i j + p.2 i j) M)) := by
  unfold Phases at h
  induction h with
  | nil => intro d t M hM; exact ⟨t, rfl, hM⟩
  | @cons a b l m hab _ ih =>
    intro d t M hM
    obtain ⟨h1, h2, h3⟩ := hab
    obtain ⟨y, y1, y2⟩ := vecMulAddN_spec h3 h2 (x := List.ofFn v) (y := List.ofFn d) (vx := v) (vy := d) rfl rfl hd a.1 1
    obtain ⟨⟨C, c1, c2, c3⟩, _⟩ := C01_inplace_arithmetic hM h3 h2.symm 0
    have hC : C = ⟨.fortran, dim, dim, List.zipWith (· + ·) t a.2.data⟩ := by
      have := c1
      unfold FullMatrix.addAssign at this
      split at this
      · exact (Option.some.inj this).symm
      · cases this
    have hy : y = List.ofFn fun i => d i + b.1 * ∑ k, b.2 i k * v k := by
      rw [show y = List.ofFn _ from y2, ← h1]
      congr 1
      funext i
      simp [Matrix.mulVec, dotProduct, add_comm]
    obtain ⟨t', e1, e2⟩ := ih (fun i => d i + b.1 * ∑ k, b.2 i k * v k) (List.zipWith (· + ·) t a.2.data) (fun i j => M i j + b.2 i j) (by
      rw [← hC]
      exact represents_congr c3 fun _ _ => rfl)
    refine ⟨t', ?_, e2⟩
    rw [List.foldlM_cons]
    unfold phaseStep at e1 ⊢
    simp only [y1, hy, Option.bind_eq_bind, Option.bind_some]
    exact e1

theorem dynamic_spec (hd : 0 < dim) {s : Aniso K} {ci : Nat} {j : Job K dim} (hs : AHolds s ci j) {rock : Nat → FullMatrix K} (hr : s.rock = some rock)
    (hP : Represents (rock ci) (Matrix.of j.P)) {phases : Nat → List (K × FullMatrix K)} {m : List (K × (Fin dim → Fin dim → K))}
    (hm : Phases (phases ci) m) : ∃ s' lk, s.dynamic dim phases ci = some s' ∧ s'.lambdaK = some lk ∧ lk.ord = .fortran ∧
      Represents lk (Matrix.of (lambdaK j.P (m.map (·.2)))) ∧ s'.dynKg = some (List.ofFn (dynKg j.P j.grav m)) := by
  obtain ⟨t', e1, e2⟩ := phases_fold hd (fun k => ∑ l, j.P k l * j.grav l) hm (fun _ => 0) (List.replicate (dim * dim) 0) (fun _ _ => 0)
    ⟨rfl, rfl, by simp, fun a b => by
      have := idx_lt Ordering.fortran a.2 b.2
      simp [FullMatrix.get, a.2, b.2, this]⟩
  obtain ⟨lk, l1, l2, l3⟩ := C02_prod e2 hP (C := (⟨.fortran, dim, dim, List.replicate (dim * dim) 0⟩ : FullMatrix K)) (by simp [WF]) rfl rfl
  have h0 : List.ofFn (fun _ : Fin dim => (0 : K)) = List.replicate dim 0 := by
    refine List.ext_getElem (by simp) fun i h1 h2 => by simp
  rw [h0] at e1
  refine ⟨⟨s.fa, s.t2, s.second, s.n, s.kg, some (List.ofFn (dynKg j.P j.grav m)), some lk, s.rock⟩, lk, ?_, rfl, l2, represents_congr l3 fun a b => ?_, rfl⟩
  · unfold Aniso.dynamic
    simp only [hs.kg, hr, e1, l1, Option.bind_eq_bind, Option.bind_some]
    rfl
  · simp only [Matrix.mul_apply, Matrix.of_apply, lambdaK, List.foldl_map]

theorem rep_any {A : FullMatrix K} {r c : Nat} (h : WF A) (hr : A.rows = r) (hc : A.cols = c) : ∃ M : Matrix (Fin r) (Fin c) K, Represents A M := by
  subst hr hc
  refine ⟨fun i j => (A.get i j).get (by
    obtain ⟨_, hg⟩ := FullMatrix.get_eq A h i.2 j.2
    rw [hg]; rfl), rfl, rfl, h, fun i j => by simp⟩

theorem inverse_spec (hd : 0 < dim) {sz : List Nat} {s : Aniso K} (hr : AReady dim sz s) {ci : Nat} {j : Job K dim} (hs : AHolds s ci j) (hc : sz[ci]? = some j.nf)
    (hn : 0 < j.nf) {lk : FullMatrix K} {L : Fin dim → Fin dim → K} (h1 : s.lambdaK = some lk) (h3 : Represents lk (Matrix.of L))
    (out : FullMatrix K) (o1 : out.ord = .fortran) (o2 : out.rows = j.nf) (o3 : out.cols = j.nf) (o4 : out.data.length = j.nf * j.nf) :
    ∃ B s', s.inverse dim ci j.cell.volume out = some (B, s') ∧ Represents B (Matrix.of (inner j.cell j.Q L)) := by
  obtain ⟨row, r1, r2⟩ := hs.second
  obtain ⟨nrow, n1, n2⟩ := hs.n
  have hv : ∀ (w : List K) (r c : Nat), r * c ≤ w.length → view w r c = some ⟨.fortran, r, c, w.take (r * c)⟩ := fun w r c h => by
    unfold view
    rw [if_pos h]
  have hlr : row.length = j.nf * j.nf := r2.size_eq
  have hln : nrow.length = j.nf * dim := n2.size_eq
  have v1 := hv nrow j.nf dim (le_of_eq hln.symm)
  have v2 := hv row j.nf j.nf (le_of_eq hlr.symm)
  rw [← hln, List.take_length] at v1
  rw [← hlr, List.take_length] at v2
  have v3 := hv s.t2 j.nf dim (hr.t2 j.nf (List.mem_of_getElem? hc))
  have hw : WF out := by unfold WF; rw [o4, o2, o3]
  obtain ⟨B0, b1, b2, b3⟩ := C01_assign_preserves hw o2 o3 r2
  obtain ⟨MT, hMT⟩ := rep_any (A := (⟨.fortran, j.nf, dim, s.t2.take (j.nf * dim)⟩ : FullMatrix K)) (r := j.nf) (c := dim)
    (by simp [WF, hr.t2 j.nf (List.mem_of_getElem? hc)]) rfl rfl
  obtain ⟨B, T, k1, k2, k3, k4, k5⟩ := finish_spec hn hd j.cell.volume h3 n2 b3 hMT rfl (b2.trans o1) rfl
  refine ⟨B, ⟨s.fa, back s.t2 T, s.second, s.n, s.kg, s.dynKg, s.lambdaK, s.rock⟩, ?_, represents_congr k4 fun a b => ?_⟩
  · unfold Aniso.inverse
    simp only [n1, r1, h1, o2, v1, v2, v3, b1, k1, Option.bind_eq_bind, Option.bind_some]
  · simp only [Matrix.add_apply, Matrix.smul_apply, smul_eq_mul, Matrix.mul_apply, Matrix.transpose_apply, Matrix.of_apply, inner, trace]

theorem gravity_spec (hd : 0 < dim) {s : Aniso K} {ci : Nat} {j : Job K dim} (hs : AHolds s ci j) (hn : 0 < j.nf) {d : Fin dim → K}
    (h1 : s.dynKg = some (List.ofFn d)) (out : List K) (ho : out.length = j.nf) :
    s.gravity dim ci out = some (List.ofFn fun i => ∑ k, nmat j.cell i k * d k) := by
  obtain ⟨nrow, n1, n2⟩ := hs.n
  have hln : nrow.length = j.nf * dim := n2.size_eq
  have hdiv : nrow.length / dim = j.nf := by rw [hln, Nat.mul_div_cancel _ hd]
  have v1 : view nrow j.nf dim = some ⟨.fortran, j.nf, dim, nrow⟩ := by
    unfold view
    rw [if_pos (le_of_eq hln.symm), ← hln, List.take_length]
  have hout : out = List.ofFn (fun i : Fin j.nf => out[i.val]'(by have := i.2; omega)) := by
    refine List.ext_getElem (by simp [ho]) fun i h1 h2 => by simp
  obtain ⟨y, y1, y2⟩ := vecMulAddN_spec n2 rfl (x := List.ofFn d) (y := out) (vx := d) rfl hout hn 1 0
  unfold Aniso.gravity
  simp only [n1, h1, hdiv, v1, y1, Option.bind_eq_bind, Option.bind_some]
  rw [show y = List.ofFn _ from y2]
  congr 2
  funext i
  simp [Matrix.mulVec, dotProduct]

/-- **C113.** The same for tensor mobilities, if the rock stays the same: after any history of calls, `computeDynamicParams` for a cell succeeds, and the matrix that
is then handed out for it is the inverse inner product of that cell for the sum of its mobilities times its permeability; the fluxes of gravity are its own. -/
theorem C113_aniso (hd : 0 < dim) {orth : FullMatrix K → Option (FullMatrix K)} {sz : List Nat} {rock : Nat → FullMatrix K} {b : Nat → Option (Job K dim)}
    {s : Aniso K} (h : Reach orth sz rock b s) {ci : Nat} {j : Job K dim} (hj : b ci = some j) {phases : Nat → List (K × FullMatrix K)}
    {m : List (K × (Fin dim → Fin dim → K))} (hm : Phases (phases ci) m) (out : FullMatrix K) (o1 : out.ord = .fortran) (o2 : out.rows = j.nf)
    (o3 : out.cols = j.nf) (o4 : out.data.length = j.nf * j.nf) (gout : List K) (ho : gout.length = j.nf) :
    ∃ s1 B s2, s.dynamic dim phases ci = some s1 ∧ s1.inverse dim ci j.cell.volume out = some (B, s2) ∧
      Represents B (Matrix.of (inner j.cell j.Q fun k l => ∑ a, (m.map fun p => p.2 k a).sum * j.P a l)) ∧
      s2.gravity dim ci gout = some (List.ofFn fun i =>
        ∑ k, (j.cell.face i).normal k * (j.cell.face i).area * (m.map fun p => p.1 * ∑ a, p.2 k a * ∑ l, j.P a l * j.grav l).sum) := by
  obtain ⟨i1, i2⟩ := reach_ok hd h
  obtain ⟨a1, a2, a3, a4, a5⟩ := i2 ci j hj
  obtain ⟨s1, lk, d1, d2, d3, d4, d5⟩ := dynamic_spec hd a1 a2 a5 hm
  have r1 : Reach orth sz rock b s1 := .dynamic ci phases h d1
  obtain ⟨q1, q2⟩ := reach_ok hd r1
  obtain ⟨B, s2, e1, e2⟩ := inverse_spec hd q1 (q2 ci j hj).1 a3 a4 d2 d4 out o1 o2 o3 o4
  have r2 : Reach orth sz rock b s2 := .inverse ci _ out B r1 e1
  have hL : lambdaK j.P (m.map (·.2)) = fun k l => ∑ a, (m.map fun p => p.2 k a).sum * j.P a l := by
    funext k l
    unfold lambdaK
    exact Finset.sum_congr rfl fun a _ => by rw [lam_fold, zero_add, List.map_map]; rfl
  have hG : dynKg j.P j.grav m = fun k => (m.map fun p => p.1 * ∑ a, p.2 k a * ∑ l, j.P a l * j.grav l).sum := by
    have key : ∀ (m : List (K × (Fin dim → Fin dim → K))) (d : Fin dim → K) (k : Fin dim),
        m.foldl (fun a p => fun i => a i + p.1 * ∑ k, p.2 i k * ∑ l, j.P k l * j.grav l) d k =
          d k + (m.map fun p => p.1 * ∑ a, p.2 k a * ∑ l, j.P a l * j.grav l).sum := by
      intro m
      induction m with
      | nil => intro d k; simp
      | cons p m ih => intro d k; rw [List.foldl_cons, ih, List.map_cons, List.sum_cons]; ring
    funext k
    unfold dynKg
    rw [key, zero_add]
  refine ⟨s1, B, s2, d1, e1, hL ▸ e2, ?_⟩
  rw [gravity_spec hd ((reach_ok hd r2).2 ci j hj).1 a4 (d := dynKg j.P j.grav m) ((inverse_keeps e1).2.2.2.2.2.2.trans d5) gout ho, hG]
  rfl

/-- **C113.** In such a history the next `buildStaticContrib` always succeeds. -/
theorem C113_aniso_build (hd : 0 < dim) {orth : FullMatrix K → Option (FullMatrix K)} {sz : List Nat} {rock : Nat → FullMatrix K} {b : Nat → Option (Job K dim)}
    {s : Aniso K} (h : Reach orth sz rock b s) {ci : Nat} (j : Job K dim) (hc : sz[ci]? = some j.nf) (hn : 0 < j.nf) (ho : Orth orth j.cell j.Q)
    (hP : Represents (rock ci) (Matrix.of j.P)) :
    ∃ s', s.build orth ci j.cell rock j.grav j.nf = some s' ∧ Reach orth sz rock (fun k => if k = ci then some j else b k) s' := by
  obtain ⟨s', e, _⟩ := aniso_build hd (reach_ok hd h).1 j hc hn ho hP
  exact ⟨s', e, .build ci j h hc hn ho hP e⟩

end

/-! ### cases that meet the hypotheses -/

/-- `orthogonalizeColumns` for the square cell of `Props/Mimetic.lean`. -/
def squareOrth : FullMatrix ℚ → Option (FullMatrix ℚ) := fun _ => some ⟨.fortran, 6, 2, [-1/2, -1/2, 1/2, 1/2, 0, 0, -1/6, 1/6, -1/6, 1/6, -2/3, 2/3]⟩

theorem square_orthogonalize : Orth squareOrth squareCell squareQ := by
  intro A _ _
  exact ⟨_, rfl, rfl, rfl, rfl, rfl, by unfold squareQ; decide +kernel⟩

/-- Two square cells, the first with a full permeability, the second with twice the unit tensor. -/
def job0 : Job ℚ 2 := ⟨6, squareCell, fullPerm, ![0, -10], squareQ⟩
def job1 : Job ℚ 2 := ⟨6, squareCell, fun i j => if i = j then 2 else 0, ![0, -10], squareQ⟩

def perm0 : FullMatrix ℚ := ⟨.c, 2, 2, [2, 1, 1, 3]⟩
def perm1 : FullMatrix ℚ := ⟨.c, 2, 2, [2, 0, 0, 2]⟩

theorem perm0_rep : Represents perm0 (Matrix.of job0.P) := ⟨rfl, rfl, rfl, by unfold job0; decide +kernel⟩
theorem perm1_rep : Represents perm1 (Matrix.of job1.P) := ⟨rfl, rfl, rfl, by unfold job1; decide +kernel⟩

def twoCalls : List (Call ℚ 2) := [.build 0 job0 perm0, .dynamic 0 (fun _ => [1, 1]) (fun _ => [3, 4]), .build 1 job1 perm1]

theorem twoCalls_proper : Proper squareOrth [6, 6] twoCalls := by
  intro ci j P h
  simp only [twoCalls, List.mem_cons, List.not_mem_nil, or_false, reduceCtorEq, false_or, Call.build.injEq] at h
  rcases h with ⟨rfl, rfl, rfl⟩ | ⟨rfl, rfl, rfl⟩
  · exact ⟨rfl, by decide, square_orthogonalize, perm0_rep⟩
  · exact ⟨rfl, by decide, square_orthogonalize, perm1_rep⟩

theorem twoCalls_last : LastBuild twoCalls 0 job0 :=
  ⟨perm0, [], [.dynamic 0 (fun _ => [1, 1]) (fun _ => [3, 4]), .build 1 job1 perm1], rfl, fun j' P' h => by
    simp at h⟩

/-- The objects of the examples. -/
def start2 : Iso ℚ := (Iso.fresh.init 2 6).reserve [6, 6]
def out6 : FullMatrix ℚ := ⟨.fortran, 6, 6, List.replicate 36 7⟩

example : ∃ s', calls squareOrth twoCalls start2 = some s' ∧ ∃ B, (s'.dynamic (fun _ => [1, 1]) (fun _ => [3, 4]) 0).inverse 0 out6 = some B ∧
    Represents B (Matrix.of fun a b => inner squareCell squareQ fullPerm a b * 7) := by
  obtain ⟨s', e1, e2⟩ := C113_history (by decide) (C113_ready Iso.fresh 2 6 [6, 6] (by decide)) twoCalls twoCalls_proper
  obtain ⟨B, b1, b2⟩ := ((e2 0 job0 twoCalls_last).2 (fun _ => [1, 1]) (fun _ => [3, 4]) out6 rfl rfl rfl rfl).1
  refine ⟨s', e1, B, b1, represents_congr b2 fun a b => ?_⟩
  change inner squareCell squareQ fullPerm a b * [3, 4].sum = inner squareCell squareQ fullPerm a b * 7
  norm_num

example : ∃ B s', start2.evaluate squareOrth squareCell perm0 out6 = some (B, s') ∧ Represents B (Matrix.of (inner squareCell squareQ fullPerm)) := by
  obtain ⟨B, s', h1, h2, _⟩ := C113_evaluate (dim := 2) (by decide) (s := start2) (n := 6) (by decide) squareCell perm0_rep square_orthogonalize out6
    (by decide) (by decide +kernel) (by decide +kernel) (by decide +kernel) rfl rfl rfl (by decide +kernel)
  exact ⟨B, s', h1, h2⟩

def rock2 : Nat → FullMatrix ℚ := fun k => if k = 0 then perm0 else perm1

/-- A history with calls for both cells. -/
example : ∃ b s, Reach squareOrth [6, 6] rock2 b s ∧ b 0 = some job0 ∧ b 1 = some job1 := by
  have h0 : Reach (dim := 2) squareOrth [6, 6] rock2 (fun _ => none) ((Aniso.fresh.init 2 6).reserve 2 [6, 6]) := .start _ 6 (by decide)
  obtain ⟨s1, _, h1⟩ := C113_aniso_build (by decide) h0 (ci := 0) job0 rfl (by decide) square_orthogonalize perm0_rep
  obtain ⟨s2, _, h2⟩ := C113_aniso_build (by decide) h1 (ci := 1) job1 rfl (by decide) square_orthogonalize perm1_rep
  exact ⟨_, s2, h2, rfl, rfl⟩

example : Phases [((3 : ℚ), (⟨.fortran, 2, 2, [1, 0, 0, 2]⟩ : FullMatrix ℚ))] [(3, ![![1, 0], ![0, 2]])] :=
  .cons ⟨rfl, rfl, rfl, rfl, rfl, by decide +kernel⟩ .nil

/-! ### deviations -/

/-- **C113 (deviation).** The mobility is kept for the object, not for the cell: if `computeDynamicParams` was called for another cell in between, the matrix handed
out for a cell has the mobility of the other one. Here cell 0 has mobility 7, cell 1 mobility 1. -/
theorem C113_violated_other_cell : ∃ s, calls squareOrth twoCalls start2 = some s ∧
    ∃ B, ((s.dynamic (fun _ => [1]) (fun k => if k = 0 then [7] else [1]) 1).dynamic (fun _ => [1]) (fun k => if k = 0 then [7] else [1]) 0).inverse 1 out6 = some B ∧
      B.get 0 0 = some (inner squareCell squareQ job1.P 0 0 * 7) ∧ B.get 0 0 ≠ some (inner squareCell squareQ job1.P 0 0 * 1) := by
  have h : ((calls squareOrth twoCalls start2).bind fun s =>
      (((s.dynamic (fun _ => [1]) (fun k => if k = 0 then [7] else [1]) 1).dynamic (fun _ => [1]) (fun k => if k = 0 then [7] else [1]) 0).inverse 1 out6).map
        fun B => (B.get 0 0, inner squareCell squareQ job1.P 0 0)) = some (some (56/3), 8/3) := by decide +kernel
  obtain ⟨s, h1, h⟩ := Option.bind_eq_some_iff.mp h
  obtain ⟨B, h2, h⟩ := Option.map_eq_some_iff.mp h
  obtain ⟨h3, h4⟩ := Prod.mk.inj h
  refine ⟨s, h1, B, h2, ?_, ?_⟩ <;> rw [h3, h4] <;> norm_num

/-- **C113 (deviation).** With tensor mobilities the rock of the last `buildStaticContrib` is used for all cells: if cell 1 is built with another rock, the matrix for
cell 0 has the permeability that this other rock has in cell 0, while its fluxes of gravity still have the first one. -/
theorem C113_violated_rock : ∃ s0 s1 s2 B s3 g, ((Aniso.fresh.init 2 6).reserve 2 [6, 6]).build squareOrth 0 squareCell (fun _ => perm0) ![0, -10] 6 = some s0 ∧
    s0.build squareOrth 1 squareCell (fun _ => perm1) ![0, -10] 6 = some s1 ∧
    s1.dynamic 2 (fun _ => [(1, ⟨.fortran, 2, 2, [1, 0, 0, 1]⟩)]) 0 = some s2 ∧ s2.inverse 2 0 1 out6 = some (B, s3) ∧ s3.gravity 2 0 [0, 0, 0, 0, 0, 0] = some g ∧
    B.get 0 2 = some (inner squareCell squareQ job1.P 0 2) ∧ B.get 0 2 ≠ some (inner squareCell squareQ job0.P 0 2) ∧
    g[0]? = some (gflux squareCell fullPerm ![0, -10] 0) ∧ gflux squareCell fullPerm ![0, -10] 0 ≠ gflux squareCell job1.P ![0, -10] 0 := by
  have h : (((Aniso.fresh.init 2 6).reserve 2 [6, 6]).build squareOrth 0 squareCell (fun _ => perm0) ![0, -10] 6).bind (fun s0 =>
      (s0.build squareOrth 1 squareCell (fun _ => perm1) ![0, -10] 6).bind fun s1 =>
      (s1.dynamic 2 (fun _ => [(1, ⟨.fortran, 2, 2, [1, 0, 0, 1]⟩)]) 0).bind fun s2 =>
      (s2.inverse 2 0 1 out6).bind fun r => (r.2.gravity 2 0 [0, 0, 0, 0, 0, 0]).map fun g => (r.1.get 0 2, g)) =
      some (some (1/6), [5, 5, -5, -5, 30, -30]) := by decide +kernel
  obtain ⟨s0, h0, h⟩ := Option.bind_eq_some_iff.mp h
  obtain ⟨s1, h1, h⟩ := Option.bind_eq_some_iff.mp h
  obtain ⟨s2, h2, h⟩ := Option.bind_eq_some_iff.mp h
  obtain ⟨⟨B, s3⟩, h3, h⟩ := Option.bind_eq_some_iff.mp h
  obtain ⟨g, h4, h⟩ := Option.map_eq_some_iff.mp h
  obtain ⟨h5, rfl⟩ := Prod.mk.inj h
  refine ⟨s0, s1, s2, B, s3, _, h0, h1, h2, h3, h4, ?_, ?_, ?_, ?_⟩
  · exact h5.trans (by decide +kernel)
  · rw [show B.get 0 2 = some (1/6) from h5]; decide +kernel
  · decide +kernel
  · decide +kernel

end Verif.Evaluator
