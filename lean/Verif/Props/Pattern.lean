import Verif.Lemmas.Pattern

/-! C103: the sparsity structure of the pressure matrix. -/

namespace Verif.Pattern

open Verif.Numbering Verif.Pattern.Spec Verif.Hybrid

/-- C103: on a numbering and boundary conditions that fit together, the structure of the matrix is built without a row overflowing: it is
symmetric, its indices lie below the number of faces, it contains every pair of faces of a cell (in particular the diagonal), and for every pair
of periodic partners both positions between them. -/
theorem C103_structure {n : Nat} {cf : List (List Nat)} {per : List PFace} (h : Good n cf per) :
    ∃ P, structureOf n cf per = some P ∧ (∀ i j, j ∈ P i → i < n ∧ j < n) ∧ (∀ i j, j ∈ P i → i ∈ P j) ∧
      (∀ row ∈ cf, ∀ i ∈ row, ∀ j ∈ row, j ∈ P i) ∧
      (∀ f ∈ per, ∀ g ∈ per, g.bid = f.partner → ∀ (row row' : List Nat) (i j : Nat), cf[f.cell]? = some row → row[f.loc]? = some i →
        cf[g.cell]? = some row' → row'[g.loc]? = some j → j ∈ P i) := by
  obtain ⟨P, pp, e, hpp, hlt, hP⟩ := structure_eq h
  have hsymm : ∀ i j, j ∈ P i → i ∈ P j := by
    intro i j hj
    rw [hP, List.mem_append] at hj ⊢
    rcases hj with hj | hj
    · left
      obtain ⟨row, h1, h2⟩ := List.mem_flatMap.mp hj
      obtain ⟨a, ha, h3⟩ := List.mem_flatMap.mp h2
      obtain ⟨b, hb, h4⟩ := List.mem_map.mp h3
      obtain ⟨rfl, rfl⟩ := Prod.mk.inj h4
      exact List.mem_flatMap.mpr ⟨row, h1, List.mem_flatMap.mpr ⟨_, hb, List.mem_map.mpr ⟨_, ha, rfl⟩⟩⟩
    · right
      obtain ⟨c, hc, h2⟩ := List.mem_flatMap.mp hj
      obtain ⟨ii, hii, h3⟩ := List.mem_flatMap.mp h2
      refine List.mem_flatMap.mpr ⟨c, hc, List.mem_flatMap.mpr ⟨ii, hii, ?_⟩⟩
      simp only [List.mem_cons, List.not_mem_nil, or_false, Prod.mk.injEq] at h3 ⊢
      tauto
  have hgrid : ∀ row ∈ cf, ∀ i ∈ row, ∀ j ∈ row, j ∈ P i := fun row hr i hi j hj =>
    (hP i j).mpr (List.mem_append_left _ (List.mem_flatMap.mpr ⟨row, hr, List.mem_flatMap.mpr ⟨i, hi, List.mem_map.mpr ⟨j, hj, rfl⟩⟩⟩))
  refine ⟨P, e, fun i j hj => hlt (i, j) ((hP i j).mp hj), hsymm, hgrid, ?_⟩
  have key : ∀ f ∈ per, dofN cf f < dofN cf (mate per f) → dofN cf (mate per f) ∈ P (dofN cf f) := by
    intro f hf hlt
    obtain ⟨-, m1, -⟩ := mate_spec h hf
    have he : coup cf per f ∈ coupList cf per := List.mem_filter.mpr ⟨List.mem_map.mpr ⟨f, hf, rfl⟩, decide_eq_true hlt⟩
    obtain ⟨-, f2, f3, -, -, -⟩ := coup_facts h hpp he
    refine (hP _ _).mpr (List.mem_append_right _ (List.mem_flatMap.mpr ⟨_, he, List.mem_flatMap.mpr ⟨_, f2, ?_⟩⟩))
    have : replaced pp (coup cf per f) (coup cf per f).d2 = none := by
      unfold replaced
      rw [f3, Option.filter_some, if_neg (by simp)]
    rw [this]
    exact List.mem_cons_self ..
  intro f hf g hg hb row row' i j a1 a2 b1 b2
  obtain ⟨-, m1, m2, m3, m4⟩ := mate_spec h hf
  have hgm : g = mate per f := List.inj_on_of_nodup_map h.bids hg m1 (hb.trans m2.symm)
  subst hgm
  obtain ⟨c1, c2, -⟩ := dof_spec h hf
  obtain ⟨d1, d2, -⟩ := dof_spec h m1
  rw [a1] at c1; obtain rfl := Option.some.inj c1
  rw [a2] at c2; obtain rfl := Option.some.inj c2
  rw [b1] at d1; obtain rfl := Option.some.inj d1
  rw [b2] at d2; obtain rfl := Option.some.inj d2
  rcases lt_trichotomy (dofN cf f) (dofN cf (mate per f)) with hlt | heq | hlt
  · exact key f hf hlt
  · exact absurd (dof_inj h hf m1 heq).symm m4
  · have := key (mate per f) m1 (by rw [mate_mate h hf]; exact hlt)
    rw [mate_mate h hf] at this
    exact hsymm _ _ this

variable {K : Type} [Field K]

/-- C103: assembly never leaves the structure: every entry of the matrix that it adds to or assigns exists, every index of the right-hand side is
valid and every assertion about periodic partners holds, so that the system is that of the model without these checks (`C37`, `C75`). -/
theorem C103_assembly {n nc : Nat} {cf : List (List Nat)} {per : List PFace} {cells : Fin nc → Cell K} (h : Good n cf per)
    (hb : Belongs cells cf per) : ∃ P, structureOf n cf per = some P ∧ Pattern.assemble n P cells = some (Hybrid.assemble cells) := by
  obtain ⟨P, e, hlt, hsymm, hgrid, hper⟩ := C103_structure h
  refine ⟨P, e, ?_⟩
  obtain ⟨P', pp, e', hpp, -, hP⟩ := structure_eq h
  obtain rfl : P = P' := Option.some.inj (e.symm.trans e')
  have hmem : ∀ (i : Fin nc) (k : Fin (cells i).nf), (cells i).dof k ∈ List.ofFn (cells i).dof := fun i k => by simp [List.mem_ofFn]
  have hrow : ∀ i : Fin nc, List.ofFn (cells i).dof ∈ cf := fun i => List.mem_of_getElem? (hb.rows i)
  have hdof : ∀ (i : Fin nc) (k : Fin (cells i).nf), (cells i).dof k < n := fun i k => h.lt _ (hrow i) _ (hmem i k)
  have hsame : ∀ (i : Fin nc) (r k : Fin (cells i).nf), (cells i).dof k ∈ P ((cells i).dof r) := fun i r k =>
    hgrid _ (hrow i) _ (hmem i r) _ (hmem i k)
  -- a periodic face of a cell
  have hface : ∀ (i : Fin nc) (k : Fin (cells i).nf) (d : K) (q : Nat), (cells i).ext k = .periodic d q →
      ∃ f ∈ per, f.cell = i.val ∧ f.loc = k.val ∧ dofN cf f = (cells i).dof k ∧ dofN cf (mate per f) = q ∧ q ∈ P ((cells i).dof k) := by
    intro i k d q hext
    obtain ⟨f, hf, g, hg, e1, e2, e3, row, e4, e5⟩ := hb.periodic i k d q hext
    obtain ⟨-, m1, m2, -⟩ := mate_spec h hf
    have hgm : g = mate per f := List.inj_on_of_nodup_map h.bids hg m1 (e3.trans m2.symm)
    subst hgm
    obtain ⟨c1, c2, -⟩ := dof_spec h hf
    obtain ⟨d1, d2, -⟩ := dof_spec h m1
    rw [e4] at d1; obtain rfl := Option.some.inj d1
    rw [e5] at d2; obtain rfl := Option.some.inj d2
    have hr : rowN cf f = List.ofFn (cells i).dof := by
      rw [e1, hb.rows i] at c1; exact (Option.some.inj c1).symm
    have hd : dofN cf f = (cells i).dof k := by
      rw [hr, e2] at c2; simpa using c2.symm
    refine ⟨f, hf, e1, e2, hd, rfl, ?_⟩
    rw [← hd]
    exact hper f hf _ m1 m2 _ _ _ _ (dof_spec h hf).1 (dof_spec h hf).2.1 e4 e5
  -- a replaced face comes from a coupling
  have hrepl : ∀ (i : Fin nc) (k : Fin (cells i).nf) (d : K) (q : Nat), (cells i).ext k = .periodic d q → q < (cells i).dof k →
      ∀ a, ((cells i).dof a ∈ P q ∨ ∃ d' q', (cells i).ext a = .periodic d' q' ∧ q' < (cells i).dof a) ∧
        (∀ d' q', (cells i).ext a = .periodic d' q' → q' < (cells i).dof a → q' ∈ P q) := by
    intro i k d q hext hq a
    obtain ⟨f, hf, e1, e2, hd, hm, -⟩ := hface i k d q hext
    obtain ⟨-, m1, m2, -⟩ := mate_spec h hf
    have he : coup cf per (mate per f) ∈ coupList cf per := by
      refine List.mem_filter.mpr ⟨List.mem_map.mpr ⟨_, m1, rfl⟩, decide_eq_true ?_⟩
      simp only [coup, mate_mate h hf]
      rw [hd, hm]; exact hq
    have hed1 : (coup cf per (mate per f)).d1 = q := hm
    have herow : (coup cf per (mate per f)).row = List.ofFn (cells i).dof := by
      simp only [coup, mate_mate h hf]
      unfold rowN
      rw [e1, hb.rows i]; rfl
    have hpos : ∀ m, (replaced pp (coup cf per (mate per f)) ((cells i).dof a)).getD ((cells i).dof a) = m → m ∈ P q := by
      intro m hm'
      refine (hP _ _).mpr (List.mem_append_right _ (List.mem_flatMap.mpr ⟨_, he, List.mem_flatMap.mpr ⟨_, by rw [herow]; exact hmem i a, ?_⟩⟩))
      rw [← hm', hed1]
      exact List.mem_cons_self ..
    have hppa : ∀ d' q', (cells i).ext a = .periodic d' q' → pp ((cells i).dof a) = some q' := by
      intro d' q' hx
      obtain ⟨f', hf', -, -, hd', hm', -⟩ := hface i a d' q' hx
      exact (hpp _ _).mpr ⟨f', hf', hd', hm'⟩
    constructor
    · cases hr : replaced pp (coup cf per (mate per f)) ((cells i).dof a) with
      | none => left; exact hpos _ (by rw [hr]; rfl)
      | some p =>
        right
        obtain ⟨r1, r2, r3⟩ := replaced_some h hr
        obtain ⟨x, hx, x1, x2⟩ := (hpp _ _).mp r1
        obtain ⟨i', k', d', q', c1, c2, c3⟩ := hb.complete x hx
        obtain ⟨z1, z2, -⟩ := dof_spec h hx
        obtain ⟨h1, h2⟩ := h.once x hx _ _ _ _ a.val z1 z2 (hb.rows i) (by rw [x1]; simp)
        have hi : i = i' := Fin.ext (h1.trans c1)
        subst hi
        obtain rfl : a = k' := Fin.ext (h2.trans c2)
        have hx'' := c3
        have := hppa _ _ hx''
        rw [r1] at this
        exact ⟨_, _, hx'', by rw [← Option.some.inj this]; exact r3⟩
    · intro d' q' hx hq'
      by_cases hqq : q' = q
      · subst hqq
        -- the diagonal
        obtain ⟨-, -, -, -, ⟨row, g5, g5'⟩, -⟩ := coup_facts h hpp he
        rw [hed1] at g5'
        exact hgrid _ g5 _ g5' _ g5'
      · apply hpos
        have : replaced pp (coup cf per (mate per f)) ((cells i).dof a) = some q' := by
          unfold replaced
          rw [hppa d' q' hx, Option.filter_some, if_pos (by rw [hed1]; exact decide_eq_true ⟨hqq, hq'⟩)]
        rw [this]; rfl
  -- numbers of periodic partners
  have hq : ∀ (i : Fin nc) (k : Fin (cells i).nf) (d : K) (q : Nat), (cells i).ext k = .periodic d q → q < n ∧ (cells i).dof k ≠ q := by
    intro i k d q hext
    obtain ⟨f, hf, -, -, hd, hm, hin⟩ := hface i k d q hext
    refine ⟨(hlt _ _ hin).2, fun hh => ?_⟩
    obtain ⟨-, m1, -, -, m4⟩ := mate_spec h hf
    exact m4 (dof_inj h hf m1 (hd.trans (hh.trans hm.symm))).symm
  let rep : ∀ (i : Fin nc), Fin (cells i).nf → Nat := fun i k => match (cells i).ext k with
    | .periodic _ q => min ((cells i).dof k) q
    | _ => (cells i).dof k
  have hrep1 : ∀ i k d q, (cells i).ext k = .periodic d q → q < (cells i).dof k → rep i k = q := by
    intro i k d q hx hlt
    simp only [rep, hx]
    exact min_eq_right hlt.le
  have hrep2 : ∀ i k, (¬ ∃ d q, (cells i).ext k = .periodic d q ∧ q < (cells i).dof k) → rep i k = (cells i).dof k := by
    intro i k hx
    simp only [rep]
    split
    · rename_i d q hd
      exact min_eq_left (by by_contra hh; exact hx ⟨d, q, hd, by omega⟩)
    · rfl
  have hW : ∀ (i : Fin nc) (r k : Fin (cells i).nf), rep i k ∈ P (rep i r) := by
    intro i r k
    by_cases hr : ∃ d q, (cells i).ext r = .periodic d q ∧ q < (cells i).dof r
    · obtain ⟨d, q, h1, h2⟩ := hr
      rw [hrep1 i r d q h1 h2]
      obtain ⟨t1, t2⟩ := hrepl i r d q h1 h2 k
      by_cases hk : ∃ d q, (cells i).ext k = .periodic d q ∧ q < (cells i).dof k
      · obtain ⟨d', q', h3, h4⟩ := hk
        rw [hrep1 i k d' q' h3 h4]
        exact t2 d' q' h3 h4
      · rw [hrep2 i k hk]
        exact t1.resolve_right hk
    · rw [hrep2 i r hr]
      by_cases hk : ∃ d q, (cells i).ext k = .periodic d q ∧ q < (cells i).dof k
      · obtain ⟨d', q', h3, h4⟩ := hk
        rw [hrep1 i k d' q' h3 h4]
        exact hsymm _ _ ((hrepl i k d' q' h3 h4 r).1.resolve_right hr)
      · rw [hrep2 i k hk]
        exact hsame i r k
  have hrepn : ∀ i r, rep i r < n := fun i r => (hlt _ _ (hW i r r)).1
  have hadd : ∀ (s : Sys K) (a b : Nat) (x : K), b ∈ P a → Pattern.add P s a b x = some (s.add a b x) := fun s a b x hx => if_pos hx
  have hrhs : ∀ (s : Sys K) (a : Nat) (x : K), a < n → Pattern.addRhs n s a x = some (s.addRhs a x) := fun s a x hx => if_pos hx
  have hcol : ∀ (i : Fin nc) (r k : Fin (cells i).nf) (s : Sys K),
      Pattern.addColumn n P (cells i) r (rep i r) s k = some (Hybrid.addColumn (cells i) r (rep i r) s k) := by
    intro i r k s
    unfold Pattern.addColumn Hybrid.addColumn
    have hw := hW i r k
    cases hx : (cells i).ext k with
    | dirichlet p => exact hrhs _ _ _ (hrepn i r)
    | periodic d q =>
      dsimp only
      rw [if_pos (hq i k d q hx)]
      by_cases hlt' : q < (cells i).dof k
      · rw [if_pos hlt', if_pos hlt', hrhs _ _ _ (hrepn i r)]
        rw [hrep1 i k d q hx hlt'] at hw
        exact hadd _ _ _ _ hw
      · rw [if_neg hlt', if_neg hlt']
        rw [hrep2 i k (by rintro ⟨d', q', h3, h4⟩; rw [hx] at h3; cases h3; exact hlt' h4)] at hw
        exact hadd _ _ _ _ hw
    | neumann q =>
      rw [hrep2 i k (by rintro ⟨d', q', h3, h4⟩; rw [hx] at h3; cases h3)] at hw
      exact hadd _ _ _ _ hw
    | interior =>
      rw [hrep2 i k (by rintro ⟨d', q', h3, h4⟩; rw [hx] at h3; cases h3)] at hw
      exact hadd _ _ _ _ hw
  have haddRow : ∀ (i : Fin nc) (r : Fin (cells i).nf) (s : Sys K),
      Pattern.addRow n P (cells i) r (rep i r) s = some (Hybrid.addRow (cells i) r (rep i r) s) := by
    intro i r s
    unfold Pattern.addRow Hybrid.addRow
    rw [foldlM_total _ _ (Hybrid.addColumn (cells i) r (rep i r)) fun s k _ => hcol i r k s]
    exact hrhs _ _ _ (hrepn i r)
  have hstep : ∀ (i : Fin nc) (r : Fin (cells i).nf) (s : Sys K), Pattern.faceStep n P (cells i) s r = some (Hybrid.faceStep (cells i) s r) := by
    intro i r s
    have hrow := haddRow i r
    unfold Pattern.faceStep Hybrid.faceStep
    cases hx : (cells i).ext r with
    | dirichlet p => exact if_pos ⟨hsame i r r, hdof i r⟩
    | periodic d q =>
      dsimp only
      rw [if_pos (hq i r d q hx)]
      have hre : rep i r = min ((cells i).dof r) q := by simp only [rep, hx]
      obtain ⟨f, hf, -, -, hd, hm, hin⟩ := hface i r d q hx
      have hqq : q ∈ P q := by
        obtain ⟨-, m1, -⟩ := mate_spec h hf
        obtain ⟨z1, z2, -⟩ := dof_spec h m1
        rw [hm] at z2
        exact hgrid _ (List.mem_of_getElem? z1) _ (List.mem_of_getElem? z2) _ (List.mem_of_getElem? z2)
      have hap : Pattern.addPeriodic n P s ((cells i).dof r) q ((cells i).S r r) ((cells i).S r r * d) =
          some (Hybrid.addPeriodic s ((cells i).dof r) q ((cells i).S r r) ((cells i).S r r * d)) := by
        unfold Pattern.addPeriodic Hybrid.addPeriodic
        rw [hadd _ _ _ _ (hsame i r r), Option.bind_some, hadd _ _ _ _ hin, Option.bind_some, hrhs _ _ _ (hdof i r), Option.bind_some,
          hadd _ _ _ _ (hsymm _ _ hin), Option.bind_some, hadd _ _ _ _ hqq, Option.bind_some, hrhs _ _ _ (hq i r d q hx).1]
      rw [hap, Option.bind_some, ← hre]
      exact hrow _
    | neumann q =>
      have hre : rep i r = (cells i).dof r := by simp only [rep, hx]
      rw [hre] at hrow
      exact hrow _
    | interior =>
      have hre : rep i r = (cells i).dof r := by simp only [rep, hx]
      rw [hre] at hrow
      exact hrow _
  unfold Pattern.assemble Hybrid.assemble
  exact foldlM_total _ _ (fun s i => (List.finRange (cells i).nf).foldl (Hybrid.faceStep (cells i)) s)
    (fun s i _ => foldlM_total _ _ (Hybrid.faceStep (cells i)) (fun s r _ => hstep i r s) s) _

/-- C103: the numbering of C39 provides all that is needed: on a sane grid whose cells have the number of faces that the tables assume, with
periodic conditions on boundary faces only, unique identifiers and mutual partners. -/
theorem C103_numbering {g : Grid} (hs : Sane g) (hc : CountsAgree g) {per : List PFace} (hbids : (per.map PFace.bid).Nodup)
    (hback : ∀ f ∈ per, ∃ f' ∈ per, f'.bid = f.partner ∧ f'.partner = f.bid ∧ f'.bid ≠ f.bid)
    (hplaces : (per.map fun f => (f.cell, f.loc)).Nodup)
    (hbd : ∀ f ∈ per, ∃ c, g.order[f.cell]? = some c ∧ (g.nbrs c)[f.loc]? = some none) :
    ∃ N, enumerate g = some N ∧ Good N.total N.rows per := by
  obtain ⟨N, h0, h1, -, h3, hcell, h4⟩ := enumerate_spec hs hc
  obtain ⟨N', h0', g1, g2, -, g4⟩ := C39_faces_partial hs hc
  obtain rfl : N = N' := Option.some.inj (h0.symm.trans h0')
  -- an entry of the table is the number of a face
  have hent : ∀ (k : Nat) (row : List Nat) (i d : Nat), N.rows[k]? = some row → row[i]? = some d →
      ∃ c nb, g.order[k]? = some c ∧ IsFace g c i nb ∧ N.at? c i = some d := by
    intro k row i d hr hd
    obtain ⟨hk, -⟩ := List.getElem?_eq_some_iff.mp hr
    rw [h3] at hk
    have hgo := List.getElem?_eq_getElem hk
    obtain ⟨row', e1, e2, -⟩ := h4 _ _ hgo
    rw [hr] at e1; obtain rfl := Option.some.inj e1
    obtain ⟨hi, -⟩ := List.getElem?_eq_some_iff.mp hd
    rw [e2] at hi
    refine ⟨_, _, hgo, ⟨List.mem_of_getElem? hgo, List.getElem?_eq_getElem hi⟩, ?_⟩
    unfold Numbers.at?
    rw [g1 _ _ hgo]
    change (N.rows[k]?).bind _ = _
    rw [hr]
    exact hd
  refine ⟨N, h0, ?_, hbids, hback, ?_, ?_, hplaces⟩
  · intro row hrow f hf
    obtain ⟨k, hk⟩ := List.mem_iff_getElem?.mp hrow
    obtain ⟨i, hi⟩ := List.mem_iff_getElem?.mp hf
    obtain ⟨c, nb, -, e2, e3⟩ := hent k row i f hk hi
    obtain ⟨v, e4, e5⟩ := g2 c i nb e2
    rw [e3] at e4; obtain rfl := Option.some.inj e4
    exact e5
  · intro f hf
    obtain ⟨c, e1, e2⟩ := hbd f hf
    obtain ⟨row, e3, e4, -⟩ := h4 _ _ e1
    obtain ⟨hi, -⟩ := List.getElem?_eq_some_iff.mp e2
    rw [← e4] at hi
    exact ⟨row, row[f.loc], e3, List.getElem?_eq_getElem hi⟩
  · intro f hf d row row' c k e1 e2 e3 e4
    obtain ⟨a, a1, a2⟩ := hbd f hf
    obtain ⟨b, nb, b1, b2, b3⟩ := hent _ _ _ _ e1 e2
    rw [a1] at b1; obtain rfl := Option.some.inj b1
    have hnb : nb = none := by
      have := b2.2; rw [a2] at this; exact (Option.some.inj this).symm
    subst hnb
    obtain ⟨b', nb', c1, c2, c3⟩ := hent _ _ _ _ e3 e4
    rcases (g4 _ _ _ _ _ _ b2 c2).mp (b3.trans c3.symm) with ⟨rfl, rfl⟩ | ⟨hh, -⟩
    · refine ⟨?_, rfl⟩
      have := (g1 _ _ a1).symm.trans (g1 _ _ c1)
      exact (Option.some.inj this).symm
    · cases hh

/-- Two cells side by side, periodic in both directions. -/
def pair : Grid where
  order := [0, 1]
  nbrs c := match c with
    | 0 => [none, some 1, none, none]
    | _ => [some 0, none, none, none]

def pairPer : List PFace := [⟨1, 2, 0, 0⟩, ⟨3, 4, 0, 2⟩, ⟨4, 3, 0, 3⟩, ⟨2, 1, 1, 1⟩, ⟨5, 6, 1, 2⟩, ⟨6, 5, 1, 3⟩]

theorem pair_good : Good 7 [[1, 0, 2, 3], [0, 4, 5, 6]] pairPer := by
  have hs : Sane pair := by
    refine ⟨by decide, by decide, ?_, ?_, ?_, ?_⟩
    all_goals
      intro c hc
      simp only [pair, List.mem_cons, List.not_mem_nil, or_false] at hc
    · rcases hc with rfl | rfl <;> simp [pair]
    · rcases hc with rfl | rfl <;> simp [pair]
    · rcases hc with rfl | rfl <;> simp [pair]
    · intro i j d h1 h2
      rcases hc with rfl | rfl
      all_goals
        obtain ⟨hi, e1⟩ := List.getElem?_eq_some_iff.mp h1
        obtain ⟨hj, e2⟩ := List.getElem?_eq_some_iff.mp h2
        have hi' : i < 4 := hi
        have hj' : j < 4 := hj
        interval_cases i <;> interval_cases j <;> simp [pair] at e1 e2 ⊢
  have hc : CountsAgree pair := by
    intro k c h
    obtain ⟨hk, hc⟩ := List.getElem?_eq_some_iff.mp h
    have : k < 2 := hk
    interval_cases k <;> simp [pair] at hc <;> subst hc <;> rfl
  obtain ⟨N, h1, h2⟩ := C103_numbering hs hc (per := pairPer) (by decide)
    (by intro f hf
        simp only [pairPer, List.mem_cons, List.not_mem_nil, or_false] at hf
        rcases hf with rfl | rfl | rfl | rfl | rfl | rfl <;> simp [pairPer]) (by decide)
    (by intro f hf
        simp only [pairPer, List.mem_cons, List.not_mem_nil, or_false] at hf
        rcases hf with rfl | rfl | rfl | rfl | rfl | rfl <;> simp [pair])
  have e : (enumerate pair).map (fun n => (n.rows, n.total)) = some ([[1, 0, 2, 3], [0, 4, 5, 6]], 7) := by decide +kernel
  rw [h1] at e
  have e' := Option.some.inj e
  rw [← (Prod.mk.inj e').1, ← (Prod.mk.inj e').2]
  exact h2

/-- The structure on these two cells. -/
example : (structureOf 7 [[1, 0, 2, 3], [0, 4, 5, 6]] pairPer).map (fun P => (List.range 7).map fun i => (P i).insertionSort (· ≤ ·)) =
    some [[0, 1, 2, 3, 4, 5, 6], [0, 1, 2, 3, 4, 5, 6], [0, 1, 2, 3], [0, 1, 2, 3], [0, 1, 4, 5, 6], [0, 1, 4, 5, 6], [0, 1, 4, 5, 6]] := by
  decide +kernel

/-- Cells on them. -/
def pairCells : Fin 2 → Cell ℚ
  | 0 => ⟨4, ![1, 0, 2, 3], fun i j => if i = j then 1 else 0, fun _ => 0, 0, ![.periodic 1 4, .interior, .periodic 0 3, .periodic 0 2]⟩
  | 1 => ⟨4, ![0, 4, 5, 6], fun i j => if i = j then 2 else 0, fun _ => 0, 0, ![.interior, .periodic (-1) 1, .periodic 0 6, .periodic 0 5]⟩

example : Belongs pairCells [[1, 0, 2, 3], [0, 4, 5, 6]] pairPer := by
  refine ⟨rfl, ?_, ?_, ?_⟩
  · intro i
    fin_cases i <;> rfl
  · intro i k d q h
    fin_cases i
    · fin_cases k
      all_goals first
        | (simp only [pairCells] at h; cases h; done)
        | (cases h
           simp [pairPer])
    · fin_cases k
      all_goals first
        | (simp only [pairCells] at h; cases h; done)
        | (cases h
           simp [pairPer])
  · intro f hf
    simp only [pairPer, List.mem_cons, List.not_mem_nil, or_false] at hf
    rcases hf with rfl | rfl | rfl | rfl | rfl | rfl
    · exact ⟨0, ⟨0, by decide⟩, _, _, rfl, rfl, rfl⟩
    · exact ⟨0, ⟨2, by decide⟩, _, _, rfl, rfl, rfl⟩
    · exact ⟨0, ⟨3, by decide⟩, _, _, rfl, rfl, rfl⟩
    · exact ⟨1, ⟨1, by decide⟩, _, _, rfl, rfl, rfl⟩
    · exact ⟨1, ⟨2, by decide⟩, _, _, rfl, rfl, rfl⟩
    · exact ⟨1, ⟨3, by decide⟩, _, _, rfl, rfl, rfl⟩

end Verif.Pattern
