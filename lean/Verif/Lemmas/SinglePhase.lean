import Verif.Spec.SinglePhase
import Verif.Spec.PostProcess
import Verif.Lemmas.Energy
import Verif.Props.Numbering
import Verif.Props.Hybrid
import Verif.Props.HybridDefinite
import Verif.Props.PostProcess
import Verif.Props.Mimetic

/-! Numbering of the faces of a grid, and the flow solution for given kinds of boundary faces. -/

namespace Verif.SinglePhase

variable {K : Type} [Field K] [LinearOrder K]

theorem mem_halves (G : Grid K) (p : Half G) : p ∈ G.halves := by
  unfold Grid.halves
  rw [List.mem_flatMap]
  exact ⟨p.1, List.mem_finRange _, List.mem_map.mpr ⟨p.2, List.mem_finRange _, rfl⟩⟩

theorem nodup_halves (G : Grid K) : G.halves.Nodup := by
  unfold Grid.halves
  rw [List.nodup_flatMap]
  refine ⟨fun c _ => (List.nodup_finRange _).map ?_, (List.nodup_finRange _).imp ?_⟩
  · intro i j h; simpa using h
  · intro a b hab
    intro p hp hp'
    obtain ⟨i, _, rfl⟩ := List.mem_map.mp hp
    obtain ⟨j, _, h⟩ := List.mem_map.mp hp'
    exact hab (congrArg Sigma.fst h).symm

theorem halves_idx (G : Grid K) (p : Half G) : G.halves[G.halves.idxOf p]? = some p := by
  rw [List.getElem?_eq_getElem (List.idxOf_lt_length_of_mem (mem_halves G p))]
  simp

/-! ### Numbering -/

theorem topology_get (G : Grid K) (c i : Nat) (nb : Option Nat) : Numbering.IsFace G.topology c i nb ↔
    ∃ (h : c < G.nc) (h' : i < (G.cell ⟨c, h⟩).nf), ((G.cell ⟨c, h⟩).face ⟨i, h'⟩).nbr = nb := by
  unfold Numbering.IsFace Grid.topology
  simp only [List.mem_range]
  constructor
  · rintro ⟨h, h2⟩
    rw [dif_pos h, List.getElem?_ofFn] at h2
    split at h2
    · rename_i h3; exact ⟨h, h3, by simpa using h2⟩
    · cases h2
  · rintro ⟨h, h', rfl⟩
    refine ⟨h, ?_⟩
    rw [dif_pos h, List.getElem?_ofFn, dif_pos h']

theorem isFace (G : Grid K) (p : Half G) : Numbering.IsFace G.topology p.1.val p.2.val (G.face p).nbr :=
  (topology_get G _ _ _).mpr ⟨p.1.2, p.2.2, rfl⟩

theorem mem_nbrs (G : Grid K) (c : Nat) (d : Nat) : some d ∈ G.topology.nbrs c ↔
    ∃ p : Half G, p.1.val = c ∧ (G.face p).nbr = some d := by
  unfold Grid.topology
  simp only
  by_cases h : c < G.nc
  · rw [dif_pos h, List.mem_ofFn']
    constructor
    · rintro ⟨i, hi⟩; exact ⟨⟨⟨c, h⟩, i⟩, rfl, hi⟩
    · rintro ⟨p, rfl, hp⟩; exact ⟨p.2, hp⟩
  · rw [dif_neg h]
    constructor
    · intro h; cases h
    · rintro ⟨p, rfl, _⟩; exact absurd p.1.2 h

theorem sane {G : Grid K} (ht : Tiling G) : Numbering.Sane G.topology where
  nodup := List.nodup_range
  lt c hc := by
    have : c ∈ List.range G.nc := hc
    change c < (List.range G.nc).length
    rw [List.length_range]; exact List.mem_range.mp this
  nbr_mem c _ d hd := by
    obtain ⟨p, _, hp⟩ := (mem_nbrs G c d).mp hd
    obtain ⟨q, rfl, _⟩ := ht.mate p d hp
    exact List.mem_range.mpr q.1.2
  nbr_ne c _ h := by
    obtain ⟨p, hc, hp⟩ := (mem_nbrs G c c).mp h
    obtain ⟨q, hq, hne, _⟩ := ht.mate p c hp
    exact hne (Fin.ext (hq.trans hc.symm))
  nbr_symm c _ d hd := by
    obtain ⟨p, rfl, hp⟩ := (mem_nbrs G c d).mp hd
    obtain ⟨q, hq, _, hn, _⟩ := ht.mate p d hp
    exact (mem_nbrs G d _).mpr ⟨q, hq, hn⟩
  nbr_once c hc i j d hi hj := by
    obtain ⟨h, h1, e1⟩ := (topology_get G c i (some d)).mp ⟨hc, hi⟩
    obtain ⟨_, h2, e2⟩ := (topology_get G c j (some d)).mp ⟨hc, hj⟩
    exact congrArg Fin.val (ht.once ⟨c, h⟩ ⟨i, h1⟩ ⟨j, h2⟩ d e1 e2)

theorem counts (G : Grid K) : Numbering.CountsAgree G.topology := by
  intro k c h
  have h : (List.range G.nc)[k]? = some c := h
  have : k = c := by
    rw [List.getElem?_range (by
      have := (List.getElem?_eq_some_iff.mp h).1
      rwa [List.length_range] at this)] at h
    exact Option.some.inj h
  rw [this]

/-- Two half faces are the two sides of the same interior face. -/
def Twin (G : Grid K) (p q : Half G) : Prop := (G.face p).nbr = some q.1.val ∧ (G.face q).nbr = some p.1.val

theorem twin_unique {G : Grid K} (ht : Tiling G) {p q q' : Half G} (h : Twin G p q) (h' : Twin G p q') : q = q' := by
  obtain ⟨c, i⟩ := q
  obtain ⟨c', i'⟩ := q'
  have : c = c' := Fin.ext (Option.some.inj (h.1.symm.trans h'.1))
  subst this
  rw [ht.once c i i' _ h.2 h'.2]

theorem twin_ne {G : Grid K} (ht : Tiling G) {p q : Half G} (h : Twin G p q) : q.1 ≠ p.1 := by
  obtain ⟨q', hq, hne, hn, _⟩ := ht.mate p _ h.1
  have : q = q' := twin_unique ht h ⟨by rw [h.1, hq], hn⟩
  rw [this]; exact hne

/-- Face numbers. -/
structure Nums (G : Grid K) (n : Numbering.Numbers) (dof : Half G → Nat) : Prop where
  at_ : ∀ p : Half G, n.at? p.1.val p.2.val = some (dof p)
  lt : ∀ p, dof p < n.total
  surj : ∀ v < n.total, ∃ p, dof p = v
  eq_iff : ∀ p q, dof p = dof q ↔ p = q ∨ Twin G p q

theorem numbering {G : Grid K} (ht : Tiling G) : ∃ n dof, Numbering.enumerate G.topology = some n ∧ Nums G n dof := by
  obtain ⟨n, h0, _, h1, h2, h3⟩ := Numbering.C39_faces_partial (sane ht) (counts G)
  choose f hf hlt using fun p : Half G => h1 _ _ _ (isFace G p)
  refine ⟨n, f, h0, hf, hlt, ?_, ?_⟩
  · intro v hv
    obtain ⟨c, i, nb, hc, he⟩ := h2 v hv
    obtain ⟨h, h', _⟩ := (topology_get G c i nb).mp hc
    refine ⟨⟨⟨c, h⟩, ⟨i, h'⟩⟩, ?_⟩
    have := hf ⟨⟨c, h⟩, ⟨i, h'⟩⟩
    rw [he] at this
    exact (Option.some.inj this).symm
  · intro p q
    have := h3 _ _ _ _ _ _ (isFace G p) (isFace G q)
    rw [hf p, hf q, Option.some.injEq] at this
    rw [this]
    unfold Numbering.SameFace Twin
    constructor
    · rintro (⟨h, h'⟩ | h)
      · left
        obtain ⟨c, i⟩ := p
        obtain ⟨c', i'⟩ := q
        have : c = c' := Fin.ext h
        subst this
        rw [show i = i' from Fin.ext h']
      · exact Or.inr h
    · rintro (rfl | h)
      · exact Or.inl ⟨rfl, rfl⟩
      · exact Or.inr h

theorem total_some {G : Grid K} {α : Type} (f : Half G → Option α) (g : Half G → α) (h : ∀ p, f p = some (g p)) :
    total f = some g := by
  unfold total
  rw [dif_pos fun p => by rw [h p]; rfl]
  congr 1
  funext p
  simp [h p]

/-! ### The other side of an interior face -/

open Classical in
/-- The other side of an interior face; a boundary face itself. -/
noncomputable def twin (G : Grid K) (p : Half G) : Half G := if h : ∃ q, Twin G p q then h.choose else p

theorem twin_spec {G : Grid K} (ht : Tiling G) (p : Half G) (h : (G.face p).nbr ≠ none) :
    Twin G p (twin G p) ∧ twin G p ≠ p ∧ (G.face (twin G p)).area = (G.face p).area ∧
      (G.face (twin G p)).centroid = (G.face p).centroid ∧
      ∀ d, (G.face (twin G p)).normal d = -(G.face p).normal d := by
  obtain ⟨d, hd⟩ := Option.ne_none_iff_exists'.mp h
  obtain ⟨q, hq, hne, hn, ha, hc, hno⟩ := ht.mate p d hd
  have htw : Twin G p q := ⟨by rw [hd, hq], hn⟩
  have hex : ∃ q, Twin G p q := ⟨q, htw⟩
  have e : twin G p = q := by
    unfold twin
    rw [dif_pos hex]
    exact twin_unique ht hex.choose_spec htw
  rw [e]
  exact ⟨htw, fun h => hne (congrArg Sigma.fst h), ha, hc, hno⟩

theorem twin_none (G : Grid K) (p : Half G) (h : (G.face p).nbr = none) : twin G p = p := by
  unfold twin
  rw [dif_neg]
  rintro ⟨q, hq, _⟩
  rw [h] at hq; cases hq

theorem twin_nbr {G : Grid K} (ht : Tiling G) (p : Half G) (h : (G.face p).nbr ≠ none) : (G.face (twin G p)).nbr ≠ none := by
  rw [(twin_spec ht p h).1.2]; simp

theorem twin_twin {G : Grid K} (ht : Tiling G) (p : Half G) : twin G (twin G p) = p := by
  by_cases h : (G.face p).nbr = none
  · rw [twin_none G p h, twin_none G p h]
  · have h1 := (twin_spec ht p h).1
    exact twin_unique ht (twin_spec ht _ (twin_nbr ht p h)).1 ⟨h1.2, h1.1⟩

theorem twin_iff {G : Grid K} (ht : Tiling G) (p q : Half G) : Twin G p q ↔ (G.face p).nbr ≠ none ∧ q = twin G p := by
  constructor
  · intro h
    have hn : (G.face p).nbr ≠ none := by rw [h.1]; simp
    exact ⟨hn, twin_unique ht h (twin_spec ht p hn).1⟩
  · rintro ⟨hn, rfl⟩
    exact (twin_spec ht p hn).1

theorem twin_ne_iff {G : Grid K} (ht : Tiling G) (p : Half G) : twin G p ≠ p ↔ (G.face p).nbr ≠ none := by
  refine ⟨fun h hn => h (twin_none G p hn), fun h => (twin_spec ht p h).2.1⟩

/-! ### The flow solution -/

/-- The kinds of faces of one flow problem: interior faces; on the boundary prescribed pressures, no flow, or periodic pairs
with opposite jumps. `mate` is the face on the other side, over the interior or over a periodic boundary. -/
structure Setting (G : Grid K) (dof : Half G → Nat) (ext : Half G → Hybrid.Ext K) (mate : Half G → Half G) : Prop where
  interior : ∀ p, (G.face p).nbr ≠ none → ext p = .interior ∧ mate p = twin G p
  boundary : ∀ p, (G.face p).nbr = none → (∃ v, ext p = .dirichlet v ∧ mate p = p) ∨ (ext p = .neumann 0 ∧ mate p = p) ∨
    ∃ v, ext p = .periodic v (dof (mate p)) ∧ ext (mate p) = .periodic (-v) (dof p) ∧ mate p ≠ p ∧
      (G.face (mate p)).nbr = none ∧ mate (mate p) = p

namespace Setting

variable {G : Grid K} {dof : Half G → Nat} {ext : Half G → Hybrid.Ext K} {mate : Half G → Half G}

theorem invol (hs : Setting G dof ext mate) (ht : Tiling G) (p : Half G) : mate (mate p) = p := by
  by_cases hp : (G.face p).nbr = none
  · rcases hs.boundary p hp with ⟨_, _, h⟩ | ⟨_, h⟩ | ⟨_, _, _, _, _, h⟩
    · rw [h, h]
    · rw [h, h]
    · exact h
  · rw [(hs.interior p hp).2, (hs.interior _ (twin_nbr ht p hp)).2, twin_twin ht]

end Setting

/-- The inverse inner products. -/
def ipOf (I : Input K) (c : Fin I.G.nc) : Fin (I.G.cell c).nf → Fin (I.G.cell c).nf → K :=
  Mimetic.inverseMatrix (Mimetic.inner (I.G.geo c) (I.Q c) (I.perm c)) (I.mob c)

section
variable [IsStrictOrderedRing K]

theorem closed_geo {G : Grid K} (ht : Tiling G) (c : Fin G.nc) : Mimetic.Closed (G.geo c) := fun d e => ht.closed c d e

theorem ip_symm {I : Input K} (h : Regular I) (c : Fin I.G.nc) : Mimetic.Symm (ipOf I c) :=
  Mimetic.C36_symmetric _ _ _ _ (h.symm c)

theorem ip_posdef {I : Input K} (h : Regular I) (ht : Tiling I.G) (c : Fin I.G.nc) : Mimetic.PosDef (ipOf I c) :=
  Mimetic.C36_posdef _ _ _ _ (h.basis c) (closed_geo ht c) (h.posdef c) (by decide) (ht.volume c)
    (fun i => (ht.area ⟨c, i⟩).ne') (h.mob c)

theorem two_faces {G : Grid K} (ht : Tiling G) (c : Fin G.nc) : 2 ≤ (G.cell c).nf := by
  have hv := ht.volume c
  have h0 := ht.closed c 0 0
  have h1 := ht.surface c 0
  rw [if_pos rfl] at h0
  by_contra hlt
  have h2 : ∀ i, ((G.cell c).face i).area * ((G.cell c).face i).normal 0 = 0 := by
    intro i
    rw [← h1]
    symm
    refine Finset.sum_eq_single i (fun j _ hj => ?_) (by simp)
    exact absurd (Fin.ext (by have := i.2; have := j.2; omega)) hj
  simp only [h2, zero_mul, Finset.sum_const_zero] at h0
  exact absurd h0.symm hv.ne'

theorem elliptic {I : Input K} (h : Regular I) (ht : Tiling I.G) (dof : Half I.G → Nat) (ext : Half I.G → Hybrid.Ext K) :
    Hybrid.Elliptic (cellsOf I dof ext) := fun c => ⟨two_faces ht c, ip_symm h c, ip_posdef h ht c⟩

instance {I : Input K} : Coe (Sound I) (Regular I) := ⟨Sound.toRegular⟩

/-- Gravity part of the flux. -/
def gpart (I : Input K) (p : Half I.G) : K :=
  Mimetic.gravityFlux (I.G.geo p.1) (I.perm p.1) ![0, 0, I.gravity] (I.rho p.1) (I.mob p.1) p.2

/-- Flux over a face for given cell and face pressures. -/
def hflux (I : Input K) (c : Fin I.G.nc → K) (z : Half I.G → K) (p : Half I.G) : K :=
  gpart I p + Energy.fluxOf (ipOf I) (Energy.drop c z) p

theorem hflux_zero {I : Input K} (h : I.gravity = 0) (c : Fin I.G.nc → K) (z : Half I.G → K) :
    hflux I c z = Energy.fluxOf (ipOf I) (Energy.drop c z) := by
  funext p
  have : gpart I p = 0 := by
    unfold gpart Mimetic.gravityFlux Mimetic.gflux
    rw [h]
    simp [Fin.sum_univ_three]
  unfold hflux
  rw [this, zero_add]

variable {I : Input K} {n : Numbering.Numbers} {dof : Half I.G → Nat} {ext : Half I.G → Hybrid.Ext K}
  {mate : Half I.G → Half I.G}

theorem boundary_single (hn : Nums I.G n dof) (p q : Half I.G) (hp : (I.G.face p).nbr = none) (h : dof q = dof p) : q = p := by
  rcases (hn.eq_iff q p).mp h with h | h
  · exact h
  · have := h.2; rw [hp] at this; cases this

theorem consistent (hn : Nums I.G n dof) (hs : Setting I.G dof ext mate) :
    Hybrid.Consistent (cellsOf I dof ext) n.total where
  num_lt p := hn.lt p
  dirichlet p v hv q hq := by
    have hp : (I.G.face p).nbr = none := by
      by_contra hp
      have h1 := (hs.interior p hp).1
      have hv : ext p = .dirichlet v := hv
      rw [h1] at hv; cases hv
    exact boundary_single hn p q hp hq
  periodic p v t hv := by
    have hv : ext p = .periodic v t := hv
    have hp : (I.G.face p).nbr = none := by
      by_contra hp
      rw [(hs.interior p hp).1] at hv; cases hv
    rcases hs.boundary p hp with ⟨w, h, _⟩ | ⟨h, _⟩ | ⟨w, h, h', hne, hn', _⟩
    · rw [h] at hv; cases hv
    · rw [h] at hv; cases hv
    · rw [h] at hv
      injection hv with e1 e2
      subst e1 e2
      exact ⟨fun e => hne (boundary_single hn p _ hp e), fun q hq => boundary_single hn p q hp hq, mate p, rfl, h'⟩

theorem compatible (hs : Setting I.G dof ext mate) : Hybrid.Compatible (cellsOf I dof ext) := by
  right
  have h1 : ∀ p : Hybrid.Pos (cellsOf I dof ext), Hybrid.prescribed (Hybrid.kind (cellsOf I dof ext) p) = 0 := by
    intro p
    change Hybrid.prescribed (ext p) = 0
    by_cases hp : (I.G.face p).nbr = none
    · rcases hs.boundary p hp with ⟨w, h, _⟩ | ⟨h, _⟩ | ⟨w, h, _⟩ <;> rw [h] <;> rfl
    · rw [(hs.interior p hp).1]; rfl
  rw [Finset.sum_congr rfl fun p _ => h1 p]
  simp [cellsOf]

theorem linked (hn : Nums I.G n dof) (ht : Tiling I.G) (p q : Half I.G) :
    Hybrid.Linked (cellsOf I dof ext) p q := by
  have key : ∀ b, Relation.ReflTransGen (fun a b : Fin I.G.nc => ∃ i, ((I.G.cell a).face i).nbr = some b.val) p.1 b →
      ∀ i : Fin (I.G.cell b).nf, Hybrid.Linked (cellsOf I dof ext) p ⟨b, i⟩ := by
    intro b hb
    induction hb with
    | refl =>
      intro i
      exact Hybrid.Linked.cell (cells := cellsOf I dof ext) (i := p.1) (r := p.2) i (Hybrid.Linked.refl _)
    | @tail b d hab hbd ih =>
      intro i
      obtain ⟨j, hj⟩ := hbd
      have hnn : (I.G.face ⟨b, j⟩).nbr ≠ none := by rw [show (I.G.face ⟨b, j⟩).nbr = some d.val from hj]; simp
      have htw := (twin_spec ht ⟨b, j⟩ hnn).1
      have hd : (twin I.G ⟨b, j⟩).1 = d := Fin.ext (Option.some.inj (htw.1.symm.trans hj))
      generalize htwq : twin I.G ⟨b, j⟩ = t at htw hd
      obtain ⟨t1, t2⟩ := t
      simp only at hd
      subst hd
      have h1 : Hybrid.Linked (cellsOf I dof ext) p ⟨t1, t2⟩ :=
        Hybrid.Linked.face (ih j) ((hn.eq_iff _ _).mpr (Or.inr htw))
      exact Hybrid.Linked.cell (cells := cellsOf I dof ext) (i := t1) (r := t2) i h1
  exact key q.1 (ht.connected _ _) q.2

theorem anchored (hn : Nums I.G n dof) (ht : Tiling I.G) (h0 : 0 < n.total) :
    Hybrid.Anchored (cellsOf I dof ext) n.total where
  face d hd := hn.surj d hd
  link p := by
    by_cases h : ∃ q v, Hybrid.kind (cellsOf I dof ext) q = .dirichlet v
    · obtain ⟨q, v, hq⟩ := h
      exact Or.inl ⟨q, v, hq, linked hn ht q p⟩
    · push Not at h
      obtain ⟨q, hq⟩ := hn.surj 0 h0
      exact Or.inr ⟨h, q, hq, linked hn ht q p⟩

/-- The face pressures of the solution. -/
def facePressure (I : Input K) (n : Numbering.Numbers) (dof : Half I.G → Nat) (ext : Half I.G → Hybrid.Ext K) : Nat → K :=
  I.solver (Hybrid.linearSystem (cellsOf I dof ext)) n.total

/-- Cell pressures `c` and face pressures `z` of a flow problem: no cell gains or loses fluid, fluxes over interior and periodic
faces cancel, boundary conditions hold. -/
structure Solution (I : Input K) (dof : Half I.G → Nat) (ext : Half I.G → Hybrid.Ext K) (mate : Half I.G → Half I.G)
    (c : Fin I.G.nc → K) (z : Half I.G → K) : Prop where
  balanced : Energy.Balanced (nf := fun c => (I.G.cell c).nf) (hflux I c z)
  skew : Energy.Skew (nf := fun c => (I.G.cell c).nf) mate (hflux I c z)
  interior : ∀ p, (I.G.face p).nbr ≠ none → z p = z (mate p)
  dirichlet : ∀ p v, ext p = .dirichlet v → z p = v
  neumann : ∀ p v, ext p = .neumann v → hflux I c z p = v
  periodic : ∀ p v t, ext p = .periodic v t → z p - z (mate p) = v

theorem solves (h : Regular I) (ht : Tiling I.G) (hn : Nums I.G n dof) (hs : Setting I.G dof ext mate) (p0 : Half I.G) :
    Hybrid.Solves (Hybrid.linearSystem (cellsOf I dof ext)) n.total (facePressure I n dof ext) := by
  have h0 : 0 < n.total := lt_of_le_of_lt (Nat.zero_le _) (hn.lt p0)
  have h2 : 2 ≤ n.total := by
    by_contra hlt
    have hall : ∀ p, dof p = 0 := fun p => by have := hn.lt p; omega
    have hnf := two_faces ht p0.1
    let a : Half I.G := ⟨p0.1, ⟨0, by omega⟩⟩
    let b : Half I.G := ⟨p0.1, ⟨1, by omega⟩⟩
    rcases (hn.eq_iff a b).mp ((hall a).trans (hall b).symm) with e | e
    · have : (0 : Nat) = 1 := by
        have h1 : a = b := e
        simp only [a, b, Sigma.mk.injEq, heq_eq_eq, Fin.mk.injEq, true_and] at h1
        exact h1
      omega
    · exact twin_ne ht e rfl
  obtain ⟨x, hx, _⟩ := Hybrid.C75_solvable (consistent hn hs) (elliptic h ht dof ext) (anchored hn ht h0) h2
  exact h.solver _ _ ⟨x, hx⟩

theorem flux_eq (x : Nat → K) (p : Half I.G) : (cellsOf I dof ext p.1).flux x p.2 =
    hflux I (fun c => (cellsOf I dof ext c).pressure x) (fun p => x (dof p)) p := by
  unfold Hybrid.Cell.flux hflux gpart Energy.fluxOf Energy.drop
  rfl

theorem solution (h : Regular I) (ht : Tiling I.G) (hn : Nums I.G n dof) (hs : Setting I.G dof ext mate) (p0 : Half I.G) :
    Solution I dof ext mate (fun c => (cellsOf I dof ext c).pressure (facePressure I n dof ext))
      fun p => facePressure I n dof ext (dof p) := by
  have hsol := solves h ht hn hs p0
  have hc := consistent hn hs
  have he := elliptic h ht dof ext
  have hcomp := compatible (I := I) hs
  have hw := fun p => flux_eq (dof := dof) (ext := ext) (facePressure I n dof ext) p
  refine ⟨?_, ?_, ?_, ?_, ?_, ?_⟩
  · intro c
    have hL : ∑ i, ∑ j, ipOf I c i j ≠ 0 := by
      have h1 := ip_posdef h ht c (fun _ => 1) ⟨⟨0, by have := two_faces ht c; omega⟩, one_ne_zero⟩
      unfold Mimetic.quadForm at h1
      simp only [one_mul, mul_one] at h1
      exact h1.ne'
    have := Hybrid.C37_balance (cellsOf I dof ext c) hL (facePressure I n dof ext)
    rw [← show _ = (0 : K) from this]
    exact Finset.sum_congr rfl fun r _ => (hw ⟨c, r⟩).symm
  · intro p hp
    rw [← hw, ← hw]
    by_cases hb : (I.G.face p).nbr = none
    · rcases hs.boundary p hb with ⟨_, _, hm⟩ | ⟨_, hm⟩ | ⟨v, hv, hv', _⟩
      · exact absurd hm hp
      · exact absurd hm hp
      · have := (Hybrid.C38_periodic hc he hcomp _ hsol p (mate p) v hv).2
        change Hybrid.outflux (cellsOf I dof ext) _ (mate p) = -Hybrid.outflux (cellsOf I dof ext) _ p
        rw [this, neg_neg]
    · have hm := (hs.interior p hb).2
      have hb' : (I.G.face (mate p)).nbr ≠ none := by rw [hm]; exact twin_nbr ht p hb
      have := Hybrid.C38_interior hc he hcomp _ hsol p (mate p) hp.symm (hs.interior p hb).1 (hs.interior _ hb').1
        (fun t => by
          refine (hn.eq_iff t p).trans ?_
          constructor
          · rintro (e | e)
            · exact Or.inl e
            · right
              have : Twin I.G p t := ⟨e.2, e.1⟩
              rw [hm]; exact ((twin_iff ht p t).mp this).2
          · rintro (e | e)
            · exact Or.inl e
            · right
              have := (twin_iff ht p t).mpr ⟨hb, by rw [e, hm]⟩
              exact ⟨this.2, this.1⟩)
      change Hybrid.outflux (cellsOf I dof ext) _ (mate p) = -Hybrid.outflux (cellsOf I dof ext) _ p
      rw [this, neg_neg]
  · intro p hb
    have hm := (hs.interior p hb).2
    change facePressure I n dof ext (dof p) = facePressure I n dof ext (dof (mate p))
    rw [hm, (hn.eq_iff p (twin I.G p)).mpr (Or.inr (twin_spec ht p hb).1)]
  · intro p v hv
    exact Hybrid.C38_dirichlet hc he hcomp _ hsol p v hv
  · intro p v hv
    rw [← hw]
    have hb : (I.G.face p).nbr = none := by
      by_contra hb
      rw [(hs.interior p hb).1] at hv; cases hv
    exact Hybrid.C38_neumann hc he hcomp _ hsol p v hv fun t e => boundary_single hn p t hb e
  · intro p v t hv
    have hb : (I.G.face p).nbr = none := by
      by_contra hb
      rw [(hs.interior p hb).1] at hv; cases hv
    rcases hs.boundary p hb with ⟨_, h1, _⟩ | ⟨h1, _⟩ | ⟨w, h1, _⟩
    · rw [h1] at hv; cases hv
    · rw [h1] at hv; cases hv
    · rw [h1] at hv
      injection hv with e1 e2
      subst e1
      exact (Hybrid.C38_periodic hc he hcomp _ hsol p (mate p) w h1).1

/-! ### Post-processing -/

theorem entries_get (f : Half I.G → Hybrid.Entry K) (i : Nat) (e : Hybrid.Entry K) (h : (I.G.halves.map f)[i]? = some e) :
    ∃ p, I.G.halves[i]? = some p ∧ f p = e := by
  rw [List.getElem?_map] at h
  exact Option.map_eq_some_iff.mp h

theorem halves_inj (G : Grid K) (i j : Nat) (p : Half G) (h : G.halves[i]? = some p) (h' : G.halves[j]? = some p) : i = j := by
  obtain ⟨h1, e1⟩ := List.getElem?_eq_some_iff.mp h
  obtain ⟨h2, e2⟩ := List.getElem?_eq_some_iff.mp h'
  exact (List.Nodup.getElem_inj_iff (nodup_halves G)).mp (e1.trans e2.symm)

/-- The table of periodic partners fits the kinds of faces. -/
def Partners (I : Input K) (dof : Half I.G → Nat) (ext : Half I.G → Hybrid.Ext K) (mate : Half I.G → Half I.G)
    (pp : Option (Nat → Option Nat)) : Prop :=
  ∀ p, (I.G.face p).nbr = none → Hybrid.partnerOf pp (dof p) = if mate p = p then none else some (dof (mate p))

theorem flow_ok (h : Regular I) (ht : Tiling I.G) (hn : Nums I.G n dof) (hs : Setting I.G dof ext mate) (p0 : Half I.G)
    (b : Boundary.BCs K) (m : Nat → Option Nat) (pp : Option (Nat → Option Nat)) (hpp : Partners I dof ext mate pp)
    (he : ∀ p, extOf b m (I.G.face p) = some (ext p)) :
    ∃ c z, Solution I dof ext mate c z ∧
      flow I n m pp b = some (I.G.halves.map (hflux I c z)) := by
  have hsol := solution h ht hn hs p0
  refine ⟨_, _, hsol, ?_⟩
  unfold flow
  rw [total_some _ dof hn.at_, Option.bind_some, total_some _ ext he, Option.bind_some]
  simp only
  have hw := fun p => flux_eq (dof := dof) (ext := ext) (facePressure I n dof ext) p
  set W := hflux I (fun c => (cellsOf I dof ext c).pressure (facePressure I n dof ext))
    (fun p => facePressure I n dof ext (dof p)) with hW
  have hes : (I.G.halves.map fun p => (⟨dof p, (I.G.face p).nbr.isNone,
      (cellsOf I dof ext p.1).flux (I.solver (Hybrid.linearSystem (cellsOf I dof ext)) n.total) p.2⟩ : Hybrid.Entry K)) =
      I.G.halves.map fun p => ⟨dof p, (I.G.face p).nbr.isNone, W p⟩ :=
    List.map_congr_left fun p _ => congrArg (Hybrid.Entry.mk (dof p) (I.G.face p).nbr.isNone) (hw p)
  rw [hes]
  have hsingle : ∀ p q : Half I.G, (I.G.face p).nbr = none → dof q = dof p → q = p := fun p q hp e => boundary_single hn p q hp e
  have hpair : Hybrid.Paired pp (I.G.halves.map fun p => (⟨dof p, (I.G.face p).nbr.isNone, W p⟩ : Hybrid.Entry K)) := by
    constructor
    · intro i e hi hb
      obtain ⟨p, hp, rfl⟩ := entries_get _ i e hi
      have hp' : (I.G.face p).nbr ≠ none := fun e => by simp [e] at hb
      have htw := (twin_spec ht p hp').1
      refine ⟨I.G.halves.idxOf (twin I.G p), ⟨dof (twin I.G p), (I.G.face (twin I.G p)).nbr.isNone, W (twin I.G p)⟩, ?_, ?_, ?_, ?_, ?_⟩
      · intro e
        have := halves_idx I.G (twin I.G p)
        rw [e, hp] at this
        exact (twin_spec ht p hp').2.1 (Option.some.inj this).symm
      · rw [List.getElem?_map, halves_idx]; rfl
      · have := twin_nbr ht p hp'
        simpa [Option.isSome_iff_ne_none] using this
      · exact ((hn.eq_iff p _).mpr (Or.inr htw)).symm
      · intro k e'' hk hf
        obtain ⟨q, hq, rfl⟩ := entries_get _ k e'' hk
        rcases (hn.eq_iff q p).mp hf with e | e
        · left; rw [e] at hq; exact halves_inj I.G k i p hq hp
        · right
          have : q = twin I.G p := ((twin_iff ht p q).mp ⟨e.2, e.1⟩).2
          rw [this] at hq
          exact halves_inj I.G k _ _ hq (halves_idx I.G _)
    · intro i e q hi hb hq
      obtain ⟨p, hp, rfl⟩ := entries_get _ i e hi
      have hp' : (I.G.face p).nbr = none := by simpa using hb
      rw [hpp p hp'] at hq
      by_cases hm : mate p = p
      · rw [if_pos hm] at hq; cases hq
      rw [if_neg hm] at hq
      have hq := (Option.some.inj hq).symm
      subst hq
      rcases hs.boundary p hp' with ⟨_, _, h1⟩ | ⟨_, h1⟩ | ⟨v, _, _, _, hb', hmm⟩
      · exact absurd h1 hm
      · exact absurd h1 hm
      refine ⟨fun e => hm (hsingle p _ hp' e), ?_, I.G.halves.idxOf (mate p),
        ⟨dof (mate p), (I.G.face (mate p)).nbr.isNone, W (mate p)⟩, ?_, rfl, ?_, ?_⟩
      · intro k e'' hk hf
        obtain ⟨q, hq, rfl⟩ := entries_get _ k e'' hk
        have : q = p := hsingle p q hp' hf
        rw [this] at hq
        exact halves_inj I.G k i p hq hp
      · rw [List.getElem?_map, halves_idx]; rfl
      · simpa using hb'
      · rw [hpp _ hb', hmm, if_neg (Ne.symm hm)]
  rw [Hybrid.C38_postprocess_id pp _ hpair]
  · simp only [Option.map_some, Option.some.injEq, List.map_map]
    exact List.map_congr_left fun p _ => rfl
  · intro i j a b' hij hi hj htw
    obtain ⟨p, hp, rfl⟩ := entries_get _ i a hi
    obtain ⟨q, hq, rfl⟩ := entries_get _ j b' hj
    have hpq : p ≠ q := fun e => hij (by rw [e] at hp; exact halves_inj I.G i j q hp hq)
    have hmq : q = mate p := by
      rcases htw with ⟨h1, h2, h3⟩ | ⟨h1, h2, h3, h4⟩
      · have hp' : (I.G.face p).nbr ≠ none := fun e => by simp [e] at h1
        rcases (hn.eq_iff p q).mp h3 with e | e
        · exact absurd e hpq
        · rw [(hs.interior p hp').2]; exact ((twin_iff ht p q).mp e).2
      · have hp' : (I.G.face p).nbr = none := by simpa using h1
        simp only at h3
        rw [hpp p hp'] at h3
        by_cases hm : mate p = p
        · rw [if_pos hm] at h3; cases h3
        rw [if_neg hm] at h3
        rcases hs.boundary p hp' with ⟨_, _, h1⟩ | ⟨_, h1⟩ | ⟨v, _, _, _, hb', _⟩
        · exact absurd h1 hm
        · exact absurd h1 hm
        exact hsingle _ _ hb' (Option.some.inj h3).symm
    have := hsol.skew p (by rw [← hmq]; exact hpq.symm)
    change W p = -W q
    rw [hmq]
    rw [show W (mate p) = -W p from this, neg_neg]

end
end Verif.SinglePhase
